import Verif.Model.OpsTables
import Verif.Proof.OpsMore

/-! The classes with table lookups: the operations depend on the data in the indices of the lookups only. -/

namespace Verif.Proof.OpsTables
open Verif Verif.Ops Model Proof.Work Proof.Ops

/-! ## Operation by operation -/

/-- the same operations, apart from the indices of the lookups -/
def Alike {α : Type} (x x' : Ops α) : Prop := x.ops.map Instr.anywhere = x'.ops.map Instr.anywhere

section
variable {α β : Type} {w n r : Nat}

theorem alike_append {a a' b b' : List Instr} (h : a.map Instr.anywhere = a'.map Instr.anywhere)
    (k : b.map Instr.anywhere = b'.map Instr.anywhere) : (a ++ b).map Instr.anywhere = (a' ++ b').map Instr.anywhere := by
  rw [List.map_append, List.map_append, h, k]

theorem alike_bind {x x' : Ops α} {f f' : α → Ops β} (h : Alike x x') (hf : ∀ a a', Alike (f a) (f' a')) :
    Alike (x >>= f) (x' >>= f') := alike_append h (hf _ _)
theorem alike_two {x x' y y' : Ops (BitVec w)} (h : Alike x x') (k : Alike y y') (i : Instr) :
    (x.ops ++ y.ops ++ [i]).map Instr.anywhere = (x'.ops ++ y'.ops ++ [i]).map Instr.anywhere :=
  alike_append (alike_append h k) rfl
theorem alike_add {x x' y y' : Ops (BitVec w)} (h : Alike x x') (k : Alike y y') : Alike (x + y) (x' + y') := alike_two h k _
theorem alike_sub {x x' y y' : Ops (BitVec w)} (h : Alike x x') (k : Alike y y') : Alike (x - y) (x' - y') := alike_two h k _
theorem alike_mul {x x' y y' : Ops (BitVec w)} (h : Alike x x') (k : Alike y y') : Alike (x * y) (x' * y') := alike_two h k _
theorem alike_xor {x x' y y' : Ops (BitVec w)} (h : Alike x x') (k : Alike y y') : Alike (x ^^^ y) (x' ^^^ y') := alike_two h k _
theorem alike_ror {x x' : Ops (BitVec w)} (h : Alike x x') (s : Nat) : Alike (Ops.ror r x s) (Ops.ror r x' s) := alike_append h rfl
theorem alike_wr {x x' : Ops (BitVec w)} (h : Alike x x') (name : String) (v v' : Vector (BitVec w) n) (i : Nat) (hi : i < n) :
    Alike (wr name v i x hi) (wr name v' i x' hi) := alike_append h rfl
theorem alike_storeList_nil (name : String) (i : Nat) :
    Alike (storeList name i ([] : List (Ops (BitVec w)))) (storeList name i ([] : List (Ops (BitVec w)))) := rfl
theorem alike_storeList_cons {x x' : Ops (BitVec w)} {xs xs' : List (Ops (BitVec w))} {name : String} {i : Nat}
    (h : Alike x x') (k : Alike (storeList name (i + 1) xs) (storeList name (i + 1) xs')) :
    Alike (storeList name i (x :: xs)) (storeList name i (x' :: xs')) := by
  show (x.ops ++ _ ++ (storeList name (i + 1) xs).ops).map _ = (x'.ops ++ _ ++ (storeList name (i + 1) xs').ops).map _
  rw [List.map_append, List.map_append, List.map_append, List.map_append, h, k]
theorem alike_stores {xs xs' : List (Ops (BitVec w))} {name : String} (k : Alike (storeList name 0 xs) (storeList name 0 xs'))
    (h : xs.length = n) (h' : xs'.length = n) : Alike (stores name xs h) (stores name xs' h') := k
theorem alike_not {x x' : Ops (BitVec w)} (h : Alike x x') : Alike (~~~x) (~~~x') := alike_append h rfl
theorem alike_shl {x x' : Ops (BitVec w)} (h : Alike x x') (s : Nat) : Alike (x <<< s) (x' <<< s) := alike_append h rfl
theorem alike_shr {x x' : Ops (BitVec w)} (h : Alike x x') (s : Nat) : Alike (x >>> s) (x' >>> s) := alike_append h rfl
theorem alike_lookup {i i' : Ops Byte} (h : Alike i i') (name : String) (v : Vector (BitVec w) 256) :
    Alike (lookup name v i) (lookup name v i') := alike_append h rfl
theorem alike_fold {g g' : α → β → Ops α} (h : ∀ a a' b, Alike (g a b) (g' a' b)) (l : List β) :
    ∀ a a', Alike (fold g l a) (fold g' l a') := by
  induction l with
  | nil => intro a a'; rfl
  | cons b l ih => intro a a'; exact alike_bind (h a a' b) ih
theorem alike_forRange {lo hi : Nat} {g g' : (t : Nat) → lo ≤ t → t < hi → α → Ops α}
    (h : ∀ t h1 h2 a a', Alike (g t h1 h2 a) (g' t h1 h2 a')) (a a' : α) :
    Alike (Ops.forRange lo hi a g) (Ops.forRange lo hi a' g') := by
  unfold Ops.forRange
  have : ∀ n (hn : n ≤ hi - lo),
      Alike (Nat.fold n (fun i h s => s >>= g (lo + i) (by omega) (by omega)) (⟨a, []⟩ : Ops α))
        (Nat.fold n (fun i h s => s >>= g' (lo + i) (by omega) (by omega)) (⟨a', []⟩ : Ops α)) := by
    intro n
    induction n with
    | zero => intro _; rfl
    | succ n ih =>
      intro hn
      rw [Nat.fold_succ, Nat.fold_succ]
      exact alike_bind (ih (by omega)) (h _ _ _)
  exact this _ (Nat.le_refl _)

theorem alike_byte (m m' : Block n) (i : Nat) (h : i < n) : Alike (byte w m i h) (byte w m' i h) := rfl
theorem alike_rd (name : String) (v v' : Vector (BitVec w) n) (i : Nat) (h : i < n) : Alike (rd name v i h) (rd name v' i h) := rfl
theorem alike_var (x x' : BitVec w) : Alike (var x) (var x') := rfl
theorem alike_pure (x x' : α) : Alike (pure x : Ops α) (pure x' : Ops α) := rfl
theorem alike_loadLE32 (m m' : Block n) (i : Nat) (h : 4 * i + 4 ≤ n) : Alike (Ops.loadLE32 m i h) (Ops.loadLE32 m' i h) := rfl
theorem alike_loadBE64 (m m' : Block n) (i : Nat) (h : 8 * i + 8 ≤ n) : Alike (Ops.loadBE64 m i h) (Ops.loadBE64 m' i h) := rfl
theorem alike_loadLE64 (m m' : Block n) (i : Nat) (h : 8 * i + 8 ≤ n) : Alike (Ops.loadLE64 m i h) (Ops.loadLE64 m' i h) := rfl
end

/-- operation by operation -/
macro "alike_ops" : tactic => `(tactic|
  repeat' first
    | with_reducible exact alike_rd _ _ _ _ _
    | with_reducible exact alike_var _ _
    | with_reducible exact alike_pure _ _
    | with_reducible exact alike_loadLE32 _ _ _ _
    | with_reducible exact alike_loadBE64 _ _ _ _
    | with_reducible exact alike_loadLE64 _ _ _ _
    | with_reducible exact alike_byte _ _ _ _
    | with_reducible refine alike_bind ?_ (fun _ _ => ?_)
    | with_reducible refine alike_wr ?_ _ _ _ _ _
    | with_reducible refine alike_stores ?_ _ _
    | with_reducible exact alike_storeList_nil _ _
    | with_reducible refine alike_storeList_cons ?_ ?_
    | with_reducible refine alike_lookup ?_ _ _
    | with_reducible refine alike_ror ?_ _
    | with_reducible refine alike_add ?_ ?_
    | with_reducible refine alike_sub ?_ ?_
    | with_reducible refine alike_xor ?_ ?_
    | with_reducible refine alike_mul ?_ ?_
    | with_reducible refine alike_not ?_
    | with_reducible refine alike_shl ?_ _
    | with_reducible refine alike_shr ?_ _
    | with_reducible refine alike_fold (fun _ _ _ => ?_) _ _ _
    | with_reducible refine alike_forRange (fun _ _ _ _ _ => ?_) _ _)

/-! ## CRC-32 -/

namespace CRC32
open Model.CRC32

theorem body : SteadyButLookups CRC32.body bodyO where
  value := fun _ _ => rfl
  same := fun s m s' m' => by
    show Alike _ _
    unfold bodyO
    alike_ops

theorem tailByte : SteadyButLookups CRC32.tailByte tailByteO where
  value := fun _ _ => rfl
  same := fun s m s' m' => by
    show Alike _ _
    unfold tailByteO
    alike_ops

theorem tail_nat (data : List Byte) : ∀ (fuel p : Nat) (h : W32 × List Instr),
    tailLoop data fuel p h.1 = (tailLoopO data fuel p h).map Prod.fst := by
  intro fuel
  induction fuel with
  | zero => intro p h; unfold tailLoop tailLoopO; split <;> rfl
  | succ fuel ih =>
    intro p h
    unfold tailLoop tailLoopO
    split
    · cases data[p]? with
      | none => rfl
      | some x => exact ih (p + 1) (logged tailByteO h x)
    · rfl

theorem natural : Natural CRC_32 CRC_32O Prod.fst := by
  refine ⟨rfl, fun _ => rfl, fun o d => ?_, fun _ => rfl⟩
  show CRC32.addData o.1 d = (addDataO o d).map Prod.fst
  unfold CRC32.addData addDataO
  rw [forBlocks_logged body.value, bind_map, map_bind]
  exact Work.bind_congr fun h => tail_nat d _ _ h

/-- the same operations so far -/
def Rel (a b : W32 × List Instr) : Prop := a.2.map Instr.anywhere = b.2.map Instr.anywhere

theorem tail_same (d d' : List Byte) (hd : d.length = d'.length) : ∀ (fuel p : Nat) (h h' : W32 × List Instr), Rel h h' →
    Both Rel (tailLoopO d fuel p h) (tailLoopO d' fuel p h') := by
  intro fuel
  induction fuel with
  | zero =>
    intro p h h' r
    unfold tailLoopO
    rw [hd]
    split
    · rfl
    · exact r
  | succ fuel ih =>
    intro p h h' r
    unfold tailLoopO
    rw [hd]
    split
    · rename_i hp
      rw [List.getElem?_eq_getElem (hd ▸ hp), List.getElem?_eq_getElem hp]
      exact ih (p + 1) _ _ (logged_view tailByte.same h h' _ _ r)
    · exact r

theorem parallel : Parallel CRC_32O CRC_32O Rel where
  fresh := rfl
  reset := fun _ _ h => h
  add := fun o o' d d' hd h => by
    show Both _ (addDataO o d) (addDataO o' d')
    unfold addDataO
    refine both_bind (forBlocks_same (RS := Rel) (logged_view body.same · · · · ·) hd h) fun a b hab => ?_
    rw [hd]
    exact tail_same d d' hd _ _ _ _ hab
  fin := fun _ _ h => both_ok (R := Rel) h

theorem same : CRC_32.SameBut CRC_32O Prod.fst ∧ CRC_32O.SameOps CRC_32O (fun o => o.2.map Instr.anywhere) :=
  ⟨natural.same, parallel.same fun _ _ h => h⟩

end CRC32

/-! ## MD2 -/

namespace MD2
open Model.MD2

theorem checksum_value (m : Block 16) (c : Vector Byte 16) (l : Byte) : (checksumLoopO m c l).value = checksumLoop m c l := by
  unfold checksumLoopO checksumLoop
  refine forRange_value (fun j _ _ s => ?_) _
  refine value_step (y := s.1.set j (s.1[j] ^^^ MD2.pi (m[j] ^^^ s.2))) ?_ rfl
  show s.1.set j (s.1[j] ^^^ MD2.pi ((m[j]).setWidth 8 ^^^ s.2)) = _
  rw [BitVec.setWidth_eq]

theorem load_value (m : Block 16) (x : Vector Byte 48) : (loadLoopO m x).value = loadLoop m x := by
  unfold loadLoopO loadLoop
  refine forRange_value (fun j _ _ x => ?_) _
  refine value_step (y := x.set (j + 16) m[j]) ?_ rfl
  show x.set (j + 16) ((m[j]).setWidth 8) = _
  rw [BitVec.setWidth_eq]

theorem inner_value (x : Vector Byte 48) (t : Byte) : (innerLoopO x t).value = innerLoop x t := by
  unfold innerLoopO innerLoop
  exact forRange_value (fun _ _ _ _ => rfl) _

theorem mix_value (x : Vector Byte 48) : (mixLoopO x).value = mixLoop x := by
  unfold mixLoopO mixLoop
  refine forRange_value (fun j _ _ s => ?_) _
  refine value_step (inner_value s.1 s.2) ?_
  generalize innerLoop s.1 s.2 = q
  rfl

theorem steady : SteadyButLookups MD2.body bodyO where
  value := fun s m => by
    unfold bodyO MD2.body
    refine value_step (checksum_value m s.checksum s.checksumL) ?_
    refine value_step (load_value m s.x) ?_
    exact value_step (mix_value _) rfl
  same := fun s m s' m' => by
    show Alike _ _
    unfold bodyO checksumLoopO loadLoopO mixLoopO innerLoopO
    alike_ops

theorem impl_nat (s : St × List Instr) (d : List Byte) : impl s.1 d = (implO s d).map Prod.fst := forBlocks_logged steady.value d s

/-- the same operations so far -/
def Rel (a b : St × List Instr) : Prop := a.2.map Instr.anywhere = b.2.map Instr.anywhere

theorem impl_same : SameImpl Rel implO implO := by
  intro s s' d d' hd hs
  exact forBlocks_same (RS := Rel) (logged_view steady.same · · · · ·) hd hs

theorem natural : Natural MD2.MD2 MD2O Obj.unlogged := by
  refine ⟨rfl, fun o => rfl, fun o d => addData_nat impl_nat o d, fun o => ?_⟩
  show MD2.finalize o.unlogged = (finalizeO o).map _
  unfold MD2.finalize finalizeO
  dsimp only
  rw [map_bind]
  refine Work.bind_congr fun b => ?_
  show impl o.chain.1 _ >>= _ = _
  rw [impl_nat, bind_map, map_bind]
  refine Work.bind_congr fun c => ?_
  rw [impl_nat, bind_map, map_bind]
  rfl

theorem parallel : Parallel MD2O MD2O (SameObj Rel) := by
  refine ⟨⟨rfl, rfl⟩, fun o o' ho => ⟨rfl, ho.chain⟩, fun o o' d d' hd ho => addData_same impl_same ho hd, fun o o' ho => ?_⟩
  show Both _ (finalizeO o) (finalizeO o')
  unfold finalizeO
  dsimp only
  have e1 : o.buffer.size = o'.buffer.size := ho.buffer
  rw [e1]
  refine both_bind (fill_same ho.buffer _ _ _) fun b b' hb => ?_
  refine both_bind (impl_same _ _ _ _ (contents_same hb) ho.chain) fun c c' hc => ?_
  refine both_bind (impl_same _ _ _ _ (by simp) hc) fun c c' hc => ?_
  exact ⟨rfl, hc⟩

theorem same : MD2.MD2.SameBut MD2O Obj.unlogged ∧ MD2O.SameOps MD2O (fun o => o.chain.2.map Instr.anywhere) :=
  ⟨natural.same, parallel.same fun _ _ h => h.chain⟩

end MD2

/-! ## Tiger -/

namespace Tiger
open Model.Tiger

theorem round_value (a b c x mul : W64) : (roundO a b c (var x) mul).value = Tiger.round a b c x mul := rfl

theorem round_same (a b c mul a' b' c' : W64) {x x' : Ops W64} (h : Alike x x') :
    Alike (roundO a b c x mul) (roundO a' b' c' x' mul) := by
  unfold roundO
  alike_ops
  exact h

theorem pass_value (x : Vector W64 8) (a b c mul : W64) : (passO x a b c mul).value = pass x a b c mul := by
  have e : ∀ a b c (i : Nat) (h : i < 8), (roundO a b c (rd "x" x i) mul).value = Tiger.round a b c x[i] mul := fun _ _ _ _ _ => rfl
  unfold passO pass
  iterate 8 refine value_step (e _ _ _ _ _) ?_
  generalize Tiger.round = r
  rfl

theorem pass_same (x x' : Vector W64 8) (a b c mul a' b' c' : W64) : Alike (passO x a b c mul) (passO x' a' b' c' mul) := by
  unfold passO
  alike_ops
  all_goals exact round_same _ _ _ _ _ _ _ (alike_rd _ _ _ _ _)

theorem sched_value (x : Vector W64 8) : (keyScheduleO x).value = keySchedule x := by
  unfold keyScheduleO keySchedule
  iterate 15 refine value_step rfl ?_
  rfl

theorem sched_same (x x' : Vector W64 8) : Alike (keyScheduleO x) (keyScheduleO x') := by
  unfold keyScheduleO
  alike_ops

theorem steady : SteadyButLookups compress compressO where
  value := fun h m => by
    unfold compressO compress
    refine value_step (y := #v[Verif.loadLE64 m 0, Verif.loadLE64 m 1, Verif.loadLE64 m 2, Verif.loadLE64 m 3,
      Verif.loadLE64 m 4, Verif.loadLE64 m 5, Verif.loadLE64 m 6, Verif.loadLE64 m 7]) rfl ?_
    iterate 6 refine value_step rfl ?_
    refine value_step (pass_value _ _ _ _ _) ?_
    refine value_step (sched_value _) ?_
    refine value_step (pass_value _ _ _ _ _) ?_
    refine value_step (sched_value _) ?_
    refine value_step (pass_value _ _ _ _ _) ?_
    generalize pass = p
    generalize keySchedule = k
    rfl
  same := fun s m s' m' => by
    show Alike _ _
    unfold compressO loadO
    alike_ops
    all_goals first
      | exact pass_same _ _ _ _ _ _ _ _ _
      | exact sched_same _ _

end Tiger

/-! ## Whirlpool -/

namespace Whirlpool
open Model.Whirlpool

theorem func_value (name : String) (x : Vector W64 8) (a b c d e f g h : Fin 8) :
    (funcO name x a b c d e f g h).value = func x a b c d e f g h := rfl

theorem func_same (name : String) (x x' : Vector W64 8) (a b c d e f g h : Fin 8) :
    Alike (funcO name x a b c d e f g h) (funcO name x' a b c d e f g h) := by
  unfold funcO
  alike_ops

theorem updates8 (v : Vector W64 8) (f : (i : Nat) → i < 8 → W64 → W64) :
    (Verif.forRange 0 8 v fun j _ h t => t.set j (f j h t[j])) = Vector.ofFn fun j : Fin 8 => f j j.2 v[j] := by
  have : ∀ n (hn : n ≤ 8), ∀ i (hi : i < 8), (Nat.fold n (fun j h t => t.set (0 + j) (f (0 + j) (by omega) t[0 + j]) (by omega)) v)[i] =
      if i < n then f i hi v[i] else v[i] := by
    intro n
    induction n with
    | zero => intro _ i hi; rfl
    | succ n ih =>
      intro hn i hi
      rw [Nat.fold_succ, Vector.getElem_set]
      by_cases h : n = i
      · subst h
        rw [if_pos (Nat.zero_add n), if_pos (Nat.lt_succ_self n)]
        have e := ih (by omega) n hi
        rw [if_neg (Nat.lt_irrefl n)] at e
        simp only [Nat.zero_add] at e ⊢
        rw [e]
      · rw [if_neg (by omega), ih (by omega) i hi]
        by_cases h2 : i < n
        · rw [if_pos h2, if_pos (by omega)]
        · rw [if_neg h2, if_neg (by omega)]
  apply Vector.ext
  intro i hi
  rw [Vector.getElem_ofFn]
  exact (this 8 (Nat.le_refl 8) i hi).trans (if_pos hi)

theorem copy_value (name : String) (t : Vector W64 8) : (copyO name t).value = t := by
  have h : (copyO name t).value = Verif.forRange 0 8 t fun j _ h s => s.set j t[j] := forRange_value (fun _ _ _ _ => rfl) _
  rw [h, updates8 t fun i h _ => t[i]]
  apply Vector.ext
  intro i hi
  rw [Vector.getElem_ofFn]

theorem stores_value {x0 x1 x2 x3 x4 x5 x6 x7 : Ops W64} {a0 a1 a2 a3 a4 a5 a6 a7 : W64}
    (h0 : x0.value = a0) (h1 : x1.value = a1) (h2 : x2.value = a2) (h3 : x3.value = a3) (h4 : x4.value = a4) (h5 : x5.value = a5) (h6 : x6.value = a6) (h7 : x7.value = a7) (name : String) :
    (stores (n := 8) name [x0, x1, x2, x3, x4, x5, x6, x7]).value = #v[a0, a1, a2, a3, a4, a5, a6, a7] := by
  subst h0 h1 h2 h3 h4 h5 h6 h7
  rfl

theorem round_value (k s : Vector W64 8) (r : Fin 10) : (roundO k s r).value = Whirlpool.round k s r := by
  have e : ∀ (name : String) (x : Vector W64 8) (a b c d e f g h : Fin 8) (y : Ops W64),
      (funcO name x a b c d e f g h ^^^ y).value = func x a b c d e f g h ^^^ y.value := fun _ _ _ _ _ _ _ _ _ _ _ => rfl
  have e1 : ∀ (name : String) (x : Vector W64 8) (a b c d e f g h : Fin 8),
      (funcO name x a b c d e f g h).value = func x a b c d e f g h := fun _ _ _ _ _ _ _ _ _ _ => rfl
  unfold roundO Whirlpool.round
  refine value_step (stores_value (e _ _ _ _ _ _ _ _ _ _ _) (e1 _ _ _ _ _ _ _ _ _ _) (e1 _ _ _ _ _ _ _ _ _ _) (e1 _ _ _ _ _ _ _ _ _ _) (e1 _ _ _ _ _ _ _ _ _ _) (e1 _ _ _ _ _ _ _ _ _ _) (e1 _ _ _ _ _ _ _ _ _ _) (e1 _ _ _ _ _ _ _ _ _ _) _) ?_
  refine value_step (copy_value _ _) ?_
  refine value_step (stores_value (e _ _ _ _ _ _ _ _ _ _ _) (e _ _ _ _ _ _ _ _ _ _ _) (e _ _ _ _ _ _ _ _ _ _ _) (e _ _ _ _ _ _ _ _ _ _ _) (e _ _ _ _ _ _ _ _ _ _ _) (e _ _ _ _ _ _ _ _ _ _ _) (e _ _ _ _ _ _ _ _ _ _ _) (e _ _ _ _ _ _ _ _ _ _ _) _) ?_
  refine value_step (copy_value _ _) ?_
  rfl

theorem round_same (k s k' s' : Vector W64 8) (r : Fin 10) : Alike (roundO k s r) (roundO k' s' r) := by
  unfold roundO copyO
  alike_ops
  all_goals exact func_same _ _ _ _ _ _ _ _ _ _ _

theorem start_value (h : Vector W64 8) (m : Block 64) :
    (startO h m).value = (h, Vector.ofFn fun j : Fin 8 => Verif.loadBE64 m j ^^^ h[j]) := by
  have e : (startO h m).value = Verif.forRange 0 8 (Vector.replicate 8 0, Vector.replicate 8 0) fun j _ hj s =>
      (s.1.set j h[j], s.2.set j (Verif.loadBE64 m j ^^^ (s.1.set j h[j])[j])) := forRange_value (fun _ _ _ _ => rfl) _
  have p : ∀ (f : (i : Nat) → i < 8 → W64) (g : (i : Nat) → i < 8 → W64 → W64) (a b : Vector W64 8),
      (Verif.forRange 0 8 (a, b) fun j _ hj s => (s.1.set j (f j hj), s.2.set j (g j hj (s.1.set j (f j hj))[j]))) =
        (Verif.forRange 0 8 a fun j _ hj s => s.set j (f j hj), Verif.forRange 0 8 b fun j _ hj s => s.set j (g j hj (f j hj))) := by
    intro f g a b
    unfold Verif.forRange
    have : ∀ n (hn : n ≤ 8), Nat.fold n (fun j h (s : Vector W64 8 × Vector W64 8) => (s.1.set (0 + j) (f (0 + j) (by omega)) (by omega),
          s.2.set (0 + j) (g (0 + j) (by omega) ((s.1.set (0 + j) (f (0 + j) (by omega)) (by omega))[0 + j]'(by omega))) (by omega))) (a, b) =
        (Nat.fold n (fun j h (s : Vector W64 8) => s.set (0 + j) (f (0 + j) (by omega)) (by omega)) a,
          Nat.fold n (fun j h (s : Vector W64 8) => s.set (0 + j) (g (0 + j) (by omega) (f (0 + j) (by omega))) (by omega)) b) := by
      intro n
      induction n with
      | zero => intro _; rfl
      | succ n ih =>
        intro hn
        rw [Nat.fold_succ, Nat.fold_succ, Nat.fold_succ, ih (by omega)]
        simp only [Vector.getElem_set_self]
    exact this 8 (Nat.le_refl 8)
  rw [e, p (fun j hj => h[j]) (fun j hj x => Verif.loadBE64 m j ^^^ x), updates8 _ fun j hj _ => h[j],
    updates8 _ fun j hj _ => Verif.loadBE64 m j ^^^ h[j]]
  refine Prod.ext ?_ rfl
  apply Vector.ext
  intro i hi
  exact Vector.getElem_ofFn _

theorem steady : SteadyButLookups compress compressO where
  value := fun h m => by
    unfold compressO compress
    refine value_step (start_value h m) ?_
    refine value_step (fold_value (f := fun s r => Whirlpool.round s.1 s.2 r) (fun s r => round_value s.1 s.2 r) _ _) ?_
    show _ = Vector.ofFn fun j : Fin 8 => (rounds h _).2[j] ^^^ h[j] ^^^ Verif.loadBE64 m j
    generalize hs : (rounds h (Vector.ofFn fun j : Fin 8 => Verif.loadBE64 m j ^^^ h[j])).2 = s
    have hs' : ((List.finRange 10).foldl (fun s r => Whirlpool.round s.1 s.2 r)
        (h, Vector.ofFn fun j : Fin 8 => Verif.loadBE64 m j ^^^ h[j])).2 = s := hs
    rw [hs']
    have e : (Ops.forRange 0 8 h fun j _ hj t => wr "m_h" t j (rd "state" s j ^^^ rd "m_h" t j ^^^ Ops.loadBE64 m j)).value =
        Verif.forRange 0 8 h fun j _ hj t => t.set j (s[j] ^^^ t[j] ^^^ Verif.loadBE64 m j) := forRange_value (fun _ _ _ _ => rfl) _
    rw [e, updates8 h fun j hj x => s[j] ^^^ x ^^^ Verif.loadBE64 m j]
    rfl
  same := fun s m s' m' => by
    show Alike _ _
    unfold compressO startO
    alike_ops
    exact round_same _ _ _ _ _

end Whirlpool

end Verif.Proof.OpsTables
