import Verif.Model.Machine
import Verif.Proof.Misuse

/-! # Nothing that fits in `size_t` wraps -/

namespace Verif.Proof.Machine
open Verif Verif.Model Verif.Proof.Misuse

theorem szAdd_eq {m a b : Nat} (h : a + b < 2 ^ m) : szAdd m a b = a + b := Nat.mod_eq_of_lt h

theorem szMul_eq {m a b : Nat} (h : a * b < 2 ^ m) : szMul m a b = a * b := Nat.mod_eq_of_lt h

theorem szSub_eq {m a b : Nat} (hb : b ≤ a) (ha : a < 2 ^ m) : szSub m a b = a - b := by
  unfold szSub
  rw [Nat.mod_eq_of_lt (show b < 2 ^ m by omega), show a + (2 ^ m - b) = a - b + 2 ^ m by omega, Nat.add_mod_right,
    Nat.mod_eq_of_lt (by omega)]

/-- constants of the code fit -/
theorem big {m : Nat} (h : 16 ≤ m) : 65536 ≤ 2 ^ m := Nat.pow_le_pow_right (n := 2) (by decide) h

theorem bind_eq {α β : Type} {x y : Except Fault α} {f g : α → Except Fault β} (h : x = y)
    (hf : ∀ a, y = .ok a → f a = g a) : (x >>= f) = (y >>= g) := by
  subst h
  cases x with
  | error => rfl
  | ok a => exact hf a rfl

theorem foldlM_eq {α σ : Type} (l : List α) {f g : σ → α → Except Fault σ} :
    (∀ s, ∀ a ∈ l, f s a = g s a) → ∀ s, l.foldlM f s = l.foldlM g s := by
  induction l with
  | nil => intro _ s; rfl
  | cons a l ih =>
    intro h s
    rw [List.foldlM_cons, List.foldlM_cons]
    exact bind_eq (h s a (by simp)) fun s' _ => ih (fun s b hb => h s b (by simp [hb])) s'

theorem forBlocks {S : Type} {m B : Nat} (body : S → Block B → S) (d : List Byte) (h : d.length < 2 ^ m) (s : S) :
    forBlocksM m B body d s = Verif.forBlocks B body d s := by
  unfold forBlocksM Verif.forBlocks
  apply foldlM_eq
  intro s i hi
  rw [List.mem_range] at hi
  have : i * B ≤ d.length / B * B := Nat.mul_le_mul_right B (Nat.le_of_lt hi)
  rw [szMul_eq (by have := Nat.div_mul_le_self d.length B; omega)]

theorem fill_size {N : Nat} {b b' : Buffer N} {x : Byte} {n : Nat} (e : b.fill x n = .ok b') :
    b'.size = b.size + n ∧ b'.size ≤ N := by
  unfold Buffer.fill at e
  split at e
  · rename_i h
    have := Except.ok.inj e
    subst this
    have : ∀ n (b : Buffer N), (Buffer.fillLoop x n b).endIdx = b.endIdx + n := by
      intro n
      induction n with
      | zero => intro b; rfl
      | succ n ih => intro b; rw [Buffer.fillLoop, ih]; simp only []; omega
    unfold Buffer.size
    rw [this]
    exact ⟨rfl, h.2⟩
  · cases e

theorem setAt_size {N : Nat} {b b' : Buffer N} {p : Nat} {x : Byte} (e : b.setAt p x = .ok b') : b'.size = b.size := by
  unfold Buffer.setAt at e
  split at e
  · have := Except.ok.inj e
    subst this
    rfl
  · cases e

theorem writeLoop_size {N : Nat} (ws : List (Nat × Byte)) : ∀ {b b' : Buffer N}, writeLoop b ws = .ok b' → b'.size = b.size := by
  unfold writeLoop
  induction ws with
  | nil =>
    intro b b' e
    have := Except.ok.inj e
    subst this
    rfl
  | cons w ws ih =>
    intro b b' e
    rw [List.foldlM_cons] at e
    cases e1 : b.setAt w.1 w.2 with
    | error => rw [e1] at e; cases e
    | ok b1 =>
      rw [e1] at e
      rw [ih e, setAt_size e1]

theorem contents_le {N : Nat} (b : Buffer N) : b.contents.length ≤ N := by
  unfold Buffer.contents
  rw [List.length_take, Vector.length_toList]
  omega

theorem first_le {d f : List Byte} {n : Nat} (e : spanFirst d n = .ok f) : f.length ≤ d.length := by
  unfold spanFirst at e
  split at e
  · have := Except.ok.inj e
    subst this
    rw [List.length_take]; omega
  · cases e

theorem sub_le {d f : List Byte} {n : Nat} (e : spanSub d n = .ok f) : f.length ≤ d.length := by
  unfold spanSub at e
  split at e
  · have := Except.ok.inj e
    subst this
    rw [List.length_drop]; omega
  · cases e

section
variable {N m : Nat} {S : Type} {B : Nat} {impl implM : S → List Byte → Except Fault S}

theorem addDataTail (hi : ∀ s d, d.length < 2 ^ m → implM s d = impl s d) (o : Obj N S) (d : List Byte)
    (hd : d.length < 2 ^ m) : addDataTailM m B implM o d = Verif.addDataTail B impl o d := by
  unfold addDataTailM Verif.addDataTail
  simp only []
  rw [szSub_eq (Nat.mod_le _ _) hd]
  split
  · rfl
  · refine bind_eq rfl fun f hf => ?_
    have : f.length < 2 ^ m := by have := first_le hf; omega
    exact bind_eq (hi _ _ this) fun c _ => rfl

theorem addData (hB : B < 2 ^ m) (hN : N < 2 ^ m) (hi : ∀ s d, d.length < 2 ^ m → implM s d = impl s d) (o : Obj N S)
    (ho : o.buffer.size ≤ B) (d : List Byte) (hd : d.length < 2 ^ m) :
    addDataM m B implM o d = Verif.addData B impl o d := by
  unfold addDataM Verif.addData
  simp only []
  rw [szSub_eq ho hB]
  split
  · refine bind_eq rfl fun b _ => ?_
    split
    · rfl
    · refine bind_eq (hi _ _ (by have := contents_le b; omega)) fun c _ => bind_eq rfl fun r hr => ?_
      exact addDataTail hi _ _ (by have := sub_le hr; omega)
  · exact addDataTail hi _ _ hd

end

/-- On the objects that can be reached the calls are the same. -/
structure Twin {O : Type} (m : Nat) (A M : API O) (t : Total A) : Prop where
  fresh : M.fresh = A.fresh
  reset : ∀ o, M.reset o = A.reset o
  add : ∀ o d, t.I o → d.length < 2 ^ m → M.addData o d = A.addData o d
  fin : ∀ o, t.I o → M.finalize o = A.finalize o
  out : ∀ o, M.toArray o = A.toArray o

section
variable {O : Type} {m : Nat} {A M : API O} {t : Total A}

theorem step (h : Twin m A M t) (o : O) (i : t.I o) (op : Op) (hf : Fitting m [op]) : M.step o op = A.step o op := by
  cases op with
  | add d => exact h.add o d i (hf d (by simp))
  | finalize => exact h.fin o i
  | reset => exact congrArg Except.ok (h.reset o)

theorem step_inv (hm : m ≤ 64) (o o' : O) (i : t.I o) (op : Op) (hf : Fitting m [op]) (e : A.step o op = .ok o') : t.I o' := by
  have h64 : (2 : Nat) ^ m ≤ 2 ^ 64 := Nat.pow_le_pow_right (by decide) hm
  cases op with
  | add d =>
    obtain ⟨o1, e1, i1⟩ := t.add o d i (by have := hf d (by simp); omega)
    have : A.addData o d = .ok o' := e
    rw [this] at e1
    rw [Except.ok.inj e1]; exact i1
  | finalize =>
    obtain ⟨o1, e1, i1⟩ := t.fin o i
    have : A.finalize o = .ok o' := e
    rw [this] at e1
    rw [Except.ok.inj e1]; exact i1
  | reset =>
    have : (.ok (A.reset o) : Except Fault O) = .ok o' := e
    rw [← Except.ok.inj this]; exact t.reset o i

theorem run (hm : m ≤ 64) (h : Twin m A M t) (ops : List Op) : ∀ o, t.I o → Fitting m ops → M.run o ops = A.run o ops := by
  induction ops with
  | nil => intro o _ _; rfl
  | cons op ops ih =>
    intro o i hf
    have hop : Fitting m [op] := fun d hd => hf d (by simp at hd; simp [hd])
    refine bind_eq (step h o i op hop) fun o' e => ?_
    exact ih o' (step_inv hm o o' i op hop e) fun d hd => hf d (by simp [hd])

theorem same (hm : m ≤ 64) (h : Twin m A M t) : A.SameMachine m M := by
  intro ops hf
  have h64 : (2 : Nat) ^ m ≤ 2 ^ 64 := Nat.pow_le_pow_right (by decide) hm
  obtain ⟨o, e, _⟩ := t.run ops A.fresh (fun d hd => by have := hf d hd; omega) t.fresh
  exact ⟨o, e, by rw [h.fresh, run hm h ops _ t.fresh hf, e], h.out o⟩

end

/-! ### the classes -/

theorem room_size {N B : Nat} {S : Type} {P : S → Prop} {o : Obj N S} (h : Room B P o) : o.buffer.size < B := by
  obtain ⟨⟨l, hb, hl⟩, _⟩ := h
  rw [hb.size_eq]; exact hl

theorem roomT {N : Nat} (B : Nat) {S : Type} {o : Obj N S} (h : Room B (fun _ => True) o) : o.buffer.size < B := room_size h

/-- The same counter, with the same stores when the length field is inside the buffer. -/
structure SameCounter {C : Type} (m L : Nat) (cM cnt : Counter C) : Prop where
  zero : cM.zero = cnt.zero
  add : cM.add = cnt.add
  post : cM.post = cnt.post
  writes : ∀ size c, L ≤ size → size < 2 ^ m → cM.writes size c = cnt.writes size c

theorem flatMap_eq {α β : Type} (l : List α) {f g : α → List β} (h : ∀ a ∈ l, f a = g a) : l.flatMap f = l.flatMap g := by
  induction l with
  | nil => rfl
  | cons a l ih => rw [List.flatMap_cons, List.flatMap_cons, h a (by simp), ih fun b hb => h b (by simp [hb])]

theorem writesBE64 {m size : Nat} (h : 8 ≤ size) (hs : size < 2 ^ m) (bits : W64) :
    lenWritesBE64M m size bits = lenWritesBE64 size bits := by
  refine flatMap_eq _ fun i hi => ?_
  rw [List.mem_range] at hi
  rw [szSub_eq h hs, szSub_eq (by omega) hs, szAdd_eq (by omega), szAdd_eq (by omega)]

theorem writesLE64 {m size : Nat} (h : 8 ≤ size) (hs : size < 2 ^ m) (bits : W64) :
    lenWritesLE64M m size bits = lenWritesLE64 size bits := by
  refine flatMap_eq _ fun i hi => ?_
  rw [List.mem_range] at hi
  rw [szSub_eq h hs, szSub_eq (by omega) hs, szAdd_eq (by omega), szAdd_eq (by omega)]

theorem writesBE128 {m size : Nat} (h : 16 ≤ size) (hs : size < 2 ^ m) (bits : Uint128) :
    lenWritesBE128M m size bits = lenWritesBE128 size bits := by
  refine flatMap_eq _ fun i hi => ?_
  rw [List.mem_range] at hi
  rw [szSub_eq h hs, szSub_eq (by omega) hs, szAdd_eq (by omega), szAdd_eq (by omega)]

theorem sameBE64 (m : Nat) : SameCounter m 8 (counterBE64M m) counterBE64 :=
  ⟨rfl, rfl, rfl, fun _ _ h hs => writesBE64 h hs _⟩
theorem sameLE64 (m : Nat) : SameCounter m 8 (counterLE64M m) counterLE64 :=
  ⟨rfl, rfl, rfl, fun _ _ h hs => writesLE64 h hs _⟩
theorem sameBE128 (m : Nat) : SameCounter m 16 (counterBE128M m) counterBE128 :=
  ⟨rfl, rfl, rfl, fun _ _ h hs => writesBE128 h hs _⟩
theorem sameBE128_32 (m : Nat) : SameCounter m 32 (counterBE128M m) counterBE128 :=
  ⟨rfl, rfl, rfl, fun _ _ h hs => writesBE128 (by omega) hs _⟩

theorem mdImpl {C H : Type} {m B L : Nat} {cM cnt : Counter C} (hc : SameCounter m L cM cnt) (comp : H → Block B → H)
    (s : MDState C H) (d : List Byte) (h : d.length < 2 ^ m) : mdImplM m B cM comp s d = Verif.mdImpl B cnt comp s d := by
  unfold mdImplM Verif.mdImpl
  rw [hc.add, forBlocks comp d h]

theorem mdFin {C H : Type} {m B L : Nat} (hL : L + 1 ≤ B) (hm : 2 * B < 2 ^ m) {padByte : Byte} {cM cnt : Counter C}
    (hc : SameCounter m L cM cnt) {comp : H → Block B → H} (o : Obj (2 * B) (MDState C H)) (h : o.buffer.size < B) :
    mdFinalizeM m B L padByte cM.add cM.post cM.writes (mdImplM m B cM comp) o =
      mdFinalize B L padByte cnt.add cnt.post cnt.writes (Verif.mdImpl B cnt comp) o := by
  unfold mdFinalizeM mdFinalize
  rw [hc.add, hc.post]
  refine bind_eq rfl fun b hb => ?_
  obtain ⟨h1, _⟩ := fill_size hb
  rw [szAdd_eq (show b.size + L < 2 ^ m by omega), szSub_eq (by omega) hm]
  refine bind_eq rfl fun b2 hb2 => ?_
  obtain ⟨h2, h2'⟩ := fill_size hb2
  rw [hc.writes _ _ (by omega) (by omega)]
  refine bind_eq rfl fun b3 _ => bind_eq (mdImpl hc comp _ _ ?_) fun _ _ => rfl
  have := contents_le b3; omega

theorem md {C H : Type} {m B L : Nat} (hL : L + 1 ≤ B) (hm : 2 * B < 2 ^ m) (padByte : Byte) {cM cnt : Counter C}
    (hc : SameCounter m L cM cnt) (hw : WritesInside L cnt.writes) (comp : H → Block B → H) (iv : H)
    (out : H → Except Fault (List Byte)) :
    Twin m (mdApi B L padByte cnt comp iv out) (mdApiM m B L padByte cM comp iv out) (mdTotal hL padByte hw comp iv out) where
  fresh := by unfold mdApiM mdApi; rw [hc.zero]
  reset := fun _ => by unfold mdApiM mdApi; simp only []; rw [hc.zero]
  add := fun o d i hd => addData (by omega) hm (mdImpl hc comp) o (Nat.le_of_lt (roomT B i)) d hd
  fin := fun o i => mdFin hL hm hc o (roomT B i)
  out := fun _ => rfl

section
variable {m R : Nat} [hR : SHA3.RateOK R]

theorem sha3Impl (s : SHA3.KState) (d : List Byte) (h : d.length < 2 ^ m) : SHA3.implM m R s d = SHA3.impl R s d := by
  unfold SHA3.implM SHA3.impl SHA3.absorb
  rw [forBlocks _ d h]
  split <;> rfl

theorem squeeze (hr : R < 2 ^ m) (dl : Nat) : ∀ fuel (s : SHA3.KState), dl - s.final.length ≤ fuel →
    SHA3.squeezeM m R dl fuel s = SHA3.squeeze R dl s := by
  have hp := hR.pos
  have hle := hR.le
  intro fuel
  induction fuel with
  | zero =>
    intro s h
    rw [SHA3.squeeze, SHA3.squeezeM]
    simp only []
    by_cases hl : R ≤ (SHA3.stateToVector s.state).length
    · have : (s.final ++ (SHA3.stateToVector s.state).take R).length ≥ dl := by
        rw [List.length_append]; omega
      rw [dif_pos hl, dif_pos this, if_pos hl, if_pos this]
    · rw [dif_neg hl, if_neg hl]
  | succ fuel ih =>
    intro s h
    rw [SHA3.squeeze, SHA3.squeezeM]
    simp only []
    by_cases hl : R ≤ (SHA3.stateToVector s.state).length
    · rw [dif_pos hl, if_pos hl]
      by_cases hf : (s.final ++ (SHA3.stateToVector s.state).take R).length ≥ dl
      · rw [dif_pos hf, if_pos hf]
      · rw [dif_neg hf, if_neg hf, sha3Impl _ _ (by rw [List.length_replicate]; exact hr)]
        unfold SHA3.impl
        simp only []
        cases SHA3.absorb R s.state (List.replicate R 0) with
        | error => rfl
        | ok st =>
          refine ih ⟨st, _⟩ ?_
          rw [List.length_append, List.length_take] at *
          omega
    · rw [dif_neg hl, if_neg hl]

theorem sha3Fin (hm : 2 * R < 2 ^ m) (P : Byte) (dl : Nat) (o : Obj R SHA3.KState) (h : o.buffer.size < R) :
    SHA3.finalizeM m R P dl o = SHA3.finalize R P dl o := by
  unfold SHA3.finalizeM SHA3.finalize
  refine bind_eq rfl fun b hb => ?_
  obtain ⟨h1, _⟩ := fill_size hb
  rw [szSub_eq (by omega) hm]
  refine bind_eq rfl fun b2 hb2 => ?_
  obtain ⟨h2, h2'⟩ := fill_size hb2
  rw [szSub_eq (a := b2.size) (by omega) (by omega)]
  refine bind_eq rfl fun _ _ => bind_eq rfl fun b3 _ => ?_
  refine bind_eq (sha3Impl _ _ (by have := contents_le b3; omega)) fun c _ => ?_
  exact bind_eq (squeeze (by omega) dl dl c (Nat.sub_le _ _)) fun _ _ => rfl

theorem sha3 (hm : 2 * R < 2 ^ m) (P : Byte) (dl : Nat) :
    Twin m (SHA3.Keccak R P dl) (SHA3.KeccakM m R P dl) (sha3Total R P dl) where
  fresh := rfl
  reset := fun _ => rfl
  add := fun o d i hd => addData (by omega) (by omega) sha3Impl o (Nat.le_of_lt (roomT R i)) d hd
  fin := fun o i => sha3Fin hm P dl o (roomT R i)
  out := fun _ => rfl

end

theorem md2Fin {m : Nat} (hm : 32 < 2 ^ m) (o : Obj (2 * 16) MD2.St) : MD2.finalizeM m o = MD2.finalize o := by
  unfold MD2.finalizeM MD2.finalize
  have hi : ∀ s (d : List Byte), d.length < 2 ^ m → MD2.implM m s d = MD2.impl s d := fun s d h => forBlocks _ d h s
  have := Nat.mod_lt o.buffer.size (show 16 > 0 by decide)
  rw [szSub_eq (by omega) (by omega)]
  refine bind_eq rfl fun b _ => bind_eq (hi _ _ ?_) fun c _ => bind_eq (hi _ _ ?_) fun _ _ => rfl
  · have := contents_le b; omega
  · rw [Vector.length_toList]; omega

theorem md2 {m : Nat} (hm : 32 < 2 ^ m) : Twin m MD2.MD2 (MD2.MD2M m) md2Total where
  fresh := rfl
  reset := fun _ => rfl
  add := fun o d i hd => addData (by omega) hm (fun s d h => forBlocks _ d h s) o (Nat.le_of_lt (roomT 16 i)) d hd
  fin := fun o _ => md2Fin hm o
  out := fun _ => rfl

section
variable {w B m : Nat} {C : Type}

theorem blakeImpl (c : BLAKE.Cfg w B C) (p : Nat) (s : MDState C (Vector (BitVec w) 8)) (d : List Byte)
    (h : d.length < 2 ^ m) : BLAKE.implM m c p s d = BLAKE.impl c p s d := by
  unfold BLAKE.implM BLAKE.impl
  rw [forBlocks _ d h]

theorem mark {N L : Nat} (marker : Bool) (b : Buffer N) (h : L + 1 ≤ b.size) (hb : b.size < 2 ^ m) :
    BLAKE.markLastM m L marker b = BLAKE.markLast L marker b := by
  unfold BLAKE.markLastM BLAKE.markLast
  rw [szSub_eq h hb]

theorem mark_size {N L : Nat} {marker : Bool} {b b' : Buffer N} (e : BLAKE.markLast L marker b = .ok b') :
    b'.size = b.size := by
  unfold BLAKE.markLast at e
  split at e
  · cases eg : b.getAt (b.size - (L + 1)) with
    | error => rw [eg] at e; cases e
    | ok x => rw [eg] at e; exact setAt_size e
  · rw [Except.ok.inj e]

theorem blakeFin (c : BLAKE.Cfg w B C) {L : Nat} (hL : L + 1 ≤ B) (hm : 8 * B < 2 ^ m) (marker : Bool) (total : C → Nat → C)
    {writesM writes : Nat → C → List (Nat × Byte)}
    (hw : ∀ size c, L ≤ size → size < 2 ^ m → writesM size c = writes size c)
    (o : Obj (2 * B) (MDState C (Vector (BitVec w) 8))) (h : o.buffer.size < B) :
    BLAKE.finalizeM m c L marker total writesM o = BLAKE.finalize c L marker total writes o := by
  unfold BLAKE.finalizeM BLAKE.finalize
  rw [szMul_eq (by omega)]
  refine bind_eq rfl fun b hb => ?_
  obtain ⟨h1, _⟩ := fill_size hb
  rw [szAdd_eq (show b.size + L < 2 ^ m by omega), szSub_eq (by omega) (by omega)]
  refine bind_eq rfl fun b2 hb2 => ?_
  obtain ⟨h2, h2'⟩ := fill_size hb2
  refine bind_eq (mark _ _ (by omega) (by omega)) fun b3 h3 => ?_
  have h3 := mark_size h3
  rw [hw _ _ (by omega) (by omega)]
  refine bind_eq rfl fun b4 _ => bind_eq (blakeImpl c _ _ _ ?_) fun _ _ => rfl
  have := contents_le b4; omega

theorem blake32 (hm : 8 * 64 < 2 ^ m) (c : BLAKE.Cfg 32 64 W64) (marker : Bool) (iv : Vector W32 8) (words size : Nat) :
    Twin m (BLAKE.api32 c marker iv words size) (BLAKE.api32M m c marker iv words size) (blake32Total c marker iv words size) where
  fresh := rfl
  reset := fun _ => rfl
  add := fun o d i hd => addData (by omega) (by omega) (blakeImpl c 0) o (Nat.le_of_lt (roomT 64 i)) d hd
  fin := fun o i => blakeFin (writes := lenWritesBE64) c (by decide) hm _ _ (fun _ b h hs => writesBE64 h hs b) o (roomT 64 i)
  out := fun _ => rfl

theorem blake64 (hm : 8 * 128 < 2 ^ m) (c : BLAKE.Cfg 64 128 Uint128) (marker : Bool) (iv : Vector W64 8) (words size : Nat) :
    Twin m (BLAKE.api64 c marker iv words size) (BLAKE.api64M m c marker iv words size) (blake64Total c marker iv words size) where
  fresh := rfl
  reset := fun _ => rfl
  add := fun o d i hd => addData (by omega) (by omega) (blakeImpl c 0) o (Nat.le_of_lt (roomT 128 i)) d hd
  fin := fun o i => blakeFin (writes := lenWritesBE128) c (by decide) hm _ _ (fun _ b h hs => writesBE128 h hs b) o (roomT 128 i)
  out := fun _ => rfl

theorem blake2Impl (c : BLAKE2.Cfg w B C) (f : Bool) (p : Nat) (s : BLAKE2.State w C) (d : List Byte)
    (h : d.length < 2 ^ m) : BLAKE2.implM m c f p s d = BLAKE2.impl c f p s d := by
  unfold BLAKE2.implM BLAKE2.impl
  rw [forBlocks _ d h]

theorem blake2Tail {S : Type} {impl implM : S → List Byte → Except Fault S} (hB : 0 < B)
    (hi : ∀ s d, d.length < 2 ^ m → implM s d = impl s d)
    (o : Obj B S) (d : List Byte) (hd : d.length < 2 ^ m) (h0 : d ≠ []) :
    BLAKE2.addDataTailM m B implM o d = BLAKE2.addDataTail B impl o d := by
  unfold BLAKE2.addDataTailM BLAKE2.addDataTail
  simp only []
  have hr : (if d.length % B ≠ 0 then d.length % B else B) ≤ d.length := by
    have hpos := List.length_pos_iff.mpr h0
    split
    · exact Nat.mod_le _ _
    · rename_i h
      rcases Nat.lt_or_ge d.length B with hlt | hge
      · rw [Nat.mod_eq_of_lt hlt] at h; omega
      · exact hge
  rw [szSub_eq hr hd]
  refine bind_eq rfl fun f hf => ?_
  have : f.length < 2 ^ m := by have := first_le hf; omega
  exact bind_eq (hi _ _ this) fun c _ => rfl

theorem pushBack_size {N : Nat} (l : List Byte) : ∀ {b b' : Buffer N}, b.pushBack l = .ok b' → b.size ≤ N → b'.size ≤ N := by
  induction l with
  | nil =>
    intro b b' e h
    rw [← Except.ok.inj e]; exact h
  | cons x xs ih =>
    intro b b' e h
    cases e1 : b.fill x 1 with
    | error =>
      rw [Buffer.pushBack, e1] at e; cases e
    | ok b1 =>
      rw [Buffer.pushBack, e1] at e
      exact ih e (fill_size e1).2

theorem blake2Add {S : Type} {impl implM : S → List Byte → Except Fault S} (hB : 0 < B) (hm : B < 2 ^ m)
    (hi : ∀ s d, d.length < 2 ^ m → implM s d = impl s d) :
    ∀ fuel (o : Obj B S) (d : List Byte), d.length ≤ fuel → d.length < 2 ^ m → o.buffer.size ≤ B →
      BLAKE2.addDataM m B implM fuel o d = BLAKE2.addData B impl o d := by
  intro fuel
  induction fuel with
  | zero =>
    intro o d h _ _
    have : d = [] := List.eq_nil_of_length_eq_zero (by omega)
    subst this
    rw [BLAKE2.addData, BLAKE2.addDataM]
    rfl
  | succ fuel ih =>
    intro o d h hd ho
    rw [BLAKE2.addData, BLAKE2.addDataM]
    by_cases he : d.isEmpty
    · rw [if_pos he, if_pos he]
    rw [if_neg he, if_neg he]
    have h0 : d ≠ [] := by
      intro e; subst e; exact he rfl
    have hpos := List.length_pos_iff.mpr h0
    by_cases hf : o.buffer.size = B
    · rw [if_pos hf, if_pos hf]
      exact bind_eq (hi _ _ (by have := contents_le o.buffer; omega)) fun s _ => blake2Tail hB hi _ _ hd h0
    rw [if_neg hf, if_neg hf]
    split
    · simp only []
      rw [szSub_eq ho hm, if_neg (by omega)]
      cases eb : o.buffer.pushBack (d.take (min (B - o.buffer.size) d.length)) with
      | error => rfl
      | ok b =>
        show (spanSub _ _ >>= _) = _
        unfold spanSub
        rw [if_pos (Nat.min_le_right _ _)]
        exact ih _ _ (by rw [List.length_drop]; omega) (by rw [List.length_drop]; omega) (pushBack_size _ eb ho)
    · exact blake2Tail hB hi _ _ hd h0

theorem fits_size {S : Type} {o : Obj B S} (h : Fits o) : o.buffer.size ≤ B := by
  obtain ⟨l, hb⟩ := h
  rw [hb.size_eq]; exact hb.le

theorem blake2 (hB : 0 < B) (hm : B < 2 ^ m) (c : BLAKE2.Cfg w B C) (k size : Nat) :
    Twin m (BLAKE2.api c k size) (BLAKE2.apiM m c k size) (blake2Total hB c k size) where
  fresh := rfl
  reset := fun _ => rfl
  add := fun o d i hd => blake2Add hB hm (blake2Impl c false 0) d.length o d (Nat.le_refl _) hd (fits_size i)
  fin := fun o i => by
    show BLAKE2.finalizeM m c o = BLAKE2.finalize c o
    unfold BLAKE2.finalizeM BLAKE2.finalize
    rw [szSub_eq (fits_size i) hm]
    refine bind_eq rfl fun b _ => bind_eq (blake2Impl c _ _ _ _ ?_) fun _ _ => rfl
    have := contents_le b; omega
  out := fun _ => rfl

end

theorem sipImpl {m : Nat} (C : Nat) (s : SipHash.State) (d : List Byte) (h : d.length < 2 ^ m) :
    SipHash.implM m C s d = SipHash.impl C s d := by
  unfold SipHash.implM SipHash.impl
  rw [forBlocks _ d h]

theorem sip {m : Nat} (hm : 16 < 2 ^ m) (C D : Nat) (key : Block 16) :
    Twin m (SipHash.SipHashCD C D key) (SipHash.SipHashCDM m C D key) (sipTotal C D key) where
  fresh := rfl
  reset := fun _ => rfl
  add := fun o d i hd => addData (by omega) (by omega) (sipImpl C) o
    (Nat.le_of_lt (room_size (P := fun s : SipHash.State => s.key = (SipHash.constructKey key).chain.key) (B := 8) i)) d hd
  fin := fun o i => by
    have := room_size (P := fun s : SipHash.State => s.key = (SipHash.constructKey key).chain.key) (B := 8) i
    show SipHash.finalizeM m C D o = SipHash.finalize C D o
    unfold SipHash.finalizeM SipHash.finalize
    rw [szSub_eq (by omega) (by omega)]
    refine bind_eq rfl fun b _ => bind_eq rfl fun b2 _ => bind_eq (sipImpl C _ _ ?_) fun _ _ => rfl
    have := contents_le b2; omega
  out := fun _ => rfl

theorem crcTail {m : Nat} (d : List Byte) (hd : d.length < 2 ^ m) : ∀ fuel p h,
    CRC32.tailLoopM m d fuel p h = CRC32.tailLoop d fuel p h := by
  intro fuel
  induction fuel with
  | zero => intro p h; rfl
  | succ fuel ih =>
    intro p h
    rw [CRC32.tailLoopM, CRC32.tailLoop]
    split
    · rename_i hp
      rw [szAdd_eq (by omega)]
      cases d[p]? with
      | some x => exact ih _ _
      | none => rfl
    · rfl

theorem crc (m : Nat) : Twin m CRC32.CRC_32 (CRC32.CRC_32M m) crcTotal where
  fresh := rfl
  reset := fun _ => rfl
  add := fun o d _ hd => by
    show CRC32.addDataM m o d = CRC32.addData o d
    unfold CRC32.addDataM CRC32.addData
    have := Nat.div_mul_le_self d.length 16
    rw [forBlocks _ d hd, szMul_eq (by omega)]
    exact bind_eq rfl fun h _ => crcTail d hd _ _ h
  fin := fun _ _ => rfl
  out := fun _ => rfl

end Verif.Proof.Machine
