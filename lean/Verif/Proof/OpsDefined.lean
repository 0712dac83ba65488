import Verif.Model.OpsTables
import Verif.Proof.OpsMore

/-! No shift is by as many bits as the word has: the block functions one by one, then the classes. -/

namespace Verif.Proof.OpsDefined
open Verif Verif.Ops Model Proof.Ops

/-- nothing undefined is executed -/
def Fine {α : Type} (x : Ops α) : Prop := ∀ i ∈ x.ops, i.Defined

/-! ## Operation by operation -/

theorem fine_append {a b : List Instr} (h : ∀ i ∈ a, i.Defined) (k : ∀ i ∈ b, i.Defined) : ∀ i ∈ a ++ b, i.Defined := by
  intro i hi
  rcases List.mem_append.1 hi with hi | hi
  · exact h i hi
  · exact k i hi

theorem fine_one {i : Instr} (h : i.Defined) : ∀ j ∈ [i], j.Defined := by
  intro j hj
  rw [List.mem_singleton.1 hj]
  exact h

section
variable {α β : Type} {w n r : Nat}

theorem fine_bind {x : Ops α} {f : α → Ops β} (h : Fine x) (hf : ∀ a, Fine (f a)) : Fine (x >>= f) := fine_append h (hf _)
theorem fine_pure (x : α) : Fine (pure x : Ops α) := fun _ h => by cases h
theorem fine_var (x : BitVec w) : Fine (var x) := fun _ h => by cases h
theorem fine_rd (name : String) (v : Vector (BitVec w) n) (i : Nat) (h : i < n) : Fine (rd name v i h) := fine_one trivial
theorem fine_byte (m : Block n) (i : Nat) (h : i < n) : Fine (byte w m i h) := fine_one trivial
theorem fine_two {x y : Ops (BitVec w)} {i : Instr} (hi : i.Defined) (h : Fine x) (k : Fine y) :
    ∀ j ∈ x.ops ++ y.ops ++ [i], j.Defined := fine_append (fine_append h k) (fine_one hi)
theorem fine_add {x y : Ops (BitVec w)} (h : Fine x) (k : Fine y) : Fine (x + y) := fine_two trivial h k
theorem fine_sub {x y : Ops (BitVec w)} (h : Fine x) (k : Fine y) : Fine (x - y) := fine_two trivial h k
theorem fine_mul {x y : Ops (BitVec w)} (h : Fine x) (k : Fine y) : Fine (x * y) := fine_two trivial h k
theorem fine_xor {x y : Ops (BitVec w)} (h : Fine x) (k : Fine y) : Fine (x ^^^ y) := fine_two trivial h k
theorem fine_and {x y : Ops (BitVec w)} (h : Fine x) (k : Fine y) : Fine (x &&& y) := fine_two trivial h k
theorem fine_or {x y : Ops (BitVec w)} (h : Fine x) (k : Fine y) : Fine (x ||| y) := fine_two trivial h k
theorem fine_not {x : Ops (BitVec w)} (h : Fine x) : Fine (~~~x) := fine_append h (fine_one trivial)
theorem fine_shl {x : Ops (BitVec w)} {s : Nat} (hs : s < w) (h : Fine x) : Fine (x <<< s) := fine_append h (fine_one hs)
theorem fine_shr {x : Ops (BitVec w)} {s : Nat} (hs : s < w) (h : Fine x) : Fine (x >>> s) := fine_append h (fine_one hs)
theorem fine_ror {x : Ops (BitVec w)} {s : Nat} (hs : s < w) (h : Fine x) : Fine (Ops.ror r x s) := fine_append h (fine_one hs)

theorem fine_rotl {x : Ops (BitVec w)} {s : Nat} (hs : s < w) (h : Fine x) : Fine (Ops.rotl x s) := by
  refine fine_append h ?_
  split
  · exact fun _ h => by cases h
  · intro i hi
    simp only [List.mem_cons, List.not_mem_nil, or_false] at hi
    rcases hi with rfl | rfl | rfl
    · exact hs
    · show w - s < w; omega
    · trivial

theorem fine_rotr {x : Ops (BitVec w)} {s : Nat} (hs : s < w) (h : Fine x) : Fine (Ops.rotr x s) := by
  refine fine_append h ?_
  split
  · exact fun _ h => by cases h
  · intro i hi
    simp only [List.mem_cons, List.not_mem_nil, or_false] at hi
    rcases hi with rfl | rfl | rfl
    · exact hs
    · show w - s < w; omega
    · trivial

theorem fine_wr {x : Ops (BitVec w)} (h : Fine x) (name : String) (v : Vector (BitVec w) n) (i : Nat) (hi : i < n) :
    Fine (wr name v i x hi) := fine_append h (fine_one trivial)
theorem fine_lookup {i : Ops Byte} (h : Fine i) (name : String) (v : Vector (BitVec w) 256) : Fine (lookup name v i) :=
  fine_append h (fine_one trivial)
theorem fine_storeList_nil (name : String) (i : Nat) : Fine (storeList name i ([] : List (Ops (BitVec w)))) := fun _ h => by cases h
theorem fine_storeList_cons {x : Ops (BitVec w)} {xs : List (Ops (BitVec w))} {name : String} {i : Nat}
    (h : Fine x) (k : Fine (storeList name (i + 1) xs)) : Fine (storeList name i (x :: xs)) :=
  fine_append (fine_append h (fine_one trivial)) k
theorem fine_stores {xs : List (Ops (BitVec w))} {name : String} (k : Fine (storeList name 0 xs)) (h : xs.length = n) :
    Fine (stores name xs h) := k

theorem fine_fold {g : α → β → Ops α} {l : List β} (h : ∀ b ∈ l, ∀ a, Fine (g a b)) : ∀ a, Fine (fold g l a) := by
  induction l with
  | nil => intro a _ h; cases h
  | cons b l ih =>
    intro a
    exact fine_bind (h b (List.mem_cons_self ..) a) (ih fun b hb => h b (List.mem_cons_of_mem _ hb))

theorem fine_forRange {lo hi : Nat} {g : (t : Nat) → lo ≤ t → t < hi → α → Ops α} (h : ∀ t h1 h2 a, Fine (g t h1 h2 a)) (a : α) :
    Fine (Ops.forRange lo hi a g) := by
  unfold Ops.forRange
  have : ∀ n (hn : n ≤ hi - lo),
      Fine (Nat.fold n (fun i h s => s >>= g (lo + i) (by omega) (by omega)) (⟨a, []⟩ : Ops α)) := by
    intro n
    induction n with
    | zero => intro _ _ h; cases h
    | succ n ih =>
      intro hn
      rw [Nat.fold_succ]
      exact fine_bind (ih (by omega)) (h _ _ _)
  exact this _ (Nat.le_refl _)

end

/-- operation by operation; the amounts that are numerals are checked -/
macro "fine_ops" : tactic => `(tactic|
  repeat' first
    | with_reducible exact fine_rd _ _ _ _
    | with_reducible exact fine_var _
    | with_reducible exact fine_pure _
    | with_reducible exact fine_byte _ _ _
    | with_reducible refine fine_bind ?_ (fun _ => ?_)
    | with_reducible refine fine_wr ?_ _ _ _ _
    | with_reducible refine fine_stores ?_ _
    | with_reducible exact fine_storeList_nil _ _
    | with_reducible refine fine_storeList_cons ?_ ?_
    | with_reducible refine fine_lookup ?_ _ _
    | with_reducible refine fine_rotl (by first | decide | assumption) ?_
    | with_reducible refine fine_rotr (by first | decide | assumption) ?_
    | with_reducible refine fine_ror (by first | decide | assumption) ?_
    | with_reducible refine fine_shl (by first | decide | assumption) ?_
    | with_reducible refine fine_shr (by first | decide | assumption) ?_
    | with_reducible refine fine_add ?_ ?_
    | with_reducible refine fine_sub ?_ ?_
    | with_reducible refine fine_xor ?_ ?_
    | with_reducible refine fine_mul ?_ ?_
    | with_reducible refine fine_and ?_ ?_
    | with_reducible refine fine_or ?_ ?_
    | with_reducible refine fine_not ?_
    | with_reducible refine fine_fold (fun _ _ _ => ?_) _
    | with_reducible refine fine_forRange (fun _ _ _ _ => ?_) _)

section
variable {n : Nat}
theorem fine_loadBE32 (m : Block n) (i : Nat) (h : 4 * i + 4 ≤ n) : Fine (Ops.loadBE32 m i h) := by unfold Ops.loadBE32; fine_ops
theorem fine_loadLE32 (m : Block n) (i : Nat) (h : 4 * i + 4 ≤ n) : Fine (Ops.loadLE32 m i h) := by unfold Ops.loadLE32; fine_ops
theorem fine_loadBE64 (m : Block n) (i : Nat) (h : 8 * i + 8 ≤ n) : Fine (Ops.loadBE64 m i h) := by unfold Ops.loadBE64; fine_ops
theorem fine_loadLE64 (m : Block n) (i : Nat) (h : 8 * i + 8 ≤ n) : Fine (Ops.loadLE64 m i h) := by unfold Ops.loadLE64; fine_ops
end

/-! ## The block functions -/

theorem sha1 : DefinedSteps SHA1.compressO := by
  intro s m
  show Fine _
  unfold SHA1.compressO
  fine_ops
  unfold SHA1.execO
  rename_i q _ _
  fine_ops
  · unfold SHA1.schedO
    cases q.rnd <;> (dsimp only; first | (split <;> first | exact fine_loadBE32 _ _ _ | exact fine_var _) | fine_ops)
  · unfold SHA1.fnO
    cases q.rnd <;> (dsimp only; fine_ops)

section
variable {w B : Nat} {c : SHA2.Cfg w B} {k : SHA2.CfgO c}

theorem sha2 (h1 : ∀ m t h, Fine (k.load m t h)) (h2 : ∀ x, Fine (k.ssig0 x)) (h3 : ∀ x, Fine (k.ssig1 x)) (h4 : ∀ x, Fine (k.bsig0 x))
    (h5 : ∀ x, Fine (k.bsig1 x)) (hl : 16 ≤ 8 * c.loops) : DefinedSteps (SHA2.compressO k hl) := by
  intro s m
  show Fine _
  unfold SHA2.compressO SHA2.wTableO SHA2.eightRoundsO SHA2.roundO SHA2.chO SHA2.majO
  fine_ops
  all_goals first | apply h1 | apply h2 | apply h3 | apply h4 | apply h5

end

theorem sha2_32 : DefinedSteps (SHA2.compressO SHA2.cfgO32 (by decide)) :=
  sha2 (fun _ _ _ => fine_loadBE32 _ _ _) (fun _ => by unfold SHA2.cfgO32; fine_ops) (fun _ => by unfold SHA2.cfgO32; fine_ops)
    (fun _ => by unfold SHA2.cfgO32; fine_ops) (fun _ => by unfold SHA2.cfgO32; fine_ops) (by decide)

theorem sha2_64 : DefinedSteps (SHA2.compressO SHA2.cfgO64 (by decide)) :=
  sha2 (fun _ _ _ => fine_loadBE64 _ _ _) (fun _ => by unfold SHA2.cfgO64; fine_ops) (fun _ => by unfold SHA2.cfgO64; fine_ops)
    (fun _ => by unfold SHA2.cfgO64; fine_ops) (fun _ => by unfold SHA2.cfgO64; fine_ops) (by decide)

theorem md4 : DefinedSteps MD4.compressO := by
  intro s m
  show Fine _
  unfold MD4.compressO
  fine_ops
  rename_i q hq _
  have hs : q.s < 32 := (by decide +kernel : ∀ q ∈ MD4.calls, q.s < 32) q hq
  unfold MD4.execO
  dsimp only
  cases q.rnd <;> (dsimp only; fine_ops; exact fine_loadLE32 _ _ _)

theorem md5 : DefinedSteps MD5.compressO := by
  intro s m
  show Fine _
  unfold MD5.compressO
  fine_ops
  rename_i q hq _
  have hs : q.s < 32 := (by decide +kernel : ∀ q ∈ MD5.calls, q.s < 32) q hq
  unfold MD5.execO
  fine_ops
  · cases q.func <;> (unfold MD5.Fn.applyO; dsimp only; fine_ops)
  · exact fine_loadLE32 _ _ _

theorem ripemd_fn (f : RIPEMD.Fn) (x y z : W32) : Fine (RIPEMD.fnO f x y z) := by
  cases f <;> (unfold RIPEMD.fnO; dsimp only; fine_ops)

theorem line4 (m : Block 64) (v : Vector W32 4) (q : RIPEMD.Call4) (hs : q.s < 32) : Fine (RIPEMD.line4O m v q) := by
  unfold RIPEMD.line4O
  fine_ops
  · exact ripemd_fn _ _ _ _
  · exact fine_loadLE32 _ _ _

theorem line5 (m : Block 64) (v : Vector W32 5) (q : RIPEMD.Call5) (hs : q.s < 32) : Fine (RIPEMD.line5O m v q) := by
  unfold RIPEMD.line5O
  fine_ops
  · exact ripemd_fn _ _ _ _
  · exact fine_loadLE32 _ _ _

/-- the call of a statement -/
def callOf {C : Type} : RIPEMD.Stmt C → C
  | .left q => q
  | .right q => q

theorem ripemd_exec {C V : Type} {g : V → C → Ops V} (q : RIPEMD.Stmt C) (h : ∀ v, Fine (g v (callOf q))) (s : V × V) :
    Fine (RIPEMD.execO g s q) := by
  cases q with
  | left q => exact fine_bind (h _) fun _ => fine_pure _
  | right q => exact fine_bind (h _) fun _ => fine_pure _

theorem calls4 : ∀ q ∈ RIPEMD.seg4_0 ++ RIPEMD.seg4_1 ++ RIPEMD.seg4_2 ++ RIPEMD.seg4_3, (callOf q).s < 32 := by decide +kernel
theorem calls5 : ∀ q ∈ RIPEMD.seg5_0 ++ RIPEMD.seg5_1 ++ RIPEMD.seg5_2 ++ RIPEMD.seg5_3 ++ RIPEMD.seg5_4, (callOf q).s < 32 := by
  decide +kernel

theorem exec4 (m : Block 64) (q : RIPEMD.Stmt RIPEMD.Call4)
    (hq : q ∈ RIPEMD.seg4_0 ++ RIPEMD.seg4_1 ++ RIPEMD.seg4_2 ++ RIPEMD.seg4_3) (s : Vector W32 4 × Vector W32 4) :
    Fine (RIPEMD.execO (RIPEMD.line4O m) s q) := ripemd_exec q (fun v => line4 m v _ (calls4 q hq)) s
theorem exec5 (m : Block 64) (q : RIPEMD.Stmt RIPEMD.Call5)
    (hq : q ∈ RIPEMD.seg5_0 ++ RIPEMD.seg5_1 ++ RIPEMD.seg5_2 ++ RIPEMD.seg5_3 ++ RIPEMD.seg5_4) (s : Vector W32 5 × Vector W32 5) :
    Fine (RIPEMD.execO (RIPEMD.line5O m) s q) := ripemd_exec q (fun v => line5 m v _ (calls5 q hq)) s

theorem ripemd128 : DefinedSteps RIPEMD.compress128O := by
  intro s m
  show Fine _
  unfold RIPEMD.compress128O
  fine_ops
  exact exec4 m _ ‹_› _

theorem ripemd160 : DefinedSteps RIPEMD.compress160O := by
  intro s m
  show Fine _
  unfold RIPEMD.compress160O
  fine_ops
  exact exec5 m _ ‹_› _

theorem ripemd256 : DefinedSteps RIPEMD.compress256O := by
  intro s m
  show Fine _
  unfold RIPEMD.compress256O
  fine_ops
  all_goals exact exec4 m _ (by simp [List.mem_append, *]) _

theorem ripemd320 : DefinedSteps RIPEMD.compress320O := by
  intro s m
  show Fine _
  unfold RIPEMD.compress320O
  fine_ops
  all_goals exact exec5 m _ (by simp [List.mem_append, *]) _

theorem has160_exec (xt : Vector W32 20) (r : Vector W32 5) (q : HAS160.Call) (hs : q.s1 < 32) : Fine (HAS160.execO xt r q) := by
  unfold HAS160.execO
  fine_ops
  · unfold HAS160.fnO
    cases q.rnd <;> (dsimp only; fine_ops)
  · refine fine_rotl ?_ (fine_var _)
    cases q.rnd <;> decide

theorem has160_calls : ∀ q ∈ HAS160.seg0 ++ HAS160.seg1 ++ HAS160.seg2 ++ HAS160.seg3, q.s1 < 32 := by decide +kernel

theorem has160 : DefinedSteps HAS160.compressO := by
  intro s m
  show Fine _
  unfold HAS160.compressO HAS160.loadXO HAS160.roundsO HAS160.extendO
  fine_ops
  · exact fine_loadLE32 _ _ _
  all_goals exact has160_exec _ _ _ (has160_calls _ (by simp [List.mem_append, *]))

theorem hasv_fn (i : Fin 5) {x y z u : Ops W32} (h1 : Fine x) (h2 : Fine y) (h3 : Fine z) (h4 : Fine u) : Fine (HASV.fnO i x y z u) := by
  unfold HASV.fnO
  split <;> (fine_ops <;> assumption)

theorem hasv_table : ∀ j : Fin 20, HASV.sTable[j] < 32 := by decide

theorem hasv_line (name : String) (t : Vector W32 20) (a b c d e : Fin 10) (f : Fin 5) (k : W32) (j : Fin 100) (r : Vector W32 10) :
    Fine (HASV.lineO name t a b c d e f k j r) := by
  have hs : HASV.sTable[j.val % 20]'(by omega) < 32 := hasv_table ⟨j.val % 20, by omega⟩
  unfold HASV.lineO
  fine_ops
  exact hasv_fn f (fine_var _) (fine_var _) (fine_var _) (fine_var _)

theorem hasv_exec (s : HASV.Vars) (q : HASV.Stmt) : Fine (HASV.execO s q) := by
  unfold HASV.execO
  split
  · unfold HASV.extendO; fine_ops
  · unfold HASV.extendO; fine_ops
  · exact fine_bind (by apply hasv_line) fun _ => fine_pure _
  · exact fine_bind (by apply hasv_line) fun _ => fine_pure _
  · exact fine_pure _

theorem hasv : DefinedSteps HASV.compressO := by
  intro s m
  show Fine _
  unfold HASV.compressO HASV.startO
  fine_ops
  · exact fine_loadLE32 _ _ _
  · exact fine_loadLE32 _ _ _
  · exact hasv_exec _ _

theorem sm3 : DefinedSteps SM3.compressO := by
  intro s m
  show Fine _
  unfold SM3.compressO SM3.expandO SM3.permutation1O SM3.execO SM3.permutation0O
  fine_ops
  · exact fine_loadBE32 _ _ _
  · rename_i q _ _ _ _ _ _
    unfold SM3.ffO
    split <;> fine_ops
  · unfold SM3.ggO
    split <;> fine_ops

section
open Model.BLAKE
variable {w B : Nat} {C : Type} {c : Cfg w B C} {k : CfgO c}

theorem blake (hl : ∀ m t, Fine (k.load m t)) (h1 : c.r1 < w) (h2 : c.r2 < w) (h3 : c.r3 < w) (h4 : c.r4 < w) (p : Nat) :
    DefinedSteps (bodyO k p) := by
  intro s m
  show Fine _
  unfold bodyO vInitO foldHashO mixO
  dsimp only
  split
  · unfold vCountO
    fine_ops
    all_goals exact hl _ _
  · fine_ops
    all_goals exact hl _ _

end

theorem blake224 (p : Nat) : DefinedSteps (BLAKE.bodyO BLAKE.cfgO224 p) :=
  blake (fun _ _ => fine_loadBE32 _ _ _) (by decide) (by decide) (by decide) (by decide) p
theorem blake256 (p : Nat) : DefinedSteps (BLAKE.bodyO BLAKE.cfgO256 p) :=
  blake (fun _ _ => fine_loadBE32 _ _ _) (by decide) (by decide) (by decide) (by decide) p
theorem blake512 (p : Nat) : DefinedSteps (BLAKE.bodyO BLAKE.cfgO512 p) :=
  blake (fun _ _ => fine_loadBE64 _ _ _) (by decide) (by decide) (by decide) (by decide) p

section
open Model.BLAKE2
variable {w B : Nat} {C : Type} {c : Cfg w B C} {k : CfgO c}

theorem blake2 (hl : ∀ m t, Fine (k.load m t)) (h1 : c.r1 < w) (h2 : c.r2 < w) (h3 : c.r3 < w) (h4 : c.r4 < w) (f : Bool) (p : Nat) :
    DefinedSteps (bodyO k f p) := by
  intro s m
  show Fine _
  unfold bodyO vInitO foldHashO mixO
  fine_ops
  any_goals exact hl _ _
  split <;> fine_ops

end

theorem blake2b (f : Bool) (p : Nat) : DefinedSteps (BLAKE2.bodyO BLAKE2.cfgO2 f p) :=
  blake2 (fun _ _ => fine_loadLE64 _ _ _) (by decide) (by decide) (by decide) (by decide) f p
theorem blake2s (f : Bool) (p : Nat) : DefinedSteps (BLAKE2.bodyO BLAKE2.cfgO2s f p) :=
  blake2 (fun _ _ => fine_loadLE32 _ _ _) (by decide) (by decide) (by decide) (by decide) f p

theorem sha3 {R : Nat} [SHA3.RateOK R] : DefinedSteps (SHA3.bodyO (R := R)) := by
  intro s m
  show Fine _
  unfold SHA3.bodyO SHA3.xorBlockO SHA3.permuteO SHA3.thetaO SHA3.rhoPiChiO SHA3.tmpO SHA3.iotaO
  fine_ops
  exact fine_loadLE64 _ _ _

theorem sipRounds (n : Nat) (v : Vector W64 4) : Fine (SipHash.roundsO n v) := by
  unfold SipHash.roundsO SipHash.sipRoundO
  fine_ops

theorem sip (C : Nat) : DefinedSteps (SipHash.bodyO C) := by
  intro s m
  show Fine _
  unfold SipHash.bodyO
  fine_ops
  · exact fine_loadLE64 _ _ _
  · exact sipRounds _ _
  · exact fine_loadLE64 _ _ _

theorem sipLast (D : Nat) (v : Vector W64 4) : Fine (SipHash.lastO D v) := by
  unfold SipHash.lastO
  fine_ops
  exact sipRounds _ _

theorem sipKeyed (k : Vector W64 2) : Fine (SipHash.keyedO k) := by
  unfold SipHash.keyedO
  fine_ops

theorem sipLoadKey (k : Block 16) : Fine (SipHash.loadKeyO k) := by
  unfold SipHash.loadKeyO
  fine_ops
  all_goals exact fine_loadLE64 _ _ _

theorem fnv_mul {w : Nat} {h : Ops (BitVec w)} (k : Fine h) : Fine (FNV.multiplyPrimeO h) := by
  unfold FNV.multiplyPrimeO
  split
  · fine_ops; exact k
  · split
    · fine_ops; exact k
    · exact k

theorem fnv (w v : Nat) : DefinedSteps (FNV.bodyO (w := w) v) := by
  intro s m
  show Fine _
  unfold FNV.bodyO
  refine fine_bind (fine_one trivial) fun d => fine_bind ?_ fun h => ?_
  · split
    · exact fine_xor (fnv_mul (fine_var _)) (fine_var _)
    · exact fine_var _
  · split
    · exact fnv_mul (fine_xor (fine_var _) (fine_var _))
    · exact fine_var _

theorem crc32 : DefinedSteps CRC32.bodyO := by
  intro s m
  show Fine _
  unfold CRC32.bodyO
  fine_ops
  all_goals exact fine_loadLE32 _ _ _

theorem crc32Tail : DefinedSteps CRC32.tailByteO := by
  intro s m
  show Fine _
  unfold CRC32.tailByteO
  fine_ops

theorem md2 : DefinedSteps MD2.bodyO := by
  intro s m
  show Fine _
  unfold MD2.bodyO MD2.checksumLoopO MD2.loadLoopO MD2.mixLoopO MD2.innerLoopO
  fine_ops

theorem tigerRound (a b c : W64) {x : Ops W64} (h : Fine x) (mul : W64) : Fine (Tiger.roundO a b c x mul) := by
  unfold Tiger.roundO
  fine_ops
  exact h

theorem tigerPass (x : Vector W64 8) (a b c mul : W64) : Fine (Tiger.passO x a b c mul) := by
  unfold Tiger.passO
  fine_ops
  all_goals
    apply tigerRound
    exact fine_rd _ _ _ _

theorem tigerSchedule (x : Vector W64 8) : Fine (Tiger.keyScheduleO x) := by
  unfold Tiger.keyScheduleO
  fine_ops

theorem tigerLoad (m : Block 64) : Fine (Tiger.loadO m) := by
  unfold Tiger.loadO
  fine_ops
  all_goals exact fine_loadLE64 _ _ _

theorem tiger : DefinedSteps Tiger.compressO := by
  intro s m
  show Fine _
  unfold Tiger.compressO
  fine_ops
  all_goals with_reducible first | exact tigerLoad _ | exact tigerSchedule _ | exact tigerPass _ _ _ _ _

theorem whirlpool_func (name : String) (x : Vector W64 8) (a b c d e f g h : Fin 8) : Fine (Whirlpool.funcO name x a b c d e f g h) := by
  unfold Whirlpool.funcO
  fine_ops

theorem whirlpool_round (k s : Vector W64 8) (r : Fin 10) : Fine (Whirlpool.roundO k s r) := by
  unfold Whirlpool.roundO Whirlpool.copyO
  fine_ops
  all_goals apply whirlpool_func

theorem whirlpool : DefinedSteps Whirlpool.compressO := by
  intro s m
  show Fine _
  unfold Whirlpool.compressO Whirlpool.startO
  fine_ops
  · exact fine_loadBE64 _ _ _
  · exact whirlpool_round _ _ _
  · exact fine_loadBE64 _ _ _

end Verif.Proof.OpsDefined
