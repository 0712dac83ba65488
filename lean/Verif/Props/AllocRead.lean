import Verif.Proof.AllocRead
import Verif.Props.Alloc
import Verif.Props.CShake
import Verif.Proof.Render

/-!
# C50: reading digests when memory runs out; cSHAKE and TupleHash

`toVector` and `toString` may throw `std::bad_alloc`. Conversions to integers and `std::hash` are `noexcept`: in the
classes built on `Keccak` they allocate all the same, and a failing allocation ends the program.
-/

namespace Verif.Props
open Model Model.SHA3 Model.CShake Proof.SHA3 Proof.Alloc Proof.CShake Proof.CShakeAny Proof.Misuse Proof.AllocRead
open Spec

/-- A read `got` that may fail, against what it gives when there is memory: it throws or gives that. -/
def ThrowsOrReads {α : Type} (f : Supply) (got : Except Fault (Reading α)) (usual : Except Fault α) : Prop :=
  got ≠ .ok .terminated ∧ (∀ v, got = .ok (.value v) → usual = .ok v) ∧ (f.Plenty → ∀ v, usual = .ok v → got = .ok (.value v))

/-- C50: the classes whose headers define `toArray`. Reading throws or gives the usual result; conversions to integers
(and so `std::hash`) never fail. -/
theorem C50_toArray_reads {O : Type} (A : API O) (f : Supply) (o : O) :
    ThrowsOrReads f (A.toVectorA f o) (A.toVector o) ∧ ThrowsOrReads f (A.toStringA f o) (A.toString o) ∧
      ∀ k v, A.toUInt k o = .ok v → A.toUIntA f k o = .ok (.value v) := by
  unfold API.toVectorA API.toStringA API.toUIntA API.toVector API.toString API.toUInt
  cases A.toArray o with
  | error e =>
    refine ⟨⟨?_, ?_, ?_⟩, ⟨?_, ?_, ?_⟩, ?_⟩ <;> simp [bind, Except.bind]
  | ok d =>
    simp only [bind, Except.bind, pure, Except.pure]
    refine ⟨?_, ?_, fun k v h => ?_⟩
    · cases hf : f.fails 0 with
      | true => exact ⟨by simp, by simp, fun hp => by rw [hp] at hf; cases hf⟩
      | false => exact ⟨by simp, by simp, by simp⟩
    · cases hf : f.fails 0 with
      | true => exact ⟨by simp, by simp, fun hp => by rw [hp] at hf; cases hf⟩
      | false =>
        cases renderHex d with
        | error _ => exact ⟨by simp, by simp, by simp⟩
        | ok s => exact ⟨by simp, by simp, by simp⟩
    · rw [h]; rfl

/-- C50: the same for SHA-3 and SHAKE objects in whatever state, except for the conversions. -/
theorem C50_SHA3_reads {R : Nat} [RateOK R] (P : Byte) (d : Nat) (f : Supply) (o : Obj R KState) :
    ThrowsOrReads f (SHA3.toVectorA f o) ((SHA3.Keccak R P d).toVector o) ∧
      ThrowsOrReads f (SHA3.toStringA f o) ((SHA3.Keccak R P d).toString o) := by
  have ht : (SHA3.Keccak R P d).toVector o = .ok o.chain.final := rfl
  have hs : (SHA3.Keccak R P d).toString o = renderHex o.chain.final := rfl
  rw [ht, hs]
  unfold SHA3.toStringA SHA3.toVectorA SHA3.toVector
  cases h0 : f.fails 0 with
  | true =>
    simp only [if_true, bind, Except.bind, pure, Except.pure]
    exact ⟨⟨by simp, by simp, fun hp => by rw [hp] at h0; cases h0⟩, ⟨by simp, by simp, fun hp => by rw [hp] at h0; cases h0⟩⟩
  | false =>
    simp only [Bool.false_eq_true, if_false, bind, Except.bind, pure, Except.pure]
    refine ⟨⟨by simp, by simp, by simp⟩, ?_⟩
    cases h1 : f.fails 1 with
    | true => exact ⟨by simp, by simp, fun hp => by rw [hp] at h1; cases h1⟩
    | false =>
      cases renderHex o.chain.final with
      | error _ => exact ⟨by simp, by simp, by simp⟩
      | ok s => exact ⟨by simp, by simp, by simp⟩

private theorem convert {R : Nat} (f : Supply) (k : Nat) (o : Obj R KState) :
    (f.fails 0 = true → SHA3.toUIntA f k o = .ok .terminated) ∧
    (f.fails 0 = false → ∀ v, convertInt k o.chain.final = .ok v → SHA3.toUIntA f k o = .ok (.value v)) := by
  unfold SHA3.toUIntA SHA3.toVectorA SHA3.toVector
  refine ⟨fun h => ?_, fun h v e => ?_⟩
  · rw [h]; rfl
  · rw [h]
    simp only [Bool.false_eq_true, if_false, bind, Except.bind, pure, Except.pure, e]
    rfl

/-- C50: conversions of SHA-3 and SHAKE objects (and so `std::hash`) give the usual number if their one allocation does
not fail. -/
theorem C50_SHA3_convert_partial {R : Nat} [RateOK R] (P : Byte) (d : Nat) (f : Supply) (hf : f.fails 0 = false)
    (o : Obj R KState) (k : Nat) (v : BitVec (8 * k)) (h : (SHA3.Keccak R P d).toUInt k o = .ok v) :
    SHA3.toUIntA f k o = .ok (.value v) := (convert f k o).2 hf v h

/-- C50 does not hold: if it does fail the program ends, whatever object and integer type it is. -/
theorem C50_SHA3_convert_fails {R : Nat} (f : Supply) (hf : f.fails 0 = true) (o : Obj R KState) (k : Nat) :
    SHA3.toUIntA f k o = .ok .terminated := (convert f k o).1 hf

/-! ### cSHAKE and TupleHash objects -/

section
variable {R : Nat} [hR : RateOK R]

/-- C50: reading a cSHAKE object after any calls, with or without failures. -/
theorem C50_CSHAKE_reads (h8 : R % 8 = 0) (nb : Nat → Nat) (name custom : List Byte) (hn : name.length < 2 ^ 64)
    (hc : custom.length < 2 ^ 64) (d : Nat) (o o' : CShake R) (e : CShake.construct nb R d name custom = .ok o)
    (calls : List (Op × Supply)) (h : AnyOrder (calls.map (·.1))) (e' : CShake.runA o calls = .ok o') (f : Supply) :
    ThrowsOrReads f (CShake.toVectorA f o') (CShake.toVector o') ∧
      ThrowsOrReads f (CShake.toStringA f o') (CShake.toString o') ∧
      (f.fails 0 = false → ∀ k v, CShake.toUInt k o' = .ok v → CShake.toUIntA f k o' = .ok (.value v)) ∧
      (f.fails 0 = true → ∀ k, CShake.toUIntA f k o' = .ok .terminated) := by
  obtain ⟨c, pre, ⟨x, rfl, hx⟩, _⟩ := construct_ok h8 nb name custom hn hc d o e
  obtain ⟨o'', e'', y, rfl, _⟩ := usable_runA calls ⟨x, rfl, rel_room hx⟩ h
  rw [e'] at e''
  cases e''
  have hv : CShake.toVector (mk c ⟨d, y⟩) = (SHA3.Keccak R 0 d).toVector y := by rw [toVector_mk]; rfl
  have hs : CShake.toString (mk c ⟨d, y⟩) = (SHA3.Keccak R 0 d).toString y := by cases c <;> rfl
  have hva : CShake.toVectorA f (mk c ⟨d, y⟩) = SHA3.toVectorA f y := readActive_mk c _ _
  have hsa : CShake.toStringA f (mk c ⟨d, y⟩) = SHA3.toStringA f y := readActive_mk c _ _
  have hua : ∀ k, CShake.toUIntA f k (mk c ⟨d, y⟩) = SHA3.toUIntA f k y := fun k => by
    unfold CShake.toUIntA SHA3.toUIntA
    rw [hva]
  obtain ⟨r1, r2⟩ := C50_SHA3_reads 0 d f y
  rw [hv, hs, hva, hsa]
  refine ⟨r1, r2, fun hf k v hu => ?_, fun hf k => ?_⟩
  · rw [hua]
    refine C50_SHA3_convert_partial 0 d f hf y k v ?_
    unfold CShake.toUInt at hu
    rw [hv] at hu
    exact hu
  · rw [hua]
    exact C50_SHA3_convert_fails f hf y k

/-- C50: a call on a cSHAKE object in whatever state throws, or does what it does when there is memory. -/
theorem C50_CSHAKE_calls (o : CShake R) (f : Supply) (op : Op) :
    (∀ o', CShake.stepA o (op, f) = .ok (.done o') → CShake.step o op = .ok o') ∧
      (f.Plenty → ∀ o', CShake.step o op = .ok o' → CShake.stepA o (op, f) = .ok (.done o')) := stepA_step o f op

/-- C50: the same for TupleHash. -/
theorem C50_TupleHash_calls (nb : Nat → Nat) (o : TupleHash R) (f : Supply) (op : Op) :
    (∀ o', tupleStepA nb o (op, f) = .ok (.done o') → tupleStep nb o op = .ok o') ∧
      (f.Plenty → ∀ o', tupleStep nb o op = .ok o' → tupleStepA nb o (op, f) = .ok (.done o')) :=
  tupleStepA_step nb o f op

/-- C50: whichever allocations fail, no call on a cSHAKE object faults, its digest can be read, and `reset()` makes of
it what it makes of a new object. -/
theorem C50_CSHAKE_survives (h8 : R % 8 = 0) (nb : Nat → Nat) (name custom : List Byte) (hn : name.length < 2 ^ 64)
    (hc : custom.length < 2 ^ 64) (d : Nat) (o : CShake R) (e : CShake.construct nb R d name custom = .ok o)
    (calls : List (Op × Supply)) (h : AnyOrder (calls.map (·.1))) :
    (∃ o' z, CShake.runA o calls = .ok o' ∧ CShake.toVector o' = .ok z) ∧
      ∀ f after, CShake.runA o (calls ++ (.reset, f) :: after) = CShake.runA o ((.reset, f) :: after) := by
  obtain ⟨c, pre, ⟨x, rfl, hx⟩, _⟩ := construct_ok h8 nb name custom hn hc d o e
  obtain ⟨o', e', y, rfl, _⟩ := usable_runA calls ⟨x, rfl, rel_room hx⟩ h
  refine ⟨⟨_, _, e', toVector_mk _ _⟩, fun f after => ?_⟩
  rw [Proof.AllocRead.runA_append, e']
  show (CShake.stepA (mk c ⟨d, y⟩) (.reset, f) >>= _) = (CShake.stepA (mk c ⟨d, x⟩) (.reset, f) >>= _)
  rw [stepA_mk, stepA_mk]
  rfl

/-- C50: the same for TupleHash, for elements and output lengths that it can encode (C22). -/
theorem C50_TupleHash_survives (h8 : R % 8 = 0) (nb : Nat → Nat) (hnb : SP800185.ExactLog nb) (custom : List Byte)
    (hc : custom.length < 2 ^ 53 - 256) (d : Nat) (hd : d < 2 ^ 28) :
    ∃ o : TupleHash R, tupleConstruct nb R d custom = .ok o ∧ ∀ calls : List (Op × Supply),
      (∀ s, Op.add s ∈ calls.map (·.1) → s.length < 2 ^ 53 - 256) →
      (∃ o' z, tupleRunA nb o calls = .ok o' ∧ tupleToVector o' = .ok z) ∧
        ∀ f after, tupleRunA nb o (calls ++ (.reset, f) :: after) = tupleRunA nb o ((.reset, f) :: after) := by
  let r := Proof.SHA3.refines R h8 0x04 _ Proof.SHA3.suffix_cshake d
  obtain ⟨x, e, hx⟩ := construct_mk nb hnb h8 d r SP800185.tupleHashName custom (by simp [SP800185.tupleHashName])
    (by decide +kernel) hc
  refine ⟨⟨mk true ⟨d, x⟩, d⟩, ?_, fun calls h => ?_⟩
  · unfold tupleConstruct
    have hname : tupleHashName = SP800185.tupleHashName := by decide +kernel
    rw [hname, e]
    rfl
  obtain ⟨o', e', y, rfl, _⟩ := tuple_runA nb hnb d hd calls ⟨x, rfl, rel_room hx⟩ h
  refine ⟨⟨_, _, e', toVector_mk _ _⟩, fun f after => ?_⟩
  have hr : ∀ z : Obj R KState, tupleStepA nb ⟨mk true ⟨d, z⟩, d⟩ (.reset, f) =
      .ok (.done ⟨mk true ⟨d, (SHA3.Keccak R 4 d).reset z⟩, d⟩) := fun z => by
    have := step_mk true d z .reset
    have : CShake.reset (mk true ⟨d, z⟩) = .ok (mk true ⟨d, (SHA3.Keccak R 4 d).reset z⟩) := this
    simp only [tupleStepA, tupleStep, tupleReset, this, bind, Except.bind, pure, Except.pure]
  rw [tupleRunA_append, e']
  simp only [bind, Except.bind, tupleRunA, hr]
  rfl

private theorem pads_cshake (m : List Byte) : PadsMessage (8 * R) [false, false] m (padBytes R 0x04 m.length) := by
  unfold PadsMessage
  rw [bits_pad R hR.pos 0x04 _ suffix_cshake, List.length_append, bits_length]

/-- C50: what a cSHAKE object computes whose `finalize()` ran out of memory (it does if its first allocation fails) and
is called again: `k` blocks of the digest stay, and the rest is taken from the digest of another message, in which the
padding is part of the message. -/
theorem C50_CSHAKE_retry_actual (h8 : R % 8 = 0) (nb : Nat → Nat) (hnb : SP800185.ExactLog nb) (name custom : List Byte)
    (hn : name.length < 2 ^ 53 - 256) (hc : custom.length < 2 ^ 53 - 256) (hne : ¬(name = [] ∧ custom = [])) (d : Nat) :
    ∃ o : CShake R, CShake.construct nb R d name custom = .ok o ∧ ∀ ops, Legal (ops ++ [.finalize]) → ∃ o1,
      CShake.run o ops = .ok o1 ∧ ∀ f : Supply,
      (f.fails 0 = true → ∃ o', CShake.stepA o1 (.finalize, f) = .ok (.threw o')) ∧
      ∀ o', CShake.stepA o1 (.finalize, f) = .ok (.threw o') → ∃ M p k,
        M = messageFrom (SP800185.bytepad (SP800185.encodeString name ++ SP800185.encodeString custom) R) ops ∧
        PadsMessage (8 * R) [false, false] M p ∧ (k = 0 ∨ k * R < d) ∧
        ∀ pieces : List (List Byte), (∀ q ∈ pieces, q.length < 2 ^ 64) →
          (do CShake.toVector (← CShake.run o' (pieces.map Op.add ++ [Op.finalize]))) =
            .ok (Keccak.bytes (Keccak.sponge (8 * R) (Keccak.bits M ++ [false, false]) (8 * (k * R))) ++
              Keccak.bytes (Keccak.sponge (8 * R) (Keccak.bits (M ++ p ++ List.replicate (k * R) 0 ++ pieces.flatten) ++
                [false, false]) (8 * (d - k * R)))) := by
  let r := Proof.SHA3.refines R h8 0x04 _ Proof.SHA3.suffix_cshake d
  obtain ⟨x, e, hx⟩ := construct_mk nb hnb h8 d r name custom hne hn hc
  refine ⟨_, e, fun ops l => ?_⟩
  obtain ⟨y, ey, hy⟩ := r.run_rel ops false x _ (by simpa [Refines.St] using hx) (legal_prefix false ops l)
  rw [not_final false ops l] at hy
  have hy : Rel R (den R) y (messageFrom (pre R name custom) ops) := hy
  refine ⟨mk true ⟨d, y⟩, by rw [run_mk]; unfold padOf; simp only [if_true]; rw [ey]; rfl, fun f => ?_⟩
  obtain ⟨h1, h2⟩ := retry_mk h8 true d y _ hy f
  refine ⟨h1, fun o' ht => ?_⟩
  obtain ⟨x', rfl, k, hk, hz⟩ := h2 o' ht
  refine ⟨_, padBytes R 0x04 (messageFrom (pre R name custom) ops).length, k, rfl, ?_, hk, fun pieces hp => ?_⟩
  · exact pads_cshake _
  · obtain ⟨z, ez, hz⟩ := hz pieces hp
    rw [run_mk, ez]
    show CShake.toVector (mk true ⟨d, z⟩) = _
    rw [toVector_mk]
    exact congrArg Except.ok hz

/-- C50: the same for TupleHash, where the encoded output length also becomes part of the message: the tuple `X` was
added when `finalize()` threw, then the caller adds the elements of `Y` (or none) and calls `finalize()` again. -/
theorem C50_TupleHash_retry_actual (h8 : R % 8 = 0) (nb : Nat → Nat) (hnb : SP800185.ExactLog nb) (custom : List Byte)
    (hc : custom.length < 2 ^ 53 - 256) (d : Nat) (hd : d < 2 ^ 28) (X : List (List Byte))
    (hX : ∀ s ∈ X, s.length < 2 ^ 53 - 256) :
    ∃ o o1 : TupleHash R, tupleConstruct nb R d custom = .ok o ∧ tupleRun nb o (X.map Op.add) = .ok o1 ∧ ∀ f : Supply,
      (f.fails 0 = true → ∃ o', tupleFinalizeA nb f o1 = .ok (.threw o')) ∧
      ∀ o', tupleFinalizeA nb f o1 = .ok (.threw o') → ∃ M p k,
        M = SP800185.bytepad (SP800185.encodeString SP800185.tupleHashName ++ SP800185.encodeString custom) R ++
          SP800185.tupleInput X d ∧
        PadsMessage (8 * R) [false, false] M p ∧ (k = 0 ∨ k * R < d) ∧
        ∀ Y : List (List Byte), (∀ s ∈ Y, s.length < 2 ^ 53 - 256) →
          (do tupleToVector (← tupleRun nb o' (Y.map Op.add ++ [Op.finalize]))) =
            .ok (Keccak.bytes (Keccak.sponge (8 * R) (Keccak.bits M ++ [false, false]) (8 * (k * R))) ++
              Keccak.bytes (Keccak.sponge (8 * R) (Keccak.bits (M ++ p ++ List.replicate (k * R) 0 ++
                SP800185.tupleInput Y d) ++ [false, false]) (8 * (d - k * R)))) := by
  let r := Proof.SHA3.refines R h8 0x04 _ Proof.SHA3.suffix_cshake d
  obtain ⟨x, e, hx⟩ := construct_mk nb hnb h8 d r SP800185.tupleHashName custom (by simp [SP800185.tupleHashName])
    (by decide +kernel) hc
  obtain ⟨y, ey, hy⟩ := tuple_adds nb hnb h8 d hd X hX x _ hx
  have hy : Rel R (den R) y (pre R SP800185.tupleHashName custom ++ X.flatMap SP800185.encodeString) := hy
  refine ⟨⟨mk true ⟨d, x⟩, d⟩, ⟨mk true ⟨d, y⟩, d⟩, ?_, ey, fun f => ?_⟩
  · unfold tupleConstruct
    have hname : tupleHashName = SP800185.tupleHashName := by decide +kernel
    rw [hname, e]
    rfl
  obtain ⟨w, hw, hfin⟩ := tuple_fin nb hnb h8 d hd y _ hy
  have hM : pre R SP800185.tupleHashName custom ++ X.flatMap SP800185.encodeString ++ SP800185.rightEncode (8 * d) =
    pre R SP800185.tupleHashName custom ++ SP800185.tupleInput X d := by rw [List.append_assoc]; rfl
  rw [hM] at hw
  obtain ⟨h1, h2⟩ := retry_mk h8 true d w _ hw f
  refine ⟨fun hf => ?_, fun o' ht => ?_⟩
  · obtain ⟨o', ho⟩ := h1 hf
    rw [hfin, ho]
    exact ⟨_, rfl⟩
  rw [hfin] at ht
  cases hst : CShake.stepA (mk true ⟨d, w⟩) (.finalize, f) with
  | error _ => rw [hst] at ht; cases ht
  | ok q =>
    rw [hst] at ht
    cases q with
    | done _ => cases ht
    | threw c =>
      cases ht
      obtain ⟨x', rfl, k, hk, hz⟩ := h2 _ hst
      refine ⟨_, padBytes R 0x04 (pre R SP800185.tupleHashName custom ++ SP800185.tupleInput X d).length, k, rfl, ?_, hk,
        fun Y hY => ?_⟩
      · exact pads_cshake _
      · have hs : Small (Y.map Op.add ++ [.finalize]) := by
          intro s hs
          rcases List.mem_append.mp hs with h | h
          · obtain ⟨t, ht, h⟩ := List.mem_map.mp h
            injection h with h
            subst h
            exact hY _ ht
          · simp at h
        obtain ⟨pieces, hp, hpc, hpf⟩ := tuple_pieces d hd Y hY
        obtain ⟨z, ez, hz⟩ := hz pieces hp
        rw [tupleRun_calls nb hnb d hd _ _ hs, hpc, run_mk, ez]
        show CShake.toVector (mk true ⟨d, z⟩) = _
        rw [toVector_mk]
        rw [hpf] at hz
        exact congrArg Except.ok hz

end

/-! The theorems on concrete cases: an object of each kind, a `finalize()` of which the second allocation fails, a
supply of which the first allocation fails. -/
section Cases
/-- the second allocation of the call fails -/
def secondFails : Supply := ⟨fun n => n == 1, []⟩
/-- every allocation of the call fails -/
def allFail : Supply := ⟨fun _ => true, []⟩

example := C50_SHA3_convert_fails (R := 136) allFail rfl SHA3_256.fresh 8
example : ∃ o v, SHA3_256.run SHA3_256.fresh [.add [1], .finalize] = .ok o ∧ SHA3_256.toUInt 8 o = .ok v ∧
    SHA3.toUIntA secondFails 8 o = .ok (.value v) ∧ SHA3.toUIntA allFail 8 o = .ok .terminated ∧
    SHA3.toStringA secondFails o = .ok .threw := by
  obtain ⟨o, e, _⟩ := refines256.run_finalize [.add [1]] (by decide)
  have hl : ∃ v, convertInt 8 o.chain.final = .ok v := by
    obtain ⟨v, hv, _⟩ := Proof.Render.convertInt_eq 8 o.chain.final
    exact ⟨v, hv⟩
  obtain ⟨v, hv⟩ := hl
  exact ⟨o, v, e, hv, C50_SHA3_convert_partial 0x06 32 secondFails rfl o 8 v hv, C50_SHA3_convert_fails allFail rfl o 8, rfl⟩

example : ∃ o : CShake 168, CShake.construct countBytes 168 (32 : Nat) [78] [83] = .ok o ∧
    (∃ o' z, CShake.runA o [(.add [1], allFail), (.finalize, secondFails), (.finalize, allFail)] = .ok o' ∧ CShake.toVector o' = .ok z) ∧
    ∀ f o', CShake.runA o [(.add [1], allFail), (.finalize, secondFails), (.finalize, allFail)] = .ok o' → f.fails 0 = true →
      ∀ k, CShake.toUIntA f k o' = .ok .terminated := by
  obtain ⟨o, e, _⟩ := C50_CSHAKE_retry_actual (R := 168) rfl countBytes countBytes_exact [78] [83] (by decide) (by decide) (by decide) 32
  have h : AnyOrder (([(.add [1], allFail), (.finalize, secondFails), (.finalize, allFail)] : List (Op × Supply)).map (·.1)) := by
    intro d hd
    simp at hd
    subst hd
    decide
  exact ⟨o, e, (C50_CSHAKE_survives rfl countBytes [78] [83] (by decide) (by decide) 32 o e _ h).1, fun f o' e' hf =>
    (C50_CSHAKE_reads rfl countBytes [78] [83] (by decide) (by decide) 32 o o' e _ h e' f).2.2.2 hf⟩

example := C50_TupleHash_survives (R := 168) rfl countBytes countBytes_exact [83] (by decide) 32 (by decide)
example := C50_TupleHash_retry_actual (R := 168) rfl countBytes countBytes_exact [83] (by decide) 32 (by decide) [[1, 2], [], [3]]
  (by decide)
end Cases

end Verif.Props
