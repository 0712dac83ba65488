import Verif.Proof.Render
import Verif.Props.CShake

/-!
# C04, C05 and C06 for cSHAKE and TupleHash

C04 and C05 are stated for every object from which a digest can be read, however it was obtained.
-/

namespace Verif.Props
open Model Model.CShake Proof.CShake Spec
open Spec.SP800185 (ExactLog)

variable {R : Nat} [Model.SHA3.RateOK R]

/-- C04: the text of a digest that is not empty; of an empty one, `front()` of an empty string. -/
theorem C04_CSHAKE (o : CShake R) (d : List Byte) (h : toVector o = .ok d) :
    Model.CShake.toString o = if d = [] then .error .emptyFront else .ok (hex d) := by
  have e : Model.CShake.toString o = (do renderHex (← toVector o)) := by
    unfold Model.CShake.toString toVector
    split
    · cases o.shake <;> rfl
    · cases o.keccak <;> rfl
  rw [e, h]
  split
  · rename_i h0; subst h0; rfl
  · rename_i h0; exact Proof.Render.renderHex_eq d h0

theorem C04_TupleHash (o : TupleHash R) (d : List Byte) (h : tupleToVector o = .ok d) :
    tupleToString o = if d = [] then .error .emptyFront else .ok (hex d) := C04_CSHAKE o.cshake d h

/-- C05 -/
theorem C05_CSHAKE (o : CShake R) (d : List Byte) (h : toVector o = .ok d) (k : Nat) :
    ∃ v, toUInt k o = .ok v ∧ v.toNat = ofBE (d.take k) := by
  unfold toUInt
  rw [h]
  exact Proof.Render.convertInt_eq k d

theorem C05_TupleHash (o : TupleHash R) (d : List Byte) (h : tupleToVector o = .ok d) (k : Nat) :
    ∃ v, tupleToUInt k o = .ok v ∧ v.toNat = ofBE (d.take k) := C05_CSHAKE o.cshake d h k

/-! ### C06 -/

theorem cshake_eq_mk (c c' : Bool) (k k' : KObj R) :
    Model.CShake.eq (mk c k) (mk c' k') = .ok (c == c' && Model.SHA3.eq k.obj k'.obj) := by
  cases c <;> cases c' <;> simp [Model.CShake.eq, mk]

/-- what finalised objects look like -/
theorem cshake_final_shape (nb : Nat → Nat) (hnb : ExactLog nb) (h8 : R % 8 = 0) (name custom : List Byte)
    (hn : name.length < 2 ^ 53 - 256) (hc : custom.length < 2 ^ 53 - 256) (d : Nat) (ops : List Op)
    (hl : Legal (ops ++ [.finalize])) :
    ∃ o c x, construct nb R d name custom = .ok o ∧ run o (ops ++ [.finalize]) = .ok (mk c ⟨d, x⟩) ∧
      c = !(name.isEmpty && custom.isEmpty) ∧
      Proof.SHA3.Final R (padOf c) d x (messageFrom (if c then pre R name custom else []) ops) := by
  by_cases hne : name = [] ∧ custom = []
  · obtain ⟨rfl, rfl⟩ := hne
    let r := Proof.SHA3.refines R h8 (padOf false) _ Proof.SHA3.suffix_shake d
    obtain ⟨y, e, hy⟩ := r.run_finalize ops hl
    refine ⟨_, false, y, construct_plain nb d, ?_, rfl, hy⟩
    rw [run_mk]
    have e : (Model.SHA3.Keccak R (padOf false) d).run (Model.SHA3.Keccak R 0x1F d).fresh (ops ++ [.finalize]) = .ok y := e
    rw [e]; rfl
  · let r := Proof.SHA3.refines R h8 (padOf true) _ Proof.SHA3.suffix_cshake d
    obtain ⟨x, e, hx⟩ := construct_mk nb hnb h8 d r name custom hne hn hc
    obtain ⟨y, e', hy⟩ := r.run_rel (ops ++ [Op.finalize]) false x _ (by simpa [Refines.St] using hx) hl
    rw [Refines.messageFrom_append, Refines.finFlag_append] at hy
    have hf : r.F y (messageFrom (pre R name custom) ops) := by
      simpa [Refines.finFlag, messageFrom, Refines.St] using hy
    refine ⟨_, true, y, e, by rw [run_mk, e']; rfl, ?_, hf⟩
    cases name <;> cases custom <;> simp_all

/-- C06: objects of one cSHAKE class with the same requested length, whatever their names and customisations:
those that compare equal have the same digest, and those with the same names, customisations and calls
compare equal. -/
theorem C06_CSHAKE_partial (nb : Nat → Nat) (hnb : ExactLog nb) (h8 : R % 8 = 0)
    (name custom name' custom' : List Byte) (hn : name.length < 2 ^ 53 - 256) (hc : custom.length < 2 ^ 53 - 256)
    (hn' : name'.length < 2 ^ 53 - 256) (hc' : custom'.length < 2 ^ 53 - 256) (d : Nat) (ops ops' : List Op)
    (hl : Legal (ops ++ [.finalize])) (hl' : Legal (ops' ++ [.finalize])) :
    ∃ o o' a a' b, construct nb R d name custom = .ok o ∧ construct nb R d name' custom' = .ok o' ∧
      run o (ops ++ [.finalize]) = .ok a ∧ run o' (ops' ++ [.finalize]) = .ok a' ∧
      Model.CShake.eq a a' = .ok b ∧ (b = true → toVector a = toVector a') ∧
      (name = name' → custom = custom' → NoReset ops → NoReset ops' → message ops = message ops' → b = true) := by
  obtain ⟨o, c, x, e, r, hb, f⟩ := cshake_final_shape (R := R) nb hnb h8 name custom hn hc d ops hl
  obtain ⟨o', c', x', e', r', hb', f'⟩ := cshake_final_shape (R := R) nb hnb h8 name' custom' hn' hc' d ops' hl'
  refine ⟨o, o', _, _, _, e, e', r, r', cshake_eq_mk c c' _ _, ?_, ?_⟩
  · intro h
    rw [Bool.and_eq_true, beq_iff_eq] at h
    obtain ⟨rfl, h⟩ := h
    rw [toVector_mk, toVector_mk]
    have hs : ∃ suf, Proof.SHA3.IsSuffix (padOf c) suf := by
      cases c
      · exact ⟨_, Proof.SHA3.suffix_shake⟩
      · exact ⟨_, Proof.SHA3.suffix_cshake⟩
    obtain ⟨suf, hs⟩ := hs
    have key := (Proof.SHA3.eq_iff R h8 (padOf c) suf hs d x x' _ _ f f').1 h
    rw [Proof.SHA3.absorb_spec R h8 _ suf hs, Proof.SHA3.absorb_spec R h8 _ suf hs] at key
    unfold Model.SHA3.toVector
    simp only
    rw [f.2, f'.2, Proof.SHA3.bitsOf_inj _ _ key]
  · rintro rfl rfl n1 n2 hm
    obtain rfl : c = c' := by rw [hb, hb']
    rw [messageFrom_noReset _ ops n1] at f
    rw [messageFrom_noReset _ ops' n2] at f'
    rw [hm] at f
    rw [Bool.and_eq_true, beq_iff_eq]
    exact ⟨rfl, beq_iff_eq.2 (f.1.trans f'.1.symm)⟩

/-- C06 fails between cSHAKE objects with different requested lengths, as for SHAKE. -/
theorem C06_CSHAKE_lengths_fails (nb : Nat → Nat) (hnb : ExactLog nb) (h8 : R % 8 = 0)
    (name custom : List Byte) (hn : name.length < 2 ^ 53 - 256) (hc : custom.length < 2 ^ 53 - 256) (d d' : Nat)
    (hd : (d - 1) / R = (d' - 1) / R) (hne : d ≠ d') (ops : List Op) (hl : Legal (ops ++ [.finalize])) :
    ∃ o o' a a' v v', construct nb R d name custom = .ok o ∧ construct nb R d' name custom = .ok o' ∧
      run o (ops ++ [.finalize]) = .ok a ∧ run o' (ops ++ [.finalize]) = .ok a' ∧
      Model.CShake.eq a a' = .ok true ∧ toVector a = .ok v ∧ toVector a' = .ok v' ∧ v ≠ v' := by
  obtain ⟨o, c, x, e, r, hb, f⟩ := cshake_final_shape (R := R) nb hnb h8 name custom hn hc d ops hl
  obtain ⟨o', c', x', e', r', hb', f'⟩ := cshake_final_shape (R := R) nb hnb h8 name custom hn hc d' ops hl
  obtain rfl : c = c' := by rw [hb, hb']
  refine ⟨o, o', _, _, x.chain.final, x'.chain.final, e, e', r, r', ?_, by rw [toVector_mk]; rfl,
    by rw [toVector_mk]; rfl, ?_⟩
  · rw [cshake_eq_mk]
    have : Model.SHA3.eq x x' = true := beq_iff_eq.2 (by rw [f.1, f'.1, hd])
    simp [this]
  · have hlen : ∀ (k : Nat) (y : Obj R Model.SHA3.KState) (m : List Byte), Proof.SHA3.Final R (padOf c) k y m →
        y.chain.final.length = k := by
      intro k y m g
      have hs : ∃ suf, Proof.SHA3.IsSuffix (padOf c) suf := by
        cases c
        · exact ⟨_, Proof.SHA3.suffix_shake⟩
        · exact ⟨_, Proof.SHA3.suffix_cshake⟩
      obtain ⟨suf, hs⟩ := hs
      rw [g.2, ← Proof.SHA3.sponge_eq R h8 _ suf hs]
      exact Proof.SHA3.sponge_length R h8 _ suf hs m k
    intro h
    have := congrArg List.length h
    rw [hlen d x _ f, hlen d' x' _ f'] at this
    exact hne this

/-- C06: TupleHash objects of one class with the same requested length: those that compare equal have the same
digest, and the same customisation and tuple give objects that compare equal. -/
theorem C06_TupleHash_partial (nb : Nat → Nat) (hnb : ExactLog nb) (h8 : R % 8 = 0) (custom custom' : List Byte)
    (hc : custom.length < 2 ^ 53 - 256) (hc' : custom'.length < 2 ^ 53 - 256) (d : Nat) (hd : d < 2 ^ 28)
    (X X' : List (List Byte)) (hX : ∀ s ∈ X, s.length < 2 ^ 53 - 256) (hX' : ∀ s ∈ X', s.length < 2 ^ 53 - 256) :
    ∃ o o' a a' b, tupleConstruct nb R d custom = .ok o ∧ tupleConstruct nb R d custom' = .ok o' ∧
      tupleRun nb o (X.map .add ++ [.finalize]) = .ok a ∧ tupleRun nb o' (X'.map .add ++ [.finalize]) = .ok a' ∧
      tupleEq a a' = .ok b ∧ (b = true → tupleToVector a = tupleToVector a') ∧
      (custom = custom' → X = X' → b = true) := by
  have hs : ∀ X : List (List Byte), (∀ s ∈ X, s.length < 2 ^ 53 - 256) → Small (X.map Op.add ++ [.finalize]) := by
    intro X hX s hs
    rcases List.mem_append.mp hs with h | h
    · obtain ⟨t, ht, h⟩ := List.mem_map.mp h
      injection h with h
      subst h
      exact hX _ ht
    · simp at h
  have hleg : ∀ X : List (List Byte), (∀ s ∈ X, s.length < 2 ^ 53 - 256) →
      Legal ((X.flatMap fun d => [Op.add (SP800185.leftEncode (8 * d.length)), Op.add d]) ++
        [Op.add (SP800185.rightEncode (8 * d))] ++ [Op.finalize]) := by
    intro X hX
    rw [← calls_adds]
    exact legal_calls d hd _ (hs X hX) false (Refines.legal_adds X fun p hp => by have := hX p hp; omega)
  obtain ⟨o, o', a, a', b, e, e', r, r', q, h1, h2⟩ := C06_CSHAKE_partial nb hnb h8 tupleHashName custom tupleHashName custom'
    (by decide +kernel) hc (by decide +kernel) hc' d _ _ (hleg X hX) (hleg X' hX')
  refine ⟨⟨o, d⟩, ⟨o', d⟩, ⟨a, d⟩, ⟨a', d⟩, b, ?_, ?_, ?_, ?_, q, h1, ?_⟩
  · unfold tupleConstruct; rw [e]; rfl
  · unfold tupleConstruct; rw [e']; rfl
  · rw [tupleRun_calls nb hnb d hd _ _ (hs X hX), calls_adds, r]; rfl
  · rw [tupleRun_calls nb hnb d hd _ _ (hs X' hX'), calls_adds, r']; rfl
  · rintro rfl rfl
    exact h2 rfl rfl (noReset_calls d X) (noReset_calls d X) rfl

example : ∃ o : CShake 168, toVector o = .ok [1, 2] := ⟨mk true ⟨2, ⟨{}, { Model.SHA3.init with final := [1, 2] }⟩⟩, rfl⟩
example : (16 - 1) / 168 = (32 - 1) / 168 ∧ 16 ≠ 32 := by decide

/-! The theorems on concrete cases. -/
section Cases
example := C06_CSHAKE_partial (R := 168) countBytes countBytes_exact rfl [] signature [0x4e] [] (by decide) (by decide +kernel)
  (by decide) (by decide) 32 someCalls someResets (by decide +kernel) (by decide +kernel)
example := C06_CSHAKE_lengths_fails (R := 136) countBytes countBytes_exact rfl [] signature (by decide) (by decide +kernel)
  16 32 (by decide) (by decide) someResets (by decide +kernel)
example := C06_TupleHash_partial (R := 136) countBytes countBytes_exact rfl [] signature (by decide) (by decide +kernel) 32
  (by decide) [[1], [2, 3]] [[1, 2], [], [3]] (by decide +kernel) (by decide +kernel)
end Cases

end Verif.Props
