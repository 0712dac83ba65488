import Verif.Proof.Sponge
import Verif.Props.CShakeReadout

/-!
# C44: the sponge merges no messages before its inner state collides

Specification: Spec/Sponge.lean, Spec/Keccak.lean.
-/

namespace Verif.API
open Spec.Keccak Spec.Sponge

/-- Objects finalised after histories with different messages compare equal only if the two messages, with the suffix
of the function, show an inner collision of the sponge of rate `r` bits. -/
def EqualByCollision {O : Type} (A : API O) (eq : O → O → Bool) (r : Nat) (suf : List Bool) : Prop :=
  ∀ ops ops', Legal (ops ++ [.finalize]) → Legal (ops' ++ [.finalize]) →
    ∃ o o', A.run A.fresh (ops ++ [.finalize]) = .ok o ∧ A.run A.fresh (ops' ++ [.finalize]) = .ok o' ∧
      (message ops ≠ message ops' → eq o o' = true →
        InnerCollision r (bits (message ops) ++ suf) (bits (message ops') ++ suf))

end Verif.API

namespace Verif.Props
open Model Spec Spec.Keccak Spec.Sponge
open Spec.SP800185 (ExactLog)

/-- C44: the padding never merges strings. -/
theorem C44_pad_injective (r : Nat) (N N' : List Bool) (h : padInput r N = padInput r N') : N = N' :=
  Proof.Sponge.pad_inj r N N' h

/-- C44: the padded string is a whole number of blocks, and no block more than the two padding bits need. -/
theorem C44_pad_blocks (r : Nat) (hr : 0 < r) (N : List Bool) :
    r ∣ (padInput r N).length ∧ N.length + 2 ≤ (padInput r N).length ∧ (padInput r N).length < N.length + 2 + r := by
  refine ⟨Proof.Sponge.padded_dvd r hr N, ?_, ?_⟩ <;> rw [Proof.Sponge.padded_length]
  · omega
  · have := Nat.mod_lt (r - (N.length + 2) % r) hr
    omega

/-- C44: SHA-3, SHAKE and cSHAKE never give the same string to the sponge, whatever the messages are. -/
theorem C44_domains (r : Nat) (M M' : List Byte) (s s' : List Bool)
    (hs : s = sha3Suffix ∨ s = shakeSuffix ∨ s = cshakeSuffix)
    (hs' : s' = sha3Suffix ∨ s' = shakeSuffix ∨ s' = cshakeSuffix)
    (h : padInput r (bits M ++ s) = padInput r (bits M' ++ s')) : M = M' ∧ s = s' := by
  have h := Proof.Sponge.pad_inj r _ _ h
  have hl := congrArg List.length h
  rw [List.length_append, List.length_append, Proof.SHA3.bits_length, Proof.SHA3.bits_length] at hl
  have hls : s.length = s'.length := by
    rcases hs with rfl | rfl | rfl <;> rcases hs' with rfl | rfl | rfl <;>
      simp [sha3Suffix, shakeSuffix, cshakeSuffix] at hl ⊢ <;> omega
  obtain ⟨h1, h2⟩ := List.append_inj' h hls
  exact ⟨Proof.Sponge.bits_inj M M' h1, h2⟩

/-- C44: what cSHAKE gives to the sponge determines name, customization and message. -/
theorem C44_cshake_inputs (R : Nat) (hR : R < 2 ^ 2040) (N S X N' S' X' : List Byte)
    (hN : 8 * N.length < 2 ^ 2040) (hS : 8 * S.length < 2 ^ 2040) (hN' : 8 * N'.length < 2 ^ 2040)
    (hS' : 8 * S'.length < 2 ^ 2040)
    (h : cshakeInput R N S X = cshakeInput R N' S' X') : N = N' ∧ S = S' ∧ X = X' := by
  have hd : ∀ (M M' : List Byte) (s s' : List Bool), (s = sha3Suffix ∨ s = shakeSuffix ∨ s = cshakeSuffix) →
      (s' = sha3Suffix ∨ s' = shakeSuffix ∨ s' = cshakeSuffix) → bits M ++ s = bits M' ++ s' → M = M' ∧ s = s' :=
    fun M M' s s' hs hs' h => C44_domains 8 M M' s s' hs hs' (by rw [h])
  unfold cshakeInput at h
  by_cases c : N = [] ∧ S = [] <;> by_cases c' : N' = [] ∧ S' = []
  · rw [if_pos c, if_pos c'] at h
    have := (hd _ _ _ _ (.inr (.inl rfl)) (.inr (.inl rfl)) h).1
    exact ⟨c.1.trans c'.1.symm, c.2.trans c'.2.symm, this⟩
  · rw [if_pos c, if_neg c'] at h
    exact absurd (hd _ _ _ _ (.inr (.inl rfl)) (.inr (.inr rfl)) h).2 (by decide)
  · rw [if_neg c, if_pos c'] at h
    exact absurd (hd _ _ _ _ (.inr (.inr rfl)) (.inr (.inl rfl)) h).2 (by decide)
  · rw [if_neg c, if_neg c'] at h
    exact C29_cshake_injective R N S X N' S' X' hR hN hS hN' hS'
      (hd _ _ _ _ (.inr (.inr rfl)) (.inr (.inr rfl)) h).1

private theorem keccak (R : Nat) [hR : SHA3.RateOK R] (h8 : R % 8 = 0) (P : Byte) (suf : List Bool)
    (hs : Proof.SHA3.IsSuffix P suf) (d : Nat) : (SHA3.Keccak R P d).EqualByCollision SHA3.eq (8 * R) suf := by
  intro ops ops' hl hl'
  obtain ⟨o, e, f⟩ := Proof.SHA3.run_final R P d ops hl
  obtain ⟨o', e', f'⟩ := Proof.SHA3.run_final R P d ops' hl'
  refine ⟨o, o', e, e', fun hm h => ?_⟩
  have key := (Proof.SHA3.eq_iff R h8 P suf hs d o o' _ _ f f').1 h
  have := hR.pos
  have := hR.le
  exact Proof.Sponge.collision _ (by omega) (by omega) _ _
    (fun e => hm (Proof.Sponge.bits_inj _ _ (List.append_cancel_right e))) key

theorem C44_SHA3_224 : SHA3.SHA3_224.EqualByCollision SHA3.eq 1152 sha3Suffix :=
  keccak 144 rfl 0x06 _ Proof.SHA3.suffix_sha3 _
theorem C44_SHA3_256 : SHA3.SHA3_256.EqualByCollision SHA3.eq 1088 sha3Suffix :=
  keccak 136 rfl 0x06 _ Proof.SHA3.suffix_sha3 _
theorem C44_SHA3_384 : SHA3.SHA3_384.EqualByCollision SHA3.eq 832 sha3Suffix :=
  keccak 104 rfl 0x06 _ Proof.SHA3.suffix_sha3 _
theorem C44_SHA3_512 : SHA3.SHA3_512.EqualByCollision SHA3.eq 576 sha3Suffix :=
  keccak 72 rfl 0x06 _ Proof.SHA3.suffix_sha3 _
theorem C44_SHAKE_128 (d : Nat) : (SHA3.SHAKE_128 d).EqualByCollision SHA3.eq 1344 shakeSuffix :=
  keccak 168 rfl 0x1F _ Proof.SHA3.suffix_shake _
theorem C44_SHAKE_256 (d : Nat) : (SHA3.SHAKE_256 d).EqualByCollision SHA3.eq 1088 shakeSuffix :=
  keccak 136 rfl 0x1F _ Proof.SHA3.suffix_shake _

/-- the same with different requested lengths that need the same number of output blocks -/
private theorem cshake_lengths {R : Nat} [hR : SHA3.RateOK R] (nb : Nat → Nat) (hnb : ExactLog nb) (h8 : R % 8 = 0)
    (name custom name' custom' : List Byte) (hn : name.length < 2 ^ 53 - 256) (hc : custom.length < 2 ^ 53 - 256)
    (hn' : name'.length < 2 ^ 53 - 256) (hc' : custom'.length < 2 ^ 53 - 256) (d d' : Nat)
    (hdd : (d - 1) / R = (d' - 1) / R) (ops ops' : List Op)
    (hl : Legal (ops ++ [.finalize])) (hl' : Legal (ops' ++ [.finalize])) (hr : NoReset ops) (hr' : NoReset ops') :
    ∃ o o' a a' b, CShake.construct nb R d name custom = .ok o ∧ CShake.construct nb R d' name' custom' = .ok o' ∧
      CShake.run o (ops ++ [.finalize]) = .ok a ∧ CShake.run o' (ops' ++ [.finalize]) = .ok a' ∧
      CShake.eq a a' = .ok b ∧
      (¬(name = name' ∧ custom = custom' ∧ message ops = message ops') → b = true →
        InnerCollision (8 * R) (cshakeInput R name custom (message ops)) (cshakeInput R name' custom' (message ops'))) := by
  obtain ⟨o, c, x, e, r, hb, f⟩ := cshake_final_shape (R := R) nb hnb h8 name custom hn hc d ops hl
  obtain ⟨o', c', x', e', r', hb', f'⟩ := cshake_final_shape (R := R) nb hnb h8 name' custom' hn' hc' d' ops' hl'
  refine ⟨o, o', _, _, _, e, e', r, r', cshake_eq_mk c c' _ _, ?_⟩
  intro hne h
  rw [Bool.and_eq_true, beq_iff_eq] at h
  obtain ⟨rfl, h⟩ := h
  have := hR.pos
  have := hR.le
  rw [Proof.CShake.messageFrom_noReset _ ops hr] at f
  rw [Proof.CShake.messageFrom_noReset _ ops' hr'] at f'
  have big : ∀ n : Nat, n < 2 ^ 56 → n < 2 ^ 2040 := fun n h =>
    Nat.lt_of_lt_of_le h (Nat.pow_le_pow_right (by decide) (by decide))
  have hin : ∀ N S X : List Byte, c = !(N.isEmpty && S.isEmpty) →
      cshakeInput R N S X = bits ((if c then Proof.CShake.pre R N S else []) ++ X) ++
        (if c then cshakeSuffix else shakeSuffix) := by
    intro N S X hc
    unfold cshakeInput
    cases N <;> cases S <;> simp [hc, Proof.CShake.pre]
  have hne' : cshakeInput R name custom (message ops) ≠ cshakeInput R name' custom' (message ops') := fun he =>
    hne (C44_cshake_inputs R (big _ (by omega)) _ _ _ _ _ _ (big _ (by omega)) (big _ (by omega)) (big _ (by omega))
      (big _ (by omega)) he)
  refine Proof.Sponge.collision _ (by omega) (by omega) _ _ hne' ?_
  rw [hin name custom _ hb, hin name' custom' _ hb']
  have hs : Proof.SHA3.IsSuffix (Proof.CShake.padOf c) (if c then cshakeSuffix else shakeSuffix) := by
    cases c
    · exact Proof.SHA3.suffix_shake
    · exact Proof.SHA3.suffix_cshake
  rw [Proof.SHA3.absorb_spec R h8 _ _ hs, Proof.SHA3.absorb_spec R h8 _ _ hs]
  unfold SHA3.eq at h
  rw [beq_iff_eq, f.1, f'.1, hdd] at h
  rw [Proof.SHA3.repeat_inj _ _ _ h]

/-- C44 for cSHAKE: objects with different names, customizations or messages compare equal only if the strings that the
standard gives to the sponge for them show an inner collision. -/
theorem C44_CSHAKE_partial {R : Nat} [hR : SHA3.RateOK R] (nb : Nat → Nat) (hnb : ExactLog nb) (h8 : R % 8 = 0)
    (name custom name' custom' : List Byte) (hn : name.length < 2 ^ 53 - 256) (hc : custom.length < 2 ^ 53 - 256)
    (hn' : name'.length < 2 ^ 53 - 256) (hc' : custom'.length < 2 ^ 53 - 256) (d : Nat) (ops ops' : List Op)
    (hl : Legal (ops ++ [.finalize])) (hl' : Legal (ops' ++ [.finalize])) (hr : NoReset ops) (hr' : NoReset ops') :
    ∃ o o' a a' b, CShake.construct nb R d name custom = .ok o ∧ CShake.construct nb R d name' custom' = .ok o' ∧
      CShake.run o (ops ++ [.finalize]) = .ok a ∧ CShake.run o' (ops' ++ [.finalize]) = .ok a' ∧
      CShake.eq a a' = .ok b ∧
      (¬(name = name' ∧ custom = custom' ∧ message ops = message ops') → b = true →
        InnerCollision (8 * R) (cshakeInput R name custom (message ops)) (cshakeInput R name' custom' (message ops'))) :=
  cshake_lengths nb hnb h8 name custom name' custom' hn hc hn' hc' d d rfl ops ops' hl hl' hr hr'

/-- C44 for TupleHash: objects with different customizations, different tuples (different bytes, or the same bytes cut
into elements in another way, or more elements) or different requested lengths compare equal only if the strings that the
standard gives to the sponge for them show an inner collision. The requested lengths must need the same number of output
blocks: otherwise `==` compares states after different numbers of permutations. -/
theorem C44_TupleHash_partial {R : Nat} [hR : SHA3.RateOK R] (nb : Nat → Nat) (hnb : ExactLog nb) (h8 : R % 8 = 0)
    (custom custom' : List Byte) (hc : custom.length < 2 ^ 53 - 256) (hc' : custom'.length < 2 ^ 53 - 256) (d d' : Nat)
    (hd : d < 2 ^ 28) (hd' : d' < 2 ^ 28) (hdd : (d - 1) / R = (d' - 1) / R)
    (X X' : List (List Byte)) (hX : ∀ s ∈ X, s.length < 2 ^ 53 - 256) (hX' : ∀ s ∈ X', s.length < 2 ^ 53 - 256) :
    ∃ o o' a a' b, CShake.tupleConstruct nb R d custom = .ok o ∧ CShake.tupleConstruct nb R d' custom' = .ok o' ∧
      CShake.tupleRun nb o (X.map .add ++ [.finalize]) = .ok a ∧ CShake.tupleRun nb o' (X'.map .add ++ [.finalize]) = .ok a' ∧
      CShake.tupleEq a a' = .ok b ∧
      (¬(custom = custom' ∧ X = X' ∧ d = d') → b = true →
        InnerCollision (8 * R) (cshakeInput R SP800185.tupleHashName custom (SP800185.tupleInput X d))
          (cshakeInput R SP800185.tupleHashName custom' (SP800185.tupleInput X' d'))) := by
  have hs : ∀ X : List (List Byte), (∀ s ∈ X, s.length < 2 ^ 53 - 256) → Proof.CShake.Small (X.map Op.add ++ [.finalize]) := by
    intro X hX s hs
    rcases List.mem_append.mp hs with h | h
    · obtain ⟨t, ht, h⟩ := List.mem_map.mp h
      injection h with h
      subst h
      exact hX _ ht
    · simp at h
  have hleg : ∀ (d : Nat) (X : List (List Byte)), d < 2 ^ 28 → (∀ s ∈ X, s.length < 2 ^ 53 - 256) →
      Legal ((X.flatMap fun d => [Op.add (SP800185.leftEncode (8 * d.length)), Op.add d]) ++
        [Op.add (SP800185.rightEncode (8 * d))] ++ [Op.finalize]) := by
    intro d X hd hX
    rw [← Proof.CShake.calls_adds]
    exact Proof.CShake.legal_calls d hd _ (hs X hX) false (Refines.legal_adds X fun p hp => by have := hX p hp; omega)
  have big : ∀ n : Nat, n < 2 ^ 56 → n < 2 ^ 2040 := fun n h =>
    Nat.lt_of_lt_of_le h (Nat.pow_le_pow_right (by decide) (by decide))
  have hname : CShake.tupleHashName = SP800185.tupleHashName := by decide +kernel
  obtain ⟨o, o', a, a', b, e, e', r, r', q, h⟩ := cshake_lengths nb hnb h8 CShake.tupleHashName custom
    CShake.tupleHashName custom' (by decide +kernel) hc (by decide +kernel) hc' d d' hdd _ _ (hleg d X hd hX)
    (hleg d' X' hd' hX') (Proof.CShake.noReset_calls d X) (Proof.CShake.noReset_calls d' X')
  refine ⟨⟨o, d⟩, ⟨o', d'⟩, ⟨a, d⟩, ⟨a', d'⟩, b, ?_, ?_, ?_, ?_, q, fun hne hb => ?_⟩
  · unfold CShake.tupleConstruct; rw [e]; rfl
  · unfold CShake.tupleConstruct; rw [e']; rfl
  · rw [Proof.CShake.tupleRun_calls nb hnb d hd _ _ (hs X hX), Proof.CShake.calls_adds, r]; rfl
  · rw [Proof.CShake.tupleRun_calls nb hnb d' hd' _ _ (hs X' hX'), Proof.CShake.calls_adds, r']; rfl
  · rw [Proof.CShake.message_calls, Proof.CShake.message_calls, hname] at h
    refine h (fun ⟨_, hcc, hm⟩ => hne ⟨hcc, ?_⟩) hb
    exact C29_tuples_injective X X' d d' (fun s hs => big _ (by have := hX s hs; omega))
      (fun s hs => big _ (by have := hX' s hs; omega)) (big _ (by omega)) (big _ (by omega)) hm

/-! The hypotheses can be met, and an inner collision is not there for nothing: two equal strings never show one through
the same beginnings. -/
example : Legal ([.add [1, 2]] ++ [.finalize]) ∧ Legal ([.add [3]] ++ [.finalize]) ∧
    message [.add [1, 2]] ≠ message [.add [3]] := by decide
example : padInput 16 (bits [0xff] ++ sha3Suffix) = bits [0xff, 0x86] := by decide
example : (padInput 16 (bits [0xff] ++ shakeSuffix)).length = 16 ∧ (padInput 16 (bits [0xff, 0] ++ sha3Suffix)).length = 32 := by
  decide

/-! The theorems on concrete cases. -/
section Cases
open Proof.CShake (countBytes countBytes_exact)
example := C44_pad_blocks 1088 (by decide) (bits [1, 2] ++ sha3Suffix)
example : padInput 16 (bits [0xff] ++ sha3Suffix) ≠ padInput 16 (bits [0xfe] ++ sha3Suffix) := fun h =>
  absurd (C44_pad_injective 16 _ _ h) (by decide)
/-- The domains are separated: not even a SHA-3 and a SHAKE input of different messages are padded alike. -/
example : padInput 1088 (bits [1] ++ sha3Suffix) ≠ padInput 1088 (bits [1] ++ shakeSuffix) := fun h =>
  absurd (C44_domains 1088 [1] [1] _ _ (.inl rfl) (.inr (.inl rfl)) h).2 (by decide)
example : cshakeInput 168 [1] [2] [3] ≠ cshakeInput 168 [1, 2] [] [3] := fun h =>
  absurd (C44_cshake_inputs 168 (by decide +kernel) [1] [2] [3] [1, 2] [] [3] (by decide +kernel) (by decide +kernel)
    (by decide +kernel) (by decide +kernel) h).1 (by decide)
example := C44_CSHAKE_partial (R := 168) countBytes countBytes_exact rfl [] signature [0x4e] [] (by decide) (by decide +kernel)
  (by decide) (by decide) 32 [.add [1]] [.add [1, 2]] (by decide) (by decide) (fun op h => by simp at h; subst h; rfl)
  (fun op h => by simp at h; subst h; rfl)
/-- two tuples with the same bytes, and with different lengths of output -/
example := C44_TupleHash_partial (R := 168) countBytes countBytes_exact rfl signature signature (by decide +kernel)
  (by decide +kernel) 32 64 (by decide) (by decide) (by decide) [[1], [2, 3]] [[1, 2], [], [3]] (by decide +kernel) (by decide +kernel)
end Cases

end Verif.Props
