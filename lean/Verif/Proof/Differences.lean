import Verif.Proof.Sponge
import Verif.Proof.SipHash
import Verif.Proof.Equality
import Verif.Proof.CShake

/-! Differences that cannot disappear: the steps of the sponge and of SipHash are injective in the state. -/

namespace Verif.Proof.Differences
open Model Spec Spec.Keccak Spec.Sponge

/-- a history that may be finalised leaves an object in which the message stands -/
theorem legal_open (fin : Bool) (ops : List Op) (h : legalFrom fin (ops ++ [.finalize])) :
    legalFrom fin ops ∧ Refines.finFlag fin ops = false := by
  induction ops generalizing fin with
  | nil => exact ⟨trivial, h.1⟩
  | cons op ops ih =>
    cases op with
    | add d => exact ⟨⟨h.1, h.2.1, (ih false h.2.2).1⟩, (ih false h.2.2).2⟩
    | reset => exact ih false h
    | finalize => exact ⟨⟨h.1, (ih true h.2).1⟩, (ih true h.2).2⟩

theorem run_open {O : Type} {A : API O} {dig : List Byte → Except Fault (List Byte)} (r : Refines A dig) (ops : List Op)
    (hl : Legal (ops ++ [.finalize])) : ∃ o, A.run A.fresh ops = .ok o ∧ r.R o (message ops) := by
  obtain ⟨h1, h2⟩ := legal_open false ops hl
  obtain ⟨o, e, h⟩ := r.run_rel ops false A.fresh [] (by simpa [Refines.St] using r.fresh) h1
  rw [h2] at h
  exact ⟨o, e, by simpa [Refines.St, message] using h⟩

/-! ### The sponge -/

theorem zipXor_inj_left (S T X : List Bool) (hS : S.length = X.length) (hT : T.length = X.length)
    (h : List.zipWith xor S X = List.zipWith xor T X) : S = T := by
  have hc : ∀ A : List Bool, List.zipWith xor A X = List.zipWith xor X A := fun A =>
    List.zipWith_comm_of_comm (by intro x y; exact Bool.xor_comm x y)
  rw [hc S, hc T] at h
  exact Sponge.zipXor_inj X S T (by omega) (by omega) h

theorem block_length (r : Nat) (hr : r ≤ 1600) (B : List Bool) (hB : B.length = r) :
    (B ++ List.replicate (1600 - r) false).length = 1600 := by
  rw [List.length_append, List.length_replicate]; omega

/-- absorbing the same blocks loses no difference -/
theorem absorb_suffix (r : Nat) (hr : 0 < r) (hr' : r ≤ 1600) (A A' : List Bool) (hA : r ∣ A.length) (hA' : r ∣ A'.length)
    (n : Nat) : ∀ Q : List Bool, Q.length = n * r →
      (absorbBlocks r (A ++ Q) = absorbBlocks r (A' ++ Q) ↔ absorbBlocks r A = absorbBlocks r A') := by
  induction n with
  | zero =>
    intro Q hQ
    have : Q = [] := List.length_eq_zero_iff.1 (by omega)
    rw [this, List.append_nil, List.append_nil]
  | succ n ih =>
    intro Q hQ
    rw [Nat.add_mul, Nat.one_mul] at hQ
    obtain ⟨Q1, B, rfl, h1, hB⟩ : ∃ Q1 B, Q = Q1 ++ B ∧ Q1.length = n * r ∧ B.length = r :=
      ⟨Q.take (n * r), Q.drop (n * r), (List.take_append_drop _ _).symm, by rw [List.length_take]; omega,
        by rw [List.length_drop]; omega⟩
    have hd : ∀ A : List Bool, r ∣ A.length → r ∣ (A ++ Q1).length := fun A hA => by
      rw [List.length_append, h1]; exact Nat.dvd_add hA (Nat.dvd_mul_left r n)
    rw [← List.append_assoc, ← List.append_assoc, Sponge.absorbBlocks_snoc r hr _ B (hd A hA) hB,
      Sponge.absorbBlocks_snoc r hr _ B (hd A' hA') hB, ← ih Q1 h1]
    have hX := block_length r hr' B hB
    constructor
    · intro h
      refine zipXor_inj_left _ _ _ ?_ ?_ (SHA3.keccakF_inj _ _ ?_ ?_ h)
      · rw [Sponge.absorbBlocks_length, hX]
      · rw [Sponge.absorbBlocks_length, hX]
      · rw [List.length_zipWith, Sponge.absorbBlocks_length, hX, Nat.min_self]
      · rw [List.length_zipWith, Sponge.absorbBlocks_length, hX, Nat.min_self]
    · intro h
      rw [h]

/-- different blocks after the same blocks give different states -/
theorem absorb_block (r : Nat) (hr : 0 < r) (hr' : r ≤ 1600) (A B B' : List Bool) (hA : r ∣ A.length)
    (hB : B.length = r) (hB' : B'.length = r) (h : absorbBlocks r (A ++ B) = absorbBlocks r (A ++ B')) : B = B' := by
  rw [Sponge.absorbBlocks_snoc r hr _ B hA hB, Sponge.absorbBlocks_snoc r hr _ B' hA hB'] at h
  have hX := block_length r hr' B hB
  have hX' := block_length r hr' B' hB'
  have h := SHA3.keccakF_inj _ _ (by rw [List.length_zipWith, Sponge.absorbBlocks_length, hX, Nat.min_self])
    (by rw [List.length_zipWith, Sponge.absorbBlocks_length, hX', Nat.min_self]) h
  exact List.append_cancel_right (Sponge.zipXor_inj _ _ _ (by rw [hX, Sponge.absorbBlocks_length]; exact Nat.le_refl _)
    (by rw [hX', Sponge.absorbBlocks_length]; exact Nat.le_refl _) h)

theorem pad_add (r a b : Nat) (h : r ∣ a) : pad101 r (a + b) = pad101 r b := by
  obtain ⟨k, rfl⟩ := h
  unfold pad101
  rw [show r * k + b + 2 = b + 2 + r * k by omega, Nat.add_mul_mod_self_left]

/-- what follows a prefix of whole blocks -/
theorem pad_split (r : Nat) (A T : List Bool) (h : r ∣ A.length) : padInput r (A ++ T) = A ++ padInput r T := by
  unfold padInput
  rw [List.append_assoc, List.length_append, pad_add r _ _ h]

theorem suffix_iff (r : Nat) (hr : 0 < r) (hr' : r ≤ 1600) (A A' T : List Bool) (hA : r ∣ A.length) (hA' : r ∣ A'.length) :
    absorb r (A ++ T) = absorb r (A' ++ T) ↔ absorbBlocks r A = absorbBlocks r A' := by
  rw [Sponge.absorb_eq, Sponge.absorb_eq, pad_split r A T hA, pad_split r A' T hA']
  obtain ⟨k, hk⟩ := Sponge.padded_dvd r hr T
  exact absorb_suffix r hr hr' A A' hA hA' k _ (by rw [hk, Nat.mul_comm])

theorem one_block (r : Nat) (hr : 0 < r) (hr' : r ≤ 1600) (A B B' T : List Bool) (hA : r ∣ A.length)
    (hB : B.length ≤ r) (hl : B.length = B'.length) (h : absorb r (A ++ B ++ T) = absorb r (A ++ B' ++ T)) : B = B' := by
  rw [Sponge.absorb_eq, Sponge.absorb_eq, List.append_assoc, List.append_assoc, pad_split r A _ hA, pad_split r A _ hA] at h
  have e : ∀ X : List Bool, X.length = B.length → padInput r (X ++ T) = X ++ (T ++ pad101 r (B.length + T.length)) := by
    intro X hX
    unfold padInput
    rw [List.length_append, hX, List.append_assoc]
  have hd := Sponge.padded_dvd r hr (B ++ T)
  rw [e B rfl, List.length_append] at hd
  rw [e B rfl, e B' hl.symm] at h
  have hlong : r ≤ B.length + (T ++ pad101 r (B.length + T.length)).length := by
    refine Nat.le_of_dvd ?_ hd
    rw [List.length_append, Sponge.pad_length]; omega
  revert h hd hlong
  generalize T ++ pad101 r (B.length + T.length) = W
  intro h hd hlong
  have hw : W = W.take (r - B.length) ++ W.drop (r - B.length) := (List.take_append_drop _ _).symm
  have ht : (W.take (r - B.length)).length = r - B.length := by rw [List.length_take]; omega
  rw [hw, ← List.append_assoc, ← List.append_assoc, ← List.append_assoc, ← List.append_assoc] at h
  have hAB : ∀ X : List Bool, X.length = B.length → r ∣ (A ++ X ++ W.take (r - B.length)).length := by
    intro X hX
    rw [List.length_append, List.length_append, hX, ht, Nat.add_assoc, show B.length + (r - B.length) = r by omega]
    exact Nat.dvd_add hA (Nat.dvd_refl r)
  have hrest : ∃ n, (W.drop (r - B.length)).length = n * r := by
    obtain ⟨k, hk⟩ := hd
    refine ⟨k - 1, ?_⟩
    rw [List.length_drop, Nat.sub_mul, Nat.one_mul, Nat.mul_comm k r, ← hk]
    omega
  obtain ⟨n, hn⟩ := hrest
  have h := (absorb_suffix r hr hr' _ _ (hAB B rfl) (hAB B' hl.symm) n _ hn).1 h
  rw [List.append_assoc, List.append_assoc] at h
  exact List.append_cancel_right (absorb_block r hr hr' A _ _ hA (by rw [List.length_append, ht]; omega)
    (by rw [List.length_append, ht]; omega) h)

/-- after the same whole blocks, two different rests with fewer than `r - 1` bits -/
theorem last_block (r : Nat) (hr : 0 < r) (hr' : r ≤ 1600) (A N N' : List Bool) (hA : r ∣ A.length)
    (hN : N.length + 2 ≤ r) (hN' : N'.length + 2 ≤ r) (h : absorb r (A ++ N) = absorb r (A ++ N')) : N = N' := by
  rw [Sponge.absorb_eq, Sponge.absorb_eq, pad_split r A _ hA, pad_split r A _ hA] at h
  have e : ∀ N : List Bool, N.length + 2 ≤ r → (padInput r N).length = r := by
    intro N hN
    rw [Sponge.padded_length]
    rcases Nat.lt_or_eq_of_le hN with h | h
    · rw [Nat.mod_eq_of_lt h, Nat.mod_eq_of_lt (by omega)]; omega
    · rw [h, Nat.mod_self, Nat.sub_zero, Nat.mod_self]; omega
  exact Sponge.pad_inj r N N' (absorb_block r hr hr' A _ _ hA (e N hN) (e N' hN') h)

theorem aligned_self (B : Nat) (m : List Byte) (h : B ∣ m.length) : alignedPart B m = m := by
  unfold alignedPart alignedLen
  rw [Nat.mod_eq_zero_of_dvd h, Nat.sub_zero, List.take_length]

/-- bytepad fills whole blocks -/
theorem pre_dvd (R : Nat) (hR : 0 < R) (N S : List Byte) : R ∣ (CShake.pre R N S).length := by
  unfold CShake.pre SP800185.bytepad
  simp only [List.length_append, List.length_replicate]
  generalize (SP800185.leftEncode R).length + ((SP800185.encodeString N).length + (SP800185.encodeString S).length) = x
  have := Nat.mod_lt x hR
  have h := Nat.div_add_mod x R
  by_cases h0 : x % R = 0
  · rw [h0, Nat.sub_zero, Nat.mod_self]
    exact Nat.dvd_of_mod_eq_zero h0
  · rw [Nat.mod_eq_of_lt (by omega : R - x % R < R)]
    refine ⟨x / R + 1, ?_⟩
    rw [Nat.mul_add, Nat.mul_one]
    omega

/-! ### SipHash -/

open Model.SipHash

theorem rotl_inj (a b : W64) (k : Nat) (hk : k < 64) (h : rotl a k = rotl b k) : a = b := by
  apply BitVec.eq_of_getLsbD_eq
  intro i hi
  have := congrArg (fun v => v.getLsbD ((⟨i, hi⟩ + Fin.ofNat 64 k : Fin 64)).val) h
  simp only [SHA3.rotl_bit _ k hk] at this
  have e : (⟨i, hi⟩ + Fin.ofNat 64 k - Fin.ofNat 64 k : Fin 64) = ⟨i, hi⟩ := by
    apply Fin.ext
    simp only [Fin.sub_def, Fin.add_def, Fin.ofNat]
    omega
  rw [e] at this
  exact this

theorem add_right_cancel' {a b c : W64} (h : a + c = b + c) : a = b := by
  have := congrArg (· - c) h
  simpa using this

theorem xor_right_cancel' {a b c : W64} (h : a ^^^ c = b ^^^ c) : a = b := by
  have := congrArg (· ^^^ c) h
  simpa [BitVec.xor_assoc] using this

theorem sipRound_inj (v w : Vector W64 4) (h : sipRound v = sipRound w) : v = w := by
  rw [SipHash.vec4 v, SipHash.vec4 w, SipHash.sipRound_lit, SipHash.sipRound_lit] at h
  rw [SipHash.vec4 v, SipHash.vec4 w]
  generalize v[0] = a at *
  generalize v[1] = b at *
  generalize v[2] = c at *
  generalize v[3] = d at *
  generalize w[0] = a' at *
  generalize w[1] = b' at *
  generalize w[2] = c' at *
  generalize w[3] = d' at *
  have h0 := congrArg (fun x : Vector W64 4 => x[0]) h
  have h1 := congrArg (fun x : Vector W64 4 => x[1]) h
  have h2 := congrArg (fun x : Vector W64 4 => x[2]) h
  have h3 := congrArg (fun x : Vector W64 4 => x[3]) h
  have h0 : rotl (a + b) 32 + (rotl d 16 ^^^ (c + d)) = rotl (a' + b') 32 + (rotl d' 16 ^^^ (c' + d')) := h0
  have h1 : rotl (rotl b 13 ^^^ (a + b)) 17 ^^^ ((c + d) + (rotl b 13 ^^^ (a + b))) =
    rotl (rotl b' 13 ^^^ (a' + b')) 17 ^^^ ((c' + d') + (rotl b' 13 ^^^ (a' + b'))) := h1
  have h2 : rotl ((c + d) + (rotl b 13 ^^^ (a + b))) 32 = rotl ((c' + d') + (rotl b' 13 ^^^ (a' + b'))) 32 := h2
  have h3 : rotl (rotl d 16 ^^^ (c + d)) 21 ^^^ (rotl (a + b) 32 + (rotl d 16 ^^^ (c + d))) =
    rotl (rotl d' 16 ^^^ (c' + d')) 21 ^^^ (rotl (a' + b') 32 + (rotl d' 16 ^^^ (c' + d'))) := h3
  have h2 := rotl_inj _ _ 32 (by decide) h2
  rw [h2] at h1
  have p1 := rotl_inj _ _ 17 (by decide) (xor_right_cancel' h1)
  rw [p1] at h2
  have p2 := add_right_cancel' h2
  rw [h0] at h3
  have p3 := rotl_inj _ _ 21 (by decide) (xor_right_cancel' h3)
  rw [p3] at h0
  have p4 := rotl_inj _ _ 32 (by decide) (add_right_cancel' h0)
  rw [p4] at p1
  rw [p2] at p3
  have q1 := rotl_inj _ _ 13 (by decide) (xor_right_cancel' p1)
  have q3 := rotl_inj _ _ 16 (by decide) (xor_right_cancel' p3)
  subst q1 q3
  rw [add_right_cancel' p4, add_right_cancel' p2]

theorem rounds_inj (n : Nat) (v w : Vector W64 4) (h : rounds n v = rounds n w) : v = w := by
  unfold rounds at h
  revert h
  generalize List.range n = l
  induction l generalizing v w with
  | nil => exact id
  | cons x l ih => exact fun h => sipRound_inj v w (ih _ _ h)

theorem set_xor_inj (i : Nat) (hi : i < 4) (v w : Vector W64 4) (x : W64)
    (h : v.set i (v[i] ^^^ x) = w.set i (w[i] ^^^ x)) : v = w := by
  apply Vector.ext
  intro j hj
  have := congrArg (fun u : Vector W64 4 => u[j]) h
  simp only [Vector.getElem_set] at this
  by_cases e : i = j
  · subst e
    rw [if_pos rfl, if_pos rfl] at this
    exact xor_right_cancel' this
  · rwa [if_neg e, if_neg e] at this

theorem body_inj (C : Nat) (v w : Vector W64 4) (m : Block 8) (h : body C v m = body C w m) : v = w :=
  set_xor_inj 3 (by decide) v w _ (rounds_inj C _ _ (set_xor_inj 0 (by decide) _ _ _ h))

theorem mdFold_inj {S : Type} (B : Nat) (body : S → Block B → S) (hb : ∀ s t m, body s m = body t m → s = t) (s t : S)
    (d : List Byte) (h : mdFold B body s d = mdFold B body t d) : s = t := by
  unfold mdFold at h
  revert h
  generalize blocks B d = l
  induction l generalizing s t with
  | nil => exact id
  | cons x l ih => exact fun h => hb _ _ _ (ih _ _ h)

/-- the state of `SipHash` after finalising `p ++ s` determines the one after `p`, if `p` is a whole number of words -/
theorem sip_suffix (C D : Nat) (key key' : Block 16) (p p' s : List Byte) (hp : 8 ∣ p.length) (hl : p.length = p'.length) :
    SipHash.finState C D key (p ++ s) = SipHash.finState C D key' (p' ++ s) ↔
      mdFold 8 (body C) (constructKey key).chain.state p = mdFold 8 (body C) (constructKey key').chain.state p' := by
  have e : ∀ q : List Byte, q.length = p.length → SipHash.pad (q ++ s) =
      q ++ (s ++ List.replicate (7 - (p.length + s.length) % 8) 0 ++ [BitVec.ofNat 8 (p.length + s.length)]) := by
    intro q hq
    unfold SipHash.pad
    rw [List.length_append, hq, List.append_assoc, List.append_assoc, List.append_assoc]
  unfold SipHash.finState
  simp only []
  rw [e p rfl, e p' hl.symm, mdFold_append 8 _ _ (by decide) p _ (Nat.mod_eq_zero_of_dvd hp),
    mdFold_append 8 _ _ (by decide) p' _ (Nat.mod_eq_zero_of_dvd (hl ▸ hp))]
  constructor
  · intro h
    exact mdFold_inj 8 _ (body_inj C) _ _ _ (set_xor_inj 2 (by decide) _ _ _ (rounds_inj D _ _ h))
  · intro h
    rw [h]

/-- different keys give different initial states -/
theorem key_inj (key key' : Block 16) (h : (constructKey key).chain.state = (constructKey key').chain.state) : key = key' := by
  have h0 : loadLE64 key 0 ^^^ 0x736f6d6570736575 = loadLE64 key' 0 ^^^ 0x736f6d6570736575 :=
    congrArg (fun v : Vector W64 4 => v[0]) h
  have h1 : loadLE64 key 1 ^^^ 0x646f72616e646f6d = loadLE64 key' 1 ^^^ 0x646f72616e646f6d :=
    congrArg (fun v : Vector W64 4 => v[1]) h
  have h0 := xor_right_cancel' h0
  have h1 := xor_right_cancel' h1
  apply Vector.ext
  intro i hi
  apply BitVec.eq_of_getLsbD_eq
  intro j hj
  rcases Nat.lt_or_ge i 8 with hi8 | hi8
  · have := congrArg (fun w : W64 => w.getLsbD (8 * i + j)) h0
    rw [SHA3.loadLE64_bit key 0 (by decide) _ (by omega), SHA3.loadLE64_bit key' 0 (by decide) _ (by omega)] at this
    simpa only [show 8 * 0 + (8 * i + j) / 8 = i by omega, show (8 * i + j) % 8 = j by omega] using this
  · have := congrArg (fun w : W64 => w.getLsbD (8 * (i - 8) + j)) h1
    rw [SHA3.loadLE64_bit key 1 (by decide) _ (by omega), SHA3.loadLE64_bit key' 1 (by decide) _ (by omega)] at this
    simpa only [show 8 * 1 + (8 * (i - 8) + j) / 8 = i by omega, show (8 * (i - 8) + j) % 8 = j by omega] using this

end Verif.Proof.Differences
