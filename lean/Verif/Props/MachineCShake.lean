import Verif.Proof.MachineCShake
import Verif.Props.CShake

/-!
# C52 for cSHAKE and TupleHash

Here the width of `size_t` shows: `str.size() * 8` (cshake.h:163) and `inData.size() * 8` (tuple_hash.h:191) are
computed in `size_t`, so on a 32-bit machine the bit length of a string of 2^29 bytes or more is encoded wrongly. Below
that limit the widths agree; at it, two different tuples get one digest on a 32-bit machine, and a customised cSHAKE
gives a digest of the uncustomised one.
-/

namespace Verif.Props
open Verif.Spec
open Model Model.CShake Proof.CShake Proof.Machine

theorem rate_room (R m : Nat) [hR : Model.SHA3.RateOK R] (h : 16 ≤ m) : 2 * R < 2 ^ m := by
  have := hR.le
  have := big h
  omega

/-- C52, cSHAKE: construction and any history of calls do the same on a machine whose `size_t` has `m` bits as on one
with 64, faults included, if the name's and the customisation's lengths in bits and the data's lengths in bytes fit in
`m` bits. Missing: names and customisations from 2^(m-3) bytes on, for which it is false. -/
theorem C52_CSHAKE_partial (R : Nat) [Model.SHA3.RateOK R] (m : Nat) (h : 16 ≤ m) (h64 : m ≤ 64) (nb : Nat → Nat)
    (dl : Int) (name custom : List Byte) (hn : 8 * name.length < 2 ^ m) (hc : 8 * custom.length < 2 ^ m) (ops : List Op)
    (hf : Fitting m ops) :
    (do runM m (← constructM m nb R dl name custom) ops) = (do run (← construct nb R dl name custom) ops) := by
  have hm := rate_room R m h
  exact bind_eq (Proof.Machine.construct hm h h64 nb dl name custom hn hc) fun o e =>
    crun hm h64 ops o (construct_inv hm h h64 nb dl name custom hn hc o e) hf

/-- C52, TupleHash: likewise; here the lengths in bits of the tuple's elements must fit. Missing: customisations and
elements from 2^(m-3) bytes on, for which it is false. -/
theorem C52_TupleHash_partial (R : Nat) [Model.SHA3.RateOK R] (m : Nat) (h : 16 ≤ m) (h64 : m ≤ 64) (nb : Nat → Nat)
    (dl : Int) (custom : List Byte) (hc : 8 * custom.length < 2 ^ m) (ops : List Op)
    (hf : ∀ d, Op.add d ∈ ops → 8 * d.length < 2 ^ m) :
    (do tupleRunM m nb (← tupleConstructM m nb R dl custom) ops) =
      (do tupleRun nb (← tupleConstruct nb R dl custom) ops) := by
  have hm := rate_room R m h
  have hn : 8 * (Model.CShake.tupleHashName).length < 2 ^ m := by
    have : (Model.CShake.tupleHashName).length = 9 := by decide +kernel
    have := big h
    omega
  refine bind_eq ?_ fun o e => ?_
  · exact bind_eq (Proof.Machine.construct hm h h64 nb dl _ custom hn hc) fun _ _ => rfl
  · obtain ⟨c, e1, e2⟩ := bind_ok e
    have := Except.ok.inj e2
    subst this
    exact trun hm h h64 nb ops _ (construct_inv hm h h64 nb dl _ custom hn hc c e1) hf

/-- the lengths fit on a 32-bit machine -/
example : 16 ≤ 32 ∧ 32 ≤ 64 ∧ 8 * ("Email Signature".toList).length < 2 ^ 32 ∧
    Fitting 32 [.add [0, 1, 2, 3], .finalize, .reset, .add [4]] := by
  refine ⟨by decide, by decide, by decide +kernel, ?_⟩
  intro d hd
  simp at hd
  rcases hd with h | h <;> subst h <;> decide

/-- C52 with C21: what a 32-bit machine computes -/
theorem C52_CSHAKE_128_32bit_partial (nb : Nat → Nat) (hnb : SP800185.ExactLog nb) (name custom : List Byte)
    (hn : name.length < 2 ^ 29) (hc : custom.length < 2 ^ 29) (d : Nat) (ops : List Op)
    (hl : Legal (ops ++ [.finalize])) (hr : NoReset ops) (hf : Fitting 32 ops) :
    ∃ o, (do runM 32 (← constructM 32 nb 168 d name custom) (ops ++ [Op.finalize])) = .ok o ∧
      toVector o = .ok (SP800185.cshake128 (message ops) d name custom) := by
  obtain ⟨o, o', e, e', q⟩ := C21_CSHAKE_128_partial nb hnb name custom (by omega) (by omega) d ops hl hr
  refine ⟨o', ?_, q⟩
  rw [C52_CSHAKE_partial 168 32 (by decide) (by decide) nb d name custom (by omega) (by omega) _
    (fun x hx => hf x (by simpa using hx)), e]
  exact e'

theorem C52_CSHAKE_256_32bit_partial (nb : Nat → Nat) (hnb : SP800185.ExactLog nb) (name custom : List Byte)
    (hn : name.length < 2 ^ 29) (hc : custom.length < 2 ^ 29) (d : Nat) (ops : List Op)
    (hl : Legal (ops ++ [.finalize])) (hr : NoReset ops) (hf : Fitting 32 ops) :
    ∃ o, (do runM 32 (← constructM 32 nb 136 d name custom) (ops ++ [Op.finalize])) = .ok o ∧
      toVector o = .ok (SP800185.cshake256 (message ops) d name custom) := by
  obtain ⟨o, o', e, e', q⟩ := C21_CSHAKE_256_partial nb hnb name custom (by omega) (by omega) d ops hl hr
  refine ⟨o', ?_, q⟩
  rw [C52_CSHAKE_partial 136 32 (by decide) (by decide) nb d name custom (by omega) (by omega) _
    (fun x hx => hf x (by simpa using hx)), e]
  exact e'

theorem adds_mem {X : List (List Byte)} {d : List Byte} (h : Op.add d ∈ X.map .add ++ [.finalize]) : d ∈ X := by
  simpa using h

/-- C52 with C22: what a 32-bit machine computes -/
theorem C52_TupleHash_128_32bit_partial (nb : Nat → Nat) (hnb : SP800185.ExactLog nb) (custom : List Byte)
    (hc : custom.length < 2 ^ 29) (d : Nat) (hd : d < 2 ^ 28) (X : List (List Byte)) (hX : ∀ s ∈ X, s.length < 2 ^ 29) :
    ∃ o, (do tupleRunM 32 nb (← tupleConstructM 32 nb 168 d custom) (X.map Op.add ++ [Op.finalize])) = .ok o ∧
      tupleToVector o = .ok (SP800185.tupleHash128 X d custom) := by
  obtain ⟨o, o', e, e', q⟩ := C22_TupleHash_128_partial nb hnb custom (by omega) d hd X
    (fun s hs => by have := hX s hs; omega)
  refine ⟨o', ?_, q⟩
  rw [C52_TupleHash_partial 168 32 (by decide) (by decide) nb d custom (by omega) _
    (fun x hx => by have := hX x (adds_mem hx); omega), e]
  exact e'

theorem C52_TupleHash_256_32bit_partial (nb : Nat → Nat) (hnb : SP800185.ExactLog nb) (custom : List Byte)
    (hc : custom.length < 2 ^ 29) (d : Nat) (hd : d < 2 ^ 28) (X : List (List Byte)) (hX : ∀ s ∈ X, s.length < 2 ^ 29) :
    ∃ o, (do tupleRunM 32 nb (← tupleConstructM 32 nb 136 d custom) (X.map Op.add ++ [Op.finalize])) = .ok o ∧
      tupleToVector o = .ok (SP800185.tupleHash256 X d custom) := by
  obtain ⟨o, o', e, e', q⟩ := C22_TupleHash_256_partial nb hnb custom (by omega) d hd X
    (fun s hs => by have := hX s hs; omega)
  refine ⟨o', ?_, q⟩
  rw [C52_TupleHash_partial 136 32 (by decide) (by decide) nb d custom (by omega) _
    (fun x hx => by have := hX x (adds_mem hx); omega), e]
  exact e'

/-! ### where it fails -/

theorem leftEncode_le (v : Nat) (h : v < 2 ^ 64) : (SP800185.leftEncode v).length ≤ 9 := by
  have := byteLen_min v 8 (by decide) (by omega)
  simp [SP800185.leftEncode]
  omega

theorem callsM_adds (m dl : Nat) (X : List (List Byte)) :
    callsM m dl (X.map .add ++ [.finalize]) =
      (X.flatMap fun d => [Op.add (SP800185.leftEncode (8 * d.length % 2 ^ m)), Op.add d]) ++
        [Op.add (SP800185.rightEncode (8 * dl))] ++ [Op.finalize] := by
  induction X with
  | nil => rfl
  | cons d X ih => simp only [List.map_cons, List.cons_append, callsM, ih, List.flatMap_cons]; simp

theorem messageFrom_callsM (m dl : Nat) (X : List (List Byte)) (acc : List Byte) :
    messageFrom acc ((X.flatMap fun d => [Op.add (SP800185.leftEncode (8 * d.length % 2 ^ m)), Op.add d]) ++
        [Op.add (SP800185.rightEncode (8 * dl))]) = acc ++ X.flatMap (encodeM m) ++ SP800185.rightEncode (8 * dl) := by
  induction X generalizing acc with
  | nil => simp [messageFrom]
  | cons d X ih =>
    simp only [List.flatMap_cons, List.cons_append, List.nil_append, messageFrom]
    rw [ih]
    simp [encodeM]

/-- What a 32-bit machine computes for any tuple that fits in its memory: each length in bits is reduced modulo 2^32. -/
theorem C52_TupleHash_actual (R : Nat) [Model.SHA3.RateOK R] (h8 : R % 8 = 0) (nb : Nat → Nat)
    (hnb : SP800185.ExactLog nb) (custom : List Byte) (hc : custom.length < 2 ^ 31) (d : Nat) (hd : d < 2 ^ 28)
    (X : List (List Byte)) (hX : ∀ s ∈ X, s.length < 2 ^ 32) :
    ∃ o, (do tupleRunM 32 nb (← tupleConstructM 32 nb R d custom) (X.map Op.add ++ [Op.finalize])) = .ok o ∧
      tupleToVector o = .ok (Keccak.bytes (Keccak.sponge (8 * R) (Keccak.bits
        (preM 32 R SP800185.tupleHashName custom ++
          X.flatMap (fun s => SP800185.leftEncode (8 * s.length % 2 ^ 32) ++ s) ++ SP800185.rightEncode (8 * d)) ++
            [false, false]) (8 * d))) := by
  let r := Proof.SHA3.refines R h8 0x04 _ Proof.SHA3.suffix_cshake d
  have hm := rate_room R 32 (by decide)
  have hname : Model.CShake.tupleHashName = SP800185.tupleHashName := by decide +kernel
  have hlen : SP800185.tupleHashName.length = 9 := rfl
  obtain ⟨x, e, hx, hk⟩ := constructM_mk hm (by decide) (by decide) nb hnb h8 d r SP800185.tupleHashName custom
    (by simp [SP800185.tupleHashName]) (by omega) (by omega) (by omega)
  have hrl : (SP800185.rightEncode (8 * d)).length < 2 ^ 32 := by
    have := byteLen_min (8 * d) 8 (by decide) (by omega)
    simp [SP800185.rightEncode]
    omega
  have hlft : ∀ s : List Byte, (SP800185.leftEncode (8 * s.length % 2 ^ 32)).length < 2 ^ 32 := by
    intro s
    have := leftEncode_le (8 * s.length % 2 ^ 32) (by omega)
    omega
  have hleg : ∀ l : List (List Byte), (∀ s ∈ l, s.length < 2 ^ 32) →
      legalFrom false (callsM 32 d (l.map .add ++ [.finalize])) := by
    intro l hl
    induction l with
    | nil => exact ⟨rfl, Nat.lt_trans hrl (by decide), rfl, trivial⟩
    | cons s l ih =>
      refine ⟨rfl, Nat.lt_trans (hlft s) (by decide), rfl, Nat.lt_trans (hl s (by simp)) (by decide), ?_⟩
      exact ih fun s hs => hl s (by simp [hs])
  have hleg := hleg X hX
  rw [callsM_adds] at hleg
  have hfit : Fitting 32 ((X.flatMap fun d => [Op.add (SP800185.leftEncode (8 * d.length % 2 ^ 32)), Op.add d]) ++
        [Op.add (SP800185.rightEncode (8 * d))]) := by
    intro s hs
    rcases List.mem_append.mp hs with hs | hs
    · obtain ⟨t, ht, hs⟩ := List.mem_flatMap.mp hs
      simp only [List.mem_cons, List.not_mem_nil, or_false, Op.add.injEq] at hs
      rcases hs with hs | hs
      · rw [hs]; exact hlft t
      · rw [hs]; exact hX t ht
    · simp only [List.mem_cons, List.not_mem_nil, or_false, Op.add.injEq] at hs
      rw [hs]; exact hrl
  obtain ⟨o, e', q⟩ := runM_from hm (by decide) true d r x _ hx hk _ hfit hleg
  refine ⟨⟨o, d⟩, ?_, ?_⟩
  · unfold tupleConstructM
    rw [hname, e]
    show tupleRunM 32 nb ⟨mk true ⟨d, x⟩, d⟩ _ = _
    rw [tupleRunM_calls nb hnb (by decide) d hd _ _ (fun s _ => by omega), callsM_adds, e']
    rfl
  · unfold tupleToVector
    rw [q, messageFrom_callsM]
    rfl

theorem encode_long : (SP800185.leftEncode (8 * (2 ^ 29 - 5))).length = 5 := by
  have : SP800185.byteLen (8 * (2 ^ 29 - 5)) = 4 := byteLen_unique _ _ (by decide) (by decide) (by decide)
  simp [SP800185.leftEncode, this]

/-- C52 fails: on a 32-bit machine the one-element tuple of the 2^29-byte string that spells "a string of 2^29 - 5 bytes,
namely t" has the digest of the two-element tuple of the empty string and t, for every t of that length, every
customisation, every output length and both classes (`R` is 168 or 136). -/
theorem C52_TupleHash_32bit_fails (R : Nat) [Model.SHA3.RateOK R] (h8 : R % 8 = 0) (nb : Nat → Nat)
    (hnb : SP800185.ExactLog nb) (custom : List Byte) (hc : custom.length < 2 ^ 31) (d : Nat) (hd : d < 2 ^ 28)
    (t : List Byte) (ht : t.length = 2 ^ 29 - 5) :
    ∃ s digest o₁ o₂, s ≠ [] ∧
      (do tupleRunM 32 nb (← tupleConstructM 32 nb R d custom) [Op.add s, Op.finalize]) = .ok o₁ ∧
      tupleToVector o₁ = .ok digest ∧
      (do tupleRunM 32 nb (← tupleConstructM 32 nb R d custom) [Op.add [], Op.add t, Op.finalize]) = .ok o₂ ∧
      tupleToVector o₂ = .ok digest := by
  have hs : (SP800185.leftEncode (8 * (2 ^ 29 - 5)) ++ t).length = 2 ^ 29 := by
    rw [List.length_append, encode_long, ht]
  have hne : SP800185.leftEncode (8 * (2 ^ 29 - 5)) ++ t ≠ [] := by
    intro h
    rw [h] at hs
    exact absurd hs (by decide)
  generalize hS : SP800185.leftEncode (8 * (2 ^ 29 - 5)) ++ t = s at hs hne
  obtain ⟨o₁, e₁, q₁⟩ := C52_TupleHash_actual R h8 nb hnb custom hc d hd [s]
    (fun x hx => by simp only [List.mem_singleton] at hx; rw [hx, hs]; decide)
  obtain ⟨o₂, e₂, q₂⟩ := C52_TupleHash_actual R h8 nb hnb custom hc d hd [[], t]
    (fun x hx => by
      simp only [List.mem_cons, List.not_mem_nil, or_false] at hx
      rcases hx with hx | hx
      · rw [hx]; decide
      · rw [hx, ht]; decide)
  refine ⟨s, _, o₁, o₂, hne, e₁, q₁, e₂, ?_⟩
  rw [q₂]
  have hw : ([[], t] : List (List Byte)).flatMap (fun s => SP800185.leftEncode (8 * s.length % 2 ^ 32) ++ s) =
      [s].flatMap (fun s => SP800185.leftEncode (8 * s.length % 2 ^ 32) ++ s) := by
    simp only [List.flatMap_cons, List.flatMap_nil, List.append_nil, List.length_nil]
    rw [hs, ← hS, ht]
  rw [hw]

/-- there is such a string -/
example : ∃ t : List Byte, t.length = 2 ^ 29 - 5 := ⟨List.replicate (2 ^ 29 - 5) 0, List.length_replicate ..⟩

/-- C52 fails: on a 32-bit machine a customisation of 2^29 zero bytes separates nothing. Whatever is hashed under it has
the digest, with the same name and no customisation, of a message with some zero bytes more in front. -/
theorem C52_CSHAKE_32bit_fails (R : Nat) [Model.SHA3.RateOK R] (h8 : R % 8 = 0) (nb : Nat → Nat)
    (hnb : SP800185.ExactLog nb) (name : List Byte) (hn0 : name ≠ []) (hn : name.length < 2 ^ 31) (d : Nat) :
    ∃ zeros : Nat, ∀ ops, Legal (ops ++ [.finalize]) → NoReset ops → Fitting 32 ops → ∃ digest o₁ o₂,
      (do runM 32 (← constructM 32 nb R d name (List.replicate (2 ^ 29) 0)) (ops ++ [Op.finalize])) = .ok o₁ ∧
      toVector o₁ = .ok digest ∧
      (do runM 32 (← constructM 32 nb R d name []) (Op.add (List.replicate zeros 0) :: ops ++ [Op.finalize])) = .ok o₂ ∧
      toVector o₂ = .ok digest := by
  rename_i hR
  have hle := hR.le
  have hp := hR.pos
  let r := Proof.SHA3.refines R h8 0x04 _ Proof.SHA3.suffix_cshake d
  have hm := rate_room R 32 (by decide)
  have hrep : (List.replicate (2 ^ 29) (0 : Byte)).length = 2 ^ 29 := List.length_replicate ..
  generalize hC : List.replicate (2 ^ 29) (0 : Byte) = C at hrep
  obtain ⟨x₁, c₁, h₁, k₁⟩ := constructM_mk hm (by decide) (by decide) nb hnb h8 d r name C
    (fun h => hn0 h.1) (by omega) (by omega) (by omega)
  obtain ⟨x₂, c₂, h₂, k₂⟩ := constructM_mk hm (by decide) (by decide) nb hnb h8 d r name []
    (fun h => hn0 h.1) (by omega) (by simp) (by simp; omega)
  let z := SP800185.leftEncode R ++ encodeM 32 name ++ SP800185.leftEncode 0
  let p := (R - z.length % R) % R
  let q := (R - (z.length + 2 ^ 29) % R) % R
  have hp1 : p < R := Nat.mod_lt _ hp
  have hq1 : q < R := Nat.mod_lt _ hp
  have pre₁ : preM 32 R name C = z ++ List.replicate (2 ^ 29 + q) 0 := by
    have hE : encodeM 32 C = SP800185.leftEncode 0 ++ C := by unfold encodeM; rw [hrep]
    unfold preM
    simp only [hE]
    rw [← List.append_assoc, List.length_append, hrep, List.append_assoc]
    rw [← List.replicate_append_replicate, hC]
  have pre₂ : preM 32 R name [] = z ++ List.replicate p 0 := by
    have hE : encodeM 32 [] = SP800185.leftEncode 0 := by unfold encodeM; simp
    unfold preM
    simp only [hE]
    rfl
  refine ⟨2 ^ 29 + q - p, fun ops hl hr hf => ?_⟩
  have hk : (List.replicate (2 ^ 29 + q - p) (0 : Byte)).length < 2 ^ 32 := by rw [List.length_replicate]; omega
  have hZ : List.replicate (2 ^ 29 + q) (0 : Byte) = List.replicate p 0 ++ List.replicate (2 ^ 29 + q - p) 0 := by
    rw [List.replicate_append_replicate]
    congr 1
    omega
  generalize List.replicate (2 ^ 29 + q - p) (0 : Byte) = Z at hk hZ
  obtain ⟨o₁, e₁, q₁⟩ := runM_from hm (by decide) true d r x₁ _ h₁ k₁ ops hf hl
  obtain ⟨o₂, e₂, q₂⟩ := runM_from hm (by decide) true d r x₂ _ h₂ k₂ (.add Z :: ops)
    (fun s hs => by
      simp only [List.mem_cons, Op.add.injEq] at hs
      rcases hs with hs | hs
      · rw [hs]; exact hk
      · exact hf s hs) ⟨rfl, Nat.lt_trans hk (by decide), hl⟩
  refine ⟨_, o₁, o₂, ?_, q₁, ?_, ?_⟩
  · rw [c₁]; exact e₁
  · rw [c₂]; exact e₂
  · rw [q₂]
    have hmsg : messageFrom (preM 32 R name []) (.add Z :: ops) = messageFrom (preM 32 R name C) ops := by
      rw [messageFrom, pre₁, pre₂, hZ, List.append_assoc]
    rw [hmsg]

/-- such names and histories exist -/
example : ([1] : List Byte) ≠ [] ∧ Legal ([.add [1]] ++ [.finalize]) ∧ NoReset [.add [1]] ∧ Fitting 32 [.add [1]] := by
  refine ⟨by simp, ⟨rfl, by decide, rfl, trivial⟩, ?_, ?_⟩
  · intro op h
    simp only [List.mem_singleton] at h
    rw [h]
    rfl
  · intro s h
    simp only [List.mem_singleton, Op.add.injEq] at h
    rw [h]
    decide

/-! The theorems on concrete cases. -/
section Cases
open Proof.CShake (countBytes countBytes_exact)
private theorem calls_noReset : NoReset someCalls := fun op h => by
  simp [someCalls] at h; rcases h with h | h | h <;> subst h <;> rfl
private theorem calls_fit : Fitting 32 someCalls := fun d h => by
  simp [someCalls] at h; rcases h with h | h | h <;> subst h <;> decide
example := C52_CSHAKE_partial 168 32 (by decide) (by decide) countBytes 32 [] signature (by decide) (by decide +kernel) someCalls
  calls_fit
example := C52_TupleHash_partial 168 16 (by decide) (by decide) countBytes 32 signature (by decide +kernel)
  [.add [1, 2], .reset, .add [3], .finalize] (fun d h => by simp at h; rcases h with h | h <;> subst h <;> decide)
example := C52_CSHAKE_128_32bit_partial countBytes countBytes_exact [] signature (by decide) (by decide +kernel) 32 someCalls
  (by decide +kernel) calls_noReset calls_fit
example := C52_CSHAKE_256_32bit_partial countBytes countBytes_exact [] signature (by decide) (by decide +kernel) 32 someCalls
  (by decide +kernel) calls_noReset calls_fit
example := C52_TupleHash_128_32bit_partial countBytes countBytes_exact signature (by decide +kernel) 32 (by decide)
  [[1], [], [2, 3]] (by decide)
example := C52_TupleHash_256_32bit_partial countBytes countBytes_exact signature (by decide +kernel) 32 (by decide)
  [[1], [], [2, 3]] (by decide)
example := C52_TupleHash_actual 168 rfl countBytes countBytes_exact signature (by decide +kernel) 32 (by decide)
  [List.replicate (2 ^ 30) 0] (fun s h => by rw [List.mem_singleton] at h; rw [h, List.length_replicate]; decide)
example := C52_TupleHash_32bit_fails 168 rfl countBytes countBytes_exact signature (by decide +kernel) 32 (by decide)
  (List.replicate (2 ^ 29 - 5) 0) (List.length_replicate ..)
example := C52_CSHAKE_32bit_fails 168 rfl countBytes countBytes_exact [0x4e] (by decide) (by decide) 32
end Cases

end Verif.Props
