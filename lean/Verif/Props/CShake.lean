import Verif.Proof.CShake
import Verif.Proof.KeccakPerm

/-!
# C21, C22, C26, C29, C03, C39: cSHAKE and TupleHash

Specification: Spec/SP800185.lean. `nb` stands for the code's floating-point byte count
`lround(log2(v) / 8 + 0.5)`; the hypothesis `ExactLog nb` says that it is right on the multiples of 8
below 2^56 - 2048 (Props/FloatLog.lean shows this of any sufficiently accurate `log2`). Strings are shorter than
2^53 - 256 bytes for that reason.
-/

namespace Verif.Props
open Spec Model.CShake Proof.CShake
open Spec.SP800185 (ExactLog)

/-- No call in the history is a `reset`. -/
def NoReset (ops : List Op) : Prop := ∀ op ∈ ops, isReset op = false

/-! ### C21 -/

theorem C21_CSHAKE_128_partial (nb : Nat → Nat) (hnb : ExactLog nb) (name custom : List Byte)
    (hn : name.length < 2 ^ 53 - 256) (hc : custom.length < 2 ^ 53 - 256) (d : Nat) (ops : List Op)
    (hl : Legal (ops ++ [.finalize])) (hr : NoReset ops) :
    ∃ o o', construct nb 168 d name custom = .ok o ∧ run o (ops ++ [.finalize]) = .ok o' ∧
      toVector o' = .ok (SP800185.cshake128 (message ops) d name custom) := by
  by_cases hne : name = [] ∧ custom = []
  · obtain ⟨rfl, rfl⟩ := hne
    let r := Proof.SHA3.refines 168 rfl 0x1F _ Proof.SHA3.suffix_shake d
    obtain ⟨o', e, q⟩ := run_from false d r _ [] r.fresh ops hl
    refine ⟨_, o', construct_plain nb d, e, ?_⟩
    rw [q]
    rfl
  · let r := Proof.SHA3.refines 168 rfl 0x04 _ Proof.SHA3.suffix_cshake d
    obtain ⟨x, e, hx⟩ := construct_mk nb hnb rfl d r name custom hne hn hc
    obtain ⟨o', e', q⟩ := run_from true d r x _ hx ops hl
    refine ⟨_, o', e, e', ?_⟩
    rw [q, messageFrom_noReset _ ops hr]
    unfold SP800185.cshake128
    rw [if_neg hne]
    rfl

theorem C21_CSHAKE_256_partial (nb : Nat → Nat) (hnb : ExactLog nb) (name custom : List Byte)
    (hn : name.length < 2 ^ 53 - 256) (hc : custom.length < 2 ^ 53 - 256) (d : Nat) (ops : List Op)
    (hl : Legal (ops ++ [.finalize])) (hr : NoReset ops) :
    ∃ o o', construct nb 136 d name custom = .ok o ∧ run o (ops ++ [.finalize]) = .ok o' ∧
      toVector o' = .ok (SP800185.cshake256 (message ops) d name custom) := by
  by_cases hne : name = [] ∧ custom = []
  · obtain ⟨rfl, rfl⟩ := hne
    let r := Proof.SHA3.refines 136 rfl 0x1F _ Proof.SHA3.suffix_shake d
    obtain ⟨o', e, q⟩ := run_from false d r _ [] r.fresh ops hl
    refine ⟨_, o', construct_plain nb d, e, ?_⟩
    rw [q]
    rfl
  · let r := Proof.SHA3.refines 136 rfl 0x04 _ Proof.SHA3.suffix_cshake d
    obtain ⟨x, e, hx⟩ := construct_mk nb hnb rfl d r name custom hne hn hc
    obtain ⟨o', e', q⟩ := run_from true d r x _ hx ops hl
    refine ⟨_, o', e, e', ?_⟩
    rw [q, messageFrom_noReset _ ops hr]
    unfold SP800185.cshake256
    rw [if_neg hne]
    rfl

/-- C21: with empty name and customization the classes are SHAKE, after any history, resets included. -/
theorem C21_plain_128 (nb : Nat → Nat) (d : Nat) (ops : List Op) (hl : Legal (ops ++ [.finalize])) :
    ∃ o o', construct nb 168 d [] [] = .ok o ∧ run o (ops ++ [.finalize]) = .ok o' ∧
      toVector o' = .ok (Keccak.shake128 (message ops) d) := by
  let r := Proof.SHA3.refines 168 rfl 0x1F _ Proof.SHA3.suffix_shake d
  obtain ⟨o', e, q⟩ := run_from false d r _ [] r.fresh ops hl
  exact ⟨_, o', construct_plain nb d, e, q⟩

theorem C21_plain_256 (nb : Nat → Nat) (d : Nat) (ops : List Op) (hl : Legal (ops ++ [.finalize])) :
    ∃ o o', construct nb 136 d [] [] = .ok o ∧ run o (ops ++ [.finalize]) = .ok o' ∧
      toVector o' = .ok (Keccak.shake256 (message ops) d) := by
  let r := Proof.SHA3.refines 136 rfl 0x1F _ Proof.SHA3.suffix_shake d
  obtain ⟨o', e, q⟩ := run_from false d r _ [] r.fresh ops hl
  exact ⟨_, o', construct_plain nb d, e, q⟩

/-- C21: a negative output length makes the constructors throw. -/
theorem C21_negative (nb : Nat → Nat) (d : Int) (hd : d < 0) (name custom : List Byte) :
    construct nb 168 d name custom = .error .badLength ∧ construct nb 136 d name custom = .error .badLength ∧
    tupleConstruct nb 168 d custom = .error .badLength ∧ tupleConstruct nb 136 d custom = .error .badLength := by
  have h : ∀ (R : Nat) [Model.SHA3.RateOK R] n, construct nb R d n custom = .error .badLength := by
    intro R _ n
    have hk : ∀ P, newK R P d = .error .badLength := by
      intro P
      unfold newK Model.SHA3.construct
      rw [if_pos hd]
      rfl
    unfold construct
    rw [hk, hk]
    dsimp only
    split <;> rfl
  refine ⟨h 168 name, h 136 name, ?_, ?_⟩ <;> (unfold tupleConstruct; rw [h]; rfl)

/-! ### C22 -/

theorem tuple_run (R : Nat) [Model.SHA3.RateOK R] (h8 : R % 8 = 0) (nb : Nat → Nat) (hnb : ExactLog nb)
    (custom : List Byte) (hc : custom.length < 2 ^ 53 - 256) (d : Nat) (hd : d < 2 ^ 28) (X : List (List Byte))
    (hX : ∀ s ∈ X, s.length < 2 ^ 53 - 256) :
    ∃ o o', tupleConstruct nb R d custom = .ok o ∧ tupleRun nb o (X.map .add ++ [.finalize]) = .ok o' ∧
      tupleToVector o' = .ok (Keccak.bytes (Keccak.sponge (8 * R) (Keccak.bits
        (pre R SP800185.tupleHashName custom ++ SP800185.tupleInput X d) ++ [false, false]) (8 * d))) := by
  let r := Proof.SHA3.refines R h8 0x04 _ Proof.SHA3.suffix_cshake d
  obtain ⟨x, e, hx⟩ := construct_mk nb hnb h8 d r SP800185.tupleHashName custom (by simp [SP800185.tupleHashName])
    (by decide +kernel) hc
  have hs : Small (X.map Op.add ++ [.finalize]) := by
    intro s hs
    rcases List.mem_append.mp hs with h | h
    · obtain ⟨t, ht, h⟩ := List.mem_map.mp h
      injection h with h
      subst h
      exact hX _ ht
    · simp at h
  have hleg : Legal (calls d (X.map .add ++ [.finalize])) := by
    refine legal_calls d hd _ hs false ?_
    have : ∀ l : List (List Byte), (∀ s ∈ l, s.length < 2 ^ 53 - 256) → legalFrom false (l.map Op.add ++ [Op.finalize]) := by
      intro l hl
      induction l with
      | nil => exact ⟨rfl, trivial⟩
      | cons s l ih =>
        refine ⟨rfl, ?_, ih fun s hs => hl s (by simp [hs])⟩
        have := hl s (by simp)
        omega
    exact this X hX
  rw [calls_adds] at hleg
  obtain ⟨o', e', q⟩ := run_from true d r x _ hx _ hleg
  refine ⟨⟨mk true ⟨d, x⟩, d⟩, ⟨o', d⟩, ?_, ?_, ?_⟩
  · unfold tupleConstruct
    have hname : tupleHashName = SP800185.tupleHashName := by decide +kernel
    rw [hname, e]
    rfl
  · rw [tupleRun_calls nb hnb d hd _ _ hs, calls_adds, e']
    rfl
  · unfold tupleToVector
    rw [q, messageFrom_noReset _ _ (noReset_calls d X), message_calls]

theorem tuple_run_reset (R : Nat) [Model.SHA3.RateOK R] (h8 : R % 8 = 0) (nb : Nat → Nat) (hnb : ExactLog nb)
    (custom : List Byte) (hc : custom.length < 2 ^ 53 - 256) (d : Nat) (hd : d < 2 ^ 28) (X : List (List Byte))
    (hX : ∀ s ∈ X, s.length < 2 ^ 53 - 256) :
    ∃ o o', tupleConstruct nb R d custom = .ok o ∧ tupleRun nb o (.reset :: X.map .add ++ [.finalize]) = .ok o' ∧
      tupleToVector o' = .ok (Keccak.bytes (Keccak.sponge (8 * R) (Keccak.bits
        (SP800185.tupleInput X d) ++ [false, false]) (8 * d))) := by
  let r := Proof.SHA3.refines R h8 0x04 _ Proof.SHA3.suffix_cshake d
  obtain ⟨x, e, hx⟩ := construct_mk nb hnb h8 d r SP800185.tupleHashName custom (by simp [SP800185.tupleHashName])
    (by decide +kernel) hc
  have hs : Small (X.map Op.add ++ [.finalize]) := by
    intro s hs
    rcases List.mem_append.mp hs with h | h
    · obtain ⟨t, ht, h⟩ := List.mem_map.mp h
      injection h with h
      subst h
      exact hX _ ht
    · simp at h
  have hleg : Legal (calls d (X.map .add ++ [.finalize])) := by
    refine legal_calls d hd _ hs false ?_
    have : ∀ l : List (List Byte), (∀ s ∈ l, s.length < 2 ^ 53 - 256) → legalFrom false (l.map Op.add ++ [Op.finalize]) := by
      intro l hl
      induction l with
      | nil => exact ⟨rfl, trivial⟩
      | cons s l ih =>
        refine ⟨rfl, ?_, ih fun s hs => hl s (by simp [hs])⟩
        have := hl s (by simp)
        omega
    exact this X hX
  rw [calls_adds] at hleg
  obtain ⟨o', e', q⟩ := run_from true d r x _ hx (Op.reset :: _) hleg
  refine ⟨⟨mk true ⟨d, x⟩, d⟩, ⟨o', d⟩, ?_, ?_, ?_⟩
  · unfold tupleConstruct
    have hname : tupleHashName = SP800185.tupleHashName := by decide +kernel
    rw [hname, e]
    rfl
  · have hs' : Small (Op.reset :: X.map Op.add ++ [.finalize]) := by
      intro s h
      rcases List.mem_cons.mp h with h | h
      · cases h
      · exact hs s h
    rw [tupleRun_calls nb hnb d hd _ _ hs', List.cons_append, calls, calls_adds, ← List.cons_append, e']
    rfl
  · unfold tupleToVector
    rw [q, messageFrom_reset _ _ ⟨Op.reset, by simp, rfl⟩]
    exact congrArg (fun m => Except.ok (Keccak.bytes (Keccak.sponge (8 * R) (Keccak.bits m ++ [false, false]) (8 * d))))
      (message_calls d X)

theorem C22_TupleHash_128_partial (nb : Nat → Nat) (hnb : ExactLog nb) (custom : List Byte)
    (hc : custom.length < 2 ^ 53 - 256) (d : Nat) (hd : d < 2 ^ 28) (X : List (List Byte))
    (hX : ∀ s ∈ X, s.length < 2 ^ 53 - 256) :
    ∃ o o', tupleConstruct nb 168 d custom = .ok o ∧ tupleRun nb o (X.map .add ++ [.finalize]) = .ok o' ∧
      tupleToVector o' = .ok (SP800185.tupleHash128 X d custom) := by
  obtain ⟨o, o', e, e', q⟩ := tuple_run 168 rfl nb hnb custom hc d hd X hX
  refine ⟨o, o', e, e', ?_⟩
  rw [q]
  unfold SP800185.tupleHash128 SP800185.cshake128
  rw [if_neg (by simp [SP800185.tupleHashName])]
  rfl

theorem C22_TupleHash_256_partial (nb : Nat → Nat) (hnb : ExactLog nb) (custom : List Byte)
    (hc : custom.length < 2 ^ 53 - 256) (d : Nat) (hd : d < 2 ^ 28) (X : List (List Byte))
    (hX : ∀ s ∈ X, s.length < 2 ^ 53 - 256) :
    ∃ o o', tupleConstruct nb 136 d custom = .ok o ∧ tupleRun nb o (X.map .add ++ [.finalize]) = .ok o' ∧
      tupleToVector o' = .ok (SP800185.tupleHash256 X d custom) := by
  obtain ⟨o, o', e, e', q⟩ := tuple_run 136 rfl nb hnb custom hc d hd X hX
  refine ⟨o, o', e, e', ?_⟩
  rw [q]
  unfold SP800185.tupleHash256 SP800185.cshake256
  rw [if_neg (by simp [SP800185.tupleHashName])]
  rfl

/-- C22 fails from 2^28 bytes of output on: the bit length is computed in a 32-bit `int`. -/
theorem C22_signed_overflow (nb : Nat → Nat) (R : Nat) [Model.SHA3.RateOK R] (o : TupleHash R)
    (h : 2 ^ 28 ≤ o.digestLength) : tupleFinalize nb o = .error .signedOverflow := by
  unfold tupleFinalize
  dsimp only
  rw [if_pos (by omega)]
  rfl

/-! ### C26 -/

theorem cshake_prefix_128 (m : List Byte) (d d' : Nat) (h : d ≤ d') (N S : List Byte) :
    SP800185.cshake128 m d N S <+: SP800185.cshake128 m d' N S := by
  unfold SP800185.cshake128
  split
  · exact Proof.SHA3.sponge_prefix 168 rfl 0x1F _ Proof.SHA3.suffix_shake _ d d' h
  · exact Proof.SHA3.sponge_prefix 168 rfl 0x04 _ Proof.SHA3.suffix_cshake _ d d' h

theorem cshake_prefix_256 (m : List Byte) (d d' : Nat) (h : d ≤ d') (N S : List Byte) :
    SP800185.cshake256 m d N S <+: SP800185.cshake256 m d' N S := by
  unfold SP800185.cshake256
  split
  · exact Proof.SHA3.sponge_prefix 136 rfl 0x1F _ Proof.SHA3.suffix_shake _ d d' h
  · exact Proof.SHA3.sponge_prefix 136 rfl 0x04 _ Proof.SHA3.suffix_cshake _ d d' h

/-- C26: the same name, customization and calls, a shorter and a longer output. -/
theorem C26_CSHAKE_128_short (nb : Nat → Nat) (hnb : ExactLog nb) (name custom : List Byte)
    (hn : name.length < 2 ^ 53 - 256) (hc : custom.length < 2 ^ 53 - 256) (d d' : Nat) (h : d ≤ d') (ops : List Op)
    (hl : Legal (ops ++ [.finalize])) (hr : NoReset ops) :
    ∃ o p o' p' z z', construct nb 168 d name custom = .ok o ∧ run o (ops ++ [.finalize]) = .ok p ∧
      construct nb 168 d' name custom = .ok o' ∧ run o' (ops ++ [.finalize]) = .ok p' ∧
      toVector p = .ok z ∧ toVector p' = .ok z' ∧ z <+: z' := by
  obtain ⟨o, p, e1, e2, e3⟩ := C21_CSHAKE_128_partial nb hnb name custom hn hc d ops hl hr
  obtain ⟨o', p', f1, f2, f3⟩ := C21_CSHAKE_128_partial nb hnb name custom hn hc d' ops hl hr
  exact ⟨o, p, o', p', _, _, e1, e2, f1, f2, e3, f3, cshake_prefix_128 _ d d' h name custom⟩

theorem C26_CSHAKE_256_short (nb : Nat → Nat) (hnb : ExactLog nb) (name custom : List Byte)
    (hn : name.length < 2 ^ 53 - 256) (hc : custom.length < 2 ^ 53 - 256) (d d' : Nat) (h : d ≤ d') (ops : List Op)
    (hl : Legal (ops ++ [.finalize])) (hr : NoReset ops) :
    ∃ o p o' p' z z', construct nb 136 d name custom = .ok o ∧ run o (ops ++ [.finalize]) = .ok p ∧
      construct nb 136 d' name custom = .ok o' ∧ run o' (ops ++ [.finalize]) = .ok p' ∧
      toVector p = .ok z ∧ toVector p' = .ok z' ∧ z <+: z' := by
  obtain ⟨o, p, e1, e2, e3⟩ := C21_CSHAKE_256_partial nb hnb name custom hn hc d ops hl hr
  obtain ⟨o', p', f1, f2, f3⟩ := C21_CSHAKE_256_partial nb hnb name custom hn hc d' ops hl hr
  exact ⟨o, p, o', p', _, _, e1, e2, f1, f2, e3, f3, cshake_prefix_256 _ d d' h name custom⟩

/-! ### C29 -/

/-- C29: the length byte of the specification is the smallest positive number of base-256 digits. -/
theorem C29_shortest (x n : Nat) :
    x < 256 ^ SP800185.byteLen x ∧ 0 < SP800185.byteLen x ∧ (0 < n → x < 256 ^ n → SP800185.byteLen x ≤ n) :=
  ⟨byteLen_lt x, byteLen_pos x, fun h1 h2 => byteLen_min x n h1 h2⟩

/-- C29: the code's encodings of the bit length of a string shorter than 2^53 - 256 bytes. -/
theorem C29_encodings (nb : Nat → Nat) (hnb : ExactLog nb) (v : Nat) (hv : v < 2 ^ 56 - 2048) (h8 : v % 8 = 0) :
    ∃ l r : Buffer 8, leftEncode nb v = .ok l ∧ l.contents = SP800185.leftEncode v ∧
      rightEncode nb v = .ok r ∧ r.contents = SP800185.rightEncode v := by
  obtain ⟨l, el, hl⟩ := leftEncode_holds nb hnb v hv h8
  obtain ⟨r, er, hr⟩ := rightEncode_holds nb hnb v hv h8
  exact ⟨l, r, el, hl.2, er, hr.2⟩

/-- C29 fails for lengths that need eight bytes: both encoders then write a ninth byte into an
8-byte buffer, so no `size_t` from 2^56 on can be encoded. -/
theorem C29_overrun (nb : Nat → Nat) (v : Nat) (hv : 2 ^ 56 ≤ v) (hv' : v < 2 ^ 64)
    (hnb : nb v = SP800185.byteLen v) :
    leftEncode nb v = .error .bufferOverrun ∧ rightEncode nb v = .error .bufferOverrun := by
  have h1 : SP800185.byteLen v ≤ 8 := byteLen_min v 8 (by decide) (by omega)
  have h2 : ¬SP800185.byteLen v ≤ 7 := by
    intro h
    have h3 := byteLen_lt v
    have h4 : 256 ^ SP800185.byteLen v ≤ 256 ^ 7 := Nat.pow_le_pow_right (by decide) h
    omega
  have hc : byteCount nb v = 8 := by
    unfold byteCount
    rw [if_neg (by omega), hnb]
    omega
  exact ⟨leftEncode_overrun nb v (by omega), rightEncode_overrun nb v (by omega)⟩

/-- C29: what TupleHash absorbs after its prefix determines the tuple and the output length
(the length bound is that of the standard's one-byte length of a length). -/
theorem C29_tuples_injective (X Y : List (List Byte)) (d e : Nat) (hX : ∀ s ∈ X, 8 * s.length < 2 ^ 2040)
    (hY : ∀ s ∈ Y, 8 * s.length < 2 ^ 2040) (hd : 8 * d < 2 ^ 2040) (he : 8 * e < 2 ^ 2040)
    (h : SP800185.tupleInput X d = SP800185.tupleInput Y e) : X = Y ∧ d = e := by
  have hp : (2 : Nat) ^ 2040 = 256 ^ 255 := by decide +kernel
  rw [hp] at hd he
  obtain ⟨h1, h2⟩ := rightEncode_inj _ _ _ _ hd he h
  exact ⟨tuple_inj X Y (fun s hs => hp ▸ hX s hs) (fun s hs => hp ▸ hY s hs) h2, by omega⟩

/-- C29: what a customised cSHAKE absorbs determines name, customization and message. -/
theorem C29_cshake_injective (w : Nat) (N S X N' S' X' : List Byte) (hw : w < 2 ^ 2040)
    (hN : 8 * N.length < 2 ^ 2040) (hS : 8 * S.length < 2 ^ 2040) (hN' : 8 * N'.length < 2 ^ 2040)
    (hS' : 8 * S'.length < 2 ^ 2040)
    (h : SP800185.bytepad (SP800185.encodeString N ++ SP800185.encodeString S) w ++ X =
      SP800185.bytepad (SP800185.encodeString N' ++ SP800185.encodeString S') w ++ X') :
    N = N' ∧ S = S' ∧ X = X' := by
  have hp : (2 : Nat) ^ 2040 = 256 ^ 255 := by decide +kernel
  rw [hp] at hw hN hS hN' hS'
  exact pre_inj w N S X N' S' X' hw hN hS hN' hS' h

/-! ### C03 -/

/-- C03: after a `reset` a customised object has forgotten its name and customization: it computes
`KECCAK[256]` of the bare message with the cSHAKE suffix. -/
theorem C03_CSHAKE_128_after_reset (nb : Nat → Nat) (hnb : ExactLog nb) (name custom : List Byte)
    (hne : ¬(name = [] ∧ custom = [])) (hn : name.length < 2 ^ 53 - 256) (hc : custom.length < 2 ^ 53 - 256) (d : Nat)
    (ops : List Op) (hl : Legal (ops ++ [.finalize])) (hr : Op.reset ∈ ops) :
    ∃ o o', construct nb 168 d name custom = .ok o ∧ run o (ops ++ [.finalize]) = .ok o' ∧
      toVector o' = .ok (Keccak.bytes (Keccak.keccak 256 (Keccak.bits (message ops) ++ [false, false]) (8 * d))) := by
  let r := Proof.SHA3.refines 168 rfl 0x04 _ Proof.SHA3.suffix_cshake d
  obtain ⟨x, e, hx⟩ := construct_mk nb hnb rfl d r name custom hne hn hc
  obtain ⟨o', e', q⟩ := run_from true d r x _ hx ops hl
  refine ⟨_, o', e, e', ?_⟩
  rw [q, messageFrom_reset _ ops ⟨_, hr, rfl⟩]
  rfl

theorem C03_CSHAKE_256_after_reset (nb : Nat → Nat) (hnb : ExactLog nb) (name custom : List Byte)
    (hne : ¬(name = [] ∧ custom = [])) (hn : name.length < 2 ^ 53 - 256) (hc : custom.length < 2 ^ 53 - 256) (d : Nat)
    (ops : List Op) (hl : Legal (ops ++ [.finalize])) (hr : Op.reset ∈ ops) :
    ∃ o o', construct nb 136 d name custom = .ok o ∧ run o (ops ++ [.finalize]) = .ok o' ∧
      toVector o' = .ok (Keccak.bytes (Keccak.keccak 512 (Keccak.bits (message ops) ++ [false, false]) (8 * d))) := by
  let r := Proof.SHA3.refines 136 rfl 0x04 _ Proof.SHA3.suffix_cshake d
  obtain ⟨x, e, hx⟩ := construct_mk nb hnb rfl d r name custom hne hn hc
  obtain ⟨o', e', q⟩ := run_from true d r x _ hx ops hl
  refine ⟨_, o', e, e', ?_⟩
  rw [q, messageFrom_reset _ ops ⟨_, hr, rfl⟩]
  rfl

deriving instance DecidableEq for Except

set_option maxRecDepth 8000 in
theorem cshake_byte : (do toVector (← run (← construct countBytes 168 1 [] [1]) [.finalize])) = .ok [0x34] := by
  decide +kernel

set_option maxRecDepth 8000 in
theorem cshake_byte_reset :
    (do toVector (← run (← construct countBytes 168 1 [] [1]) [.reset, .finalize])) = .ok [0x83] := by
  decide +kernel

/-- C03 is false for customised CSHAKE_128: a `reset` before the first byte changes the digest. -/
theorem C03_CSHAKE_128_fails (nb : Nat → Nat) (hnb : ExactLog nb) :
    ∃ o a b, construct nb 168 1 [] [1] = .ok o ∧ run o [.finalize] = .ok a ∧
      run o [.reset, .finalize] = .ok b ∧ toVector a = .ok [0x34] ∧ toVector b = .ok [0x83] := by
  have h0 : Legal ([] ++ [Op.finalize]) := ⟨rfl, trivial⟩
  have h1 : Legal ([Op.reset] ++ [Op.finalize]) := ⟨rfl, trivial⟩
  have hn : ([] : List Byte).length < 2 ^ 53 - 256 := by decide
  have hc : ([1] : List Byte).length < 2 ^ 53 - 256 := by decide
  have hr : NoReset [] := fun _ h => by cases h
  have key : SP800185.cshake128 [] 1 [] [1] = [0x34] := by
    obtain ⟨o, a, e1, e2, e3⟩ := C21_CSHAKE_128_partial countBytes countBytes_exact [] [1] hn hc 1 [] h0 hr
    have h := cshake_byte
    rw [show ((1 : Int)) = ((1 : Nat) : Int) from rfl, e1] at h
    simp only [bind, Except.bind] at h
    rw [show [Op.finalize] = [] ++ [Op.finalize] from rfl, e2] at h
    simp only [] at h
    rw [e3] at h
    injection h
  have key' : Keccak.bytes (Keccak.keccak 256 (Keccak.bits (message [Op.reset]) ++ [false, false]) (8 * 1)) = [0x83] := by
    obtain ⟨o, a, e1, e2, e3⟩ := C03_CSHAKE_128_after_reset countBytes countBytes_exact [] [1] (by simp) hn hc 1
      [.reset] h1 (by simp)
    have h := cshake_byte_reset
    rw [show ((1 : Int)) = ((1 : Nat) : Int) from rfl, e1] at h
    simp only [bind, Except.bind] at h
    rw [show [Op.reset, Op.finalize] = [Op.reset] ++ [Op.finalize] from rfl, e2] at h
    simp only [] at h
    rw [e3] at h
    injection h
  obtain ⟨o, a, e1, e2, e3⟩ := C21_CSHAKE_128_partial nb hnb [] [1] hn hc 1 [] h0 hr
  obtain ⟨o', b, f1, f2, f3⟩ := C03_CSHAKE_128_after_reset nb hnb [] [1] (by simp) hn hc 1 [.reset] h1 (by simp)
  rw [e1] at f1
  injection f1 with f1
  subst f1
  refine ⟨o, a, b, e1, e2, f2, ?_, ?_⟩
  · rw [e3]; exact congrArg Except.ok key
  · rw [f3, key']

/-- C03 for CSHAKE objects without name and customization. -/
theorem C03_CSHAKE_partial (nb : Nat → Nat) (R : Nat) [Model.SHA3.RateOK R] (h8 : R % 8 = 0) (d : Nat)
    (o : CShake R) (e : construct nb R d [] [] = .ok o) (before after : List Op) (hl : Legal before) :
    run o (before ++ .reset :: after) = run o after := by
  rw [construct_plain] at e
  injection e with e
  subst e
  have r := Proof.SHA3.refines R h8 0x1F _ Proof.SHA3.suffix_shake d
  have h := r.resetFresh before after hl
  rw [run_mk, run_mk]
  exact congrArg (fun x => x >>= fun y => pure (mk false ⟨d, y⟩)) h

/-- C03 fails for every TupleHash: after a `reset` the prefix with the function name `TupleHash` and the
customization is gone. -/
theorem C03_TupleHash_after_reset (nb : Nat → Nat) (hnb : ExactLog nb) (R : Nat) [Model.SHA3.RateOK R]
    (h8 : R % 8 = 0) (custom : List Byte)
    (hc : custom.length < 2 ^ 53 - 256) (d : Nat) (hd : d < 2 ^ 28) (X : List (List Byte))
    (hX : ∀ s ∈ X, s.length < 2 ^ 53 - 256) :
    ∃ o o', tupleConstruct nb R d custom = .ok o ∧ tupleRun nb o (.reset :: X.map .add ++ [.finalize]) = .ok o' ∧
      tupleToVector o' = .ok (Keccak.bytes (Keccak.sponge (8 * R)
        (Keccak.bits (SP800185.tupleInput X d) ++ [false, false]) (8 * d))) :=
  tuple_run_reset R h8 nb hnb custom hc d hd X hX

/-! ### C39 -/

/-- the objects a program can hold without moving from any: constructed, then any calls -/
def Reached (nb : Nat → Nat) {R : Nat} [Model.SHA3.RateOK R] (o : CShake R) : Prop :=
  ∃ (d : Int) (name custom : List Byte) (o0 : CShake R) (ops : List Op),
    construct nb R d name custom = .ok o0 ∧ run o0 ops = .ok o

theorem reached_shape (nb : Nat → Nat) {R : Nat} [Model.SHA3.RateOK R] (o : CShake R) (h : Reached nb o) : Shape o := by
  obtain ⟨d, name, custom, o0, ops, e, e'⟩ := h
  exact (run_shape o0 o ops (construct_shape nb d name custom o0 e).1 e').1

/-- C39: a copy-constructed object has the same value, hence the same future. -/
theorem C39_CSHAKE_copy (nb : Nat → Nat) {R : Nat} [Model.SHA3.RateOK R] (o : CShake R) (h : Reached nb o) :
    copy o = .ok o := by
  obtain ⟨c, k, rfl⟩ := reached_shape nb o h
  exact copy_mk c k

/-- C39: copy assignment copies when both objects are customised or both are not, and dereferences a
null pointer otherwise. -/
theorem C39_CSHAKE_assign (nb : Nat → Nat) {R : Nat} [Model.SHA3.RateOK R] (a b : CShake R) (ha : Reached nb a)
    (hb : Reached nb b) :
    copyAssign a b = if a.customized = b.customized then .ok b else .error .nullDeref := by
  obtain ⟨c, k, rfl⟩ := reached_shape nb a ha
  obtain ⟨c', k', rfl⟩ := reached_shape nb b hb
  rw [assign_mk, mk_customized, mk_customized]

/-- C39 is false for assigning a customised object to a plain one: a null pointer is dereferenced. -/
theorem C39_CSHAKE_assign_fails (nb : Nat → Nat) (hnb : ExactLog nb) :
    ∃ a b, construct nb 168 32 [] [] = .ok a ∧ construct nb 168 32 [] [1] = .ok b ∧
      copyAssign a b = .error .nullDeref ∧ copyAssign b a = .error .nullDeref := by
  obtain ⟨x, e, _⟩ := construct_mk nb hnb rfl 32 (Proof.SHA3.refines 168 rfl 0x04 _ Proof.SHA3.suffix_cshake 32)
    [] [1] (by simp) (by decide) (by decide)
  exact ⟨_, _, construct_plain nb 32, e, rfl, rfl⟩

/-- C39: the target of a move construction or assignment behaves from then on as the source did. -/
theorem C39_CSHAKE_move {R : Nat} [Model.SHA3.RateOK R] (a b : CShake R) (ops : List Op) :
    (do toVector (← run (moveSwap a b).1 ops)) = (do toVector (← run b ops)) :=
  read_active _ _ ops (move_active a b)

/-- C39: an object whose contents have been moved to a new one is unusable. -/
theorem C39_CSHAKE_moved_from (nb : Nat → Nat) {R : Nat} [Model.SHA3.RateOK R] (o : CShake R) (h : Reached nb o) (op : Op) :
    step (moveConstruct o).2 op = .error .nullDeref ∧ toVector (moveConstruct o).2 = .error .nullDeref := by
  obtain ⟨c, k, rfl⟩ := reached_shape nb o h
  constructor
  · cases c <;> cases op <;> rfl
  · cases c <;> rfl

/-! ### C37 and the hypotheses -/

theorem C37_CSHAKE_128_short (nb : Nat → Nat) (hnb : ExactLog nb) (name custom : List Byte)
    (hn : name.length < 2 ^ 53 - 256) (hc : custom.length < 2 ^ 53 - 256) (d : Nat) (ops : List Op)
    (hl : Legal (ops ++ [.finalize])) :
    ∃ o o' z, construct nb 168 d name custom = .ok o ∧ run o (ops ++ [.finalize]) = .ok o' ∧
      toVector o' = .ok z ∧ z.length = d := by
  by_cases hne : name = [] ∧ custom = []
  · obtain ⟨rfl, rfl⟩ := hne
    obtain ⟨o, o', e, e', q⟩ := C21_plain_128 nb d ops hl
    exact ⟨o, o', _, e, e', q, Proof.SHA3.sponge_length 168 rfl 0x1F _ Proof.SHA3.suffix_shake _ d⟩
  · let r := Proof.SHA3.refines 168 rfl 0x04 _ Proof.SHA3.suffix_cshake d
    obtain ⟨x, e, hx⟩ := construct_mk nb hnb rfl d r name custom hne hn hc
    obtain ⟨o', e', q⟩ := run_from true d r x _ hx ops hl
    exact ⟨_, o', _, e, e', q, Proof.SHA3.sponge_length 168 rfl 0x04 _ Proof.SHA3.suffix_cshake _ d⟩

theorem C37_CSHAKE_256_short (nb : Nat → Nat) (hnb : ExactLog nb) (name custom : List Byte)
    (hn : name.length < 2 ^ 53 - 256) (hc : custom.length < 2 ^ 53 - 256) (d : Nat) (ops : List Op)
    (hl : Legal (ops ++ [.finalize])) :
    ∃ o o' z, construct nb 136 d name custom = .ok o ∧ run o (ops ++ [.finalize]) = .ok o' ∧
      toVector o' = .ok z ∧ z.length = d := by
  by_cases hne : name = [] ∧ custom = []
  · obtain ⟨rfl, rfl⟩ := hne
    obtain ⟨o, o', e, e', q⟩ := C21_plain_256 nb d ops hl
    exact ⟨o, o', _, e, e', q, Proof.SHA3.sponge_length 136 rfl 0x1F _ Proof.SHA3.suffix_shake _ d⟩
  · let r := Proof.SHA3.refines 136 rfl 0x04 _ Proof.SHA3.suffix_cshake d
    obtain ⟨x, e, hx⟩ := construct_mk nb hnb rfl d r name custom hne hn hc
    obtain ⟨o', e', q⟩ := run_from true d r x _ hx ops hl
    exact ⟨_, o', _, e, e', q, Proof.SHA3.sponge_length 136 rfl 0x04 _ Proof.SHA3.suffix_cshake _ d⟩

/-- C01: the digest depends on the bytes fed since construction only, not on how they were split. -/
theorem C01_CSHAKE_short (nb : Nat → Nat) (hnb : ExactLog nb) (name custom : List Byte)
    (hn : name.length < 2 ^ 53 - 256) (hc : custom.length < 2 ^ 53 - 256) (d : Nat) (ps qs : List (List Byte))
    (hp : ∀ p ∈ ps, p.length < 2 ^ 64) (hq : ∀ q ∈ qs, q.length < 2 ^ 64) (h : ps.flatten = qs.flatten) :
    ∃ o a b o' a' b' z z', construct nb 168 d name custom = .ok o ∧ run o (ps.map .add ++ [.finalize]) = .ok a ∧
      run o (qs.map .add ++ [.finalize]) = .ok b ∧ toVector a = .ok z ∧ toVector b = .ok z ∧
      construct nb 136 d name custom = .ok o' ∧ run o' (ps.map .add ++ [.finalize]) = .ok a' ∧
      run o' (qs.map .add ++ [.finalize]) = .ok b' ∧ toVector a' = .ok z' ∧ toVector b' = .ok z' := by
  have lp := Refines.legal_adds ps hp
  have lq := Refines.legal_adds qs hq
  have nr : ∀ l : List (List Byte), NoReset (l.map .add) := by
    intro l op ho
    obtain ⟨_, _, rfl⟩ := List.mem_map.mp ho
    rfl
  obtain ⟨o, a, e1, e2, e3⟩ := C21_CSHAKE_128_partial nb hnb name custom hn hc d _ lp (nr ps)
  obtain ⟨o1, b, f1, f2, f3⟩ := C21_CSHAKE_128_partial nb hnb name custom hn hc d _ lq (nr qs)
  rw [e1] at f1; injection f1 with f1; subst f1
  obtain ⟨o', a', g1, g2, g3⟩ := C21_CSHAKE_256_partial nb hnb name custom hn hc d _ lp (nr ps)
  obtain ⟨o1', b', k1, k2, k3⟩ := C21_CSHAKE_256_partial nb hnb name custom hn hc d _ lq (nr qs)
  rw [g1] at k1; injection k1 with k1; subst k1
  rw [Refines.message_adds] at e3 f3 g3 k3
  rw [← h] at f3 k3
  exact ⟨o, a, b, o', a', b', _, _, e1, e2, f2, e3, f3, g1, g2, k2, g3, k3⟩

/-- C02: construction and every legal history, resets included, run without a fault. -/
theorem C02_CSHAKE_partial (nb : Nat → Nat) (hnb : ExactLog nb) (R : Nat) [Model.SHA3.RateOK R] (h8 : R % 8 = 0)
    (name custom : List Byte) (hn : name.length < 2 ^ 53 - 256) (hc : custom.length < 2 ^ 53 - 256) (d : Nat) :
    ∃ o, construct nb R d name custom = .ok o ∧ ∀ ops, Legal ops → ∃ o', run o ops = .ok o' := by
  by_cases hne : name = [] ∧ custom = []
  · obtain ⟨rfl, rfl⟩ := hne
    refine ⟨_, construct_plain nb d, fun ops hl => ?_⟩
    let r := Proof.SHA3.refines R h8 0x1F _ Proof.SHA3.suffix_shake d
    obtain ⟨y, e, _⟩ := r.run_rel ops false (Model.SHA3.Keccak R 0x1F d).fresh [] (by simpa [Refines.St] using r.fresh) hl
    exact ⟨_, by rw [run_mk]; unfold padOf; simp only [Bool.false_eq_true, if_false]; rw [e]; rfl⟩
  · let r := Proof.SHA3.refines R h8 0x04 _ Proof.SHA3.suffix_cshake d
    obtain ⟨x, e, hx⟩ := construct_mk nb hnb h8 d r name custom hne hn hc
    refine ⟨_, e, fun ops hl => ?_⟩
    obtain ⟨y, e, _⟩ := r.run_rel ops false x _ (by simpa [Refines.St] using hx) hl
    exact ⟨_, by rw [run_mk]; unfold padOf; simp only [if_true]; rw [e]; rfl⟩

/-- C02: the same for TupleHash below 2^28 bytes of output. -/
theorem C02_TupleHash_partial (nb : Nat → Nat) (hnb : ExactLog nb) (R : Nat) [Model.SHA3.RateOK R] (h8 : R % 8 = 0)
    (custom : List Byte) (hc : custom.length < 2 ^ 53 - 256) (d : Nat) (hd : d < 2 ^ 28) :
    ∃ o, tupleConstruct nb R d custom = .ok o ∧
      ∀ ops, Legal ops → (∀ s, Op.add s ∈ ops → s.length < 2 ^ 53 - 256) → ∃ o', tupleRun nb o ops = .ok o' := by
  obtain ⟨o, e, h⟩ := C02_CSHAKE_partial nb hnb R h8 tupleHashName custom (by decide +kernel) hc d
  refine ⟨⟨o, d⟩, by unfold tupleConstruct; rw [e]; rfl, fun ops hl hs => ?_⟩
  obtain ⟨o', e'⟩ := h _ (legal_calls d hd ops hs false hl)
  exact ⟨⟨o', d⟩, by rw [tupleRun_calls nb hnb d hd _ _ hs, e']; rfl⟩

/-- C37: the output of TupleHash has the requested number of bytes. -/
theorem C37_TupleHash_short (nb : Nat → Nat) (hnb : ExactLog nb) (R : Nat) [Model.SHA3.RateOK R] (h8 : R % 8 = 0)
    (custom : List Byte) (hc : custom.length < 2 ^ 53 - 256) (d : Nat) (hd : d < 2 ^ 28) (X : List (List Byte))
    (hX : ∀ s ∈ X, s.length < 2 ^ 53 - 256) :
    ∃ o o' z, tupleConstruct nb R d custom = .ok o ∧ tupleRun nb o (X.map .add ++ [.finalize]) = .ok o' ∧
      tupleToVector o' = .ok z ∧ z.length = d := by
  obtain ⟨o, o', e, e', q⟩ := tuple_run R h8 nb hnb custom hc d hd X hX
  exact ⟨o, o', _, e, e', q, Proof.SHA3.sponge_length R h8 0x04 _ Proof.SHA3.suffix_cshake _ d⟩

example : ExactLog countBytes := countBytes_exact
example : Reached countBytes (mk false ⟨7, (Model.SHA3.Keccak 168 0x1F 7).fresh⟩) :=
  ⟨7, [], [], _, [], construct_plain countBytes 7, rfl⟩
example : Legal ([.add [1, 2], .add []] ++ [.finalize]) ∧ NoReset [.add [1, 2], .add []] :=
  ⟨by decide +kernel, fun op h => by simp at h; rcases h with h | h <;> subst h <;> rfl⟩
example : SP800185.tupleInput [[1], [2, 3]] 32 ≠ SP800185.tupleInput [[1, 2], [3]] 32 := fun h => by
  have := (C29_tuples_injective [[1], [2, 3]] [[1, 2], [3]] 32 32 (by decide +kernel) (by decide +kernel)
    (by decide +kernel) (by decide +kernel) h).1
  exact absurd this (by decide)

/-! Each theorem above with hypotheses, on a concrete case. The strings are "Email Signature" and "N"; the history resets
in the middle where resets are allowed. -/
section Cases
def signature : List Byte := "Email Signature".toList.map fun c => BitVec.ofNat 8 c.toNat
def someCalls : List Op := [.add [0, 1], .add [], .add [2, 3]]
def someResets : List Op := [.add [9], .finalize, .reset, .add [0, 1, 2, 3]]
private theorem sig_short : signature.length < 2 ^ 53 - 256 := by decide +kernel
private theorem n_short : ([0x4e] : List Byte).length < 2 ^ 53 - 256 := by decide
private theorem calls_legal : Legal (someCalls ++ [.finalize]) := by decide +kernel
private theorem resets_legal : Legal (someResets ++ [.finalize]) := by decide +kernel
private theorem calls_noReset : NoReset someCalls := fun op h => by
  simp [someCalls] at h; rcases h with h | h | h <;> subst h <;> rfl
private theorem tuple_short : ∀ s ∈ ([[1], [], [2, 3]] : List (List Byte)), s.length < 2 ^ 53 - 256 := by decide +kernel

example := C21_CSHAKE_128_partial countBytes countBytes_exact [0x4e] signature n_short sig_short 32 someCalls calls_legal calls_noReset
example := C21_CSHAKE_256_partial countBytes countBytes_exact [] signature (by decide) sig_short 64 someCalls calls_legal calls_noReset
example := C21_plain_128 countBytes 32 someResets resets_legal
example := C21_plain_256 countBytes 64 someResets resets_legal
example := C21_negative countBytes (-1) (by decide) [] signature
example := C22_TupleHash_128_partial countBytes countBytes_exact signature sig_short 32 (by decide) [[1], [], [2, 3]] tuple_short
example := C22_TupleHash_256_partial countBytes countBytes_exact signature sig_short 64 (by decide) [[1], [], [2, 3]] tuple_short
/-- the constructor does accept such lengths: the failure comes with `finalize()` -/
example : ∃ o : TupleHash 168, tupleConstruct countBytes 168 (2 ^ 28 : Nat) signature = .ok o ∧
    tupleFinalize countBytes o = .error .signedOverflow := by
  obtain ⟨o, e, _⟩ := C02_CSHAKE_partial countBytes countBytes_exact 168 rfl tupleHashName signature (by decide +kernel)
    sig_short (2 ^ 28)
  refine ⟨⟨o, (2 ^ 28 : Nat)⟩, by unfold tupleConstruct; rw [e]; rfl, C22_signed_overflow _ _ _ ?_⟩
  exact Int.le_refl _
example := C26_CSHAKE_128_short countBytes countBytes_exact [0x4e] signature n_short sig_short 32 500 (by decide) someCalls
  calls_legal calls_noReset
example := C26_CSHAKE_256_short countBytes countBytes_exact [0x4e] signature n_short sig_short 32 500 (by decide) someCalls
  calls_legal calls_noReset
example := C29_encodings countBytes countBytes_exact (8 * 15) (by decide) (by decide)
example := C29_overrun SP800185.byteLen (2 ^ 56) (by decide) (by decide) rfl
/-- Two strings that are one when written one after the other are told apart by what cSHAKE absorbs. -/
example : SP800185.bytepad (SP800185.encodeString [1] ++ SP800185.encodeString [2]) 168 ++ [3] ≠
    SP800185.bytepad (SP800185.encodeString [1, 2] ++ SP800185.encodeString []) 168 ++ [3] := fun h =>
  absurd (C29_cshake_injective 168 [1] [2] [3] [1, 2] [] [3] (by decide +kernel) (by decide +kernel) (by decide +kernel)
    (by decide +kernel) (by decide +kernel) h).1 (by decide)
example := C03_CSHAKE_128_after_reset countBytes countBytes_exact [] signature (by decide +kernel) (by decide) sig_short 32
  someResets resets_legal (by decide)
example := C03_CSHAKE_256_after_reset countBytes countBytes_exact [] signature (by decide +kernel) (by decide) sig_short 64
  someResets resets_legal (by decide)
example := C03_CSHAKE_partial countBytes 168 rfl 32 _ (construct_plain countBytes 32) (someResets ++ [.finalize]) someCalls resets_legal
example := C03_TupleHash_after_reset countBytes countBytes_exact 168 rfl signature sig_short 32 (by decide) [[1], [], [2, 3]] tuple_short
/-- A customised object after some calls is `Reached`, and so is a plain one; copies and moves of it are covered. -/
example : ∃ a b : CShake 168, Reached countBytes a ∧ Reached countBytes b ∧ a.customized = true ∧ b.customized = false := by
  obtain ⟨x, e, hx⟩ := construct_mk countBytes countBytes_exact rfl 32
    (Proof.SHA3.refines 168 rfl 0x04 _ Proof.SHA3.suffix_cshake 32) [] signature (by decide +kernel) (by decide) sig_short
  obtain ⟨o', e', _⟩ := run_from true 32 (Proof.SHA3.refines 168 rfl 0x04 _ Proof.SHA3.suffix_cshake 32) x _ hx
    someResets resets_legal
  exact ⟨o', mk false ⟨7, (Model.SHA3.Keccak 168 0x1F 7).fresh⟩, ⟨_, _, _, _, _, e, e'⟩,
    ⟨7, [], [], _, [], construct_plain countBytes 7, rfl⟩,
    (run_shape _ _ _ (construct_shape countBytes 32 _ _ _ e).1 e').2.trans rfl, rfl⟩
example := C37_CSHAKE_128_short countBytes countBytes_exact [0x4e] signature n_short sig_short 500 someResets resets_legal
example := C37_CSHAKE_256_short countBytes countBytes_exact [0x4e] signature n_short sig_short 500 someResets resets_legal
example := C37_TupleHash_short countBytes countBytes_exact 136 rfl signature sig_short 500 (by decide) [[1], [], [2, 3]] tuple_short
example := C01_CSHAKE_short countBytes countBytes_exact [0x4e] signature n_short sig_short 32 [[1], [], [2, 3]] [[1, 2], [3]]
  (by decide) (by decide) rfl
example := C02_CSHAKE_partial countBytes countBytes_exact 136 rfl [0x4e] signature n_short sig_short 32
example := C02_TupleHash_partial countBytes countBytes_exact 136 rfl signature sig_short 32 (by decide)
end Cases

end Verif.Props
