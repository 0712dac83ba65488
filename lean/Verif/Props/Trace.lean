import Verif.Proof.Trace
import Verif.Proof.CShakeCalls
import Verif.Proof.FNV
import Verif.Proof.CRC32
import Verif.Proof.HAS160
import Verif.Proof.HASV
import Verif.Proof.MD2
import Verif.Proof.MD4
import Verif.Proof.MD5
import Verif.Proof.RIPEMD
import Verif.Proof.SHA1
import Verif.Proof.SHA2
import Verif.Proof.SM3
import Verif.Proof.TigerGen
import Verif.Proof.Whirlpool

/-!
# C57: an object shows what it was fed, not how

Generated by tools/gen_trace.py. `NoTrace` and `Interchangeable` are defined in Core/Trace.lean.
-/

namespace Verif.Props
open Model Proof.Trace

theorem C57_SHA1 : SHA1.SHA1.NoTrace := mdNoTrace (by decide) (by decide) _ counterBE64_ok _ _ _
theorem C57_SHA1_equal : SHA1.SHA1.Interchangeable SHA1.eq 64 (· < 64) :=
  mdInterchangeable (by decide) (by decide) _ counterBE64_ok _ _ _

theorem C57_SHA2_224 : SHA2.SHA2_224.NoTrace := mdNoTrace (by decide) (by decide) _ counterBE64_ok _ _ _
theorem C57_SHA2_224_equal : SHA2.SHA2_224.Interchangeable SHA2.eq32 64 (· < 64) :=
  mdInterchangeable (by decide) (by decide) _ counterBE64_ok _ _ _

theorem C57_SHA2_256 : SHA2.SHA2_256.NoTrace := mdNoTrace (by decide) (by decide) _ counterBE64_ok _ _ _
theorem C57_SHA2_256_equal : SHA2.SHA2_256.Interchangeable SHA2.eq32 64 (· < 64) :=
  mdInterchangeable (by decide) (by decide) _ counterBE64_ok _ _ _

theorem C57_SHA2_384 : SHA2.SHA2_384.NoTrace := mdNoTrace (by decide) (by decide) _ counterBE128_ok _ _ _
theorem C57_SHA2_384_equal : SHA2.SHA2_384.Interchangeable SHA2.eq64 128 (· < 128) :=
  mdInterchangeable (by decide) (by decide) _ counterBE128_ok _ _ _

theorem C57_SHA2_512 : SHA2.SHA2_512.NoTrace := mdNoTrace (by decide) (by decide) _ counterBE128_ok _ _ _
theorem C57_SHA2_512_equal : SHA2.SHA2_512.Interchangeable SHA2.eq64 128 (· < 128) :=
  mdInterchangeable (by decide) (by decide) _ counterBE128_ok _ _ _

theorem C57_SHA2_512_224 : SHA2.SHA2_512_224.NoTrace := mdNoTrace (by decide) (by decide) _ counterBE128_ok _ _ _
theorem C57_SHA2_512_224_equal : SHA2.SHA2_512_224.Interchangeable SHA2.eq64 128 (· < 128) :=
  mdInterchangeable (by decide) (by decide) _ counterBE128_ok _ _ _

theorem C57_SHA2_512_256 : SHA2.SHA2_512_256.NoTrace := mdNoTrace (by decide) (by decide) _ counterBE128_ok _ _ _
theorem C57_SHA2_512_256_equal : SHA2.SHA2_512_256.Interchangeable SHA2.eq64 128 (· < 128) :=
  mdInterchangeable (by decide) (by decide) _ counterBE128_ok _ _ _

theorem C57_MD4 : MD4.MD4.NoTrace := mdNoTrace (by decide) (by decide) _ counterLE64_ok _ _ _
theorem C57_MD4_equal : MD4.MD4.Interchangeable MD4.eq 64 (· < 64) :=
  mdInterchangeable (by decide) (by decide) _ counterLE64_ok _ _ _

theorem C57_MD5 : MD5.MD5.NoTrace := mdNoTrace (by decide) (by decide) _ counterLE64_ok _ _ _
theorem C57_MD5_equal : MD5.MD5.Interchangeable MD5.eq 64 (· < 64) :=
  mdInterchangeable (by decide) (by decide) _ counterLE64_ok _ _ _

theorem C57_HAS_160 : HAS160.HAS_160.NoTrace := mdNoTrace (by decide) (by decide) _ counterLE64_ok _ _ _
theorem C57_HAS_160_equal : HAS160.HAS_160.Interchangeable HAS160.eq 64 (· < 64) :=
  mdInterchangeable (by decide) (by decide) _ counterLE64_ok _ _ _

theorem C57_SM3 : SM3.SM3.NoTrace := mdNoTrace (by decide) (by decide) _ counterBE64_ok _ _ _
theorem C57_SM3_equal : SM3.SM3.Interchangeable SM3.eq 64 (· < 64) :=
  mdInterchangeable (by decide) (by decide) _ counterBE64_ok _ _ _

theorem C57_Whirlpool : Whirlpool.Whirlpool.NoTrace := mdNoTrace (by decide) (by decide) _ Proof.Whirlpool.counter32_ok _ _ _
theorem C57_Whirlpool_equal : Whirlpool.Whirlpool.Interchangeable Whirlpool.eq 64 (· < 64) :=
  mdInterchangeable (by decide) (by decide) _ Proof.Whirlpool.counter32_ok _ _ _

theorem C57_RIPEMD_128 : RIPEMD.RIPEMD_128.NoTrace := mdNoTrace (by decide) (by decide) _ counterLE64_ok _ _ _
theorem C57_RIPEMD_128_equal : RIPEMD.RIPEMD_128.Interchangeable RIPEMD.eq 64 (· < 64) :=
  mdInterchangeable (by decide) (by decide) _ counterLE64_ok _ _ _

theorem C57_RIPEMD_160 : RIPEMD.RIPEMD_160.NoTrace := mdNoTrace (by decide) (by decide) _ counterLE64_ok _ _ _
theorem C57_RIPEMD_160_equal : RIPEMD.RIPEMD_160.Interchangeable RIPEMD.eq 64 (· < 64) :=
  mdInterchangeable (by decide) (by decide) _ counterLE64_ok _ _ _

theorem C57_RIPEMD_256 : RIPEMD.RIPEMD_256.NoTrace := mdNoTrace (by decide) (by decide) _ counterLE64_ok _ _ _
theorem C57_RIPEMD_256_equal : RIPEMD.RIPEMD_256.Interchangeable RIPEMD.eq 64 (· < 64) :=
  mdInterchangeable (by decide) (by decide) _ counterLE64_ok _ _ _

theorem C57_RIPEMD_320 : RIPEMD.RIPEMD_320.NoTrace := mdNoTrace (by decide) (by decide) _ counterLE64_ok _ _ _
theorem C57_RIPEMD_320_equal : RIPEMD.RIPEMD_320.Interchangeable RIPEMD.eq 64 (· < 64) :=
  mdInterchangeable (by decide) (by decide) _ counterLE64_ok _ _ _

/-- `Tiger<V, D>`, for every `V` and `D` -/
theorem C57_Tiger (V D : Nat) : (Tiger.Tiger V D).NoTrace := mdNoTrace (by decide) (by decide) _ counterLE64_ok _ _ _
theorem C57_Tiger_equal (V D : Nat) : (Tiger.Tiger V D).Interchangeable Tiger.eq 64 (· < 64) :=
  mdInterchangeable (by decide) (by decide) _ counterLE64_ok _ _ _

theorem C57_HAS_V_320 : HASV.HAS_V_320.NoTrace := mdNoTrace (by decide) (by decide) _ Proof.HASV.counter_ok _ _ _

/-- MD2: `==` does not look at the checksum, so there is no `C57_MD2_equal`. -/
theorem C57_MD2 : MD2.MD2.NoTrace := objNoTrace Proof.MD2.refines rfl rfl fun _ _ h => h

theorem C57_Blake1_224 : BLAKE.Blake1_224.NoTrace := objNoTrace Proof.BLAKE.refines224 rfl rfl fun _ _ h => h
theorem C57_Blake1_224_equal : BLAKE.Blake1_224.Interchangeable BLAKE.eq32 64 (· < 64) :=
  objInterchangeable Proof.BLAKE.refines224 rfl rfl (fun _ _ h => h) fun o o' a a' h h' hl hd he => by
    have he : o.chain.h = o'.chain.h := beq_iff_eq.1 he
    rw [h, h'] at he
    exact blakeDen Proof.BLAKE.cfg224_ok (by decide) BLAKE.iv224 a a' hl hd he

theorem C57_Blake1_256 : BLAKE.Blake1_256.NoTrace := objNoTrace Proof.BLAKE.refines256 rfl rfl fun _ _ h => h
theorem C57_Blake1_256_equal : BLAKE.Blake1_256.Interchangeable BLAKE.eq32 64 (· < 64) :=
  objInterchangeable Proof.BLAKE.refines256 rfl rfl (fun _ _ h => h) fun o o' a a' h h' hl hd he => by
    have he : o.chain.h = o'.chain.h := beq_iff_eq.1 he
    rw [h, h'] at he
    exact blakeDen Proof.BLAKE.cfg256_ok (by decide) BLAKE.iv256 a a' hl hd he

theorem C57_Blake1_384 : BLAKE.Blake1_384.NoTrace := objNoTrace Proof.BLAKE.refines384 rfl rfl fun _ _ h => h
theorem C57_Blake1_384_equal : BLAKE.Blake1_384.Interchangeable BLAKE.eq64 128 (· < 128) :=
  objInterchangeable Proof.BLAKE.refines384 rfl rfl (fun _ _ h => h) fun o o' a a' h h' hl hd he => by
    have he : o.chain.h = o'.chain.h := beq_iff_eq.1 he
    rw [h, h'] at he
    exact blakeDen Proof.BLAKE.cfg512_ok (by decide) BLAKE.iv384 a a' hl hd he

theorem C57_Blake1_512 : BLAKE.Blake1_512.NoTrace := objNoTrace Proof.BLAKE.refines512 rfl rfl fun _ _ h => h
theorem C57_Blake1_512_equal : BLAKE.Blake1_512.Interchangeable BLAKE.eq64 128 (· < 128) :=
  objInterchangeable Proof.BLAKE.refines512 rfl rfl (fun _ _ h => h) fun o o' a a' h h' hl hd he => by
    have he : o.chain.h = o'.chain.h := beq_iff_eq.1 he
    rw [h, h'] at he
    exact blakeDen Proof.BLAKE.cfg512_ok (by decide) BLAKE.iv512 a a' hl hd he

/-- The last block stays in the buffer, and must be the same. -/
theorem C57_Blake2_equal : BLAKE2.Blake2.Interchangeable BLAKE2.eq2 128 (fun n => 0 < n ∧ n ≤ 128) :=
  lastInterchangeable (by decide) Proof.BLAKE2.refines2 rfl rfl (fun _ _ h => h) fun o o' a a' h h' hl hd he => by
    have he : o.chain.h = o'.chain.h := beq_iff_eq.1 he
    rw [h, h'] at he
    exact blake2Den Proof.BLAKE2.cfg2_ok (by decide) a a' hl hd he
theorem C57_Blake2 : BLAKE2.Blake2.NoTrace := lastNoTrace (by decide) Proof.BLAKE2.refines2 rfl rfl fun _ _ h => h

/-- The last block stays in the buffer, and must be the same. -/
theorem C57_Blake2s_equal : BLAKE2.Blake2s.Interchangeable BLAKE2.eq2s 64 (fun n => 0 < n ∧ n ≤ 64) :=
  lastInterchangeable (by decide) Proof.BLAKE2.refines2s rfl rfl (fun _ _ h => h) fun o o' a a' h h' hl hd he => by
    have he : o.chain.h = o'.chain.h := beq_iff_eq.1 he
    rw [h, h'] at he
    exact blake2Den Proof.BLAKE2.cfg2s_ok (by decide) a a' hl hd he
theorem C57_Blake2s : BLAKE2.Blake2s.NoTrace := lastNoTrace (by decide) Proof.BLAKE2.refines2s rfl rfl fun _ _ h => h

private theorem keccak (R : Nat) [hR : SHA3.RateOK R] (P : Byte) (d : Nat) : (SHA3.Keccak R P d).NoTrace :=
  objNoTrace (keccakRefines R P d) rfl rfl fun _ _ h => h
private theorem keccakEqual (R : Nat) [hR : SHA3.RateOK R] (P : Byte) (d : Nat) :
    (SHA3.Keccak R P d).Interchangeable SHA3.eq R (· < R) :=
  objInterchangeable (keccakRefines R P d) rfl rfl (fun _ _ h => h) fun o o' a a' h h' hl hd he => by
    have he : o.chain.state = o'.chain.state := beq_iff_eq.1 he
    rw [h, h'] at he
    have he : Proof.SHA3.absorbed R a = Proof.SHA3.absorbed R a' := he
    unfold Proof.SHA3.den
    rw [he]

theorem C57_SHA3_224 : SHA3.SHA3_224.NoTrace := keccak 144 0x06 28
theorem C57_SHA3_224_equal : SHA3.SHA3_224.Interchangeable SHA3.eq 144 (· < 144) := keccakEqual 144 0x06 28
theorem C57_SHA3_256 : SHA3.SHA3_256.NoTrace := keccak 136 0x06 32
theorem C57_SHA3_256_equal : SHA3.SHA3_256.Interchangeable SHA3.eq 136 (· < 136) := keccakEqual 136 0x06 32
theorem C57_SHA3_384 : SHA3.SHA3_384.NoTrace := keccak 104 0x06 48
theorem C57_SHA3_384_equal : SHA3.SHA3_384.Interchangeable SHA3.eq 104 (· < 104) := keccakEqual 104 0x06 48
theorem C57_SHA3_512 : SHA3.SHA3_512.NoTrace := keccak 72 0x06 64
theorem C57_SHA3_512_equal : SHA3.SHA3_512.Interchangeable SHA3.eq 72 (· < 72) := keccakEqual 72 0x06 64
theorem C57_SHAKE_128 (d : Nat) : (SHA3.SHAKE_128 d).NoTrace := keccak 168 0x1F d
theorem C57_SHAKE_128_equal (d : Nat) : (SHA3.SHAKE_128 d).Interchangeable SHA3.eq 168 (· < 168) := keccakEqual 168 0x1F d
theorem C57_SHAKE_256 (d : Nat) : (SHA3.SHAKE_256 d).NoTrace := keccak 136 0x1F d
theorem C57_SHAKE_256_equal (d : Nat) : (SHA3.SHAKE_256 d).Interchangeable SHA3.eq 136 (· < 136) := keccakEqual 136 0x1F d

theorem C57_SipHash (C D : Nat) (key : Block 16) : (SipHash.SipHashCD C D key).NoTrace :=
  objNoTrace (Proof.SipHash.refines C D key) rfl rfl fun _ _ h => h
theorem C57_SipHash_equal (C D : Nat) (key : Block 16) : (SipHash.SipHashCD C D key).Interchangeable SipHash.eq 8 (· < 8) :=
  objInterchangeable (Proof.SipHash.refines C D key) rfl rfl (fun _ _ h => h) fun o o' a a' h h' hl hd he => by
    have he : o.chain.state = o'.chain.state := beq_iff_eq.1 he
    rw [h, h'] at he
    simp only [Proof.SipHash.den] at he
    unfold Proof.SipHash.den
    rw [hl, he]

theorem C57_FNV32_1 : FNV.FNV32_1.NoTrace := noTrace Proof.FNV.refines32_1 fun _ _ _ h h' => h.trans h'.symm
theorem C57_FNV32_1_equal : FNV.FNV32_1.Interchangeable FNV.eq 1 (· < 1) :=
  interchangeable Proof.FNV.refines32_1 fun _ _ _ _ _ _ _ _ _ _ h => beq_iff_eq.1 h
theorem C57_FNV32_1a : FNV.FNV32_1a.NoTrace := noTrace Proof.FNV.refines32_1a fun _ _ _ h h' => h.trans h'.symm
theorem C57_FNV32_1a_equal : FNV.FNV32_1a.Interchangeable FNV.eq 1 (· < 1) :=
  interchangeable Proof.FNV.refines32_1a fun _ _ _ _ _ _ _ _ _ _ h => beq_iff_eq.1 h
theorem C57_FNV64_1 : FNV.FNV64_1.NoTrace := noTrace Proof.FNV.refines64_1 fun _ _ _ h h' => h.trans h'.symm
theorem C57_FNV64_1_equal : FNV.FNV64_1.Interchangeable FNV.eq 1 (· < 1) :=
  interchangeable Proof.FNV.refines64_1 fun _ _ _ _ _ _ _ _ _ _ h => beq_iff_eq.1 h
theorem C57_FNV64_1a : FNV.FNV64_1a.NoTrace := noTrace Proof.FNV.refines64_1a fun _ _ _ h h' => h.trans h'.symm
theorem C57_FNV64_1a_equal : FNV.FNV64_1a.Interchangeable FNV.eq 1 (· < 1) :=
  interchangeable Proof.FNV.refines64_1a fun _ _ _ _ _ _ _ _ _ _ h => beq_iff_eq.1 h
theorem C57_CRC_32 : CRC32.CRC_32.NoTrace := noTrace Proof.CRC32.refines fun _ _ _ h h' => h.trans h'.symm
theorem C57_CRC_32_equal : CRC32.CRC_32.Interchangeable CRC32.eq 1 (· < 1) :=
  interchangeable Proof.CRC32.refines fun _ _ _ _ _ _ _ _ _ _ h => beq_iff_eq.1 h

/-- FNV-0: `reset()` does nothing, and what was fed before it shows. -/
theorem C57_FNV32_0_fails : ¬FNV.FNV32_0.NoTrace := fun h => by
  obtain ⟨o, e, e'⟩ := h [.add [1], .reset] [] (by decide) (by decide) (by decide) rfl
  have e1 : (1 : W32) = 0 := Except.ok.inj (e.trans e'.symm)
  exact absurd e1 (by decide)
theorem C57_FNV64_0_fails : ¬FNV.FNV64_0.NoTrace := fun h => by
  obtain ⟨o, e, e'⟩ := h [.add [1], .reset] [] (by decide) (by decide) (by decide) rfl
  have e1 : (1 : W64) = 0 := Except.ok.inj (e.trans e'.symm)
  exact absurd e1 (by decide)

/-- FNV-0 without `reset()`: the object depends on the message alone. -/
theorem C57_FNV_0_partial (w : Nat) (ops ops' : List Op) (h : Op.reset ∉ ops) (h' : Op.reset ∉ ops') (hm : message ops = message ops') :
    ∃ o, (FNV.FNVHash w 0).run (FNV.FNVHash w 0).fresh ops = .ok o ∧ (FNV.FNVHash w 0).run (FNV.FNVHash w 0).fresh ops' = .ok o := by
  have e : Proof.FNV.everAdded ops = Proof.FNV.everAdded ops' := by
    have h1 := Proof.FNV.message_noReset ops h []
    have h2 := Proof.FNV.message_noReset ops' h' []
    exact h1.symm.trans (Eq.trans hm h2)
  exact ⟨_, Proof.FNV.run_0 w ops _, by rw [e]; exact Proof.FNV.run_0 w ops' _⟩

section
open Model.CShake Proof.CShake Proof.CShakeCalls Spec
variable {R : Nat} [hR : SHA3.RateOK R]

/-- The bytes that a customised cSHAKE object absorbs before the message. -/
abbrev cshakePrefix (R : Nat) (name custom : List Byte) : List Byte :=
  SP800185.bytepad (SP800185.encodeString name ++ SP800185.encodeString custom) R

/-- C57: a customised cSHAKE object depends on what it has absorbed since construction or the last `reset()`, which drops the
prefix. -/
theorem C57_CSHAKE (nb : Nat → Nat) (hnb : SP800185.ExactLog nb) (h8 : R % 8 = 0) (name custom : List Byte)
    (hne : ¬(name = [] ∧ custom = [])) (hn : name.length < 2 ^ 53 - 256) (hc : custom.length < 2 ^ 53 - 256) (d : Nat)
    (ops ops' : List Op) (hl : Legal ops) (hl' : Legal ops') (hf : finished ops ↔ finished ops')
    (hm : messageFrom (cshakePrefix R name custom) ops = messageFrom (cshakePrefix R name custom) ops') :
    ∃ o, (do CShake.run (← CShake.construct nb R d name custom) ops) = .ok o ∧
      (do CShake.run (← CShake.construct nb R d name custom) ops') = .ok o := by
  obtain ⟨pieces, e, hp, hfl⟩ := prefix_ok nb hnb h8 name custom hn hc
  obtain ⟨o, h1, h2⟩ := keccak R 0x04 d (pieces.map Op.add ++ ops) (pieces.map Op.add ++ ops') (legal_append pieces hp ops hl)
    (legal_append pieces hp ops' hl') (by rw [finished_append, finished_append]; exact hf)
    (by rw [message_append, message_append, hfl]; exact hm)
  rw [construct_calls nb name custom hne pieces e]
  refine ⟨mk true ⟨d, o⟩, ?_, ?_⟩
  · rw [← run_append, run_mk]
    show (do return mk true ⟨d, ← (SHA3.Keccak R 0x04 d).run (SHA3.Keccak R 0x04 d).fresh _⟩) = _
    rw [h1]; rfl
  · rw [← run_append, run_mk]
    show (do return mk true ⟨d, ← (SHA3.Keccak R 0x04 d).run (SHA3.Keccak R 0x04 d).fresh _⟩) = _
    rw [h2]; rfl

/-- C57: two customised cSHAKE objects that ask for the same length, with any two names and customizations, that have
absorbed equally much and end with the same incomplete block: if `==` holds they are the same object. -/
theorem C57_CSHAKE_equal (nb : Nat → Nat) (hnb : SP800185.ExactLog nb) (h8 : R % 8 = 0) (name custom name' custom' : List Byte)
    (hne : ¬(name = [] ∧ custom = [])) (hn : name.length < 2 ^ 53 - 256) (hc : custom.length < 2 ^ 53 - 256)
    (hne' : ¬(name' = [] ∧ custom' = [])) (hn' : name'.length < 2 ^ 53 - 256) (hc' : custom'.length < 2 ^ 53 - 256) (d : Nat)
    (ops ops' : List Op) (hl : Legal (ops ++ [.finalize])) (hl' : Legal (ops' ++ [.finalize])) (a a' r : List Byte)
    (hm : messageFrom (cshakePrefix R name custom) ops = a ++ r) (hm' : messageFrom (cshakePrefix R name' custom') ops' = a' ++ r)
    (hlen : a.length = a'.length) (hd : R ∣ a.length) (hr : r.length < R) :
    ∃ o o', (do CShake.run (← CShake.construct nb R d name custom) ops) = .ok o ∧
      (do CShake.run (← CShake.construct nb R d name' custom') ops') = .ok o' ∧ (CShake.eq o o' = .ok true → o = o') := by
  obtain ⟨pieces, e, hp, hfl⟩ := prefix_ok nb hnb h8 name custom hn hc
  obtain ⟨pieces', e', hp', hfl'⟩ := prefix_ok nb hnb h8 name' custom' hn' hc'
  obtain ⟨o, o', h1, h2, h3⟩ := keccakEqual R 0x04 d (pieces.map Op.add ++ ops) (pieces'.map Op.add ++ ops')
    (by rw [List.append_assoc]; exact legal_append pieces hp _ hl) (by rw [List.append_assoc]; exact legal_append pieces' hp' _ hl')
    a a' r (by rw [message_append, hfl]; exact hm) (by rw [message_append, hfl']; exact hm') hlen hd hr
  rw [construct_calls nb name custom hne pieces e, construct_calls nb name' custom' hne' pieces' e']
  refine ⟨mk true ⟨d, o⟩, mk true ⟨d, o'⟩, ?_, ?_, fun he => ?_⟩
  · rw [← run_append, run_mk]
    show (do return mk true ⟨d, ← (SHA3.Keccak R 0x04 d).run (SHA3.Keccak R 0x04 d).fresh _⟩) = _
    rw [h1]; rfl
  · rw [← run_append, run_mk]
    show (do return mk true ⟨d, ← (SHA3.Keccak R 0x04 d).run (SHA3.Keccak R 0x04 d).fresh _⟩) = _
    rw [h2]; rfl
  · have he : SHA3.eq o o' = true := Except.ok.inj he
    rw [h3 he]

/-- C57: a cSHAKE object without name and customization -/
theorem C57_CSHAKE_plain (nb : Nat → Nat) (d : Nat) (ops ops' : List Op) (hl : Legal ops) (hl' : Legal ops')
    (hf : finished ops ↔ finished ops') (hm : message ops = message ops') :
    ∃ o, (do CShake.run (← CShake.construct nb R d [] []) ops) = .ok o ∧
      (do CShake.run (← CShake.construct nb R d [] []) ops') = .ok o := by
  obtain ⟨o, h1, h2⟩ := keccak R 0x1F d ops ops' hl hl' hf hm
  rw [construct_plain]
  refine ⟨mk false ⟨d, o⟩, ?_, ?_⟩
  · show CShake.run (mk false ⟨d, _⟩) ops = _
    rw [run_mk]
    show (do return mk false ⟨d, ← (SHA3.Keccak R 0x1F d).run (SHA3.Keccak R 0x1F d).fresh _⟩) = _
    rw [h1]; rfl
  · show CShake.run (mk false ⟨d, _⟩) ops' = _
    rw [run_mk]
    show (do return mk false ⟨d, ← (SHA3.Keccak R 0x1F d).run (SHA3.Keccak R 0x1F d).fresh _⟩) = _
    rw [h2]; rfl

/-- The elements of the tuple: what was passed to `nextData()` since construction or the last `reset()`, after `xs`. -/
def elementsFrom : List (List Byte) → List Op → List (List Byte)
  | xs, [] => xs
  | xs, .add s :: ops => elementsFrom (xs ++ [s]) ops
  | _, .reset :: ops => elementsFrom [] ops
  | xs, .finalize :: ops => elementsFrom xs ops

private def ends : Bool → List Op → Bool
  | f, [] => f
  | _, .add _ :: ops => ends false ops
  | _, .reset :: ops => ends false ops
  | _, .finalize :: ops => ends true ops

private theorem ends_iff (ops : List Op) (f : Bool) : ends f ops = true ↔ if ops = [] then f = true else finished ops := by
  induction ops generalizing f with
  | nil => exact Iff.rfl
  | cons op ops ih =>
    rw [if_neg (by simp)]
    have key : finished (op :: ops) ↔ if ops = [] then op = .finalize else finished ops := by
      unfold finished
      cases ops with
      | nil => simp
      | cons a l => simp
    rw [key]
    cases op with
    | add _ => rw [ends, ih]; split <;> simp
    | reset => rw [ends, ih]; split <;> simp
    | finalize => rw [ends, ih]; split <;> simp

private theorem ends_finished (ops : List Op) : ends false ops = true ↔ finished ops := by
  rw [ends_iff]
  split
  · rename_i h; subst h; simp [finished]
  · rfl

private def lenField (d : Nat) : Bool → List Byte
  | true => SP800185.rightEncode (8 * d)
  | false => []

private def kept (p : List Byte) : List Op → List Byte
  | [] => p
  | .reset :: _ => []
  | _ :: ops => kept p ops

private theorem kept_nil (ops : List Op) : kept [] ops = [] := by
  induction ops with
  | nil => rfl
  | cons op ops ih => cases op <;> first | rfl | exact ih

private theorem kept_eq (p : List Byte) (ops : List Op) : (Op.reset ∈ ops → kept p ops = []) ∧ (Op.reset ∉ ops → kept p ops = p) := by
  induction ops with
  | nil => exact ⟨fun h => by simp at h, fun _ => rfl⟩
  | cons op ops ih =>
    cases op with
    | add s => simpa [kept] using ih
    | reset => exact ⟨fun _ => rfl, fun h => absurd (by simp) h⟩
    | finalize => simpa [kept] using ih

private theorem calls_message (d : Nat) (p : List Byte) (ops : List Op) (xs : List (List Byte)) (f : Bool) (hl : legalFrom f ops) :
    messageFrom (p ++ xs.flatMap SP800185.encodeString ++ lenField d f) (calls d ops) =
      kept p ops ++ (elementsFrom xs ops).flatMap SP800185.encodeString ++ lenField d (ends f ops) := by
  induction ops generalizing p xs f with
  | nil => rfl
  | cons op ops ih =>
    cases op with
    | add s =>
      obtain ⟨rfl, -, hl⟩ := hl
      have := ih p (xs ++ [s]) false hl
      simp only [calls, messageFrom, elementsFrom, ends, kept]
      rw [← this]
      congr 1
      simp [SP800185.encodeString, lenField]
    | reset =>
      have := ih [] [] false hl
      rw [kept_nil] at this
      exact this
    | finalize =>
      obtain ⟨rfl, hl⟩ := hl
      have := ih p xs true hl
      simp only [calls, messageFrom, elementsFrom, ends, kept]
      rw [← this]
      simp [lenField]

private theorem ends_calls (d : Nat) (ops : List Op) : ∀ f, ends f (calls d ops) = ends f ops := by
  induction ops with
  | nil => intro f; rfl
  | cons op ops ih =>
    intro f
    cases op <;> simp only [calls, ends, ih]

theorem finished_calls (d : Nat) (ops : List Op) : finished (calls d ops) ↔ finished ops := by
  rw [← ends_finished, ← ends_finished, ends_calls]

/-- what a TupleHash object passes on, before `finalize()` -/
theorem message_calls (d : Nat) (ops : List Op) (hl : Legal ops) (hf : ¬finished ops) :
    message (calls d ops) = (elementsFrom [] ops).flatMap SP800185.encodeString := by
  have e := calls_message d [] ops [] false hl
  have h : ends false ops = false := by
    rw [← ends_finished] at hf
    simpa using hf
  rw [kept_nil, h] at e
  simpa [lenField, message] using e

/-- C57: a TupleHash object depends on the elements of the tuple since construction or the last `reset()`, on whether it is
finalised, and on whether `reset()`, which drops the customization, was ever called. -/
theorem C57_TupleHash (nb : Nat → Nat) (hnb : SP800185.ExactLog nb) (h8 : R % 8 = 0) (custom : List Byte)
    (hc : custom.length < 2 ^ 53 - 256) (d : Nat) (hd : d < 2 ^ 28) (ops ops' : List Op) (hl : Legal ops) (hl' : Legal ops')
    (hs : ∀ s, Op.add s ∈ ops → s.length < 2 ^ 53 - 256) (hs' : ∀ s, Op.add s ∈ ops' → s.length < 2 ^ 53 - 256)
    (hf : finished ops ↔ finished ops') (hr : Op.reset ∈ ops ↔ Op.reset ∈ ops')
    (hm : elementsFrom [] ops = elementsFrom [] ops') :
    ∃ o, (do tupleRun nb (← tupleConstruct nb R d custom) ops) = .ok o ∧
      (do tupleRun nb (← tupleConstruct nb R d custom) ops') = .ok o := by
  have hname : Model.CShake.tupleHashName = SP800185.tupleHashName := by decide +kernel
  have e1 := calls_message d (cshakePrefix R SP800185.tupleHashName custom) ops [] false hl
  have e2 := calls_message d (cshakePrefix R SP800185.tupleHashName custom) ops' [] false hl'
  simp only [List.flatMap_nil, List.append_nil, lenField] at e1 e2
  have hends : ends false ops = ends false ops' := by
    rw [Bool.eq_iff_iff, ends_finished, ends_finished]
    exact hf
  have e : messageFrom (cshakePrefix R SP800185.tupleHashName custom) (calls d ops) =
      messageFrom (cshakePrefix R SP800185.tupleHashName custom) (calls d ops') := by
    rw [e1, e2, hm, hends]
    congr 2
    by_cases h : Op.reset ∈ ops
    · rw [(kept_eq _ ops).1 h, (kept_eq _ ops').1 (hr.1 h)]
    · rw [(kept_eq _ ops).2 h, (kept_eq _ ops').2 fun h' => h (hr.2 h')]
  obtain ⟨o, h1, h2⟩ := C57_CSHAKE nb hnb h8 SP800185.tupleHashName custom (by simp [SP800185.tupleHashName])
    (by decide +kernel) hc d (calls d ops) (calls d ops') (legal_calls d hd ops hs false hl) (legal_calls d hd ops' hs' false hl')
    (by rw [finished_calls, finished_calls]; exact hf) e
  unfold tupleConstruct
  rw [hname]
  cases ec : CShake.construct nb R d SP800185.tupleHashName custom with
  | error x => rw [ec] at h1; cases h1
  | ok c =>
    rw [ec] at h1 h2
    have h1 : CShake.run c (calls d ops) = .ok o := h1
    have h2 : CShake.run c (calls d ops') = .ok o := h2
    refine ⟨⟨o, d⟩, ?_, ?_⟩
    · show tupleRun nb ⟨c, d⟩ ops = _
      rw [tupleRun_calls nb hnb d hd c ops hs, h1]; rfl
    · show tupleRun nb ⟨c, d⟩ ops' = _
      rw [tupleRun_calls nb hnb d hd c ops' hs', h2]; rfl

end

/-- What C57 is about: from then on every call, legal or not, does the same to both. -/
theorem C57_later {O : Type} {A : API O} (h : A.NoTrace) (ops ops' later : List Op) (hl : Legal ops) (hl' : Legal ops')
    (hf : finished ops ↔ finished ops') (hm : message ops = message ops') :
    A.run A.fresh (ops ++ later) = A.run A.fresh (ops' ++ later) := by
  obtain ⟨o, e, e'⟩ := h ops ops' hl hl' hf hm
  rw [Refines.run_append, Refines.run_append, e, e']

/-! Concrete cases: one message byte by byte and at once; a message after a `reset()`; the same bytes at the end. -/

example := C57_SHA1 [.add [1], .add [2], .add [3]] [.add [9], .reset, .add [1, 2, 3]] (by decide) (by decide) (by decide) rfl
set_option maxRecDepth 10000 in
example := C57_Blake2 [.add (List.replicate 128 1), .add [2]] [.add (List.replicate 128 1 ++ [2])] (by decide) (by decide) (by decide) rfl
set_option maxRecDepth 10000 in
example := C57_SHA2_256_equal [.add (List.replicate 64 1), .add [7]] [.add (List.replicate 64 2), .add [7]] (by decide) (by decide)
  (List.replicate 64 1) (List.replicate 64 2) [7] rfl rfl rfl (by decide) (by decide)
set_option maxRecDepth 10000 in
example := C57_Blake2s_equal [.add (List.replicate 128 1)] [.add (List.replicate 64 2 ++ List.replicate 64 1)] (by decide) (by decide)
  (List.replicate 64 1) (List.replicate 64 2) (List.replicate 64 1) rfl rfl rfl (by decide) (by decide)
example := C57_CSHAKE (R := 168) Proof.CShake.countBytes Proof.CShake.countBytes_exact rfl [1, 2] [3] (by decide) (by decide) (by decide) 32
  [.add [1], .add [2]] [.add [1, 2]] (by decide) (by decide) (by decide) (by simp [messageFrom])
example := C57_CSHAKE_equal (R := 168) Proof.CShake.countBytes Proof.CShake.countBytes_exact rfl [1] [] [2] [] (by decide) (by decide)
  (by decide) (by decide) (by decide) (by decide) 32 [.add [7]] [.add [7]] (by decide) (by decide) (cshakePrefix 168 [1] [])
  (cshakePrefix 168 [2] []) [7] (by simp [messageFrom]) (by simp [messageFrom]) (by decide +kernel) (by decide +kernel) (by decide)
example := C57_TupleHash (R := 136) Proof.CShake.countBytes Proof.CShake.countBytes_exact rfl [5] (by decide) 64 (by decide)
  [.add [9], .reset, .add [1], .add [2], .finalize] [.reset, .add [1], .add [2], .finalize] (by decide) (by decide) (by simp) (by simp)
  (by decide) (by decide) rfl
example := C57_FNV_0_partial 32 [.add [1], .finalize] [.add [1]] (by decide) (by decide) rfl

end Verif.Props
