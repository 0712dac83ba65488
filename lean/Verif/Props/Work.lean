import Verif.Proof.Work
import Verif.Proof.HAS160
import Verif.Proof.HASV
import Verif.Proof.MD4
import Verif.Proof.MD5
import Verif.Proof.RIPEMD
import Verif.Proof.SHA1
import Verif.Proof.SHA2
import Verif.Proof.SM3
import Verif.Proof.TigerGen
import Verif.Proof.Whirlpool

/-!
# C55: how much is computed

Generated by tools/gen_work.py. Each theorem gives the class with a count (Model/Work.lean), the count, and the number
of runs of the block function for `n` bytes: before `finalize()` and after it. `API.Work` (Core/Work.lean) says that
the class with the count is the class otherwise.
-/

namespace Verif.Props
open Model

theorem C55_SHA1 : SHA1.SHA1.Work (mdApiW 64 8 0x80 counterBE64 SHA1.compress SHA1.iv SHA1.toArray)
    mdReal (fun o => o.chain.h.2) (fun n => n / 64) (fun n => (n + 8) / 64 + 1) :=
  Proof.Work.mdWork (by decide) (by decide) _ counterBE64_ok _ _ _

theorem C55_SHA2_224 : SHA2.SHA2_224.Work (mdApiW 64 8 0x80 counterBE64 (SHA2.compress SHA2.cfg32 (by decide)) SHA2.iv224 (SHA2.toArray 4 7 28 fun _ => []))
    mdReal (fun o => o.chain.h.2) (fun n => n / 64) (fun n => (n + 8) / 64 + 1) :=
  Proof.Work.mdWork (by decide) (by decide) _ counterBE64_ok _ _ _

theorem C55_SHA2_256 : SHA2.SHA2_256.Work (mdApiW 64 8 0x80 counterBE64 (SHA2.compress SHA2.cfg32 (by decide)) SHA2.iv256 (SHA2.toArray 4 8 32 fun _ => []))
    mdReal (fun o => o.chain.h.2) (fun n => n / 64) (fun n => (n + 8) / 64 + 1) :=
  Proof.Work.mdWork (by decide) (by decide) _ counterBE64_ok _ _ _

theorem C55_SHA2_384 : SHA2.SHA2_384.Work (mdApiW 128 16 0x80 counterBE128 (SHA2.compress SHA2.cfg64 (by decide)) SHA2.iv384 (SHA2.toArray 8 6 48 fun _ => []))
    mdReal (fun o => o.chain.h.2) (fun n => n / 128) (fun n => (n + 16) / 128 + 1) :=
  Proof.Work.mdWork (by decide) (by decide) _ counterBE128_ok _ _ _

theorem C55_SHA2_512 : SHA2.SHA2_512.Work (mdApiW 128 16 0x80 counterBE128 (SHA2.compress SHA2.cfg64 (by decide)) SHA2.iv512 (SHA2.toArray 8 8 64 fun _ => []))
    mdReal (fun o => o.chain.h.2) (fun n => n / 128) (fun n => (n + 16) / 128 + 1) :=
  Proof.Work.mdWork (by decide) (by decide) _ counterBE128_ok _ _ _

theorem C55_SHA2_512_224 : SHA2.SHA2_512_224.Work (mdApiW 128 16 0x80 counterBE128 (SHA2.compress SHA2.cfg64 (by decide)) SHA2.iv512_224 (SHA2.toArray 8 3 28 fun mh =>
      [ror 8 mh[3] 56, ror 8 mh[3] 48, ror 8 mh[3] 40, ror 8 mh[3] 32]))
    mdReal (fun o => o.chain.h.2) (fun n => n / 128) (fun n => (n + 16) / 128 + 1) :=
  Proof.Work.mdWork (by decide) (by decide) _ counterBE128_ok _ _ _

theorem C55_SHA2_512_256 : SHA2.SHA2_512_256.Work (mdApiW 128 16 0x80 counterBE128 (SHA2.compress SHA2.cfg64 (by decide)) SHA2.iv512_256 (SHA2.toArray 8 4 32 fun _ => []))
    mdReal (fun o => o.chain.h.2) (fun n => n / 128) (fun n => (n + 16) / 128 + 1) :=
  Proof.Work.mdWork (by decide) (by decide) _ counterBE128_ok _ _ _

theorem C55_MD4 : MD4.MD4.Work (mdApiW 64 8 0x80 counterLE64 MD4.compress MD4.iv MD4.toArray)
    mdReal (fun o => o.chain.h.2) (fun n => n / 64) (fun n => (n + 8) / 64 + 1) :=
  Proof.Work.mdWork (by decide) (by decide) _ counterLE64_ok _ _ _

theorem C55_MD5 : MD5.MD5.Work (mdApiW 64 8 0x80 counterLE64 MD5.compress MD5.iv MD5.toArray)
    mdReal (fun o => o.chain.h.2) (fun n => n / 64) (fun n => (n + 8) / 64 + 1) :=
  Proof.Work.mdWork (by decide) (by decide) _ counterLE64_ok _ _ _

theorem C55_HAS_160 : HAS160.HAS_160.Work (mdApiW 64 8 0x80 counterLE64 HAS160.compress HAS160.iv HAS160.toArray)
    mdReal (fun o => o.chain.h.2) (fun n => n / 64) (fun n => (n + 8) / 64 + 1) :=
  Proof.Work.mdWork (by decide) (by decide) _ counterLE64_ok _ _ _

theorem C55_SM3 : SM3.SM3.Work (mdApiW 64 8 0x80 counterBE64 SM3.compress SM3.iv SM3.toArray)
    mdReal (fun o => o.chain.h.2) (fun n => n / 64) (fun n => (n + 8) / 64 + 1) :=
  Proof.Work.mdWork (by decide) (by decide) _ counterBE64_ok _ _ _

theorem C55_Whirlpool : Whirlpool.Whirlpool.Work (mdApiW 64 32 (1 <<< 7) counterBE128 Whirlpool.compress Whirlpool.iv Whirlpool.toArray)
    mdReal (fun o => o.chain.h.2) (fun n => n / 64) (fun n => (n + 32) / 64 + 1) :=
  Proof.Work.mdWork (by decide) (by decide) _ Proof.Whirlpool.counter32_ok _ _ _

theorem C55_HAS_V_320 : HASV.HAS_V_320.Work (mdApiW 128 9 (1 <<< 7) HASV.counter HASV.compress HASV.iv HASV.toArray)
    mdReal (fun o => o.chain.h.2) (fun n => n / 128) (fun n => (n + 9) / 128 + 1) :=
  Proof.Work.mdWork (by decide) (by decide) _ Proof.HASV.counter_ok _ _ _

theorem C55_RIPEMD_128 : RIPEMD.RIPEMD_128.Work (mdApiW 64 8 0x80 counterLE64 RIPEMD.compress128 RIPEMD.iv128 RIPEMD.toArray)
    mdReal (fun o => o.chain.h.2) (fun n => n / 64) (fun n => (n + 8) / 64 + 1) :=
  Proof.Work.mdWork (by decide) (by decide) _ counterLE64_ok _ _ _

theorem C55_RIPEMD_160 : RIPEMD.RIPEMD_160.Work (mdApiW 64 8 0x80 counterLE64 RIPEMD.compress160 RIPEMD.iv160 RIPEMD.toArray)
    mdReal (fun o => o.chain.h.2) (fun n => n / 64) (fun n => (n + 8) / 64 + 1) :=
  Proof.Work.mdWork (by decide) (by decide) _ counterLE64_ok _ _ _

theorem C55_RIPEMD_256 : RIPEMD.RIPEMD_256.Work (mdApiW 64 8 0x80 counterLE64 RIPEMD.compress256 RIPEMD.iv256 RIPEMD.toArray)
    mdReal (fun o => o.chain.h.2) (fun n => n / 64) (fun n => (n + 8) / 64 + 1) :=
  Proof.Work.mdWork (by decide) (by decide) _ counterLE64_ok _ _ _

theorem C55_RIPEMD_320 : RIPEMD.RIPEMD_320.Work (mdApiW 64 8 0x80 counterLE64 RIPEMD.compress320 RIPEMD.iv320 RIPEMD.toArray)
    mdReal (fun o => o.chain.h.2) (fun n => n / 64) (fun n => (n + 8) / 64 + 1) :=
  Proof.Work.mdWork (by decide) (by decide) _ counterLE64_ok _ _ _

/-- `Tiger<V, D>`, for every `V` and `D` -/
theorem C55_Tiger (V D : Nat) : (Tiger.Tiger V D).Work
    (mdApiW 64 8 (if V = 1 then 1 else 1 <<< 7) counterLE64 Tiger.compress Tiger.iv (Tiger.toArray D))
    mdReal (fun o => o.chain.h.2) (fun n => n / 64) (fun n => (n + 8) / 64 + 1) :=
  Proof.Work.mdWork (by decide) (by decide) _ counterLE64_ok _ _ _

theorem C55_Blake1_224 : BLAKE.Blake1_224.Work
    (BLAKE.apiW BLAKE.cfg224 8 false cntAdd64 lenWritesBE64 ⟨0, BLAKE.iv224⟩ 4 7 28)
    Obj.real (fun o => o.chain.2) (fun n => n / 64) (fun n => (n + 8) / 64 + 1) :=
  Proof.Work.BLAKE.work (by decide) (by decide) Proof.BLAKE.cfg224_ok Proof.BLAKE.fin64 false BLAKE.iv224 4 7 28

theorem C55_Blake1_256 : BLAKE.Blake1_256.Work
    (BLAKE.apiW BLAKE.cfg256 8 true cntAdd64 lenWritesBE64 ⟨0, BLAKE.iv256⟩ 4 8 32)
    Obj.real (fun o => o.chain.2) (fun n => n / 64) (fun n => (n + 8) / 64 + 1) :=
  Proof.Work.BLAKE.work (by decide) (by decide) Proof.BLAKE.cfg256_ok Proof.BLAKE.fin64 true BLAKE.iv256 4 8 32

theorem C55_Blake1_384 : BLAKE.Blake1_384.Work
    (BLAKE.apiW BLAKE.cfg512 16 false cntAdd128 lenWritesBE128 ⟨{}, BLAKE.iv384⟩ 8 6 48)
    Obj.real (fun o => o.chain.2) (fun n => n / 128) (fun n => (n + 16) / 128 + 1) :=
  Proof.Work.BLAKE.work (by decide) (by decide) Proof.BLAKE.cfg512_ok Proof.BLAKE.fin128 false BLAKE.iv384 8 6 48

theorem C55_Blake1_512 : BLAKE.Blake1_512.Work
    (BLAKE.apiW BLAKE.cfg512 16 true cntAdd128 lenWritesBE128 ⟨{}, BLAKE.iv512⟩ 8 8 64)
    Obj.real (fun o => o.chain.2) (fun n => n / 128) (fun n => (n + 16) / 128 + 1) :=
  Proof.Work.BLAKE.work (by decide) (by decide) Proof.BLAKE.cfg512_ok Proof.BLAKE.fin128 true BLAKE.iv512 8 8 64

/-- The last block stays in the buffer until `finalize()`; the empty message takes a block too. -/
theorem C55_Blake2 : BLAKE2.Blake2.Work (BLAKE2.apiW BLAKE2.cfg2 8 64) Obj.real (fun o => o.chain.2)
    (fun n => (n - 1) / 128) (fun n => (n - 1) / 128 + 1) :=
  Proof.Work.BLAKE2.work (by decide) (by decide) Proof.BLAKE2.cfg2_ok 8 64

/-- The last block stays in the buffer until `finalize()`; the empty message takes a block too. -/
theorem C55_Blake2s : BLAKE2.Blake2s.Work (BLAKE2.apiW BLAKE2.cfg2s 4 32) Obj.real (fun o => o.chain.2)
    (fun n => (n - 1) / 64) (fun n => (n - 1) / 64 + 1) :=
  Proof.Work.BLAKE2.work (by decide) (by decide) Proof.BLAKE2.cfg2s_ok 4 32

theorem C55_SHA3_224 : SHA3.SHA3_224.Work (SHA3.KeccakW 144 0x06 28) Obj.real (fun o => o.chain.2)
    (fun n => n / 144) (fun n => n / 144 + 1) := Proof.Work.SHA3.work 0x06 28

theorem C55_SHA3_256 : SHA3.SHA3_256.Work (SHA3.KeccakW 136 0x06 32) Obj.real (fun o => o.chain.2)
    (fun n => n / 136) (fun n => n / 136 + 1) := Proof.Work.SHA3.work 0x06 32

theorem C55_SHA3_384 : SHA3.SHA3_384.Work (SHA3.KeccakW 104 0x06 48) Obj.real (fun o => o.chain.2)
    (fun n => n / 104) (fun n => n / 104 + 1) := Proof.Work.SHA3.work 0x06 48

theorem C55_SHA3_512 : SHA3.SHA3_512.Work (SHA3.KeccakW 72 0x06 64) Obj.real (fun o => o.chain.2)
    (fun n => n / 72) (fun n => n / 72 + 1) := Proof.Work.SHA3.work 0x06 64

/-- `d` bytes of output take as many runs as they have blocks; the first comes from the last run on the message. -/
theorem C55_SHAKE_128 (d : Nat) : (SHA3.SHAKE_128 d).Work (SHA3.KeccakW 168 0x1F d) Obj.real (fun o => o.chain.2)
    (fun n => n / 168) (fun n => n / 168 + 1 + (d - 1) / 168) := Proof.Work.SHA3.work 0x1F d

/-- `d` bytes of output take as many runs as they have blocks; the first comes from the last run on the message. -/
theorem C55_SHAKE_256 (d : Nat) : (SHA3.SHAKE_256 d).Work (SHA3.KeccakW 136 0x1F d) Obj.real (fun o => o.chain.2)
    (fun n => n / 136) (fun n => n / 136 + 1 + (d - 1) / 136) := Proof.Work.SHA3.work 0x1F d

/-- a block of padding and a block of checksum after the message -/
theorem C55_MD2 : MD2.MD2.Work MD2.MD2W Obj.real (fun o => o.chain.2) (fun n => n / 16) (fun n => n / 16 + 2) :=
  Proof.Work.MD2.work

/-- `SipHash<C, D>`, for every `C`, `D` and key; each run is `C` rounds, and `finalize()` adds `D` rounds -/
theorem C55_SipHash (C D : Nat) (key : Block 16) : (SipHash.SipHashCD C D key).Work (SipHash.SipHashCDW C D key) Obj.real
    (fun o => o.chain.2) (fun n => n / 8) (fun n => n / 8 + 1) := Proof.Work.SipHash.work C D key

/-- the FNV classes: one run for every byte -/
theorem C55_FNV (w v : Nat) : (FNV.FNVHash w v).Work (FNV.FNVHashW w v) Prod.fst Prod.snd (fun n => n) (fun n => n) :=
  Proof.Work.FNV.work w v

/-- CRC-32 has no buffer: a piece of `k` bytes takes `k / 16` runs of one loop and `k % 16` of the other, so the count
depends on the pieces; it is at least `n / 16` and at most `n`. -/
theorem C55_CRC_32 : CRC32.CRC_32.SameBut CRC32.CRC_32W Prod.fst ∧
    ∀ ops, Legal ops → ∃ o, CRC32.CRC_32W.run CRC32.CRC_32W.fresh ops = .ok o ∧
      o.2 ≤ (message ops).length ∧ (message ops).length ≤ 16 * o.2 :=
  ⟨Proof.Work.CRC32.same, Proof.Work.CRC32.work⟩

/-- Both bounds are met: 16 bytes in one piece and byte by byte. -/
theorem C55_CRC_32_pieces : (CRC32.CRC_32W.run CRC32.CRC_32W.fresh [.add (List.replicate 16 7)]).map Prod.snd = .ok 1 ∧
    (CRC32.CRC_32W.run CRC32.CRC_32W.fresh (List.replicate 16 (.add [7]))).map Prod.snd = .ok 16 := by
  constructor <;> rfl

/-- How the message is cut into pieces does not matter. -/
theorem C55_pieces {O O' : Type} {A : API O} {W : API O'} {real : O' → O} {count : O' → Nat} {adding final : Nat → Nat}
    (h : A.Work W real count adding final) (ps qs : List (List Byte)) (hp : ∀ p ∈ ps, p.length < 2 ^ 64)
    (hq : ∀ q ∈ qs, q.length < 2 ^ 64) (hl : ps.flatten.length = qs.flatten.length) :
    ∃ o o', W.run W.fresh (ps.map .add ++ [.finalize]) = .ok o ∧ W.run W.fresh (qs.map .add ++ [.finalize]) = .ok o' ∧
      count o = count o' ∧ count o = final ps.flatten.length := by
  have fin : ∀ l : List (List Byte), finished (l.map .add ++ [.finalize]) := fun l => by
    unfold finished
    rw [List.getLast?_concat]
  have leg : ∀ l : List (List Byte), (∀ p ∈ l, p.length < 2 ^ 64) → Legal (l.map .add ++ [.finalize]) := by
    intro l
    induction l with
    | nil => intro _; exact ⟨rfl, trivial⟩
    | cons p l ih => intro h; exact ⟨rfl, h p (List.mem_cons_self ..), ih fun q hq => h q (List.mem_cons_of_mem _ hq)⟩
  have msg : ∀ (l : List (List Byte)) (acc : List Byte),
      messageFrom acc (l.map .add ++ [.finalize]) = acc ++ l.flatten := by
    intro l
    induction l with
    | nil => intro acc; simp [messageFrom]
    | cons p l ih => intro acc; rw [List.flatten_cons, ← List.append_assoc]; exact ih (acc ++ p)
  obtain ⟨o, e, c⟩ := h.2 _ (leg ps hp)
  obtain ⟨o', e', c'⟩ := h.2 _ (leg qs hq)
  rw [if_pos (fin _)] at c c'
  have m1 : message (ps.map .add ++ [.finalize]) = ps.flatten := msg ps []
  have m2 : message (qs.map .add ++ [.finalize]) = qs.flatten := msg qs []
  rw [m1] at c
  rw [m2] at c'
  exact ⟨o, o', e, e', by rw [c, c', hl], c⟩

/-- Padding adds at most two blocks. -/
theorem C55_padding (B L n : Nat) (h : L < B) : n / B + 1 ≤ (n + L) / B + 1 ∧ (n + L) / B + 1 ≤ n / B + 2 := by
  have hB : 0 < B := by omega
  refine ⟨Nat.succ_le_succ (Nat.div_le_div_right (Nat.le_add_right _ _)), Nat.succ_le_succ ?_⟩
  rw [← Nat.add_div_right _ hB]
  exact Nat.div_le_div_right (by omega)

/-! ## Cases that meet the hypotheses -/

/-- 120 bytes in two pieces: three runs, after a reset that drops what was there -/
example : ∃ o, (mdApiW 64 8 0x80 counterBE64 SHA1.compress SHA1.iv SHA1.toArray).run (mdApiW 64 8 0x80 counterBE64
    SHA1.compress SHA1.iv SHA1.toArray).fresh [.add [1], .finalize, .reset, .add (List.replicate 60 1),
      .add (List.replicate 60 2), .finalize] = .ok o ∧ o.chain.h.2 = 3 :=
  C55_SHA1.2 [.add [1], .finalize, .reset, .add (List.replicate 60 1), .add (List.replicate 60 2), .finalize] (by decide)

/-- a full block stays in the buffer of BLAKE2s -/
example : ∃ o, (BLAKE2.apiW BLAKE2.cfg2s 4 32).run (BLAKE2.apiW BLAKE2.cfg2s 4 32).fresh [.add (List.replicate 64 1)] = .ok o ∧
    o.chain.2 = 0 := C55_Blake2s.2 [.add (List.replicate 64 1)] (by decide)

/-- 300 bytes of output from SHAKE-128: one run for the message, one more for the output -/
example : ∃ o, (SHA3.KeccakW 168 0x1F 300).run (SHA3.KeccakW 168 0x1F 300).fresh [.add [1, 2, 3], .finalize] = .ok o ∧
    o.chain.2 = 2 := (C55_SHAKE_128 300).2 [.add [1, 2, 3], .finalize] (by decide)

example := C55_CRC_32.2 [.add (List.replicate 20 1), .reset, .add [1, 2], .finalize] (by decide)
example := C55_pieces C55_MD5 [List.replicate 100 1] [List.replicate 50 2, [], List.replicate 50 3] (by decide) (by decide) (by decide)
example := C55_padding 64 8 119 (by decide)

end Verif.Props
