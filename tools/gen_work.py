#!/usr/bin/env python3
"""Writes lean/Verif/Props/Work.lean."""
import os

OUT = os.path.join(os.path.dirname(__file__), "..", "lean", "Verif", "Props", "Work.lean")

HEAD = '''import Verif.Proof.Work
import Verif.Proof.HAS160
import Verif.Proof.HASV
import Verif.Proof.MD4
import Verif.Proof.MD5
import Verif.Proof.RIPEMD
import Verif.Proof.SHA1
import Verif.Proof.SHA2
import Verif.Proof.SM3
import Verif.Proof.TigerGen
import Verif.Proof.Whirlpool

/-!
# C55: how much is computed

Generated by tools/gen_work.py. Each theorem gives the class with a count (Model/Work.lean), the count, and the number
of runs of the block function for `n` bytes: before `finalize()` and after it. `API.Work` (Core/Work.lean) says that
the class with the count is the class otherwise.
-/

namespace Verif.Props
open Model

'''

MD = [  # name, class, B, L, pad byte, counter, ok, compress, iv, out
    ("SHA1", "SHA1.SHA1", 64, 8, "0x80", "counterBE64", "counterBE64_ok", "SHA1.compress", "SHA1.iv", "SHA1.toArray"),
    ("SHA2_224", "SHA2.SHA2_224", 64, 8, "0x80", "counterBE64", "counterBE64_ok", "(SHA2.compress SHA2.cfg32 (by decide))",
     "SHA2.iv224", "(SHA2.toArray 4 7 28 fun _ => [])"),
    ("SHA2_256", "SHA2.SHA2_256", 64, 8, "0x80", "counterBE64", "counterBE64_ok", "(SHA2.compress SHA2.cfg32 (by decide))",
     "SHA2.iv256", "(SHA2.toArray 4 8 32 fun _ => [])"),
    ("SHA2_384", "SHA2.SHA2_384", 128, 16, "0x80", "counterBE128", "counterBE128_ok",
     "(SHA2.compress SHA2.cfg64 (by decide))", "SHA2.iv384", "(SHA2.toArray 8 6 48 fun _ => [])"),
    ("SHA2_512", "SHA2.SHA2_512", 128, 16, "0x80", "counterBE128", "counterBE128_ok",
     "(SHA2.compress SHA2.cfg64 (by decide))", "SHA2.iv512", "(SHA2.toArray 8 8 64 fun _ => [])"),
    ("SHA2_512_224", "SHA2.SHA2_512_224", 128, 16, "0x80", "counterBE128", "counterBE128_ok",
     "(SHA2.compress SHA2.cfg64 (by decide))", "SHA2.iv512_224", "SHA2EXTRA"),
    ("SHA2_512_256", "SHA2.SHA2_512_256", 128, 16, "0x80", "counterBE128", "counterBE128_ok",
     "(SHA2.compress SHA2.cfg64 (by decide))", "SHA2.iv512_256", "(SHA2.toArray 8 4 32 fun _ => [])"),
    ("MD4", "MD4.MD4", 64, 8, "0x80", "counterLE64", "counterLE64_ok", "MD4.compress", "MD4.iv", "MD4.toArray"),
    ("MD5", "MD5.MD5", 64, 8, "0x80", "counterLE64", "counterLE64_ok", "MD5.compress", "MD5.iv", "MD5.toArray"),
    ("HAS_160", "HAS160.HAS_160", 64, 8, "0x80", "counterLE64", "counterLE64_ok", "HAS160.compress", "HAS160.iv",
     "HAS160.toArray"),
    ("SM3", "SM3.SM3", 64, 8, "0x80", "counterBE64", "counterBE64_ok", "SM3.compress", "SM3.iv", "SM3.toArray"),
    ("Whirlpool", "Whirlpool.Whirlpool", 64, 32, "(1 <<< 7)", "counterBE128", "Proof.Whirlpool.counter32_ok",
     "Whirlpool.compress", "Whirlpool.iv", "Whirlpool.toArray"),
    ("HAS_V_320", "HASV.HAS_V_320", 128, 9, "(1 <<< 7)", "HASV.counter", "Proof.HASV.counter_ok", "HASV.compress",
     "HASV.iv", "HASV.toArray"),
] + [(f"RIPEMD_{n}", f"RIPEMD.RIPEMD_{n}", 64, 8, "0x80", "counterLE64", "counterLE64_ok", f"RIPEMD.compress{n}",
      f"RIPEMD.iv{n}", "RIPEMD.toArray") for n in (128, 160, 256, 320)]


def md():
    s = ""
    for name, cls, B, L, pb, cnt, ok, comp, iv, out in MD:
        if out == "SHA2EXTRA":
            out = "(SHA2.toArray 8 3 28 fun mh =>\n      [ror 8 mh[3] 56, ror 8 mh[3] 48, ror 8 mh[3] 40, ror 8 mh[3] 32])"
        s += (f"theorem C55_{name} : {cls}.Work (mdApiW {B} {L} {pb} {cnt} {comp} {iv} {out})\n"
              f"    mdReal (fun o => o.chain.h.2) (fun n => n / {B}) (fun n => (n + {L}) / {B} + 1) :=\n"
              f"  Proof.Work.mdWork (by decide) (by decide) _ {ok} _ _ _\n\n")
    s += ("/-- `Tiger<V, D>`, for every `V` and `D` -/\n"
          "theorem C55_Tiger (V D : Nat) : (Tiger.Tiger V D).Work\n"
          "    (mdApiW 64 8 (if V = 1 then 1 else 1 <<< 7) counterLE64 Tiger.compress Tiger.iv (Tiger.toArray D))\n"
          "    mdReal (fun o => o.chain.h.2) (fun n => n / 64) (fun n => (n + 8) / 64 + 1) :=\n"
          "  Proof.Work.mdWork (by decide) (by decide) _ counterLE64_ok _ _ _\n\n")
    return s


def blake():
    s = ""
    for n, B, L, cfg, marker, words, zero, ok, fin, tot, wr, k in [
            (224, 64, 8, "cfg224", "false", 7, "0", "cfg224_ok", "fin64", "cntAdd64", "lenWritesBE64", 4),
            (256, 64, 8, "cfg256", "true", 8, "0", "cfg256_ok", "fin64", "cntAdd64", "lenWritesBE64", 4),
            (384, 128, 16, "cfg512", "false", 6, "{}", "cfg512_ok", "fin128", "cntAdd128", "lenWritesBE128", 8),
            (512, 128, 16, "cfg512", "true", 8, "{}", "cfg512_ok", "fin128", "cntAdd128", "lenWritesBE128", 8)]:
        s += (f"theorem C55_Blake1_{n} : BLAKE.Blake1_{n}.Work\n"
              f"    (BLAKE.apiW BLAKE.{cfg} {L} {marker} {tot} {wr} ⟨{zero}, BLAKE.iv{n}⟩ {k} {words} {words * k})\n"
              f"    Obj.real (fun o => o.chain.2) (fun n => n / {B}) (fun n => (n + {L}) / {B} + 1) :=\n"
              f"  Proof.Work.BLAKE.work (by decide) (by decide) Proof.BLAKE.{ok} Proof.BLAKE.{fin} {marker} BLAKE.iv{n} {k} {words} {words * k}\n\n")
    for name, cfg, k, size, B in [("Blake2", "cfg2", 8, 64, 128), ("Blake2s", "cfg2s", 4, 32, 64)]:
        s += (f"/-- The last block stays in the buffer until `finalize()`; the empty message takes a block too. -/\n"
              f"theorem C55_{name} : BLAKE2.{name}.Work (BLAKE2.apiW BLAKE2.{cfg} {k} {size}) Obj.real (fun o => o.chain.2)\n"
              f"    (fun n => (n - 1) / {B}) (fun n => (n - 1) / {B} + 1) :=\n"
              f"  Proof.Work.BLAKE2.work (by decide) (by decide) Proof.BLAKE2.{cfg}_ok {k} {size}\n\n")
    return s


def sha3():
    s = ""
    for bits, R in [(224, 144), (256, 136), (384, 104), (512, 72)]:
        s += (f"theorem C55_SHA3_{bits} : SHA3.SHA3_{bits}.Work (SHA3.KeccakW {R} 0x06 {bits // 8}) Obj.real (fun o => o.chain.2)\n"
              f"    (fun n => n / {R}) (fun n => n / {R} + 1) := Proof.Work.SHA3.work 0x06 {bits // 8}\n\n")
    for bits, R in [(128, 168), (256, 136)]:
        s += (f"/-- `d` bytes of output take as many runs as they have blocks; the first comes from the last run on the message. -/\n"
              f"theorem C55_SHAKE_{bits} (d : Nat) : (SHA3.SHAKE_{bits} d).Work (SHA3.KeccakW {R} 0x1F d) Obj.real (fun o => o.chain.2)\n"
              f"    (fun n => n / {R}) (fun n => n / {R} + 1 + (d - 1) / {R}) := Proof.Work.SHA3.work 0x1F d\n\n")
    return s


REST = '''/-- a block of padding and a block of checksum after the message -/
theorem C55_MD2 : MD2.MD2.Work MD2.MD2W Obj.real (fun o => o.chain.2) (fun n => n / 16) (fun n => n / 16 + 2) :=
  Proof.Work.MD2.work

/-- `SipHash<C, D>`, for every `C`, `D` and key; each run is `C` rounds, and `finalize()` adds `D` rounds -/
theorem C55_SipHash (C D : Nat) (key : Block 16) : (SipHash.SipHashCD C D key).Work (SipHash.SipHashCDW C D key) Obj.real
    (fun o => o.chain.2) (fun n => n / 8) (fun n => n / 8 + 1) := Proof.Work.SipHash.work C D key

/-- the FNV classes: one run for every byte -/
theorem C55_FNV (w v : Nat) : (FNV.FNVHash w v).Work (FNV.FNVHashW w v) Prod.fst Prod.snd (fun n => n) (fun n => n) :=
  Proof.Work.FNV.work w v

/-- CRC-32 has no buffer: a piece of `k` bytes takes `k / 16` runs of one loop and `k % 16` of the other, so the count
depends on the pieces; it is at least `n / 16` and at most `n`. -/
theorem C55_CRC_32 : CRC32.CRC_32.SameBut CRC32.CRC_32W Prod.fst ∧
    ∀ ops, Legal ops → ∃ o, CRC32.CRC_32W.run CRC32.CRC_32W.fresh ops = .ok o ∧
      o.2 ≤ (message ops).length ∧ (message ops).length ≤ 16 * o.2 :=
  ⟨Proof.Work.CRC32.same, Proof.Work.CRC32.work⟩

/-- Both bounds are met: 16 bytes in one piece and byte by byte. -/
theorem C55_CRC_32_pieces : (CRC32.CRC_32W.run CRC32.CRC_32W.fresh [.add (List.replicate 16 7)]).map Prod.snd = .ok 1 ∧
    (CRC32.CRC_32W.run CRC32.CRC_32W.fresh (List.replicate 16 (.add [7]))).map Prod.snd = .ok 16 := by
  constructor <;> rfl

/-- How the message is cut into pieces does not matter. -/
theorem C55_pieces {O O' : Type} {A : API O} {W : API O'} {real : O' → O} {count : O' → Nat} {adding final : Nat → Nat}
    (h : A.Work W real count adding final) (ps qs : List (List Byte)) (hp : ∀ p ∈ ps, p.length < 2 ^ 64)
    (hq : ∀ q ∈ qs, q.length < 2 ^ 64) (hl : ps.flatten.length = qs.flatten.length) :
    ∃ o o', W.run W.fresh (ps.map .add ++ [.finalize]) = .ok o ∧ W.run W.fresh (qs.map .add ++ [.finalize]) = .ok o' ∧
      count o = count o' ∧ count o = final ps.flatten.length := by
  have fin : ∀ l : List (List Byte), finished (l.map .add ++ [.finalize]) := fun l => by
    unfold finished
    rw [List.getLast?_concat]
  have leg : ∀ l : List (List Byte), (∀ p ∈ l, p.length < 2 ^ 64) → Legal (l.map .add ++ [.finalize]) := by
    intro l
    induction l with
    | nil => intro _; exact ⟨rfl, trivial⟩
    | cons p l ih => intro h; exact ⟨rfl, h p (List.mem_cons_self ..), ih fun q hq => h q (List.mem_cons_of_mem _ hq)⟩
  have msg : ∀ (l : List (List Byte)) (acc : List Byte),
      messageFrom acc (l.map .add ++ [.finalize]) = acc ++ l.flatten := by
    intro l
    induction l with
    | nil => intro acc; simp [messageFrom]
    | cons p l ih => intro acc; rw [List.flatten_cons, ← List.append_assoc]; exact ih (acc ++ p)
  obtain ⟨o, e, c⟩ := h.2 _ (leg ps hp)
  obtain ⟨o', e', c'⟩ := h.2 _ (leg qs hq)
  rw [if_pos (fin _)] at c c'
  have m1 : message (ps.map .add ++ [.finalize]) = ps.flatten := msg ps []
  have m2 : message (qs.map .add ++ [.finalize]) = qs.flatten := msg qs []
  rw [m1] at c
  rw [m2] at c'
  exact ⟨o, o', e, e', by rw [c, c', hl], c⟩

/-- Padding adds at most two blocks. -/
theorem C55_padding (B L n : Nat) (h : L < B) : n / B + 1 ≤ (n + L) / B + 1 ∧ (n + L) / B + 1 ≤ n / B + 2 := by
  have hB : 0 < B := by omega
  refine ⟨Nat.succ_le_succ (Nat.div_le_div_right (Nat.le_add_right _ _)), Nat.succ_le_succ ?_⟩
  rw [← Nat.add_div_right _ hB]
  exact Nat.div_le_div_right (by omega)

/-! ## Cases that meet the hypotheses -/

/-- 120 bytes in two pieces: three runs, after a reset that drops what was there -/
example : ∃ o, (mdApiW 64 8 0x80 counterBE64 SHA1.compress SHA1.iv SHA1.toArray).run (mdApiW 64 8 0x80 counterBE64
    SHA1.compress SHA1.iv SHA1.toArray).fresh [.add [1], .finalize, .reset, .add (List.replicate 60 1),
      .add (List.replicate 60 2), .finalize] = .ok o ∧ o.chain.h.2 = 3 :=
  C55_SHA1.2 [.add [1], .finalize, .reset, .add (List.replicate 60 1), .add (List.replicate 60 2), .finalize] (by decide)

/-- a full block stays in the buffer of BLAKE2s -/
example : ∃ o, (BLAKE2.apiW BLAKE2.cfg2s 4 32).run (BLAKE2.apiW BLAKE2.cfg2s 4 32).fresh [.add (List.replicate 64 1)] = .ok o ∧
    o.chain.2 = 0 := C55_Blake2s.2 [.add (List.replicate 64 1)] (by decide)

/-- 300 bytes of output from SHAKE-128: one run for the message, one more for the output -/
example : ∃ o, (SHA3.KeccakW 168 0x1F 300).run (SHA3.KeccakW 168 0x1F 300).fresh [.add [1, 2, 3], .finalize] = .ok o ∧
    o.chain.2 = 2 := (C55_SHAKE_128 300).2 [.add [1, 2, 3], .finalize] (by decide)

example := C55_CRC_32.2 [.add (List.replicate 20 1), .reset, .add [1, 2], .finalize] (by decide)
example := C55_pieces C55_MD5 [List.replicate 100 1] [List.replicate 50 2, [], List.replicate 50 3] (by decide) (by decide) (by decide)
example := C55_padding 64 8 119 (by decide)

end Verif.Props
'''

open(OUT, "w").write(HEAD + md() + blake() + sha3() + REST)
