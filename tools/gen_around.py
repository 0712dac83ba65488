#!/usr/bin/env python3
"""Writes lean/Verif/Props/Around.lean."""
import os
OUT = os.path.join(os.path.dirname(__file__), "..", "lean", "Verif", "Props", "Around.lean")
s = '''import Verif.Proof.Around
import Verif.Model.SHA1
import Verif.Model.SHA2
import Verif.Model.MD4
import Verif.Model.MD5
import Verif.Model.RIPEMD
import Verif.Model.HAS160
import Verif.Model.SM3
import Verif.Model.Tiger
import Verif.Model.Whirlpool

/-!
# C74: what happens around the block functions does not depend on the bytes

Generated by tools/gen_around.py. `Blind` and the events are defined in Core/Around.lean.
-/

namespace Verif.Props
open Model Proof.Around

'''
def both(name, cls, traced, proof, args=""):
    global s
    c = f"({cls})" if " " in cls else cls
    s += f"theorem C74_{name}{args} : {c}.Blind {c}\n    ({traced})\n    ({traced}) :=\n  {proof}\n"
for name, mod, cnt in [("SHA1", "SHA1", "BE64"), ("MD4", "MD4", "LE64"), ("MD5", "MD5", "LE64"), ("HAS_160", "HAS160", "LE64"),
                       ("SM3", "SM3", "BE64")]:
    both(name, f"{mod}.{name}", f"Around.mdApi 64 8 0x80 counter{cnt} {mod}.compress {mod}.iv {mod}.toArray", "md _ _ _ _ _")
for n in (128, 160, 256, 320):
    both(f"RIPEMD_{n}", f"RIPEMD.RIPEMD_{n}", f"Around.mdApi 64 8 0x80 counterLE64 RIPEMD.compress{n} RIPEMD.iv{n} RIPEMD.toArray", "md _ _ _ _ _")
for n, k in [("224", 7), ("256", 8)]:
    both(f"SHA2_{n}", f"SHA2.SHA2_{n}", f"Around.mdApi 64 8 0x80 counterBE64 (SHA2.compress SHA2.cfg32 (by decide)) SHA2.iv{n} (SHA2.toArray 4 {k} {int(n)//8} (fun _ => []))", "md _ _ _ _ _")
for n, k, z in [("384", 6, 48), ("512", 8, 64), ("512_256", 4, 32)]:
    both(f"SHA2_{n}", f"SHA2.SHA2_{n}", f"Around.mdApi 128 16 0x80 counterBE128 (SHA2.compress SHA2.cfg64 (by decide)) SHA2.iv{n} (SHA2.toArray 8 {k} {z} (fun _ => []))", "md _ _ _ _ _")
both("SHA2_512_224", "SHA2.SHA2_512_224", "Around.mdApi 128 16 0x80 counterBE128 (SHA2.compress SHA2.cfg64 (by decide)) SHA2.iv512_224 (SHA2.toArray 8 3 28 fun mh =>\n      [ror 8 mh[3] 56, ror 8 mh[3] 48, ror 8 mh[3] 40, ror 8 mh[3] 32])", "md _ _ _ _ _")
both("Whirlpool", "Whirlpool.Whirlpool", "Around.mdApi 64 32 (1 <<< 7) counterBE128 Whirlpool.compress Whirlpool.iv Whirlpool.toArray", "md _ _ _ _ _")
s += "\n/-- `Tiger<V, D>`, for every `V` and `D` -/\n"
both("Tiger", "Tiger.Tiger V D", "Around.mdApi 64 8 (if V = 1 then 1 else 1 <<< 7) counterLE64 Tiger.compress Tiger.iv (Tiger.toArray D)", "md _ _ _ _ _", " (V D : Nat)")
s += "\ntheorem C74_MD2 : MD2.MD2.Blind MD2.MD2 Around.MD2 Around.MD2 := md2\n\n"
for n, cfg, m, k, w in [(224, "224", "false", 7, 32), (256, "256", "true", 8, 32), (384, "512", "false", 6, 64), (512, "512", "true", 8, 64)]:
    both(f"Blake1_{n}", f"BLAKE.Blake1_{n}", f"Around.blake{w} BLAKE.cfg{cfg} {m} BLAKE.iv{n} {k} {n//8}", f"blake{w} _ _ _ _ _")
both("Blake2", "BLAKE2.Blake2", "Around.blake2 BLAKE2.cfg2 8 64", "blake2 _ _ _")
both("Blake2s", "BLAKE2.Blake2s", "Around.blake2 BLAKE2.cfg2s 4 32", "blake2 _ _ _")
s += "\n"
for n, R in [(224, 144), (256, 136), (384, 104), (512, 72)]:
    both(f"SHA3_{n}", f"SHA3.SHA3_{n}", f"Around.keccak {R} 0x06 {n//8}", "keccak _ _ _")
for n, R in [(128, 168), (256, 136)]:
    both(f"SHAKE_{n}", f"SHA3.SHAKE_{n} d", f"Around.keccak {R} 0x1F d", "keccak _ _ _", " (d : Nat)")
s += '''
/-- Whatever the keys are. -/
theorem C74_SipHash (C D : Nat) (key key' : Block 16) :
    (SipHash.SipHashCD C D key).Blind (SipHash.SipHashCD C D key') (Around.sipHash C D key) (Around.sipHash C D key') :=
  sip C D key key'

/-- Two programs of one shape; the events of these 11 bytes are not nothing. -/
example : (Op.add [1, 2, 3] :: [Op.add [4, 5, 6, 7, 8, 9, 10, 11], .finalize]).map Op.shape =
    (Op.add [7, 7, 7] :: [Op.add [0, 0, 0, 0, 0, 0, 0, 0], .finalize]).map Op.shape := by decide
example : (((Around.sipHash 2 4 (Vector.replicate 16 0)).run (Around.sipHash 2 4 (Vector.replicate 16 0)).fresh
    [.add [1, 2, 3], .add [4, 5, 6, 7, 8, 9, 10, 11], .finalize]).map Prod.snd).toOption = some
      [.test false, .test true, .clear, .input 0, .put 0, .input 1, .put 1, .input 2, .put 2,
       .test true, .input 0, .put 3, .input 1, .put 4, .input 2, .put 5, .input 3, .put 6, .input 4, .put 7, .test false,
       .hashBuffer 8, .clear, .test true, .clear, .input 5, .put 0, .input 6, .put 1, .input 7, .put 2,
       .put 3, .put 4, .put 5, .put 6, .put 7, .hashBuffer 8, .clear] := by decide +kernel

/-! ## Reading digests -/

/-- `operator T` after `toArray`: the value is that of `convertInt`, the events depend on the length only. -/
theorem C74_convert (k : Nat) (d d' : List Byte) (h : d.length = d'.length) :
    (Around.convertInt k d []).map Prod.fst = convertInt k d ∧
      Both (fun p p' => p.2 = p'.2) (Around.convertInt k d []) (Around.convertInt k d' []) := by
  refine ⟨int_val k d _ _ _ [], ?_⟩
  unfold Around.convertInt
  rw [h]
  exact Proof.Ops.both_imp (fun _ _ h => h.2) (int_same k h _ 0 0 0 [])

/-- `toString` has a condition for each half of a byte. What it does is the same for two digests of one length if and only
if they have letters in the same places. -/
theorem C74_toString (d d' : List Byte) (hd : d ≠ []) (h : d.length = d'.length) :
    (Around.renderHex d []).map Prod.fst = renderHex d ∧
      (Both (fun p p' => p.2 = p'.2) (Around.renderHex d []) (Around.renderHex d' []) ↔
        d.map (fun c : Byte => (decide (c >>> 4 < 10), decide (c &&& 0xf < 10))) =
          d'.map (fun c : Byte => (decide (c >>> 4 < 10), decide (c &&& 0xf < 10)))) := by
  refine ⟨hex_val d [], ?_⟩
  have hd' : d' ≠ [] := by intro e; subst e; simp at h; exact hd h
  obtain ⟨s, hs⟩ := hex_log d hd
  obtain ⟨s', hs'⟩ := hex_log d' hd'
  have e : ∀ c : Byte, (ror 8 c 4 : Byte) = c >>> 4 := by intro c; simp [ror]
  have := hexEvents_eq d d' 0 h
  simp only [e] at this
  rw [hs, hs', ← this]
  exact Iff.rfl
example : ([0x0a] : List Byte) ≠ [] ∧ ([0x0a] : List Byte).length = ([0xa0] : List Byte).length := by decide

/-- So `toString` does not do the same for all digests of one length. -/
theorem C74_toString_fails : ∃ d d' : List Byte, d.length = d'.length ∧
    ¬Both (fun p p' => p.2 = p'.2) (Around.renderHex d []) (Around.renderHex d' []) := by
  refine ⟨[0x0a], [0xa0], rfl, ?_⟩
  rw [(C74_toString [0x0a] [0xa0] (by decide) rfl).2]
  decide

/-! ## Comparing objects -/

private theorem vec_eq {w n : Nat} (l r : Vector (BitVec w) n) :
    (Around.equal 0 l.toList r.toList []).map Prod.fst = .ok (l == r) := by
  rw [equal_val l.toList r.toList 0 (by simp) []]
  congr 1
  by_cases h : l = r
  · subst h; simp
  · have : l.toList ≠ r.toList := fun e => h (Vector.toList_inj.1 e)
    rw [beq_eq_false_iff_ne.2 h, beq_eq_false_iff_ne.2 this]

theorem C74_SipHash_eq_value (l r : SipHash.O) :
    (Around.equal 0 l.chain.state.toList r.chain.state.toList []).map Prod.fst = .ok (SipHash.eq l r) := vec_eq _ _
theorem C74_SHA1_eq_value (l r : Obj (2 * 64) (MDState W64 (Vector W32 5))) :
    (Around.equal 0 l.chain.h.toList r.chain.h.toList []).map Prod.fst = .ok (SHA1.eq l r) := vec_eq _ _
theorem C74_SHA2_32_eq_value (l r : SHA2.Obj32) :
    (Around.equal 0 l.chain.h.toList r.chain.h.toList []).map Prod.fst = .ok (SHA2.eq32 l r) := vec_eq _ _
theorem C74_SHA2_64_eq_value (l r : SHA2.Obj64) :
    (Around.equal 0 l.chain.h.toList r.chain.h.toList []).map Prod.fst = .ok (SHA2.eq64 l r) := vec_eq _ _
theorem C74_Blake1_32_eq_value (l r : BLAKE.Obj32) :
    (Around.equal 0 l.chain.h.toList r.chain.h.toList []).map Prod.fst = .ok (BLAKE.eq32 l r) := vec_eq _ _
theorem C74_Blake1_64_eq_value (l r : BLAKE.Obj64) :
    (Around.equal 0 l.chain.h.toList r.chain.h.toList []).map Prod.fst = .ok (BLAKE.eq64 l r) := vec_eq _ _
theorem C74_Blake2_eq_value (l r : BLAKE2.Obj2) :
    (Around.equal 0 l.chain.h.toList r.chain.h.toList []).map Prod.fst = .ok (BLAKE2.eq2 l r) := vec_eq _ _
theorem C74_Blake2s_eq_value (l r : BLAKE2.Obj2s) :
    (Around.equal 0 l.chain.h.toList r.chain.h.toList []).map Prod.fst = .ok (BLAKE2.eq2s l r) := vec_eq _ _
theorem C74_HAS_160_eq_value (l r : Obj (2 * 64) (MDState W64 (Vector W32 5))) :
    (Around.equal 0 l.chain.h.toList r.chain.h.toList []).map Prod.fst = .ok (HAS160.eq l r) := vec_eq _ _
theorem C74_MD2_eq_value (l r : Obj (2 * 16) MD2.St) :
    (Around.equal 0 l.chain.x.toList r.chain.x.toList []).map Prod.fst = .ok (MD2.eq l r) := vec_eq _ _
theorem C74_MD4_eq_value (l r : Obj (2 * 64) (MDState W64 (Vector W32 4))) :
    (Around.equal 0 l.chain.h.toList r.chain.h.toList []).map Prod.fst = .ok (MD4.eq l r) := vec_eq _ _
theorem C74_MD5_eq_value (l r : Obj (2 * 64) (MDState W64 (Vector W32 4))) :
    (Around.equal 0 l.chain.h.toList r.chain.h.toList []).map Prod.fst = .ok (MD5.eq l r) := vec_eq _ _
theorem C74_SM3_eq_value (l r : Obj (2 * 64) (MDState W64 (Vector W32 8))) :
    (Around.equal 0 l.chain.h.toList r.chain.h.toList []).map Prod.fst = .ok (SM3.eq l r) := vec_eq _ _
theorem C74_Tiger_eq_value (l r : Obj (2 * 64) (MDState W64 (Vector W64 3))) :
    (Around.equal 0 l.chain.h.toList r.chain.h.toList []).map Prod.fst = .ok (Tiger.eq l r) := vec_eq _ _
theorem C74_Whirlpool_eq_value (l r : Obj (2 * 64) (MDState Uint128 (Vector W64 8))) :
    (Around.equal 0 l.chain.h.toList r.chain.h.toList []).map Prod.fst = .ok (Whirlpool.eq l r) := vec_eq _ _
theorem C74_RIPEMD_eq_value {n : Nat} (l r : Obj (2 * 64) (MDState W64 (Vector W32 n))) :
    (Around.equal 0 l.chain.h.toList r.chain.h.toList []).map Prod.fst = .ok (RIPEMD.eq l r) := vec_eq _ _
theorem C74_SHA3_eq_value {N : Nat} (l r : Obj N SHA3.KState) :
    (Around.equal 0 l.chain.state.toList r.chain.state.toList []).map Prod.fst = .ok (SHA3.eq l r) := vec_eq _ _

/-- `operator==`: the loop ends at the first word that differs, so how long it takes tells how many words at the beginning
are the same. -/
theorem C74_eq_steps {w : Nat} (same l r : List (BitVec w)) (x y : BitVec w) (h : x ≠ y) :
    ∃ es, Around.equal 0 (same ++ x :: l) (same ++ y :: r) [] = .ok (false, es) ∧ es.length = 2 * (same.length + 1) := by
  obtain ⟨es, h1, h2⟩ := equal_differ same x y h l r 0 []
  exact ⟨es, h1, h2⟩
example : (1 : W64) ≠ 2 := by decide
theorem C74_eq_steps_equal {w : Nat} (l : List (BitVec w)) :
    ∃ es, Around.equal 0 l l [] = .ok (true, es) ∧ es.length = 2 * l.length := by
  obtain ⟨es, h1, h2⟩ := equal_same l 0 []
  exact ⟨es, h1, h2⟩

/-- Three objects that differ in their keys: comparing the first with the second takes fewer steps than with the third. -/
theorem C74_SipHash_eq_fails : ∃ k k' k'' : Block 16,
    ((Around.equal 0 (SipHash.SipHash k).fresh.chain.state.toList (SipHash.SipHash k').fresh.chain.state.toList []).map
      fun p => p.2.length).toOption = some 2 ∧
    ((Around.equal 0 (SipHash.SipHash k).fresh.chain.state.toList (SipHash.SipHash k'').fresh.chain.state.toList []).map
      fun p => p.2.length).toOption = some 4 :=
  ⟨Vector.replicate 16 0, (Vector.replicate 16 0).set 0 1, (Vector.replicate 16 0).set 15 1, by decide +kernel, by decide +kernel⟩

end Verif.Props
'''
open(OUT, "w").write(s)
