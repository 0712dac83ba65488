#!/usr/bin/env python3
"""Writes lean/Verif/Props/SHA1Collision.lean. The chaining values are computed here and verified by the kernel."""
import os, struct
here = os.path.dirname(os.path.abspath(__file__))
exec(open(os.path.join(here, 'collisions.py')).read())
def rol(x, n): return ((x << n) | (x >> (32 - n))) & 0xffffffff
def comp(h, m):
    w = list(struct.unpack('>16I', m))
    for t in range(16, 80): w.append(rol(w[t-3] ^ w[t-8] ^ w[t-14] ^ w[t-16], 1))
    a, b, c, d, e = h
    for t in range(80):
        if t < 20: f, k = (b & c) ^ (~b & d), 0x5a827999
        elif t < 40: f, k = b ^ c ^ d, 0x6ed9eba1
        elif t < 60: f, k = (b & c) ^ (b & d) ^ (c & d), 0x8f1bbcdc
        else: f, k = b ^ c ^ d, 0xca62c1d6
        a, b, c, d, e = (rol(a, 5) + f + e + k + w[t]) & 0xffffffff, a, rol(b, 30), c, d
    return tuple((x + y) & 0xffffffff for x, y in zip(h, (a, b, c, d, e)))
def vec(h): return '#v[' + ', '.join('0x%08X' % x for x in h) + ']'
def lit(x):
    s = ['0x%02x' % c for c in x]
    rows = [', '.join(s[i:i+16]) for i in range(0, len(s), 16)]
    return '[' + ',\n   '.join(rows) + ']'
IV = (0x67452301, 0xEFCDAB89, 0x98BADCFE, 0x10325476, 0xC3D2E1F0)
o = '''import Verif.Props.Extension

/-!
# C45: SHA-1 is not collision resistant

Two messages of 320 bytes (M. Stevens, E. Bursztein, P. Karpman, A. Albertini, Y. Markov, 2017) with one digest, whatever is
appended to both. The blocks and chaining values are written by tools/gen_sha1collision.py and verified by the kernel.
-/

namespace Verif.Proof.SHA1
open Spec Model Model.SHA1

set_option maxRecDepth 100000
set_option Elab.async false

theorem fold_block {H : Type} {B : Nat} (comp : H → Block B → H) (hB : 0 < B) (h h' : H) (b rest : List Byte)
    (hl : b.length = B) (he : comp h (toBlock B b) = h') : mdFold B comp h (b ++ rest) = mdFold B comp h' rest := by
  unfold mdFold
  rw [blocks_cons B _ hB (by rw [List.length_append]; omega), List.foldl_cons, List.take_left' hl, List.drop_left' hl, he]

'''
names = []
def block(name, data):
    global o
    o += f'def {name} : List Byte :=\n  {lit(data)}\n\n'
for i in range(3): block(f'common{i}', sha1Common[64*i:64*i+64])
for i in range(2):
    block(f'left{i}', sha1Left[64*i:64*i+64])
    block(f'right{i}', sha1Right[64*i:64*i+64])
h = IV
cv = []
def step(name, h, data):
    global o
    h2 = comp(h, data)
    src = 'iv' if h == IV else vec(h)
    o += f'theorem {name}_step : compress {src} (toBlock 64 {name}) =\n    {vec(h2)} := by decide +kernel\n\n'
    return h2
for i in range(3): h = step(f'common{i}', h, sha1Common[64*i:64*i+64])
l = step('left0', h, sha1Left[:64]); l = step('left1', l, sha1Left[64:])
r = step('right0', h, sha1Right[:64]); r = step('right1', r, sha1Right[64:])
assert l == r
o += '''/-- the two messages -/
def leftMessage : List Byte := common0 ++ (common1 ++ (common2 ++ (left0 ++ (left1 ++ []))))
def rightMessage : List Byte := common0 ++ (common1 ++ (common2 ++ (right0 ++ (right1 ++ []))))

theorem lengths : leftMessage.length = 320 ∧ rightMessage.length = 320 := by decide +kernel
theorem differ : leftMessage ≠ rightMessage := by decide +kernel

theorem meet : mdFold 64 compress iv leftMessage = mdFold 64 compress iv rightMessage := by
  unfold leftMessage rightMessage
  rw [fold_block compress (by decide) _ _ _ _ (by decide) common0_step, fold_block compress (by decide) _ _ _ _ (by decide) common0_step,
    fold_block compress (by decide) _ _ _ _ (by decide) common1_step, fold_block compress (by decide) _ _ _ _ (by decide) common1_step,
    fold_block compress (by decide) _ _ _ _ (by decide) common2_step, fold_block compress (by decide) _ _ _ _ (by decide) common2_step,
    fold_block compress (by decide) _ _ _ _ (by decide) left0_step, fold_block compress (by decide) _ _ _ _ (by decide) right0_step,
    fold_block compress (by decide) _ _ _ _ (by decide) left1_step, fold_block compress (by decide) _ _ _ _ (by decide) right1_step]

end Verif.Proof.SHA1

namespace Verif.Props
open Model Proof Proof.Extension

/-- the 2017 messages: 192 common bytes and 128 that differ -/
def sha1Left : List Byte := Proof.SHA1.leftMessage
def sha1Right : List Byte := Proof.SHA1.rightMessage

/-- SHA-1 is not collision resistant: two different messages, and whatever is appended to both, however the bytes are
added, the digests are equal. -/
theorem C45_SHA1_collisions : sha1Left ≠ sha1Right ∧ ∀ (x : List Byte) (ops ops' : List Op),
    Legal (ops ++ [.finalize]) → Legal (ops' ++ [.finalize]) → message ops = sha1Left ++ x →
    message ops' = sha1Right ++ x →
    ∃ o o', SHA1.SHA1.run SHA1.SHA1.fresh (ops ++ [.finalize]) = .ok o ∧
      SHA1.SHA1.run SHA1.SHA1.fresh (ops' ++ [.finalize]) = .ok o' ∧ SHA1.SHA1.toArray o = SHA1.SHA1.toArray o' := by
  refine ⟨Proof.SHA1.differ, fun x ops ops' => ?_⟩
  obtain ⟨l, l'⟩ : sha1Left.length = 320 ∧ sha1Right.length = 320 := Proof.SHA1.lengths
  have e : mdFold 64 SHA1.compress SHA1.iv sha1Left = mdFold 64 SHA1.compress SHA1.iv sha1Right := Proof.SHA1.meet
  generalize sha1Left = a at *
  generalize sha1Right = a' at *
  refine family Proof.SHA1.refines (comp := SHA1.compress) (iv := SHA1.iv) (fun o => o.chain.h) (fun o o' h => ?_) (fun _ _ h => h)
    (by decide) C45_SHA1_public _ _ (l.trans l'.symm) (by rw [l]) e x ops ops'
  show SHA1.toArray o.chain.h = SHA1.toArray o'.chain.h
  rw [show o.chain.h = o'.chain.h from h]

/-! The hypotheses can be met. -/
example : Legal ([.add sha1Left] ++ [.finalize]) ∧ message [.add sha1Left] = sha1Left ++ [] :=
  ⟨⟨rfl, by rw [show sha1Left.length = 320 from Proof.SHA1.lengths.1]; decide, rfl, trivial⟩, (List.append_nil _).symm⟩

end Verif.Props
'''
open(os.path.join(here, '../lean/Verif/Props/SHA1Collision.lean'), 'w').write(o)
