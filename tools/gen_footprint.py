#!/usr/bin/env python3
"""Writes lean/Verif/Props/Footprint.lean: C60 for every class. Uses the table of gen_misuse.py."""
import os, re
here = os.path.dirname(os.path.abspath(__file__))
src = open(os.path.join(here, 'gen_misuse.py')).read()
src = src[:src.index("out = '''import")].replace('__file__', repr(os.path.join(here, 'gen_misuse.py')))
exec(src)
BLOCK = {'SHA2_384': 128, 'SHA2_512': 128, 'SHA2_512_256': 128, 'SHA2_512_224': 128, 'SHA3_224': 144, 'SHA3_256': 136,
    'SHA3_384': 104, 'SHA3_512': 72, 'SHAKE_128': 168, 'SHAKE_256': 136, 'MD2': 16, 'Blake1_384': 128, 'Blake1_512': 128,
    'SipHash': 8}
out = '''import Verif.Proof.Misuse
import Verif.Proof.Vectors
import Verif.Props.CLI
import Verif.Props.CShakeAny

/-!
# C60: the memory an object takes does not grow with the message

Generated by tools/gen_footprint.py. The classes whose objects own no memory besides themselves: their carry-over buffer,
the only part whose use depends on the message, never holds a whole block (BLAKE2: never more than one). CRC-32 and FNV
have no buffer. `Heap`, `Growth` and `runH` (Model/Vectors.lean) account for the vectors of SHA-3 and SHAKE.
-/

namespace Verif.API

/-- Whatever is called in whatever order, at most `k` bytes of the message are kept. -/
def Keeps {N : Nat} {S : Type} (A : API (Obj N S)) (k : Nat) : Prop :=
  ∀ ops, AnyOrder ops → ∃ o, A.run A.fresh ops = .ok o ∧ o.buffer.size ≤ k

end Verif.API

namespace Verif.Props
open Model Proof.Misuse

private theorem room {N : Nat} {S : Type} {A : API (Obj N S)} {k : Nat} (t : Total A)
    (hI : ∀ o, t.I o → ∃ l, o.buffer.Holds l ∧ l.length < k + 1) : A.Keeps k := by
  intro ops h
  obtain ⟨o, e, i⟩ := t.run ops A.fresh h t.fresh
  obtain ⟨l, hl, hlt⟩ := hI o i
  exact ⟨o, e, by rw [hl.size_eq]; omega⟩

private theorem fits {N : Nat} {S : Type} {A : API (Obj N S)} (t : Total A) (hI : ∀ o, t.I o → Fits o) : A.Keeps N := by
  intro ops h
  obtain ⟨o, e, i⟩ := t.run ops A.fresh h t.fresh
  obtain ⟨l, hl⟩ := hI o i
  exact ⟨o, e, by rw [hl.size_eq]; exact hl.le⟩

'''
for name, b, api, tot, rd, rs in cl:
    if name.startswith(('CRC', 'FNV')): continue
    if name.startswith('Blake2'):
        k = 128 if name == 'Blake2' else 64
        out += f'theorem C60_{name}{b} : {api}.Keeps {k} := fits ({tot}) fun _ i => i\n'
    else:
        k = BLOCK.get(name, 64) - 1
        out += f'theorem C60_{name}{b} : {api}.Keeps {k} := room ({tot}) fun _ i => i.1\n'
out += open(os.path.join(here, 'footprint_tail.txt')).read()
open(os.path.join(root, 'Footprint.lean'), 'w').write(out)
