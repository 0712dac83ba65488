#!/usr/bin/env python3
"""Writes lean/Verif/Props/Copies.lean: C39 for every class of Props/Streaming.lean, FNV-0 and Tiger."""
import re, os
root = os.path.join(os.path.dirname(os.path.abspath(__file__)), '..', 'lean', 'Verif', 'Props')
text = open(os.path.join(root, 'Streaming.lean')).read()
classes = re.findall(r'theorem C02_(\w+)((?: \([^)]*\))*) : (\S+|\(.*?\))\.Safe :=', text)
classes += [('FNV32_0', '', 'FNV.FNV32_0'), ('FNV64_0', '', 'FNV.FNV64_0'), ('Tiger_any', ' (V D : Nat)', '(Tiger.Tiger V D)')]
out = '''import Verif.Proof.Store
import Verif.Props.Streaming
import Verif.Props.FNV
import Verif.Props.Tiger

/-!
# C39: copies, for the classes that are copied memberwise

Generated by tools/gen_copies.py. Programs with several objects, their histories and `CopiesIndependent` are
defined in Core/Store.lean; cSHAKE and TupleHash objects, which own heap memory, are in Props/CShake.lean.
-/

namespace Verif.Props
open Model

'''
for n, args, api in classes:
    names = ' '.join(x for a in re.findall(r'\(([^:]*):', args) for x in a.split())
    use = f'(C02_{n} {names})' if names else f'C02_{n}'
    out += f'theorem C39_{n}{args} : {api}.CopiesIndependent := Proof.Store.copies _ {use}\n'
out += '''
/-- C39 in terms of digests: an object that is finalised at the end, with whatever copies made from it or into
it before, gives the digest of the message its own history added. -/
theorem C39_digest {O : Type} (A : API O) (spec : List Byte → List Byte) (c : A.Computes spec) (safe : A.Safe)
    (P : List Stmt) (l : LegalProgram P) (i : Nat) (ops : List Op) (h : history P i = some (ops ++ [.finalize]))
    (lo : Legal (ops ++ [.finalize])) :
    ∃ s o, A.exec (fun _ => none) P = .ok s ∧ s i = some o ∧ A.toArray o = .ok (spec (message ops)) := by
  obtain ⟨s, hs, g⟩ := Proof.Store.copies A safe P l
  have gi := g i
  rw [h] at gi
  obtain ⟨o, so, ro⟩ := gi
  obtain ⟨o', ro', t⟩ := c ops lo trivial
  rw [ro'] at ro
  cases ro
  exact ⟨s, _, hs, so, t⟩

/-! A program that meets the hypotheses: the copy is taken in the middle of a message, and both go on. -/
def forked : List Stmt :=
  [.new 0, .call 0 (.add [1, 2]), .copy 0 1, .call 1 (.add [3]), .call 0 (.add [4, 5]), .call 0 .finalize, .copy 0 2,
    .call 1 .finalize, .call 2 .reset]
example : LegalProgram forked ∧ history forked 0 = some ([.add [1, 2], .add [4, 5]] ++ [.finalize]) ∧
    history forked 1 = some ([.add [1, 2], .add [3]] ++ [.finalize]) ∧
    history forked 2 = some [.add [1, 2], .add [4, 5], .finalize, .reset] ∧ history forked 3 = none := by
  refine ⟨⟨⟨_, rfl, by decide⟩, rfl, ⟨_, rfl, by decide⟩, ⟨_, rfl, by decide⟩, ⟨_, rfl, by decide⟩, rfl,
    ⟨_, rfl, by decide⟩, ⟨_, rfl, by decide⟩, trivial⟩, rfl, rfl, rfl, rfl⟩

/-- The digests of the two objects of that program. -/
example : ∃ s o o', SHA1.SHA1.exec (fun _ => none) forked = .ok s ∧ s 0 = some o ∧ s 1 = some o' ∧
    SHA1.SHA1.toArray o = .ok (Spec.SHA1.sha1 [1, 2, 4, 5]) ∧ SHA1.SHA1.toArray o' = .ok (Spec.SHA1.sha1 [1, 2, 3]) := by
  have l : LegalProgram forked := ⟨⟨_, rfl, by decide⟩, rfl, ⟨_, rfl, by decide⟩, ⟨_, rfl, by decide⟩, ⟨_, rfl, by decide⟩,
    rfl, ⟨_, rfl, by decide⟩, ⟨_, rfl, by decide⟩, trivial⟩
  obtain ⟨s, o, e, h, t⟩ := C39_digest _ _ Proof.SHA1.refines.computes C02_SHA1 forked l 0 [.add [1, 2], .add [4, 5]] rfl (by decide)
  obtain ⟨s', o', e', h', t'⟩ := C39_digest _ _ Proof.SHA1.refines.computes C02_SHA1 forked l 1 [.add [1, 2], .add [3]] rfl (by decide)
  rw [e] at e'
  cases e'
  exact ⟨s, o, o', e, h, h', t, t'⟩

end Verif.Props
'''
open(os.path.join(root, 'Copies.lean'), 'w').write(out)
