"""Props/Extension.lean: C45 for the classes with marker, zeros and length field."""
import re
src = open('/verif/tools/gen_padding.py').read()
ns = {}
exec(src.split("K = {p[0]: p for p in P}")[0], ns)
P, M = ns['P'], ns['M']
o = '''import Verif.Proof.Extension
import Verif.Props.Padding

/-!
# C45: length extension

Generated by tools/gen_extension.py. `Extends` and `PublicPadding` are defined in Core/Extension.lean, the paddings in
the specifications. For a class whose digest is the whole state the statement is about digests; the classes that
publish a part of the state (SHA-224, SHA-384, SHA-512/t) are compared with `==`, which looks at the whole state.
-/

namespace Verif.Props
open Model Proof.Extension

'''
for n, B, L, pad, e, pb in P:
    o += f'''theorem C45_{n}_public : PublicPadding {pad} :=
  padded_public {B} {L} {pb} fun n => Spec.to{e} {L} (8 * n)

'''
K = {p[0]: p for p in P}
for n, api, r, eq, view, ceq, sc, si, pk, ex, iv in M:
    _, B, L, pad, e, pb = K[pk]
    o += f'''theorem C45_{n}_state : {api}.Extends (fun o o' => {eq} o o' = true) {pad} (fun _ => True) :=
  mdExtends Proof.{r} (fun _ _ _ => trivial) (fun o => o.chain.h) (fun _ _ => beq_iff_eq) (fun _ _ h _ => h) (by decide)
    C27_{pk} C45_{pk}_public
'''
    if ex:
        o += f'''theorem C45_{n} : {api}.Extends (fun o o' => {api}.toArray o = {api}.toArray o')
    {pad} (fun _ => True) := toDigest C45_{n}_state C06_{n}_exact
'''
    o += '\n'
o += '''/-- Whirlpool: below 2^125 bytes the 128-bit counter of the class is the 256-bit length. -/
theorem C45_Whirlpool_state : Whirlpool.Whirlpool.Extends (fun o o' => Whirlpool.eq o o' = true) Spec.Whirlpool.pad
    (fun m => m.length < 2 ^ 125) :=
  mdExtends Proof.Whirlpool.refines (fun m t h => by rw [List.length_append] at h; omega) (fun o => o.chain.h)
    (fun _ _ => beq_iff_eq) (fun o m h l => by
      have h : o.chain.h = mdFold 64 Whirlpool.compress Whirlpool.iv (Proof.Whirlpool.pad128 m) := h
      rw [h, Proof.Whirlpool.pad128_eq m l]) (by decide) C27_Whirlpool
    C45_Whirlpool_public
theorem C45_Whirlpool : Whirlpool.Whirlpool.Extends
    (fun o o' => Whirlpool.Whirlpool.toArray o = Whirlpool.Whirlpool.toArray o') Spec.Whirlpool.pad
    (fun m => m.length < 2 ^ 125) := toDigest C45_Whirlpool_state C06_Whirlpool_exact

'''
exec(open('/verif/tools/collisions.py').read())
def lit(x):
    s = ['0x%02x' % c for c in x]
    rows = [', '.join(s[i:i+16]) for i in range(0, len(s), 16)]
    return '[' + ',\n   '.join(rows) + ']'
for n, x, y, who in [('MD5', a, b, 'X. Wang, D. Feng, X. Lai, H. Yu, 2004'), ('MD4', M1, M2, 'X. Wang, X. Lai, D. Feng, H. Chen, X. Yu, 2005')]:
    o += f'''/-- {who} -/
def {n.lower()}Left : List Byte :=
  {lit(x)}

/-- {who} -/
def {n.lower()}Right : List Byte :=
  {lit(y)}

private theorem {n.lower()}Chain : chain 64 {n}.compress {len(x)//64} {n}.iv {n.lower()}Left = chain 64 {n}.compress {len(x)//64} {n}.iv {n.lower()}Right := by
  have h0 : (chain 64 {n}.compress {len(x)//64} {n}.iv {n.lower()}Left)[0] = (chain 64 {n}.compress {len(x)//64} {n}.iv {n.lower()}Right)[0] := by decide +kernel
  have h1 : (chain 64 {n}.compress {len(x)//64} {n}.iv {n.lower()}Left)[1] = (chain 64 {n}.compress {len(x)//64} {n}.iv {n.lower()}Right)[1] := by decide +kernel
  have h2 : (chain 64 {n}.compress {len(x)//64} {n}.iv {n.lower()}Left)[2] = (chain 64 {n}.compress {len(x)//64} {n}.iv {n.lower()}Right)[2] := by decide +kernel
  have h3 : (chain 64 {n}.compress {len(x)//64} {n}.iv {n.lower()}Left)[3] = (chain 64 {n}.compress {len(x)//64} {n}.iv {n.lower()}Right)[3] := by decide +kernel
  generalize chain 64 {n}.compress {len(x)//64} {n}.iv {n.lower()}Left = v at *
  generalize chain 64 {n}.compress {len(x)//64} {n}.iv {n.lower()}Right = w at *
  apply Vector.ext
  intro i hi
  match i, hi with
  | 0, _ => exact h0
  | 1, _ => exact h1
  | 2, _ => exact h2
  | 3, _ => exact h3

set_option maxRecDepth 10000 in
private theorem {n.lower()}Length : {n.lower()}Left.length = {len(x)} ∧ {n.lower()}Right.length = {len(x)} := by decide

set_option maxRecDepth 10000 in
private theorem {n.lower()}Differ : {n.lower()}Left ≠ {n.lower()}Right := by decide

/-- {n} is not collision resistant: two different messages, and whatever is appended to both, however the bytes are
added, the digests are equal. -/
theorem C45_{n}_collisions : {n.lower()}Left ≠ {n.lower()}Right ∧ ∀ (x : List Byte) (ops ops' : List Op),
    Legal (ops ++ [.finalize]) → Legal (ops' ++ [.finalize]) → message ops = {n.lower()}Left ++ x →
    message ops' = {n.lower()}Right ++ x →
    ∃ o o', {n}.{n}.run {n}.{n}.fresh (ops ++ [.finalize]) = .ok o ∧ {n}.{n}.run {n}.{n}.fresh (ops' ++ [.finalize]) = .ok o' ∧
      {n}.{n}.toArray o = {n}.{n}.toArray o' := by
  refine ⟨{n.lower()}Differ, fun x ops ops' => ?_⟩
  obtain ⟨l, l'⟩ := {n.lower()}Length
  have e : mdFold 64 {n}.compress {n}.iv {n.lower()}Left = mdFold 64 {n}.compress {n}.iv {n.lower()}Right := by
    rw [chain_eq _ (by decide) {len(x)//64} _ _ l, chain_eq _ (by decide) {len(x)//64} _ _ l']; exact {n.lower()}Chain
  generalize {n.lower()}Left = a at *
  generalize {n.lower()}Right = a' at *
  refine family Proof.{n}.refines (comp := {n}.compress) (iv := {n}.iv) (fun o => o.chain.h) (fun o o' h => ?_) (fun _ _ h => h)
    (by decide) C45_{n}_public _ _ (l.trans l'.symm) (by rw [l]) e x ops ops'
  show {n}.toArray o.chain.h = {n}.toArray o'.chain.h
  rw [show o.chain.h = o'.chain.h from h]

'''
o += '''/-! The hypotheses of `Extends` can be met with different messages: the two messages above. -/
set_option maxRecDepth 10000 in
example : (message [.add md4Left]).length = (message [.add [1], .reset, .add md4Right]).length ∧
    Legal ([.add md4Left] ++ [.finalize]) ∧ Legal ([.add [1], .reset, .add md4Right] ++ [.finalize]) := by decide

/-- So the hypotheses of `C28_MD4_digest` are met: the two messages have equal digests. -/
example : CollisionIn Spec.MD4.compress Spec.MD4.init (Spec.blocks 64 (Spec.MD4.pad (message [.add md4Left])))
    (Spec.blocks 64 (Spec.MD4.pad (message [.add md4Right]))) := by
  obtain ⟨l, l'⟩ := md4Length
  have hl : Legal ([.add md4Left] ++ [.finalize]) := ⟨rfl, by rw [l]; decide, rfl, trivial⟩
  have hl' : Legal ([.add md4Right] ++ [.finalize]) := ⟨rfl, by rw [l']; decide, rfl, trivial⟩
  obtain ⟨hne, h⟩ := C45_MD4_collisions
  obtain ⟨o, o', e, e', hd⟩ := h [] [.add md4Left] [.add md4Right] hl hl' (List.append_nil _).symm (List.append_nil _).symm
  have m : ∀ x, message [.add x] = x := fun _ => rfl
  exact C28_MD4_digest _ _ hl hl' (by rw [m, m]; exact hne) (by rw [m, l]; decide) (by rw [m, l']; decide) o o' e e' hd

end Verif.Props
'''
open('/verif/lean/Verif/Props/Extension.lean', 'w').write(o)
