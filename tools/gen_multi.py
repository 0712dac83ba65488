"""Props/Multicollision.lean: C72 for the classes with marker, zeros and length field."""
src = open('/verif/tools/gen_padding.py').read()
ns = {}
exec(src.split("K = {p[0]: p for p in P}")[0], ns)
P, M = ns['P'], ns['M']
o = '''import Verif.Proof.Multicollision
import Verif.Props.Extension
import Verif.Props.HASVMore
import Verif.Props.Streaming
import Verif.Props.SHA2
import Verif.Props.MD

/-!
# C72: few collisions are many, and a second digest is no remedy

Generated by tools/gen_multi.py. `Multicollides` and `BesideOther` are defined in Core/Multicollision.lean. `k` collisions,
found one after the other, make `2 ^ k` messages with one digest, whatever is appended to them. If there are more
collisions than another class has digest bits, two of these messages have the same digest in that class too. For the
classes that publish a part of the state (SHA-224, SHA-384, SHA-512/t) "the same" means `==` instead of equal digests.
-/

namespace Verif.Props
open Model Proof.Multicollision

'''
K = {p[0]: p for p in P}
for n, api, r, eq, view, ceq, sc, si, pk, ex, iv in M:
    _, B, L, pad, e, pb = K[pk]
    if ex:
        same, proof = f"(fun o o' => {api}.toArray o = {api}.toArray o')", f"digests Proof.{r} C45_{n} C45_{pk}_public (fun _ _ _ _ => trivial) (fun _ _ _ => trivial)"
    else:
        same, proof = f"(fun o o' => {eq} o o' = true)", f"states Proof.{r} (fun o => o.chain.h) (fun _ _ => beq_iff_eq) (fun _ _ h => h) C45_{n}_state C45_{pk}_public"
    o += f'''theorem C72_{n} : {api}.Multicollides {same} {pad} (fun _ => True) :=
  {proof}
theorem C72_{n}_beside : {api}.BesideOther {same} {pad} (fun _ => True) := beside C72_{n}

'''
same = "(fun o o' => Whirlpool.Whirlpool.toArray o = Whirlpool.Whirlpool.toArray o')"
o += f'''/-- Whirlpool: below 2^125 bytes the 128-bit counter of the class is the 256-bit length. -/
theorem C72_Whirlpool : Whirlpool.Whirlpool.Multicollides {same}
    Spec.Whirlpool.pad (fun m => m.length < 2 ^ 125) :=
  digests Proof.Whirlpool.refines C45_Whirlpool C45_Whirlpool_public (fun m m' h l => by rw [← h]; exact l)
    (fun m t h => by rw [List.length_append] at h; omega)
theorem C72_Whirlpool_beside : Whirlpool.Whirlpool.BesideOther {same}
    Spec.Whirlpool.pad (fun m => m.length < 2 ^ 125) := beside C72_Whirlpool

theorem C72_HAS_V_320 : HASV.HAS_V_320.Multicollides (fun o o' => HASV.HAS_V_320.toArray o = HASV.HAS_V_320.toArray o')
    Spec.HASV.pad (fun _ => True) :=
  digests Proof.HASV.refines C45_HAS_V_320 C45_HAS_V_320_public (fun _ _ _ _ => trivial) (fun _ _ _ => trivial)
theorem C72_HAS_V_320_beside : HASV.HAS_V_320.BesideOther (fun o o' => HASV.HAS_V_320.toArray o = HASV.HAS_V_320.toArray o')
    Spec.HASV.pad (fun _ => True) := beside C72_HAS_V_320

/-! The hypotheses can be met: a collision of MD5 that has been found, and any number of collisions of SHA-256, since there
are more messages than digests. The other class may be any: with 257 collisions of MD5 there are two messages with which
both MD5 and SHA-256 collide. -/
example : MD5.MD5.Collisions (fun o o' => MD5.MD5.toArray o = MD5.MD5.toArray o') Spec.MD5.pad [] [(md5Left, md5Right)] := by
  obtain ⟨hne, h⟩ := C45_MD5_collisions
  refine ⟨hne, by decide +kernel, fun ops ops' l l' e e' => ?_, trivial⟩
  exact h [] ops ops' l l' (by rw [e, List.append_nil]; rfl) (by rw [e', List.append_nil]; rfl)
example (k : Nat) : ∃ ps, ps.length = k ∧
    SHA2.SHA2_256.Collisions (fun o o' => SHA2.SHA2_256.toArray o = SHA2.SHA2_256.toArray o') (Spec.SHA2.pad 64 8) [] ps :=
  exist C08_SHA2_256 C37_SHA2_256 [] k
example : ∃ ps m m', ps.length = 257 ∧
    MD5.MD5.Collisions (fun o o' => MD5.MD5.toArray o = MD5.MD5.toArray o') Spec.MD5.pad [] ps ∧
    m ≠ m' ∧ MD5.MD5.SameDigest m m' ∧ SHA2.SHA2_256.SameDigest m m' := by
  obtain ⟨ps, hk, hc⟩ := exist (pad := Spec.MD5.pad) C12_MD5 C37_MD5 [] 257
  obtain ⟨m, m', hne, _, h1, h2⟩ := C72_MD5_beside _ SHA2.SHA2_256 _ 32 C08_SHA2_256 C37_SHA2_256 ps hc (by rw [hk]; decide)
  exact ⟨ps, m, m', hk, hc, hne, h2 trivial, h1⟩

end Verif.Props
'''
open('/verif/lean/Verif/Props/Multicollision.lean', 'w').write(o)
