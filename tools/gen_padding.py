"""Props/Padding.lean: C27 and C28 for the classes with marker, zeros and length field."""
o = '''import Verif.Proof.Padding
import Verif.Proof.HAS160
import Verif.Proof.MD4
import Verif.Proof.MD5
import Verif.Proof.RIPEMD
import Verif.Proof.SHA1
import Verif.Proof.SHA2
import Verif.Proof.SM3
import Verif.Proof.TigerGen
import Verif.Proof.Whirlpool
import Verif.Props.Equality

/-!
# C27 (padding) and C28 (collisions), Merkle-Damgård style classes

Generated by tools/gen_padding.py. `GoodPadding`, `CollisionIn` and `CollisionReduces` are defined in
Core/Padding.lean; paddings and compression functions are those of the specifications. The length limit is the one
of the length field.
-/

namespace Verif.Props
open Model Proof.Padding

/-- With `EqExact`: equal digests exhibit a collision. -/
private theorem digest {O H X : Type} {A : API O} {eq : O → O → Bool} {limit : Nat} {f : H → X → H} {iv : H}
    {inputs : List Byte → List X} (h : A.CollisionReduces eq limit f iv inputs) (he : A.EqExact eq)
    (ops ops' : List Op) (hl : Legal (ops ++ [.finalize])) (hl' : Legal (ops' ++ [.finalize]))
    (hne : message ops ≠ message ops') (hm : (message ops).length < limit) (hm' : (message ops').length < limit)
    (o o' : O) (e : A.run A.fresh (ops ++ [.finalize]) = .ok o) (e' : A.run A.fresh (ops' ++ [.finalize]) = .ok o')
    (hd : A.toArray o = A.toArray o') : CollisionIn f iv (inputs (message ops)) (inputs (message ops')) := by
  obtain ⟨x, x', ex, ex', hc⟩ := h ops ops' hl hl' hne hm hm'
  obtain ⟨y, y', ey, ey', hy⟩ := he ops ops' hl hl'
  rw [e] at ex ey
  rw [e'] at ex' ey'
  injection ex with ex; injection ey with ey; injection ex' with ex'; injection ey' with ey'
  subst ex ey ex' ey'
  exact hc (hy.2 hd)

'''
# C27 per padding rule
P = [
 ('SHA1', 64, 8, 'Spec.SHA1.pad', 'BE', '0x80'),
 ('SHA2_256', 64, 8, '(Spec.SHA2.pad 64 8)', 'BE', '0x80'),
 ('SHA2_512', 128, 16, '(Spec.SHA2.pad 128 16)', 'BE', '0x80'),
 ('MD4', 64, 8, 'Spec.MD4.pad', 'LE', '0x80'),
 ('MD5', 64, 8, 'Spec.MD5.pad', 'LE', '0x80'),
 ('RIPEMD', 64, 8, 'Spec.RIPEMD.pad', 'LE', '0x80'),
 ('HAS_160', 64, 8, 'Spec.HAS160.pad', 'LE', '0x80'),
 ('SM3', 64, 8, 'Spec.SM3.pad', 'BE', '0x80'),
 ('Tiger1', 64, 8, '(Spec.Tiger.pad 0x01)', 'LE', '0x01'),
 ('Tiger2', 64, 8, '(Spec.Tiger.pad 0x80)', 'LE', '0x80'),
 ('Whirlpool', 64, 32, 'Spec.Whirlpool.pad', 'BE', '0x80'),
]
for n, B, L, pad, e, pb in P:
    o += f'''theorem C27_{n} : GoodPadding {B} (1 + {L}) {pad} :=
  padded_good (pb := {pb}) (field := fun n => Spec.to{e} {L} (8 * n)) (by decide) (by decide) (fun _ => to{e}_length _ _)
    fun n n' _ _ h => by have := to{e}_inj_mod {L} _ _ h; omega

'''
M = [  # name, api, refinement, eq, proof ns compress_eq with view, spec compress, spec init, pad key, exact
 ('SHA1', 'SHA1.SHA1', 'SHA1.refines', 'SHA1.eq', 'SHA1.ofVec', 'SHA1.compress_eq', 'Spec.SHA1.compress', 'Spec.SHA1.H0', 'SHA1', 1, None),
]
for n, w, r, H0, ex, iv in [('SHA2_224', 32, 'r224', 'H224', 0, 'iv224_ok'), ('SHA2_256', 32, 'r256', 'H256', 1, 'iv256_ok'), ('SHA2_384', 64, 'r384', 'H384', 0, 'iv384_ok'), ('SHA2_512', 64, 'r512', 'H512', 1, 'iv512_ok'), ('SHA2_512_224', 64, 'r512_224', '(H512t Spec.SHA2.name224)', 0, 'iv512_224_ok'), ('SHA2_512_256', 64, 'r512_256', '(H512t Spec.SHA2.name256)', 0, 'iv512_256_ok')]:
    H = 'Spec.SHA2.' + H0 if H0[0] != '(' else '(Spec.SHA2.' + H0[1:]
    M.append((n, 'SHA2.' + n, 'SHA2.' + r, f'SHA2.eq{w}', 'SHA2.ofVec', f'(fun h b => Proof.SHA2.compress_eq Proof.SHA2.cfg{w}_ok (by decide) h b)', f'(Spec.SHA2.compress Spec.SHA2.p{8*w})', H, f'SHA2_{8*w}', ex, 'Proof.SHA2.' + iv))
for n in ['MD4', 'MD5']:
    M.append((n, f'{n}.{n}', f'{n}.refines', f'{n}.eq', 'tup4', f'{n}.compress_eq', f'Spec.{n}.compress', f'Spec.{n}.init', n, 1, None))
for k, v in [('128', 'tup4'), ('160', 'RIPEMD.tup5'), ('256', 'RIPEMD.two4'), ('320', 'RIPEMD.two5')]:
    M.append((f'RIPEMD_{k}', f'RIPEMD.RIPEMD_{k}', f'RIPEMD.r{k}', 'RIPEMD.eq', v, f'RIPEMD.compress{k}_eq', f'Spec.RIPEMD.compress{k}', f'Spec.RIPEMD.init{k}', 'RIPEMD', 1, None))
M.append(('HAS_160', 'HAS160.HAS_160', 'HAS160.refines', 'HAS160.eq', 'HAS160.tup', 'HAS160.compress_eq', 'Spec.HAS160.compress', 'Spec.HAS160.init', 'HAS_160', 1, None))
M.append(('SM3', 'SM3.SM3', 'SM3.refines', 'SM3.eq', 'SM3.two', 'SM3.compress_eq', 'Spec.SM3.compress', 'Spec.SM3.init', 'SM3', 1, None))
for v in '12':
    M.append((f'Tiger{v}_192', f'Tiger.Tiger{v}_192', f'Tiger.r{v}', 'Tiger.eq', 'Tiger.tup3', '(fun h m => by rw [Proof.Tiger.compress_eq, Proof.Tiger.compress_congr])', '(Spec.Tiger.compress Spec.Tiger.S)', 'Spec.Tiger.init', f'Tiger{v}', 1, None))
K = {p[0]: p for p in P}
for n, api, r, eq, view, ceq, sc, si, pk, ex, iv in M:
    _, B, L, pad, e, pb = K[pk]
    limit = '2 ^ 61' if L == 8 else '2 ^ 125'
    if not ceq.startswith('('): ceq = 'Proof.' + ceq
    if '.' in view: view = 'Proof.' + view
    ivr = f', {iv}' if iv else ''
    padapp = pad[1:-1] if pad[0] == '(' else pad
    o += f'''theorem C28_{n} : {api}.CollisionReduces {eq} ({limit}) {sc} {si}
    (fun m => Spec.blocks {B} ({padapp} m)) :=
  reduces Proof.{r} (fun o o' m m' h h' _ _ e => by
    have h : o.chain.h = _ := h
    have h' : o'.chain.h = _ := h'
    have e : o.chain.h = o'.chain.h := beq_iff_eq.1 e
    rw [h, h'] at e
    have e := congrArg {view} e
    rw [mdFold_map (f := {view}) (scomp := {sc}) {ceq},
      mdFold_map (f := {view}) (scomp := {sc}) {ceq}{ivr}] at e
    exact e)
  fun m m' => padded_collision (pb := {pb}) (field := fun n => Spec.to{e} {L} (8 * n)) _ _ (by decide) (by decide)
    (fun _ => to{e}_length _ _) _ (fun n n' hn hn' h => by have := to{e}_inj_mod {L} _ _ h; omega) m m'
'''
    if ex:
        o += f'''theorem C28_{n}_digest (ops ops' : List Op) (hl : Legal (ops ++ [.finalize]))
    (hl' : Legal (ops' ++ [.finalize])) (hne : message ops ≠ message ops') (hm : (message ops).length < {limit})
    (hm' : (message ops').length < {limit}) (o o')
    (e : {api}.run {api}.fresh (ops ++ [.finalize]) = .ok o)
    (e' : {api}.run {api}.fresh (ops' ++ [.finalize]) = .ok o')
    (hd : {api}.toArray o = {api}.toArray o') :
    CollisionIn {sc} {si} (Spec.blocks {B} ({padapp} (message ops)))
      (Spec.blocks {B} ({padapp} (message ops'))) :=
  digest C28_{n} C06_{n}_exact ops ops' hl hl' hne hm hm' o o' e e' hd
'''
    o += '\n'
o += '''/-- Whirlpool: below 2^125 bytes the 128-bit counter of the class is the 256-bit length. -/
theorem C28_Whirlpool : Whirlpool.Whirlpool.CollisionReduces Whirlpool.eq (2 ^ 125) Spec.Whirlpool.compress (fun _ _ => 0)
    (fun m => Spec.blocks 64 (Spec.Whirlpool.pad m)) :=
  reduces Proof.Whirlpool.refines (fun o o' m m' h h' l l' e => by
    have h : o.chain.h = mdFold 64 Whirlpool.compress Whirlpool.iv (Proof.Whirlpool.pad128 m) := h
    have h' : o'.chain.h = mdFold 64 Whirlpool.compress Whirlpool.iv (Proof.Whirlpool.pad128 m') := h'
    have e : o.chain.h = o'.chain.h := beq_iff_eq.1 e
    rw [h, h', Proof.Whirlpool.pad128_eq m l, Proof.Whirlpool.pad128_eq m' l'] at e
    have e := congrArg Proof.Whirlpool.matOf e
    rw [mdFold_map (f := Proof.Whirlpool.matOf) Proof.Whirlpool.compress_eq,
      mdFold_map (f := Proof.Whirlpool.matOf) Proof.Whirlpool.compress_eq, Proof.Whirlpool.matOf_iv] at e
    exact e)
  fun m m' => padded_collision (pb := 0x80) (field := fun n => Spec.toBE 32 (8 * n)) _ _ (by decide) (by decide)
    (fun _ => toBE_length _ _) _ (fun n n' hn hn' h => by have := toBE_inj_mod 32 _ _ h; omega) m m'
theorem C28_Whirlpool_digest (ops ops' : List Op) (hl : Legal (ops ++ [.finalize]))
    (hl' : Legal (ops' ++ [.finalize])) (hne : message ops ≠ message ops') (hm : (message ops).length < 2 ^ 125)
    (hm' : (message ops').length < 2 ^ 125) (o o')
    (e : Whirlpool.Whirlpool.run Whirlpool.Whirlpool.fresh (ops ++ [.finalize]) = .ok o)
    (e' : Whirlpool.Whirlpool.run Whirlpool.Whirlpool.fresh (ops' ++ [.finalize]) = .ok o')
    (hd : Whirlpool.Whirlpool.toArray o = Whirlpool.Whirlpool.toArray o') :
    CollisionIn Spec.Whirlpool.compress (fun _ _ => 0) (Spec.blocks 64 (Spec.Whirlpool.pad (message ops)))
      (Spec.blocks 64 (Spec.Whirlpool.pad (message ops'))) :=
  digest C28_Whirlpool C06_Whirlpool_exact ops ops' hl hl' hne hm hm' o o' e e' hd

/-! Hypotheses are met by real histories, and `CollisionIn` is not trivially true or false: a step that forgets the
block collides, and xor on one-block sequences does not. -/
example : Legal ([.add [1, 2], .add [3]] ++ [.finalize]) ∧ Legal ([.add [9], .reset, .add [1, 2]] ++ [.finalize]) ∧
    message [.add [1, 2], .add [3]] ≠ message [.add [9], .reset, .add [1, 2]] := by decide
example : CollisionIn (fun (h : Nat) (_ : Nat) => h + 1) 0 [5, 6] [7, 6] :=
  ⟨[], 5, [6], [], 7, [6], rfl, rfl, by decide, rfl⟩
example : ¬ CollisionIn (fun (h : Nat) (x : Nat) => 2 * h + x) 0 [0] [1] := by
  rintro ⟨p, b, q, p', b', q', e, e', hn, he⟩
  cases p with
  | nil =>
    cases p' with
    | nil =>
      simp at e e' he hn
      omega
    | cons x p' => simp at e'
  | cons x p => simp at e

end Verif.Props
'''
open('/verif/lean/Verif/Props/Padding.lean', 'w').write(o)
