"""Props/Readout.lean: C04, C05; Props/Equality.lean: C06, class by class."""
import importlib.util, sys
src = open('/verif/tools/gen_streaming.py').read()
ns = {}
exec(src[:src.index('import sys')], ns)
C = ns['C']

# --- C04, C05
o = '''import Verif.Proof.Render
import Verif.Props.Streaming
import Verif.Props.FNV
import Verif.Props.CShake

/-!
# C04 (hexadecimal text) and C05 (integer conversion), class by class

Generated by tools/gen_equality.py. `HexFaithful` and `IntFaithful` are defined in Core/Render.lean,
`hex` in Spec/Hex.lean, `ofBE` in Spec/Bytes.lean.
-/

namespace Verif.Props
open Model

/-- C04: the text has two characters per byte. -/
theorem C04_length (d : List Byte) : (Spec.hex d).length = 2 * d.length := Proof.Render.hex_length d

/-- C04: the text determines the digest. -/
theorem C04_injective (d e : List Byte) (h : Spec.hex d = Spec.hex e) : d = e := Proof.Render.hex_inj h

/-- C04: all characters are decimal digits or lower-case letters up to f. -/
theorem C04_alphabet (d : List Byte) (c : Char) (h : c ∈ Spec.hex d) : c ∈ "0123456789abcdef".toList := by
  simp only [Spec.hex, List.mem_flatMap, List.mem_cons, List.not_mem_nil, or_false] at h
  obtain ⟨b, _, h⟩ := h
  have key : ∀ n : Fin 16, Spec.hexDigit n.val ∈ "0123456789abcdef".toList := by decide
  have hb := b.isLt
  rcases h with h | h
  · rw [h]; exact key ⟨b.toNat / 16, by omega⟩
  · rw [h]; exact key ⟨b.toNat % 16, by omega⟩

/-- C04 fails for an extendable-output object with requested length 0: the constructors accept it, and
`toString` takes `front()` of an empty string. -/
theorem C04_SHAKE_128_zero_fails : (SHA3.SHAKE_128 0).digest [] = .ok [] ∧
    ∃ o, (SHA3.SHAKE_128 0).run (SHA3.SHAKE_128 0).fresh [.finalize] = .ok o ∧
      (SHA3.SHAKE_128 0).toString o = .error .emptyFront := by
  obtain ⟨o, d, e, ed, hd⟩ := C37_SHAKE_128 0 [] (by decide)
  have hd : d = [] := List.length_eq_zero_iff.1 hd
  subst hd
  refine ⟨?_, o, e, ?_⟩
  · unfold API.digest
    rw [List.map_nil, e]
    exact ed
  · simp only [API.toString, ed, bind, Except.bind]
    exact Proof.Render.renderHex_nil

theorem C04_SHAKE_256_zero_fails : (SHA3.SHAKE_256 0).digest [] = .ok [] ∧
    ∃ o, (SHA3.SHAKE_256 0).run (SHA3.SHAKE_256 0).fresh [.finalize] = .ok o ∧
      (SHA3.SHAKE_256 0).toString o = .error .emptyFront := by
  obtain ⟨o, d, e, ed, hd⟩ := C37_SHAKE_256 0 [] (by decide)
  have hd : d = [] := List.length_eq_zero_iff.1 hd
  subst hd
  refine ⟨?_, o, e, ?_⟩
  · unfold API.digest
    rw [List.map_nil, e]
    exact ed
  · simp only [API.toString, ed, bind, Except.bind]
    exact Proof.Render.renderHex_nil

'''
def split(n):
    i = n.find(' ')
    return (n, '') if i < 0 else (n[:i], n[i:])
def args(n):
    b = split(n)[1]
    r = []
    import re
    for m in re.finditer(r'\(([^:]*):', b): r += m.group(1).split()
    return ''.join(' ' + x for x in r)
L = [(n, a, k) for n, a, r, k, m, t in C] + [('FNV32_0', 'FNV.FNV32_0', 4), ('FNV64_0', 'FNV.FNV64_0', 8)]
for n, a, k in L:
    nm, b = split(n)
    if nm.startswith('SHAKE'):
        o += f'theorem C04_{nm}{b} (hd : 0 < d) : {a}.HexFaithful := Proof.Render.hexFaithful (C37_{nm}{args(n)}) hd\n'
    else:
        o += f'theorem C04_{n} : {a}.HexFaithful := Proof.Render.hexFaithful (C37_{nm}{args(n)}) (by decide)\n'
o += '\n'
for n, a, k in L:
    nm, b = split(n)
    o += f'theorem C05_{n} : {a}.IntFaithful := Proof.Render.intFaithful (C37_{nm}{args(n)})\n'
o += '''
/-- C05: a narrower conversion gives the leading bytes of a wider one. -/
theorem C05_narrow (d : List Byte) (k k' : Nat) (h : k ≤ k') (hd : k' ≤ d.length) :
    ∃ (v : BitVec (8 * k)) (v' : BitVec (8 * k')), convertInt k d = .ok v ∧ convertInt k' d = .ok v' ∧
      v.toNat = v'.toNat / 256 ^ (k' - k) := by
  obtain ⟨v, e, hv⟩ := Proof.Render.convertInt_eq k d
  obtain ⟨v', e', hv'⟩ := Proof.Render.convertInt_eq k' d
  refine ⟨v, v', e, e', ?_⟩
  rw [hv, hv']
  have key : ∀ (l m : List Byte), Spec.ofBE (l ++ m) / 256 ^ m.length = Spec.ofBE l := by
    intro l m
    induction m using List.reverseRecOn' with
    | nil => simp
    | append m b ih =>
      rw [← List.append_assoc, ofBE_append_one, List.length_append, List.length_singleton, Nat.pow_succ,
        Nat.mul_comm (256 ^ _) 256, ← Nat.div_div_eq_div_mul]
      have hb := b.isLt
      rw [show (256 * Spec.ofBE (l ++ m) + b.toNat) / 256 = Spec.ofBE (l ++ m) by omega, ih]
  have := key (d.take k) ((d.take k').drop k)
  rw [show d.take k ++ (d.take k').drop k = d.take k' by
    have h2 := List.take_append_drop k (d.take k')
    rwa [List.take_take, Nat.min_eq_left h] at h2] at this
  rw [← this, List.length_drop, List.length_take, Nat.min_eq_left hd]

/-- `bool` also passes the `is_unsigned` check: the conversion says whether the first byte is not zero,
so an object may convert to `false` although its digest is not zero. -/
theorem C05_bool_actual (d : List Byte) : convertBool d = true ↔ ∃ b t, d = b :: t ∧ b ≠ 0 := by
  cases d with
  | nil => simp [convertBool]
  | cons b t => simp [convertBool]

/-! Histories that meet the hypotheses, and what the predicates say of a small digest. -/
example : Legal ([.add [1], .add (List.replicate 130 2), .finalize, .reset, .add [7]] ++ [.finalize]) := by
  decide +kernel
example : renderHex [0x0a, 0xf1] = .ok ['0', 'a', 'f', '1'] := by decide +kernel
example : convertInt 4 [0x12, 0x34, 0x56, 0x78, 0x9a] = .ok 0x12345678#32 := by decide +kernel
example : convertInt 4 [0x12, 0x34] = .ok 0x1234#32 := by decide +kernel
example := C05_narrow [0x12, 0x34, 0x56, 0x78, 0x9a] 2 4 (by decide) (by decide)
example := C04_alphabet [0x0a, 0xf1] 'f' (by decide +kernel)
example := C04_SHAKE_128 5 (by decide)

end Verif.Props
'''
o = o.replace("    induction m using List.reverseRecOn' with\n    | nil => simp\n    | append m b ih =>\n", "    obtain ⟨m, rfl⟩ : ∃ r : List Byte, m = r.reverse := ⟨m.reverse, by simp⟩\n    induction m with\n    | nil => simp\n    | cons b m ih =>\n      rw [List.reverse_cons]\n      generalize m.reverse = m at ih ⊢\n")
open('/verif/lean/Verif/Props/Readout.lean', 'w').write(o)

# --- C06
MD = 'by have h : o.chain.h = _ := h; have h\' : o\'.chain.h = _ := h\'; exact beq_iff_eq.2 (h.trans h\'.symm)'
CH = 'by have h : o.chain = _ := h; have h\' : o\'.chain = _ := h\'; exact beq_iff_eq.2 (by rw [h, h\'])'
ST = 'by exact beq_iff_eq.2 (h.1.2.trans h\'.1.2.symm)'
KC = 'by exact beq_iff_eq.2 (h.1.trans h\'.1.symm)'
EQ = 'by have h : o = _ := h; have h\' : o\' = _ := h\'; exact beq_iff_eq.2 (h.trans h\'.symm)'
def snd(f): return f'by have h := beq_iff_eq.1 h; show {f} o = {f} o\'; unfold {f}; rw [h]'
OUT = 'by have h : o.chain.h = o\'.chain.h := beq_iff_eq.1 h; simp only [OPS]; rw [h]'
BL = 'beq_iff_eq.2 (congrArg (fun s => s.h) (Proof.Equality.relChain h h\' l l\'))'
BX = lambda f: f'beq_iff_eq.2 (congrArg (fun s => s.{f}) (Proof.Equality.relChain h h\' l l\'))'
# name: (eq, F proof, sound simp set, exact proof or None, B, blind proof)
def md(op): return OUT.replace('OPS', op)
E = {}
E['SHA1'] = ('SHA1.eq', MD, 'SHA1.SHA1, mdApi', 'Proof.Equality.vecBE 4 5 20 (by decide) rfl _ _', 64)
for n, w, ex in [('SHA2_224', 32, 0), ('SHA2_256', 32, 1), ('SHA2_384', 64, 0), ('SHA2_512', 64, 1), ('SHA2_512_224', 64, 0), ('SHA2_512_256', 64, 0)]:
    E[n] = (f'SHA2.eq{w}', MD, f'SHA2.{n}, SHA2.api{w}, mdApi', f'vec8 {w//8} {w} _ _' if ex else None, 2 * w)
for n in ['MD4', 'MD5']:
    E[n] = (f'{n}.eq', MD, f'{n}.{n}, mdApi', 'Proof.Equality.vecLE 4 4 16 (by decide) rfl _ _', 64)
for n, k in [('128', 4), ('160', 5), ('256', 8), ('320', 10)]:
    E['RIPEMD_' + n] = ('RIPEMD.eq', MD, f'RIPEMD.RIPEMD_{n}, mdApi', f'Proof.Equality.vecLE 4 {k} {4*k} (by decide) rfl _ _', 64)
E['HAS_160'] = ('HAS160.eq', MD, 'HAS160.HAS_160, mdApi', 'Proof.Equality.vecLE 4 5 20 (by decide) rfl _ _', 64)
E['SM3'] = ('SM3.eq', MD, 'SM3.SM3, mdApi', 'Proof.Equality.vecBE 4 8 32 (by decide) rfl _ _', 64)
for v in '12':
    E[f'Tiger{v}_192'] = ('Tiger.eq', MD, f'Tiger.Tiger{v}_192, Tiger.Tiger, mdApi', 'Proof.Equality.vecLE 8 3 24 (by decide) rfl _ _', 64)
E['Whirlpool'] = ('Whirlpool.eq', MD, 'Whirlpool.Whirlpool, mdApi', 'Proof.Equality.vecBE 8 8 64 (by decide) rfl _ _', 64)
for n, w, ex in [('224', 32, 0), ('256', 32, 1), ('384', 64, 0), ('512', 64, 1)]:
    E['Blake1_' + n] = (f'BLAKE.eq{w}', CH, f'BLAKE.Blake1_{n}, BLAKE.api{w}, blockApi, BLAKE.toArray', f'vec8b {w//8} {w} _ _' if ex else None, 2 * w)
E['Blake2'] = ('BLAKE2.eq2', MD, 'BLAKE2.Blake2, BLAKE2.api, BLAKE2.toArray', 'Proof.Equality.vecLE 8 8 64 (by decide) rfl _ _', 128)
E['Blake2s'] = ('BLAKE2.eq2s', MD, 'BLAKE2.Blake2s, BLAKE2.api, BLAKE2.toArray', 'Proof.Equality.vecLE 4 8 32 (by decide) rfl _ _', 64)
for n in ['FNV32_1', 'FNV32_1a', 'FNV64_1', 'FNV64_1a']:
    E[n] = ('FNV.eq', EQ, None, f'Proof.Equality.wordBE {int(n[3:5])//8} _ _', None)
E['CRC_32'] = ('CRC32.eq', EQ, None, 'Proof.Equality.wordBE 4 _ _', None)
E['MD2'] = ('MD2.eq', CH, 'MD2.MD2, blockApi, MD2.toArray', None, 16)
E['SipHash'] = ('SipHash.eq', ST, 'SipHash.SipHashCD, SipHash.toArray', None, 8)
o = '\n'.join(f'import Verif.Proof.{m}' for m in sorted({c[4] for c in C} | {'Equality', 'KeccakPerm'})) + '''

/-!
# C06 (`operator==`), class by class

Generated by tools/gen_equality.py. `EqSound`, `EqExact` and `EqBlind` are defined in Core/Equality.lean.
`EqExact` holds for the classes whose digest is the whole state.
-/

namespace Verif.Props
open Model

private theorem vec8 (k size : Nat) (hk : 0 < k) (hs : 8 * k = size) (h h' : Vector (BitVec (8 * k)) 8) :
    (h == h') = true ↔ SHA2.toArray k 8 size (fun _ => []) h = SHA2.toArray k 8 size (fun _ => []) h' := by
  unfold SHA2.toArray
  simp only [List.append_nil]
  rw [List.take_of_length_le (by simp), List.take_of_length_le (by simp)]
  exact Proof.Equality.vecBE k 8 size hk hs h h'

private theorem take8 {w : Nat} (h : Vector (BitVec w) 8) : h.toList.take 8 = h.toList :=
  List.take_of_length_le (by simp)

'''
for n, a, r, k, m, t in C:
    nm, b = split(n)
    if nm not in E: continue
    eq, f, sset, ex, B = E[nm]
    field = {'MD2': 'x', 'SipHash': 'state'}.get(nm, 'h')
    if sset is None:
        h2 = 'by rw [beq_iff_eq.1 h]'
    else:
        h2 = f'by have h : o.chain.{field} = o\'.chain.{field} := beq_iff_eq.1 h; simp only [{sset}]; rw [h]'
    fullu = args(n)
    o += f'theorem C06_{n} : {a}.EqSound {eq} :=\n  Proof.Equality.sound (Proof.{r}) (fun o o\' m h h\' => {f}) (fun o o\' h => {h2})\n'
    if ex:
        if ex.startswith('vec8b'):
            w = int(ex.split()[2])
            exs = f'by\n    show _ ↔ BLAKE.toArray {w//8} 8 {w} o = BLAKE.toArray {w//8} 8 {w} o\'\n    unfold BLAKE.toArray\n    rw [take8, take8]\n    exact Proof.Equality.vecBE {w//8} 8 {w} (by decide) rfl _ _'
        elif ex.startswith('vec8'):
            w = int(ex.split()[2])
            exs = f'vec8 {w//8} {w} (by decide) rfl _ _'
        else: exs = ex
        o += f'theorem C06_{nm}_exact{b} : {a}.EqExact {eq} :=\n  Proof.Equality.exact (Proof.{r}) fun o o\' => {exs}\n'
    if B:
        if nm.startswith('Blake2'):
            bl = 'beq_iff_eq.2 (congrArg (fun s => s.h) (Proof.BLAKE2.relChain (by decide) h h\' l l\'))'
        else: bl = BX(field)
        o += f'theorem C06_{nm}_blind{b} : {a}.EqBlind {eq} {B} :=\n  Proof.Equality.blind (Proof.{r}) (by decide) fun o o\' m m\' h h\' l l\' => {bl}\n'
    o += '\n'
o += '''/-! ### Keccak based classes -/

/-- The converse holds too: equal states absorb to equal digests. -/
private theorem keccak (R : Nat) [SHA3.RateOK R] (hR : R % 8 = 0) (P : Byte) (suf : List Bool)
    (hs : Proof.SHA3.IsSuffix P suf) (d : Nat) : (SHA3.Keccak R P d).EqSound SHA3.eq := by
  intro ops ops' hl hl'
  obtain ⟨o, e, f⟩ := Proof.SHA3.run_final R P d ops hl
  obtain ⟨o', e', f'⟩ := Proof.SHA3.run_final R P d ops' hl'
  refine ⟨o, o', e, e', fun hm => ?_, fun h => ?_⟩
  · rw [hm] at f
    exact beq_iff_eq.2 (f.1.trans f'.1.symm)
  · have key := (Proof.SHA3.eq_iff R hR P suf hs d o o' _ _ f f').1 h
    show SHA3.toVector o = SHA3.toVector o'
    rw [Proof.SHA3.absorb_spec R hR P suf hs, Proof.SHA3.absorb_spec R hR P suf hs] at key
    unfold SHA3.toVector
    rw [f.2, f'.2, Proof.SHA3.bitsOf_inj _ _ key]

'''
for n, R, d in [('SHA3_224', 144, 28), ('SHA3_256', 136, 32), ('SHA3_384', 104, 48), ('SHA3_512', 72, 64)]:
    o += f'theorem C06_{n} : SHA3.{n}.EqSound SHA3.eq := keccak {R} rfl 0x06 _ Proof.SHA3.suffix_sha3 {d}\n'
    o += f'theorem C06_{n}_blind : SHA3.{n}.EqBlind SHA3.eq {R} :=\n  Proof.Equality.blind (Proof.SHA3.refines{n[5:]}) (by decide) fun o o\' m m\' h h\' l l\' => {BX("state")}\n\n'
for n, R in [('128', 168), ('256', 136)]:
    o += f'''theorem C06_SHAKE_{n} (d : Nat) : (SHA3.SHAKE_{n} d).EqSound SHA3.eq := keccak {R} rfl 0x1F _ Proof.SHA3.suffix_shake d
theorem C06_SHAKE_{n}_blind (d : Nat) : (SHA3.SHAKE_{n} d).EqBlind SHA3.eq {R} :=
  Proof.Equality.blind (Proof.SHA3.refinesShake{n} d) (by decide) fun o o' m m' h h' l l' => {BX("state")}

/-- C06 fails between objects of one extendable-output class with different requested lengths: whatever the
message, they compare equal if the lengths need the same number of output blocks, but the digests differ. -/
theorem C06_SHAKE_{n}_lengths_fails (d d' : Nat) (hd : (d - 1) / {R} = (d' - 1) / {R}) (hne : d ≠ d')
    (ops ops' : List Op) (hl : Legal (ops ++ [.finalize])) (hl' : Legal (ops' ++ [.finalize]))
    (hm : message ops = message ops') :
    ∃ o o' v v', (SHA3.SHAKE_{n} d).run (SHA3.SHAKE_{n} d).fresh (ops ++ [.finalize]) = .ok o ∧
      (SHA3.SHAKE_{n} d').run (SHA3.SHAKE_{n} d').fresh (ops' ++ [.finalize]) = .ok o' ∧
      SHA3.eq o o' = true ∧ (SHA3.SHAKE_{n} d).toArray o = .ok v ∧ (SHA3.SHAKE_{n} d').toArray o' = .ok v' ∧
      v ≠ v' := by
  obtain ⟨o, e, f⟩ := (Proof.SHA3.refinesShake{n} d).run_finalize ops hl
  obtain ⟨o', e', f'⟩ := (Proof.SHA3.refinesShake{n} d').run_finalize ops' hl'
  refine ⟨o, o', _, _, e, e', ?_, (Proof.SHA3.refinesShake{n} d).out o _ f,
    (Proof.SHA3.refinesShake{n} d').out o' _ f', ?_⟩
  · have g : Proof.SHA3.Final {R} 0x1F d o (message ops) := f
    have g' : Proof.SHA3.Final {R} 0x1F d' o' (message ops') := f'
    exact beq_iff_eq.2 (by rw [g.1, g'.1, hd, hm])
  · intro h
    have := congrArg List.length h
    rw [Proof.SHA3.shake{n}_length, Proof.SHA3.shake{n}_length] at this
    exact hne this

example : (16 - 1) / {R} = (32 - 1) / {R} ∧ 16 ≠ 32 := by decide

'''
o += '''/-- Objects of any class that satisfies `EqSound` and compare equal have the same text, integer value and
`std::hash`. -/
theorem C06_readouts {O : Type} (A : API O) (o o' : O) (h : A.toArray o = A.toArray o') :
    A.toString o = A.toString o' ∧ A.stdHash o = A.stdHash o' ∧ ∀ k, A.toUInt k o = A.toUInt k o' := by
  simp only [API.toString, API.stdHash, API.toUInt, h, and_self, implies_true]

/-! Histories and pieces that meet the hypotheses. -/
example : Legal ([.add [1, 2], .add [3]] ++ [.finalize]) ∧ Legal ([.add [9], .reset, .add [1, 2, 3]] ++ [.finalize]) ∧
    message [.add [1, 2], .add [3]] = message [.add [9], .reset, .add [1, 2, 3]] := by decide
example : ([1, 2, 3] : List Byte).length < 64 ∧ ([] : List Byte).length < 64 := by decide
example := C06_SHAKE_128_lengths_fails 16 32 (by decide) (by decide) [.add [1, 2], .add [3]] [.add [9], .reset, .add [1, 2, 3]]
  (by decide) (by decide) (by decide)
example := C06_SHAKE_256_lengths_fails 16 32 (by decide) (by decide) [.add [1, 2], .add [3]] [.add [9], .reset, .add [1, 2, 3]]
  (by decide) (by decide) (by decide)

end Verif.Props
'''
open('/verif/lean/Verif/Props/Equality.lean', 'w').write(o)

# --- C43
o = '''import Verif.Props.Equality

/-!
# C43 (objects as keys of unordered containers), class by class

Generated by tools/gen_equality.py. `KeyLike` and `KeyLikeFinal` are defined in Core/Equality.lean.
-/

namespace Verif.Props
open Model

/-- an `operator==` that compares one member, on which the digest depends -/
private theorem keyLike {O β : Type} [BEq β] [LawfulBEq β] (A : API O) (eq : O → O → Bool) (f : O → β)
    (he : ∀ o o', eq o o' = (f o == f o')) (hd : ∀ o o', f o = f o' → A.toArray o = A.toArray o') : A.KeyLike eq where
  refl o := by rw [he]; exact beq_self_eq_true _
  symm o o' h := by rw [he] at h ⊢; exact beq_iff_eq.2 (beq_iff_eq.1 h).symm
  trans o o' o'' h h' := by rw [he] at h h' ⊢; exact beq_iff_eq.2 ((beq_iff_eq.1 h).trans (beq_iff_eq.1 h'))
  digest o o' h := by rw [he] at h; exact hd o o' (beq_iff_eq.1 h)
  hash o o' h := by
    rw [he] at h
    simp only [API.stdHash, API.toUInt, hd o o' (beq_iff_eq.1 h)]

'''
E['FNV32_0'] = E['FNV64_0'] = E['FNV32_1']
for n, a, r, k, m, t in C + [('FNV32_0', 'FNV.FNV32_0', '', 4, '', ''), ('FNV64_0', 'FNV.FNV64_0', '', 8, '', '')]:
    nm, b = split(n)
    if nm not in E or nm.startswith('Tiger'): continue
    eq, f, sset, ex, B = E[nm]
    field = {'MD2': 'x', 'SipHash': 'state'}.get(nm, 'h')
    if sset is None:
        o += f'theorem C43_{n} : {a}.KeyLike {eq} :=\n  keyLike _ _ id (fun _ _ => rfl) fun o o\' h => by rw [show o = o\' from h]\n'
    else:
        o += f'theorem C43_{n} : {a}.KeyLike {eq} :=\n  keyLike _ _ (fun o => o.chain.{field}) (fun _ _ => rfl) fun o o\' h => by simp only [{sset}]; rw [h]\n'
o += '''/-- all six Tiger classes -/
theorem C43_Tiger (V D : Nat) : (Tiger.Tiger V D).KeyLike Tiger.eq :=
  keyLike _ _ (fun o => o.chain.h) (fun _ _ => rfl) fun o o' h => by simp only [Tiger.Tiger, mdApi]; rw [h]

/-! ### Keccak based classes -/

private theorem keyLikeFinal {O β : Type} [BEq β] [LawfulBEq β] (A : API O) (eq : O → O → Bool) (f : O → β)
    (he : ∀ o o', eq o o' = (f o == f o')) (hs : A.EqSound eq) : A.KeyLikeFinal eq where
  refl o := by rw [he]; exact beq_self_eq_true _
  symm o o' h := by rw [he] at h ⊢; exact beq_iff_eq.2 (beq_iff_eq.1 h).symm
  trans o o' o'' h h' := by rw [he] at h h' ⊢; exact beq_iff_eq.2 ((beq_iff_eq.1 h).trans (beq_iff_eq.1 h'))
  hash ops ops' o o' hl hl' e e' h := by
    obtain ⟨p, p', e1, e1', _, hd⟩ := hs ops ops' hl hl'
    rw [e] at e1
    rw [e'] at e1'
    obtain rfl := Except.ok.inj e1
    obtain rfl := Except.ok.inj e1'
    exact ⟨hd h, by simp only [API.stdHash, API.toUInt, hd h]⟩

'''
for n in ['SHA3_224', 'SHA3_256', 'SHA3_384', 'SHA3_512']:
    o += f'theorem C43_{n}_partial : SHA3.{n}.KeyLikeFinal SHA3.eq :=\n  keyLikeFinal _ _ (fun o => o.chain.state) (fun _ _ => rfl) C06_{n}\n'
for n in ['SHAKE_128', 'SHAKE_256']:
    o += f'theorem C43_{n}_partial (d : Nat) : (SHA3.{n} d).KeyLikeFinal SHA3.eq :=\n  keyLikeFinal _ _ (fun o => o.chain.state) (fun _ _ => rfl) (C06_{n} d)\n'
o += open('/verif/tools/keys_tail.txt').read()
open('/verif/lean/Verif/Props/Keys.lean', 'w').write(o)
