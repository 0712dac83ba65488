#!/usr/bin/env python3
"""Writes lean/Verif/Props/CLI.lean."""
OPTS = [  # option, enumerator, class, computes theorem, spec, domain
 ('-blake2','Blake2','BLAKE2.Blake2','C19_Blake2','Spec.BLAKE2.blake2b {c}'),
 ('-blake2s','Blake2s','BLAKE2.Blake2s','C19_Blake2s','Spec.BLAKE2.blake2s {c}'),
 ('-crc-32','Crc_32','CRC32.CRC_32','C24_CRC_32','toBE 4 (Spec.CRC32.crc32 {c}).toNat'),
 ('-fnv32_1a','Fnv32_1a','FNV.FNV32_1a','C25_FNV32_1a','toBE 4 (Spec.FNV.fnv1a Spec.FNV.prime32 Spec.FNV.basis32 {c}).toNat'),
 ('-fnv64_1a','Fnv64_1a','FNV.FNV64_1a','C25_FNV64_1a','toBE 8 (Spec.FNV.fnv1a Spec.FNV.prime64 Spec.FNV.basis64 {c}).toNat'),
 ('-has160','Has160','HAS160.HAS_160','C14_HAS_160','Spec.HAS160.has160 {c}'),
 ('-md2','Md2','MD2.MD2','C10_MD2','Spec.MD2.md2 {c}'),
 ('-md4','Md4','MD4.MD4','C11_MD4','Spec.MD4.md4 {c}'),
 ('-md5','Md5','MD5.MD5','C12_MD5','Spec.MD5.md5 {c}'),
]
OPTS += [('-ripemd-%s'%x,'Ripemd_%s'%x,'RIPEMD.RIPEMD_%s'%x,'C13_RIPEMD_%s'%x,'Spec.RIPEMD.ripemd%s {c}'%x) for x in '128 160 256 320'.split()]
OPTS += [('-siphash','Siphash','SipHash.SipHash (Vector.replicate 16 0)','C23_SipHash 2 4 (Vector.replicate 16 0)','toBE 8 (Spec.SipHash.siphash 2 4 (List.replicate 16 0) {c}).toNat')]
OPTS += [('-sha1','Sha1','SHA1.SHA1','C07_SHA1','Spec.SHA1.sha1 {c}')]
OPTS += [('-sha2-%s'%x.replace('_','-'),'Sha2_%s'%x,'SHA2.SHA2_%s'%x,('C08_' if x in ('224','256') else 'C09_')+'SHA2_%s'%x,'Spec.SHA2.sha%s {c}'%x) for x in '224 256 384 512 512_224 512_256'.split()]
OPTS += [('-sha3-%s'%x,'Sha3_%s'%x,'SHA3.SHA3_%s'%x,'C20_SHA3_%s'%x,'Spec.Keccak.sha3_%s {c}'%x) for x in '224 256 384 512'.split()]
OPTS += [('-sm3','Sm3','SM3.SM3','C15_SM3','Spec.SM3.sm3 {c}'),
 ('-tiger1-192','Tiger1_192','Tiger.Tiger1_192','C16_Tiger1_192','Spec.Tiger.tiger {c}'),
 ('-tiger2-192','Tiger2_192','Tiger.Tiger2_192','C16_Tiger2_192','Spec.Tiger.tiger2 {c}')]

def c04(cls):
    n = cls.split('.')[-1]
    if cls.startswith('SipHash'): return 'C04_SipHash 2 4 (Vector.replicate 16 0)'
    return 'C04_'+n
def c01(cls):
    return c04(cls).replace('C04','C01')

HEAD = '''import Verif.Proof.CLI
import Verif.Props.Readout
import Verif.Props.CShakeReadout
import Verif.Props.MD
import Verif.Props.SHA2
import Verif.Props.SHA3
import Verif.Props.Tiger
import Verif.Props.Whirlpool
import Verif.Props.BLAKE
import Verif.Props.BLAKE2
import Verif.Props.SipHash
import Verif.Props.CRC32

/-!
# C35 and C36: the command-line tool

Generated by tools/gen_cli.py. `main nb w args` (Model/CLI.lean) is a run of the program with the arguments
`args`, in a world `w` of files (Core/World.lean). `(w.source file).delivered` are the bytes that can be
read from the file called `file`, or from the standard input if `file` is "-". `line digest file`
(Spec/CLI.lean) is the digest in hexadecimal, two spaces, the file name and a line feed.
-/

namespace Verif.Props
open Model Model.CLI Proof.CLI Spec Spec.CLI
open Spec.SP800185 (ExactLog)

variable (nb : Nat → Nat) (w : World) (prog file : List Byte)

'''

def main():
    o = HEAD
    o += '/-! ### C36: each option prints the digest its name says -/\n\n'
    for opt,en,cls,thm,spec in OPTS:
        nm = opt[1:].replace('-','_')
        c = '(w.source file).delivered'
        o += f'''theorem C36_{nm} : CLI.main nb w [prog, ascii "{opt}", file] =
    .ok ⟨line ({spec.format(c=c)}) file, 0⟩ :=
  main_plain nb w prog _ file _ .{en} (by decide +kernel) (fun _ => rfl) (print_computes ({thm}) ({c04(cls)}) w file trivial)

'''
    o += '''/-- Whirlpool, for files shorter than 2^125 bytes -/
theorem C36_whirlpool (h : (w.source file).delivered.length < 2 ^ 125) :
    CLI.main nb w [prog, ascii "-whirlpool", file] =
      .ok ⟨line (Spec.Whirlpool.whirlpool (w.source file).delivered) file, 0⟩ :=
  main_plain nb w prog _ file _ .Whirlpool (by decide +kernel) (fun _ => rfl) (print_computes C17_Whirlpool C04_Whirlpool w file h)

/-! SHAKE: the length is given in decimal; what follows the digits is ignored. -/

'''
    for x,R in (('128','168'),('256','136')):
        o += f'''theorem C36_shake_{x} (d : Nat) (h0 : 0 < d) (hd : d < 2 ^ 31) (rest : List Byte)
    (hr : ∀ b, rest.head? = some b → isDigit b = false) :
    CLI.main nb w [prog, ascii "-shake-{x}", decimal d ++ rest, file] =
      .ok ⟨line (Keccak.shake{x} (w.source file).delivered d) file, 0⟩ := by
  have hp := print_computes (C20_SHAKE_{x} d) (C04_SHAKE_{x} d h0) w file trivial
  have hg : getHash (ascii "-shake-{x}") = .Shake_{x} := by decide +kernel
  unfold CLI.main
  simp only [hg, runHash, CLI.shake, stoi_decimal d hd rest hr, bind, Except.bind]
  have hc : SHA3.construct {R} 0x1F (d : Int) = .ok (SHA3.SHAKE_{x} d) := by
    unfold SHA3.construct; rw [if_neg (by omega)]; rfl
  simp only [hc, hp, pure, Except.pure]

'''
    o += '''/-! TupleHash: the tuple has one element, the bytes of the file. -/

'''
    for x,R in (('128','168'),('256','136')):
        o += f'''theorem C36_tuple_hash_{x} (hnb : ExactLog nb) (d : Nat) (h0 : 0 < d) (hd : d < 2 ^ 28) (custom : List Byte)
    (hc : custom.length < 2 ^ 53 - 256) (hf : (w.source file).delivered.length < 2 ^ 53 - 256) :
    CLI.main nb w [prog, ascii "-tuple-hash-{x}", decimal d, custom, file] =
      .ok ⟨line (SP800185.tupleHash{x} [(w.source file).delivered] d custom) file, 0⟩ := by
  obtain ⟨o, o', e, e', q⟩ := C22_TupleHash_{x}_partial nb hnb custom hc d hd [(w.source file).delivered]
    (fun s hs => by simp at hs; subst hs; exact hf)
  have hne : SP800185.tupleHash{x} [(w.source file).delivered] d custom ≠ [] := by
    obtain ⟨p, p', z, f, f', qz, hz⟩ := C37_TupleHash_short nb hnb {R} rfl custom hc d hd [(w.source file).delivered]
      (fun s hs => by simp at hs; subst hs; exact hf)
    rw [e] at f
    injection f with f
    subst f
    rw [e'] at f'
    injection f' with f'
    subst f'
    rw [q] at qz
    injection qz with qz
    rw [qz]
    intro h
    rw [h] at hz
    simp at hz
    omega
  have ht := C04_TupleHash o' _ q
  rw [if_neg hne] at ht
  have hp := print_tuple nb o o' w file _ e' ht
  have hg : getHash (ascii "-tuple-hash-{x}") = .Tuple_hash_{x} := by decide +kernel
  have hs := stoi_decimal d (by omega) [] (by simp)
  rw [List.append_nil] at hs
  unfold CLI.main
  simp only [hg, runHash, CLI.tupleHash, hs, bind, Except.bind]
  simp only [e, hp, pure, Except.pure]

'''
    o += '''/-! cSHAKE: the usage text calls the argument after the length a customization string, but it is used as the
function name, with an empty customization string. -/

'''
    for x,R in (('128','168'),('256','136')):
        o += f'''theorem C36_cshake_{x}_actual (hnb : ExactLog nb) (d : Nat) (h0 : 0 < d) (hd : d < 2 ^ 31) (text : List Byte)
    (hc : text.length < 2 ^ 53 - 256) :
    CLI.main nb w [prog, ascii "-cshake-{x}", decimal d, text, file] =
      .ok ⟨line (SP800185.cshake{x} (w.source file).delivered d text []) file, 0⟩ := by
  have hl : Legal ([Op.add []] ++ [.finalize]) := by decide
  obtain ⟨o, _, e, -, -⟩ := C21_CSHAKE_{x}_partial nb hnb text [] hc (by simp) d [.add []] hl
    (noReset_adds [[]])
  have key : ∀ ps : List (List Byte), (∀ p ∈ ps, p.length < 2 ^ 64) →
      ∃ o', CShake.run o (ps.map .add ++ [.finalize]) = .ok o' ∧
        CShake.toVector o' = .ok (SP800185.cshake{x} ps.flatten d text []) := by
    intro ps hps
    obtain ⟨o1, o', e1, e', q⟩ := C21_CSHAKE_{x}_partial nb hnb text [] hc (by simp) d (ps.map .add)
      (Refines.legal_adds ps hps) (noReset_adds ps)
    rw [e] at e1
    injection e1 with e1
    subst e1
    rw [Refines.message_adds] at q
    exact ⟨o', e', q⟩
  have hlen : ∀ m, m = (w.source file).delivered → SP800185.cshake{x} m d text [] ≠ [] := by
    intro m hm
    obtain ⟨ps, h1, h2, -⟩ := loop_pieces w file
    have h2 : ∀ p ∈ ps, p.length < 2 ^ 64 := fun p hp => Nat.lt_of_le_of_lt (h2 p hp) bufSize_lt
    obtain ⟨o', e', q⟩ := key ps h2
    obtain ⟨o1, o2, z, f, f', qz, hz⟩ := C37_CSHAKE_{x}_partial nb hnb text [] hc (by simp) d (ps.map .add)
      (Refines.legal_adds ps h2)
    rw [e] at f
    injection f with f
    subst f
    rw [e'] at f'
    injection f' with f'
    subst f'
    rw [q] at qz
    injection qz with qz
    rw [hm, ← h1, qz]
    intro h
    rw [h] at hz
    simp at hz
    omega
  have hp := print_cshake o w file (SP800185.cshake{x} (w.source file).delivered d text []) (hlen _ rfl)
    (fun ps h1 h2 => by rw [← h1]; exact key ps h2)
    (fun o' h => by rw [C04_CSHAKE o' _ h, if_neg (hlen _ rfl)])
  have hg : getHash (ascii "-cshake-{x}") = .Cshake_{x} := by decide +kernel
  have hs := stoi_decimal d hd [] (by simp)
  rw [List.append_nil] at hs
  unfold CLI.main
  simp only [hg, runHash, CLI.cshake, hs, bind, Except.bind]
  simp only [e, hp, pure, Except.pure]

'''
    o += '/-! ### C35: reading in pieces of 1 MiB gives what hashing the whole file at once gives -/\n\n' + c35()
    t = open('/verif/tools/cli_tail.txt').read()
    bl = ''
    for x in '224 256 384 512'.split():
        n, m = (64, 56) if x in ('224','256') else (128, 112)
        bl += f'''theorem C36_blake1_{x}_partial (h : (w.source file).delivered.length % {n} < {m}) :
    CLI.main nb w [prog, ascii "-blake1-{x}", file] =
      .ok ⟨line (Spec.BLAKE.blake{x} (w.source file).delivered) file, 0⟩ :=
  main_plain nb w prog _ file _ .Blake1_{x} (by decide +kernel) (fun _ => rfl)
    (print_computes C18_Blake1_{x}_partial C04_Blake1_{x} w file h)

'''
    t = t.replace('@@BLAKE@@', bl)
    import re
    src = open('/verif/lean/Verif/Model/CLI.lean').read()
    names = re.findall(r'"(-[^"]*)"', re.search(r'def names.*?\]', src, re.S).group(0))
    enum = re.findall(r'\.(\w+)', re.search(r'def enumerators.*?\]', src, re.S).group(0).split(':=')[1])
    t = t.replace('@@RFLS@@', ' | '.join(['rfl']*len(names)))
    cnt = same = ''
    for n, e in zip(names, enum):
        k = 'plain_none _ w prog _ rest (by simpa [argumentCount] using hr)'
        v = f'key (C35_{n[1:].replace("-","_")} nb w prog file hl) (C35_{n[1:].replace("-","_")} nb w\' prog file hl\')'
        if n.startswith('-shake'): k = 'shake_none _ w prog _ rest (by simpa [argumentCount] using hr)'
        if n.startswith('-cshake'): k = 'cshake_none nb _ w prog _ rest (by simpa [argumentCount] using hr)'
        if n.startswith('-tuple'): k = 'tuple_none nb _ w prog _ rest (by simpa [argumentCount] using hr)'
        if 'shake' in n or 'tuple' in n:
            v = f'(ha "{n}" (by decide) (by simp [argumentCount])).trans (ha\' "{n}" (by decide) (by simp [argumentCount])).symm'
        if n in ('-tiger1-128','-tiger1-160','-tiger2-128','-tiger2-160'):
            i = ['.1','.2.1','.2.2.1','.2.2.2'][['-tiger1-128','-tiger1-160','-tiger2-128','-tiger2-160'].index(n)]
            v = f'tig{i}.trans tig\'{i}.symm'
        cnt += f'  · exact main_none nb w prog _ rest .{e} (by decide +kernel) ({k})\n'
        same += f'  · exact {v}\n'
    t = t.replace('@@COUNT@@', cnt).replace('@@SAME@@', same)
    o += t
    open('/verif/lean/Verif/Props/CLI.lean','w').write(o)

def c35():
    o = ''
    bl = [('-blake1-%s'%x,'Blake1_%s'%x,'BLAKE.Blake1_%s'%x,None,None) for x in '224 256 384 512'.split()]
    wp = [('-whirlpool','Whirlpool','Whirlpool.Whirlpool',None,None)]
    for opt,en,cls,_,_ in bl+OPTS+wp:
        nm = opt[1:].replace('-','_')
        o += f'''theorem C35_{nm} (h : (w.source file).delivered.length < 2 ^ 64) : ∃ d, ({cls}).digest [(w.source file).delivered] = .ok d ∧
    CLI.main nb w [prog, ascii "{opt}", file] = .ok ⟨line d file, 0⟩ := by
  obtain ⟨d, e, hp⟩ := print_whole ({c01(cls)}) ({c04(cls)}) w file h
  exact ⟨d, e, main_plain nb w prog _ file _ .{en} (by decide +kernel) (fun _ => rfl) hp⟩

'''
    return o
main()
