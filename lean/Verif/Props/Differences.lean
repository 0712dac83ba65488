import Verif.Proof.Differences
import Verif.Proof.FNV
import Verif.Proof.CRC32Order
import Verif.Props.CShakeReadout

/-!
# C56: differences that no later input can hide

The statements speak of `==`, because equal objects have equal digests but not the other way round.
-/

namespace Verif.API

variable {O : Type} (A : API O) (eq : O → O → Bool) (B : Nat)

/-- Take two histories whose messages `p` and `p'` are whole numbers of blocks, and two histories, finalised, with the
messages `p ++ s` and `p' ++ s`. The finalised objects compare equal exactly when the first two compared equal already:
whatever `s` is, it neither removes a difference nor makes one. -/
def SuffixNeutral : Prop :=
  ∀ pre pre' ops ops', Legal (pre ++ [.finalize]) → Legal (pre' ++ [.finalize]) → Legal (ops ++ [.finalize]) →
    Legal (ops' ++ [.finalize]) → B ∣ (message pre).length → B ∣ (message pre').length →
    ∀ s, message ops = message pre ++ s → message ops' = message pre' ++ s →
      ∃ p p' o o', A.run A.fresh pre = .ok p ∧ A.run A.fresh pre' = .ok p' ∧
        A.run A.fresh (ops ++ [.finalize]) = .ok o ∧ A.run A.fresh (ops' ++ [.finalize]) = .ok o' ∧
        eq o o' = eq p p'

/-- Finalised objects whose messages differ in one block only never compare equal. -/
def OneBlockSeen : Prop :=
  ∀ ops ops', Legal (ops ++ [.finalize]) → Legal (ops' ++ [.finalize]) →
    ∀ p b b' s : List Byte, B ∣ p.length → b.length ≤ B → b.length = b'.length → b ≠ b' →
      message ops = p ++ b ++ s → message ops' = p ++ b' ++ s →
      ∃ o o', A.run A.fresh (ops ++ [.finalize]) = .ok o ∧ A.run A.fresh (ops' ++ [.finalize]) = .ok o' ∧
        eq o o' = false

/-- Finalised objects whose messages are equal up to a block boundary, and both end before the next one, never compare
equal unless the messages are equal. For `p = []`: messages shorter than one block. -/
def LastBlockSeen : Prop :=
  ∀ ops ops', Legal (ops ++ [.finalize]) → Legal (ops' ++ [.finalize]) →
    ∀ p a a' : List Byte, B ∣ p.length → a.length < B → a'.length < B → a ≠ a' →
      message ops = p ++ a → message ops' = p ++ a' →
      ∃ o o', A.run A.fresh (ops ++ [.finalize]) = .ok o ∧ A.run A.fresh (ops' ++ [.finalize]) = .ok o' ∧
        eq o o' = false

end Verif.API

namespace Verif.Props
open Model Spec
open Spec.Keccak (bits)

private theorem dvd8 {R : Nat} {p : List Byte} (h : R ∣ p.length) : 8 * R ∣ (bits p).length := by
  rw [Proof.SHA3.bits_length]; exact Nat.mul_dvd_mul_left 8 h

private theorem suffix (R : Nat) [hR : SHA3.RateOK R] (h8 : R % 8 = 0) (P : Byte) (suf : List Bool)
    (hs : Proof.SHA3.IsSuffix P suf) (d : Nat) : (SHA3.Keccak R P d).SuffixNeutral SHA3.eq R := by
  intro pre pre' ops ops' l1 l2 l3 l4 d1 d2 s e1 e2
  obtain ⟨p, ep, rp⟩ := Proof.Differences.run_open (Proof.SHA3.refines R h8 P suf hs d) pre l1
  obtain ⟨p', ep', rp'⟩ := Proof.Differences.run_open (Proof.SHA3.refines R h8 P suf hs d) pre' l2
  obtain ⟨o, e, f⟩ := Proof.SHA3.run_final R P d ops l3
  obtain ⟨o', e', f'⟩ := Proof.SHA3.run_final R P d ops' l4
  refine ⟨p, p', o, o', ep, ep', e, e', Bool.eq_iff_iff.2 ?_⟩
  have hp := hR.pos
  have hle := hR.le
  rw [Proof.SHA3.eq_iff R h8 P suf hs d o o' _ _ f f', e1, e2, Proof.SHA3.bits_append, Proof.SHA3.bits_append,
    List.append_assoc, List.append_assoc,
    Proof.Differences.suffix_iff (8 * R) (by omega) (by omega) _ _ _ (dvd8 d1) (dvd8 d2)]
  have c : p.chain = Proof.SHA3.den R (alignedPart R (message pre)) := rp.1
  have c' : p'.chain = Proof.SHA3.den R (alignedPart R (message pre')) := rp'.1
  rw [Proof.Differences.aligned_self R _ d1] at c
  rw [Proof.Differences.aligned_self R _ d2] at c'
  unfold SHA3.eq
  rw [beq_iff_eq, c, c']
  show _ ↔ Proof.SHA3.absorbed R (message pre) = Proof.SHA3.absorbed R (message pre')
  have b : ∀ m, Sponge.absorbBlocks (8 * R) (bits m) = Proof.SHA3.bitsOf (Proof.SHA3.absorbed R m) :=
    fun m => (Proof.SHA3.absorbed_bits R h8 m).symm
  rw [b, b]
  exact ⟨Proof.SHA3.bitsOf_inj _ _, fun h => by rw [h]⟩

private theorem oneBlock (R : Nat) [hR : SHA3.RateOK R] (h8 : R % 8 = 0) (P : Byte) (suf : List Bool)
    (hs : Proof.SHA3.IsSuffix P suf) (d : Nat) : (SHA3.Keccak R P d).OneBlockSeen SHA3.eq R := by
  intro ops ops' l1 l2 p b b' s hp hb hl hne e1 e2
  obtain ⟨o, e, f⟩ := Proof.SHA3.run_final R P d ops l1
  obtain ⟨o', e', f'⟩ := Proof.SHA3.run_final R P d ops' l2
  refine ⟨o, o', e, e', Bool.eq_false_iff.2 fun h => hne ?_⟩
  have hpos := hR.pos
  have hle := hR.le
  have h := (Proof.SHA3.eq_iff R h8 P suf hs d o o' _ _ f f').1 h
  rw [e1, e2] at h
  simp only [Proof.SHA3.bits_append] at h
  rw [List.append_assoc _ (bits s), List.append_assoc _ (bits s)] at h
  exact Proof.Sponge.bits_inj _ _ (Proof.Differences.one_block (8 * R) (by omega) (by omega) _ _ _ _ (dvd8 hp)
    (by rw [Proof.SHA3.bits_length]; omega) (by rw [Proof.SHA3.bits_length, Proof.SHA3.bits_length, hl]) h)

private theorem lastBlock (R : Nat) [hR : SHA3.RateOK R] (h8 : R % 8 = 0) (P : Byte) (suf : List Bool)
    (hs : Proof.SHA3.IsSuffix P suf) (hsl : suf.length ≤ 6) (d : Nat) : (SHA3.Keccak R P d).LastBlockSeen SHA3.eq R := by
  intro ops ops' l1 l2 p a a' hp ha ha' hne e1 e2
  obtain ⟨o, e, f⟩ := Proof.SHA3.run_final R P d ops l1
  obtain ⟨o', e', f'⟩ := Proof.SHA3.run_final R P d ops' l2
  refine ⟨o, o', e, e', Bool.eq_false_iff.2 fun h => hne ?_⟩
  have hpos := hR.pos
  have hle := hR.le
  have h := (Proof.SHA3.eq_iff R h8 P suf hs d o o' _ _ f f').1 h
  rw [e1, e2, Proof.SHA3.bits_append, Proof.SHA3.bits_append, List.append_assoc, List.append_assoc] at h
  exact Proof.Sponge.bits_inj _ _ (List.append_cancel_right
    (Proof.Differences.last_block (8 * R) (by omega) (by omega) _ _ _ (dvd8 hp)
      (by rw [List.length_append, Proof.SHA3.bits_length]; omega)
      (by rw [List.length_append, Proof.SHA3.bits_length]; omega) h))

theorem C56_SHA3_224 : SHA3.SHA3_224.SuffixNeutral SHA3.eq 144 := suffix 144 rfl 0x06 _ Proof.SHA3.suffix_sha3 28
theorem C56_SHA3_224_one_block : SHA3.SHA3_224.OneBlockSeen SHA3.eq 144 := oneBlock 144 rfl 0x06 _ Proof.SHA3.suffix_sha3 28
theorem C56_SHA3_224_last_block : SHA3.SHA3_224.LastBlockSeen SHA3.eq 144 :=
  lastBlock 144 rfl 0x06 _ Proof.SHA3.suffix_sha3 (by decide) 28
theorem C56_SHA3_256 : SHA3.SHA3_256.SuffixNeutral SHA3.eq 136 := suffix 136 rfl 0x06 _ Proof.SHA3.suffix_sha3 32
theorem C56_SHA3_256_one_block : SHA3.SHA3_256.OneBlockSeen SHA3.eq 136 := oneBlock 136 rfl 0x06 _ Proof.SHA3.suffix_sha3 32
theorem C56_SHA3_256_last_block : SHA3.SHA3_256.LastBlockSeen SHA3.eq 136 :=
  lastBlock 136 rfl 0x06 _ Proof.SHA3.suffix_sha3 (by decide) 32
theorem C56_SHA3_384 : SHA3.SHA3_384.SuffixNeutral SHA3.eq 104 := suffix 104 rfl 0x06 _ Proof.SHA3.suffix_sha3 48
theorem C56_SHA3_384_one_block : SHA3.SHA3_384.OneBlockSeen SHA3.eq 104 := oneBlock 104 rfl 0x06 _ Proof.SHA3.suffix_sha3 48
theorem C56_SHA3_384_last_block : SHA3.SHA3_384.LastBlockSeen SHA3.eq 104 :=
  lastBlock 104 rfl 0x06 _ Proof.SHA3.suffix_sha3 (by decide) 48
theorem C56_SHA3_512 : SHA3.SHA3_512.SuffixNeutral SHA3.eq 72 := suffix 72 rfl 0x06 _ Proof.SHA3.suffix_sha3 64
theorem C56_SHA3_512_one_block : SHA3.SHA3_512.OneBlockSeen SHA3.eq 72 := oneBlock 72 rfl 0x06 _ Proof.SHA3.suffix_sha3 64
theorem C56_SHA3_512_last_block : SHA3.SHA3_512.LastBlockSeen SHA3.eq 72 :=
  lastBlock 72 rfl 0x06 _ Proof.SHA3.suffix_sha3 (by decide) 64
theorem C56_SHAKE_128 (d : Nat) : (SHA3.SHAKE_128 d).SuffixNeutral SHA3.eq 168 := suffix 168 rfl 0x1F _ Proof.SHA3.suffix_shake d
theorem C56_SHAKE_128_one_block (d : Nat) : (SHA3.SHAKE_128 d).OneBlockSeen SHA3.eq 168 := oneBlock 168 rfl 0x1F _ Proof.SHA3.suffix_shake d
theorem C56_SHAKE_128_last_block (d : Nat) : (SHA3.SHAKE_128 d).LastBlockSeen SHA3.eq 168 :=
  lastBlock 168 rfl 0x1F _ Proof.SHA3.suffix_shake (by decide) d
theorem C56_SHAKE_256 (d : Nat) : (SHA3.SHAKE_256 d).SuffixNeutral SHA3.eq 136 := suffix 136 rfl 0x1F _ Proof.SHA3.suffix_shake d
theorem C56_SHAKE_256_one_block (d : Nat) : (SHA3.SHAKE_256 d).OneBlockSeen SHA3.eq 136 := oneBlock 136 rfl 0x1F _ Proof.SHA3.suffix_shake d
theorem C56_SHAKE_256_last_block (d : Nat) : (SHA3.SHAKE_256 d).LastBlockSeen SHA3.eq 136 :=
  lastBlock 136 rfl 0x1F _ Proof.SHA3.suffix_shake (by decide) d

/-- C56: objects of `SipHash<C, D>` with any two keys, after messages `p` and `p'` of the same number of whole words:
appending the same bytes and finalising neither removes a difference nor makes one. -/
theorem C56_SipHash (C D : Nat) (key key' : Block 16) (pre pre' ops ops' : List Op) (l1 : Legal (pre ++ [.finalize]))
    (l2 : Legal (pre' ++ [.finalize])) (l3 : Legal (ops ++ [.finalize])) (l4 : Legal (ops' ++ [.finalize]))
    (hd : 8 ∣ (message pre).length) (hl : (message pre).length = (message pre').length) (s : List Byte)
    (e1 : message ops = message pre ++ s) (e2 : message ops' = message pre' ++ s) :
    ∃ p p' o o', (SipHash.SipHashCD C D key).run (SipHash.SipHashCD C D key).fresh pre = .ok p ∧
      (SipHash.SipHashCD C D key').run (SipHash.SipHashCD C D key').fresh pre' = .ok p' ∧
      (SipHash.SipHashCD C D key).run (SipHash.SipHashCD C D key).fresh (ops ++ [.finalize]) = .ok o ∧
      (SipHash.SipHashCD C D key').run (SipHash.SipHashCD C D key').fresh (ops' ++ [.finalize]) = .ok o' ∧
      SipHash.eq o o' = SipHash.eq p p' := by
  obtain ⟨p, ep, rp⟩ := Proof.Differences.run_open (Proof.SipHash.refines C D key) pre l1
  obtain ⟨p', ep', rp'⟩ := Proof.Differences.run_open (Proof.SipHash.refines C D key') pre' l2
  obtain ⟨o, e, f⟩ := (Proof.SipHash.refines C D key).run_finalize ops l3
  obtain ⟨o', e', f'⟩ := (Proof.SipHash.refines C D key').run_finalize ops' l4
  refine ⟨p, p', o, o', ep, ep', e, e', Bool.eq_iff_iff.2 ?_⟩
  have c : p.chain = Proof.SipHash.den C key (alignedPart 8 (message pre)) := rp.1
  have c' : p'.chain = Proof.SipHash.den C key' (alignedPart 8 (message pre')) := rp'.1
  rw [Proof.Differences.aligned_self 8 _ hd] at c
  rw [Proof.Differences.aligned_self 8 _ (hl ▸ hd)] at c'
  have q : o.chain.state = Proof.SipHash.finState C D key (message ops) := f.1.2
  have q' : o'.chain.state = Proof.SipHash.finState C D key' (message ops') := f'.1.2
  unfold SipHash.eq
  rw [beq_iff_eq, beq_iff_eq, q, q', e1, e2, Proof.Differences.sip_suffix C D key key' _ _ s hd hl, c, c']
  rfl

/-- C56: the same message under different keys never compares equal, whatever the numbers of rounds are. -/
theorem C56_SipHash_keys (C D : Nat) (key key' : Block 16) (hk : key ≠ key') (ops ops' : List Op)
    (l : Legal (ops ++ [.finalize])) (l' : Legal (ops' ++ [.finalize])) (hm : message ops = message ops') :
    ∃ o o', (SipHash.SipHashCD C D key).run (SipHash.SipHashCD C D key).fresh (ops ++ [.finalize]) = .ok o ∧
      (SipHash.SipHashCD C D key').run (SipHash.SipHashCD C D key').fresh (ops' ++ [.finalize]) = .ok o' ∧
      SipHash.eq o o' = false := by
  obtain ⟨p, p', o, o', ep, ep', e, e', h⟩ := C56_SipHash C D key key' [] [] ops ops' (by decide) (by decide) l l'
    (by decide) rfl (message ops) rfl hm.symm
  refine ⟨o, o', e, e', h.trans (Bool.eq_false_iff.2 fun h => hk (Proof.Differences.key_inj key key' ?_))⟩
  rw [← Except.ok.inj ep, ← Except.ok.inj ep'] at h
  exact beq_iff_eq.1 h

private theorem fnv {w : Nat} {v : Nat} {dig : List Byte → Except Fault (List Byte)} (r : Refines (FNV.FNVHash w v) dig)
    (hR : ∀ o m, r.R o m → o = m.foldl (FNV.body v) (FNV.FNVHash w v).fresh)
    (hF : ∀ o m, r.F o m → o = m.foldl (FNV.body v) (FNV.FNVHash w v).fresh)
    (hi : ∀ (d : List Byte) (a b : BitVec w), d.foldl (FNV.body v) a = d.foldl (FNV.body v) b → a = b) :
    (FNV.FNVHash w v).SuffixNeutral FNV.eq 1 := by
  intro pre pre' ops ops' l1 l2 l3 l4 _ _ s e1 e2
  obtain ⟨p, ep, rp⟩ := Proof.Differences.run_open r pre l1
  obtain ⟨p', ep', rp'⟩ := Proof.Differences.run_open r pre' l2
  obtain ⟨o, e, f⟩ := r.run_finalize ops l3
  obtain ⟨o', e', f'⟩ := r.run_finalize ops' l4
  refine ⟨p, p', o, o', ep, ep', e, e', Bool.eq_iff_iff.2 ?_⟩
  unfold FNV.eq
  rw [beq_iff_eq, beq_iff_eq, hF _ _ f, hF _ _ f', hR _ _ rp, hR _ _ rp', e1, e2, List.foldl_append, List.foldl_append]
  exact ⟨hi s _ _, fun h => by rw [h]⟩

theorem C56_FNV32_1 : FNV.FNV32_1.SuffixNeutral FNV.eq 1 := fnv Proof.FNV.refines32_1 (fun _ _ h => h) (fun _ _ h => h)
  fun d _ _ => Proof.FNV.fold_inj _ _ Proof.FNV.mul32 Proof.FNV.inv32_ok 1 d
theorem C56_FNV32_1a : FNV.FNV32_1a.SuffixNeutral FNV.eq 1 := fnv Proof.FNV.refines32_1a (fun _ _ h => h) (fun _ _ h => h)
  fun d _ _ => Proof.FNV.fold_inj _ _ Proof.FNV.mul32 Proof.FNV.inv32_ok 2 d
theorem C56_FNV64_1 : FNV.FNV64_1.SuffixNeutral FNV.eq 1 := fnv Proof.FNV.refines64_1 (fun _ _ h => h) (fun _ _ h => h)
  fun d _ _ => Proof.FNV.fold_inj _ _ Proof.FNV.mul64 Proof.FNV.inv64_ok 1 d
theorem C56_FNV64_1a : FNV.FNV64_1a.SuffixNeutral FNV.eq 1 := fnv Proof.FNV.refines64_1a (fun _ _ h => h) (fun _ _ h => h)
  fun d _ _ => Proof.FNV.fold_inj _ _ Proof.FNV.mul64 Proof.FNV.inv64_ok 2 d

theorem C56_CRC_32 : CRC32.CRC_32.SuffixNeutral CRC32.eq 1 := by
  intro pre pre' ops ops' l1 l2 l3 l4 _ _ s e1 e2
  obtain ⟨p, ep, rp⟩ := Proof.Differences.run_open Proof.CRC32.refines pre l1
  obtain ⟨p', ep', rp'⟩ := Proof.Differences.run_open Proof.CRC32.refines pre' l2
  obtain ⟨o, e, f⟩ := Proof.CRC32.refines.run_finalize ops l3
  obtain ⟨o', e', f'⟩ := Proof.CRC32.refines.run_finalize ops' l4
  refine ⟨p, p', o, o', ep, ep', e, e', Bool.eq_iff_iff.2 ?_⟩
  have rp : p = (CRC32.bits (message pre)).foldl CRC32.step (BitVec.allOnes 32) := rp
  have rp' : p' = (CRC32.bits (message pre')).foldl CRC32.step (BitVec.allOnes 32) := rp'
  have f : o = CRC32.crc32 (message ops) := f
  have f' : o' = CRC32.crc32 (message ops') := f'
  unfold CRC32.eq
  rw [beq_iff_eq, beq_iff_eq, f, f', e1, e2]
  unfold CRC32.crc32
  rw [Proof.CRC32.bits_append, Proof.CRC32.bits_append, List.foldl_append, List.foldl_append, ← rp, ← rp']
  have inj : ∀ (bs : List Bool) (g h : W32), bs.foldl CRC32.step g = bs.foldl CRC32.step h → g = h := by
    intro bs g h e
    have d := Proof.CRC32.fold_diff bs bs rfl g h
    have z : List.zipWith xor bs bs = List.replicate bs.length false := by
      clear d e
      induction bs with
      | nil => rfl
      | cons b bs ih => rw [List.zipWith_cons_cons, ih, Bool.xor_self, List.length_cons, List.replicate_succ]
    rw [e, BitVec.xor_self, z, Proof.CRC32.fold_zeros] at d
    exact Proof.CRC32.xor_eq_zero (Proof.CRC32.zn_ker _ _ d.symm)
  refine ⟨fun h => inj (Spec.CRC32.bits s) _ _ ?_, fun h => by rw [h]⟩
  simpa using h

/-! ### cSHAKE -/

section CSHAKE
open Spec.SP800185 (ExactLog bytepad encodeString)

private theorem cshakeSuf (c : Bool) : ∃ suf, Proof.SHA3.IsSuffix (Proof.CShake.padOf c) suf := by
  cases c
  · exact ⟨_, Proof.SHA3.suffix_shake⟩
  · exact ⟨_, Proof.SHA3.suffix_cshake⟩

/-- C56 for cSHAKE: objects with the same name and customization whose messages differ in one block only never compare
equal. -/
theorem C56_CSHAKE_one_block {R : Nat} [hR : SHA3.RateOK R] (nb : Nat → Nat) (hnb : ExactLog nb) (h8 : R % 8 = 0)
    (name custom : List Byte) (hn : name.length < 2 ^ 53 - 256) (hc : custom.length < 2 ^ 53 - 256) (d : Nat)
    (ops ops' : List Op) (hl : Legal (ops ++ [.finalize])) (hl' : Legal (ops' ++ [.finalize])) (hr : NoReset ops)
    (hr' : NoReset ops') (p b b' s : List Byte) (hp : R ∣ p.length) (hb : b.length ≤ R) (hbl : b.length = b'.length)
    (hne : b ≠ b') (e1 : message ops = p ++ b ++ s) (e2 : message ops' = p ++ b' ++ s) :
    ∃ o a a', CShake.construct nb R d name custom = .ok o ∧ CShake.run o (ops ++ [.finalize]) = .ok a ∧
      CShake.run o (ops' ++ [.finalize]) = .ok a' ∧ CShake.eq a a' = .ok false := by
  obtain ⟨o, c, x, e, r, hb1, f⟩ := cshake_final_shape (R := R) nb hnb h8 name custom hn hc d ops hl
  obtain ⟨o', c', x', e', r', hb2, f'⟩ := cshake_final_shape (R := R) nb hnb h8 name custom hn hc d ops' hl'
  obtain rfl : c = c' := by rw [hb1, hb2]
  obtain rfl : o = o' := Except.ok.inj (e.symm.trans e')
  refine ⟨o, _, _, e, r, r', ?_⟩
  rw [cshake_eq_mk, beq_self_eq_true, Bool.true_and]
  refine congrArg Except.ok (Bool.eq_false_iff.2 fun h => hne ?_)
  have hpos := hR.pos
  have hle := hR.le
  rw [Proof.CShake.messageFrom_noReset _ ops hr, e1] at f
  rw [Proof.CShake.messageFrom_noReset _ ops' hr', e2] at f'
  obtain ⟨suf, hs⟩ := cshakeSuf c
  have h := (Proof.SHA3.eq_iff R h8 _ suf hs d x x' _ _ f f').1 h
  rw [← List.append_assoc, ← List.append_assoc, ← List.append_assoc, ← List.append_assoc] at h
  have hd : R ∣ ((if c then Proof.CShake.pre R name custom else []) ++ p).length := by
    rw [List.length_append]
    refine Nat.dvd_add ?_ hp
    cases c
    · exact Nat.dvd_zero R
    · exact Proof.Differences.pre_dvd R hpos name custom
  simp only [Proof.SHA3.bits_append _ s, Proof.SHA3.bits_append _ b, Proof.SHA3.bits_append _ b'] at h
  rw [List.append_assoc _ (bits s), List.append_assoc _ (bits s)] at h
  exact Proof.Sponge.bits_inj _ _ (Proof.Differences.one_block (8 * R) (by omega) (by omega) _ _ _ _ (dvd8 hd)
    (by rw [Proof.SHA3.bits_length]; omega) (by rw [Proof.SHA3.bits_length, Proof.SHA3.bits_length, hbl]) h)

/-- C56 for cSHAKE: the same message under different names or customizations never compares equal, if the encoded names
and customizations fit in one block each. -/
theorem C56_CSHAKE_custom {R : Nat} [hR : SHA3.RateOK R] (nb : Nat → Nat) (hnb : ExactLog nb) (h8 : R % 8 = 0)
    (name custom name' custom' : List Byte) (hn : name.length < 2 ^ 53 - 256) (hc : custom.length < 2 ^ 53 - 256)
    (hn' : name'.length < 2 ^ 53 - 256) (hc' : custom'.length < 2 ^ 53 - 256)
    (hone : (bytepad (encodeString name ++ encodeString custom) R).length = R)
    (hone' : (bytepad (encodeString name' ++ encodeString custom') R).length = R)
    (hne : ¬(name = name' ∧ custom = custom')) (d : Nat) (ops ops' : List Op) (hl : Legal (ops ++ [.finalize]))
    (hl' : Legal (ops' ++ [.finalize])) (hr : NoReset ops) (hr' : NoReset ops') (hm : message ops = message ops') :
    ∃ o o' a a', CShake.construct nb R d name custom = .ok o ∧ CShake.construct nb R d name' custom' = .ok o' ∧
      CShake.run o (ops ++ [.finalize]) = .ok a ∧ CShake.run o' (ops' ++ [.finalize]) = .ok a' ∧
      CShake.eq a a' = .ok false := by
  obtain ⟨o, c, x, e, r, hb, f⟩ := cshake_final_shape (R := R) nb hnb h8 name custom hn hc d ops hl
  obtain ⟨o', c', x', e', r', hb', f'⟩ := cshake_final_shape (R := R) nb hnb h8 name' custom' hn' hc' d ops' hl'
  refine ⟨o, o', _, _, e, e', r, r', ?_⟩
  rw [cshake_eq_mk]
  refine congrArg Except.ok (Bool.eq_false_iff.2 fun h => hne ?_)
  rw [Bool.and_eq_true, beq_iff_eq] at h
  obtain ⟨rfl, h⟩ := h
  have hpos := hR.pos
  have hle := hR.le
  rw [Proof.CShake.messageFrom_noReset _ ops hr] at f
  rw [Proof.CShake.messageFrom_noReset _ ops' hr', ← hm] at f'
  cases c
  · have q : ∀ N S : List Byte, false = !(N.isEmpty && S.isEmpty) → N = [] ∧ S = [] := by
      intro N S h
      cases N with
      | nil => cases S with
        | nil => exact ⟨rfl, rfl⟩
        | cons _ _ => exact absurd h Bool.false_ne_true
      | cons _ _ => exact absurd h Bool.false_ne_true
    obtain ⟨rfl, rfl⟩ := q name custom hb
    obtain ⟨rfl, rfl⟩ := q name' custom' hb'
    exact ⟨rfl, rfl⟩
  · have h := (Proof.SHA3.eq_iff R h8 _ _ Proof.SHA3.suffix_cshake d x x' _ _ f f').1 h
    simp only [if_true, Proof.SHA3.bits_append] at h
    rw [List.append_assoc, List.append_assoc] at h
    have hone : (Proof.CShake.pre R name custom).length = R := hone
    have hone' : (Proof.CShake.pre R name' custom').length = R := hone'
    have h := Proof.Differences.one_block (8 * R) (by omega) (by omega) [] (bits (Proof.CShake.pre R name custom))
      (bits (Proof.CShake.pre R name' custom')) _ (Nat.dvd_zero _) (by rw [Proof.SHA3.bits_length]; omega)
      (by rw [Proof.SHA3.bits_length, Proof.SHA3.bits_length]; omega) h
    have big : ∀ n : Nat, n < 2 ^ 56 → n < 256 ^ 255 := fun n h =>
      Nat.lt_of_lt_of_le h (by rw [show 256 = 2 ^ 8 from rfl, ← Nat.pow_mul]; exact Nat.pow_le_pow_right (by decide) (by decide))
    have h := Proof.CShake.pre_inj R name custom [] name' custom' [] (big _ (by omega)) (big _ (by omega)) (big _ (by omega))
      (big _ (by omega)) (big _ (by omega)) (congrArg (· ++ []) (Proof.Sponge.bits_inj _ _ h))
    exact ⟨h.1, h.2.1⟩

end CSHAKE

/-! Cases that meet the hypotheses. -/

set_option maxRecDepth 10000 in
/-- the first 136 bytes differ, then 300 bytes in common, fed in different pieces and after a `reset` -/
example := C56_SHA3_256 [.add (List.replicate 136 1)] [.add [9], .reset, .add (List.replicate 272 2)]
  [.add (List.replicate 136 1), .add (List.replicate 300 7)]
  [.add [8], .finalize, .reset, .add (List.replicate 272 2), .add (List.replicate 300 7)]
  (by decide +kernel) (by decide +kernel) (by decide +kernel) (by decide +kernel) (by decide) (by decide)
  (List.replicate 300 7) rfl rfl
set_option maxRecDepth 10000 in
example := C56_SHA3_256_one_block [.add (List.replicate 136 1), .add [2, 3], .add [5]] [.add (List.replicate 136 1 ++ [2, 4, 5])]
  (by decide +kernel) (by decide +kernel) (List.replicate 136 1) [2, 3] [2, 4] [5] (by decide) (by decide) rfl (by decide)
  rfl rfl
/-- the empty message and one zero byte -/
example := C56_SHAKE_128_last_block 500 [] [.add [0]] (by decide) (by decide) [] [] [0] (by decide) (by decide) (by decide)
  (by decide) rfl rfl
example := C56_SipHash 2 4 (Vector.replicate 16 0) (Vector.replicate 16 1) [.add [1, 2, 3, 4, 5, 6, 7, 8]]
  [.add [8, 7, 6, 5, 4, 3, 2, 1]] [.add [1, 2, 3, 4, 5, 6, 7, 8, 9]] [.add [8, 7, 6, 5, 4, 3, 2, 1], .add [9]] (by decide)
  (by decide) (by decide) (by decide) (by decide) rfl [9] rfl rfl
example := C56_SipHash_keys 2 4 (Vector.replicate 16 0) ((Vector.replicate 16 0).set 15 1) (by decide) [.add [1, 2], .add [3]]
  [.add [1, 2, 3]] (by decide) (by decide) rfl
example := C56_CRC_32 [.add [1]] [.add [2, 3]] [.add [1, 4]] [.add [2], .add [3, 4]] (by decide) (by decide) (by decide)
  (by decide) (by decide) (by decide) [4] rfl rfl
example := C56_FNV64_1a [.add [1]] [.add [2, 3]] [.add [1, 4]] [.add [2], .add [3, 4]] (by decide) (by decide) (by decide)
  (by decide) (by decide) (by decide) [4] rfl rfl

set_option maxRecDepth 10000 in
example := C56_CSHAKE_one_block (R := 168) Proof.CShake.countBytes Proof.CShake.countBytes_exact rfl [] [0x41] (by decide)
  (by decide) 32 [.add [1, 2]] [.add [1], .add [3]] (by decide) (by decide) (fun op h => by simp at h; subst h; rfl)
  (fun op h => by simp at h; rcases h with rfl | rfl <;> rfl) [] [1, 2] [1, 3] [] (by decide) (by decide) rfl (by decide) rfl rfl
set_option maxRecDepth 10000 in
/-- The customizations "A" and "B". -/
example := C56_CSHAKE_custom (R := 168) Proof.CShake.countBytes Proof.CShake.countBytes_exact rfl [] [0x41] [] [0x42] (by decide)
  (by decide) (by decide) (by decide) (by decide +kernel) (by decide +kernel) (by decide) 32 [.add [1, 2]] [.add [1], .add [2]]
  (by decide) (by decide) (fun op h => by simp at h; subst h; rfl)
  (fun op h => by simp at h; rcases h with rfl | rfl <;> rfl) rfl

end Verif.Props
