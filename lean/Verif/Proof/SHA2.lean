import Verif.Model.SHA2
import Verif.Spec.SHA2
import Verif.Proof.Regs

/-! The SHA-2 model computes FIPS 180-4. -/

namespace Verif.Proof.SHA2
open Model.SHA2 Spec

variable {w B : Nat}

theorem ch_eq (x y z : BitVec w) : ch x y z = SHA2.Ch x y z := by
  unfold ch SHA2.Ch
  ext i hi
  simp
  cases x[i] <;> cases y[i] <;> cases z[i] <;> rfl

theorem maj_eq (x y z : BitVec w) : maj x y z = SHA2.Maj x y z := by
  unfold maj SHA2.Maj
  ext i hi
  simp
  cases x[i] <;> cases y[i] <;> cases z[i] <;> rfl

/-- The configuration of the code matches the parameters of the standard. -/
structure CfgOK (c : Cfg w B) (p : SHA2.Params w) : Prop where
  rounds : p.rounds = 8 * c.loops
  sixteen : 16 ≤ 8 * c.loops
  k : ∀ t (h : t < 8 * c.loops), c.kTable[t] = p.K t
  load : ∀ m t (h : t < 16), c.load m t h = wordBE w m.toList t
  s0 : c.ssig0 = p.sigma0
  s1 : c.ssig1 = p.sigma1
  b0 : c.bsig0 = p.Sigma0
  b1 : c.bsig1 = p.Sigma1

variable {c : Cfg w B} {p : SHA2.Params w}

theorem wTable_eq (ok : CfgOK c p) (hl : 16 ≤ 8 * c.loops) (m : Block B) (t : Nat)
    (ht : t < 8 * c.loops) :
    (wTable c hl m)[t] = SHA2.W p (wordBE w m.toList) t := by
  unfold wTable
  simp only []
  have h1 := forRange_inv (lo := 0) (hi := 16) (by decide)
    (init := (Vector.replicate (8 * c.loops) (0 : BitVec w)))
    (body := fun t _ h2 wt => wt.set t (c.load m t h2))
    (fun t wt => ∀ j (hj : j < t) (hj2 : j < 8 * c.loops), wt[j] = SHA2.W p (wordBE w m.toList) j)
    (by intro j hj; omega)
    (by
      intro t _ h2 s hP j hj hj2
      rw [Vector.getElem_set]
      split
      · subst_vars
        rw [ok.load, SHA2.W, if_pos h2]
      · exact hP j (by omega) hj2)
  have h2 := forRange_inv (lo := 16) (hi := 8 * c.loops) hl
    (init := forRange 0 16 (Vector.replicate (8 * c.loops) (0 : BitVec w))
      fun t _ h2 wt => wt.set t (c.load m t h2))
    (body := fun t h1 h2 wt =>
      wt.set t (c.ssig1 wt[t - 2] + wt[t - 7] + c.ssig0 wt[t - 15] + wt[t - 16]))
    (fun t wt => ∀ j (hj : j < t) (hj2 : j < 8 * c.loops), wt[j] = SHA2.W p (wordBE w m.toList) j)
    h1
    (by
      intro t h1 h2 s hP j hj hj2
      rw [Vector.getElem_set]
      split
      · subst_vars
        rw [hP _ (by omega), hP _ (by omega), hP _ (by omega), hP _ (by omega), ok.s0, ok.s1]
        conv => rhs; rw [SHA2.W, if_neg (by omega)]
      · exact hP j (by omega) hj2)
  exact h2 t ht ht

def toState (s : Regs w) : SHA2.State w := ⟨s.a, s.b, s.c, s.d, s.e, s.f, s.g, s.h⟩

theorem step_of_round (ok : CfgOK c p) (M : Nat → BitVec w) (t : Nat)
    (a b c' d e f g h kt wt d' h' : BitVec w) (hk : kt = p.K t) (hw : wt = SHA2.W p M t)
    (hr : round c a b c' d e f g h kt wt = (d', h')) :
    SHA2.step p M ⟨a, b, c', d, e, f, g, h⟩ t = ⟨h', a, b, c', d', e, f, g⟩ := by
  unfold round at hr
  simp only [Prod.mk.injEq] at hr
  obtain ⟨h1, h2⟩ := hr
  subst h1 h2
  simp only [SHA2.step, ch_eq, maj_eq, ok.b0, ok.b1, hk, hw]

theorem eightRounds_eq (ok : CfgOK c p) (M : Nat → BitVec w)
    (wt : Vector (BitVec w) (8 * c.loops))
    (hwt : ∀ t (h : t < 8 * c.loops), wt[t] = SHA2.W p M t)
    (t : Nat) (ht : t < c.loops) (s : Regs w) :
    toState (eightRounds c wt t ht s)
      = (List.range 8).foldl (fun s i => SHA2.step p M s (8 * t + i)) (toState s) := by
  obtain ⟨a, b, c', d, e, f, g, h⟩ := s
  simp only [eightRounds, toState]
  rw [show List.range 8 = [0, 1, 2, 3, 4, 5, 6, 7] from rfl]
  simp only [List.foldl_cons, List.foldl_nil]
  rcases h0 : round c a b c' d e f g h c.kTable[8 * t + 0] wt[8 * t + 0] with ⟨d, h⟩
  rw [step_of_round ok M _ _ _ _ _ _ _ _ _ _ _ _ _ (ok.k _ _) (hwt _ _) h0]
  simp only []
  rcases h1 : round c h a b c' d e f g c.kTable[8 * t + 1] wt[8 * t + 1] with ⟨c', g⟩
  rw [step_of_round ok M _ _ _ _ _ _ _ _ _ _ _ _ _ (ok.k _ _) (hwt _ _) h1]
  simp only []
  rcases h2 : round c g h a b c' d e f c.kTable[8 * t + 2] wt[8 * t + 2] with ⟨b, f⟩
  rw [step_of_round ok M _ _ _ _ _ _ _ _ _ _ _ _ _ (ok.k _ _) (hwt _ _) h2]
  simp only []
  rcases h3 : round c f g h a b c' d e c.kTable[8 * t + 3] wt[8 * t + 3] with ⟨a, e⟩
  rw [step_of_round ok M _ _ _ _ _ _ _ _ _ _ _ _ _ (ok.k _ _) (hwt _ _) h3]
  simp only []
  rcases h4 : round c e f g h a b c' d c.kTable[8 * t + 4] wt[8 * t + 4] with ⟨h, d⟩
  rw [step_of_round ok M _ _ _ _ _ _ _ _ _ _ _ _ _ (ok.k _ _) (hwt _ _) h4]
  simp only []
  rcases h5 : round c d e f g h a b c' c.kTable[8 * t + 5] wt[8 * t + 5] with ⟨g, c'⟩
  rw [step_of_round ok M _ _ _ _ _ _ _ _ _ _ _ _ _ (ok.k _ _) (hwt _ _) h5]
  simp only []
  rcases h6 : round c c' d e f g h a b c.kTable[8 * t + 6] wt[8 * t + 6] with ⟨f, b⟩
  rw [step_of_round ok M _ _ _ _ _ _ _ _ _ _ _ _ _ (ok.k _ _) (hwt _ _) h6]
  simp only []
  rcases h7 : round c b c' d e f g h a c.kTable[8 * t + 7] wt[8 * t + 7] with ⟨e, a⟩
  rw [step_of_round ok M _ _ _ _ _ _ _ _ _ _ _ _ _ (ok.k _ _) (hwt _ _) h7]

/-- The chaining value as the standard's state. -/
def ofVec (v : Vector (BitVec w) 8) : SHA2.State w :=
  ⟨v[0], v[1], v[2], v[3], v[4], v[5], v[6], v[7]⟩

theorem compress_eq (ok : CfgOK c p) (hl : 16 ≤ 8 * c.loops) (mh : Vector (BitVec w) 8)
    (m : Block B) :
    ofVec (compress c hl mh m) = SHA2.compress p (ofVec mh) m.toList := by
  have key := forRange_inv (lo := 0) (hi := c.loops) (Nat.zero_le _)
    (init := (⟨mh[0], mh[1], mh[2], mh[3], mh[4], mh[5], mh[6], mh[7]⟩ : Regs w))
    (body := fun t _ ht s => eightRounds c (wTable c hl m) t ht s)
    (fun t s => toState s =
      (List.range (8 * t)).foldl (SHA2.step p (wordBE w m.toList)) (ofVec mh))
    (by rfl)
    (by
      intro t _ h2 s hs
      rw [eightRounds_eq ok (wordBE w m.toList) (wTable c hl m)
        (fun t ht => wTable_eq ok hl m t ht) t h2 s, hs, Nat.mul_succ, foldl_range_add])
  unfold compress SHA2.compress
  simp only []
  rw [ok.rounds, ← key]
  rfl

theorem kTable32_ok : ∀ t : Fin 64, kTable32[t] = SHA2.p256.K t := by decide +kernel

theorem kTable64_ok : ∀ t : Fin 80, kTable64[t] = SHA2.p512.K t := by decide +kernel

theorem cfg32_ok : CfgOK cfg32 SHA2.p256 where
  rounds := rfl
  sixteen := by decide
  k := by
    intro t h
    exact kTable32_ok ⟨t, h⟩
  load := fun m t h => loadBE32_eq m t (by omega)
  s0 := by funext x; simp [cfg32, SHA2.p256, rotr_eq, ror]
  s1 := by funext x; simp [cfg32, SHA2.p256, rotr_eq, ror]
  b0 := by funext x; simp [cfg32, SHA2.p256, rotr_eq]
  b1 := by funext x; simp [cfg32, SHA2.p256, rotr_eq]

theorem cfg64_ok : CfgOK cfg64 SHA2.p512 where
  rounds := rfl
  sixteen := by decide
  k := by
    intro t h
    exact kTable64_ok ⟨t, h⟩
  load := fun m t h => loadBE64_eq m t (by omega)
  s0 := by funext x; simp [cfg64, SHA2.p512, rotr_eq, ror]
  s1 := by funext x; simp [cfg64, SHA2.p512, rotr_eq, ror]
  b0 := by funext x; simp [cfg64, SHA2.p512, rotr_eq]
  b1 := by funext x; simp [cfg64, SHA2.p512, rotr_eq]

theorem iv256_ok : ofVec iv256 = SHA2.H256 := by decide +kernel
theorem iv224_ok : ofVec iv224 = SHA2.H224 := by decide +kernel
theorem iv512_ok : ofVec iv512 = SHA2.H512 := by decide +kernel
theorem iv384_ok : ofVec iv384 = SHA2.H384 := by decide +kernel

/-- The initial value used by SHA-512/t IV generation. -/
def ivMasked : Vector W64 8 := iv512.map (· ^^^ 0xa5a5a5a5a5a5a5a5)

theorem hash_words (H0 : Vector W64 8) (M : List Byte) :
    (blocks 128 (SHA2.pad 128 16 M)).foldl (SHA2.compress SHA2.p512) (ofVec H0)
      = ofVec (mdFold 128 (compress cfg64 (by decide)) H0 (SHA2.pad 128 16 M)) :=
  (mdFold_map (f := ofVec) (fun h b => compress_eq cfg64_ok (by decide) h b) H0 _).symm

theorem masked_ok : SHA2.State.mk (w := 64) (SHA2.H512.a ^^^ 0xa5a5a5a5a5a5a5a5)
    (SHA2.H512.b ^^^ 0xa5a5a5a5a5a5a5a5) (SHA2.H512.c ^^^ 0xa5a5a5a5a5a5a5a5)
    (SHA2.H512.d ^^^ 0xa5a5a5a5a5a5a5a5) (SHA2.H512.e ^^^ 0xa5a5a5a5a5a5a5a5)
    (SHA2.H512.f ^^^ 0xa5a5a5a5a5a5a5a5) (SHA2.H512.g ^^^ 0xa5a5a5a5a5a5a5a5)
    (SHA2.H512.h ^^^ 0xa5a5a5a5a5a5a5a5) = ofVec ivMasked := by
  rw [← iv512_ok]; decide +kernel

theorem H512t_eq (name : List Byte) : SHA2.H512t name =
    SHA2.ofFn (wordBE 64 (bytesBE (ofVec (mdFold 128 (compress cfg64 (by decide)) ivMasked
      (SHA2.pad 128 16 name))).words)) := by
  unfold SHA2.H512t
  simp only []
  rw [masked_ok]
  unfold SHA2.hash
  rw [hash_words]

theorem iv512_224_ok : ofVec iv512_224 = SHA2.H512t SHA2.name224 := by
  rw [H512t_eq]; decide +kernel
theorem iv512_256_ok : ofVec iv512_256 = SHA2.H512t SHA2.name256 := by
  rw [H512t_eq]; decide +kernel

/-! ### `toArray` -/

theorem toArray_eq {w : Nat} (n : Nat) (hn : n ≤ 8) (mh : Vector (BitVec w) 8) :
    toArray (w / 8) n ((w / 8) * n) (fun _ => []) mh
      = .ok ((bytesBE (ofVec mh).words).take ((w / 8) * n)) := by
  unfold toArray resultArray
  have hw : (ofVec mh).words = mh.toList := by
    rw [vec8_toList]; rfl
  have hl : (bytesBE (mh.toList.take n)).length = (w / 8) * n := by
    rw [bytesBE_length, List.length_take, Vector.length_toList, Nat.min_eq_left hn]
  rw [List.append_nil, flatMap_storeBE, hw, if_pos (by omega), hl, Nat.sub_self,
    List.replicate_zero, List.append_nil, bytesBE_take n _ (by simpa using hn)]

theorem words_length {w : Nat} (s : SHA2.State w) : s.words.length = 8 := rfl

theorem toArray_512_224 (mh : Vector W64 8) :
    toArray 8 3 28 (fun mh => [ror 8 mh[3] 56, ror 8 mh[3] 48, ror 8 mh[3] 40, ror 8 mh[3] 32]) mh
      = .ok ((bytesBE (ofVec mh).words).take 28) := by
  have hw : (ofVec mh).words = mh.toList := by
    rw [vec8_toList]; rfl
  unfold toArray resultArray
  simp only []
  rw [flatMap_storeBE, hw]
  have hl : (bytesBE (mh.toList.take 3)).length = 24 := by
    rw [bytesBE_length]; simp
  rw [if_pos (by rw [List.length_append, hl]; simp)]
  have h4 : [ror 8 mh[3] 56, ror 8 mh[3] 48, ror 8 mh[3] 40, ror 8 mh[3] 32]
      = (toBE 8 mh[3].toNat).take 4 := by
    rw [← storeBE_eq]; rfl
  rw [h4]
  have h24 : mh.toList = mh.toList.take 3 ++ ([mh[3]] ++ mh.toList.drop 4) := by
    rw [vec8_toList]; rfl
  have h8 : (bytesBE [mh[3]]).length = 8 := by rw [bytesBE_length]; rfl
  have e8 : bytesBE [mh[3]] = toBE 8 mh[3].toNat := by simp [bytesBE]
  congr 1
  conv => rhs; rw [h24, bytesBE_append, bytesBE_append, e8]
  rw [e8] at h8
  generalize bytesBE (mh.toList.take 3) = x at *
  generalize toBE 8 mh[3].toNat = y at *
  simp [List.take_append, hl, h8, List.take_of_length_le]

/-! ### Whole classes -/

theorem pad_eq (B L : Nat) (m : List Byte) :
    SHA2.pad B L m = padded B L 0x80 (fun n => toBE L (8 * n)) m := rfl

def refines32 (iv : Vector W32 8) (words size : Nat) :
    Refines (api32 iv words size) (fun m => toArray 4 words size (fun _ => [])
      (mdFold 64 (compress cfg32 (by decide)) iv (SHA2.pad 64 8 m))) :=
  mdRefines (by decide) (by decide) 0x80 counterBE64_ok _ iv _

def refines64 (iv : Vector W64 8) (words size : Nat) (extra : Vector W64 8 → List Byte) :
    Refines (api64 iv words size extra) (fun m => toArray 8 words size extra
      (mdFold 128 (compress cfg64 (by decide)) iv (SHA2.pad 128 16 m))) :=
  mdRefines (by decide) (by decide) 0x80 counterBE128_ok _ iv _

theorem hash32 (iv : Vector W32 8) (H0 : SHA2.State 32) (h : ofVec iv = H0) (M : List Byte) :
    bytesBE (ofVec (mdFold 64 (compress cfg32 (by decide)) iv (SHA2.pad 64 8 M))).words
      = SHA2.hash SHA2.p256 64 8 H0 M := by
  unfold SHA2.hash
  rw [mdFold_map (f := ofVec) (fun h b => compress_eq cfg32_ok (by decide) h b), h]

theorem hash64 (iv : Vector W64 8) (H0 : SHA2.State 64) (h : ofVec iv = H0) (M : List Byte) :
    bytesBE (ofVec (mdFold 128 (compress cfg64 (by decide)) iv (SHA2.pad 128 16 M))).words
      = SHA2.hash SHA2.p512 128 16 H0 M := by
  unfold SHA2.hash
  rw [mdFold_map (f := ofVec) (fun h b => compress_eq cfg64_ok (by decide) h b), h]

theorem hash_length {w : Nat} (p : SHA2.Params w) (B L : Nat) (H0 : SHA2.State w) (M : List Byte) :
    (SHA2.hash p B L H0 M).length = (w / 8) * 8 := by
  unfold SHA2.hash; rw [bytesBE_length]; rfl

def r224 : Refines SHA2_224 (fun m => .ok (SHA2.sha224 m)) :=
  (refines32 iv224 7 28).congr fun m => by
    rw [toArray_eq (w := 32) 7 (by decide), hash32 _ _ iv224_ok]; rfl

def r256 : Refines SHA2_256 (fun m => .ok (SHA2.sha256 m)) :=
  (refines32 iv256 8 32).congr fun m => by
    rw [toArray_eq (w := 32) 8 (by decide), hash32 _ _ iv256_ok,
      List.take_of_length_le (by rw [hash_length]; decide)]; rfl

def r384 : Refines SHA2_384 (fun m => .ok (SHA2.sha384 m)) :=
  (refines64 iv384 6 48 _).congr fun m => by
    rw [toArray_eq (w := 64) 6 (by decide), hash64 _ _ iv384_ok]; rfl

def r512 : Refines SHA2_512 (fun m => .ok (SHA2.sha512 m)) :=
  (refines64 iv512 8 64 _).congr fun m => by
    rw [toArray_eq (w := 64) 8 (by decide), hash64 _ _ iv512_ok,
      List.take_of_length_le (by rw [hash_length]; decide)]; rfl

def r512_224 : Refines SHA2_512_224 (fun m => .ok (SHA2.sha512_224 m)) :=
  (refines64 iv512_224 3 28 _).congr fun m => by
    rw [toArray_512_224, hash64 _ _ iv512_224_ok]; rfl

def r512_256 : Refines SHA2_512_256 (fun m => .ok (SHA2.sha512_256 m)) :=
  (refines64 iv512_256 4 32 _).congr fun m => by
    rw [toArray_eq (w := 64) 4 (by decide), hash64 _ _ iv512_256_ok]; rfl

end Verif.Proof.SHA2
