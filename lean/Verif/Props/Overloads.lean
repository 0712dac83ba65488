import Verif.Core.Overloads
import Verif.Core.Loops
import Verif.Props.MD

/-!
# C30 (overloads of addData) and C38 (the 128-bit counter)
-/

namespace Verif.Props

/-! ### C30 -/

/-- Memory holds, from address `p` on, objects of `k` bytes each with the representations `reps`. -/
def Stored (mem : Nat → Byte) (p k : Nat) (reps : List (List Byte)) : Prop :=
  (∀ r ∈ reps, r.length = k) ∧
  ∀ i (hi : i < reps.length) j (hj : j < (reps[i]).length), mem (p + i * k + j) = (reps[i])[j]

private theorem bytesAt_add (mem : Nat → Byte) (p a b : Nat) :
    bytesAt mem p (a + b) = bytesAt mem p a ++ bytesAt mem (p + a) b := by
  unfold bytesAt
  rw [List.range_add, List.map_append, List.map_map]
  congr 1
  apply List.map_congr_left
  intro i _
  show mem (p + (a + i)) = mem (p + a + i)
  rw [Nat.add_assoc]

private theorem stored_bytes (mem : Nat → Byte) (k : Nat) (reps : List (List Byte)) : ∀ p, Stored mem p k reps →
    bytesAt mem p (k * reps.length) = reps.flatten := by
  induction reps with
  | nil => intro p _; rfl
  | cons r reps ih =>
    intro p h
    have hr : r.length = k := h.1 r (by simp)
    rw [List.length_cons, Nat.mul_succ, Nat.add_comm, bytesAt_add, List.flatten_cons]
    congr 1
    · apply List.ext_getElem
      · simp [bytesAt, hr]
      · intro j h1 h2
        have := h.2 0 (by simp) j (by simpa using h2)
        simpa [bytesAt] using this
    · apply ih
      refine ⟨fun r hr => h.1 r (by simp [hr]), fun i hi j hj => ?_⟩
      have := h.2 (i + 1) (by simpa using hi) j (by simpa using hj)
      rw [Nat.succ_mul, ← Nat.add_assoc, Nat.add_right_comm p] at this
      simpa using this

/-- C30: for an array of any element type and length, whose size fits in `size_t`: the array overload, the span
overload and the pointer overload with the size in bytes all feed the representations of the elements in order. -/
theorem C30_overloads {O : Type} (A : API O) (mem : Nat → Byte) (o : O) (p k : Nat) (reps : List (List Byte))
    (h : Stored mem p k reps) (hs : k * reps.length < 2 ^ 64) :
    A.addDataArray mem o p k reps.length = A.addData o reps.flatten ∧
    A.addDataSpan mem o p reps.length k = A.addData o reps.flatten ∧
    A.addDataPtr mem o p (k * reps.length) = A.addData o reps.flatten := by
  have hb := stored_bytes mem k reps p h
  unfold API.addDataArray API.addDataSpan API.addDataPtr
  rw [Nat.mul_comm reps.length k, Nat.mod_eq_of_lt hs, hb]
  exact ⟨rfl, rfl, rfl⟩

/-- C30: a byte array through its own overload is the same as through the general one. -/
theorem C30_bytes {O : Type} (A : API O) (mem : Nat → Byte) (o : O) (p n : Nat) (hn : n < 2 ^ 64) :
    A.addDataBytes mem o p n = A.addDataArray mem o p 1 n ∧ A.addDataBytes mem o p n = A.addDataPtr mem o p n := by
  unfold API.addDataArray API.addDataBytes API.addDataPtr
  rw [Nat.one_mul, Nat.mod_eq_of_lt hn]
  exact ⟨rfl, rfl⟩

/-- Memory holds the characters `s` and a terminating zero at `p`, as for a string literal. -/
def Literal (mem : Nat → Byte) (p : Nat) (s : List Byte) : Prop :=
  (∀ i (hi : i < s.length), mem (p + i) = s[i]) ∧ mem (p + s.length) = 0

/-- C30: a string literal is an array of one more character than it shows, so the array overload feeds the
terminating zero too, and the pointer overload with the number of characters does not. -/
theorem C30_literal {O : Type} (A : API O) (mem : Nat → Byte) (o : O) (p : Nat) (s : List Byte)
    (h : Literal mem p s) (hs : s.length + 1 < 2 ^ 64) :
    A.addDataArray mem o p 1 (s.length + 1) = A.addData o (s ++ [0]) ∧
    A.addDataPtr mem o p s.length = A.addData o s := by
  have hb : bytesAt mem p s.length = s := by
    apply List.ext_getElem
    · simp [bytesAt]
    · intro i h1 h2
      simpa [bytesAt] using h.1 i h2
  unfold API.addDataArray API.addDataPtr
  rw [Nat.one_mul, Nat.mod_eq_of_lt hs, bytesAt_add, hb]
  refine ⟨?_, rfl⟩
  have : bytesAt mem (p + s.length) 1 = [0] := by
    show [mem (p + s.length + 0)] = [0]
    rw [Nat.add_zero, h.2]
  rw [this]

/-- the characters of "hello" -/
def hello : List Byte := [0x68, 0x65, 0x6c, 0x6c, 0x6f]

set_option maxRecDepth 100000 in
private theorem hello_differs : (Model.SHA1.SHA1.digest [hello]).toOption ≠
    (Model.SHA1.SHA1.digest [hello ++ [0]]).toOption := by decide +kernel

/-- C30: README.md:69-73 presents `addData("hello")` as another way to write `addData("hello", 5)`. The digests
of SHA1 differ. -/
theorem C30_README_fails (mem : Nat → Byte) (p : Nat) (h : Literal mem p hello) :
    ∃ o o' f f' d d', Model.SHA1.SHA1.addDataPtr mem Model.SHA1.SHA1.fresh p 5 = .ok o ∧
      Model.SHA1.SHA1.addDataArray mem Model.SHA1.SHA1.fresh p 1 6 = .ok o' ∧
      Model.SHA1.SHA1.finalize o = .ok f ∧ Model.SHA1.SHA1.finalize o' = .ok f' ∧
      Model.SHA1.SHA1.toArray f = .ok d ∧ Model.SHA1.SHA1.toArray f' = .ok d' ∧ d ≠ d' := by
  obtain ⟨e', e⟩ := C30_literal Model.SHA1.SHA1 mem Model.SHA1.SHA1.fresh p hello h (by decide)
  have e : Model.SHA1.SHA1.addDataPtr mem Model.SHA1.SHA1.fresh p 5 = _ := e
  have e' : Model.SHA1.SHA1.addDataArray mem Model.SHA1.SHA1.fresh p 1 6 = _ := e'
  have key : ∀ s : List Byte, s.length < 2 ^ 64 → ∃ o f, Model.SHA1.SHA1.addData Model.SHA1.SHA1.fresh s = .ok o ∧
      Model.SHA1.SHA1.finalize o = .ok f ∧ Model.SHA1.SHA1.toArray f = .ok (Spec.SHA1.sha1 s) := by
    intro s hs
    obtain ⟨f, r, q⟩ := C07_SHA1 [.add s] ⟨rfl, hs, rfl, trivial⟩ trivial
    simp only [List.cons_append, List.nil_append, API.run, API.step, bind, Except.bind] at r
    split at r
    · contradiction
    · rename_i o h1
      split at r
      · contradiction
      · rename_i f' h2
        injection r with r
        subst r
        exact ⟨o, _, h1, h2, q⟩
  obtain ⟨o, f, h1, h2, h3⟩ := key hello (by decide)
  obtain ⟨o', f', k1, k2, k3⟩ := key (hello ++ [0]) (by decide)
  refine ⟨o, o', f, f', _, _, e.trans h1, e'.trans k1, h2, k2, h3, k3, fun hd => hello_differs ?_⟩
  simp only [API.digest, List.map_cons, List.map_nil, List.cons_append, List.nil_append, API.run, API.step, bind,
    Except.bind, h1, h2, h3, k1, k2, k3, hd]

/-! Memories that meet the hypotheses. -/
example : Literal (fun a => (hello ++ [0]).getD (a - 100) 7) 100 hello := by
  unfold Literal; decide
example : Stored (fun a => BitVec.ofNat 8 a) 16 2 [[16, 17], [18, 19], [20, 21]] := by
  unfold Stored
  refine ⟨by decide, ?_⟩
  intro i hi j hj
  match i, hi with
  | 0, _ => simp at hj; match j, hj with | 0, _ => rfl | 1, _ => rfl
  | 1, _ => simp at hj; match j, hj with | 0, _ => rfl | 1, _ => rfl
  | 2, _ => simp at hj; match j, hj with | 0, _ => rfl | 1, _ => rfl

/-! ### C38 -/

/-- C38: `+=` adds modulo 2^128. -/
theorem C38_add (x : Uint128) (n : W64) : (x.add n).toNat = (x.toNat + n.toNat) % 2 ^ 128 := by
  obtain ⟨lo, hi⟩ := x
  have h1 := lo.isLt
  have h2 := hi.isLt
  have h3 := n.isLt
  unfold Uint128.add Uint128.toNat
  simp only [BitVec.lt_def, BitVec.toNat_add]
  split <;> simp only [BitVec.toNat_add, show (1 : W64).toNat = 1 from rfl] <;> omega

/-- C38: `* 8` multiplies modulo 2^128. -/
theorem C38_mul8 (x : Uint128) : x.mul8.toNat = 8 * x.toNat % 2 ^ 128 := by
  obtain ⟨lo, hi⟩ := x
  have h1 := lo.isLt
  have h2 := hi.isLt
  unfold Uint128.mul8 Uint128.toNat
  have hm : ((((lo >>> 61).setWidth 8 : Byte)).setWidth 64).toNat = lo.toNat / 2 ^ 61 := by
    simp only [BitVec.toNat_setWidth, BitVec.toNat_ushiftRight, Nat.shiftRight_eq_div_pow]
    omega
  have ho : ((hi <<< 3) ||| ((lo >>> 61).setWidth 8 : Byte).setWidth 64).toNat =
      hi.toNat * 8 % 2 ^ 64 + lo.toNat / 2 ^ 61 := by
    rw [BitVec.toNat_or, hm, BitVec.toNat_shiftLeft, Nat.shiftLeft_eq]
    have e : hi.toNat * 2 ^ 3 % 2 ^ 64 = (hi.toNat % 2 ^ 61) <<< 3 := by
      rw [Nat.shiftLeft_eq]; omega
    rw [e, ← Nat.shiftLeft_add_eq_or_of_lt (by omega), Nat.shiftLeft_eq]
  simp only []
  rw [ho, BitVec.toNat_shiftLeft, Nat.shiftLeft_eq]
  omega

/-- C38: any sequence of additions to a zero counter gives the sum modulo 2^128, and then `* 8` the number of bits:
exact as long as the number of bits is below 2^128. -/
theorem C38_counter (ns : List W64) :
    (ns.foldl Uint128.add {}).toNat = (ns.map BitVec.toNat).sum % 2 ^ 128 ∧
    (8 * (ns.map BitVec.toNat).sum < 2 ^ 128 →
      (ns.foldl Uint128.add {}).mul8.toNat = 8 * (ns.map BitVec.toNat).sum) := by
  have key : ∀ (x : Uint128), (ns.foldl Uint128.add x).toNat = (x.toNat + (ns.map BitVec.toNat).sum) % 2 ^ 128 := by
    induction ns with
    | nil =>
      intro x
      have h1 := x.lo.isLt
      have h2 := x.hi.isLt
      simp [Uint128.toNat]; omega
    | cons n ns ih =>
      intro x
      rw [List.foldl_cons, ih, C38_add, List.map_cons, List.sum_cons, Nat.mod_add_mod, Nat.add_assoc]
  have k0 := key {}
  rw [show ({} : Uint128).toNat = 0 from rfl, Nat.zero_add] at k0
  refine ⟨k0, fun h => ?_⟩
  rw [C38_mul8, k0]
  omega

/-- C38: the represented number determines both words. -/
theorem C38_words (x y : Uint128) (h : x.toNat = y.toNat) : x = y := by
  obtain ⟨lo, hi⟩ := x
  obtain ⟨lo', hi'⟩ := y
  have h1 := lo.isLt
  have h2 := lo'.isLt
  unfold Uint128.toNat at h
  simp only at h
  congr 1
  · exact BitVec.eq_of_toNat_eq (by omega)
  · exact BitVec.eq_of_toNat_eq (by omega)

example : ((⟨0xffffffffffffffff, 0⟩ : Uint128).add 1) = ⟨0, 1⟩ := by decide
example : (⟨0xffffffffffffffff, 1⟩ : Uint128).mul8 = ⟨0xfffffffffffffff8, 15⟩ := by decide

example := C38_words ⟨5, 7⟩ ⟨5, 7⟩ rfl
example := C30_bytes Model.SHA1.SHA1 (fun a => BitVec.ofNat 8 a) Model.SHA1.SHA1.fresh 16 300 (by decide)

end Verif.Props
