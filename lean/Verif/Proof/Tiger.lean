import Verif.Model.Tiger
import Verif.Spec.Tiger
import Verif.Proof.Regs

/-! The Tiger model computes the Tiger specification with the S-boxes of the code; Proof/TigerGen.lean
shows that these are the generated ones. -/

namespace Verif.Proof.Tiger
open Model.Tiger Spec

/-- The code's table as a specification S-box. -/
def codeS (k i : Nat) : W64 :=
  match k with
  | 0 => tTable0[i % 256]
  | 1 => tTable1[i % 256]
  | 2 => tTable2[i % 256]
  | _ => tTable3[i % 256]

theorem byte_eq (c : W64) (n : Nat) : (ror 8 c (n * 8)).toNat = Tiger.byte c n := by
  unfold ror Tiger.byte
  rw [BitVec.toNat_setWidth, BitVec.toNat_ushiftRight, Nat.shiftRight_eq_div_pow, Nat.mul_comm n 8,
    Nat.pow_mul]

theorem byte_lt (c : W64) (n : Nat) : Tiger.byte c n < 256 := Nat.mod_lt _ (by decide)

theorem t0_eq (c : W64) (n : Nat) : t0 (ror 8 c (n * 8)) = codeS 0 (Tiger.byte c n) := by
  simp only [t0, codeS, byte_eq, Nat.mod_eq_of_lt (byte_lt c n)]
theorem t1_eq (c : W64) (n : Nat) : t1 (ror 8 c (n * 8)) = codeS 1 (Tiger.byte c n) := by
  simp only [t1, codeS, byte_eq, Nat.mod_eq_of_lt (byte_lt c n)]
theorem t2_eq (c : W64) (n : Nat) : t2 (ror 8 c (n * 8)) = codeS 2 (Tiger.byte c n) := by
  simp only [t2, codeS, byte_eq, Nat.mod_eq_of_lt (byte_lt c n)]
theorem t3_eq (c : W64) (n : Nat) : t3 (ror 8 c (n * 8)) = codeS 3 (Tiger.byte c n) := by
  simp only [t3, codeS, byte_eq, Nat.mod_eq_of_lt (byte_lt c n)]

/-- the triple with the names rotated -/
def rot {α : Type} (q : α × α × α) : α × α × α := (q.2.1, q.2.2, q.1)

theorem round_eq (a b c x mul : W64) :
    rot (round a b c x mul) = Tiger.round codeS (a, b, c) x mul := by
  simp only [round, Tiger.round, rot, t0_eq, t1_eq, t2_eq, t3_eq]

theorem pass_eq (x : Vector W64 8) (a b c mul : W64) :
    rot (rot (pass x a b c mul)) = Tiger.pass codeS x.toList mul (a, b, c) := by
  rw [vec8_toList]
  unfold pass Tiger.pass
  rw [List.foldl_cons, ← round_eq a b c x[0] mul]
  obtain ⟨a, b, c⟩ := round a b c x[0] mul
  dsimp only [rot]
  rw [List.foldl_cons, ← round_eq b c a x[1] mul]
  obtain ⟨b, c, a⟩ := round b c a x[1] mul
  dsimp only [rot]
  rw [List.foldl_cons, ← round_eq c a b x[2] mul]
  obtain ⟨c, a, b⟩ := round c a b x[2] mul
  dsimp only [rot]
  rw [List.foldl_cons, ← round_eq a b c x[3] mul]
  obtain ⟨a, b, c⟩ := round a b c x[3] mul
  dsimp only [rot]
  rw [List.foldl_cons, ← round_eq b c a x[4] mul]
  obtain ⟨b, c, a⟩ := round b c a x[4] mul
  dsimp only [rot]
  rw [List.foldl_cons, ← round_eq c a b x[5] mul]
  obtain ⟨c, a, b⟩ := round c a b x[5] mul
  dsimp only [rot]
  rw [List.foldl_cons, ← round_eq a b c x[6] mul]
  obtain ⟨a, b, c⟩ := round a b c x[6] mul
  dsimp only [rot]
  rw [List.foldl_cons, ← round_eq b c a x[7] mul]
  obtain ⟨b, c, a⟩ := round b c a x[7] mul
  dsimp only [rot]
  rfl

theorem keySchedule_lit (a b c d e f g h : W64) :
    (keySchedule #v[a, b, c, d, e, f, g, h]).toList = Tiger.keySchedule [a, b, c, d, e, f, g, h] := by
  unfold keySchedule Tiger.keySchedule
  dsimp -zeta only
  extract_lets x0 x1 x2 x3 x4 x5 x6 x7 x8 x9 x10 x11 x12 x13 x14 y0 y1 y2 y3 y4 y5 y6 y7 y8 y9 y10 y11 y12 y13 y14 y15
  have h0 : x0 = #v[y0, b, c, d, e, f, g, h] := rfl
  have h1 : x1 = #v[y0, y1, c, d, e, f, g, h] := by unfold x1; rw [h0]; rfl
  have h2 : x2 = #v[y0, y1, y2, d, e, f, g, h] := by unfold x2; rw [h1]; rfl
  have h3 : x3 = #v[y0, y1, y2, y3, e, f, g, h] := by unfold x3; rw [h2]; rfl
  have h4 : x4 = #v[y0, y1, y2, y3, y4, f, g, h] := by unfold x4; rw [h3]; rfl
  have h5 : x5 = #v[y0, y1, y2, y3, y4, y5, g, h] := by unfold x5; rw [h4]; rfl
  have h6 : x6 = #v[y0, y1, y2, y3, y4, y5, y6, h] := by unfold x6; rw [h5]; rfl
  have h7 : x7 = #v[y0, y1, y2, y3, y4, y5, y6, y7] := by unfold x7; rw [h6]; rfl
  have h8 : x8 = #v[y8, y1, y2, y3, y4, y5, y6, y7] := by unfold x8; rw [h7]; rfl
  have h9 : x9 = #v[y8, y9, y2, y3, y4, y5, y6, y7] := by unfold x9; rw [h8]; rfl
  have h10 : x10 = #v[y8, y9, y10, y3, y4, y5, y6, y7] := by unfold x10; rw [h9]; rfl
  have h11 : x11 = #v[y8, y9, y10, y11, y4, y5, y6, y7] := by unfold x11; rw [h10]; rfl
  have h12 : x12 = #v[y8, y9, y10, y11, y12, y5, y6, y7] := by unfold x12; rw [h11]; rfl
  have h13 : x13 = #v[y8, y9, y10, y11, y12, y13, y6, y7] := by unfold x13; rw [h12]; rfl
  have h14 : x14 = #v[y8, y9, y10, y11, y12, y13, y14, y7] := by unfold x14; rw [h13]; rfl
  rw [h14]
  rfl

theorem keySchedule_eq (x : Vector W64 8) :
    (keySchedule x).toList = Tiger.keySchedule x.toList := by
  have e : x = #v[x[0], x[1], x[2], x[3], x[4], x[5], x[6], x[7]] :=
    Vector.toList_inj.mp (vec8_toList x)
  rw [e]
  exact keySchedule_lit _ _ _ _ _ _ _ _

theorem loads_eq (m : Block 64) :
    (#v[loadLE64 m 0, loadLE64 m 1, loadLE64 m 2, loadLE64 m 3,
      loadLE64 m 4, loadLE64 m 5, loadLE64 m 6, loadLE64 m 7] : Vector W64 8).toList
      = (List.range 8).map (wordLE 64 m.toList) := by
  simp only [loadLE64_eq]
  rfl

def tup3 (h : Vector W64 3) : Tiger.State := (h[0], h[1], h[2])

theorem compress_eq (h : Vector W64 3) (m : Block 64) :
    tup3 (compress h m) = Tiger.compress codeS (tup3 h) m.toList := by
  unfold compress Tiger.compress
  simp only []
  rw [← loads_eq]
  generalize (#v[loadLE64 m 0, loadLE64 m 1, loadLE64 m 2, loadLE64 m 3,
      loadLE64 m 4, loadLE64 m 5, loadLE64 m 6, loadLE64 m 7] : Vector W64 8) = x
  rw [← keySchedule_eq, ← keySchedule_eq]
  have hp (x : Vector W64 8) (q : Tiger.State) (mul : W64) : Tiger.pass codeS x.toList mul q
      = rot (rot (pass x q.1 q.2.1 q.2.2 mul)) := (pass_eq x _ _ _ _).symm
  unfold tup3
  rw [hp x]
  dsimp only
  generalize pass x h[0] h[1] h[2] 5 = q
  obtain ⟨a, b, c⟩ := q
  dsimp only [rot]
  rw [hp (keySchedule x)]
  dsimp only
  generalize pass (keySchedule x) c a b 7 = q
  obtain ⟨c, a, b⟩ := q
  dsimp only [rot]
  rw [hp (keySchedule (keySchedule x))]
  dsimp only
  generalize pass (keySchedule (keySchedule x)) b c a 9 = q
  obtain ⟨b, c, a⟩ := q
  rfl

theorem vec3_toList {α : Type} (v : Vector α 3) : v.toList = [v[0], v[1], v[2]] := by
  apply List.ext_getElem
  · simp
  · intro i h1 h2
    simp at h1
    have : i = 0 ∨ i = 1 ∨ i = 2 := by omega
    rcases this with h | h | h <;> subst h <;> simp

theorem toArray_bytes (h : Vector W64 3) :
    h.toList.flatMap (storeLE 8) = bytesLE [(tup3 h).1, (tup3 h).2.1, (tup3 h).2.2] := by
  rw [flatMap_storeLE (w := 64), vec3_toList]
  rfl

theorem toArray_192 (h : Vector W64 3) :
    toArray 192 h = .ok (bytesLE [(tup3 h).1, (tup3 h).2.1, (tup3 h).2.2]) := by
  unfold toArray
  rw [toArray_bytes, resultArray_exact _ _ (by rw [bytesLE_length]; simp)]

/-- 24 bytes do not fit in a shorter array. -/
theorem toArray_short (D : Nat) (hD : D / 8 < 24) (h : Vector W64 3) :
    toArray D h = .error .resultOverrun := by
  unfold toArray resultArray
  rw [toArray_bytes, if_neg]
  rw [bytesLE_length]
  simp; omega

/-- Every variant absorbs and finalises; only reading the digest depends on `D`. -/
def refinesD (V D : Nat) : Refines (Tiger V D) (fun m => toArray D
    (mdFold 64 compress iv (padded 64 8 (if V = 1 then 1 else 1 <<< 7) (fun n => toLE 8 (8 * n)) m))) :=
  mdRefines (by decide) (by decide) _ counterLE64_ok compress iv (toArray D)

def r1' : Refines (Tiger 1 192) (fun m => .ok (Tiger.hash codeS 0x01 m)) :=
  (refinesD 1 192).congr fun m => by
    rw [toArray_192, mdFold_map (f := tup3) compress_eq]
    rfl

def r2' : Refines (Tiger 2 192) (fun m => .ok (Tiger.hash codeS 0x80 m)) :=
  (refinesD 2 192).congr fun m => by
    rw [toArray_192, mdFold_map (f := tup3) compress_eq]
    rfl

end Verif.Proof.Tiger
