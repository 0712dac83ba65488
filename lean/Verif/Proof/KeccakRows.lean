import Verif.Model.KeccakRows
import Verif.Proof.Misuse
import Verif.Proof.Ops

/-! The five rows of five lanes and the list of 25 lanes. -/

namespace Verif.Proof.KeccakRows
open Verif Verif.Model Verif.Model.SHA3 Verif.Model.SHA3.Rows Verif.Ops Verif.Proof.Ops

/-- the lanes one after another -/
def flat (s : Rows) : State := Vector.ofFn fun i : Fin 25 => s[i.val / 5][i.val % 5]

theorem flat_at (s : Rows) (i : Nat) (h : i < 25) : (flat s)[i] = s[i / 5][i % 5] := by
  simp only [flat, Vector.getElem_ofFn]

theorem lane (s : Rows) (y x : Nat) (hy : y < 5) (hx : x < 5) : (flat s)[5 * y + x] = s[y][x] := by
  rw [flat_at]
  have h1 : (5 * y + x) / 5 = y := by omega
  have h2 : (5 * y + x) % 5 = x := by omega
  simp only [h1, h2]

theorem row_self (s : Rows) (y x : Nat) (v : W64) (hy : y < 5) (hx : x < 5) : (put s y x v hy hx)[y] = s[y].set x v :=
  Vector.getElem_set_self hy

theorem row_ne (s : Rows) (y x : Nat) (v : W64) (hy : y < 5) (hx : x < 5) (j : Nat) (hj : j < 5) (h : y ≠ j) :
    (put s y x v hy hx)[j] = s[j] := Vector.getElem_set_ne hy hj h

theorem put_at (s : Rows) (y x : Nat) (v : W64) (hy : y < 5) (hx : x < 5) (j k : Nat) (hj : j < 5) (hk : k < 5) :
    (put s y x v hy hx)[j][k] = if y = j ∧ x = k then v else s[j][k] := by
  by_cases h : y = j
  · subst h
    rw [getElem_congr_coll (row_self s y x v hy hx), Vector.getElem_set]
    simp
  · rw [getElem_congr_coll (row_ne s y x v hy hx j hj h), if_neg (fun e => h e.1)]

theorem flat_put (s : Rows) (y x : Nat) (v : W64) (hy : y < 5) (hx : x < 5) :
    flat (put s y x v hy hx) = (flat s).set (5 * y + x) v := by
  apply Vector.ext
  intro i hi
  rw [flat_at, Vector.getElem_set, flat_at, put_at]
  by_cases h : y = i / 5 ∧ x = i % 5
  · rw [if_pos h, if_pos (by omega)]
  · rw [if_neg h, if_neg (by omega)]

theorem forRange_hom {α β : Type} (f : α → β) {lo hi : Nat} (s : α) {body : (t : Nat) → lo ≤ t → t < hi → α → α}
    {body' : (t : Nat) → lo ≤ t → t < hi → β → β} (h : ∀ t h1 h2 s, f (body t h1 h2 s) = body' t h1 h2 (f s)) :
    f (forRange lo hi s body) = forRange lo hi (f s) body' := by
  unfold forRange
  have : ∀ n (hn : n ≤ hi - lo), f (Nat.fold n (fun i h s => body (lo + i) (by omega) (by omega) s) s) =
      Nat.fold n (fun i h s => body' (lo + i) (by omega) (by omega) s) (f s) := by
    intro n
    induction n with
    | zero => intro _; rfl
    | succ n ih =>
      intro hn
      rw [Nat.fold_succ, Nat.fold_succ, h, ih (by omega)]
  exact this _ (Nat.le_refl _)

theorem flat_of (v00 v01 v02 v03 v04 v10 v11 v12 v13 v14 v20 v21 v22 v23 v24 v30 v31 v32 v33 v34 v40 v41 v42 v43 v44 : W64) :
    flat #v[#v[v00, v01, v02, v03, v04], #v[v10, v11, v12, v13, v14], #v[v20, v21, v22, v23, v24], #v[v30, v31, v32, v33, v34], #v[v40, v41, v42, v43, v44]] =
      #v[v00, v01, v02, v03, v04, v10, v11, v12, v13, v14, v20, v21, v22, v23, v24, v30, v31, v32, v33, v34, v40, v41, v42, v43, v44] := by
  apply Vector.ext
  intro i hi
  rw [flat_at]
  match i, hi with
  | 0, _ => rfl
  | 1, _ => rfl
  | 2, _ => rfl
  | 3, _ => rfl
  | 4, _ => rfl
  | 5, _ => rfl
  | 6, _ => rfl
  | 7, _ => rfl
  | 8, _ => rfl
  | 9, _ => rfl
  | 10, _ => rfl
  | 11, _ => rfl
  | 12, _ => rfl
  | 13, _ => rfl
  | 14, _ => rfl
  | 15, _ => rfl
  | 16, _ => rfl
  | 17, _ => rfl
  | 18, _ => rfl
  | 19, _ => rfl
  | 20, _ => rfl
  | 21, _ => rfl
  | 22, _ => rfl
  | 23, _ => rfl
  | 24, _ => rfl
  | n + 25, h => omega

attribute [local irreducible] flat

theorem lane00 (s : Rows) : (flat s)[5 * 0 + 0] = s[0][0] := lane s 0 0 (by decide) (by decide)
theorem lane01 (s : Rows) : (flat s)[5 * 0 + 1] = s[0][1] := lane s 0 1 (by decide) (by decide)
theorem lane02 (s : Rows) : (flat s)[5 * 0 + 2] = s[0][2] := lane s 0 2 (by decide) (by decide)
theorem lane03 (s : Rows) : (flat s)[5 * 0 + 3] = s[0][3] := lane s 0 3 (by decide) (by decide)
theorem lane04 (s : Rows) : (flat s)[5 * 0 + 4] = s[0][4] := lane s 0 4 (by decide) (by decide)
theorem lane10 (s : Rows) : (flat s)[5 * 1 + 0] = s[1][0] := lane s 1 0 (by decide) (by decide)
theorem lane11 (s : Rows) : (flat s)[5 * 1 + 1] = s[1][1] := lane s 1 1 (by decide) (by decide)
theorem lane12 (s : Rows) : (flat s)[5 * 1 + 2] = s[1][2] := lane s 1 2 (by decide) (by decide)
theorem lane13 (s : Rows) : (flat s)[5 * 1 + 3] = s[1][3] := lane s 1 3 (by decide) (by decide)
theorem lane14 (s : Rows) : (flat s)[5 * 1 + 4] = s[1][4] := lane s 1 4 (by decide) (by decide)
theorem lane20 (s : Rows) : (flat s)[5 * 2 + 0] = s[2][0] := lane s 2 0 (by decide) (by decide)
theorem lane21 (s : Rows) : (flat s)[5 * 2 + 1] = s[2][1] := lane s 2 1 (by decide) (by decide)
theorem lane22 (s : Rows) : (flat s)[5 * 2 + 2] = s[2][2] := lane s 2 2 (by decide) (by decide)
theorem lane23 (s : Rows) : (flat s)[5 * 2 + 3] = s[2][3] := lane s 2 3 (by decide) (by decide)
theorem lane24 (s : Rows) : (flat s)[5 * 2 + 4] = s[2][4] := lane s 2 4 (by decide) (by decide)
theorem lane30 (s : Rows) : (flat s)[5 * 3 + 0] = s[3][0] := lane s 3 0 (by decide) (by decide)
theorem lane31 (s : Rows) : (flat s)[5 * 3 + 1] = s[3][1] := lane s 3 1 (by decide) (by decide)
theorem lane32 (s : Rows) : (flat s)[5 * 3 + 2] = s[3][2] := lane s 3 2 (by decide) (by decide)
theorem lane33 (s : Rows) : (flat s)[5 * 3 + 3] = s[3][3] := lane s 3 3 (by decide) (by decide)
theorem lane34 (s : Rows) : (flat s)[5 * 3 + 4] = s[3][4] := lane s 3 4 (by decide) (by decide)
theorem lane40 (s : Rows) : (flat s)[5 * 4 + 0] = s[4][0] := lane s 4 0 (by decide) (by decide)
theorem lane41 (s : Rows) : (flat s)[5 * 4 + 1] = s[4][1] := lane s 4 1 (by decide) (by decide)
theorem lane42 (s : Rows) : (flat s)[5 * 4 + 2] = s[4][2] := lane s 4 2 (by decide) (by decide)
theorem lane43 (s : Rows) : (flat s)[5 * 4 + 3] = s[4][3] := lane s 4 3 (by decide) (by decide)
theorem lane44 (s : Rows) : (flat s)[5 * 4 + 4] = s[4][4] := lane s 4 4 (by decide) (by decide)

/-- one round of the loop of theta -/
theorem theta_body (d : Vector W64 5) (y : Nat) (h : y < 5) (s : Rows) :
    flat (
      let s := put s y 0 (s[y][0] ^^^ d[0])
      let s := put s y 1 (s[y][1] ^^^ d[1])
      let s := put s y 2 (s[y][2] ^^^ d[2])
      let s := put s y 3 (s[y][3] ^^^ d[3])
      put s y 4 (s[y][4] ^^^ d[4])) =
      (let s := (flat s).set (5 * y + 0) ((flat s)[5 * y + 0] ^^^ d[0])
      let s := s.set (5 * y + 1) (s[5 * y + 1] ^^^ d[1])
      let s := s.set (5 * y + 2) (s[5 * y + 2] ^^^ d[2])
      let s := s.set (5 * y + 3) (s[5 * y + 3] ^^^ d[3])
      s.set (5 * y + 4) (s[5 * y + 4] ^^^ d[4])) := by
  have l0 := fun s : Rows => lane s y 0 h (by decide)
  have p0 := fun (s : Rows) (v : W64) => (flat_put s y 0 v h (by decide)).symm
  have l1 := fun s : Rows => lane s y 1 h (by decide)
  have p1 := fun (s : Rows) (v : W64) => (flat_put s y 1 v h (by decide)).symm
  have l2 := fun s : Rows => lane s y 2 h (by decide)
  have p2 := fun (s : Rows) (v : W64) => (flat_put s y 2 v h (by decide)).symm
  have l3 := fun s : Rows => lane s y 3 h (by decide)
  have p3 := fun (s : Rows) (v : W64) => (flat_put s y 3 v h (by decide)).symm
  have l4 := fun s : Rows => lane s y 4 h (by decide)
  have p4 := fun (s : Rows) (v : W64) => (flat_put s y 4 v h (by decide)).symm
  simp only [l0, l1, l2, l3, l4, p0, p1, p2, p3, p4]

/-- one round of the loop of chi -/
theorem chi_body (t : Rows) (y : Nat) (h : y < 5) (s : Rows) :
    flat (
      let s := put s y 0 (t[y][0] ^^^ ((~~~ t[y][1]) &&& t[y][2]))
      let s := put s y 1 (t[y][1] ^^^ ((~~~ t[y][2]) &&& t[y][3]))
      let s := put s y 2 (t[y][2] ^^^ ((~~~ t[y][3]) &&& t[y][4]))
      let s := put s y 3 (t[y][3] ^^^ ((~~~ t[y][4]) &&& t[y][0]))
      put s y 4 (t[y][4] ^^^ ((~~~ t[y][0]) &&& t[y][1]))) =
      (let t := flat t
      let s := (flat s).set (5 * y + 0) (t[5 * y + 0] ^^^ ((~~~ t[5 * y + 1]) &&& t[5 * y + 2]))
      let s := s.set (5 * y + 1) (t[5 * y + 1] ^^^ ((~~~ t[5 * y + 2]) &&& t[5 * y + 3]))
      let s := s.set (5 * y + 2) (t[5 * y + 2] ^^^ ((~~~ t[5 * y + 3]) &&& t[5 * y + 4]))
      let s := s.set (5 * y + 3) (t[5 * y + 3] ^^^ ((~~~ t[5 * y + 4]) &&& t[5 * y + 0]))
      s.set (5 * y + 4) (t[5 * y + 4] ^^^ ((~~~ t[5 * y + 0]) &&& t[5 * y + 1]))) := by
  have l0 := fun s : Rows => lane s y 0 h (by decide)
  have p0 := fun (s : Rows) (v : W64) => (flat_put s y 0 v h (by decide)).symm
  have l1 := fun s : Rows => lane s y 1 h (by decide)
  have p1 := fun (s : Rows) (v : W64) => (flat_put s y 1 v h (by decide)).symm
  have l2 := fun s : Rows => lane s y 2 h (by decide)
  have p2 := fun (s : Rows) (v : W64) => (flat_put s y 2 v h (by decide)).symm
  have l3 := fun s : Rows => lane s y 3 h (by decide)
  have p3 := fun (s : Rows) (v : W64) => (flat_put s y 3 v h (by decide)).symm
  have l4 := fun s : Rows => lane s y 4 h (by decide)
  have p4 := fun (s : Rows) (v : W64) => (flat_put s y 4 v h (by decide)).symm
  simp only [l0, l1, l2, l3, l4, p0, p1, p2, p3, p4]

/-- what theta adds to the columns -/
def columnSums (c : Vector W64 5) : Vector W64 5 := #v[
    c[4] ^^^ rotl c[1] 1,
    c[0] ^^^ rotl c[2] 1,
    c[1] ^^^ rotl c[3] 1,
    c[2] ^^^ rotl c[4] 1,
    c[3] ^^^ rotl c[0] 1]

/-- theta after the columns have been added up, on the list -/
def thetaFlat (d : Vector W64 5) (s : State) : State :=
  forRange 0 5 s fun y _ _ s =>
    let s := s.set (5 * y + 0) (s[5 * y + 0] ^^^ d[0])
    let s := s.set (5 * y + 1) (s[5 * y + 1] ^^^ d[1])
    let s := s.set (5 * y + 2) (s[5 * y + 2] ^^^ d[2])
    let s := s.set (5 * y + 3) (s[5 * y + 3] ^^^ d[3])
    s.set (5 * y + 4) (s[5 * y + 4] ^^^ d[4])

/-- theta after the columns have been added up, on the rows -/
def thetaRows (d : Vector W64 5) (s : Rows) : Rows :=
  forRange 0 5 s fun y _ _ s =>
    let s := put s y 0 (s[y][0] ^^^ d[0])
    let s := put s y 1 (s[y][1] ^^^ d[1])
    let s := put s y 2 (s[y][2] ^^^ d[2])
    let s := put s y 3 (s[y][3] ^^^ d[3])
    put s y 4 (s[y][4] ^^^ d[4])

theorem flat_thetaRows (d : Vector W64 5) (s : Rows) : flat (thetaRows d s) = thetaFlat d (flat s) :=
  forRange_hom flat s fun y _ h s' => theta_body d y h s'

theorem columns (s : Rows) : (#v[(flat s)[5 * 0 + 0] ^^^ (flat s)[5 * 1 + 0] ^^^ (flat s)[5 * 2 + 0] ^^^ (flat s)[5 * 3 + 0] ^^^ (flat s)[5 * 4 + 0],
      (flat s)[5 * 0 + 1] ^^^ (flat s)[5 * 1 + 1] ^^^ (flat s)[5 * 2 + 1] ^^^ (flat s)[5 * 3 + 1] ^^^ (flat s)[5 * 4 + 1],
      (flat s)[5 * 0 + 2] ^^^ (flat s)[5 * 1 + 2] ^^^ (flat s)[5 * 2 + 2] ^^^ (flat s)[5 * 3 + 2] ^^^ (flat s)[5 * 4 + 2],
      (flat s)[5 * 0 + 3] ^^^ (flat s)[5 * 1 + 3] ^^^ (flat s)[5 * 2 + 3] ^^^ (flat s)[5 * 3 + 3] ^^^ (flat s)[5 * 4 + 3],
      (flat s)[5 * 0 + 4] ^^^ (flat s)[5 * 1 + 4] ^^^ (flat s)[5 * 2 + 4] ^^^ (flat s)[5 * 3 + 4] ^^^ (flat s)[5 * 4 + 4]] : Vector W64 5) =
    #v[s[0][0] ^^^ s[1][0] ^^^ s[2][0] ^^^ s[3][0] ^^^ s[4][0],
      s[0][1] ^^^ s[1][1] ^^^ s[2][1] ^^^ s[3][1] ^^^ s[4][1],
      s[0][2] ^^^ s[1][2] ^^^ s[2][2] ^^^ s[3][2] ^^^ s[4][2],
      s[0][3] ^^^ s[1][3] ^^^ s[2][3] ^^^ s[3][3] ^^^ s[4][3],
      s[0][4] ^^^ s[1][4] ^^^ s[2][4] ^^^ s[3][4] ^^^ s[4][4]] := by
  simp only [lane00, lane01, lane02, lane03, lane04, lane10, lane11, lane12, lane13, lane14, lane20, lane21, lane22, lane23, lane24, lane30, lane31, lane32, lane33, lane34, lane40, lane41, lane42, lane43, lane44]

theorem flat_theta (s : Rows) : flat (Rows.theta s) = SHA3.theta (flat s) :=
  (flat_thetaRows (columnSums _) s).trans (congrArg (fun c => thetaFlat (columnSums c) (flat s)) (columns s).symm)

theorem flat_tmp (s : Rows) : flat (Rows.tmp s) = SHA3.tmp (flat s) := by
  unfold SHA3.tmp
  simp only [lane00, lane01, lane02, lane03, lane04, lane10, lane11, lane12, lane13, lane14, lane20, lane21, lane22, lane23, lane24, lane30, lane31, lane32, lane33, lane34, lane40, lane41, lane42, lane43, lane44]
  unfold Rows.tmp
  exact flat_of _ _ _ _ _ _ _ _ _ _ _ _ _ _ _ _ _ _ _ _ _ _ _ _ _

theorem flat_rhoPiChi (s : Rows) : flat (Rows.rhoPiChi s) = SHA3.rhoPiChi (flat s) := by
  unfold SHA3.rhoPiChi Rows.rhoPiChi
  rw [← flat_tmp]
  generalize Rows.tmp s = t
  exact forRange_hom flat s fun y _ h s' => chi_body t y h s'

theorem flat_iota (i : Nat) (h : i < 24) (s : Rows) : flat (Rows.iota i h s) = SHA3.iota i h (flat s) := by
  unfold Rows.iota SHA3.iota
  rw [flat_put, ← lane00]

theorem flat_permute (s : Rows) : flat (Rows.permute s) = SHA3.permute (flat s) := by
  refine forRange_hom flat s fun i _ h s' => ?_
  rw [flat_iota, flat_rhoPiChi, flat_theta]

theorem flat_init : flat (Vector.replicate 5 (Vector.replicate 5 0)) = Vector.replicate 25 0 := by
  apply Vector.ext
  intro i hi
  rw [flat_at]
  simp

theorem flat_zero (s : Rows) : Rows.zero s = Vector.replicate 5 (Vector.replicate 5 0) := by
  have row : ∀ (y : Nat) (hy : y < 5) (s : Rows), forRange 0 5 s (fun x _ _ s => put s y x 0) = s.set y (Vector.replicate 5 0) := by
    intro y hy s
    have := forRange_inv (lo := 0) (hi := 5) (by decide) (init := s) (body := fun x _ _ s => put s y x 0)
      (fun n t => ∀ (j : Nat) (hj : j < 5), (j ≠ y → t[j] = s[j]) ∧ ∀ x (hx : x < 5), x < n → t[y][x] = 0)
      (fun j hj => ⟨fun _ => rfl, fun x hx h => absurd h (by omega)⟩) (by
        intro n _ hn t ih j hj
        refine ⟨fun hne => ?_, fun x hx h => ?_⟩
        · exact (row_ne t y n 0 hy hn j hj (Ne.symm hne)).trans ((ih j hj).1 hne)
        · rw [put_at]
          split
          · rfl
          · exact (ih j hj).2 x hx (by omega))
    apply Vector.ext
    intro j hj
    rw [Vector.getElem_set]
    split
    · rename_i e
      subst e
      apply Vector.ext
      intro x hx
      rw [(this y hy).2 x hx hx]
      simp
    · rename_i e
      exact (this j hj).1 (Ne.symm e)
  have := forRange_inv (lo := 0) (hi := 5) (by decide) (init := s) (body := fun y _ _ s => forRange 0 5 s (fun x _ _ s => put s y x 0))
    (fun n t => ∀ (j : Nat) (hj : j < 5), j < n → t[j] = Vector.replicate 5 0) (fun j hj h => absurd h (by omega)) (by
      intro n _ hn t ih j hj h
      rw [row n hn]
      simp only [Vector.getElem_set]
      split
      · rfl
      · exact ih j hj (by omega))
  apply Vector.ext
  intro j hj
  rw [show (Rows.zero s)[j] = _ from this j hj hj]
  simp

/-! ## The pointer -/

theorem read_whole (s : Rows) (i : Nat) (h : i < 25) : wholeObject.read s i = .ok ((flat s)[i]) := by
  unfold Pointer.read
  rw [dif_pos ⟨h, h⟩, flat_at]

theorem write_whole (s : Rows) (i : Nat) (v : W64) (h : i < 25) :
    ∃ t, wholeObject.write s i v = .ok t ∧ flat t = (flat s).set i v := by
  unfold Pointer.write
  rw [dif_pos ⟨h, h⟩]
  refine ⟨_, rfl, ?_⟩
  rw [flat_put]
  have : 5 * (i / 5) + i % 5 = i := by omega
  simp only [this]

theorem xorBlock_whole {R : Nat} [hR : RateOK R] (s : Rows) (m : Block R) :
    ∃ t, Rows.xorBlock wholeObject s m = .ok t ∧ flat t = SHA3.xorBlock (flat s) m := by
  have hle := hR.le
  have key : ∀ n (hn : n ≤ R / 8 - 0), ∃ t,
      Nat.fold n (fun i h acc => (do
        let s ← acc
        let v ← wholeObject.read s (0 + i)
        wholeObject.write s (0 + i) (v ^^^ loadLE64 m (0 + i)) : Except Fault Rows)) (.ok s) = .ok t ∧
      flat t = Nat.fold n (fun i h (s : State) => s.set (0 + i) (s[0 + i] ^^^ loadLE64 m (0 + i))) (flat s) := by
    intro n
    induction n with
    | zero => intro _; exact ⟨s, rfl, rfl⟩
    | succ n ih =>
      intro hn
      obtain ⟨t, e, ht⟩ := ih (by omega)
      obtain ⟨t', e', ht'⟩ := write_whole t (0 + n) ((flat t)[0 + n] ^^^ loadLE64 m (0 + n)) (by omega)
      refine ⟨t', ?_, ?_⟩
      · rw [Nat.fold_succ, e]
        show (wholeObject.read t (0 + n) >>= fun v => wholeObject.write t (0 + n) (v ^^^ loadLE64 m (0 + n))) = _
        rw [read_whole t (0 + n) (by omega)]
        exact e'
      · rw [Nat.fold_succ, ht', ← ht]
  exact key _ (Nat.le_refl _)

theorem both_same {α : Type} (x : Except Fault α) : Both Eq x x := by cases x <;> rfl

theorem absorb_whole {R : Nat} [RateOK R] (s : Rows) (d : List Byte) :
    Both (fun t k => flat t = k) (Rows.absorb wholeObject R s d) (SHA3.absorb R (flat s) d) := by
  unfold Rows.absorb SHA3.absorb
  by_cases h : d.length % R ≠ 0
  · rw [if_pos h, if_pos h]; rfl
  · rw [if_neg h, if_neg h]
    show Both _ (List.foldlM _ _ _) (forBlocks R body d (flat s))
    unfold forBlocks
    generalize List.range (d.length / R) = l
    generalize hk : flat s = k
    induction l generalizing s k with
    | nil => exact hk
    | cons i l ih =>
      rw [List.foldlM_cons, List.foldlM_cons]
      refine both_bind (R := fun t k => flat t = k) ?_ fun t k e => ih t k e
      refine both_bind (both_same _) fun m m' em => ?_
      subst em hk
      obtain ⟨t, e, ht⟩ := xorBlock_whole s m
      rw [e]
      show flat (Rows.permute t) = SHA3.permute (SHA3.xorBlock (flat s) m)
      rw [flat_permute, ht]

theorem mapM_ok {α β : Type} (f : α → Except Fault β) (g : α → β) (l : List α) (h : ∀ a ∈ l, f a = .ok (g a)) :
    l.mapM f = .ok (l.map g) := by
  induction l with
  | nil => rfl
  | cons a l ih =>
    rw [List.mapM_cons, h a List.mem_cons_self, ih fun b hb => h b (List.mem_cons_of_mem _ hb)]
    rfl

theorem stateToVector_whole (s : Rows) : Rows.stateToVector wholeObject s = .ok (SHA3.stateToVector (flat s)) := by
  unfold Rows.stateToVector SHA3.stateToVector
  rw [mapM_ok _ (fun i => if h : i < 25 then (flat s)[i] else 0) _ fun i hi => by
    have : i < 25 := List.mem_range.1 hi
    rw [read_whole s i this, dif_pos this]]
  have : (List.range 25).map (fun i => if h : i < 25 then (flat s)[i] else 0) = (flat s).toList := by
    apply List.ext_getElem
    · simp
    · intro i h1 h2
      have : i < 25 := by simpa using h1
      simp [this]
  rw [this]
  rfl

/-- the same lanes, the same digest -/
def Same (s : RState) (k : KState) : Prop := flat s.state = k.state ∧ s.final = k.final

/-- the same buffer, the same lanes, the same digest -/
def SameO {N : Nat} (o : Obj N RState) (o' : Obj N KState) : Prop := o.buffer = o'.buffer ∧ Same o.chain o'.chain

theorem impl_whole {R : Nat} [RateOK R] (s : RState) (k : KState) (d : List Byte) (h : Same s k) :
    Both Same (Rows.impl wholeObject R s d) (SHA3.impl R k d) := by
  unfold Rows.impl SHA3.impl
  rw [← h.1]
  exact both_bind (absorb_whole _ _) fun t k e => ⟨e, h.2⟩

section
variable {N B : Nat} {S S' : Type} {RS : S → S' → Prop} {impl : S → List Byte → Except Fault S}
  {impl' : S' → List Byte → Except Fault S'}

theorem addDataTail_rel (hi : ∀ s s' d, RS s s' → Both RS (impl s d) (impl' s' d)) (o : Obj N S) (o' : Obj N S')
    (hb : o.buffer = o'.buffer) (hc : RS o.chain o'.chain) (d : List Byte) :
    Both (fun o o' => o.buffer = o'.buffer ∧ RS o.chain o'.chain) (addDataTail B impl o d) (addDataTail B impl' o' d) := by
  unfold addDataTail
  dsimp only
  split
  · refine both_bind (both_same _) fun b b' e => ?_
    exact ⟨e, hc⟩
  · refine both_bind (both_same _) fun f f' e => ?_
    subst e
    refine both_bind (hi _ _ _ hc) fun c c' h => ?_
    split
    · refine both_bind (both_same _) fun b b' e => ?_
      exact ⟨e, h⟩
    · exact ⟨hb, h⟩

theorem addData_rel (hi : ∀ s s' d, RS s s' → Both RS (impl s d) (impl' s' d)) (o : Obj N S) (o' : Obj N S')
    (hb : o.buffer = o'.buffer) (hc : RS o.chain o'.chain) (d : List Byte) :
    Both (fun o o' => o.buffer = o'.buffer ∧ RS o.chain o'.chain) (addData B impl o d) (addData B impl' o' d) := by
  unfold addData
  rw [hb]
  split
  · refine both_bind (both_same _) fun b b' e => ?_
    subst e
    split
    · exact ⟨rfl, hc⟩
    · refine both_bind (hi _ _ _ hc) fun c c' h => ?_
      refine both_bind (both_same _) fun r r' e => ?_
      subst e
      exact addDataTail_rel hi ⟨b.clear, c⟩ ⟨b.clear, c'⟩ rfl h r
  · exact addDataTail_rel hi o o' hb hc d

end

theorem squeeze_whole {R : Nat} [hR : RateOK R] (d : Nat) (n : Nat) : ∀ (s : RState) (k : KState), Same s k →
    d - s.final.length = n → Both Same (Rows.squeeze wholeObject R d s) (SHA3.squeeze R d k) := by
  induction n using Nat.strongRecOn with
  | ind n ih =>
    intro s k h hn
    rw [Rows.squeeze, SHA3.squeeze, stateToVector_whole, h.1]
    have hl := stateToVector_length k.state
    have hp := hR.pos
    have hle := hR.le
    simp only []
    have hin : R ≤ (SHA3.stateToVector k.state).length := by omega
    rw [dif_pos hin, dif_pos hin, h.2]
    split
    · exact ⟨h.1, rfl⟩
    · rename_i hf
      have ha := absorb_whole (R := R) s.state (List.replicate R 0)
      rw [h.1] at ha
      cases hx : Rows.absorb wholeObject R s.state (List.replicate R 0) with
      | error e =>
        cases hy : SHA3.absorb R k.state (List.replicate R 0) with
        | error e' => rw [hx, hy] at ha; exact ha
        | ok y => rw [hx, hy] at ha; exact ha.elim
      | ok t =>
        cases hy : SHA3.absorb R k.state (List.replicate R 0) with
        | error e' => rw [hx, hy] at ha; exact ha.elim
        | ok y =>
          rw [hx, hy] at ha
          simp only [List.length_append, List.length_take, ge_iff_le, Nat.not_le] at hf
          exact ih _ (by rw [← hn, h.2]; simp only [List.length_append, List.length_take]; omega) ⟨t, _⟩ ⟨y, _⟩ ⟨ha, rfl⟩ rfl

theorem finalize_whole {R : Nat} [RateOK R] (P : Byte) (d : Nat) (o : Obj R RState) (o' : Obj R KState) (h : SameO o o') :
    Both SameO (Rows.finalize wholeObject R P d o) (SHA3.finalize R P d o') := by
  unfold Rows.finalize SHA3.finalize
  rw [h.1]
  refine both_bind (both_same _) fun b b' e => ?_
  subst e
  refine both_bind (both_same _) fun b b' e => ?_
  subst e
  refine both_bind (both_same _) fun b b' e => ?_
  subst e
  refine both_bind (both_same _) fun b b' e => ?_
  subst e
  refine both_bind (impl_whole _ _ _ h.2) fun c c' hc => ?_
  refine both_bind (squeeze_whole d _ c c' hc rfl) fun c c' hc => ?_
  exact ⟨rfl, hc.1, by simp only [hc.2]⟩

theorem step_whole {R : Nat} [RateOK R] (P : Byte) (d : Nat) (o : Obj R RState) (o' : Obj R KState) (h : SameO o o') (op : Op) :
    Both SameO ((Rows.Keccak wholeObject R P d).step o op) ((SHA3.Keccak R P d).step o' op) := by
  cases op with
  | add data => exact addData_rel (fun s s' d h => impl_whole s s' d h) o o' h.1 h.2 data
  | reset =>
    refine ⟨?_, ?_, rfl⟩
    · show o.buffer.clear = o'.buffer.clear
      rw [h.1]
    · show flat (Rows.zero o.chain.state) = Vector.replicate 25 0
      rw [flat_zero, flat_init]
  | finalize => exact finalize_whole P d o o' h

theorem run_whole {R : Nat} [RateOK R] (P : Byte) (d : Nat) (ops : List Op) : ∀ (o : Obj R RState) (o' : Obj R KState), SameO o o' →
    Both SameO ((Rows.Keccak wholeObject R P d).run o ops) ((SHA3.Keccak R P d).run o' ops) := by
  induction ops with
  | nil => intro o o' h; exact h
  | cons op ops ih => intro o o' h; exact both_bind (step_whole P d o o' h op) ih

/-! ## A pointer that reaches less than the whole array -/

/-- `x` is `y`, or the array was left -/
def Or' {α : Type} (x y : Except Fault α) : Prop := x = .error .bufferOverrun ∨ x = y

theorem or_refl {α : Type} (x : Except Fault α) : Or' x x := .inr rfl

theorem or_bind {α β : Type} {x y : Except Fault α} {f g : α → Except Fault β} (h : Or' x y) (hf : ∀ a, Or' (f a) (g a)) :
    Or' (x >>= f) (y >>= g) := by
  rcases h with rfl | rfl
  · exact .inl rfl
  · cases x with
    | error e => exact .inr rfl
    | ok a => exact hf a

theorem read_row (p : Pointer) (s : Rows) (i : Nat) : Or' (p.read s i) (wholeObject.read s i) := by
  unfold Pointer.read
  by_cases h : i < p.reach ∧ i < 25
  · rw [dif_pos h, dif_pos ⟨h.2, h.2⟩]; exact .inr rfl
  · rw [dif_neg h]; exact .inl rfl

theorem write_row (p : Pointer) (s : Rows) (i : Nat) (v : W64) : Or' (p.write s i v) (wholeObject.write s i v) := by
  unfold Pointer.write
  by_cases h : i < p.reach ∧ i < 25
  · rw [dif_pos h, dif_pos ⟨h.2, h.2⟩]; exact .inr rfl
  · rw [dif_neg h]; exact .inl rfl

theorem fold_row {R : Nat} (p : Pointer) (s : Rows) (m : Block R) (n : Nat) (hn : n ≤ R / 8) :
    Or' (Nat.fold n (fun i h acc => (do
        let s ← acc
        let v ← p.read s (0 + i)
        p.write s (0 + i) (v ^^^ loadLE64 m (0 + i)) : Except Fault Rows)) (.ok s))
      (Nat.fold n (fun i h acc => (do
        let s ← acc
        let v ← wholeObject.read s (0 + i)
        wholeObject.write s (0 + i) (v ^^^ loadLE64 m (0 + i)) : Except Fault Rows)) (.ok s)) := by
  induction n with
  | zero => exact or_refl _
  | succ n ih =>
    rw [Nat.fold_succ, Nat.fold_succ]
    exact or_bind (ih (by omega)) fun s => or_bind (read_row p s _) fun v => write_row p s _ _

theorem xorBlock_row {R : Nat} (p : Pointer) (s : Rows) (m : Block R) : Or' (Rows.xorBlock p s m) (Rows.xorBlock wholeObject s m) :=
  fold_row p s m _ (Nat.le_refl _)

theorem absorb_row {R : Nat} (p : Pointer) (s : Rows) (d : List Byte) : Or' (Rows.absorb p R s d) (Rows.absorb wholeObject R s d) := by
  unfold Rows.absorb
  by_cases h : d.length % R ≠ 0
  · rw [if_pos h, if_pos h]; exact .inr rfl
  · rw [if_neg h, if_neg h]
    show Or' (List.foldlM _ _ _) (List.foldlM _ _ _)
    generalize List.range (d.length / R) = l
    induction l generalizing s with
    | nil => exact or_refl _
    | cons i l ih =>
      rw [List.foldlM_cons, List.foldlM_cons]
      refine or_bind ?_ fun s => ih s
      exact or_bind (or_refl _) fun m => or_bind (xorBlock_row p s m) fun t => or_refl _

theorem impl_row {R : Nat} (p : Pointer) (s : RState) (d : List Byte) : Or' (Rows.impl p R s d) (Rows.impl wholeObject R s d) :=
  or_bind (absorb_row p _ _) fun _ => or_refl _

section
variable {N B : Nat} {S : Type} {impl impl' : S → List Byte → Except Fault S}

theorem addDataTail_row (hi : ∀ s d, Or' (impl s d) (impl' s d)) (o : Obj N S) (d : List Byte) :
    Or' (addDataTail B impl o d) (addDataTail B impl' o d) := by
  unfold addDataTail
  dsimp only
  split
  · exact or_refl _
  · exact or_bind (or_refl _) fun f => or_bind (hi _ _) fun c => or_refl _

theorem addData_row (hi : ∀ s d, Or' (impl s d) (impl' s d)) (o : Obj N S) (d : List Byte) :
    Or' (addData B impl o d) (addData B impl' o d) := by
  unfold addData
  split
  · refine or_bind (or_refl _) fun b => ?_
    split
    · exact or_refl _
    · exact or_bind (hi _ _) fun c => or_bind (or_refl _) fun r => addDataTail_row hi _ _
  · exact addDataTail_row hi _ _

end

theorem mapM_leaves {α β : Type} (f : α → Except Fault β) (e : Fault) (hf : ∀ i, f i = .error e ∨ ∃ v, f i = .ok v) (l : List α)
    (h : ∃ i ∈ l, f i = .error e) : l.mapM f = .error e := by
  induction l with
  | nil => obtain ⟨i, hi, _⟩ := h; cases hi
  | cons a l ih =>
    rw [List.mapM_cons]
    rcases hf a with ha | ⟨v, ha⟩
    · rw [ha]; rfl
    · rw [ha]
      have : l.mapM f = .error e := by
        refine ih ?_
        obtain ⟨i, hi, he⟩ := h
        rcases List.mem_cons.1 hi with rfl | hi
        · rw [ha] at he; cases he
        · exact ⟨i, hi, he⟩
      show (do let rest ← l.mapM f; pure (v :: rest) : Except Fault (List β)) = _
      rw [this]
      rfl

theorem stateToVector_leaves (p : Pointer) (hp : p.reach < 25) (s : Rows) : Rows.stateToVector p s = .error .bufferOverrun := by
  unfold Rows.stateToVector
  rw [mapM_leaves (fun i => p.read s i) .bufferOverrun (fun i => ?_) (List.range 25) ⟨p.reach, List.mem_range.2 hp, ?_⟩]
  · rfl
  · unfold Pointer.read
    rw [dif_neg (fun h => Nat.lt_irrefl _ h.1)]
  · unfold Pointer.read
    split
    · exact .inr ⟨_, rfl⟩
    · exact .inl rfl

theorem squeeze_leaves (p : Pointer) (hp : p.reach < 25) {R : Nat} [RateOK R] (d : Nat) (s : RState) :
    Rows.squeeze p R d s = .error .bufferOverrun := by
  rw [Rows.squeeze, stateToVector_leaves p hp]

/-- `finalize` reads all lanes -/
theorem finalize_row {R : Nat} [RateOK R] (p : Pointer) (hp : p.reach < 25) (P : Byte) (d : Nat) (o : Obj R RState)
    (r : Obj R RState) (h : Rows.finalize wholeObject R P d o = .ok r) : Rows.finalize p R P d o = .error .bufferOverrun := by
  unfold Rows.finalize at h ⊢
  cases h1 : o.buffer.fill P with
  | error e => rw [h1] at h; cases h
  | ok b =>
    rw [h1] at h
    simp only [bind, Except.bind] at h ⊢
    cases h2 : b.fill 0 ((2 * R - b.size) % R) with
    | error e => rw [h2] at h; cases h
    | ok b =>
      rw [h2] at h
      simp only [] at h ⊢
      cases h3 : b.getAt (b.size - 1) with
      | error e => rw [h3] at h; cases h
      | ok x =>
        rw [h3] at h
        simp only [] at h ⊢
        cases h4 : b.setAt (b.size - 1) (x ||| 0x80) with
        | error e => rw [h4] at h; cases h
        | ok b' =>
          rw [h4] at h
          simp only [] at h ⊢
          rcases impl_row (R := R) p o.chain b'.contents with hi | hi
          · rw [hi]
          · rw [hi]
            cases h5 : Rows.impl wholeObject R o.chain b'.contents with
            | error e => rw [h5] at h; cases h
            | ok c => simp only [squeeze_leaves p hp]

end Verif.Proof.KeccakRows
