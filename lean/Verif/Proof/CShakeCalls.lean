import Verif.Model.WorkCShake
import Verif.Proof.CShake

/-! # The calls that cSHAKE makes on the object it owns -/

namespace Verif.Proof.CShakeCalls
open Model Model.CShake Proof.CShake
open Spec

section
variable {R : Nat} [hR : SHA3.RateOK R]

theorem zeros_run (n : Nat) (o : CShake R) :
    addZeros n o = CShake.run o ((List.replicate n [(0 : Byte)]).map Op.add) := by
  induction n generalizing o with
  | zero => rfl
  | succ n ih =>
    rw [List.replicate_succ, List.map_cons]
    show CShake.addData o [0] >>= _ = CShake.addData o [0] >>= _
    cases CShake.addData o [0] with
    | error _ => rfl
    | ok o' => exact ih o'

theorem run_append (o : CShake R) (xs ys : List Op) :
    CShake.run o (xs ++ ys) = (do CShake.run (← CShake.run o xs) ys) := by
  induction xs generalizing o with
  | nil => rfl
  | cons x xs ih =>
    show (CShake.step o x >>= fun o => CShake.run o (xs ++ ys)) = ((CShake.step o x >>= fun o => CShake.run o xs) >>= _)
    cases CShake.step o x with
    | error _ => rfl
    | ok r => exact ih r

/-- the constructor is these calls -/
theorem construct_calls (nb : Nat → Nat) (name custom : List Byte) (hne : ¬(name = [] ∧ custom = []))
    (pieces : List (List Byte)) (h : prefixCalls nb R name custom = .ok pieces) (d : Nat) :
    CShake.construct nb R d name custom = CShake.run (mk true ⟨d, (SHA3.Keccak R 0x04 d).fresh⟩) (pieces.map Op.add) := by
  have hcust : (!(name.isEmpty && custom.isEmpty)) = true := by
    cases name with
    | cons a l => rfl
    | nil => cases custom with
      | cons a l => rfl
      | nil => exact absurd ⟨rfl, rfl⟩ hne
  unfold prefixCalls at h
  unfold CShake.construct CShake.processString
  rw [hcust]
  simp only [Bool.true_eq_false, if_false]
  rw [new_mk]
  obtain ⟨bw, ew, h⟩ := bind_ok h
  obtain ⟨bn, en, h⟩ := bind_ok h
  obtain ⟨bc, ec, h⟩ := bind_ok h
  rw [ew, en, ec]
  have h := Except.ok.inj h
  subst h
  rw [List.map_append, run_append]
  show (CShake.addData (mk true ⟨d, _⟩) bw.contents >>= _) = ((CShake.addData (mk true ⟨d, _⟩) bw.contents >>= _) >>= _)
  cases CShake.addData (mk true ⟨d, (SHA3.Keccak R 0x04 d).fresh⟩) bw.contents with
  | error _ => rfl
  | ok o1 =>
    show _ = ((CShake.addData o1 bn.contents >>= _) >>= _)
    simp only [bind, Except.bind]
    cases CShake.addData o1 bn.contents with
    | error _ => rfl
    | ok o2 =>
      simp only []
      show _ = ((CShake.addData o2 name >>= _) >>= _)
      cases CShake.addData o2 name with
      | error _ => rfl
      | ok o3 =>
        simp only [pure, Except.pure]
        show _ = ((CShake.addData o3 bc.contents >>= _) >>= _)
        cases CShake.addData o3 bc.contents with
        | error _ => rfl
        | ok o4 =>
          simp only []
          show _ = ((CShake.addData o4 custom >>= _) >>= _)
          cases CShake.addData o4 custom with
          | error _ => rfl
          | ok o5 =>
            simp only []
            rw [zeros_run]
            rfl

theorem prefix_ok (nb : Nat → Nat) (hnb : SP800185.ExactLog nb) (h8 : R % 8 = 0) (name custom : List Byte)
    (hn : name.length < 2 ^ 53 - 256) (hc : custom.length < 2 ^ 53 - 256) :
    ∃ pieces : List (List Byte), prefixCalls nb R name custom = .ok pieces ∧ (∀ p ∈ pieces, p.length < 2 ^ 64) ∧
      pieces.flatten = pre R name custom := by
  have hle := hR.le
  obtain ⟨bw, ew, hw⟩ := leftEncode_holds nb hnb R (by omega) h8
  obtain ⟨bn, en, hn'⟩ := leftEncode_holds nb hnb (8 * name.length) (by omega) (by omega)
  obtain ⟨bc, ec, hc'⟩ := leftEncode_holds nb hnb (8 * custom.length) (by omega) (by omega)
  have sw := leftEncode_short R (by omega)
  have sn := leftEncode_short (8 * name.length) (by omega)
  have sc := leftEncode_short (8 * custom.length) (by omega)
  have lw : (SP800185.leftEncode R).length ≤ 7 := by
    have := byteLen_min R 6 (by decide) (by omega)
    simp [SP800185.leftEncode]; omega
  have ln : (SP800185.leftEncode (8 * name.length)).length ≤ 8 := by
    have := byteLen_min (8 * name.length) 7 (by decide) (by omega)
    simp [SP800185.leftEncode]; omega
  have lc : (SP800185.leftEncode (8 * custom.length)).length ≤ 8 := by
    have := byteLen_min (8 * custom.length) 7 (by decide) (by omega)
    simp [SP800185.leftEncode]; omega
  refine ⟨_, by
    unfold prefixCalls
    rw [Nat.mod_eq_of_lt (by omega), Nat.mul_comm name.length, Nat.mod_eq_of_lt (by omega), Nat.mul_comm custom.length, ew, en, ec]
    rfl, ?_, ?_⟩
  · intro p hp
    rw [hw.2, hn'.2, hc'.2] at hp
    rcases List.mem_append.1 hp with hp | hp
    · simp only [List.mem_cons, List.not_mem_nil, or_false] at hp
      rcases hp with rfl | rfl | rfl | rfl | rfl <;> omega
    · rw [(List.mem_replicate.1 hp).2]; decide
  · unfold pre SP800185.bytepad
    dsimp only
    rw [hw.2, hn'.2, hc'.2, hw.size_eq, hn'.size_eq, hc'.size_eq, List.flatten_append]
    have e : (((((SP800185.leftEncode R).length + (SP800185.leftEncode (8 * name.length)).length) % 2 ^ 64 + name.length) % 2 ^ 64 +
        (SP800185.leftEncode (8 * custom.length)).length) % 2 ^ 64 + custom.length) % 2 ^ 64 =
        (SP800185.leftEncode R ++ (SP800185.encodeString name ++ SP800185.encodeString custom)).length := by
      simp only [SP800185.encodeString, List.length_append]
      omega
    rw [e]
    have f : ∀ n, (List.replicate n [(0 : Byte)]).flatten = List.replicate n 0 := fun n => by
      induction n with
      | zero => rfl
      | succ n ih => rw [List.replicate_succ, List.flatten_cons, ih]; rfl
    rw [f]
    simp [SP800185.encodeString]

theorem finished_append (xs : List (List Byte)) (ops : List Op) :
    finished (xs.map Op.add ++ ops) ↔ finished ops := by
  unfold finished
  rw [List.getLast?_append]
  cases e : ops.getLast? with
  | some x => rfl
  | none =>
    constructor
    · intro h'
      simp only [Option.none_or, List.getLast?_map] at h'
      obtain ⟨x, _, hx⟩ := Option.map_eq_some_iff.1 h'
      cases hx
    · intro h'; cases h'

theorem legal_append (xs : List (List Byte)) (hx : ∀ p ∈ xs, p.length < 2 ^ 64) (ops : List Op) (h : Legal ops) :
    Legal (xs.map Op.add ++ ops) := by
  unfold Legal at *
  induction xs with
  | nil => exact h
  | cons x xs ih => exact ⟨rfl, hx x (by simp), ih fun p hp => hx p (by simp [hp])⟩

theorem message_append (xs : List (List Byte)) (ops : List Op) :
    message (xs.map Op.add ++ ops) = messageFrom xs.flatten ops := by
  unfold message
  rw [Refines.messageFrom_append]
  congr 1
  exact Refines.message_adds xs

end

end Verif.Proof.CShakeCalls
