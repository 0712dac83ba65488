import Verif.Proof.SHA3

/-! KECCAK-f[1600] is a permutation: each step mapping is injective. -/

namespace Verif.Proof.SHA3
open Model.SHA3 Spec

/-! theta -/

/-- `C = (x^a + x^a' z^b) C`, as a statement about coordinates -/
def Fixed (C : Fin 5 → Fin 64 → Bool) (a a' : Fin 5) (b : Fin 64) : Prop :=
  ∀ x z, C x z = (C (x - a) z ^^ C (x - a') (z - b))

theorem sub5 : ∀ x a b : Fin 5, x - a - b = x - (a + b) := by decide +kernel
theorem sub64 (z a b : Fin 64) : z - a - b = z - (a + b) := by
  apply Fin.ext
  simp only [Fin.sub_def, Fin.add_def]
  omega

theorem add5 : ∀ a b : Fin 5, a + b = b + a := by decide +kernel

/-- squaring: the cross terms cancel -/
theorem Fixed.sq {C : Fin 5 → Fin 64 → Bool} {a a' : Fin 5} {b : Fin 64} (h : Fixed C a a' b) :
    Fixed C (a + a) (a' + a') (b + b) := by
  intro x z
  rw [h x z, h (x - a) z, h (x - a') (z - b), sub5, sub5, sub5, sub5, sub64, add5 a' a]
  generalize C (x - (a + a)) z = p
  generalize C (x - (a + a')) (z - b) = q
  generalize C (x - (a' + a')) (z - (b + b)) = r
  cases p <;> cases q <;> cases r <;> rfl

theorem zero64 (z : Fin 64) : z - 0 = z := by
  apply Fin.ext
  simp [Fin.sub_def, Nat.mod_eq_of_lt z.isLt]

theorem five (C : Fin 5 → Bool) (h : ∀ x, C x = (C (x - 4) ^^ C (x - 1))) : ∀ x, C x = false := by
  have h0 := h 0; have h1 := h 1; have h2 := h 2; have h3 := h 3; have h4 := h 4
  rw [show (0 : Fin 5) - 4 = 1 from rfl, show (0 : Fin 5) - 1 = 4 from rfl] at h0
  rw [show (1 : Fin 5) - 4 = 2 from rfl, show (1 : Fin 5) - 1 = 0 from rfl] at h1
  rw [show (2 : Fin 5) - 4 = 3 from rfl, show (2 : Fin 5) - 1 = 1 from rfl] at h2
  rw [show (3 : Fin 5) - 4 = 4 from rfl, show (3 : Fin 5) - 1 = 2 from rfl] at h3
  rw [show (4 : Fin 5) - 4 = 0 from rfl, show (4 : Fin 5) - 1 = 3 from rfl] at h4
  have hc : C 0 = false ∧ C 1 = false ∧ C 2 = false ∧ C 3 = false ∧ C 4 = false := by
    revert h0 h1 h2 h3 h4
    generalize C 0 = a; generalize C 1 = b; generalize C 2 = c; generalize C 3 = d; generalize C 4 = e
    cases a <;> cases b <;> cases c <;> cases d <;> cases e <;> decide
  intro x
  rcases x with ⟨x, hx⟩
  have : x = 0 ∨ x = 1 ∨ x = 2 ∨ x = 3 ∨ x = 4 := by omega
  rcases this with e | e | e | e | e <;> subst e
  · exact hc.1
  · exact hc.2.1
  · exact hc.2.2.1
  · exact hc.2.2.2.1
  · exact hc.2.2.2.2

/-- a parity plane that equals its own theta effect is zero -/
theorem fixed_zero {C : Fin 5 → Fin 64 → Bool} (h : Fixed C 1 4 1) : ∀ x z, C x z = false := by
  have h1 : Fixed C 2 3 2 := h.sq
  have h2 : Fixed C 4 1 4 := h1.sq
  have h3 : Fixed C 3 2 8 := h2.sq
  have h4 : Fixed C 1 4 16 := h3.sq
  have h5 : Fixed C 2 3 32 := h4.sq
  have h6 : Fixed C 4 1 0 := h5.sq
  intro x z
  apply five (fun x => C x z)
  intro x
  have := h6 x z
  rw [zero64] at this
  exact this

theorem sub_four : ∀ x : Fin 5, x - 4 = x + 1 := by decide +kernel

theorem parity : ∀ ca ca' cb cb' b0 b1 b2 b3 b4 : Bool,
    (b0 ^^ (ca ^^ ca' ^^ cb ^^ cb') ^^ (b1 ^^ (ca ^^ ca' ^^ cb ^^ cb')) ^^ (b2 ^^ (ca ^^ ca' ^^ cb ^^ cb')) ^^
      (b3 ^^ (ca ^^ ca' ^^ cb ^^ cb')) ^^ (b4 ^^ (ca ^^ ca' ^^ cb ^^ cb')) ^^ (b0 ^^ b1 ^^ b2 ^^ b3 ^^ b4)) =
      (ca ^^ cb ^^ (ca' ^^ cb')) := by decide +kernel

theorem xor_cancel_right : ∀ {a b c : Bool}, (a ^^ c) = (b ^^ c) → a = b := by decide

theorem theta_inj (A B : Keccak.State) (h : Keccak.theta A = Keccak.theta B) : A = B := by
  have hp : ∀ x y z, _ := fun x y z => congrFun (congrFun (congrFun h x) y) z
  unfold Keccak.theta at hp
  dsimp only at hp
  -- column parities and theta effects of the difference
  let CA (x : Fin 5) (z : Fin 64) := A x 0 z ^^ A x 1 z ^^ A x 2 z ^^ A x 3 z ^^ A x 4 z
  let CB (x : Fin 5) (z : Fin 64) := B x 0 z ^^ B x 1 z ^^ B x 2 z ^^ B x 3 z ^^ B x 4 z
  have hC : Fixed (fun x z => CA x z ^^ CB x z) 1 4 1 := by
    intro x z
    have e0 := hp x 0 z; have e1 := hp x 1 z; have e2 := hp x 2 z; have e3 := hp x 3 z; have e4 := hp x 4 z
    change (A x 0 z ^^ (CA (x - 1) z ^^ CA (x + 1) (z - 1))) = (B x 0 z ^^ (CB (x - 1) z ^^ CB (x + 1) (z - 1))) at e0
    change (A x 1 z ^^ (CA (x - 1) z ^^ CA (x + 1) (z - 1))) = (B x 1 z ^^ (CB (x - 1) z ^^ CB (x + 1) (z - 1))) at e1
    change (A x 2 z ^^ (CA (x - 1) z ^^ CA (x + 1) (z - 1))) = (B x 2 z ^^ (CB (x - 1) z ^^ CB (x + 1) (z - 1))) at e2
    change (A x 3 z ^^ (CA (x - 1) z ^^ CA (x + 1) (z - 1))) = (B x 3 z ^^ (CB (x - 1) z ^^ CB (x + 1) (z - 1))) at e3
    change (A x 4 z ^^ (CA (x - 1) z ^^ CA (x + 1) (z - 1))) = (B x 4 z ^^ (CB (x - 1) z ^^ CB (x + 1) (z - 1))) at e4
    have hx := sub_four x
    simp only [hx]
    show ((A x 0 z ^^ A x 1 z ^^ A x 2 z ^^ A x 3 z ^^ A x 4 z) ^^ (B x 0 z ^^ B x 1 z ^^ B x 2 z ^^ B x 3 z ^^ B x 4 z)) = _
    revert e0 e1 e2 e3 e4
    generalize CA (x - 1) z = ca
    generalize CA (x + 1) (z - 1) = ca'
    generalize CB (x - 1) z = cb
    generalize CB (x + 1) (z - 1) = cb'
    intro e0 e1 e2 e3 e4
    have s : ∀ p q a a' b b' : Bool, (p ^^ (a ^^ a')) = (q ^^ (b ^^ b')) → p = (q ^^ (a ^^ a' ^^ b ^^ b')) := by decide
    rw [s _ _ _ _ _ _ e0, s _ _ _ _ _ _ e1, s _ _ _ _ _ _ e2, s _ _ _ _ _ _ e3, s _ _ _ _ _ _ e4]
    exact parity ..
  have hz := fixed_zero hC
  have hCAB : ∀ x z, CA x z = CB x z := by
    intro x z
    have := hz x z
    revert this
    generalize CA x z = a
    generalize CB x z = b
    cases a <;> cases b <;> decide
  funext x y z
  have e := hp x y z
  change (A x y z ^^ (CA (x - 1) z ^^ CA (x + 1) (z - 1))) = (B x y z ^^ (CB (x - 1) z ^^ CB (x + 1) (z - 1))) at e
  rw [hCAB, hCAB] at e
  exact xor_cancel_right e

/-! the other steps -/

theorem add_sub64 (z a : Fin 64) : z + a - a = z := by
  apply Fin.ext
  simp only [Fin.sub_def, Fin.add_def]
  omega

theorem rho_inj (A B : Keccak.State) (h : Keccak.rho A = Keccak.rho B) : A = B := by
  funext x y z
  have := congrFun (congrFun (congrFun h x) y) (z + Fin.ofNat 64 (Keccak.offset x y))
  unfold Keccak.rho at this
  rw [add_sub64] at this
  exact this

theorem pi_index : ∀ x y : Fin 5, y + 3 * (2 * (x - y)) = x := by decide +kernel

theorem pi_inj (A B : Keccak.State) (h : Keccak.pi A = Keccak.pi B) : A = B := by
  funext x y z
  have := congrFun (congrFun (congrFun h y) (2 * (x - y))) z
  unfold Keccak.pi at this
  rw [pi_index] at this
  exact this

theorem chi_row : ∀ a0 a1 a2 a3 a4 b0 b1 b2 b3 b4 : Bool,
    (a0 ^^ ((a1 ^^ true) && a2)) = (b0 ^^ ((b1 ^^ true) && b2)) →
    (a1 ^^ ((a2 ^^ true) && a3)) = (b1 ^^ ((b2 ^^ true) && b3)) →
    (a2 ^^ ((a3 ^^ true) && a4)) = (b2 ^^ ((b3 ^^ true) && b4)) →
    (a3 ^^ ((a4 ^^ true) && a0)) = (b3 ^^ ((b4 ^^ true) && b0)) →
    (a4 ^^ ((a0 ^^ true) && a1)) = (b4 ^^ ((b0 ^^ true) && b1)) → a0 = b0 := by decide +kernel

theorem fin5_add : ∀ x : Fin 5, x + 1 + 1 = x + 2 ∧ x + 1 + 2 = x + 3 ∧ x + 2 + 1 = x + 3 ∧ x + 2 + 2 = x + 4 ∧
    x + 3 + 1 = x + 4 ∧ x + 3 + 2 = x ∧ x + 4 + 1 = x ∧ x + 4 + 2 = x + 1 := by decide +kernel

theorem chi_inj (A B : Keccak.State) (h : Keccak.chi A = Keccak.chi B) : A = B := by
  funext x y z
  have hp : ∀ x, _ := fun x => congrFun (congrFun (congrFun h x) y) z
  unfold Keccak.chi at hp
  obtain ⟨h1, h2, h3, h4, h5, h6, h7, h8⟩ := fin5_add x
  have e0 := hp x
  have e1 := hp (x + 1)
  have e2 := hp (x + 2)
  have e3 := hp (x + 3)
  have e4 := hp (x + 4)
  rw [h1, h2] at e1
  rw [h3, h4] at e2
  rw [h5, h6] at e3
  rw [h7, h8] at e4
  exact chi_row _ _ _ _ _ _ _ _ _ _ e0 e1 e2 e3 e4

theorem iota_inj (ir : Nat) (A B : Keccak.State) (h : Keccak.iota ir A = Keccak.iota ir B) : A = B := by
  funext x y z
  have := congrFun (congrFun (congrFun h x) y) z
  unfold Keccak.iota at this
  split at this
  · exact xor_cancel_right this
  · exact this

theorem rnd_inj (ir : Nat) (A B : Keccak.State) (h : Keccak.rnd ir A = Keccak.rnd ir B) : A = B :=
  theta_inj _ _ (rho_inj _ _ (pi_inj _ _ (chi_inj _ _ (iota_inj ir _ _ h))))

theorem foldl_inj {α β : Type} (f : α → β → α) (hf : ∀ b a a', f a b = f a' b → a = a') (l : List β) (a a' : α)
    (h : l.foldl f a = l.foldl f a') : a = a' := by
  induction l generalizing a a' with
  | nil => exact h
  | cons b l ih => exact hf b a a' (ih _ _ h)

theorem ofState_inj (A B : Keccak.State) (h : Keccak.ofState A = Keccak.ofState B) : A = B := by
  rw [← toState_ofState A, ← toState_ofState B, h]

theorem bitsOf_inj (s t : Model.SHA3.State) (h : bitsOf s = bitsOf t) : s = t := by
  apply Vector.ext
  intro k hk
  apply BitVec.eq_of_getLsbD_eq
  intro j hj
  have e1 := bitsOf_get s (64 * k + j) (by omega)
  have e2 := bitsOf_get t (64 * k + j) (by omega)
  rw [h, e2] at e1
  simp only [Option.some.injEq, show (64 * k + j) / 64 = k by omega, show (64 * k + j) % 64 = j by omega] at e1
  exact e1.symm

theorem permute_inj (s t : Model.SHA3.State) (h : permute s = permute t) : s = t := by
  have e : Keccak.keccakF (bitsOf s) = Keccak.keccakF (bitsOf t) := by rw [keccakF_bits, keccakF_bits, h]
  have e2 := foldl_inj _ (fun ir => rnd_inj ir) _ _ _ (ofState_inj _ _ e)
  unfold bitsOf at e2
  rw [toState_ofState, toState_ofState] at e2
  exact bitsOf_inj s t (by unfold bitsOf; rw [e2])

theorem repeat_inj (n : Nat) (s t : Model.SHA3.State) (h : Nat.repeat permute n s = Nat.repeat permute n t) : s = t := by
  induction n with
  | zero => exact h
  | succ n ih => exact ih (permute_inj _ _ h)

theorem ofState_toState (S : List Bool) (h : S.length = 1600) : Keccak.ofState (Keccak.toState S) = S := by
  apply List.ext_getElem?
  intro i
  by_cases hi : i < 1600
  · rw [ofState_get _ _ hi, List.getElem?_eq_getElem (by omega)]
    unfold Keccak.toState
    simp only [show 64 * (5 * (i / 320) + i / 64 % 5) + i % 64 = i by omega]
    rw [List.getD_eq_getElem?_getD, List.getElem?_eq_getElem (by omega)]
    rfl
  · rw [List.getElem?_eq_none (by rw [ofState_length]; omega), List.getElem?_eq_none (by omega)]

theorem keccakF_inj (S T : List Bool) (hS : S.length = 1600) (hT : T.length = 1600)
    (h : Keccak.keccakF S = Keccak.keccakF T) : S = T := by
  have e2 := foldl_inj _ (fun ir => rnd_inj ir) _ _ _ (ofState_inj _ _ h)
  rw [← ofState_toState S hS, e2, ofState_toState T hT]

theorem run_final (R : Nat) [hR : RateOK R] (P : Byte) (dl : Nat) (ops : List Op) (hl : Legal (ops ++ [.finalize])) :
    ∃ o, (Keccak R P dl).run (Keccak R P dl).fresh (ops ++ [.finalize]) = .ok o ∧ Final R P dl o (message ops) := by
  obtain ⟨o, e, f⟩ := (blockRefines (out := toVector) (N := R) hR.pos (by have := hR.le; omega) (Nat.le_refl R) (den_nil R) (implOK R)
    (Final R P dl) (finalize_rel R P dl)
    (dig := fun m => .ok ((out R (absorbed R (m ++ padBytes R P m.length)) (dl / R + 1)).take dl))
    (by
      intro o m h
      unfold toVector
      rw [h.2])).run_finalize ops hl
  exact ⟨o, e, f⟩

/-- a shorter output is a prefix of a longer one -/
theorem sponge_prefix (R : Nat) [hR : RateOK R] (h8 : R % 8 = 0) (P : Byte) (suf : List Bool) (hs : IsSuffix P suf)
    (m : List Byte) (d d' : Nat) (h : d ≤ d') :
    Keccak.bytes (Keccak.sponge (8 * R) (Keccak.bits m ++ suf) (8 * d)) <+:
      Keccak.bytes (Keccak.sponge (8 * R) (Keccak.bits m ++ suf) (8 * d')) := by
  rw [sponge_eq R h8 P suf hs, sponge_eq R h8 P suf hs]
  generalize absorbed R (m ++ padBytes R P m.length) = s
  obtain ⟨t, e⟩ := out_add R s (d / R + 1) (d' / R - d / R)
  have hd : d / R ≤ d' / R := Nat.div_le_div_right h
  rw [show d / R + 1 + (d' / R - d / R) = d' / R + 1 by omega] at e
  have hlen : d ≤ (out R s (d / R + 1)).length := by
    have h1 := Nat.div_add_mod d R
    have h2 := Nat.mod_lt d hR.pos
    rw [out_length, Nat.add_mul, Nat.mul_comm _ R]
    omega
  have : (out R s (d / R + 1)).take d = (out R s (d' / R + 1)).take d := by
    rw [e, List.take_append_of_le_length hlen]
  rw [this]
  exact List.take_prefix_take_left h

/-- `==` on finalised objects -/
theorem eq_iff (R : Nat) [hR : RateOK R] (h8 : R % 8 = 0) (P : Byte) (suf : List Bool) (hs : IsSuffix P suf) (dl : Nat)
    (o o' : Obj R KState) (m m' : List Byte) (h : Final R P dl o m) (h' : Final R P dl o' m') :
    eq o o' = true ↔
      Keccak.absorb (8 * R) (Keccak.bits m ++ suf) = Keccak.absorb (8 * R) (Keccak.bits m' ++ suf) := by
  rw [absorb_spec R h8 P suf hs, absorb_spec R h8 P suf hs]
  unfold eq
  rw [beq_iff_eq, h.1, h'.1]
  constructor
  · intro e
    rw [repeat_inj _ _ _ e]
  · intro e
    rw [bitsOf_inj _ _ e]

end Verif.Proof.SHA3
