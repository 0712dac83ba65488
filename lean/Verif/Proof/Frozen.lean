import Verif.Proof.Misuse

/-! A finalised SHA-3 object keeps its digest until `reset()`. -/

namespace Verif.Proof.Frozen
open Model.SHA3 Proof.Misuse

/-- The squeeze loop only appends to `m_final`. -/
theorem squeeze_prefix (R : Nat) [hR : RateOK R] (dl : Nat) : ∀ k (s s' : KState), dl - s.final.length = k →
    squeeze R dl s = .ok s' → ∃ t, s'.final = s.final ++ t ∧ dl ≤ (s.final ++ t).length := by
  intro k
  induction k using Nat.strongRecOn with
  | _ k ih =>
    intro s s' hk e
    have h1 := stateToVector_length s.state
    have h2 := hR.le
    have h3 := hR.pos
    rw [squeeze] at e
    simp only [] at e
    rw [dif_pos (by omega)] at e
    by_cases hf : dl ≤ (s.final ++ (stateToVector s.state).take R).length
    · rw [dif_pos hf] at e
      cases e
      exact ⟨_, rfl, hf⟩
    · rw [dif_neg hf] at e
      obtain ⟨st, ea⟩ := absorb_ok R s.state (List.replicate R 0) (by simp)
      rw [ea] at e
      simp only [] at e
      have hf' := hf
      rw [List.length_append, List.length_take] at hf'
      obtain ⟨t, et, ht⟩ := ih (dl - (s.final ++ (stateToVector s.state).take R).length)
        (by rw [List.length_append, List.length_take]; omega) ⟨st, _⟩ s' rfl e
      simp only [List.append_assoc] at et ht
      exact ⟨_, et, ht⟩

/-- the chain of an object after `addData` only differs in `m_state` -/
theorem impl_final (R : Nat) [RateOK R] (s s' : KState) (d : List Byte) (e : impl R s d = .ok s') :
    s'.final = s.final := by
  unfold impl at e
  cases h : absorb R s.state d with
  | error x => rw [h] at e; cases e
  | ok st => rw [h] at e; cases e; rfl

theorem finalize_final (R : Nat) [RateOK R] (P : Byte) (dl : Nat) (o o' : Obj R KState)
    (e : finalize R P dl o = .ok o') :
    o'.chain.final.length = dl ∧ (o.chain.final.length = dl → o'.chain.final = o.chain.final) := by
  unfold finalize at e
  cases h1 : o.buffer.fill P 1 with
  | error x => rw [h1] at e; cases e
  | ok b1 =>
  rw [h1] at e
  simp only [bind, Except.bind] at e
  cases h2 : b1.fill 0 ((2 * R - b1.size) % R) with
  | error x => rw [h2] at e; cases e
  | ok b2 =>
  rw [h2] at e
  simp only [] at e
  cases h3 : b2.getAt (b2.size - 1) with
  | error x => rw [h3] at e; cases e
  | ok x =>
  rw [h3] at e
  simp only [] at e
  cases h4 : b2.setAt (b2.size - 1) (x ||| 0x80) with
  | error x => rw [h4] at e; cases e
  | ok b3 =>
  rw [h4] at e
  simp only [] at e
  cases h5 : impl R o.chain b3.contents with
  | error x => rw [h5] at e; cases e
  | ok c =>
  rw [h5] at e
  simp only [] at e
  cases h6 : squeeze R dl c with
  | error x => rw [h6] at e; cases e
  | ok c' =>
  rw [h6] at e
  cases e
  obtain ⟨t, et, ht⟩ := squeeze_prefix R dl _ c c' rfl h6
  have hc := impl_final R _ _ _ h5
  simp only []
  rw [et, hc] at *
  constructor
  · rw [List.length_append, List.length_take, List.length_replicate]; omega
  · intro hl
    rw [← hl, List.take_left', Nat.sub_eq_zero_of_le, List.replicate_zero, List.append_nil]
    · rw [List.length_append]; omega
    · rfl

theorem impl_keeps (R : Nat) [hR : RateOK R] (f : List Byte) : ImplTotal R (impl R) (fun s => s.final = f) := by
  intro s d hs h
  obtain ⟨s', e, _⟩ := sha3_impl R s d trivial h
  exact ⟨s', e, (impl_final R _ _ _ e).trans hs⟩

/-- any calls but `reset()` keep a complete digest -/
theorem run_keeps (R : Nat) [hR : RateOK R] (P : Byte) (dl : Nat) (f : List Byte) (hf : f.length = dl) (ops : List Op) :
    ∀ o, AnyOrder ops → .reset ∉ ops → Room R (fun s => s.final = f) o →
      ∃ o', (Keccak R P dl).run o ops = .ok o' ∧ o'.chain.final = f := by
  induction ops with
  | nil => intro o _ _ h; exact ⟨o, rfl, h.2⟩
  | cons op ops ih =>
    intro o ha hr h
    have ha' : AnyOrder ops := fun d hd => ha d (by simp [hd])
    have hr' : .reset ∉ ops := fun hm => hr (by simp [hm])
    have : ∃ o1, (Keccak R P dl).step o op = .ok o1 ∧ Room R (fun s => s.final = f) o1 := by
      cases op with
      | add d => exact addData_total hR.pos (Nat.le_refl _) (impl_keeps R f) h d
      | reset => exact absurd (by simp) hr
      | finalize =>
        obtain ⟨o1, e1, r1⟩ := sha3_fin R P dl o ⟨h.1, trivial⟩
        refine ⟨o1, e1, r1.1, ?_⟩
        exact ((finalize_final R P dl o o1 e1).2 ((congrArg List.length h.2).trans hf)).trans h.2
    obtain ⟨o1, e1, h1⟩ := this
    obtain ⟨o2, e2, h2⟩ := ih o1 ha' hr' h1
    refine ⟨o2, ?_, h2⟩
    simp only [API.run, e1]
    exact e2

theorem frozen (R : Nat) [hR : RateOK R] (P : Byte) (dl : Nat) (before after : List Op) (hb : AnyOrder before)
    (ha : AnyOrder after) (hr : .reset ∉ after) :
    ∃ o o' d, (Keccak R P dl).run (Keccak R P dl).fresh (before ++ [.finalize]) = .ok o ∧
      (Keccak R P dl).run (Keccak R P dl).fresh (before ++ .finalize :: after) = .ok o' ∧
      (Keccak R P dl).toArray o = .ok d ∧ (Keccak R P dl).toArray o' = .ok d ∧ d.length = dl := by
  obtain ⟨o1, e1, r1⟩ := (sha3Total R P dl).run before _ hb (sha3Total R P dl).fresh
  obtain ⟨o, e, r⟩ := sha3_fin R P dl o1 r1
  have hl := (finalize_final R P dl o1 o e).1
  obtain ⟨o', e', h'⟩ := run_keeps R P dl o.chain.final hl after o ha hr ⟨r.1, rfl⟩
  refine ⟨o, o', o.chain.final, ?_, ?_, rfl, ?_, hl⟩
  · rw [Refines.run_append, e1]
    show (do (Keccak R P dl).run (← finalize R P dl o1) []) = _
    rw [e]; rfl
  · rw [Refines.run_append, e1]
    show (do (Keccak R P dl).run (← finalize R P dl o1) after) = _
    rw [e]; exact e'
  · show Except.ok o'.chain.final = _
    rw [h']

/-- FNV with a basis: `finalize()` changes nothing, so calls in any order add up -/
theorem fnv_run (w v : Nat) (hr : ∀ h : BitVec w, Model.FNV.reset v h = Model.FNV.reset v 0) (ops : List Op) :
    ∀ acc : List Byte, (Model.FNV.FNVHash w v).run (acc.foldl (Model.FNV.body v) (Model.FNV.reset v 0)) ops =
      .ok ((messageFrom acc ops).foldl (Model.FNV.body v) (Model.FNV.reset v 0)) := by
  induction ops with
  | nil => intro acc; rfl
  | cons op ops ih =>
    intro acc
    cases op with
    | add d =>
      show (Model.FNV.FNVHash w v).run (d.foldl _ (acc.foldl _ _)) ops = _
      rw [← List.foldl_append]
      exact ih (acc ++ d)
    | reset =>
      show (Model.FNV.FNVHash w v).run (Model.FNV.reset v _) ops = _
      rw [hr]
      exact ih []
    | finalize => exact ih acc

end Verif.Proof.Frozen
