import Verif.Model.Alloc
import Verif.Proof.SHA3
import Verif.Proof.Misuse
import Verif.Proof.CShakeHeap

namespace Verif.Proof.Alloc
open Model Model.SHA3 Proof.SHA3 Proof.Misuse

section
variable {R : Nat} [hR : RateOK R]

/-- `m_final.resize(m_digestLength)` -/
def trim (dl : Nat) (b : Buffer R) (c : KState) : Obj R KState :=
  ⟨b, { c with final := c.final.take dl ++ List.replicate (dl - c.final.length) 0 }⟩

theorem finalize_close (P : Byte) (dl : Nat) (o : Obj R KState) :
    finalize R P dl o = (do
      let o ← close R P o
      return trim dl o.buffer (← squeeze R dl o.chain)) := by
  unfold finalize close
  simp only [bind_assoc, pure_bind]
  rfl

/-- the digest after one more round -/
def more (R : Nat) (s : KState) : List Byte := s.final ++ (stateToVector s.state).take R

theorem more_length (s : KState) : (more R s).length = s.final.length + R := by
  have h1 := stateToVector_length s.state
  have h2 := hR.le
  simp only [more, List.length_append, List.length_take]; omega

theorem squeeze_last (dl : Nat) (s : KState) (h : dl ≤ (more R s).length) :
    squeeze R dl s = .ok ⟨s.state, more R s⟩ := by
  have h1 := stateToVector_length s.state
  have h2 := hR.le
  unfold more at h ⊢
  rw [squeeze]
  simp only []
  rw [dif_pos (by omega), dif_pos h]

theorem squeeze_more (dl : Nat) (s : KState) (h : ¬dl ≤ (more R s).length) :
    squeeze R dl s = squeeze R dl ⟨permute s.state, more R s⟩ := by
  have h1 := stateToVector_length s.state
  have h2 := hR.le
  unfold more at h ⊢
  rw [squeeze]
  simp only []
  rw [dif_pos (by omega), dif_neg h, absorb_zero]

theorem squeezeA_threw (dl : Nat) (f : Supply) (i : Nat) (s : KState)
    (h : f.fails (2 * i) = true ∨ f.fails (2 * i + 1) = true) : squeezeA R dl f i s = .ok (.threw s) := by
  have h1 := stateToVector_length s.state
  have h2 := hR.le
  rw [squeezeA]
  simp only []
  by_cases f0 : f.fails (2 * i) = true
  · rw [if_pos f0]
  · rw [if_neg f0, dif_pos (by omega), if_pos (h.resolve_left f0)]

theorem squeezeA_last (dl : Nat) (f : Supply) (i : Nat) (s : KState)
    (hf : ¬(f.fails (2 * i) = true ∨ f.fails (2 * i + 1) = true)) (h : dl ≤ (more R s).length) :
    squeezeA R dl f i s = .ok (.done ⟨s.state, more R s⟩) := by
  have h1 := stateToVector_length s.state
  have h2 := hR.le
  unfold more at h ⊢
  rw [squeezeA]
  simp only []
  rw [if_neg (fun e => hf (.inl e)), dif_pos (by omega), if_neg (fun e => hf (.inr e)), dif_pos h]

theorem squeezeA_more (dl : Nat) (f : Supply) (i : Nat) (s : KState)
    (hf : ¬(f.fails (2 * i) = true ∨ f.fails (2 * i + 1) = true)) (h : ¬dl ≤ (more R s).length) :
    squeezeA R dl f i s = squeezeA R dl f (i + 1) ⟨permute s.state, more R s⟩ := by
  have h1 := stateToVector_length s.state
  have h2 := hR.le
  unfold more at h ⊢
  rw [squeezeA]
  simp only []
  rw [if_neg (fun e => hf (.inl e)), dif_pos (by omega), if_neg (fun e => hf (.inr e)), dif_neg h, absorb_zero]

theorem squeezeA_cases (dl : Nat) (f : Supply) :
    ∀ k i (s : KState), dl - s.final.length = k →
      (∃ s', squeezeA R dl f i s = .ok (.threw s') ∧ ¬f.Plenty) ∨
        ∃ s', squeeze R dl s = .ok s' ∧ squeezeA R dl f i s = .ok (.done s') := by
  intro k
  induction k using Nat.strongRecOn with
  | _ k ih =>
    intro i s hk
    have h3 := hR.pos
    by_cases hf : f.fails (2 * i) = true ∨ f.fails (2 * i + 1) = true
    · refine .inl ⟨s, squeezeA_threw dl f i s hf, fun hp => ?_⟩
      rw [hp, hp] at hf
      simp at hf
    by_cases h : dl ≤ (more R s).length
    · exact .inr ⟨_, squeeze_last dl s h, squeezeA_last dl f i s hf h⟩
    · rw [squeeze_more dl s h, squeezeA_more dl f i s hf h]
      rw [more_length] at h
      exact ih _ (by dsimp only; rw [more_length]; omega) (i + 1) _ rfl

theorem throwsOrWorks (P : Byte) (dl : Nat) : (KeccakA R P dl).ThrowsOrWorks := by
  intro f o
  show (∀ o', finalizeA R P dl f o = .ok (.done o') → finalize R P dl o = .ok o') ∧
    (f.Plenty → ∀ o', finalize R P dl o = .ok o' → finalizeA R P dl f o = .ok (.done o'))
  rw [finalize_close]
  unfold finalizeA
  cases close R P o with
  | error e => exact ⟨fun _ h => (by cases h), fun _ _ h => by cases h⟩
  | ok x =>
    simp only [bind, Except.bind]
    rcases squeezeA_cases (R := R) dl f _ 0 x.chain rfl with ⟨s', e, hn⟩ | ⟨s', e1, e2⟩
    · rw [e]
      exact ⟨fun _ h => (by cases h), fun hp => absurd hp hn⟩
    · rw [e1, e2]
      exact ⟨fun _ h => (by cases h; rfl), fun _ _ h => by cases h; rfl⟩

/-! ### Any order of calls, any failures -/

theorem finalize_room (P : Byte) (dl : Nat) (o : Obj R KState) (h : Room R (fun _ => True) o) :
    ∃ x, close R P o = .ok x ∧ x.buffer.Holds [] := by
  obtain ⟨o', e, _⟩ := sha3_fin R P dl o h
  rw [finalize_close] at e
  unfold close at e ⊢
  cases e1 : o.buffer.fill P with
  | error _ => rw [e1] at e; cases e
  | ok b1 =>
    rw [e1] at e
    simp only [bind, Except.bind] at e ⊢
    cases e2 : b1.fill 0 ((2 * R - b1.size) % R) with
    | error _ => rw [e2] at e; cases e
    | ok b2 =>
      rw [e2] at e
      simp only [] at e ⊢
      cases e3 : b2.getAt (b2.size - 1) with
      | error _ => rw [e3] at e; cases e
      | ok v =>
        rw [e3] at e
        simp only [] at e ⊢
        cases e4 : b2.setAt (b2.size - 1) (v ||| 0x80) with
        | error _ => rw [e4] at e; cases e
        | ok b3 =>
          rw [e4] at e
          simp only [] at e ⊢
          cases e5 : impl R o.chain b3.contents with
          | error _ => rw [e5] at e; cases e
          | ok c => exact ⟨_, rfl, Buffer.holds_clear b3⟩

theorem finalizeA_room (P : Byte) (dl : Nat) (f : Supply) (o : Obj R KState) (h : Room R (fun _ => True) o) :
    ∃ r, finalizeA R P dl f o = .ok r ∧ Room R (fun _ => True) r.left := by
  obtain ⟨x, e, hb⟩ := finalize_room P dl o h
  unfold finalizeA
  rw [e]
  simp only [bind, Except.bind]
  rcases squeezeA_cases (R := R) dl f _ 0 x.chain rfl with ⟨s', e, hn⟩ | ⟨s', e1, e2⟩
  · rw [e]; exact ⟨_, rfl, ⟨[], hb, hR.pos⟩, trivial⟩
  · rw [e2]; exact ⟨_, rfl, ⟨[], hb, hR.pos⟩, trivial⟩

theorem stepA_room (P : Byte) (dl : Nat) (c : Op × Supply) (o : Obj R KState) (h : Room R (fun _ => True) o)
    (hd : ∀ d, c.1 = .add d → d.length < 2 ^ 64) :
    ∃ r, (KeccakA R P dl).stepA o c = .ok r ∧ Room R (fun _ => True) r.left := by
  obtain ⟨op, f⟩ := c
  cases op with
  | add d =>
    obtain ⟨o', e, h'⟩ := (sha3Total R P dl).add o d h (hd d rfl)
    refine ⟨.done o', ?_, h'⟩
    show (do return Outcome.done (← (Keccak R P dl).addData o d)) = _
    rw [e]; rfl
  | reset => exact ⟨.done _, rfl, (sha3Total R P dl).reset o h⟩
  | finalize => exact finalizeA_room P dl f o h

theorem runA_room (P : Byte) (dl : Nat) : ∀ (cs : List (Op × Supply)) (o : Obj R KState), Room R (fun _ => True) o →
    AnyOrder (cs.map (·.1)) → ∃ o', (KeccakA R P dl).runA o cs = .ok o' ∧ Room R (fun _ => True) o'
  | [], o, h, _ => ⟨o, rfl, h⟩
  | c :: cs, o, h, ha => by
    obtain ⟨r, e, h'⟩ := stepA_room P dl c o h (fun d hd => ha d (by simp [hd]))
    obtain ⟨o', e', h''⟩ := runA_room P dl cs r.left h' (fun d hd => ha d (by simp at hd ⊢; exact .inr hd))
    refine ⟨o', ?_, h''⟩
    show ((KeccakA R P dl).stepA o c >>= fun r => (KeccakA R P dl).runA r.left cs) = _
    rw [e]; exact e'

theorem survives (P : Byte) (dl : Nat) : (KeccakA R P dl).SurvivesNoMemory := by
  intro cs h
  obtain ⟨o, e, _⟩ := runA_room P dl cs _ (sha3Total R P dl).fresh h
  exact ⟨o, _, e, rfl⟩

omit hR in
theorem runA_append (A : AllocAPI (Obj R KState)) (xs ys : List (Op × Supply)) (o : Obj R KState) :
    A.runA o (xs ++ ys) = (do A.runA (← A.runA o xs) ys) := by
  induction xs generalizing o with
  | nil => rfl
  | cons x xs ih =>
    show (A.stepA o x >>= fun r => A.runA r.left (xs ++ ys)) = ((A.stepA o x >>= fun r => A.runA r.left xs) >>= _)
    cases A.stepA o x with
    | error e => rfl
    | ok r => exact ih r.left

theorem resetRepairs (P : Byte) (dl : Nat) : (KeccakA R P dl).ResetRepairsNoMemory := by
  intro before after f h
  obtain ⟨o, e, _⟩ := runA_room P dl before _ (sha3Total R P dl).fresh h
  rw [runA_append]
  show ((KeccakA R P dl).runA (Keccak R P dl).fresh before >>= _) = _
  rw [e]
  rfl

/-! ### What a failed `finalize()` leaves -/

/-- an object with another `m_final` -/
def withFinal (l : List Byte) (o : Obj R KState) : Obj R KState := ⟨o.buffer, ⟨o.chain.state, l⟩⟩

theorem close_withFinal (P : Byte) (l : List Byte) (o x : Obj R KState) (h : close R P o = .ok x) :
    close R P (withFinal l o) = .ok (withFinal l x) ∧ x.chain.final = o.chain.final ∧ x.buffer.Holds [] := by
  unfold close at h ⊢
  show (do
    let b ← o.buffer.fill P
    _) = _ ∧ _
  cases e1 : o.buffer.fill P with
  | error _ => rw [e1] at h; cases h
  | ok b1 =>
    rw [e1] at h
    simp only [bind, Except.bind] at h ⊢
    cases e2 : b1.fill 0 ((2 * R - b1.size) % R) with
    | error _ => rw [e2] at h; cases h
    | ok b2 =>
      rw [e2] at h
      simp only [] at h ⊢
      cases e3 : b2.getAt (b2.size - 1) with
      | error _ => rw [e3] at h; cases h
      | ok v =>
        rw [e3] at h
        simp only [] at h ⊢
        cases e4 : b2.setAt (b2.size - 1) (v ||| 0x80) with
        | error _ => rw [e4] at h; cases h
        | ok b3 =>
          rw [e4] at h
          simp only [impl] at h ⊢
          cases e5 : absorb R o.chain.state b3.contents with
          | error _ => rw [e5] at h; cases h
          | ok c =>
            rw [e5] at h
            have e5' : absorb R (withFinal l o).chain.state b3.contents = .ok c := e5
            rw [e5']
            cases h
            exact ⟨rfl, rfl, Buffer.holds_clear b3⟩

theorem squeeze_prefix (pre : List Byte) : ∀ k dl (s : KState), pre.length ≤ dl → dl - (pre.length + s.final.length) = k →
    ∀ c, squeeze R (dl - pre.length) s = .ok c → squeeze R dl ⟨s.state, pre ++ s.final⟩ = .ok ⟨c.state, pre ++ c.final⟩ := by
  intro k
  induction k using Nat.strongRecOn with
  | _ k ih =>
    intro dl s hp hk c hc
    have h3 := hR.pos
    have e : more R ⟨s.state, pre ++ s.final⟩ = pre ++ more R s := by simp [more]
    by_cases h : dl - pre.length ≤ (more R s).length
    · rw [squeeze_last _ _ h] at hc
      cases hc
      rw [squeeze_last, e]
      rw [e, List.length_append]; omega
    · rw [squeeze_more _ _ h] at hc
      rw [squeeze_more _ _ (by rw [e, List.length_append]; omega), e]
      rw [more_length] at h
      exact ih _ (by dsimp only; rw [more_length]; omega) dl ⟨permute s.state, more R s⟩ hp rfl c hc

theorem finalize_prefix (P : Byte) (pre : List Byte) (dl : Nat) (hp : pre.length ≤ dl) (o o' : Obj R KState)
    (h : finalize R P (dl - pre.length) (withFinal [] o) = .ok o') :
    ∃ x, finalize R P dl (withFinal pre o) = .ok x ∧ x.chain.final = pre ++ o'.chain.final := by
  rw [finalize_close] at h ⊢
  cases e : close R P (withFinal [] o) with
  | error _ => rw [e] at h; cases h
  | ok x =>
    rw [e] at h
    obtain ⟨e1, e2, _⟩ := close_withFinal P pre _ _ e
    have e1' : close R P (withFinal pre o) = .ok (withFinal pre x) := e1
    rw [e1']
    simp only [bind, Except.bind] at h ⊢
    cases es : squeeze R (dl - pre.length) x.chain with
    | error _ => rw [es] at h; cases h
    | ok c =>
      rw [es] at h
      have e2' : x.chain.final = [] := e2
      have hx : (withFinal pre x).chain = ⟨x.chain.state, pre ++ x.chain.final⟩ := by
        rw [e2', List.append_nil]; rfl
      rw [hx, squeeze_prefix pre _ dl x.chain hp rfl c es]
      cases h
      refine ⟨_, rfl, ?_⟩
      simp only [trim]
      rw [List.take_append, List.take_of_length_le hp, List.append_assoc, List.length_append,
        show dl - (pre.length + c.final.length) = dl - pre.length - c.final.length by omega]

theorem absorbed_zeros (M : List Byte) (h : M.length % R = 0) :
    ∀ k, absorbed R (M ++ List.replicate (k * R) 0) = Nat.repeat permute k (absorbed R M) := by
  intro k
  induction k with
  | zero => simp [Nat.repeat]
  | succ k ih =>
    rw [Nat.add_mul, Nat.one_mul, ← List.replicate_append_replicate, ← List.append_assoc]
    have hm : (M ++ List.replicate (k * R) (0 : Byte)).length % R = 0 := by
      rw [List.length_append, List.length_replicate, Nat.add_mod, h]; simp
    unfold absorbed at ih ⊢
    rw [mdFold_append R body init.state hR.pos _ _ hm, ih]
    have := absorb_eq R (Nat.repeat permute k (mdFold R body init.state M)) (List.replicate R 0) (by simp)
    rw [absorb_zero] at this
    replace this := Except.ok.inj this
    exact this.symm.trans (by simp only [Nat.repeat])

theorem squeezeA_state (dl : Nat) (f : Supply) (s : Model.SHA3.State) :
    ∀ n i, dl - i * R = n → ∀ s', squeezeA R dl f i ⟨Nat.repeat permute i s, out R s i⟩ = .ok (.threw s') →
      ∃ k, i ≤ k ∧ (k = i ∨ k * R < dl) ∧ s' = ⟨Nat.repeat permute k s, out R s k⟩ := by
  intro n
  induction n using Nat.strongRecOn with
  | _ n ih =>
    intro i hn s' h
    have h3 := hR.pos
    have e : more R ⟨Nat.repeat permute i s, out R s i⟩ = out R s (i + 1) := (out_succ R s i).symm
    by_cases hf : f.fails (2 * i) = true ∨ f.fails (2 * i + 1) = true
    · rw [squeezeA_threw dl f i _ hf] at h
      cases h
      exact ⟨i, Nat.le_refl _, .inl rfl, rfl⟩
    by_cases hl : dl ≤ (more R ⟨Nat.repeat permute i s, out R s i⟩).length
    · rw [squeezeA_last dl f i _ hf hl] at h; cases h
    · rw [squeezeA_more dl f i _ hf hl, e] at h
      rw [e, out_length] at hl
      obtain ⟨k, h1, h2, h4⟩ := ih _ (by rw [Nat.add_mul] at hl ⊢; omega) (i + 1) rfl s' h
      refine ⟨k, by omega, .inr ?_, h4⟩
      rcases h2 with rfl | h2
      · omega
      · exact h2

theorem sponge_whole (h8 : R % 8 = 0) (P : Byte) (suf : List Bool) (hs : IsSuffix P suf) (m : List Byte) (k : Nat) :
    Spec.Keccak.bytes (Spec.Keccak.sponge (8 * R) (Spec.Keccak.bits m ++ suf) (8 * (k * R))) =
      out R (absorbed R (m ++ padBytes R P m.length)) k := by
  rw [sponge_eq R h8 P suf hs, Nat.mul_div_cancel _ hR.pos]
  obtain ⟨t, e⟩ := out_add R (absorbed R (m ++ padBytes R P m.length)) k 1
  rw [e, List.take_append_of_le_length (by rw [out_length]; exact Nat.le_refl _), List.take_of_length_le]
  rw [out_length]; exact Nat.le_refl _

/-- the chain of an object with some digest bytes already -/
def denP (R : Nat) [RateOK R] (pre : List Byte) (m : List Byte) : KState := ⟨absorbed R m, pre⟩

theorem implOKP (pre : List Byte) : ImplOK R (impl R) (denP R pre) := by
  intro m d hm hd hl
  have h := implOK R m d hm hd hl
  unfold impl den denP at *
  dsimp only at *
  cases e : absorb R (absorbed R m) d with
  | error _ => rw [e] at h; cases h
  | ok x =>
    rw [e] at h
    simp only [bind, Except.bind, pure, Except.pure, Except.ok.injEq, KState.mk.injEq, and_true] at h ⊢
    exact h

theorem adds_rel (P : Byte) (dl : Nat) (pre : List Byte) : ∀ (pieces : List (List Byte)) (o : Obj R KState) (m : List Byte),
    (∀ p ∈ pieces, p.length < 2 ^ 64) → Rel R (denP R pre) o m →
    ∃ o', (Keccak R P dl).run o (pieces.map .add) = .ok o' ∧ Rel R (denP R pre) o' (m ++ pieces.flatten)
  | [], o, m, _, h => ⟨o, rfl, by simpa using h⟩
  | p :: ps, o, m, hp, h => by
    have := hR.le
    obtain ⟨o1, e1, h1⟩ := addData_rel hR.pos (by omega) (Nat.le_refl R) (implOKP pre) h p (hp p (by simp))
    obtain ⟨o2, e2, h2⟩ := adds_rel P dl pre ps o1 (m ++ p) (fun q hq => hp q (by simp [hq])) h1
    refine ⟨o2, ?_, by rw [List.flatten_cons, ← List.append_assoc]; exact h2⟩
    show (addData R (impl R) o p >>= fun o => (Keccak R P dl).run o (ps.map .add)) = _
    rw [e1]; exact e2

omit hR in
theorem run_append (A : API (Obj R KState)) (xs ys : List Op) (o : Obj R KState) :
    A.run o (xs ++ ys) = (do A.run (← A.run o xs) ys) := by
  induction xs generalizing o with
  | nil => rfl
  | cons x xs ih =>
    show (A.step o x >>= fun o => A.run o (xs ++ ys)) = ((A.step o x >>= fun o => A.run o xs) >>= _)
    cases A.step o x with
    | error e => rfl
    | ok r => exact ih r

/-- what an object whose `finalize()` threw computes from then on -/
theorem retry (h8 : R % 8 = 0) (P : Byte) (suf : List Bool) (hs : IsSuffix P suf) (dl : Nat) (f : Supply)
    (o o' : Obj R KState) (m : List Byte) (h : Rel R (den R) o m) (ht : finalizeA R P dl f o = .ok (.threw o')) :
    ∃ k, (k = 0 ∨ k * R < dl) ∧ ∀ pieces : List (List Byte), (∀ p ∈ pieces, p.length < 2 ^ 64) →
      ∃ x, (Keccak R P dl).run o' (pieces.map .add ++ [.finalize]) = .ok x ∧ x.chain.final =
        Spec.Keccak.bytes (Spec.Keccak.sponge (8 * R) (Spec.Keccak.bits m ++ suf) (8 * (k * R))) ++
        Spec.Keccak.bytes (Spec.Keccak.sponge (8 * R) (Spec.Keccak.bits (m ++ padBytes R P m.length ++
          List.replicate (k * R) 0 ++ pieces.flatten) ++ suf) (8 * (dl - k * R))) := by
  have hpos := hR.pos
  have hM := padded_mod R hpos P m
  obtain ⟨y, ey, hy⟩ := finalize_rel R P 0 o m h
  obtain ⟨hc, hb⟩ := h
  have hy1 : y.chain.state = absorbed R (m ++ padBytes R P m.length) := by
    have := hy.1
    rwa [show (0 - 1) / R = 0 by simp] at this
  rw [finalize_close] at ey
  unfold finalizeA at ht
  cases ec : close R P o with
  | error _ => rw [ec] at ey; cases ey
  | ok x =>
    rw [ec] at ey ht
    obtain ⟨_, xf, xb⟩ := close_withFinal P [] o x ec
    have xs : x.chain = ⟨absorbed R (m ++ padBytes R P m.length), []⟩ := by
      simp only [bind, Except.bind] at ey
      rw [squeeze_last 0 _ (Nat.zero_le _)] at ey
      cases ey
      have h1 : x.chain.state = absorbed R (m ++ padBytes R P m.length) := hy1
      have h2 : x.chain.final = [] := by rw [xf, hc]; rfl
      rw [← h1, ← h2]
    simp only [bind, Except.bind] at ht
    rcases squeezeA_cases (R := R) dl f _ 0 x.chain rfl with ⟨s', e, _⟩ | ⟨s', _, e⟩
    · rw [e] at ht
      simp only [pure, Except.pure, Except.ok.injEq, Outcome.threw.injEq] at ht
      rw [xs] at e
      obtain ⟨k, _, hk, rfl⟩ := squeezeA_state dl f _ _ 0 rfl s' e
      refine ⟨k, hk, fun pieces hp => ?_⟩
      have hkl : k * R ≤ dl := by
        rcases hk with rfl | hk
        · simp
        · omega
      have r : Rel R (denP R (out R (absorbed R (m ++ padBytes R P m.length)) k)) o'
          (m ++ padBytes R P m.length ++ List.replicate (k * R) 0) := by
        rw [← ht]
        have := Rel.intro (N := R) (B := R) (den := denP R (out R (absorbed R (m ++ padBytes R P m.length)) k))
          (o := ⟨x.buffer, ⟨Nat.repeat permute k (absorbed R (m ++ padBytes R P m.length)),
            out R (absorbed R (m ++ padBytes R P m.length)) k⟩⟩)
          (m ++ padBytes R P m.length ++ List.replicate (k * R) 0) []
          (by rw [List.length_append, List.length_replicate, Nat.add_mod, hM]; simp) (by simpa using hpos)
          (by unfold denP; rw [absorbed_zeros _ hM]) xb
        rwa [List.append_nil] at this
      obtain ⟨o1, e1, r1⟩ := adds_rel P dl _ pieces o' _ hp r
      have r2 : Rel R (den R) (withFinal [] o1) (m ++ padBytes R P m.length ++ List.replicate (k * R) 0 ++ pieces.flatten) := by
        refine ⟨?_, r1.2⟩
        have := r1.1
        simp only [withFinal, den]
        rw [this]
        rfl
      have hl : (out R (absorbed R (m ++ padBytes R P m.length)) k).length = k * R := out_length _ _ _
      obtain ⟨z, ez, hz⟩ := finalize_rel R P (dl - k * R) _ _ r2
      rw [← hl] at ez
      obtain ⟨w, ew, hw⟩ := finalize_prefix P _ dl (by rw [hl]; exact hkl) o1 z ez
      have ho : withFinal (out R (absorbed R (m ++ padBytes R P m.length)) k) o1 = o1 := by
        have := r1.1
        obtain ⟨ob, os, of⟩ := o1
        simp only [denP, KState.mk.injEq] at this
        simp only [withFinal, Obj.mk.injEq, KState.mk.injEq, true_and]
        exact this.2.symm
      rw [ho] at ew
      refine ⟨w, ?_, ?_⟩
      · rw [run_append, e1]
        show (finalize R P dl o1 >>= fun o => Except.ok o) = _
        rw [ew]; rfl
      · rw [hw, hz.2, sponge_whole h8 P suf hs, sponge_eq R h8 P suf hs]
    · rw [e] at ht; cases ht

theorem not_final : ∀ (fin : Bool) (ops : List Op), legalFrom fin (ops ++ [.finalize]) → Refines.finFlag fin ops = false
  | _, [], h => h.1
  | _, .add _ :: ops, h => not_final false ops h.2.2
  | _, .reset :: ops, h => not_final false ops h
  | _, .finalize :: ops, h => not_final true ops h.2

theorem legal_prefix : ∀ (fin : Bool) (ops : List Op), legalFrom fin (ops ++ [.finalize]) → legalFrom fin ops
  | _, [], _ => trivial
  | _, .add _ :: ops, h => ⟨h.1, h.2.1, legal_prefix false ops h.2.2⟩
  | _, .reset :: ops, h => legal_prefix false ops h
  | _, .finalize :: ops, h => ⟨h.1, legal_prefix true ops h.2⟩

theorem before_final (h8 : R % 8 = 0) (P : Byte) (suf : List Bool) (hs : IsSuffix P suf) (dl : Nat) (ops : List Op)
    (l : Legal (ops ++ [.finalize])) :
    ∃ o, (Keccak R P dl).run (Keccak R P dl).fresh ops = .ok o ∧ Rel R (den R) o (message ops) := by
  obtain ⟨o, e, h⟩ := (refines R h8 P suf hs dl).run_rel ops false _ [] (refines R h8 P suf hs dl).fresh
    (legal_prefix false ops l)
  rw [not_final false ops l] at h
  exact ⟨o, e, h⟩

theorem rel_room {o : Obj R KState} {m : List Byte} (h : Rel R (den R) o m) : Room R (fun _ => True) o :=
  ⟨⟨_, h.2, restPart_lt R m hR.pos⟩, trivial⟩

/-- the first allocation of `finalize()` can fail -/
theorem can_throw (P : Byte) (dl : Nat) (f : Supply) (hf : f.fails 0 = true) (o : Obj R KState)
    (h : Room R (fun _ => True) o) : ∃ o', finalizeA R P dl f o = .ok (.threw o') := by
  obtain ⟨x, e, _⟩ := finalize_room P dl o h
  unfold finalizeA
  rw [e]
  simp only [bind, Except.bind]
  rw [squeezeA_threw dl f 0 _ (.inl hf)]
  exact ⟨_, rfl⟩

end

/-! ### cSHAKE objects and the heap -/

section
open Model.CShake Proof.CShake
variable {R : Nat} [hR : RateOK R]

theorem callA_done (f : Supply) (op : Op) (P : Byte) (k k' : KObj R) (h : callA f op P k = .ok (.done k')) :
    callK op P k = .ok k' := by
  have key : (KeccakA R P k.digestLength).stepA k.obj (op, f) = .ok (.done k'.obj) ∧ k'.digestLength = k.digestLength := by
    unfold callA at h
    cases e : (KeccakA R P k.digestLength).stepA k.obj (op, f) with
    | error _ => rw [e] at h; cases h
    | ok r =>
      rw [e] at h
      cases r with
      | threw x => cases h
      | done x => cases h; exact ⟨rfl, rfl⟩
  have : (Keccak R P k.digestLength).step k.obj op = .ok k'.obj := by
    cases op with
    | finalize => exact (throwsOrWorks P k.digestLength f k.obj).1 _ key.1
    | reset => exact congrArg Except.ok (Outcome.done.inj (Except.ok.inj key.1))
    | add d =>
      have e : ((Keccak R P k.digestLength).addData k.obj d >>= fun x => Except.ok (Outcome.done x)) = _ := key.1
      show (Keccak R P k.digestLength).addData k.obj d = _
      cases h' : (Keccak R P k.digestLength).addData k.obj d with
      | error _ => rw [h'] at e; cases e
      | ok x => rw [h'] at e; cases e; rfl
  unfold callK
  rw [this]
  obtain ⟨dl, x⟩ := k'
  cases key.2
  rfl

theorem step_inv (nb : Nat → Nat) {m : Mem R} (v : Inv m) (st : CStmt) : Fine Inv (m.step nb st) := by
  have g : Sims nb (fun i => if m.customized i = none then .vacant else .movedFrom) m := by
    constructor
    · intro i t h
      dsimp only at h
      split at h <;> cases h
    · intro i
      dsimp only
      split <;> simp [*]
  have h := mem_step nb v g st
  generalize m.step nb st = e at h
  match e, h with
  | .error (.code _), _ => trivial
  | .ok _, h => exact h.1

/-- the slot a statement changes -/
def target : CStmt → Nat
  | .create j _ _ _ => j
  | .call i _ => i
  | .copyNew _ j => j
  | .copyAssign _ j => j
  | .moveNew _ j => j
  | .moveAssign _ j => j
  | .destroy i => i

/-- what a statement that may throw leaves -/
def Left (nb : Nat → Nat) (m : Mem R) (st : CStmt) : Outcome (Mem R) → Prop
  | .done m' => m.step nb st = .ok m' ∧ Inv m'
  | .threw m' => Inv m' ∧ (∀ x, x ≠ target st → m'.customized x = m.customized x ∧ ∀ c, val m' x c = val m x c) ∧
      (m.customized (target st) = none → m' = m)

theorem bindE {α β : Type} {P : α → Prop} {Q : β → Prop} {x : Except HeapFault α} {g : α → Except HeapFault β}
    (h : Fine P x) (hf : ∀ a, x = .ok a → P a → Fine Q (g a)) : Fine Q (x >>= g) := by
  match x, h with
  | .error (.code _), _ => trivial
  | .ok a, h => exact hf a rfl h

omit hR in
theorem storeA_fine {m : Mem R} (v : Inv m) (i : Nat) (b : Bool) (r : Outcome (KObj R)) :
    Fine (fun s => match r, s with
      | .done k, .done m' => m.store i b k = .ok m' ∧ Inv m'
      | .threw _, .threw m' => Inv m' ∧ m'.customized = m.customized ∧ ∀ j c, j ≠ i → val m' j c = val m j c
      | _, _ => False) (m.storeA i b r) := by
  cases r with
  | done k =>
    show Fine _ (m.store i b k >>= fun m' => Except.ok (Outcome.done m'))
    refine bindE (store_fine v i b k) fun m' e h => ?_
    exact ⟨e, h.1⟩
  | threw k =>
    show Fine _ (m.store i b k >>= fun m' => Except.ok (Outcome.threw m'))
    refine bindE (store_fine v i b k) fun m' _ h => ?_
    exact ⟨h.1, h.2.1, fun j c hj => by rw [h.2.2, if_neg (fun e => hj e.1)]⟩

theorem memA_step (nb : Nat → Nat) (f : Supply) {m : Mem R} (v : Inv m) (st : CStmt) :
    Fine (Left nb m st) (m.stepA nb f st) := by
  have hinv := step_inv nb v st
  cases st with
  | create j d name custom =>
    refine bindE (vacant_fine m j) fun _ e1 hj => ?_
    by_cases hf : (f.fails 0 || f.fails 1) = true
    · rw [if_pos hf]
      exact ⟨v, fun _ _ => ⟨rfl, fun _ => rfl⟩, fun _ => rfl⟩
    rw [if_neg hf]
    refine bindE (lift_fine _) fun o e2 _ => ?_
    have e : m.step nb (.create j d name custom) = .ok (m.place j o) := by
      simp only [Mem.step, e1, e2]
      rfl
    rw [e] at hinv
    exact ⟨e, hinv⟩
  | call i op =>
    refine bindE (flag_fine m i) fun c e1 hc => bindE (load_fine v i c) fun k e2 _ =>
      bindE (lift_fine _) fun r e3 e4 => ?_
    have h3 := storeA_fine v i c r
    generalize m.storeA i c r = e at h3
    match e, r, h3, e4 with
    | .error (.code _), _, _, _ => trivial
    | .ok (.done m'), .done k', h3, e4 =>
      refine ⟨?_, h3.2⟩
      simp only [Mem.step, e1, e2, bind, Except.bind, callA_done f op _ k k' e4, lift]
      exact h3.1
    | .ok (.threw m'), .threw k', h3, _ =>
      exact ⟨h3.1, fun x hx => ⟨by rw [h3.2.1], fun c => h3.2.2 x c hx⟩, fun h => by
        rw [show target (.call i op) = i from rfl, hc] at h; cases h⟩
  | copyNew i j =>
    refine bindE (vacant_fine m j) fun _ e1 hj => bindE (flag_fine m i) fun c e2 hc =>
      bindE (load_fine v i c) fun k e3 _ => ?_
    by_cases hf : (f.fails 0 || f.fails 1) = true
    · rw [if_pos hf]
      exact ⟨v, fun _ _ => ⟨rfl, fun _ => rfl⟩, fun _ => rfl⟩
    rw [if_neg hf]
    have e3' : (m.setFlag j (some c)).load i c = .ok k := e3
    have e : m.step nb (.copyNew i j) = .ok ((m.setFlag j (some c)).alloc j c k) := by
      simp only [Mem.step, e1, e2, bind, Except.bind, e3']
      rfl
    rw [e] at hinv
    exact ⟨e, hinv⟩
  | copyAssign i j =>
    refine bindE (flag_fine m i) fun c e1 hc => bindE (flag_fine m j) fun c' e2 hc' => ?_
    by_cases hij : i = j
    · rw [if_pos hij]
      refine ⟨?_, v⟩
      simp only [Mem.step, e1, e2, bind, Except.bind, if_pos hij]
      rfl
    rw [if_neg hij]
    have v1 : Inv (m.setFlag j (some c)) := setFlag_ok v j _ (by simp)
    refine bindE (load_fine v1 i c) fun k e3 _ => bindE (load_fine v1 j c) fun kd e4 _ => ?_
    unfold assignA
    by_cases hf : f.fails 0 = true
    · rw [if_pos hf]
      have h5 := storeA_fine v1 j c (.threw ⟨k.digestLength, ⟨k.obj.buffer, ⟨kd.obj.chain.state, f.left⟩⟩⟩)
      generalize Mem.storeA _ j c _ = e at h5
      match e, h5 with
      | .error (.code _), _ => trivial
      | .ok (.threw m'), h5 =>
        refine ⟨h5.1, fun x hx => ⟨?_, fun c => ?_⟩, fun h => by
          rw [show target (.copyAssign i j) = j from rfl, hc'] at h; cases h⟩
        · rw [h5.2.1]; exact if_neg hx
        · rw [h5.2.2 x c hx]; rfl
    · rw [if_neg hf]
      have h5 := storeA_fine v1 j c (.done k)
      generalize Mem.storeA _ j c _ = e at h5
      match e, h5 with
      | .error (.code _), _ => trivial
      | .ok (.done m'), h5 =>
        refine ⟨?_, h5.2⟩
        simp only [Mem.step, e1, e2, bind, Except.bind, if_neg hij, e3]
        exact h5.1
  | moveNew i j =>
    show Fine _ (do return Outcome.done (← m.step nb (.moveNew i j)))
    generalize he : m.step nb (.moveNew i j) = e at hinv
    match e, hinv with
    | .error (.code _), _ => trivial
    | .ok m', h => exact ⟨he, h⟩
  | moveAssign i j =>
    show Fine _ (do return Outcome.done (← m.step nb (.moveAssign i j)))
    generalize he : m.step nb (.moveAssign i j) = e at hinv
    match e, hinv with
    | .error (.code _), _ => trivial
    | .ok m', h => exact ⟨he, h⟩
  | destroy i =>
    show Fine _ (do return Outcome.done (← m.step nb (.destroy i)))
    generalize he : m.step nb (.destroy i) = e at hinv
    match e, hinv with
    | .error (.code _), _ => trivial
    | .ok m', h => exact ⟨he, h⟩

/-- calls on an object see only that object -/
theorem calls_congr (nb : Nat → Nat) {m m' : Mem R} (v' : Inv m') (v : Inv m) (x : Nat)
    (hc : m'.customized x = m.customized x) (hv : ∀ c, val m' x c = val m x c) (more : List Op) :
    (do (← m'.exec nb (more.map (.call x))).toVector x) = (do (← m.exec nb (more.map (.call x))).toVector x) := by
  have none : ∀ {n : Mem R} (_ : Inv n), (n.customized x = none ∨ ∃ c, n.customized x = some c ∧ val n x c = none) →
      (do (← n.exec nb (more.map (.call x))).toVector x) = .error (.code .nullDeref) := by
    intro n w h
    rcases h with h | ⟨c, h, hn⟩
    · have e : n.flag x = .error (.code .nullDeref) := by unfold Mem.flag; rw [h]
      cases more with
      | nil =>
        show (do let c ← n.flag x; _) = _
        rw [e]; rfl
      | cons op more =>
        show ((do let c ← n.flag x; _) >>= fun n : Mem R => _) >>= _ = _
        rw [e]; rfl
    · have e : n.flag x = .ok c := by unfold Mem.flag; rw [h]
      have e' : n.load x c = .error (.code .nullDeref) := by rw [load_eq w, hn]
      cases more with
      | nil =>
        show (n.flag x >>= fun c => n.load x c >>= _) = _
        rw [e]
        show (n.load x c >>= _) = _
        rw [e']; rfl
      | cons op more =>
        show (((n.flag x >>= fun c => n.load x c >>= _) >>= fun n : Mem R => _) >>= _) = _
        rw [e]
        show (((n.load x c >>= _) >>= fun n : Mem R => _) >>= _) = _
        rw [e']; rfl
  cases h : m.customized x with
  | none => rw [none v' (.inl (hc.trans h)), none v (.inl h)]
  | some c =>
    cases hk : val m x c with
    | none => rw [none v' (.inr ⟨c, hc.trans h, (hv c).trans hk⟩), none v (.inr ⟨c, h, hk⟩)]
    | some k => rw [calls_eq nb v' x c k (hc.trans h) ((hv c).trans hk) more, calls_eq nb v x c k h hk more]

theorem Left.inv {nb : Nat → Nat} {m : Mem R} {st : CStmt} {r : Outcome (Mem R)} (h : Left nb m st r) : Inv r.left := by
  cases r with
  | done _ => exact h.2
  | threw _ => exact h.1

theorem memA_exec (nb : Nat → Nat) {m : Mem R} (v : Inv m) (P : List (CStmt × Supply)) : Fine Inv (m.execA nb P) := by
  induction P generalizing m with
  | nil => exact v
  | cons s P ih => exact (memA_step nb s.2 v s.1).bind fun r h => ih h.inv

end
end Verif.Proof.Alloc
