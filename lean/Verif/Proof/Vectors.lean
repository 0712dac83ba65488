import Verif.Model.Vectors
import Verif.Proof.Alloc

/-! Bounds for the memory of the vectors of sha3.h. -/

namespace Verif.Proof.Vectors
open Model Model.SHA3 Proof.SHA3 Proof.Misuse Proof.Alloc

section
variable {R : Nat} [hR : RateOK R] (g : Growth)

theorem squeezeH_last (dl : Nat) (s : KState) (h : Heap) (hl : dl ≤ (more R s).length) :
    squeezeH R g dl s h = .ok (⟨s.state, more R s⟩, h.temporary.insert g (more R s).length) := by
  have h1 := stateToVector_length s.state
  have h2 := hR.le
  unfold more at hl ⊢
  rw [squeezeH]
  simp only []
  rw [dif_pos (by omega), dif_pos hl]

theorem squeezeH_more (dl : Nat) (s : KState) (h : Heap) (hl : ¬dl ≤ (more R s).length) :
    squeezeH R g dl s h = squeezeH R g dl ⟨permute s.state, more R s⟩ (h.temporary.insert g (more R s).length) := by
  have h1 := stateToVector_length s.state
  have h2 := hR.le
  unfold more at hl ⊢
  rw [squeezeH]
  simp only []
  rw [dif_pos (by omega), dif_neg hl, absorb_zero]

/-- the memory is within the bound -/
def Within (n : Nat) (h : Heap) : Prop := h.cap ≤ 2 * n ∧ h.peak ≤ 3 * n + 200

theorem within_round {n need : Nat} (h : Heap) (hw : Within n h) (hn : need ≤ n) :
    Within n (h.temporary.insert g need) := by
  obtain ⟨h1, h2⟩ := hw
  have h3 := g.bounded h.cap need
  unfold Heap.insert Heap.temporary
  simp only []
  split
  · constructor <;> simp only <;> omega
  · constructor <;> simp only <;> omega

omit hR in
/-- what was inserted fits -/
theorem insert_fits (h : Heap) (need : Nat) : need ≤ (h.insert g need).cap := by
  have := g.enough h.cap need
  unfold Heap.insert
  split
  · assumption
  · exact this

theorem squeezeH_within (dl : Nat) : ∀ (k : Nat) (s : KState) (h : Heap), dl - s.final.length = k → s.final.length ≤ dl →
    Within (dl + R) h → ∃ s' h', squeezeH R g dl s h = .ok (s', h') ∧ squeeze R dl s = .ok s' ∧ dl ≤ s'.final.length ∧
      s'.final.length ≤ h'.cap ∧ Within (dl + R) h' := by
  have hp := hR.pos
  intro k
  induction k using Nat.strongRecOn with
  | _ k ih =>
    intro s h hk hs hw
    have hm := more_length (R := R) s
    have hw' := within_round g h hw (need := (more R s).length) (by omega)
    by_cases hl : dl ≤ (more R s).length
    · exact ⟨_, _, squeezeH_last g dl s h hl, squeeze_last dl s hl, hl, insert_fits g _ _, hw'⟩
    · rw [squeezeH_more g dl s h hl, squeeze_more dl s hl]
      exact ih (dl - (more R s).length) (by omega) ⟨permute s.state, more R s⟩ _ rfl (by simp only; omega) hw'

/-- how many bytes are squeezed out when `m_final` was empty -/
def whole (R dl : Nat) : Nat := R * ((dl - 1) / R + 1)

/-- the memory is enough for everything that will be squeezed out, and that was noted -/
def Enough (R dl : Nat) (h : Heap) : Prop := whole R dl ≤ h.cap ∧ h.cap + 200 ≤ h.peak

theorem squeezeH_enough (dl : Nat) : ∀ (k i : Nat) (s : KState) (h : Heap), dl - s.final.length = k →
    s.final.length = R * i → i ≤ (dl - 1) / R → ∃ s' h', squeezeH R g dl s h = .ok (s', h') ∧ Enough R dl h' ∧
      (Enough R dl h → h' = h) := by
  have hp := hR.pos
  intro k
  induction k using Nat.strongRecOn with
  | _ k ih =>
    intro i s h hk hs hi
    have hm := more_length (R := R) s
    have hm' : (more R s).length = R * (i + 1) := by rw [hm, hs, Nat.mul_add, Nat.mul_one]
    have hnoop : Enough R dl h → h.temporary.insert g (more R s).length = h := by
      intro ⟨e1, e2⟩
      have hle : R * (i + 1) ≤ whole R dl := Nat.mul_le_mul_left R (by omega)
      unfold Heap.insert Heap.temporary
      simp only []
      rw [if_pos (by omega)]
      cases h
      simp only [Heap.mk.injEq, true_and]
      simp only at e2
      omega
    by_cases hl : dl ≤ (more R s).length
    · refine ⟨_, _, squeezeH_last g dl s h hl, ?_, hnoop⟩
      have hle : whole R dl = R * (i + 1) := by
        unfold whole
        by_cases h0 : dl = 0
        · subst h0
          simp at hi
          subst hi
          simp
        · have : (dl - 1) / R < i + 1 := (Nat.div_lt_iff_lt_mul hp).2 (by rw [Nat.mul_comm]; omega)
          rw [show (dl - 1) / R = i by omega]
      have h3 := g.enough h.cap (more R s).length
      unfold Enough Heap.insert Heap.temporary
      rw [hle, ← hm']
      simp only []
      split
      · constructor <;> simp only <;> omega
      · constructor <;> simp only <;> omega
    · rw [squeezeH_more g dl s h hl]
      have hi' : i + 1 ≤ (dl - 1) / R := (Nat.le_div_iff_mul_le hp).2 (by rw [Nat.mul_comm]; omega)
      obtain ⟨s', h', e, en, k'⟩ := ih (dl - (more R s).length) (by omega) (i + 1) ⟨permute s.state, more R s⟩
        (h.temporary.insert g (more R s).length) rfl hm' hi'
      exact ⟨s', h', e, en, fun he => by rw [hnoop he] at k'; exact k' he⟩

/-! ### Calls -/

/-- the buffer is not full, and `m_final` is empty or has the requested length -/
def OK (dl : Nat) (o : Obj R KState) : Prop :=
  Room R (fun s => s.final.length = 0 ∨ s.final.length = dl) o

theorem impl_final (p : List Byte → Prop) : ImplTotal R (SHA3.impl R) (fun s => p s.final) := by
  intro s d h hd
  obtain ⟨s', e⟩ := absorb_ok R s.state d hd
  exact ⟨{ s with state := s' }, by unfold SHA3.impl; rw [e]; rfl, h⟩

theorem finalizeH_ok (P : Byte) (dl : Nat) (o : Obj R KState) (h : Heap) (ho : OK dl o) (hw : Within (dl + R) h) :
    ∃ o' h', finalizeH R P g dl o h = .ok (o', h') ∧ finalize R P dl o = .ok o' ∧ OK dl o' ∧ o'.chain.final.length ≤ h'.cap ∧
      Within (dl + R) h' ∧ (o.chain.final = [] → Enough R dl h' ∧ (Enough R dl h → h' = h)) := by
  obtain ⟨x, ec, xb⟩ := finalize_room P dl o ⟨ho.1, trivial⟩
  obtain ⟨_, xf, _⟩ := close_withFinal P [] o x ec
  have hx : x.chain.final.length ≤ dl := by rw [xf]; rcases ho.2 with h | h <;> omega
  obtain ⟨s', h', e1, e2, hl, hcap, hw'⟩ := squeezeH_within (R := R) g dl _ x.chain h rfl hx hw
  have hlen : (s'.final.take dl ++ List.replicate (dl - s'.final.length) 0).length = dl := by
    rw [List.length_append, List.length_take, List.length_replicate]; omega
  refine ⟨trim dl x.buffer s', h', ?_, ?_, ⟨⟨[], xb, hR.pos⟩, .inr hlen⟩, (Nat.le_trans (Nat.le_of_eq hlen) (Nat.le_trans hl hcap)), hw', fun h0 => ?_⟩
  · unfold finalizeH
    rw [ec]
    simp only [bind, Except.bind, e1]
    rfl
  · rw [finalize_close, ec]
    simp only [bind, Except.bind, e2]
    rfl
  · obtain ⟨s2, h2, e3, en, k⟩ := squeezeH_enough (R := R) g dl _ 0 x.chain h rfl (by rw [xf, h0]; simp) (Nat.zero_le _)
    rw [e1] at e3
    cases e3
    exact ⟨en, k⟩

theorem runH_any (P : Byte) (dl : Nat) (ops : List Op) : ∀ (o : Obj R KState) (h : Heap), OK dl o → o.chain.final.length ≤ h.cap → Within (dl + R) h →
    ∃ o' h', runH R P g dl o h ops = .ok (o', h') ∧ (Keccak R P dl).run o ops = .ok o' ∧ OK dl o' ∧ o'.chain.final.length ≤ h'.cap ∧
      Within (dl + R) h' := by
  induction ops with
  | nil => intro o h ho hc hw; exact ⟨o, h, rfl, rfl, ho, hc, hw⟩
  | cons op ops ih =>
    intro o h ho hc hw
    have : ∃ o1 h1, stepH R P g dl o h op = .ok (o1, h1) ∧ (Keccak R P dl).step o op = .ok o1 ∧ OK dl o1 ∧
        o1.chain.final.length ≤ h1.cap ∧ Within (dl + R) h1 := by
      cases op with
      | add d =>
        obtain ⟨o1, e, h1⟩ := addData_total hR.pos (Nat.le_refl R) (impl_final fun l =>
          (l.length = 0 ∨ l.length = dl) ∧ l = o.chain.final) ⟨ho.1, ho.2, rfl⟩ d
        exact ⟨o1, h, by show (do return (← addData R (SHA3.impl R) o d, h)) = _; rw [e]; rfl, e, ⟨h1.1, h1.2.1⟩, by rw [h1.2.2]; exact hc, hw⟩
      | reset => exact ⟨_, h, rfl, rfl, room_clear (S := KState) (s := SHA3.init) hR.pos (.inl rfl) o.buffer, Nat.zero_le _, hw⟩
      | finalize =>
        obtain ⟨o1, h1, e, e', k, c, w, _⟩ := finalizeH_ok g P dl o h ho hw
        exact ⟨o1, h1, e, e', k, c, w⟩
    obtain ⟨o1, h1, e1, e1', k1, c1, w1⟩ := this
    obtain ⟨o2, h2, e2, e2', k2, w2⟩ := ih o1 h1 k1 c1 w1
    refine ⟨o2, h2, ?_, ?_, k2, w2⟩
    · simp only [runH, e1]; exact e2
    · simp only [API.run, e1']; exact e2'

omit hR in
theorem within_new (dl : Nat) : Within (dl + R) (heapNew g dl) := by
  have := g.bounded 0 dl
  unfold heapNew
  split
  · constructor <;> simp only <;> omega
  · constructor <;> simp only <;> omega

theorem ok_fresh (P : Byte) (dl : Nat) : OK dl (Keccak R P dl).fresh :=
  room_clear (S := KState) (s := SHA3.init) hR.pos (.inl rfl) {}

/-- legal calls once there is enough memory -/
theorem runH_legal (P : Byte) (dl : Nat) (ops : List Op) : ∀ (fin : Bool) (o : Obj R KState) (h : Heap), legalFrom fin ops →
    OK dl o → (fin = false → o.chain.final = []) → Within (dl + R) h → Enough R dl h →
    ∃ o', runH R P g dl o h ops = .ok (o', h) := by
  induction ops with
  | nil => intro fin o h _ _ _ _ _; exact ⟨o, rfl⟩
  | cons op ops ih =>
    intro fin o h hl ho hf hw he
    cases op with
    | add d =>
      obtain ⟨rfl, _, hl⟩ := hl
      obtain ⟨o1, e, h1⟩ := addData_total hR.pos (Nat.le_refl R) (impl_final (R := R) fun l => l = []) ⟨ho.1, hf rfl⟩ d
      obtain ⟨o2, e2⟩ := ih false o1 h hl ⟨h1.1, .inl (by rw [h1.2]; rfl)⟩ (fun _ => h1.2) hw he
      refine ⟨o2, ?_⟩
      have e' : stepH R P g dl o h (.add d) = .ok (o1, h) := by
        show (do return (← addData R (SHA3.impl R) o d, h)) = _
        rw [e]; rfl
      simp only [runH, e']; exact e2
    | reset =>
      obtain ⟨o2, e2⟩ := ih false ((Keccak R P dl).reset o) h hl
        (room_clear (S := KState) (s := SHA3.init) hR.pos (.inl rfl) o.buffer) (fun _ => rfl) hw he
      exact ⟨o2, e2⟩
    | finalize =>
      obtain ⟨rfl, hl⟩ := hl
      obtain ⟨o1, h1, e, _, k, _, w, en⟩ := finalizeH_ok g P dl o h ho hw
      obtain rfl := (en (hf rfl)).2 he
      obtain ⟨o2, e2⟩ := ih true o1 h1 hl k (fun h => by cases h) w he
      refine ⟨o2, ?_⟩
      have e' : stepH R P g dl o h1 .finalize = .ok (o1, h1) := e
      simp only [runH, e']; exact e2

theorem runH_append (P : Byte) (dl : Nat) (a b : List Op) (o : Obj R KState) (h : Heap) :
    runH R P g dl o h (a ++ b) = (do
      let (o', h') ← runH R P g dl o h a
      runH R P g dl o' h' b) := by
  induction a generalizing o h with
  | nil => rfl
  | cons op a ih =>
    simp only [List.cons_append, runH]
    cases stepH R P g dl o h op with
    | error f => rfl
    | ok r => exact ih r.1 r.2

theorem legal_split (a b : List Op) : ∀ fin, legalFrom fin (a ++ b) → legalFrom fin a ∧ legalFrom (Refines.finFlag fin a) b := by
  induction a with
  | nil => intro fin h; exact ⟨trivial, h⟩
  | cons op a ih =>
    intro fin h
    cases op with
    | add d => exact ⟨⟨h.1, h.2.1, (ih _ h.2.2).1⟩, (ih _ h.2.2).2⟩
    | reset => exact ih _ h
    | finalize => exact ⟨⟨h.1, (ih _ h.2).1⟩, (ih _ h.2).2⟩

/-- legal calls: `m_final` is empty unless the object is finalised -/
theorem runH_flag (P : Byte) (dl : Nat) (ops : List Op) : ∀ (fin : Bool) (o : Obj R KState) (h : Heap), legalFrom fin ops →
    OK dl o → (fin = false → o.chain.final = []) → Within (dl + R) h →
    ∃ o' h', runH R P g dl o h ops = .ok (o', h') ∧ OK dl o' ∧ (Refines.finFlag fin ops = false → o'.chain.final = []) ∧
      Within (dl + R) h' := by
  induction ops with
  | nil => intro fin o h _ ho hf hw; exact ⟨o, h, rfl, ho, hf, hw⟩
  | cons op ops ih =>
    intro fin o h hl ho hf hw
    cases op with
    | add d =>
      obtain ⟨rfl, _, hl⟩ := hl
      obtain ⟨o1, e, h1⟩ := addData_total hR.pos (Nat.le_refl R) (impl_final (R := R) fun l => l = []) ⟨ho.1, hf rfl⟩ d
      obtain ⟨o2, h2, e2, k⟩ := ih false o1 h hl ⟨h1.1, .inl (by rw [h1.2]; rfl)⟩ (fun _ => h1.2) hw
      refine ⟨o2, h2, ?_, k⟩
      have e' : stepH R P g dl o h (.add d) = .ok (o1, h) := by
        show (do return (← addData R (SHA3.impl R) o d, h)) = _
        rw [e]; rfl
      simp only [runH, e']; exact e2
    | reset =>
      obtain ⟨o2, h2, e2, k⟩ := ih false ((Keccak R P dl).reset o) h hl
        (room_clear (S := KState) (s := SHA3.init) hR.pos (.inl rfl) o.buffer) (fun _ => rfl) hw
      exact ⟨o2, h2, e2, k⟩
    | finalize =>
      obtain ⟨rfl, hl⟩ := hl
      obtain ⟨o1, h1, e, _, k, _, w, _⟩ := finalizeH_ok g P dl o h ho hw
      obtain ⟨o2, h2, e2, k2⟩ := ih true o1 h1 hl k (fun h => by cases h) w
      refine ⟨o2, h2, ?_, k2⟩
      have e' : stepH R P g dl o h .finalize = .ok (o1, h1) := e
      simp only [runH, e']; exact e2

theorem reuse (P : Byte) (dl : Nat) (before after : List Op) (hl : Legal (before ++ .finalize :: after)) :
    ∃ o h o', runH R P g dl (Keccak R P dl).fresh (heapNew g dl) (before ++ [.finalize]) = .ok (o, h) ∧
      runH R P g dl o h after = .ok (o', h) := by
  obtain ⟨l1, l2⟩ := legal_split before (.finalize :: after) false hl
  obtain ⟨o1, h1, e1, k1, f1, w1⟩ := runH_flag (R := R) g P dl before false _ (heapNew g dl) l1 (ok_fresh P dl) (fun _ => rfl)
    (within_new g dl)
  obtain ⟨l3, l4⟩ := l2
  obtain ⟨o2, h2, e2, _, k2, _, w2, en⟩ := finalizeH_ok g P dl o1 h1 k1 w1
  obtain ⟨o3, e3⟩ := runH_legal g P dl after true o2 h2 l4 k2 (fun h => by cases h) w2 (en (f1 l3)).1
  refine ⟨o2, h2, o3, ?_, e3⟩
  rw [runH_append, e1]
  show (do let (o, h) ← finalizeH R P g dl o1 h1; .ok (o, h)) = _
  rw [e2]; rfl

end
end Verif.Proof.Vectors
