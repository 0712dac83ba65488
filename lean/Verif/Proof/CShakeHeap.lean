import Verif.Model.CShakeHeap
import Verif.Proof.CShake

/-! # The heap of cSHAKE objects: every cell has one owner -/

namespace Verif.Proof.CShake
open Model.CShake Model.SHA3

section
variable {R : Nat}

/-- what a pointer points to -/
def val (m : Mem R) (i : Nat) (b : Bool) : Option (KObj R) := (m.ptr i b).bind m.cells

structure Inv (m : Mem R) : Prop where
  inj : ∀ i b j c a, m.ptr i b = some a → m.ptr j c = some a → i = j ∧ b = c
  live : ∀ i b a, m.ptr i b = some a → ∃ k, m.cells a = some k
  objects : ∀ i, m.customized i = none → ∀ b, m.ptr i b = none
  below : ∀ a k, m.cells a = some k → a < m.next
  owned : ∀ a k, m.cells a = some k → ∃ i b, m.ptr i b = some a

theorem inv_empty : Inv (Mem.empty R) where
  inj _ _ _ _ _ h := by cases h
  live _ _ _ h := by cases h
  objects _ _ _ := rfl
  below _ _ h := by cases h
  owned _ _ h := by cases h

theorem load_eq {m : Mem R} (v : Inv m) (i : Nat) (b : Bool) :
    m.load i b = match val m i b with
      | none => .error (.code .nullDeref)
      | some k => .ok k := by
  unfold Mem.load val
  cases h : m.ptr i b with
  | none => rfl
  | some a =>
    obtain ⟨k, hk⟩ := v.live i b a h
    simp only [Option.bind_some, hk]

theorem store_none {m : Mem R} (v : Inv m) (i : Nat) (b : Bool) (k : KObj R) (h : val m i b = none) :
    m.store i b k = .error (.code .nullDeref) := by
  unfold val at h
  unfold Mem.store
  cases hp : m.ptr i b with
  | none => rfl
  | some a =>
    obtain ⟨k', hk⟩ := v.live i b a hp
    rw [hp, Option.bind_some, hk] at h
    cases h

theorem store_some {m : Mem R} (v : Inv m) (i : Nat) (b : Bool) (k k0 : KObj R) (h : val m i b = some k0) :
    ∃ m', m.store i b k = .ok m' ∧ Inv m' ∧ m'.customized = m.customized ∧
      ∀ j c, val m' j c = if j = i ∧ c = b then some k else val m j c := by
  unfold val at h
  cases hp : m.ptr i b with
  | none => rw [hp] at h; cases h
  | some a =>
    rw [hp, Option.bind_some] at h
    refine ⟨{ m with cells := fun x => if x = a then some k else m.cells x }, ?_, ?_, rfl, ?_⟩
    · unfold Mem.store; simp only [hp, h]
    · refine ⟨v.inj, fun j c a' ha => ?_, v.objects, fun a' k' hk => ?_, fun a' k' hk => ?_⟩
      · dsimp only
        by_cases e : a' = a
        · rw [if_pos e]; exact ⟨_, rfl⟩
        · rw [if_neg e]; exact v.live j c a' ha
      · dsimp only at hk ⊢
        by_cases e : a' = a
        · rw [e]; exact v.below a k0 h
        · rw [if_neg e] at hk; exact v.below a' k' hk
      · dsimp only at hk ⊢
        by_cases e : a' = a
        · rw [e]; exact ⟨i, b, hp⟩
        · rw [if_neg e] at hk; exact v.owned a' k' hk
    · intro j c
      unfold val
      dsimp only
      by_cases e : j = i ∧ c = b
      · obtain ⟨rfl, rfl⟩ := e
        rw [hp, if_pos ⟨rfl, rfl⟩]; simp
      · rw [if_neg e]
        cases hj : m.ptr j c with
        | none => rfl
        | some a' =>
          have : a' ≠ a := by rintro rfl; exact e (v.inj j c i b a' hj hp)
          simp [this]

theorem alloc_ok {m : Mem R} (v : Inv m) (i : Nat) (b : Bool) (k : KObj R) (h : m.ptr i b = none)
    (ho : m.customized i ≠ none) :
    Inv (m.alloc i b k) ∧ (m.alloc i b k).customized = m.customized ∧
      ∀ j c, val (m.alloc i b k) j c = if j = i ∧ c = b then some k else val m j c := by
  have fresh : ∀ j c, m.ptr j c ≠ some m.next := by
    intro j c hj
    obtain ⟨k', hk⟩ := v.live j c _ hj
    exact Nat.lt_irrefl _ (v.below _ _ hk)
  refine ⟨⟨?_, ?_, ?_, ?_, ?_⟩, rfl, ?_⟩
  · intro j c j' c' a h1 h2
    simp only [Mem.alloc] at h1 h2
    by_cases e1 : j = i ∧ c = b
    · rw [if_pos e1] at h1
      by_cases e2 : j' = i ∧ c' = b
      · exact ⟨e1.1.trans e2.1.symm, e1.2.trans e2.2.symm⟩
      · rw [if_neg e2] at h2
        cases h1
        exact absurd h2 (fresh _ _)
    · rw [if_neg e1] at h1
      by_cases e2 : j' = i ∧ c' = b
      · rw [if_pos e2] at h2
        cases h2
        exact absurd h1 (fresh _ _)
      · rw [if_neg e2] at h2
        exact v.inj _ _ _ _ _ h1 h2
  · intro j c a h1
    simp only [Mem.alloc] at h1 ⊢
    by_cases e1 : j = i ∧ c = b
    · rw [if_pos e1] at h1; cases h1; exact ⟨k, if_pos rfl⟩
    · rw [if_neg e1] at h1
      by_cases e : a = m.next
      · exact ⟨k, if_pos e⟩
      · rw [if_neg e]; exact v.live j c a h1
  · intro j hj c
    simp only [Mem.alloc] at hj ⊢
    rw [if_neg (by rintro ⟨rfl, _⟩; exact ho hj)]
    exact v.objects j hj c
  · intro a k' hk
    simp only [Mem.alloc] at hk ⊢
    by_cases e : a = m.next
    · omega
    · rw [if_neg e] at hk; have := v.below a k' hk; omega
  · intro a k' hk
    simp only [Mem.alloc] at hk ⊢
    by_cases e : a = m.next
    · exact ⟨i, b, by rw [if_pos ⟨rfl, rfl⟩, e]⟩
    · rw [if_neg e] at hk
      obtain ⟨j, c, hj⟩ := v.owned a k' hk
      refine ⟨j, c, ?_⟩
      rw [if_neg ?_]
      · exact hj
      · rintro ⟨rfl, rfl⟩; rw [h] at hj; cases hj
  · intro j c
    unfold val
    simp only [Mem.alloc]
    by_cases e : j = i ∧ c = b
    · rw [if_pos e, if_pos e, Option.bind_some, if_pos rfl]
    · rw [if_neg e, if_neg e]
      cases hj : m.ptr j c with
      | none => rfl
      | some a =>
        have : a ≠ m.next := by rintro rfl; exact fresh j c hj
        simp [this]

theorem free_ok {m : Mem R} (v : Inv m) (i : Nat) (b : Bool) :
    ∃ m', m.free i b = .ok m' ∧ Inv m' ∧ m'.customized = m.customized ∧ m'.ptr i b = none ∧
      (∀ j c, m.ptr j c = none → m'.ptr j c = none) ∧
      ∀ j c, ¬(j = i ∧ c = b) → val m' j c = val m j c := by
  cases hp : m.ptr i b with
  | none => exact ⟨m, by unfold Mem.free; rw [hp], v, rfl, hp, fun _ _ h => h, fun _ _ _ => rfl⟩
  | some a =>
    obtain ⟨k0, hk0⟩ := v.live i b a hp
    refine ⟨{ m with
        cells := fun x => if x = a then none else m.cells x
        ptr := fun j c => if j = i ∧ c = b then none else m.ptr j c },
      by unfold Mem.free; simp only [hp, hk0], ⟨?_, ?_, ?_, ?_, ?_⟩, rfl, if_pos ⟨rfl, rfl⟩, ?_, ?_⟩
    · intro j c j' c' a' h1 h2
      dsimp only at h1 h2
      by_cases e1 : j = i ∧ c = b
      · rw [if_pos e1] at h1; cases h1
      · by_cases e2 : j' = i ∧ c' = b
        · rw [if_pos e2] at h2; cases h2
        · rw [if_neg e1] at h1; rw [if_neg e2] at h2
          exact v.inj _ _ _ _ _ h1 h2
    · intro j c a' h1
      dsimp only at h1 ⊢
      by_cases e1 : j = i ∧ c = b
      · rw [if_pos e1] at h1; cases h1
      · rw [if_neg e1] at h1
        rw [if_neg]
        · exact v.live j c a' h1
        · rintro rfl; exact e1 (v.inj _ _ _ _ _ h1 hp)
    · intro j hj c
      dsimp only at hj ⊢
      by_cases e1 : j = i ∧ c = b
      · exact if_pos e1
      · rw [if_neg e1]; exact v.objects j hj c
    · intro a' k' hk
      dsimp only at hk ⊢
      by_cases e : a' = a
      · rw [if_pos e] at hk; cases hk
      · rw [if_neg e] at hk; exact v.below a' k' hk
    · intro a' k' hk
      dsimp only at hk ⊢
      by_cases e : a' = a
      · rw [if_pos e] at hk; cases hk
      · rw [if_neg e] at hk
        obtain ⟨j, c, hj⟩ := v.owned a' k' hk
        refine ⟨j, c, ?_⟩
        rw [if_neg ?_]
        · exact hj
        · rintro ⟨rfl, rfl⟩; rw [hp] at hj; cases hj; exact e rfl
    · intro j c h
      dsimp only
      split
      · rfl
      · exact h
    · intro j c e
      unfold val
      dsimp only
      rw [if_neg e]
      cases hj : m.ptr j c with
      | none => rfl
      | some a' =>
        have : a' ≠ a := by rintro rfl; exact e (v.inj _ _ _ _ _ hj hp)
        simp [this]

theorem setFlag_ok {m : Mem R} (v : Inv m) (i : Nat) (c : Option Bool) (h : c = none → ∀ b, m.ptr i b = none) :
    Inv (m.setFlag i c) := by
  refine ⟨v.inj, v.live, fun j hj b => ?_, v.below, v.owned⟩
  simp only [Mem.setFlag] at hj ⊢
  by_cases e : j = i
  · rw [if_pos e] at hj; rw [e]; exact h hj b
  · rw [if_neg e] at hj; exact v.objects j hj b

theorem swap_ok {m : Mem R} (v : Inv m) (i j : Nat) (b : Bool) (hi : m.customized i ≠ none)
    (hj : m.customized j ≠ none) : Inv (m.swap i j b) := by
  have back : ∀ k c a, (m.swap i j b).ptr k c = some a →
      ∃ k', m.ptr k' c = some a ∧ (k = if c = b then (if k' = i then j else if k' = j then i else k') else k') := by
    intro k c a h
    simp only [Mem.swap] at h
    by_cases e : c = b
    · rw [if_pos e] at h
      simp only [if_pos e]
      by_cases e1 : k = i
      · rw [if_pos e1] at h
        refine ⟨j, by rw [e]; exact h, ?_⟩
        by_cases e2 : j = i
        · rw [if_pos e2]; exact e1.trans e2.symm
        · rw [if_neg e2, if_pos rfl]; exact e1
      · rw [if_neg e1] at h
        by_cases e2 : k = j
        · rw [if_pos e2] at h; exact ⟨i, by rw [e]; exact h, by rw [if_pos rfl]; exact e2⟩
        · rw [if_neg e2] at h; exact ⟨k, h, by rw [if_neg e1, if_neg e2]⟩
    · rw [if_neg e] at h; simp only [if_neg e]; exact ⟨k, h, rfl⟩
  refine ⟨?_, ?_, ?_, v.below, ?_⟩
  · intro k c k' c' a h1 h2
    obtain ⟨x, hx, ex⟩ := back k c a h1
    obtain ⟨y, hy, ey⟩ := back k' c' a h2
    obtain ⟨rfl, rfl⟩ := v.inj _ _ _ _ _ hx hy
    exact ⟨ex.trans ey.symm, rfl⟩
  · intro k c a h
    obtain ⟨x, hx, _⟩ := back k c a h
    exact v.live x c a hx
  · intro k hk c
    have hk' : m.customized k = none := hk
    have e1 : k ≠ i := by rintro rfl; exact hi hk'
    have e2 : k ≠ j := by rintro rfl; exact hj hk'
    simp only [Mem.swap, if_neg e1, if_neg e2, ite_self]
    exact v.objects k hk' c
  · intro a k hk
    obtain ⟨x, c, hx⟩ := v.owned a k hk
    by_cases e : c = b
    · subst e
      by_cases e1 : x = i
      · refine ⟨j, c, ?_⟩
        subst e1
        simp only [Mem.swap, if_true]
        split
        · rename_i e2; rw [e2]; exact hx
        · exact hx
      · by_cases e2 : x = j
        · refine ⟨i, c, ?_⟩
          subst e2
          simp only [Mem.swap, if_true]
          exact hx
        · exact ⟨x, c, by simp only [Mem.swap, if_true, if_neg e1, if_neg e2]; exact hx⟩
    · exact ⟨x, c, by simp only [Mem.swap, if_neg e]; exact hx⟩

variable [hR : RateOK R]

theorem step_callK (c : Bool) (k : KObj R) (op : Op) :
    step (mk c k) op = (do return mk c (← callK op (padding c) k)) := by
  obtain ⟨dl, x⟩ := k
  rw [step_mk]
  unfold callK padding padOf
  generalize (Keccak R _ dl).step x op = e
  cases e <;> rfl

theorem run_snoc (o : CShake R) (ops : List Op) (op : Op) :
    run o (ops ++ [op]) = (do step (← run o ops) op) := by
  induction ops generalizing o with
  | nil =>
    show (step o op >>= fun o' => Except.ok o') = step o op
    cases step o op <;> rfl
  | cons x xs ih =>
    show (step o x >>= fun o' => run o' (xs ++ [op])) = ((step o x >>= fun o' => run o' xs) >>= _)
    cases step o x with
    | error e => rfl
    | ok o' => exact ih o'

/-- the object in slot `i` is in the state its origin leads to -/
def Sim (nb : Nat → Nat) (m : Mem R) (i : Nat) (t : Origin) : Prop :=
  ∃ o0 c k, construct nb R t.digestLength t.name t.customize = .ok o0 ∧ run o0 t.calls = .ok (mk c k) ∧
    m.customized i = some c ∧ val m i c = some k

theorem sim_congr {nb : Nat → Nat} {m m' : Mem R} {i j : Nat} {t : Origin} (h : Sim nb m i t)
    (hc : m'.customized j = m.customized i) (hv : ∀ c, m.customized i = some c → val m' j c = val m i c) : Sim nb m' j t := by
  obtain ⟨o0, c, k, h1, h2, h3, h4⟩ := h
  exact ⟨o0, c, k, h1, h2, hc.trans h3, (hv c h3).trans h4⟩

omit hR in
theorem vacant_ok {m : Mem R} {j : Nat} (h : m.vacant j = .ok ()) : m.customized j = none := by
  unfold Mem.vacant at h
  cases e : m.customized j with
  | none => rfl
  | some c => rw [e] at h; cases h

omit hR in
theorem flag_ok {m : Mem R} {j : Nat} {c : Bool} (h : m.flag j = .ok c) : m.customized j = some c := by
  unfold Mem.flag at h
  cases e : m.customized j with
  | none => rw [e] at h; cases h
  | some c => rw [e] at h; cases h; rfl

theorem contents_cons (K : Nat → Content) (st : CStmt) (P : List CStmt) :
    contents K (st :: P) = contents (contents K [st]) P := by
  cases st <;> rfl

/-- the result is a fault of the code, or satisfies `Q` -/
def Fine {α : Type} (Q : α → Prop) : Except HeapFault α → Prop
  | .error .dangling => False
  | .error (.code _) => True
  | .ok a => Q a

theorem Fine.bind {α β : Type} {P : α → Prop} {Q : β → Prop} {x : Except HeapFault α} {f : α → Except HeapFault β}
    (h : Fine P x) (hf : ∀ a, P a → Fine Q (f a)) : Fine Q (x >>= f) := by
  match x, h with
  | .error (.code _), _ => trivial
  | .ok a, h => exact hf a h

theorem lift_fine {α : Type} (e : Except Fault α) : Fine (fun a => e = .ok a) (lift e) := by
  cases e <;> simp [Fine, lift]

omit hR in
theorem flag_fine (m : Mem R) (i : Nat) : Fine (fun c => m.customized i = some c) (m.flag i) := by
  unfold Mem.flag
  cases m.customized i <;> simp [Fine]

omit hR in
theorem vacant_fine (m : Mem R) (i : Nat) : Fine (fun _ => m.customized i = none) (m.vacant i) := by
  unfold Mem.vacant
  cases m.customized i <;> simp [Fine]

omit hR in
theorem load_fine {m : Mem R} (v : Inv m) (i : Nat) (b : Bool) : Fine (fun k => val m i b = some k) (m.load i b) := by
  rw [load_eq v]
  cases val m i b <;> simp [Fine]

omit hR in
theorem store_fine {m : Mem R} (v : Inv m) (i : Nat) (b : Bool) (k : KObj R) :
    Fine (fun m' => Inv m' ∧ m'.customized = m.customized ∧
      ∀ j c, val m' j c = if j = i ∧ c = b then some k else val m j c) (m.store i b k) := by
  cases h : val m i b with
  | none => rw [store_none v i b k h]; trivial
  | some k0 =>
    obtain ⟨m', e, h'⟩ := store_some v i b k k0 h
    rw [e]
    exact h'

omit hR in
theorem val_swap (m : Mem R) (i j : Nat) (b : Bool) (k : Nat) (c : Bool) : val (m.swap i j b) k c =
    if c = b then (if k = i then val m j b else if k = j then val m i b else val m k c) else val m k c := by
  unfold val Mem.swap
  dsimp only
  split
  · split
    · rfl
    · split <;> rfl
  · rfl

/-- all slots with an origin are in the state it leads to -/
def Sims (nb : Nat → Nat) (K : Nat → Content) (m : Mem R) : Prop :=
  (∀ i t, K i = .holds t → Sim nb m i t) ∧ ∀ i, K i = .vacant ↔ m.customized i = none

theorem sim_obj {nb : Nat → Nat} {m : Mem R} {i : Nat} {t : Origin} (h : Sim nb m i t) : m.customized i ≠ none := by
  obtain ⟨_, _, _, _, _, e, _⟩ := h
  rw [e]; exact Option.some_ne_none _

/-- slots that a statement does not touch -/
theorem sim_other {nb : Nat → Nat} {m m' : Mem R} {i : Nat} {t : Origin} (h : Sim nb m i t)
    (hc : m'.customized i = m.customized i) (hv : ∀ c, val m' i c = val m i c) : Sim nb m' i t :=
  sim_congr h hc fun c _ => hv c

theorem mem_step (nb : Nat → Nat) {m : Mem R} {K : Nat → Content} (v : Inv m) (g : Sims nb K m) (st : CStmt) :
    Fine (fun m' => Inv m' ∧ Sims nb (contents K [st]) m') (m.step nb st) := by
  cases st with
  | create j d name custom =>
    refine (vacant_fine m j).bind fun _ hj => (lift_fine _).bind fun o ho => ?_
    obtain ⟨c, k, rfl⟩ := (construct_shape nb d name custom o ho).1
    have v1 : Inv (m.setFlag j (some c)) := setFlag_ok v j _ (by simp)
    have fj : (m.setFlag j (some c)).customized j = some c := if_pos rfl
    have fo : ∀ i, i ≠ j → (m.setFlag j (some c)).customized i = m.customized i := fun i h => if_neg h
    obtain ⟨v2, fl, hv⟩ := alloc_ok v1 j c k (v.objects j hj c) (by rw [fj]; simp)
    have e : m.place j (mk c k) = (m.setFlag j (some c)).alloc j c k := by cases c <;> rfl
    show Inv (m.place j (mk c k)) ∧ Sims nb _ (m.place j (mk c k))
    rw [e]
    have ex : ∀ x, contents K [.create j d name custom] x = .vacant ↔
        ((m.setFlag j (some c)).alloc j c k).customized x = none := by
      intro x
      rw [fl]
      simp only [contents]
      by_cases h : x = j
      · rw [if_pos h, h, fj]; simp
      · rw [if_neg h, fo x h]; exact g.2 x
    refine ⟨v2, fun i t ht => ?_, ex⟩
    simp only [contents] at ht
    by_cases h : i = j
    · rw [if_pos h] at ht
      cases ht
      refine ⟨mk c k, c, k, ho, rfl, ?_, ?_⟩
      · rw [fl, h, fj]
      · rw [hv, if_pos ⟨h, rfl⟩]
    · rw [if_neg h] at ht
      refine sim_other (g.1 i t ht) ?_ fun c' => ?_
      · rw [fl, fo i h]
      · rw [hv, if_neg (fun e => h e.1)]; rfl
  | call i op =>
    refine (flag_fine m i).bind fun c hc => (load_fine v i c).bind fun k hk => (lift_fine _).bind fun k' hk' => ?_
    have h := store_fine v i c k'
    generalize m.store i c k' = e at h
    match e, h with
    | .error (.code _), _ => trivial
    | .ok m', ⟨v', fl, hv⟩ =>
      have ex : ∀ x, contents K [.call i op] x = .vacant ↔ m'.customized x = none := by
        intro x
        rw [fl, ← g.2 x]
        simp only [contents]
        by_cases h : x = i
        · rw [if_pos h, h]; cases K i <;> simp [Content.after]
        · rw [if_neg h]
      refine ⟨v', fun j t ht => ?_, ex⟩
      simp only [contents] at ht
      by_cases h : j = i
      · subst h
        rw [if_pos rfl] at ht
        cases hK : K j with
        | vacant => rw [hK] at ht; cases ht
        | movedFrom => rw [hK] at ht; cases ht
        | holds t0 =>
          rw [hK] at ht
          simp only [Content.after] at ht
          cases ht
          obtain ⟨o0, c0, k0, h1, h2, h3, h4⟩ := g.1 j t0 hK
          rw [hc] at h3; cases h3
          rw [hk] at h4; cases h4
          refine ⟨o0, c, k', h1, ?_, by rw [fl]; exact hc, by rw [hv, if_pos ⟨rfl, rfl⟩]⟩
          show run o0 (t0.calls ++ [op]) = _
          rw [run_snoc, h2]
          show step (mk c k) op = _
          rw [step_callK, hk']
          rfl
      · rw [if_neg h] at ht
        exact sim_other (g.1 j t ht) (by rw [fl]) fun c' => by rw [hv, if_neg (fun e => h e.1)]
  | copyNew i j =>
    refine (vacant_fine m j).bind fun _ hj => (flag_fine m i).bind fun c hc => ?_
    have hij : i ≠ j := by rintro rfl; rw [hj] at hc; cases hc
    have v1 : Inv (m.setFlag j (some c)) := setFlag_ok v j _ (by simp)
    have fj : (m.setFlag j (some c)).customized j = some c := if_pos rfl
    have fo : ∀ i, i ≠ j → (m.setFlag j (some c)).customized i = m.customized i := fun i h => if_neg h
    refine (load_fine v1 i c).bind fun k hk => ?_
    obtain ⟨v2, fl, hv⟩ := alloc_ok v1 j c k (v.objects j hj c) (by rw [fj]; simp)
    have ex : ∀ x, contents K [.copyNew i j] x = .vacant ↔ ((m.setFlag j (some c)).alloc j c k).customized x = none := by
      intro x
      rw [fl]
      simp only [contents]
      by_cases h : x = j
      · rw [if_pos h, h, fj, g.2 i, hc]
      · rw [if_neg h, fo x h]; exact g.2 x
    refine ⟨v2, fun x t ht => ?_, ex⟩
    simp only [contents] at ht
    by_cases h : x = j
    · subst h
      rw [if_pos rfl] at ht
      refine sim_congr (g.1 i t ht) (by rw [fl, fj, hc]) fun c' hc' => ?_
      rw [hc] at hc'
      cases hc'
      rw [hv, if_pos ⟨rfl, rfl⟩]
      exact hk.symm
    · rw [if_neg h] at ht
      refine sim_other (g.1 x t ht) (by rw [fl, fo x h]) fun c' => ?_
      rw [hv, if_neg (fun e => h e.1)]; rfl
  | copyAssign i j =>
    refine (flag_fine m i).bind fun c hc => (flag_fine m j).bind fun c' hc' => ?_
    by_cases hij : i = j
    · subst hij
      rw [if_pos rfl]
      have ex : ∀ x, contents K [.copyAssign i i] x = .vacant ↔ m.customized x = none := by
        intro x
        rw [← g.2 x]
        simp only [contents]
        by_cases h : x = i
        · rw [if_pos h, h]
        · rw [if_neg h]
      refine ⟨v, fun x t ht => ?_, ex⟩
      simp only [contents] at ht
      by_cases h : x = i
      · subst h; rw [if_pos rfl] at ht; exact g.1 x t ht
      · rw [if_neg h] at ht; exact g.1 x t ht
    · rw [if_neg hij]
      have v1 : Inv (m.setFlag j (some c)) := setFlag_ok v j _ (by simp)
      have fj : (m.setFlag j (some c)).customized j = some c := if_pos rfl
      have fo : ∀ i, i ≠ j → (m.setFlag j (some c)).customized i = m.customized i := fun i h => if_neg h
      refine (load_fine v1 i c).bind fun k hk => ?_
      have h := store_fine v1 j c k
      generalize (m.setFlag j (some c)).store j c k = e at h
      match e, h with
      | .error (.code _), _ => trivial
      | .ok m', ⟨v', fl, hv⟩ =>
        have ex : ∀ x, contents K [.copyAssign i j] x = .vacant ↔ m'.customized x = none := by
          intro x
          rw [fl]
          simp only [contents]
          by_cases h : x = j
          · rw [if_pos h, h, fj, g.2 i, hc]
          · rw [if_neg h, fo x h]; exact g.2 x
        refine ⟨v', fun x t ht => ?_, ex⟩
        simp only [contents] at ht
        by_cases h : x = j
        · subst h
          rw [if_pos rfl] at ht
          refine sim_congr (g.1 i t ht) (by rw [fl, fj, hc]) fun c' hc' => ?_
          rw [hc] at hc'
          cases hc'
          rw [hv, if_pos ⟨rfl, rfl⟩]
          exact hk.symm
        · rw [if_neg h] at ht
          refine sim_other (g.1 x t ht) (by rw [fl, fo x h]) fun c' => ?_
          rw [hv, if_neg (fun e => h e.1)]; rfl
  | moveNew i j =>
    refine (vacant_fine m j).bind fun _ hj => (flag_fine m i).bind fun c hc => ?_
    have hij : i ≠ j := by rintro rfl; rw [hj] at hc; cases hc
    have v2 : Inv ((m.setFlag j (some c)).setFlag i (some false)) := setFlag_ok (setFlag_ok v j _ (by simp)) i _ (by simp)
    have fi : ((m.setFlag j (some c)).setFlag i (some false)).customized i = some false := if_pos rfl
    have fj : ((m.setFlag j (some c)).setFlag i (some false)).customized j = some c :=
      (if_neg hij.symm).trans (if_pos rfl)
    have fo : ∀ x, x ≠ i → x ≠ j → ((m.setFlag j (some c)).setFlag i (some false)).customized x = m.customized x :=
      fun x h1 h2 => (if_neg h1).trans (if_neg h2)
    have ex : ∀ x, contents K [.moveNew i j] x = .vacant ↔
        (((m.setFlag j (some c)).setFlag i (some false)).swap i j c).customized x = none := by
      intro x
      show _ ↔ ((m.setFlag j (some c)).setFlag i (some false)).customized x = none
      simp only [contents]
      by_cases h : x = j
      · rw [if_pos h, h, fj, g.2 i, hc]
      · rw [if_neg h]
        by_cases h' : x = i
        · rw [if_pos h', h', fi]; simp
        · rw [if_neg h', fo x h' h]; exact g.2 x
    refine ⟨swap_ok v2 i j c (by rw [fi]; simp) (by rw [fj]; simp), fun x t ht => ?_, ex⟩
    simp only [contents] at ht
    by_cases h : x = j
    · subst h
      rw [if_pos rfl] at ht
      refine sim_congr (g.1 i t ht) (fj.trans hc.symm) fun c' hc' => ?_
      rw [hc] at hc'
      cases hc'
      rw [val_swap, if_pos rfl, if_neg hij.symm, if_pos rfl]; rfl
    · rw [if_neg h] at ht
      by_cases h' : x = i
      · rw [if_pos h'] at ht; cases ht
      · rw [if_neg h'] at ht
        refine sim_other (g.1 x t ht) (fo x h' h) fun c' => ?_
        rw [val_swap, if_neg h', if_neg h, ite_self]; rfl
  | moveAssign i j =>
    refine (flag_fine m i).bind fun c hc => (flag_fine m j).bind fun c' hc' => ?_
    by_cases hij : i = j
    · subst hij
      rw [if_pos rfl]
      have ex : ∀ x, contents K [.moveAssign i i] x = .vacant ↔ m.customized x = none := by
        intro x
        rw [← g.2 x]
        simp only [contents]
        by_cases h : x = i
        · rw [if_pos h, h]
        · rw [if_neg h, if_neg h]
      refine ⟨v, fun x t ht => ?_, ex⟩
      simp only [contents] at ht
      by_cases h : x = i
      · subst h; rw [if_pos rfl] at ht; exact g.1 x t ht
      · rw [if_neg h, if_neg h] at ht; exact g.1 x t ht
    · rw [if_neg hij]
      have v2 : Inv ((m.setFlag j (some c)).setFlag i (some c')) := setFlag_ok (setFlag_ok v j _ (by simp)) i _ (by simp)
      have fi : ((m.setFlag j (some c)).setFlag i (some c')).customized i = some c' := if_pos rfl
      have fj : ((m.setFlag j (some c)).setFlag i (some c')).customized j = some c :=
        (if_neg (Ne.symm hij)).trans (if_pos rfl)
      have fo : ∀ x, x ≠ i → x ≠ j → ((m.setFlag j (some c)).setFlag i (some c')).customized x = m.customized x :=
        fun x h1 h2 => (if_neg h1).trans (if_neg h2)
      have ex : ∀ x, contents K [.moveAssign i j] x = .vacant ↔
          (((m.setFlag j (some c)).setFlag i (some c')).swap i j c).customized x = none := by
        intro x
        show _ ↔ ((m.setFlag j (some c)).setFlag i (some c')).customized x = none
        simp only [contents]
        by_cases h : x = j
        · rw [if_pos h, h, fj, g.2 i, hc]
        · rw [if_neg h]
          by_cases h' : x = i
          · rw [if_pos h', h', fi]; simp
          · rw [if_neg h', fo x h' h]; exact g.2 x
      refine ⟨swap_ok v2 i j c (by rw [fi]; simp) (by rw [fj]; simp), fun x t ht => ?_, ex⟩
      simp only [contents] at ht
      by_cases h : x = j
      · subst h
        rw [if_pos rfl] at ht
        refine sim_congr (g.1 i t ht) (fj.trans hc.symm) fun c' hc' => ?_
        rw [hc] at hc'
        cases hc'
        rw [val_swap, if_pos rfl, if_neg (Ne.symm hij), if_pos rfl]; rfl
      · rw [if_neg h] at ht
        by_cases h' : x = i
        · rw [if_pos h'] at ht; cases ht
        · rw [if_neg h'] at ht
          refine sim_other (g.1 x t ht) (fo x h' h) fun c' => ?_
          rw [val_swap, if_neg h', if_neg h, ite_self]; rfl
  | destroy i =>
    refine (flag_fine m i).bind fun c hc => ?_
    obtain ⟨m1, e1, v1, f1, p1, q1, u1⟩ := free_ok v i true
    obtain ⟨m2, e2, v2, f2, p2, q2, u2⟩ := free_ok v1 i false
    rw [e1]
    simp only [bind, Except.bind]
    rw [e2]
    have ex : ∀ x, contents K [.destroy i] x = .vacant ↔ (m2.setFlag i none).customized x = none := by
      intro x
      show _ ↔ (if x = i then none else m2.customized x) = none
      simp only [contents]
      by_cases h : x = i
      · rw [if_pos h, if_pos h]; simp
      · rw [if_neg h, if_neg h, f2, f1]; exact g.2 x
    refine ⟨setFlag_ok v2 i none fun _ b => ?_, fun x t ht => ?_, ex⟩
    · cases b
      · exact p2
      · exact q2 _ _ p1
    · simp only [contents] at ht
      by_cases h : x = i
      · rw [if_pos h] at ht; cases ht
      · rw [if_neg h] at ht
        refine sim_other (g.1 x t ht) ?_ fun c' => ?_
        · show (if x = i then none else m2.customized x) = _
          rw [if_neg h, f2, f1]
        · show val m2 x c' = _
          rw [u2 x c' (fun e => h e.1), u1 x c' (fun e => h e.1)]

theorem mem_exec (nb : Nat → Nat) {m : Mem R} {K : Nat → Content} (v : Inv m) (g : Sims nb K m) (P : List CStmt) :
    Fine (fun m' => Inv m' ∧ Sims nb (contents K P) m') (m.exec nb P) := by
  induction P generalizing m K with
  | nil => exact ⟨v, g⟩
  | cons st P ih =>
    rw [contents_cons]
    exact (mem_step nb v g st).bind fun m' h => ih h.1 h.2

/-- later calls on a slot do what they do to the object itself -/
theorem calls_eq (nb : Nat → Nat) {m : Mem R} (v : Inv m) (i : Nat) (c : Bool) (k : KObj R)
    (hc : m.customized i = some c) (hk : val m i c = some k) (more : List Op) :
    (do (← m.exec nb (more.map (.call i))).toVector i) = lift (do toVector (← run (mk c k) more)) := by
  have hf : ∀ m' : Mem R, m'.customized i = some c → m'.flag i = .ok c := fun m' h => by unfold Mem.flag; rw [h]
  induction more generalizing m k with
  | nil =>
    show m.toVector i = lift (toVector (mk c k))
    have hl : m.load i c = .ok k := by rw [load_eq v, hk]
    unfold Mem.toVector
    rw [hf m hc]
    simp only [bind, Except.bind]
    rw [hl]
    cases c <;> rfl
  | cons op more ih =>
    have hl : m.load i c = .ok k := by rw [load_eq v, hk]
    have e1 : m.step nb (.call i op) = (lift (callK op (padding c) k)) >>= fun k' => m.store i c k' := by
      show (m.flag i >>= fun c => m.load i c >>= fun k => lift (callK op (padding c) k) >>= fun k => m.store i c k) = _
      rw [hf m hc]
      simp only [bind, Except.bind]
      rw [hl]
    show ((m.step nb (.call i op) >>= fun m => m.exec nb (more.map (.call i))) >>= fun m => m.toVector i) =
      lift ((step (mk c k) op >>= fun o => run o more) >>= fun o => toVector o)
    rw [e1, step_callK]
    cases hcall : callK op (padding c) k with
    | error f => rfl
    | ok k' =>
      obtain ⟨m', e, v', fl, hv⟩ := store_some v i c k' k hk
      show ((m.store i c k' >>= fun m => m.exec nb (more.map (.call i))) >>= fun m => m.toVector i) =
        lift (run (mk c k') more >>= fun o => toVector o)
      rw [e]
      exact ih v' k' (by rw [fl]; exact hc) (by rw [hv, if_pos ⟨rfl, rfl⟩])

omit hR in
theorem flag_of {m : Mem R} {i : Nat} {c : Bool} (h : m.customized i = some c) : m.flag i = .ok c := by
  unfold Mem.flag; rw [h]

omit hR in
theorem vacant_of {m : Mem R} {i : Nat} (h : m.customized i = none) : m.vacant i = .ok () := by
  unfold Mem.vacant; rw [h]

omit hR in
theorem load_of {m : Mem R} (v : Inv m) {i : Nat} {b : Bool} {k : KObj R} (h : val m i b = some k) : m.load i b = .ok k := by
  rw [load_eq v, h]

/-- objects behave: whatever is constructed can be used in the documented order -/
def Behaves (nb : Nat → Nat) (R : Nat) [RateOK R] : Prop :=
  ∀ (name custom : List Byte), name.length < 2 ^ 53 - 256 → custom.length < 2 ^ 53 - 256 → ∀ d : Nat,
    ∃ o, construct nb R d name custom = .ok o ∧ ∀ ops, Legal ops → ∃ o', run o ops = .ok o'

omit hR in
theorem flag_isSome {m : Mem R} {i : Nat} (h : m.customized i ≠ none) : ∃ c, m.customized i = some c :=
  Option.ne_none_iff_exists'.1 h

/-- the strings and lengths are those of `Behaves` -/
def Sized (t : Origin) : Prop := 0 ≤ t.digestLength ∧ t.name.length < 2 ^ 53 - 256 ∧ t.customize.length < 2 ^ 53 - 256

theorem sim_customized {nb : Nat → Nat} {m : Mem R} {i : Nat} {t : Origin} (h : Sim nb m i t) {c : Bool}
    (hc : m.customized i = some c) : c = !(t.name.isEmpty && t.customize.isEmpty) := by
  obtain ⟨o0, c', k, h1, h2, h3, h4⟩ := h
  rw [hc] at h3
  cases h3
  obtain ⟨s, e⟩ := construct_shape nb _ _ _ _ h1
  rw [← e, ← (run_shape _ _ _ s h2).2, mk_customized]

theorem customized_iff (t : Origin) : t.customized ↔ (!(t.name.isEmpty && t.customize.isEmpty)) = true := by
  unfold Origin.customized
  cases t.name <;> cases t.customize <;> simp

theorem step_progress (nb : Nat → Nat) (beh : Behaves nb R) {m : Mem R} {K : Nat → Content} (v : Inv m) (g : Sims nb K m)
    (z : ∀ i t, K i = .holds t → Sized t) (s : CStmt) (P : List CStmt) (l : legalOwnersFrom K (s :: P)) :
    (∃ m', m.step nb s = .ok m') ∧ ∀ i t, contents K [s] i = .holds t → Sized t := by
  obtain ⟨l, _⟩ := l
  cases s with
  | create j d n c =>
    obtain ⟨hv, hd, hn, hc⟩ := l
    constructor
    · obtain ⟨o, ho, _⟩ := beh n c hn hc d.toNat
      rw [Int.toNat_of_nonneg hd] at ho
      refine ⟨m.place j o, ?_⟩
      unfold Mem.step
      simp only []
      rw [vacant_of ((g.2 j).1 hv), ho]
      rfl
    · intro i t ht
      simp only [contents] at ht
      split at ht
      · cases ht; exact ⟨hd, hn, hc⟩
      · exact z i t ht
  | call i op =>
    obtain ⟨t, hK, hl⟩ := l
    constructor
    · obtain ⟨o0, c, k, h1, h2, h3, h4⟩ := g.1 i t hK
      obtain ⟨hd, hn, hc⟩ := z i t hK
      obtain ⟨o, ho, run⟩ := beh t.name t.customize hn hc t.digestLength.toNat
      rw [Int.toNat_of_nonneg hd, h1] at ho
      cases ho
      obtain ⟨o', ho'⟩ := run _ hl
      rw [run_snoc, h2] at ho'
      have ho' : step (mk c k) op = .ok o' := ho'
      rw [step_callK] at ho'
      cases hk : callK op (padding c) k with
      | error f => rw [hk] at ho'; cases ho'
      | ok k' =>
        obtain ⟨m', e, _⟩ := store_some v i c k' k h4
        refine ⟨m', ?_⟩
        unfold Mem.step
        simp only []
        rw [flag_of h3]
        simp only [bind, Except.bind]
        rw [load_of v h4]
        simp only []
        rw [hk]
        exact e
    · intro x t' ht
      simp only [contents] at ht
      split at ht
      · rw [hK] at ht
        simp only [Content.after] at ht
        cases ht
        exact z i t hK
      · exact z x t' ht
  | copyNew i j =>
    obtain ⟨⟨t, hK⟩, hv⟩ := l
    constructor
    · obtain ⟨o0, c, k, h1, h2, h3, h4⟩ := g.1 i t hK
      have v1 : Inv (m.setFlag j (some c)) := setFlag_ok v j _ (by simp)
      refine ⟨(m.setFlag j (some c)).alloc j c k, ?_⟩
      unfold Mem.step
      simp only []
      rw [vacant_of ((g.2 j).1 hv), flag_of h3]
      simp only [bind, Except.bind]
      rw [load_of v1 (k := k) h4]
      rfl
    · intro x t' ht
      simp only [contents] at ht
      split at ht
      · exact z i t' ht
      · exact z x t' ht
  | copyAssign i j =>
    obtain ⟨t, t', hK, hK', he⟩ := l
    constructor
    · have si := g.1 i t hK
      have sj := g.1 j t' hK'
      obtain ⟨o0, c, k, h1, h2, h3, h4⟩ := id si
      obtain ⟨o0', c', k', h1', h2', h3', h4'⟩ := id sj
      have ec : c = c' := by
        rw [customized_iff, customized_iff, ← sim_customized si h3, ← sim_customized sj h3'] at he
        exact Bool.eq_iff_iff.2 he
      subst ec
      by_cases hij : i = j
      · refine ⟨m, ?_⟩
        unfold Mem.step
        simp only []
        rw [flag_of h3]
        simp only [bind, Except.bind]
        rw [flag_of h3']
        simp only []
        rw [if_pos hij]
        rfl
      · have v1 : Inv (m.setFlag j (some c)) := setFlag_ok v j _ (by simp)
        obtain ⟨m', e, _⟩ := store_some v1 j c k k' h4'
        refine ⟨m', ?_⟩
        unfold Mem.step
        simp only []
        rw [flag_of h3]
        simp only [bind, Except.bind]
        rw [flag_of h3']
        simp only []
        rw [if_neg hij, load_of v1 (k := k) h4]
        exact e
    · intro x t'' ht
      simp only [contents] at ht
      split at ht
      · exact z i t'' ht
      · exact z x t'' ht
  | moveNew i j =>
    obtain ⟨⟨t, hK⟩, hv⟩ := l
    constructor
    · obtain ⟨c, h3⟩ := flag_isSome (sim_obj (g.1 i t hK))
      refine ⟨((m.setFlag j (some c)).setFlag i (some false)).swap i j c, ?_⟩
      unfold Mem.step
      simp only []
      rw [vacant_of ((g.2 j).1 hv), flag_of h3]
      rfl
    · intro x t' ht
      simp only [contents] at ht
      split at ht
      · exact z i t' ht
      · split at ht
        · cases ht
        · exact z x t' ht
  | moveAssign i j =>
    obtain ⟨⟨t, hK⟩, hv⟩ := l
    constructor
    · obtain ⟨c, h3⟩ := flag_isSome (sim_obj (g.1 i t hK))
      obtain ⟨c', h3'⟩ := flag_isSome (fun e => hv ((g.2 j).2 e))
      by_cases hij : i = j
      · refine ⟨m, ?_⟩
        unfold Mem.step
        simp only []
        rw [flag_of h3]
        simp only [bind, Except.bind]
        rw [flag_of h3']
        simp only []
        rw [if_pos hij]
        rfl
      · refine ⟨((m.setFlag j (some c)).setFlag i (some c')).swap i j c, ?_⟩
        unfold Mem.step
        simp only []
        rw [flag_of h3]
        simp only [bind, Except.bind]
        rw [flag_of h3']
        simp only []
        rw [if_neg hij]
        rfl
    · intro x t' ht
      simp only [contents] at ht
      split at ht
      · exact z i t' ht
      · split at ht
        · cases ht
        · exact z x t' ht
  | destroy i =>
    constructor
    · obtain ⟨c, h3⟩ := flag_isSome (fun e => l ((g.2 i).2 e))
      obtain ⟨m1, e1, v1, _⟩ := free_ok v i true
      obtain ⟨m2, e2, _⟩ := free_ok v1 i false
      refine ⟨m2.setFlag i none, ?_⟩
      unfold Mem.step
      simp only []
      rw [flag_of h3, e1]
      simp only [bind, Except.bind]
      rw [e2]
      rfl
    · intro x t' ht
      simp only [contents] at ht
      split at ht
      · cases ht
      · exact z x t' ht

theorem exec_progress (nb : Nat → Nat) (beh : Behaves nb R) {m : Mem R} {K : Nat → Content} (v : Inv m) (g : Sims nb K m)
    (z : ∀ i t, K i = .holds t → Sized t) (P : List CStmt) (l : legalOwnersFrom K P) :
    ∃ m', m.exec nb P = .ok m' := by
  induction P generalizing m K with
  | nil => exact ⟨m, rfl⟩
  | cons s P ih =>
    obtain ⟨⟨m', e⟩, z'⟩ := step_progress nb beh v g z s P l
    have f := mem_step nb v g s
    rw [e] at f
    obtain ⟨m'', e'⟩ := ih f.1 f.2 z' l.2
    refine ⟨m'', ?_⟩
    unfold Mem.exec
    rw [e]
    exact e'

theorem sims_empty (nb : Nat → Nat) : Sims nb (fun _ => .vacant) (Mem.empty R) :=
  ⟨fun _ _ h => (by cases h), fun _ => ⟨fun _ => rfl, fun _ => rfl⟩⟩

end
end Verif.Proof.CShake
