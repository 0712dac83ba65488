import Mathlib.Data.Finset.Card
import Verif.Core.Multicollision
import Verif.Core.Extension
import Verif.Proof.Stream
import Verif.Proof.Num
import Verif.Proof.FNVReach

/-!
# C72: the proofs
-/

namespace Verif.Proof.Multicollision
open Spec

/-- every message can be given, byte by byte -/
theorem given (m : List Byte) : ∃ ops, Legal (ops ++ [.finalize]) ∧ message ops = m := by
  refine ⟨(m.map fun b => [b]).map Op.add, Refines.legal_adds _ ?_, ?_⟩
  · intro p hp
    obtain ⟨b, _, rfl⟩ := List.mem_map.1 hp
    rw [List.length_singleton]
    decide
  · rw [Refines.message_adds]
    induction m with
    | nil => rfl
    | cons b m ih => simp [ih]

section
variable {O : Type} {A : API O} {same : O → O → Prop} {pad : List Byte → List Byte} {S : List Byte → Prop}

theorem meet_trans (ht : ∀ a b c, same a b → same b c → same a c) {m m' m'' : List Byte} (h : A.Meet same m m')
    (h' : A.Meet same m' m'') : A.Meet same m m'' := by
  intro ops ops'' l l'' e e''
  obtain ⟨ops', l', e'⟩ := given m'
  obtain ⟨o, o', r, r', s⟩ := h ops ops' l l' e e'
  obtain ⟨p', p'', q', q'', s'⟩ := h' ops' ops'' l' l'' e' e''
  rw [r'] at q'
  injection q' with q'
  subst q'
  exact ⟨o, p'', r, q'', ht _ _ _ s s'⟩

theorem meet_symm (hs : ∀ a b, same a b → same b a) {m m' : List Byte} (h : A.Meet same m m') : A.Meet same m' m := by
  intro ops ops' l l' e e'
  obtain ⟨o, o', r, r', s⟩ := h ops' ops l' l e' e
  exact ⟨o', o, r', r, hs _ _ s⟩

theorem meet_extend (hE : A.Extends same pad S) {m m' : List Byte} (hl : m.length = m'.length) (h : A.Meet same m m')
    (x : List Byte) (hS : S (pad m ++ x)) (hS' : S (pad m' ++ x)) : A.Meet same (pad m ++ x) (pad m' ++ x) := by
  intro ext ext' l l' e e'
  obtain ⟨ops, lo, eo⟩ := given m
  obtain ⟨ops', lo', eo'⟩ := given m'
  obtain ⟨o, o', q, q', ro, ro', rq, rq', hh⟩ := hE ops ops' ext ext' x lo lo' l l' (by rw [eo, eo', hl]) (by rw [e, eo])
    (by rw [e', eo']) (e ▸ hS) (e' ▸ hS')
  obtain ⟨p, p', rp, rp', s⟩ := h ops ops' lo lo' eo eo'
  rw [ro] at rp; rw [ro'] at rp'
  injection rp with rp; injection rp' with rp'
  subst rp rp'
  exact ⟨q, q', rq, rq', hh s⟩

/-- the first of all combinations -/
def first (pad : List Byte → List Byte) : List Byte → List (List Byte × List Byte) → List Byte
  | m, [] => m
  | m, (a, _) :: ps => first pad (pad (m ++ a)) ps

theorem count (m : List Byte) (ps : List (List Byte × List Byte)) : (combinations pad m ps).length = 2 ^ ps.length := by
  induction ps generalizing m with
  | nil => rfl
  | cons p ps ih => rw [combinations, List.length_append, ih, ih, List.length_cons, Nat.pow_succ, Nat.mul_two]

theorem pad_length (pub : PublicPadding pad) {m m' : List Byte} (h : m.length = m'.length) : (pad m).length = (pad m').length := by
  obtain ⟨p, e, e'⟩ := pub m m' h
  rw [e, e']
  simp [h]

theorem lengths (pub : PublicPadding pad) (ps : List (List Byte × List Byte)) (hab : ∀ p ∈ ps, p.1.length = p.2.length)
    (m m' : List Byte) (h : m.length = m'.length) : ∀ c ∈ combinations pad m ps, c.length = (first pad m' ps).length := by
  induction ps generalizing m m' with
  | nil => intro c hc; rw [combinations, List.mem_singleton] at hc; rw [hc]; exact h
  | cons p ps ih =>
    obtain ⟨a, b⟩ := p
    have hl : a.length = b.length := hab (a, b) (by simp)
    intro c hc
    rw [combinations, List.mem_append] at hc
    rcases hc with hc | hc
    · exact ih (fun p hp => hab p (by simp [hp])) _ _ (pad_length pub (by simp [h])) c hc
    · exact ih (fun p hp => hab p (by simp [hp])) _ _ (pad_length pub (by simp [h, hl])) c hc

theorem begins (pub : PublicPadding pad) (ps : List (List Byte × List Byte)) (m : List Byte) :
    ∀ c ∈ combinations pad m ps, m <+: c := by
  induction ps generalizing m with
  | nil => intro c hc; rw [combinations, List.mem_singleton] at hc; rw [hc]
  | cons p ps ih =>
    obtain ⟨a, b⟩ := p
    have hp : ∀ x, m <+: pad (m ++ x) := fun x => by
      obtain ⟨q, e, _⟩ := pub (m ++ x) (m ++ x) rfl
      rw [e, List.append_assoc]
      exact List.prefix_append _ _
    intro c hc
    rw [combinations, List.mem_append] at hc
    rcases hc with hc | hc
    · exact (hp a).trans (ih _ c hc)
    · exact (hp b).trans (ih _ c hc)

theorem pairs_of {m : List Byte} {ps : List (List Byte × List Byte)} (h : A.Collisions same pad m ps) :
    ∀ p ∈ ps, p.1 ≠ p.2 ∧ p.1.length = p.2.length := by
  induction ps generalizing m with
  | nil => intro p hp; cases hp
  | cons q ps ih =>
    obtain ⟨a, b⟩ := q
    obtain ⟨h1, h2, _, h4⟩ := h
    intro p hp
    rcases List.mem_cons.1 hp with rfl | hp
    · exact ⟨h1, h2⟩
    · exact ih h4 p hp

theorem nodup (pub : PublicPadding pad) (ps : List (List Byte × List Byte))
    (hab : ∀ p ∈ ps, p.1 ≠ p.2 ∧ p.1.length = p.2.length) (m : List Byte) : (combinations pad m ps).Nodup := by
  induction ps generalizing m with
  | nil => simp [combinations]
  | cons p ps ih =>
    obtain ⟨a, b⟩ := p
    obtain ⟨hne, hl⟩ := hab (a, b) (by simp)
    have hab' : ∀ p ∈ ps, p.1 ≠ p.2 ∧ p.1.length = p.2.length := fun p hp => hab p (by simp [hp])
    rw [combinations, List.nodup_append]
    refine ⟨ih hab' _, ih hab' _, fun c hc c' hc' e => hne ?_⟩
    subst e
    have h1 := begins pub ps _ c hc
    have h2 := begins pub ps _ c hc'
    obtain ⟨q, e, e'⟩ := pub (m ++ a) (m ++ b) (by simp [hl])
    rw [e] at h1
    rw [e'] at h2
    have h1 : m ++ a <+: c := (List.prefix_append _ _).trans h1
    have h2 : m ++ b <+: c := (List.prefix_append _ _).trans h2
    have := List.prefix_of_prefix_length_le h1 h2 (by simp [hl])
    have := this.eq_of_length (by simp [hl])
    exact List.append_cancel_left this

/-- one message, given in two ways -/
theorem meet_self {H : Type} {dig : List Byte → Except Fault (List Byte)} (r : Refines A dig) {eq : O → O → Bool} {B : Nat}
    {comp : H → Block B → H} {iv : H} (view : O → H) (heq : ∀ o o', eq o o' = true ↔ view o = view o')
    (hF : ∀ o m, r.F o m → view o = mdFold B comp iv (pad m)) (m : List Byte) : A.Meet (fun o o' => eq o o' = true) m m := by
  intro ops ops' l l' e e'
  obtain ⟨o, ro, fo⟩ := r.run_finalize ops l
  obtain ⟨o', ro', fo'⟩ := r.run_finalize ops' l'
  exact ⟨o, o', ro, ro', (heq _ _).2 (by rw [hF _ _ fo, hF _ _ fo', e, e'])⟩

theorem meet_digest {dig : List Byte → Except Fault (List Byte)} (r : Refines A dig) (m : List Byte) :
    A.Meet (fun o o' => A.toArray o = A.toArray o') m m := by
  intro ops ops' l l' e e'
  obtain ⟨o, ro, fo⟩ := r.run_finalize ops l
  obtain ⟨o', ro', fo'⟩ := r.run_finalize ops' l'
  exact ⟨o, o', ro, ro', by show A.toArray o = A.toArray o'; rw [r.out _ _ fo, r.out _ _ fo', e, e']⟩

/-- a combination meets the first one, whatever is appended -/
theorem meets_first (hE : A.Extends same pad S) (pub : PublicPadding pad) (hr : ∀ m, A.Meet same m m)
    (hs : ∀ a b, same a b → same b a) (ht : ∀ a b c, same a b → same b c → same a c)
    (hS : ∀ m m', m.length = m'.length → S m → S m') (hS' : ∀ m t, S (m ++ t) → S m)
    (ps : List (List Byte × List Byte)) (m m' : List Byte) (hl : m.length = m'.length)
    (hm : ∀ x, S (m ++ x) → A.Meet same (m ++ x) (m' ++ x)) (hc : A.Collisions same pad m' ps) :
    ∀ c ∈ combinations pad m ps, ∀ x, S (c ++ x) → A.Meet same (c ++ x) (first pad m' ps ++ x) := by
  induction ps generalizing m m' with
  | nil =>
    intro c hc x hx
    rw [combinations, List.mem_singleton] at hc
    subst hc
    exact hm x hx
  | cons p ps ih =>
    obtain ⟨a, b⟩ := p
    obtain ⟨_, hab, hcol, hrest⟩ := hc
    have step : ∀ z, z = a ∨ z = b → ∀ x, S (pad (m ++ z) ++ x) → A.Meet same (pad (m ++ z) ++ x) (pad (m' ++ a) ++ x) := by
      intro z hz x hx
      have hzl : z.length = a.length := by rcases hz with rfl | rfl <;> simp [hab]
      have hlen : (m ++ z).length = (m' ++ a).length := by simp [hl, hzl]
      have hSz : S (m ++ z) := by
        obtain ⟨q, e, _⟩ := pub (m ++ z) (m ++ z) rfl
        rw [e, List.append_assoc] at hx
        exact hS' _ _ hx
      have h1 : A.Meet same (m ++ z) (m' ++ z) := hm z hSz
      have h2 : A.Meet same (m' ++ z) (m' ++ a) := by
        rcases hz with rfl | rfl
        · exact hr _
        · exact meet_symm hs hcol
      exact meet_extend hE hlen (meet_trans ht h1 h2) x hx (hS _ _ (by simp [pad_length pub hlen]) hx)
    intro c hc
    rw [combinations, List.mem_append] at hc
    rcases hc with hc | hc
    · exact ih _ _ (pad_length pub (by simp [hl])) (step a (.inl rfl)) hrest c hc
    · exact ih _ _ (pad_length pub (by simp [hl, hab])) (step b (.inr rfl)) hrest c hc

theorem multicollides (hE : A.Extends same pad S) (pub : PublicPadding pad) (hr : ∀ m, A.Meet same m m)
    (hs : ∀ a b, same a b → same b a) (ht : ∀ a b c, same a b → same b c → same a c)
    (hS : ∀ m m', m.length = m'.length → S m → S m') (hS' : ∀ m t, S (m ++ t) → S m) : A.Multicollides same pad S := by
  intro ps hc
  have hp := pairs_of hc
  have hl : ∀ c ∈ combinations pad [] ps, c.length = (first pad [] ps).length :=
    lengths pub ps (fun p h => (hp p h).2) [] [] rfl
  have hf := meets_first hE pub hr hs ht hS hS' ps [] [] rfl (fun x _ => hr _) hc
  refine ⟨count [] ps, nodup pub ps hp [], fun m hm m' hm' => ⟨(hl m hm).trans (hl m' hm').symm, fun x hx => ?_⟩⟩
  have hx' : S (m' ++ x) := hS _ _ (by simp [hl m hm, hl m' hm']) hx
  exact meet_trans ht (hf m hm x hx) (meet_symm hs (hf m' hm' x hx'))

/-- the two kinds of sameness -/
theorem digests {dig : List Byte → Except Fault (List Byte)} (r : Refines A dig)
    (hE : A.Extends (fun o o' => A.toArray o = A.toArray o') pad S) (pub : PublicPadding pad)
    (hS : ∀ m m', m.length = m'.length → S m → S m') (hS' : ∀ m t, S (m ++ t) → S m) :
    A.Multicollides (fun o o' => A.toArray o = A.toArray o') pad S :=
  multicollides hE pub (meet_digest r) (fun _ _ h => h.symm) (fun _ _ _ h h' => h.trans h') hS hS'

theorem states {H : Type} {dig : List Byte → Except Fault (List Byte)} (r : Refines A dig) {eq : O → O → Bool} {B : Nat}
    {comp : H → Block B → H} {iv : H} (view : O → H) (heq : ∀ o o', eq o o' = true ↔ view o = view o')
    (hF : ∀ o m, r.F o m → view o = mdFold B comp iv (pad m))
    (hE : A.Extends (fun o o' => eq o o' = true) pad (fun _ => True)) (pub : PublicPadding pad) :
    A.Multicollides (fun o o' => eq o o' = true) pad (fun _ => True) :=
  multicollides hE pub (meet_self r view heq hF) (fun _ _ h => (heq _ _).2 ((heq _ _).1 h).symm)
    (fun _ _ _ h h' => (heq _ _).2 (((heq _ _).1 h).trans ((heq _ _).1 h'))) (fun _ _ _ _ => trivial) (fun _ _ _ => trivial)

/-- `f m` of a class with digests of `n` bytes has `n` bytes -/
theorem size_of {P : Type} {C : API P} {f : List Byte → List Byte} {n : Nat} (hC : C.Computes f) (hn : C.DigestSize n)
    (m : List Byte) : (f m).length = n := by
  obtain ⟨ops, l, e⟩ := given m
  obtain ⟨o, r, t⟩ := hC ops l trivial
  obtain ⟨o', d, r', t', hd⟩ := hn ops l
  rw [r] at r'
  injection r' with r'
  subst r'
  rw [t, e] at t'
  injection t' with t'
  rw [t', hd]

theorem same_of {P : Type} {C : API P} {f : List Byte → List Byte} (hC : C.Computes f) {m m' : List Byte} (h : f m = f m') :
    C.SameDigest m m' := by
  intro ops ops' l l' e e'
  obtain ⟨o, r, t⟩ := hC ops l trivial
  obtain ⟨o', r', t'⟩ := hC ops' l' trivial
  exact ⟨o, o', r, r', by show C.toArray o = C.toArray o'; rw [t, t', e, e', h]⟩

/-- more messages than digests -/
theorem pigeon (L : List (List Byte)) (hL : L.Nodup) (f : List Byte → List Byte) (n : Nat) (hf : ∀ m, (f m).length = n)
    (h : 256 ^ n < L.length) : ∃ m ∈ L, ∃ m' ∈ L, m ≠ m' ∧ f m = f m' := by
  obtain ⟨m, hm, m', hm', hne, e⟩ := Finset.exists_ne_map_eq_of_card_lt_of_maps_to (s := L.toFinset) (t := Finset.range (256 ^ n))
    (f := fun m => ofBE (f m)) (by rw [Finset.card_range, List.toFinset_card_of_nodup hL]; exact h) (by
      intro m _
      rw [Finset.coe_range, Set.mem_Iio, ← hf m]
      exact FNV.ofBE_lt _)
  refine ⟨m, by simpa using hm, m', by simpa using hm', hne, ?_⟩
  have e : ofBE (f m) = ofBE (f m') := e
  rw [← FNV.toBE_ofBE (f m), ← FNV.toBE_ofBE (f m'), hf, hf, e]

theorem beside (h : A.Multicollides same pad S) : A.BesideOther same pad S := by
  intro P C f n hC hn ps hc hk
  obtain ⟨h1, h2, h3⟩ := h ps hc
  obtain ⟨m, hm, m', hm', hne, e⟩ := pigeon _ h2 f n (size_of hC hn) (by
    rw [h1, show 256 = 2 ^ 8 from rfl, ← Nat.pow_mul]
    exact Nat.pow_lt_pow_right (by decide) hk)
  obtain ⟨hl, hx⟩ := h3 m hm m' hm'
  refine ⟨m, m', hne, hl, same_of hC e, fun hS => ?_⟩
  have := hx [] (by rw [List.append_nil]; exact hS)
  rwa [List.append_nil, List.append_nil] at this

/-- There are collisions, any number of them, in every class. -/
theorem exist {f : List Byte → List Byte} {n : Nat} (hA : A.Computes f) (hn : A.DigestSize n) (m : List Byte) (k : Nat) :
    ∃ ps, ps.length = k ∧ A.Collisions (fun o o' => A.toArray o = A.toArray o') pad m ps := by
  induction k generalizing m with
  | zero => exact ⟨[], rfl, trivial⟩
  | succ k ih =>
    have hi : ∀ i j, i < 256 ^ (n + 1) → j < 256 ^ (n + 1) → toBE (n + 1) i = toBE (n + 1) j → i = j :=
      fun i j h h' e => toBE_inj h h' e
    obtain ⟨a, ha, b, hb, hne, e⟩ := pigeon ((List.range (256 ^ (n + 1))).map fun i => toBE (n + 1) i)
      (by
        refine (List.nodup_map_iff_inj_on List.nodup_range).2 fun i h j h' e => ?_
        exact hi i j (List.mem_range.1 h) (List.mem_range.1 h') e)
      (fun x => f (m ++ x)) n (fun x => size_of hA hn _) (by
        rw [List.length_map, List.length_range]
        exact Nat.pow_lt_pow_right (by decide) (Nat.lt_succ_self n))
    obtain ⟨ps, hk, hc⟩ := ih (pad (m ++ a))
    refine ⟨(a, b) :: ps, by rw [List.length_cons, hk], hne, ?_, same_of hA e, hc⟩
    obtain ⟨i, _, rfl⟩ := List.mem_map.1 ha
    obtain ⟨j, _, rfl⟩ := List.mem_map.1 hb
    rw [toBE_length, toBE_length]

end
end Verif.Proof.Multicollision
