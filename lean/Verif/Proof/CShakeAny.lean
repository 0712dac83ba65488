import Verif.Proof.MachineCShake
import Verif.Proof.Spans

/-!
cSHAKE and TupleHash whatever the byte count `nb` does: the constructor either fails for every output length, or gives
for every output length an object that has absorbed the same bytes.
-/

namespace Verif.Proof.CShakeAny
open Verif.Model Model.CShake Proof.CShake Proof.Misuse Proof.Machine Spec

theorem holds_contents {N : Nat} {b : Buffer N} (h : b.size ≤ N) : b.Holds b.contents := by
  refine ⟨?_, rfl⟩
  unfold Buffer.contents
  rw [List.length_take, Vector.length_toList]
  unfold Buffer.size at h
  omega

section
variable {R : Nat} [hR : SHA3.RateOK R]

/-- the suffix bits of the class in use -/
def sufOf (c : Bool) : List Bool := if c then [false, false] else [true, true, true, true]

theorem isSuffix (c : Bool) : Proof.SHA3.IsSuffix (padOf c) (sufOf c) := by
  cases c
  · exact Proof.SHA3.suffix_shake
  · exact Proof.SHA3.suffix_cshake

/-- the output -/
def outOf (R : Nat) (c : Bool) (d : Nat) (m : List Byte) : List Byte :=
  Keccak.bytes (Keccak.sponge (8 * R) (Keccak.bits m ++ sufOf c) (8 * d))

def ref (h8 : R % 8 = 0) (c : Bool) (d : Nat) : Refines (SHA3.Keccak R (padOf c) d) (fun m => .ok (outOf R c d m)) :=
  Proof.SHA3.refines R h8 (padOf c) (sufOf c) (isSuffix c) d

theorem processString_any (nb : Nat → Nat) (s : List Byte) (hs : s.length < 2 ^ 64) :
    (∃ f, ∀ (o : CShake R) n, processString nb o s n = .error f) ∨
    (∃ e k, ∀ (dl : Nat) {dig : List Byte → Except Fault (List Byte)} (r : Refines (SHA3.Keccak R 0x04 dl) dig)
      (x : Obj R SHA3.KState) (m : List Byte) (n : Nat), r.R x m →
      ∃ y, processString nb (mk true ⟨dl, x⟩) s n = .ok (mk true ⟨dl, y⟩, ((n + k) % 2 ^ 64 + s.length) % 2 ^ 64) ∧
        r.R y (m ++ e)) := by
  cases he : leftEncode nb (s.length * 8 % 2 ^ 64) with
  | error f =>
    refine Or.inl ⟨f, fun o n => ?_⟩
    unfold CShake.processString
    rw [he]
    rfl
  | ok b =>
    refine Or.inr ⟨b.contents ++ s, b.size, fun dl dig r x m n h => ?_⟩
    have hb : b.contents.length < 2 ^ 64 := by have := contents_le b; omega
    obtain ⟨y, ey, hy⟩ := addData_mk true dl r x m b.contents h hb
    obtain ⟨z, ez, hz⟩ := addData_mk true dl r y _ s hy hs
    refine ⟨z, ?_, by simpa using hz⟩
    unfold CShake.processString
    rw [he]
    simp only [bind, Except.bind, ey, ez, pure, Except.pure]

/-- construction either fails, for the same reason for every output length, or leaves an object that has absorbed
bytes that do not depend on the output length -/
theorem construct_any (h8 : R % 8 = 0) (nb : Nat → Nat) (name custom : List Byte) (hn : name.length < 2 ^ 64)
    (hc : custom.length < 2 ^ 64) :
    (∃ f, ∀ d : Nat, construct nb R d name custom = .error f) ∨
    (∃ c pre, ∀ d : Nat, ∃ x, construct nb R d name custom = .ok (mk c ⟨d, x⟩) ∧ (ref h8 c d).R x pre) := by
  by_cases hne : name = [] ∧ custom = []
  · obtain ⟨rfl, rfl⟩ := hne
    exact Or.inr ⟨false, [], fun d => ⟨_, construct_plain nb d, (ref h8 false d).fresh⟩⟩
  have hcust : (!(name.isEmpty && custom.isEmpty)) = true := by
    cases name with
    | cons a l => rfl
    | nil => cases custom with
      | cons a l => rfl
      | nil => exact absurd ⟨rfl, rfl⟩ hne
  cases he : leftEncode nb R with
  | error f =>
    refine Or.inl ⟨f, fun d => ?_⟩
    unfold CShake.construct
    rw [hcust]
    simp only [Bool.true_eq_false, if_false]
    rw [new_mk]
    simp only [bind, Except.bind, he]
  | ok b =>
    have hb : b.contents.length < 2 ^ 64 := by have := contents_le b; omega
    have first : ∀ d : Nat, ∃ x, Model.CShake.addData (⟨true, none, some ⟨d, (SHA3.Keccak R 0x04 d).fresh⟩⟩ : CShake R)
        b.contents = .ok (mk true ⟨d, x⟩) ∧ (ref h8 true d).R x b.contents := fun d => by
      have := addData_mk true d (ref h8 true d) _ [] b.contents (ref h8 true d).fresh hb
      rw [List.nil_append] at this
      exact this
    rcases processString_any (R := R) nb name hn with ⟨f, hf⟩ | ⟨e1, k1, h1⟩
    · refine Or.inl ⟨f, fun d => ?_⟩
      obtain ⟨x, ex, hx⟩ := first d
      unfold CShake.construct
      rw [hcust]
      simp only [Bool.true_eq_false, if_false]
      rw [new_mk]
      simp only [bind, Except.bind, he, ex, hf]
    rcases processString_any (R := R) nb custom hc with ⟨f, hf⟩ | ⟨e2, k2, h2⟩
    · refine Or.inl ⟨f, fun d => ?_⟩
      obtain ⟨x, ex, hx⟩ := first d
      obtain ⟨y, ey, hy⟩ := h1 d (ref h8 true d) x _ b.size hx
      unfold CShake.construct
      rw [hcust]
      simp only [Bool.true_eq_false, if_false]
      rw [new_mk]
      simp only [bind, Except.bind, he, ex, ey, hf]
    · refine Or.inr ⟨true, b.contents ++ e1 ++ e2 ++ List.replicate ((R - (((((b.size + k1) % 2 ^ 64 + name.length) % 2 ^ 64)
        + k2) % 2 ^ 64 + custom.length) % 2 ^ 64 % R) % R) 0, fun d => ?_⟩
      obtain ⟨x, ex, hx⟩ := first d
      obtain ⟨y, ey, hy⟩ := h1 d (ref h8 true d) x _ b.size hx
      obtain ⟨z, ez, hz⟩ := h2 d (ref h8 true d) y _ (((b.size + k1) % 2 ^ 64 + name.length) % 2 ^ 64) hy
      obtain ⟨w, ew, hw⟩ := addZeros_mk true d (ref h8 true d) ((R - (((((b.size + k1) % 2 ^ 64 + name.length) % 2 ^ 64)
        + k2) % 2 ^ 64 + custom.length) % 2 ^ 64 % R) % R) z _ hz
      refine ⟨w, ?_, hw⟩
      unfold CShake.construct
      rw [hcust]
      simp only [Bool.true_eq_false, if_false]
      rw [new_mk]
      simp only [bind, Except.bind, he, ex, ey, ez]
      exact ew

/-- an object that a constructor returned -/
theorem construct_ok (h8 : R % 8 = 0) (nb : Nat → Nat) (name custom : List Byte) (hn : name.length < 2 ^ 64)
    (hc : custom.length < 2 ^ 64) (d : Nat) (o : CShake R) (e : construct nb R d name custom = .ok o) :
    ∃ c pre, (∃ x, o = mk c ⟨d, x⟩ ∧ (ref h8 c d).R x pre) ∧
      ∀ d' : Nat, ∃ x, construct nb R d' name custom = .ok (mk c ⟨d', x⟩) ∧ (ref h8 c d').R x pre := by
  rcases construct_any h8 nb name custom hn hc with ⟨f, hf⟩ | ⟨c, pre, h⟩
  · rw [hf] at e
    cases e
  · refine ⟨c, pre, ?_, h⟩
    obtain ⟨x, ex, hx⟩ := h d
    rw [e] at ex
    exact ⟨x, Except.ok.inj ex, hx⟩

theorem construct_ready (h8 : R % 8 = 0) (nb : Nat → Nat) (name custom : List Byte) (hn : name.length < 2 ^ 64)
    (hc : custom.length < 2 ^ 64) (d : Nat) (o : CShake R) (e : construct nb R d name custom = .ok o) :
    ∃ c, Memory.Ready c d o := by
  obtain ⟨c, pre, ⟨x, rfl, hx⟩, _⟩ := construct_ok h8 nb name custom hn hc d o e
  refine ⟨c, x, rfl, ⟨_, hx.2, restPart_lt R _ hR.pos⟩, trivial⟩

theorem construct_nat (nb : Nat → Nat) (name custom : List Byte) (dl : Int) (o : CShake R)
    (e : construct nb R dl name custom = .ok o) : ∃ d : Nat, dl = d := by
  by_cases h : dl < 0
  · exfalso
    have hk : ∀ P, newK R P dl = .error .badLength := fun P => by
      unfold newK SHA3.construct
      rw [if_pos h]
      rfl
    unfold CShake.construct at e
    rw [hk, hk] at e
    dsimp only at e
    split at e <;> cases e
  · exact ⟨dl.toNat, by omega⟩

/-! ### TupleHash -/

/-- Wherever a history on a TupleHash object returns, it is a history on its cSHAKE object, and legal if the first is.
Both end in the same way. -/
theorem tuple_calls (nb : Nat → Nat) (dl : Int) (ops : List Op) : ∀ (c : CShake R) (o : TupleHash R),
    tupleRun nb ⟨c, dl⟩ ops = .ok o →
      ∃ cs, o.digestLength = dl ∧ run c cs = .ok o.cshake ∧ (∀ fin, legalFrom fin ops → legalFrom fin cs) ∧
        (ops = [] → cs = []) ∧ ∀ t, ops = t ++ [.finalize] → ∃ ds, cs = ds ++ [.finalize] := by
  induction ops with
  | nil =>
    intro c o e
    have := Except.ok.inj e
    subst this
    exact ⟨[], rfl, rfl, fun _ h => h, fun _ => rfl, fun t h => by simp at h⟩
  | cons op ops ih =>
    intro c o e
    obtain ⟨o1, e1, e2⟩ := bind_ok e
    cases op with
    | add d =>
      obtain ⟨b, eb, e1⟩ := bind_ok e1
      obtain ⟨c1, f1, e1⟩ := bind_ok e1
      obtain ⟨c2, f2, e1⟩ := bind_ok e1
      have := Except.ok.inj e1
      subst this
      obtain ⟨cs, h1, h2, h3, h4, h5⟩ := ih c2 o e2
      have last : ∀ t, Op.add d :: ops = t ++ [Op.finalize] → ∃ ds, Op.add b.contents :: .add d :: cs = ds ++ [Op.finalize] := by
        intro t ht
        cases t with
        | nil => exact absurd (List.cons.inj ht).1 (by simp)
        | cons a t =>
          obtain ⟨ds, hds⟩ := h5 t (List.cons.inj ht).2
          subst hds
          exact ⟨.add b.contents :: .add d :: ds, rfl⟩
      refine ⟨.add b.contents :: .add d :: cs, h1, ?_, ?_, fun h => (nomatch h), last⟩
      · show (step c (.add b.contents) >>= fun c1 => run c1 _) = _
        rw [show step c (.add b.contents) = .ok c1 from f1]
        show (step c1 (.add d) >>= fun c1 => run c1 _) = _
        rw [show step c1 (.add d) = .ok c2 from f2]
        exact h2
      · intro fin hl
        exact ⟨hl.1, by have := contents_le b; omega, rfl, hl.2.1, h3 _ hl.2.2⟩
    | reset =>
      obtain ⟨c1, f1, e1⟩ := bind_ok e1
      have := Except.ok.inj e1
      subst this
      obtain ⟨cs, h1, h2, h3, h4, h5⟩ := ih c1 o e2
      have last : ∀ t, Op.reset :: ops = t ++ [Op.finalize] → ∃ ds, Op.reset :: cs = ds ++ [Op.finalize] := by
        intro t ht
        cases t with
        | nil => exact absurd (List.cons.inj ht).1 (by simp)
        | cons a t =>
          obtain ⟨ds, hds⟩ := h5 t (List.cons.inj ht).2
          subst hds
          exact ⟨.reset :: ds, rfl⟩
      refine ⟨.reset :: cs, h1, ?_, fun fin hl => h3 _ hl, fun h => (nomatch h), last⟩
      show (step c .reset >>= fun c1 => run c1 _) = _
      rw [show step c .reset = .ok c1 from f1]
      exact h2
    | finalize =>
      have e1 : tupleFinalize nb ⟨c, dl⟩ = .ok o1 := e1
      unfold tupleFinalize at e1
      simp only [] at e1
      split at e1
      · cases e1
      · obtain ⟨b, eb, e1⟩ := bind_ok e1
        obtain ⟨c1, f1, e1⟩ := bind_ok e1
        obtain ⟨c2, f2, e1⟩ := bind_ok e1
        have := Except.ok.inj e1
        subst this
        obtain ⟨cs, h1, h2, h3, h4, h5⟩ := ih c2 o e2
        have last : ∀ t, Op.finalize :: ops = t ++ [Op.finalize] → ∃ ds, Op.add b.contents :: .finalize :: cs = ds ++ [Op.finalize] := by
          intro t ht
          cases t with
          | nil =>
            have := h4 (List.cons.inj ht).2
            subst this
            exact ⟨[.add b.contents], rfl⟩
          | cons a t =>
            obtain ⟨ds, hds⟩ := h5 t (List.cons.inj ht).2
            subst hds
            exact ⟨.add b.contents :: .finalize :: ds, rfl⟩
        refine ⟨.add b.contents :: .finalize :: cs, h1, ?_, ?_, fun h => (nomatch h), last⟩
        · show (step c (.add b.contents) >>= fun c1 => run c1 _) = _
          rw [show step c (.add b.contents) = .ok c1 from f1]
          show (step c1 .finalize >>= fun c1 => run c1 _) = _
          rw [show step c1 .finalize = .ok c2 from f2]
          exact h2
        · intro fin hl
          exact ⟨hl.1, by have := contents_le b; omega, rfl, h3 _ hl.2⟩

open Memory in
theorem tuple_ready (nb : Nat → Nat) {c : Bool} {d : Nat} {dl : Int} {o : CShake R} (hI : Ready c d o) (op : Op)
    (ho : AnyOrder [op]) {o1 : TupleHash R} (e1 : tupleStep nb ⟨o, dl⟩ op = .ok o1) :
    ∃ o2, o1 = ⟨o2, dl⟩ ∧ Ready c d o2 := by
  cases op with
  | add l =>
    obtain ⟨b, eb, e1⟩ := bind_ok e1
    obtain ⟨c1, f1, e1⟩ := bind_ok e1
    obtain ⟨c2, f2, e1⟩ := bind_ok e1
    obtain ⟨x1, g1, i1⟩ := ready_add hI b.contents (by have := contents_le b; omega)
    have f1 : Model.CShake.addData o b.contents = .ok c1 := f1
    rw [g1] at f1
    have := Except.ok.inj f1
    subst this
    obtain ⟨x2, g2, i2⟩ := ready_add i1 l (ho l (by simp))
    rw [g2] at f2
    have := Except.ok.inj f2
    subst this
    exact ⟨x2, (Except.ok.inj e1).symm, i2⟩
  | reset =>
    obtain ⟨c1, f1, e1⟩ := bind_ok e1
    obtain ⟨x1, g1, i1⟩ := ready_reset hI
    have f1 : Model.CShake.reset o = .ok c1 := f1
    rw [g1] at f1
    have := Except.ok.inj f1
    subst this
    exact ⟨x1, (Except.ok.inj e1).symm, i1⟩
  | finalize =>
    have e1 : tupleFinalize nb ⟨o, dl⟩ = .ok o1 := e1
    unfold tupleFinalize at e1
    simp only [] at e1
    split at e1
    · cases e1
    · obtain ⟨b, eb, e1⟩ := bind_ok e1
      obtain ⟨c1, f1, e1⟩ := bind_ok e1
      obtain ⟨c2, f2, e1⟩ := bind_ok e1
      obtain ⟨x1, g1, i1⟩ := ready_add hI b.contents (by have := contents_le b; omega)
      rw [g1] at f1
      have := Except.ok.inj f1
      subst this
      obtain ⟨x2, g2, i2⟩ := ready_fin i1
      rw [g2] at f2
      have := Except.ok.inj f2
      subst this
      exact ⟨x2, (Except.ok.inj e1).symm, i2⟩

open Memory in
/-- through pointers, faults included -/
theorem tupleSame (nb : Nat → Nat) {c : Bool} {d : Nat} (dl : Int)
    {self loc : Nat} (hs : self ≠ 0) (hloc : loc ≠ 0) : ∀ (calls : List MemOp) (ops : List Op)
    (o : CShake R), Ready c d o → HandsAll calls ops →
      tupleRunAt nb self loc ⟨o, dl⟩ calls = tupleRun nb ⟨o, dl⟩ ops := by
  intro calls
  induction calls with
  | nil =>
    intro ops o _ ho
    cases ops with
    | nil => rfl
    | cons => exact ho.elim
  | cons call cs ih =>
    intro ops o hI ho
    cases ops with
    | nil => exact ho.elim
    | cons op ops =>
      obtain ⟨h1, h2⟩ := ho
      refine bind_eq (x := tupleStepAt nb self loc ⟨o, dl⟩ call) (y := tupleStep nb ⟨o, dl⟩ op) ?_ ?_
      · cases call with
        | add mem ptr len =>
          cases op with
          | add l =>
            obtain ⟨rfl, hp, hl, hm⟩ := h1
            simp only [tupleStepAt, nextDataAt, make_eq (hp.imp id (by rintro rfl; rfl)) hl, okb, tupleStep, nextData]
            refine bind_eq rfl fun b hb => ?_
            have hb8 := leftEncode_size hb
            have hh := holds_contents hb8
            have hc := contents_le b
            rw [make_eq (p := loc) (n := b.size) (Or.inl hloc) (by omega)]
            simp only [okb]
            have s1 := spanAt_eq hI hs (holds_lies hh loc) (Or.inl hloc) (by omega)
            rw [← hh.size_eq] at s1
            refine bind_eq s1 fun c1 e1 => ?_
            obtain ⟨c1', e1', i1⟩ := ready_add hI b.contents (by omega)
            rw [e1'] at e1
            have := Except.ok.inj e1
            subst this
            rw [spanAt_eq i1 hs hm hp hl]
          | reset => exact h1.elim
          | finalize => exact h1.elim
        | reset =>
          cases op with
          | reset => rfl
          | add => exact h1.elim
          | finalize => exact h1.elim
        | finalize =>
          cases op with
          | finalize => rfl
          | add => exact h1.elim
          | reset => exact h1.elim
      · intro o1 e1
        have anyop : AnyOrder [op] := by
          intro y hy
          simp only [List.mem_singleton] at hy
          subst hy
          cases call with
          | add mem ptr len =>
            obtain ⟨rfl, hp, hl, hm⟩ := h1
            omega
          | reset => exact h1.elim
          | finalize => exact h1.elim
        obtain ⟨o2, rfl, i⟩ := tuple_ready nb hI op anyop e1
        exact ih ops o2 i h2

end
end Verif.Proof.CShakeAny
