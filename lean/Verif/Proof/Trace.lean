import Verif.Core.Trace
import Verif.Proof.Differences
import Verif.Proof.BLAKE2
import Verif.Proof.BLAKE
import Verif.Proof.KeccakPerm

/-! # The bytes of the buffer that are not in use are zero -/

namespace Verif
namespace Buffer
variable {N : Nat}

/-- the bytes that are not in use are zero -/
def Clean (b : Buffer N) : Prop := ∀ i, b.endIdx ≤ i → (h : i < N) → b.arr[i] = 0

theorem clean_empty : ({} : Buffer N).Clean := fun i _ h => by
  show (Vector.replicate N (0 : Byte))[i] = 0
  rw [Vector.getElem_replicate]

theorem clean_fillLoop (v : Byte) (n : Nat) (b : Buffer N) (h : b.Clean) : (fillLoop v n b).Clean := by
  induction n generalizing b with
  | zero => exact h
  | succ n ih =>
    refine ih _ fun i hi hN => ?_
    have hi : b.endIdx + 1 ≤ i := hi
    show (b.arr.setIfInBounds b.endIdx v)[i] = 0
    rw [Vector.getElem_setIfInBounds_ne hN (by omega)]
    exact h i (by omega) hN

theorem clean_fill {b b' : Buffer N} {v : Byte} {n : Nat} (h : b.Clean) (e : b.fill v n = .ok b') : b'.Clean := by
  unfold fill at e
  split at e
  · cases e; exact clean_fillLoop v n b h
  · cases e

theorem clean_pushBack {b b' : Buffer N} {xs : List Byte} (h : b.Clean) (e : b.pushBack xs = .ok b') : b'.Clean := by
  induction xs generalizing b with
  | nil => cases e; exact h
  | cons x xs ih =>
    unfold pushBack at e
    cases e1 : b.fill x with
    | error f => rw [e1] at e; cases e
    | ok b1 => rw [e1] at e; exact ih (clean_fill h e1) e

theorem clean_ofRange {b : Buffer N} {xs : List Byte} (e : ofRange xs = .ok b) : b.Clean := clean_pushBack clean_empty e

theorem clean_unique {b b' : Buffer N} {l : List Byte} (h : b.Holds l) (h' : b'.Holds l) (c : b.Clean) (c' : b'.Clean) :
    b = b' := by
  obtain ⟨arr, n⟩ := b
  obtain ⟨arr', n'⟩ := b'
  have en : n = l.length := h.1
  have en' : n' = l.length := h'.1
  have e : arr.toList.take n = arr'.toList.take n' := h.2.trans h'.2.symm
  subst en
  subst en'
  congr 1
  refine Vector.ext fun i hi => ?_
  by_cases hl : i < l.length
  · have e := congrArg (fun x => x[i]?) e
    simp only [List.getElem?_take, hl, if_true] at e
    rw [List.getElem?_eq_getElem (by simpa using hi), List.getElem?_eq_getElem (by simpa using hi)] at e
    simpa using e
  · rw [c i (by show l.length ≤ i; omega) hi, c' i (by show l.length ≤ i; omega) hi]

end Buffer

namespace Proof.Trace
open Spec

section
variable {N B : Nat} {S : Type} {impl : S → List Byte → Except Fault S}

theorem clean_tail {o o' : Obj N S} {d : List Byte} (h : o.buffer.Clean) (e : addDataTail B impl o d = .ok o') :
    o'.buffer.Clean := by
  unfold addDataTail at e
  simp only [] at e
  split at e
  · obtain ⟨b, eb, e⟩ := CShake.bind_ok e
    cases e; exact Buffer.clean_ofRange eb
  · obtain ⟨x, ex, e⟩ := CShake.bind_ok e
    obtain ⟨c, ec, e⟩ := CShake.bind_ok e
    split at e
    · obtain ⟨b, eb, e⟩ := CShake.bind_ok e
      cases e; exact Buffer.clean_ofRange eb
    · cases e; exact h

theorem clean_addData {o o' : Obj N S} {d : List Byte} (h : o.buffer.Clean) (e : addData B impl o d = .ok o') :
    o'.buffer.Clean := by
  unfold addData at e
  split at e
  · obtain ⟨b, eb, e⟩ := CShake.bind_ok e
    split at e
    · cases e; exact Buffer.clean_pushBack h eb
    · obtain ⟨c, ec, e⟩ := CShake.bind_ok e
      obtain ⟨x, ex, e⟩ := CShake.bind_ok e
      exact clean_tail Buffer.clean_empty e
  · exact clean_tail h e

theorem clean_tail2 {o o' : Obj B S} {d : List Byte} (e : Model.BLAKE2.addDataTail B impl o d = .ok o') :
    o'.buffer.Clean := by
  unfold Model.BLAKE2.addDataTail at e
  obtain ⟨x, ex, e⟩ := CShake.bind_ok e
  obtain ⟨c, ec, e⟩ := CShake.bind_ok e
  obtain ⟨b, eb, e⟩ := CShake.bind_ok e
  cases e; exact Buffer.clean_ofRange eb

theorem clean_addData2 (n : Nat) {o o' : Obj B S} {d : List Byte} (hn : d.length ≤ n) (h : o.buffer.Clean)
    (e : Model.BLAKE2.addData B impl o d = .ok o') : o'.buffer.Clean := by
  induction n generalizing o d with
  | zero =>
    obtain rfl : d = [] := List.eq_nil_of_length_eq_zero (by omega)
    rw [Model.BLAKE2.addData.eq_def] at e
    cases e; exact h
  | succ n ih =>
    rw [Model.BLAKE2.addData.eq_def] at e
    split at e
    · cases e; exact h
    · split at e
      · obtain ⟨s, es, e⟩ := CShake.bind_ok e
        exact clean_tail2 e
      · split at e
        · simp only [] at e
          split at e
          · cases e
          · rename_i hz
            split at e
            · cases e
            · rename_i b eb
              exact ih (by rw [List.length_drop]; omega) (Buffer.clean_pushBack (b := o.buffer) h eb) e
        · exact clean_tail2 e

end

/-- A refinement with a further invariant of the objects that are not finalised. -/
def withInv {O : Type} {A : API O} {dig : List Byte → Except Fault (List Byte)} (r : Refines A dig) (Inv : O → Prop)
    (h0 : Inv A.fresh) (ha : ∀ o o' d, Inv o → A.addData o d = .ok o' → Inv o') : Refines A dig where
  R := fun o m => r.R o m ∧ Inv o
  F := r.F
  fresh := ⟨r.fresh, h0⟩
  add := fun o m d hd h => by
    obtain ⟨o', e, h'⟩ := r.add o m d hd h.1
    exact ⟨o', e, h', ha o o' d h.2 e⟩
  fin := fun o m h => r.fin o m h.1
  resetR := fun o m h => r.resetR o m h.1
  resetF := r.resetF
  out := r.out

theorem last_cases (ops : List Op) (hl : Legal ops) :
    (finished ops ∧ ∃ pre, ops = pre ++ [.finalize]) ∨ (¬finished ops ∧ Legal (ops ++ [.finalize])) := by
  by_cases h : finished ops
  · left
    refine ⟨h, ops.dropLast, ?_⟩
    unfold finished at h
    obtain ⟨hne, hh⟩ := List.getLast?_eq_some_iff.1 h
    rw [hh]; simp
  · right
    refine ⟨h, ?_⟩
    have key : ∀ (ops : List Op) (fin : Bool), legalFrom fin ops → (ops = [] → fin = false) →
        ops.getLast? ≠ some .finalize → legalFrom fin (ops ++ [.finalize]) := by
      intro ops
      induction ops with
      | nil => intro fin _ h0 _; exact ⟨h0 rfl, trivial⟩
      | cons op ops ih =>
        intro fin hl _ hlast
        cases ops with
        | nil =>
          cases op with
          | add d => exact ⟨hl.1, hl.2.1, rfl, trivial⟩
          | reset => exact ⟨rfl, trivial⟩
          | finalize => exact absurd rfl hlast
        | cons op2 ops =>
          rw [List.getLast?_cons_cons] at hlast
          cases op with
          | add d => exact ⟨hl.1, hl.2.1, ih false hl.2.2 (by simp) hlast⟩
          | reset => exact ih false hl (by simp) hlast
          | finalize => exact ⟨hl.1, ih true hl.2 (by simp) hlast⟩
    exact key ops false hl (fun _ => rfl) h

variable {O : Type} {A : API O} {dig : List Byte → Except Fault (List Byte)}

theorem noTrace (r : Refines A dig) (h : ∀ o o' m, r.R o m → r.R o' m → o = o') : A.NoTrace := by
  have opn : ∀ ops ops', Legal (ops ++ [.finalize]) → Legal (ops' ++ [.finalize]) → message ops = message ops' →
      ∃ o, A.run A.fresh ops = .ok o ∧ A.run A.fresh ops' = .ok o := by
    intro ops ops' hl hl' hm
    obtain ⟨o, e, h1⟩ := Differences.run_open r ops hl
    obtain ⟨o', e', h1'⟩ := Differences.run_open r ops' hl'
    exact ⟨o, e, by rw [h o o' _ h1 (hm ▸ h1')]; exact e'⟩
  intro ops ops' hl hl' hf hm
  rcases last_cases ops hl with ⟨f, pre, rfl⟩ | ⟨f, g⟩
  · rcases last_cases ops' hl' with ⟨f', pre', rfl⟩ | ⟨f', g'⟩
    · have hm : message pre = message pre' := by
        unfold message at *
        rw [Refines.messageFrom_append, Refines.messageFrom_append] at hm
        exact hm
      obtain ⟨o, e, e'⟩ := opn pre pre' hl hl' hm
      obtain ⟨o1, e1, _⟩ := r.run_finalize pre hl
      refine ⟨o1, e1, ?_⟩
      rw [Refines.run_append, e] at e1
      rw [Refines.run_append, e']
      exact e1
    · exact absurd (hf.1 f) f'
  · rcases last_cases ops' hl' with ⟨f', pre', rfl⟩ | ⟨f', g'⟩
    · exact absurd (hf.2 f') f
    · exact opn ops ops' g g' hm

theorem interchangeable (r : Refines A dig) {eq : O → O → Bool} {B : Nat} {kept : Nat → Prop}
    (h : ∀ o o' a a' m, r.R o (a ++ m) → r.R o' (a' ++ m) → a.length = a'.length → a.length % B = 0 → kept m.length →
      eq o o' = true → o = o') : A.Interchangeable eq B kept := by
  intro ops ops' hl hl' a a' m e1 e2 hlen hd hk
  obtain ⟨o, e, h1⟩ := Differences.run_open r ops hl
  obtain ⟨o', e', h1'⟩ := Differences.run_open r ops' hl'
  exact ⟨o, o', e, e', h o o' a a' m (e1 ▸ h1) (e2 ▸ h1') hlen (Nat.mod_eq_zero_of_dvd hd) hk⟩

/-! ### The classes with the shared streaming text -/

section
variable {N B : Nat} {S : Type} {A : API (Obj N S)} {dig : List Byte → Except Fault (List Byte)} {den : List Byte → S}
  {impl : S → List Byte → Except Fault S}

theorem relSame {o o' : Obj N S} {m : List Byte} (h : Rel B den o m) (h' : Rel B den o' m) (c : o.buffer.Clean)
    (c' : o'.buffer.Clean) : o = o' := by
  obtain ⟨b, s⟩ := o
  obtain ⟨b', s'⟩ := o'
  obtain rfl : s = s' := h.1.trans h'.1.symm
  obtain rfl := Buffer.clean_unique h.2 h'.2 c c'
  rfl

theorem objInv (ha : A.addData = addData B impl) (o o' : Obj N S) (d : List Byte) (h : o.buffer.Clean)
    (e : A.addData o d = .ok o') : o'.buffer.Clean := by rw [ha] at e; exact clean_addData h e

/-- `NoTrace` for a class with the shared streaming text -/
theorem objNoTrace (r : Refines A dig) (h0 : A.fresh.buffer = {}) (ha : A.addData = addData B impl)
    (hr : ∀ o m, r.R o m → Rel B den o m) : A.NoTrace :=
  noTrace (withInv r (fun o => o.buffer.Clean) (by rw [h0]; exact Buffer.clean_empty) (objInv ha))
    fun o o' m h h' => relSame (hr o m h.1) (hr o' m h'.1) h.2 h'.2

theorem objInterchangeable (r : Refines A dig) (h0 : A.fresh.buffer = {}) (ha : A.addData = addData B impl)
    (hr : ∀ o m, r.R o m → Rel B den o m) {eq : Obj N S → Obj N S → Bool}
    (heq : ∀ o o' a a', o.chain = den a → o'.chain = den a' → a.length = a'.length → a.length % B = 0 → eq o o' = true →
      den a = den a') :
    A.Interchangeable eq B (· < B) := by
  refine interchangeable (withInv r (fun o => o.buffer.Clean) (by rw [h0]; exact Buffer.clean_empty) (objInv ha)) ?_
  rintro ⟨b, s⟩ ⟨b', s'⟩ a a' m h h' hl hd hm he
  obtain ⟨e1, e2⟩ := parts_unique B a m hd hm
  obtain ⟨e1', e2'⟩ := parts_unique B a' m (hl ▸ hd) hm
  have h1 := hr _ _ h.1
  have h1' := hr _ _ h'.1
  have c1 : s = den a := by have := h1.1; rw [e1] at this; exact this
  have c1' : s' = den a' := by have := h1'.1; rw [e1'] at this; exact this
  have b1 : b.Holds m := by have := h1.2; rw [e2] at this; exact this
  have b1' : b'.Holds m := by have := h1'.2; rw [e2'] at this; exact this
  obtain rfl := Buffer.clean_unique b1 b1' h.2 h'.2
  obtain rfl : s = s' := by rw [c1, c1', heq _ _ a a' c1 c1' hl hd he]
  rfl

end

/-! ### Merkle-Damgård classes -/

section
variable {C H : Type} {B L : Nat} (hL : L + 1 ≤ B) (hBS : B < 2 ^ 64) (pb : Byte) {cnt : Counter C}
  {field : Nat → List Byte} (ok : CounterOK cnt L field) (comp : H → Block B → H) (iv : H) (out : H → Except Fault (List Byte))
include hL hBS ok

theorem mdNoTrace : (mdApi B L pb cnt comp iv out).NoTrace :=
  objNoTrace (mdRefines hL hBS pb ok comp iv out) rfl rfl fun _ _ h => h

theorem mdInterchangeable [BEq H] [LawfulBEq H] :
    (mdApi B L pb cnt comp iv out).Interchangeable (fun l r => l.chain.h == r.chain.h) B (· < B) :=
  objInterchangeable (mdRefines hL hBS pb ok comp iv out) rfl rfl (fun _ _ h => h) fun o o' a a' h h' hl _ he => by
    have he := beq_iff_eq.1 he
    rw [h, h'] at he
    have he : mdFold B comp iv a = mdFold B comp iv a' := he
    unfold mdDen
    rw [hl, he]

end

/-! ### BLAKE2: the last block stays in the buffer -/

section
variable {B : Nat} {S : Type} {A : API (Obj B S)} {dig : List Byte → Except Fault (List Byte)} {den : List Byte → S}
  {impl : S → List Byte → Except Fault S}

theorem cut_unique (hB : 0 < B) {a r a' r' : List Byte} (h : a ++ r = a' ++ r') (ha : a.length % B = 0)
    (ha' : a'.length % B = 0) (hr : r.length ≤ B) (hr' : r'.length ≤ B) (he : r = [] → a = []) (he' : r' = [] → a' = []) :
    a = a' ∧ r = r' := by
  refine List.append_inj h ?_
  have hl := congrArg List.length h
  rw [List.length_append, List.length_append] at hl
  rcases Nat.eq_zero_or_pos r.length with h0 | h0
  · have := he (List.eq_nil_of_length_eq_zero h0)
    subst this
    have hz : a'.length = 0 := by
      rcases Nat.eq_zero_or_pos r'.length with h1 | h1
      · rw [he' (List.eq_nil_of_length_eq_zero h1)]; rfl
      · simp at hl; omega
    simp [hz]
  · rcases Nat.eq_zero_or_pos r'.length with h1 | h1
    · have := he' (List.eq_nil_of_length_eq_zero h1)
      subst this
      simp at hl; omega
    · obtain ⟨k, hk⟩ := Nat.dvd_of_mod_eq_zero ha
      obtain ⟨k', hk'⟩ := Nat.dvd_of_mod_eq_zero ha'
      rcases Nat.lt_trichotomy k k' with c | c | c
      · have : B * k + B ≤ B * k' := by rw [← Nat.mul_succ]; exact Nat.mul_le_mul_left B c
        omega
      · rw [hk, hk', c]
      · have : B * k' + B ≤ B * k := by rw [← Nat.mul_succ]; exact Nat.mul_le_mul_left B c
        omega

theorem lastInv (ha : A.addData = Model.BLAKE2.addData B impl) (o o' : Obj B S) (d : List Byte) (h : o.buffer.Clean)
    (e : A.addData o d = .ok o') : o'.buffer.Clean := by rw [ha] at e; exact clean_addData2 d.length (Nat.le_refl _) h e

theorem lastNoTrace (hB : 0 < B) (r : Refines A dig) (h0 : A.fresh.buffer = {}) (ha : A.addData = Model.BLAKE2.addData B impl)
    (hr : ∀ o m, r.R o m → BLAKE2.LRel B den o m) : A.NoTrace := by
  refine noTrace (withInv r (fun o => o.buffer.Clean) (by rw [h0]; exact Buffer.clean_empty) (lastInv ha)) ?_
  rintro ⟨b, s⟩ ⟨b', s'⟩ m h h'
  obtain ⟨a, x, e, h1, h2, h3, h4, h5⟩ := hr _ _ h.1
  obtain ⟨a', x', e', h1', h2', h3', h4', h5'⟩ := hr _ _ h'.1
  obtain ⟨rfl, rfl⟩ := cut_unique hB (e.symm.trans e') h1 h1' h2 h2' h3 h3'
  obtain rfl : s = s' := h4.trans h4'.symm
  obtain rfl := Buffer.clean_unique h5 h5' h.2 h'.2
  rfl

theorem lastInterchangeable (hB : 0 < B) (r : Refines A dig) (h0 : A.fresh.buffer = {})
    (ha : A.addData = Model.BLAKE2.addData B impl) (hr : ∀ o m, r.R o m → BLAKE2.LRel B den o m)
    {eq : Obj B S → Obj B S → Bool}
    (heq : ∀ o o' a a', o.chain = den a → o'.chain = den a' → a.length = a'.length → a.length % B = 0 → eq o o' = true →
      den a = den a') : A.Interchangeable eq B (fun n => 0 < n ∧ n ≤ B) := by
  refine interchangeable (withInv r (fun o => o.buffer.Clean) (by rw [h0]; exact Buffer.clean_empty) (lastInv ha)) ?_
  rintro ⟨b, s⟩ ⟨b', s'⟩ c c' m h h' hl hd hm he
  obtain ⟨a, x, e, h1, h2, h3, h4, h5⟩ := hr _ _ h.1
  obtain ⟨a', x', e', h1', h2', h3', h4', h5'⟩ := hr _ _ h'.1
  obtain ⟨rfl, rfl⟩ := cut_unique hB e hd h1 hm.2 h2 (fun z => by rw [z] at hm; simp at hm) h3
  obtain ⟨rfl, rfl⟩ := cut_unique hB e' (hl ▸ hd) h1' hm.2 h2' (fun z => by rw [z] at hm; simp at hm) h3'
  obtain rfl := Buffer.clean_unique h5 h5' h.2 h'.2
  have h4 : s = den c := h4
  have h4' : s' = den c' := h4'
  obtain rfl : s = s' := by rw [h4, h4', heq _ _ c c' h4 h4' hl hd he]
  rfl

end

/-! ### The states of BLAKE and BLAKE2 after whole blocks; `Keccak` with any padding byte -/

theorem blakeDen {w B : Nat} {C : Type} {c : Model.BLAKE.Cfg w B C} {p : BLAKE.Params w} {val : Nat → C}
    (ok : BLAKE.CfgOK c p val) (hB : 0 < B) (iv : Vector (BitVec w) 8) (a a' : List Byte) (hl : a.length = a'.length)
    (hd : a.length % B = 0) (h : (BLAKE.den c ⟨val 0, iv⟩ a).h = (BLAKE.den c ⟨val 0, iv⟩ a').h) :
    BLAKE.den c ⟨val 0, iv⟩ a = BLAKE.den c ⟨val 0, iv⟩ a' := by
  rw [BLAKE.den_eq ok hB iv a hd, BLAKE.den_eq ok hB iv a' (hl ▸ hd)] at h ⊢
  have h : _ = _ := h
  dsimp only at h
  rw [h, hl]

theorem blake2Den {w B : Nat} {C : Type} {c : Model.BLAKE2.Cfg w B C} {p : BLAKE2.Params w} {val : Nat → C}
    (ok : BLAKE2.CfgOK c p val) (hB : 0 < B) (a a' : List Byte) (hl : a.length = a'.length)
    (hd : a.length % B = 0) (h : (BLAKE2.den c a).h = (BLAKE2.den c a').h) : BLAKE2.den c a = BLAKE2.den c a' := by
  rw [BLAKE2.den_eq ok hB a hd, BLAKE2.den_eq ok hB a' (hl ▸ hd)] at h ⊢
  have h : _ = _ := h
  dsimp only at h
  rw [h, hl]

/-- `Keccak<R, P>` for any `P` -/
def keccakRefines (R : Nat) [hR : Model.SHA3.RateOK R] (P : Byte) (dl : Nat) :
    Refines (Model.SHA3.Keccak R P dl)
      (fun m => .ok ((SHA3.out R (SHA3.absorbed R (m ++ SHA3.padBytes R P m.length)) (dl / R + 1)).take dl)) :=
  blockRefines (out := Model.SHA3.toVector) (N := R) hR.pos (by have := hR.le; omega) (Nat.le_refl R) (SHA3.den_nil R)
    (SHA3.implOK R) (SHA3.Final R P dl) (SHA3.finalize_rel R P dl)
    (dig := fun m => .ok ((SHA3.out R (SHA3.absorbed R (m ++ SHA3.padBytes R P m.length)) (dl / R + 1)).take dl))
    (by
      intro o m h
      unfold Model.SHA3.toVector
      rw [h.2])
end Proof.Trace
end Verif
