import Verif.Proof.CLI

/-! # The line that the command-line tool prints, and reading it back -/

namespace Verif.Proof.CLI
open Model Model.CLI Spec Spec.CLI

/-- the bytes of a text in hexadecimal -/
theorem hexBytes_map : ∀ (d : List Byte), (hex d).map (fun c => BitVec.ofNat 8 c.toNat) =
    d.flatMap fun b => [BitVec.ofNat 8 (hexDigit (b.toNat / 16)).toNat, BitVec.ofNat 8 (hexDigit (b.toNat % 16)).toNat]
  | [] => rfl
  | b :: d => by
    have h := hexBytes_map d
    simp only [hex, List.flatMap_cons, List.map_append] at *
    rw [h]; rfl

theorem digit_inj : ∀ a b : Fin 16, BitVec.ofNat 8 (hexDigit a.val).toNat = (BitVec.ofNat 8 (hexDigit b.val).toNat : Byte) → a = b := by
  decide

theorem digit_plain : ∀ a : Fin 16, (BitVec.ofNat 8 (hexDigit a.val).toNat : Byte) ≠ 0x20 ∧
    (BitVec.ofNat 8 (hexDigit a.val).toNat : Byte) ≠ 0x0a ∧ (BitVec.ofNat 8 (hexDigit a.val).toNat : Byte) ≠ 0x55 := by
  decide

theorem digit_plain' (n : Nat) (h : n < 16) : (BitVec.ofNat 8 (hexDigit n).toNat : Byte) ≠ 0x20 ∧
    (BitVec.ofNat 8 (hexDigit n).toNat : Byte) ≠ 0x0a ∧ (BitVec.ofNat 8 (hexDigit n).toNat : Byte) ≠ 0x55 :=
  digit_plain ⟨n, h⟩

/-- digits end at the first space -/
theorem digits_inj : ∀ (d d' : List Byte) (x x' : List Byte),
    (hex d).map (fun c => (BitVec.ofNat 8 c.toNat : Byte)) ++ 0x20 :: x = (hex d').map (fun c => BitVec.ofNat 8 c.toNat) ++ 0x20 :: x' →
    d = d' ∧ x = x' := by
  simp only [hexBytes_map]
  intro d
  induction d with
  | nil =>
    intro d' x x' h
    cases d' with
    | nil => simpa using h
    | cons c d' =>
      simp only [List.flatMap_nil, List.nil_append, List.flatMap_cons, List.cons_append] at h
      injection h with h _
      exact absurd h.symm (digit_plain' _ (by have := c.isLt; omega)).1
  | cons b d ih =>
    intro d' x x' h
    cases d' with
    | nil =>
      simp only [List.flatMap_nil, List.nil_append, List.flatMap_cons, List.cons_append] at h
      injection h with h _
      exact absurd h (digit_plain' _ (by have := b.isLt; omega)).1
    | cons c d' =>
      simp only [List.flatMap_cons, List.nil_append, List.cons_append] at h
      injection h with h1 h
      injection h with h2 h
      have e1 := digit_inj ⟨b.toNat / 16, by have := b.isLt; omega⟩ ⟨c.toNat / 16, by have := c.isLt; omega⟩ h1
      have e2 := digit_inj ⟨b.toNat % 16, by omega⟩ ⟨c.toNat % 16, by omega⟩ h2
      simp only [Fin.mk.injEq] at e1 e2
      obtain ⟨rfl, rfl⟩ := ih d' x x' h
      exact ⟨by rw [show b = c from BitVec.eq_of_toNat_eq (by omega)], rfl⟩

/-- a line begins like the line that a prefix of the same text is -/
theorem line_append_inj (d d' f f' : List Byte) (x x' : List Byte) (h : line d f ++ x = line d' f' ++ x') :
    d = d' ∧ f ++ 0x0a :: x = f' ++ 0x0a :: x' := by
  simp only [line, List.append_assoc, List.cons_append, List.nil_append] at h
  obtain ⟨e, h⟩ := digits_inj _ _ _ _ h
  injection h with _ h
  exact ⟨e, h⟩

theorem until_newline : ∀ (f f' x x' : List Byte), (0x0a : Byte) ∉ f → (0x0a : Byte) ∉ f' →
    f ++ 0x0a :: x = f' ++ 0x0a :: x' → f = f' ∧ x = x'
  | [], [], x, x', _, _, h => by simpa using h
  | [], b :: f', x, x', _, h', h => by
    simp only [List.nil_append, List.cons_append] at h
    injection h with h _
    exact absurd (List.mem_cons.2 (.inl h)) h'
  | b :: f, [], x, x', h', _, h => by
    simp only [List.nil_append, List.cons_append] at h
    injection h with h _
    exact absurd (List.mem_cons.2 (.inl h.symm)) h'
  | b :: f, c :: f', x, x', h1, h2, h => by
    simp only [List.cons_append] at h
    injection h with e h
    obtain ⟨rfl, rfl⟩ := until_newline f f' x x' (fun m => h1 (List.mem_cons_of_mem _ m)) (fun m => h2 (List.mem_cons_of_mem _ m)) h
    exact ⟨by rw [e], rfl⟩

theorem line_ne_usage (d f prog : List Byte) (h : d ≠ []) : line d f ≠ usage prog := by
  intro e
  cases d with
  | nil => exact h rfl
  | cons b d =>
    have e := congrArg List.head? e
    simp only [line, hexBytes_map, List.flatMap_cons, List.cons_append, List.head?_cons] at e
    have h0 : (ascii "Usage: ").head? = some 0x55 := by decide +kernel
    have hu : (usage prog).head? = some 0x55 := by
      unfold usage
      generalize ascii "Usage: " = u at h0
      simp only [List.head?_append, h0, Option.some_or]
    rw [hu] at e
    injection e with e
    exact (digit_plain' _ (by have := b.isLt; omega)).2.2 e

theorem renderHex_shape {d : List Byte} {t : List Char} (h : renderHex d = .ok t) : d ≠ [] ∧ t = hex d := by
  by_cases hd : d = []
  · subst hd; rw [Render.renderHex_nil] at h; cases h
  · rw [Render.renderHex_eq d hd] at h
    injection h with h
    exact ⟨hd, h.symm⟩

theorem bind_ok {α β : Type} {x : Except Fault α} {f : α → Except Fault β} {b : β} (h : (x >>= f) = .ok b) :
    ∃ a, x = .ok a ∧ f a = .ok b := by
  cases x with
  | error e => cases h
  | ok a => exact ⟨a, rfl, h⟩

/-- `toString` gives hexadecimal text or fails -/
def Texts {O : Type} (s : O → Except Fault (List Char)) : Prop := ∀ o t, s o = .ok t → ∃ d, d ≠ [] ∧ t = hex d

theorem api_texts {O : Type} (A : API O) : Texts A.toString := by
  intro o t h
  obtain ⟨d, _, h⟩ := bind_ok h
  exact ⟨d, renderHex_shape h⟩

theorem cshake_texts {R : Nat} [SHA3.RateOK R] : Texts (CShake.toString (R := R)) := by
  intro o t h
  unfold CShake.toString at h
  split at h
  · split at h
    · cases h
    · obtain ⟨d, _, h⟩ := bind_ok h
      exact ⟨d, renderHex_shape h⟩
  · split at h
    · cases h
    · obtain ⟨d, _, h⟩ := bind_ok h
      exact ⟨d, renderHex_shape h⟩

/-- the output of a case of the switch: nothing, or a line with the last argument -/
def Prints (args : List (List Byte)) (r : Except Fault (Option (List Byte))) : Prop :=
  ∀ out, r = .ok (some out) → ∃ d file, d ≠ [] ∧ args.getLast? = some file ∧ out = line d file

theorem readNPrint_shape {O : Type} (hash : Hasher O) (ht : Texts hash.toString) (w : World) (f out : List Byte)
    (h : readNPrint hash w f = .ok out) : ∃ d, d ≠ [] ∧ out = line d f := by
  obtain ⟨o, _, h⟩ := bind_ok h
  obtain ⟨o, _, h⟩ := bind_ok h
  obtain ⟨t, e, h⟩ := bind_ok h
  obtain ⟨d, hd, rfl⟩ := ht o t e
  injection h with h
  exact ⟨d, hd, h.symm.trans (printLine_eq d f)⟩

theorem readAllNPrint_shape {R : Nat} [SHA3.RateOK R] (nb : Nat → Nat) (hash : CShake.TupleHash R) (w : World) (f out : List Byte)
    (h : readAllNPrint nb hash w f = .ok out) : ∃ d, d ≠ [] ∧ out = line d f := by
  obtain ⟨_, _, h⟩ := bind_ok h
  obtain ⟨_, _, h⟩ := bind_ok h
  obtain ⟨_, _, h⟩ := bind_ok h
  obtain ⟨t, e, h⟩ := bind_ok h
  obtain ⟨d, hd, rfl⟩ := cshake_texts _ t e
  injection h with h
  exact ⟨d, hd, h.symm.trans (printLine_eq d f)⟩

theorem prints_plain {O : Type} (A : API O) (w : World) (args : List (List Byte)) : Prints args (plain (ofAPI A) w args) := by
  intro out h
  unfold plain at h
  split at h
  · obtain ⟨x, e, h⟩ := bind_ok h
    injection h with h
    injection h with h
    subst h
    obtain ⟨d, hd, rfl⟩ := readNPrint_shape _ (api_texts A) w _ _ e
    exact ⟨d, _, hd, rfl, rfl⟩
  · cases h

theorem prints_shake (R : Nat) [SHA3.RateOK R] (w : World) (args : List (List Byte)) : Prints args (shake R w args) := by
  intro out h
  unfold shake at h
  split at h
  · obtain ⟨v, _, h⟩ := bind_ok h
    cases v with
    | none => cases h
    | some n =>
      obtain ⟨A, _, h⟩ := bind_ok h
      obtain ⟨x, e, h⟩ := bind_ok h
      injection h with h
      injection h with h
      subst h
      obtain ⟨d, hd, rfl⟩ := readNPrint_shape _ (api_texts A) w _ _ e
      exact ⟨d, _, hd, rfl, rfl⟩
  · cases h

theorem prints_cshake (nb : Nat → Nat) (R : Nat) [SHA3.RateOK R] (w : World) (args : List (List Byte)) :
    Prints args (cshake nb R w args) := by
  intro out h
  unfold cshake at h
  split at h
  · obtain ⟨v, _, h⟩ := bind_ok h
    cases v with
    | none => cases h
    | some n =>
      obtain ⟨A, _, h⟩ := bind_ok h
      obtain ⟨x, e, h⟩ := bind_ok h
      injection h with h
      injection h with h
      subst h
      obtain ⟨d, hd, rfl⟩ := readNPrint_shape _ cshake_texts w _ _ e
      exact ⟨d, _, hd, rfl, rfl⟩
  · cases h

theorem prints_tuple (nb : Nat → Nat) (R : Nat) [SHA3.RateOK R] (w : World) (args : List (List Byte)) :
    Prints args (tupleHash nb R w args) := by
  intro out h
  unfold tupleHash at h
  split at h
  · obtain ⟨v, _, h⟩ := bind_ok h
    cases v with
    | none => cases h
    | some n =>
      obtain ⟨A, _, h⟩ := bind_ok h
      obtain ⟨x, e, h⟩ := bind_ok h
      injection h with h
      injection h with h
      subst h
      obtain ⟨d, hd, rfl⟩ := readAllNPrint_shape nb _ w _ _ e
      exact ⟨d, _, hd, rfl, rfl⟩
  · cases h

theorem prints_runHash (nb : Nat → Nat) (hash : Hash) (w : World) (args : List (List Byte)) :
    Prints args (runHash nb hash w args) := by
  cases hash
  all_goals
    first
      | exact prints_plain _ w args
      | exact prints_shake _ w args
      | exact prints_cshake nb _ w args
      | exact prints_tuple nb _ w args
      | (intro out h; cases h)

end Verif.Proof.CLI
