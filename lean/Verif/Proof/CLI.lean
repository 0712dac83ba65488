import Verif.Model.CLI
import Verif.Spec.CLI
import Verif.Proof.Stream
import Verif.Proof.Render
import Verif.Proof.CShake

/-! # The reading loop, `stoi` and the dispatch of the command-line tool -/

namespace Verif.Proof.CLI
open Model Model.CLI Spec

/-- The pieces the loop reads. -/
theorem readLoop_pieces : ∀ (n : Nat) (c : List Byte), c.length ≤ n →
    ∃ ps : List (List Byte), ps.flatten = c ∧ (∀ p ∈ ps, p.length ≤ bufSize) ∧
      ∀ {S : Type} (use : S → List Byte → Except Fault S) (st : S),
        readLoop use ⟨c, true⟩ st = ps.foldlM use st := by
  intro n
  induction n with
  | zero =>
    intro c hc
    refine ⟨[c], by simp, ?_, ?_⟩
    · intro p hp; simp at hp; subst hp; simp only [bufSize]; omega
    · intro S use st
      have hr : (IStream.mk c true).read bufSize = (c, ⟨[], false⟩) := by
        unfold IStream.read; rw [if_neg (by simp only [bufSize]; omega)]
      rw [readLoop]
      simp only [hr, ↓reduceDIte, List.foldlM_cons, List.foldlM_nil]
      congr 1; funext st'
      rw [readLoop]; rfl
  | succ n ih =>
    intro c hc
    by_cases hb : bufSize ≤ c.length
    · obtain ⟨ps, h1, h2, h3⟩ := ih (c.drop bufSize) (by
        simp only [bufSize] at hb; simp only [List.length_drop, bufSize]; omega)
      refine ⟨c.take bufSize :: ps, by simp [h1], ?_, ?_⟩
      · intro p hp
        rcases List.mem_cons.1 hp with rfl | hp
        · rw [List.length_take]; omega
        · exact h2 p hp
      · intro S use st
        have hr : (IStream.mk c true).read bufSize = (c.take bufSize, ⟨c.drop bufSize, true⟩) := by
          unfold IStream.read; rw [if_pos hb]
        rw [readLoop]
        simp only [hr, ↓reduceDIte, List.foldlM_cons]
        congr 1; funext st'
        exact h3 use st'
    · refine ⟨[c], by simp, ?_, ?_⟩
      · intro p hp; simp at hp; subst hp; omega
      · intro S use st
        have hr : (IStream.mk c true).read bufSize = (c, ⟨[], false⟩) := by
          unfold IStream.read; rw [if_neg hb]
        rw [readLoop]
        simp only [hr, ↓reduceDIte, List.foldlM_cons, List.foldlM_nil]
        congr 1; funext st'
        rw [readLoop]; rfl

theorem inStream_source (w : World) (f : List Byte) : inStream w f = openStream (w.source f) := by
  unfold inStream World.source
  rw [show ascii "-" = [0x2d] from rfl]
  split <;> rfl

/-- whatever the source, the loop adds pieces of at most 1 MiB that make up the bytes delivered -/
theorem loop_pieces (w : World) (f : List Byte) :
    ∃ ps : List (List Byte), ps.flatten = (w.source f).delivered ∧ (∀ p ∈ ps, p.length ≤ bufSize) ∧
      ∀ {S : Type} (use : S → List Byte → Except Fault S) (st : S),
        readLoop use (inStream w f) st = ps.foldlM use st := by
  rw [inStream_source]
  cases w.source f with
  | cannotOpen =>
    exact ⟨[], rfl, fun _ h => by simp at h, fun use st => by rw [readLoop]; rfl⟩
  | content c => exact readLoop_pieces _ c (Nat.le_refl _)
  | readError c => exact readLoop_pieces _ c (Nat.le_refl _)

theorem run_adds {O : Type} (A : API O) (o : O) (ps : List (List Byte)) :
    A.run o (ps.map .add) = ps.foldlM A.addData o := by
  induction ps generalizing o with
  | nil => rfl
  | cons p ps ih =>
    simp only [List.map_cons, API.run, API.step, List.foldlM_cons]
    congr 1; funext o'; exact ih o'

theorem run_adds_fin {O : Type} (A : API O) (o : O) (ps : List (List Byte)) :
    A.run o (ps.map .add ++ [.finalize]) = (do A.finalize (← ps.foldlM A.addData o)) := by
  rw [← run_adds]
  rw [Refines.run_append]
  cases A.run o (ps.map .add) with
  | error e => rfl
  | ok o' =>
    simp only [API.run, API.step, bind, Except.bind]
    cases A.finalize o' <;> rfl

theorem printLine_eq (d f : List Byte) : printLine (hex d) f = CLI.line d f := rfl

theorem bufSize_lt : bufSize < 2 ^ 64 := by decide

/-- `readNPrint` in terms of the pieces -/
theorem readNPrint_pieces {O : Type} (A : API O) (w : World) (f : List Byte) :
    ∃ ps : List (List Byte), ps.flatten = (w.source f).delivered ∧ (∀ p ∈ ps, p.length < 2 ^ 64) ∧
      readNPrint (ofAPI A) w f =
        (do
          let o ← A.run A.fresh (ps.map .add ++ [.finalize])
          let t ← A.toString o
          return printLine t f) := by
  obtain ⟨ps, h1, h2, h3⟩ := loop_pieces w f
  refine ⟨ps, h1, fun p hp => Nat.lt_of_le_of_lt (h2 p hp) bufSize_lt, ?_⟩
  unfold readNPrint ofAPI
  rw [run_adds_fin]
  simp only [h3]
  cases ps.foldlM A.addData A.fresh with
  | error _ => rfl
  | ok o => rfl

theorem print_computes {O : Type} {A : API O} {dom : List Byte → Prop} {spec : List Byte → List Byte}
    (hc : A.ComputesOn dom spec) (hh : A.HexFaithful) (w : World) (f : List Byte)
    (hd : dom ((w.source f).delivered)) :
    readNPrint (ofAPI A) w f = .ok (CLI.line (spec ((w.source f).delivered)) f) := by
  obtain ⟨ps, h1, h2, h3⟩ := readNPrint_pieces A w f
  have hm : message (ps.map Op.add) = (w.source f).delivered := by rw [Refines.message_adds, h1]
  have hl := Refines.legal_adds ps h2
  obtain ⟨o, e, ea⟩ := hc _ hl (by rw [hm]; exact hd)
  obtain ⟨o', d, e', ea', -, et⟩ := hh _ hl
  rw [e] at e'
  injection e' with e'
  subst e'
  rw [ea] at ea'
  injection ea' with ea'
  subst ea'
  rw [h3, e]
  simp only [bind, Except.bind, et, hm, pure, Except.pure, printLine_eq]

theorem print_whole {O : Type} {A : API O} (hc : A.ChunkingIrrelevant) (hh : A.HexFaithful) (w : World)
    (f : List Byte) (hd : ((w.source f).delivered).length < 2 ^ 64) :
    ∃ d, A.digest [(w.source f).delivered] = .ok d ∧ readNPrint (ofAPI A) w f = .ok (CLI.line d f) := by
  obtain ⟨ps, h1, h2, h3⟩ := readNPrint_pieces A w f
  obtain ⟨d, e1, e2⟩ := hc [(w.source f).delivered] ps (by simpa using hd) h2 (by simp [h1])
  have hl := Refines.legal_adds ps h2
  obtain ⟨o, d', e, ea, -, et⟩ := hh _ hl
  refine ⟨d, e1, ?_⟩
  unfold API.digest at e2
  rw [e] at e2
  simp only [bind, Except.bind] at e2
  rw [ea] at e2
  injection e2 with e2
  subst e2
  rw [h3, e]
  simp only [bind, Except.bind, et, pure, Except.pure, printLine_eq]

/-! ### cSHAKE and TupleHash -/

theorem cshake_adds {R : Nat} [SHA3.RateOK R] (o : CShake.CShake R) (ps : List (List Byte)) :
    CShake.run o (ps.map .add ++ [.finalize]) = (do CShake.finalize (← ps.foldlM CShake.addData o)) := by
  induction ps generalizing o with
  | nil =>
    simp only [List.map_nil, List.nil_append, CShake.run, CShake.step, List.foldlM_nil, bind, Except.bind, pure,
      Except.pure]
    cases CShake.finalize o <;> rfl
  | cons p ps ih =>
    simp only [List.map_cons, List.cons_append, CShake.run, CShake.step, List.foldlM_cons, bind, Except.bind]
    cases CShake.addData o p with
    | error _ => rfl
    | ok o' => exact ih o'

theorem print_cshake {R : Nat} [SHA3.RateOK R] (o : CShake.CShake R) (w : World) (f d : List Byte) (hd : d ≠ [])
    (h : ∀ ps : List (List Byte), ps.flatten = (w.source f).delivered → (∀ p ∈ ps, p.length < 2 ^ 64) →
      ∃ o', CShake.run o (ps.map .add ++ [.finalize]) = .ok o' ∧ CShake.toVector o' = .ok d)
    (ht : ∀ o' : CShake.CShake R, CShake.toVector o' = .ok d → CShake.toString o' = .ok (hex d)) :
    readNPrint ⟨o, CShake.addData, CShake.finalize, CShake.toString⟩ w f = .ok (CLI.line d f) := by
  obtain ⟨ps, h1, h2, h3⟩ := loop_pieces w f
  obtain ⟨o', e, q⟩ := h ps h1 fun p hp => Nat.lt_of_le_of_lt (h2 p hp) bufSize_lt
  rw [cshake_adds] at e
  unfold readNPrint
  simp only [h3]
  cases hq : ps.foldlM CShake.addData o with
  | error _ => rw [hq] at e; cases e
  | ok o1 =>
    rw [hq] at e
    simp only [bind, Except.bind] at e ⊢
    rw [e]
    simp only [ht o' q]
    rfl

theorem foldlM_collect (ps : List (List Byte)) (acc : List Byte) :
    ps.foldlM (fun buf piece => (Except.ok (buf ++ piece) : Except Fault (List Byte))) acc = .ok (acc ++ ps.flatten) := by
  induction ps generalizing acc with
  | nil => simp [pure, Except.pure]
  | cons p ps ih =>
    simp only [List.foldlM_cons, bind, Except.bind]
    rw [ih]; simp

theorem print_tuple {R : Nat} [SHA3.RateOK R] (nb : Nat → Nat) (o o' : CShake.TupleHash R) (w : World) (f d : List Byte)
    (h : CShake.tupleRun nb o ([(w.source f).delivered].map .add ++ [.finalize]) = .ok o')
    (ht : CShake.tupleToString o' = .ok (hex d)) :
    readAllNPrint nb o w f = .ok (CLI.line d f) := by
  obtain ⟨ps, h1, -, h3⟩ := loop_pieces w f
  unfold readAllNPrint
  simp only [h3, foldlM_collect, h1, List.nil_append]
  simp only [List.map_cons, List.map_nil, List.cons_append, List.nil_append, CShake.tupleRun, CShake.tupleStep, bind,
    Except.bind] at h ⊢
  cases hn : CShake.nextData nb o (w.source f).delivered with
  | error _ => rw [hn] at h; cases h
  | ok o1 =>
    rw [hn] at h
    simp only at h ⊢
    cases hf : CShake.tupleFinalize nb o1 with
    | error _ => rw [hf] at h; cases h
    | ok o2 =>
      rw [hf] at h
      simp only at h ⊢
      injection h with h
      subst h
      rw [ht]; rfl

/-! ### stoi -/

theorem decimal_ne (n : Nat) : CLI.decimal n ≠ [] := by
  unfold CLI.decimal; split <;> simp

theorem decimal_digit (n : Nat) : ∀ b ∈ CLI.decimal n, isDigit b = true := by
  induction n using Nat.strongRecOn with
  | ind n ih =>
    have key : ∀ k : Fin 10, isDigit (BitVec.ofNat 8 (48 + k.val)) = true := by decide
    unfold CLI.decimal
    split
    · rename_i h
      intro b hb
      simp at hb; subst hb; exact key ⟨n, h⟩
    · rename_i h
      intro b hb
      rcases List.mem_append.1 hb with hb | hb
      · exact ih (n / 10) (by omega) b hb
      · simp at hb; subst hb; exact key ⟨n % 10, by omega⟩

theorem decimal_value (n : Nat) : digitsValue (CLI.decimal n) = n := by
  induction n using Nat.strongRecOn with
  | ind n ih =>
    unfold CLI.decimal
    split
    · simp [digitsValue, BitVec.toNat_ofNat]; omega
    · have := ih (n / 10) (by omega)
      unfold digitsValue at this ⊢
      rw [List.foldl_append, this]
      simp [BitVec.toNat_ofNat]; omega

theorem digit_facts : ∀ b : Byte, isDigit b = true → isSpace b = false ∧ b ≠ 45 ∧ b ≠ 43 := by
  decide +kernel

/-- a numeral, possibly followed by something that does not start with a digit -/
theorem stoi_decimal (d : Nat) (hd : d < 2 ^ 31) (rest : List Byte) (hr : ∀ b, rest.head? = some b → isDigit b = false) :
    stoi (CLI.decimal d ++ rest) = .ok (some (d : Int)) := by
  have hne := decimal_ne d
  have hdig := decimal_digit d
  have hval := decimal_value d
  generalize CLI.decimal d = l at *
  obtain ⟨b, t, rfl⟩ := List.exists_cons_of_ne_nil hne
  obtain ⟨h1, h2, h3⟩ := digit_facts b (hdig b (by simp))
  have e1 : ((b :: t) ++ rest).dropWhile isSpace = (b :: t) ++ rest := by
    rw [List.cons_append, List.dropWhile_cons, h1]; rfl
  have e2 : ((b :: t) ++ rest).takeWhile isDigit = b :: t := by
    rw [List.takeWhile_append_of_pos hdig]
    cases rest with
    | nil => simp
    | cons x r => rw [List.takeWhile_cons, hr x rfl]; simp
  unfold stoi
  simp only [e1]
  have e3 : ((b :: t) ++ rest).head? = some b := rfl
  have n1 : ¬ (some b = some (45 : Byte)) := by simpa using h2
  have n2 : ¬ (some b = some (43 : Byte)) := by simpa using h3
  simp only [e3, n1, n2, or_self, if_false, e2, hval]
  rw [if_neg (by simp), if_pos (by omega)]

theorem stoi_large (d : Nat) (hd : 2 ^ 31 ≤ d) : stoi (CLI.decimal d) = .error .outOfRange := by
  have hne := decimal_ne d
  have hdig := decimal_digit d
  have hval := decimal_value d
  generalize CLI.decimal d = l at *
  obtain ⟨b, t, rfl⟩ := List.exists_cons_of_ne_nil hne
  obtain ⟨h1, h2, h3⟩ := digit_facts b (hdig b (by simp))
  have e1 : (b :: t).dropWhile isSpace = b :: t := by rw [List.dropWhile_cons, h1]; rfl
  have e2 : (b :: t).takeWhile isDigit = b :: t := by
    have := List.takeWhile_append_of_pos (p := isDigit) (l₁ := b :: t) (l₂ := []) hdig
    simpa using this
  unfold stoi
  simp only [e1]
  have n1 : ¬ (some b = some (45 : Byte)) := by simpa using h2
  have n2 : ¬ (some b = some (43 : Byte)) := by simpa using h3
  simp only [List.head?_cons, n1, n2, or_self, if_false, e2, hval]
  rw [if_neg (by simp), if_neg (by omega)]

theorem stoi_negative (d : Nat) (hd : d ≤ 2 ^ 31) : stoi (ascii "-" ++ CLI.decimal d) = .ok (some (-(d : Int))) := by
  have hne := decimal_ne d
  have hdig := decimal_digit d
  have hval := decimal_value d
  generalize CLI.decimal d = l at *
  have e1 : (ascii "-" ++ l).dropWhile isSpace = 45 :: l := by
    rw [show ascii "-" = [45] from rfl]; rfl
  have e2 : l.takeWhile isDigit = l := by
    have := List.takeWhile_append_of_pos (p := isDigit) (l₁ := l) (l₂ := []) hdig
    simpa using this
  unfold stoi
  simp only [e1, List.head?_cons, List.drop_one, List.tail_cons, true_or, if_true, e2, hval]
  rw [if_neg hne]
  rw [if_pos (by omega)]

/-! ### the dispatch -/

theorem main_plain {O : Type} {A : API O} (nb : Nat → Nat) (w : World) (prog opt f text : List Byte) (H : Hash)
    (hg : getHash opt = H)
    (hr : ∀ args, runHash nb H w args = plain (ofAPI A) w args)
    (hp : readNPrint (ofAPI A) w f = .ok text) :
    CLI.main nb w [prog, opt, f] = .ok ⟨text, 0⟩ := by
  unfold CLI.main
  simp only [hg, hr, plain, hp, bind, Except.bind, pure, Except.pure]

theorem search_none (opt : List Byte) : ∀ (ns : List String) (i : Nat), (∀ n ∈ ns, opt ≠ ascii n) →
    searchNames opt ns i = .Invalid := by
  intro ns
  induction ns with
  | nil => intros; rfl
  | cons n ns ih =>
    intro i h
    unfold searchNames
    rw [if_neg (h n (by simp))]
    exact ih (i + 1) fun m hm => h m (by simp [hm])

theorem noReset_adds (ps : List (List Byte)) : ∀ op ∈ ps.map Op.add, Proof.CShake.isReset op = false := by
  intro op h
  obtain ⟨p, -, rfl⟩ := List.mem_map.1 h
  rfl

theorem plain_none {O : Type} (h : Hasher O) (w : World) (prog opt : List Byte) (rest : List (List Byte))
    (hr : rest.length ≠ 1) : plain h w (prog :: opt :: rest) = .ok none := by
  match rest, hr with
  | [], _ => rfl
  | [_], hr => simp at hr
  | _ :: _ :: _, _ => rfl

theorem shake_none (R : Nat) [SHA3.RateOK R] (w : World) (prog opt : List Byte) (rest : List (List Byte))
    (hr : rest.length ≠ 2) : CLI.shake R w (prog :: opt :: rest) = .ok none := by
  match rest, hr with
  | [], _ => rfl
  | [_], _ => rfl
  | [_, _], hr => simp at hr
  | _ :: _ :: _ :: _, _ => rfl

theorem cshake_none (nb : Nat → Nat) (R : Nat) [SHA3.RateOK R] (w : World) (prog opt : List Byte) (rest : List (List Byte))
    (hr : rest.length ≠ 3) : CLI.cshake nb R w (prog :: opt :: rest) = .ok none := by
  match rest, hr with
  | [], _ => rfl
  | [_], _ => rfl
  | [_, _], _ => rfl
  | [_, _, _], hr => simp at hr
  | _ :: _ :: _ :: _ :: _, _ => rfl

theorem tuple_none (nb : Nat → Nat) (R : Nat) [SHA3.RateOK R] (w : World) (prog opt : List Byte) (rest : List (List Byte))
    (hr : rest.length ≠ 3) : CLI.tupleHash nb R w (prog :: opt :: rest) = .ok none := by
  match rest, hr with
  | [], _ => rfl
  | [_], _ => rfl
  | [_, _], _ => rfl
  | [_, _, _], hr => simp at hr
  | _ :: _ :: _ :: _ :: _, _ => rfl

theorem main_none (nb : Nat → Nat) (w : World) (prog opt : List Byte) (rest : List (List Byte)) (H : Hash)
    (hg : getHash opt = H) (hr : runHash nb H w (prog :: opt :: rest) = .ok none) :
    CLI.main nb w (prog :: opt :: rest) = .ok ⟨usage prog, 0⟩ := by
  unfold CLI.main
  simp only [hg, hr, bind, Except.bind, pure, Except.pure]

theorem main_error (nb : Nat → Nat) (w : World) (prog opt : List Byte) (rest : List (List Byte)) (H : Hash) (e : Fault)
    (hg : getHash opt = H) (hr : runHash nb H w (prog :: opt :: rest) = .error e) :
    CLI.main nb w (prog :: opt :: rest) = .error e := by
  unfold CLI.main
  simp only [hg, hr, bind, Except.bind]

theorem stoi_none (text : List Byte) (h : ∀ b ∈ text, isDigit b = false) : stoi text = .ok none := by
  have hs : ∀ l : List Byte, (∀ b ∈ l, b ∈ text) → l.takeWhile isDigit = [] := by
    intro l hl
    cases l with
    | nil => rfl
    | cons b l => rw [List.takeWhile_cons, h b (hl b (by simp))]; simp
  have hd : ∀ b ∈ text.dropWhile isSpace, b ∈ text := fun b hb => (List.dropWhile_suffix _).subset hb
  unfold stoi
  simp only
  rw [if_pos]
  split
  · exact hs _ fun b hb => hd b (List.mem_of_mem_drop hb)
  · exact hs _ hd

theorem line_inj (d e f : List Byte) (h : CLI.line d f = CLI.line e f) : d = e := by
  unfold CLI.line at h
  have h := List.append_cancel_right (List.append_cancel_right (List.append_cancel_right h))
  apply Render.hex_inj
  have key : ∀ l m : List Byte, (hex l).map (fun c => BitVec.ofNat 8 c.toNat) = (hex m).map (fun c => BitVec.ofNat 8 c.toNat) →
      hex l = hex m := by
    intro l
    induction l with
    | nil =>
      intro m h
      cases m with
      | nil => rfl
      | cons b m => simp [hex] at h
    | cons a l ih =>
      intro m h
      cases m with
      | nil => simp [hex] at h
      | cons b m =>
        have e : ∀ (b : Byte) l, hex (b :: l) = hexDigit (b.toNat / 16) :: hexDigit (b.toNat % 16) :: hex l :=
          fun _ _ => rfl
        rw [e, e] at h ⊢
        simp only [List.map_cons, List.cons.injEq] at h
        have hd : ∀ x y : Fin 16, BitVec.ofNat 8 (hexDigit x.val).toNat = BitVec.ofNat 8 (hexDigit y.val).toNat →
            hexDigit x.val = hexDigit y.val := by decide +kernel
        have ha := a.isLt
        have hb := b.isLt
        rw [hd ⟨a.toNat / 16, by omega⟩ ⟨b.toNat / 16, by omega⟩ h.1,
          hd ⟨a.toNat % 16, by omega⟩ ⟨b.toNat % 16, by omega⟩ h.2.1, ih m h.2.2]
  exact key d e h

end Verif.Proof.CLI
