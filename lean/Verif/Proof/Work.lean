import Verif.Model.Work
import Verif.Proof.Block
import Verif.Proof.BLAKE
import Verif.Proof.BLAKE2
import Verif.Proof.MD2
import Verif.Proof.SHA3
import Verif.Proof.SipHash
import Verif.Proof.CRC32
import Verif.Proof.FNV

/-! Counting the runs of the block functions. -/

namespace Verif.Proof.Work
open Verif Spec Model

/-! ## Results with and without the count -/

section Except
variable {α β γ δ : Type}

theorem map_ok (f : α → β) (a : α) : (Except.ok a : Except Fault α).map f = .ok (f a) := rfl
theorem map_error (f : α → β) (e : Fault) : (Except.error e : Except Fault α).map f = .error e := rfl

theorem map_map (f : α → β) (g : β → γ) (x : Except Fault α) : (x.map f).map g = x.map fun a => g (f a) := by
  cases x <;> rfl

theorem map_bind (f : β → γ) (x : Except Fault α) (k : α → Except Fault β) :
    (x >>= k).map f = x >>= fun a => (k a).map f := by cases x <;> rfl

theorem bind_map (f : α → β) (x : Except Fault α) (k : β → Except Fault γ) :
    x.map f >>= k = x >>= fun a => k (f a) := by cases x <;> rfl

theorem bind_congr {x : Except Fault α} {k k' : α → Except Fault β} (h : ∀ a, k a = k' a) : x >>= k = x >>= k' := by
  cases x with
  | error => rfl
  | ok a => exact h a

end Except

/-! ## The two classes agree -/

structure Natural {O O' : Type} (A : API O) (W : API O') (real : O' → O) : Prop where
  fresh : A.fresh = real W.fresh
  reset : ∀ o, A.reset (real o) = real (W.reset o)
  add : ∀ o d, A.addData (real o) d = (W.addData o d).map real
  fin : ∀ o, A.finalize (real o) = (W.finalize o).map real

theorem Natural.same {O O' : Type} {A : API O} {W : API O'} {real : O' → O} (h : Natural A W real) :
    A.SameBut W real := by
  intro ops
  rw [h.fresh]
  generalize W.fresh = o
  induction ops generalizing o with
  | nil => rfl
  | cons op ops ih =>
    have hs : A.step (real o) op = (W.step o op).map real := by
      cases op with
      | add d => exact h.add o d
      | reset => show Except.ok _ = _; rw [h.reset]; rfl
      | finalize => exact h.fin o
    show A.step (real o) op >>= _ = _
    rw [hs, bind_map]
    show _ = (W.step o op >>= _).map real
    rw [map_bind]
    exact bind_congr ih

/-- the chaining part replaced -/
def _root_.Verif.Obj.map {N : Nat} {S T : Type} (f : S → T) (o : Obj N S) : Obj N T := ⟨o.buffer, f o.chain⟩

section
variable {N B : Nat} {S T : Type} {f : S → T} {implW : S → List Byte → Except Fault S}
  {impl : T → List Byte → Except Fault T}

theorem addDataTail_nat (h : ∀ s d, impl (f s) d = (implW s d).map f) (o : Obj N S) (d : List Byte) :
    Verif.addDataTail B impl (o.map f) d = (Verif.addDataTail B implW o d).map (Obj.map f) := by
  unfold Verif.addDataTail
  dsimp only
  split
  · rw [map_bind]; rfl
  · rw [map_bind]
    refine bind_congr fun x => ?_
    rw [map_bind]
    show impl (f o.chain) x >>= _ = _
    rw [h, bind_map]
    refine bind_congr fun c => ?_
    split
    · rw [map_bind]; rfl
    · rfl

theorem addData_nat (h : ∀ s d, impl (f s) d = (implW s d).map f) (o : Obj N S) (d : List Byte) :
    Verif.addData B impl (o.map f) d = (Verif.addData B implW o d).map (Obj.map f) := by
  unfold Verif.addData
  have e1 : (o.map f).buffer = o.buffer := rfl
  rw [e1]
  by_cases he : (!o.buffer.empty) = true
  · rw [if_pos he, if_pos he]
    dsimp only
    rw [map_bind]
    refine bind_congr fun b => ?_
    split
    · rfl
    · rw [map_bind]
      show impl (f o.chain) b.contents >>= _ = _
      rw [h, bind_map]
      refine bind_congr fun c => ?_
      rw [map_bind]
      refine bind_congr fun x => ?_
      exact addDataTail_nat h ⟨b.clear, c⟩ x
  · rw [if_neg he, if_neg he]
    exact addDataTail_nat h o d

theorem addDataTail2_nat (h : ∀ s d, impl (f s) d = (implW s d).map f) (o : Obj B S) (d : List Byte) :
    BLAKE2.addDataTail B impl (o.map f) d = (BLAKE2.addDataTail B implW o d).map (Obj.map f) := by
  unfold BLAKE2.addDataTail
  dsimp only
  rw [map_bind]
  refine bind_congr fun x => ?_
  rw [map_bind]
  show impl (f o.chain) x >>= _ = _
  rw [h, bind_map]
  refine bind_congr fun c => ?_
  rw [map_bind]
  rfl

theorem addData2_nat (h : ∀ s d, impl (f s) d = (implW s d).map f) (n : Nat) : ∀ (o : Obj B S) (d : List Byte),
    d.length = n → BLAKE2.addData B impl (o.map f) d = (BLAKE2.addData B implW o d).map (Obj.map f) := by
  induction n using Nat.strongRecOn with
  | ind n ih =>
    intro o d hn
    rw [BLAKE2.addData, BLAKE2.addData]
    have e1 : (o.map f).buffer = o.buffer := rfl
    rw [e1]
    by_cases h0 : d.isEmpty = true
    · rw [if_pos h0, if_pos h0]; rfl
    · rw [if_neg h0, if_neg h0]
      by_cases h1 : o.buffer.size = B
      · rw [if_pos h1, if_pos h1, map_bind]
        show impl (f o.chain) _ >>= _ = _
        rw [h, bind_map]
        refine bind_congr fun c => ?_
        exact addDataTail2_nat h ⟨o.buffer.clear, c⟩ d
      · rw [if_neg h1, if_neg h1]
        by_cases h2 : (!o.buffer.empty) = true
        · rw [if_pos h2, if_pos h2]
          dsimp only
          by_cases h3 : min (B - o.buffer.size) d.length = 0
          · rw [if_pos h3, if_pos h3]; rfl
          · rw [if_neg h3, if_neg h3]
            cases o.buffer.pushBack (d.take (min (B - o.buffer.size) d.length)) with
            | error e => rfl
            | ok b => exact ih _ (by rw [List.length_drop]; omega) ⟨b, o.chain⟩ _ rfl
        · rw [if_neg h2, if_neg h2]
          exact addDataTail2_nat h o d

end

/-! ## The loop over blocks -/

theorem foldlM_tick {S I : Type} (g : S → I → Except Fault S) (g' : S × Nat → I → Except Fault (S × Nat))
    (h : ∀ s i, g' s i = (g s.1 i).map (·, s.2 + 1)) (l : List I) :
    ∀ s, l.foldlM g' s = (l.foldlM g s.1).map (·, s.2 + l.length) := by
  induction l with
  | nil => intro s; rfl
  | cons i l ih =>
    intro s
    rw [List.foldlM_cons, List.foldlM_cons, h, bind_map, map_bind]
    refine bind_congr fun a => ?_
    rw [ih, List.length_cons, show s.2 + 1 + l.length = s.2 + (l.length + 1) by omega]

theorem forBlocks_tick {S : Type} (B : Nat) (body : S → Block B → S) (data : List Byte) (s : S × Nat) :
    forBlocks B (tick body) data s = (forBlocks B body data s.1).map (·, s.2 + data.length / B) := by
  unfold forBlocks
  rw [foldlM_tick (fun s i => do let m ← blockAt B data (i * B); pure (body s m)), List.length_range]
  intro s i
  rw [map_bind]
  rfl

/-- what a counted `addDataImpl` does -/
def ImplW {S : Type} (B : Nat) (impl : S → List Byte → Except Fault S) (implW : S × Nat → List Byte → Except Fault (S × Nat)) :
    Prop := ∀ s d, implW s d = (impl s.1 d).map (·, s.2 + d.length / B)

section
variable {S : Type} {B : Nat} {impl : S → List Byte → Except Fault S} {implW : S × Nat → List Byte → Except Fault (S × Nat)}

theorem ImplW.nat (h : ImplW B impl implW) (s : S × Nat) (d : List Byte) : impl s.1 d = (implW s d).map Prod.fst := by
  rw [h, map_map]
  cases impl s.1 d <;> rfl

/-- the state and the count after whole blocks -/
def denW (B : Nat) (den : List Byte → S) (m : List Byte) : S × Nat := (den m, m.length / B)

theorem ImplW.ok (hB : 0 < B) (h : ImplW B impl implW) {den : List Byte → S} (hi : ImplOK B impl den) :
    ImplOK B implW (denW B den) := by
  intro m d hm hd hs
  rw [h]
  show (impl (den m) d).map _ = _
  rw [hi m d hm hd hs, map_ok]
  unfold denW
  congr 2
  show m.length / B + d.length / B = (m ++ d).length / B
  rw [List.length_append]
  have h1 := Nat.div_add_mod m.length B
  rw [hm] at h1
  rw [show m.length + d.length = d.length + B * (m.length / B) by omega, Nat.add_mul_div_left _ _ hB]
  omega

end

/-! ## Counts along a history -/

/-- what is known of a counted object -/
structure Tally {O' : Type} (W : API O') (count : O' → Nat) (adding final : Nat → Nat) where
  R : O' → List Byte → Prop
  F : O' → List Byte → Prop
  fresh : R W.fresh []
  add : ∀ o m d, d.length < 2 ^ 64 → R o m → ∃ o', W.addData o d = .ok o' ∧ R o' (m ++ d)
  fin : ∀ o m, R o m → ∃ o', W.finalize o = .ok o' ∧ F o' m
  resetR : ∀ o m, R o m → R (W.reset o) []
  resetF : ∀ o m, F o m → R (W.reset o) []
  countR : ∀ o m, R o m → count o = adding m.length
  countF : ∀ o m, F o m → count o = final m.length

theorem run_append {O : Type} (A : API O) (a b : List Op) : ∀ o, A.run o (a ++ b) = A.run o a >>= fun o => A.run o b := by
  induction a with
  | nil => intro o; rfl
  | cons op a ih =>
    intro o
    show A.step o op >>= _ = (A.step o op >>= _) >>= _
    cases A.step o op with
    | error => rfl
    | ok o' => exact ih o'

theorem Tally.reach {O' : Type} {W : API O'} {count : O' → Nat} {adding final : Nat → Nat}
    (t : Tally W count adding final) : ∀ (ops : List Op) (o : O') (m : List Byte) (fin : Bool), (if fin then t.F o m else t.R o m) → legalFrom fin ops →
      ∃ o', W.run o ops = .ok o' ∧ (if Refines.finFlag fin ops then t.F o' (messageFrom m ops) else t.R o' (messageFrom m ops)) := by
  intro ops
  induction ops with
  | nil => intro o m fin h _; exact ⟨o, rfl, h⟩
  | cons op ops ih =>
    intro o m fin h hl
    cases op with
    | add d =>
      obtain ⟨rfl, hd, hl⟩ := hl
      obtain ⟨o1, e1, h1⟩ := t.add o m d hd h
      obtain ⟨o2, e2, h2⟩ := ih o1 (m ++ d) false h1 hl
      refine ⟨o2, ?_, h2⟩
      show W.addData o d >>= _ = _
      rw [e1]; exact e2
    | reset =>
      have h1 : t.R (W.reset o) [] := by
        cases fin with
        | false => exact t.resetR o m h
        | true => exact t.resetF o m h
      exact ih (W.reset o) [] false h1 hl
    | finalize =>
      obtain ⟨rfl, hl⟩ := hl
      obtain ⟨o1, e1, h1⟩ := t.fin o m h
      obtain ⟨o2, e2, h2⟩ := ih o1 m true h1 hl
      refine ⟨o2, ?_, h2⟩
      show W.finalize o >>= _ = _
      rw [e1]; exact e2

theorem flag_iff : ∀ (ops : List Op) (f : Bool), Refines.finFlag f ops = true ↔ finished ops ∨ (ops = [] ∧ f = true) := by
  intro ops
  induction ops with
  | nil => intro f; simp [Refines.finFlag, finished]
  | cons op ops ih =>
    intro f
    cases ops with
    | nil => cases op <;> simp [Refines.finFlag, finished]
    | cons op' ops =>
      have : finished (op :: op' :: ops) ↔ finished (op' :: ops) := by
        unfold finished
        rw [List.getLast?_cons_cons]
      rw [this]
      cases op with
      | add d => rw [show Refines.finFlag f (.add d :: op' :: ops) = Refines.finFlag false (op' :: ops) from rfl, ih]; simp
      | reset => rw [show Refines.finFlag f (.reset :: op' :: ops) = Refines.finFlag false (op' :: ops) from rfl, ih]; simp
      | finalize => rw [show Refines.finFlag f (.finalize :: op' :: ops) = Refines.finFlag true (op' :: ops) from rfl, ih]; simp

theorem Tally.counts {O' : Type} {W : API O'} {count : O' → Nat} {adding final : Nat → Nat}
    (t : Tally W count adding final) : W.Counts count adding final := by
  intro ops hl
  obtain ⟨o, e, h⟩ := t.reach ops W.fresh [] false t.fresh hl
  refine ⟨o, e, ?_⟩
  by_cases hf : finished ops
  · rw [if_pos hf]
    rw [(flag_iff ops false).2 (.inl hf)] at h
    exact t.countF o _ h
  · rw [if_neg hf]
    have : ¬ Refines.finFlag false ops = true := fun h => by
      rcases (flag_iff ops false).1 h with h | h
      · exact hf h
      · cases h.2
    rw [if_neg this] at h
    exact t.countR o _ h

/-! ## The Merkle-Damgård style classes -/

section MD
variable {C H : Type} {B L : Nat}

theorem fold_count (hB : 0 < B) (comp : H → Block B → H) (iv : H) (m : List Byte) :
    (mdFold B (tick comp) (iv, 0) m).2 = m.length / B := by
  unfold mdFold
  have : ∀ (l : List (List Byte)) (s : H × Nat), (l.foldl (fun s b => tick comp s (toBlock B b)) s).2 = s.2 + l.length := by
    intro l
    induction l with
    | nil => intro s; rfl
    | cons b l ih => intro s; rw [List.foldl_cons, ih, List.length_cons]; show s.2 + 1 + _ = _; omega
  rw [this, blocks_length B m hB]
  omega

theorem padded_length (hL : L + 1 ≤ B) (pb : Byte) {field : Nat → List Byte} (hf : ∀ n, (field n).length = L)
    (m : List Byte) : (padded B L pb field m).length / B = (m.length + L) / B + 1 := by
  have hB : 0 < B := by omega
  unfold padded
  simp only [List.length_append, List.length_replicate, List.length_cons, List.length_nil, hf]
  have h1 := Nat.div_add_mod (m.length + L) B
  have h2 := Nat.mod_lt (m.length + L) hB
  have h3 : (m.length + 1 + L) % B = ((m.length + L) % B + 1) % B := by rw [Nat.mod_add_mod]; congr 1; omega
  have key : m.length + (0 + 1) + (B - (m.length + 1 + L) % B) % B + L = B * ((m.length + L) / B + 1) := by
    rw [h3, Nat.mul_add, Nat.mul_one]
    by_cases h : (m.length + L) % B + 1 = B
    · rw [h, Nat.mod_self, Nat.sub_zero, Nat.mod_self]; omega
    · rw [Nat.mod_eq_of_lt (a := (m.length + L) % B + 1) (by omega), Nat.mod_eq_of_lt (by omega)]; omega
  rw [key, Nat.mul_div_cancel_left _ hB]

theorem mdNatural (pb : Byte) (cnt : Counter C) (comp : H → Block B → H) (iv : H) (out : H → Except Fault (List Byte)) :
    Natural (mdApi B L pb cnt comp iv out) (mdApiW B L pb cnt comp iv out) mdReal := by
  have hi : ∀ (s : MDState C (H × Nat)) d, mdImpl B cnt comp ⟨s.sizeCounter, s.h.1⟩ d =
      (mdImpl B cnt (tick comp) s d).map fun s => ⟨s.sizeCounter, s.h.1⟩ := by
    intro s d
    unfold mdImpl
    dsimp only
    split
    · rfl
    · rw [forBlocks_tick, map_bind, bind_map]
      rfl
  refine ⟨rfl, fun _ => rfl, fun o d => addData_nat hi o d, fun o => ?_⟩
  show mdFinalize _ _ _ _ _ _ _ _ = (mdFinalize _ _ _ _ _ _ _ _).map _
  unfold mdFinalize
  dsimp only
  rw [map_bind]
  refine bind_congr fun b1 => ?_
  rw [map_bind]
  refine bind_congr fun b2 => ?_
  rw [map_bind]
  refine bind_congr fun b3 => ?_
  rw [map_bind]
  show mdImpl B cnt comp ⟨cnt.post (cnt.add o.chain.sizeCounter o.buffer.size), o.chain.h.1⟩ _ >>= _ = _
  rw [hi ⟨_, o.chain.h⟩, bind_map]
  rfl

def mdTally (hL : L + 1 ≤ B) (hBS : B < 2 ^ 64) (pb : Byte) {cnt : Counter C} {field : Nat → List Byte}
    (ok : CounterOK cnt L field) (comp : H → Block B → H) (iv : H) (out : H → Except Fault (List Byte)) :
    Tally (mdApiW B L pb cnt comp iv out) (fun o => o.chain.h.2) (fun n => n / B) (fun n => (n + L) / B + 1) :=
  let r := mdRefines hL hBS pb ok (tick comp) (iv, 0) fun h => out h.1
  { R := r.R
    F := r.F
    fresh := r.fresh
    add := r.add
    fin := r.fin
    resetR := fun _ _ _ => r.fresh
    resetF := fun _ _ _ => r.fresh
    countR := fun o m h => by
      have hc : o.chain = mdDen ok.val (mdFold B (tick comp) (iv, 0)) (alignedPart B m) := h.1
      rw [hc]
      show (mdFold B (tick comp) (iv, 0) (alignedPart B m)).2 = _
      have hB : 0 < B := by omega
      rw [fold_count hB, alignedPart_length]
      unfold alignedLen
      have := Nat.div_add_mod m.length B
      rw [show m.length - m.length % B = B * (m.length / B) by omega, Nat.mul_div_cancel_left _ hB]
    countF := fun o m h => by
      have hc : o.chain.h = mdFold B (tick comp) (iv, 0) (padded B L pb field m) := h
      show o.chain.h.2 = _
      rw [hc, fold_count (by omega), padded_length hL pb fun n => by rw [← ok.field_eq, ok.len]] }

/-- C55 of a Merkle-Damgård style class -/
theorem mdWork (hL : L + 1 ≤ B) (hBS : B < 2 ^ 64) (pb : Byte) {cnt : Counter C} {field : Nat → List Byte}
    (ok : CounterOK cnt L field) (comp : H → Block B → H) (iv : H) (out : H → Except Fault (List Byte)) :
    (mdApi B L pb cnt comp iv out).Work (mdApiW B L pb cnt comp iv out) mdReal (fun o => o.chain.h.2) (fun n => n / B)
      (fun n => (n + L) / B + 1) :=
  ⟨(mdNatural pb cnt comp iv out).same, (mdTally hL hBS pb ok comp iv out).counts⟩

end MD

/-! ## Classes with a `finalize` of their own -/

theorem alignedLen_div {B : Nat} (hB : 0 < B) (m : List Byte) : (alignedPart B m).length / B = m.length / B := by
  rw [alignedPart_length]
  unfold alignedLen
  have := Nat.div_add_mod m.length B
  rw [show m.length - m.length % B = B * (m.length / B) by omega, Nat.mul_div_cancel_left _ hB]

section Block
variable {N B : Nat} {S : Type} {impl : S → List Byte → Except Fault S}
  {implW : S × Nat → List Byte → Except Fault (S × Nat)} {init : S} {fin : Obj N S → Except Fault (Obj N S)}
  {finW : Obj N (S × Nat) → Except Fault (Obj N (S × Nat))} {out : Obj N S → Except Fault (List Byte)}

theorem blockNatural (hi : ImplW B impl implW) (hf : ∀ o, fin o.real = (finW o).map Obj.real) :
    Natural (blockApi B impl init fin out) (blockApi B implW (init, 0) finW fun o => out o.real) Obj.real :=
  ⟨rfl, fun _ => rfl, fun o d => addData_nat (f := Prod.fst) hi.nat o d, hf⟩

def blockTally (hB : 0 < B) (hBS : B < 2 ^ 64) (hN : B ≤ N) {den : List Byte → S} (h0 : den [] = init)
    (hd : ImplOK B impl den) (hi : ImplW B impl implW) (final : Nat → Nat)
    (hf : ∀ o m, Rel B (denW B den) o m → ∃ o', finW o = .ok o' ∧ o'.chain.2 = final m.length) :
    Tally (blockApi B implW (init, 0) finW fun o => out o.real) (fun o => o.chain.2) (fun n => n / B) final where
  R := fun o m => Rel B (denW B den) o m
  F := fun o m => o.chain.2 = final m.length
  fresh := by
    refine ⟨?_, ?_⟩
    · show (init, 0) = denW B den (alignedPart B [])
      rw [show alignedPart B ([] : List Byte) = [] from rfl, denW, h0, List.length_nil, Nat.zero_div]
    · have : restPart B ([] : List Byte) = [] := by simp [restPart]
      rw [this]
      exact Buffer.holds_empty
  add := fun o m d hs h => addData_rel hB hBS hN (hi.ok hB hd) h d hs
  fin := hf
  resetR := fun o m h => by
    refine ⟨?_, ?_⟩
    · show (init, 0) = denW B den (alignedPart B [])
      rw [show alignedPart B ([] : List Byte) = [] from rfl, denW, h0, List.length_nil, Nat.zero_div]
    · have : restPart B ([] : List Byte) = [] := by simp [restPart]
      rw [this]
      exact Buffer.holds_clear o.buffer
  resetF := fun o m h => by
    refine ⟨?_, ?_⟩
    · show (init, 0) = denW B den (alignedPart B [])
      rw [show alignedPart B ([] : List Byte) = [] from rfl, denW, h0, List.length_nil, Nat.zero_div]
    · have : restPart B ([] : List Byte) = [] := by simp [restPart]
      rw [this]
      exact Buffer.holds_clear o.buffer
  countR := fun o m h => by
    show o.chain.2 = _
    rw [h.1]
    exact alignedLen_div hB m
  countF := fun o m h => h

end Block

theorem relReal {N B : Nat} {S : Type} {den : List Byte → S} {o : Obj N (S × Nat)} {m : List Byte}
    (h : Rel B (denW B den) o m) : Rel B den o.real m := ⟨congrArg Prod.fst h.1, h.2⟩

theorem relCount {N B : Nat} {S : Type} {den : List Byte → S} {o : Obj N (S × Nat)} {m : List Byte} (hB : 0 < B)
    (h : Rel B (denW B den) o m) : o.chain.2 = m.length / B := by
  rw [h.1]
  exact alignedLen_div hB m

/-- a counted call succeeds when the call does -/
theorem ok_of_map {α β : Type} {x : Except Fault α} {f : α → β} {b : β} (h : x.map f = .ok b) :
    ∃ a, x = .ok a ∧ f a = b := by
  cases x with
  | error => cases h
  | ok a => exact ⟨a, rfl, Except.ok.inj h⟩

theorem bind_ok {α β : Type} {x : Except Fault α} {k : α → Except Fault β} {b : β} (h : x >>= k = .ok b) :
    ∃ a, x = .ok a ∧ k a = .ok b := by
  cases x with
  | error => cases h
  | ok a => exact ⟨a, rfl, h⟩

section Sizes
variable {N : Nat}

theorem fillLoop_size (v : Byte) (c : Nat) : ∀ b : Buffer N, (Buffer.fillLoop v c b).size = b.size + c := by
  induction c with
  | zero => intro b; rfl
  | succ c ih =>
    intro b
    rw [Buffer.fillLoop, ih]
    show b.endIdx + 1 + c = b.endIdx + (c + 1)
    omega

theorem fill_size {b b' : Buffer N} {v : Byte} {c : Nat} (h : b.fill v c = .ok b') : b'.size = b.size + c ∧ b'.size ≤ N := by
  unfold Buffer.fill at h
  split at h
  · rename_i hc
    rw [← Except.ok.inj h, fillLoop_size]
    exact ⟨rfl, hc.2⟩
  · cases h

theorem setAt_size {b b' : Buffer N} {v : Byte} {p : Nat} (h : b.setAt p v = .ok b') : b'.size = b.size := by
  unfold Buffer.setAt at h
  split at h
  · rw [← Except.ok.inj h]; rfl
  · cases h

theorem writeLoop_size (l : List (Nat × Byte)) : ∀ {b b' : Buffer N}, writeLoop b l = .ok b' → b'.size = b.size := by
  induction l with
  | nil => intro b b' h; rw [← Except.ok.inj h]
  | cons x l ih =>
    intro b b' h
    obtain ⟨b1, e1, h1⟩ := bind_ok h
    rw [ih h1, setAt_size e1]

theorem contents_length {b : Buffer N} (h : b.size ≤ N) : b.contents.length = b.size := by
  unfold Buffer.contents
  rw [List.length_take, Vector.length_toList]
  exact Nat.min_eq_left h

end Sizes

theorem implW_of {S : Type} {B : Nat} {impl : S → List Byte → Except Fault S}
    {implW : S × Nat → List Byte → Except Fault (S × Nat)} (h : ImplW B impl implW) {s s' : S × Nat} {d : List Byte}
    (e : implW s d = .ok s') : s'.2 = s.2 + d.length / B := by
  rw [h] at e
  obtain ⟨a, -, e⟩ := ok_of_map e
  rw [← e]

/-! ### BLAKE -/

namespace BLAKE
open Model.BLAKE

variable {w B : Nat} {C : Type}

theorem implW_eq (c : Cfg w B C) (p : Nat) : ImplW B (impl c p) (implW c p) := by
  intro s d
  unfold impl implW
  dsimp only
  split
  · rfl
  · exact forBlocks_tick B (body c p) d s

theorem finalize_nat (c : Cfg w B C) (L : Nat) (marker : Bool) (total : C → Nat → C) (writes : Nat → C → List (Nat × Byte))
    (o : Obj (2 * B) (MDState C (Vector (BitVec w) 8) × Nat)) :
    finalize c L marker total writes o.real = (finalizeW c L marker total writes o).map Obj.real := by
  unfold finalize finalizeW
  dsimp only
  rw [map_bind]
  refine bind_congr fun b1 => ?_
  rw [map_bind]
  refine bind_congr fun b2 => ?_
  rw [map_bind]
  refine bind_congr fun b3 => ?_
  rw [map_bind]
  refine bind_congr fun b4 => ?_
  rw [map_bind]
  show impl c _ o.chain.1 _ >>= _ = _
  rw [(implW_eq c _).nat, bind_map]
  rfl

theorem markLast_size {N L : Nat} {marker : Bool} {b b' : Buffer N} (h : markLast L marker b = .ok b') : b'.size = b.size := by
  unfold markLast at h
  split at h
  · obtain ⟨x, -, h⟩ := bind_ok h
    exact setAt_size h
  · rw [← Except.ok.inj h]

theorem finalize_count (c : Cfg w B C) {L : Nat} (hL : L + 1 ≤ B) (marker : Bool) (total : C → Nat → C)
    (writes : Nat → C → List (Nat × Byte)) {o o' : Obj (2 * B) (MDState C (Vector (BitVec w) 8) × Nat)}
    (h : finalizeW c L marker total writes o = .ok o') (hs : o.buffer.size < B) :
    o'.chain.2 = o.chain.2 + ((o.buffer.size + L) / B + 1) := by
  unfold finalizeW at h
  obtain ⟨b1, e1, h⟩ := bind_ok h
  obtain ⟨b2, e2, h⟩ := bind_ok h
  obtain ⟨b3, e3, h⟩ := bind_ok h
  obtain ⟨b4, e4, h⟩ := bind_ok h
  obtain ⟨s, e5, h⟩ := bind_ok h
  have s1 := (fill_size e1).1
  obtain ⟨s2, l2⟩ := fill_size e2
  have s4 : b4.size = b2.size := (writeLoop_size _ e4).trans (markLast_size e3)
  have hc := implW_of (implW_eq c _) e5
  rw [contents_length (by omega), s4, s2, s1] at hc
  rw [← Except.ok.inj h]
  show s.2 = _
  rw [hc]
  congr 1
  have hB : 0 < B := by omega
  by_cases hh : o.buffer.size + 1 + L ≤ B
  · have e : (2 * B - (o.buffer.size + 1 + L)) % B = B - (o.buffer.size + 1 + L) := by
      rw [show 2 * B - (o.buffer.size + 1 + L) = B + (B - (o.buffer.size + 1 + L)) by omega, Nat.add_mod_left,
        Nat.mod_eq_of_lt (by omega)]
    rw [e, show o.buffer.size + 1 + (B - (o.buffer.size + 1 + L) + L) = B by omega, Nat.div_self hB,
      Nat.div_eq_of_lt (by omega)]
  · have e : (2 * B - (o.buffer.size + 1 + L)) % B = 2 * B - (o.buffer.size + 1 + L) := Nat.mod_eq_of_lt (by omega)
    rw [e, show o.buffer.size + 1 + (2 * B - (o.buffer.size + 1 + L) + L) = B * 2 by omega,
      Nat.mul_div_cancel_left _ hB, Nat.div_eq_sub_div hB (by omega), Nat.div_eq_of_lt (by omega)]

/-- C55 of a BLAKE class -/
theorem work {c : Cfg w B C} {p : Spec.BLAKE.Params w} {val : Nat → C} {L : Nat} (hL : L + 1 ≤ B) (hBS : 16 * B < 2 ^ 64)
    (ok : Proof.BLAKE.CfgOK c p val) {total : C → Nat → C} {writes : Nat → C → List (Nat × Byte)}
    (fk : Proof.BLAKE.FinOK val L total writes) (marker : Bool) (iv : Vector (BitVec w) 8) (k words size : Nat) :
    (blockApi B (impl c 0) ⟨val 0, iv⟩ (finalize c L marker total writes) (Model.BLAKE.toArray k words size)).Work
      (apiW c L marker total writes ⟨val 0, iv⟩ k words size) Obj.real (fun o => o.chain.2) (fun n => n / B)
      (fun n => (n + L) / B + 1) := by
  have hB : 0 < B := by omega
  refine ⟨(blockNatural (implW_eq c 0) (finalize_nat c L marker total writes)).same,
    (blockTally (out := Model.BLAKE.toArray k words size) hB (by omega) (by omega) (den := Proof.BLAKE.den c ⟨val 0, iv⟩) (by
      unfold Proof.BLAKE.den mdFold
      rw [blocks_nil]
      rfl) (Proof.BLAKE.implOK hB _) (implW_eq c 0) _ ?_).counts⟩
  intro o m h
  obtain ⟨o1, e1, -⟩ := Proof.BLAKE.finalize_rel hL hBS ok fk marker iv o.real m (relReal h)
  rw [finalize_nat] at e1
  obtain ⟨o2, e2, -⟩ := ok_of_map e1
  refine ⟨o2, e2, ?_⟩
  have hs : o.buffer.size = m.length % B := by rw [h.2.size_eq, restPart_length]
  rw [finalize_count c hL marker total writes e2 (by rw [hs]; exact Nat.mod_lt _ hB), relCount hB h, hs]
  have := Nat.div_add_mod m.length B
  rw [show m.length + L = m.length % B + L + B * (m.length / B) by omega, Nat.add_mul_div_left _ _ hB]
  omega

end BLAKE

/-! ### BLAKE2 -/

namespace BLAKE2
open Model.BLAKE2

variable {w B : Nat} {C : Type}

theorem implW_eq (c : Cfg w B C) (f : Bool) (p : Nat) : ImplW B (impl c f p) (implW c f p) := by
  intro s d
  unfold impl implW
  dsimp only
  split
  · rfl
  · exact forBlocks_tick B (body c f p) d s

theorem finalize_nat (c : Cfg w B C) (o : Obj B (State w C × Nat)) : finalize c o.real = (finalizeW c o).map Obj.real := by
  unfold finalize finalizeW
  dsimp only
  rw [map_bind]
  refine bind_congr fun b1 => ?_
  rw [map_bind]
  show impl c _ _ o.chain.1 _ >>= _ = _
  rw [(implW_eq c _ _).nat, bind_map]
  rfl

/-- C55 of a BLAKE2 class -/
theorem work {c : Cfg w B C} {p : Spec.BLAKE2.Params w} {val : Nat → C} (hB : 0 < B) (hBS : B < 2 ^ 64)
    (ok : Proof.BLAKE2.CfgOK c p val) (k size : Nat) :
    (api c k size).Work (apiW c k size) Obj.real (fun o => o.chain.2) (fun n => (n - 1) / B) (fun n => (n - 1) / B + 1) := by
  refine ⟨Natural.same ⟨rfl, fun _ => rfl, fun o d => addData2_nat (f := Prod.fst) (implW_eq c _ _).nat _ o d rfl,
    finalize_nat c⟩, Tally.counts ?_⟩
  have h0 : ∀ b : Buffer B, b.Holds [] → Proof.BLAKE2.LRel B (denW B (Proof.BLAKE2.den c)) ⟨b, (init c, 0)⟩ [] := by
    intro b hb
    refine ⟨[], [], rfl, Nat.zero_mod _, Nat.zero_le _, fun _ => rfl, ?_, hb⟩
    unfold denW Proof.BLAKE2.den mdFold
    rw [blocks_nil, List.length_nil, Nat.zero_div]
    rfl
  have cnt : ∀ o m, Proof.BLAKE2.LRel B (denW B (Proof.BLAKE2.den c)) o m → o.chain.2 = (m.length - 1) / B := by
    rintro o m ⟨a, r, rfl, ha, hr, hra, hc, -⟩
    rw [hc]
    show a.length / B = _
    have hd := Nat.div_add_mod a.length B
    rw [List.length_append]
    by_cases hn : r = []
    · rw [hra hn, hn]; simp
    · have : 0 < r.length := List.length_pos_iff.2 hn
      have e : (r.length - 1) / B = 0 := Nat.div_eq_of_lt (by omega)
      rw [show a.length + r.length - 1 = (r.length - 1) + B * (a.length / B) by omega, Nat.add_mul_div_left _ _ hB, e,
        Nat.zero_add]
  exact
    { R := Proof.BLAKE2.LRel B (denW B (Proof.BLAKE2.den c))
      F := fun o m => o.chain.2 = (m.length - 1) / B + 1
      fresh := h0 _ Buffer.holds_empty
      add := fun o m d hd h => Proof.BLAKE2.addData_rel hB hBS ((implW_eq c _ _).ok hB (Proof.BLAKE2.implOK hB)) d.length h d
        rfl hd
      fin := fun o m h => by
        have hr : Proof.BLAKE2.LRel B (Proof.BLAKE2.den c) o.real m := by
          obtain ⟨a, r, h1, h2, h3, h4, h5, h6⟩ := h
          exact ⟨a, r, h1, h2, h3, h4, congrArg Prod.fst h5, h6⟩
        obtain ⟨o1, e1, -⟩ := Proof.BLAKE2.finalize_rel hB ok o.real m hr
        rw [finalize_nat] at e1
        obtain ⟨o2, e2, -⟩ := ok_of_map e1
        refine ⟨o2, e2, ?_⟩
        have e3 := e2
        unfold finalizeW at e3
        obtain ⟨b1, f1, e3⟩ := bind_ok e3
        obtain ⟨s, f2, e3⟩ := bind_ok e3
        obtain ⟨s1, l1⟩ := fill_size f1
        have hc := implW_of (implW_eq c _ _) f2
        have hb : o.buffer.size ≤ B := by
          obtain ⟨a, r, -, -, h3, -, -, h6⟩ := h
          rw [h6.size_eq]; exact h3
        rw [contents_length l1, s1, show o.buffer.size + (B - o.buffer.size) = B by omega, Nat.div_self hB, cnt o m h] at hc
        rw [← Except.ok.inj e3]
        exact hc
      resetR := fun _ _ _ => h0 _ (Buffer.holds_clear _)
      resetF := fun _ _ _ => h0 _ (Buffer.holds_clear _)
      countR := cnt
      countF := fun _ _ h => h }

end BLAKE2

/-! ### MD2 -/

namespace MD2
open Model.MD2

theorem implW_eq : ImplW 16 impl implW := fun s d => forBlocks_tick 16 body d s

theorem finalize_nat (o : Obj (2 * 16) (St × Nat)) : finalize o.real = (finalizeW o).map Obj.real := by
  unfold finalize finalizeW
  dsimp only
  rw [map_bind]
  refine bind_congr fun b1 => ?_
  rw [map_bind]
  show impl o.chain.1 _ >>= _ = _
  rw [implW_eq.nat, bind_map]
  refine bind_congr fun c => ?_
  rw [map_bind, implW_eq.nat, bind_map]
  rfl

theorem work : MD2.Work MD2W Obj.real (fun o => o.chain.2) (fun n => n / 16) (fun n => n / 16 + 2) := by
  refine ⟨(blockNatural implW_eq finalize_nat).same, (blockTally (out := Model.MD2.toArray) (by decide) (by decide) (by decide)
    Proof.MD2.den_nil Proof.MD2.implOK implW_eq _ ?_).counts⟩
  intro o m h
  obtain ⟨o1, e1, -⟩ := Proof.MD2.finalize_rel o.real m (relReal h)
  rw [finalize_nat] at e1
  obtain ⟨o2, e2, -⟩ := ok_of_map e1
  refine ⟨o2, e2, ?_⟩
  have e3 := e2
  unfold finalizeW at e3
  obtain ⟨b1, f1, e3⟩ := bind_ok e3
  obtain ⟨c1, f2, e3⟩ := bind_ok e3
  obtain ⟨c2, f3, e3⟩ := bind_ok e3
  obtain ⟨s1, l1⟩ := fill_size f1
  have hc := implW_of implW_eq f2
  have hc2 := implW_of implW_eq f3
  have hs : o.buffer.size = m.length % 16 := by rw [h.2.size_eq, restPart_length]
  rw [contents_length l1, s1, relCount (by decide) h, hs] at hc
  rw [hc, Vector.length_toList] at hc2
  rw [← Except.ok.inj e3]
  show c2.2 = _
  rw [hc2]
  omega

end MD2

/-! ### SHA-3 -/

namespace SHA3
open Model.SHA3

variable {R : Nat} [hR : RateOK R]

theorem absorbW_eq (s : Model.SHA3.State × Nat) (d : List Byte) :
    absorbW R s d = (absorb R s.1 d).map (·, s.2 + d.length / R) := by
  unfold absorb absorbW
  dsimp only
  split
  · rfl
  · exact forBlocks_tick R body d s

theorem implW_eq : ImplW R (impl R) (implW R) := by
  intro s d
  unfold impl implW
  rw [absorbW_eq, map_bind, bind_map]
  rfl

/-- the squeeze loop runs once per block of output still missing after the first -/
theorem squeezeW_eq (dl : Nat) (s : KState × Nat) :
    squeezeW R dl s = (squeeze R dl s.1).map (·, s.2 + (dl - s.1.final.length - 1) / R) := by
  have hp := hR.pos
  have hle := hR.le
  induction s using squeezeW.induct R dl with
  | case1 s st h final hf =>
    rw [squeezeW, squeeze]
    dsimp only
    rw [dif_pos h, dif_pos hf, dif_pos h, dif_pos hf, map_ok]
    have hl : final.length = s.1.final.length + R := by
      simp only [final, List.length_append, List.length_take]
      rw [Nat.min_eq_left h]
    rw [Nat.div_eq_of_lt (by omega), Nat.add_zero]
  | case2 s st h final hf e he =>
    rw [absorbW_eq, Proof.SHA3.absorb_zero] at he
    cases he
  | case3 s st h final hf st' he ih =>
    have hl : final.length = s.1.final.length + R := by
      simp only [final, List.length_append, List.length_take]
      rw [Nat.min_eq_left h]
    rw [squeezeW, squeeze]
    dsimp only
    rw [dif_pos h, dif_neg hf, dif_pos h, dif_neg hf, he]
    dsimp only
    rw [ih]
    rw [absorbW_eq] at he
    obtain ⟨s1, h1, h2⟩ := ok_of_map he
    rw [h1, ← h2]
    dsimp only
    have e : (dl - s.1.final.length - 1) / R = (dl - final.length - 1) / R + 1 := by
      rw [Nat.div_eq_sub_div hp (by omega), hl]
      congr 2
      omega
    rw [List.length_replicate, Nat.div_self hp, e, show s.2 + 1 + (dl - final.length - 1) / R =
      s.2 + ((dl - final.length - 1) / R + 1) by omega]
  | case4 s st h =>
    exfalso
    apply h
    rw [stateToVector_length]
    omega

theorem finalize_nat (P : Byte) (dl : Nat) (o : Obj R (KState × Nat)) :
    finalize R P dl o.real = (finalizeW R P dl o).map Obj.real := by
  unfold finalize finalizeW
  dsimp only
  rw [map_bind]
  refine bind_congr fun b1 => ?_
  rw [map_bind]
  refine bind_congr fun b2 => ?_
  rw [map_bind]
  refine bind_congr fun x => ?_
  rw [map_bind]
  refine bind_congr fun b3 => ?_
  rw [map_bind]
  show impl R o.chain.1 _ >>= _ = _
  rw [implW_eq.nat, bind_map]
  refine bind_congr fun c => ?_
  rw [map_bind, squeezeW_eq, bind_map]
  rfl

theorem impl_final {s s' : KState × Nat} {d : List Byte} (e : implW R s d = .ok s') : s'.1.final = s.1.final := by
  unfold implW at e
  obtain ⟨st, -, e⟩ := bind_ok e
  rw [← Except.ok.inj e]

/-- C55 of a SHA-3 or SHAKE class -/
theorem work (P : Byte) (dl : Nat) :
    (Keccak R P dl).Work (KeccakW R P dl) Obj.real (fun o => o.chain.2) (fun n => n / R)
      (fun n => n / R + 1 + (dl - 1) / R) := by
  have hp := hR.pos
  have hle := hR.le
  refine ⟨(blockNatural implW_eq (finalize_nat P dl)).same, (blockTally (out := Model.SHA3.toVector) hp (by omega) (Nat.le_refl _)
    (Proof.SHA3.den_nil R) (Proof.SHA3.implOK R) implW_eq _ ?_).counts⟩
  intro o m h
  obtain ⟨o1, e1, -⟩ := Proof.SHA3.finalize_rel R P dl o.real m (relReal h)
  rw [finalize_nat] at e1
  obtain ⟨o2, e2, -⟩ := ok_of_map e1
  refine ⟨o2, e2, ?_⟩
  have e3 := e2
  unfold finalizeW at e3
  obtain ⟨b1, f1, e3⟩ := bind_ok e3
  obtain ⟨b2, f2, e3⟩ := bind_ok e3
  obtain ⟨x, -, e3⟩ := bind_ok e3
  obtain ⟨b3, f3, e3⟩ := bind_ok e3
  obtain ⟨c1, f4, e3⟩ := bind_ok e3
  obtain ⟨c2, f5, e3⟩ := bind_ok e3
  have s1 := (fill_size f1).1
  obtain ⟨s2, l2⟩ := fill_size f2
  have s3 := setAt_size f3
  have hs : o.buffer.size = m.length % R := by rw [h.2.size_eq, restPart_length]
  have hlt : m.length % R < R := Nat.mod_lt _ hp
  have hc := implW_of implW_eq f4
  have hfin : c1.1.final = [] := by rw [impl_final f4, h.1]; rfl
  rw [s1, hs, Proof.SHA3.zeros_mod hlt] at s2
  rw [contents_length (by omega), s3, s2, show m.length % R + 1 + (R - (m.length % R + 1)) = R by omega, Nat.div_self hp,
    relCount hp h] at hc
  rw [squeezeW_eq] at f5
  obtain ⟨k, -, f5⟩ := ok_of_map f5
  rw [← Except.ok.inj e3]
  show c2.2 = _
  rw [← f5]
  dsimp only
  rw [hc, hfin, List.length_nil, Nat.sub_zero]

end SHA3

/-! ### SipHash -/

namespace SipHash
open Model.SipHash

theorem implW_eq (C : Nat) : ImplW 8 (impl C) (implW C) := by
  intro s d
  unfold impl implW
  dsimp only
  split
  · rfl
  · rw [forBlocks_tick, map_bind, bind_map]
    rfl

theorem finalize_nat (C D : Nat) (o : Obj 16 (State × Nat)) : finalize C D o.real = (finalizeW C D o).map Obj.real := by
  unfold finalize finalizeW
  dsimp only
  rw [map_bind]
  refine bind_congr fun b1 => ?_
  rw [map_bind]
  refine bind_congr fun b2 => ?_
  rw [map_bind]
  show impl C { o.chain.1 with sizeCounter := _ } _ >>= _ = _
  rw [(implW_eq C).nat ({ o.chain.1 with sizeCounter := _ }, o.chain.2), bind_map]
  rfl

/-- C55 of `SipHash<C, D>` -/
theorem work (C D : Nat) (key : Block 16) :
    (SipHashCD C D key).Work (SipHashCDW C D key) Obj.real (fun o => o.chain.2) (fun n => n / 8) (fun n => n / 8 + 1) := by
  have h1 : alignedPart 8 ([] : List Byte) = [] := by simp [alignedPart, alignedLen]
  have h2 : restPart 8 ([] : List Byte) = [] := by simp [restPart]
  have nil : ∀ b : Buffer 16, b.Holds [] → Rel 8 (denW 8 (Proof.SipHash.den C key)) ⟨b, ((constructKey key).chain, 0)⟩ [] := by
    intro b hb
    refine ⟨?_, by rw [h2]; exact hb⟩
    rw [h1]
    show _ = (Proof.SipHash.den C key [], 0)
    rw [show Proof.SipHash.den C key [] = (constructKey key).chain by
      unfold Proof.SipHash.den mdFold; rw [blocks_nil]; rfl]
  refine ⟨Natural.same ⟨rfl, fun _ => rfl, fun o d => addData_nat (f := Prod.fst) (implW_eq C).nat o d, finalize_nat C D⟩,
    Tally.counts ?_⟩
  exact
    { R := Rel 8 (denW 8 (Proof.SipHash.den C key))
      F := fun o m => Proof.SipHash.Fin C D key o.real m ∧ o.chain.2 = m.length / 8 + 1
      fresh := nil _ Buffer.holds_empty
      add := fun o m d hs h => addData_rel (by decide) (by decide) (by decide)
        ((implW_eq C).ok (by decide) (Proof.SipHash.impl_ok C key)) h d hs
      fin := fun o m h => by
        obtain ⟨o1, e1, g1⟩ := Proof.SipHash.finalize_rel C D key o.real m (relReal h)
        rw [finalize_nat] at e1
        obtain ⟨o2, e2, g2⟩ := ok_of_map e1
        refine ⟨o2, e2, by rw [g2]; exact g1, ?_⟩
        have e3 := e2
        unfold finalizeW at e3
        obtain ⟨b1, f1, e3⟩ := bind_ok e3
        obtain ⟨b2, f2, e3⟩ := bind_ok e3
        obtain ⟨c, f3, e3⟩ := bind_ok e3
        have s1 := (fill_size f1).1
        obtain ⟨s2, l2⟩ := fill_size f2
        have hs : o.buffer.size = m.length % 8 := by rw [h.2.size_eq, restPart_length]
        have hc := implW_of (implW_eq C) f3
        rw [contents_length l2, s2, s1, hs, relCount (by decide) h] at hc
        rw [← Except.ok.inj e3]
        show c.2 = _
        rw [hc]
        omega
      resetR := fun o m h => by
        have e : resetState o.chain.1 = (constructKey key).chain := by rw [h.1]; rfl
        show Rel 8 _ ⟨_, (resetState o.chain.1, 0)⟩ []
        rw [e]
        exact nil _ (Buffer.holds_clear _)
      resetF := fun o m h => by
        have e : resetState o.chain.1 = (constructKey key).chain := congrArg Obj.chain ((Proof.SipHash.refines C D key).resetF o.real m h.1)
        show Rel 8 _ ⟨_, (resetState o.chain.1, 0)⟩ []
        rw [e]
        exact nil _ (Buffer.holds_clear _)
      countR := fun o m h => relCount (by decide) h
      countF := fun o m h => h.2 }

end SipHash

/-! ### CRC-32 -/

namespace CRC32
open Model.CRC32

theorem tailLoopW_eq (data : List Byte) : ∀ (fuel p : Nat) (h : W32 × Nat), p ≤ data.length → data.length ≤ p + fuel →
    tailLoopW data fuel p h = (tailLoop data fuel p h.1).map (·, h.2 + (data.length - p)) := by
  intro fuel
  induction fuel with
  | zero =>
    intro p h h1 h2
    rw [tailLoopW, tailLoop, if_neg (by omega), if_neg (by omega), map_ok, show data.length - p = 0 by omega, Nat.add_zero]
  | succ n ih =>
    intro p h h1 h2
    rw [tailLoopW, tailLoop]
    by_cases hlt : p < data.length
    · rw [if_pos hlt, if_pos hlt, List.getElem?_eq_getElem hlt]
      dsimp only
      rw [ih (p + 1) _ (by omega) (by omega)]
      show _ = Except.map (·, h.2 + (data.length - p)) _
      rw [show h.2 + (data.length - p) = h.2 + 1 + (data.length - (p + 1)) by omega]
      rfl
    · rw [if_neg hlt, if_neg hlt, map_ok, show data.length - p = 0 by omega, Nat.add_zero]

theorem addDataW_eq (h : W32 × Nat) (d : List Byte) :
    addDataW h d = (Model.CRC32.addData h.1 d).map (·, h.2 + (d.length / 16 + d.length % 16)) := by
  unfold addDataW Model.CRC32.addData
  rw [forBlocks_tick, map_bind, bind_map]
  refine bind_congr fun a => ?_
  rw [tailLoopW_eq d _ _ _ (by omega) (by omega), show h.2 + d.length / 16 + (d.length - d.length / 16 * 16) =
    h.2 + (d.length / 16 + d.length % 16) by omega]

theorem same : CRC_32.SameBut CRC_32W Prod.fst :=
  Natural.same ⟨rfl, fun _ => rfl, fun o d => by
    show Model.CRC32.addData o.1 d = (addDataW o d).map _
    rw [addDataW_eq, map_map]
    cases Model.CRC32.addData o.1 d <;> rfl, fun _ => rfl⟩

/-- C55 of CRC-32 -/
theorem work (ops : List Op) (hl : Legal ops) :
    ∃ o, CRC_32W.run CRC_32W.fresh ops = .ok o ∧ o.2 ≤ (message ops).length ∧ (message ops).length ≤ 16 * o.2 := by
  let t : Tally CRC_32W (fun _ => 0) (fun _ => 0) (fun _ => 0) :=
    { R := fun o m => o.2 ≤ m.length ∧ m.length ≤ 16 * o.2
      F := fun o m => o.2 ≤ m.length ∧ m.length ≤ 16 * o.2
      fresh := ⟨Nat.le_refl _, Nat.le_refl _⟩
      add := fun o m d _ h => by
        refine ⟨_, (addDataW_eq o d).trans (by rw [Proof.CRC32.addData_eq]; rfl), ?_⟩
        rw [List.length_append]
        dsimp only
        have := h.1
        have := h.2
        constructor <;> omega
      fin := fun o m h => ⟨_, rfl, h⟩
      resetR := fun _ _ _ => ⟨Nat.le_refl _, Nat.le_refl _⟩
      resetF := fun _ _ _ => ⟨Nat.le_refl _, Nat.le_refl _⟩
      countR := fun _ _ _ => rfl
      countF := fun _ _ _ => rfl }
  obtain ⟨o, e, h⟩ := t.reach ops CRC_32W.fresh [] false t.fresh hl
  exact ⟨o, e, by split at h <;> exact h⟩

end CRC32

/-! ### FNV -/

namespace FNV
open Model.FNV

theorem fold_tick {S I : Type} (g : S → I → S) (l : List I) : ∀ s, l.foldl (tick g) s = (l.foldl g s.1, s.2 + l.length) := by
  induction l with
  | nil => intro s; rfl
  | cons i l ih =>
    intro s
    rw [List.foldl_cons, ih, List.length_cons]
    show (_, s.2 + 1 + l.length) = (_, _)
    rw [show s.2 + 1 + l.length = s.2 + (l.length + 1) by omega]
    rfl

/-- C55 of the FNV classes -/
theorem work (w v : Nat) : (FNVHash w v).Work (FNVHashW w v) Prod.fst Prod.snd (fun n => n) (fun n => n) := by
  refine ⟨Natural.same ⟨rfl, fun _ => rfl, fun o d => ?_, fun _ => rfl⟩, Tally.counts ?_⟩
  · show Except.ok _ = Except.ok _
    rw [fold_tick]
  · exact
      { R := fun o m => o.2 = m.length
        F := fun o m => o.2 = m.length
        fresh := rfl
        add := fun o m d _ h => ⟨_, rfl, by rw [fold_tick, List.length_append, h]⟩
        fin := fun o m h => ⟨_, rfl, h⟩
        resetR := fun _ _ _ => rfl
        resetF := fun _ _ _ => rfl
        countR := fun _ _ h => h
        countF := fun _ _ h => h }

end FNV

end Verif.Proof.Work
