import Verif.Core.Stream
import Verif.Core.Loops
import Verif.Core.API
import Verif.Proof.Bytes

/-! The refinement argument for the shared streaming text. -/

namespace Verif
open Spec

/-- `b` currently holds exactly the bytes `l`. -/
def Buffer.Holds {N : Nat} (b : Buffer N) (l : List Byte) : Prop :=
  b.endIdx = l.length ∧ b.contents = l

namespace Buffer
variable {N : Nat}

theorem Holds.le {b : Buffer N} {l : List Byte} (h : b.Holds l) : l.length ≤ N := by
  have h2 := congrArg List.length h.2
  simp [contents] at h2
  have := h.1; omega

theorem holds_empty : ({} : Buffer N).Holds [] := by simp [Holds, contents]

theorem holds_clear (b : Buffer N) : b.clear.Holds [] := holds_empty

theorem Holds.empty_eq {b : Buffer N} {l : List Byte} (h : b.Holds l) : b.empty = l.isEmpty := by
  unfold empty
  rw [h.1]
  cases l <;> simp

theorem Holds.size_eq {b : Buffer N} {l : List Byte} (h : b.Holds l) : b.size = l.length := h.1

theorem holds_store {b : Buffer N} {l : List Byte} (h : b.Holds l) (v : Byte)
    (hl : l.length < N) :
    (⟨b.arr.setIfInBounds b.endIdx v, b.endIdx + 1⟩ : Buffer N).Holds (l ++ [v]) := by
  obtain ⟨h1, h2⟩ := h
  refine ⟨by simp [h1], ?_⟩
  unfold contents at *
  simp only [Vector.toList_setIfInBounds]
  rw [← h2, List.take_add_one]
  congr 1
  · rw [List.take_set_of_le (by omega)]
  · rw [List.getElem?_set_self (by simp; omega)]; rfl

theorem fillLoop_holds (v : Byte) (c : Nat) (b : Buffer N) (l : List Byte) (h : b.Holds l)
    (hl : l.length + c ≤ N) : (fillLoop v c b).Holds (l ++ List.replicate c v) := by
  induction c generalizing b l with
  | zero => simpa [fillLoop] using h
  | succ c ih =>
    have := ih _ _ (holds_store h v (by omega)) (by simp; omega)
    rw [List.append_assoc] at this
    exact this

theorem fill_holds {b : Buffer N} {l : List Byte} (h : b.Holds l) (v : Byte) (c : Nat)
    (h1 : 1 ≤ l.length + c) (h2 : l.length + c ≤ N) :
    ∃ b', b.fill v c = .ok b' ∧ b'.Holds (l ++ List.replicate c v) := by
  refine ⟨_, ?_, fillLoop_holds v c b l h h2⟩
  unfold fill
  rw [h.1, if_pos ⟨h1, h2⟩]

theorem pushBack_holds {b : Buffer N} {l : List Byte} (xs : List Byte) (h : b.Holds l)
    (hl : l.length + xs.length ≤ N) :
    ∃ b', b.pushBack xs = .ok b' ∧ b'.Holds (l ++ xs) := by
  induction xs generalizing b l with
  | nil => exact ⟨b, rfl, by simpa using h⟩
  | cons x xs ih =>
    simp only [List.length_cons] at hl
    obtain ⟨b1, e1, h1⟩ := fill_holds h x 1 (by omega) (by omega)
    obtain ⟨b2, e2, h2⟩ := ih (b := b1) h1 (by simp; omega)
    refine ⟨b2, ?_, by simpa using h2⟩
    simp only [pushBack, e1]
    exact e2

theorem ofRange_holds (xs : List Byte) (h : xs.length ≤ N) :
    ∃ b : Buffer N, ofRange xs = .ok b ∧ b.Holds xs := by
  have := pushBack_holds (N := N) xs holds_empty (by simpa using h)
  simpa [ofRange] using this

theorem setAt_holds {b : Buffer N} {l : List Byte} (h : b.Holds l) (p : Nat) (v : Byte)
    (hp : p < l.length) : ∃ b', b.setAt p v = .ok b' ∧ b'.Holds (l.set p v) := by
  have hN := h.le
  refine ⟨_, by unfold setAt; rw [if_pos (by omega)], ?_⟩
  obtain ⟨h1, h2⟩ := h
  refine ⟨by simpa using h1, ?_⟩
  unfold contents at *
  simp only [Vector.toList_setIfInBounds]
  rw [← h2, List.take_set]

end Buffer

theorem writeLoop_holds {N : Nat} (ws : List (Nat × Byte)) {b : Buffer N} {l : List Byte}
    (h : b.Holds l) (hw : ∀ w ∈ ws, w.1 < l.length) :
    ∃ b', writeLoop b ws = .ok b' ∧ b'.Holds (ws.foldl (fun l w => l.set w.1 w.2) l) := by
  induction ws generalizing b l with
  | nil => exact ⟨b, rfl, h⟩
  | cons w ws ih =>
    obtain ⟨b1, e1, h1⟩ := Buffer.setAt_holds h w.1 w.2 (hw w (by simp))
    obtain ⟨b2, e2, h2⟩ := ih (b := b1) h1 (by
      intro w' hw'; simpa using hw w' (by simp [hw']))
    refine ⟨b2, ?_, h2⟩
    simp only [writeLoop, List.foldlM_cons, e1]
    exact e2

/-! ### Whole blocks -/

/-- The part of `m` that has been compressed, and the part still in the buffer. -/
def alignedLen (B : Nat) (m : List Byte) : Nat := m.length - m.length % B
def alignedPart (B : Nat) (m : List Byte) : List Byte := m.take (alignedLen B m)
def restPart (B : Nat) (m : List Byte) : List Byte := m.drop (alignedLen B m)

theorem aligned_append_rest (B : Nat) (m : List Byte) : alignedPart B m ++ restPart B m = m :=
  List.take_append_drop _ _

theorem alignedLen_le (B : Nat) (m : List Byte) : alignedLen B m ≤ m.length := Nat.sub_le _ _

theorem alignedPart_length (B : Nat) (m : List Byte) :
    (alignedPart B m).length = alignedLen B m := by
  simp only [alignedPart, List.length_take]; exact Nat.min_eq_left (alignedLen_le B m)

theorem alignedLen_mod (B : Nat) (m : List Byte) : alignedLen B m % B = 0 := by
  unfold alignedLen
  have := Nat.div_add_mod m.length B
  rw [show m.length - m.length % B = B * (m.length / B) by omega]
  simp

theorem restPart_length (B : Nat) (m : List Byte) :
    (restPart B m).length = m.length % B := by
  simp only [restPart, List.length_drop, alignedLen]
  have := Nat.mod_le m.length B
  omega

theorem restPart_lt (B : Nat) (m : List Byte) (hB : 0 < B) : (restPart B m).length < B := by
  rw [restPart_length]; exact Nat.mod_lt _ hB

/-- A decomposition of `m` into whole blocks and a short rest is *the* decomposition. -/
theorem parts_unique (B : Nat) (a r : List Byte) (ha : a.length % B = 0) (hr : r.length < B) :
    alignedPart B (a ++ r) = a ∧ restPart B (a ++ r) = r := by
  have hl : alignedLen B (a ++ r) = a.length := by
    unfold alignedLen
    rw [List.length_append]
    have : (a.length + r.length) % B = r.length := by
      rw [Nat.add_mod, ha, Nat.zero_add, Nat.mod_mod, Nat.mod_eq_of_lt hr]
    omega
  constructor
  · rw [alignedPart, hl]; simp
  · rw [restPart, hl]; simp

theorem blockAt_ok (B : Nat) (data : List Byte) (off : Nat) (h : off + B ≤ data.length) :
    ∃ m, blockAt B data off = .ok m ∧ m.toList = (data.drop off).take B := by
  refine ⟨_, by unfold blockAt; rw [dif_pos h], ?_⟩
  rfl

/-- A list of known length as a block. -/
def toBlock (B : Nat) (l : List Byte) : Block B :=
  if h : l.length = B then ⟨l.toArray, by simpa using h⟩ else Vector.replicate B 0

@[simp] theorem toBlock_toList {B : Nat} (m : Block B) : toBlock B m.toList = m := by
  unfold toBlock
  rw [dif_pos (by simp)]
  rfl

theorem toList_toBlock {B : Nat} (l : List Byte) (h : l.length = B) : (toBlock B l).toList = l := by
  unfold toBlock; rw [dif_pos h]; rfl

theorem forBlocks_eq {S : Type} (B : Nat) (hB : 0 < B) (body : S → Block B → S)
    (data : List Byte) (s : S) :
    forBlocks B body data s = .ok ((blocks B data).foldl (fun s l => body s (toBlock B l)) s) := by
  -- generalise to the tail of the range
  have key : ∀ (k : Nat) (d pre : List Byte) (s : S), d.length / B = k → pre.length % B = 0 →
      (List.range' (pre.length / B) k).foldlM (fun s i => do
        let m ← blockAt B (pre ++ d) (i * B)
        pure (body s m)) s
        = (Except.ok ((blocks B d).foldl (fun s l => body s (toBlock B l)) s) : Except Fault S) := by
    intro k
    induction k with
    | zero =>
      intro d pre s hd hp
      have : d.length < B := by
        rcases Nat.lt_or_ge d.length B with h | h
        · exact h
        · have := Nat.div_pos h hB; omega
      rw [blocks_short B d this]; rfl
    | succ k ih =>
      intro d pre s hd hp
      have hle : B ≤ d.length := by
        rcases Nat.lt_or_ge d.length B with h | h
        · rw [Nat.div_eq_of_lt h] at hd; omega
        · exact h
      have hpre : pre.length / B * B = pre.length := by
        have := Nat.div_add_mod pre.length B
        rw [hp] at this; rw [Nat.mul_comm]; omega
      rw [List.range'_succ, List.foldlM_cons]
      obtain ⟨m, e, hm⟩ := blockAt_ok B (pre ++ d) (pre.length / B * B) (by simp; omega)
      rw [e]
      rw [blocks_cons B d hB hle, List.foldl_cons]
      have hm' : m.toList = d.take B := by
        rw [hm, hpre, List.drop_append_of_le_length (Nat.le_refl _)]; simp
      have hm2 : toBlock B (d.take B) = m := by rw [← hm', toBlock_toList]
      rw [hm2]
      have h3 := ih (d.drop B) (pre ++ d.take B) (body s m)
        (by rw [List.length_drop, Nat.div_eq_sub_div hB hle] at *; omega)
        (by rw [List.length_append, List.length_take, Nat.min_eq_left hle, Nat.add_mod_right]; exact hp)
      rw [List.append_assoc, List.take_append_drop] at h3
      rw [List.length_append, List.length_take, Nat.min_eq_left hle,
        Nat.add_div_right _ hB] at h3
      exact h3
  have := key (data.length / B) data [] s rfl (by simp)
  simpa [forBlocks, List.range_eq_range'] using this

/-! ### The refinement relation of `addData` -/

/-- `den m` is what the non-buffer members must be after the block-aligned byte string `m`
has gone through `addDataImpl`. -/
def ImplOK {S : Type} (B : Nat) (impl : S → List Byte → Except Fault S) (den : List Byte → S) :
    Prop :=
  ∀ m d : List Byte, m.length % B = 0 → d.length % B = 0 → d.length < 2 ^ 64 →
    impl (den m) d = .ok (den (m ++ d))

/-- The object state that represents the message `m`. -/
def Rel {N : Nat} {S : Type} (B : Nat) (den : List Byte → S) (o : Obj N S) (m : List Byte) : Prop :=
  o.chain = den (alignedPart B m) ∧ o.buffer.Holds (restPart B m)

theorem Rel.intro {N : Nat} {S : Type} {B : Nat} {den : List Byte → S} {o : Obj N S}
    (a r : List Byte) (ha : a.length % B = 0) (hr : r.length < B)
    (h1 : o.chain = den a) (h2 : o.buffer.Holds r) : Rel B den o (a ++ r) := by
  obtain ⟨e1, e2⟩ := parts_unique B a r ha hr
  exact ⟨by rw [e1]; exact h1, by rw [e2]; exact h2⟩

theorem addDataTail_rel {N : Nat} {S : Type} {B : Nat} (hB : 0 < B) (hN : B ≤ N)
    {impl : S → List Byte → Except Fault S} {den : List Byte → S} (hi : ImplOK B impl den)
    {o : Obj N S} {a : List Byte} (ha : a.length % B = 0) (hc : o.chain = den a)
    (hb : o.buffer.Holds []) (data : List Byte) (hd : data.length < 2 ^ 64) :
    ∃ o', addDataTail B impl o data = .ok o' ∧ Rel B den o' (a ++ data) := by
  unfold addDataTail
  by_cases h : data.length < B
  · simp only [h, if_true]
    obtain ⟨b, e, hb'⟩ := Buffer.ofRange_holds (N := N) data (by omega)
    refine ⟨{ o with buffer := b }, by rw [e]; rfl, Rel.intro a data ha h hc hb'⟩
  · simp only [h, if_false]
    have hmod := Nat.mod_lt data.length hB
    have hle : data.length - data.length % B ≤ data.length := Nat.sub_le _ _
    have halen : (data.take (data.length - data.length % B)).length % B = 0 := by
      rw [List.length_take, Nat.min_eq_left hle]
      exact alignedLen_mod B data
    have e1 : spanFirst data (data.length - data.length % B) =
        .ok (data.take (data.length - data.length % B)) := by
      unfold spanFirst; rw [if_pos hle]
    rw [e1]
    have e2 := hi a (data.take (data.length - data.length % B)) ha halen
      (by rw [List.length_take]; omega)
    rw [← hc] at e2
    simp only [bind, Except.bind]
    rw [e2]
    have hsplit : a ++ data = (a ++ data.take (data.length - data.length % B)) ++
        data.drop (data.length - data.length % B) := by
      rw [List.append_assoc, List.take_append_drop]
    have haa : (a ++ data.take (data.length - data.length % B)).length % B = 0 := by
      rw [List.length_append, Nat.add_mod, ha, halen]; simp
    rw [hsplit]
    by_cases h3 : data.length - data.length % B < data.length
    · simp only [h3, if_true]
      obtain ⟨b, e, hb'⟩ := Buffer.ofRange_holds (N := N)
        (data.drop (data.length - data.length % B)) (by rw [List.length_drop]; omega)
      rw [e]
      refine ⟨_, rfl, Rel.intro _ _ haa (by rw [List.length_drop]; omega) rfl hb'⟩
    · simp only [h3, if_false]
      refine ⟨_, rfl, Rel.intro _ _ haa (by rw [List.length_drop]; omega) rfl ?_⟩
      rw [List.drop_eq_nil_of_le (by omega)]
      exact hb

theorem addData_rel {N : Nat} {S : Type} {B : Nat} (hB : 0 < B) (hBS : B < 2 ^ 64) (hN : B ≤ N)
    {impl : S → List Byte → Except Fault S} {den : List Byte → S} (hi : ImplOK B impl den)
    {o : Obj N S} {m : List Byte} (h : Rel B den o m) (data : List Byte)
    (hd : data.length < 2 ^ 64) :
    ∃ o', addData B impl o data = .ok o' ∧ Rel B den o' (m ++ data) := by
  obtain ⟨hc, hb⟩ := h
  have hrl := restPart_lt B m hB
  have hal : (alignedPart B m).length % B = 0 := by
    rw [alignedPart_length]; exact alignedLen_mod B m
  unfold addData
  rw [hb.empty_eq, hb.size_eq]
  by_cases he : restPart B m = []
  · rw [he] at hb
    simp only [he, List.isEmpty_nil, Bool.not_true]
    obtain ⟨o', e, hr⟩ := addDataTail_rel hB hN hi hal hc hb data hd
    refine ⟨o', by simpa using e, ?_⟩
    have : m = alignedPart B m := by
      have := aligned_append_rest B m; rw [he, List.append_nil] at this; exact this.symm
    rw [← this] at hr; exact hr
  · have hne : (restPart B m).isEmpty = false := by
      cases hh : restPart B m with
      | nil => exact absurd hh he
      | cons => rfl
    simp only [hne, Bool.not_false, if_true]
    obtain ⟨b, e, hb'⟩ := Buffer.pushBack_holds
      (data.take (min (B - (restPart B m).length) data.length)) hb
      (by rw [List.length_take]; omega)
    rw [e]
    simp only [bind, Except.bind]
    rw [hb'.size_eq]
    have hm := aligned_append_rest B m
    by_cases hlt : (restPart B m ++
        data.take (min (B - (restPart B m).length) data.length)).length < B
    · simp only [hlt, if_true]
      have hall : min (B - (restPart B m).length) data.length = data.length := by
        rw [List.length_append, List.length_take] at hlt; omega
      refine ⟨_, rfl, ?_⟩
      rw [hall, List.take_length] at hb' hlt
      have := Rel.intro (den := den) (o := { o with buffer := b }) (alignedPart B m)
        (restPart B m ++ data) hal hlt hc hb'
      rwa [← List.append_assoc, hm] at this
    · simp only [hlt, if_false]
      have hmin : min (B - (restPart B m).length) data.length = B - (restPart B m).length := by
        rw [List.length_append, List.length_take] at hlt; omega
      have hble : B - (restPart B m).length ≤ data.length := by omega
      rw [hmin] at hb' ⊢
      have hfull : (restPart B m ++ data.take (B - (restPart B m).length)).length % B = 0 := by
        rw [List.length_append, List.length_take, Nat.min_eq_left hble,
          Nat.add_sub_cancel' (by omega)]
        exact Nat.mod_self B
      have e2 := hi (alignedPart B m) (restPart B m ++ data.take (B - (restPart B m).length))
        hal hfull (by rw [List.length_append, List.length_take]; omega)
      rw [hb'.2, hc, e2]
      have e3 : spanSub data (B - (restPart B m).length) =
          .ok (data.drop (B - (restPart B m).length)) := by
        unfold spanSub; rw [if_pos hble]
      rw [e3]
      simp only []
      obtain ⟨o', e4, hr⟩ := addDataTail_rel (N := N)
        (o := ⟨b.clear, den (alignedPart B m ++
          (restPart B m ++ data.take (B - (restPart B m).length)))⟩) hB hN hi
        (a := alignedPart B m ++ (restPart B m ++ data.take (B - (restPart B m).length)))
        (by rw [List.length_append, Nat.add_mod, hal, hfull]; simp) rfl (Buffer.holds_clear b)
        (data.drop (B - (restPart B m).length)) (by rw [List.length_drop]; omega)
      refine ⟨o', e4, ?_⟩
      rw [← List.append_assoc, hm, List.append_assoc, List.take_append_drop] at hr
      exact hr

/-! ### Merkle-Damgård finalisation -/

/-- The `addDataImpl` of a Merkle-Damgård class: adds the size to the counter and folds the
chaining value; the counter does not influence the chaining value. -/
def MDImplOK {C H : Type} (B : Nat) (cntAdd : C → Nat → C)
    (impl : MDState C H → List Byte → Except Fault (MDState C H)) (hden : List Byte → H) : Prop :=
  ∀ (c : C) (m d : List Byte), m.length % B = 0 → d.length % B = 0 →
    impl ⟨c, hden m⟩ d = .ok ⟨cntAdd c d.length, hden (m ++ d)⟩

/-- `cnt n` is the counter value for `n` bytes: `cntAdd` moves along it (for amounts that fit in
`size_t`). -/
def CntAct {C : Type} (cntAdd : C → Nat → C) (cnt : Nat → C) : Prop :=
  ∀ a b, b < 2 ^ 64 → cntAdd (cnt a) b = cnt (a + b)

theorem cntAct64 : CntAct cntAdd64 (BitVec.ofNat 64) := by
  intro a b _
  unfold cntAdd64
  rw [BitVec.ofNat_add]

/-- `Uint128` holding the number `n`. -/
def cnt128 (n : Nat) : Uint128 := ⟨BitVec.ofNat 64 n, BitVec.ofNat 64 (n / 2 ^ 64)⟩

theorem cntAct128 : CntAct cntAdd128 cnt128 := by
  intro a b hb
  unfold cntAdd128 Uint128.add cnt128
  simp only [BitVec.lt_def, BitVec.toNat_add, BitVec.toNat_ofNat]
  split <;> rename_i h <;> simp only [Uint128.mk.injEq] <;> refine ⟨by rw [BitVec.ofNat_add], ?_⟩
  · apply BitVec.eq_of_toNat_eq
    rw [BitVec.toNat_add, show (1 : W64).toNat = 1 from rfl, BitVec.toNat_ofNat, BitVec.toNat_ofNat]
    omega
  · apply BitVec.eq_of_toNat_eq
    simp only [BitVec.toNat_ofNat]
    omega

/-- The abstract state of a Merkle-Damgård object. -/
def mdDen {C H : Type} (cnt : Nat → C) (hden : List Byte → H) (m : List Byte) :
    MDState C H := ⟨cnt m.length, hden m⟩

theorem MDImplOK.implOK {C H : Type} {B : Nat} {cntAdd : C → Nat → C}
    {impl : MDState C H → List Byte → Except Fault (MDState C H)} {hden : List Byte → H}
    (h : MDImplOK B cntAdd impl hden) {cnt : Nat → C} (ha : CntAct cntAdd cnt) :
    ImplOK B impl (mdDen cnt hden) := by
  intro m d hm hd hs
  unfold mdDen
  rw [h _ m d hm hd, ha _ _ hs, List.length_append]

/-- What the length-field stores must do: overwrite the last `L` bytes, which are zero, by `field`. -/
structure LenWritesOK {C : Type} (L : Nat) (writes : Nat → C → List (Nat × Byte))
    (field : C → List Byte) : Prop where
  bound : ∀ s c, L ≤ s → ∀ w ∈ writes s c, w.1 < s
  value : ∀ (l : List Byte) c, (writes (l.length + L) c).foldl (fun l w => l.set w.1 w.2)
      (l ++ List.replicate L 0) = l ++ field c

/-- Number of zero bytes between the "1 bit" byte and the length field. -/
def padZeros (B L n : Nat) : Nat := (2 * B - (n % B + 1 + L)) % B

/-- The padding appended to a message of `n` bytes. -/
def mdPad {C : Type} (B L : Nat) (padByte : Byte) (cnt : Nat → C) (field : C → List Byte)
    (n : Nat) : List Byte :=
  [padByte] ++ List.replicate (padZeros B L n) 0 ++ field (cnt n)

theorem padZeros_mod (B L n : Nat) (hL : L + 1 ≤ B) :
    (n % B + 1 + padZeros B L n + L) % B = 0 := by
  have hr := Nat.mod_lt n (show 0 < B by omega)
  unfold padZeros
  by_cases h : n % B + 1 + L ≤ B
  · by_cases h2 : n % B + 1 + L = B
    · rw [show 2 * B - (n % B + 1 + L) = B by omega, Nat.mod_self,
        show n % B + 1 + 0 + L = B by omega, Nat.mod_self]
    · have : (2 * B - (n % B + 1 + L)) % B = B - (n % B + 1 + L) := by
        rw [show 2 * B - (n % B + 1 + L) = (B - (n % B + 1 + L)) + B by omega, Nat.add_mod_right,
          Nat.mod_eq_of_lt (by omega)]
      rw [this, show n % B + 1 + (B - (n % B + 1 + L)) + L = B by omega, Nat.mod_self]
  · have : (2 * B - (n % B + 1 + L)) % B = 2 * B - (n % B + 1 + L) := Nat.mod_eq_of_lt (by omega)
    rw [this, show n % B + 1 + (2 * B - (n % B + 1 + L)) + L = 2 * B by omega, Nat.mul_mod_left]

theorem padZeros_le (B L n : Nat) (hL : L + 1 ≤ B) :
    n % B + 1 + padZeros B L n + L ≤ 2 * B := by
  have hr := Nat.mod_lt n (show 0 < B by omega)
  unfold padZeros
  by_cases h : n % B + 1 + L ≤ B
  · have := Nat.mod_lt (2 * B - (n % B + 1 + L)) (show 0 < B by omega)
    by_cases h2 : n % B + 1 + L = B
    · rw [show 2 * B - (n % B + 1 + L) = B by omega, Nat.mod_self]; omega
    · have : (2 * B - (n % B + 1 + L)) % B = B - (n % B + 1 + L) := by
        rw [show 2 * B - (n % B + 1 + L) = (B - (n % B + 1 + L)) + B by omega, Nat.add_mod_right,
          Nat.mod_eq_of_lt (by omega)]
      omega
  · have : (2 * B - (n % B + 1 + L)) % B = 2 * B - (n % B + 1 + L) := Nat.mod_eq_of_lt (by omega)
    omega

theorem mdFinalize_rel {N : Nat} {C H : Type} {B L : Nat} (hL : L + 1 ≤ B) (hBS : B < 2 ^ 64)
    (hN : 2 * B ≤ N)
    {padByte : Byte} {cntAdd : C → Nat → C} {cntPost : C → C} {writes : Nat → C → List (Nat × Byte)}
    {field : C → List Byte} (hf : ∀ c, (field c).length = L)
    (hw : LenWritesOK L writes field) {cnt : Nat → C} (hact : CntAct cntAdd cnt)
    {impl : MDState C H → List Byte → Except Fault (MDState C H)} {hden : List Byte → H}
    (hi : MDImplOK B cntAdd impl hden) {o : Obj N (MDState C H)} {m : List Byte}
    (h : Rel B (mdDen cnt hden) o m) :
    ∃ o', mdFinalize B L padByte cntAdd cntPost writes impl o = .ok o' ∧
      o'.chain.h = hden (m ++ mdPad B L padByte cnt field m.length) := by
  obtain ⟨hc, hb⟩ := h
  have hB : 0 < B := by omega
  have hrl := restPart_lt B m hB
  have hrlen := restPart_length B m
  have hal : (alignedPart B m).length % B = 0 := by
    rw [alignedPart_length]; exact alignedLen_mod B m
  have hm := aligned_append_rest B m
  have hpz := padZeros_le B L m.length hL
  have hpm := padZeros_mod B L m.length hL
  unfold mdFinalize
  obtain ⟨b1, e1, h1⟩ := Buffer.fill_holds hb padByte 1 (by omega) (by omega)
  rw [e1]
  simp only [bind, Except.bind]
  have hs1 : b1.size = m.length % B + 1 := by
    rw [h1.size_eq, List.length_append, hrlen]; rfl
  rw [hs1]
  have hk : (2 * B - (m.length % B + 1 + L)) % B = padZeros B L m.length := rfl
  rw [hk]
  obtain ⟨b2, e2, h2⟩ := Buffer.fill_holds h1 0 (padZeros B L m.length + L) (by simp; omega)
    (by rw [List.length_append, hrlen, List.length_replicate]; omega)
  rw [e2]
  simp only []
  have hs2 : b2.size = m.length % B + 1 + padZeros B L m.length + L := by
    rw [h2.size_eq, List.length_append, List.length_append, hrlen]; simp; omega
  have hcnt : cntAdd o.chain.sizeCounter o.buffer.size = cnt m.length := by
    rw [hc, hb.size_eq]
    simp only [mdDen]
    rw [hact _ _ (by omega), ← List.length_append, hm]
  rw [hcnt]
  obtain ⟨b3, e3, h3⟩ := writeLoop_holds (writes b2.size (cnt m.length)) h2 (by
    intro w hw'
    rw [← h2.size_eq]
    exact hw.bound b2.size _ (by omega) w hw')
  rw [e3]
  simp only []
  have hval : b3.contents = restPart B m ++ mdPad B L padByte cnt field m.length := by
    rw [h3.2]
    have := hw.value (restPart B m ++ [padByte] ++ List.replicate (padZeros B L m.length) 0)
      (cnt m.length)
    have hl : (restPart B m ++ [padByte] ++ List.replicate (padZeros B L m.length) (0 : Byte)).length
        + L = b2.size := by
      rw [hs2]; simp [hrlen]; omega
    rw [hl] at this
    rw [show restPart B m ++ List.replicate 1 padByte ++ List.replicate (padZeros B L m.length + L) 0
      = restPart B m ++ [padByte] ++ List.replicate (padZeros B L m.length) 0 ++ List.replicate L 0 by
        rw [List.append_assoc _ (List.replicate (padZeros B L m.length) 0), List.replicate_append_replicate]
        rfl]
    rw [this]
    simp [mdPad]
  have hlen : (restPart B m ++ mdPad B L padByte cnt field m.length).length % B = 0 := by
    rw [← hpm]
    simp only [mdPad, List.length_append, hrlen, hf, List.length_replicate, List.length_cons,
      List.length_nil]
    congr 1; omega
  have e4 := hi (cntPost (cnt m.length)) (alignedPart B m)
    (restPart B m ++ mdPad B L padByte cnt field m.length) hal hlen
  have hh : o.chain.h = hden (alignedPart B m) := by rw [hc]; rfl
  rw [hval, hh, e4]
  simp only []
  refine ⟨_, rfl, ?_⟩
  simp only []
  rw [← List.append_assoc, hm]

theorem ror_ror {w : Nat} (x : BitVec w) (r a b : Nat) (h : b + 8 ≤ r) :
    ror 8 (ror r x a) b = ror 8 x (a + b) := by
  unfold ror
  ext i hi
  simp [BitVec.getLsbD_setWidth, BitVec.getLsbD_ushiftRight]
  rw [show a + (b + i) = a + b + i by omega]
  have : b + i < r := by omega
  simp [this]

theorem set_append_add (l r : List Byte) (k : Nat) (v : Byte) :
    (l ++ r).set (l.length + k) v = l ++ r.set k v := by
  simp

theorem lenWritesBE64_ok :
    LenWritesOK 8 (fun s (c : W64) => lenWritesBE64 s (c * 8)) (fun c => toBE 8 (c * 8).toNat) := by
  constructor
  · intro s c hs w hw
    simp [lenWritesBE64, List.range_succ] at hw
    rcases hw with h | h | h | h | h | h | h | h <;> subst h <;> simp only [] <;> omega
  · intro l c
    rw [← storeBE_eq]
    simp [lenWritesBE64, List.range_succ, storeBE, Nat.add_assoc, List.replicate,
      ror_ror]

theorem lenWritesLE64_ok :
    LenWritesOK 8 (fun s (c : W64) => lenWritesLE64 s (c * 8)) (fun c => toLE 8 (c * 8).toNat) := by
  constructor
  · intro s c hs w hw
    simp [lenWritesLE64, List.range_succ] at hw
    rcases hw with h | h | h | h | h | h | h | h <;> subst h <;> simp only [] <;> omega
  · intro l c
    rw [← storeLE_eq]
    simp [lenWritesLE64, List.range_succ, storeLE, Nat.add_assoc, List.replicate,
      ror_ror]

/-! ### Histories -/

/-- The refinement package of a class: a relation between unfinalised objects and the message
absorbed so far, and one for finalised objects. -/
structure Refines {O : Type} (A : API O) (dig : List Byte → Except Fault (List Byte)) where
  R : O → List Byte → Prop
  F : O → List Byte → Prop
  fresh : R A.fresh []
  add : ∀ o m d, d.length < 2 ^ 64 → R o m → ∃ o', A.addData o d = .ok o' ∧ R o' (m ++ d)
  fin : ∀ o m, R o m → ∃ o', A.finalize o = .ok o' ∧ F o' m
  resetR : ∀ o m, R o m → A.reset o = A.fresh
  resetF : ∀ o m, F o m → A.reset o = A.fresh
  out : ∀ o m, F o m → A.toArray o = dig m

namespace Refines
variable {O : Type} {A : API O} {dig : List Byte → Except Fault (List Byte)}

/-- replace the digest function by an equal one -/
def congr (r : Refines A dig) {dig' : List Byte → Except Fault (List Byte)}
    (h : ∀ m, dig m = dig' m) : Refines A dig' where
  R := r.R
  F := r.F
  fresh := r.fresh
  add := r.add
  fin := r.fin
  resetR := r.resetR
  resetF := r.resetF
  out := fun o m hf => by rw [r.out o m hf, h]

/-- the state relation selected by the finalised flag -/
def St (r : Refines A dig) (fin : Bool) (o : O) (m : List Byte) : Prop :=
  if fin then r.F o m else r.R o m

/-- the finalised flag after a history -/
def finFlag : Bool → List Op → Bool
  | f, [] => f
  | _, .add _ :: ops => finFlag false ops
  | _, .reset :: ops => finFlag false ops
  | _, .finalize :: ops => finFlag true ops

theorem run_rel (r : Refines A dig) (ops : List Op) (fin : Bool) (o : O) (m : List Byte)
    (hs : r.St fin o m) (hl : legalFrom fin ops) :
    ∃ o', A.run o ops = .ok o' ∧ r.St (finFlag fin ops) o' (messageFrom m ops) := by
  induction ops generalizing fin o m with
  | nil => exact ⟨o, rfl, hs⟩
  | cons op ops ih =>
    cases op with
    | add d =>
      obtain ⟨hf, hd, hl⟩ := hl
      subst hf
      obtain ⟨o1, e1, h1⟩ := r.add o m d hd (by simpa [St] using hs)
      obtain ⟨o2, e2, h2⟩ := ih false o1 (m ++ d) (by simpa [St] using h1) hl
      exact ⟨o2, by simp [API.run, API.step, e1, bind, Except.bind, e2], h2⟩
    | reset =>
      have hr : A.reset o = A.fresh := by
        cases fin
        · exact r.resetR o m (by simpa [St] using hs)
        · exact r.resetF o m (by simpa [St] using hs)
      obtain ⟨o2, e2, h2⟩ := ih false A.fresh [] (by simpa [St] using r.fresh) hl
      exact ⟨o2, by simp [API.run, API.step, bind, Except.bind, hr, e2], h2⟩
    | finalize =>
      obtain ⟨hf, hl⟩ := hl
      subst hf
      obtain ⟨o1, e1, h1⟩ := r.fin o m (by simpa [St] using hs)
      obtain ⟨o2, e2, h2⟩ := ih true o1 m (by simpa [St] using h1) hl
      exact ⟨o2, by simp [API.run, API.step, e1, bind, Except.bind, e2], h2⟩

theorem safe (r : Refines A dig) : A.Safe := by
  intro ops hl
  obtain ⟨o, e, _⟩ := r.run_rel ops false A.fresh [] (by simpa [St] using r.fresh) hl
  exact ⟨o, e⟩

theorem messageFrom_append (m : List Byte) (a b : List Op) :
    messageFrom m (a ++ b) = messageFrom (messageFrom m a) b := by
  induction a generalizing m with
  | nil => rfl
  | cons op a ih => cases op <;> simp [messageFrom, ih]

theorem finFlag_append (f : Bool) (a b : List Op) :
    finFlag f (a ++ b) = finFlag (finFlag f a) b := by
  induction a generalizing f with
  | nil => rfl
  | cons op a ih => cases op <;> simp [finFlag, ih]

theorem run_finalize (r : Refines A dig) (ops : List Op) (hl : Legal (ops ++ [.finalize])) :
    ∃ o, A.run A.fresh (ops ++ [.finalize]) = .ok o ∧ r.F o (message ops) := by
  obtain ⟨o, e, h⟩ := r.run_rel (ops ++ [Op.finalize]) false A.fresh []
    (by simpa [St] using r.fresh) hl
  refine ⟨o, e, ?_⟩
  rw [messageFrom_append, finFlag_append] at h
  simpa [finFlag, messageFrom, St, message] using h

theorem computesOn (r : Refines A dig) (dom : List Byte → Prop) (spec : List Byte → List Byte)
    (h : ∀ m, dom m → dig m = .ok (spec m)) : A.ComputesOn dom spec := by
  intro ops hl hd
  obtain ⟨o, e, hf⟩ := r.run_finalize ops hl
  exact ⟨o, e, by rw [r.out o _ hf, h _ hd]⟩

theorem legal_adds (ps : List (List Byte)) (hp : ∀ p ∈ ps, p.length < 2 ^ 64) :
    Legal (ps.map Op.add ++ [.finalize]) := by
  unfold Legal
  induction ps with
  | nil => simp [legalFrom]
  | cons p ps ih => exact ⟨rfl, hp p (by simp), ih (fun q hq => hp q (by simp [hq]))⟩

theorem message_adds (ps : List (List Byte)) : message (ps.map Op.add) = ps.flatten := by
  have : ∀ m, messageFrom m (ps.map Op.add) = m ++ ps.flatten := by
    induction ps with
    | nil => simp [messageFrom]
    | cons p ps ih => intro m; simp [messageFrom, ih]
  simpa [message] using this []

theorem digest_eq (r : Refines A dig) (ps : List (List Byte)) (hp : ∀ p ∈ ps, p.length < 2 ^ 64) :
    A.digest ps = dig ps.flatten := by
  obtain ⟨o, e, hf⟩ := r.run_finalize (ps.map .add) (legal_adds ps hp)
  unfold API.digest
  rw [e]
  simp only [bind, Except.bind]
  rw [r.out o _ hf, message_adds]

theorem computes {spec : List Byte → List Byte} (r : Refines A (fun m => .ok (spec m))) :
    A.Computes spec := r.computesOn _ spec (fun _ _ => rfl)

theorem chunking {spec : List Byte → List Byte} (r : Refines A (fun m => .ok (spec m))) :
    A.ChunkingIrrelevant := by
  intro ps qs hp hq h
  exact ⟨spec ps.flatten, r.digest_eq ps hp, by rw [r.digest_eq qs hq, h]⟩

theorem run_append (o : O) (a b : List Op) :
    A.run o (a ++ b) = (do A.run (← A.run o a) b) := by
  induction a generalizing o with
  | nil => rfl
  | cons op a ih =>
    simp only [List.cons_append, API.run]
    cases h : A.step o op with
    | error e => rfl
    | ok o' => simp only [bind, Except.bind]; exact ih o'

theorem resetFresh (r : Refines A dig) : A.ResetIsFresh := by
  intro before after hl
  obtain ⟨o, e, h⟩ := r.run_rel before false A.fresh [] (by simpa [St] using r.fresh) hl
  rw [run_append, e]
  simp only [bind, Except.bind, API.run, API.step]
  have : A.reset o = A.fresh := by
    cases hf : finFlag false before <;> rw [hf] at h <;> simp [St] at h
    · exact r.resetR o _ h
    · exact r.resetF o _ h
  rw [this]

theorem digestSize {n : Nat} {spec : List Byte → List Byte}
    (r : Refines A (fun m => .ok (spec m))) (hn : ∀ m, (spec m).length = n) : A.DigestSize n := by
  intro ops hl
  obtain ⟨o, e, hf⟩ := r.run_finalize ops hl
  exact ⟨o, _, e, r.out o _ hf, hn _⟩

end Refines

end Verif
