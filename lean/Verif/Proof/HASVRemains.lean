import Verif.Model.HASVRemains
import Verif.Proof.HASVVector

/-! HAS_V_320 with the memory of its vector in sight, and without. -/

namespace Verif.Proof.HASVRemains
open Verif.Model Verif.Model.HASV Verif.Proof.HASV

/-- the vector without its memory -/
def seen (v : RVec) : Vec := ⟨v.data, v.mem.length⟩

/-- the object without the memory of its vector -/
def seenO (o : RObj) : VObj := ⟨seen o.buffer, o.chain⟩

/-- the elements lie in the memory -/
def Inside (v : RVec) : Prop := v.size ≤ v.mem.length

theorem data_length {v : RVec} (h : Inside v) : v.data.length = v.size := by
  unfold RVec.data
  rw [List.length_take, Nat.min_eq_left h]

theorem insert_mem (g : SHA3.Growth) (v : RVec) (xs : List Byte) :
    ∃ t, (v.insert g xs).mem = v.data ++ xs ++ t ∧ (v.insert g xs).size = v.size + xs.length := by
  unfold RVec.insert
  simp only []
  split
  · exact ⟨_, rfl, rfl⟩
  · exact ⟨_, rfl, rfl⟩

theorem insert_data (g : SHA3.Growth) {v : RVec} (h : Inside v) (xs : List Byte) :
    (v.insert g xs).data = v.data ++ xs ∧ Inside (v.insert g xs) := by
  obtain ⟨t, e, e'⟩ := insert_mem g v xs
  constructor
  · show (v.insert g xs).mem.take (v.insert g xs).size = _
    rw [e, e', List.take_left']
    rw [List.length_append, data_length h]
  · unfold Inside
    rw [e, e', List.length_append, List.length_append, data_length h]
    omega

theorem insert_seen (g : SHA3.Growth) {v : RVec} (h : Inside v) (xs : List Byte) :
    (seen v).insert g false xs = .done (seen (v.insert g xs)) := by
  have hd := (insert_data g h xs).1
  have hl : (v.insert g xs).mem.length =
      if v.size + xs.length ≤ v.mem.length then v.mem.length else g.grow v.mem.length (v.size + xs.length) := by
    have := g.enough v.mem.length (v.size + xs.length)
    unfold RVec.insert
    simp only []
    split
    · simp only [List.length_append, data_length h, List.length_drop]; omega
    · simp only [List.length_append, data_length h, List.length_replicate]; omega
  unfold Vec.insert seen
  simp only [data_length h, hd, hl]
  split <;> rfl

theorem setAt_seen {v : RVec} (h : Inside v) (p : Nat) (x : Byte) :
    (seen v).setAt p x = (v.setAt p x).map seen ∧ ∀ v', v.setAt p x = .ok v' → Inside v' := by
  unfold Vec.setAt RVec.setAt
  constructor
  · show (if p < v.data.length then _ else _) = _
    rw [data_length h]
    split
    · show Except.ok _ = Except.ok _
      simp [seen, RVec.data, List.take_set]
    · rfl
  · intro v' e
    split at e
    · cases e
      unfold Inside at *
      simpa using h
    · cases e

theorem write_seen (ws : List (Nat × Byte)) {v : RVec} (h : Inside v) :
    (seen v).writeLoop ws = (v.writeLoop ws).map seen ∧ ∀ v', v.writeLoop ws = .ok v' → Inside v' := by
  unfold Vec.writeLoop RVec.writeLoop
  induction ws generalizing v with
  | nil => exact ⟨rfl, fun v' e => by cases e; exact h⟩
  | cons w ws ih =>
    obtain ⟨e, hi⟩ := setAt_seen h w.1 w.2
    simp only [List.foldlM_cons]
    rw [e]
    cases e2 : v.setAt w.1 w.2 with
    | error x => exact ⟨rfl, fun v' e => by cases e⟩
    | ok v1 => exact ih (hi v1 e2)

/-- memory for everything -/
def plenty : Supply := ⟨fun _ => false, []⟩

theorem tail_seen (o : RObj) (h : Inside o.buffer) (d : List Byte) :
    addDataTailV plenty (seenO o) d = (addDataTailR o d).map (fun o => .done (seenO o)) ∧
      ∀ o', addDataTailR o d = .ok o' → Inside o'.buffer := by
  have ha : ∀ xs, seen (o.buffer.assign xs) = ⟨xs, xs.length⟩ ∧ Inside (o.buffer.assign xs) := fun xs =>
    ⟨by simp [seen, RVec.assign, RVec.data], Nat.le_refl _⟩
  have hv : ∀ (v : Vec) xs, v.assign false xs = .done ⟨xs, xs.length⟩ := fun v xs => by simp [Vec.assign]
  unfold addDataTailV addDataTailR
  simp only [plenty]
  split
  · rw [hv]
    refine ⟨?_, fun o' e => by cases e; exact (ha d).2⟩
    show Except.ok _ = Except.ok _
    simp [seenO, (ha d).1]
  · cases spanFirst d (d.length - d.length % 128) with
    | error x => exact ⟨rfl, fun o' e => by cases e⟩
    | ok x =>
      simp only [bind, Except.bind]
      rw [show (seenO o).chain = o.chain from rfl]
      cases implV o.chain x with
      | error x => exact ⟨rfl, fun o' e => by cases e⟩
      | ok c =>
        simp only []
        split
        · rw [hv]
          refine ⟨?_, fun o' e => by cases e; exact (ha _).2⟩
          show Except.ok _ = Except.ok _
          simp [seenO, (ha _).1]
        · exact ⟨rfl, fun o' e => by cases e; exact h⟩

theorem seen_clear (v : RVec) : seen v.clear = (seen v).clear ∧ Inside v.clear := ⟨by simp [seen, RVec.clear, RVec.data, Vec.clear], Nat.zero_le _⟩

theorem addData_seen (g : SHA3.Growth) (o : RObj) (h : Inside o.buffer) (d : List Byte) :
    addDataV g plenty (seenO o) d = (addDataR g o d).map (fun o => .done (seenO o)) ∧
      ∀ o', addDataR g o d = .ok o' → Inside o'.buffer := by
  have hl : (seenO o).buffer.data.length = o.buffer.size := data_length h
  have he : (seenO o).buffer.data ≠ [] ↔ o.buffer.size ≠ 0 := by rw [← hl]; simp
  unfold addDataV addDataR
  by_cases c : o.buffer.size ≠ 0
  · rw [if_pos (he.2 c), if_pos c, hl]
    simp only []
    have hi := insert_data g h (d.take (min (subSize 128 o.buffer.size) d.length))
    have hs := insert_seen g h (d.take (min (subSize 128 o.buffer.size) d.length))
    generalize o.buffer.insert g (d.take (min (subSize 128 o.buffer.size) d.length)) = b at *
    have hs : (seenO o).buffer.insert g (plenty.fails 0) (d.take (min (subSize 128 o.buffer.size) d.length)) = .done (seen b) := hs
    rw [hs]
    simp only []
    rw [show (seen b).data.length = b.size from data_length hi.2]
    split
    · exact ⟨rfl, fun o' e => by cases e; exact hi.2⟩
    · simp only [bind, Except.bind]
      rw [show (seenO o).chain = o.chain from rfl, show (seen b).data = b.data from rfl]
      cases implV o.chain b.data with
      | error x => exact ⟨rfl, fun o' e => by cases e⟩
      | ok c =>
        simp only []
        cases spanSub d (min (subSize 128 o.buffer.size) d.length) with
        | error x => exact ⟨rfl, fun o' e => by cases e⟩
        | ok x =>
          simp only []
          rw [← (seen_clear b).1]
          exact tail_seen ⟨b.clear, c⟩ (seen_clear b).2 x
  · rw [if_neg (fun k => c (he.1 k)), if_neg c]
    exact tail_seen o h d

theorem finalize_seen (g : SHA3.Growth) (o : RObj) (h : Inside o.buffer) :
    finalizeV g plenty (seenO o) = (finalizeR g o).map (fun o => .done (seenO o)) ∧
      ∀ o', finalizeR g o = .ok o' → Inside o'.buffer := by
  have hl : (seenO o).buffer.data.length = o.buffer.size := data_length h
  unfold finalizeV finalizeR
  rw [hl]
  simp only []
  have hi := insert_data g h [1 <<< 7]
  have hs := insert_seen g h [1 <<< 7]
  generalize o.buffer.insert g [1 <<< 7] = b at *
  have hs : (seenO o).buffer.insert g (plenty.fails 0) [1 <<< 7] = .done (seen b) := hs
  rw [hs]
  simp only []
  rw [show (seen b).data.length = b.size from data_length hi.2]
  have hi2 := insert_data g hi.2 (List.replicate (subSize (2 * 128) (b.size + 9) % 128 + 9) 0)
  have hs2 := insert_seen g hi.2 (List.replicate (subSize (2 * 128) (b.size + 9) % 128 + 9) 0)
  generalize b.insert g (List.replicate (subSize (2 * 128) (b.size + 9) % 128 + 9) 0) = b2 at *
  have hs2 : (seen b).insert g (plenty.fails 1) (List.replicate (subSize (2 * 128) (b.size + 9) % 128 + 9) 0) = .done (seen b2) := hs2
  rw [hs2]
  simp only []
  rw [show (seen b2).data.length = b2.size from data_length hi2.2]
  show (_ : Except _ _) = _ ∧ _
  have hw := write_seen (counter.writes b2.size (cntAdd64 o.chain.sizeCounter o.buffer.size)) hi2.2
  rw [show (seenO o).chain = o.chain from rfl, hw.1]
  cases e3 : b2.writeLoop (counter.writes b2.size (cntAdd64 o.chain.sizeCounter o.buffer.size)) with
  | error x => exact ⟨rfl, fun o' e => by cases e⟩
  | ok b3 =>
    simp only [bind, Except.bind, Except.map]
    rw [show (seen b3).data = b3.data from rfl]
    cases implV { o.chain with sizeCounter := cntAdd64 o.chain.sizeCounter o.buffer.size } b3.data with
    | error x => exact ⟨rfl, fun o' e => by cases e⟩
    | ok c =>
      refine ⟨?_, fun o' e => by cases e; exact (seen_clear b3).2⟩
      show Except.ok _ = Except.ok _
      simp [seenO, (seen_clear b3).1]

/-! ### What is left in the memory -/

theorem setAt_prefix {l : List Byte} {v v' : RVec} (h : l <+: v.mem) {p : Nat} {x : Byte} (hp : l.length ≤ p)
    (e : v.setAt p x = .ok v') : l <+: v'.mem ∧ v'.size = v.size := by
  unfold RVec.setAt at e
  split at e
  · cases e
    obtain ⟨t, ht⟩ := h
    refine ⟨?_, rfl⟩
    rw [← ht]
    show l <+: (l ++ t).set p x
    rw [List.set_append_right p x hp]
    exact List.prefix_append _ _
  · cases e

theorem write_prefix {l : List Byte} (ws : List (Nat × Byte)) {v : RVec} (h : l <+: v.mem)
    (hw : ∀ w ∈ ws, l.length ≤ w.1 ∧ w.1 < v.size) : ∃ v', v.writeLoop ws = .ok v' ∧ l <+: v'.mem ∧ v'.size = v.size := by
  unfold RVec.writeLoop
  induction ws generalizing v with
  | nil => exact ⟨v, rfl, h, rfl⟩
  | cons w ws ih =>
    have hw1 := hw w (by simp)
    have e : v.setAt w.1 w.2 = .ok { v with mem := v.mem.set w.1 w.2 } := by unfold RVec.setAt; rw [if_pos hw1.2]
    obtain ⟨h1, h2⟩ := setAt_prefix h hw1.1 e
    obtain ⟨v2, e2, h3, h4⟩ := ih h1 fun w' hw' => hw w' (by simp [hw'])
    exact ⟨v2, by simp only [List.foldlM_cons]; rw [e]; exact e2, h3, h4⟩

theorem writes_bounds (n : Nat) (c : W64) (hn : 9 ≤ n) (w : Nat × Byte) (h : w ∈ counter.writes n c) : n - 9 ≤ w.1 ∧ w.1 < n := by
  simp only [counter, counterLE64, lenWritesLE64, List.mem_cons, List.mem_map, List.mem_flatMap, List.mem_range] at h
  rcases h with rfl | h
  · exact ⟨Nat.le_refl _, by show n - 9 < n; omega⟩
  · obtain ⟨i, hi, h⟩ := h
    rcases h with rfl | rfl | h
    · exact ⟨by show n - 9 ≤ n - 8 + i; omega, by show n - 8 + i < n; omega⟩
    · exact ⟨by show n - 9 ≤ n - 4 + i; omega, by show n - 4 + i < n; omega⟩
    · cases h

theorem finalize_prefix (g : SHA3.Growth) (o : RObj) (h : Inside o.buffer) (hs : o.buffer.size < 128) :
    ∃ o', finalizeR g o = .ok o' ∧ o.buffer.data <+: o'.buffer.mem ∧ o'.buffer.size = 0 := by
  unfold finalizeR
  simp only []
  obtain ⟨t, hm, hz⟩ := insert_mem g o.buffer [1 <<< 7]
  have hi := (insert_data g h [1 <<< 7])
  generalize o.buffer.insert g [1 <<< 7] = b at *
  have hz : b.size = o.buffer.size + 1 := hz
  obtain ⟨t2, hm2, hz2⟩ := insert_mem g b (List.replicate (subSize (2 * 128) (b.size + 9) % 128 + 9) 0)
  have hi2 := insert_data g hi.2 (List.replicate (subSize (2 * 128) (b.size + 9) % 128 + 9) 0)
  generalize b.insert g (List.replicate (subSize (2 * 128) (b.size + 9) % 128 + 9) 0) = b2 at *
  rw [List.length_replicate] at hz2
  have hsub : subSize (2 * 128) (b.size + 9) = 256 - (b.size + 9) := by unfold subSize; omega
  rw [hsub] at hz2
  have hp : o.buffer.data <+: b2.mem := by
    rw [hm2, hi.1, List.append_assoc, List.append_assoc]
    exact List.prefix_append _ _
  have hdl := data_length h
  obtain ⟨b3, e3, h3, h4⟩ := write_prefix (counter.writes b2.size (cntAdd64 o.chain.sizeCounter o.buffer.size)) hp fun w hw => by
    have := writes_bounds b2.size _ (by omega) w hw
    omega
  rw [e3]
  have hin := (write_seen _ hi2.2).2 b3 e3
  obtain ⟨c, ec⟩ := impl_ok { o.chain with sizeCounter := cntAdd64 o.chain.sizeCounter o.buffer.size } b3.data (by
    rw [data_length hin, h4, hz2]; omega)
  refine ⟨⟨b3.clear, c⟩, ?_, h3, rfl⟩
  simp only [bind, Except.bind]
  rw [ec]; rfl

theorem addData_fresh (g : SHA3.Growth) (m : List Byte) (hm : m.length < 128) :
    addDataR g freshR m = .ok ⟨⟨m, m.length⟩, ⟨0, iv⟩⟩ := by
  unfold addDataR addDataTailR
  rw [if_neg (show ¬(freshR.buffer.size ≠ 0) from fun h => h rfl)]
  simp only []
  rw [if_pos hm]
  rfl

end Verif.Proof.HASVRemains
