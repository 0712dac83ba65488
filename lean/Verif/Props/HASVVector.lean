import Verif.Core.Taken
import Verif.Proof.HASVVector
import Verif.Props.HASV

/-!
# C49, C68: the vector in HAS_V_320

C49 once more, for the class with its buffer as it is, a `std::vector` (`Model/HASVVector.lean`): as long as there is
memory, the digest is the function of `Spec/HASV.lean`, no call faults, and the object never holds more than 510 bytes.

C68 in words: `addData()` and `finalize()` of `HAS_V_320` may throw `std::bad_alloc`. The caller may catch it. `reset()`
makes the object as good as new whatever was thrown. After an `addData()` that threw, the object has taken some of the
first bytes of the piece; the caller is not told how many. After a `finalize()` that threw, nothing can be relied on but
`reset()`: calling `finalize()` again may give a wrong digest, and calling it again and then `addData()` may fail an
assertion. The memory that the constructor reserves, so that no later call need allocate, is given back by the first
`addData()` that leaves a rest.
-/

namespace Verif.Props
open Model Model.HASV Proof.HASV Proof.Misuse

/-- As long as there is memory: every call of a legal history returns, and the digest is that of the message. -/
theorem C49_vector_computes (g : SHA3.Growth) (cs : List (Op × Supply)) (f : Supply)
    (hp : ∀ c ∈ cs ++ [(.finalize, f)], c.2.Plenty) (hl : Legal (cs.map (·.1) ++ [.finalize])) :
    ∃ v bs, runV g freshV (cs ++ [(.finalize, f)]) = .ok (v, bs) ∧ (∀ b ∈ bs, b = true) ∧
      toArrayV v = .ok (Spec.HASV.hasv320 (message (cs.map (·.1)))) := by
  obtain ⟨v, bs, ops, o, e, ht, eo, hs, hall⟩ := run_sim g (cs ++ [(.finalize, f)]) _ _ fresh_sim fun c hc _ => hp c hc
  have hb := hall hp
  obtain ⟨o', eo', h⟩ := C49_computes (cs.map (·.1)) hl trivial
  rw [taken_all ht hb, List.map_append, List.map_cons, List.map_nil, eo'] at eo
  obtain rfl := Except.ok.inj eo
  exact ⟨v, bs, e, hb, by rw [toArrayV_sim hs, h]⟩

/-- As long as `finalize()` has memory: no call faults, in whatever order they come; less than a block is carried over,
and the object never holds memory for more than 510 bytes. -/
theorem C49_vector_anyOrder (g : SHA3.Growth) (cs : List (Op × Supply)) (hp : ∀ c ∈ cs, c.1 = .finalize → c.2.Plenty) :
    ∃ v bs d, runV g freshV cs = .ok (v, bs) ∧ toArrayV v = .ok d ∧ d.length = 40 ∧ v.buffer.data.length < 128 ∧
      v.buffer.cap ≤ 510 := by
  obtain ⟨v, bs, _, o, e, _, _, hs, _⟩ := run_sim g cs _ _ fresh_sim hp
  obtain ⟨d, hd⟩ := out_le 4 40 (n := 10) rfl v.chain.h
  have hl : d.length = 40 := by
    have : toArray v.chain.h = .ok d := hd
    unfold toArray resultArray at this
    split at this
    · rename_i h; rw [← Except.ok.inj this, List.length_append, List.length_replicate]; omega
    · simp at this
  exact ⟨v, bs, d, e, hd, hl, hs.small, hs.cap⟩

/-- `reset()` makes good whatever was done to the object and whatever was thrown: for every object at all, `reset()` and
then a legal history with memory gives the digest of the message. -/
theorem C68_reset (g : SHA3.Growth) (v : VObj) (f0 : Supply) (cs : List (Op × Supply)) (f : Supply)
    (hp : ∀ c ∈ cs ++ [(.finalize, f)], c.2.Plenty) (hl : Legal (cs.map (·.1) ++ [.finalize])) :
    ∃ v' bs, runV g v ((.reset, f0) :: (cs ++ [(.finalize, f)])) = .ok (v', bs) ∧ (∀ b ∈ bs, b = true) ∧
      toArrayV v' = .ok (Spec.HASV.hasv320 (message (cs.map (·.1)))) := by
  obtain ⟨v', bs, ops, o, e, ht, eo, hs, hall⟩ := run_sim g (cs ++ [(.finalize, f)]) (resetV v) HAS_V_320.fresh
    (reset_sim (K := max 510 v.buffer.cap) v HAS_V_320.fresh (Nat.le_max_right _ _) (Nat.le_max_left _ _))
    fun c hc _ => hp c hc
  have hb := hall hp
  obtain ⟨o', eo', h⟩ := C49_computes (cs.map (·.1)) hl trivial
  rw [taken_all ht hb, List.map_append, List.map_cons, List.map_nil, eo'] at eo
  obtain rfl := Except.ok.inj eo
  refine ⟨v', true :: bs, ?_, fun b hb' => ?_, by rw [toArrayV_sim hs, h]⟩
  · simp only [runV, stepV, bind, Except.bind, Outcome.left, e]; rfl
  · rcases List.mem_cons.1 hb' with rfl | h'
    · rfl
    · exact hb b h'

/-- What holds of `addData()`: whichever of its allocations fail, the object has taken some of the first bytes of each
piece, and all of them if the call returned; the digest is that of the bytes taken. (`finalize()` has memory here.) -/
theorem C68_addData_partial (g : SHA3.Growth) (cs : List (Op × Supply)) (f : Supply)
    (hp : ∀ c ∈ cs ++ [(.finalize, f)], c.1 = .finalize → c.2.Plenty) (hl : Legal (cs.map (·.1) ++ [.finalize])) :
    ∃ v bs ops, runV g freshV (cs ++ [(.finalize, f)]) = .ok (v, bs ++ [true]) ∧ Taken cs bs ops ∧
      toArrayV v = .ok (Spec.HASV.hasv320 (message ops)) := by
  obtain ⟨v, bs, ops, o, e, ht, eo, hs, _⟩ := run_sim g (cs ++ [(.finalize, f)]) _ _ fresh_sim hp
  obtain ⟨bs', ops', rfl, rfl, ht'⟩ := taken_snoc ht
  have hl' : Legal (ops' ++ [.finalize]) := taken_legal ht false (by
    rw [List.map_append]; exact hl)
  obtain ⟨o', eo', h⟩ := C49_computes ops' hl' trivial
  rw [eo'] at eo
  obtain rfl := Except.ok.inj eo
  exact ⟨v, bs', ops', e, ht', by rw [toArrayV_sim hs, h]⟩

/-- every allocation fails; every allocation succeeds -/
def noMemory : Supply := ⟨fun _ => true, []⟩
def memory : Supply := ⟨fun _ => false, []⟩
/-- the second allocation of the call fails -/
def noSecond : Supply := ⟨fun n => n == 1, []⟩
/-- vectors grow to twice their size, as in the usual libraries -/
def doubling : SHA3.Growth := ⟨fun cap need => max need (2 * cap), fun _ _ => Nat.le_max_left _ _, fun _ _ => Nat.le_refl _⟩

/-- the first four bytes of the digest and which calls returned -/
def firstFour (r : Except Fault (VObj × List Bool)) : Option (List Byte × List Bool) :=
  match r with
  | .ok (v, bs) => (toArrayV v).toOption.map fun d => (d.take 4, bs)
  | .error _ => none

set_option maxRecDepth 100000 in
theorem hasv_retry : firstFour (runV doubling freshV [(.add [1], memory), (.finalize, memory)]) ≠
      (firstFour (runV doubling freshV [(.add [1], memory), (.finalize, noMemory), (.finalize, memory)])).map
        (fun r => (r.1, [true, true])) ∧
    (firstFour (runV doubling freshV [(.add [1], memory), (.finalize, noMemory), (.finalize, memory)])).map (·.2) =
      some [true, false, true] := by
  decide +kernel

set_option maxRecDepth 100000 in
theorem hasv_again : firstFour (runV doubling freshV [(.add (List.replicate 129 1), memory), (.finalize, memory)]) ≠
      (firstFour (runV doubling freshV [(.add (List.replicate 129 1), noMemory), (.add (List.replicate 129 1), memory),
        (.finalize, memory)])).map (fun r => (r.1, [true, true])) ∧
    (firstFour (runV doubling freshV [(.add (List.replicate 129 1), noMemory), (.add (List.replicate 129 1), memory),
        (.finalize, memory)])).map (·.2) = some [false, true, true] := by
  decide +kernel

theorem plenty_memory : memory.Plenty := fun _ => rfl

/-- a digest that differs in the first four bytes is not the digest -/
theorem firstFour_ne (m : List Byte) (hm : m.length < 2 ^ 64) (cs : List (Op × Supply)) (v : VObj) (bs : List Bool)
    (e : runV doubling freshV cs = .ok (v, bs))
    (h : firstFour (runV doubling freshV [(.add m, memory), (.finalize, memory)]) ≠
      (firstFour (runV doubling freshV cs)).map (fun r => (r.1, [true, true]))) :
    toArrayV v ≠ .ok (Spec.HASV.hasv320 m) := by
  intro hd
  apply h
  obtain ⟨v', bs', e', hb, hd'⟩ := C49_vector_computes doubling [(.add m, memory)] memory
    (by intro c hc; simp at hc; rcases hc with rfl | rfl <;> exact plenty_memory) ⟨rfl, hm, rfl, trivial⟩
  have hmsg : message ([(Op.add m, memory)].map (·.1)) = m := by simp [message, messageFrom]
  rw [hmsg] at hd'
  obtain ⟨v1, bs1, ops1, o1, e1, ht1, _, _, _⟩ := run_sim doubling [(.add m, memory), (.finalize, memory)] _ _ fresh_sim
    (by intro c hc _; simp at hc; rcases hc with rfl | rfl <;> exact plenty_memory)
  have hbl : bs' = [true, true] := by
    have e'' : runV doubling freshV [(.add m, memory), (.finalize, memory)] = .ok (v', bs') := e'
    rw [e''] at e1
    have := (Prod.mk.inj (Except.ok.inj e1)).2
    subst this
    cases ht1 with
    | add d t ht hb' h2 =>
      cases h2 with
      | finalize h3 => cases h3; rw [hb _ List.mem_cons_self]
  show firstFour (runV doubling freshV ([(.add m, memory)] ++ [(.finalize, memory)])) = _
  rw [e', e]
  simp only [firstFour, hd, hd', hbl, Option.map_some, Except.toOption]

/-- A `finalize()` that threw and is called again: it returns, and the digest is wrong (the number of bytes was counted
twice). Nothing else was called. -/
theorem C68_finalize_again_fails : ∃ v,
    runV doubling freshV [(.add [1], memory), (.finalize, noMemory), (.finalize, memory)] = .ok (v, [true, false, true]) ∧
      toArrayV v ≠ .ok (Spec.HASV.hasv320 [1]) := by
  obtain ⟨h1, h2⟩ := hasv_retry
  generalize hr : runV doubling freshV [(.add [1], memory), (.finalize, noMemory), (.finalize, memory)] = r at h1 h2
  cases r with
  | error => simp [firstFour] at h2
  | ok r =>
    obtain ⟨v, bs⟩ := r
    have hb : bs = [true, false, true] := by
      simp only [firstFour, Option.map_map] at h2
      cases hd : toArrayV v with
      | error => rw [hd] at h2; simp [Except.toOption] at h2
      | ok d => rw [hd] at h2; simpa [Except.toOption] using h2
    subst hb
    exact ⟨v, rfl, firstFour_ne [1] (by decide) _ v _ hr (by rw [hr]; exact h1)⟩

/-- An `addData()` that threw and is called again with the same piece: the digest is that of another message. -/
theorem C68_addData_again_fails : ∃ v,
    runV doubling freshV [(.add (List.replicate 129 1), noMemory), (.add (List.replicate 129 1), memory), (.finalize, memory)] =
        .ok (v, [false, true, true]) ∧
      toArrayV v ≠ .ok (Spec.HASV.hasv320 (List.replicate 129 1)) := by
  obtain ⟨h1, h2⟩ := hasv_again
  generalize hr : runV doubling freshV [(.add (List.replicate 129 1), noMemory), (.add (List.replicate 129 1), memory),
    (.finalize, memory)] = r at h1 h2
  cases r with
  | error => simp [firstFour] at h2
  | ok r =>
    obtain ⟨v, bs⟩ := r
    have hb : bs = [false, true, true] := by
      simp only [firstFour, Option.map_map] at h2
      cases hd : toArrayV v with
      | error => rw [hd] at h2; simp [Except.toOption] at h2
      | ok d => rw [hd] at h2; simpa [Except.toOption] using h2
    subst hb
    exact ⟨v, rfl, firstFour_ne _ (by simp) _ v _ hr (by rw [hr]; exact h1)⟩

set_option maxRecDepth 100000 in
/-- Two calls of `finalize()` that threw, then `addData()` of one byte, with memory: an assertion of the class fails. -/
theorem C68_assertion_fails :
    runV doubling freshV [(.add (List.replicate 127 1), memory), (.finalize, noSecond), (.finalize, noSecond), (.add [1], memory)] =
      .error .assertion := by
  have h : (match runV doubling freshV [(.add (List.replicate 127 1), memory), (.finalize, noSecond), (.finalize, noSecond),
      (.add [1], memory)] with | .error .assertion => true | _ => false) = true := by decide +kernel
  split at h
  · assumption
  · cases h

theorem insert_memory (g : SHA3.Growth) (v : Vec) (xs : List Byte) : ∃ c, v.insert g false xs = .done ⟨v.data ++ xs, c⟩ := by
  unfold Vec.insert
  simp only []
  split
  · exact ⟨_, rfl⟩
  · exact ⟨_, by rw [if_neg (by simp)]⟩

/-- Exactly when: if so many calls of `finalize()` threw that more than a block is carried over, then `addData()`, with
memory, fails the assertion unless the piece happens to fill up a block; if it does, the call returns. -/
theorem C68_assertion_exact (g : SHA3.Growth) (v : VObj) (d : List Byte) (hb : 128 < v.buffer.data.length)
    (hd : v.buffer.data.length + d.length < 2 ^ 64) :
    if (v.buffer.data.length + d.length) % 128 = 0 then
      ∃ v', addDataV g memory v d = .ok (.done v') ∧ v'.buffer.data = []
    else addDataV g memory v d = .error .assertion := by
  have hne : v.buffer.data ≠ [] := by intro h; rw [h] at hb; simp at hb
  have hlen : min (subSize 128 v.buffer.data.length) d.length = d.length := by
    unfold subSize
    rw [Nat.mod_eq_of_lt (by omega)]
    omega
  obtain ⟨c, hi⟩ := insert_memory g v.buffer d
  have ha : addDataV g memory v d = (implV v.chain (v.buffer.data ++ d) >>= fun s =>
      spanSub d d.length >>= fun r => addDataTailV memory ⟨Vec.clear ⟨v.buffer.data ++ d, c⟩, s⟩ r) := by
    unfold addDataV
    rw [if_pos hne]
    simp only [hlen, List.take_length]
    rw [show memory.fails 0 = false from rfl, hi]
    simp only []
    rw [if_neg (by simp; omega)]
  have hs : spanSub d d.length = .ok [] := by
    unfold spanSub
    simp
    try rfl
  rw [ha]
  split
  · rename_i hm
    obtain ⟨s', e⟩ := impl_ok v.chain (v.buffer.data ++ d) (by rw [List.length_append]; exact hm)
    rw [e, hs]
    exact ⟨⟨⟨[], 0⟩, s'⟩, rfl, rfl⟩
  · rename_i hm
    have : implV v.chain (v.buffer.data ++ d) = .error .assertion := by
      unfold implV mdImpl
      rw [if_pos (by rw [List.length_append]; exact hm)]
      rfl
    rw [this]
    rfl

/-- `finalize()` itself never fails the assertion, however many calls of it threw before: with memory it returns. -/
theorem C68_finalize_returns (g : SHA3.Growth) (v : VObj) (hb : v.buffer.data.length < 2 ^ 63) :
    ∃ v', finalizeV g memory v = .ok (.done v') ∧ v'.buffer.data = [] := by
  have hsub : subSize (2 * 128) (v.buffer.data.length + 1 + 9) % 128 = (2 ^ 64 + 256 - (v.buffer.data.length + 10)) % 128 := by
    unfold subSize; omega
  unfold finalizeV
  simp only []
  rw [show memory.fails 0 = false from rfl, show memory.fails 1 = false from rfl]
  obtain ⟨c, hi⟩ := insert_memory g v.buffer [1 <<< 7]
  rw [hi]
  simp only [List.length_append, List.length_cons, List.length_nil, Nat.zero_add]
  rw [hsub]
  generalize hn : (2 ^ 64 + 256 - (v.buffer.data.length + 10)) % 128 = n
  obtain ⟨c', hi'⟩ := insert_memory g ⟨v.buffer.data ++ [(1 <<< 7 : Byte)], c⟩ (List.replicate (n + 9) 0)
  rw [hi']
  simp only []
  have hlen : (v.buffer.data ++ [(1 <<< 7 : Byte)] ++ List.replicate (n + 9) 0 : List Byte).length = v.buffer.data.length + 10 + n := by
    simp; omega
  rw [vwrite _ _ fun w hw => (hasv_inside _ _ (by rw [hlen]; omega) w hw)]
  obtain ⟨s', e⟩ := impl_ok { v.chain with sizeCounter := cntAdd64 v.chain.sizeCounter v.buffer.data.length } ((counter.writes
    (v.buffer.data ++ [(1 <<< 7 : Byte)] ++ List.replicate (n + 9) 0 : List Byte).length
    (cntAdd64 v.chain.sizeCounter v.buffer.data.length)).foldl (fun l w => l.set w.1 w.2)
      ((v.buffer.data ++ [(1 <<< 7 : Byte)] ++ List.replicate (n + 9) 0 : List Byte))) (by rw [foldl_set_length, hlen]; omega)
  simp only [bind, Except.bind] at e ⊢
  rw [e]
  exact ⟨⟨⟨[], c'⟩, s'⟩, rfl, rfl⟩

set_option maxRecDepth 100000 in
/-- such an object can be reached: 129 bytes are carried over, and 127 more fill up a block -/
example : (match runV doubling freshV [(.add (List.replicate 127 1), memory), (.finalize, noSecond), (.finalize, noSecond),
    (.add (List.replicate 127 1), memory)] with
    | .ok (v, bs) => v.buffer.data.isEmpty && bs == [true, false, false, true] | _ => false) = true := by
  decide +kernel

/-- The reserved memory is lost with the first byte: after it, the next `addData()` of one byte may throw, whatever the
library's rule for growth. -/
theorem C68_reserve_lost (g : SHA3.Growth) (x y : Byte) :
    ∃ v, runV g freshV [(.add [x], memory)] = .ok (v, [true]) ∧ v.buffer.cap = 1 ∧
      addDataV g noMemory v [y] = .ok (.threw v) := by
  refine ⟨⟨⟨[x], 1⟩, ⟨0, iv⟩⟩, rfl, rfl, ?_⟩
  simp only [addDataV, Vec.insert, noMemory, subSize, ne_eq, List.cons_ne_self, not_false_eq_true, if_true, List.length_cons,
    List.length_nil]
  rfl

/-- Until then it is of use: if every piece consists of whole blocks, no call throws whatever happens to the allocations,
and the digest is that of the message. -/
theorem C68_whole_blocks (g : SHA3.Growth) (ps : List (List Byte × Supply)) (f : Supply)
    (hp : ∀ p ∈ ps, 0 < p.1.length ∧ p.1.length % 128 = 0 ∧ p.1.length < 2 ^ 64) :
    ∃ v bs, runV g freshV (ps.map (fun p => (.add p.1, p.2)) ++ [(.finalize, f)]) = .ok (v, bs) ∧ (∀ b ∈ bs, b = true) ∧
      toArrayV v = .ok (Spec.HASV.hasv320 (ps.map (·.1)).flatten) := by
  have key : ∀ (ps : List (List Byte × Supply)) (w : VObj) (o : Obj (2 * 128) (MDState W64 (Vector W32 10))), Reserved w →
      Sim 510 w o → (∀ p ∈ ps, 0 < p.1.length ∧ p.1.length % 128 = 0) →
      ∃ v bs o', runV g w (ps.map (fun p => (.add p.1, p.2)) ++ [(.finalize, f)]) = .ok (v, bs) ∧ (∀ b ∈ bs, b = true) ∧
        HAS_V_320.run o (ps.map (fun p => .add p.1) ++ [.finalize]) = .ok o' ∧ Sim 510 v o' := by
    intro ps
    induction ps with
    | nil =>
      intro w o hr hs _
      obtain ⟨v, e, _⟩ := fin_reserved g f w o hs (by rw [hr])
      obtain ⟨r, er, _, hd⟩ := fin_sim g f w o hs
      rw [e] at er
      obtain ⟨o', eo, hs'⟩ := hd v (Except.ok.inj er).symm
      refine ⟨v, [true], o', ?_, by simp, ?_, hs'⟩
      · show (runV g w [(.finalize, f)]) = _
        simp only [runV, stepV, e, bind, Except.bind]; rfl
      · show HAS_V_320.run o [.finalize] = _
        simp only [API.run, API.step, eo, bind, Except.bind]
    | cons p ps ih =>
      intro w o hr hs hp
      obtain ⟨h1, h2⟩ := hp p (by simp)
      obtain ⟨w', e, hr'⟩ := add_reserved g p.2 w hr p.1 h1 h2
      obtain ⟨r, er, _, n, o1, _, ea, hs1, hn⟩ := add_sim g p.2 w o hs p.1
      rw [e] at er
      obtain rfl := Except.ok.inj er
      rw [hn rfl, List.take_length] at ea
      obtain ⟨v, bs, o', e2, hb, eo, hs'⟩ := ih w' o1 hr' hs1 fun q hq => hp q (by simp [hq])
      refine ⟨v, true :: bs, o', ?_, fun b hb' => ?_, ?_, hs'⟩
      · simp only [List.map_cons, List.cons_append, runV, stepV, e, bind, Except.bind, Outcome.left, e2]; rfl
      · rcases List.mem_cons.1 hb' with rfl | h'
        · rfl
        · exact hb b h'
      · simp only [List.map_cons, List.cons_append, API.run, API.step, ea, bind, Except.bind]; exact eo
  obtain ⟨v, bs, o', e, hb, eo, hs⟩ := key ps freshV _ rfl fresh_sim fun p h => ⟨(hp p h).1, (hp p h).2.1⟩
  have hl : ∀ (ps : List (List Byte × Supply)), (∀ p ∈ ps, p.1.length < 2 ^ 64) →
      Legal (ps.map (fun p => Op.add p.1) ++ [.finalize]) := by
    intro ps
    induction ps with
    | nil => exact fun _ => ⟨rfl, trivial⟩
    | cons p ps ih => exact fun h => ⟨rfl, h p (by simp), ih fun q hq => h q (by simp [hq])⟩
  have hm : ∀ (ps : List (List Byte × Supply)) (acc : List Byte),
      messageFrom acc (ps.map (fun p => Op.add p.1)) = acc ++ (ps.map (·.1)).flatten := by
    intro ps
    induction ps with
    | nil => intro acc; simp [messageFrom]
    | cons p ps ih => intro acc; simp [messageFrom, ih]
  obtain ⟨o2, eo2, h⟩ := C49_computes (ps.map (fun p => .add p.1)) (hl ps fun p h => (hp p h).2.2) trivial
  rw [eo] at eo2
  obtain rfl := Except.ok.inj eo2
  refine ⟨v, bs, e, hb, ?_⟩
  rw [toArrayV_sim hs, h]
  unfold message
  rw [hm ps []]
  rfl

/-- two messages, with memory -/
example := C49_vector_computes doubling [(.add (List.replicate 200 1), memory), (.finalize, memory), (.reset, memory),
  (.add [1, 2], memory)] memory (by simp [plenty_memory]) (by decide +kernel)
/-- three pieces, no memory but for `finalize` -/
example := C68_addData_partial doubling [(.add (List.replicate 200 1), noMemory), (.add [1, 2], noMemory), (.add [3], noMemory)]
  memory (by intro c hc h; simp at hc; rcases hc with rfl | rfl | rfl | rfl <;> first | exact plenty_memory | cases h)
  (by decide +kernel)
/-- an object left by a `finalize()` that threw -/
example := C68_reset doubling ⟨⟨List.replicate 129 1, 254⟩, ⟨127, iv⟩⟩ noMemory [(.add [1], memory)] memory (by simp [plenty_memory])
  (by decide +kernel)
example := C68_whole_blocks doubling [(List.replicate 256 1, noMemory), (List.replicate 128 2, noMemory)] noMemory (by
  intro p hp
  rcases List.mem_cons.1 hp with rfl | hp
  · rw [List.length_replicate]; decide
  · rcases List.mem_cons.1 hp with rfl | hp
    · rw [List.length_replicate]; decide
    · cases hp)

end Verif.Props
