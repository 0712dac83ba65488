import Verif.Core.Taken
import Verif.Model.HASVVector
import Verif.Proof.HASV
import Verif.Proof.Misuse

/-! HAS_V_320 with a `std::vector` and HAS_V_320 with a fixed buffer. -/

namespace Verif.Proof.HASV
open Verif.Model Verif.Model.HASV Verif.Proof.Misuse

/-- the members of the one and of the other; the vector holds less than a block and has memory for `K` bytes at most -/
structure Sim (K : Nat) (v : VObj) (o : Obj (2 * 128) (MDState W64 (Vector W32 10))) : Prop where
  holds : o.buffer.Holds v.buffer.data
  small : v.buffer.data.length < 128
  cap : v.buffer.cap ≤ K
  big : 510 ≤ K
  chain : o.chain = v.chain

theorem impl_ok (s : MDState W64 (Vector W32 10)) (d : List Byte) (h : d.length % 128 = 0) :
    ∃ s', implV s d = .ok s' := by
  obtain ⟨s', e, _⟩ := mdImpl_total 128 (by decide) counter compress s d trivial h
  exact ⟨s', e⟩

theorem insert_cases {K : Nat} (g : SHA3.Growth) (b : Bool) (v : Vec) (xs : List Byte) (hn : v.data.length + xs.length ≤ 256)
    (hc : v.cap ≤ K) (hK : 510 ≤ K) :
    (v.insert g b xs = .threw v ∧ b = true) ∨ ∃ c, c ≤ K ∧ v.insert g b xs = .done ⟨v.data ++ xs, c⟩ := by
  unfold Vec.insert
  simp only []
  by_cases h : v.data.length + xs.length ≤ v.cap
  · rw [if_pos h]; exact .inr ⟨_, hc, rfl⟩
  · rw [if_neg h]
    cases b with
    | true => exact .inl ⟨rfl, rfl⟩
    | false =>
      refine .inr ⟨_, ?_, rfl⟩
      have := g.bounded v.cap (v.data.length + xs.length)
      omega

theorem assign_cases (b : Bool) (v : Vec) (xs : List Byte) :
    (v.assign b xs = .threw v ∧ b = true) ∨ v.assign b xs = .done ⟨xs, xs.length⟩ := by
  unfold Vec.assign
  by_cases h : xs ≠ [] ∧ b = true
  · rw [if_pos h]; exact .inl ⟨rfl, h.2⟩
  · rw [if_neg h]; exact .inr rfl

/-- what `addData` and its second half have in common: some of the bytes were taken, all if the call returned -/
def Took (K : Nat) (f : Supply) (data : List Byte) (add : List Byte → Except Fault (Obj (2 * 128) (MDState W64 (Vector W32 10))))
    (r : Except Fault (Outcome VObj)) : Prop :=
  ∃ r', r = .ok r' ∧ (f.Plenty → returned r' = true) ∧ ∃ n o', n ≤ data.length ∧ add (data.take n) = .ok o' ∧
    Sim K r'.left o' ∧ (returned r' = true → n = data.length)

theorem tail_sim {K : Nat} (f : Supply) (v : VObj) (o : Obj (2 * 128) (MDState W64 (Vector W32 10))) (h : Sim K v o)
    (he : v.buffer.data = []) (data : List Byte) :
    Took K f data (addDataTail 128 (mdImpl 128 counter compress) o) (addDataTailV f v data) := by
  unfold addDataTailV
  simp only []
  by_cases hs : data.length < 128
  · rw [if_pos hs]
    rcases assign_cases (f.fails 1) v.buffer data with ⟨e, hf⟩ | e
    · rw [e]
      refine ⟨_, rfl, fun p => by simp [p 1] at hf, 0, { o with buffer := {} }, Nat.zero_le _, rfl, ?_, by simp [returned]⟩
      exact ⟨by rw [show (Outcome.left _ : VObj).buffer = v.buffer from rfl, he]; exact Buffer.holds_empty,
        h.small, h.cap, h.big, h.chain⟩
    · rw [e]
      obtain ⟨b, eb, hb⟩ := Buffer.ofRange_holds (N := 2 * 128) data (by omega)
      refine ⟨_, rfl, fun _ => rfl, data.length, { o with buffer := b }, Nat.le_refl _, ?_, ?_, fun _ => rfl⟩
      · rw [List.take_length]
        unfold addDataTail
        simp only [if_pos hs]
        rw [eb]; rfl
      · exact ⟨hb, hs, Nat.le_trans (Nat.le_of_lt hs) (Nat.le_trans (by decide) h.big), h.big, h.chain⟩
  · rw [if_neg hs]
    have hmod := Nat.mod_lt data.length (show 0 < 128 by decide)
    have hle : data.length - data.length % 128 ≤ data.length := Nat.sub_le _ _
    have halen : (data.take (data.length - data.length % 128)).length = data.length - data.length % 128 := by
      rw [List.length_take, Nat.min_eq_left hle]
    have hal : (data.take (data.length - data.length % 128)).length % 128 = 0 := by rw [halen]; exact alignedLen_mod 128 data
    have e1 : spanFirst data (data.length - data.length % 128) = .ok (data.take (data.length - data.length % 128)) := by
      unfold spanFirst; rw [if_pos hle]
    obtain ⟨s', e2⟩ := impl_ok v.chain _ hal
    rw [e1]
    simp only [bind, Except.bind]
    rw [e2]
    simp only []
    by_cases h3 : data.length - data.length % 128 < data.length
    · rw [if_pos h3]
      rcases assign_cases (f.fails 1) v.buffer (data.drop (data.length - data.length % 128)) with ⟨e, hf⟩ | e
      · rw [e]
        refine ⟨_, rfl, fun p => by simp [p 1] at hf, data.length - data.length % 128, ⟨o.buffer, s'⟩, hle, ?_, ?_,
          by simp [returned]⟩
        · unfold addDataTail
          simp only [halen]
          have hm : (data.length - data.length % 128) % 128 = 0 := by rw [halen] at hal; exact hal
          rw [if_neg (by omega), hm, Nat.sub_zero]
          unfold spanFirst
          rw [if_pos (by rw [halen]; exact Nat.le_refl _), List.take_take, Nat.min_self]
          simp only [bind, Except.bind]
          rw [h.chain, show mdImpl 128 counter compress v.chain _ = _ from e2]
          simp only [Nat.lt_irrefl, if_false]
          rfl
        · exact ⟨h.holds, h.small, h.cap, h.big, rfl⟩
      · rw [e]
        have hdl : (data.drop (data.length - data.length % 128)).length < 128 := by rw [List.length_drop]; omega
        obtain ⟨b, eb, hb⟩ := Buffer.ofRange_holds (N := 2 * 128)
          (data.drop (data.length - data.length % 128)) (by omega)
        refine ⟨_, rfl, fun _ => rfl, data.length, ⟨b, s'⟩, Nat.le_refl _, ?_, ?_, fun _ => rfl⟩
        · rw [List.take_length]
          unfold addDataTail
          simp only [if_neg hs, e1, bind, Except.bind]
          rw [h.chain, show mdImpl 128 counter compress v.chain _ = _ from e2]
          simp only [if_pos h3]
          rw [eb]; rfl
        · exact ⟨hb, hdl, Nat.le_trans (Nat.le_of_lt hdl) (Nat.le_trans (by decide) h.big), h.big, rfl⟩
    · rw [if_neg h3]
      refine ⟨_, rfl, fun _ => rfl, data.length, ⟨o.buffer, s'⟩, Nat.le_refl _, ?_, ?_, fun _ => rfl⟩
      · rw [List.take_length]
        unfold addDataTail
        simp only [if_neg hs, e1, bind, Except.bind]
        rw [h.chain, show mdImpl 128 counter compress v.chain _ = _ from e2]
        simp only [if_neg h3]
        rfl
      · exact ⟨h.holds, h.small, h.cap, h.big, rfl⟩

theorem add_sim {K : Nat} (g : SHA3.Growth) (f : Supply) (v : VObj) (o : Obj (2 * 128) (MDState W64 (Vector W32 10)))
    (h : Sim K v o) (data : List Byte) : Took K f data (HAS_V_320.addData o) (addDataV g f v data) := by
  have hadd : HAS_V_320.addData o = addData 128 (mdImpl 128 counter compress) o := rfl
  rw [hadd]
  have hsm := h.small
  unfold addDataV
  by_cases he : v.buffer.data = []
  · rw [if_neg (by simp [he])]
    have e : addData 128 (mdImpl 128 counter compress) o = addDataTail 128 (mdImpl 128 counter compress) o := by
      funext d
      unfold addData
      rw [h.holds.empty_eq, he]
      rfl
    rw [e]
    exact tail_sim f v o h he data
  · rw [if_pos he]
    simp only []
    have hpos : 0 < v.buffer.data.length := List.length_pos_iff.2 he
    have hsub : subSize 128 v.buffer.data.length = 128 - v.buffer.data.length := by unfold subSize; omega
    have hne : v.buffer.data.isEmpty = false := by simp [he]
    rw [hsub]
    generalize hlen : min (128 - v.buffer.data.length) data.length = len
    have hll : (data.take len).length = len := by rw [List.length_take]; omega
    rcases insert_cases g (f.fails 0) v.buffer (data.take len) (by omega) h.cap h.big with ⟨e, hf⟩ | ⟨c, hc, e⟩
    · rw [e]
      refine ⟨_, rfl, fun p => by simp [p 0] at hf, 0, o, Nat.zero_le _, ?_, ?_, by simp [returned]⟩
      · unfold addData
        rw [h.holds.empty_eq, h.holds.size_eq, hne]
        simp only [Bool.not_false, if_true, List.take_zero, List.length_nil, Nat.min_zero, Buffer.pushBack, bind, Except.bind]
        rw [h.holds.size_eq, if_pos hsm]
        rfl
      · exact ⟨h.holds, h.small, h.cap, h.big, h.chain⟩
    · rw [e]
      simp only []
      obtain ⟨b, eb, hb⟩ := Buffer.pushBack_holds (data.take len) h.holds (by rw [hll]; omega)
      have hbl : (v.buffer.data ++ data.take len).length = v.buffer.data.length + len := by rw [List.length_append, hll]
      have hbs : b.size = v.buffer.data.length + len := by rw [hb.size_eq, hbl]
      rw [hbl]
      by_cases hlt : v.buffer.data.length + len < 128
      · rw [if_pos hlt]
        have hall : len = data.length := by omega
        refine ⟨_, rfl, fun _ => rfl, data.length, { o with buffer := b }, Nat.le_refl _, ?_, ?_, fun _ => rfl⟩
        · rw [List.take_length]
          unfold addData
          rw [h.holds.empty_eq, h.holds.size_eq, hne]
          simp only [Bool.not_false, if_true, bind, Except.bind, hlen]
          rw [eb]
          simp only [hbs, if_pos hlt]
          rfl
        · exact ⟨hb, by show (v.buffer.data ++ data.take len).length < 128; omega, hc, h.big, h.chain⟩
      · rw [if_neg hlt]
        obtain ⟨s', e2⟩ := impl_ok v.chain (v.buffer.data ++ data.take len) (by rw [hbl]; omega)
        rw [e2]
        have e3 : spanSub data len = .ok (data.drop len) := by unfold spanSub; rw [if_pos (by omega)]
        rw [e3]
        simp only [bind, Except.bind]
        obtain ⟨r, er, hp, n, o', hn, ea, hsim, hret⟩ := tail_sim f
          ⟨(⟨v.buffer.data ++ data.take len, c⟩ : Vec).clear, s'⟩ ⟨b.clear, s'⟩
          ⟨Buffer.holds_clear b, by show (0 : Nat) < 128; decide, hc, h.big, rfl⟩ rfl (data.drop len)
        rw [List.length_drop] at hn
        refine ⟨r, er, hp, len + n, o', by omega, ?_, hsim, fun h => by have := hret h; rw [List.length_drop] at this; omega⟩
        have hln : (data.take (len + n)).length = len + n := by rw [List.length_take]; omega
        unfold addData
        rw [h.holds.empty_eq, h.holds.size_eq, hne]
        have hmin : min (128 - v.buffer.data.length) (len + n) = len := by omega
        simp only [Bool.not_false, if_true, bind, Except.bind, hln, hmin]
        rw [List.take_take, Nat.min_eq_left (by omega), eb]
        simp only [hbs, if_neg hlt]
        rw [hb.2, h.chain, show mdImpl 128 counter compress v.chain _ = _ from e2]
        simp only []
        unfold spanSub
        rw [if_pos (by omega), List.drop_take, show len + n - len = n by omega]
        exact ea

theorem vwrite (ws : List (Nat × Byte)) : ∀ (v : Vec), (∀ w ∈ ws, w.1 < v.data.length) →
    v.writeLoop ws = .ok ⟨ws.foldl (fun l w => l.set w.1 w.2) v.data, v.cap⟩ := by
  induction ws with
  | nil => intro v _; rfl
  | cons w ws ih =>
    intro v h
    show (v.setAt w.1 w.2 >>= fun v' => Vec.writeLoop v' ws) = _
    have e : v.setAt w.1 w.2 = .ok ⟨v.data.set w.1 w.2, v.cap⟩ := by unfold Vec.setAt; rw [if_pos (h w (by simp))]
    rw [e]
    exact ih ⟨v.data.set w.1 w.2, v.cap⟩ fun w' hw' => by simpa using h w' (by simp [hw'])

theorem foldl_set_length (ws : List (Nat × Byte)) : ∀ l : List Byte,
    (ws.foldl (fun l w => l.set w.1 w.2) l).length = l.length := by
  induction ws with
  | nil => intro l; rfl
  | cons w ws ih => intro l; rw [List.foldl_cons, ih]; simp

theorem hasv_inside : WritesInside 9 counter.writes := by
  intro size c hs w hw
  rcases List.mem_cons.1 hw with h | h
  · subst h; simp only []; omega
  · exact writesLE64 size c (by omega) w h

theorem fin_sim {K : Nat} (g : SHA3.Growth) (f : Supply) (v : VObj) (o : Obj (2 * 128) (MDState W64 (Vector W32 10)))
    (h : Sim K v o) : ∃ r, finalizeV g f v = .ok r ∧ (f.Plenty → returned r = true) ∧
      ∀ v', r = .done v' → ∃ o', HAS_V_320.finalize o = .ok o' ∧ Sim K v' o' := by
  have hfin : HAS_V_320.finalize o = mdFinalize 128 9 (1 <<< 7) counter.add counter.post counter.writes
    (mdImpl 128 counter compress) o := rfl
  rw [hfin]
  have hsm := h.small
  unfold finalizeV
  simp only []
  rcases insert_cases g (f.fails 0) v.buffer [1 <<< 7] (by simp; omega) h.cap h.big with ⟨e, hf⟩ | ⟨c, hc, e⟩
  · rw [e]
    exact ⟨_, rfl, fun p => by simp [p 0] at hf, fun _ h => by simp at h⟩
  rw [e]
  simp only [List.length_append, List.length_cons, List.length_nil, Nat.zero_add]
  have hsub : subSize (2 * 128) (v.buffer.data.length + 1 + 9) % 128 = (2 * 128 - (v.buffer.data.length + 1 + 9)) % 128 := by
    unfold subSize; omega
  rw [hsub]
  obtain ⟨pm, ple⟩ := pad_mod 128 9 v.buffer.data.length (by decide) hsm
  generalize hz : (2 * 128 - (v.buffer.data.length + 1 + 9)) % 128 + 9 = z
  rcases insert_cases g (f.fails 1) ⟨v.buffer.data ++ [(1 <<< 7 : Byte)], c⟩ (List.replicate z (0 : Byte)) (by simp; omega) hc h.big with
    ⟨e, hf⟩ | ⟨c', hc', e⟩
  · rw [e]
    exact ⟨_, rfl, fun p => by simp [p 1] at hf, fun _ h => by simp at h⟩
  rw [e]
  have hin : ∀ k, ∀ w ∈ counter.writes (v.buffer.data ++ [(1 <<< 7 : Byte)] ++ List.replicate z (0 : Byte)).length k,
      w.1 < (v.buffer.data ++ [(1 <<< 7 : Byte)] ++ List.replicate z (0 : Byte)).length :=
    fun k => hasv_inside _ k (by simp; omega)
  simp only []
  rw [vwrite _ _ (hin _)]
  generalize hcnt : cntAdd64 v.chain.sizeCounter v.buffer.data.length = cnt
  have hlen2 : ((counter.writes (v.buffer.data ++ [(1 <<< 7 : Byte)] ++ List.replicate z (0 : Byte)).length cnt).foldl
      (fun l w => l.set w.1 w.2) (v.buffer.data ++ [(1 <<< 7 : Byte)] ++ List.replicate z (0 : Byte))).length % 128 = 0 := by
    rw [foldl_set_length]; simp; omega
  obtain ⟨s', e2⟩ := impl_ok { v.chain with sizeCounter := cnt } _ hlen2
  simp only [bind, Except.bind]
  rw [e2]
  refine ⟨_, rfl, fun _ => rfl, fun v' hv' => ?_⟩
  obtain rfl := Outcome.done.inj hv'
  unfold mdFinalize
  obtain ⟨b1, e1, h1⟩ := Buffer.fill_holds h.holds (1 <<< 7) 1 (by omega) (by omega)
  rw [e1]
  simp only [bind, Except.bind]
  have hs1 : b1.size = v.buffer.data.length + 1 := by rw [h1.size_eq]; simp
  rw [hs1, hz]
  obtain ⟨b2, e3, h2⟩ := Buffer.fill_holds h1 0 z (by simp; omega) (by simp; omega)
  rw [e3]
  simp only []
  rw [h2.size_eq, h.holds.size_eq, h.chain]
  have hc2 : counter.add v.chain.sizeCounter v.buffer.data.length = cnt := hcnt
  rw [hc2]
  obtain ⟨b3, e4, h3⟩ := writeLoop_holds (counter.writes (v.buffer.data ++ [(1 <<< 7 : Byte)] ++ List.replicate z (0 : Byte)).length cnt) h2 (hin _)
  have e4' : writeLoop b2 (counter.writes (v.buffer.data ++ List.replicate 1 (1 <<< 7 : Byte) ++ List.replicate z (0 : Byte)).length cnt) = .ok b3 := e4
  rw [e4']
  simp only []
  rw [h3.2]
  have e5 : mdImpl 128 counter compress { v.chain with sizeCounter := counter.post cnt }
    ((counter.writes (v.buffer.data ++ [(1 <<< 7 : Byte)] ++ List.replicate z (0 : Byte)).length cnt).foldl
      (fun l w => l.set w.1 w.2) (v.buffer.data ++ List.replicate 1 (1 <<< 7 : Byte) ++ List.replicate z (0 : Byte))) = .ok s' := e2
  rw [e5]
  exact ⟨_, rfl, Buffer.holds_clear b3, by show (0 : Nat) < 128; decide, hc', h.big, rfl⟩

theorem reset_sim {K : Nat} (v : VObj) (o : Obj (2 * 128) (MDState W64 (Vector W32 10))) (hc : v.buffer.cap ≤ K) (hK : 510 ≤ K) :
    Sim K (resetV v) (HAS_V_320.reset o) := ⟨Buffer.holds_clear o.buffer, by show (0 : Nat) < 128; decide, hc, hK, rfl⟩

theorem fresh_sim : Sim 510 freshV HAS_V_320.fresh := ⟨Buffer.holds_empty, by decide, by decide, by decide, rfl⟩

theorem run_sim {K : Nat} (g : SHA3.Growth) (cs : List (Op × Supply)) :
    ∀ v o, Sim K v o → (∀ c ∈ cs, c.1 = .finalize → c.2.Plenty) →
      ∃ v' bs ops o', runV g v cs = .ok (v', bs) ∧ Taken cs bs ops ∧ HAS_V_320.run o ops = .ok o' ∧ Sim K v' o' ∧
        ((∀ c ∈ cs, c.2.Plenty) → ∀ b ∈ bs, b = true) := by
  induction cs with
  | nil => intro v o h _; exact ⟨v, [], [], o, rfl, .nil, rfl, h, by simp⟩
  | cons c cs ih =>
    intro v o h hp
    have hp' : ∀ c ∈ cs, c.1 = .finalize → c.2.Plenty := fun c hc => hp c (by simp [hc])
    obtain ⟨op, f⟩ := c
    cases op with
    | add d =>
      obtain ⟨r, er, hpl, n, o1, _, ea, hs, hret⟩ := add_sim g f v o h d
      obtain ⟨v', bs, ops, o', e, ht, eo, hs', hall⟩ := ih r.left o1 hs hp'
      refine ⟨v', returned r :: bs, .add (d.take n) :: ops, o', ?_, .add d _ (List.take_prefix _ _) (fun hb => by
        rw [hret hb, List.take_length]) ht, ?_, hs', fun hall' b hb => ?_⟩
      · simp only [runV, stepV, er, bind, Except.bind, e]; rfl
      · simp only [API.run, API.step, ea]; exact eo
      · rcases List.mem_cons.1 hb with rfl | hb
        · exact hpl (hall' (.add d, f) (by simp))
        · exact hall (fun c hc => hall' c (by simp [hc])) b hb
    | reset =>
      obtain ⟨v', bs, ops, o', e, ht, eo, hs', hall⟩ := ih (resetV v) _ (reset_sim v o h.cap h.big) hp'
      refine ⟨v', true :: bs, .reset :: ops, o', ?_, .reset ht, ?_, hs', fun hall' b hb => ?_⟩
      · simp only [runV, stepV, bind, Except.bind, Outcome.left, e]; rfl
      · exact eo
      · rcases List.mem_cons.1 hb with rfl | hb
        · rfl
        · exact hall (fun c hc => hall' c (by simp [hc])) b hb
    | finalize =>
      obtain ⟨r, er, hpl, hd⟩ := fin_sim g f v o h
      have hr := hpl (hp (.finalize, f) (by simp) rfl)
      cases r with
      | threw => simp [returned] at hr
      | done v1 =>
        obtain ⟨o1, ef, hs⟩ := hd v1 rfl
        obtain ⟨v', bs, ops, o', e, ht, eo, hs', hall⟩ := ih v1 o1 hs hp'
        refine ⟨v', true :: bs, .finalize :: ops, o', ?_, .finalize ht, ?_, hs', fun hall' b hb => ?_⟩
        · simp only [runV, stepV, er, bind, Except.bind, Outcome.left, e]; rfl
        · simp only [API.run, API.step, ef]; exact eo
        · rcases List.mem_cons.1 hb with rfl | hb
          · rfl
          · exact hall (fun c hc => hall' c (by simp [hc])) b hb

theorem taken_all {cs : List (Op × Supply)} {bs : List Bool} {ops : List Op} (h : Taken cs bs ops)
    (hb : ∀ b ∈ bs, b = true) : ops = cs.map (·.1) := by
  induction h with
  | nil => rfl
  | add d t _ ht _ ih =>
    rw [ih fun b hb' => hb b (by simp [hb']), ht (hb _ (by simp))]; rfl
  | reset _ ih => rw [ih fun b hb' => hb b (by simp [hb'])]; rfl
  | finalize _ ih => rw [ih fun b hb' => hb b (by simp [hb'])]; rfl

theorem taken_legal {cs : List (Op × Supply)} {bs : List Bool} {ops : List Op} (h : Taken cs bs ops) :
    ∀ fin, legalFrom fin (cs.map (·.1)) → legalFrom fin ops := by
  induction h with
  | nil => exact fun _ h => h
  | add d t ht _ _ ih =>
    intro fin hl
    obtain ⟨h1, h2, h3⟩ := hl
    exact ⟨h1, Nat.lt_of_le_of_lt ht.length_le h2, ih _ h3⟩
  | reset _ ih => exact fun _ hl => ih _ hl
  | finalize _ ih => exact fun _ hl => ⟨hl.1, ih _ hl.2⟩

theorem taken_snoc {cs : List (Op × Supply)} {bs : List Bool} {ops : List Op} {f : Supply}
    (h : Taken (cs ++ [(.finalize, f)]) bs ops) : ∃ bs' ops', bs = bs' ++ [true] ∧ ops = ops' ++ [.finalize] ∧ Taken cs bs' ops' := by
  induction cs generalizing bs ops with
  | nil =>
    cases h with
    | finalize h => cases h; exact ⟨[], [], rfl, rfl, .nil⟩
  | cons c cs ih =>
    cases h with
    | add d t ht hb h =>
      obtain ⟨b', o', rfl, rfl, h'⟩ := ih h
      exact ⟨_ :: b', .add t :: o', rfl, rfl, .add d t ht hb h'⟩
    | reset h =>
      obtain ⟨b', o', rfl, rfl, h'⟩ := ih h
      exact ⟨true :: b', .reset :: o', rfl, rfl, .reset h'⟩
    | finalize h =>
      obtain ⟨b', o', rfl, rfl, h'⟩ := ih h
      exact ⟨true :: b', .finalize :: o', rfl, rfl, .finalize h'⟩

/-- an object whose vector is empty and still has the memory reserved for it -/
def Reserved (v : VObj) : Prop := v.buffer = ⟨[], 256⟩

theorem add_reserved (g : SHA3.Growth) (f : Supply) (v : VObj) (h : Reserved v) (d : List Byte) (hd : 0 < d.length)
    (hm : d.length % 128 = 0) : ∃ v', addDataV g f v d = .ok (.done v') ∧ Reserved v' := by
  have hb : v.buffer.data = [] := by rw [h]
  obtain ⟨s', e⟩ := impl_ok v.chain d hm
  refine ⟨⟨v.buffer, s'⟩, ?_, h⟩
  unfold addDataV addDataTailV
  rw [if_neg (by simp [hb])]
  simp only []
  rw [if_neg (by omega), hm, Nat.sub_zero]
  unfold spanFirst
  rw [if_pos (Nat.le_refl _), List.take_length]
  simp only [bind, Except.bind, e, Nat.lt_irrefl, if_false]
  rfl

theorem insert_reserved (g : SHA3.Growth) (b : Bool) (v : Vec) (xs : List Byte) (hc : v.cap = 256)
    (hn : v.data.length + xs.length ≤ 256) : v.insert g b xs = .done ⟨v.data ++ xs, 256⟩ := by
  unfold Vec.insert
  simp only [hc]
  rw [if_pos hn]

/-- `finalize` of an object that still has the reserved memory allocates nothing -/
theorem fin_reserved (g : SHA3.Growth) (f : Supply) {K : Nat} (v : VObj) (o : Obj (2 * 128) (MDState W64 (Vector W32 10)))
    (h : Sim K v o) (hc : v.buffer.cap = 256) : ∃ v', finalizeV g f v = .ok (.done v') ∧ v'.buffer = ⟨[], 256⟩ := by
  have hsm := h.small
  obtain ⟨pm, ple⟩ := pad_mod 128 9 v.buffer.data.length (by decide) hsm
  unfold finalizeV
  simp only []
  rw [insert_reserved g _ _ _ hc (by simp; omega)]
  simp only [List.length_append, List.length_cons, List.length_nil, Nat.zero_add]
  have hsub : subSize (2 * 128) (v.buffer.data.length + 1 + 9) % 128 = (2 * 128 - (v.buffer.data.length + 1 + 9)) % 128 := by
    unfold subSize; omega
  rw [hsub]
  generalize hz : (2 * 128 - (v.buffer.data.length + 1 + 9)) % 128 + 9 = z
  rw [insert_reserved g _ _ _ rfl (by simp; omega)]
  simp only []
  rw [vwrite _ _ (hasv_inside _ _ (by simp; omega))]
  simp only [bind, Except.bind]
  obtain ⟨s', e2⟩ := impl_ok { v.chain with sizeCounter := cntAdd64 v.chain.sizeCounter v.buffer.data.length }
    ((counter.writes (v.buffer.data ++ [(1 <<< 7 : Byte)] ++ List.replicate z (0 : Byte)).length
      (cntAdd64 v.chain.sizeCounter v.buffer.data.length)).foldl
      (fun l w => l.set w.1 w.2) (v.buffer.data ++ [(1 <<< 7 : Byte)] ++ List.replicate z (0 : Byte))) (by
    rw [foldl_set_length]; simp; omega)
  rw [e2]
  exact ⟨_, rfl, rfl⟩

theorem toArrayV_sim {K : Nat} {v : VObj} {o : Obj (2 * 128) (MDState W64 (Vector W32 10))} (h : Sim K v o) :
    toArrayV v = HAS_V_320.toArray o := by
  show toArray v.chain.h = toArray o.chain.h
  rw [h.chain]

end Verif.Proof.HASV
