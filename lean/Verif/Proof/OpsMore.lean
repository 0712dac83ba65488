import Verif.Proof.OpsClasses

/-! The classes with an `addDataImpl` or a `finalize` of their own. -/

namespace Verif.Proof.Ops
open Verif Verif.Ops Model Proof.Work

/-! ### BLAKE -/

namespace BLAKE
open Model.BLAKE
variable {w B : Nat} {C : Type}

/-- what is asked of the loader of a configuration -/
structure OK {c : Cfg w B C} (k : CfgO c) : Prop where
  load : ∀ m t, (k.load m t).value = c.load m t
  load' : ∀ m m' t, (k.load m t).ops = (k.load m' t).ops

theorem ok224 : OK cfgO224 := ⟨fun _ _ => rfl, fun _ _ _ => rfl⟩
theorem ok256 : OK cfgO256 := ⟨fun _ _ => rfl, fun _ _ _ => rfl⟩
theorem ok512 : OK cfgO512 := ⟨fun _ _ => rfl, fun _ _ _ => rfl⟩

variable {c : Cfg w B C} {k : CfgO c} (ok : OK k)
include ok

theorem mix_value (m : Block B) (v : Vector (BitVec w) 16) (q : Call) : (mixO k m v q).value = mix c m v q := by
  unfold mix
  rw [← ok.load, ← ok.load]
  rfl

theorem mix_same (m m' : Block B) (v v' : Vector (BitVec w) 16) (q : Call) : (mixO k m v q).ops = (mixO k m' v' q).ops := by
  unfold mixO
  same_ops
  all_goals exact ok.load' _ _ _

theorem body_value (p : Nat) (s : MDState C (Vector (BitVec w) 8)) (m : Block B) : (bodyO k p s m).value = body c p s m := by
  unfold bodyO body
  dsimp only
  rw [value_bind]
  by_cases h : c.positive ((B - p) * 8)
  · rw [if_pos h, if_pos h, value_bind, value_bind, fold_value (mix_value ok m)]
    rfl
  · rw [if_neg h, if_neg h, value_bind, value_bind, fold_value (mix_value ok m)]
    rfl

theorem body_same (p : Nat) (s s' : MDState C (Vector (BitVec w) 8)) (m m' : Block B) : (bodyO k p s m).ops = (bodyO k p s' m').ops := by
  unfold bodyO vInitO foldHashO
  dsimp only
  by_cases h : c.positive ((B - p) * 8)
  · simp only [h, if_true]
    unfold vCountO
    same_ops
    exact mix_same ok _ _ _ _ _
  · simp only [h, Bool.false_eq_true, if_false]
    same_ops
    exact mix_same ok _ _ _ _ _

theorem steady (p : Nat) : Steady (body c p) (bodyO k p) := ⟨body_value ok p, fun s m s' m' => body_same ok p s s' m m'⟩

theorem impl_nat (p : Nat) (s : MDState C (Vector (BitVec w) 8) × List Instr) (d : List Byte) :
    impl c p s.1 d = (implO k p s d).map Prod.fst := by
  unfold impl implO
  dsimp only
  split
  · rfl
  · exact forBlocks_logged (body_value ok p) d s

/-- equal counters and equal logs -/
def Rel (s s' : MDState C (Vector (BitVec w) 8) × List Instr) : Prop := s.1.sizeCounter = s'.1.sizeCounter ∧ s.2 = s'.2

theorem impl_same (p : Nat) : SameImpl (Rel (w := w) (C := C)) (implO k p) (implO k p) := by
  intro s s' d d' hd hs
  unfold implO
  dsimp only
  rw [hd]
  split
  · rfl
  · refine forBlocks_same (fun s s' m m' h => ⟨?_, logged_same (steady ok p).same s s' m m' h.2⟩) hd hs
    show (bodyO k p s.1 m).value.sizeCounter = (bodyO k p s'.1 m').value.sizeCounter
    rw [body_value ok, body_value ok]
    show c.addBits s.1.sizeCounter _ = c.addBits s'.1.sizeCounter _
    rw [h.1]

theorem natural (L : Nat) (marker : Bool) (total : C → Nat → C) (writes : Nat → C → List (Nat × Byte))
    (init : MDState C (Vector (BitVec w) 8)) (b words size : Nat) :
    Natural (blockApi B (impl c 0) init (finalize c L marker total writes) (toArray b words size))
      (apiO k L marker total writes init b words size) Obj.unlogged := by
  refine ⟨rfl, fun _ => rfl, fun o d => addData_nat (f := Prod.fst) (impl_nat ok 0) o d, fun o => ?_⟩
  show finalize _ _ _ _ _ _ = (finalizeO _ _ _ _ _ _).map _
  unfold finalize finalizeO
  dsimp only
  rw [map_bind]
  refine Work.bind_congr fun b1 => ?_
  rw [map_bind]
  refine Work.bind_congr fun b2 => ?_
  rw [map_bind]
  refine Work.bind_congr fun b3 => ?_
  rw [map_bind]
  refine Work.bind_congr fun b4 => ?_
  rw [map_bind]
  show impl c _ o.chain.1 _ >>= _ = _
  rw [impl_nat ok, bind_map]
  rfl

omit ok in
theorem markLast_same {N : Nat} (L : Nat) (marker : Bool) {b b' : Buffer N} (h : SameSize b b') :
    Both SameSize (markLast L marker b) (markLast L marker b') := by
  unfold markLast
  have e : b.size = b'.size := h
  rw [e]
  split
  · exact both_bind (getAt_same b b' _) fun _ _ _ => setAt_same h _ _ _
  · exact h

theorem parallel (L : Nat) (marker : Bool) (total : C → Nat → C) (writes : Nat → C → List (Nat × Byte))
    (init : MDState C (Vector (BitVec w) 8)) (b words size : Nat) :
    Parallel (apiO k L marker total writes init b words size) (apiO k L marker total writes init b words size)
      (SameObj Rel) := by
  refine ⟨⟨rfl, rfl, rfl⟩, fun o o' ho => ⟨rfl, rfl, ho.chain.2⟩,
    fun o o' d d' hd ho => addData_same (impl_same ok 0) ho hd, fun o o' ho => ?_⟩
  show Both _ (finalizeO _ _ _ _ _ o) (finalizeO _ _ _ _ _ o')
  unfold finalizeO
  dsimp only
  have e1 : o.buffer.size = o'.buffer.size := ho.buffer
  rw [e1, ho.chain.1]
  refine both_bind (fill_same ho.buffer _ _ _) fun b b' hb => ?_
  have e2 : b.size = b'.size := hb
  rw [e2]
  refine both_bind (fill_same hb _ _ _) fun b b' hb => ?_
  refine both_bind (markLast_same L marker hb) fun b b' hb => ?_
  have e3 : b.size = b'.size := hb
  rw [e3]
  refine both_bind (writeLoop_same _ hb) fun b b' hb => ?_
  refine both_bind (impl_same ok _ _ _ _ _ (contents_same hb) ho.chain) fun c c' hc => ?_
  exact ⟨rfl, hc⟩

theorem same (L : Nat) (marker : Bool) (total : C → Nat → C) (writes : Nat → C → List (Nat × Byte))
    (init : MDState C (Vector (BitVec w) 8)) (b words size : Nat) :
    (blockApi B (impl c 0) init (finalize c L marker total writes) (toArray b words size)).SameBut
        (apiO k L marker total writes init b words size) Obj.unlogged ∧
      (apiO k L marker total writes init b words size).SameOps (apiO k L marker total writes init b words size)
        (fun o => o.chain.2) :=
  ⟨(natural ok L marker total writes init b words size).same,
    (parallel ok L marker total writes init b words size).same fun _ _ h => h.chain.2⟩

end BLAKE

/-! ### BLAKE2 -/

namespace BLAKE2
open Model.BLAKE2
variable {w B : Nat} {C : Type}

/-- what is asked of the loader of a configuration -/
structure OK {c : Cfg w B C} (k : CfgO c) : Prop where
  load : ∀ m t, (k.load m t).value = c.load m t
  load' : ∀ m m' t, (k.load m t).ops = (k.load m' t).ops

theorem ok2 : OK cfgO2 := ⟨fun _ _ => rfl, fun _ _ _ => rfl⟩
theorem ok2s : OK cfgO2s := ⟨fun _ _ => rfl, fun _ _ _ => rfl⟩

variable {c : Cfg w B C} {k : CfgO c} (ok : OK k)
include ok

theorem mix_value (m : Block B) (v : Vector (BitVec w) 16) (q : Call) : (mixO k m v q).value = mix c m v q := by
  unfold mix
  rw [← ok.load, ← ok.load]
  rfl

theorem mix_same (m m' : Block B) (v v' : Vector (BitVec w) 16) (q : Call) : (mixO k m v q).ops = (mixO k m' v' q).ops := by
  unfold mixO
  same_ops
  all_goals exact ok.load' _ _ _

theorem body_value (f : Bool) (p : Nat) (s : State w C) (m : Block B) : (bodyO k f p s m).value = body c f p s m := by
  unfold bodyO body
  dsimp only
  rw [value_bind, value_bind, fold_value (mix_value ok m)]
  cases f <;> rfl

theorem body_same (f : Bool) (p : Nat) (s s' : State w C) (m m' : Block B) : (bodyO k f p s m).ops = (bodyO k f p s' m').ops := by
  unfold bodyO vInitO foldHashO
  dsimp only
  cases f
  · simp only [Bool.false_eq_true, if_false]
    same_ops
    exact mix_same ok _ _ _ _ _
  · simp only [if_true]
    same_ops
    exact mix_same ok _ _ _ _ _

theorem steady (f : Bool) (p : Nat) : Steady (body c f p) (bodyO k f p) :=
  ⟨body_value ok f p, fun s m s' m' => body_same ok f p s s' m m'⟩

theorem impl_nat (f : Bool) (p : Nat) (s : State w C × List Instr) (d : List Byte) :
    impl c f p s.1 d = (implO k f p s d).map Prod.fst := by
  unfold impl implO
  dsimp only
  split
  · rfl
  · exact forBlocks_logged (body_value ok f p) d s

theorem impl_same (f : Bool) (p : Nat) : SameImpl (fun s s' => s.2 = s'.2) (implO k f p) (implO k f p) := by
  intro s s' d d' hd hs
  unfold implO
  dsimp only
  rw [hd]
  split
  · rfl
  · exact forBlocks_same (logged_same (steady ok f p).same · · · · ·) hd hs

theorem natural (b size : Nat) : Natural (api c b size) (apiO k b size) Obj.unlogged := by
  refine ⟨rfl, fun _ => rfl, fun o d => addData2_nat (f := Prod.fst) (impl_nat ok false 0) _ o d rfl, fun o => ?_⟩
  show finalize _ _ = (finalizeO _ _).map _
  unfold finalize finalizeO
  dsimp only
  rw [map_bind]
  refine Work.bind_congr fun b1 => ?_
  rw [map_bind]
  show impl c _ _ o.chain.1 _ >>= _ = _
  rw [impl_nat ok, bind_map]
  rfl

theorem parallel (b size : Nat) : Parallel (apiO k b size) (apiO k b size) (SameObj fun s s' => s.2 = s'.2) := by
  refine ⟨⟨rfl, rfl⟩, fun o o' ho => ⟨rfl, ho.chain⟩,
    fun o o' d d' hd ho => addData2_same (impl_same ok false 0) _ ho hd rfl, fun o o' ho => ?_⟩
  show Both _ (finalizeO _ o) (finalizeO _ o')
  unfold finalizeO
  dsimp only
  have e1 : o.buffer.size = o'.buffer.size := ho.buffer
  rw [e1]
  refine both_bind (fill_same ho.buffer _ _ _) fun b b' hb => ?_
  refine both_bind (impl_same ok _ _ _ _ _ _ (contents_same hb) ho.chain) fun c c' hc => ?_
  exact ⟨rfl, hc⟩

theorem same (b size : Nat) : (api c b size).SameBut (apiO k b size) Obj.unlogged ∧
    (apiO k b size).SameOps (apiO k b size) (fun o => o.chain.2) :=
  ⟨(natural ok b size).same, (parallel ok b size).same fun _ _ h => h.chain⟩

end BLAKE2

/-! ### Keccak -/

namespace SHA3
open Model.SHA3

theorem theta_value (s : State) : (thetaO s).value = theta s := by
  unfold thetaO theta
  iterate 2 refine value_step rfl ?_
  exact forRange_value (fun _ _ _ _ => rfl) _

theorem theta_same (s s' : State) : (thetaO s).ops = (thetaO s').ops := by
  unfold thetaO
  same_ops

theorem tmp_value (s : State) : (tmpO s).value = tmp s := rfl

theorem rhoPiChi_value (s : State) : (rhoPiChiO s).value = rhoPiChi s := by
  unfold rhoPiChiO rhoPiChi
  refine value_step (tmp_value s) ?_
  exact forRange_value (fun _ _ _ _ => rfl) _

theorem rhoPiChi_same (s s' : State) : (rhoPiChiO s).ops = (rhoPiChiO s').ops := by
  unfold rhoPiChiO tmpO
  same_ops

theorem permute_value (s : State) : (permuteO s).value = permute s := by
  refine forRange_value (fun t h1 h2 a => ?_) _
  refine value_step (theta_value _) ?_
  refine value_step (rhoPiChi_value _) ?_
  rfl

theorem permute_same (s s' : State) : (permuteO s).ops = (permuteO s').ops := by
  unfold permuteO iotaO
  same_ops
  · exact theta_same _ _
  · exact rhoPiChi_same _ _

section
variable {R : Nat} [RateOK R]

theorem xorBlock_value (s : State) (m : Block R) : (xorBlockO s m).value = xorBlock s m :=
  forRange_value (fun _ _ _ _ => rfl) _

theorem xorBlock_same (s s' : State) (m m' : Block R) : (xorBlockO s m).ops = (xorBlockO s' m').ops := by
  unfold xorBlockO
  same_ops

theorem steady : Steady (body (R := R)) (bodyO (R := R)) where
  value := fun s m => by
    unfold bodyO body
    exact value_step (xorBlock_value s m) (permute_value _)
  same := fun s m s' m' => by
    unfold bodyO
    exact same_bind (xorBlock_same _ _ _ _) permute_same

theorem absorb_nat (s : State × List Instr) (d : List Byte) : absorb R s.1 d = (absorbO R s d).map Prod.fst := by
  unfold absorb absorbO
  dsimp only
  split
  · rfl
  · exact forBlocks_logged steady.value d s

theorem absorb_same : SameImpl (fun s s' => s.2 = s'.2) (absorbO R) (absorbO R) := by
  intro s s' d d' hd hs
  unfold absorbO
  dsimp only
  rw [hd]
  split
  · rfl
  · exact forBlocks_same (logged_same steady.same · · · · ·) hd hs

theorem impl_nat (s : KState × List Instr) (d : List Byte) : impl R s.1 d = (implO R s d).map Prod.fst := by
  unfold impl implO
  rw [absorb_nat (s.1.state, s.2), bind_map, map_bind]
  rfl

/-- equally many bytes of output and equal logs -/
def Rel (s s' : KState × List Instr) : Prop := s.1.final.length = s'.1.final.length ∧ s.2 = s'.2

theorem impl_same : SameImpl Rel (implO R) (implO R) := by
  intro s s' d d' hd hs
  unfold implO
  refine both_bind (absorb_same (R := R) (s.1.state, s.2) (s'.1.state, s'.2) d d' hd hs.2) fun a b h => ?_
  exact ⟨hs.1, h⟩

theorem squeeze_nat (dl n : Nat) : ∀ s : KState × List Instr, dl - s.1.final.length = n →
    squeeze R dl s.1 = (squeezeO R dl s).map Prod.fst := by
  induction n using Nat.strongRecOn with
  | ind n ih =>
    intro s hn
    rw [squeeze, squeezeO]
    by_cases h : R ≤ (stateToVector s.1.state).length
    · simp only [h, dif_pos]
      by_cases hf : (s.1.final ++ (stateToVector s.1.state).take R).length ≥ dl
      · rw [dif_pos hf, dif_pos hf]; rfl
      · rw [dif_neg hf, dif_neg hf, absorb_nat (s.1.state, s.2)]
        cases absorbO R (s.1.state, s.2) (List.replicate R 0) with
        | error e => rfl
        | ok st =>
          refine ih _ ?_ (⟨st.1, s.1.final ++ (stateToVector s.1.state).take R⟩, st.2) rfl
          have := RateOK.pos (R := R)
          simp only [ge_iff_le, Nat.not_le, List.length_append, List.length_take] at *
          omega
    · rw [dif_neg h, dif_neg h]; rfl

theorem squeeze_same (dl n : Nat) : ∀ s s' : KState × List Instr, Rel s s' → dl - s.1.final.length = n →
    Both Rel (squeezeO R dl s) (squeezeO R dl s') := by
  induction n using Nat.strongRecOn with
  | ind n ih =>
    intro s s' hs hn
    rw [squeezeO, squeezeO]
    have e1 := stateToVector_length s.1.state
    have e2 := stateToVector_length s'.1.state
    by_cases h : R ≤ 200
    · have h1 : R ≤ (stateToVector s.1.state).length := by omega
      have h2 : R ≤ (stateToVector s'.1.state).length := by omega
      rw [dif_pos h1, dif_pos h2]
      have e3 : (s.1.final ++ (stateToVector s.1.state).take R).length = (s'.1.final ++ (stateToVector s'.1.state).take R).length := by
        simp [e1, e2, hs.1]
      by_cases hf : (s.1.final ++ (stateToVector s.1.state).take R).length ≥ dl
      · have hf' : (s'.1.final ++ (stateToVector s'.1.state).take R).length ≥ dl := by omega
        dsimp only
        rw [dif_pos hf, dif_pos hf']
        exact ⟨e3, hs.2⟩
      · have hf' : ¬(s'.1.final ++ (stateToVector s'.1.state).take R).length ≥ dl := by omega
        dsimp only
        rw [dif_neg hf, dif_neg hf']
        have ha := absorb_same (R := R) (s.1.state, s.2) (s'.1.state, s'.2) (List.replicate R 0) (List.replicate R 0) rfl hs.2
        cases hx : absorbO R (s.1.state, s.2) (List.replicate R 0) with
        | error e =>
          cases hy : absorbO R (s'.1.state, s'.2) (List.replicate R 0) with
          | error e' => rw [hx, hy] at ha; exact ha
          | ok st' => rw [hx, hy] at ha; exact ha.elim
        | ok st =>
          cases hy : absorbO R (s'.1.state, s'.2) (List.replicate R 0) with
          | error e' => rw [hx, hy] at ha; exact ha.elim
          | ok st' =>
            rw [hx, hy] at ha
            refine ih _ ?_ (⟨st.1, s.1.final ++ (stateToVector s.1.state).take R⟩, st.2)
              (⟨st'.1, s'.1.final ++ (stateToVector s'.1.state).take R⟩, st'.2) ⟨e3, ha⟩ rfl
            have := RateOK.pos (R := R)
            simp only [ge_iff_le, Nat.not_le, List.length_append, List.length_take] at *
            omega
    · have := RateOK.le (R := R)
      exact absurd this h

theorem natural (P : Byte) (dl : Nat) : Natural (Keccak R P dl) (KeccakO R P dl) Obj.unlogged := by
  refine ⟨rfl, fun _ => rfl, fun o d => addData_nat (f := Prod.fst) impl_nat o d, fun o => ?_⟩
  show finalize _ _ _ _ = (finalizeO _ _ _ _).map _
  unfold finalize finalizeO
  dsimp only
  rw [map_bind]
  refine Work.bind_congr fun b1 => ?_
  rw [map_bind]
  refine Work.bind_congr fun b2 => ?_
  rw [map_bind]
  refine Work.bind_congr fun b3 => ?_
  rw [map_bind]
  refine Work.bind_congr fun b4 => ?_
  rw [map_bind]
  show impl R o.chain.1 _ >>= _ = _
  rw [impl_nat, bind_map]
  refine Work.bind_congr fun c => ?_
  rw [map_bind, squeeze_nat dl _ c rfl, bind_map]
  rfl

theorem parallel (P P' : Byte) (dl : Nat) : Parallel (KeccakO R P dl) (KeccakO R P' dl) (SameObj Rel) := by
  refine ⟨⟨rfl, rfl, rfl⟩, fun o o' ho => ⟨rfl, rfl, ho.chain.2⟩,
    fun o o' d d' hd ho => addData_same impl_same ho hd, fun o o' ho => ?_⟩
  show Both _ (finalizeO _ _ _ o) (finalizeO _ _ _ o')
  unfold finalizeO
  dsimp only
  refine both_bind (fill_same ho.buffer _ _ _) fun b b' hb => ?_
  have e2 : b.size = b'.size := hb
  rw [e2]
  refine both_bind (fill_same hb _ _ _) fun b b' hb => ?_
  have e3 : b.size = b'.size := hb
  rw [e3]
  refine both_bind (getAt_same b b' _) fun _ _ _ => ?_
  refine both_bind (setAt_same hb _ _ _) fun b b' hb => ?_
  refine both_bind (impl_same _ _ _ _ (contents_same hb) ho.chain) fun c c' hc => ?_
  refine both_bind (squeeze_same dl _ c c' hc rfl) fun c c' hc => ?_
  refine ⟨rfl, ?_, hc.2⟩
  show (c.1.final.take dl ++ _).length = (c'.1.final.take dl ++ _).length
  simp [hc.1]

theorem same (P : Byte) (dl : Nat) : (Keccak R P dl).SameBut (KeccakO R P dl) Obj.unlogged ∧
    (KeccakO R P dl).SameOps (KeccakO R P dl) (fun o => o.chain.2) :=
  ⟨(natural P dl).same, (parallel P P dl).same fun _ _ h => h.chain.2⟩

end
end SHA3

/-! ### SipHash -/

namespace SipHash
open Model.SipHash

theorem round_value (v : Vector W64 4) : (sipRoundO v).value = sipRound v := rfl

theorem round_same (v v' : Vector W64 4) : (sipRoundO v).ops = (sipRoundO v').ops := by
  unfold sipRoundO
  same_ops

theorem rounds_value (n : Nat) (v : Vector W64 4) : (roundsO n v).value = rounds n v := fold_value (fun a _ => round_value a) _ _

theorem rounds_same (n : Nat) (v v' : Vector W64 4) : (roundsO n v).ops = (roundsO n v').ops := fold_same (fun _ _ _ => round_same _ _) _ _ _

theorem steady (C : Nat) : Steady (body C) (bodyO C) where
  value := fun s m => by
    unfold bodyO body
    refine value_step rfl ?_
    exact value_step (rounds_value C _) rfl
  same := fun s m s' m' => by
    unfold bodyO
    same_ops
    exact rounds_same C _ _

theorem last_value (D : Nat) (v : Vector W64 4) : (lastO D v).value = rounds D (v.set 2 (v[2] ^^^ 0xff)) :=
  value_step rfl (rounds_value D _)

theorem last_same (D : Nat) (v v' : Vector W64 4) : (lastO D v).ops = (lastO D v').ops := by
  unfold lastO
  same_ops
  exact rounds_same D _ _

theorem keyed_same (k k' : Vector W64 2) : (keyedO k).ops = (keyedO k').ops := by
  unfold keyedO
  same_ops

theorem loadKey_same (k k' : Block 16) : (loadKeyO k).ops = (loadKeyO k').ops := by
  unfold loadKeyO
  same_ops

theorem impl_nat (C : Nat) (s : State × List Instr) (d : List Byte) : impl C s.1 d = (implO C s d).map Prod.fst := by
  unfold impl implO
  dsimp only
  split
  · rfl
  · rw [forBlocks_logged (steady C).value d (s.1.state, s.2), bind_map, map_bind]
    rfl

theorem impl_same (C : Nat) : SameImpl (fun s s' => s.2 = s'.2) (implO C) (implO C) := by
  intro s s' d d' hd hs
  unfold implO
  dsimp only
  rw [hd]
  split
  · rfl
  · refine both_bind (forBlocks_same (RS := fun s s' => s.2 = s'.2) (logged_same (steady C).same · · · · ·) hd
      (s := (s.1.state, s.2)) (s' := (s'.1.state, s'.2)) hs) ?_
    exact fun _ _ h => h

theorem natural (C D : Nat) (key : Block 16) : Natural (SipHashCD C D key) (SipHashCDO C D key) Obj.unlogged := by
  refine ⟨rfl, fun _ => rfl, fun o d => addData_nat (f := Prod.fst) (impl_nat C) o d, fun o => ?_⟩
  show finalize _ _ _ = (finalizeO _ _ _).map _
  unfold finalize finalizeO
  dsimp only
  rw [map_bind]
  refine Work.bind_congr fun b1 => ?_
  rw [map_bind]
  refine Work.bind_congr fun b2 => ?_
  rw [map_bind]
  let s : State := { o.chain.1 with sizeCounter := o.chain.1.sizeCounter + BitVec.ofNat 8 o.buffer.size }
  refine Eq.trans (congrArg (· >>= _) (impl_nat C (s, o.chain.2) b2.contents)) ?_
  rw [bind_map]
  refine Work.bind_congr fun c => ?_
  show Except.ok _ = Except.ok _
  rw [Obj.unlogged]
  simp only [last_value]

theorem parallel (C D : Nat) (key key' : Block 16) :
    Parallel (SipHashCDO C D key) (SipHashCDO C D key') (SameObj fun s s' => s.2 = s'.2) := by
  refine ⟨⟨rfl, ?_⟩, fun o o' ho => ⟨rfl, ?_⟩, fun o o' d d' hd ho => addData_same (impl_same C) ho hd, fun o o' ho => ?_⟩
  · show (loadKeyO key).ops ++ _ = (loadKeyO key').ops ++ _
    rw [loadKey_same key key', keyed_same]
  · show o.chain.2 ++ _ = o'.chain.2 ++ _
    rw [show o.chain.2 = o'.chain.2 from ho.chain, keyed_same]
  · show Both _ (finalizeO _ _ o) (finalizeO _ _ o')
    unfold finalizeO
    dsimp only
    have e1 : o.buffer.size = o'.buffer.size := ho.buffer
    rw [e1]
    refine both_bind (fill_same ho.buffer _ _ _) fun b b' hb => ?_
    refine both_bind (fill_same hb _ _ _) fun b b' hb => ?_
    refine both_bind (impl_same C _ _ _ _ (contents_same hb) ho.chain) fun c c' hc => ?_
    refine ⟨rfl, ?_⟩
    show c.2 ++ _ = c'.2 ++ _
    rw [show c.2 = c'.2 from hc, last_same]

theorem same (C D : Nat) (key key' : Block 16) : (SipHashCD C D key).SameBut (SipHashCDO C D key) Obj.unlogged ∧
    (SipHashCDO C D key).SameOps (SipHashCDO C D key') (fun o => o.chain.2) :=
  ⟨(natural C D key).same, (parallel C D key key').same fun _ _ h => h.chain⟩

end SipHash

/-! ### FNV -/

namespace FNV
open Model.FNV
variable {w : Nat}

theorem mul_value (h : Ops (BitVec w)) : (multiplyPrimeO h).value = multiplyPrime h.value := by
  unfold multiplyPrimeO multiplyPrime
  split
  · rfl
  · split <;> rfl

theorem mul_same {h h' : Ops (BitVec w)} (k : h.ops = h'.ops) : (multiplyPrimeO h).ops = (multiplyPrimeO h').ops := by
  unfold multiplyPrimeO
  split
  · same_ops; exact k
  · split
    · same_ops; exact k
    · exact k

theorem steady (variant : Nat) : Steady (body (w := w) variant) (bodyO variant) where
  value := fun h x => by
    unfold bodyO body
    refine value_step rfl ?_
    have e1 : (if variant ≤ 1 then multiplyPrimeO (var h) ^^^ var (x.setWidth w) else var h).value =
        if variant ≤ 1 then multiplyPrime h ^^^ x.setWidth w else h := by
      split
      · show (multiplyPrimeO (var h)).value ^^^ _ = _
        rw [mul_value]
        rfl
      · rfl
    refine value_step e1 ?_
    dsimp only
    split
    · rw [mul_value]; rfl
    · rfl
  same := fun h x h' x' => by
    unfold bodyO
    refine same_bind rfl fun d d' => same_bind ?_ fun a a' => ?_
    · split
      · exact same_xor (mul_same rfl) rfl
      · rfl
    · split
      · exact mul_same rfl
      · rfl

theorem fold_nat (variant : Nat) (d : List Byte) : ∀ h : BitVec w × List Instr,
    d.foldl (body variant) h.1 = (d.foldl (logged (bodyO variant)) h).1 := by
  induction d with
  | nil => intro h; rfl
  | cons x d ih =>
    intro h
    rw [List.foldl_cons, List.foldl_cons, ← ih]
    show _ = List.foldl _ (bodyO variant h.1 x).value d
    rw [(steady variant).value]

theorem fold_same (variant : Nat) (d d' : List Byte) (hd : d.length = d'.length) : ∀ h h' : BitVec w × List Instr, h.2 = h'.2 →
    (d.foldl (logged (bodyO variant)) h).2 = (d'.foldl (logged (bodyO variant)) h').2 := by
  induction d generalizing d' with
  | nil =>
    intro h h' e
    cases d' with
    | nil => exact e
    | cons => cases hd
  | cons x d ih =>
    intro h h' e
    cases d' with
    | nil => cases hd
    | cons x' d' => exact ih d' (by simpa using hd) _ _ (logged_same (steady variant).same h h' x x' e)

theorem parallel (w variant : Nat) : Parallel (FNVHashO w variant) (FNVHashO w variant) fun a b => a.2 = b.2 where
  fresh := rfl
  reset := fun _ _ h => h
  add := fun o o' d d' hd h => both_ok (R := fun a b : BitVec w × List Instr => a.2 = b.2) (fold_same variant d d' hd o o' h)
  fin := fun _ _ h => both_ok (R := fun a b : BitVec w × List Instr => a.2 = b.2) h

theorem same (w variant : Nat) : (FNVHash w variant).SameBut (FNVHashO w variant) Prod.fst ∧
    (FNVHashO w variant).SameOps (FNVHashO w variant) Prod.snd :=
  ⟨Natural.same ⟨rfl, fun _ => rfl, fun o d => by
      show Except.ok _ = Except.ok _
      rw [fold_nat], fun _ => rfl⟩, (parallel w variant).same fun _ _ h => h⟩

end FNV

end Verif.Proof.Ops
