import Verif.Proof.Machine
import Verif.Proof.CShake

/-! # cSHAKE and TupleHash on machines with a small `size_t` -/

namespace Verif.Proof.Machine
open Verif Verif.Model Verif.Model.CShake Verif.Proof.Misuse Verif.Proof.CShake Verif.Spec

section
variable {m R : Nat} [hR : SHA3.RateOK R]

/-- the carry-over buffers of the objects the pointers own hold less than a block -/
def KRoom (o : CShake R) : Prop :=
  (∀ k, o.shake = some k → Room R (fun _ => True) k.obj) ∧ (∀ k, o.keccak = some k → Room R (fun _ => True) k.obj)

theorem callKM_eq (hm : 2 * R < 2 ^ m) (op : Op) (hf : Fitting m [op]) (P : Byte) (k : KObj R)
    (h : Room R (fun _ => True) k.obj) : callKM m op P k = callK op P k :=
  bind_eq (step (sha3 hm P k.digestLength) k.obj h op hf) fun _ _ => rfl

theorem callK_inv (hm : m ≤ 64) (op : Op) (hf : Fitting m [op]) (P : Byte) (k k' : KObj R)
    (h : Room R (fun _ => True) k.obj) (e : callK op P k = .ok k') : Room R (fun _ => True) k'.obj := by
  unfold callK at e
  obtain ⟨o, eo, e⟩ := bind_ok e
  have := Except.ok.inj e
  subst this
  exact step_inv (t := sha3Total R P k.digestLength) hm k.obj o h op hf eo

theorem step_onActive (o : CShake R) (op : Op) : CShake.step o op = onActive o (callK op) := by cases op <;> rfl

theorem cstep (hm : 2 * R < 2 ^ m) (o : CShake R) (h : KRoom o) (op : Op) (hf : Fitting m [op]) :
    stepM m o op = CShake.step o op := by
  rw [step_onActive]
  unfold stepM onActive
  split
  · cases hs : o.shake with
    | none => rfl
    | some k => simp only []; rw [callKM_eq hm op hf _ k (h.1 k hs)]
  · cases hs : o.keccak with
    | none => rfl
    | some k => simp only []; rw [callKM_eq hm op hf _ k (h.2 k hs)]

theorem cstep_inv (hm : m ≤ 64) (o o' : CShake R) (h : KRoom o) (op : Op) (hf : Fitting m [op])
    (e : CShake.step o op = .ok o') : KRoom o' := by
  rw [step_onActive] at e
  unfold onActive at e
  split at e
  · cases hs : o.shake with
    | none => rw [hs] at e; cases e
    | some k =>
      rw [hs] at e
      obtain ⟨k', ek, e⟩ := bind_ok e
      have := Except.ok.inj e
      subst this
      refine ⟨fun k1 h1 => ?_, h.2⟩
      have := Option.some.inj h1
      subst this
      exact callK_inv hm op hf _ k _ (h.1 k hs) ek
  · cases hs : o.keccak with
    | none => rw [hs] at e; cases e
    | some k =>
      rw [hs] at e
      obtain ⟨k', ek, e⟩ := bind_ok e
      have := Except.ok.inj e
      subst this
      refine ⟨h.1, fun k1 h1 => ?_⟩
      have := Option.some.inj h1
      subst this
      exact callK_inv hm op hf _ k _ (h.2 k hs) ek

theorem crun (hm : 2 * R < 2 ^ m) (hm' : m ≤ 64) (ops : List Op) : ∀ o : CShake R, KRoom o → Fitting m ops →
    runM m o ops = CShake.run o ops := by
  induction ops with
  | nil => intro o _ _; rfl
  | cons op ops ih =>
    intro o h hf
    have hop : Fitting m [op] := fun d hd => hf d (by simp at hd; simp [hd])
    exact bind_eq (cstep hm o h op hop) fun o' e =>
      ih o' (cstep_inv hm' o o' h op hop e) fun d hd => hf d (by simp [hd])

theorem crun_inv (hm' : m ≤ 64) (ops : List Op) : ∀ o o' : CShake R, KRoom o → Fitting m ops →
    CShake.run o ops = .ok o' → KRoom o' := by
  induction ops with
  | nil => intro o o' h _ e; rw [← Except.ok.inj e]; exact h
  | cons op ops ih =>
    intro o o' h hf e
    have hop : Fitting m [op] := fun d hd => hf d (by simp at hd; simp [hd])
    obtain ⟨o1, e1, e2⟩ := bind_ok e
    exact ih o1 o' (cstep_inv hm' o o1 h op hop e1) (fun d hd => hf d (by simp [hd])) e2

theorem fitting_add {d : List Byte} (h : d.length < 2 ^ m) : Fitting m [.add d] := by
  intro x hx
  simp at hx
  subst hx
  exact h

theorem cadd (hm : 2 * R < 2 ^ m) (o : CShake R) (h : KRoom o) (d : List Byte) (hd : d.length < 2 ^ m) :
    stepM m o (.add d) = CShake.addData o d := cstep hm o h (.add d) (fitting_add hd)

theorem cadd_inv (hm : m ≤ 64) (o o' : CShake R) (h : KRoom o) (d : List Byte) (hd : d.length < 2 ^ m)
    (e : CShake.addData o d = .ok o') : KRoom o' := cstep_inv hm o o' h (.add d) (fitting_add hd) e

theorem fillBytes_size (v : Nat) : ∀ n {b b' : Buffer 8}, fillBytes v n b = .ok b' → b.size ≤ 8 → b'.size ≤ 8 := by
  intro n
  induction n with
  | zero => intro b b' e h; rw [← Except.ok.inj e]; exact h
  | succ n ih =>
    intro b b' e _
    obtain ⟨b1, e1, e2⟩ := bind_ok e
    exact ih e2 (fill_size e1).2

theorem leftEncode_size {nb : Nat → Nat} {v : Nat} {b : Buffer 8} (e : leftEncode nb v = .ok b) : b.size ≤ 8 := by
  obtain ⟨b1, e1, e2⟩ := bind_ok e
  exact fillBytes_size v _ e2 (fill_size e1).2

theorem processString (hm : 2 * R < 2 ^ m) (hm' : m ≤ 64) (nb : Nat → Nat) (o : CShake R) (h : KRoom o) (s : List Byte)
    (n : Nat) (hs : 8 * s.length < 2 ^ m) (hn : n + 8 + s.length < 2 ^ m) :
    processStringM m nb o s n = CShake.processString nb o s n := by
  have h64 : (2 : Nat) ^ m ≤ 2 ^ 64 := Nat.pow_le_pow_right (by decide) hm'
  have hp := hR.pos
  unfold processStringM CShake.processString
  rw [szMul_eq (by omega), Nat.mod_eq_of_lt (a := s.length * 8) (by omega)]
  refine bind_eq rfl fun b hb => ?_
  have h8 := leftEncode_size hb
  rcases Nat.lt_or_ge 8 (2 ^ m) with hlt | hge
  · have hc : b.contents.length < 2 ^ m := by have := contents_le b; omega
    refine bind_eq (cadd hm o h _ hc) fun o1 e1 => ?_
    refine bind_eq (cadd hm o1 (cadd_inv hm' o o1 h _ hc e1) _ (by omega)) fun o2 _ => ?_
    rw [szAdd_eq (a := n) (b := b.size) (by omega), szAdd_eq (by omega), Nat.mod_eq_of_lt (a := n + b.size) (by omega),
      Nat.mod_eq_of_lt (a := n + b.size + s.length) (by omega)]
  · omega

theorem processString_inv (hm : 16 ≤ m) (hm' : m ≤ 64) (nb : Nat → Nat) (o o' : CShake R) (h : KRoom o) (s : List Byte)
    (n n' : Nat) (hs : 8 * s.length < 2 ^ m) (e : CShake.processString nb o s n = .ok (o', n')) :
    KRoom o' ∧ n' ≤ n + 8 + s.length := by
  have := big hm
  obtain ⟨b, eb, e⟩ := bind_ok e
  obtain ⟨o1, e1, e⟩ := bind_ok e
  obtain ⟨o2, e2, e⟩ := bind_ok e
  have h8 := leftEncode_size eb
  have e := Except.ok.inj e
  injection e with ea en
  subst ea
  refine ⟨cadd_inv hm' o1 o2 (cadd_inv hm' o o1 h _ (by have := contents_le b; omega) e1) _ (by omega) e2, ?_⟩
  rw [← en]
  have a1 := Nat.mod_le (n + b.size) (2 ^ 64)
  have a2 := Nat.mod_le ((n + b.size) % 2 ^ 64 + s.length) (2 ^ 64)
  omega

theorem addZeros (hm : 2 * R < 2 ^ m) (hm' : m ≤ 64) (n : Nat) : ∀ o : CShake R, KRoom o →
    addZerosM m n o = CShake.addZeros n o := by
  have hp := hR.pos
  induction n with
  | zero => intro o _; rfl
  | succ n ih =>
    intro o h
    have h1 : ([0] : List Byte).length < 2 ^ m := by show 1 < 2 ^ m; omega
    exact bind_eq (cadd hm o h _ h1) fun o1 e => ih o1 (cadd_inv hm' o o1 h _ h1 e)

theorem addZeros_inv (hm : 2 * R < 2 ^ m) (hm' : m ≤ 64) (n : Nat) : ∀ o o' : CShake R, KRoom o →
    CShake.addZeros n o = .ok o' → KRoom o' := by
  have hp := hR.pos
  induction n with
  | zero => intro o o' h e; rw [← Except.ok.inj e]; exact h
  | succ n ih =>
    intro o o' h e
    have h1 : ([0] : List Byte).length < 2 ^ m := by show 1 < 2 ^ m; omega
    obtain ⟨o1, e1, e2⟩ := bind_ok e
    exact ih o1 o' (cadd_inv hm' o o1 h _ h1 e1) e2

theorem newK_room (P : Byte) (dl : Int) (k : KObj R) (e : newK R P dl = .ok k) : Room R (fun _ => True) k.obj := by
  unfold newK SHA3.construct at e
  split at e
  · cases e
  · have := Except.ok.inj e
    subst this
    exact (sha3Total R P dl.toNat).fresh

theorem construct (hm : 2 * R < 2 ^ m) (h16 : 16 ≤ m) (hm' : m ≤ 64) (nb : Nat → Nat) (dl : Int) (name custom : List Byte)
    (hn : 8 * name.length < 2 ^ m) (hc : 8 * custom.length < 2 ^ m) :
    constructM m nb R dl name custom = CShake.construct nb R dl name custom := by
  have hbig := big h16
  have hp := hR.pos
  unfold constructM CShake.construct
  simp only []
  split
  · rfl
  · refine bind_eq rfl fun k hk => bind_eq rfl fun b hb => ?_
    have h0 : KRoom (⟨!(name.isEmpty && custom.isEmpty), none, some k⟩ : CShake R) := by
      refine ⟨fun _ h => (nomatch h), fun k1 h1 => ?_⟩
      have := Option.some.inj h1
      subst this
      exact newK_room _ _ _ hk
    have h8 := leftEncode_size hb
    have hcb : b.contents.length < 2 ^ m := by have := contents_le b; omega
    refine bind_eq (cadd hm _ h0 _ hcb) fun o1 e1 => ?_
    have h1 := cadd_inv hm' _ o1 h0 _ hcb e1
    refine bind_eq (processString hm hm' nb o1 h1 name _ hn (by omega)) fun p e2 => ?_
    obtain ⟨o2, n2⟩ := p
    obtain ⟨h2, l2⟩ := processString_inv h16 hm' nb o1 o2 h1 name _ n2 hn e2
    refine bind_eq (processString hm hm' nb o2 h2 custom _ hc (by omega)) fun p e3 => ?_
    obtain ⟨o3, n3⟩ := p
    obtain ⟨h3, l3⟩ := processString_inv h16 hm' nb o2 o3 h2 custom _ n3 hc e3
    simp only []
    rw [szSub_eq (Nat.le_of_lt (Nat.mod_lt _ hp)) (by omega)]
    exact addZeros hm hm' _ o3 h3

theorem construct_inv (hm : 2 * R < 2 ^ m) (h16 : 16 ≤ m) (hm' : m ≤ 64) (nb : Nat → Nat) (dl : Int) (name custom : List Byte)
    (hn : 8 * name.length < 2 ^ m) (hc : 8 * custom.length < 2 ^ m) (o : CShake R)
    (e : CShake.construct nb R dl name custom = .ok o) : KRoom o := by
  have hbig := big h16
  unfold CShake.construct at e
  simp only [] at e
  split at e
  · obtain ⟨k, ek, e⟩ := bind_ok e
    have := Except.ok.inj e
    subst this
    refine ⟨fun k1 h1 => ?_, fun _ h => (nomatch h)⟩
    have := Option.some.inj h1
    subst this
    exact newK_room _ _ _ ek
  · obtain ⟨k, hk, e⟩ := bind_ok e
    obtain ⟨b, hb, e⟩ := bind_ok e
    obtain ⟨o1, e1, e⟩ := bind_ok e
    obtain ⟨⟨o2, n2⟩, e2, e⟩ := bind_ok e
    obtain ⟨⟨o3, n3⟩, e3, e⟩ := bind_ok e
    have h0 : KRoom (⟨!(name.isEmpty && custom.isEmpty), none, some k⟩ : CShake R) := by
      refine ⟨fun _ h => (nomatch h), fun k1 h1 => ?_⟩
      have := Option.some.inj h1
      subst this
      exact newK_room _ _ _ hk
    have hcb : b.contents.length < 2 ^ m := by have := contents_le b; omega
    have h1 := cadd_inv hm' _ o1 h0 _ hcb e1
    obtain ⟨h2, l2⟩ := processString_inv h16 hm' nb o1 o2 h1 name _ n2 hn e2
    obtain ⟨h3, l3⟩ := processString_inv h16 hm' nb o2 o3 h2 custom _ n3 hc e3
    exact addZeros_inv hm hm' _ o3 o h3 e

/-! ### TupleHash -/

/-- what a history on a TupleHash object does to its cSHAKE object when `size_t` has `m` bits -/
def callsM (m dl : Nat) : List Op → List Op
  | [] => []
  | .add d :: ops => .add (SP800185.leftEncode (8 * d.length % 2 ^ m)) :: .add d :: callsM m dl ops
  | .reset :: ops => .reset :: callsM m dl ops
  | .finalize :: ops => .add (SP800185.rightEncode (8 * dl)) :: .finalize :: callsM m dl ops

theorem callsM_eq (dl : Nat) (ops : List Op) (h : ∀ d, Op.add d ∈ ops → 8 * d.length < 2 ^ m) :
    callsM m dl ops = calls dl ops := by
  induction ops with
  | nil => rfl
  | cons op ops ih =>
    have ih := ih fun d hd => h d (by simp [hd])
    cases op with
    | add d => rw [callsM, calls, ih, Nat.mod_eq_of_lt (h d (by simp))]
    | reset => rw [callsM, calls, ih]
    | finalize => rw [callsM, calls, ih]

theorem tupleRunM_calls (nb : Nat → Nat) (hnb : SP800185.ExactLog nb) (h3 : 3 ≤ m) (dl : Nat) (hd : dl < 2 ^ 28)
    (c : CShake R) (ops : List Op)
    (hs : ∀ d, Op.add d ∈ ops → 8 * d.length % 2 ^ m < 2 ^ 56 - 2048) :
    tupleRunM m nb ⟨c, dl⟩ ops = (do return ⟨← runM m c (callsM m dl ops), dl⟩) := by
  induction ops generalizing c with
  | nil => rfl
  | cons op ops ih =>
    have ih := fun c => ih c fun d hd => hs d (by simp [hd])
    cases op with
    | add d =>
      have hlen := hs d (by simp)
      have h8 : 8 * d.length % 2 ^ m % 8 = 0 := by
        obtain ⟨k, rfl⟩ : ∃ k, m = 3 + k := ⟨m - 3, by omega⟩
        rw [Nat.pow_add, show (2 : Nat) ^ 3 = 8 from rfl, Nat.mod_mul_right_mod]
        omega
      obtain ⟨b, e, hb⟩ := leftEncode_holds nb hnb (8 * d.length % 2 ^ m) hlen h8
      simp only [tupleRunM, callsM, runM, tupleStepM]
      unfold szMul
      rw [Nat.mul_comm d.length, e]
      simp only [bind, Except.bind, hb.2]
      cases h1 : stepM m c (.add (SP800185.leftEncode (8 * d.length % 2 ^ m))) with
      | error f => rfl
      | ok c1 =>
        simp only []
        cases h2 : stepM m c1 (.add d) with
        | error f => rfl
        | ok c2 => exact ih c2
    | reset =>
      simp only [tupleRunM, callsM, runM, tupleStepM]
      cases h1 : stepM m c .reset with
      | error f => rfl
      | ok c1 => exact ih c1
    | finalize =>
      obtain ⟨b, e, hb⟩ := rightEncode_holds nb hnb (8 * dl) (by omega) (by omega)
      simp only [tupleRunM, callsM, runM, tupleStepM]
      rw [if_neg (by omega)]
      have hv : (BitVec.ofInt 64 ((dl : Int) * 8)).toNat = 8 * dl := by
        rw [show ((dl : Int) * 8) = ((8 * dl : Nat) : Int) by omega, BitVec.ofInt_natCast, BitVec.toNat_ofNat,
          Nat.mod_eq_of_lt (by omega)]
      rw [hv, e]
      simp only [bind, Except.bind, pure, Except.pure, hb.2]
      cases h1 : stepM m c (.add (SP800185.rightEncode (8 * dl))) with
      | error f => rfl
      | ok c1 =>
        simp only []
        cases h2 : stepM m c1 .finalize with
        | error f => rfl
        | ok c2 => exact ih c2

theorem rightEncode_size {nb : Nat → Nat} {v : Nat} {b : Buffer 8} (e : rightEncode nb v = .ok b) : b.size ≤ 8 := by
  obtain ⟨b1, e1, e2⟩ := bind_ok e
  exact (fill_size e2).2

theorem fitting_fin : Fitting m [.finalize] := fun _ h => by simp at h
theorem fitting_reset : Fitting m [.reset] := fun _ h => by simp at h

theorem tstep (hm : 2 * R < 2 ^ m) (h16 : 16 ≤ m) (hm' : m ≤ 64) (nb : Nat → Nat) (o : TupleHash R) (h : KRoom o.cshake)
    (op : Op) (hf : ∀ d, op = .add d → 8 * d.length < 2 ^ m) : tupleStepM m nb o op = tupleStep nb o op := by
  have hbig := big h16
  have h64 : (2 : Nat) ^ m ≤ 2 ^ 64 := Nat.pow_le_pow_right (by decide) hm'
  cases op with
  | add d =>
    have hd := hf d rfl
    show _ = nextData nb o d
    unfold tupleStepM nextData
    simp only []
    rw [szMul_eq (by omega), Nat.mod_eq_of_lt (a := d.length * 8) (by omega)]
    refine bind_eq rfl fun b hb => ?_
    have hc : b.contents.length < 2 ^ m := by have := contents_le b; omega
    refine bind_eq (cadd hm _ h _ hc) fun c1 e1 => ?_
    exact bind_eq (cadd hm c1 (cadd_inv hm' _ c1 h _ hc e1) _ (by omega)) fun _ _ => rfl
  | reset => exact bind_eq (cstep hm _ h .reset fitting_reset) fun _ _ => rfl
  | finalize =>
    show _ = tupleFinalize nb o
    unfold tupleStepM tupleFinalize
    simp only []
    split
    · rfl
    · refine bind_eq rfl fun b hb => ?_
      have hc : b.contents.length < 2 ^ m := by have := contents_le b; omega
      refine bind_eq (cadd hm _ h _ hc) fun c1 e1 => ?_
      exact bind_eq (cstep hm c1 (cadd_inv hm' _ c1 h _ hc e1) .finalize fitting_fin) fun _ _ => rfl

theorem tstep_inv (h16 : 16 ≤ m) (hm' : m ≤ 64) (nb : Nat → Nat) (o o' : TupleHash R) (h : KRoom o.cshake)
    (op : Op) (hf : ∀ d, op = .add d → 8 * d.length < 2 ^ m) (e : tupleStep nb o op = .ok o') : KRoom o'.cshake := by
  have hbig := big h16
  cases op with
  | add d =>
    have hd := hf d rfl
    obtain ⟨b, hb, e⟩ := bind_ok e
    obtain ⟨c1, e1, e⟩ := bind_ok e
    obtain ⟨c2, e2, e⟩ := bind_ok e
    have := Except.ok.inj e
    subst this
    have hc : b.contents.length < 2 ^ m := by have := contents_le b; omega
    exact cadd_inv hm' c1 c2 (cadd_inv hm' _ c1 h _ hc e1) d (by omega) e2
  | reset =>
    obtain ⟨c1, e1, e⟩ := bind_ok e
    have := Except.ok.inj e
    subst this
    exact cstep_inv hm' _ c1 h .reset fitting_reset e1
  | finalize =>
    have e : tupleFinalize nb o = .ok o' := e
    unfold tupleFinalize at e
    simp only [] at e
    split at e
    · cases e
    · obtain ⟨b, hb, e⟩ := bind_ok e
      obtain ⟨c1, e1, e⟩ := bind_ok e
      obtain ⟨c2, e2, e⟩ := bind_ok e
      have := Except.ok.inj e
      subst this
      have hc : b.contents.length < 2 ^ m := by have := contents_le b; omega
      exact cstep_inv hm' c1 c2 (cadd_inv hm' _ c1 h _ hc e1) .finalize fitting_fin e2

theorem trun (hm : 2 * R < 2 ^ m) (h16 : 16 ≤ m) (hm' : m ≤ 64) (nb : Nat → Nat) (ops : List Op) :
    ∀ o : TupleHash R, KRoom o.cshake → (∀ d, Op.add d ∈ ops → 8 * d.length < 2 ^ m) →
      tupleRunM m nb o ops = tupleRun nb o ops := by
  induction ops with
  | nil => intro o _ _; rfl
  | cons op ops ih =>
    intro o h hf
    have hop : ∀ d, op = .add d → 8 * d.length < 2 ^ m := fun d hd => hf d (by simp [hd])
    exact bind_eq (tstep hm h16 hm' nb o h op hop) fun o' e =>
      ih o' (tstep_inv h16 hm' nb o o' h op hop e) fun d hd => hf d (by simp [hd])

/-! ### what the constructor absorbs, wrapped lengths included -/

/-- an encoded string as it comes out when `size_t` has `m` bits -/
def encodeM (m : Nat) (s : List Byte) : List Byte := SP800185.leftEncode (8 * s.length % 2 ^ m) ++ s

theorem mod8 (h3 : 3 ≤ m) (n : Nat) : 8 * n % 2 ^ m % 8 = 0 := by
  obtain ⟨k, rfl⟩ : ∃ k, m = 3 + k := ⟨m - 3, by omega⟩
  rw [Nat.pow_add, show (2 : Nat) ^ 3 = 8 from rfl, Nat.mod_mul_right_mod]
  omega

theorem addM_mk (hm : 2 * R < 2 ^ m) (hm' : m ≤ 64) (c : Bool) (dl : Nat) {dig : List Byte → Except Fault (List Byte)}
    (r : Refines (SHA3.Keccak R (padOf c) dl) dig) (x : Obj R SHA3.KState) (msg d : List Byte) (h : r.R x msg)
    (hk : KRoom (mk c ⟨dl, x⟩)) (hd : d.length < 2 ^ m) :
    ∃ x', stepM m (mk c ⟨dl, x⟩) (.add d) = .ok (mk c ⟨dl, x'⟩) ∧ r.R x' (msg ++ d) ∧ KRoom (mk c ⟨dl, x'⟩) := by
  have h64 : (2 : Nat) ^ m ≤ 2 ^ 64 := Nat.pow_le_pow_right (by decide) hm'
  obtain ⟨x', e, h'⟩ := addData_mk c dl r x msg d h (by omega)
  exact ⟨x', by rw [cadd hm _ hk d hd, e], h', cadd_inv hm' _ _ hk d hd e⟩

theorem processStringM_mk (hm : 2 * R < 2 ^ m) (h16 : 16 ≤ m) (hm' : m ≤ 64) (nb : Nat → Nat)
    (hnb : SP800185.ExactLog nb) (dl : Nat) {dig : List Byte → Except Fault (List Byte)}
    (r : Refines (SHA3.Keccak R 0x04 dl) dig) (x : Obj R SHA3.KState) (msg s : List Byte) (h : r.R x msg)
    (hk : KRoom (mk true ⟨dl, x⟩)) (hs : 8 * s.length % 2 ^ m < 2 ^ 56 - 2048) (hl : msg.length + 8 + s.length < 2 ^ m) :
    ∃ x', processStringM m nb (mk true ⟨dl, x⟩) s msg.length = .ok (mk true ⟨dl, x'⟩, (msg ++ encodeM m s).length) ∧
      r.R x' (msg ++ encodeM m s) ∧ KRoom (mk true ⟨dl, x'⟩) ∧ (encodeM m s).length ≤ 8 + s.length := by
  have hbig := big h16
  obtain ⟨b, e, hb⟩ := leftEncode_holds nb hnb (8 * s.length % 2 ^ m) hs (mod8 (by omega) _)
  have hb8 := hb.le
  obtain ⟨x1, e1, h1, k1⟩ := addM_mk hm hm' true dl r x msg _ h hk
    (show (SP800185.leftEncode (8 * s.length % 2 ^ m)).length < 2 ^ m by omega)
  obtain ⟨x2, e2, h2, k2⟩ := addM_mk hm hm' true dl r x1 _ s h1 k1 (by omega)
  refine ⟨x2, ?_, by simpa [encodeM] using h2, k2, by simp only [encodeM, List.length_append]; omega⟩
  unfold processStringM szMul
  rw [Nat.mul_comm s.length, e]
  simp only [bind, Except.bind, hb.2, hb.size_eq]
  rw [e1]
  simp only []
  rw [e2]
  simp only [pure, Except.pure]
  rw [szAdd_eq (a := msg.length) (by omega), szAdd_eq (by omega)]
  simp only [encodeM, List.length_append, Nat.add_assoc]

theorem addZerosM_mk (hm : 2 * R < 2 ^ m) (hm' : m ≤ 64) (c : Bool) (dl : Nat)
    {dig : List Byte → Except Fault (List Byte)} (r : Refines (SHA3.Keccak R (padOf c) dl) dig) (n : Nat) :
    ∀ (x : Obj R SHA3.KState) (msg : List Byte), r.R x msg → KRoom (mk c ⟨dl, x⟩) →
      ∃ x', addZerosM m n (mk c ⟨dl, x⟩) = .ok (mk c ⟨dl, x'⟩) ∧ r.R x' (msg ++ List.replicate n 0) ∧
        KRoom (mk c ⟨dl, x'⟩) := by
  have hp := hR.pos
  induction n with
  | zero => intro x msg h hk; exact ⟨x, rfl, by simpa using h, hk⟩
  | succ n ih =>
    intro x msg h hk
    obtain ⟨x1, e1, h1, k1⟩ := addM_mk hm hm' c dl r x msg [0] h hk (by show 1 < 2 ^ m; omega)
    obtain ⟨x2, e2, h2, k2⟩ := ih x1 _ h1 k1
    refine ⟨x2, ?_, by simpa [List.replicate_succ] using h2, k2⟩
    unfold addZerosM
    rw [e1]
    exact e2

/-- what a customised constructor absorbs when `size_t` has `m` bits -/
def preM (m R : Nat) (name custom : List Byte) : List Byte :=
  let z := SP800185.leftEncode R ++ encodeM m name ++ encodeM m custom
  z ++ List.replicate ((R - z.length % R) % R) 0

theorem constructM_mk (hm : 2 * R < 2 ^ m) (h16 : 16 ≤ m) (hm' : m ≤ 64) (nb : Nat → Nat) (hnb : SP800185.ExactLog nb)
    (h8 : R % 8 = 0) (dl : Nat) {dig : List Byte → Except Fault (List Byte)} (r : Refines (SHA3.Keccak R 0x04 dl) dig)
    (name custom : List Byte) (hne : ¬(name = [] ∧ custom = [])) (hn : 8 * name.length % 2 ^ m < 2 ^ 56 - 2048)
    (hc : 8 * custom.length % 2 ^ m < 2 ^ 56 - 2048) (hl : name.length + custom.length + 24 < 2 ^ m) :
    ∃ x, constructM m nb R (dl : Int) name custom = .ok (mk true ⟨dl, x⟩) ∧ r.R x (preM m R name custom) ∧
      KRoom (mk true ⟨dl, x⟩) := by
  have hle := hR.le
  have hp := hR.pos
  have hbig := big h16
  have hcust : (!(name.isEmpty && custom.isEmpty)) = true := by
    cases name with
    | cons a l => rfl
    | nil => cases custom with
      | cons a l => rfl
      | nil => exact absurd ⟨rfl, rfl⟩ hne
  unfold constructM
  rw [hcust]
  simp only [Bool.true_eq_false, if_false]
  rw [new_mk]
  simp only [bind, Except.bind]
  obtain ⟨b, e, hb⟩ := leftEncode_holds nb hnb R (by omega) h8
  rw [e]
  simp only [hb.2, hb.size_eq]
  have hl8 := hb.le
  have k0 : KRoom (mk true ⟨dl, (SHA3.Keccak R 0x04 dl).fresh⟩) := by
    refine ⟨fun _ h => (nomatch h), fun k1 h1 => ?_⟩
    have := Option.some.inj h1
    subst this
    exact (sha3Total R 0x04 dl).fresh
  obtain ⟨x1, e1, h1, k1⟩ := addM_mk hm hm' true dl r (SHA3.Keccak R 0x04 dl).fresh [] (SP800185.leftEncode R) r.fresh k0
    (by omega)
  have e1' : stepM m (⟨true, none, some ⟨dl, (SHA3.Keccak R 0x04 dl).fresh⟩⟩ : CShake R) (.add (SP800185.leftEncode R)) =
    .ok (mk true ⟨dl, x1⟩) := e1
  rw [e1']
  simp only []
  rw [List.nil_append] at h1
  obtain ⟨x2, e2, h2, k2, l2⟩ := processStringM_mk hm h16 hm' nb hnb dl r x1 _ name h1 k1 hn (by omega)
  rw [e2]
  simp only []
  obtain ⟨x3, e3, h3, k3, l3⟩ := processStringM_mk hm h16 hm' nb hnb dl r x2 _ custom h2 k2 hc
    (by rw [List.length_append]; omega)
  rw [e3]
  simp only []
  rw [szSub_eq (Nat.le_of_lt (Nat.mod_lt _ hp)) (by omega)]
  exact addZerosM_mk hm hm' true dl r _ x3 _ h3 k3

/-- a legal history from an object that holds `msg` -/
theorem runM_from (hm : 2 * R < 2 ^ m) (hm' : m ≤ 64) (c : Bool) (dl : Nat) {spec : List Byte → List Byte}
    (r : Refines (SHA3.Keccak R (padOf c) dl) (fun m => .ok (spec m))) (x : Obj R SHA3.KState) (msg : List Byte)
    (h : r.R x msg) (hk : KRoom (mk c ⟨dl, x⟩)) (ops : List Op) (hf : Fitting m ops) (hl : Legal (ops ++ [.finalize])) :
    ∃ o, runM m (mk c ⟨dl, x⟩) (ops ++ [.finalize]) = .ok o ∧ toVector o = .ok (spec (messageFrom msg ops)) := by
  obtain ⟨o, e, q⟩ := run_from c dl r x msg h ops hl
  refine ⟨o, ?_, q⟩
  rw [crun hm hm' _ _ hk (fun d hd => by simp at hd; exact hf d hd), e]

end
end Verif.Proof.Machine
