import Verif.Model.CShake
import Verif.Spec.SP800185
import Verif.Proof.SHA3

/-! The cSHAKE and TupleHash models compute SP 800-185. -/

namespace Verif.Proof.CShake
open Model.SHA3 Model.CShake Spec
open Spec.SP800185 (ExactLog)

/-! ### Encodings -/

theorem byteLen_pos (x : Nat) : 1 ≤ SP800185.byteLen x := by
  unfold SP800185.byteLen
  split <;> omega

theorem byteLen_lt (x : Nat) : x < 256 ^ SP800185.byteLen x := by
  induction x using SP800185.byteLen.induct with
  | case1 x h => unfold SP800185.byteLen; rw [if_pos h]; omega
  | case2 x h ih =>
    unfold SP800185.byteLen
    rw [if_neg h, Nat.pow_succ]
    omega

theorem byteLen_min (x n : Nat) (hn : 1 ≤ n) (h : x < 256 ^ n) : SP800185.byteLen x ≤ n := by
  induction n generalizing x with
  | zero => omega
  | succ n ih =>
    unfold SP800185.byteLen
    split
    · omega
    · rename_i hx
      by_cases h0 : n = 0
      · subst h0; omega
      · have := ih (x / 256) (by omega) (by
          rw [Nat.div_lt_iff_lt_mul (by decide)]
          rw [Nat.pow_succ] at h
          exact h)
        omega

theorem exact_byteLen : ExactLog SP800185.byteLen := fun _ _ _ _ => rfl

theorem toBE_succ (n x : Nat) : toBE (n + 1) x = BitVec.ofNat 8 (x / 256 ^ n) :: toBE n x := by
  have h : ∀ n x, toLE (n + 1) x = toLE n x ++ [BitVec.ofNat 8 (x / 256 ^ n)] := by
    intro n
    induction n with
    | zero => intro x; simp [toLE]
    | succ n ih =>
      intro x
      rw [toLE, ih, toLE, List.cons_append, Nat.div_div_eq_div_mul, Nat.pow_succ, Nat.mul_comm]
  unfold toBE
  rw [h, List.reverse_append]
  rfl

theorem fillBytes_holds (v : Nat) (hv : v < 2 ^ 64) (n : Nat) (b : Buffer 8) (l : List Byte) (h : b.Holds l)
    (hn : l.length + n ≤ 8) : ∃ b', fillBytes v n b = .ok b' ∧ b'.Holds (l ++ toBE n v) := by
  induction n generalizing b l with
  | zero => exact ⟨b, rfl, by simpa [toBE, toLE] using h⟩
  | succ n ih =>
    obtain ⟨b1, e1, h1⟩ := Buffer.fill_holds h (ror 8 (BitVec.ofNat 64 v) (8 * n)) 1 (by omega) (by omega)
    obtain ⟨b2, e2, h2⟩ := ih b1 _ h1 (by simp; omega)
    refine ⟨b2, by unfold fillBytes; rw [e1]; exact e2, ?_⟩
    rw [toBE_succ]
    have : ror 8 (BitVec.ofNat 64 v) (8 * n) = BitVec.ofNat 8 (v / 256 ^ n) := by
      have := ror8_eq (BitVec.ofNat 64 v) n
      rw [this, BitVec.toNat_ofNat, Nat.mod_eq_of_lt hv]
    rw [this] at h2
    simpa using h2

theorem leftEncode_holds (nb : Nat → Nat) (hnb : ExactLog nb) (v : Nat) (hv : v < 2 ^ 56 - 2048) (h8 : v % 8 = 0) :
    ∃ b, leftEncode nb v = .ok b ∧ b.Holds (SP800185.leftEncode v) := by
  have hc : byteCount nb v = SP800185.byteLen v := by
    unfold byteCount
    split
    · rename_i h; subst h; unfold SP800185.byteLen; rfl
    · rw [hnb v (by omega) hv h8]
      have := byteLen_min v 7 (by decide) (by omega)
      omega
  have h7 := byteLen_min v 7 (by decide) (by omega)
  unfold leftEncode
  rw [hc]
  dsimp only
  obtain ⟨b1, e1, h1⟩ := Buffer.fill_holds (N := 8) Buffer.holds_empty (BitVec.ofNat 8 (SP800185.byteLen v)) 1
    (by decide) (by decide)
  obtain ⟨b2, e2, h2⟩ := fillBytes_holds v (by omega) (SP800185.byteLen v) b1 _ h1 (by simp; omega)
  refine ⟨b2, by rw [e1]; exact e2, ?_⟩
  simpa [SP800185.leftEncode] using h2

theorem rightEncode_holds (nb : Nat → Nat) (hnb : ExactLog nb) (v : Nat) (hv : v < 2 ^ 56 - 2048) (h8 : v % 8 = 0) :
    ∃ b, rightEncode nb v = .ok b ∧ b.Holds (SP800185.rightEncode v) := by
  have hc : byteCount nb v = SP800185.byteLen v := by
    unfold byteCount
    split
    · rename_i h; subst h; unfold SP800185.byteLen; rfl
    · rw [hnb v (by omega) hv h8]
      have := byteLen_min v 7 (by decide) (by omega)
      omega
  have h7 := byteLen_min v 7 (by decide) (by omega)
  unfold rightEncode
  rw [hc]
  dsimp only
  obtain ⟨b1, e1, h1⟩ := fillBytes_holds v (by omega) (SP800185.byteLen v) {} _ Buffer.holds_empty (by simp; omega)
  obtain ⟨b2, e2, h2⟩ := Buffer.fill_holds h1 (BitVec.ofNat 8 (SP800185.byteLen v)) 1 (by simp) (by simp; omega)
  refine ⟨b2, by rw [e1]; exact e2, ?_⟩
  simpa [SP800185.rightEncode] using h2

/-! ### The object as a wrapper of a Keccak object -/

/-- an exact byte count that the kernel can evaluate -/
def countBytes (v : Nat) : Nat :=
  if v < 256 then 1 else if v < 256 ^ 2 then 2 else if v < 256 ^ 3 then 3 else if v < 256 ^ 4 then 4
  else if v < 256 ^ 5 then 5 else if v < 256 ^ 6 then 6 else 7

theorem byteLen_unique (x n : Nat) (h1 : 1 ≤ n) (h2 : x < 256 ^ n) (h3 : 256 ^ (n - 1) ≤ x) : SP800185.byteLen x = n := by
  have h4 := byteLen_min x n h1 h2
  have h5 := byteLen_lt x
  refine Nat.le_antisymm h4 ?_
  by_cases h : SP800185.byteLen x ≤ n - 1
  · have := Nat.pow_le_pow_right (by decide : 0 < 256) h
    omega
  · omega

theorem countBytes_exact : ExactLog countBytes := by
  intro v h0 h56 _
  unfold countBytes
  repeat' split
  all_goals (symm; apply byteLen_unique <;> omega)

section
variable {R : Nat} [hR : RateOK R]

/-- an object as constructors and copies leave it: only the pointer in use is set -/
def mk (c : Bool) (k : KObj R) : CShake R := if c then ⟨true, none, some k⟩ else ⟨false, some k, none⟩

/-- the padding byte of the class in use -/
def padOf (c : Bool) : Byte := if c then 0x04 else 0x1F

theorem step_mk (c : Bool) (dl : Nat) (x : Obj R KState) (op : Op) :
    step (mk c ⟨dl, x⟩) op = (do return mk c ⟨dl, ← (Keccak R (padOf c) dl).step x op⟩) := by
  cases c
  · cases op <;> simp only [step, mk, padOf, Model.CShake.addData, reset, Model.CShake.finalize, onActive, callK] <;>
      simp only [Bool.false_eq_true, if_false, if_true] <;>
      (generalize (Keccak R 31#8 dl).step x _ = e; cases e <;> rfl)
  · cases op <;> simp only [step, mk, padOf, Model.CShake.addData, reset, Model.CShake.finalize, onActive, callK] <;>
      simp only [Bool.true_eq_false, if_false, if_true] <;>
      (generalize (Keccak R 4#8 dl).step x _ = e; cases e <;> rfl)

theorem run_mk (c : Bool) (dl : Nat) (x : Obj R KState) (ops : List Op) :
    run (mk c ⟨dl, x⟩) ops = (do return mk c ⟨dl, ← (Keccak R (padOf c) dl).run x ops⟩) := by
  induction ops generalizing x with
  | nil => rfl
  | cons op ops ih =>
    simp only [run, API.run, step_mk]
    cases h : (Keccak R (padOf c) dl).step x op with
    | error e => rfl
    | ok y =>
      simp only [bind, Except.bind, pure, Except.pure]
      exact ih y

omit hR in
theorem toVector_mk (c : Bool) (k : KObj R) : toVector (mk c k) = Model.SHA3.toVector k.obj := by
  cases c <;> rfl

theorem addData_mk (c : Bool) (dl : Nat) {dig : List Byte → Except Fault (List Byte)}
    (r : Refines (Keccak R (padOf c) dl) dig) (x : Obj R KState) (m d : List Byte) (h : r.R x m)
    (hd : d.length < 2 ^ 64) : ∃ y, Model.CShake.addData (mk c ⟨dl, x⟩) d = .ok (mk c ⟨dl, y⟩) ∧ r.R y (m ++ d) := by
  obtain ⟨y, e, hy⟩ := r.add x m d hd h
  refine ⟨y, ?_, hy⟩
  have := step_mk c dl x (.add d)
  simp only [step, API.step, e] at this
  exact this

/-! ### Construction -/

theorem new_mk (P : Byte) (dl : Nat) : newK R P (dl : Int) = .ok ⟨dl, (Keccak R P dl).fresh⟩ := by
  unfold newK Model.SHA3.construct
  rw [if_neg (by omega)]
  simp only [bind, Except.bind, pure, Except.pure, Int.toNat_natCast]

theorem addZeros_mk (c : Bool) (dl : Nat) {dig : List Byte → Except Fault (List Byte)}
    (r : Refines (Keccak R (padOf c) dl) dig) (n : Nat) (x : Obj R KState) (m : List Byte) (h : r.R x m) :
    ∃ y, addZeros n (mk c ⟨dl, x⟩) = .ok (mk c ⟨dl, y⟩) ∧ r.R y (m ++ List.replicate n 0) := by
  induction n generalizing x m with
  | zero => exact ⟨x, rfl, by simpa using h⟩
  | succ n ih =>
    obtain ⟨y, e, hy⟩ := addData_mk c dl r x m [0] h (by decide)
    obtain ⟨z, e', hz⟩ := ih y _ hy
    refine ⟨z, by unfold addZeros; rw [e]; exact e', ?_⟩
    rw [List.replicate_succ]
    simpa using hz

theorem encodeString_length (s : List Byte) :
    (SP800185.encodeString s).length = 1 + SP800185.byteLen (8 * s.length) + s.length := by
  simp [SP800185.encodeString, SP800185.leftEncode]
  omega

theorem processString_mk (nb : Nat → Nat) (hnb : ExactLog nb) (dl : Nat)
    {dig : List Byte → Except Fault (List Byte)} (r : Refines (Keccak R 0x04 dl) dig) (x : Obj R KState)
    (m s : List Byte) (h : r.R x m) (hs : s.length < 2 ^ 53 - 256) (hm : m.length < 2 ^ 60) :
    ∃ y, processString nb (mk true ⟨dl, x⟩) s m.length =
        .ok (mk true ⟨dl, y⟩, (m ++ SP800185.encodeString s).length) ∧ r.R y (m ++ SP800185.encodeString s) := by
  have h7 := byteLen_min (8 * s.length) 7 (by decide) (by omega)
  unfold processString
  rw [Nat.mod_eq_of_lt (by omega), Nat.mul_comm]
  obtain ⟨b, e, hb⟩ := leftEncode_holds nb hnb (8 * s.length) (by omega) (by omega)
  rw [e]
  simp only [bind, Except.bind, hb.2, hb.size_eq]
  have hl : (SP800185.leftEncode (8 * s.length)).length = 1 + SP800185.byteLen (8 * s.length) := by
    simp [SP800185.leftEncode]; omega
  obtain ⟨y, ey, hy⟩ := addData_mk true dl r x m (SP800185.leftEncode (8 * s.length)) h (by omega)
  rw [ey]
  simp only []
  obtain ⟨z, ez, hz⟩ := addData_mk true dl r y _ s hy (by omega)
  rw [ez]
  simp only [pure, Except.pure]
  refine ⟨z, ?_, by simpa [SP800185.encodeString] using hz⟩
  rw [List.length_append, encodeString_length, hl, Nat.mod_eq_of_lt (a := m.length + _) (by omega),
    Nat.mod_eq_of_lt (by omega)]
  rw [show m.length + (1 + SP800185.byteLen (8 * s.length)) + s.length =
    m.length + (1 + SP800185.byteLen (8 * s.length) + s.length) by omega]

/-- the bytes absorbed by a customised constructor -/
def pre (R : Nat) (name custom : List Byte) : List Byte :=
  SP800185.bytepad (SP800185.encodeString name ++ SP800185.encodeString custom) R

theorem construct_mk (nb : Nat → Nat) (hnb : ExactLog nb) (h8 : R % 8 = 0) (dl : Nat)
    {dig : List Byte → Except Fault (List Byte)} (r : Refines (Keccak R 0x04 dl) dig) (name custom : List Byte)
    (hne : ¬(name = [] ∧ custom = [])) (hn : name.length < 2 ^ 53 - 256) (hc : custom.length < 2 ^ 53 - 256) :
    ∃ x, Model.CShake.construct nb R (dl : Int) name custom = .ok (mk true ⟨dl, x⟩) ∧ r.R x (pre R name custom) := by
  have hle := hR.le
  have hcust : (!(name.isEmpty && custom.isEmpty)) = true := by
    cases name with
    | cons a l => rfl
    | nil => cases custom with
      | cons a l => rfl
      | nil => exact absurd ⟨rfl, rfl⟩ hne
  unfold Model.CShake.construct
  rw [hcust]
  simp only [Bool.true_eq_false, if_false]
  rw [new_mk]
  simp only [bind, Except.bind]
  obtain ⟨b, e, hb⟩ := leftEncode_holds nb hnb R (by omega) h8
  rw [e]
  simp only [hb.2, hb.size_eq]
  have hl : (SP800185.leftEncode R).length ≤ 7 := by
    have := byteLen_min R 6 (by decide) (by omega)
    simp [SP800185.leftEncode]; omega
  have hn7 := byteLen_min (8 * name.length) 7 (by decide) (by omega)
  have hc7 := byteLen_min (8 * custom.length) 7 (by decide) (by omega)
  obtain ⟨x1, e1, h1⟩ := addData_mk true dl r (Keccak R 0x04 dl).fresh [] (SP800185.leftEncode R) r.fresh (by omega)
  have e1' : Model.CShake.addData ⟨true, none, some ⟨dl, (Keccak R 0x04 dl).fresh⟩⟩ (SP800185.leftEncode R) =
    .ok (mk true ⟨dl, x1⟩) := e1
  rw [e1']
  simp only []
  rw [List.nil_append] at h1
  obtain ⟨x2, e2, h2⟩ := processString_mk nb hnb dl r x1 _ name h1 hn (by omega)
  rw [e2]
  simp only []
  obtain ⟨x3, e3, h3⟩ := processString_mk nb hnb dl r x2 _ custom h2 hc
    (by rw [List.length_append, encodeString_length]; omega)
  rw [e3]
  simp only []
  obtain ⟨x4, e4, h4⟩ := addZeros_mk true dl r
    ((R - (SP800185.leftEncode R ++ SP800185.encodeString name ++ SP800185.encodeString custom).length % R) % R) x3 _ h3
  refine ⟨x4, e4, ?_⟩
  unfold pre SP800185.bytepad
  dsimp only
  simpa using h4

theorem construct_plain (nb : Nat → Nat) (dl : Nat) :
    Model.CShake.construct nb R (dl : Int) [] [] = .ok (mk false ⟨dl, (Keccak R 0x1F dl).fresh⟩) := by
  unfold Model.CShake.construct
  simp only [List.isEmpty_nil, Bool.and_self, Bool.not_true, if_true]
  rw [new_mk]
  rfl

/-! ### Histories -/

def isReset : Op → Bool
  | .reset => true
  | _ => false

theorem messageFrom_noReset (acc : List Byte) (ops : List Op) (h : ∀ op ∈ ops, isReset op = false) :
    messageFrom acc ops = acc ++ message ops := by
  unfold message
  induction ops generalizing acc with
  | nil => simp [messageFrom]
  | cons op ops ih =>
    have h1 := h op (by simp)
    have h2 : ∀ op ∈ ops, isReset op = false := fun o ho => h o (by simp [ho])
    cases op with
    | add d => simp only [messageFrom]; rw [ih _ h2, ih ([] ++ d) h2]; simp
    | reset => exact absurd h1 (by decide)
    | finalize => simp only [messageFrom]; rw [ih _ h2]

theorem messageFrom_reset (acc : List Byte) (ops : List Op) (h : ∃ op ∈ ops, isReset op = true) :
    messageFrom acc ops = message ops := by
  unfold message
  obtain ⟨op, ho, hr⟩ := h
  have : ∀ (l : List Op) (a b : List Byte), op ∈ l → messageFrom a l = messageFrom b l := by
    intro l
    induction l with
    | nil => intro a b h; simp at h
    | cons o l ih =>
      intro a b h
      rcases List.mem_cons.mp h with h' | h'
      · subst h'
        cases op with
        | add d => simp [isReset] at hr
        | finalize => simp [isReset] at hr
        | reset => rfl
      · cases o with
        | add d => exact ih _ _ h'
        | finalize => exact ih _ _ h'
        | reset => rfl
  exact this ops acc [] ho

/-- a legal history from an object that holds `m` -/
theorem run_from (c : Bool) (dl : Nat) {spec : List Byte → List Byte}
    (r : Refines (Keccak R (padOf c) dl) (fun m => .ok (spec m))) (x : Obj R KState) (m : List Byte) (h : r.R x m)
    (ops : List Op) (hl : Legal (ops ++ [.finalize])) :
    ∃ o, run (mk c ⟨dl, x⟩) (ops ++ [.finalize]) = .ok o ∧ toVector o = .ok (spec (messageFrom m ops)) := by
  obtain ⟨y, e, hy⟩ := r.run_rel (ops ++ [Op.finalize]) false x m (by simpa [Refines.St] using h) hl
  rw [Refines.messageFrom_append, Refines.finFlag_append] at hy
  have hf : r.F y (messageFrom m ops) := by simpa [Refines.finFlag, messageFrom, Refines.St] using hy
  refine ⟨mk c ⟨dl, y⟩, by rw [run_mk, e]; rfl, ?_⟩
  rw [toVector_mk]
  exact r.out y _ hf

/-! ### TupleHash as a history of calls on its cSHAKE object -/

/-- what a history on a TupleHash object does to its cSHAKE object -/
def calls (dl : Nat) : List Op → List Op
  | [] => []
  | .add d :: ops => .add (SP800185.leftEncode (8 * d.length)) :: .add d :: calls dl ops
  | .reset :: ops => .reset :: calls dl ops
  | .finalize :: ops => .add (SP800185.rightEncode (8 * dl)) :: .finalize :: calls dl ops

/-- every element of the tuple is shorter than 2^53 - 256 bytes -/
def Small (ops : List Op) : Prop := ∀ d, Op.add d ∈ ops → d.length < 2 ^ 53 - 256

theorem tupleRun_calls (nb : Nat → Nat) (hnb : ExactLog nb) (dl : Nat) (hd : dl < 2 ^ 28) (c : CShake R)
    (ops : List Op) (hs : Small ops) :
    tupleRun nb ⟨c, dl⟩ ops = (do return ⟨← run c (calls dl ops), dl⟩) := by
  induction ops generalizing c with
  | nil => rfl
  | cons op ops ih =>
    have hs' : Small ops := fun d hd => hs d (by simp [hd])
    cases op with
    | add d =>
      have hlen := hs d (by simp)
      obtain ⟨b, e, hb⟩ := leftEncode_holds nb hnb (8 * d.length) (by omega) (by omega)
      simp only [tupleRun, calls, run, tupleStep, nextData, step]
      rw [Nat.mod_eq_of_lt (by omega), Nat.mul_comm, e]
      simp only [bind, Except.bind, hb.2]
      cases h1 : Model.CShake.addData c (SP800185.leftEncode (8 * d.length)) with
      | error f => rfl
      | ok c1 =>
        simp only []
        cases h2 : Model.CShake.addData c1 d with
        | error f => rfl
        | ok c2 => exact ih c2 hs'
    | reset =>
      simp only [tupleRun, calls, run, tupleStep, tupleReset, step]
      cases h1 : reset c with
      | error f => rfl
      | ok c1 => exact ih c1 hs'
    | finalize =>
      obtain ⟨b, e, hb⟩ := rightEncode_holds nb hnb (8 * dl) (by omega) (by omega)
      simp only [tupleRun, calls, run, tupleStep, tupleFinalize, step]
      rw [if_neg (by omega)]
      have hv : (BitVec.ofInt 64 ((dl : Int) * 8)).toNat = 8 * dl := by
        rw [show ((dl : Int) * 8) = ((8 * dl : Nat) : Int) by omega, BitVec.ofInt_natCast, BitVec.toNat_ofNat,
          Nat.mod_eq_of_lt (by omega)]
      rw [hv, e]
      simp only [bind, Except.bind, pure, Except.pure, hb.2]
      cases h1 : Model.CShake.addData c (SP800185.rightEncode (8 * dl)) with
      | error f => rfl
      | ok c1 =>
        simp only []
        cases h2 : Model.CShake.finalize c1 with
        | error f => rfl
        | ok c2 => exact ih c2 hs'

theorem calls_adds (dl : Nat) (X : List (List Byte)) :
    calls dl (X.map .add ++ [.finalize]) =
      (X.flatMap fun d => [Op.add (SP800185.leftEncode (8 * d.length)), Op.add d]) ++
        [Op.add (SP800185.rightEncode (8 * dl))] ++ [Op.finalize] := by
  induction X with
  | nil => rfl
  | cons d X ih => simp only [List.map_cons, List.cons_append, calls, ih, List.flatMap_cons]; simp

theorem message_calls (dl : Nat) (X : List (List Byte)) :
    message ((X.flatMap fun d => [Op.add (SP800185.leftEncode (8 * d.length)), Op.add d]) ++
        [Op.add (SP800185.rightEncode (8 * dl))]) = SP800185.tupleInput X dl := by
  unfold message SP800185.tupleInput
  rw [Refines.messageFrom_append]
  have : ∀ acc, messageFrom acc (X.flatMap fun d => [Op.add (SP800185.leftEncode (8 * d.length)), Op.add d])
      = acc ++ X.flatMap SP800185.encodeString := by
    induction X with
    | nil => intro acc; simp [messageFrom]
    | cons d X ih =>
      intro acc
      rw [List.flatMap_cons, Refines.messageFrom_append, ih, List.flatMap_cons]
      simp [messageFrom, SP800185.encodeString]
  rw [this]
  simp [messageFrom]

theorem noReset_calls (dl : Nat) (X : List (List Byte)) (op : Op)
    (h : op ∈ (X.flatMap fun d => [Op.add (SP800185.leftEncode (8 * d.length)), Op.add d]) ++
        [Op.add (SP800185.rightEncode (8 * dl))]) : isReset op = false := by
  rcases List.mem_append.mp h with h | h
  · obtain ⟨d, _, hd⟩ := List.mem_flatMap.mp h
    simp only [List.mem_cons, List.not_mem_nil, or_false] at hd
    rcases hd with hd | hd <;> subst hd <;> rfl
  · simp only [List.mem_cons, List.not_mem_nil, or_false] at h
    subst h
    rfl

theorem leftEncode_short (v : Nat) (h : v < 2 ^ 56 - 2048) : (SP800185.leftEncode v).length < 2 ^ 64 := by
  have := byteLen_min v 7 (by decide) (by omega)
  simp [SP800185.leftEncode]; omega

theorem rightEncode_short (v : Nat) (h : v < 2 ^ 56 - 2048) : (SP800185.rightEncode v).length < 2 ^ 64 := by
  have := byteLen_min v 7 (by decide) (by omega)
  simp [SP800185.rightEncode]; omega

theorem legal_calls (dl : Nat) (hd : dl < 2 ^ 28) (ops : List Op) (hs : Small ops) (fin : Bool) (hl : legalFrom fin ops) :
    legalFrom fin (calls dl ops) := by
  induction ops generalizing fin with
  | nil => exact hl
  | cons op ops ih =>
    have hs' : Small ops := fun d hd => hs d (by simp [hd])
    cases op with
    | add d =>
      have hlen := hs d (by simp)
      obtain ⟨h1, h2, h3⟩ := hl
      exact ⟨h1, leftEncode_short _ (by omega), rfl, by omega, ih hs' _ h3⟩
    | reset => exact ih hs' _ hl
    | finalize =>
      obtain ⟨h1, h2⟩ := hl
      exact ⟨h1, rightEncode_short _ (by omega), rfl, ih hs' _ h2⟩

/-! ### Injectivity of the encodings -/

omit hR in
theorem ofLE_toLE (n x : Nat) (h : x < 256 ^ n) : ofLE (toLE n x) = x := by
  induction n generalizing x with
  | zero => simp [toLE, ofLE]; omega
  | succ n ih =>
    rw [toLE, ofLE, ih, BitVec.toNat_ofNat]
    · omega
    · rw [Nat.div_lt_iff_lt_mul (by decide)]
      rwa [Nat.pow_succ] at h

omit hR in
theorem toBE_inj (n x y : Nat) (hx : x < 256 ^ n) (hy : y < 256 ^ n) (h : toBE n x = toBE n y) : x = y := by
  unfold toBE at h
  rw [← ofLE_toLE n x hx, List.reverse_inj.mp h, ofLE_toLE n y hy]

theorem count_inj (x y : Nat) (hx : x < 256 ^ 255) (hy : y < 256 ^ 255)
    (h : BitVec.ofNat 8 (SP800185.byteLen x) = BitVec.ofNat 8 (SP800185.byteLen y)) :
    SP800185.byteLen x = SP800185.byteLen y := by
  have h1 := byteLen_min x 255 (by decide) hx
  have h2 := byteLen_min y 255 (by decide) hy
  have := congrArg BitVec.toNat h
  rw [BitVec.toNat_ofNat, BitVec.toNat_ofNat] at this
  omega

theorem leftEncode_inj (x y : Nat) (a b : List Byte) (hx : x < 256 ^ 255) (hy : y < 256 ^ 255)
    (h : SP800185.leftEncode x ++ a = SP800185.leftEncode y ++ b) : x = y ∧ a = b := by
  unfold SP800185.leftEncode at h
  rw [List.cons_append, List.cons_append] at h
  injection h with h1 h2
  have hn := count_inj x y hx hy h1
  rw [hn] at h2
  obtain ⟨h3, h4⟩ := List.append_inj h2 (by simp)
  refine ⟨toBE_inj _ x y ?_ (byteLen_lt y) h3, h4⟩
  rw [← hn]
  exact byteLen_lt x

theorem rightEncode_inj (x y : Nat) (a b : List Byte) (hx : x < 256 ^ 255) (hy : y < 256 ^ 255)
    (h : a ++ SP800185.rightEncode x = b ++ SP800185.rightEncode y) : x = y ∧ a = b := by
  unfold SP800185.rightEncode at h
  rw [← List.append_assoc, ← List.append_assoc] at h
  obtain ⟨h1, h2⟩ := List.append_inj' h rfl
  injection h2 with h2
  have hn := count_inj x y hx hy h2
  rw [hn] at h1
  obtain ⟨h3, h4⟩ := List.append_inj' h1 (by simp)
  refine ⟨toBE_inj _ x y ?_ (byteLen_lt y) h4, h3⟩
  rw [← hn]
  exact byteLen_lt x

theorem encodeString_inj (s t a b : List Byte) (hs : 8 * s.length < 256 ^ 255) (ht : 8 * t.length < 256 ^ 255)
    (h : SP800185.encodeString s ++ a = SP800185.encodeString t ++ b) : s = t ∧ a = b := by
  unfold SP800185.encodeString at h
  rw [List.append_assoc, List.append_assoc] at h
  obtain ⟨h1, h2⟩ := leftEncode_inj _ _ _ _ hs ht h
  exact List.append_inj h2 (by omega)

theorem tuple_inj (X Y : List (List Byte)) (hX : ∀ s ∈ X, 8 * s.length < 256 ^ 255)
    (hY : ∀ s ∈ Y, 8 * s.length < 256 ^ 255)
    (h : X.flatMap SP800185.encodeString = Y.flatMap SP800185.encodeString) : X = Y := by
  induction X generalizing Y with
  | nil =>
    cases Y with
    | nil => rfl
    | cons t Y => simp [SP800185.encodeString, SP800185.leftEncode] at h
  | cons s X ih =>
    cases Y with
    | nil => simp [SP800185.encodeString, SP800185.leftEncode] at h
    | cons t Y =>
      rw [List.flatMap_cons, List.flatMap_cons] at h
      obtain ⟨h1, h2⟩ := encodeString_inj s t _ _ (hX s (by simp)) (hY t (by simp)) h
      rw [h1, ih Y (fun s hs => hX s (by simp [hs])) (fun s hs => hY s (by simp [hs])) h2]

theorem pre_inj (w : Nat) (N S X N' S' X' : List Byte) (hw : w < 256 ^ 255) (hN : 8 * N.length < 256 ^ 255)
    (hS : 8 * S.length < 256 ^ 255) (hN' : 8 * N'.length < 256 ^ 255) (hS' : 8 * S'.length < 256 ^ 255)
    (h : SP800185.bytepad (SP800185.encodeString N ++ SP800185.encodeString S) w ++ X =
      SP800185.bytepad (SP800185.encodeString N' ++ SP800185.encodeString S') w ++ X') :
    N = N' ∧ S = S' ∧ X = X' := by
  unfold SP800185.bytepad at h
  dsimp only at h
  simp only [List.append_assoc] at h
  obtain ⟨_, h1⟩ := leftEncode_inj _ _ _ _ hw hw h
  obtain ⟨h2, h3⟩ := encodeString_inj _ _ _ _ hN hN' h1
  subst h2
  obtain ⟨h4, h5⟩ := encodeString_inj _ _ _ _ hS hS' h3
  subst h4
  exact ⟨rfl, rfl, List.append_cancel_left h5⟩

/-! ### Overruns -/

omit hR in
theorem fill_overrun (b : Buffer 8) (l : List Byte) (h : b.Holds l) (hl : l.length = 8) (v : Byte) :
    b.fill v = .error .bufferOverrun := by
  unfold Buffer.fill
  rw [if_neg (by have := h.1; omega)]

omit hR in
theorem fillBytes_overrun (v : Nat) (n : Nat) (b : Buffer 8) (l : List Byte) (h : b.Holds l)
    (hn : 8 < l.length + n) : fillBytes v n b = .error .bufferOverrun := by
  induction n generalizing b l with
  | zero => have := h.le; omega
  | succ n ih =>
    unfold fillBytes
    by_cases h8 : l.length = 8
    · rw [fill_overrun b l h h8]; rfl
    · have := h.le
      obtain ⟨b1, e1, h1⟩ := Buffer.fill_holds h (ror 8 (BitVec.ofNat 64 v) (8 * n)) 1 (by omega) (by omega)
      rw [e1]
      exact ih b1 _ h1 (by simp; omega)

omit hR in
theorem leftEncode_overrun (nb : Nat → Nat) (v : Nat) (h : 8 ≤ byteCount nb v) :
    Model.CShake.leftEncode nb v = .error .bufferOverrun := by
  unfold Model.CShake.leftEncode
  dsimp only
  obtain ⟨b1, e1, h1⟩ := Buffer.fill_holds (N := 8) Buffer.holds_empty (BitVec.ofNat 8 (byteCount nb v)) 1
    (by decide) (by decide)
  rw [e1]
  exact fillBytes_overrun v _ b1 _ h1 (by simp; omega)

omit hR in
theorem rightEncode_overrun (nb : Nat → Nat) (v : Nat) (h : 8 ≤ byteCount nb v) :
    Model.CShake.rightEncode nb v = .error .bufferOverrun := by
  unfold Model.CShake.rightEncode
  dsimp only
  by_cases h8 : byteCount nb v = 8
  · have : ∀ (n : Nat) (b : Buffer 8) (l : List Byte), b.Holds l → l.length + n = 8 →
        ∃ b' l', fillBytes v n b = .ok b' ∧ b'.Holds l' ∧ l'.length = 8 := by
      intro n
      induction n with
      | zero => intro b l h1 h2; exact ⟨b, l, rfl, h1, h2⟩
      | succ n ih =>
        intro b l h1 h2
        obtain ⟨b1, e1, h3⟩ := Buffer.fill_holds h1 (ror 8 (BitVec.ofNat 64 v) (8 * n)) 1 (by omega) (by omega)
        obtain ⟨b', l', e2, h4, h5⟩ := ih b1 _ h3 (by simp; omega)
        exact ⟨b', l', by unfold fillBytes; rw [e1]; exact e2, h4, h5⟩
    obtain ⟨b', l', e, h1, h2⟩ := this _ {} [] Buffer.holds_empty (by simpa using h8)
    rw [e]
    exact fill_overrun b' l' h1 h2 _
  · rw [fillBytes_overrun v _ {} [] Buffer.holds_empty (by simp; omega)]
    rfl

/-! ### Copies and moves -/

omit hR in
theorem mk_customized (c : Bool) (k : KObj R) : (mk c k).customized = c := by cases c <;> rfl

omit hR in
theorem copy_mk (c : Bool) (k : KObj R) : copy (mk c k) = .ok (mk c k) := by cases c <;> rfl

omit hR in
theorem assign_mk (c c' : Bool) (k k' : KObj R) : copyAssign (mk c k) (mk c' k') =
    if c = c' then .ok (mk c' k') else .error .nullDeref := by cases c <;> cases c' <;> rfl

/-- the shape of every object obtained from a constructor -/
def Shape (o : CShake R) : Prop := ∃ c k, o = mk c k

theorem step_shape (o o' : CShake R) (op : Op) (h : Shape o) (e : step o op = .ok o') :
    Shape o' ∧ o'.customized = o.customized := by
  obtain ⟨c, ⟨dl, x⟩, rfl⟩ := h
  rw [step_mk] at e
  cases hx : (Keccak R (padOf c) dl).step x op with
  | error f => rw [hx] at e; simp [bind, Except.bind] at e
  | ok y =>
    rw [hx] at e
    simp only [bind, Except.bind, pure, Except.pure, Except.ok.injEq] at e
    subst e
    exact ⟨⟨c, _, rfl⟩, by rw [mk_customized, mk_customized]⟩

theorem run_shape (o o' : CShake R) (ops : List Op) (h : Shape o) (e : run o ops = .ok o') :
    Shape o' ∧ o'.customized = o.customized := by
  induction ops generalizing o with
  | nil => simp only [run, Except.ok.injEq] at e; subst e; exact ⟨h, rfl⟩
  | cons op ops ih =>
    simp only [run, bind, Except.bind] at e
    cases h1 : step o op with
    | error f => rw [h1] at e; simp at e
    | ok o1 =>
      rw [h1] at e
      obtain ⟨s1, c1⟩ := step_shape o o1 op h h1
      obtain ⟨s2, c2⟩ := ih o1 s1 e
      exact ⟨s2, c2.trans c1⟩

theorem bind_ok {α β : Type} {x : Except Fault α} {f : α → Except Fault β} {b : β} (h : (x >>= f) = .ok b) :
    ∃ a, x = .ok a ∧ f a = .ok b := by
  cases x with
  | error e => simp [bind, Except.bind] at h
  | ok a => exact ⟨a, rfl, h⟩

theorem addZeros_shape (n : Nat) (o o' : CShake R) (h : Shape o) (e : addZeros n o = .ok o') :
    Shape o' ∧ o'.customized = o.customized := by
  induction n generalizing o with
  | zero => simp only [addZeros, Except.ok.injEq] at e; subst e; exact ⟨h, rfl⟩
  | succ n ih =>
    obtain ⟨o1, e1, e2⟩ := bind_ok e
    obtain ⟨s1, c1⟩ := step_shape o o1 (.add [0]) h e1
    obtain ⟨s2, c2⟩ := ih o1 s1 e2
    exact ⟨s2, c2.trans c1⟩

theorem processString_shape (nb : Nat → Nat) (o : CShake R) (s : List Byte) (n : Nat) (p : CShake R × Nat) (h : Shape o)
    (e : processString nb o s n = .ok p) : Shape p.1 ∧ p.1.customized = o.customized := by
  unfold processString at e
  obtain ⟨b, _, e⟩ := bind_ok e
  obtain ⟨o1, e1, e⟩ := bind_ok e
  obtain ⟨o2, e2, e⟩ := bind_ok e
  simp only [pure, Except.pure, Except.ok.injEq] at e
  subst e
  obtain ⟨s1, c1⟩ := step_shape o o1 (.add _) h e1
  obtain ⟨s2, c2⟩ := step_shape o1 o2 (.add _) s1 e2
  exact ⟨s2, c2.trans c1⟩

theorem construct_shape (nb : Nat → Nat) (dl : Int) (name custom : List Byte) (o : CShake R)
    (e : Model.CShake.construct nb R dl name custom = .ok o) :
    Shape o ∧ o.customized = !(name.isEmpty && custom.isEmpty) := by
  unfold Model.CShake.construct at e
  dsimp only at e
  split at e
  · rename_i h
    obtain ⟨k, _, e⟩ := bind_ok e
    simp only [pure, Except.pure, Except.ok.injEq] at e
    subst e
    exact ⟨⟨false, k, by rw [h]; rfl⟩, rfl⟩
  · rename_i h
    obtain ⟨k, _, e⟩ := bind_ok e
    obtain ⟨w, _, e⟩ := bind_ok e
    obtain ⟨o1, e1, e⟩ := bind_ok e
    obtain ⟨p2, e2, e⟩ := bind_ok e
    obtain ⟨p3, e3, e⟩ := bind_ok e
    have hc : (!(name.isEmpty && custom.isEmpty)) = true := by
      cases hh : (!(name.isEmpty && custom.isEmpty)) with
      | true => rfl
      | false => exact absurd hh h
    have s0 : Shape (⟨!(name.isEmpty && custom.isEmpty), none, some k⟩ : CShake R) := ⟨true, k, by rw [hc]; rfl⟩
    obtain ⟨s1, c1⟩ := step_shape _ o1 (.add _) s0 e1
    obtain ⟨s2, c2⟩ := processString_shape nb o1 name _ p2 s1 e2
    obtain ⟨s3, c3⟩ := processString_shape nb p2.1 custom _ p3 s2 e3
    obtain ⟨s4, c4⟩ := addZeros_shape _ p3.1 o s3 e
    exact ⟨s4, c4.trans (c3.trans (c2.trans c1))⟩

/-- the pointer in use -/
def active (o : CShake R) : Bool × Option (KObj R) := (o.customized, if o.customized then o.keccak else o.shake)

/-- calls depend on the pointer in use only -/
theorem step_active (a b : CShake R) (op : Op) (h : active a = active b) :
    (do return active (← step a op)) = (do return active (← step b op)) := by
  obtain ⟨ca, sa, ka⟩ := a
  obtain ⟨cb, sb, kb⟩ := b
  unfold active at h
  simp only [Prod.mk.injEq] at h
  obtain ⟨h1, h2⟩ := h
  subst h1
  cases ca <;> cases op <;>
    simp only [step, Model.CShake.addData, reset, Model.CShake.finalize, onActive, active, Bool.true_eq_false,
      Bool.false_eq_true, if_false, if_true] at * <;> subst h2
  all_goals first
    | (cases sa with
        | none => rfl
        | some k => (simp only []; generalize callK _ _ k = e; cases e <;> rfl))
    | (cases ka with
        | none => rfl
        | some k => (simp only []; generalize callK _ _ k = e; cases e <;> rfl))

theorem run_active (a b : CShake R) (ops : List Op) (h : active a = active b) :
    (do return active (← run a ops)) = (do return active (← run b ops)) := by
  induction ops generalizing a b with
  | nil => simp only [run, bind, Except.bind, pure, Except.pure, h]
  | cons op ops ih =>
    have e := step_active a b op h
    simp only [run, bind, Except.bind, pure, Except.pure] at e ⊢
    cases ha : step a op with
    | error f =>
      cases hb : step b op with
      | error g => rw [ha, hb] at e; simpa using e
      | ok b1 => rw [ha, hb] at e; simp at e
    | ok a1 =>
      cases hb : step b op with
      | error g => rw [ha, hb] at e; simp at e
      | ok b1 =>
        rw [ha, hb] at e
        simp only [Except.ok.injEq] at e ⊢
        exact ih a1 b1 e

omit hR in
theorem toVector_active (a b : CShake R) (h : active a = active b) : toVector a = toVector b := by
  obtain ⟨ca, sa, ka⟩ := a
  obtain ⟨cb, sb, kb⟩ := b
  unfold active at h
  simp only [Prod.mk.injEq] at h
  obtain ⟨h1, h2⟩ := h
  subst h1
  cases ca <;> simp only [Bool.false_eq_true, if_false, if_true] at h2 <;> subst h2 <;> rfl

theorem read_active (a b : CShake R) (ops : List Op) (h : active a = active b) :
    (do toVector (← run a ops)) = (do toVector (← run b ops)) := by
  have e := run_active a b ops h
  simp only [bind, Except.bind, pure, Except.pure] at e ⊢
  cases ha : run a ops with
  | error f =>
    cases hb : run b ops with
    | error g => rw [ha, hb] at e; simpa using e
    | ok b1 => rw [ha, hb] at e; simp at e
  | ok a1 =>
    cases hb : run b ops with
    | error g => rw [ha, hb] at e; simp at e
    | ok b1 =>
      rw [ha, hb] at e
      simp only [Except.ok.injEq] at e ⊢
      exact toVector_active a1 b1 e

omit hR in
theorem move_active (a b : CShake R) : active (moveSwap a b).1 = active b := by
  obtain ⟨ca, sa, ka⟩ := a
  obtain ⟨cb, sb, kb⟩ := b
  cases cb <;> rfl

end

end Verif.Proof.CShake
