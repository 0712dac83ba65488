import Verif.Core.Misuse
import Verif.Proof.Block
import Verif.Proof.SHA3
import Verif.Proof.BLAKE
import Verif.Proof.BLAKE2
import Verif.Proof.SipHash
import Verif.Proof.CRC32
import Verif.Model.FNV
import Verif.Model.MD2
import Verif.Model.SHA2

/-! An invariant that every call keeps, in whatever order the calls come: the buffer is not full. -/

namespace Verif.Proof.Misuse
open Verif.Model

/-- `I` holds of a fresh object and is kept by every call, none of which faults. -/
structure Total {O : Type} (A : API O) where
  I : O → Prop
  fresh : I A.fresh
  add : ∀ o d, I o → d.length < 2 ^ 64 → ∃ o', A.addData o d = .ok o' ∧ I o'
  fin : ∀ o, I o → ∃ o', A.finalize o = .ok o' ∧ I o'
  reset : ∀ o, I o → I (A.reset o)

namespace Total
variable {O : Type} {A : API O}

theorem run (t : Total A) (ops : List Op) : ∀ o, AnyOrder ops → t.I o → ∃ o', A.run o ops = .ok o' ∧ t.I o' := by
  induction ops with
  | nil => intro o _ h; exact ⟨o, rfl, h⟩
  | cons op ops ih =>
    intro o ha h
    have ha' : AnyOrder ops := fun d hd => ha d (by simp [hd])
    have : ∃ o1, A.step o op = .ok o1 ∧ t.I o1 := by
      cases op with
      | add d => exact t.add o d h (ha d (by simp))
      | reset => exact ⟨_, rfl, t.reset o h⟩
      | finalize => exact t.fin o h
    obtain ⟨o1, e1, h1⟩ := this
    obtain ⟨o2, e2, h2⟩ := ih o1 ha' h1
    refine ⟨o2, ?_, h2⟩
    simp only [API.run, e1]
    exact e2

theorem neverFaults (t : Total A) (out : ∀ o, t.I o → ∃ d, A.toArray o = .ok d) : A.NeverFaults := by
  intro ops h
  obtain ⟨o, e, i⟩ := t.run ops A.fresh h t.fresh
  obtain ⟨d, ed⟩ := out o i
  exact ⟨o, d, e, ed⟩

theorem resetRepairs (t : Total A) (r : ∀ o, t.I o → A.reset o = A.fresh) : A.ResetRepairs := by
  intro before after h
  obtain ⟨o, e, i⟩ := t.run before A.fresh h t.fresh
  rw [Refines.run_append, e]
  show A.run (A.reset o) after = _
  rw [r o i]

end Total

/-- `addDataImpl` succeeds on whole blocks and keeps `P`. -/
def ImplTotal {S : Type} (B : Nat) (impl : S → List Byte → Except Fault S) (P : S → Prop) : Prop :=
  ∀ s d, P s → d.length % B = 0 → ∃ s', impl s d = .ok s' ∧ P s'

/-- the carry-over buffer holds less than a block -/
def Room {N : Nat} {S : Type} (B : Nat) (P : S → Prop) (o : Obj N S) : Prop :=
  (∃ l, o.buffer.Holds l ∧ l.length < B) ∧ P o.chain

theorem room_clear {N : Nat} {S : Type} {B : Nat} (hB : 0 < B) {P : S → Prop} {s : S} (h : P s) (b : Buffer N) :
    Room B P (⟨b.clear, s⟩ : Obj N S) := ⟨⟨[], Buffer.holds_clear b, hB⟩, h⟩

theorem addDataTail_total {N : Nat} {S : Type} {B : Nat} (hB : 0 < B) (hN : B ≤ N)
    {impl : S → List Byte → Except Fault S} {P : S → Prop} (hi : ImplTotal B impl P) {o : Obj N S}
    (hc : P o.chain) (hb : o.buffer.Holds []) (data : List Byte) :
    ∃ o', addDataTail B impl o data = .ok o' ∧ Room B P o' := by
  unfold addDataTail
  by_cases h : data.length < B
  · simp only [h, if_true]
    obtain ⟨b, e, hb'⟩ := Buffer.ofRange_holds (N := N) data (by omega)
    exact ⟨{ o with buffer := b }, by rw [e]; rfl, ⟨data, hb', h⟩, hc⟩
  · simp only [h, if_false]
    have hmod := Nat.mod_lt data.length hB
    have hle : data.length - data.length % B ≤ data.length := Nat.sub_le _ _
    have halen : (data.take (data.length - data.length % B)).length % B = 0 := by
      rw [List.length_take, Nat.min_eq_left hle]
      exact alignedLen_mod B data
    have e1 : spanFirst data (data.length - data.length % B) =
        .ok (data.take (data.length - data.length % B)) := by
      unfold spanFirst; rw [if_pos hle]
    rw [e1]
    obtain ⟨s', e2, p⟩ := hi o.chain _ hc halen
    simp only [bind, Except.bind]
    rw [e2]
    by_cases h3 : data.length - data.length % B < data.length
    · simp only [h3, if_true]
      obtain ⟨b, e, hb'⟩ := Buffer.ofRange_holds (N := N)
        (data.drop (data.length - data.length % B)) (by rw [List.length_drop]; omega)
      rw [e]
      exact ⟨_, rfl, ⟨_, hb', by rw [List.length_drop]; omega⟩, p⟩
    · simp only [h3, if_false]
      exact ⟨_, rfl, ⟨[], hb, hB⟩, p⟩

theorem addData_total {N : Nat} {S : Type} {B : Nat} (hB : 0 < B) (hN : B ≤ N)
    {impl : S → List Byte → Except Fault S} {P : S → Prop} (hi : ImplTotal B impl P) {o : Obj N S}
    (h : Room B P o) (data : List Byte) : ∃ o', addData B impl o data = .ok o' ∧ Room B P o' := by
  obtain ⟨⟨l, hb, hl⟩, hc⟩ := h
  unfold addData
  rw [hb.empty_eq, hb.size_eq]
  by_cases he : l = []
  · subst he
    simpa using addDataTail_total hB hN hi hc hb data
  · have hne : l.isEmpty = false := by
      cases l with
      | nil => exact absurd rfl he
      | cons => rfl
    simp only [hne, Bool.not_false, if_true]
    obtain ⟨b, e, hb'⟩ := Buffer.pushBack_holds (data.take (min (B - l.length) data.length)) hb
      (by rw [List.length_take]; omega)
    rw [e]
    simp only [bind, Except.bind]
    rw [hb'.size_eq]
    by_cases hlt : (l ++ data.take (min (B - l.length) data.length)).length < B
    · simp only [hlt, if_true]
      exact ⟨_, rfl, ⟨_, hb', hlt⟩, hc⟩
    · simp only [hlt, if_false]
      have hlen : (l ++ data.take (min (B - l.length) data.length)).length = B := by
        rw [List.length_append, List.length_take] at *; omega
      obtain ⟨s', e2, p⟩ := hi o.chain b.contents hc (by rw [hb'.2, hlen]; exact Nat.mod_self B)
      rw [e2]
      have e3 : spanSub data (min (B - l.length) data.length) =
          .ok (data.drop (min (B - l.length) data.length)) := by
        unfold spanSub; rw [if_pos (by omega)]
      rw [e3]
      exact addDataTail_total (o := ⟨b.clear, s'⟩) hB hN hi p (Buffer.holds_clear b) _

/-- a class with the shared streaming text -/
def blockTotal {N : Nat} {S : Type} {B : Nat} (hB : 0 < B) (hN : B ≤ N)
    {impl : S → List Byte → Except Fault S} {P : S → Prop} (hi : ImplTotal B impl P) {init : S} (h0 : P init)
    {fin : Obj N S → Except Fault (Obj N S)} {out : Obj N S → Except Fault (List Byte)}
    (hf : ∀ o, Room B P o → ∃ o', fin o = .ok o' ∧ Room B P o') : Total (blockApi B impl init fin out) where
  I := Room B P
  fresh := room_clear hB h0 {}
  add := fun _ d h _ => addData_total hB hN hi h d
  fin := hf
  reset := fun o _ => room_clear hB h0 o.buffer

/-! ### The Merkle-Damgård style classes -/

theorem mdImpl_total {C H : Type} (B : Nat) (hB : 0 < B) (cnt : Counter C) (comp : H → Block B → H) :
    ImplTotal B (mdImpl B cnt comp) (fun _ => True) := by
  intro s d _ hd
  unfold mdImpl
  rw [forBlocks_eq B hB]
  simp [hd, bind, Except.bind]
  exact ⟨_, rfl⟩

/-- the stores of a length field of `L` bytes stay inside the buffer -/
def WritesInside {C : Type} (L : Nat) (writes : Nat → C → List (Nat × Byte)) : Prop :=
  ∀ size c, L ≤ size → ∀ w ∈ writes size c, w.1 < size

theorem pad_mod (B L n : Nat) (hL : L + 1 ≤ B) (hn : n < B) :
    (n + 1 + ((2 * B - (n + 1 + L)) % B + L)) % B = 0 ∧ (2 * B - (n + 1 + L)) % B + (n + 1 + L) ≤ 2 * B := by
  have h1 := padZeros_mod B L n hL
  have h2 := padZeros_le B L n hL
  unfold padZeros at h1 h2
  rw [Nat.mod_eq_of_lt hn] at h1 h2
  constructor
  · rw [← h1]
    congr 1
    omega
  · omega

theorem mdFinalize_total {C H : Type} {B L : Nat} (hL : L + 1 ≤ B) {padByte : Byte} {cntAdd : C → Nat → C}
    {cntPost : C → C} {writes : Nat → C → List (Nat × Byte)} (hw : WritesInside L writes)
    {impl : MDState C H → List Byte → Except Fault (MDState C H)} (hi : ImplTotal B impl (fun _ => True))
    {o : Obj (2 * B) (MDState C H)} (h : Room B (fun _ => True) o) :
    ∃ o', mdFinalize B L padByte cntAdd cntPost writes impl o = .ok o' ∧ Room B (fun _ => True) o' := by
  obtain ⟨⟨l, hb, hl⟩, _⟩ := h
  obtain ⟨pm, ple⟩ := pad_mod B L l.length hL hl
  unfold mdFinalize
  obtain ⟨b1, e1, h1⟩ := Buffer.fill_holds hb padByte 1 (by omega) (by omega)
  rw [e1]
  simp only [bind, Except.bind]
  have hs1 : b1.size = l.length + 1 := by rw [h1.size_eq]; simp
  rw [hs1]
  obtain ⟨b2, e2, h2⟩ := Buffer.fill_holds h1 0 ((2 * B - (l.length + 1 + L)) % B + L) (by simp; omega)
    (by simp; omega)
  rw [e2]
  simp only []
  have hs2 : b2.size = l.length + 1 + ((2 * B - (l.length + 1 + L)) % B + L) := by
    rw [h2.size_eq]; simp; omega
  obtain ⟨b3, e3, h3⟩ := writeLoop_holds (writes b2.size (cntAdd o.chain.sizeCounter o.buffer.size)) h2 (by
    intro w hw'
    rw [← h2.size_eq]
    exact hw b2.size _ (by omega) w hw')
  rw [e3]
  simp only []
  have hlen : b3.contents.length % B = 0 := by
    rw [h3.2]
    have : ∀ (ws : List (Nat × Byte)) (x : List Byte),
        (ws.foldl (fun l w => l.set w.1 w.2) x).length = x.length := by
      intro ws
      induction ws with
      | nil => intro x; rfl
      | cons w ws ih => intro x; simp [ih]
    rw [this, ← h2.size_eq, hs2]
    exact pm
  obtain ⟨s', e4, _⟩ := hi { o.chain with sizeCounter := cntPost (cntAdd o.chain.sizeCounter o.buffer.size) }
    b3.contents trivial hlen
  rw [e4]
  exact ⟨_, rfl, room_clear (by omega) trivial b3⟩

def mdTotal {C H : Type} {B L : Nat} (hL : L + 1 ≤ B) (padByte : Byte) {cnt : Counter C}
    (hw : WritesInside L cnt.writes) (comp : H → Block B → H) (iv : H) (out : H → Except Fault (List Byte)) :
    Total (mdApi B L padByte cnt comp iv out) where
  I := Room B (fun _ => True)
  fresh := room_clear (by omega) trivial {}
  add := fun _ d h _ => addData_total (by omega) (by omega) (mdImpl_total B (by omega) cnt comp) h d
  fin := fun _ h => mdFinalize_total hL hw (mdImpl_total B (by omega) cnt comp) h
  reset := fun o _ => room_clear (by omega) trivial o.buffer

theorem inside_BE64 {C : Type} (f : C → W64) : WritesInside 8 (fun size c => lenWritesBE64 size (f c)) := by
  intro size c h w hw
  simp [lenWritesBE64, List.range_succ] at hw
  rcases hw with h | h | h | h | h | h | h | h <;> subst h <;> simp only [] <;> omega
theorem inside_LE64 {C : Type} (f : C → W64) : WritesInside 8 (fun size c => lenWritesLE64 size (f c)) := by
  intro size c h w hw
  simp [lenWritesLE64, List.range_succ] at hw
  rcases hw with h | h | h | h | h | h | h | h <;> subst h <;> simp only [] <;> omega
theorem inside_BE128 {C : Type} (f : C → Uint128) : WritesInside 16 (fun size c => lenWritesBE128 size (f c)) := by
  intro size c h w hw
  simp [lenWritesBE128, List.range_succ] at hw
  rcases hw with h | h | h | h | h | h | h | h | h | h | h | h | h | h | h | h <;> subst h <;>
    simp only [] <;> omega
theorem writesBE64 : WritesInside 8 counterBE64.writes := inside_BE64 (fun c => c * 8)
theorem writesLE64 : WritesInside 8 counterLE64.writes := inside_LE64 (fun c => c * 8)
theorem writesBE128 : WritesInside 16 counterBE128.writes := inside_BE128 Uint128.mul8
theorem writesBE128_32 : WritesInside 32 counterBE128.writes := fun size c h w hw =>
  writesBE128 size c (by omega) w hw

/-! ### SHA-3 -/

section
open SHA3

theorem absorb_ok (R : Nat) [hR : RateOK R] (s : SHA3.State) (d : List Byte) (h : d.length % R = 0) :
    ∃ s', absorb R s d = .ok s' := by
  unfold absorb
  rw [forBlocks_eq R hR.pos]
  simp only [h, ne_eq, not_true, if_false]
  exact ⟨_, rfl⟩

theorem sha3_impl (R : Nat) [RateOK R] : ImplTotal R (SHA3.impl R) (fun _ => True) := by
  intro s d _ h
  obtain ⟨s', e⟩ := absorb_ok R s.state d h
  exact ⟨{ s with state := s' }, by unfold SHA3.impl; rw [e]; rfl, trivial⟩

theorem squeeze_total (R : Nat) [hR : RateOK R] (dl : Nat) :
    ∀ k (s : KState), dl - s.final.length = k → ∃ s', squeeze R dl s = .ok s' := by
  intro k
  induction k using Nat.strongRecOn with
  | _ k ih =>
    intro s hk
    have h1 := stateToVector_length s.state
    have h2 := hR.le
    have h3 := hR.pos
    rw [squeeze]
    simp only []
    rw [dif_pos (by omega)]
    by_cases hf : dl ≤ (s.final ++ (stateToVector s.state).take R).length
    · rw [dif_pos hf]; exact ⟨_, rfl⟩
    · rw [dif_neg hf]
      obtain ⟨st, e⟩ := absorb_ok R s.state (List.replicate R 0) (by simp)
      rw [e]
      simp only []
      rw [List.length_append, List.length_take] at hf
      exact ih (dl - (s.final ++ (stateToVector s.state).take R).length)
        (by rw [List.length_append, List.length_take]; omega) ⟨st, _⟩ rfl

theorem sha3_fin (R : Nat) [hR : RateOK R] (P : Byte) (dl : Nat) (o : Obj R KState)
    (h : Room R (fun _ => True) o) : ∃ o', SHA3.finalize R P dl o = .ok o' ∧ Room R (fun _ => True) o' := by
  obtain ⟨⟨l, hb, hl⟩, _⟩ := h
  have hp := hR.pos
  unfold SHA3.finalize
  obtain ⟨b1, e1, h1⟩ := Buffer.fill_holds hb P 1 (by omega) (by omega)
  rw [e1]
  simp only [bind, Except.bind]
  have hs1 : b1.size = l.length + 1 := by rw [h1.size_eq]; simp
  have hk : (2 * R - b1.size) % R = R - (l.length + 1) := by
    rw [hs1]
    by_cases hh : l.length + 1 = R
    · rw [hh, show 2 * R - R = R by omega, Nat.mod_self, Nat.sub_self]
    · rw [show 2 * R - (l.length + 1) = R - (l.length + 1) + R by omega, Nat.add_mod_right,
        Nat.mod_eq_of_lt (by omega)]
  rw [hk]
  obtain ⟨b2, e2, h2⟩ := Buffer.fill_holds h1 0 (R - (l.length + 1)) (by simp; omega) (by simp; omega)
  rw [e2]
  simp only []
  have hs2 : b2.size = R := by rw [h2.size_eq]; simp; omega
  have hg : ∃ x, b2.getAt (b2.size - 1) = .ok x := by
    unfold Buffer.getAt
    rw [dif_pos (by omega)]
    exact ⟨_, rfl⟩
  obtain ⟨x, ex⟩ := hg
  rw [ex]
  simp only []
  obtain ⟨b3, e3, h3⟩ := Buffer.setAt_holds h2 (b2.size - 1) (x ||| 0x80) (by rw [← h2.size_eq]; omega)
  rw [e3]
  simp only []
  obtain ⟨s1, e4, _⟩ := sha3_impl R o.chain b3.contents trivial (by
    rw [h3.2, List.length_set, ← h2.size_eq, hs2, Nat.mod_self])
  rw [e4]
  simp only []
  obtain ⟨s2, e5⟩ := squeeze_total R dl _ s1 rfl
  rw [e5]
  exact ⟨_, rfl, room_clear hp trivial b3⟩

def sha3Total (R : Nat) [hR : RateOK R] (P : Byte) (dl : Nat) : Total (Keccak R P dl) :=
  blockTotal hR.pos (Nat.le_refl _) (sha3_impl R) trivial (sha3_fin R P dl)

end

/-! ### BLAKE -/

section
variable {w B : Nat} {C : Type}

theorem blake_impl (hB : 0 < B) (c : BLAKE.Cfg w B C) (p : Nat) :
    ImplTotal B (BLAKE.impl c p) (fun _ => True) := by
  intro s d _ h
  unfold BLAKE.impl
  rw [forBlocks_eq B hB]
  simp only [h, ne_eq, not_true, if_false]
  exact ⟨_, rfl, trivial⟩

theorem blake_fin (c : BLAKE.Cfg w B C) (L : Nat) (hL : L + 1 ≤ B) (marker : Bool) (total : C → Nat → C)
    {writes : Nat → C → List (Nat × Byte)} (hw : WritesInside L writes)
    (o : Obj (2 * B) (MDState C (Vector (BitVec w) 8))) (h : Room B (fun _ => True) o) :
    ∃ o', BLAKE.finalize c L marker total writes o = .ok o' ∧ Room B (fun _ => True) o' := by
  obtain ⟨⟨l, hb, hl⟩, _⟩ := h
  obtain ⟨pm, ple⟩ := pad_mod B L l.length hL hl
  unfold BLAKE.finalize
  obtain ⟨b1, e1, h1⟩ := Buffer.fill_holds hb 0x80 1 (by omega) (by omega)
  rw [e1]
  simp only [bind, Except.bind]
  have hs1 : b1.size = l.length + 1 := by rw [h1.size_eq]; simp
  rw [hs1]
  obtain ⟨b2, e2, h2⟩ := Buffer.fill_holds h1 0 ((2 * B - (l.length + 1 + L)) % B + L) (by simp; omega)
    (by simp; omega)
  rw [e2]
  simp only []
  have hs2 : b2.size = l.length + 1 + ((2 * B - (l.length + 1 + L)) % B + L) := by
    rw [h2.size_eq]; simp; omega
  have hm : ∃ b3 l3, BLAKE.markLast L marker b2 = .ok b3 ∧ b3.Holds l3 ∧ l3.length = b2.size := by
    unfold BLAKE.markLast
    cases marker with
    | false => exact ⟨b2, _, rfl, h2, h2.size_eq.symm⟩
    | true =>
      have hle := h2.le
      rw [← h2.size_eq] at hle
      have hg : ∃ x, b2.getAt (b2.size - (L + 1)) = .ok x := by
        unfold Buffer.getAt
        rw [dif_pos (by omega)]
        exact ⟨_, rfl⟩
      obtain ⟨x, ex⟩ := hg
      obtain ⟨b3, e3, h3⟩ := Buffer.setAt_holds h2 (b2.size - (L + 1)) (x ||| 1) (by rw [← h2.size_eq]; omega)
      refine ⟨b3, _, ?_, h3, by rw [List.length_set, h2.size_eq]⟩
      simp only [if_true, ex, bind, Except.bind]
      exact e3
  obtain ⟨b3, l3, e3, h3, hl3⟩ := hm
  rw [e3]
  simp only []
  have hs3 : b3.size = b2.size := by rw [h3.size_eq, hl3]
  obtain ⟨b4, e4, h4⟩ := writeLoop_holds (writes b3.size (total o.chain.sizeCounter (o.buffer.size * 8))) h3 (by
    intro w hw'
    rw [← h3.size_eq]
    exact hw b3.size _ (by omega) w hw')
  rw [e4]
  simp only []
  have hlen : b4.contents.length % B = 0 := by
    rw [h4.2]
    have : ∀ (ws : List (Nat × Byte)) (x : List Byte),
        (ws.foldl (fun l w => l.set w.1 w.2) x).length = x.length := by
      intro ws
      induction ws with
      | nil => intro x; rfl
      | cons w ws ih => intro x; simp [ih]
    rw [this, hl3, hs2]
    exact pm
  obtain ⟨s', e5, _⟩ := blake_impl (by omega) c ((2 * B - (l.length + 1 + L)) % B + (L + 1)) o.chain b4.contents
    trivial hlen
  rw [e5]
  exact ⟨_, rfl, room_clear (by omega) trivial b4⟩

def blake32Total (c : BLAKE.Cfg 32 64 W64) (marker : Bool) (iv : Vector W32 8) (words size : Nat) :
    Total (BLAKE.api32 c marker iv words size) :=
  blockTotal (by decide) (by decide) (blake_impl (by decide) c 0) trivial
    (blake_fin c 8 (by decide) marker cntAdd64 (inside_BE64 id))

def blake64Total (c : BLAKE.Cfg 64 128 Uint128) (marker : Bool) (iv : Vector W64 8) (words size : Nat) :
    Total (BLAKE.api64 c marker iv words size) :=
  blockTotal (by decide) (by decide) (blake_impl (by decide) c 0) trivial
    (blake_fin c 16 (by decide) marker cntAdd128 (inside_BE128 id))

end

/-! ### MD2 -/

theorem md2_impl : ImplTotal 16 MD2.impl (fun _ => True) := by
  intro s d _ _
  exact ⟨_, by unfold MD2.impl; rw [forBlocks_eq 16 (by decide)], trivial⟩

theorem md2_fin (o : Obj (2 * 16) MD2.St) (h : Room 16 (fun _ => True) o) :
    ∃ o', MD2.finalize o = .ok o' ∧ Room 16 (fun _ => True) o' := by
  obtain ⟨⟨l, hb, hl⟩, _⟩ := h
  unfold MD2.finalize
  simp only []
  rw [hb.size_eq]
  obtain ⟨b1, e1, h1⟩ := Buffer.fill_holds hb (BitVec.ofNat 8 (16 - l.length % 16)) (16 - l.length % 16) (by omega)
    (by omega)
  rw [e1]
  simp only [bind, Except.bind]
  obtain ⟨s1, e2, _⟩ := md2_impl o.chain b1.contents trivial (by
    rw [h1.2]; simp; omega)
  rw [e2]
  simp only []
  obtain ⟨s2, e3, _⟩ := md2_impl s1 s1.checksum.toList trivial (by simp)
  rw [e3]
  exact ⟨_, rfl, room_clear (by decide) trivial b1⟩

def md2Total : Total MD2.MD2 := blockTotal (by decide) (by decide) md2_impl trivial md2_fin

/-! ### SipHash -/

theorem sip_impl (C : Nat) (k : Vector W64 2) : ImplTotal 8 (SipHash.impl C) (fun s => s.key = k) := by
  intro s d hk h
  unfold SipHash.impl
  rw [forBlocks_eq 8 (by decide)]
  simp only [h, ne_eq, not_true, if_false]
  exact ⟨_, rfl, hk⟩

theorem sip_fin (C D : Nat) (k : Vector W64 2) (o : SipHash.O) (h : Room 8 (fun s => s.key = k) o) :
    ∃ o', SipHash.finalize C D o = .ok o' ∧ Room 8 (fun s => s.key = k) o' := by
  obtain ⟨⟨l, hb, hl⟩, hk⟩ := h
  unfold SipHash.finalize
  simp only []
  rw [hb.size_eq]
  by_cases h0 : l.length + (8 - 1 - l.length) = 0
  · omega
  obtain ⟨b1, e1, h1⟩ := Buffer.fill_holds hb 0 (8 - 1 - l.length) (by omega) (by omega)
  rw [e1]
  simp only [bind, Except.bind]
  obtain ⟨b2, e2, h2⟩ := Buffer.fill_holds h1 (o.chain.sizeCounter + BitVec.ofNat 8 l.length) 1 (by simp)
    (by simp; omega)
  rw [e2]
  simp only []
  obtain ⟨s1, e3, k1⟩ := sip_impl C k
    { o.chain with sizeCounter := o.chain.sizeCounter + BitVec.ofNat 8 l.length } b2.contents hk (by
      rw [h2.2]; simp; omega)
  rw [e3]
  exact ⟨_, rfl, room_clear (by decide) k1 b2⟩

def sipTotal (C D : Nat) (key : Block 16) : Total (SipHash.SipHashCD C D key) where
  I := Room 8 (fun s => s.key = (SipHash.constructKey key).chain.key)
  fresh := ⟨⟨[], Buffer.holds_clear {}, by decide⟩, rfl⟩
  add := fun _ d h _ => addData_total (by decide) (by decide) (sip_impl C _) h d
  fin := fun o h => sip_fin C D _ o h
  reset := fun o h => ⟨⟨[], Buffer.holds_clear o.buffer, by decide⟩, h.2⟩

theorem sip_reset (C D : Nat) (key : Block 16) (o : SipHash.O) (h : (sipTotal C D key).I o) :
    (SipHash.SipHashCD C D key).reset o = (SipHash.SipHashCD C D key).fresh := by
  obtain ⟨_, hk⟩ := h
  show (⟨o.buffer.clear, SipHash.resetState o.chain⟩ : SipHash.O) = _
  rw [show SipHash.resetState o.chain = (SipHash.constructKey key).chain from ?_]
  · rfl
  · unfold SipHash.resetState
    rw [hk]
    rfl

/-! ### CRC-32 and FNV -/

def crcTotal : Total CRC32.CRC_32 where
  I := fun _ => True
  fresh := trivial
  add := fun o d _ _ => ⟨_, Proof.CRC32.addData_eq o d, trivial⟩
  fin := fun _ _ => ⟨_, rfl, trivial⟩
  reset := fun _ _ => trivial

def fnvTotal (w v : Nat) : Total (FNV.FNVHash w v) where
  I := fun _ => True
  fresh := trivial
  add := fun _ _ _ _ => ⟨_, rfl, trivial⟩
  fin := fun _ _ => ⟨_, rfl, trivial⟩
  reset := fun _ _ => trivial

/-! ### BLAKE2: the buffer may be full, but not more -/

section
variable {w B : Nat} {C : Type}

/-- the buffer holds what it says -/
def Fits {S : Type} (o : Obj B S) : Prop := ∃ l, o.buffer.Holds l

theorem blake2_impl (hB : 0 < B) (c : BLAKE2.Cfg w B C) (f : Bool) (p : Nat) :
    ImplTotal B (BLAKE2.impl c f p) (fun _ => True) := by
  intro s d _ h
  unfold BLAKE2.impl
  rw [forBlocks_eq B hB]
  simp only [h, ne_eq, not_true, if_false]
  exact ⟨_, rfl, trivial⟩

theorem blake2_tail {S : Type} (hB : 0 < B) {impl : S → List Byte → Except Fault S}
    (hi : ImplTotal B impl (fun _ => True)) (o : Obj B S) (data : List Byte) (h0 : data ≠ []) :
    ∃ o', BLAKE2.addDataTail B impl o data = .ok o' ∧ Fits o' := by
  have hpos := List.length_pos_iff.mpr h0
  have hm := Nat.mod_lt data.length hB
  have hd := Nat.div_add_mod data.length B
  have hle := Nat.mod_le data.length B
  unfold BLAKE2.addDataTail
  simp only []
  generalize hr : (if data.length % B ≠ 0 then data.length % B else B) = r
  have hrB : r ≤ B ∧ r ≤ data.length ∧ (data.length - r) % B = 0 := by
    by_cases hz : data.length % B = 0
    · rw [if_neg (by omega)] at hr
      subst hr
      have : B ≤ data.length := by
        rcases Nat.lt_or_ge data.length B with h | h
        · rw [Nat.mod_eq_of_lt h] at hz; omega
        · exact h
      exact ⟨Nat.le_refl _, this, by rw [Nat.sub_mod_eq_zero_of_mod_eq (by rw [hz, Nat.mod_self])]⟩
    · rw [if_pos hz] at hr
      subst hr
      exact ⟨by omega, hle, by rw [Nat.sub_mod_eq_zero_of_mod_eq (by rw [Nat.mod_mod])]⟩
  obtain ⟨hr1, hr2, hr3⟩ := hrB
  have e1 : spanFirst data (data.length - r) = .ok (data.take (data.length - r)) := by
    unfold spanFirst; rw [if_pos (by omega)]
  rw [e1]
  simp only [bind, Except.bind]
  obtain ⟨s', e2, _⟩ := hi o.chain (data.take (data.length - r)) trivial (by
    rw [List.length_take, Nat.min_eq_left (by omega)]; exact hr3)
  rw [e2]
  simp only []
  obtain ⟨b, e3, hb⟩ := Buffer.ofRange_holds (N := B) (data.drop (data.length - r)) (by
    rw [List.length_drop]; omega)
  rw [e3]
  exact ⟨_, rfl, _, hb⟩

theorem blake2_add {S : Type} (hB : 0 < B) {impl : S → List Byte → Except Fault S}
    (hi : ImplTotal B impl (fun _ => True)) (n : Nat) : ∀ (o : Obj B S) (data : List Byte), data.length = n →
    Fits o → ∃ o', BLAKE2.addData B impl o data = .ok o' ∧ Fits o' := by
  induction n using Nat.strongRecOn with
  | _ n ih =>
    intro o data hn h
    obtain ⟨l, hb⟩ := h
    have hle := hb.le
    rw [BLAKE2.addData]
    by_cases h0 : data = []
    · subst h0; exact ⟨o, rfl, l, hb⟩
    have hpos := List.length_pos_iff.mpr h0
    have he : data.isEmpty = false := by
      cases data with
      | nil => exact absurd rfl h0
      | cons => rfl
    simp only [he, Bool.false_eq_true, if_false]
    rw [hb.size_eq, hb.empty_eq]
    by_cases hfull : l.length = B
    · rw [if_pos hfull]
      obtain ⟨s', e, _⟩ := hi o.chain o.buffer.contents trivial (by rw [hb.2, hfull, Nat.mod_self])
      simp only [bind, Except.bind]
      rw [e]
      exact blake2_tail hB hi _ data h0
    · rw [if_neg hfull]
      by_cases hl : l = []
      · subst hl
        exact blake2_tail hB hi _ data h0
      · have hlpos := List.length_pos_iff.mpr hl
        have hne : l.isEmpty = false := by
          cases l with
          | nil => exact absurd rfl hl
          | cons => rfl
        simp only [hne, Bool.not_false, if_true]
        rw [if_neg (by omega)]
        obtain ⟨b, e, hb'⟩ := Buffer.pushBack_holds (data.take (min (B - l.length) data.length)) hb
          (by rw [List.length_take]; omega)
        rw [e]
        simp only []
        exact ih (data.drop (min (B - l.length) data.length)).length (by rw [List.length_drop]; omega) _ _ rfl
          ⟨_, hb'⟩

theorem blake2_fin (hB : 0 < B) (c : BLAKE2.Cfg w B C) (o : Obj B (BLAKE2.State w C)) (h : Fits o) :
    ∃ o', BLAKE2.finalize c o = .ok o' ∧ Fits o' := by
  obtain ⟨l, hb⟩ := h
  have hle := hb.le
  unfold BLAKE2.finalize
  simp only []
  rw [hb.size_eq]
  obtain ⟨b1, e1, h1⟩ := Buffer.fill_holds hb 0 (B - l.length) (by omega) (by omega)
  rw [e1]
  simp only [bind, Except.bind]
  obtain ⟨s1, e2, _⟩ := blake2_impl hB c true (B - l.length) o.chain b1.contents trivial (by
    rw [h1.2]
    simp only [List.length_append, List.length_replicate]
    rw [Nat.add_sub_cancel' hle, Nat.mod_self])
  rw [e2]
  exact ⟨_, rfl, [], Buffer.holds_clear b1⟩

def blake2Total (hB : 0 < B) (c : BLAKE2.Cfg w B C) (k size : Nat) : Total (BLAKE2.api c k size) where
  I := Fits
  fresh := ⟨[], Buffer.holds_clear {}⟩
  add := fun o d h _ => blake2_add hB (blake2_impl hB c false 0) d.length o d rfl h
  fin := fun o h => blake2_fin hB c o h
  reset := fun o _ => ⟨[], Buffer.holds_clear o.buffer⟩

end

/-! ### Reading the digest -/

theorem result_ok (size : Nat) (l : List Byte) (h : l.length = size) : ∃ d, resultArray size l = .ok d := by
  unfold resultArray
  rw [if_pos (by omega)]
  exact ⟨_, rfl⟩

theorem words_length {w : Nat} (k : Nat) (store : BitVec w → List Byte) (hs : ∀ x, (store x).length = k)
    (l : List (BitVec w)) : (l.flatMap store).length = l.length * k := by
  induction l with
  | nil => simp
  | cons x xs ih => rw [List.flatMap_cons, List.length_append, hs, ih, List.length_cons, Nat.succ_mul, Nat.add_comm]

theorem be_length {w : Nat} (k : Nat) (x : BitVec w) : (storeBE k x).length = k := by simp [storeBE]
theorem le_length {w : Nat} (k : Nat) (x : BitVec w) : (storeLE k x).length = k := by simp [storeLE]

theorem out_be {w n : Nat} (k size : Nat) (h : n * k = size) (v : Vector (BitVec w) n) :
    ∃ d, resultArray size (v.toList.flatMap (storeBE k)) = .ok d :=
  result_ok _ _ (by rw [words_length k _ (be_length k)]; simpa using h)
theorem out_le {w n : Nat} (k size : Nat) (h : n * k = size) (v : Vector (BitVec w) n) :
    ∃ d, resultArray size (v.toList.flatMap (storeLE k)) = .ok d :=
  result_ok _ _ (by rw [words_length k _ (le_length k)]; simpa using h)
theorem out_take {w n : Nat} (k words size : Nat) (hw : words ≤ n) (h : words * k = size) (v : Vector (BitVec w) n) :
    ∃ d, resultArray size ((v.toList.take words).flatMap (storeBE k)) = .ok d :=
  result_ok _ _ (by
    rw [words_length k _ (be_length k), List.length_take, Vector.length_toList, Nat.min_eq_left hw]; exact h)

theorem sha2_out {w : Nat} (k words size : Nat) (hw : words ≤ 8) (h : words * k = size) (v : Vector (BitVec w) 8) :
    ∃ d, SHA2.toArray k words size (fun _ => []) v = .ok d := by
  unfold SHA2.toArray
  rw [List.append_nil]
  exact out_take k words size hw h v

theorem sha2_512_224_out (v : Vector W64 8) :
    ∃ d, SHA2.toArray 8 3 28 (fun mh => [ror 8 mh[3] 56, ror 8 mh[3] 48, ror 8 mh[3] 40, ror 8 mh[3] 32]) v = .ok d := by
  refine result_ok _ _ ?_
  rw [List.length_append, words_length 8 _ (be_length 8)]
  simp

end Verif.Proof.Misuse
