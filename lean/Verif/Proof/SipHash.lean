import Verif.Model.SipHash
import Verif.Spec.SipHash
import Verif.Proof.Block
import Verif.Proof.Regs

/-! The SipHash class refines its specification. -/

namespace Verif.Proof.SipHash
open Verif.Spec Verif.Model.SipHash

/-- the array `m_state` as a state of the specification -/
def view (v : Vector W64 4) : SipHash.State := ⟨v[0], v[1], v[2], v[3]⟩

theorem vec4 (v : Vector W64 4) : v = #v[v[0], v[1], v[2], v[3]] := by
  apply Vector.ext
  intro i hi
  have : i = 0 ∨ i = 1 ∨ i = 2 ∨ i = 3 := by omega
  rcases this with h | h | h | h <;> subst h <;> rfl

theorem sipRound_lit (a b c d : W64) :
    sipRound #v[a, b, c, d] =
      #v[rotl (a + b) 32 + (rotl d 16 ^^^ (c + d)),
        rotl (rotl b 13 ^^^ (a + b)) 17 ^^^ ((c + d) + (rotl b 13 ^^^ (a + b))),
        rotl ((c + d) + (rotl b 13 ^^^ (a + b))) 32,
        rotl (rotl d 16 ^^^ (c + d)) 21 ^^^ (rotl (a + b) 32 + (rotl d 16 ^^^ (c + d)))] := rfl

theorem sipRound_eq (v : Vector W64 4) : view (sipRound v) = SipHash.sipRound (view v) := by
  rw [vec4 v, sipRound_lit]
  simp only [rotl_eq (w := 64) _ 32 (by decide), rotl_eq (w := 64) _ 16 (by decide), rotl_eq (w := 64) _ 13 (by decide),
    rotl_eq (w := 64) _ 17 (by decide), rotl_eq (w := 64) _ 21 (by decide)]
  rfl

theorem rounds_eq (n : Nat) (v : Vector W64 4) :
    view (rounds n v) = (List.range n).foldl (fun s _ => SipHash.sipRound s) (view v) := by
  unfold rounds
  generalize List.range n = l
  induction l generalizing v with
  | nil => rfl
  | cons x l ih => rw [List.foldl_cons, List.foldl_cons, ih, sipRound_eq]

theorem body_eq (C : Nat) (v : Vector W64 4) (m : Block 8) :
    view (body C v m) = SipHash.compress C (view v) (wordLE 64 m.toList 0) := by
  have hl : loadLE64 m 0 = wordLE 64 m.toList 0 := loadLE64_eq m 0 (by decide)
  have h0 : ∀ (v : Vector W64 4) x, view (v.set 0 x) = { view v with v0 := x } := by
    intro v x; rw [vec4 v]; rfl
  have h3 : ∀ (v : Vector W64 4) x, view (v.set 3 x) = { view v with v3 := x } := by
    intro v x; rw [vec4 v]; rfl
  have e0 : ∀ v : Vector W64 4, v[0] = (view v).v0 := fun _ => rfl
  have e3 : ∀ v : Vector W64 4, v[3] = (view v).v3 := fun _ => rfl
  unfold body
  simp only []
  rw [h0, hl, e0, rounds_eq, h3, e3]
  rfl

/-- the chaining part after whole blocks -/
def den (C : Nat) (key : Block 16) (m : List Byte) : State :=
  { (constructKey key).chain with
    sizeCounter := BitVec.ofNat 8 m.length
    state := mdFold 8 (body C) (constructKey key).chain.state m }

theorem impl_ok (C : Nat) (key : Block 16) : ImplOK 8 (impl C) (den C key) := by
  intro m d hm hd _
  unfold impl
  rw [forBlocks_eq 8 (by decide)]
  simp only [hd, ne_eq, not_true_eq_false, if_false, bind, Except.bind, pure, Except.pure, den]
  rw [mdFold_append 8 _ _ (by decide) m d hm, List.length_append, BitVec.ofNat_add]

/-- the state before finalisation, as the specification defines it -/
theorem fold_view (C : Nat) (key : Block 16) (m : List Byte) :
    view (mdFold 8 (body C) (constructKey key).chain.state m) =
      ((blocks 8 m).map (wordLE 64 · 0)).foldl (SipHash.compress C) (SipHash.init key.toList) := by
  have hi : view (constructKey key).chain.state = SipHash.init key.toList := by
    have l0 : loadLE64 key 0 = wordLE 64 key.toList 0 := loadLE64_eq key 0 (by decide)
    have l1 : loadLE64 key 1 = wordLE 64 key.toList 1 := loadLE64_eq key 1 (by decide)
    unfold SipHash.init
    rw [← l0, ← l1]
    rfl
  rw [← hi]
  unfold mdFold
  rw [List.foldl_map]
  have : ∀ (l : List (List Byte)) (hl : ∀ b ∈ l, b.length = 8) (v : Vector W64 4),
      view (l.foldl (fun s b => body C s (toBlock 8 b)) v) =
        l.foldl (fun s b => SipHash.compress C s (wordLE 64 b 0)) (view v) := by
    intro l
    induction l with
    | nil => intro _ _; rfl
    | cons b l ih =>
      intro hl v
      rw [List.foldl_cons, List.foldl_cons, ih (fun b h => hl b (by simp [h])), body_eq,
        toList_toBlock b (hl b (by simp))]
  exact this _ (fun b h => mem_blocks_length 8 m b h) _

/-- the four words after `finalize` -/
def finState (C D : Nat) (key : Block 16) (m : List Byte) : Vector W64 4 :=
  let v := mdFold 8 (body C) (constructKey key).chain.state (SipHash.pad m)
  rounds D (v.set 2 (v[2] ^^^ 0xff))

/-- finalised objects: the key is kept, the state gives the tag -/
def Fin (C D : Nat) (key : Block 16) (o : O) (m : List Byte) : Prop :=
  (o.chain.key = (constructKey key).chain.key ∧ o.chain.state = finState C D key m) ∧
    o.chain.state[0] ^^^ o.chain.state[1] ^^^ o.chain.state[2] ^^^ o.chain.state[3] =
      SipHash.siphash C D key.toList m

theorem finalize_rel (C D : Nat) (key : Block 16) (o : O) (m : List Byte)
    (h : Rel 8 (den C key) o m) : ∃ o', finalize C D o = .ok o' ∧ Fin C D key o' m := by
  obtain ⟨hc, hb⟩ := h
  have hrl := restPart_lt 8 m (by decide)
  have hrlen := restPart_length 8 m
  have hal : (alignedPart 8 m).length % 8 = 0 := by
    rw [alignedPart_length]; exact alignedLen_mod 8 m
  have hm := aligned_append_rest 8 m
  unfold finalize
  simp only []
  rw [hb.size_eq]
  obtain ⟨b1, e1, h1⟩ := Buffer.fill_holds hb 0 (8 - 1 - (restPart 8 m).length) (by omega) (by omega)
  rw [e1]
  simp only [bind, Except.bind]
  have hl1 : (restPart 8 m ++ List.replicate (8 - 1 - (restPart 8 m).length) (0 : Byte)).length = 7 := by
    rw [List.length_append, List.length_replicate]; omega
  obtain ⟨b2, e2, h2⟩ := Buffer.fill_holds h1 (o.chain.sizeCounter + BitVec.ofNat 8 (restPart 8 m).length)
    1 (by omega) (by omega)
  rw [e2]
  simp only []
  have hcnt : o.chain.sizeCounter + BitVec.ofNat 8 (restPart 8 m).length = BitVec.ofNat 8 m.length := by
    rw [hc]
    show BitVec.ofNat 8 (alignedPart 8 m).length + _ = _
    rw [← BitVec.ofNat_add, ← List.length_append, hm]
  rw [hcnt] at h2 ⊢
  have hl2 : (restPart 8 m ++ List.replicate (8 - 1 - (restPart 8 m).length) (0 : Byte) ++
      List.replicate 1 (BitVec.ofNat 8 m.length)).length = 8 := by
    rw [List.length_append, hl1]; rfl
  rw [h2.2]
  unfold impl
  rw [forBlocks_eq 8 (by decide), hl2]
  simp only [ne_eq, not_true_eq_false, if_false, bind, Except.bind, pure, Except.pure, Nat.mod_self]
  have hs : o.chain.state = mdFold 8 (body C) (constructKey key).chain.state (alignedPart 8 m) := by
    rw [hc]; rfl
  have hpad : SipHash.pad m = alignedPart 8 m ++ (restPart 8 m ++
      List.replicate (8 - 1 - (restPart 8 m).length) (0 : Byte) ++
      List.replicate 1 (BitVec.ofNat 8 m.length)) := by
    unfold SipHash.pad
    rw [← List.append_assoc, ← List.append_assoc, hm, hrlen]
    rfl
  have hfold := mdFold_append 8 (body C) (constructKey key).chain.state (by decide) (alignedPart 8 m)
    (restPart 8 m ++ List.replicate (8 - 1 - (restPart 8 m).length) (0 : Byte) ++
      List.replicate 1 (BitVec.ofNat 8 m.length)) hal
  refine ⟨_, rfl, ⟨?_, ?_⟩, ?_⟩
  · show o.chain.key = _
    rw [hc]; rfl
  · show rounds D _ = finState C D key m
    unfold finState
    rw [hs, ← hfold, ← hpad]
  · show (fun v : Vector W64 4 => v[0] ^^^ v[1] ^^^ v[2] ^^^ v[3]) (rounds D _) = _
    have hx : ∀ v : Vector W64 4, (fun v : Vector W64 4 => v[0] ^^^ v[1] ^^^ v[2] ^^^ v[3]) v =
      (fun s : SipHash.State => s.v0 ^^^ s.v1 ^^^ s.v2 ^^^ s.v3) (view v) := fun _ => rfl
    have h2' : ∀ (v : Vector W64 4) x, view (v.set 2 x) = { view v with v2 := x } := by
      intro v x; rw [vec4 v]; rfl
    have e2 : ∀ v : Vector W64 4, v[2] = (view v).v2 := fun _ => rfl
    rw [hx, rounds_eq, h2', e2, hs, ← hfold, fold_view, ← hpad]
    rfl

/-- `SipHash<C, D>` with a given key computes the tag, most significant byte first. -/
def refines (C D : Nat) (key : Block 16) :
    Refines (SipHashCD C D key) (fun m => .ok (toBE 8 (SipHash.siphash C D key.toList m).toNat)) where
  R := Rel 8 (den C key)
  F := Fin C D key
  fresh := by
    have h1 : alignedPart 8 ([] : List Byte) = [] := by simp [alignedPart, alignedLen]
    have h2 : restPart 8 ([] : List Byte) = [] := by simp [restPart]
    refine ⟨?_, ?_⟩
    · rw [h1]
      unfold den mdFold
      rw [blocks_nil]
      rfl
    · rw [h2]
      exact Buffer.holds_clear {}
  add := fun _ _ d hd h => addData_rel (by decide) (by decide) (by decide) (impl_ok C key) h d hd
  fin := finalize_rel C D key
  resetR := fun o m h => by
    show reset o = constructKey key
    unfold reset
    rw [h.1]
    rfl
  resetF := fun o m h => by
    show reset o = constructKey key
    unfold reset resetState
    rw [h.1.1]
    rfl
  out := fun o m h => by
    show resultArray 8 (storeBE 8 _) = _
    rw [h.2, storeBE_eq]
    exact resultArray_exact 8 _ (toBE_length _ _)

end Verif.Proof.SipHash
