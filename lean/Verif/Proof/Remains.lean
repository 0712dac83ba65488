import Verif.Core.Remains
import Verif.Proof.MD2
import Verif.Proof.Trace

/-! # The bytes left in the buffer -/

namespace Verif
namespace Buffer
variable {N : Nat}

theorem stored {b : Buffer N} {l : List Byte} (h : b.Holds l) (c : b.Clean) :
    b.arr.toList = l ++ List.replicate (N - l.length) 0 := by
  have hl : b.arr.toList.take l.length = l := by have := h.2; rw [contents, h.1] at this; exact this
  have hd : b.arr.toList.drop l.length = List.replicate (N - l.length) 0 := by
    refine List.eq_replicate_iff.2 ⟨by simp, fun x hx => ?_⟩
    obtain ⟨i, hi, rfl⟩ := List.getElem_of_mem hx
    rw [List.getElem_drop, Vector.getElem_toList]
    exact c _ (by rw [h.1]; omega) _
  have := List.take_append_drop l.length b.arr.toList
  rw [hl, hd] at this
  exact this.symm

theorem stored_empty : ({} : Buffer N).arr.toList = List.replicate N 0 := Vector.toList_replicate ..

end Buffer

namespace Proof.Remains
open Spec Proof.Trace

theorem wipes {N : Nat} {S : Type} {A : API (Obj N S)} (hf : ∀ o o', A.finalize o = .ok o' → o'.buffer = {})
    (hr : ∀ o, (A.reset o).buffer = {}) : A.Wipes :=
  fun o => ⟨fun o' e => by rw [hf o o' e]; exact Buffer.stored_empty, by rw [hr]; exact Buffer.stored_empty⟩

theorem keepsLast {N : Nat} {S : Type} {A : API (Obj N S)} {dig : List Byte → Except Fault (List Byte)} (r : Refines A dig)
    {kept : Nat → Nat} (hk : ∀ n, kept n ≤ n) (h0 : A.fresh.buffer = {})
    (ha : ∀ o o' d, o.buffer.Clean → A.addData o d = .ok o' → o'.buffer.Clean) (hw : A.Wipes)
    (hr : ∀ o m, r.R o m → o.buffer.Holds (m.drop (m.length - kept m.length))) : A.KeepsLast kept := by
  intro ops hl
  rcases last_cases ops hl with ⟨f, pre, rfl⟩ | ⟨f, g⟩
  · obtain ⟨o, e, h⟩ := r.run_finalize pre hl
    refine ⟨o, e, ?_⟩
    rw [if_pos f]
    rw [Refines.run_append] at e
    obtain ⟨o1, _, e⟩ := CShake.bind_ok e
    obtain ⟨o2, e2, e⟩ := CShake.bind_ok e
    cases e
    exact (hw o1).1 o e2
  · obtain ⟨o, e, h⟩ := Differences.run_open
      (withInv r (fun o => o.buffer.Clean) (by rw [h0]; exact Buffer.clean_empty) ha) ops g
    refine ⟨o, e, ?_⟩
    rw [if_neg f, Buffer.stored (hr _ _ h.1) h.2]
    have := hk (message ops).length
    rw [List.length_drop, show (message ops).length - ((message ops).length - kept (message ops).length) =
      kept (message ops).length by omega]

theorem objKeeps {N B : Nat} {S : Type} {A : API (Obj N S)} {dig : List Byte → Except Fault (List Byte)}
    {den : List Byte → S} {impl : S → List Byte → Except Fault S} (r : Refines A dig) (h0 : A.fresh.buffer = {})
    (ha : A.addData = addData B impl) (hr : ∀ o m, r.R o m → Rel B den o m) (hw : A.Wipes) : A.KeepsLast (untilBlock B) :=
  keepsLast r (fun n => Nat.mod_le n B) h0 (objInv ha) hw fun o m h => (hr o m h).2

theorem mdWipes {C H : Type} {B L : Nat} {pb : Byte} {cnt : Counter C} {comp : H → Block B → H} {iv : H}
    {out : H → Except Fault (List Byte)} : (mdApi B L pb cnt comp iv out).Wipes := by
  refine wipes (fun o o' e => ?_) fun _ => rfl
  obtain ⟨b1, _, e⟩ := CShake.bind_ok e
  obtain ⟨b2, _, e⟩ := CShake.bind_ok e
  obtain ⟨b3, _, e⟩ := CShake.bind_ok e
  obtain ⟨c, _, e⟩ := CShake.bind_ok e
  cases e; rfl

theorem mdKeeps {C H : Type} {B L : Nat} (hL : L + 1 ≤ B) (hBS : B < 2 ^ 64) (pb : Byte) {cnt : Counter C}
    {field : Nat → List Byte} (ok : CounterOK cnt L field) (comp : H → Block B → H) (iv : H)
    (out : H → Except Fault (List Byte)) : (mdApi B L pb cnt comp iv out).KeepsLast (untilBlock B) :=
  objKeeps (mdRefines hL hBS pb ok comp iv out) rfl rfl (fun _ _ h => h) mdWipes

theorem lastKeeps {B : Nat} {S : Type} {A : API (Obj B S)} {dig : List Byte → Except Fault (List Byte)}
    {den : List Byte → S} {impl : S → List Byte → Except Fault S} (hB : 0 < B) (r : Refines A dig)
    (h0 : A.fresh.buffer = {}) (ha : A.addData = Model.BLAKE2.addData B impl)
    (hr : ∀ o m, r.R o m → BLAKE2.LRel B den o m) (hw : A.Wipes) : A.KeepsLast (lastBlock B) := by
  refine keepsLast r (fun n => ?_) h0 (lastInv ha) hw fun o m h => ?_
  · unfold lastBlock
    split
    · exact Nat.zero_le n
    · have := Nat.mod_le (n - 1) B; omega
  · obtain ⟨a, x, rfl, h1, h2, h3, _, h5⟩ := hr o m h
    have e : lastBlock B (a ++ x).length = x.length := by
      unfold lastBlock
      rw [List.length_append]
      split
      · omega
      · rename_i hz
        have hx : 0 < x.length := by
          rcases Nat.eq_zero_or_pos x.length with z | z
          · have : a.length = 0 := by rw [h3 (List.eq_nil_of_length_eq_zero z)]; rfl
            omega
          · exact z
        rw [show a.length + x.length - 1 = a.length + (x.length - 1) by omega, Nat.add_mod, h1, Nat.zero_add, Nat.mod_mod,
          Nat.mod_eq_of_lt (by omega)]
        omega
    rw [e, List.length_append, Nat.add_sub_cancel, List.drop_left]
    exact h5

theorem md2Wipes : Model.MD2.MD2.Wipes := by
  refine wipes (fun o o' e => ?_) fun _ => rfl
  obtain ⟨b1, _, e⟩ := CShake.bind_ok e
  obtain ⟨c, _, e⟩ := CShake.bind_ok e
  obtain ⟨c', _, e⟩ := CShake.bind_ok e
  cases e; rfl

theorem blakeWipes {w B : Nat} {C : Type} {c : Model.BLAKE.Cfg w B C} {L : Nat} {marker : Bool} {total : C → Nat → C}
    {writes : Nat → C → List (Nat × Byte)} (o o' : Obj (2 * B) (MDState C (Vector (BitVec w) 8)))
    (e : Model.BLAKE.finalize c L marker total writes o = .ok o') : o'.buffer = {} := by
  obtain ⟨b1, _, e⟩ := CShake.bind_ok e
  obtain ⟨b2, _, e⟩ := CShake.bind_ok e
  obtain ⟨b3, _, e⟩ := CShake.bind_ok e
  obtain ⟨b4, _, e⟩ := CShake.bind_ok e
  obtain ⟨s, _, e⟩ := CShake.bind_ok e
  cases e; rfl

theorem blake2Wipes {w B : Nat} {C : Type} (c : Model.BLAKE2.Cfg w B C) (k n : Nat) : (Model.BLAKE2.api c k n).Wipes := by
  refine wipes (fun o o' e => ?_) fun _ => rfl
  obtain ⟨b1, _, e⟩ := CShake.bind_ok e
  obtain ⟨s, _, e⟩ := CShake.bind_ok e
  cases e; rfl

theorem keccakWipes (R : Nat) [hR : Model.SHA3.RateOK R] (P : Byte) (d : Nat) : (Model.SHA3.Keccak R P d).Wipes := by
  refine wipes (fun o o' e => ?_) fun _ => rfl
  obtain ⟨b1, _, e⟩ := CShake.bind_ok e
  obtain ⟨b2, _, e⟩ := CShake.bind_ok e
  obtain ⟨l, _, e⟩ := CShake.bind_ok e
  obtain ⟨b3, _, e⟩ := CShake.bind_ok e
  obtain ⟨c, _, e⟩ := CShake.bind_ok e
  obtain ⟨c', _, e⟩ := CShake.bind_ok e
  cases e; rfl

theorem sipWipes (C D : Nat) (key : Block 16) : (Model.SipHash.SipHashCD C D key).Wipes := by
  refine wipes (fun o o' e => ?_) fun _ => rfl
  obtain ⟨b1, _, e⟩ := CShake.bind_ok e
  obtain ⟨b2, _, e⟩ := CShake.bind_ok e
  obtain ⟨s, _, e⟩ := CShake.bind_ok e
  cases e; rfl

/-- a property of the other members that `addDataImpl` preserves -/
theorem tailChain {N B : Nat} {S : Type} {impl : S → List Byte → Except Fault S} {P : S → Prop}
    (hi : ∀ s d s', P s → impl s d = .ok s' → P s') {o o' : Obj N S} {d : List Byte} (h : P o.chain)
    (e : addDataTail B impl o d = .ok o') : P o'.chain := by
  unfold addDataTail at e
  simp only [] at e
  split at e
  · obtain ⟨b, _, e⟩ := CShake.bind_ok e
    cases e; exact h
  · obtain ⟨x, _, e⟩ := CShake.bind_ok e
    obtain ⟨c, ec, e⟩ := CShake.bind_ok e
    split at e
    · obtain ⟨b, _, e⟩ := CShake.bind_ok e
      cases e; exact hi _ _ _ h ec
    · cases e; exact hi _ _ _ h ec

theorem addChain {N B : Nat} {S : Type} {impl : S → List Byte → Except Fault S} {P : S → Prop}
    (hi : ∀ s d s', P s → impl s d = .ok s' → P s') {o o' : Obj N S} {d : List Byte} (h : P o.chain)
    (e : addData B impl o d = .ok o') : P o'.chain := by
  unfold addData at e
  split at e
  · obtain ⟨b, _, e⟩ := CShake.bind_ok e
    split at e
    · cases e; exact h
    · obtain ⟨c, ec, e⟩ := CShake.bind_ok e
      obtain ⟨x, _, e⟩ := CShake.bind_ok e
      exact tailChain hi (o := ⟨b.clear, c⟩) (hi _ _ _ h ec) e
  · exact tailChain hi h e

theorem sipKey (C D : Nat) (key : Block 16) (ops : List Op) (o : Model.SipHash.O)
    (h : (Model.SipHash.SipHashCD C D key).run (Model.SipHash.SipHashCD C D key).fresh ops = .ok o) :
    o.chain.key = #v[loadLE64 key 0, loadLE64 key 1] := by
  have hi : ∀ (s : Model.SipHash.State) d s', s.key = #v[loadLE64 key 0, loadLE64 key 1] →
      Model.SipHash.impl C s d = .ok s' → s'.key = #v[loadLE64 key 0, loadLE64 key 1] := by
    intro s d s' h e
    unfold Model.SipHash.impl at e
    split at e
    · cases e
    · obtain ⟨v, _, e⟩ := CShake.bind_ok e
      cases e; exact h
  suffices key : ∀ (ops : List Op) (o o' : Model.SipHash.O), o.chain.key = #v[loadLE64 key 0, loadLE64 key 1] →
      (Model.SipHash.SipHashCD C D key).run o ops = .ok o' → o'.chain.key = #v[loadLE64 key 0, loadLE64 key 1] from
    key ops _ o rfl h
  intro ops
  induction ops with
  | nil => intro o o' h e; cases e; exact h
  | cons op ops ih =>
    intro o o' h e
    obtain ⟨o1, e1, e⟩ := CShake.bind_ok e
    refine ih o1 o' ?_ e
    cases op with
    | add d => exact addChain (P := fun s => s.key = _) hi h e1
    | reset => cases e1; exact h
    | finalize =>
      obtain ⟨b1, _, e1⟩ := CShake.bind_ok e1
      obtain ⟨b2, _, e1⟩ := CShake.bind_ok e1
      obtain ⟨s, es, e1⟩ := CShake.bind_ok e1
      cases e1
      show s.key = _
      exact hi _ _ s (by exact h) es

theorem bytepad_aligned (x : List Byte) {w : Nat} (hw : 0 < w) : (SP800185.bytepad x w).length % w = 0 := by
  unfold SP800185.bytepad
  simp only [List.length_append, List.length_replicate]
  generalize (SP800185.leftEncode w).length + x.length = n
  have h := Nat.mod_lt n hw
  rw [Nat.add_mod, Nat.mod_mod]
  rcases Nat.eq_zero_or_pos (n % w) with z | z
  · rw [z, Nat.sub_zero, Nat.mod_self]; simp
  · rw [Nat.mod_eq_of_lt (a := w - n % w) (by omega), show n % w + (w - n % w) = w by omega, Nat.mod_self]

end Proof.Remains
end Verif
