import Verif.Proof.Equality
import Verif.Props.Overloads

/-!
# C59: arrays of other types than bytes

`addData(const T (&array)[N])` and `addData(Span<T>)` take any type `T` and hash the bytes of the elements as they lie in
memory (C30). What that means for integers on machines of both byte orders, and for types with padding.
-/

namespace Verif.Props
open Model
open Spec (toLE toBE)

/-- the byte order of the machine -/
inductive ByteOrder where
  | little
  | big

/-- how an unsigned integer of `k` bytes with the value `v` lies in memory -/
def ByteOrder.rep : ByteOrder → (k v : Nat) → List Byte
  | .little, k, v => toLE k v
  | .big, k, v => toBE k v

/-- Memory holds, from address `p` on, an array of unsigned integers of `k` bytes each with the values `vs`. -/
def Integers (e : ByteOrder) (mem : Nat → Byte) (p k : Nat) (vs : List Nat) : Prop := Stored mem p k (vs.map (e.rep k))

private theorem rep_length (e : ByteOrder) (k v : Nat) : (e.rep k v).length = k := by
  cases e
  · exact toLE_length k v
  · exact toBE_length k v

private theorem rep_inj (e : ByteOrder) (k : Nat) {v w : Nat} (hv : v < 256 ^ k) (hw : w < 256 ^ k) (h : e.rep k v = e.rep k w) : v = w := by
  cases e
  · exact toBE_inj hv hw (congrArg List.reverse h)
  · exact toBE_inj hv hw h

/-- C59: what an array of integers feeds -/
theorem C59_integers {O : Type} (A : API O) (e : ByteOrder) (mem : Nat → Byte) (o : O) (p k : Nat) (vs : List Nat)
    (h : Integers e mem p k vs) (hs : k * vs.length < 2 ^ 64) :
    A.addDataArray mem o p k vs.length = A.addData o (vs.flatMap (e.rep k)) ∧
    A.addDataSpan mem o p vs.length k = A.addData o (vs.flatMap (e.rep k)) := by
  obtain ⟨h1, h2, -⟩ := C30_overloads A mem o p k (vs.map (e.rep k)) h (by rw [List.length_map]; exact hs)
  rw [List.length_map] at h1 h2
  exact ⟨h1, h2⟩

/-- C59: on one machine, arrays of one element type with different values or lengths feed different bytes. -/
theorem C59_injective (e : ByteOrder) (k : Nat) (hk : 0 < k) (vs ws : List Nat) (hv : ∀ v ∈ vs, v < 256 ^ k)
    (hw : ∀ w ∈ ws, w < 256 ^ k) : vs.flatMap (e.rep k) = ws.flatMap (e.rep k) ↔ vs = ws := by
  refine ⟨fun h => ?_, fun h => by rw [h]⟩
  induction vs generalizing ws with
  | nil =>
    cases ws with
    | nil => rfl
    | cons w ws =>
      have := congrArg List.length h
      simp [rep_length] at this
      omega
  | cons v vs ih =>
    cases ws with
    | nil =>
      have := congrArg List.length h
      simp [rep_length] at this
      omega
    | cons w ws =>
      rw [List.flatMap_cons, List.flatMap_cons] at h
      obtain ⟨h1, h2⟩ := List.append_inj h (by rw [rep_length, rep_length])
      rw [rep_inj e k (hv v (by simp)) (hw w (by simp)) h1,
        ih ws (fun x hx => hv x (by simp [hx])) (fun x hx => hw x (by simp [hx])) h2]

/-- C59: the element type leaves no trace: arrays with the same address and the same size in bytes are one message. -/
theorem C59_types_merge {O : Type} (A : API O) (mem : Nat → Byte) (o : O) (p k n k' n' : Nat) (h : k * n = k' * n') :
    A.addDataArray mem o p k n = A.addDataArray mem o p k' n' := by
  unfold API.addDataArray
  rw [h]

/-- C59: the two byte orders feed the same bytes exactly if every element reads the same backwards. -/
theorem C59_portable_partial (k : Nat) (vs : List Nat) :
    vs.flatMap (ByteOrder.little.rep k) = vs.flatMap (ByteOrder.big.rep k) ↔ ∀ v ∈ vs, (toLE k v).reverse = toLE k v := by
  induction vs with
  | nil => simp
  | cons v vs ih =>
    rw [List.flatMap_cons, List.flatMap_cons, List.forall_mem_cons]
    constructor
    · intro h
      obtain ⟨h1, h2⟩ := List.append_inj h (by rw [rep_length, rep_length])
      exact ⟨h1.symm, ih.1 h2⟩
    · rintro ⟨h1, h2⟩
      rw [ih.2 h2]
      congr 1
      exact h1.symm

/-- C59: arrays of bytes are portable. -/
theorem C59_bytes (vs : List Nat) : vs.flatMap (ByteOrder.little.rep 1) = vs.flatMap (ByteOrder.big.rep 1) :=
  (C59_portable_partial 1 vs).2 fun _ _ => rfl

set_option maxRecDepth 100000 in
private theorem order_differs : (SHA1.SHA1.digest [[1, 0]]).toOption ≠ (SHA1.SHA1.digest [[0, 1]]).toOption := by
  decide +kernel

/-- the digest of what one call of an overload feeds -/
def digestAfter {O : Type} (A : API O) (add : O → Except Fault O) : Except Fault (List Byte) := do
  A.toArray (← A.finalize (← add A.fresh))

private theorem digestAfter_add {O : Type} (A : API O) (d : List Byte) :
    digestAfter A (fun o => A.addData o d) = A.digest [d] := by
  unfold digestAfter API.digest
  simp only [List.map_cons, List.map_nil, List.cons_append, List.nil_append, API.run, API.step, bind_assoc, pure_bind, bind_pure]
  rfl

/-- C59: the digest of an array of integers is not portable: SHA1 of `uint16_t a[] = {1}` depends on the machine. -/
theorem C59_portable_fails (mem mem' : Nat → Byte) (p p' : Nat) (h : Integers .little mem p 2 [1])
    (h' : Integers .big mem' p' 2 [1]) :
    digestAfter SHA1.SHA1 (fun o => SHA1.SHA1.addDataArray mem o p 2 1) ≠
      digestAfter SHA1.SHA1 (fun o => SHA1.SHA1.addDataArray mem' o p' 2 1) := by
  have e := funext fun o => (C59_integers SHA1.SHA1 .little mem o p 2 [1] h (by decide)).1
  have e' := funext fun o => (C59_integers SHA1.SHA1 .big mem' o p' 2 [1] h' (by decide)).1
  intro hd
  change digestAfter SHA1.SHA1 (fun o => SHA1.SHA1.addDataArray mem o p 2 [1].length) =
    digestAfter SHA1.SHA1 (fun o => SHA1.SHA1.addDataArray mem' o p' 2 [1].length) at hd
  rw [e, e', digestAfter_add, digestAfter_add] at hd
  exact order_differs (congrArg Except.toOption hd)

/-- Memory holds a `struct { uint8_t a; uint16_t b; }` with the values `a` and `b` (`b` is at an even offset, and there is a
byte of padding between them, with any value). -/
def Struct (mem : Nat → Byte) (p : Nat) (a : Byte) (b : Nat) : Prop := ∃ pad, Stored mem p 4 [[a, pad] ++ toLE 2 b]

set_option maxRecDepth 100000 in
private theorem padding_differs : (SHA1.SHA1.digest [[1, 0, 2, 0]]).toOption ≠ (SHA1.SHA1.digest [[1, 9, 2, 0]]).toOption := by
  decide +kernel

/-- C59: padding is hashed: arrays of equal structures can have different digests. -/
theorem C59_padding_fails : ∃ mem mem' : Nat → Byte, Struct mem 16 1 2 ∧ Struct mem' 16 1 2 ∧
    digestAfter SHA1.SHA1 (fun o => SHA1.SHA1.addDataArray mem o 16 4 1) ≠
      digestAfter SHA1.SHA1 (fun o => SHA1.SHA1.addDataArray mem' o 16 4 1) := by
  have st : ∀ x : Byte, Stored (fun a => [1, x, 2, 0].getD (a - 16) 0) 16 4 [[1, x] ++ toLE 2 2] := by
    intro x
    refine ⟨by simp, fun i hi j hj => ?_⟩
    match i, hi with
    | 0, _ =>
      simp at hj
      match j, hj with
      | 0, _ => rfl
      | 1, _ => rfl
      | 2, _ => rfl
      | 3, _ => rfl
  refine ⟨_, _, ⟨0, st 0⟩, ⟨9, st 9⟩, fun hd => ?_⟩
  have e : ∀ x, (fun o => SHA1.SHA1.addDataArray (fun a => [1, x, 2, 0].getD (a - 16) 0) o 16 4 1) =
      fun o => SHA1.SHA1.addData o [1, x, 2, 0] := fun x =>
    funext fun o => (C30_overloads SHA1.SHA1 _ o 16 4 _ (st x) (by simp)).1
  rw [e, e, digestAfter_add, digestAfter_add] at hd
  exact padding_differs (congrArg Except.toOption hd)

/-! Memories that meet the hypotheses. -/
private theorem two (x y : Byte) : Stored (fun a => [x, y].getD (a - 16) 0) 16 2 [[x, y]] := by
  refine ⟨by simp, fun i hi j hj => ?_⟩
  match i, hi with
  | 0, _ =>
    simp at hj
    match j, hj with
    | 0, _ => rfl
    | 1, _ => rfl
example := C59_portable_fails _ _ 16 16 (two 1 0) (two 0 1)
example := (C59_injective .big 4 (by decide) [1, 2] [1, 3] (by decide) (by decide))
example : (toLE 2 0x0101).reverse = toLE 2 0x0101 := by decide

end Verif.Props
