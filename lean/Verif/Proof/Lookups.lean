import Verif.Model.Lookups
import Verif.Proof.Bytes
import Verif.Proof.CRC32Forge

/-! # The elements of the tables that are read give the message away -/

namespace Verif.Model

open Look

namespace Look

variable {V α β σ : Type}

@[simp] theorem value_ret (tab : Nat → Byte → V) (a : α) : (Look.ret a).value tab = a := rfl
@[simp] theorem value_pure (tab : Nat → Byte → V) (a : α) : (pure a : Look V α).value tab = a := rfl
@[simp] theorem value_elem (tab : Nat → Byte → V) (t : Nat) (i : Byte) : (elem t i).value tab = tab t i := rfl

theorem value_bind' (tab : Nat → Byte → V) (p : Look V α) (f : α → Look V β) :
    (p.bind f).value tab = (f (p.value tab)).value tab := by
  induction p with
  | ret a => rfl
  | look t i k ih => exact ih (tab t i)

@[simp] theorem value_bind (tab : Nat → Byte → V) (p : Look V α) (f : α → Look V β) :
    (p >>= f).value tab = (f (p.value tab)).value tab := value_bind' tab p f

theorem places_bind' (tab : Nat → Byte → V) (p : Look V α) (f : α → Look V β) :
    (p.bind f).places tab = p.places tab ++ (f (p.value tab)).places tab := by
  induction p with
  | ret a => rfl
  | look t i k ih => exact congrArg _ (ih (tab t i))

@[simp] theorem places_bind (tab : Nat → Byte → V) (p : Look V α) (f : α → Look V β) :
    (p >>= f).places tab = p.places tab ++ (f (p.value tab)).places tab := places_bind' tab p f

@[simp] theorem places_ret (tab : Nat → Byte → V) (a : α) : (Look.ret a).places tab = [] := rfl
@[simp] theorem places_pure (tab : Nat → Byte → V) (a : α) : (pure a : Look V α).places tab = [] := rfl
@[simp] theorem places_elem (tab : Nat → Byte → V) (t : Nat) (i : Byte) : (elem t i).places tab = [(t, i)] := rfl

/-- `n` elements are read, whatever they are -/
def Count : Nat → Look V α → Prop
  | 0, .ret _ => True
  | n + 1, .look _ _ k => ∀ v, Count n (k v)
  | _, _ => False

theorem Count.ret (a : α) : Count 0 (Look.ret a : Look V α) := trivial
theorem Count.pure (a : α) : Count 0 (Pure.pure a : Look V α) := trivial
theorem Count.elem (t : Nat) (i : Byte) : Count 1 (Look.elem t i : Look V V) := fun _ => trivial

theorem Count.bind {n m : Nat} {p : Look V α} {f : α → Look V β} (hp : Count n p) (hf : ∀ a, Count m (f a)) :
    Count (n + m) (p >>= f) := by
  show Count (n + m) (p.bind f)
  induction p generalizing n with
  | ret a =>
    cases n with
    | zero => rw [Nat.zero_add]; exact hf a
    | succ n => exact hp.elim
  | look t i k ih =>
    cases n with
    | zero => exact hp.elim
    | succ n => rw [Nat.succ_add]; exact fun v => ih v (hp v)

theorem Count.length (tab : Nat → Byte → V) {n : Nat} {p : Look V α} (h : Count n p) : (p.places tab).length = n := by
  induction p generalizing n with
  | ret a => cases n with | zero => rfl | succ n => exact h.elim
  | look t i k ih =>
    cases n with
    | zero => exact h.elim
    | succ n => exact congrArg (· + 1) (ih _ (h _))

/-- the step reads a fixed number of elements, not none, and which they are gives away what it took in -/
structure Reveals (tab : Nat → Byte → V) (step : σ → β → Look V σ) : Prop where
  count : ∃ n, 0 < n ∧ ∀ s b, Count n (step s b)
  inj : ∀ s b b', (step s b).places tab = (step s b').places tab → b = b'

theorem Reveals.loop {tab : Nat → Byte → V} {step : σ → β → Look V σ} (h : Reveals tab step) (s : σ) (bs bs' : List β)
    (e : (Look.loop step s bs).places tab = (Look.loop step s bs').places tab) : bs = bs' := by
  obtain ⟨n, hn, hc⟩ := h.count
  induction bs generalizing s bs' with
  | nil =>
    cases bs' with
    | nil => rfl
    | cons b' bs' =>
      simp only [Look.loop, places_ret, places_bind'] at e
      have := congrArg List.length e
      rw [List.length_append, (hc s b').length] at this
      simp at this; omega
  | cons b bs ih =>
    cases bs' with
    | nil =>
      simp only [Look.loop, places_ret, places_bind'] at e
      have := congrArg List.length e
      rw [List.length_append, (hc s b).length] at this
      simp at this; omega
    | cons b' bs' =>
      simp only [Look.loop, places_bind'] at e
      have := List.append_inj e (by rw [(hc s b).length, (hc s b').length])
      have hb := h.inj s b b' this.1
      subst hb
      rw [ih _ _ this.2]

/-- Two lists of the same length `n` at the front. -/
theorem prefix_inj {tab : Nat → Byte → V} {p p' : Look V α} {f f' : α → Look V β} {n : Nat} (h : Count n p)
    (h' : Count n p') (e : (p >>= f).places tab = (p' >>= f').places tab) :
    p.places tab = p'.places tab ∧ (f (p.value tab)).places tab = (f' (p'.value tab)).places tab := by
  rw [places_bind, places_bind] at e
  exact List.append_inj e (by rw [h.length, h'.length])

theorem value_loop (tab : Nat → Byte → V) {step : σ → β → Look V σ} {f : σ → β → σ}
    (h : ∀ s b, (step s b).value tab = f s b) (s : σ) (bs : List β) :
    (Look.loop step s bs).value tab = bs.foldl f s := by
  induction bs generalizing s with
  | nil => rfl
  | cons b bs ih => simp only [Look.loop, value_bind', h, ih, List.foldl_cons]

end Look

/-- the bytes of a word -/
theorem bytes32_inj {x y : W32} (h0 : ror 8 x 0 = ror 8 y 0) (h1 : ror 8 x 8 = ror 8 y 8) (h2 : ror 8 x 16 = ror 8 y 16)
    (h3 : ror 8 x 24 = ror 8 y 24) : x = y := by
  apply BitVec.eq_of_getElem_eq
  intro i hi
  have g : ∀ (w : W32) (k : Nat) (j : Nat), j < 8 → (ror 8 w k).getLsbD j = w.getLsbD (k + j) := by
    intro w k j hj; simp [ror, hj]
  simp only [← BitVec.getLsbD_eq_getElem]
  have : i = 0 + i % 8 ∧ i / 8 = 0 ∨ i = 8 + i % 8 ∨ i = 16 + i % 8 ∨ i = 24 + i % 8 := by omega
  rcases this with ⟨e, _⟩ | e | e | e <;> rw [e, ← g _ _ _ (Nat.mod_lt _ (by decide)), ← g _ _ _ (Nat.mod_lt _ (by decide))]
  · rw [h0]
  · rw [h1]
  · rw [h2]
  · rw [h3]

theorem bytes64_inj {x y : W64} (h : ∀ k : Fin 8, ror 8 x (k * 8) = ror 8 y (k * 8)) : x = y := by
  apply BitVec.eq_of_getElem_eq
  intro i hi
  have g : ∀ (w : W64) (k : Nat) (j : Nat), j < 8 → (ror 8 w k).getLsbD j = w.getLsbD (k + j) := by
    intro w k j hj; simp [ror, hj]
  simp only [← BitVec.getLsbD_eq_getElem]
  have e : i = i / 8 * 8 + i % 8 := by omega
  rw [e, ← g _ _ _ (Nat.mod_lt _ (by decide)), ← g _ _ _ (Nat.mod_lt _ (by decide))]
  rw [h ⟨i / 8, by omega⟩]

theorem loadLE32_byte {B : Nat} (m : Block B) (j k : Nat) (h : 4 * j + 4 ≤ B) (hk : k < 4) :
    ror 8 (loadLE32 m j h) (8 * k) = m[4 * j + k] := by
  apply BitVec.eq_of_getLsbD_eq
  intro i hi
  have hk : k = 0 ∨ k = 1 ∨ k = 2 ∨ k = 3 := by omega
  have hi : i = 0 ∨ i = 1 ∨ i = 2 ∨ i = 3 ∨ i = 4 ∨ i = 5 ∨ i = 6 ∨ i = 7 := by omega
  rcases hk with rfl | rfl | rfl | rfl <;> rcases hi with rfl | rfl | rfl | rfl | rfl | rfl | rfl | rfl <;>
    simp [ror, loadLE32]

theorem loadLE64_byte {B : Nat} (m : Block B) (j k : Nat) (h : 8 * j + 8 ≤ B) (hk : k < 8) :
    ror 8 (loadLE64 m j h) (8 * k) = m[8 * j + k] := by
  apply BitVec.eq_of_getLsbD_eq
  intro i hi
  have hk : k = 0 ∨ k = 1 ∨ k = 2 ∨ k = 3 ∨ k = 4 ∨ k = 5 ∨ k = 6 ∨ k = 7 := by omega
  have hi : i = 0 ∨ i = 1 ∨ i = 2 ∨ i = 3 ∨ i = 4 ∨ i = 5 ∨ i = 6 ∨ i = 7 := by omega
  rcases hk with rfl | rfl | rfl | rfl | rfl | rfl | rfl | rfl <;>
    rcases hi with rfl | rfl | rfl | rfl | rfl | rfl | rfl | rfl <;> simp [ror, loadLE64]

theorem loadBE64_byte {B : Nat} (m : Block B) (j k : Nat) (h : 8 * j + 8 ≤ B) (hk : k < 8) :
    ror 8 (loadBE64 m j h) (8 * (7 - k)) = m[8 * j + k] := by
  apply BitVec.eq_of_getLsbD_eq
  intro i hi
  have hk : k = 0 ∨ k = 1 ∨ k = 2 ∨ k = 3 ∨ k = 4 ∨ k = 5 ∨ k = 6 ∨ k = 7 := by omega
  have hi : i = 0 ∨ i = 1 ∨ i = 2 ∨ i = 3 ∨ i = 4 ∨ i = 5 ∨ i = 6 ∨ i = 7 := by omega
  rcases hk with rfl | rfl | rfl | rfl | rfl | rfl | rfl | rfl <;>
    rcases hi with rfl | rfl | rfl | rfl | rfl | rfl | rfl | rfl <;> simp [ror, loadBE64]

theorem block_of_LE32 {m m' : Block 16} (h : ∀ j : Fin 4, loadLE32 m j = loadLE32 m' j) : m = m' := by
  apply Vector.ext
  intro i hi
  have a := loadLE32_byte m (i / 4) (i % 4) (by omega) (by omega)
  have b := loadLE32_byte m' (i / 4) (i % 4) (by omega) (by omega)
  rw [h ⟨i / 4, by omega⟩, b] at a
  simpa only [Nat.div_add_mod] using a.symm

theorem block_of_LE64 {m m' : Block 64} (h : ∀ j : Fin 8, loadLE64 m j = loadLE64 m' j) : m = m' := by
  apply Vector.ext
  intro i hi
  have a := loadLE64_byte m (i / 8) (i % 8) (by omega) (by omega)
  have b := loadLE64_byte m' (i / 8) (i % 8) (by omega) (by omega)
  rw [h ⟨i / 8, by omega⟩, b] at a
  simpa only [Nat.div_add_mod] using a.symm

theorem block_of_BE64 {m m' : Block 64} (h : ∀ j : Fin 8, loadBE64 m j = loadBE64 m' j) : m = m' := by
  apply Vector.ext
  intro i hi
  have a := loadBE64_byte m (i / 8) (i % 8) (by omega) (by omega)
  have b := loadBE64_byte m' (i / 8) (i % 8) (by omega) (by omega)
  rw [h ⟨i / 8, by omega⟩, b] at a
  simpa only [Nat.div_add_mod] using a.symm

theorem xor_right_inj {w : Nat} {x y z : BitVec w} (h : x ^^^ z = y ^^^ z) : x = y := by
  have := congrArg (· ^^^ z) h
  simpa [BitVec.xor_assoc] using this

theorem xor_left_inj {w : Nat} {x y z : BitVec w} (h : z ^^^ x = z ^^^ y) : x = y := by
  rw [BitVec.xor_comm z, BitVec.xor_comm z] at h
  exact xor_right_inj h

namespace CRC32

theorem bodyLook_value (h : W32) (m : Block 16) : (bodyLook h m).value table = body h m := rfl

theorem tailLook_value (h : W32) (x : Byte) : (tailLook h x).value table = tailByte h x := rfl

theorem bodyLook_reveals : Reveals table bodyLook where
  count := ⟨16, by decide, fun s b => by
    intro _ _ _ _ _ _ _ _ _ _ _ _ _ _ _ _; trivial⟩
  inj := by
    intro s m m' h
    simp only [bodyLook, places_bind, places_elem, places_pure, List.cons_append, List.nil_append, List.cons.injEq,
      Prod.mk.injEq, true_and, and_true] at h
    obtain ⟨d3, d2, d1, d0, c3, c2, c1, c0, b3, b2, b1, b0, a3, a2, a1, a0⟩ := h
    have d := bytes32_inj d0 d1 d2 d3
    have c := bytes32_inj c0 c1 c2 c3
    have b := bytes32_inj b0 b1 b2 b3
    have a := xor_right_inj (bytes32_inj a0 a1 a2 a3)
    apply block_of_LE32
    intro j
    match j with
    | 0 => exact a
    | 1 => exact b
    | 2 => exact c
    | 3 => exact d

theorem tailLook_reveals : Reveals table tailLook where
  count := ⟨1, by decide, fun s b => fun _ => trivial⟩
  inj := by
    intro s x x' h
    simp only [tailLook, places_bind, places_elem, places_pure, List.append_nil, List.cons.injEq,
      Prod.mk.injEq, true_and, and_true] at h
    exact xor_left_inj h

end CRC32

namespace MD2

theorem checksumLook_value (m : Block 16) (c : Vector Byte 16) (l : Byte) (n j : Nat) (h : n + j = 16) :
    (checksumLook m n j h (forRange 0 j (c, l) fun j _ h s =>
      let c := s.1.set j (s.1[j] ^^^ pi (m[j] ^^^ s.2))
      (c, c[j]))).value table = checksumLoop m c l := by
  induction n generalizing j with
  | zero =>
    have : j = 16 := by omega
    subst this; rfl
  | succ n ih =>
    simp only [checksumLook, value_bind, value_elem]
    rw [← ih (j + 1) (by omega)]
    simp only [forRange, Nat.sub_zero, Nat.fold_succ, table, Nat.zero_add]

theorem innerLook_value (x : Vector Byte 48) (t : Byte) (n k : Nat) (h : n + k = 48) :
    (innerLook n k h (forRange 0 k (x, t) fun k _ _ s =>
      let x := s.1.set k (s.1[k] ^^^ pi s.2)
      (x, x[k]))).value table = innerLoop x t := by
  induction n generalizing k with
  | zero =>
    have : k = 48 := by omega
    subst this; rfl
  | succ n ih =>
    simp only [innerLook, value_bind, value_elem]
    rw [← ih (k + 1) (by omega)]
    simp only [forRange, Nat.sub_zero, Nat.fold_succ, table, Nat.zero_add]

theorem mixLook_value (x : Vector Byte 48) (n j : Nat) (h : n + j = 18) :
    (mixLook n j h (forRange 0 j (x, 0) fun j _ _ s =>
      let s := innerLoop s.1 s.2
      (s.1, s.2 + BitVec.ofNat 8 j))).value table = mixLoop x := by
  induction n generalizing j with
  | zero =>
    have : j = 18 := by omega
    subst this; rfl
  | succ n ih =>
    simp only [mixLook, value_bind]
    rw [← ih (j + 1) (by omega)]
    have := fun s : Vector Byte 48 × Byte => innerLook_value s.1 s.2 48 0 rfl
    simp only [forRange, Nat.sub_zero, Nat.fold_succ, Nat.fold_zero, Nat.zero_add] at this ⊢
    rw [this]

theorem bodyLook_value (s : St) (m : Block 16) : (bodyLook s m).value table = body s m := by
  have a := checksumLook_value m s.checksum s.checksumL 16 0 rfl
  have b := mixLook_value (loadLoop m s.x) 18 0 rfl
  simp only [forRange, Nat.sub_zero, Nat.fold_zero] at a b
  simp only [bodyLook, value_bind, a, b, value_pure, body]

theorem checksumLook_count (m : Block 16) (n j : Nat) (h : n + j = 16) (s) : Count n (checksumLook m n j h s) := by
  induction n generalizing j s with
  | zero => trivial
  | succ n ih =>
    exact fun v => ih _ _ _

theorem innerLook_count (n j : Nat) (h : n + j = 48) (s) : Count n (innerLook n j h s) := by
  induction n generalizing j s with
  | zero => trivial
  | succ n ih =>
    exact fun v => ih _ _ _

theorem mixLook_count (n j : Nat) (h : n + j = 18) (s) : Count (48 * n) (mixLook n j h s) := by
  induction n generalizing j s with
  | zero => trivial
  | succ n ih =>
    rw [Nat.mul_succ, Nat.add_comm]
    exact Count.bind (innerLook_count _ _ _ _) fun v => ih _ _ _

theorem checksumLook_inj (m m' : Block 16) (n j : Nat) (h : n + j = 16) (s)
    (e : (checksumLook m n j h s).places table = (checksumLook m' n j h s).places table) (i : Nat) (hj : j ≤ i) (hi : i < 16) :
    m[i] = m'[i] := by
  induction n generalizing j s with
  | zero => omega
  | succ n ih =>
    simp only [checksumLook] at e
    have := prefix_inj (Count.elem _ _) (Count.elem _ _) e
    simp only [places_elem, List.cons.injEq, Prod.mk.injEq, true_and, and_true] at this
    have hm := xor_right_inj this.1
    by_cases hij : i = j
    · subst hij; exact hm
    · have e2 := this.2
      simp only [value_elem, hm] at e2
      exact ih (j + 1) (by omega) _ e2 (by omega)

theorem bodyLook_reveals : Reveals table bodyLook where
  count := ⟨16 + (48 * 18 + 0), by decide, fun s b =>
    Count.bind (checksumLook_count _ _ _ _ _) fun _ => Count.bind (mixLook_count _ _ _ _) fun _ => Count.pure _⟩
  inj := by
    intro s m m' h
    have := (prefix_inj (checksumLook_count m 16 0 rfl _) (checksumLook_count m' 16 0 rfl _) h).1
    exact Vector.ext fun i hi => checksumLook_inj m m' 16 0 rfl _ this i (Nat.zero_le _) hi

end MD2

namespace Tiger

theorem roundLook_value (a b c x mul : W64) : (roundLook a b c x mul).value table = round a b c x mul := rfl

theorem passLook_value (x : Vector W64 8) (a b c mul : W64) : (passLook x a b c mul).value table = pass x a b c mul := by
  simp only [passLook, value_bind, value_pure, roundLook_value, pass]

theorem compressLook_value (h : Vector W64 3) (m : Block 64) : (compressLook h m).value table = compress h m := by
  simp only [compressLook, value_bind, value_pure, passLook_value, compress]

theorem roundLook_count (a b c x mul : W64) : Count 8 (roundLook a b c x mul) := by
  intro _ _ _ _ _ _ _ _; trivial

theorem passLook_count (x : Vector W64 8) (a b c mul : W64) : Count 64 (passLook x a b c mul) := by
  have e : (64 : Nat) = 8 + (8 + (8 + (8 + (8 + (8 + (8 + (8 + 0))))))) := rfl
  rw [e]
  unfold passLook
  iterate 8 refine Count.bind (roundLook_count _ _ _ _ _) fun _ => ?_
  exact Count.pure _

theorem compressLook_count (h : Vector W64 3) (m : Block 64) : Count 192 (compressLook h m) := by
  have e : (192 : Nat) = 64 + (64 + (64 + 0)) := rfl
  rw [e]
  unfold compressLook
  iterate 3 refine Count.bind (passLook_count _ _ _ _ _) fun _ => ?_
  exact Count.pure _

theorem roundLook_inj {a b c x x' mul : W64}
    (e : (roundLook a b c x mul).places table = (roundLook a b c x' mul).places table) : x = x' := by
  simp only [roundLook, places_bind, places_elem, places_pure, List.cons_append, List.nil_append, List.cons.injEq,
    Prod.mk.injEq, true_and, and_true] at e
  obtain ⟨h0, h2, h4, h6, h1, h3, h5, h7⟩ := e
  apply xor_left_inj (z := c)
  apply bytes64_inj
  intro k
  match k with
  | 0 => exact h0
  | 1 => exact h1
  | 2 => exact h2
  | 3 => exact h3
  | 4 => exact h4
  | 5 => exact h5
  | 6 => exact h6
  | 7 => exact h7

theorem passLook_inj {x x' : Vector W64 8} {a b c mul : W64}
    (e : (passLook x a b c mul).places table = (passLook x' a b c mul).places table) : x = x' := by
  unfold passLook at e
  obtain ⟨e0, e⟩ := prefix_inj (roundLook_count _ _ _ _ _) (roundLook_count _ _ _ _ _) e
  have h0 := roundLook_inj e0
  rw [h0] at e
  obtain ⟨e1, e⟩ := prefix_inj (roundLook_count _ _ _ _ _) (roundLook_count _ _ _ _ _) e
  have h1 := roundLook_inj e1
  rw [h1] at e
  obtain ⟨e2, e⟩ := prefix_inj (roundLook_count _ _ _ _ _) (roundLook_count _ _ _ _ _) e
  have h2 := roundLook_inj e2
  rw [h2] at e
  obtain ⟨e3, e⟩ := prefix_inj (roundLook_count _ _ _ _ _) (roundLook_count _ _ _ _ _) e
  have h3 := roundLook_inj e3
  rw [h3] at e
  obtain ⟨e4, e⟩ := prefix_inj (roundLook_count _ _ _ _ _) (roundLook_count _ _ _ _ _) e
  have h4 := roundLook_inj e4
  rw [h4] at e
  obtain ⟨e5, e⟩ := prefix_inj (roundLook_count _ _ _ _ _) (roundLook_count _ _ _ _ _) e
  have h5 := roundLook_inj e5
  rw [h5] at e
  obtain ⟨e6, e⟩ := prefix_inj (roundLook_count _ _ _ _ _) (roundLook_count _ _ _ _ _) e
  have h6 := roundLook_inj e6
  rw [h6] at e
  obtain ⟨e7, e⟩ := prefix_inj (roundLook_count _ _ _ _ _) (roundLook_count _ _ _ _ _) e
  have h7 := roundLook_inj e7
  apply Vector.ext
  intro i hi
  have : i = 0 ∨ i = 1 ∨ i = 2 ∨ i = 3 ∨ i = 4 ∨ i = 5 ∨ i = 6 ∨ i = 7 := by omega
  rcases this with rfl | rfl | rfl | rfl | rfl | rfl | rfl | rfl <;> assumption

theorem compressLook_reveals : Reveals table compressLook where
  count := ⟨192, by decide, compressLook_count⟩
  inj := by
    intro h m m' e
    unfold compressLook at e
    have := passLook_inj (prefix_inj (passLook_count _ _ _ _ _) (passLook_count _ _ _ _ _) e).1
    apply block_of_LE64
    intro j
    have g := fun i (hi : i < 8) => congrArg (fun v : Vector W64 8 => v[i]) this
    match j with
    | 0 => exact g 0 (by decide)
    | 1 => exact g 1 (by decide)
    | 2 => exact g 2 (by decide)
    | 3 => exact g 3 (by decide)
    | 4 => exact g 4 (by decide)
    | 5 => exact g 5 (by decide)
    | 6 => exact g 6 (by decide)
    | 7 => exact g 7 (by decide)

end Tiger

namespace Whirlpool

theorem funcLook_value (x : Vector W64 8) (a b c d e f g h : Fin 8) :
    (funcLook x a b c d e f g h).value table = func x a b c d e f g h := rfl

theorem roundLook_value (s : Vector W64 8 × Vector W64 8) (r : Fin 10) :
    (roundLook s r).value table = round s.1 s.2 r := by
  simp only [roundLook, columnsLook, value_bind, value_pure, funcLook_value, round]
  refine Prod.ext ?_ ?_
  · rfl
  · apply Vector.ext
    intro i hi
    have : i = 0 ∨ i = 1 ∨ i = 2 ∨ i = 3 ∨ i = 4 ∨ i = 5 ∨ i = 6 ∨ i = 7 := by omega
    rcases this with rfl | rfl | rfl | rfl | rfl | rfl | rfl | rfl <;> simp

theorem compressLook_value (h : Vector W64 8) (m : Block 64) : (compressLook h m).value table = compress h m := by
  simp only [compressLook, value_bind, value_pure, compress, rounds]
  rw [value_loop table roundLook_value]

theorem funcLook_count (x : Vector W64 8) (a b c d e f g h : Fin 8) : Count 8 (funcLook x a b c d e f g h) := by
  intro _ _ _ _ _ _ _ _; trivial

theorem columnsLook_count (x : Vector W64 8) : Count 64 (columnsLook x) := by
  have e : (64 : Nat) = 8 + (8 + (8 + (8 + (8 + (8 + (8 + (8 + 0))))))) := rfl
  rw [e]
  unfold columnsLook
  iterate 8 refine Count.bind (funcLook_count _ _ _ _ _ _ _ _ _) fun _ => ?_
  exact Count.pure _

theorem roundLook_count (s : Vector W64 8 × Vector W64 8) (r : Fin 10) : Count 128 (roundLook s r) := by
  have e : (128 : Nat) = 64 + (64 + 0) := rfl
  rw [e]
  exact Count.bind (columnsLook_count _) fun _ => Count.bind (columnsLook_count _) fun _ => Count.pure _

theorem loop_count {V σ β : Type} {step : σ → β → Look V σ} {n : Nat} (h : ∀ s b, Count n (step s b)) (s : σ) (bs : List β) :
    Count (n * bs.length) (loop step s bs) := by
  induction bs generalizing s with
  | nil => trivial
  | cons b bs ih =>
    rw [List.length_cons, Nat.mul_succ, Nat.add_comm]
    exact Count.bind (h s b) fun s => ih s

theorem compressLook_count (h : Vector W64 8) (m : Block 64) : Count (128 * 10 + 0) (compressLook h m) := by
  have := loop_count roundLook_count (h, Vector.ofFn fun j : Fin 8 => loadBE64 m j ^^^ h[j]) (List.finRange 10)
  rw [List.length_finRange] at this
  exact Count.bind this fun _ => Count.pure _

theorem columnsLook_inj {x x' : Vector W64 8} (e : (columnsLook x).places table = (columnsLook x').places table) : x = x' := by
  simp only [columnsLook, funcLook, places_bind, places_elem, places_pure, List.cons_append, List.nil_append,
    List.cons.injEq, Prod.mk.injEq, true_and, and_true] at e
  obtain ⟨h00, h01, h02, h03, h04, h05, h06, h07,
    h10, h11, h12, h13, h14, h15, h16, h17,
    h20, h21, h22, h23, h24, h25, h26, h27,
    h30, h31, h32, h33, h34, h35, h36, h37,
    h40, h41, h42, h43, h44, h45, h46, h47,
    h50, h51, h52, h53, h54, h55, h56, h57,
    h60, h61, h62, h63, h64, h65, h66, h67,
    h70, h71, h72, h73, h74, h75, h76, h77⟩ := e
  apply Vector.ext
  intro i hi
  match i, hi with
  | 0, _ => exact bytes64_inj fun k => match k with
    | 0 => h77 | 1 => h66 | 2 => h55 | 3 => h44 | 4 => h33 | 5 => h22 | 6 => h11 | 7 => h00
  | 1, _ => exact bytes64_inj fun k => match k with
    | 0 => h07 | 1 => h76 | 2 => h65 | 3 => h54 | 4 => h43 | 5 => h32 | 6 => h21 | 7 => h10
  | 2, _ => exact bytes64_inj fun k => match k with
    | 0 => h17 | 1 => h06 | 2 => h75 | 3 => h64 | 4 => h53 | 5 => h42 | 6 => h31 | 7 => h20
  | 3, _ => exact bytes64_inj fun k => match k with
    | 0 => h27 | 1 => h16 | 2 => h05 | 3 => h74 | 4 => h63 | 5 => h52 | 6 => h41 | 7 => h30
  | 4, _ => exact bytes64_inj fun k => match k with
    | 0 => h37 | 1 => h26 | 2 => h15 | 3 => h04 | 4 => h73 | 5 => h62 | 6 => h51 | 7 => h40
  | 5, _ => exact bytes64_inj fun k => match k with
    | 0 => h47 | 1 => h36 | 2 => h25 | 3 => h14 | 4 => h03 | 5 => h72 | 6 => h61 | 7 => h50
  | 6, _ => exact bytes64_inj fun k => match k with
    | 0 => h57 | 1 => h46 | 2 => h35 | 3 => h24 | 4 => h13 | 5 => h02 | 6 => h71 | 7 => h60
  | 7, _ => exact bytes64_inj fun k => match k with
    | 0 => h67 | 1 => h56 | 2 => h45 | 3 => h34 | 4 => h23 | 5 => h12 | 6 => h01 | 7 => h70

theorem compressLook_reveals : Reveals table compressLook where
  count := ⟨128 * 10 + 0, by decide, compressLook_count⟩
  inj := by
    intro h m m' e
    have e1 := (prefix_inj (loop_count roundLook_count _ _) (loop_count roundLook_count _ _) e).1
    have : ∃ r rs, List.finRange 10 = r :: rs := ⟨0, _, rfl⟩
    obtain ⟨r, rs, hr⟩ := this
    rw [hr] at e1
    have e2 := (prefix_inj (roundLook_count _ _) (roundLook_count _ _) e1).1
    unfold roundLook at e2
    have e3 := (prefix_inj (columnsLook_count _) (columnsLook_count _) e2).2
    have e4 := columnsLook_inj (prefix_inj (columnsLook_count _) (columnsLook_count _) e3).1
    apply block_of_BE64
    intro j
    have g := congrArg (fun v : Vector W64 8 => v[j]) e4
    simp only [Fin.getElem_fin, Vector.getElem_ofFn] at g
    exact xor_right_inj g

end Whirlpool

end Verif.Model
