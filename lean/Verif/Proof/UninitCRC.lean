import Verif.Model.Uninit
import Verif.Proof.CRC32
import Verif.Proof.CRC32Order

/-! The disabled generator of the CRC-32 tables makes the tables that are used instead. -/

namespace Verif.Proof.Uninit.CRC32
open Model.CRC32

/-- the elements for a polynomial -/
def T (p : W32) : Nat → Nat → W32
  | 0, i => generate0 p i
  | s + 1, i => (T p s i >>> 8) ^^^ generate0 p (T p s i &&& 0xFF).toNat

/-- the elements with `P` are known -/
def Known (p : W32) (P : Nat → Nat → Prop) (t : Vector (Option W32) 4096) : Prop :=
  ∀ s i (hs : s < 16) (hi : i < 256), P s i → t[256 * s + i] = some (T p s i)

theorem Known.set {p : W32} {P Q : Nat → Nat → Prop} {t : Vector (Option W32) 4096} (h : Known p P t) (s i : Nat) (hs : s < 16)
    (hi : i < 256) (hQ : ∀ a b, a < 16 → b < 256 → Q a b → P a b ∨ (a = s ∧ b = i)) :
    Known p Q (t.set (256 * s + i) (some (T p s i))) := by
  intro a b ha hb hq
  rw [Vector.getElem_set]
  split
  · rename_i e
    obtain ⟨rfl, rfl⟩ : s = a ∧ i = b := by omega
    rfl
  · rename_i e
    refine h a b ha hb ?_
    rcases hQ a b ha hb hq with h | ⟨rfl, rfl⟩
    · exact h
    · exact absurd rfl e

theorem generate_ok (p : W32) (start : Vector (Option W32) 4096) :
    ∃ t, generateLUT p start = some t ∧ Known p (fun _ _ => True) t := by
  unfold generateLUT
  have k1 := forRange_inv (lo := 0) (hi := 256) (by decide) (init := start)
    (body := fun i _ _ table => table.set i (some (generate0 p i)))
    (fun k t => Known p (fun s i => s = 0 ∧ i < k) t) (by intro s i _ _ h; omega)
    (by
      intro k _ h2 t hP
      have := hP.set (Q := fun s i => s = 0 ∧ i < k + 1) 0 k (by decide) h2 (by intro a b _ _ h; omega)
      simpa only [Nat.mul_zero, Nat.zero_add, T] using this)
  simp only []
  generalize forRange 0 256 start _ = t0 at *
  have k2 := forRange_inv (lo := 0) (hi := 256) (by decide) (init := some t0)
    (body := fun i _ _ table => forRange 1 16 table fun slice _ _ table => (do
      let table ← table
      let before ← table[256 * (slice - 1) + i]
      let first ← table[(before &&& 0xFF).toNat]'(by have := low_lt before; omega)
      return table.set (256 * slice + i) (some ((before >>> 8) ^^^ first)) : Option (Vector (Option W32) 4096)))
    (fun k o => ∃ t, o = some t ∧ Known p (fun s i => s = 0 ∨ i < k) t)
    ⟨t0, rfl, fun s i hs hi h => k1 s i hs hi (by omega)⟩
    (by
      intro k _ h2 o hP
      obtain ⟨t, rfl, hP⟩ := hP
      have k3 := forRange_inv (lo := 1) (hi := 16) (by decide) (init := some t)
        (body := fun slice _ _ table => (do
          let table ← table
          let before ← table[256 * (slice - 1) + k]
          let first ← table[(before &&& 0xFF).toNat]'(by have := low_lt before; omega)
          return table.set (256 * slice + k) (some ((before >>> 8) ^^^ first)) : Option (Vector (Option W32) 4096)))
        (fun c o => ∃ t, o = some t ∧ Known p (fun s i => s = 0 ∨ i < k ∨ (i = k ∧ s < c)) t)
        ⟨t, rfl, fun s i hs hi h => hP s i hs hi (by omega)⟩
        (by
          intro c c1 c2 o hP
          obtain ⟨t, rfl, hP⟩ := hP
          have e1 := hP (c - 1) k (by omega) h2 (by omega)
          have e2 := hP 0 (T p (c - 1) k &&& 0xFF).toNat (by decide) (low_lt _) (by omega)
          simp only [Nat.mul_zero, Nat.zero_add] at e2
          have e3 : T p c k = (T p (c - 1) k >>> 8) ^^^ T p 0 (T p (c - 1) k &&& 0xFF).toNat := by
            obtain ⟨d, rfl⟩ : ∃ d, c = d + 1 := ⟨c - 1, by omega⟩
            rfl
          refine ⟨t.set (256 * c + k) (some (T p c k)), ?_, ?_⟩
          · simp only [Option.bind_eq_bind, Option.bind_some, e1, e2, e3]
            rfl
          · exact hP.set c k c2 h2 (by intro a b _ _ h; omega))
      obtain ⟨t', ht', k3⟩ := k3
      exact ⟨t', ht', fun s i hs hi h => k3 s i hs hi (by omega)⟩)
  obtain ⟨t, ht, k2⟩ := k2
  exact ⟨t, ht, fun s i hs hi _ => k2 s i hs hi (by omega)⟩

theorem generate0_eq (i : Nat) : generate0 0xEDB88320 i = Spec.CRC32.entry0 i := rfl

theorem T_eq (s i : Nat) : T 0xEDB88320 s i = Spec.CRC32.table s i := by
  induction s with
  | zero => rfl
  | succ s ih => rw [T, ih, generate0_eq]; rfl

end Verif.Proof.Uninit.CRC32
