/-!
# Numbers that the standards use to derive constants
-/

namespace Verif.Spec

/-- Trial division. -/
def isPrime (n : Nat) : Bool := 2 ≤ n && (List.range n).all fun d => d < 2 || n % d != 0

/-- The primes below `bound`, in order. -/
def primesBelow (bound : Nat) : List Nat := (List.range bound).filter isPrime

/-- The largest `r < 2^bits` with `r^k ≤ x`, built bit by bit from the top
(`irootAux_spec` shows that it is that number). -/
def irootAux (k x : Nat) : Nat → Nat → Nat
  | 0, r => r
  | i + 1, r => irootAux k x i (if (r + 2 ^ i) ^ k ≤ x then r + 2 ^ i else r)

/-- `⌊x^(1/k)⌋`, for `x < 2^(k*bits)` -/
def iroot (k bits x : Nat) : Nat := irootAux k x bits 0

/-- The first `w` bits of the fractional part of the `k`-th root of `p` (`p < 2^(16 k)`):
`⌊p^(1/k) · 2^w⌋ mod 2^w`. -/
def fracRoot (k w p : Nat) : BitVec w := BitVec.ofNat w (iroot k (w + 16) (p * 2 ^ (k * w)))

theorem irootAux_spec (k x : Nat) (i r : Nat) (h1 : r ^ k ≤ x)
    (h2 : x < (r + 2 ^ i) ^ k) :
    (irootAux k x i r) ^ k ≤ x ∧ x < (irootAux k x i r + 1) ^ k := by
  induction i generalizing r with
  | zero => exact ⟨h1, by simpa [irootAux] using h2⟩
  | succ i ih =>
    unfold irootAux
    split
    · rename_i hle
      exact ih _ hle (by
        rw [Nat.add_assoc, ← Nat.two_mul, Nat.mul_comm, ← Nat.pow_succ]; exact h2)
    · rename_i hgt
      exact ih _ h1 (by omega)

/-- `iroot` is the integer root. -/
theorem iroot_spec (k bits x : Nat) (hk : 0 < k) (hx : x < 2 ^ (bits * k)) :
    (iroot k bits x) ^ k ≤ x ∧ x < (iroot k bits x + 1) ^ k := by
  apply irootAux_spec k x
  · rw [Nat.zero_pow hk]; exact Nat.zero_le _
  · rw [Nat.zero_add, ← Nat.pow_mul]; exact hx

end Verif.Spec
