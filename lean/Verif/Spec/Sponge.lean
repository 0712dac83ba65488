import Verif.Spec.SP800185

/-! # The sponge before squeezing (FIPS 202, section 4), for statements about collisions -/

namespace Verif.Spec.Sponge
open Keccak

/-- Algorithm 8, step 1: the string that is absorbed -/
def padInput (r : Nat) (N : List Bool) : List Bool := N ++ pad101 r N.length

/-- Algorithm 8, steps 2-6: the state after absorbing a string that is a whole number of blocks of `r` bits -/
def absorbBlocks (r : Nat) (P : List Bool) : List Bool :=
  (List.range (P.length / r)).foldl (fun S i =>
    keccakF (List.zipWith xor S ((P.drop (r * i)).take r ++ List.replicate (1600 - r) false)))
    (List.replicate 1600 false)

/-- the inner part of a state: the `1600 - r` bits that the input never touches -/
def inner (r : Nat) (S : List Bool) : List Bool := S.drop r

/-- Two strings `N` and `N'` show an inner collision: different block sequences, beginnings of the padded `N` and
`N'`, lead to states with the same inner part. -/
def InnerCollision (r : Nat) (N N' : List Bool) : Prop :=
  ∃ Q Q', Q ≠ Q' ∧ r ∣ Q.length ∧ r ∣ Q'.length ∧ Q <+: padInput r N ∧ Q' <+: padInput r N' ∧
    inner r (absorbBlocks r Q) = inner r (absorbBlocks r Q')

/-- 6.1: the bits appended to the message by SHA-3, 6.2: by SHAKE, SP 800-185 3.3: by cSHAKE -/
def sha3Suffix : List Bool := [false, true]
def shakeSuffix : List Bool := [true, true, true, true]
def cshakeSuffix : List Bool := [false, false]

/-- SP 800-185 3.3: the string that cSHAKE of rate `R` bytes gives to the sponge -/
def cshakeInput (R : Nat) (N S X : List Byte) : List Bool :=
  if N = [] ∧ S = [] then bits X ++ shakeSuffix
  else bits (SP800185.bytepad (SP800185.encodeString N ++ SP800185.encodeString S) R ++ X) ++ cshakeSuffix

end Verif.Spec.Sponge
