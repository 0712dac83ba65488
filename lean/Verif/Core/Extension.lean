import Verif.Core.API

/-!
# What C45 says

In the Merkle-Damgård construction a digest is the state of the computation, so whoever knows it can go on hashing:
the digest of a message followed by its padding and any further bytes is a function of the digest and the length of
the message.
-/

namespace Verif

/-- What `pad` appends depends on nothing but the length of the message. Not in /repo. -/
def PublicPadding (pad : List Byte → List Byte) : Prop :=
  ∀ m m', m.length = m'.length → ∃ p, pad m = m ++ p ∧ pad m' = m' ++ p

/-- C45: if two objects finalised after messages of one length are the `same`, then so are two objects finalised
after these messages, each followed by its padding and by `x`. `S` restricts the lengthened messages. Not in /repo. -/
def API.Extends {O : Type} (A : API O) (same : O → O → Prop) (pad : List Byte → List Byte) (S : List Byte → Prop) :
    Prop :=
  ∀ ops ops' ext ext' x, Legal (ops ++ [.finalize]) → Legal (ops' ++ [.finalize]) → Legal (ext ++ [.finalize]) →
    Legal (ext' ++ [.finalize]) → (message ops).length = (message ops').length →
    message ext = pad (message ops) ++ x → message ext' = pad (message ops') ++ x → S (message ext) →
    S (message ext') → ∃ o o' e e', A.run A.fresh (ops ++ [.finalize]) = .ok o ∧
      A.run A.fresh (ops' ++ [.finalize]) = .ok o' ∧ A.run A.fresh (ext ++ [.finalize]) = .ok e ∧
      A.run A.fresh (ext' ++ [.finalize]) = .ok e' ∧ (same o o' → same e e')

end Verif
