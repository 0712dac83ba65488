import Verif.Core.Extension
import Verif.Props.PaddingBLAKE

/-!
# C45 for MD2

The digest of MD2 is not the whole state of the computation: the checksum of the message goes on as well. So the
digest of a message can be continued by whoever knows the checksum too, and the checksum after the continuation is a
function of the checksum before.
-/

namespace Verif.Props

open Model

/-- The running byte `L` of the checksum is the last byte of the checksum just computed. -/
private theorem checksumBlock_last (cs ms : List Byte) (L d : Byte) (h : cs.length = ms.length) (hc : cs ≠ []) :
    (Spec.MD2.checksumBlock cs L ms).2 = (Spec.MD2.checksumBlock cs L ms).1.getLastD d := by
  induction cs generalizing ms L d with
  | nil => exact absurd rfl hc
  | cons c cs ih =>
    match ms, h with
    | m :: ms, h =>
      match cs, ms, h with
      | [], [], _ => rfl
      | c' :: cs, m' :: ms, h =>
        have := ih (m' :: ms) (c ^^^ Spec.MD2.S (m ^^^ L)) (c ^^^ Spec.MD2.S (m ^^^ L)) (by simpa using h) (by simp)
        show (Spec.MD2.checksumBlock (c' :: cs) (c ^^^ Spec.MD2.S (m ^^^ L)) (m' :: ms)).2 = _
        rw [this]
        rfl

private def run (p : List Byte × Byte) (bs : List (List Byte)) : List Byte × Byte :=
  bs.foldl (fun (p : List Byte × Byte) b => Spec.MD2.checksumBlock p.1 p.2 b) p

private theorem run_last (bs : List (List Byte)) (hb : ∀ b ∈ bs, b.length = 16) (p : List Byte × Byte)
    (hp : p.1.length = 16 ∧ p.2 = p.1.getLastD 0) :
    (run p bs).1.length = 16 ∧ (run p bs).2 = (run p bs).1.getLastD 0 := by
  induction bs generalizing p with
  | nil => exact hp
  | cons b bs ih =>
    have hl : p.1.length = b.length := by rw [hp.1, hb b (by simp)]
    exact ih (fun b h => hb b (by simp [h])) _
      ⟨by rw [Proof.MD2.checksumBlock_length _ _ _ hl, hp.1],
        checksumBlock_last _ _ _ _ hl (fun h => by have := hp.1; rw [h] at this; simp at this)⟩

private theorem state (P : List Byte) : run (List.replicate 16 0, 0) (Spec.blocks 16 P) =
    (Spec.MD2.checksum P, (Spec.MD2.checksum P).getLastD 0) :=
  Prod.ext rfl (run_last _ (fun _ h => mem_blocks_length 16 P _ h) (List.replicate 16 0, 0) ⟨by simp, by decide⟩).2

private theorem checksum_append (P Q : List Byte) (hP : P.length % 16 = 0) : Spec.MD2.checksum (P ++ Q) =
    (run (Spec.MD2.checksum P, (Spec.MD2.checksum P).getLastD 0) (Spec.blocks 16 Q)).1 := by
  rw [← state P]
  show (run _ _).1 = _
  rw [blocks_append 16 P Q (by decide) hP]
  exact congrArg Prod.fst List.foldl_append

private theorem checksum_length (P : List Byte) : (Spec.MD2.checksum P).length = 16 := by
  rw [← Proof.MD2.den_checksum]; simp

/-- What MD2 appends to a message depends on nothing but its length. -/
theorem C45_MD2_public : PublicPadding Spec.MD2.pad := fun m m' h =>
  ⟨List.replicate (16 - m.length % 16) (BitVec.ofNat 8 (16 - m.length % 16)), rfl, by
    simp only [Spec.MD2.pad, h]⟩

/-- The checksum of a message followed by its padding, its checksum and any further bytes is a function of its
checksum, its length and these bytes. -/
theorem C45_MD2_checksum (m m' x : List Byte) (hn : m.length = m'.length)
    (hc : Spec.MD2.checksum (Spec.MD2.pad m) = Spec.MD2.checksum (Spec.MD2.pad m')) :
    let lengthened := fun m => Spec.MD2.pad m ++ Spec.MD2.checksum (Spec.MD2.pad m) ++ x
    Spec.MD2.checksum (Spec.MD2.pad (lengthened m)) = Spec.MD2.checksum (Spec.MD2.pad (lengthened m')) := by
  intro lengthened
  have pl : (Spec.MD2.pad m).length = (Spec.MD2.pad m').length := by simp [Spec.MD2.pad, hn]
  have hl : (lengthened m).length = (lengthened m').length := by
    simp only [lengthened, List.length_append, checksum_length, pl]
  obtain ⟨q, e, e'⟩ := C45_MD2_public _ _ hl
  rw [e, e']
  simp only [lengthened, List.append_assoc]
  rw [checksum_append _ _ (C27_MD2.whole m), checksum_append _ _ (C27_MD2.whole m'), hc]

/-- C45 for MD2: two messages of one length with the same checksum whose digests are equal still have equal digests
after each is followed by its padding, by the checksum and by any further bytes `x`. -/
theorem C45_MD2 (ops ops' ext ext' : List Op) (x : List Byte) (hl : Legal (ops ++ [.finalize]))
    (hl' : Legal (ops' ++ [.finalize])) (hle : Legal (ext ++ [.finalize])) (hle' : Legal (ext' ++ [.finalize]))
    (hn : (message ops).length = (message ops').length)
    (hc : Spec.MD2.checksum (Spec.MD2.pad (message ops)) = Spec.MD2.checksum (Spec.MD2.pad (message ops')))
    (hm : message ext = Spec.MD2.pad (message ops) ++ Spec.MD2.checksum (Spec.MD2.pad (message ops)) ++ x)
    (hm' : message ext' = Spec.MD2.pad (message ops') ++ Spec.MD2.checksum (Spec.MD2.pad (message ops')) ++ x) :
    ∃ o o' e e', MD2.MD2.run MD2.MD2.fresh (ops ++ [.finalize]) = .ok o ∧
      MD2.MD2.run MD2.MD2.fresh (ops' ++ [.finalize]) = .ok o' ∧
      MD2.MD2.run MD2.MD2.fresh (ext ++ [.finalize]) = .ok e ∧
      MD2.MD2.run MD2.MD2.fresh (ext' ++ [.finalize]) = .ok e' ∧
      (MD2.MD2.toArray o = MD2.MD2.toArray o' → MD2.MD2.toArray e = MD2.MD2.toArray e') := by
  obtain ⟨o, ho, f⟩ := Proof.MD2.refines.run_finalize ops hl
  obtain ⟨o', ho', f'⟩ := Proof.MD2.refines.run_finalize ops' hl'
  obtain ⟨e, he, g⟩ := Proof.MD2.refines.run_finalize ext hle
  obtain ⟨e', he', g'⟩ := Proof.MD2.refines.run_finalize ext' hle'
  refine ⟨o, o', e, e', ho, ho', he, he', fun h => ?_⟩
  rw [Proof.MD2.refines.out _ _ f, Proof.MD2.refines.out _ _ f'] at h
  rw [Proof.MD2.refines.out _ _ g, Proof.MD2.refines.out _ _ g']
  injection h with h
  congr 1
  have hk := C45_MD2_checksum _ _ x hn hc
  simp only [← hm, ← hm'] at hk
  have pl : (Spec.MD2.pad (message ops)).length = (Spec.MD2.pad (message ops')).length := by simp [Spec.MD2.pad, hn]
  have hlen : (message ext).length = (message ext').length := by
    rw [hm, hm']; simp only [List.length_append, checksum_length, pl]
  obtain ⟨q, eq, eq'⟩ := C45_MD2_public _ _ hlen
  have whole : ∀ m, (Spec.MD2.pad m ++ Spec.MD2.checksum (Spec.MD2.pad m)).length % 16 = 0 := fun m => by
    have := C27_MD2.whole m
    rw [List.length_append, checksum_length]; omega
  show (Spec.blocks 16 (Spec.MD2.pad (message ext) ++ _)).foldl _ _ =
    (Spec.blocks 16 (Spec.MD2.pad (message ext') ++ _)).foldl _ _
  rw [hk, eq, eq', hm, hm', List.append_assoc _ x, List.append_assoc _ x, List.append_assoc _ (x ++ q),
    List.append_assoc _ (x ++ q), blocks_append 16 _ _ (by decide) (whole _),
    blocks_append 16 _ _ (by decide) (whole _), List.foldl_append, List.foldl_append]
  exact congrArg (fun s => List.foldl Spec.MD2.step s _) h

/-- Lengthened messages exist, and can be added in pieces. -/
example (m x : List Byte) (hm : m.length < 2 ^ 60) (hx : x.length < 2 ^ 60) : Legal ([.add (Spec.MD2.pad m), .add (Spec.MD2.checksum (Spec.MD2.pad m) ++ x)] ++
    [.finalize]) ∧ message [.add (Spec.MD2.pad m), .add (Spec.MD2.checksum (Spec.MD2.pad m) ++ x)] =
      Spec.MD2.pad m ++ Spec.MD2.checksum (Spec.MD2.pad m) ++ x := by
  exact ⟨by simp [Legal, legalFrom, checksum_length, Spec.MD2.pad]; omega, by simp [message, messageFrom]⟩

end Verif.Props
