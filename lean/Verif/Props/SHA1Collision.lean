import Verif.Props.Extension

/-!
# C45: SHA-1 is not collision resistant

Two messages of 320 bytes (M. Stevens, E. Bursztein, P. Karpman, A. Albertini, Y. Markov, 2017) with one digest, whatever is
appended to both. The blocks and chaining values are written by tools/gen_sha1collision.py and verified by the kernel.
-/

namespace Verif.Proof.SHA1
open Spec Model Model.SHA1

set_option maxRecDepth 100000
set_option Elab.async false

theorem fold_block {H : Type} {B : Nat} (comp : H → Block B → H) (hB : 0 < B) (h h' : H) (b rest : List Byte)
    (hl : b.length = B) (he : comp h (toBlock B b) = h') : mdFold B comp h (b ++ rest) = mdFold B comp h' rest := by
  unfold mdFold
  rw [blocks_cons B _ hB (by rw [List.length_append]; omega), List.foldl_cons, List.take_left' hl, List.drop_left' hl, he]

def common0 : List Byte :=
  [0x25, 0x50, 0x44, 0x46, 0x2d, 0x31, 0x2e, 0x33, 0x0a, 0x25, 0xe2, 0xe3, 0xcf, 0xd3, 0x0a, 0x0a,
   0x0a, 0x31, 0x20, 0x30, 0x20, 0x6f, 0x62, 0x6a, 0x0a, 0x3c, 0x3c, 0x2f, 0x57, 0x69, 0x64, 0x74,
   0x68, 0x20, 0x32, 0x20, 0x30, 0x20, 0x52, 0x2f, 0x48, 0x65, 0x69, 0x67, 0x68, 0x74, 0x20, 0x33,
   0x20, 0x30, 0x20, 0x52, 0x2f, 0x54, 0x79, 0x70, 0x65, 0x20, 0x34, 0x20, 0x30, 0x20, 0x52, 0x2f]

def common1 : List Byte :=
  [0x53, 0x75, 0x62, 0x74, 0x79, 0x70, 0x65, 0x20, 0x35, 0x20, 0x30, 0x20, 0x52, 0x2f, 0x46, 0x69,
   0x6c, 0x74, 0x65, 0x72, 0x20, 0x36, 0x20, 0x30, 0x20, 0x52, 0x2f, 0x43, 0x6f, 0x6c, 0x6f, 0x72,
   0x53, 0x70, 0x61, 0x63, 0x65, 0x20, 0x37, 0x20, 0x30, 0x20, 0x52, 0x2f, 0x4c, 0x65, 0x6e, 0x67,
   0x74, 0x68, 0x20, 0x38, 0x20, 0x30, 0x20, 0x52, 0x2f, 0x42, 0x69, 0x74, 0x73, 0x50, 0x65, 0x72]

def common2 : List Byte :=
  [0x43, 0x6f, 0x6d, 0x70, 0x6f, 0x6e, 0x65, 0x6e, 0x74, 0x20, 0x38, 0x3e, 0x3e, 0x0a, 0x73, 0x74,
   0x72, 0x65, 0x61, 0x6d, 0x0a, 0xff, 0xd8, 0xff, 0xfe, 0x00, 0x24, 0x53, 0x48, 0x41, 0x2d, 0x31,
   0x20, 0x69, 0x73, 0x20, 0x64, 0x65, 0x61, 0x64, 0x21, 0x21, 0x21, 0x21, 0x21, 0x85, 0x2f, 0xec,
   0x09, 0x23, 0x39, 0x75, 0x9c, 0x39, 0xb1, 0xa1, 0xc6, 0x3c, 0x4c, 0x97, 0xe1, 0xff, 0xfe, 0x01]

def left0 : List Byte :=
  [0x7f, 0x46, 0xdc, 0x93, 0xa6, 0xb6, 0x7e, 0x01, 0x3b, 0x02, 0x9a, 0xaa, 0x1d, 0xb2, 0x56, 0x0b,
   0x45, 0xca, 0x67, 0xd6, 0x88, 0xc7, 0xf8, 0x4b, 0x8c, 0x4c, 0x79, 0x1f, 0xe0, 0x2b, 0x3d, 0xf6,
   0x14, 0xf8, 0x6d, 0xb1, 0x69, 0x09, 0x01, 0xc5, 0x6b, 0x45, 0xc1, 0x53, 0x0a, 0xfe, 0xdf, 0xb7,
   0x60, 0x38, 0xe9, 0x72, 0x72, 0x2f, 0xe7, 0xad, 0x72, 0x8f, 0x0e, 0x49, 0x04, 0xe0, 0x46, 0xc2]

def right0 : List Byte :=
  [0x73, 0x46, 0xdc, 0x91, 0x66, 0xb6, 0x7e, 0x11, 0x8f, 0x02, 0x9a, 0xb6, 0x21, 0xb2, 0x56, 0x0f,
   0xf9, 0xca, 0x67, 0xcc, 0xa8, 0xc7, 0xf8, 0x5b, 0xa8, 0x4c, 0x79, 0x03, 0x0c, 0x2b, 0x3d, 0xe2,
   0x18, 0xf8, 0x6d, 0xb3, 0xa9, 0x09, 0x01, 0xd5, 0xdf, 0x45, 0xc1, 0x4f, 0x26, 0xfe, 0xdf, 0xb3,
   0xdc, 0x38, 0xe9, 0x6a, 0xc2, 0x2f, 0xe7, 0xbd, 0x72, 0x8f, 0x0e, 0x45, 0xbc, 0xe0, 0x46, 0xd2]

def left1 : List Byte :=
  [0x30, 0x57, 0x0f, 0xe9, 0xd4, 0x13, 0x98, 0xab, 0xe1, 0x2e, 0xf5, 0xbc, 0x94, 0x2b, 0xe3, 0x35,
   0x42, 0xa4, 0x80, 0x2d, 0x98, 0xb5, 0xd7, 0x0f, 0x2a, 0x33, 0x2e, 0xc3, 0x7f, 0xac, 0x35, 0x14,
   0xe7, 0x4d, 0xdc, 0x0f, 0x2c, 0xc1, 0xa8, 0x74, 0xcd, 0x0c, 0x78, 0x30, 0x5a, 0x21, 0x56, 0x64,
   0x61, 0x30, 0x97, 0x89, 0x60, 0x6b, 0xd0, 0xbf, 0x3f, 0x98, 0xcd, 0xa8, 0x04, 0x46, 0x29, 0xa1]

def right1 : List Byte :=
  [0x3c, 0x57, 0x0f, 0xeb, 0x14, 0x13, 0x98, 0xbb, 0x55, 0x2e, 0xf5, 0xa0, 0xa8, 0x2b, 0xe3, 0x31,
   0xfe, 0xa4, 0x80, 0x37, 0xb8, 0xb5, 0xd7, 0x1f, 0x0e, 0x33, 0x2e, 0xdf, 0x93, 0xac, 0x35, 0x00,
   0xeb, 0x4d, 0xdc, 0x0d, 0xec, 0xc1, 0xa8, 0x64, 0x79, 0x0c, 0x78, 0x2c, 0x76, 0x21, 0x56, 0x60,
   0xdd, 0x30, 0x97, 0x91, 0xd0, 0x6b, 0xd0, 0xaf, 0x3f, 0x98, 0xcd, 0xa4, 0xbc, 0x46, 0x29, 0xb1]

theorem common0_step : compress iv (toBlock 64 common0) =
    #v[0x86D9D255, 0xE2214ECD, 0x4CCA107E, 0xC732990E, 0x044AF3B4] := by decide +kernel

theorem common1_step : compress #v[0x86D9D255, 0xE2214ECD, 0x4CCA107E, 0xC732990E, 0x044AF3B4] (toBlock 64 common1) =
    #v[0x453012E6, 0x38524C1F, 0xEEF312BD, 0x2561990C, 0x22B0AE50] := by decide +kernel

theorem common2_step : compress #v[0x453012E6, 0x38524C1F, 0xEEF312BD, 0x2561990C, 0x22B0AE50] (toBlock 64 common2) =
    #v[0x4EA96269, 0x7C876E26, 0x74D107F0, 0xFEC67984, 0x14F5BF45] := by decide +kernel

theorem left0_step : compress #v[0x4EA96269, 0x7C876E26, 0x74D107F0, 0xFEC67984, 0x14F5BF45] (toBlock 64 left0) =
    #v[0x8D64D617, 0xFFED5352, 0xEBC85915, 0x5EC7EB34, 0xF38A5A7B] := by decide +kernel

theorem left1_step : compress #v[0x8D64D617, 0xFFED5352, 0xEBC85915, 0x5EC7EB34, 0xF38A5A7B] (toBlock 64 left1) =
    #v[0x1EACB25E, 0xD5970D10, 0xF1736963, 0x5771BC3A, 0x17B48AC5] := by decide +kernel

theorem right0_step : compress #v[0x4EA96269, 0x7C876E26, 0x74D107F0, 0xFEC67984, 0x14F5BF45] (toBlock 64 right0) =
    #v[0x8D64C821, 0xFFED52E2, 0xEBC85915, 0x5EC7EB36, 0x738A5A7B] := by decide +kernel

theorem right1_step : compress #v[0x8D64C821, 0xFFED52E2, 0xEBC85915, 0x5EC7EB36, 0x738A5A7B] (toBlock 64 right1) =
    #v[0x1EACB25E, 0xD5970D10, 0xF1736963, 0x5771BC3A, 0x17B48AC5] := by decide +kernel

/-- the two messages -/
def leftMessage : List Byte := common0 ++ (common1 ++ (common2 ++ (left0 ++ (left1 ++ []))))
def rightMessage : List Byte := common0 ++ (common1 ++ (common2 ++ (right0 ++ (right1 ++ []))))

theorem lengths : leftMessage.length = 320 ∧ rightMessage.length = 320 := by decide +kernel
theorem differ : leftMessage ≠ rightMessage := by decide +kernel

theorem meet : mdFold 64 compress iv leftMessage = mdFold 64 compress iv rightMessage := by
  unfold leftMessage rightMessage
  rw [fold_block compress (by decide) _ _ _ _ (by decide) common0_step, fold_block compress (by decide) _ _ _ _ (by decide) common0_step,
    fold_block compress (by decide) _ _ _ _ (by decide) common1_step, fold_block compress (by decide) _ _ _ _ (by decide) common1_step,
    fold_block compress (by decide) _ _ _ _ (by decide) common2_step, fold_block compress (by decide) _ _ _ _ (by decide) common2_step,
    fold_block compress (by decide) _ _ _ _ (by decide) left0_step, fold_block compress (by decide) _ _ _ _ (by decide) right0_step,
    fold_block compress (by decide) _ _ _ _ (by decide) left1_step, fold_block compress (by decide) _ _ _ _ (by decide) right1_step]

end Verif.Proof.SHA1

namespace Verif.Props
open Model Proof Proof.Extension

/-- the 2017 messages: 192 common bytes and 128 that differ -/
def sha1Left : List Byte := Proof.SHA1.leftMessage
def sha1Right : List Byte := Proof.SHA1.rightMessage

/-- SHA-1 is not collision resistant: two different messages, and whatever is appended to both, however the bytes are
added, the digests are equal. -/
theorem C45_SHA1_collisions : sha1Left ≠ sha1Right ∧ ∀ (x : List Byte) (ops ops' : List Op),
    Legal (ops ++ [.finalize]) → Legal (ops' ++ [.finalize]) → message ops = sha1Left ++ x →
    message ops' = sha1Right ++ x →
    ∃ o o', SHA1.SHA1.run SHA1.SHA1.fresh (ops ++ [.finalize]) = .ok o ∧
      SHA1.SHA1.run SHA1.SHA1.fresh (ops' ++ [.finalize]) = .ok o' ∧ SHA1.SHA1.toArray o = SHA1.SHA1.toArray o' := by
  refine ⟨Proof.SHA1.differ, fun x ops ops' => ?_⟩
  obtain ⟨l, l'⟩ : sha1Left.length = 320 ∧ sha1Right.length = 320 := Proof.SHA1.lengths
  have e : mdFold 64 SHA1.compress SHA1.iv sha1Left = mdFold 64 SHA1.compress SHA1.iv sha1Right := Proof.SHA1.meet
  generalize sha1Left = a at *
  generalize sha1Right = a' at *
  refine family Proof.SHA1.refines (comp := SHA1.compress) (iv := SHA1.iv) (fun o => o.chain.h) (fun o o' h => ?_) (fun _ _ h => h)
    (by decide) C45_SHA1_public _ _ (l.trans l'.symm) (by rw [l]) e x ops ops'
  show SHA1.toArray o.chain.h = SHA1.toArray o'.chain.h
  rw [show o.chain.h = o'.chain.h from h]

/-! The hypotheses can be met. -/
example : Legal ([.add sha1Left] ++ [.finalize]) ∧ message [.add sha1Left] = sha1Left ++ [] :=
  ⟨⟨rfl, by rw [show sha1Left.length = 320 from Proof.SHA1.lengths.1]; decide, rfl, trivial⟩, (List.append_nil _).symm⟩

end Verif.Props
