import Verif.Spec.Bytes

/-! # MD2 (RFC 1319, with the erratum on the checksum) -/

namespace Verif.Spec.MD2

/-- The random-looking permutation constructed from the digits of π (RFC 1319, appendix A). -/
def piSubst : List Nat := [
  41, 46, 67, 201, 162, 216, 124, 1, 61, 54, 84, 161, 236, 240, 6, 19,
  98, 167, 5, 243, 192, 199, 115, 140, 152, 147, 43, 217, 188, 76, 130, 202,
  30, 155, 87, 60, 253, 212, 224, 22, 103, 66, 111, 24, 138, 23, 229, 18,
  190, 78, 196, 214, 218, 158, 222, 73, 160, 251, 245, 142, 187, 47, 238, 122,
  169, 104, 121, 145, 21, 178, 7, 63, 148, 194, 16, 137, 11, 34, 95, 33,
  128, 127, 93, 154, 90, 144, 50, 39, 53, 62, 204, 231, 191, 247, 151, 3,
  255, 25, 48, 179, 72, 165, 181, 209, 215, 94, 146, 42, 172, 86, 170, 198,
  79, 184, 56, 210, 150, 164, 125, 182, 118, 252, 107, 226, 156, 116, 4, 241,
  69, 157, 112, 89, 100, 113, 135, 32, 134, 91, 207, 101, 230, 45, 168, 2,
  27, 96, 37, 173, 174, 176, 185, 246, 28, 70, 97, 105, 52, 64, 126, 15,
  85, 71, 163, 35, 221, 81, 175, 58, 195, 92, 249, 206, 186, 197, 234, 38,
  44, 83, 13, 110, 133, 40, 132, 9, 211, 223, 205, 244, 65, 129, 77, 82,
  106, 220, 55, 200, 108, 193, 171, 250, 36, 225, 123, 8, 12, 189, 177, 74,
  120, 136, 149, 139, 227, 99, 232, 109, 233, 203, 213, 254, 59, 0, 29, 57,
  242, 239, 183, 14, 102, 88, 208, 228, 166, 119, 114, 248, 235, 117, 75, 10,
  49, 68, 80, 180, 143, 237, 31, 26, 219, 153, 141, 51, 159, 17, 131, 20]

def S (i : Byte) : Byte := BitVec.ofNat 8 (piSubst.getD i.toNat 0)

/-- 3.1: `i` bytes of value `i` are appended, `i` between 1 and 16, so that the length becomes a
multiple of 16. -/
def pad (M : List Byte) : List Byte :=
  let i := 16 - M.length % 16
  M ++ List.replicate i (BitVec.ofNat 8 i)

/-- 3.2, one block: every checksum byte `C[j]` becomes `C[j] xor S[M[j] xor L]`, where `L` is the
checksum byte just computed. -/
def checksumBlock : List Byte → Byte → List Byte → List Byte × Byte
  | c :: cs, L, m :: ms =>
    let c' := c ^^^ S (m ^^^ L)
    let (cs', L') := checksumBlock cs c' ms
    (c' :: cs', L')
  | _, L, _ => ([], L)

def checksum (M : List Byte) : List Byte :=
  ((blocks 16 M).foldl (fun (p : List Byte × Byte) b => checksumBlock p.1 p.2 b)
    (List.replicate 16 0, 0)).1

/-- 3.4, "for k": every byte of the buffer is xored with `S[t]`, and becomes the new `t`. -/
def sweep : List Byte → Byte → List Byte × Byte
  | [], t => ([], t)
  | x :: xs, t =>
    let x' := x ^^^ S t
    let (xs', t') := sweep xs x'
    (x' :: xs', t')

/-- 3.4, one block: `X` is the first third of the 48-byte buffer. -/
def step (X M : List Byte) : List Byte :=
  let buf := X ++ M ++ List.zipWith (· ^^^ ·) M X
  let r := (List.range 18).foldl (fun (p : List Byte × Byte) j =>
    let (buf, t) := sweep p.1 p.2
    (buf, t + BitVec.ofNat 8 j)) (buf, 0)
  r.1.take 16

def md2 (M : List Byte) : List Byte :=
  let P := pad M
  (blocks 16 (P ++ checksum P)).foldl step (List.replicate 16 0)

end Verif.Spec.MD2
