import Verif.Core.API

/-!
# The overloads of `addData`

sha1.h:424-447; the same text in every header (tools/same_text.py). Memory is a function from addresses to
bytes.
-/

namespace Verif

/-- the bytes of the span `{p, n}` (sha2_256.h:229) -/
def bytesAt (mem : Nat → Byte) (p n : Nat) : List Byte := (List.range n).map fun i => mem (p + i)

namespace API
variable {O : Type} (A : API O) (mem : Nat → Byte)

/-- `addData(const void *ptr, std::size_t length)` (sha1.h:424-428) -/
def addDataPtr (o : O) (ptr length : Nat) : Except Fault O := A.addData o (bytesAt mem ptr length)

/-- `addData(const Byte (&array)[N])` (sha1.h:430-434) -/
def addDataBytes (o : O) (array N : Nat) : Except Fault O := A.addData o (bytesAt mem array N)

/-- `addData(const T (&array)[N])` (sha1.h:436-440): `sizeof(T) * N` is a `size_t` -/
def addDataArray (o : O) (array sizeofT N : Nat) : Except Fault O :=
  A.addData o (bytesAt mem array (sizeofT * N % 2 ^ 64))

/-- `addData(Span<T> inSpan)` (sha1.h:442-446): `size_bytes()` is `size() * sizeof(T)` -/
def addDataSpan (o : O) (data size sizeofT : Nat) : Except Fault O :=
  A.addData o (bytesAt mem data (size * sizeofT % 2 ^ 64))

end API
end Verif
