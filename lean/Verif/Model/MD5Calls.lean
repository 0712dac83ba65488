import Verif.Core.Basic

/-! Generated by tools/gen_md45.py from md5.h:485-551. -/

namespace Verif.Model.MD5

/-- The lambdas `f`, `g`, `h`, `ii` (md5.h:458-473). -/
inductive Fn where
  | f | g | h | ii
  deriving DecidableEq

/-- One call of the lambda `round`: which of the variables `a`, `b`, `c`, `d` (numbered 0 to 3) is
passed for each reference parameter, the function, and the literals `k`, `s`, `t`. md5.h:480-551. -/
structure Call where
  a : Fin 4
  b : Fin 4
  c : Fin 4
  d : Fin 4
  func : Fn
  k : Fin 16
  s : Nat
  t : W32
  deriving DecidableEq

/-- The calls in program order (md5.h:485-551). -/
def calls : List Call := [
  ⟨0, 1, 2, 3, .f, 0, 7, 0xd76aa478⟩,
  ⟨3, 0, 1, 2, .f, 1, 12, 0xe8c7b756⟩,
  ⟨2, 3, 0, 1, .f, 2, 17, 0x242070db⟩,
  ⟨1, 2, 3, 0, .f, 3, 22, 0xc1bdceee⟩,
  ⟨0, 1, 2, 3, .f, 4, 7, 0xf57c0faf⟩,
  ⟨3, 0, 1, 2, .f, 5, 12, 0x4787c62a⟩,
  ⟨2, 3, 0, 1, .f, 6, 17, 0xa8304613⟩,
  ⟨1, 2, 3, 0, .f, 7, 22, 0xfd469501⟩,
  ⟨0, 1, 2, 3, .f, 8, 7, 0x698098d8⟩,
  ⟨3, 0, 1, 2, .f, 9, 12, 0x8b44f7af⟩,
  ⟨2, 3, 0, 1, .f, 10, 17, 0xffff5bb1⟩,
  ⟨1, 2, 3, 0, .f, 11, 22, 0x895cd7be⟩,
  ⟨0, 1, 2, 3, .f, 12, 7, 0x6b901122⟩,
  ⟨3, 0, 1, 2, .f, 13, 12, 0xfd987193⟩,
  ⟨2, 3, 0, 1, .f, 14, 17, 0xa679438e⟩,
  ⟨1, 2, 3, 0, .f, 15, 22, 0x49b40821⟩,
  ⟨0, 1, 2, 3, .g, 1, 5, 0xf61e2562⟩,
  ⟨3, 0, 1, 2, .g, 6, 9, 0xc040b340⟩,
  ⟨2, 3, 0, 1, .g, 11, 14, 0x265e5a51⟩,
  ⟨1, 2, 3, 0, .g, 0, 20, 0xe9b6c7aa⟩,
  ⟨0, 1, 2, 3, .g, 5, 5, 0xd62f105d⟩,
  ⟨3, 0, 1, 2, .g, 10, 9, 0x02441453⟩,
  ⟨2, 3, 0, 1, .g, 15, 14, 0xd8a1e681⟩,
  ⟨1, 2, 3, 0, .g, 4, 20, 0xe7d3fbc8⟩,
  ⟨0, 1, 2, 3, .g, 9, 5, 0x21e1cde6⟩,
  ⟨3, 0, 1, 2, .g, 14, 9, 0xc33707d6⟩,
  ⟨2, 3, 0, 1, .g, 3, 14, 0xf4d50d87⟩,
  ⟨1, 2, 3, 0, .g, 8, 20, 0x455a14ed⟩,
  ⟨0, 1, 2, 3, .g, 13, 5, 0xa9e3e905⟩,
  ⟨3, 0, 1, 2, .g, 2, 9, 0xfcefa3f8⟩,
  ⟨2, 3, 0, 1, .g, 7, 14, 0x676f02d9⟩,
  ⟨1, 2, 3, 0, .g, 12, 20, 0x8d2a4c8a⟩,
  ⟨0, 1, 2, 3, .h, 5, 4, 0xfffa3942⟩,
  ⟨3, 0, 1, 2, .h, 8, 11, 0x8771f681⟩,
  ⟨2, 3, 0, 1, .h, 11, 16, 0x6d9d6122⟩,
  ⟨1, 2, 3, 0, .h, 14, 23, 0xfde5380c⟩,
  ⟨0, 1, 2, 3, .h, 1, 4, 0xa4beea44⟩,
  ⟨3, 0, 1, 2, .h, 4, 11, 0x4bdecfa9⟩,
  ⟨2, 3, 0, 1, .h, 7, 16, 0xf6bb4b60⟩,
  ⟨1, 2, 3, 0, .h, 10, 23, 0xbebfbc70⟩,
  ⟨0, 1, 2, 3, .h, 13, 4, 0x289b7ec6⟩,
  ⟨3, 0, 1, 2, .h, 0, 11, 0xeaa127fa⟩,
  ⟨2, 3, 0, 1, .h, 3, 16, 0xd4ef3085⟩,
  ⟨1, 2, 3, 0, .h, 6, 23, 0x04881d05⟩,
  ⟨0, 1, 2, 3, .h, 9, 4, 0xd9d4d039⟩,
  ⟨3, 0, 1, 2, .h, 12, 11, 0xe6db99e5⟩,
  ⟨2, 3, 0, 1, .h, 15, 16, 0x1fa27cf8⟩,
  ⟨1, 2, 3, 0, .h, 2, 23, 0xc4ac5665⟩,
  ⟨0, 1, 2, 3, .ii, 0, 6, 0xf4292244⟩,
  ⟨3, 0, 1, 2, .ii, 7, 10, 0x432aff97⟩,
  ⟨2, 3, 0, 1, .ii, 14, 15, 0xab9423a7⟩,
  ⟨1, 2, 3, 0, .ii, 5, 21, 0xfc93a039⟩,
  ⟨0, 1, 2, 3, .ii, 12, 6, 0x655b59c3⟩,
  ⟨3, 0, 1, 2, .ii, 3, 10, 0x8f0ccc92⟩,
  ⟨2, 3, 0, 1, .ii, 10, 15, 0xffeff47d⟩,
  ⟨1, 2, 3, 0, .ii, 1, 21, 0x85845dd1⟩,
  ⟨0, 1, 2, 3, .ii, 8, 6, 0x6fa87e4f⟩,
  ⟨3, 0, 1, 2, .ii, 15, 10, 0xfe2ce6e0⟩,
  ⟨2, 3, 0, 1, .ii, 6, 15, 0xa3014314⟩,
  ⟨1, 2, 3, 0, .ii, 13, 21, 0x4e0811a1⟩,
  ⟨0, 1, 2, 3, .ii, 4, 6, 0xf7537e82⟩,
  ⟨3, 0, 1, 2, .ii, 11, 10, 0xbd3af235⟩,
  ⟨2, 3, 0, 1, .ii, 2, 15, 0x2ad7d2bb⟩,
  ⟨1, 2, 3, 0, .ii, 9, 21, 0xeb86d391⟩]

end Verif.Model.MD5
