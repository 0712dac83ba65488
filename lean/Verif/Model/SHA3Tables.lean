import Verif.Core.Basic

/-! Extracted from sha3.h by tools/gen_sha3.py. -/

namespace Verif.Model.SHA3

/-- `tmp[5][5]` (sha3.h:514-551); `m_params.w` is 64 -/
def tmp (s : Vector W64 25) : Vector W64 25 := #v[
    rotl s[5 * 0 + 0] (0 % 64), rotl s[5 * 1 + 1] (300 % 64), rotl s[5 * 2 + 2] (171 % 64), rotl s[5 * 3 + 3] (21 % 64), rotl s[5 * 4 + 4] (78 % 64),
    rotl s[5 * 0 + 3] (28 % 64), rotl s[5 * 1 + 4] (276 % 64), rotl s[5 * 2 + 0] (3 % 64), rotl s[5 * 3 + 1] (45 % 64), rotl s[5 * 4 + 2] (253 % 64),
    rotl s[5 * 0 + 1] (1 % 64), rotl s[5 * 1 + 2] (6 % 64), rotl s[5 * 2 + 3] (153 % 64), rotl s[5 * 3 + 4] (136 % 64), rotl s[5 * 4 + 0] (210 % 64),
    rotl s[5 * 0 + 4] (91 % 64), rotl s[5 * 1 + 0] (36 % 64), rotl s[5 * 2 + 1] (10 % 64), rotl s[5 * 3 + 2] (15 % 64), rotl s[5 * 4 + 3] (120 % 64),
    rotl s[5 * 0 + 2] (190 % 64), rotl s[5 * 1 + 3] (55 % 64), rotl s[5 * 2 + 4] (231 % 64), rotl s[5 * 3 + 0] (105 % 64), rotl s[5 * 4 + 1] (66 % 64)]

/-- `roundConstantTable` (sha3.h:564-570) -/
def roundConstantTable : Vector W64 24 := #v[
  0x0000000000000001, 0x0000000000008082, 0x800000000000808A, 0x8000000080008000, 0x000000000000808B, 0x0000000080000001,
  0x8000000080008081, 0x8000000000008009, 0x000000000000008A, 0x0000000000000088, 0x0000000080008009, 0x000000008000000A,
  0x000000008000808B, 0x800000000000008B, 0x8000000000008089, 0x8000000000008003, 0x8000000000008002, 0x8000000000000080,
  0x000000000000800A, 0x800000008000000A, 0x8000000080008081, 0x8000000000008080, 0x0000000080000001, 0x8000000080008008]

end Verif.Model.SHA3
