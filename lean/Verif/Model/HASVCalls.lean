import Verif.Core.Basic

/-! Generated by tools/gen_hasv.py from src/unfinished/has_v_320.cpp. -/

namespace Verif.Model.HASV

/-- `sTable` (has_v_320.cpp:207-210) -/
def sTable : Vector Nat 20 := #v[
  5, 11, 7, 13, 15, 6, 13, 9, 5, 11, 7, 12, 8, 15, 13, 8, 15, 6, 7, 14]

/-- `mTable` (has_v_320.cpp:211-218) -/
def mTable : Vector (Fin 20) 100 := #v[
  18, 0, 1, 2, 3, 19, 4, 5, 6, 7, 16, 8, 9, 10, 11, 17, 12, 13, 14, 15,
  18, 3, 6, 9, 12, 19, 15, 2, 5, 8, 16, 11, 14, 1, 4, 17, 7, 10, 13, 0,
  18, 12, 5, 14, 7, 19, 0, 9, 2, 11, 16, 4, 13, 6, 15, 17, 8, 1, 10, 3,
  18, 7, 2, 13, 8, 19, 3, 14, 9, 4, 16, 15, 10, 5, 0, 17, 11, 6, 1, 12,
  18, 15, 9, 5, 3, 19, 12, 8, 6, 2, 16, 13, 11, 7, 1, 17, 14, 10, 4, 0]

/-- `lut` (has_v_320.cpp:252-259) row by row -/
def lut : Vector (Fin 16) 80 := #v[
  0, 1, 2, 3, 4, 5, 6, 7, 8, 9, 10, 11, 12, 13, 14, 15,
  3, 6, 9, 12, 15, 2, 5, 8, 11, 14, 1, 4, 7, 10, 13, 0,
  12, 5, 14, 7, 0, 9, 2, 11, 4, 13, 6, 15, 8, 1, 10, 3,
  7, 2, 13, 8, 3, 14, 9, 4, 15, 10, 5, 0, 11, 6, 1, 12,
  15, 9, 5, 3, 12, 8, 6, 2, 13, 11, 7, 1, 14, 10, 4, 0]

/-- One statement. `.extend y r` is `extendTable(yTable, r)` (`true`) or `extendTable(xTable, r)`; `.line y a b c d e f k j`
is `lineRight` (`true`) or `lineLeft` with the variables `a` .. `j` numbered 0 to 9; `.swap` is `swapChainVars()`.
has_v_320.cpp:250-300. -/
inductive Stmt where
  | extend (y : Bool) (r : Fin 5)
  | line (y : Bool) (a b c d e : Fin 10) (f : Fin 5) (k : W32) (j : Fin 100)
  | swap
  deriving DecidableEq

/-- the compiled statements (has_v_320.cpp:552-791) -/
def active : List Stmt := [
  .extend false 0,
  .line false 0 1 2 3 4 0 0x00000000 0,
  .line false 4 0 1 2 3 0 0x00000000 1,
  .line false 3 4 0 1 2 0 0x00000000 2,
  .line false 2 3 4 0 1 0 0x00000000 3,
  .line false 1 2 3 4 0 0 0x00000000 4,
  .line false 0 1 2 3 4 0 0x00000000 5,
  .line false 4 0 1 2 3 0 0x00000000 6,
  .line false 3 4 0 1 2 0 0x00000000 7,
  .line false 2 3 4 0 1 0 0x00000000 8,
  .line false 1 2 3 4 0 0 0x00000000 9,
  .line false 0 1 2 3 4 0 0x00000000 10,
  .line false 4 0 1 2 3 0 0x00000000 11,
  .line false 3 4 0 1 2 0 0x00000000 12,
  .line false 2 3 4 0 1 0 0x00000000 13,
  .line false 1 2 3 4 0 0 0x00000000 14,
  .line false 0 1 2 3 4 0 0x00000000 15,
  .line false 4 0 1 2 3 0 0x00000000 16,
  .line false 3 4 0 1 2 0 0x00000000 17,
  .line false 2 3 4 0 1 0 0x00000000 18,
  .line false 1 2 3 4 0 0 0x00000000 19,
  .extend true 0,
  .line true 5 6 7 8 9 4 0xA953FD4E 0,
  .line true 9 5 6 7 8 4 0xA953FD4E 1,
  .line true 8 9 5 6 7 4 0xA953FD4E 2,
  .line true 7 8 9 5 6 4 0xA953FD4E 3,
  .line true 6 7 8 9 5 4 0xA953FD4E 4,
  .line true 5 6 7 8 9 4 0xA953FD4E 5,
  .line true 9 5 6 7 8 4 0xA953FD4E 6,
  .line true 8 9 5 6 7 4 0xA953FD4E 7,
  .line true 7 8 9 5 6 4 0xA953FD4E 8,
  .line true 6 7 8 9 5 4 0xA953FD4E 9,
  .line true 5 6 7 8 9 4 0xA953FD4E 10,
  .line true 9 5 6 7 8 4 0xA953FD4E 11,
  .line true 8 9 5 6 7 4 0xA953FD4E 12,
  .line true 7 8 9 5 6 4 0xA953FD4E 13,
  .line true 6 7 8 9 5 4 0xA953FD4E 14,
  .line true 5 6 7 8 9 4 0xA953FD4E 15,
  .line true 9 5 6 7 8 4 0xA953FD4E 16,
  .line true 8 9 5 6 7 4 0xA953FD4E 17,
  .line true 7 8 9 5 6 4 0xA953FD4E 18,
  .line true 6 7 8 9 5 4 0xA953FD4E 19,
  .swap,
  .extend false 1,
  .line false 0 1 2 3 4 1 0x5A827999 20,
  .line false 4 0 1 2 3 1 0x5A827999 21,
  .line false 3 4 0 1 2 1 0x5A827999 22,
  .line false 2 3 4 0 1 1 0x5A827999 23,
  .line false 1 2 3 4 0 1 0x5A827999 24,
  .line false 0 1 2 3 4 1 0x5A827999 25,
  .line false 4 0 1 2 3 1 0x5A827999 26,
  .line false 3 4 0 1 2 1 0x5A827999 27,
  .line false 2 3 4 0 1 1 0x5A827999 28,
  .line false 1 2 3 4 0 1 0x5A827999 29,
  .line false 0 1 2 3 4 1 0x5A827999 30,
  .line false 4 0 1 2 3 1 0x5A827999 31,
  .line false 3 4 0 1 2 1 0x5A827999 32,
  .line false 2 3 4 0 1 1 0x5A827999 33,
  .line false 1 2 3 4 0 1 0x5A827999 34,
  .line false 0 1 2 3 4 1 0x5A827999 35,
  .line false 4 0 1 2 3 1 0x5A827999 36,
  .line false 3 4 0 1 2 1 0x5A827999 37,
  .line false 2 3 4 0 1 1 0x5A827999 38,
  .line false 1 2 3 4 0 1 0x5A827999 39,
  .extend true 1,
  .line true 5 6 7 8 9 3 0x8F1BBCDC 20,
  .line true 9 5 6 7 8 3 0x8F1BBCDC 21,
  .line true 8 9 5 6 7 3 0x8F1BBCDC 22,
  .line true 7 8 9 5 6 3 0x8F1BBCDC 23,
  .line true 6 7 8 9 5 3 0x8F1BBCDC 24,
  .line true 5 6 7 8 9 3 0x8F1BBCDC 25,
  .line true 9 5 6 7 8 3 0x8F1BBCDC 26,
  .line true 8 9 5 6 7 3 0x8F1BBCDC 27,
  .line true 7 8 9 5 6 3 0x8F1BBCDC 28,
  .line true 6 7 8 9 5 3 0x8F1BBCDC 29,
  .line true 5 6 7 8 9 3 0x8F1BBCDC 30,
  .line true 9 5 6 7 8 3 0x8F1BBCDC 31,
  .line true 8 9 5 6 7 3 0x8F1BBCDC 32,
  .line true 7 8 9 5 6 3 0x8F1BBCDC 33,
  .line true 6 7 8 9 5 3 0x8F1BBCDC 34,
  .line true 5 6 7 8 9 3 0x8F1BBCDC 35,
  .line true 9 5 6 7 8 3 0x8F1BBCDC 36,
  .line true 8 9 5 6 7 3 0x8F1BBCDC 37,
  .line true 7 8 9 5 6 3 0x8F1BBCDC 38,
  .line true 6 7 8 9 5 3 0x8F1BBCDC 39,
  .swap,
  .extend false 2,
  .line false 0 1 2 3 4 2 0x6ED9EBA1 40,
  .line false 4 0 1 2 3 2 0x6ED9EBA1 41,
  .line false 3 4 0 1 2 2 0x6ED9EBA1 42,
  .line false 2 3 4 0 1 2 0x6ED9EBA1 43,
  .line false 1 2 3 4 0 2 0x6ED9EBA1 44,
  .line false 0 1 2 3 4 2 0x6ED9EBA1 45,
  .line false 4 0 1 2 3 2 0x6ED9EBA1 46,
  .line false 3 4 0 1 2 2 0x6ED9EBA1 47,
  .line false 2 3 4 0 1 2 0x6ED9EBA1 48,
  .line false 1 2 3 4 0 2 0x6ED9EBA1 49,
  .line false 0 1 2 3 4 2 0x6ED9EBA1 50,
  .line false 4 0 1 2 3 2 0x6ED9EBA1 51,
  .line false 3 4 0 1 2 2 0x6ED9EBA1 52,
  .line false 2 3 4 0 1 2 0x6ED9EBA1 53,
  .line false 1 2 3 4 0 2 0x6ED9EBA1 54,
  .line false 0 1 2 3 4 2 0x6ED9EBA1 55,
  .line false 4 0 1 2 3 2 0x6ED9EBA1 56,
  .line false 3 4 0 1 2 2 0x6ED9EBA1 57,
  .line false 2 3 4 0 1 2 0x6ED9EBA1 58,
  .line false 1 2 3 4 0 2 0x6ED9EBA1 59,
  .extend true 2,
  .line true 5 6 7 8 9 2 0x00000000 40,
  .line true 9 5 6 7 8 2 0x00000000 41,
  .line true 8 9 5 6 7 2 0x00000000 42,
  .line true 7 8 9 5 6 2 0x00000000 43,
  .line true 6 7 8 9 5 2 0x00000000 44,
  .line true 5 6 7 8 9 2 0x00000000 45,
  .line true 9 5 6 7 8 2 0x00000000 46,
  .line true 8 9 5 6 7 2 0x00000000 47,
  .line true 7 8 9 5 6 2 0x00000000 48,
  .line true 6 7 8 9 5 2 0x00000000 49,
  .line true 5 6 7 8 9 2 0x00000000 50,
  .line true 9 5 6 7 8 2 0x00000000 51,
  .line true 8 9 5 6 7 2 0x00000000 52,
  .line true 7 8 9 5 6 2 0x00000000 53,
  .line true 6 7 8 9 5 2 0x00000000 54,
  .line true 5 6 7 8 9 2 0x00000000 55,
  .line true 9 5 6 7 8 2 0x00000000 56,
  .line true 8 9 5 6 7 2 0x00000000 57,
  .line true 7 8 9 5 6 2 0x00000000 58,
  .line true 6 7 8 9 5 2 0x00000000 59,
  .swap,
  .extend false 3,
  .line false 0 1 2 3 4 3 0x8F1BBCDC 60,
  .line false 4 0 1 2 3 3 0x8F1BBCDC 61,
  .line false 3 4 0 1 2 3 0x8F1BBCDC 62,
  .line false 2 3 4 0 1 3 0x8F1BBCDC 63,
  .line false 1 2 3 4 0 3 0x8F1BBCDC 64,
  .line false 0 1 2 3 4 3 0x8F1BBCDC 65,
  .line false 4 0 1 2 3 3 0x8F1BBCDC 66,
  .line false 3 4 0 1 2 3 0x8F1BBCDC 67,
  .line false 2 3 4 0 1 3 0x8F1BBCDC 68,
  .line false 1 2 3 4 0 3 0x8F1BBCDC 69,
  .line false 0 1 2 3 4 3 0x8F1BBCDC 70,
  .line false 4 0 1 2 3 3 0x8F1BBCDC 71,
  .line false 3 4 0 1 2 3 0x8F1BBCDC 72,
  .line false 2 3 4 0 1 3 0x8F1BBCDC 73,
  .line false 1 2 3 4 0 3 0x8F1BBCDC 74,
  .line false 0 1 2 3 4 3 0x8F1BBCDC 75,
  .line false 4 0 1 2 3 3 0x8F1BBCDC 76,
  .line false 3 4 0 1 2 3 0x8F1BBCDC 77,
  .line false 2 3 4 0 1 3 0x8F1BBCDC 78,
  .line false 1 2 3 4 0 3 0x8F1BBCDC 79,
  .extend true 3,
  .line true 5 6 7 8 9 1 0x5A827999 60,
  .line true 9 5 6 7 8 1 0x5A827999 61,
  .line true 8 9 5 6 7 1 0x5A827999 62,
  .line true 7 8 9 5 6 1 0x5A827999 63,
  .line true 6 7 8 9 5 1 0x5A827999 64,
  .line true 5 6 7 8 9 1 0x5A827999 65,
  .line true 9 5 6 7 8 1 0x5A827999 66,
  .line true 8 9 5 6 7 1 0x5A827999 67,
  .line true 7 8 9 5 6 1 0x5A827999 68,
  .line true 6 7 8 9 5 1 0x5A827999 69,
  .line true 5 6 7 8 9 1 0x5A827999 70,
  .line true 9 5 6 7 8 1 0x5A827999 71,
  .line true 8 9 5 6 7 1 0x5A827999 72,
  .line true 7 8 9 5 6 1 0x5A827999 73,
  .line true 6 7 8 9 5 1 0x5A827999 74,
  .line true 5 6 7 8 9 1 0x5A827999 75,
  .line true 9 5 6 7 8 1 0x5A827999 76,
  .line true 8 9 5 6 7 1 0x5A827999 77,
  .line true 7 8 9 5 6 1 0x5A827999 78,
  .line true 6 7 8 9 5 1 0x5A827999 79,
  .swap,
  .extend false 4,
  .line false 0 1 2 3 4 4 0xA953FD4E 80,
  .line false 4 0 1 2 3 4 0xA953FD4E 81,
  .line false 3 4 0 1 2 4 0xA953FD4E 82,
  .line false 2 3 4 0 1 4 0xA953FD4E 83,
  .line false 1 2 3 4 0 4 0xA953FD4E 84,
  .line false 0 1 2 3 4 4 0xA953FD4E 85,
  .line false 4 0 1 2 3 4 0xA953FD4E 86,
  .line false 3 4 0 1 2 4 0xA953FD4E 87,
  .line false 2 3 4 0 1 4 0xA953FD4E 88,
  .line false 1 2 3 4 0 4 0xA953FD4E 89,
  .line false 0 1 2 3 4 4 0xA953FD4E 90,
  .line false 4 0 1 2 3 4 0xA953FD4E 91,
  .line false 3 4 0 1 2 4 0xA953FD4E 92,
  .line false 2 3 4 0 1 4 0xA953FD4E 93,
  .line false 1 2 3 4 0 4 0xA953FD4E 94,
  .line false 0 1 2 3 4 4 0xA953FD4E 95,
  .line false 4 0 1 2 3 4 0xA953FD4E 96,
  .line false 3 4 0 1 2 4 0xA953FD4E 97,
  .line false 2 3 4 0 1 4 0xA953FD4E 98,
  .line false 1 2 3 4 0 4 0xA953FD4E 99,
  .extend true 4,
  .line true 5 6 7 8 9 0 0x6ED9EBA1 80,
  .line true 9 5 6 7 8 0 0x6ED9EBA1 81,
  .line true 8 9 5 6 7 0 0x6ED9EBA1 82,
  .line true 7 8 9 5 6 0 0x6ED9EBA1 83,
  .line true 6 7 8 9 5 0 0x6ED9EBA1 84,
  .line true 5 6 7 8 9 0 0x6ED9EBA1 85,
  .line true 9 5 6 7 8 0 0x6ED9EBA1 86,
  .line true 8 9 5 6 7 0 0x6ED9EBA1 87,
  .line true 7 8 9 5 6 0 0x6ED9EBA1 88,
  .line true 6 7 8 9 5 0 0x6ED9EBA1 89,
  .line true 5 6 7 8 9 0 0x6ED9EBA1 90,
  .line true 9 5 6 7 8 0 0x6ED9EBA1 91,
  .line true 8 9 5 6 7 0 0x6ED9EBA1 92,
  .line true 7 8 9 5 6 0 0x6ED9EBA1 93,
  .line true 6 7 8 9 5 0 0x6ED9EBA1 94,
  .line true 5 6 7 8 9 0 0x6ED9EBA1 95,
  .line true 9 5 6 7 8 0 0x6ED9EBA1 96,
  .line true 8 9 5 6 7 0 0x6ED9EBA1 97,
  .line true 7 8 9 5 6 0 0x6ED9EBA1 98,
  .line true 6 7 8 9 5 0 0x6ED9EBA1 99,
  .swap]

/-- the disabled statements (has_v_320.cpp:305-532) -/
def disabled : List Stmt := [
  .extend false 0,
  .line false 0 1 2 3 4 0 0x00000000 0,
  .line false 4 0 1 2 3 0 0x00000000 1,
  .line false 3 4 0 1 2 0 0x00000000 2,
  .line false 2 3 4 0 1 0 0x00000000 3,
  .line false 1 2 3 4 0 0 0x00000000 4,
  .line false 0 1 2 3 4 0 0x00000000 5,
  .line false 4 0 1 2 3 0 0x00000000 6,
  .line false 3 4 0 1 2 0 0x00000000 7,
  .line false 2 3 4 0 1 0 0x00000000 8,
  .line false 1 2 3 4 0 0 0x00000000 9,
  .line false 0 1 2 3 4 0 0x00000000 10,
  .line false 4 0 1 2 3 0 0x00000000 11,
  .line false 3 4 0 1 2 0 0x00000000 12,
  .line false 2 3 4 0 1 0 0x00000000 13,
  .line false 1 2 3 4 0 0 0x00000000 14,
  .line false 0 1 2 3 4 0 0x00000000 15,
  .line false 4 0 1 2 3 0 0x00000000 16,
  .line false 3 4 0 1 2 0 0x00000000 17,
  .line false 2 3 4 0 1 0 0x00000000 18,
  .line false 1 2 3 4 0 0 0x00000000 19,
  .extend true 1,
  .line true 0 1 2 3 4 3 0x8F1BBCDC 20,
  .line true 4 0 1 2 3 3 0x8F1BBCDC 21,
  .line true 3 4 0 1 2 3 0x8F1BBCDC 22,
  .line true 2 3 4 0 1 3 0x8F1BBCDC 23,
  .line true 1 2 3 4 0 3 0x8F1BBCDC 24,
  .line true 0 1 2 3 4 3 0x8F1BBCDC 25,
  .line true 4 0 1 2 3 3 0x8F1BBCDC 26,
  .line true 3 4 0 1 2 3 0x8F1BBCDC 27,
  .line true 2 3 4 0 1 3 0x8F1BBCDC 28,
  .line true 1 2 3 4 0 3 0x8F1BBCDC 29,
  .line true 0 1 2 3 4 3 0x8F1BBCDC 30,
  .line true 4 0 1 2 3 3 0x8F1BBCDC 31,
  .line true 3 4 0 1 2 3 0x8F1BBCDC 32,
  .line true 2 3 4 0 1 3 0x8F1BBCDC 33,
  .line true 1 2 3 4 0 3 0x8F1BBCDC 34,
  .line true 0 1 2 3 4 3 0x8F1BBCDC 35,
  .line true 4 0 1 2 3 3 0x8F1BBCDC 36,
  .line true 3 4 0 1 2 3 0x8F1BBCDC 37,
  .line true 2 3 4 0 1 3 0x8F1BBCDC 38,
  .line true 1 2 3 4 0 3 0x8F1BBCDC 39,
  .extend false 2,
  .line false 0 1 2 3 4 2 0x6ED9EBA1 40,
  .line false 4 0 1 2 3 2 0x6ED9EBA1 41,
  .line false 3 4 0 1 2 2 0x6ED9EBA1 42,
  .line false 2 3 4 0 1 2 0x6ED9EBA1 43,
  .line false 1 2 3 4 0 2 0x6ED9EBA1 44,
  .line false 0 1 2 3 4 2 0x6ED9EBA1 45,
  .line false 4 0 1 2 3 2 0x6ED9EBA1 46,
  .line false 3 4 0 1 2 2 0x6ED9EBA1 47,
  .line false 2 3 4 0 1 2 0x6ED9EBA1 48,
  .line false 1 2 3 4 0 2 0x6ED9EBA1 49,
  .line false 0 1 2 3 4 2 0x6ED9EBA1 50,
  .line false 4 0 1 2 3 2 0x6ED9EBA1 51,
  .line false 3 4 0 1 2 2 0x6ED9EBA1 52,
  .line false 2 3 4 0 1 2 0x6ED9EBA1 53,
  .line false 1 2 3 4 0 2 0x6ED9EBA1 54,
  .line false 0 1 2 3 4 2 0x6ED9EBA1 55,
  .line false 4 0 1 2 3 2 0x6ED9EBA1 56,
  .line false 3 4 0 1 2 2 0x6ED9EBA1 57,
  .line false 2 3 4 0 1 2 0x6ED9EBA1 58,
  .line false 1 2 3 4 0 2 0x6ED9EBA1 59,
  .extend true 3,
  .line true 0 1 2 3 4 1 0x5A827999 60,
  .line true 4 0 1 2 3 1 0x5A827999 61,
  .line true 3 4 0 1 2 1 0x5A827999 62,
  .line true 2 3 4 0 1 1 0x5A827999 63,
  .line true 1 2 3 4 0 1 0x5A827999 64,
  .line true 0 1 2 3 4 1 0x5A827999 65,
  .line true 4 0 1 2 3 1 0x5A827999 66,
  .line true 3 4 0 1 2 1 0x5A827999 67,
  .line true 2 3 4 0 1 1 0x5A827999 68,
  .line true 1 2 3 4 0 1 0x5A827999 69,
  .line true 0 1 2 3 4 1 0x5A827999 70,
  .line true 4 0 1 2 3 1 0x5A827999 71,
  .line true 3 4 0 1 2 1 0x5A827999 72,
  .line true 2 3 4 0 1 1 0x5A827999 73,
  .line true 1 2 3 4 0 1 0x5A827999 74,
  .line true 0 1 2 3 4 1 0x5A827999 75,
  .line true 4 0 1 2 3 1 0x5A827999 76,
  .line true 3 4 0 1 2 1 0x5A827999 77,
  .line true 2 3 4 0 1 1 0x5A827999 78,
  .line true 1 2 3 4 0 1 0x5A827999 79,
  .extend false 4,
  .line false 0 1 2 3 4 4 0xA953FD4E 80,
  .line false 4 0 1 2 3 4 0xA953FD4E 81,
  .line false 3 4 0 1 2 4 0xA953FD4E 82,
  .line false 2 3 4 0 1 4 0xA953FD4E 83,
  .line false 1 2 3 4 0 4 0xA953FD4E 84,
  .line false 0 1 2 3 4 4 0xA953FD4E 85,
  .line false 4 0 1 2 3 4 0xA953FD4E 86,
  .line false 3 4 0 1 2 4 0xA953FD4E 87,
  .line false 2 3 4 0 1 4 0xA953FD4E 88,
  .line false 1 2 3 4 0 4 0xA953FD4E 89,
  .line false 0 1 2 3 4 4 0xA953FD4E 90,
  .line false 4 0 1 2 3 4 0xA953FD4E 91,
  .line false 3 4 0 1 2 4 0xA953FD4E 92,
  .line false 2 3 4 0 1 4 0xA953FD4E 93,
  .line false 1 2 3 4 0 4 0xA953FD4E 94,
  .line false 0 1 2 3 4 4 0xA953FD4E 95,
  .line false 4 0 1 2 3 4 0xA953FD4E 96,
  .line false 3 4 0 1 2 4 0xA953FD4E 97,
  .line false 2 3 4 0 1 4 0xA953FD4E 98,
  .line false 1 2 3 4 0 4 0xA953FD4E 99,
  .extend true 0,
  .line true 5 6 7 8 9 4 0xA953FD4E 0,
  .line true 9 5 6 7 8 4 0xA953FD4E 1,
  .line true 8 9 5 6 7 4 0xA953FD4E 2,
  .line true 7 8 9 5 6 4 0xA953FD4E 3,
  .line true 6 7 8 9 5 4 0xA953FD4E 4,
  .line true 5 6 7 8 9 4 0xA953FD4E 5,
  .line true 9 5 6 7 8 4 0xA953FD4E 6,
  .line true 8 9 5 6 7 4 0xA953FD4E 7,
  .line true 7 8 9 5 6 4 0xA953FD4E 8,
  .line true 6 7 8 9 5 4 0xA953FD4E 9,
  .line true 5 6 7 8 9 4 0xA953FD4E 10,
  .line true 9 5 6 7 8 4 0xA953FD4E 11,
  .line true 8 9 5 6 7 4 0xA953FD4E 12,
  .line true 7 8 9 5 6 4 0xA953FD4E 13,
  .line true 6 7 8 9 5 4 0xA953FD4E 14,
  .line true 5 6 7 8 9 4 0xA953FD4E 15,
  .line true 9 5 6 7 8 4 0xA953FD4E 16,
  .line true 8 9 5 6 7 4 0xA953FD4E 17,
  .line true 7 8 9 5 6 4 0xA953FD4E 18,
  .line true 6 7 8 9 5 4 0xA953FD4E 19,
  .extend false 1,
  .line false 5 6 7 8 9 1 0x5A827999 20,
  .line false 9 5 6 7 8 1 0x5A827999 21,
  .line false 8 9 5 6 7 1 0x5A827999 22,
  .line false 7 8 9 5 6 1 0x5A827999 23,
  .line false 6 7 8 9 5 1 0x5A827999 24,
  .line false 5 6 7 8 9 1 0x5A827999 25,
  .line false 9 5 6 7 8 1 0x5A827999 26,
  .line false 8 9 5 6 7 1 0x5A827999 27,
  .line false 7 8 9 5 6 1 0x5A827999 28,
  .line false 6 7 8 9 5 1 0x5A827999 29,
  .line false 5 6 7 8 9 1 0x5A827999 30,
  .line false 9 5 6 7 8 1 0x5A827999 31,
  .line false 8 9 5 6 7 1 0x5A827999 32,
  .line false 7 8 9 5 6 1 0x5A827999 33,
  .line false 6 7 8 9 5 1 0x5A827999 34,
  .line false 5 6 7 8 9 1 0x5A827999 35,
  .line false 9 5 6 7 8 1 0x5A827999 36,
  .line false 8 9 5 6 7 1 0x5A827999 37,
  .line false 7 8 9 5 6 1 0x5A827999 38,
  .line false 6 7 8 9 5 1 0x5A827999 39,
  .extend true 2,
  .line true 5 6 7 8 9 2 0x00000000 40,
  .line true 9 5 6 7 8 2 0x00000000 41,
  .line true 8 9 5 6 7 2 0x00000000 42,
  .line true 7 8 9 5 6 2 0x00000000 43,
  .line true 6 7 8 9 5 2 0x00000000 44,
  .line true 5 6 7 8 9 2 0x00000000 45,
  .line true 9 5 6 7 8 2 0x00000000 46,
  .line true 8 9 5 6 7 2 0x00000000 47,
  .line true 7 8 9 5 6 2 0x00000000 48,
  .line true 6 7 8 9 5 2 0x00000000 49,
  .line true 5 6 7 8 9 2 0x00000000 50,
  .line true 9 5 6 7 8 2 0x00000000 51,
  .line true 8 9 5 6 7 2 0x00000000 52,
  .line true 7 8 9 5 6 2 0x00000000 53,
  .line true 6 7 8 9 5 2 0x00000000 54,
  .line true 5 6 7 8 9 2 0x00000000 55,
  .line true 9 5 6 7 8 2 0x00000000 56,
  .line true 8 9 5 6 7 2 0x00000000 57,
  .line true 7 8 9 5 6 2 0x00000000 58,
  .line true 6 7 8 9 5 2 0x00000000 59,
  .extend false 3,
  .line false 5 6 7 8 9 3 0x8F1BBCDC 60,
  .line false 9 5 6 7 8 3 0x8F1BBCDC 61,
  .line false 8 9 5 6 7 3 0x8F1BBCDC 62,
  .line false 7 8 9 5 6 3 0x8F1BBCDC 63,
  .line false 6 7 8 9 5 3 0x8F1BBCDC 64,
  .line false 5 6 7 8 9 3 0x8F1BBCDC 65,
  .line false 9 5 6 7 8 3 0x8F1BBCDC 66,
  .line false 8 9 5 6 7 3 0x8F1BBCDC 67,
  .line false 7 8 9 5 6 3 0x8F1BBCDC 68,
  .line false 6 7 8 9 5 3 0x8F1BBCDC 69,
  .line false 5 6 7 8 9 3 0x8F1BBCDC 70,
  .line false 9 5 6 7 8 3 0x8F1BBCDC 71,
  .line false 8 9 5 6 7 3 0x8F1BBCDC 72,
  .line false 7 8 9 5 6 3 0x8F1BBCDC 73,
  .line false 6 7 8 9 5 3 0x8F1BBCDC 74,
  .line false 5 6 7 8 9 3 0x8F1BBCDC 75,
  .line false 9 5 6 7 8 3 0x8F1BBCDC 76,
  .line false 8 9 5 6 7 3 0x8F1BBCDC 77,
  .line false 7 8 9 5 6 3 0x8F1BBCDC 78,
  .line false 6 7 8 9 5 3 0x8F1BBCDC 79,
  .extend true 4,
  .line true 5 6 7 8 9 0 0x6ED9EBA1 80,
  .line true 9 5 6 7 8 0 0x6ED9EBA1 81,
  .line true 8 9 5 6 7 0 0x6ED9EBA1 82,
  .line true 7 8 9 5 6 0 0x6ED9EBA1 83,
  .line true 6 7 8 9 5 0 0x6ED9EBA1 84,
  .line true 5 6 7 8 9 0 0x6ED9EBA1 85,
  .line true 9 5 6 7 8 0 0x6ED9EBA1 86,
  .line true 8 9 5 6 7 0 0x6ED9EBA1 87,
  .line true 7 8 9 5 6 0 0x6ED9EBA1 88,
  .line true 6 7 8 9 5 0 0x6ED9EBA1 89,
  .line true 5 6 7 8 9 0 0x6ED9EBA1 90,
  .line true 9 5 6 7 8 0 0x6ED9EBA1 91,
  .line true 8 9 5 6 7 0 0x6ED9EBA1 92,
  .line true 7 8 9 5 6 0 0x6ED9EBA1 93,
  .line true 6 7 8 9 5 0 0x6ED9EBA1 94,
  .line true 5 6 7 8 9 0 0x6ED9EBA1 95,
  .line true 9 5 6 7 8 0 0x6ED9EBA1 96,
  .line true 8 9 5 6 7 0 0x6ED9EBA1 97,
  .line true 7 8 9 5 6 0 0x6ED9EBA1 98,
  .line true 6 7 8 9 5 0 0x6ED9EBA1 99]

end Verif.Model.HASV
