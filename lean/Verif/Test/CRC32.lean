import Verif.Model.CRC32
import Verif.Test.Util

/-! Vectors from tests/test_crc_32.cpp (generated by tools/mktest.py). -/

namespace Verif.Test
open Model.CRC32

#guard dig CRC_32 []
  = "00000000"
#guard dig CRC_32 [hx "54686520717569636b2062726f776e20666f78206a756d7073206f76657220746865206c617a7920646f67"]
  = "414fa339"
#guard dig CRC_32 [hx "54686520717569636b2062726f776e20666f78206a756d7073206f76657220746865206c617a7920646f672e"]
  = "519025e9"
#guard dig CRC_32 [hx "54686520717569636b2062726f776e20666f78206a756d7073206f76657220746865206c617a7920646f6754686520717569636b2062726f776e20666f78206a756d7073206f76657220746865206c617a7920646f6754686520717569636b2062726f776e20666f78206a756d7073206f76657220746865206c617a7920646f67"]
  = "d99691f3"

end Verif.Test
