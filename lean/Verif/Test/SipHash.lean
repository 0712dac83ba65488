import Verif.Model.SipHash
import Verif.Test.Util

/-! Vectors from tests/test_siphash.cpp. -/

namespace Verif.Test
open Model.SipHash

def sip (key : String) (m : String) : String :=
  if h : (hx key).length = 16 then dig (SipHash ⟨(hx key).toArray, h⟩) [hx m] else ""

#guard sip "000102030405060708090a0b0c0d0e0f" "000102030405060708090a0b0c0d0e"
  = "a129ca6149be45e5"
#guard sip "00000000000000000000000000000000" ""
  = "1e924b9d737700d7"
#guard sip "00000000000000000000000000000000" "54686520717569636b2062726f776e20666f78206a756d7073206f76657220746865206c617a7920646f67"
  = "590052062570e40d"
#guard sip "00000000000000000000000000000000" "54686520717569636b2062726f776e20666f78206a756d7073206f76657220746865206c617a7920646f672e"
  = "04881a54901382b2"
#guard sip "00000000000000000000000000000000" "54686520717569636b2062726f776e20666f78206a756d7073206f76657220746865206c617a7920646f6754686520717569636b2062726f776e20666f78206a756d7073206f76657220746865206c617a7920646f6754686520717569636b2062726f776e20666f78206a756d7073206f76657220746865206c617a7920646f67"
  = "422152e3bef97797"
#guard sip "00000000000000000000000000000000" "00000000000000"
  = "85f896b6040a13ec"

end Verif.Test
