import Verif.Model.FNV
import Verif.Test.Util

/-! Vectors from tests/test_fnv.cpp (generated by tools/mktest.py). -/

namespace Verif.Test
open Model.FNV

#guard dig FNV32_0 [hx "63686f6e676f203c4c616e646f6e2043757274204e6f6c6c3e202f5c2e2e2f5c"]
  = "811c9dc5"
#guard dig FNV32_1 []
  = "811c9dc5"
#guard dig FNV32_1 [hx "54686520717569636b2062726f776e20666f78206a756d7073206f76657220746865206c617a7920646f67"]
  = "e9c86c6e"
#guard dig FNV32_1 [hx "54686520717569636b2062726f776e20666f78206a756d7073206f76657220746865206c617a7920646f672e"]
  = "7482b104"
#guard dig FNV32_1 [hx "54686520717569636b2062726f776e20666f78206a756d7073206f76657220746865206c617a7920646f6754686520717569636b2062726f776e20666f78206a756d7073206f76657220746865206c617a7920646f6754686520717569636b2062726f776e20666f78206a756d7073206f76657220746865206c617a7920646f67"]
  = "a48abd48"
#guard dig FNV32_1a [hx ""]
  = "811c9dc5"
#guard dig FNV32_1a [hx "61"]
  = "e40c292c"
#guard dig FNV32_1a [hx "666f6f626172"]
  = "bf9cf968"
#guard dig FNV32_1a [hx "00"]
  = "050c5d1f"
#guard dig FNV32_1a [hx "6100"]
  = "2b24d044"
#guard dig FNV32_1a [hx "666f6f62617200"]
  = "0c1c9eb8"
#guard dig FNV32_1a []
  = "811c9dc5"
#guard dig FNV32_1a [hx "54686520717569636b2062726f776e20666f78206a756d7073206f76657220746865206c617a7920646f67"]
  = "048fff90"
#guard dig FNV32_1a [hx "54686520717569636b2062726f776e20666f78206a756d7073206f76657220746865206c617a7920646f672e"]
  = "ecaf981a"
#guard dig FNV32_1a [hx "54686520717569636b2062726f776e20666f78206a756d7073206f76657220746865206c617a7920646f6754686520717569636b2062726f776e20666f78206a756d7073206f76657220746865206c617a7920646f6754686520717569636b2062726f776e20666f78206a756d7073206f76657220746865206c617a7920646f67"]
  = "dfd12786"
#guard dig FNV64_0 [hx "63686f6e676f203c4c616e646f6e2043757274204e6f6c6c3e202f5c2e2e2f5c"]
  = "cbf29ce484222325"
#guard dig FNV64_1 []
  = "cbf29ce484222325"
#guard dig FNV64_1 [hx "54686520717569636b2062726f776e20666f78206a756d7073206f76657220746865206c617a7920646f67"]
  = "a8b2f3117de37ace"
#guard dig FNV64_1 [hx "54686520717569636b2062726f776e20666f78206a756d7073206f76657220746865206c617a7920646f672e"]
  = "8b8dd4b8e989ac24"
#guard dig FNV64_1 [hx "54686520717569636b2062726f776e20666f78206a756d7073206f76657220746865206c617a7920646f6754686520717569636b2062726f776e20666f78206a756d7073206f76657220746865206c617a7920646f6754686520717569636b2062726f776e20666f78206a756d7073206f76657220746865206c617a7920646f67"]
  = "b68fdcf39b783288"
#guard dig FNV64_1a [hx ""]
  = "cbf29ce484222325"
#guard dig FNV64_1a [hx "61"]
  = "af63dc4c8601ec8c"
#guard dig FNV64_1a [hx "666f6f626172"]
  = "85944171f73967e8"
#guard dig FNV64_1a [hx "00"]
  = "af63bd4c8601b7df"
#guard dig FNV64_1a [hx "6100"]
  = "089be207b544f1e4"
#guard dig FNV64_1a [hx "666f6f62617200"]
  = "34531ca7168b8f38"
#guard dig FNV64_1a []
  = "cbf29ce484222325"
#guard dig FNV64_1a [hx "54686520717569636b2062726f776e20666f78206a756d7073206f76657220746865206c617a7920646f67"]
  = "f3f9b7f5e7e47110"
#guard dig FNV64_1a [hx "54686520717569636b2062726f776e20666f78206a756d7073206f76657220746865206c617a7920646f672e"]
  = "75c4d4d9092c6c5a"
#guard dig FNV64_1a [hx "54686520717569636b2062726f776e20666f78206a756d7073206f76657220746865206c617a7920646f6754686520717569636b2062726f776e20666f78206a756d7073206f76657220746865206c617a7920646f6754686520717569636b2062726f776e20666f78206a756d7073206f76657220746865206c617a7920646f67"]
  = "2f4442aa5eedc866"

end Verif.Test
