import Verif.Model.MD2
import Verif.Test.Util

/-! Vectors from tests/test_md2.cpp (generated by tools/mktest.py). -/

namespace Verif.Test
open Model.MD2

#guard dig MD2 [hx ""]
  = "8350e5a3e24c153df2275c9f80692773"
#guard dig MD2 [hx "61"]
  = "32ec01ec4a6dac72c0ab96fb34c0b5d1"
#guard dig MD2 [hx "616263"]
  = "da853b0d3f88d99b30283a69e6ded6bb"
#guard dig MD2 [hx "6d65737361676520646967657374"]
  = "ab4f496bfb2a530b219ff33031fe06b0"
#guard dig MD2 [hx "6162636465666768696a6b6c6d6e6f707172737475767778797a"]
  = "4e8ddff3650292ab5a4108c3aa47940b"
#guard dig MD2 [hx "4142434445464748494a4b4c4d4e4f505152535455565758595a6162636465666768696a6b6c6d6e6f707172737475767778797a30313233343536373839"]
  = "da33def2a42df13975352846c30338cd"
#guard dig MD2 [hx "3132333435363738393031323334353637383930313233343536373839303132333435363738393031323334353637383930313233343536373839303132333435363738393031323334353637383930"]
  = "d5976f79d83d3a0dc9806c3c66f3efd8"
#guard dig MD2 []
  = "8350e5a3e24c153df2275c9f80692773"
#guard dig MD2 [hx "54686520717569636b2062726f776e20666f78206a756d7073206f76657220746865206c617a7920646f67"]
  = "03d85a0d629d2c442e987525319fc471"
#guard dig MD2 [hx "54686520717569636b2062726f776e20666f78206a756d7073206f76657220746865206c617a7920646f672e"]
  = "71eaa7e440b611e41a6f0d97384b342a"
#guard dig MD2 [hx "54686520717569636b2062726f776e20666f78206a756d7073206f76657220746865206c617a7920646f6754686520717569636b2062726f776e20666f78206a756d7073206f76657220746865206c617a7920646f6754686520717569636b2062726f776e20666f78206a756d7073206f76657220746865206c617a7920646f67"]
  = "a7e3d94a42f4cf37aca6ef3fda6882c6"
#guard dig MD2 [hx "000000000000000000000000000000"]
  = "b20662902185c1c77c964bb7d8fb2279"

end Verif.Test
