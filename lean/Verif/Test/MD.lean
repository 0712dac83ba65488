import Verif.Model.MD4
import Verif.Model.MD5
import Verif.Test.Util

/-! Vectors from tests/test_md4.cpp, tests/test_md5.cpp (generated by tools/mktest.py). -/

namespace Verif.Test
open Model

#guard dig MD4.MD4 [hx ""]
  = "31d6cfe0d16ae931b73c59d7e0c089c0"
#guard dig MD4.MD4 [hx "61"]
  = "bde52cb31de33e46245e05fbdbd6fb24"
#guard dig MD4.MD4 [hx "616263"]
  = "a448017aaf21d8525fc10ae87aa6729d"
#guard dig MD4.MD4 [hx "6d65737361676520646967657374"]
  = "d9130a8164549fe818874806e1c7014b"
#guard dig MD4.MD4 [hx "6162636465666768696a6b6c6d6e6f707172737475767778797a"]
  = "d79e1c308aa5bbcdeea8ed63df412da9"
#guard dig MD4.MD4 [hx "4142434445464748494a4b4c4d4e4f505152535455565758595a6162636465666768696a6b6c6d6e6f707172737475767778797a30313233343536373839"]
  = "043f8582f241db351ce627e153e7f0e4"
#guard dig MD4.MD4 [hx "3132333435363738393031323334353637383930313233343536373839303132333435363738393031323334353637383930313233343536373839303132333435363738393031323334353637383930"]
  = "e33b4ddc9c38f2199c3e7b164fcc0536"
#guard dig MD4.MD4 []
  = "31d6cfe0d16ae931b73c59d7e0c089c0"
#guard dig MD4.MD4 [hx "54686520717569636b2062726f776e20666f78206a756d7073206f76657220746865206c617a7920646f67"]
  = "1bee69a46ba811185c194762abaeae90"
#guard dig MD4.MD4 [hx "54686520717569636b2062726f776e20666f78206a756d7073206f76657220746865206c617a7920646f672e"]
  = "2812c6c7136898c51f6f6739ad08750e"
#guard dig MD4.MD4 [hx "54686520717569636b2062726f776e20666f78206a756d7073206f76657220746865206c617a7920646f6754686520717569636b2062726f776e20666f78206a756d7073206f76657220746865206c617a7920646f6754686520717569636b2062726f776e20666f78206a756d7073206f76657220746865206c617a7920646f67"]
  = "2edf6465507c0176b90c87d19a7d988e"
#guard dig MD4.MD4 [hx "00000000000000000000000000000000000000000000000000000000000000000000000000000000000000000000000000000000000000"]
  = "2df5a83f688f18c0866c64173be82a8f"
#guard dig MD5.MD5 [hx ""]
  = "d41d8cd98f00b204e9800998ecf8427e"
#guard dig MD5.MD5 [hx "61"]
  = "0cc175b9c0f1b6a831c399e269772661"
#guard dig MD5.MD5 [hx "616263"]
  = "900150983cd24fb0d6963f7d28e17f72"
#guard dig MD5.MD5 [hx "6d65737361676520646967657374"]
  = "f96b697d7cb7938d525a2f31aaf161d0"
#guard dig MD5.MD5 [hx "6162636465666768696a6b6c6d6e6f707172737475767778797a"]
  = "c3fcd3d76192e4007dfb496cca67e13b"
#guard dig MD5.MD5 [hx "4142434445464748494a4b4c4d4e4f505152535455565758595a6162636465666768696a6b6c6d6e6f707172737475767778797a30313233343536373839"]
  = "d174ab98d277d9f5a5611c2c9f419d9f"
#guard dig MD5.MD5 [hx "3132333435363738393031323334353637383930313233343536373839303132333435363738393031323334353637383930313233343536373839303132333435363738393031323334353637383930"]
  = "57edf4a22be3c955ac49da2e2107b67a"
#guard dig MD5.MD5 []
  = "d41d8cd98f00b204e9800998ecf8427e"
#guard dig MD5.MD5 [hx "54686520717569636b2062726f776e20666f78206a756d7073206f76657220746865206c617a7920646f67"]
  = "9e107d9d372bb6826bd81d3542a419d6"
#guard dig MD5.MD5 [hx "54686520717569636b2062726f776e20666f78206a756d7073206f76657220746865206c617a7920646f672e"]
  = "e4d909c290d0fb1ca068ffaddf22cbd0"
#guard dig MD5.MD5 [hx "54686520717569636b2062726f776e20666f78206a756d7073206f76657220746865206c617a7920646f6754686520717569636b2062726f776e20666f78206a756d7073206f76657220746865206c617a7920646f6754686520717569636b2062726f776e20666f78206a756d7073206f76657220746865206c617a7920646f67"]
  = "4e67db4a7a406b0cfdadd887cde7888e"
#guard dig MD5.MD5 [hx "00000000000000000000000000000000000000000000000000000000000000000000000000000000000000000000000000000000000000"]
  = "c9ea3314b91c9fd4e38f9432064fd1f2"

end Verif.Test
