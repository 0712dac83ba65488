import Verif.Model.RIPEMD
import Verif.Test.Util

/-! Vectors from tests/test_ripemd_128.cpp, tests/test_ripemd_160.cpp, tests/test_ripemd_256.cpp, tests/test_ripemd_320.cpp (generated by tools/mktest.py). -/

namespace Verif.Test
open Model.RIPEMD

#guard dig RIPEMD_128 [hx ""]
  = "cdf26213a150dc3ecb610f18f6b38b46"
#guard dig RIPEMD_128 [hx "61"]
  = "86be7afa339d0fc7cfc785e72f578d33"
#guard dig RIPEMD_128 [hx "616263"]
  = "c14a12199c66e4ba84636b0f69144c77"
#guard dig RIPEMD_128 [hx "6d65737361676520646967657374"]
  = "9e327b3d6e523062afc1132d7df9d1b8"
#guard dig RIPEMD_128 [hx "6162636465666768696a6b6c6d6e6f707172737475767778797a"]
  = "fd2aa607f71dc8f510714922b371834e"
#guard dig RIPEMD_128 [hx "6162636462636465636465666465666765666768666768696768696a68696a6b696a6b6c6a6b6c6d6b6c6d6e6c6d6e6f6d6e6f706e6f7071"]
  = "a1aa0689d0fafa2ddc22e88b49133a06"
#guard dig RIPEMD_128 [hx "4142434445464748494a4b4c4d4e4f505152535455565758595a6162636465666768696a6b6c6d6e6f707172737475767778797a30313233343536373839"]
  = "d1e959eb179c911faea4624c60c5c702"
#guard dig RIPEMD_128 (List.replicate 8 (hx "31323334353637383930"))
  = "3f45ef194732c2dbb2c4a2c769795fa3"
#guard dig RIPEMD_128 []
  = "cdf26213a150dc3ecb610f18f6b38b46"
#guard dig RIPEMD_128 [hx "54686520717569636b2062726f776e20666f78206a756d7073206f76657220746865206c617a7920646f67"]
  = "3fa9b57f053c053fbe2735b2380db596"
#guard dig RIPEMD_128 [hx "54686520717569636b2062726f776e20666f78206a756d7073206f76657220746865206c617a7920646f672e"]
  = "f39288a385e5996c6fb2c01f7f8fbf2f"
#guard dig RIPEMD_128 [hx "54686520717569636b2062726f776e20666f78206a756d7073206f76657220746865206c617a7920646f6754686520717569636b2062726f776e20666f78206a756d7073206f76657220746865206c617a7920646f6754686520717569636b2062726f776e20666f78206a756d7073206f76657220746865206c617a7920646f67"]
  = "508b5dac78e7aa731d8a4fb8ac4e6d48"
#guard dig RIPEMD_128 [hx "00000000000000000000000000000000000000000000000000000000000000000000000000000000000000000000000000000000000000"]
  = "d0898990ad65d38ba3bf9e87500f66b5"
#guard dig RIPEMD_160 [hx ""]
  = "9c1185a5c5e9fc54612808977ee8f548b2258d31"
#guard dig RIPEMD_160 [hx "61"]
  = "0bdc9d2d256b3ee9daae347be6f4dc835a467ffe"
#guard dig RIPEMD_160 [hx "616263"]
  = "8eb208f7e05d987a9b044a8e98c6b087f15a0bfc"
#guard dig RIPEMD_160 [hx "6d65737361676520646967657374"]
  = "5d0689ef49d2fae572b881b123a85ffa21595f36"
#guard dig RIPEMD_160 [hx "6162636465666768696a6b6c6d6e6f707172737475767778797a"]
  = "f71c27109c692c1b56bbdceb5b9d2865b3708dbc"
#guard dig RIPEMD_160 [hx "6162636462636465636465666465666765666768666768696768696a68696a6b696a6b6c6a6b6c6d6b6c6d6e6c6d6e6f6d6e6f706e6f7071"]
  = "12a053384a9c0c88e405a06c27dcf49ada62eb2b"
#guard dig RIPEMD_160 [hx "4142434445464748494a4b4c4d4e4f505152535455565758595a6162636465666768696a6b6c6d6e6f707172737475767778797a30313233343536373839"]
  = "b0e20b6e3116640286ed3a87a5713079b21f5189"
#guard dig RIPEMD_160 (List.replicate 8 (hx "31323334353637383930"))
  = "9b752e45573d4b39f4dbd3323cab82bf63326bfb"
#guard dig RIPEMD_160 []
  = "9c1185a5c5e9fc54612808977ee8f548b2258d31"
#guard dig RIPEMD_160 [hx "54686520717569636b2062726f776e20666f78206a756d7073206f76657220746865206c617a7920646f67"]
  = "37f332f68db77bd9d7edd4969571ad671cf9dd3b"
#guard dig RIPEMD_160 [hx "54686520717569636b2062726f776e20666f78206a756d7073206f76657220746865206c617a7920646f672e"]
  = "fc850169b1f2ce72e3f8aa0aeb5ca87d6f8519c6"
#guard dig RIPEMD_160 [hx "54686520717569636b2062726f776e20666f78206a756d7073206f76657220746865206c617a7920646f6754686520717569636b2062726f776e20666f78206a756d7073206f76657220746865206c617a7920646f6754686520717569636b2062726f776e20666f78206a756d7073206f76657220746865206c617a7920646f67"]
  = "80407833d8f49264dcf4de5c019b3bf9942cc040"
#guard dig RIPEMD_160 [hx "00000000000000000000000000000000000000000000000000000000000000000000000000000000000000000000000000000000000000"]
  = "e323d78db60afc7404def79abb82b8fb73591037"
#guard dig RIPEMD_256 [hx ""]
  = "02ba4c4e5f8ecd1877fc52d64d30e37a2d9774fb1e5d026380ae0168e3c5522d"
#guard dig RIPEMD_256 [hx "61"]
  = "f9333e45d857f5d90a91bab70a1eba0cfb1be4b0783c9acfcd883a9134692925"
#guard dig RIPEMD_256 [hx "616263"]
  = "afbd6e228b9d8cbbcef5ca2d03e6dba10ac0bc7dcbe4680e1e42d2e975459b65"
#guard dig RIPEMD_256 [hx "6d65737361676520646967657374"]
  = "87e971759a1ce47a514d5c914c392c9018c7c46bc14465554afcdf54a5070c0e"
#guard dig RIPEMD_256 [hx "6162636465666768696a6b6c6d6e6f707172737475767778797a"]
  = "649d3034751ea216776bf9a18acc81bc7896118a5197968782dd1fd97d8d5133"
#guard dig RIPEMD_256 [hx "6162636462636465636465666465666765666768666768696768696a68696a6b696a6b6c6a6b6c6d6b6c6d6e6c6d6e6f6d6e6f706e6f7071"]
  = "3843045583aac6c8c8d9128573e7a9809afb2a0f34ccc36ea9e72f16f6368e3f"
#guard dig RIPEMD_256 [hx "4142434445464748494a4b4c4d4e4f505152535455565758595a6162636465666768696a6b6c6d6e6f707172737475767778797a30313233343536373839"]
  = "5740a408ac16b720b84424ae931cbb1fe363d1d0bf4017f1a89f7ea6de77a0b8"
#guard dig RIPEMD_256 (List.replicate 8 (hx "31323334353637383930"))
  = "06fdcc7a409548aaf91368c06a6275b553e3f099bf0ea4edfd6778df89a890dd"
#guard dig RIPEMD_256 []
  = "02ba4c4e5f8ecd1877fc52d64d30e37a2d9774fb1e5d026380ae0168e3c5522d"
#guard dig RIPEMD_256 [hx "54686520717569636b2062726f776e20666f78206a756d7073206f76657220746865206c617a7920646f67"]
  = "c3b0c2f764ac6d576a6c430fb61a6f2255b4fa833e094b1ba8c1e29b6353036f"
#guard dig RIPEMD_256 [hx "54686520717569636b2062726f776e20666f78206a756d7073206f76657220746865206c617a7920646f672e"]
  = "379e373d9e1b6e71712b8f4a19b8fb125caa3f4ce92a258eb764d721d9a08bad"
#guard dig RIPEMD_256 [hx "54686520717569636b2062726f776e20666f78206a756d7073206f76657220746865206c617a7920646f6754686520717569636b2062726f776e20666f78206a756d7073206f76657220746865206c617a7920646f6754686520717569636b2062726f776e20666f78206a756d7073206f76657220746865206c617a7920646f67"]
  = "6b7f038ccb610c829f4e7a7dcc07dd3f3d3e2d2869b1ffbbd6a3eda828aba861"
#guard dig RIPEMD_256 [hx "00000000000000000000000000000000000000000000000000000000000000000000000000000000000000000000000000000000000000"]
  = "49434f3c05314ccc78553f906795a1823eddf7d6605a96ce78c6d69ca80f0c68"
#guard dig RIPEMD_320 [hx ""]
  = "22d65d5661536cdc75c1fdf5c6de7b41b9f27325ebc61e8557177d705a0ec880151c3a32a00899b8"
#guard dig RIPEMD_320 [hx "61"]
  = "ce78850638f92658a5a585097579926dda667a5716562cfcf6fbe77f63542f99b04705d6970dff5d"
#guard dig RIPEMD_320 [hx "616263"]
  = "de4c01b3054f8930a79d09ae738e92301e5a17085beffdc1b8d116713e74f82fa942d64cdbc4682d"
#guard dig RIPEMD_320 [hx "6d65737361676520646967657374"]
  = "3a8e28502ed45d422f68844f9dd316e7b98533fa3f2a91d29f84d425c88d6b4eff727df66a7c0197"
#guard dig RIPEMD_320 [hx "6162636465666768696a6b6c6d6e6f707172737475767778797a"]
  = "cabdb1810b92470a2093aa6bce05952c28348cf43ff60841975166bb40ed234004b8824463e6b009"
#guard dig RIPEMD_320 [hx "6162636462636465636465666465666765666768666768696768696a68696a6b696a6b6c6a6b6c6d6b6c6d6e6c6d6e6f6d6e6f706e6f7071"]
  = "d034a7950cf722021ba4b84df769a5de2060e259df4c9bb4a4268c0e935bbc7470a969c9d072a1ac"
#guard dig RIPEMD_320 [hx "4142434445464748494a4b4c4d4e4f505152535455565758595a6162636465666768696a6b6c6d6e6f707172737475767778797a30313233343536373839"]
  = "ed544940c86d67f250d232c30b7b3e5770e0c60c8cb9a4cafe3b11388af9920e1b99230b843c86a4"
#guard dig RIPEMD_320 (List.replicate 8 (hx "31323334353637383930"))
  = "557888af5f6d8ed62ab66945c6d2a0a47ecd5341e915eb8fea1d0524955f825dc717e4a008ab2d42"
#guard dig RIPEMD_320 []
  = "22d65d5661536cdc75c1fdf5c6de7b41b9f27325ebc61e8557177d705a0ec880151c3a32a00899b8"
#guard dig RIPEMD_320 [hx "54686520717569636b2062726f776e20666f78206a756d7073206f76657220746865206c617a7920646f67"]
  = "e7660e67549435c62141e51c9ab1dcc3b1ee9f65c0b3e561ae8f58c5dba3d21997781cd1cc6fbc34"
#guard dig RIPEMD_320 [hx "54686520717569636b2062726f776e20666f78206a756d7073206f76657220746865206c617a7920646f672e"]
  = "4b743c0a2262f904097fda33f0b8e03819bc012c5fc39643f17049c566eee0b1961d1bd7b25a3e4d"
#guard dig RIPEMD_320 [hx "54686520717569636b2062726f776e20666f78206a756d7073206f76657220746865206c617a7920646f6754686520717569636b2062726f776e20666f78206a756d7073206f76657220746865206c617a7920646f6754686520717569636b2062726f776e20666f78206a756d7073206f76657220746865206c617a7920646f67"]
  = "b572d7abb2e028ca63a0a987d6c3bff15e6cdd8a18ce08f65b4ecbdbd7fdb0f2fed2788d3b9cd4f9"
#guard dig RIPEMD_320 [hx "00000000000000000000000000000000000000000000000000000000000000000000000000000000000000000000000000000000000000"]
  = "66175bed982c6fa01b2570ae000a09c728a852feac719aca09e81e9a354722691e709c381735b52b"

end Verif.Test
