import Verif.Model.BLAKE
import Verif.Test.Util

/-! Vectors from tests/test_blake1_224.cpp, tests/test_blake1_256.cpp, tests/test_blake1_384.cpp, tests/test_blake1_512.cpp (generated by tools/mktest.py). -/

namespace Verif.Test
open Model.BLAKE

#guard dig Blake1_224 [hx "00"]
  = "4504cb0314fb2a4f7a692e696e487912fe3f2468fe312c73a5278ec5"
#guard dig Blake1_224 [hx "000000000000000000000000000000000000000000000000000000000000000000000000000000000000000000000000000000000000000000000000000000000000000000000000"]
  = "f5aa00dd1cb847e3140372af7b5c46b4888d82c8c0a917913cfb5d04"
#guard dig Blake1_224 []
  = "7dc5313b1c04512a174bd6503b89607aecbee0903d40a8a569c94eed"
#guard dig Blake1_224 [hx "54686520717569636b2062726f776e20666f78206a756d7073206f76657220746865206c617a7920646f67"]
  = "c8e92d7088ef87c1530aee2ad44dc720cc10589cc2ec58f95a15e51b"
#guard dig Blake1_224 [hx "54686520717569636b2062726f776e20666f78206a756d7073206f76657220746865206c617a7920646f672e"]
  = "91e670c2da5728a9cdc2e92cd9215393d59abf053843e49d4ce204f2"
#guard dig Blake1_224 [hx "54686520717569636b2062726f776e20666f78206a756d7073206f76657220746865206c617a7920646f6754686520717569636b2062726f776e20666f78206a756d7073206f76657220746865206c617a7920646f6754686520717569636b2062726f776e20666f78206a756d7073206f76657220746865206c617a7920646f67"]
  = "abe9cb6525ff22cba701fc7a20e215c4c2782d2a832b46e390344d8f"
#guard dig Blake1_224 (List.replicate 64 (hx "61"))
  = "28ae307b62eb14a5c50d83c4f6fbe04dd30a5f8c08454f59b0ab7afc"
#guard dig Blake1_224 [hx "00000000000000000000000000000000000000000000000000000000000000000000000000000000000000000000000000000000000000"]
  = "502a0663e562d1cda878b9fe86e6c475f7399e12379526be742b1c93"
#guard dig Blake1_256 [hx "00"]
  = "0ce8d4ef4dd7cd8d62dfded9d4edb0a774ae6a41929a74da23109e8f11139c87"
#guard dig Blake1_256 [hx "000000000000000000000000000000000000000000000000000000000000000000000000000000000000000000000000000000000000000000000000000000000000000000000000"]
  = "d419bad32d504fb7d44d460c42c5593fe544fa4c135dec31e21bd9abdcc22d41"
#guard dig Blake1_256 []
  = "716f6e863f744b9ac22c97ec7b76ea5f5908bc5b2f67c61510bfc4751384ea7a"
#guard dig Blake1_256 [hx "54686520717569636b2062726f776e20666f78206a756d7073206f76657220746865206c617a7920646f67"]
  = "7576698ee9cad30173080678e5965916adbb11cb5245d386bf1ffda1cb26c9d7"
#guard dig Blake1_256 [hx "54686520717569636b2062726f776e20666f78206a756d7073206f76657220746865206c617a7920646f672e"]
  = "13af722eafeab6bb2ed498129044e6782c84a7604bba9988b135d98158fbe816"
#guard dig Blake1_256 [hx "54686520717569636b2062726f776e20666f78206a756d7073206f76657220746865206c617a7920646f6754686520717569636b2062726f776e20666f78206a756d7073206f76657220746865206c617a7920646f6754686520717569636b2062726f776e20666f78206a756d7073206f76657220746865206c617a7920646f67"]
  = "afeb40bca1a092fda935ed49bbae0074eb9e5d2e9ef00ecb89839e643b018d56"
#guard dig Blake1_256 (List.replicate 64 (hx "61"))
  = "84d7f3bbf2cfc3ee940ddb6d25045c6d3f756c4b2077a8128e171d5d165be170"
#guard dig Blake1_256 [hx "00000000000000000000000000000000000000000000000000000000000000000000000000000000000000000000000000000000000000"]
  = "dc980544f4181cc43505318e317cdfd4334dab81ae035a28818308867ce23060"
#guard dig Blake1_384 [hx "00"]
  = "10281f67e135e90ae8e882251a355510a719367ad70227b137343e1bc122015c29391e8545b5272d13a7c2879da3d807"
#guard dig Blake1_384 [hx "000000000000000000000000000000000000000000000000000000000000000000000000000000000000000000000000000000000000000000000000000000000000000000000000000000000000000000000000000000000000000000000000000000000000000000000000000000000000000000000000000000000000000000000000000000000000000000000000"]
  = "0b9845dd429566cdab772ba195d271effe2d0211f16991d766ba749447c5cde569780b2daa66c4b224a2ec2e5d09174c"
#guard dig Blake1_384 []
  = "c6cbd89c926ab525c242e6621f2f5fa73aa4afe3d9e24aed727faaadd6af38b620bdb623dd2b4788b1c8086984af8706"
#guard dig Blake1_384 [hx "54686520717569636b2062726f776e20666f78206a756d7073206f76657220746865206c617a7920646f67"]
  = "67c9e8ef665d11b5b57a1d99c96adffb3034d8768c0827d1c6e60b54871e8673651767a2c6c43d0ba2a9bb2500227406"
#guard dig Blake1_384 [hx "54686520717569636b2062726f776e20666f78206a756d7073206f76657220746865206c617a7920646f672e"]
  = "73c9a55749f42ace6caf83a0e421b7b52ec473b7f6c48774cc6857d2f471b43c8f0e7b7e416c2df934713a4947ca27af"
#guard dig Blake1_384 [hx "54686520717569636b2062726f776e20666f78206a756d7073206f76657220746865206c617a7920646f6754686520717569636b2062726f776e20666f78206a756d7073206f76657220746865206c617a7920646f6754686520717569636b2062726f776e20666f78206a756d7073206f76657220746865206c617a7920646f67"]
  = "19443cc895a288c114416e192bb0c5504e33f1733d30e436e28afa942c5b047a860bc3113323614dd6e23a9e6917dde6"
#guard dig Blake1_384 [hx "000000000000000000000000000000000000000000000000000000000000000000000000000000000000000000000000000000000000000000000000000000000000000000000000000000000000000000000000000000000000000000000000000000000000000000000000000000"]
  = "b31ca9f558b9f2afdf5fbfaab3f64f956a3afeedcdca840b6add012a9ebb1ed756cf264b012d0f3d11ba2cbce63c74cc"
#guard dig Blake1_512 [hx "00"]
  = "97961587f6d970faba6d2478045de6d1fabd09b61ae50932054d52bc29d31be4ff9102b9f69e2bbdb83be13d4b9c06091e5fa0b48bd081b634058be0ec49beb3"
#guard dig Blake1_512 [hx "000000000000000000000000000000000000000000000000000000000000000000000000000000000000000000000000000000000000000000000000000000000000000000000000000000000000000000000000000000000000000000000000000000000000000000000000000000000000000000000000000000000000000000000000000000000000000000000000"]
  = "313717d608e9cf758dcb1eb0f0c3cf9fc150b2d500fb33f51c52afc99d358a2f1374b8a38bba7974e7f6ef79cab16f22ce1e649d6e01ad9589c213045d545dde"
#guard dig Blake1_512 []
  = "a8cfbbd73726062df0c6864dda65defe58ef0cc52a5625090fa17601e1eecd1b628e94f396ae402a00acc9eab77b4d4c2e852aaaa25a636d80af3fc7913ef5b8"
#guard dig Blake1_512 [hx "54686520717569636b2062726f776e20666f78206a756d7073206f76657220746865206c617a7920646f67"]
  = "1f7e26f63b6ad25a0896fd978fd050a1766391d2fd0471a77afb975e5034b7ad2d9ccf8dfb47abbbe656e1b82fbc634ba42ce186e8dc5e1ce09a885d41f43451"
#guard dig Blake1_512 [hx "54686520717569636b2062726f776e20666f78206a756d7073206f76657220746865206c617a7920646f672e"]
  = "9adee69086e3ec1f7e8bba754ac96135bb9abe283413a90a965d0cc5f6fb78a4b1ae49b3c5534d0bed63b20731e551e8e5d3119f65fd2f009405953aa93dec67"
#guard dig Blake1_512 [hx "54686520717569636b2062726f776e20666f78206a756d7073206f76657220746865206c617a7920646f6754686520717569636b2062726f776e20666f78206a756d7073206f76657220746865206c617a7920646f6754686520717569636b2062726f776e20666f78206a756d7073206f76657220746865206c617a7920646f67"]
  = "0040d5f28a7a2c11c38d2f5628311141e38270f065b9e2968c3af459cedee8e0995aaf96afc8d12d58094ded014214c105c6ed79de7c469f3ad38c568ae6cc91"
#guard dig Blake1_512 [hx "000000000000000000000000000000000000000000000000000000000000000000000000000000000000000000000000000000000000000000000000000000000000000000000000000000000000000000000000000000000000000000000000000000000000000000000000000000"]
  = "125695c5cc01de48d8b107c101778fc447a55ad3440a17dc153c6c652faecdbf017aed68f4f48826b9dfc413ef8f14ae7dfd8b74a0afcf47b61ce7dcb1058976"

end Verif.Test
