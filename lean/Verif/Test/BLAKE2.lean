import Verif.Model.BLAKE2
import Verif.Test.Util

/-! Vectors from tests/test_blake2.cpp, tests/test_blake2s.cpp (generated by tools/mktest.py). -/

namespace Verif.Test
open Model.BLAKE2

#guard dig Blake2 [hx "616263"]
  = "ba80a53f981c4d0d6a2797b69f12f6e94c212f14685ac4b74b12bb6fdbffa2d17d87c5392aab792dc252d5de4533cc9518d38aa8dbf1925ab92386edd4009923"
#guard dig Blake2 []
  = "786a02f742015903c6c6fd852552d272912f4740e15847618a86e217f71f5419d25e1031afee585313896444934eb04b903a685b1448b755d56f701afe9be2ce"
#guard dig Blake2 [hx "54686520717569636b2062726f776e20666f78206a756d7073206f76657220746865206c617a7920646f67"]
  = "a8add4bdddfd93e4877d2746e62817b116364a1fa7bc148d95090bc7333b3673f82401cf7aa2e4cb1ecd90296e3f14cb5413f8ed77be73045b13914cdcd6a918"
#guard dig Blake2 [hx "54686520717569636b2062726f776e20666f78206a756d7073206f76657220746865206c617a7920646f672e"]
  = "87af9dc4afe5651b7aa89124b905fd214bf17c79af58610db86a0fb1e0194622a4e9d8e395b352223a8183b0d421c0994b98286cbf8c68a495902e0fe6e2bda2"
#guard dig Blake2 [hx "54686520717569636b2062726f776e20666f78206a756d7073206f76657220746865206c617a7920646f6754686520717569636b2062726f776e20666f78206a756d7073206f76657220746865206c617a7920646f6754686520717569636b2062726f776e20666f78206a756d7073206f76657220746865206c617a7920646f67"]
  = "15266a69c93c7b0db22fbb8b1f0846cfcf5f4f0a2d4bfe57a75a82aff2c22f0f688b16109e110279981b5fbaa02ad82ea9990423b13aa7124411ad8eae9be21a"
#guard dig Blake2s [hx "616263"]
  = "508c5e8c327c14e2e1a72ba34eeb452f37458b209ed63a294d999b4c86675982"
#guard dig Blake2s []
  = "69217a3079908094e11121d042354a7c1f55b6482ca1a51e1b250dfd1ed0eef9"
#guard dig Blake2s [hx "54686520717569636b2062726f776e20666f78206a756d7073206f76657220746865206c617a7920646f67"]
  = "606beeec743ccbeff6cbcdf5d5302aa855c256c29b88c8ed331ea1a6bf3c8812"
#guard dig Blake2s [hx "54686520717569636b2062726f776e20666f78206a756d7073206f76657220746865206c617a7920646f672e"]
  = "95bca6e1b761dca1323505cc629949a0e03edf11633cc7935bd8b56f393afcf2"
#guard dig Blake2s [hx "54686520717569636b2062726f776e20666f78206a756d7073206f76657220746865206c617a7920646f6754686520717569636b2062726f776e20666f78206a756d7073206f76657220746865206c617a7920646f6754686520717569636b2062726f776e20666f78206a756d7073206f76657220746865206c617a7920646f67"]
  = "512c6a77330f65b279a42f7a30dddb3793367cc2a73bca12c0dff3a910c38660"

end Verif.Test
