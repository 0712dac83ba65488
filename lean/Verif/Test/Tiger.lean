import Verif.Model.Tiger
import Verif.Test.Util

/-! Vectors from tests/test_tiger.cpp (generated by tools/mktest.py). -/

namespace Verif.Test
open Model.Tiger

#guard dig Tiger1_192 [hx ""]
  = "3293ac630c13f0245f92bbb1766e16167a4e58492dde73f3"
#guard dig Tiger1_192 [hx "61"]
  = "77befbef2e7ef8ab2ec8f93bf587a7fc613e247f5f247809"
#guard dig Tiger1_192 [hx "616263"]
  = "2aab1484e8c158f2bfb8c5ff41b57a525129131c957b5f93"
#guard dig Tiger1_192 [hx "6d65737361676520646967657374"]
  = "d981f8cb78201a950dcf3048751e441c517fca1aa55a29f6"
#guard dig Tiger1_192 [hx "6162636465666768696a6b6c6d6e6f707172737475767778797a"]
  = "1714a472eee57d30040412bfcc55032a0b11602ff37beee9"
#guard dig Tiger1_192 [hx "6162636462636465636465666465666765666768666768696768696a68696a6b696a6b6c6a6b6c6d6b6c6d6e6c6d6e6f6d6e6f706e6f7071"]
  = "0f7bf9a19b9c58f2b7610df7e84f0ac3a71c631e7b53f78e"
#guard dig Tiger1_192 [hx "4142434445464748494a4b4c4d4e4f505152535455565758595a6162636465666768696a6b6c6d6e6f707172737475767778797a30313233343536373839"]
  = "8dcea680a17583ee502ba38a3c368651890ffbccdc49a8cc"
#guard dig Tiger1_192 [hx "3132333435363738393031323334353637383930313233343536373839303132333435363738393031323334353637383930313233343536373839303132333435363738393031323334353637383930"]
  = "1c14795529fd9f207a958f84c52f11e887fa0cabdfd91bfd"
#guard dig Tiger1_192 []
  = "3293ac630c13f0245f92bbb1766e16167a4e58492dde73f3"
#guard dig Tiger1_192 [hx "54686520717569636b2062726f776e20666f78206a756d7073206f76657220746865206c617a7920646f67"]
  = "6d12a41e72e644f017b6f0e2f7b44c6285f06dd5d2c5b075"
#guard dig Tiger1_192 [hx "54686520717569636b2062726f776e20666f78206a756d7073206f76657220746865206c617a7920646f672e"]
  = "0bf46f237681b35301d46aa08d43c449643408521a263929"
#guard dig Tiger1_192 [hx "54686520717569636b2062726f776e20666f78206a756d7073206f76657220746865206c617a7920646f6754686520717569636b2062726f776e20666f78206a756d7073206f76657220746865206c617a7920646f6754686520717569636b2062726f776e20666f78206a756d7073206f76657220746865206c617a7920646f67"]
  = "b68a2822f8f79df4dd12cd7261bce1a022297af27958d304"
#guard dig Tiger1_192 [hx "00000000000000000000000000000000000000000000000000000000000000000000000000000000000000000000000000000000000000"]
  = "a4ee394b2a208e9b0a74c6d57568e470f6e658c44689fc63"
#guard dig Tiger2_192 [hx ""]
  = "4441be75f6018773c206c22745374b924aa8313fef919f41"
#guard dig Tiger2_192 [hx "61"]
  = "67e6ae8e9e968999f70a23e72aeaa9251cbc7c78a7916636"
#guard dig Tiger2_192 [hx "616263"]
  = "f68d7bc5af4b43a06e048d7829560d4a9415658bb0b1f3bf"
#guard dig Tiger2_192 [hx "6d65737361676520646967657374"]
  = "e29419a1b5fa259de8005e7de75078ea81a542ef2552462d"
#guard dig Tiger2_192 [hx "6162636465666768696a6b6c6d6e6f707172737475767778797a"]
  = "f5b6b6a78c405c8547e91cd8624cb8be83fc804a474488fd"
#guard dig Tiger2_192 [hx "6162636462636465636465666465666765666768666768696768696a68696a6b696a6b6c6a6b6c6d6b6c6d6e6c6d6e6f6d6e6f706e6f7071"]
  = "a6737f3997e8fbb63d20d2df88f86376b5fe2d5ce36646a9"
#guard dig Tiger2_192 [hx "4142434445464748494a4b4c4d4e4f505152535455565758595a6162636465666768696a6b6c6d6e6f707172737475767778797a30313233343536373839"]
  = "ea9ab6228cee7b51b77544fca6066c8cbb5bbae6319505cd"
#guard dig Tiger2_192 [hx "3132333435363738393031323334353637383930313233343536373839303132333435363738393031323334353637383930313233343536373839303132333435363738393031323334353637383930"]
  = "d85278115329ebaa0eec85ecdc5396fda8aa3a5820942fff"
#guard dig Tiger2_192 []
  = "4441be75f6018773c206c22745374b924aa8313fef919f41"
#guard dig Tiger2_192 [hx "54686520717569636b2062726f776e20666f78206a756d7073206f76657220746865206c617a7920646f67"]
  = "976abff8062a2e9dcea3a1ace966ed9c19cb85558b4976d8"
#guard dig Tiger2_192 [hx "54686520717569636b2062726f776e20666f78206a756d7073206f76657220746865206c617a7920646f672e"]
  = "7c19bd4093a3106de04cc99f125ee6ac8d52ade31ae85fc5"
#guard dig Tiger2_192 [hx "54686520717569636b2062726f776e20666f78206a756d7073206f76657220746865206c617a7920646f6754686520717569636b2062726f776e20666f78206a756d7073206f76657220746865206c617a7920646f6754686520717569636b2062726f776e20666f78206a756d7073206f76657220746865206c617a7920646f67"]
  = "2ba7384e75cb63b58a52964208fdefc692b932a00c04bcfb"
#guard dig Tiger2_192 [hx "00000000000000000000000000000000000000000000000000000000000000000000000000000000000000000000000000000000000000"]
  = "f67d481b1789e12356fb1a503bdc210e1e9ae3a6c07de567"

end Verif.Test
