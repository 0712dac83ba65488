import Verif.Model.SHA1
import Verif.Test.Util

/-! Vectors from tests/test_sha1.cpp (generated by tools/mktest.py). -/

namespace Verif.Test
open Model.SHA1

#guard dig SHA1 [hx "616263"]
  = "a9993e364706816aba3e25717850c26c9cd0d89d"
#guard dig SHA1 [hx "6162636462636465636465666465666765666768666768696768696a68696a6b696a6b6c6a6b6c6d6b6c6d6e6c6d6e6f6d6e6f706e6f7071"]
  = "84983e441c3bd26ebaae4aa1f95129e5e54670f1"
#guard dig SHA1 (List.replicate 10 (hx "30313233343536373031323334353637303132333435363730313233343536373031323334353637303132333435363730313233343536373031323334353637"))
  = "dea356a2cddd90c7a7ecedc5ebb563934f460452"
#guard dig SHA1 [hx "5e"]
  = "5e6f80a34a9798cafc6a5db96cc57ba4c4db59c2"
#guard dig SHA1 [hx "9a7dfdf1ecead06ed646aa55fe757146"]
  = "82abff6605dbe1c17def12a394fa22a82b544a35"
#guard dig SHA1 [hx "f78f92141bcd170ae89b4fba15a1d59f3fd84d223c9251bdacbbae61d05ed115a06a7ce117b7beead24421ded9c32592bd57edeae39c39fa1fe8946a84d0cf1f7beead1713e2e0959897347f67c80b0400c209815d6b10a683836fd5562a56cab1a28e81b6576654631cf16566b86e3b33a108b05307c00aff14a768ed7350606a0f85e6a91d396f5b5cbe577f9b38807c7d523d6d792f6ebc24a4ecf2b3a427cdbbfb"]
  = "cb0082c8f197d260991ba6a460e76e202bad27b3"
#guard dig SHA1 []
  = "da39a3ee5e6b4b0d3255bfef95601890afd80709"
#guard dig SHA1 [hx "54686520717569636b2062726f776e20666f78206a756d7073206f76657220746865206c617a7920646f67"]
  = "2fd4e1c67a2d28fced849ee1bb76e7391b93eb12"
#guard dig SHA1 [hx "54686520717569636b2062726f776e20666f78206a756d7073206f76657220746865206c617a7920646f672e"]
  = "408d94384216f890ff7a0c3528e8bed1e0b01621"
#guard dig SHA1 [hx "54686520717569636b2062726f776e20666f78206a756d7073206f76657220746865206c617a7920646f6754686520717569636b2062726f776e20666f78206a756d7073206f76657220746865206c617a7920646f6754686520717569636b2062726f776e20666f78206a756d7073206f76657220746865206c617a7920646f67"]
  = "d42f858ad812fd986fd8dc7216af5f88bcaa1463"
#guard dig SHA1 [hx "00000000000000000000000000000000000000000000000000000000000000000000000000000000000000000000000000000000000000"]
  = "8e8832c642a6a38c74c17fc92ccedc266c108e6c"

end Verif.Test
