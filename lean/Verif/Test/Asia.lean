import Verif.Model.HAS160
import Verif.Model.SM3
import Verif.Test.Util

/-! Vectors from tests/test_has_160.cpp, tests/test_sm3.cpp (generated by tools/mktest.py). -/

namespace Verif.Test
open Model.HAS160 Model.SM3

#guard dig HAS_160 [hx ""]
  = "307964ef34151d37c8047adec7ab50f4ff89762d"
#guard dig HAS_160 [hx "61"]
  = "4872bcbc4cd0f0a9dc7c2f7045e5b43b6c830db8"
#guard dig HAS_160 [hx "616263"]
  = "975e810488cf2a3d49838478124afce4b1c78804"
#guard dig HAS_160 [hx "6d65737361676520646967657374"]
  = "2338dbc8638d31225f73086246ba529f96710bc6"
#guard dig HAS_160 [hx "6162636465666768696a6b6c6d6e6f707172737475767778797a"]
  = "596185c9ab6703d0d0dbb98702bc0f5729cd1d3c"
#guard dig HAS_160 [hx "4142434445464748494a4b4c4d4e4f505152535455565758595a6162636465666768696a6b6c6d6e6f707172737475767778797a30313233343536373839"]
  = "cb5d7efbca2f02e0fb7167cabb123af5795764e5"
#guard dig HAS_160 (List.replicate 8 (hx "31323334353637383930"))
  = "07f05c8c0773c55ca3a5a695ce6aca4c438911b5"
#guard dig HAS_160 []
  = "307964ef34151d37c8047adec7ab50f4ff89762d"
#guard dig HAS_160 [hx "54686520717569636b2062726f776e20666f78206a756d7073206f76657220746865206c617a7920646f67"]
  = "abe2b8c711f9e8579aa8eb40757a27b4ef14a7ea"
#guard dig HAS_160 [hx "54686520717569636b2062726f776e20666f78206a756d7073206f76657220746865206c617a7920646f672e"]
  = "5f335d8b5debe5618e1e7b4f267eb8a6dececedb"
#guard dig HAS_160 [hx "54686520717569636b2062726f776e20666f78206a756d7073206f76657220746865206c617a7920646f6754686520717569636b2062726f776e20666f78206a756d7073206f76657220746865206c617a7920646f6754686520717569636b2062726f776e20666f78206a756d7073206f76657220746865206c617a7920646f67"]
  = "8a2fb9250c69ef66db41b65f06649554f565c24b"
#guard dig HAS_160 [hx "00000000000000000000000000000000000000000000000000000000000000000000000000000000000000000000000000000000000000"]
  = "5d8db63ebe00ecca2ec655ffcf4c2b0c585cf3e8"
#guard dig SM3 [hx "616263"]
  = "66c7f0f462eeedd9d1f2d46bdc10e4e24167c4875cf2f7a2297da02b8f4ba8e0"
#guard dig SM3 (List.replicate 16 (hx "61626364"))
  = "debe9ff92275b8a138604889c18e5a4d6fdb70e5387e5765293dcba39c0c5732"
#guard dig SM3 [hx "0090414c494345313233405941484f4f2e434f4d787968b4fa32c3fd2417842e73bbfeff2f3c848b6831d7e0ec65228b3937e49863e4c6d3b23b0c849cf84241484bfe48f61d59a5b16ba06e6e12d1da27c5249a421debd61b62eab6746434ebc3cc315e32220b3badd50bdc4c4e6c147fedd43d0680512bcbb42c07d47349d2153b70c4e5d7fdfcbfa36ea1a85841b9e46e09a20ae4c7798aa0f119471bee11825be46202bb79e2a5844495e97c04ff4df2548a7c0240f88f1cd4e16352a73c17b7f16f07353e53a176d684a9fe0c6bb798e857"]
  = "f4a38489e32b45b6f876e3ac2168ca392362dc8f23459c1d1146fc3dbfb7bc9a"
#guard dig SM3 [hx "f4a38489e32b45b6f876e3ac2168ca392362dc8f23459c1d1146fc3dbfb7bc9a6d65737361676520646967657374"]
  = "b524f552cd82b8b028476e005c377fb19a87e6fc682d48bb5d42e3d9b9effe76"
#guard dig SM3 [hx "0090414c494345313233405941484f4f2e434f4d00000000000000000000000000000000000000000000000000000000000000000000e78bcd09746c202378a7e72b12bce00266b9627ecb0b5a25367ad1ad4cc6242b00cdb9ca7f1e6b0441f658343f4b10297c0ef9b6491082400a62e7a7485735fadd013de74da65951c4d76dc89220d5f7777a611b1c38bae260b175951dc8060c2b3e0165961645281a8626607b917f657d7e9382f1ea5cd931f40f6627f357542653b201686522130d590fb8de635d8fca715cc6bf3d05bef3f75da5d543454448166612"]
  = "26352af82ec19f207bbc6f9474e11e90ce0f7ddace03b27f801817e897a81fd5"
#guard dig SM3 [hx "26352af82ec19f207bbc6f9474e11e90ce0f7ddace03b27f801817e897a81fd56d65737361676520646967657374"]
  = "ad673cbda311417129a9eaa5f9ab1aa1633ad47718a84dfd46c17c6fa0aa3b12"
#guard dig SM3 [hx "0090414c494345313233405941484f4f2e434f4d787968b4fa32c3fd2417842e73bbfeff2f3c848b6831d7e0ec65228b3937e49863e4c6d3b23b0c849cf84241484bfe48f61d59a5b16ba06e6e12d1da27c5249a421debd61b62eab6746434ebc3cc315e32220b3badd50bdc4c4e6c147fedd43d0680512bcbb42c07d47349d2153b70c4e5d7fdfcbfa36ea1a85841b9e46e09a23099093bf3c137d8fcbbcdf4a2ae50f3b0f216c3122d79425fe03a45dbfe16553df79e8dac1cf0ecbaa2f2b49d51a4b387f2efaf482339086a27a8e05baed98b"]
  = "e4d1d0c3ca4c7f11bc8ff8cb3f4c02a78f108fa098e51a668487240f75e20f31"
#guard dig SM3 [hx "008842494c4c343536405941484f4f2e434f4d787968b4fa32c3fd2417842e73bbfeff2f3c848b6831d7e0ec65228b3937e49863e4c6d3b23b0c849cf84241484bfe48f61d59a5b16ba06e6e12d1da27c5249a421debd61b62eab6746434ebc3cc315e32220b3badd50bdc4c4e6c147fedd43d0680512bcbb42c07d47349d2153b70c4e5d7fdfcbfa36ea1a85841b9e46e09a2245493d446c38d8cc0f118374690e7df633a8a4bfb3329b5ece604b2b4f37f4353c0869f4b9e17773de68fec45e14904e0dea45bf6cecf9918c85ea047c60a4c"]
  = "6b4b6d0e276691bd4a11bf72f4fb501ae309fdacb72fa6cc336e6656119abd67"
#guard dig SM3 [hx "47c826534dc2f6f1fbf28728dd658f21e174f48179acef2900f8b7f566e40905e4d1d0c3ca4c7f11bc8ff8cb3f4c02a78f108fa098e51a668487240f75e20f316b4b6d0e276691bd4a11bf72f4fb501ae309fdacb72fa6cc336e6656119abd676cb5633816f4dd560b1dec458310cbcc6856c09505324a6d23150c408f162bf00d6fcf62f1036c0a1b6daccf57399223a65f7d7bf2d9637e5bbbeb857961bf1a1799b2a2c778295300d9a2325c686129b8f2b5337b3dcf4514e8bbc19d900ee554c9288c82733efdf7808ae7f27d0e732f7c73a7d9ac98b7d8740a91d0db3cf4"]
  = "ff49d95bd45fce99ed54a8ad7a7091109f51394442916bd154d1de4379d97647"
#guard dig SM3 [hx "022af86efe732cf12ad0e09a1f2556cc650d9ccce3e249866bbb5c6846a4c4a295ff49d95bd45fce99ed54a8ad7a7091109f51394442916bd154d1de4379d97647"]
  = "284c8f198f141b502e81250f1581c7e9eeb4ca6990f9e02df388b45471f5bc5c"
#guard dig SM3 [hx "032af86efe732cf12ad0e09a1f2556cc650d9ccce3e249866bbb5c6846a4c4a295ff49d95bd45fce99ed54a8ad7a7091109f51394442916bd154d1de4379d97647"]
  = "23444daf8ed7534366cb901c84b3bdbb63504f4065c1116c91a4c00697e6cf7a"
#guard dig SM3 [hx "0090414c494345313233405941484f4f2e434f4d00000000000000000000000000000000000000000000000000000000000000000000e78bcd09746c202378a7e72b12bce00266b9627ecb0b5a25367ad1ad4cc6242b00cdb9ca7f1e6b0441f658343f4b10297c0ef9b6491082400a62e7a7485735fadd013de74da65951c4d76dc89220d5f7777a611b1c38bae260b175951dc8060c2b3e000000000011f9193388f1f901ccc857bf49cfc065fb38b9069caae6d5afc3592f004555122aac0075f42e0a8bbd2c0665c789120df19d77b4e3ee4712f598040415"]
  = "ecf0080215977b2e5d6d61b98a99442f03e8803dc39e349f8dca5621a9acdf2b"
#guard dig SM3 [hx "0090414c494345313233405941484f4f2e434f4d00000000000000000000000000000000000000000000000000000000000000000000e78bcd09746c202378a7e72b12bce00266b9627ecb0b5a25367ad1ad4cc6242b00cdb9ca7f1e6b0441f658343f4b10297c0ef9b6491082400a62e7a7485735fadd013de74da65951c4d76dc89220d5f7777a611b1c38bae260b175951dc8060c2b3e000000000011f9193388f1f901ccc857bf49cfc065fb38b9069caae6d5afc3592f004555122aac0075f42e0a8bbd2c0665c789120df19d77b4e3ee4712f598040415"]
  = "ecf0080215977b2e5d6d61b98a99442f03e8803dc39e349f8dca5621a9acdf2b"
#guard dig SM3 [hx "008842494c4c343536405941484f4f2e434f4d00000000000000000000000000000000000000000000000000000000000000000000e78bcd09746c202378a7e72b12bce00266b9627ecb0b5a25367ad1ad4cc6242b00cdb9ca7f1e6b0441f658343f4b10297c0ef9b6491082400a62e7a7485735fadd013de74da65951c4d76dc89220d5f7777a611b1c38bae260b175951dc8060c2b3e0034297dd83ab14d5b393b6712f32b2f2e938d4690b095424b89da880c52d4a7d90199bbf11ac95a0ea34bbd00ca50b93ec24acb68335d20ba5dcfe3b33bdbd2b62d"]
  = "557bad30e183559aeec3b2256e1c7c11f870d22b165d015acf9465b09b87b527"
#guard dig SM3 [hx "00dadd087406221d657bc3fa79ff329bb022e9cb7ddfcfccfe277be8cd4ae9b954ecf0080215977b2e5d6d61b98a99442f03e8803dc39e349f8dca5621a9acdf2b557bad30e183559aeec3b2256e1c7c11f870d22b165d015acf9465b09b87b5270181076543ed19058c38b313d739921d46b80094d961a13673d4a5cf8c7159e30401d8cfff7ca27a01a2e88c18673748fde9a74c1f9b45646eca0997293c15c34dd8002a4832b4dcd399baab3fffe7dd6ce6ed68cc43ffa5f2623b9bd04e468d322a2a0016599bb52ed9eafad01cfa453cf3052ed60184d2eecfd42b52db74110b984c23"]
  = "e05fe287b73b0ce6639524cd86694311562914f4f6a3424101d885f88b05369c"
#guard dig SM3 [hx "0201f0464b1e81684e5ed6ef281b55624ef46caa3b2d37484372d91610b698252cc9e05fe287b73b0ce6639524cd86694311562914f4f6a3424101d885f88b05369c"]
  = "4eb47d28ad3906d6244d01e0f6aec73b0b51de1574c13798184e4833dbae295a"
#guard dig SM3 [hx "0301f0464b1e81684e5ed6ef281b55624ef46caa3b2d37484372d91610b698252cc9e05fe287b73b0ce6639524cd86694311562914f4f6a3424101d885f88b05369c"]
  = "588aa67064f24dc27ccaa1fab7e27dff811d500ad7ef2fb8f69ddf48cc0fecb7"
#guard dig SM3 [hx "57e7b63623fae5f08cda468e872a20afa03ded41bf140377656e6372797074696f6e207374616e646172640e040dc83af31a67991f2b01ebf9efd8881f0a0493000603"]
  = "6afb3bcebd76f82b252ce5eb25b5799686902b8cf2fd87536e55ef7603b09e7c"
#guard dig SM3 [hx "57e7b63623fae5f08cda468e872a20afa03ded41bf140377656e6372797074696f6e207374616e646172640e040dc83af31a67991f2b01ebf9efd8881f0a0493000603"]
  = "6afb3bcebd76f82b252ce5eb25b5799686902b8cf2fd87536e55ef7603b09e7c"
#guard dig SM3 [hx "64d20d27d0632957f8028c1e024f6b02edf23102a566c932ae8bd613a8e865fe656e6372797074696f6e207374616e6461726458d225eca784ae300a81a2d48281a828e1cedf11c4219099840265375077bf78"]
  = "9c3d7360c30156fab7c80a0276712da9d8094a634b766d3a285e07480653426d"
#guard dig SM3 [hx "01c6271b31f6be396a4166c0616cf4a8acda5bef4dcbf2dd42656e6372797074696f6e207374616e646172640147af35dfa1bfe2f161521bcf59bab83564868d9295881735"]
  = "f0a41f6f48ac723cecfc4b767299a5e25c0641679fbd2d4d20e9ffd5b9f0dab8"
#guard dig SM3 [hx "0083e628cf701ee3141e8873fe55936adf24963f5dc9c6480566c80f8a1d8cc51b656e6372797074696f6e207374616e6461726401524c647f0c0412defd468bda3ae0e5a80fcc8f5c990fee11602929232dcd9f36"]
  = "73a48625d3758fa37b3eab80e9cfcaba665e3199ea15a1fa8189d96f579125e4"
#guard dig SM3 []
  = "1ab21d8355cfa17f8e61194831e81a8f22bec8c728fefb747ed035eb5082aa2b"
#guard dig SM3 [hx "54686520717569636b2062726f776e20666f78206a756d7073206f76657220746865206c617a7920646f67"]
  = "5fdfe814b8573ca021983970fc79b2218c9570369b4859684e2e4c3fc76cb8ea"
#guard dig SM3 [hx "54686520717569636b2062726f776e20666f78206a756d7073206f76657220746865206c617a7920646f672e"]
  = "2a41ce91b59a535379c0c0471a71abf8a268e62fa2f1281ebe93ed68a742dc3d"
#guard dig SM3 [hx "54686520717569636b2062726f776e20666f78206a756d7073206f76657220746865206c617a7920646f6754686520717569636b2062726f776e20666f78206a756d7073206f76657220746865206c617a7920646f6754686520717569636b2062726f776e20666f78206a756d7073206f76657220746865206c617a7920646f67"]
  = "806e7de3d0e9196246d0966b91ca92916532ebdcf5cee8958dca4cf37600aebc"
#guard dig SM3 [hx "00000000000000000000000000000000000000000000000000000000000000000000000000000000000000000000000000000000000000"]
  = "2cdce3d697af3716a9b3cdf068b43e513846e17cc9fd427929aad70165f21dda"

end Verif.Test
