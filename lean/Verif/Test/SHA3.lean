import Verif.Model.SHA3
import Verif.Test.Util

/-! Vectors from tests/test_sha3.cpp (generated by tools/mktest.py). -/

namespace Verif.Test
open Model.SHA3

#guard dig SHA3_224 [hx ""]
  = "6b4e03423667dbb73b6e15454f0eb1abd4597f9a1b078e3f5b5a6bc7"
#guard dig SHA3_224 []
  = "6b4e03423667dbb73b6e15454f0eb1abd4597f9a1b078e3f5b5a6bc7"
#guard dig SHA3_224 (List.replicate 72 (hx "61"))
  = "0b98a46d4e243d8c5bfcdd957629fc435c671b15c0d195e39de8efd1"
#guard dig SHA3_224 [hx "54686520717569636b2062726f776e20666f78206a756d7073206f76657220746865206c617a7920646f67"]
  = "d15dadceaa4d5d7bb3b48f446421d542e08ad8887305e28d58335795"
#guard dig SHA3_224 [hx "54686520717569636b2062726f776e20666f78206a756d7073206f76657220746865206c617a7920646f672e"]
  = "2d0708903833afabdd232a20201176e8b58c5be8a6fe74265ac54db0"
#guard dig SHA3_224 [hx "54686520717569636b2062726f776e20666f78206a756d7073206f76657220746865206c617a7920646f6754686520717569636b2062726f776e20666f78206a756d7073206f76657220746865206c617a7920646f6754686520717569636b2062726f776e20666f78206a756d7073206f76657220746865206c617a7920646f67"]
  = "25f24a991d04586a87330f45e52fc8bdc22ec0d33ab95b2d8e05987c"
#guard dig SHA3_224 [hx "0000000000000000000000000000000000000000000000000000000000000000000000000000000000000000000000000000000000000000000000000000000000000000000000000000000000000000000000000000000000000000000000000000000000000000000000000000000000000000000000000000000000000000000000000000000000000000000000"]
  = "b6b709fdb9852b8c7439a33595d42dba2940f44c10c3ce09f8b6a87a"
#guard dig SHA3_256 [hx ""]
  = "a7ffc6f8bf1ed76651c14756a061d662f580ff4de43b49fa82d80a4b80f8434a"
#guard dig SHA3_256 []
  = "a7ffc6f8bf1ed76651c14756a061d662f580ff4de43b49fa82d80a4b80f8434a"
#guard dig SHA3_256 (List.replicate 72 (hx "61"))
  = "faf7e2ca748a48eff17f1f0c6b495ab3f2c3dd34c8d335aee79ceff5fe780a01"
#guard dig SHA3_256 [hx "54686520717569636b2062726f776e20666f78206a756d7073206f76657220746865206c617a7920646f67"]
  = "69070dda01975c8c120c3aada1b282394e7f032fa9cf32f4cb2259a0897dfc04"
#guard dig SHA3_256 [hx "54686520717569636b2062726f776e20666f78206a756d7073206f76657220746865206c617a7920646f672e"]
  = "a80f839cd4f83f6c3dafc87feae470045e4eb0d366397d5c6ce34ba1739f734d"
#guard dig SHA3_256 [hx "54686520717569636b2062726f776e20666f78206a756d7073206f76657220746865206c617a7920646f6754686520717569636b2062726f776e20666f78206a756d7073206f76657220746865206c617a7920646f6754686520717569636b2062726f776e20666f78206a756d7073206f76657220746865206c617a7920646f67"]
  = "8d1054aa828ad5c050aab35516aff6285a08b1cbdc1ccc312bd4b4d2ac423ad6"
#guard dig SHA3_256 [hx "000000000000000000000000000000000000000000000000000000000000000000000000000000000000000000000000000000000000000000000000000000000000000000000000000000000000000000000000000000000000000000000000000000000000000000000000000000000000000000000000000000000000000000000000000000"]
  = "7d080d7ba978a75c8a7d1f9be566c859084509c9c2b4928435c225d5777d98e3"
#guard dig SHA3_384 [hx ""]
  = "0c63a75b845e4f7d01107d852e4c2485c51a50aaaa94fc61995e71bbee983a2ac3713831264adb47fb6bd1e058d5f004"
#guard dig SHA3_384 []
  = "0c63a75b845e4f7d01107d852e4c2485c51a50aaaa94fc61995e71bbee983a2ac3713831264adb47fb6bd1e058d5f004"
#guard dig SHA3_384 (List.replicate 72 (hx "61"))
  = "36ed8cf277398426c25d4c8cdbf29dd22db8c1298ce34882a7bcc633d65b8db249c2bd6c64e5a4f2edc5a5fc5adc8140"
#guard dig SHA3_384 [hx "54686520717569636b2062726f776e20666f78206a756d7073206f76657220746865206c617a7920646f67"]
  = "7063465e08a93bce31cd89d2e3ca8f602498696e253592ed26f07bf7e703cf328581e1471a7ba7ab119b1a9ebdf8be41"
#guard dig SHA3_384 [hx "54686520717569636b2062726f776e20666f78206a756d7073206f76657220746865206c617a7920646f672e"]
  = "1a34d81695b622df178bc74df7124fe12fac0f64ba5250b78b99c1273d4b080168e10652894ecad5f1f4d5b965437fb9"
#guard dig SHA3_384 [hx "54686520717569636b2062726f776e20666f78206a756d7073206f76657220746865206c617a7920646f6754686520717569636b2062726f776e20666f78206a756d7073206f76657220746865206c617a7920646f6754686520717569636b2062726f776e20666f78206a756d7073206f76657220746865206c617a7920646f67"]
  = "bce1cba82694f64110464b677685ba62a3e410ea08e2b15e0d8b54e60fe1449574a41a97a4fee9daa158a51db4931af6"
#guard dig SHA3_384 [hx "00000000000000000000000000000000000000000000000000000000000000000000000000000000000000000000000000000000000000000000000000000000000000000000000000000000000000000000000000000000000000000000000000000000000000"]
  = "11c556552dda63418669716bad02e4125f4973f3ceea99ee50b6ff117e9f7a3fed0360abb5eff4ac8e954205c01981d2"
#guard dig SHA3_512 [hx ""]
  = "a69f73cca23a9ac5c8b567dc185a756e97c982164fe25859e0d1dcc1475c80a615b2123af1f5f94c11e3e9402c3ac558f500199d95b6d3e301758586281dcd26"
#guard dig SHA3_512 []
  = "a69f73cca23a9ac5c8b567dc185a756e97c982164fe25859e0d1dcc1475c80a615b2123af1f5f94c11e3e9402c3ac558f500199d95b6d3e301758586281dcd26"
#guard dig SHA3_512 (List.replicate 72 (hx "61"))
  = "a8ae722a78e10cbbc413886c02eb5b369a03f6560084aff566bd597bb7ad8c1ccd86e81296852359bf2faddb5153c0a7445722987875e74287adac21adebe952"
#guard dig SHA3_512 [hx "54686520717569636b2062726f776e20666f78206a756d7073206f76657220746865206c617a7920646f67"]
  = "01dedd5de4ef14642445ba5f5b97c15e47b9ad931326e4b0727cd94cefc44fff23f07bf543139939b49128caf436dc1bdee54fcb24023a08d9403f9b4bf0d450"
#guard dig SHA3_512 [hx "54686520717569636b2062726f776e20666f78206a756d7073206f76657220746865206c617a7920646f672e"]
  = "18f4f4bd419603f95538837003d9d254c26c23765565162247483f65c50303597bc9ce4d289f21d1c2f1f458828e33dc442100331b35e7eb031b5d38ba6460f8"
#guard dig SHA3_512 [hx "54686520717569636b2062726f776e20666f78206a756d7073206f76657220746865206c617a7920646f6754686520717569636b2062726f776e20666f78206a756d7073206f76657220746865206c617a7920646f6754686520717569636b2062726f776e20666f78206a756d7073206f76657220746865206c617a7920646f67"]
  = "3cda341b539bd2e963e0221fc022b9411ee15dbb2fb64a96a1a75d233c1f34566ddf4a8879f490ea6f59b538155fa38c803f8e69d9ef4fd1ecd9e52744690aa3"
#guard dig SHA3_512 [hx "0000000000000000000000000000000000000000000000000000000000000000000000000000000000000000000000000000000000000000000000000000000000000000000000"]
  = "cd87417194c917561a59c7f2eb4b95145971e32e8e4ef3b23b0f190bfd29e3692cc7975275750a27df95d5c6a99b7a341e1b8a38a750a51aca5b77bae41fbbfc"

end Verif.Test
