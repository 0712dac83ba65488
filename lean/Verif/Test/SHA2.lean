import Verif.Model.SHA2
import Verif.Test.Util

/-! Vectors from tests/test_sha2_224.cpp, tests/test_sha2_256.cpp, tests/test_sha2_384.cpp, tests/test_sha2_512.cpp, tests/test_sha2_512_224.cpp, tests/test_sha2_512_256.cpp (generated by tools/mktest.py). -/

namespace Verif.Test
open Model.SHA2

#guard dig SHA2_224 [hx "616263"]
  = "23097d223405d8228642a477bda255b32aadbce4bda0b3f7e36c9da7"
#guard dig SHA2_224 [hx "6162636462636465636465666465666765666768666768696768696a68696a6b696a6b6c6a6b6c6d6b6c6d6e6c6d6e6f6d6e6f706e6f7071"]
  = "75388b16512776cc5dba5da1fd890150b0c6455cb4f58b1952522525"
#guard dig SHA2_224 (List.replicate 10 (hx "30313233343536373031323334353637303132333435363730313233343536373031323334353637303132333435363730313233343536373031323334353637"))
  = "567f69f168cd7844e65259ce658fe7aadfa25216e68eca0eb7ab8262"
#guard dig SHA2_224 [hx "07"]
  = "00ecd5f138422b8ad74c9799fd826c531bad2fcabc7450bee2aa8c2a"
#guard dig SHA2_224 [hx "18804005dd4fbd1556299d6f9d93df62"]
  = "df90d78aa78821c99b40ba4c966921accd8ffb1e98ac388e56191db1"
#guard dig SHA2_224 [hx "55b210079c61b53add520622d1ac97d5cdbe8cb33aa0ae344517bee4d7ba09abc8533c5250887a43bebbac906c2e1837f26b36a59ae3be7814d506896b718b2a383ecdac16b96125553f416ff32c6674c74599a9005386d9ce1112245f48ee470d396c1ed63b92670ca56ec84deea814b6135eca54392bdedb9489bc9b875a8baf0dc1ae785736914ab7daa264bc079d269f2c0d7eddd810a426145a0776f67c878273"]
  = "0b31894ec8937ad9b91bdfbcba294d9adefaa18e09305e9f20d5c3a4"
#guard dig SHA2_224 []
  = "d14a028c2a3a2bc9476102bb288234c415a2b01f828ea62ac5b3e42f"
#guard dig SHA2_224 [hx "54686520717569636b2062726f776e20666f78206a756d7073206f76657220746865206c617a7920646f67"]
  = "730e109bd7a8a32b1cb9d9a09aa2325d2430587ddbc0c38bad911525"
#guard dig SHA2_224 [hx "54686520717569636b2062726f776e20666f78206a756d7073206f76657220746865206c617a7920646f672e"]
  = "619cba8e8e05826e9b8c519c0a5c68f4fb653e8a3d8aa04bb2c8cd4c"
#guard dig SHA2_224 [hx "54686520717569636b2062726f776e20666f78206a756d7073206f76657220746865206c617a7920646f6754686520717569636b2062726f776e20666f78206a756d7073206f76657220746865206c617a7920646f6754686520717569636b2062726f776e20666f78206a756d7073206f76657220746865206c617a7920646f67"]
  = "6d2713ab2f16295926fddb9cc3d06c915858ad898396cc886155e244"
#guard dig SHA2_224 [hx "00000000000000000000000000000000000000000000000000000000000000000000000000000000000000000000000000000000000000"]
  = "7142c3964c75895cc3d1bbdfc851e167a7fdbf2e0c0f2e7212bfd9f5"
#guard dig SHA2_256 [hx "616263"]
  = "ba7816bf8f01cfea414140de5dae2223b00361a396177a9cb410ff61f20015ad"
#guard dig SHA2_256 [hx "6162636462636465636465666465666765666768666768696768696a68696a6b696a6b6c6a6b6c6d6b6c6d6e6c6d6e6f6d6e6f706e6f7071"]
  = "248d6a61d20638b8e5c026930c3e6039a33ce45964ff2167f6ecedd419db06c1"
#guard dig SHA2_256 (List.replicate 10 (hx "30313233343536373031323334353637303132333435363730313233343536373031323334353637303132333435363730313233343536373031323334353637"))
  = "594847328451bdfa85056225462cc1d867d877fb388df0ce35f25ab5562bfbb5"
#guard dig SHA2_256 [hx "19"]
  = "68aa2e2ee5dff96e3355e6c7ee373e3d6a4e17f75f9518d843709c0c9bc3e3d4"
#guard dig SHA2_256 [hx "e3d72570dcdd787ce3887ab2cd684652"]
  = "175ee69b02ba9b58e2b0a5fd13819cea573f3940a94f825128cf4209beabb4e8"
#guard dig SHA2_256 [hx "8326754e2277372f4fc12b20527afef04d8a056971b11ad57123a7c137760000d7bef6f3c1f7a9083aa39d810db310777dab8b1e7f02b84a26c773325f8b2374de7a4b5a58cb5c5cf35bcee6fb946e5bd694fa593a8beb3f9d6592ecedaa66ca82a29d0c51bcf9336230e5d784e4c0a43f8d79a30a165cbabe452b774b9c7109a97d138f129228966f6c0adc106aad5a9fdd30825769b2c671af6759df28eb393d54d6"]
  = "97dbca7df46d62c8a422c941dd7e835b8ad3361763f7e9b2d95f4f0da6e1ccbc"
#guard dig SHA2_256 []
  = "e3b0c44298fc1c149afbf4c8996fb92427ae41e4649b934ca495991b7852b855"
#guard dig SHA2_256 [hx "54686520717569636b2062726f776e20666f78206a756d7073206f76657220746865206c617a7920646f67"]
  = "d7a8fbb307d7809469ca9abcb0082e4f8d5651e46d3cdb762d02d0bf37c9e592"
#guard dig SHA2_256 [hx "54686520717569636b2062726f776e20666f78206a756d7073206f76657220746865206c617a7920646f672e"]
  = "ef537f25c895bfa782526529a9b63d97aa631564d5d789c2b765448c8635fb6c"
#guard dig SHA2_256 [hx "54686520717569636b2062726f776e20666f78206a756d7073206f76657220746865206c617a7920646f6754686520717569636b2062726f776e20666f78206a756d7073206f76657220746865206c617a7920646f6754686520717569636b2062726f776e20666f78206a756d7073206f76657220746865206c617a7920646f67"]
  = "5cfa2bf023f22ac82b00cd883ea96852677ff2ecd777f656146bd22004eb75f2"
#guard dig SHA2_256 [hx "00000000000000000000000000000000000000000000000000000000000000000000000000000000000000000000000000000000000000"]
  = "02779466cdec163811d078815c633f21901413081449002f24aa3e80f0b88ef7"
#guard dig SHA2_384 [hx "616263"]
  = "cb00753f45a35e8bb5a03d699ac65007272c32ab0eded1631a8b605a43ff5bed8086072ba1e7cc2358baeca134c825a7"
#guard dig SHA2_384 [hx "61626364656667686263646566676869636465666768696a6465666768696a6b65666768696a6b6c666768696a6b6c6d6768696a6b6c6d6e68696a6b6c6d6e6f696a6b6c6d6e6f706a6b6c6d6e6f70716b6c6d6e6f7071726c6d6e6f707172736d6e6f70717273746e6f707172737475"]
  = "09330c33f71147e83d192fc782cd1b4753111b173b3b05d22fa08086e3b0f712fcc7c71a557e2db966c3e9fa91746039"
#guard dig SHA2_384 (List.replicate 10 (hx "30313233343536373031323334353637303132333435363730313233343536373031323334353637303132333435363730313233343536373031323334353637"))
  = "2fc64a4f500ddb6828f6a3430b8dd72a368eb7f3a8322a70bc84275b9c0b3ab00d27a5cc3c2d224aa6b61a0d79fb4596"
#guard dig SHA2_384 [hx "b9"]
  = "bc8089a19007c0b14195f4ecc74094fec64f01f90929282c2fb392881578208ad466828b1c6c283d2722cf0ad1ab6938"
#guard dig SHA2_384 [hx "a41c497779c0375ff10a7f4e08591739"]
  = "c9a68443a005812256b8ec76b00516f0dbb74fab26d665913f194b6ffb0e91ea9967566b58109cbc675cc208e4c823f7"
#guard dig SHA2_384 [hx "399669e28f6b9c6dbcbb6912ec10ffcf74790349b7dc8fbe4a8e7b3b5621db0f3e7dc87f823264bbe40d1811c9ea2061e1c84ad10a23fac1727e7202fc3f5042e6bf58cba8a2746e1f64f9b9ea352c711507053cf4e5339d52865f25cc22b5e87784a12fc961d66cb6e89573199a2ce6565cbdf13dca403832cfcb0e8b7211e83af32a11ac17929ff1c073a51cc027aaedeff85aad7c2b7c5a803e2404d96d2a77357bda1a6daeed17151cb9bc5125a422e941de0ca0fc5011c23ecffefdd09676711cf3db0a3440720e1615c1f22fbc3c721de521e1b99ba1bd5577408642147ed096"]
  = "4f440db1e6edd2899fa335f09515aa025ee177a79f4b4aaf38e42b5c4de660f5de8fb2a5b2fbd2a3cbffd20cff1288c0"
#guard dig SHA2_384 []
  = "38b060a751ac96384cd9327eb1b1e36a21fdb71114be07434c0cc7bf63f6e1da274edebfe76f65fbd51ad2f14898b95b"
#guard dig SHA2_384 [hx "54686520717569636b2062726f776e20666f78206a756d7073206f76657220746865206c617a7920646f67"]
  = "ca737f1014a48f4c0b6dd43cb177b0afd9e5169367544c494011e3317dbf9a509cb1e5dc1e85a941bbee3d7f2afbc9b1"
#guard dig SHA2_384 [hx "54686520717569636b2062726f776e20666f78206a756d7073206f76657220746865206c617a7920646f672e"]
  = "ed892481d8272ca6df370bf706e4d7bc1b5739fa2177aae6c50e946678718fc67a7af2819a021c2fc34e91bdb63409d7"
#guard dig SHA2_384 [hx "54686520717569636b2062726f776e20666f78206a756d7073206f76657220746865206c617a7920646f6754686520717569636b2062726f776e20666f78206a756d7073206f76657220746865206c617a7920646f6754686520717569636b2062726f776e20666f78206a756d7073206f76657220746865206c617a7920646f67"]
  = "98cb30405ec758f63181acd617db4580a39dd8cfee27efd3af081f2e0e8115902b7c7c212af9f91315164d154c3f7d84"
#guard dig SHA2_384 [hx "000000000000000000000000000000000000000000000000000000000000000000000000000000000000000000000000000000000000000000000000000000000000000000000000000000000000000000000000000000000000000000000000000000000000000000000000000000"]
  = "435770712c611be7293a66dd0dc8d1450dc7ff7337bfe115bf058ef2eb9bed09cee85c26963a5bcc0905dc2df7cc6a76"
#guard dig SHA2_512 [hx "616263"]
  = "ddaf35a193617abacc417349ae20413112e6fa4e89a97ea20a9eeee64b55d39a2192992a274fc1a836ba3c23a3feebbd454d4423643ce80e2a9ac94fa54ca49f"
#guard dig SHA2_512 [hx "61626364656667686263646566676869636465666768696a6465666768696a6b65666768696a6b6c666768696a6b6c6d6768696a6b6c6d6e68696a6b6c6d6e6f696a6b6c6d6e6f706a6b6c6d6e6f70716b6c6d6e6f7071726c6d6e6f707172736d6e6f70717273746e6f707172737475"]
  = "8e959b75dae313da8cf4f72814fc143f8f7779c6eb9f7fa17299aeadb6889018501d289e4900f7e4331b99dec4b5433ac7d329eeb6dd26545e96e55b874be909"
#guard dig SHA2_512 (List.replicate 10 (hx "30313233343536373031323334353637303132333435363730313233343536373031323334353637303132333435363730313233343536373031323334353637"))
  = "89d05ba632c699c31231ded4ffc127d5a894dad412c0e024db872d1abd2ba8141a0f85072a9be1e2aa04cf33c765cb510813a39cd5a84c4acaa64d3f3fb7bae9"
#guard dig SHA2_512 [hx "d0"]
  = "9992202938e882e73e20f6b69e68a0a7149090423d93c81bab3f21678d4aceeee50e4e8cafada4c85a54ea8306826c4ad6e74cece9631bfa8a549b4ab3fbba15"
#guard dig SHA2_512 [hx "8d4e3c0e3889191491816e9d98bff0a0"]
  = "cb0b67a4b8712cd73c9aabc0b199e9269b20844afb75acbdd1c153c9828924c3ddedaafe669c5fdd0bc66f630f6773988213eb1b16f517ad0de4b2f0c95c90f8"
#guard dig SHA2_512 [hx "a55f20c411aad132807a502d65824e31a2305432aa3d06d3e282a8d84e0de1de6974bf495469fc7f338f8054d58c26c49360c3e87af56523acf6d89d03e56ff2f868002bc3e431edc44df2f0223d4bb3b243586e1a7d924936694fcbbaf88d9519e4eb50a644f8e4f95eb0ea95bc4465c8821aacd2fe15ab4981164bbb6dc32f969087a145b0d9cc9c67c22b763299419cc4128be9a077b3ace634064e6d99283513dc06e7515d0d73132e9a0dc6d3b1f8b246f1a98a3fc72941b1e3bb2098e8bf16f268d64f0b0f4707fe1ea1a1791ba2f3c0c758e5f551863a96c949ad47d7fb40d2"]
  = "c665befb36da189d78822d10528cbf3b12b3eef726039909c1a16a270d48719377966b957a878e720584779a62825c18da26415e49a7176a894e7510fd1451f5"
#guard dig SHA2_512 []
  = "cf83e1357eefb8bdf1542850d66d8007d620e4050b5715dc83f4a921d36ce9ce47d0d13c5d85f2b0ff8318d2877eec2f63b931bd47417a81a538327af927da3e"
#guard dig SHA2_512 [hx "54686520717569636b2062726f776e20666f78206a756d7073206f76657220746865206c617a7920646f67"]
  = "07e547d9586f6a73f73fbac0435ed76951218fb7d0c8d788a309d785436bbb642e93a252a954f23912547d1e8a3b5ed6e1bfd7097821233fa0538f3db854fee6"
#guard dig SHA2_512 [hx "54686520717569636b2062726f776e20666f78206a756d7073206f76657220746865206c617a7920646f672e"]
  = "91ea1245f20d46ae9a037a989f54f1f790f0a47607eeb8a14d12890cea77a1bbc6c7ed9cf205e67b7f2b8fd4c7dfd3a7a8617e45f3c463d481c7e586c39ac1ed"
#guard dig SHA2_512 [hx "54686520717569636b2062726f776e20666f78206a756d7073206f76657220746865206c617a7920646f6754686520717569636b2062726f776e20666f78206a756d7073206f76657220746865206c617a7920646f6754686520717569636b2062726f776e20666f78206a756d7073206f76657220746865206c617a7920646f67"]
  = "8bbc0670dc3e29c7341035e6110968c878dca505248f09b3380899ed9b3a1aec19282f1d2de75d6c6acc1d3e0b63be33c0c5a731ac00f7d29c02e31c2846cfde"
#guard dig SHA2_512 [hx "000000000000000000000000000000000000000000000000000000000000000000000000000000000000000000000000000000000000000000000000000000000000000000000000000000000000000000000000000000000000000000000000000000000000000000000000000000"]
  = "77ddd3a542e530fd047b8977c657ba6ce72f1492e360b2b2212cd264e75ec03882e4ff0525517ab4207d14c70c2259ba88d4d335ee0e7e20543d22102ab1788c"
#guard dig SHA2_512_224 [hx "616263"]
  = "4634270f707b6a54daae7530460842e20e37ed265ceee9a43e8924aa"
#guard dig SHA2_512_224 [hx "61626364656667686263646566676869636465666768696a6465666768696a6b65666768696a6b6c666768696a6b6c6d6768696a6b6c6d6e68696a6b6c6d6e6f696a6b6c6d6e6f706a6b6c6d6e6f70716b6c6d6e6f7071726c6d6e6f707172736d6e6f70717273746e6f707172737475"]
  = "23fec5bb94d60b23308192640b0c453335d664734fe40e7268674af9"
#guard dig SHA2_512_224 []
  = "6ed0dd02806fa89e25de060c19d3ac86cabb87d6a0ddd05c333b84f4"
#guard dig SHA2_512_224 [hx "54686520717569636b2062726f776e20666f78206a756d7073206f76657220746865206c617a7920646f67"]
  = "944cd2847fb54558d4775db0485a50003111c8e5daa63fe722c6aa37"
#guard dig SHA2_512_224 [hx "54686520717569636b2062726f776e20666f78206a756d7073206f76657220746865206c617a7920646f672e"]
  = "6d6a9279495ec4061769752e7ff9c68b6b0b3c5a281b7917ce0572de"
#guard dig SHA2_512_224 [hx "54686520717569636b2062726f776e20666f78206a756d7073206f76657220746865206c617a7920646f6754686520717569636b2062726f776e20666f78206a756d7073206f76657220746865206c617a7920646f6754686520717569636b2062726f776e20666f78206a756d7073206f76657220746865206c617a7920646f67"]
  = "301fbe7e0354fe16b78b807653a930061efe2ab11caa11fe9bfc6c03"
#guard dig SHA2_512_224 [hx "000000000000000000000000000000000000000000000000000000000000000000000000000000000000000000000000000000000000000000000000000000000000000000000000000000000000000000000000000000000000000000000000000000000000000000000000000000"]
  = "a23413341d5c14ac3dd1d7136796abe8d0e228f3e4ab4d3ed2c95902"
#guard dig SHA2_512_256 [hx "616263"]
  = "53048e2681941ef99b2e29b76b4c7dabe4c2d0c634fc6d46e0e2f13107e7af23"
#guard dig SHA2_512_256 [hx "61626364656667686263646566676869636465666768696a6465666768696a6b65666768696a6b6c666768696a6b6c6d6768696a6b6c6d6e68696a6b6c6d6e6f696a6b6c6d6e6f706a6b6c6d6e6f70716b6c6d6e6f7071726c6d6e6f707172736d6e6f70717273746e6f707172737475"]
  = "3928e184fb8690f840da3988121d31be65cb9d3ef83ee6146feac861e19b563a"
#guard dig SHA2_512_256 []
  = "c672b8d1ef56ed28ab87c3622c5114069bdd3ad7b8f9737498d0c01ecef0967a"
#guard dig SHA2_512_256 [hx "54686520717569636b2062726f776e20666f78206a756d7073206f76657220746865206c617a7920646f67"]
  = "dd9d67b371519c339ed8dbd25af90e976a1eeefd4ad3d889005e532fc5bef04d"
#guard dig SHA2_512_256 [hx "54686520717569636b2062726f776e20666f78206a756d7073206f76657220746865206c617a7920646f672e"]
  = "1546741840f8a492b959d9b8b2344b9b0eb51b004bba35c0aebaac86d45264c3"
#guard dig SHA2_512_256 [hx "54686520717569636b2062726f776e20666f78206a756d7073206f76657220746865206c617a7920646f6754686520717569636b2062726f776e20666f78206a756d7073206f76657220746865206c617a7920646f6754686520717569636b2062726f776e20666f78206a756d7073206f76657220746865206c617a7920646f67"]
  = "35591989d960896a3d36207256da463aa85aeca2401def10f9c190bcba8fc187"
#guard dig SHA2_512_256 [hx "000000000000000000000000000000000000000000000000000000000000000000000000000000000000000000000000000000000000000000000000000000000000000000000000000000000000000000000000000000000000000000000000000000000000000000000000000000"]
  = "5192ee5471d8a02ffc34bce87142df77aaef777dde522cc171af66e95a006a15"

end Verif.Test
