import Verif.Base
/-
The checkpoint built into hnsd for the main network (src/checkpoints.h).
-/
namespace Verif.Network

/-- The headers from height 136000 on (src/checkpoints.h:18-3017). Each is the number whose 236 bytes, the lowest
first, are those of the header. -/
def checkpointHeaders : List Nat :=
  [0x00000000000000000000000000000000000000000000000000000000000000001904783a00000000a9d2768e806e67881a4c6c447ac6718fec211d4d37d04d7786322f7da7dc05f6ad2a8959866867e4750bd8c1ddc40f7aa1a8e61c230934a556b4c219eef693450000000000000000000000000000000000000000000000000000000000000000000000000000000000000000000000000b00000070fad10030010706a7159143b1a1aef3b14c189bad0e688b156d6c2ba598088d08f59f5cddf7311938c86c4725546c3f9a378ff415e54c2f056bd0190200000000000000000000006312df49e53cb347,
   0x00000000000000000000000000000000000000000000000000000000000000001904752f00000000f719c818cfec0bf592a3187eb5e567f44b352473324228188811b2ddee7f5e2123b4cba755b12dcdb1e21a2a4f66895882667b802c5fddc7d77a8b2d51e038510000000000000000000000000000000000000000000000000000000000000000000000000000000000000000000000000000015abc22cb0030010706a7159143b1a1aef3b14c189bad0e688b156d6c2ba598088d08f59f5c8729c35e145ffd5a4e9bb6b547ce99db779922ecc9d17bf30100000000000000000000006312e3980078d44d,
   0x000000000000000000000000000000000000000000000000000000000000000019046a72000000009acb9e06a766be6d504ff1136a21fe1cfc925ed43fe1beaee042afd5a5095e68bc61f1df6d263852fd9fe562d2a4aa079fe80a8cc73363dc121f14483abe195c000000000000000000000000000000000000000000000000000000000000000000000000000000000000000000000000bb040000a88a213c30010706a7159143b1a1aef3b14c189bad0e688b156d6c2ba598088d08f59f5cbbe3634e00ab758644c839812b8e5bb7df3cdd30515572e10200000000000000000000006312e2eff04fa6ad,
   0x000000000000000000000000000000000000000000000000000000000000000019046dac0000000002351f332a3d979534f7a997052831a6aef7db6430ae970ddf5748ea3c45216bfdad40e11997cd2db22859c93728ef5976872252068682b2bbc316a11fbae7b2000000000000000000000000000000000000000000000000000000000000000000000000000000000000000000000000f90000007c25979c30010706a7159143b1a1aef3b14c189bad0e688b156d6c2ba598088d08f59f5ca6231829f751a8a5a81396e7a8aae66a2eaff8a7635ea2f60200000000000000000000006312e449a64a5f02,
   0x000000000000000000000000000000000000000000000000000000000000000019047c240000000014dec4be1528935c2643b0a1c87db319d6b4bf72648dddd1ae53d372517904dffcd3c47a8809bac050425d31479d4c63824b14f3d8e3ff2d5fabd36a8bc9151c000000000000000000000000000000000000000000000000000000000000000000000000000000000000000000000000cf0600008bba213c30010706a7159143b1a1aef3b14c189bad0e688b156d6c2ba598088d08f59f5ce05867d9f381ef3b51f67d0348879d631d2723da99ddea090000000000000000000000006312e5771a8986eb,
   0x0000000000000000000000000000000000000000000000000000000000000000190474db000000008c5be6dc7ca9fdd072f5aef7a145bc863c875a11df0859ba2ceddb5d615a6ed1deec34b22c3d257135a49086263e91f6c3fdfec64ad1c0b23b1448996e6b5ae40000000000000000000000000000000000000000000000000000000000000000000000000000000000000000000000000001f6ab8f5aca0030010706a7159143b1a1aef3b14c189bad0e688b156d6c2ba598088d08f59f5c24f34dbbbf13ce8b678fbdea65f989a6b0439b0e6e4a10450000000000000000000000006312e606383c26f2,
   0x000000000000000000000000000000000000000000000000000000000000000019047576000000003afda1ecd3e2379706d60924a4af0285c71b388849b71c9c0f3038b562ff46c1a2292f961bf5092eca71fb6e838371b24ec87383df8714261c2002bbb1c36bcd00000000000000000000000000000000000000000000000000000000000000000000000000000000000000000000000031020000eb67d30030010706a7159143b1a1aef3b14c189bad0e688b156d6c2ba598088d08f59f5c7235e0d91d32cca802424de20204784596173f9ce1b9383d0000000000000000000000006312eba03268c718,
   0x0000000000000000000000000000000000000000000000000000000000000000190468f400000000dce1bf4b8554c70d778c3ff2489cb04dcfe214116a464f783b48e7b00d4a2fd35b891d19b0db342a67f07f274e32118ba8c74418ed2d657a151a229f127630bd00000000000000000000000000000000000000000000000000000000000000000000000000000000000000000000000052000000c95fd10030010706a7159143b1a1aef3b14c189bad0e688b156d6c2ba598088d08f59f5c65127ea3373778f363d67788186867c5fa751731e15dcfca0200000000000000000000006312ebde8c071581,
   0x000000000000000000000000000000000000000000000000000000000000000019046688000000001863f91a3bd6f14ffa64d5794dc91f24e152c40733c4d224c7efaed19da7b75097dff17fbae71aeecedd03add75e6c090badccca904effaed5df321316a148c20000000000000000000000000000000000000000000000000000000000000000000000000000000000000000000000007b0300009ae2d00030010706a7159143b1a1aef3b14c189bad0e688b156d6c2ba598088d08f59f5c89aee5b5306f282af632f5ede717b9fb2fa140dcb37025bb0000000000000000000000006312ed073472f58c,
   0x00000000000000000000000000000000000000000000000000000000000000001904642f00000000c126b28b860ad5f2d6160d0baa70d4b46b4ccc5c378f774e9af447b36cd08ee26b36f74c43505178a7bd3a30cffd8a684f622e9bb099ee890cdfa5c0543870f2000000000000000000000000000000000000000000000000000000000000000000000000000000000000000000000000280100007445d000bdbf95c3a6dbcf150dc740058e0e4395fa721e2857da13100cee0a87b32486da6134018f943d32b8639f009c1b5da770e077f0b172d2987e0200000000000000000000006312f21101ed9788,
   0x00000000000000000000000000000000000000000000000000000000000000001904672e000000001248662d3ec4a2e63a5e73d34085d9fcef989c89038b83faac5c49af8d5ab573903199503687884e66171ed7ecfc9927d6006fcdbf8a7172068b28d63e950229000000000000000000000000000000000000000000000000000000000000000000000000000000000000000000000000fc0400003939d300bdbf95c3a6dbcf150dc740058e0e4395fa721e2857da13100cee0a87b32486da4fe4180365e2792e324650c8f84da7a67fddd94313272dfb0200000000000000000000006312f81e28cdd46e,
   0x000000000000000000000000000000000000000000000000000000000000000019046c52000000005bbae4ad218a51db0b642bcc48015d5877202d6620c6ba55358d4a533d147682c8eb5c2f360b7d5592c0860b58b3f575559c7ff00e008a27e00f1b730217c1de0000000000000000000000000000000000000000000000000000000000000000000000000000000000000000000000001c000000b2b18f9cbdbf95c3a6dbcf150dc740058e0e4395fa721e2857da13100cee0a87b32486daa78edabb5d8dfcaf658adabf7e46c7bab40200d6ad17606a00000000000000000000000063130285b47422c3,
   0x000000000000000000000000000000000000000000000000000000000000000019047ed2000000000c5484c21b0a15114c7215a34b6ee7f2477a6904aba0517096599de0c0137f73fe3f1ddd425adb19f1918846b7555da076684bccfd4d3d0a06af139f1d86fdc5000000000000000000000000000000000000000000000000000000000000000000000000000000000000000000000000cd0200000d7dd100bdbf95c3a6dbcf150dc740058e0e4395fa721e2857da13100cee0a87b32486da2a014cbff62f10006fa4f9616ea6d7a16b00ad7d538f1e5b010000000000000000000000631304b5b9ec17f5,
   0x000000000000000000000000000000000000000000000000000000000000000019049919000000007e9da96d10153e99635a4c3dc1093372c07846e1fc6889ac27067f22216706ae2acaba56a1dcc622be3f07f87391d573cafbf5bd54d893f2cbd5d5d52a3bfdd1000000000000000000000000000000000000000000000000000000000000000000000000000000000000000000000000192b0000b8582230bdbf95c3a6dbcf150dc740058e0e4395fa721e2857da13100cee0a87b32486da5108b92e7febb1159c15fb05cf502de0b936081b2e258d12020000000000000000000000631306fec7126440,
   0x000000000000000000000000000000000000000000000000000000000000000019049b6a00000000f1ee5daa4ac56c70fb5eba4378e25b3050795698789456c701dc5ba06dabd0f62f3ca582258fcccd728f3574567992abd88fb5cb4291be67ac93dc8eb51eeaea000000000000000000000000000000000000000000000000000000000000000000000000000000000000000000000000300100003572d100bdbf95c3a6dbcf150dc740058e0e4395fa721e2857da13100cee0a87b32486dae7900fb4d135cfaa62d9482b3a8e1a5c021a2608d16fab4f01000000000000000000000063130a0cd3abce8d,
   0x000000000000000000000000000000000000000000000000000000000000000019049dac0000000014df9a8d9c32d6c54a0c467c3edf235e553826dacb64fa09db11640b5c8d14edd1b3fe76c4cac33083e61ecb48605347239c2ec95dcc854cd6dd9db858bc75b70000000000000000000000000000000000000000000000000000000000000000000000000000000000000000000000002c000000124ad200bdbf95c3a6dbcf150dc740058e0e4395fa721e2857da13100cee0a87b32486da696e8cde4a8d2ffa08c38f6af3dc32b10269c5199126b25a04000000000000000000000063130b1431621659,
   0x00000000000000000000000000000000000000000000000000000000000000001904a0ea00000000ef10c77e5111ce012e1d4cb11441295f4a9c9d010bb224f0bf7cdd729434c4be553abf18488252465ec40d5ad7f170b2095e0c42bc81cb98633f5b781d3c3a4200000000000000000000000000000000000000000000000000000000000000000000000000000000000000000000000005000000da7a1972bdbf95c3a6dbcf150dc740058e0e4395fa721e2857da13100cee0a87b32486da3d088ed937d09bf9bc5486e3766f0c30d5135d657554f6f701000000000000000000000063130c964118cf94,
   0x0000000000000000000000000000000000000000000000000000000000000000190498290000000095e0f66617c06b6f4c3a91c85482e4a6508e4a2d5ff32cb77d3331ba8b8ad906c1debbbee90bff2c8ac813a665d167d1a10d126758f47c6723277951bc076e6d000000000000000000000000000000000000000000000000000000000000000000000000000000000000000000000000020400005024d200bdbf95c3a6dbcf150dc740058e0e4395fa721e2857da13100cee0a87b32486da867e5a2f4bb13d5c7c196633b4df5652154b119f79bf229d04000000000000000000000063130da41aac221e,
   0x000000000000000000000000000000000000000000000000000000000000000019049dd8000000001021cf5b1ad23ab9f40706748eb5aad446debf76e93388e2112c91a12273fe364f2784ee1f982129c80c1afc34860c3dddc518f4bab888b6ab4a4c87f105ec9e0000000000000000000000000000000000000000000000000000000000000000000000000000000000000000000000004b04000074fb1c3cbdbf95c3a6dbcf150dc740058e0e4395fa721e2857da13100cee0a87b32486da06d7de3a03e921dfbf65e6868871f102bebb1b86cf37892801000000000000000000000063130fd79b479fce,
   0x0000000000000000000000000000000000000000000000000000000000000000190494cc000000001ba1609627328d713ffb4012fe4f405d2b6dc2078effd6be5557a81b417131b94936f151c1ddd9dc6d43fc05020d2be35af2d90189103fa6aeed48e3cb7f82dc0000000000000000000000000000000000000000000000000000000000000000000000000000000000000000000000000001168be2acca00bdbf95c3a6dbcf150dc740058e0e4395fa721e2857da13100cee0a87b32486da84979b59117851408484b714d6855df16e60006f80259a42030000000000000000000000631311602f1c0b02,
   0x00000000000000000000000000000000000000000000000000000000000000001904946a00000000e48848a7f127eb583a683b5d0168919428b9f51e57dca7e6c1fad3e26656ecbbcd5fa0b8b8a24fc29857a730645dbb54404b20096cee8ea3e87070079fcbf47c0000000000000000000000000000000000000000000000000000000000000000000000000000000000000000000000002503000004fcd100bdbf95c3a6dbcf150dc740058e0e4395fa721e2857da13100cee0a87b32486da882f459d4f6fcca06584ee204bcdaedb03658aa50df1496c010000000000000000000000631313cc68e715af,
   0x000000000000000000000000000000000000000000000000000000000000000019048829000000006cd28806a9dbc78c67be47b42253d6db0d1e77ac974b5e3bb38597a4087a119aaead863bff5aec10dd0b5f899b0cb4c5f184acf4286cf786625d43e168a40127000000000000000000000000000000000000000000000000000000000000000000000000000000000000000000000000090000003caad000bdbf95c3a6dbcf150dc740058e0e4395fa721e2857da13100cee0a87b32486dabe0ed36d424820bc21dc93b53e539a15611218e00d435212010000000000000000000000631315d207fc1d2b,
   0x000000000000000000000000000000000000000000000000000000000000000019048d970000000004534407caf8b52d4be0806fa4e32406e4f1b82ebe4289cb8c364aa850dbf30856f59f173812ed99ad0794fe834d8d6dd9934b10df3de91f7b9508458ee03dc000000000000000000000000000000000000000000000000000000000000000000000000000000000000000000000000065040000f867d300bdbf95c3a6dbcf150dc740058e0e4395fa721e2857da13100cee0a87b32486da07ee4f29e77793c424054e2bfc8a43f27a3422167cfcfbb500000000000000000000000063131783dca99272,
   0x00000000000000000000000000000000000000000000000000000000000000001904934800000000644c4459f3d64e790235f6e226cbb88b1f3493e27dfa36375984192a013ba3abf0634a2ebd2a6e4402c21fbc5f6a6d0922e6b815607bbf650de3f38b998832360000000000000000000000000000000000000000000000000000000000000000000000000000000000000000000000005e000000e063d300bdbf95c3a6dbcf150dc740058e0e4395fa721e2857da13100cee0a87b32486da216e78be1ab5765318139358b935a9c1d2ec6b11276ab22e030000000000000000000000631318605d07bf1f,
   0x000000000000000000000000000000000000000000000000000000000000000019049912000000006728982733a10842ff6b4564930d5ef0d165bae0e729b1dfdcaf9eb978f4652f01dce9c2ff50d0e6fcf9dac0a6228e3f101ad216598bf4cc322f0f87908cb8fd0000000000000000000000000000000000000000000000000000000000000000000000000000000000000000000000006a0300009c9ad000bdbf95c3a6dbcf150dc740058e0e4395fa721e2857da13100cee0a87b32486da4132820a569e30c0cffa567f26d2205c709c7881bd4b9ee9000000000000000000000000631319d064fa3df9,
   0x0000000000000000000000000000000000000000000000000000000000000000190485cc00000000f5de633d673aa8c315dec9cd4a656d2ca48b2b055b4818aac694beae43573780a18c4325834a15febb93a5c02c6f265fa3ee07c3fc893b5d79802291083d77240000000000000000000000000000000000000000000000000000000000000000000000000000000000000000000000005b040000bf2ed200bdbf95c3a6dbcf150dc740058e0e4395fa721e2857da13100cee0a87b32486da256f70d1460dab4f593707dc72fb180e140e364a24251c3304000000000000000000000063131a33ffe4e754,
   0x000000000000000000000000000000000000000000000000000000000000000019047eb100000000aa50ef3d7803a0151f77d3753f3a5b1ea971cfecb4400af7b5d89a97a1c093cf33027d1cb9a0c74c57c18aaaeed0806a39d8704d799c6d4ba5245d65a5051c23000000000000000000000000000000000000000000000000000000000000000000000000000000000000000000000000e8000000a398d000bdbf95c3a6dbcf150dc740058e0e4395fa721e2857da13100cee0a87b32486da9339236869367664de8f8dd272d369f91787305ceb3efa6502000000000000000000000063131c56a9969666,
   0x00000000000000000000000000000000000000000000000000000000000000001904796b000000004293c691b2c54c297bf4536fb987cd8e01adef0ff8fe2ecc60ba6c46eaa9e07579da82726dd4d57cf42031bfa7890f5e4d5ffc6cb8017050f4b8c0381af514cf000000000000000000000000000000000000000000000000000000000000000000000000000000000000000000000000240000008fc0d200bdbf95c3a6dbcf150dc740058e0e4395fa721e2857da13100cee0a87b32486dadfa55ea462a5c58679f98a5207e02a1bb999225fbfaf696901000000000000000000000063131e0fc53500fd,
   0x000000000000000000000000000000000000000000000000000000000000000019047a940000000098cafcf4dd2388ac552cf48c4c4edabb01b9a0bc65b20ec86215892cf6c650a6a71bf7c1c42f064cc93690ef3cfac1c28716b2a3bf3726e2e1534965c61b516900000000000000000000000000000000000000000000000000000000000000000000000000000000000000000000000014030000677be8d3bdbf95c3a6dbcf150dc740058e0e4395fa721e2857da13100cee0a87b32486dacd6addaddf3ed87bd89e5b224d16d4245b2f5ec657f352a200000000000000000000000063131f16a90cfa85,
   0x000000000000000000000000000000000000000000000000000000000000000019047a160000000091ea8c42c795c93df8c79906cddb90d72ff8411718b630fca39e4479ad497c2a0ee88cff480be2eb2f13c5a9ec2c6b7c64148bf0c491e6c48c34448a71e71adb000000000000000000000000000000000000000000000000000000000000000000000000000000000000000000000000d42b0000e1462030bdbf95c3a6dbcf150dc740058e0e4395fa721e2857da13100cee0a87b32486da7ecd5699e52edc96841c201c4afce528832ec887189c1bb10000000000000000000000006313203dc4ebaf38,
   0x000000000000000000000000000000000000000000000000000000000000000019047a4600000000b4b727f895d0eedf3f00c35b975c4a1a60e7c2991c564c7056555c7d5dd70df86b05bcce72264f4b971685801332e9fd7acb8e300ff93134052cc1f385067911000000000000000000000000000000000000000000000000000000000000000000000000000000000000000000000000f6010000f261d100bdbf95c3a6dbcf150dc740058e0e4395fa721e2857da13100cee0a87b32486daec7ff9a7b6f70909606b784530b53b7a10070c31b29af3fd0100000000000000000000006313259b78333c3f,
   0x000000000000000000000000000000000000000000000000000000000000000019047d3c0000000091a5e73bb64fe89de5f390d4c4c3268718b7c563a20783b578be3292fe31b2cb4b707994a223f16c3f92ae4d21535102d5042978894749336cfcef5391e6103c000000000000000000000000000000000000000000000000000000000000000000000000000000000000000000000000210100002e93d200bdbf95c3a6dbcf150dc740058e0e4395fa721e2857da13100cee0a87b32486dabc119a609ee95c74a62f23f15dac27e2f9975723d9677bfd020000000000000000000000631327954883e6cd,
   0x000000000000000000000000000000000000000000000000000000000000000019048da700000000d37cc9c44835efae7c77ba1a4886f7ba9782578adff912fe74294a62af9361ef20a1d00ac859c22d3e7e22ccf4e4288174c5230d5292628549fd99fc9574730500000000000000000000000000000000000000000000000000000000000000000000000000000000000000000000000000000631e70c9a9cbdbf95c3a6dbcf150dc740058e0e4395fa721e2857da13100cee0a87b32486daf40511221162526283c7e6e80642eb16d70eeac4778ca8db0300000000000000000000006313295b0d1c69f1,
   0x00000000000000000000000000000000000000000000000000000000000000001904906a000000000ac97e2dd6560cfa9fd55751e6d61d454a2cfc6a5dba384232d13a8399d036866ffbe0f4c21261454842929660e1278ec0ffe7ce4ed22a1721ee1acb499e2ef50000000000000000000000000000000000000000000000000000000000000000000000000000000000000000000000001f030000116bd200bdbf95c3a6dbcf150dc740058e0e4395fa721e2857da13100cee0a87b32486da86754c00af794946d1d813e8dda27c026b31bbd6c2bf4f26010000000000000000000000631329baa9198f26,
   0x000000000000000000000000000000000000000000000000000000000000000019049099000000006a74f45e1e3ea79261922c92f19f749ba209da3350962e06fe5d7dddc1c5b23f550ebd3f87e5d005f165be7efa278e93815341a4d27608ecdabe4545e157423f000000000000000000000000000000000000000000000000000000000000000000000000000000000000000000000000240000009527d300bdbf95c3a6dbcf150dc740058e0e4395fa721e2857da13100cee0a87b32486daff2b03f464ae21428e2fd43f975300564c5c245f9a546dd002000000000000000000000063132e034cace77e,
   0x000000000000000000000000000000000000000000000000000000000000000019048b7d00000000078170d9507a359beae1c7b2db9eaa2ede17736914ad26f6abcb6d9a48f236210d5be609a8a65b5601baf41dedbdf7a1f3fb2106724cfaa1e96f523aadb914be000000000000000000000000000000000000000000000000000000000000000000000000000000000000000000000000400300009a9ed200bdbf95c3a6dbcf150dc740058e0e4395fa721e2857da13100cee0a87b32486da1801dbdfa7971b94afb86dc9d13656e650710bb0cdd2de1b04000000000000000000000063132ff189200c1e,
   0x000000000000000000000000000000000000000000000000000000000000000019048ce0000000006ac612af39500eee0d513f3db30f56d76c712538906bdba78641e91085e44f2c0f8d4ad3c5640aa38779a7e9d70b46d8fa03255b04cbeade585cf0eda951cf810000000000000000000000000000000000000000000000000000000000000000000000000000000000000000000000009600000058765b6ebdbf95c3a6dbcf150dc740058e0e4395fa721e2857da13100cee0a87b32486da40788accdf102616254fc118393a20705878cbb1a69547860100000000000000000000006313350135ee8129,
   0x0000000000000000000000000000000000000000000000000000000000000000190492f50000000017b3ee25365b6e60d027b85d7206cb5929454d82fb3b120d4c028a1cee198c1e406cebcec9c665b9cec59017d226bef39de1a9e7b227965ddbcf63995bc2dbf1000000000000000000000000000000000000000000000000000000000000000000000000000000000000000000000000490100008aded000bdbf95c3a6dbcf150dc740058e0e4395fa721e2857da13100cee0a87b32486dae69e8c8c85d7e9456d0bb71d46d0c37a649ea33d017cb93200000000000000000000000063133a3e162b7bb5,
   0x000000000000000000000000000000000000000000000000000000000000000019049cc500000000785c109dc0701293659eee108c5e43b924617998d9a3027f5d04b1ebbea65f60c61dd26dcecd6646107b213040e162b6a745ce1f955161948fd63a13e8fd57b4000000000000000000000000000000000000000000000000000000000000000000000000000000000000000000000000ef020000444bd100bdbf95c3a6dbcf150dc740058e0e4395fa721e2857da13100cee0a87b32486da3411353e57d98bb7b4190289dc61491728cfe46d4c9a25ab00000000000000000000000063133d87ce496ddf,
   0x00000000000000000000000000000000000000000000000000000000000000001904aa5600000000afb8520aa9f87dc07f96b6f5d399acd868ac185ec215676182edb00a9d8f58fa3122c12d0ff2c6dfb868d5980b8be9f9dd141eb323d5d593dc5cdac6e9198b530000000000000000000000000000000000000000000000000000000000000000000000000000000000000000000000005c000000252dd000bdbf95c3a6dbcf150dc740058e0e4395fa721e2857da13100cee0a87b32486daedebcd5a9e15abeced6e9e9843490c6f2f9bffb1e8216561020000000000000000000000631341728187e96c,
   0x00000000000000000000000000000000000000000000000000000000000000001904b0380000000093fa8dc357be63891bd4f42781bed071fea923ae652400edd5c9fe95c45b15f6d1959cb3759749f9272cfa625cd325dbeb6a24ccaaef2bb21a61a6b2f7e99363000000000000000000000000000000000000000000000000000000000000000000000000000000000000000000000000b4000000b12bd100bdbf95c3a6dbcf150dc740058e0e4395fa721e2857da13100cee0a87b32486da2410ba31a9e3134094235745e54b3099513b846616a6d647010000000000000000000000631341c98e2f835a,
   0x00000000000000000000000000000000000000000000000000000000000000001904ab1900000000e52c107a8c3a52614e0afbf40f28c2728325f08bce0656646d6847415d8fcf7b63228b2c8d54bfee8134861c2343bc02aa1e750b12411a238828ffab0eb9dd7f0000000000000000000000000000000000000000000000000000000000000000000000000000000000000000000000006e0200002372d300bdbf95c3a6dbcf150dc740058e0e4395fa721e2857da13100cee0a87b32486dafeabd106de142064dd9d3796a867a73d75f82ed8442171320400000000000000000000006313478fda683fcd,
   0x00000000000000000000000000000000000000000000000000000000000000001904b204000000001c5bd77e63503e6e4ba77a819111470a7f3acd812e4064debe190243715aca162a79cf4e90b054a5d72df93f68c7915070fab6556e83f77e94bd5e3e1bcdd74e000000000000000000000000000000000000000000000000000000000000000000000000000000000000000000000000010300003056d300bdbf95c3a6dbcf150dc740058e0e4395fa721e2857da13100cee0a87b32486da0f5917913908c20740b86c1c426ac2e2c577633b5b4982d500000000000000000000000063134bb477a2fb79,
   0x00000000000000000000000000000000000000000000000000000000000000001904c3aa00000000187207d66a7a53f8ed7bdc04543d0bdbd50e0c7b2f87a71f2f4bdd7fafc60a7184116641a3ccf0c8dd684e864d7023f1ed2eb6ce205b78e66f7e964bc629d206000000000000000000000000000000000000000000000000000000000000000000000000000000000000000000000000e8000000c1e1d200bdbf95c3a6dbcf150dc740058e0e4395fa721e2857da13100cee0a87b32486da0723bbe1b79467c24d3730c1eff6d1bbc2cec0b5813ad37e01000000000000000000000063134bc519f43975,
   0x00000000000000000000000000000000000000000000000000000000000000001904c01c0000000081848421e888041aca853b550ece6b3931b17d2c875b5c4c2ce6edcb5f480f9c69e1fb34a5a4316e1179b954d78eeb2df6917f3a37a6a13b9b05cd15c740ca6e0000000000000000000000000000000000000000000000000000000000000000000000000000000000000000000000003b020000d266d100bdbf95c3a6dbcf150dc740058e0e4395fa721e2857da13100cee0a87b32486da6d08f6a94f95ce35eb57fdb631f763ebd16f02b36dcf448402000000000000000000000063134cfcc99040ab,
   0x00000000000000000000000000000000000000000000000000000000000000001904bff100000000cf3121abc3d54c18012ea60ad4bd638dc8c25147dc95f79bf8081b6e9888523434f6d07182f062fcd2ea6b3be1c4726f3f688ba09981ee647a5068eed44806c90000000000000000000000000000000000000000000000000000000000000000000000000000000000000000000000006b0100000029d2000fbcf6c7919c8c05f59f99d44e77dcdbc0b68d155780b049c55906eac27aff42855423510295d571fafab1d8487ea1e4bf25d8d48caaf5c603000000000000000000000063134dae9bcbba19,
   0x00000000000000000000000000000000000000000000000000000000000000001904a54e0000000010aa49f7a0e2a2d82b71d5df71cb20d23587d19c8a718de155fca5bd377937deb75ddf514dfc03bff55327edb30e64e9086a0ba313aa3e470d919b265939f40b000000000000000000000000000000000000000000000000000000000000000000000000000000000000000000000000280000002499d1000fbcf6c7919c8c05f59f99d44e77dcdbc0b68d155780b049c55906eac27aff42816af2f747b362cafc130ba788e6cb6650fd012fc79a876c04000000000000000000000063134ea83574213d,
   0x00000000000000000000000000000000000000000000000000000000000000001904a6360000000069a9c775dd53ae9f0515ebb8ddee4b118d1af2c9fdadf8906ae8d798635d5fe8b45637877ce7dd9b77b0a618318fdb040fa48078a0c409d75813bd810333ae3c000000000000000000000000000000000000000000000000000000000000000000000000000000000000000000000000d5020000bc999d6e0fbcf6c7919c8c05f59f99d44e77dcdbc0b68d155780b049c55906eac27aff42239f9a1b20cadf57999f731784170b62706abf630364d77403000000000000000000000063135111a563b264,
   0x00000000000000000000000000000000000000000000000000000000000000001904a67800000000aa191e93d81def50117cdc460e6bcddebed74e36a60f24086f97e0f8855e91994454fc3319cc989080e937dfe5332e0caba8ab749c5a5bcef8092f983f58983f0000000000000000000000000000000000000000000000000000000000000000000000000000000000000000000000009500000040bed2000fbcf6c7919c8c05f59f99d44e77dcdbc0b68d155780b049c55906eac27aff42136363ef861701d9576b0d90dec1559eca8a534e2015264d000000000000000000000000631353fb5ece762e,
   0x00000000000000000000000000000000000000000000000000000000000000001904a4b90000000055ec92518f509ae82c61b5a2383a8aad420df4bad3615193a7e51e02c3db85cec105d74cf12a5cc00ce545f4addd7c01a1131811674f45ae61f3d0b7617da8ad0000000000000000000000000000000000000000000000000000000000000000000000000000000000000000000000005c010000e5db9b9c0fbcf6c7919c8c05f59f99d44e77dcdbc0b68d155780b049c55906eac27aff42902aa5f90655b69231c15d4b4f29f541023eeade738d7421040000000000000000000000631355d98bb57355,
   0x00000000000000000000000000000000000000000000000000000000000000001904abdb0000000030920411a92279b90abcb59e41131d03f394171344e88e79623feedef0558d66025068083e9f1c91b8b503ae2008018b9bb76183f24436a204c59a52cf042b6f000000000000000000000000000000000000000000000000000000000000000000000000000000000000000000000000600000002372d3000fbcf6c7919c8c05f59f99d44e77dcdbc0b68d155780b049c55906eac27aff42c0d88407fae89c1dd4027b2b03ad1cc0df9703ca4c8818b50000000000000000000000006313568f65158f5b,
   0x00000000000000000000000000000000000000000000000000000000000000001904b0410000000031dc2d5505bb477dfd1fe18ac18a84c473c5206056165c39c0608fa930935013c4fb5f5fac1d886f3149e5adde1b49db17c5f0d5620738c6be7da691c056cbe400000000000000000000000000000000000000000000000000000000000000000000000000000000000000000000000014000000546d9a9c0fbcf6c7919c8c05f59f99d44e77dcdbc0b68d155780b049c55906eac27aff42f81dc80856b836fda875546501e52c00fd67aa60cbc640880400000000000000000000006313585077049bb0,
   0x00000000000000000000000000000000000000000000000000000000000000001904b346000000001cee2160ea2eaa4b2cbd7babde1abb5fd6719f3d8b59fa7584a4e68eed652995932fd8d11c76e7b03613db590681fbf8534e1d73f82a684ad572d5ea36c3eeed0000000000000000000000000000000000000000000000000000000000000000000000000000000000000000000000003a00000037f3233c0fbcf6c7919c8c05f59f99d44e77dcdbc0b68d155780b049c55906eac27aff42809bbbc15e84d8f8b4e9803d9512e91d38d7be08f83ea78e020000000000000000000000631358ef2519da36,
   0x00000000000000000000000000000000000000000000000000000000000000001904ac93000000000f2d606663e640e58babd0b5a1386a42d0b79e0b8592d4dd8533f6dfa21b966ab1d4d91cce074e15fdb028825674a85d7273ac11b23aa02145234e19217a97c40000000000000000000000000000000000000000000000000000000000000000000000000000000000000000000000006f00000017929e6e0fbcf6c7919c8c05f59f99d44e77dcdbc0b68d155780b049c55906eac27aff420228cc5cf86226322c846ead1070fe28401d2cf128183ca001000000000000000000000063135972e9942b8f,
   0x00000000000000000000000000000000000000000000000000000000000000001904a3fc000000006966cd943a8fd67960a6bcf7406e544dc633d4cebf0005dcd0598725fca49ee669825e9a7a76566e970086cdd692456240a49be7949055a60eadb928dda0c62c0000000000000000000000000000000000000000000000000000000000000000000000000000000000000000000000006c000000aed3d1000fbcf6c7919c8c05f59f99d44e77dcdbc0b68d155780b049c55906eac27aff42b44a0b744fb14e5591482f40fa0bba0033c1237ee54689f503000000000000000000000063135a73342ab85b,
   0x000000000000000000000000000000000000000000000000000000000000000019049176000000003b34bc4430292b3a5bb8f6c63dac0bc34e4379be8ac73f3f65f50acf95fb96f0c5c92964be2ed9940cc55c69594937606eae656351ce7b3290d0885591491f60000000000000000000000000000000000000000000000000000000000000000000000000000000000000000000000000720100000ee3d2000fbcf6c7919c8c05f59f99d44e77dcdbc0b68d155780b049c55906eac27aff426d62709435fd160f5e30942ad644b611e922c7d509fefd4a00000000000000000000000063135d55d468d6ef,
   0x0000000000000000000000000000000000000000000000000000000000000000190492c00000000031db330393cec143970cd5caf079b468b256ea3c6477241a9bf2502bc95b5e9591c80e5cdccfc218e946399f7cb701335cc3c459c7559b5c1d7c518c85b1448e0000000000000000000000000000000000000000000000000000000000000000000000000000000000000000000000007a0300005f99d0000fbcf6c7919c8c05f59f99d44e77dcdbc0b68d155780b049c55906eac27aff42e125c8db025dfdfbf9851418d1bde8bf568ef0b843f404980100000000000000000000006313668f2a38258e,
   0x000000000000000000000000000000000000000000000000000000000000000019049b3500000000ef1ccea71ecbaba2bd6bd65b5fae19946d334bf04f189b94150a105814d361d566d2b0509ddeb58f275b264a852850e7a72e538f664285bb1ce7e4ac455f33af000000000000000000000000000000000000000000000000000000000000000000000000000000000000000000000000ba010000a1e2d1000fbcf6c7919c8c05f59f99d44e77dcdbc0b68d155780b049c55906eac27aff42e1ef92c922efa9abb9f45ac38ef6748c765953cec6c4edf4010000000000000000000000631367ab5b2da2b0,
   0x00000000000000000000000000000000000000000000000000000000000000001904b4c900000000d745550fbee7fa204976784011792f6972c8dbb73a8ab282dc17bc84a3ab467fc61f8a248a19f47686112547354abbe3226f4c5d35f7515068e2d36d810d1c25000000000000000000000000000000000000000000000000000000000000000000000000000000000000000000000000ff0000003829d3000fbcf6c7919c8c05f59f99d44e77dcdbc0b68d155780b049c55906eac27aff42c1b203a74dfa838a3855a8d0907a6593c2e69c5bc5c3778901000000000000000000000063136b6e6af09861,
   0x00000000000000000000000000000000000000000000000000000000000000001904a9ab000000004f6525205d3491c0d4545be65236aeaff2a937294ced88d2ba1c4af5c579e825414d15e1fba2c8f5501142fe0bf92005fcd3843133f8d29b85edc106a56e926300000000000000000000000000000000000000000000000000000000000000000000000000000000000000000000000066010000066123300fbcf6c7919c8c05f59f99d44e77dcdbc0b68d155780b049c55906eac27aff4214e0c710dcb72552164fb49f50e75c23d46386044c41ec1603000000000000000000000063136c5ccd25463c,
   0x00000000000000000000000000000000000000000000000000000000000000001904aab7000000003b88cfbc03c94e460e71f64b5def8f00d391c97f79351bbc20db695ce131e94e2667e4e5d6ab2096b36bdd3e325d2a0e245ff8aa4f6ffeb84bb54fd113399e210000000000000000000000000000000000000000000000000000000000000000000000000000000000000000000000007e0000001bca11710fbcf6c7919c8c05f59f99d44e77dcdbc0b68d155780b049c55906eac27aff4248ca5f7ca72a672b95589a7d4ab0ccf7067cb2c73e756a4e01000000000000000000000063136dbbfbe41049,
   0x00000000000000000000000000000000000000000000000000000000000000001904ab0c000000005291662530318bf35aeb48c4d4b24d4ad7548a8d4b07c01834eb4e410f1f607aac6f347aa7e255cf1e28196f7adcde2aca372f25915e9e3a3f94ed6e2c27b945000000000000000000000000000000000000000000000000000000000000000000000000000000000000000000000000280000002eb59e6e0fbcf6c7919c8c05f59f99d44e77dcdbc0b68d155780b049c55906eac27aff42b7b9c4ab7361485e3ed60485037b830c3c1de532043292f203000000000000000000000063136e0e160edc42,
   0x000000000000000000000000000000000000000000000000000000000000000019048635000000000b754c0d67be0bdbf56557171b55c32b02faa56759d9ff03e80853107ea4976276a9624c866cbb2dfb69107bf6a9ed7ecc758a74f4d008bc49af884d5dbac9430000000000000000000000000000000000000000000000000000000000000000000000000000000000000000000000003c030000312ed2000fbcf6c7919c8c05f59f99d44e77dcdbc0b68d155780b049c55906eac27aff42325ae887f138971d8e7badf442bb28694eab99c9e6b730c5030000000000000000000000631372c31aebad3d,
   0x0000000000000000000000000000000000000000000000000000000000000000190486df000000007a5a352fd866d27fd57ba0582b79b9c4b3c8617c52c61447b2993f4fe57db5570824772cd420594aa5a3ea3597187f653ab7ab9c60df14d4feec61259ff70ce500000000000000000000000000000000000000000000000000000000000000000000000000000000000000000000000054000000efb6d2000fbcf6c7919c8c05f59f99d44e77dcdbc0b68d155780b049c55906eac27aff420077b396ddaf2be774b9dbb15c2f1e479056d2b2b85d9c1903000000000000000000000063137991b10e1165,
   0x00000000000000000000000000000000000000000000000000000000000000001904920f00000000ac68b6a395b56a3b46abb12cb49080a8a5cba83af06463d0f221d26a6234ecc3882e732c74c4afe9cbb61ca7b8f3ee06d95ba595b30e19e51650f6ca672b61a00000000000000000000000000000000000000000000000000000000000000000000000000000000000000000000000000601000056f1d2000fbcf6c7919c8c05f59f99d44e77dcdbc0b68d155780b049c55906eac27aff42983914967880749f014f289713640581c6e4c2b25eeb0c87010000000000000000000000631379aba4640cb7,
   0x00000000000000000000000000000000000000000000000000000000000000001904a6bb00000000e70cec029d608bef2eab09872dc36e76eb3840bbc9e80c61a2db8ccc0ee09765b58a3a461d48d33a2d0c0e827871008db7785ef36cd0fe63e614552aa522fb8700000000000000000000000000000000000000000000000000000000000000000000000000000000000000000000000044010000d60724300fbcf6c7919c8c05f59f99d44e77dcdbc0b68d155780b049c55906eac27aff424f8e4312813092d5557750abc832f341b812457c1d5d5a1703000000000000000000000063137b3e692e38aa,
   0x00000000000000000000000000000000000000000000000000000000000000001904a40e0000000031c7aa4bfeeb9cd44b8dd898e59feeb01d14d030e566b299dfd957f813a05e39f0c1ff6fb63787a05d085542716263c47a04863905b3e883671201263d5bef5700000000000000000000000000000000000000000000000000000000000000000000000000000000000000000000000043000000cb5dd2000fbcf6c7919c8c05f59f99d44e77dcdbc0b68d155780b049c55906eac27aff42e2065ce0c43346c8b0a595487e6de36a0654b112d548be7f04000000000000000000000063137c383cf47528,
   0x00000000000000000000000000000000000000000000000000000000000000001904a56900000000edeea80de6bb55339ad931a2d64ca08d4a623db75eedb7c9637247a0dff51e4efc9776c7d9db02d9e839061f5ce817689858b35d429e0d499d13c031e3ecbbd20000000000000000000000000000000000000000000000000000000000000000000000000000000000000000000000009a000000bb769e6e0fbcf6c7919c8c05f59f99d44e77dcdbc0b68d155780b049c55906eac27aff42617745761361794b36a78b6b4d5d80a95b7bd326bca0f2f700000000000000000000000063137df1be3f747b,
   0x0000000000000000000000000000000000000000000000000000000000000000190490ec00000000acce5f195dc65043461ed941c857633851cee2a017def1d9967cb85934060d71e1bcc04b8f680528b4005d8e209e35b7c643faeca9f55047716eff1c384c5ae30000000000000000000000000000000000000000000000000000000000000000000000000000000000000000000000002700000073cdd1000fbcf6c7919c8c05f59f99d44e77dcdbc0b68d155780b049c55906eac27aff427e0be8ee556aceb65549ba752de8b916dd09c6208d338f9003000000000000000000000063137f8a78804b5d,
   0x00000000000000000000000000000000000000000000000000000000000000001904957100000000c4aec99a92cadbbe95e73676f73429d91445696b4734ff1e910d87d7b297dd97979794073887dc21c0bde58bfb1823fd6427e86c5ecf501958b45de3cb9565560000000000000000000000000000000000000000000000000000000000000000000000000000000000000000000000005e030000edb6d2000fbcf6c7919c8c05f59f99d44e77dcdbc0b68d155780b049c55906eac27aff423fbe716777bec99d494e98072881e11ebb0cd7715732a2e5000000000000000000000000631380c118398ede,
   0x00000000000000000000000000000000000000000000000000000000000000001904987f000000009e12dfe9977a87aaa273a09e4b2fe01c144a389483d338b5e92b9bd47b5d1ebfbbf01079fbff16c44941cf3403ae0e2de280031a3e6b20588cc92ad7b5f7455e0000000000000000000000000000000000000000000000000000000000000000000000000000000000000000000000004b010000b95822300fbcf6c7919c8c05f59f99d44e77dcdbc0b68d155780b049c55906eac27aff422bcdf70866058fbd9154f2ace20fb0ffcbf8cf1539c92b6d03000000000000000000000063138604d399e5b0,
   0x0000000000000000000000000000000000000000000000000000000000000000190499ac00000000e7eea7118cdb5f5689e5bbf02bca0cca2875a64c12f2a8ec5df3276ea1fe3e9ee97de5b3bb9d3966012147938c08e32759de045e84e5d66bccc8801bd3102933000000000000000000000000000000000000000000000000000000000000000000000000000000000000000000000000100000008331d0000fbcf6c7919c8c05f59f99d44e77dcdbc0b68d155780b049c55906eac27aff4229603b8811ec3254783f2cd860ee65776f84508452d23817020000000000000000000000631387d4d8753c95,
   0x00000000000000000000000000000000000000000000000000000000000000001904a10600000000e1842265acf183cbad4ae330f38005af577b487abcf34dc148c251ee961dc10b951787269dff7005228ebcd6a9588a84938a8573ae9d6d0274390dcb3e88c77a000000000000000000000000000000000000000000000000000000000000000000000000000000000000000000000000060200001070d2000fbcf6c7919c8c05f59f99d44e77dcdbc0b68d155780b049c55906eac27aff42cbde7af94e81ff94f86f90cab105922c9951aa4b3302a12d0400000000000000000000006313882fd6c68720,
   0x00000000000000000000000000000000000000000000000000000000000000001904a668000000007a1452a6683fff0aef12e28b4a08ee0ff75a30e73eb022c5827723da4c89e20486e0b17ec396a8becf8e513393348c44be88d2300583e83f1b6e697c06d007df000000000000000000000000000000000000000000000000000000000000000000000000000000000000000000000000ff040000f76ed2000fbcf6c7919c8c05f59f99d44e77dcdbc0b68d155780b049c55906eac27aff42fd15aab65762acc8d7ffa946872819da2676b1b5f1df13c102000000000000000000000063138d24e6e2e518,
   0x00000000000000000000000000000000000000000000000000000000000000001904a54400000000ca623d31120b14ee1fe7232914b32f16cb6f3fbb5aadb4620cfd051f2d1d77d28d6486fa831c8e8005c137a11463f4d3bcf09bf317dbcefc262d7ba83016842d000000000000000000000000000000000000000000000000000000000000000000000000000000000000000000000000120000009d11d3000fbcf6c7919c8c05f59f99d44e77dcdbc0b68d155780b049c55906eac27aff427277abb93501edf2aa6bea2249df307d5f46dc68cd59b6d601000000000000000000000063138dca87067aa0,
   0x00000000000000000000000000000000000000000000000000000000000000001904b1bd0000000089f901eecc88f38d79992e5fa9c12aa75b04788142308d58b0ca23e331f6c72acf30e94c57c5eef05198a68f68ac089299052448d344f5d8bebbe9a53f84eb2c000000000000000000000000000000000000000000000000000000000000000000000000000000000000000000000000e60000009d11d3000fbcf6c7919c8c05f59f99d44e77dcdbc0b68d155780b049c55906eac27aff42c5eacf3f1d7d136e6f05ee964516d66b027a976d1e9782ce01000000000000000000000063138de6201a5b98,
   0x00000000000000000000000000000000000000000000000000000000000000001904b02300000000df39829c88949bb61cc0d45064815fecdb8cb1e812b831fc88e4a76fecf07234641942f26cdf83a7504c15b7dd5c0db5a18a4e347960a24abcad3ff2990d7bde000000000000000000000000000000000000000000000000000000000000000000000000000000000000000000000000ed0000001168d0000fbcf6c7919c8c05f59f99d44e77dcdbc0b68d155780b049c55906eac27aff423ca72cd43ba87289840d81f423a67994b00e6af8104102ed03000000000000000000000063138edff0ff0840,
   0x00000000000000000000000000000000000000000000000000000000000000001904ae0d00000000a296f75e978c9a79b2b419de0900017346f9e6690f60235cda553bd2a34d9806e9af70feb4bcb39acb9cd4f4145138522d13bb0fd2a885c346111ef9039596ee0000000000000000000000000000000000000000000000000000000000000000000000000000000000000000000000008c00000073cdd1000fbcf6c7919c8c05f59f99d44e77dcdbc0b68d155780b049c55906eac27aff4230a6cad6eb0d546e5cab2b00e47d5c8be1307d1d7f0d66b9030000000000000000000000631390d2d873415a,
   0x00000000000000000000000000000000000000000000000000000000000000001904af9600000000741ec787a5f03c99c29108713456462055af17450d2767e74f97563c18b92d1fb1412f5f1c3de2b32291a33aeae0266b9490085731882686925ae55a28db73340000000000000000000000000000000000000000000000000000000000000000000000000000000000000000000000001d000000985bd3000fbcf6c7919c8c05f59f99d44e77dcdbc0b68d155780b049c55906eac27aff4207a636adca8b9cd4f0d8a261aadfaeaa922c8d33a202ff61020000000000000000000000631391df544c119e,
   0x00000000000000000000000000000000000000000000000000000000000000001904b4b400000000b319e756584c3dd0e88768fe04018b10c5e26561ca11270e1701c7a1b75735bada28a9b555ad3238ea2e34003bd19415aa8c6a0b25497c560a717bd01ead74cd0000000000000000000000000000000000000000000000000000000000000000000000000000000000000000000000002e0100003988d2000fbcf6c7919c8c05f59f99d44e77dcdbc0b68d155780b049c55906eac27aff425a6038c017cc87ec65b6f87b2cc2c01cc421a9078c099582020000000000000000000000631392999fe400a2,
   0x00000000000000000000000000000000000000000000000000000000000000001904b9220000000054b5052b79d985f505620283d6907f90c4dd0dcc789e127517095bfb35d1b6551a8e12eaf8d3abf82ce6838c051ee4ca541ff43d19497f24556a072d3c1abcab0000000000000000000000000000000000000000000000000000000000000000000000000000000000000000000000009900000072ded2000fbcf6c7919c8c05f59f99d44e77dcdbc0b68d155780b049c55906eac27aff421149c987fd2d95a944192079b0344b7508c2e092158a7a1b0300000000000000000000006313963066fcb9a8,
   0x00000000000000000000000000000000000000000000000000000000000000001904b71400000000a5c1f4301ee5c4f330b75c3a69f1174f72412fee1a99cd2d81e9ccc7a32aba554ce5ceaa8553cfa696cb8b84d1fb466d73ed0bee21d13cd7683acee7490248c700000000000000000000000000000000000000000000000000000000000000000000000000000000000000000000000095000000d77fd100e55e0ca1f1fb0c793103a93939122c2df0b308d90fe3ba015982665f66c2c785c8a23f79013cbe0d940bb429d52dba0a1b4f62a9f30241b1030000000000000000000000631398eedfba526f,
   0x00000000000000000000000000000000000000000000000000000000000000001904c13b00000000ceafcbde01faebcb802b5b882e7926a098cb573fc985faa04a8b325a2dd4ff297874b1c82edb08687923bda89c7de41d6c72782cc0b4ceb87154068656bc5f30000000000000000000000000000000000000000000000000000000000000000000000000000000000000000000000000f9040000acd5223ce55e0ca1f1fb0c793103a93939122c2df0b308d90fe3ba015982665f66c2c785f79eb10076dcafaa626203182dfa19a30633ff4bfad1eb400300000000000000000000006313994a0ef91a0e,
   0x00000000000000000000000000000000000000000000000000000000000000001904ca3a000000005b4afcd31384cf8fa0c083716214fdb4c7f891c80652656918f200b94894557170a2081c617bd488fce342755b77a84878b720f9e0e0aabdb8e89881e7cef381000000000000000000000000000000000000000000000000000000000000000000000000000000000000000000000000100000008e58d200e55e0ca1f1fb0c793103a93939122c2df0b308d90fe3ba015982665f66c2c785511de100ae8d1d6b5006838390dd613beaea56c00fcee76400000000000000000000000063139ae474a041c0,
   0x00000000000000000000000000000000000000000000000000000000000000001904cb16000000007722e617fef87fda9c004dc9a3eac637f8797b836c15e8a1b02ce150b62618fb592f9899bc70d738f140ad3b1e4508e7ee86b5cb42f3697d0e884c41f89760e0000000000000000000000000000000000000000000000000000000000000000000000000000000000000000000000000330000001a99d100e55e0ca1f1fb0c793103a93939122c2df0b308d90fe3ba015982665f66c2c7854fb441a6e2a44e7a937d0d5115848623d1ec4eb4839ba17703000000000000000000000063139ae8092442e2,
   0x00000000000000000000000000000000000000000000000000000000000000001904b7730000000023579528b4cccd0c7264b474a06218eecbb7db20afcd9c57977278d9700e990c71f7a174b704e859e1e81e7257c5d34160c77c8da31daff1b9ea5a052fe0aa3a0000000000000000000000000000000000000000000000000000000000000000000000000000000000000000000000009802000022bfc800e55e0ca1f1fb0c793103a93939122c2df0b308d90fe3ba015982665f66c2c7853fe33edfbacd075589cb510ded7e210b86be84caa9f7f8fd00000000000000000000000063139bc11e61335c,
   0x00000000000000000000000000000000000000000000000000000000000000001904a1e100000000f5e391d5ba021c980a4732c05ab6d7854d4069acc592f9dfcc6c84a15f2720cd82c2922b8dadbf5858ea08c64aee9af18892f99d399a285758210a12f6f1b34e00000000000000000000000000000000000000000000000000000000000000000000000000000000000000000000000042010000d3e6223ce55e0ca1f1fb0c793103a93939122c2df0b308d90fe3ba015982665f66c2c7851f944cd83662e9a8867bf2bd78a0f31265b587ed210375b003000000000000000000000063139ca8bed559ab,
   0x00000000000000000000000000000000000000000000000000000000000000001904a13500000000e6431cabadbc7f806cbb846b50ebf229d55d99273623df4910956f1ae2f61a7b31c44daf0ac6d2d857980d215510d4295dba94c3fe539220af25f8babcd8a3850000000000000000000000000000000000000000000000000000000000000000000000000000000000000000000000005a010000345fd200e55e0ca1f1fb0c793103a93939122c2df0b308d90fe3ba015982665f66c2c785795c5e56676af818fed19661a8e618c1a106723c74a3553601000000000000000000000063139e1de089e298,
   0x000000000000000000000000000000000000000000000000000000000000000019049d2400000000e00dbf169d468b42f982f312f7c897be8bfabb4b714d5d56daf9cbba048ac2bd7e8a143f1099a59493d7f3b44a840ca1210c18e88d7bd415bcbd17102b947d5e000000000000000000000000000000000000000000000000000000000000000000000000000000000000000000000000fe000000d307d100e55e0ca1f1fb0c793103a93939122c2df0b308d90fe3ba015982665f66c2c7855b71d7bb37be14cd36e71af068fb94945021139928d9d9000000000000000000000000006313a00ae2ec58f0,
   0x000000000000000000000000000000000000000000000000000000000000000019049b0100000000679773af52a56044096f025e35c84ca737339cff757975782114fc2bc125e323490c40b4e15d7352f5faac5fc723f03d2fbe137117978bfe102e6733e7335dc2000000000000000000000000000000000000000000000000000000000000000000000000000000000000000000000000e4000000e5bcd100e55e0ca1f1fb0c793103a93939122c2df0b308d90fe3ba015982665f66c2c78595b68e4b9557f4f77f20b9550920f0abaefc57c132df2ec10000000000000000000000006313a0b03816932a,
   0x000000000000000000000000000000000000000000000000000000000000000019049b0400000000174722f0bc3dc671d0bd0e1350f2a78b208a4a6be1a36400da3c153a0bf2d572f20b5f9e7321904611d5a4cc8c247c01ba17d75055d63ee107e845111afcde050000000000000000000000000000000000000000000000000000000000000000000000000000000000000000000000007f0200007f4ed000e55e0ca1f1fb0c793103a93939122c2df0b308d90fe3ba015982665f66c2c785ecd4a6a56c1c7f5ce447da8f6ddec7850f23d5b8a5b5e7770100000000000000000000006313a2d276882e20,
   0x000000000000000000000000000000000000000000000000000000000000000019049e03000000005d5283591562b3a83c3cfa7c9eea07f6201e1f8ac5ca136b58170d463547ec16efeba36d306b57c6199152bac20831e34d8f285a87944d5397d2233db637e6980000000000000000000000000000000000000000000000000000000000000000000000000000000000000000000000001901000038ad223ce55e0ca1f1fb0c793103a93939122c2df0b308d90fe3ba015982665f66c2c78526ea07bf983a02f3d2b4e576b860d16a2e9d0df5796e26600300000000000000000000006313a3590c9660f7,
   0x00000000000000000000000000000000000000000000000000000000000000001904a6500000000015d6f7dc83c3af9da4ffb9bca4033410c063a2b35e00843470f0cc986317368f31b06a1fcff843a1ea59d9e0a040bb9e4f87c0e52542f4c95f92ee1f1cdd0939000000000000000000000000000000000000000000000000000000000000000000000000000000000000000000000000d20200002abdd100e55e0ca1f1fb0c793103a93939122c2df0b308d90fe3ba015982665f66c2c78519731159c07717122febe0f95c7dc6da79ccefcb71e304540200000000000000000000006313a51c665c6834,
   0x00000000000000000000000000000000000000000000000000000000000000001904a2f8000000005250e80ff1c699430d9201250cb13e36c6885018653dce265f516b56fec9b631da5a0e074f43981b299060531da2856fa631cc5644382e8172fcc85f2a7b34ae000000000000000000000000000000000000000000000000000000000000000000000000000000000000000000000000b20000001e442430e55e0ca1f1fb0c793103a93939122c2df0b308d90fe3ba015982665f66c2c78506e1f33eb6a2ad7a39015f0523dbe83aa1d7406eb32e7ed40100000000000000000000006313a6035f55cf50,
   0x00000000000000000000000000000000000000000000000000000000000000001904740f00000000a8e88cc5e558497679632c1278244b7c453f6f78cce145bf4a4213b5dd960e45fa8d578c629aac9b1d15b1676e09d48719c27df2a6d3c1bae9c3f9f8d3d5efb600000000000000000000000000000000000000000000000000000000000000000000000000000000000000000000000048010000f0d29e9ce55e0ca1f1fb0c793103a93939122c2df0b308d90fe3ba015982665f66c2c785015a2ff777ae1c2f96073a84cde2f6f7761506c9bcd383100100000000000000000000006313a89990d8bf60,
   0x000000000000000000000000000000000000000000000000000000000000000019046d1c00000000581a0f2c4668560607de5878bb8287dd03a143f66df774a256ca545197150846aa14bb279ecd82ec95835c0335ef11dad85c31d8a5a2cd68f1c3c89f717e25580000000000000000000000000000000000000000000000000000000000000000000000000000000000000000000000002f0100007665243ce55e0ca1f1fb0c793103a93939122c2df0b308d90fe3ba015982665f66c2c785b6bb0fd36cfa83866dbfa8de2a0111938898bf78439248180400000000000000000000006313a97890483e6e,
   0x0000000000000000000000000000000000000000000000000000000000000000190465f600000000873d0b666b48fecd192a7e2d1a96224e0fa6744b52efb72324a550e97f2a2a512b685da202bfaccb86b1d2a02d2a97aa093dcc0ed14ff9ab4de73731387d53f1000000000000000000000000000000000000000000000000000000000000000000000000000000000000000000000000300200003d41d300e55e0ca1f1fb0c793103a93939122c2df0b308d90fe3ba015982665f66c2c785fd60bef8b97f05855a10796f02a8cac75a0d8937443b15b80100000000000000000000006313acbb4978b0fb,
   0x0000000000000000000000000000000000000000000000000000000000000000190467390000000008cbee0ca39c853f30ba6357681cfc90c32fab8e85584d54778f13536e323697b14307aef6a9ef1eb45a176f5b47aad96a25f9741c6cd6c18f1a4673203f6ff80000000000000000000000000000000000000000000000000000000000000000000000000000000000000000000000008a040000c466d200e55e0ca1f1fb0c793103a93939122c2df0b308d90fe3ba015982665f66c2c785c6a10b7a45e21ebc9cd82ff7537a1f892103fa0e8edc4f220000000000000000000000006313afae0b435eed,
   0x0000000000000000000000000000000000000000000000000000000000000000190470fc00000000759d4f689f94cc19927edd9bb659ecdf481ea10f24ad30c27aa6d733bb52e09128b74ad4873028d13c9dbe98d681c320066745c4e84a4ee7e2b231658e40f9e7000000000000000000000000000000000000000000000000000000000000000000000000000000000000000000000000fb000000998cd200e55e0ca1f1fb0c793103a93939122c2df0b308d90fe3ba015982665f66c2c785bd5ef99443993e0566d26bf96ff5ddee92252ad0274e79790200000000000000000000006313b04e9af94acc,
   0x00000000000000000000000000000000000000000000000000000000000000001904750b0000000099ec39ee6ae35d3257d9a52785c841a66a7e4f9ac7c67b92850f7a729e7dddabecfc97e35c78d3bbc655163381126c295d115eadaedf2617cfc8ad747df86dd0000000000000000000000000000000000000000000000000000000000000000000000000000000000000000000000000a90200007c039f9ce55e0ca1f1fb0c793103a93939122c2df0b308d90fe3ba015982665f66c2c785df9ca10b7c9bf3d64a10a7f8acdc044090d7cca4f0b86af00300000000000000000000006313b0c41dbf0988,
   0x0000000000000000000000000000000000000000000000000000000000000000190464b2000000000c743ded7413a0ae0780b798ad42d394cb4e3ee86ea0a933ab8c5aeb16c6e2ed41757f452ac925831d2d2493ea5a65a8818149e362a7ccd267c9868872d17e1f000000000000000000000000000000000000000000000000000000000000000000000000000000000000000000000000490500006b69d000e55e0ca1f1fb0c793103a93939122c2df0b308d90fe3ba015982665f66c2c785d8789b570a05608779e89ad8137ef0bffc0ddbe87df438160100000000000000000000006313b3b7c79d3743,
   0x000000000000000000000000000000000000000000000000000000000000000019045f810000000001cc5379f2782ea26ccd398c819c853270c4b4a47c3baf418cc91ec84be7f5bfc86a77910a7e1fd53d5c69ceb3efe43e1020341b72f3c365f4472cef12dfc5f800000000000000000000000000000000000000000000000000000000000000000000000000000000000000000000000056020000e4a0d100e55e0ca1f1fb0c793103a93939122c2df0b308d90fe3ba015982665f66c2c785793048655a4adaef0387991bb6e3f45f5d15bed2981e68170400000000000000000000006313b57cda0b87f6,
   0x00000000000000000000000000000000000000000000000000000000000000001904644b0000000097fcaa7c30f56a260572b5a700f8ffe20c5a707bdcbde115ef69d6691c7a20999d76ba677dec01f7ebfcc6a4bbc377fd75896d908bb8eeef049945dc61b914cf000000000000000000000000000000000000000000000000000000000000000000000000000000000000000000000000130000003d49d000e55e0ca1f1fb0c793103a93939122c2df0b308d90fe3ba015982665f66c2c785b1f474c27d9e318c264219a83729a82b7143b9a520b0366e0300000000000000000000006313b63e76109036,
   0x000000000000000000000000000000000000000000000000000000000000000019044fb60000000074b4fd3f2f71d9299be08fd7e946510d1012a67cf857fbc7cbe21fc8e8eb13942b0f78546f7060a4a495bad891297d288cb5f2f796794541e79efae75eb8629f0000000000000000000000000000000000000000000000000000000000000000000000000000000000000000000000000f00000093591572e55e0ca1f1fb0c793103a93939122c2df0b308d90fe3ba015982665f66c2c7858eb010cc952198721c18bf333e81664cfe2c929e0b57dc790200000000000000000000006313be7607126f22,
   0x0000000000000000000000000000000000000000000000000000000000000000190441cc000000000033c33173fd37004cfd708b73be0809fbb850ae9d889f9aaa69be0aff9500436f31e1ee98aada8271fb4a67f34dd6bdc83b79368e804ef616e65cb38be0537e00000000000000000000000000000000000000000000000000000000000000000000000000000000000000000000000023010000351d656ee55e0ca1f1fb0c793103a93939122c2df0b308d90fe3ba015982665f66c2c785ad993867a1c6b237f784192917af53867b8de339f57bc9820200000000000000000000006313c07dc114a008,
   0x000000000000000000000000000000000000000000000000000000000000000019045d6900000000d61ac35166446987a9fd90ed89297c61aa2b1bf2e3ba569ff60e3c8de0f5f0b2f51e18261b9860e5905bbf82063b7857fc5cb0ed38f3c4f467406a52b52f7c330000000000000000000000000000000000000000000000000000000000000000000000000000000000000000000000003c000000d19a243ce55e0ca1f1fb0c793103a93939122c2df0b308d90fe3ba015982665f66c2c785581c5763ed486c19bd867dff450b8cc270d98b8177c005440100000000000000000000006313c157716abb67,
   0x000000000000000000000000000000000000000000000000000000000000000019045d82000000001026c20fa2408915ca188fd9f82eea1fc38d735c0b339ed0770d67e9afa00e2abe4fa9dd43e000e843ab2a925c2075b837c710d76a553281cc44df6f71aafba40000000000000000000000000000000000000000000000000000000000000000000000000000000000000000000000007c0700009351243ce55e0ca1f1fb0c793103a93939122c2df0b308d90fe3ba015982665f66c2c785f4f00995f249a5ea77036e40296b42a0d1e97057b90d708b0000000000000000000000006313c2763b0c3d93,
   0x0000000000000000000000000000000000000000000000000000000000000000190453a2000000006b73b6b77e196a51d4b8d869f37505103942c1ebac2998bda45e420f84922e1a9e10f196620007dd799ce79070d48757ab00c0673114e2e415b4022ccf655adc0000000000000000000000000000000000000000000000000000000000000000000000000000000000000000000000000044f503e3292130e55e0ca1f1fb0c793103a93939122c2df0b308d90fe3ba015982665f66c2c785627331e44e2df01e9db05f2b9c89031d388e439836f0a9090100000000000000000000006313c826f110a999,
   0x000000000000000000000000000000000000000000000000000000000000000019044bdd000000008e1ecec1ffebcb11c9734ca8b895ecfda570d2f30c479c01942f04a3ec9ce5ecf7db15c7017325556158d32f990a7b0c552a67ca48d5171d80f499430f295aa00000000000000000000000000000000000000000000000000000000000000000000000000000000000000000000000000001353ad5a5c900e55e0ca1f1fb0c793103a93939122c2df0b308d90fe3ba015982665f66c2c785bf931cd5550117139c63077b1b6dfad5289ee8a728a8a62d0400000000000000000000006313d4e32497b412,
   0x00000000000000000000000000000000000000000000000000000000000000001904567d0000000030beefead328ad4f38e9b577212197de2c291b4fbdbc3d660e09afe61c34ca84e828a4f6b8b32f84cacb7c56daf6a1d1a388ad84b6eb28a885510df808df068e0000000000000000000000000000000000000000000000000000000000000000000000000000000000000000000000003f0200000b16d300e55e0ca1f1fb0c793103a93939122c2df0b308d90fe3ba015982665f66c2c78577f0dc07a07c7a404391d59b960ad8111ac0d2f43177cfc70000000000000000000000006313d65f6e7ef6c4,
   0x000000000000000000000000000000000000000000000000000000000000000019047a71000000008a071de439cb4053c67aff5ba953b23d88a43e2e97ede8c9fe621e63f660a199de85257373ce51591a394550a3a8e75e439c5fdb063e883ff70ffebcb735488a000000000000000000000000000000000000000000000000000000000000000000000000000000000000000000000000ac010000837ad200e55e0ca1f1fb0c793103a93939122c2df0b308d90fe3ba015982665f66c2c7859b120c4facba57c5185daf2a0c298ae2b695f11672f1fcb00200000000000000000000006313d76f4562d56a,
   0x000000000000000000000000000000000000000000000000000000000000000019047b1100000000007c6d5a67adb0e048db250565162460484ee6495f1b2372b1b48c71a935e97ba5141ee2318fc8a5a5d3620a32dc34bb5641ad2e8eb35d493749214582250fc2000000000000000000000000000000000000000000000000000000000000000000000000000000000000000000000000c90400004683d200e55e0ca1f1fb0c793103a93939122c2df0b308d90fe3ba015982665f66c2c78599a19a3cd8e2b03298af12c1180433330e949f0e8afdc4360300000000000000000000006313d9191f4ec7c8,
   0x0000000000000000000000000000000000000000000000000000000000000000190460fe000000006708ffc6cf4f441e32e74e6ec0f2c82e8b89dfc94b1c279502febdbc935e6315e34036cb77cb645c8600f6890124f773eb2dd8c40f723b9356a94d244696048b000000000000000000000000000000000000000000000000000000000000000000000000000000000000000000000000ae0000005285d200e55e0ca1f1fb0c793103a93939122c2df0b308d90fe3ba015982665f66c2c7857c67e874857d9bea3263e73431f39ce780b7cfb247c537bc0300000000000000000000006313db08487fbb38,
   0x00000000000000000000000000000000000000000000000000000000000000001904627c00000000cba96055c1680c43cf870f6ac59a4bae9be1b8de946a3dba23c36c7de59815c9515ea569efad5f54b8422024eb94741199d8e00d59fcb26eb7f604e3442e023d00000000000000000000000000000000000000000000000000000000000000000000000000000000000000000000000052000000be432072e55e0ca1f1fb0c793103a93939122c2df0b308d90fe3ba015982665f66c2c78505fd647e29ba655859c88ecaf81976e0bf4edc7679e45a7f0300000000000000000000006313db9fb5ab1f02,
   0x0000000000000000000000000000000000000000000000000000000000000000190465c600000000e18851208fa15b002c60d2b70340f3fd975770fd8a6d917996f87d0e07a5021b94933b2129c874906e4d9d934337e328aac04023e2c63838128394f76b0efc8f000000000000000000000000000000000000000000000000000000000000000000000000000000000000000000000000580400008376d100e55e0ca1f1fb0c793103a93939122c2df0b308d90fe3ba015982665f66c2c78540a51749a1b642f0d29180e89fa9bbfca5f30e3855c0c8990100000000000000000000006313e26389565ad6,
   0x0000000000000000000000000000000000000000000000000000000000000000190464d500000000bc78bb1f448c151f95f43eca8c4c50829039a9b07149f7f0bcc7123df6d5cb7844b397e7492cade3270ea6393c766eed04dd892205862effdb5ded16c76f0ee10000000000000000000000000000000000000000000000000000000000000000000000000000000000000000000000003c5b708f90a60000e55e0ca1f1fb0c793103a93939122c2df0b308d90fe3ba015982665f66c2c7856d7220b3740ada8af441e124d2758baf8fa567b83171cf7a0000000000000000000000006313e4e2a6480379,
   0x000000000000000000000000000000000000000000000000000000000000000019046fc50000000060835d152f163cd0752e182f229763445ea03fe604d9344c7f1b82c35f35005392f5b58b93698b99d403069cb82ff046a698b149b471807af1d69147600907dd00000000000000000000000000000000000000000000000000000000000000000000000000000000000000000000000017000000b40fd000e55e0ca1f1fb0c793103a93939122c2df0b308d90fe3ba015982665f66c2c7856381305e886d1d9382f3dab8b4fe291c60d620f4438ce70f0100000000000000000000006313eae03a4771ce,
   0x00000000000000000000000000000000000000000000000000000000000000001904767500000000c7cd87cf0d533ca2e1f37a87544de29fc8e6c0f34ac14d59204f0097f569b4a7336c8b3a7136178640c2d1ab579552b90991db02dc3edb0e12d4327520564cd2000000000000000000000000000000000000000000000000000000000000000000000000000000000000000000000000370000004038d000653a5708727010b55ea35224272c976125beceac29833856ea0c36e0360202b0e4fcdca71baf950d7392a3ae96e3cf5980055ac6c5c00d2f0100000000000000000000006313ec8fa44ef488,
   0x00000000000000000000000000000000000000000000000000000000000000001904893e00000000e326c8712a56efa2b7428e465f29ed678bf96f84fd6f5dd6fb69bc43af2447da884b2c960e8611d0680a40cded884d0d83c9c2efe763ea448b2f5dd644e1c2d20000000000000000000000000000000000000000000000000000000000000000000000000000000000000000000000005a00000067c2d000653a5708727010b55ea35224272c976125beceac29833856ea0c36e0360202b0d8031069d549dc7743de3629febac58a85b04bda0fa068580300000000000000000000006313ed6b21ffbec6,
   0x0000000000000000000000000000000000000000000000000000000000000000190484c100000000aa774b53c75a2723be7d9d12ce38cc425b667283a12019be7b6557e9ac949ab24a35ae5987ef11d734f66464ce81bee70d1f8223a26d9e9792e6e067560964bf000000000000000000000000000000000000000000000000000000000000000000000000000000000000000000000000f50000001f88d000653a5708727010b55ea35224272c976125beceac29833856ea0c36e0360202b09a3a6781867cf72a9ae8303c87ea5142c8de0b81246631ca0000000000000000000000006313ed8d8306eb31,
   0x000000000000000000000000000000000000000000000000000000000000000019047d1900000000a9383afe16bcb37a70bcaee2a5066bccc22b064f354287180184ef787e91f96a28ec574586f6afbe9840c1eabb4b362a0a5be2fd4031fb1e9b1827612b5301f70000000000000000000000000000000000000000000000000000000000000000000000000000000000000000000000002200000034809f9c653a5708727010b55ea35224272c976125beceac29833856ea0c36e0360202b0a94639da03ca310637c090b2ef86a199751ebbfead01b4230400000000000000000000006313f102097554c0,
   0x00000000000000000000000000000000000000000000000000000000000000001904711b0000000034880ed240465a9ae1ba4318dc5e7376c4b85588948f5a8c68369da938610ba057bd48d97c8c062243a076cf1a00e746c68139f5e3ec64cc6df86e33f4d31a3b00000000000000000000000000000000000000000000000000000000000000000000000000000000000000000000000046000000677be8d3653a5708727010b55ea35224272c976125beceac29833856ea0c36e0360202b0a7c90a0da66cade38f5e088f69d09795d8c8a92d63fe4d3e0100000000000000000000006313f4377abdf669,
   0x000000000000000000000000000000000000000000000000000000000000000019047991000000003d733a07371f5c81aec26f82d24e195773bf09e74a3174bad99a92b70f1848b642fdb1daaf5cb1d3abe5d2ba2f922c97e2696bdd87aee79b7132063efd567858000000000000000000000000000000000000000000000000000000000000000000000000000000000000000000000000dc010000a48c233c653a5708727010b55ea35224272c976125beceac29833856ea0c36e0360202b0d0f5a25f030147eb667c7a38468089e45612e8fabfda67570200000000000000000000006313f527c13c25fc,
   0x00000000000000000000000000000000000000000000000000000000000000001904773d000000004fbb08809f93e55b9590ea4b47aeaf883df4b35d4c5203a840ca64e2fe237ad67a26ca663d4a73599026c8ceb5a202bfe3b4dc416155d81076a88b3ebb0c50f0000000000000000000000000000000000000000000000000000000000000000000000000000000000000000000000000250100009716d300653a5708727010b55ea35224272c976125beceac29833856ea0c36e0360202b00084c6c5d0c97d871ce84a446c861d0618afd48cc27873e50200000000000000000000006313f8a8d2949535,
   0x0000000000000000000000000000000000000000000000000000000000000000190471c300000000172647d2eaac02115e59aec01ec4eff451f241d6114f1a371516bd613e66a4f12f7e57abf74314d14d50870ca385cb45c0cd7a4647ad20191733430033f4ed8c0000000000000000000000000000000000000000000000000000000000000000000000000000000000000000000000006d0000005d6ed100653a5708727010b55ea35224272c976125beceac29833856ea0c36e0360202b0fa6c9e58b983e6017a0dcb9a6d90ed06ccb941fe2121a9cd0300000000000000000000006313fb239eed914e,
   0x00000000000000000000000000000000000000000000000000000000000000001904767200000000675e9d4cdc95c3b7936b6b99d93ef5ed27c7c0da4e143eb58e15399f9c70543d5f2ded495fd616eb0b915d5b1ff57a50a1a3bac914d3f84ca8c74074dd55f773000000000000000000000000000000000000000000000000000000000000000000000000000000000000000000000000000000e9188da36e653a5708727010b55ea35224272c976125beceac29833856ea0c36e0360202b05058eabbd8068eda9d3916cbec04d0712f1b866deff1fb2d0400000000000000000000006314017d64e1489e,
   0x0000000000000000000000000000000000000000000000000000000000000000190465a8000000007a1ac376e550910da9df31cf4f6fe83bb98102aaaaa501661ddecb9f52d14ec62d3361621221f6e231c3ed2d4141f347f79b6141af642b70a91bba6decf61476000000000000000000000000000000000000000000000000000000000000000000000000000000000000000000000000a1040000c532d200653a5708727010b55ea35224272c976125beceac29833856ea0c36e0360202b0ca0712fe7848a9d266ed0168e4d1e469f37f60125ca699730000000000000000000000006314003ddaa32c1a,
   0x0000000000000000000000000000000000000000000000000000000000000000190467b2000000001b66f1011be0c2be8554bf05875b883f76e97e3694c0c0ac38220d13d326597659d4127306b2817cc1174d7c9bbbbbc26a383c3ce075f000df20fd620067a2250000000000000000000000000000000000000000000000000000000000000000000000000000000000000000000000002903000001a3d000653a5708727010b55ea35224272c976125beceac29833856ea0c36e0360202b0c0df26dad9914c19aefe0786256698890bc55415cbaf01000100000000000000000000006314027ef8524de6,
   0x00000000000000000000000000000000000000000000000000000000000000001904795f0000000005293b9dfa7a362e1c2228adf4bca532514d272bf261868f2e7a5312db44d42fde78f3089f770e67c4811ff596e1ec3f65dcf37d0dff24149edd7ba35cbb580f000000000000000000000000000000000000000000000000000000000000000000000000000000000000000000000000ad030000041bd100653a5708727010b55ea35224272c976125beceac29833856ea0c36e0360202b0b025b83064f9caf6ed9b32e9d73e40737d00d51fa6345d84020000000000000000000000631404acd89157d2,
   0x0000000000000000000000000000000000000000000000000000000000000000190468fa000000002e2e25b8bb17e5e2e178eb3189e22d0255c48261c08a06bcdda86213ae1ec92114a1f33d35f5d7ddc1aff41f08c09407e7d4a6333ed47b1d20a040fa755fa82f000000000000000000000000000000000000000000000000000000000000000000000000000000000000000000000000000031a5676ea09c653a5708727010b55ea35224272c976125beceac29833856ea0c36e0360202b06a22f7d2e943a5bb292e76bde1502b61d3b4e267d41f970602000000000000000000000063140b186945294d,
   0x00000000000000000000000000000000000000000000000000000000000000001904688c000000005259708176a24dd6caebb23aa0df42d201d473421bdc1825c97b37370b2b6f5c39e9a36b9a4a6b3389e70a06b36f81929c35a87370c3d8acc601fac0533ac9b6000000000000000000000000000000000000000000000000000000000000000000000000000000000000000000000000670400004278d100653a5708727010b55ea35224272c976125beceac29833856ea0c36e0360202b01a0a2df12523f78e094844d75980e7e63fce4aefd32d471803000000000000000000000063140f022780de61,
   0x000000000000000000000000000000000000000000000000000000000000000019046b00000000003cfc4b55a10352ced1e96847faa936b2f8dc5723806d8c4a74bc86740cf6dac86df43d286f2e016c2ed829aaf2c3328c3ee82c1d0eaf8fcddedcc05da26208350000000000000000000000000000000000000000000000000000000000000000000000000000000000000000000000009b030000b85bd000653a5708727010b55ea35224272c976125beceac29833856ea0c36e0360202b0b24636bc38a913e7d5666af83bae3e5a4e6a52407c9a1fe303000000000000000000000063141427f1aa8621,
   0x0000000000000000000000000000000000000000000000000000000000000000190468d600000000c9c2f6078f15f197f10c01e921ae5c8a688d798b263a5c7d7f88dc1110e84e70775274051e5457f17f8f5bd606a3873e8ba25716676fea7a8949dd7d55cb5c870000000000000000000000000000000000000000000000000000000000000000000000000000000000000000000000004d020000194fd100653a5708727010b55ea35224272c976125beceac29833856ea0c36e0360202b0cc7d2fffa86e7ad91bfba49f0ba57c775c6e7275340875e202000000000000000000000063141453e299484d,
   0x0000000000000000000000000000000000000000000000000000000000000000190478c900000000acb1c584e6adeb0b1dd41b94f45712d81b3406e2512c4844f13273818525267726779f788cceb641da78991c25312c54857916f1950c5479f540111fd499e9b3000000000000000000000000000000000000000000000000000000000000000000000000000000000000000000000000800000005d212530653a5708727010b55ea35224272c976125beceac29833856ea0c36e0360202b065b1c9ee22a69a5a58bf936914b571b7fdda915a96b4608400000000000000000000000063141e602f8c7fd7,
   0x0000000000000000000000000000000000000000000000000000000000000000190473170000000056954c0c3250115b9b333f82aa4b69ce160c1b400374ec12bc39f4eaf93e31f597b0a716190bc20d01b4e4d6cacee19f1c463fecf8807085666c8739b5b99c14000000000000000000000000000000000000000000000000000000000000000000000000000000000000000000000000f8000000ad2e9a9c653a5708727010b55ea35224272c976125beceac29833856ea0c36e0360202b05319a0628b66dcde0f9a4e882dcfd0ca21a9d110199e559701000000000000000000000063141f24ab661be4,
   0x000000000000000000000000000000000000000000000000000000000000000019048da5000000004f016f89f20f623faa21698425b1866002e2e8d1bbc950ef8bdd20d05248cffedc3be3ea95b818dcb0486fa75ef6c1ebcfa23022553df639033a72bc5d52a72100000000000000000000000000000000000000000000000000000000000000000000000000000000000000000000000069030000431cd000653a5708727010b55ea35224272c976125beceac29833856ea0c36e0360202b0684bc86d167ced3d5934dbbbad5c6dd08066a2666eb8f06f02000000000000000000000063142083c42833fa,
   0x000000000000000000000000000000000000000000000000000000000000000019048b22000000004a64db90ec4cf54fe761059fdb2d5ebb4c0c6c0129df58453146d3737af82f3e580e359ab97be763c0370e5de9df2e351ddcc88842d3fcc94f6bb479e08d83160000000000000000000000000000000000000000000000000000000000000000000000000000000000000000000000000b000000f3d0d200653a5708727010b55ea35224272c976125beceac29833856ea0c36e0360202b09b213c9460c29bd976773c0253b8f073289215df5aa02429020000000000000000000000631420cfee8c53e9,
   0x000000000000000000000000000000000000000000000000000000000000000019048ae6000000006e57a417129e743f87494d5e68be553269ba47a56d8af992ac45649e95a13502776d8d8c7d082e5670f4509d4c4dfd5cd911b030aeb38befcfc9d85e43da7c5c0000000000000000000000000000000000000000000000000000000000000000000000000000000000000000000000000701000019f18e6e653a5708727010b55ea35224272c976125beceac29833856ea0c36e0360202b030557cd77d1f672b996a26de56a27fc801bf94db020ead45030000000000000000000000631421b5ac368c5b,
   0x000000000000000000000000000000000000000000000000000000000000000019047fb5000000005c135deaf54a27504aa9680797f93122d214d02a9184fb61f02e6060967a22c0ff67a0358937fd4fc4385028ea6dcb5d86b34c0eea7791d5790759d8d79e302d000000000000000000000000000000000000000000000000000000000000000000000000000000000000000000000000f30000004bf4d100653a5708727010b55ea35224272c976125beceac29833856ea0c36e0360202b0e2944d3ed61a74f559dcff2a9df585b41653dc2fefeb6e2f020000000000000000000000631423208e24c3b6,
   0x000000000000000000000000000000000000000000000000000000000000000019047d3b000000007bcd8ff7c52c04caf3957e3ba2260bf1abbb24c9525b574629f6220e38d42be45325259592f973e2b96f7293786832a4b61089c77d16dd9adb7bd30621bf097c00000000000000000000000000000000000000000000000000000000000000000000000000000000000000000000000066000000fa8c949c653a5708727010b55ea35224272c976125beceac29833856ea0c36e0360202b0eabd39e967078cd5127a0088d899f79677f9e9580d46f0f1010000000000000000000000631426dd39508a07,
   0x000000000000000000000000000000000000000000000000000000000000000019047769000000005d869373ca50d66c49d1f0048472f4efc68466de26c52cc92f23a0eeca1d40aefde3925129c3c7cbe89ed4d83c6587a65822fa476fcf48f4c464e054471cc53500000000000000000000000000000000000000000000000000000000000000000000000000000000000000000000000016000000527ed200653a5708727010b55ea35224272c976125beceac29833856ea0c36e0360202b01578ae23cf2cbcdf2ea929cee6ff65f624927a6a24866d7d010000000000000000000000631427b2b6da7368,
   0x00000000000000000000000000000000000000000000000000000000000000001904819a000000004cecf87e138da9cfe4c355ac5165c47ed4321cdeb9e8ba4c5a33ae00afb7fb94fcfc07e7ef59ea7e55c7ca4c400f5c2b0aab1880ccef40462170e34af689fce1000000000000000000000000000000000000000000000000000000000000000000000000000000000000000000000000eb0000004ab3d200653a5708727010b55ea35224272c976125beceac29833856ea0c36e0360202b0dd56c1930cc89c9f560a91d91a806e6ef7be16b2ca50de6c03000000000000000000000063142957694c81d7,
   0x00000000000000000000000000000000000000000000000000000000000000001904793600000000083e14b2fc398b2676022165a66636471c1269d8296c8ad590d0206e44b3b989314d8b0219f2326c0caedd9dea157437c61c837d7e93dd24aee0641760b37a1a000000000000000000000000000000000000000000000000000000000000000000000000000000000000000000000000000072dcf7e5c900653a5708727010b55ea35224272c976125beceac29833856ea0c36e0360202b00ba4b77fe870a1aaa568d2aba082f9986a906a51ba5be83902000000000000000000000063142baa20610ef5,
   0x00000000000000000000000000000000000000000000000000000000000000001904799800000000cf2377ee530b24b6e504587d52068396a6fef2459aa5cf89d0d3f8859580b3f90be367fe09d6aa4acc01e6b37eaf40d0665c6a863747c69e43f384d14f76f66300000000000000000000000000000000000000000000000000000000000000000000000000000000000000000000000000003a5f9c0c9a9c653a5708727010b55ea35224272c976125beceac29833856ea0c36e0360202b016db996cdc1188b7a2852ead5713a7ff08d09a56fcf0dc5504000000000000000000000063142ca588dd3087,
   0x000000000000000000000000000000000000000000000000000000000000000019047ced0000000078adafb51ac57db1805d0b1b21cd08d77857b73db6a93e06a1812bdd083fcaa5b4ead8629278384e21112f44010098e25a579eca9d0adec47b3212f54b6aaa52000000000000000000000000000000000000000000000000000000000000000000000000000000000000000000000000db0200007670669c653a5708727010b55ea35224272c976125beceac29833856ea0c36e0360202b017c0ef61f2bb21f902f0f3d9292a159f585b5587193667f5000000000000000000000000631432ff79b93f01,
   0x000000000000000000000000000000000000000000000000000000000000000019047db000000000731b491f70d022a25202024d3c3a56faad117cd9b743ab0e932c1c5c6834107113a1b7092abda29054a5f32b38f31c432b8c7c3454641386ccb4550fcfa5a3f20000000000000000000000000000000000000000000000000000000000000000000000000000000000000000000000000000dffc0bc01f30653a5708727010b55ea35224272c976125beceac29833856ea0c36e0360202b0ef531f68d9c9a526f0bc27506820aeb5dcff00909007bc4e03000000000000000000000063144324396086fc,
   0x00000000000000000000000000000000000000000000000000000000000000001904917600000000dcb5fa62009bea6854c3fd5fb315df8a0d45cbd1ed2f1bf3ec803684dff095f7f6ca6ce4e47bcbc76d36fa4aac5f8b80b733018ba5b1c9bb6c92a2d27818e8dc00000000000000000000000000000000000000000000000000000000000000000000000000000000000000000000000073010000ee81d000653a5708727010b55ea35224272c976125beceac29833856ea0c36e0360202b03aba7fa2ea3e85ba6eababc911e7740450a438a59a51f43c01000000000000000000000063143abfd2edebe7,
   0x000000000000000000000000000000000000000000000000000000000000000019049fed00000000877101cf2dd9e45a3b8d10db8b6fa905137c0e2368d186f87a753cc4807ba54f02aa1592f4e5ae6ee4f93bf9956fe3f00e67534ad31ca0d3ba0b2c85553fa12c000000000000000000000000000000000000000000000000000000000000000000000000000000000000000000000000ca010000266bd000653a5708727010b55ea35224272c976125beceac29833856ea0c36e0360202b00d4c8193b28723ec5b077c9cec0b52eda24af04afe13a12d04000000000000000000000063143b0f31ccc8ba,
   0x000000000000000000000000000000000000000000000000000000000000000019048e730000000088793c2176352a41ea9fcacead57d4598ea7cb637aa85b23105633a1e0426b661ae227888aed19e9a36a50e770bab4f6e1116f1d80c28d879e92e96d43c157140000000000000000000000000000000000000000000000000000000000000000000000000000000000000000000000001a0100004e25d000653a5708727010b55ea35224272c976125beceac29833856ea0c36e0360202b0f7965d9671a3ac9529b543da48b55477c47d037db6236d9a040000000000000000000000631442bc081544da,
   0x000000000000000000000000000000000000000000000000000000000000000019049cb400000000cc1c7f7c2a9fcebc9ded48fc74d785ed50148929c0d463125a8ed1e8b614dadf79ed2a13f876a754ebbacb8590878dc1633d782db17d00bc29999c3545dd5f2f0000000000000000000000000000000000000000000000000000000000000000000000000000000000000000000000000400000061dfc800653a5708727010b55ea35224272c976125beceac29833856ea0c36e0360202b064587a0f0b8e4f1d8f683dbc8660dab0de37770d0ef5f0be010000000000000000000000631445642ef70030]

/-- HSK_CHECKPOINT_MAIN (src/checkpoints.h:10-3018): the height, the work of the chain below, the headers. The array
is as long as a checkpoint file, which has five bytes more. -/
def mainCheckpoint : Bytes :=
  beBytes 4 136000 ++ beBytes 32 0x0000000000000000000000000000000000000000000064c9917a744a0f213daa ++ checkpointHeaders.flatMap (leBytes 236) ++ List.replicate 5 0

end Verif.Network
