import Verif.Lemmas.EccOrder
/-
The public keys of the two built-in keys (src/dnssec.h), and two and three times the base point.
-/
namespace Verif.Lemmas.EccKeys
open Verif Verif.Spec.Ecc Verif.Lemmas.EccOrder WeierstrassCurve.Affine

/-- Slopes, `true` for the addition of the base point. -/
def kskSlopes0 : List (Bool × Nat) := [
  (false, 0xa249bcb3191802d3cb56fc75a8731f848e7b2caf080f3477a4e4d904a671af9d),
  (true, 0x28cdb0fe6681d140c59fb73f85f16459ca4cee083742bada762de4ca226a8086),
  (false, 0xcffdb37b9cade05fdb719f4ad73b00878ccbbf536584dc9d3ea8a8ba9b0101fa),
  (true, 0x263ed41ea861f1ca204b14e1f0d011cd0e8fb627edadcd985f023d4d5778f04b),
  (false, 0x4a9ab06359263e9d745cb65a2c51ac731df3819a1bbba20efe18e198a5073626),
  (false, 0xd812539c96dc846ec1596e85f219d7bd46d24f996182d48debe38e911d262895),
  (false, 0x42adcc94c2313db729551130c3b9e208032c50d49057c4ac31eabf906d21055a),
  (false, 0x2fa7305fefa9f2fb6fd88b8ece8ea7a1ad19a1c68786eb9dbe1538fd2d5cf20),
  (true, 0xc7d0f41100d21071b8d4d6aace86e05e2fd58502c3052ae8232c30a502860ca6),
  (false, 0x8bba1cdd76d3c8baa70112fbefebd92bacb91f5c05a49df304d0d7dbf64e9452),
  (true, 0x95d9b2b8b457edd7f50f77d9aefb9e04a3c74766df5fa62ca25a0a26319b60dd),
  (false, 0x77bc952421d81cd5dbfafcd6902a4ff5501ddb42023efc34602cab7f81df3bc5),
  (true, 0xfb229374e056f96f548e9c28d517ca95112921aac4dd518782243f37fbc19e91),
  (false, 0xb50bf1d586229e9f9c5d4c90038ffdbef6ba415821d5ced3c7de399b8bc78ebb),
  (false, 0xda3d4bb04753e0951059223784efc27017201599be17016376b461b1d3ea588d),
  (true, 0x5c9fe1d62ce2c8b549b63d5c30a1e1c1947d8d16e59289277895c7ffb31c3c56),
  (false, 0x6a97f6b172117fadf53ef54bff7eb5758db7c50177e6889a13b846178cbc5a41),
  (false, 0xbeaf524d7647fd714b18500321e0a582dd09bbf0416e2050b61fc0d366eaf6c2),
  (false, 0xea331a0291ac2ec9007bb4a5a878f6e95217fb59a7da65696b2d7276045fb807),
  (true, 0x64f9aeef872a16f980324cd364e81912486cca7fe8b8c41a1c213d7e583f0b42),
  (false, 0x68043cac88bee3b8832d37589df75c335e8963a8279e24828696ad0b632ea519),
  (true, 0x1e790e6d3a8f8b8addf81da8f38d6f439438a4f15a6034c2ca7391ab45b07493),
  (false, 0xae14c5c8fc09d59f38cb5adb152846a685d16ae7675c8e3a1652343e8c2fedd7),
  (false, 0x3aa77b258a6a558932a6a92adf336590666db89105f751b0ab1309b1b65ea140),
  (false, 0x9db84c6dc289f3e366947f2bb59648654f824f93c07864140186581acf92ac8e),
  (true, 0x39d3e8e4c87eca123ec44f4950f5b3e13ad29724fa487be9bdf8296cfcdaf6a0),
  (false, 0x6552fa298b444f328549df9f0f0dcdb2dbf30c66c257f79262966bad877694cf),
  (false, 0x30815cb51f5c076fb137e8cc5dde8e0ebd850920c2a1487f119afd4d4e4ce131),
  (false, 0x89c1c100f6d6372ceb1db2d33739588eb9d73552fc0bd836ac9bd26217c6ad80),
  (false, 0x4b9bd664d8d2db49805fa73dc2b92fac566bb9cdb78fd6a2221dc58233905fc6),
  (false, 0xff1b34254eea84050ede49bc02f97f7131a13fad3e10dca3dcbdb7d15c52660f),
  (false, 0x2fd1c5702cd23a3dc931f12e97e16a0ec7842f09d869f80e5fb0f9ac4e0777ed),
  (true, 0x20658a8ec0587292dc5fc2fa8aa6f357f2ebead35e69cfe64bf252906128f197),
  (false, 0x164f42f0f77437b031706ab39cc74424485376d2d7ffa28a28214afb886516da),
  (false, 0x2ecad2652ba26c610d304814e25cc968315bb60ad60523e7e409a99457e32fcc),
  (false, 0xe4fa940dd7a87a1dacd75e179b53dba6d0cb0e2cd9b7d28dcf5bde8882c7a381),
  (true, 0x9df875afe29e65404d34cf8f37b53557555d8451060506b7bcb935bdeb6596f7),
  (false, 0x6d146f1425775ca81ccbd3bea8e349b238fa1e83d90bc089c5a2b7d2b43f1ccd),
  (false, 0x8c16747014e2b651b1424daef9472042171c9242a696cfb5d8de5b9e4a5df169),
  (true, 0x895909daa3281fce4034e4c2ea46ef161f85f696a38f16988ed9629c2d9f1606),
  (false, 0x4653b1a6a0cc01b4c0e94edba2d5f89fbbdd8dbc8591be4b9556babde230e4f0),
  (true, 0x417243b72ccd6e5181e27ce1f0656b46aa3474eebcc5432b5e22c8cbaa64f8a),
  (false, 0x1b8b6cec8ce70745fafbd5ea3a7a627d2cfc9e585d7de3dbc2c619932c639c07),
  (true, 0xdfce7a3ab374d3fe89d494c562b22955fa2d55e09fc4810f68f182611de0a2da),
  (false, 0x3efdc979b4d566d8472881ffdebb676ef5acfc1f6336b76ae5302c51aa419bf3),
  (false, 0x6fafed147567e54e1ec8784fc016e08b8333cfd27fda94a18ccbf1ef8a7d7500),
  (false, 0x97419b4fa6f2e9d1a8b4e3bac010e68d748e1a66e05a5e0fd8300fa361eff1ab),
  (false, 0x1beef76de07ec0e6c1c009403afcda9c42015205301aa5373e4e083c6d2d7f77),
  (true, 0x72c610c790bc25f4a607e1974c58ce073d00cafd2826e3735bace1cb2a1162b4),
  (false, 0x196c4b8349677e25c371a4a46a902927d14e307cb82b105b342524ac715ab9a9),
  (false, 0xdac216efa6359bb87f56975e710f172ac156e3f54cbf0128a24a3b80ca3dac0b),
  (true, 0x175ec14c04014a2a77ddc482b8d4a6e770d1775452069617a169ea5e189fb8df),
  (false, 0xfa1e674f4f91326e58444598721d4ac3291cc75940c10e152750782eff607a10),
  (true, 0x74f42d574be554359ba340b4dbf9596adeff501e1a7f11ad5b1b5bd2cf68110b),
  (false, 0xecff12410d8e17448db66bfa8034cc674e825e2b9560a61ac87c06cf0d7292ab),
  (false, 0x818da38e7a09b8c132765c9f0c5f900d31ddecbf927ec2dcf4cf911a0c68f379),
  (true, 0xbf88d63e1a3f413420c8da9aefd7352df54b39b150a706d4ef8ddd007790cee0),
  (false, 0x46464da9f5071db8d2bcdef37fa8a932a7f84410032fa0ea31e74cfec6ede86),
  (true, 0x99cd287cf7f3ce32af95b0d71eda2ad8145da03f41590c28b398f6f53aeb927e),
  (false, 0xae9631612514d3cb2ae25a9eec93c3edf0e09553ed75ee085a7f959eabb83775),
  (false, 0x39c99c503f61a9f4a1a50b09ef0b525cfa36104058852de81625406bedb11b8c),
  (false, 0x33e6ca030708ea9fc31a4cea7e51a03bdf351cda9dcc853d76cb8935afe28d40),
  (false, 0xfd7bf5bda07f422a0e05e1b8529b8463b982ce1fb651806e39112f33dce625d2),
  (false, 0x90038b13e148c9492e25d39c54bf1dc48924d060f8a0868cd990c5f9f4fc8d74),
  (true, 0x2133ef7a0e84359021716f1f853951b2c305124e6e92b2a799d9adaf78c0d12a),
  (false, 0x5ad214812cc3a2ff581f1d8dd6ad612f51d88b32b77131907a1f2e31d6d33838),
  (true, 0xda2736d214494b4f677a31089b4ea169f8b9888abc16a07fbc6ad4eb4ad91920),
  (false, 0x4fe8671d9a3bcf33cf3205b8d5dacc3f4a5bdb423370ec1e497c670f96a3364),
  (true, 0xe2828218f6d82bdf98c9803c5a01476e1c70c25e913cf2df1598f0f0f1443bc0),
  (false, 0xe440ac0f105ad92836610a62da9274874d36d4450eac2408aabb0af9b60541e4),
  (true, 0x87917bc320f4777a53ee08e74478b650c7e446250ccd3f2483cf35766ca9ce9a),
  (false, 0xce3ff82fba22d7453dfacd161dd8612a7823121cfd0bb9d8069b4a85104f9a8f),
  (false, 0xcc18980c0a830bb067973f11aa6ee7dec66a6b7dc900befc1e51e2a09608b2fe),
  (false, 0xf4bd355edd36a46692519821e7a29cbb6e42de3ac3c144cb6b6c264d18c3b6bd),
  (false, 0xcc8c7647366ae1129488d4c43947c2b5c6cc70995dcefb15f63abcfe38b03927),
  (false, 0xc1ebc8fc8ed6d72e4f729644cde48c18257c1988135adb1f9d4a072f3829efc),
  (true, 0xeab1f058653c0765640ec2d95e3c74e6df9171a807b56c5b972c761d381f5d3d),
  (false, 0xcdd050afd5ffbb7a36ad37b8c270e226a36852de7c3177093581caecf0abd9d5),
  (false, 0x71540d40cbc40efbc1f8bf5fa3a5be349fe8585a697b8bb2bc9ab4135ff8d5d7),
  (false, 0x245375b5ab916c3f5e07b5bcc4bdfbc902add1546814bca8277b1f3d256d8db4),
  (false, 0x32e103eb433e169a401883561a5d5efd0054201a15a725837dbb71839da5c44b),
  (true, 0x635acde9c04214192d6d9c2cae979e826fe8624aec0d20cce84fb526b0eb373b),
  (false, 0xe44b03239aee857cf1314f80ca9a3ebd8255ea7dd3adad455bb268c2e85189c5),
  (true, 0x36ea6d9b1862cc0a7619b1dd35341a33a6b457fa4822a5de4d37aaa2813fd52d),
  (false, 0x26276484a3593ba51177aa39e3318ed3856d0cf75d89ff115cc09705f1dfee8a),
  (false, 0x93a5240bf2d54ad6d6783ed7b93ffb42e9a77f6492436ec5042d67e49283d5b8),
  (false, 0x71e568a7097e27195f59b9dee7368834fab28de3fb75c1d418bc35a99b3bdb9d),
  (true, 0x3925b1d5aeb3debddf349903f4624d25565b3165bb8a4f4807ef08ca347a518),
  (false, 0xc7016b87ef35488747597619b0a295e870993a87567bc9607246ffe8a59ae44f),
  (true, 0xd63e541e2e18957a3a961f64fc1ae1f35b225e2f8aa1c1378dbc4503eb84204c),
  (false, 0x31581dd2dec4047c01c96bdc6515fb8151387da4cf03ddccf8afe525d12a2a5c),
  (true, 0x188cf5c8e58d8a77a7abbf34c5d12360a86836d2c835503670f581ea3ce89e77),
  (false, 0x83b68dcd713623a46f594b4387a0be58df537b680ec77b775aba54e24f58ccc),
  (true, 0xde2287a66edd5c9c845fb7c091be12713f39b0b33e45224697aadfb8a35586e6),
  (false, 0x7c5dfbc05044d97356967e903a0d34c202b37151b55fe3c7877e513132ee7286),
  (false, 0xf555206b1663b7f70fa06d95012be9fef2367c343b4c8e99279b736a5971f6b3),
  (true, 0x976b6c60036cb068815aaf06f68b44b390c86b4933961fd1e8e5b8864df41036),
  (false, 0x7e74bc3011fd4e9f19e96747d26dfd3be94b8bde778b77f59308ed5beb42eaa6),
  (true, 0x4931898e1ec40b6063c42f286e56f2c23950109e43987f9d9026e6811c5188c),
  (false, 0xa6c7e53d320cbadef97cf589e6ac6a9528b3925deca3642c1c8253d5b4124cfa)]

/-- Slopes, `true` for the addition of the base point. -/
def kskSlopes1 : List (Bool × Nat) := [
  (false, 0x111f7e195a3eba6af902e4a01504f4c8f567fd3dbf86d205bbe9e840d1008c79),
  (true, 0x40f8a5757c56f208855acfdda70861aa431e38cf53f60009fd6507ba326c7826),
  (false, 0xa2513232ed1140583077bc68b2ca5adec575d073589932fff28c1c1d54f5355a),
  (false, 0xe56ca70f2a1aa8abe264f6ab789691a26e8bc95bed191029aa28dca747f77f3e),
  (true, 0x4542699d6007a164cb62c9233b51792d4631462a69a86dfec13c21dedff9c27c),
  (false, 0x94dc6fb07a3c59fa803c2aac930e70cc03c6bdd809015beebb82af9f6947437c),
  (true, 0x7d1d69f2998aa2b220ffb9549ee54c0cec7d9e575a02907afd93c61051bd46d4),
  (false, 0xfc0445c178572025e39146e7800907325c25e0c22c487a8149d5beae508ea3ad),
  (true, 0x71a749575e79ea0980f398817b4da7f73aba3f5a8173377d99be72613609041b),
  (false, 0x97f15380887e59ec98dc0843c6ec9566b6c6dabcf29a9cc0952ed233c6bdd788),
  (true, 0xed8e1496f60e0e62b4e71f307da969f832df8d1b26354fcb1b95d97a86115223),
  (false, 0x53fe8bab964c70d62e3ab65c7f36ea7c62b4c34bc8bbdd769db56c71e53ff5fd),
  (true, 0x84acfdd5e80cce2412f3c925d83dbee1ae4ff89dd16fb0ef33e328736613258a),
  (false, 0x55a37535282ef06596ec045784a38acd0e7273897d24863effcc67ab1606ba9d),
  (false, 0xdb835c8615b64193bd0b1c29f14ad70081c433e3bbfc62fe7f3ead8ffd5bcb42),
  (true, 0xadd364d5a84f6f01996a97e4feee6602e1c91099fd235d3e4531450f6e280372),
  (false, 0x4c83e2669a1e9f65434e9eac56dfe6a05a77ed88ae7efb2c1d6cfe7e0002acab),
  (false, 0x3600c32529814c99cf458eb99bd84e8f2c981be344d6e1caffdefab323a6db93),
  (false, 0xb7a551a14bf2b5c30980644e19f2a85dc9ba19e9d7e902a13c55a4145cd152a1),
  (false, 0xdca36fa466c11931d4b9e3b86d9d08b5f9dc67904f8cf6f95b5359ef0ffa66b9),
  (false, 0xb1dd066dc2ef2aec47efda5146780ad947a88eaadae60d7ae3f55ca68d047d26),
  (true, 0xc03740ac03e1f2033ebb8df79efc324c58b76f52f723d1301ba3be068ea994c1),
  (false, 0xfb6b5e7d6d1ed63d8d64ec1be2655e9aae1106a9131946baf34cc41943d474ab),
  (false, 0xab885a13bd247429138c9d49d5e87b4f95c59d1ca5b29225482870d362bd8210),
  (false, 0xe4b31716272877aa6d53c5499ef8f6ac389992c0496d6a647ca04654f9949280),
  (false, 0x8d4d8e55e9c6f5306c8f7f0f588d4965e30f64bcdc624e7423ae93899dada163),
  (true, 0x6f94a7c6d429e40931393b7aaf097040820e97de7ad7549cea78714096c39079),
  (false, 0x194e70fa9ba745fc18ecdf5842fbe59584ab8c9e48347506960480c68a0d735c),
  (true, 0x3ccac2c9fd05b1e1f8876671a39b9c55f181ad6b9c5c5a9369b2b901cb0619be),
  (false, 0x8aed34229fd9767846f01c75a3c9986d9873972ff1a706e1bc604905668f523f),
  (false, 0xa55ce5611525ce96bbe6bfa91ac279d398859a363b0716165b2f45ecbe884775),
  (true, 0x341e7ed042d8e0b1ba90b1667e2a515e1dc81b5d954b0639e8c65a88327c49e3),
  (false, 0x14232c7fdc06ae16b57f21d5338f214dd4b5473da51fe7994aa910291e8e637b),
  (false, 0x47163783d05e951dc2735d607eaef3169083b96adf34a21ddb189575f685a339),
  (true, 0xe242212e895666e6844195343c79311c5ff31f572914508db7b7f21fd6fac669),
  (false, 0x41e5825a994a3b230522b909de89ddb5d2b5c1441b4e013d5c003fc15d46cfa7),
  (true, 0x3d58663ab4e9fa59fbd258a93ca80a1471dcc0b07bde5cbf5c593d7c6e799fb2),
  (false, 0x201df4327286510752c74c01d241fca4ee27ab837eec14d4b233b9e4bdc969ef),
  (true, 0xc59e9d57f4e2a43e31ea3f9a6f69c7a13a5f1f4e0f34d8769b224f54faf25be1),
  (false, 0x86ffdbfbcd7e05f24a52cb6b413af638e6903dda78c7fbf686e98a304e7dd470),
  (true, 0xcdb4f6bbbe37ef296efe0ae730c8b96d8c3211475bd0e93b9a310939bb714055),
  (false, 0xb7ef79dc9d539d110b2dc7124da43efd1b9f614cc19cc62184bc45b37c6ecafb),
  (true, 0x58b46688a58a8960beebb14fe6f809783246bccc1aabbf7747923722faf34829),
  (false, 0x2339cc7573d654a0ee7f95e4b2b67de4e699abaaa18f0e2655f081199cd529d4),
  (true, 0x46bc2f30eee41d6db4d6ac75934194a2272b491b0b7b13cc5d3071350216673c),
  (false, 0x4b78a095fee2e08725eb2186ac3dcf433814f80b9174f64fcef61021d90369fc),
  (true, 0xc63c0a93d0db371cb7e076b71d4ec21a12b26e15e364c400d57a68d0030096af),
  (false, 0x5da1372248d9252ab940320d4042f417081d6c7a37e21a031655caff822dfcf9),
  (true, 0x5d0aed1a1ca29d830755ad13f4c13fb8244491de022deedac627164f790138d1),
  (false, 0xfbfce791f844ac8996247b0eac66b05e9445fd61baf63f5a7eda16c3d8694bea),
  (false, 0xfbb91fc56900b6ad4084d6f701c84dda356b98580ba838fa1c84cebc69450ff7),
  (false, 0x6caffb99839a14916d9e8b1a6f21e274cbc28fd5e1ffda425b9938a9961becb3),
  (true, 0xc0b6c051774b3cc88bb1798161b09cc220cc3de2866d4743fba8e859a4b8c484),
  (false, 0x7b8c2d1b07227f1605b9a64d567fe8bb7f5df5dab296a2f627db15d5934f1e48),
  (false, 0x3bae3f265c3dfdb7a58e7dfff65f4d1aef4e6d59219c9d9ec7f808326d689078),
  (false, 0xe76d301f56a3af1548ffa9ba367039e9965eea1b40e8786c739ef7482bf1e148),
  (true, 0x2f85b38cfd35548d702c90d0a9b26308aaf159cb6c26427502923b046e988f22),
  (false, 0x835eeceec3933d308c75437084cff2fc8e7a408fcf104a8b157d3a2acaeff596),
  (false, 0xef0279b61dd3b55bb781e298c2d29cac5d670ada850bc6f9dc7c13e82c9e148b),
  (false, 0xa41de4101ab32516c8600a8215d7b70114df6a309f0a6cb2dd4b135e3cb1f782),
  (true, 0xbc47cbb26c3e1a94fc3b16ad4e60f055e841e3d1ed4f6a2cd497ab45e8973a4e),
  (false, 0xdae1304489e791abfa9a58e572a36032f9e6504d64590c5a1be0108537e53d1f),
  (true, 0xcfd956a1a7bf9f3d17779536946af04aa6c801f30dc261053ab4c46d288e937a),
  (false, 0x3d2587ca1e131921579e2ede0c4a6a103847409f36a146eed80a592b401252d3),
  (true, 0xb4e98988b46071c762c8208b1ffaf473c197e291c376080c4b6ff2b4807bcae8),
  (false, 0x3fd0abaa3a572d33eb3d3f49d3667e23f7ba3dbd14071672940841755b14cbe7),
  (true, 0x6d8ef5cbe62919e4407d996214c9bda704f730b9c6b454436c3bca0421b67efe),
  (false, 0xcab8426d3e3f92131bee58f043303486a07cb6f3c5fdb6a4222d3c8051231fea),
  (false, 0x5de2ee690438d48f65a7a690b125747b07ace8ab63770991e645a870ab249a12),
  (false, 0xce1cac7870a409ab4eb16cf6b59a7f4701cccea28e29a8453659d05b6e2bb705),
  (false, 0x687b9432239027dadee9d5a089e0d13a6c05f88212bc28f3e808750593c8914a),
  (true, 0x2c4b485e28bfa0505b53bb3150e9fb93f5b98dccbb0142d2eabbcb7d8d0ecf23),
  (false, 0x735acf5f9154f9d0e479c9195087582b6caac10401c430c76ab8a0852648b1c8),
  (false, 0x4438579b06f7073050f73bde38e4de4bdda27ce4f91a4f150389223476518d3c),
  (false, 0xd40ec61ab59323b567d80ad9e0acf332d7aadacd1889a475e8d96d7cb4870267),
  (false, 0xeebeaff35ec1d13c402a543ca22335c6b14f91cd8c72beb762847e588496d05e),
  (false, 0x31254afcfabc703e1ea5ee8a6ebc5a717625e557a3b72dc5f41a82107309168b),
  (true, 0x7d47c737512a2b79db4af50bce5f26f1538204ff8efc7f73ce0bc45fbd0f9139),
  (false, 0x2328067cc5a40e6b553652f6cc2027e6ae8e92622368f41464c62ebab24c5086),
  (false, 0xbbea09249bb98fb3403c6b30298b2f0fc004d795ea2942785008ea1550f5705b),
  (false, 0x1082dc21422588e4148dbab825028dc0ad914539eb96eed8d58c47e9d7384aa),
  (false, 0xe390fa83096d9bde465e7de2d7e6696b0d73d73753f33b18d9dad7f32938d6cb),
  (true, 0xb3a8e08d5905ffc5e688b7f9b6219e953778fc43fb2c1aacac365db8fd35280e),
  (false, 0x579bc8461c9febf699e72553e1e1d95f307f31605f05b5399d8d89dcaf1d218f),
  (true, 0x8bee5f8db22a626d1132fa945362f44f0a5dd24d763864dbebd5740f8a40b8dd),
  (false, 0x1e35de85a80fd94479145004e1a56b1aa5444f7b43971146a7ffcfd723dbd074),
  (true, 0xe657e08d40306c8dcabf1e1215a0ccb263b51edc5277775bf667f4d765947e01),
  (false, 0x756788594a8f6c709137f04e9bacac43ffabace22040a2fc33ea70d7b7fb91c5),
  (true, 0xf6580d397b67c51105ca683c56830ce11cd6f4deba14d2b51347eb1cc15546bf),
  (false, 0xe80e46307b196de7fcf2456a56217781d4e7a94b7a2452b1733674227ffbc957),
  (true, 0x4b3c11b173d94bfd35414706fae3dd44ea02436cce3e6fcfa93ff0a971821de9),
  (false, 0xee0b2a1f7fc81fdff1c0a6f784f49773befd03f6db5d1d3bbab5f3d3e29cbd72),
  (true, 0x3d3874e8fc0a3b987cba7e4c2cfebcdee843a87259f4b1e4813fdaff0d57192),
  (false, 0x8ac5f66f3b57de1eab8cee79d6eb31aaa1b8dd591f40d876082a6a006f92f242),
  (false, 0x40c71a2943721154b1ea51c38c8ce387ae4cbacafc63906c9db4c86bb0274c56),
  (false, 0xcbce51b21ff583e6a306a75cb577c6c932edbcf352236c1fdd7ec26816a766ba),
  (false, 0x7bcdf7d407b3ab6c61ca6c8a385b1dc7d85d831b32bc25cfecda42cef62faea0),
  (false, 0xdbbe472b20db475e6562817093f30b6a7a92ae041bf2233edff5d651465198d2),
  (false, 0x256a95eb889e0275ee1a55937b852db2e269dc7dd7478a009583a5fab591e182),
  (false, 0xc0bbc9d662749d8a1bbe1f433bbbf8df90016cef620127aec87374bf1b14da23)]

/-- Slopes, `true` for the addition of the base point. -/
def kskSlopes2 : List (Bool × Nat) := [
  (true, 0xdd2e9dd99818aca58e68f77ac8aa56260eed840dbc40e43ce4f7e426d9941049),
  (false, 0x7543d1015d2a2295f6dfb9176c48ddc311d37436eedbfb50aaea0c41602dc72d),
  (true, 0x3a79a33f194e9a849cb9db65a60195ceff71197f1f8ffac867dcb9413e19c2b0),
  (false, 0xa63d531b7f8b921794e375ce2a6d14ee195657c0ddd8fd356319428077d10ea5),
  (true, 0x819b977380f8d809afe0ccaba48488aad13542e0773c2fdbe91f26decffcc0f8),
  (false, 0x55fab9825ee471569acb926b9150f7c631cd893ad524463768fb9dc08ae5a8f5),
  (true, 0xa548e7dc1e5c50b695ef1171d69dbb494d8da78dfe4822362bb8c8d77c3966c0),
  (false, 0xeee6b699f816dfd0d7d4199fa4095ed2a4d14985aa21f2ce910e043cedddf871),
  (true, 0xe99fb399d5792c49665276c61d4a24505bfde71305d36a2cdc8988cf7a7bbe5f),
  (false, 0x9a6009910d06b54bd9e25425b6a4c5bd8c3fb0bffb82aec1a491a4b4b2ce526e),
  (false, 0xb868ce5d4211a3ee05d4a213deeb3637e38499b83cf9ab18b1a5165c86d7aa7d),
  (false, 0x7ad57a51c862b799f57f66189b436f2185a2063a73b7f1d72c3d618dd2846573),
  (false, 0xf24252adde5f00a1d37c7a130ed91496ca9b1b10d41b64596c4c3037fa802d9d),
  (true, 0x5cb862619238a53c947c0284694673f76f50609fc4ae73620947be97d27bb440),
  (false, 0x6c8012aad573eb1319281cd96eb4fda7a04d95549cd54a0355363db7f52f89d5),
  (true, 0x4f7b50dd201df30e1c0d41e30b46b4b3fd26c1dcb27d2592df4198275d0a458d),
  (false, 0x8b64ef71ccbbdc702f8b5e5bb5de15dca082c3c7ffeee5e69fd6750414683f7e),
  (true, 0x49113bebe4b948ea99c0a8511f42f79357c2759feeec397351fd240fb83e5c0a),
  (false, 0xe3659c8ef976f92d1fec7a4ad26033a38722242435d6b5e3d5ad39a31fa53db2),
  (true, 0x107631e7f4b5db822e6653692c2437497aea5b00ed297b541cdb31139ecf5b9f),
  (false, 0xb92d7275ef98b7c24812ef589f1121c978312d515e0a6a85950b021fa4cb9eb9),
  (true, 0xf20ab4801342120bb415f248607a53f580c8dabc5a1ac6402e9a1c4fe545ac55),
  (false, 0x4472b5d798322e59535b310b7e3c09c51fe92228656c132e7b1719aeea80b640),
  (false, 0xa17b76ce77b7aba4e76a7d4ad9d757be67cf35f37a0ae44f4b83b358415f3e1c),
  (false, 0xc32250b85c1fa1f24235ceff4f9671add0ac36b064532f68f69da4da586c105b),
  (false, 0x99ad8439ab750f8d96c43dd0ada02e2e6ae4bbf5adafd6d1c0545bd9a65e1010),
  (false, 0x7e2db3ab37301c32209ee8802e15f87f09bf4b4cbf750cb5e7cd1bcd5b582bc2),
  (true, 0x9899fc16e73ad87b92d10f5ff6a4ac0b521c18cf18af2157fd09724422c27641),
  (false, 0x849c9afcea89d6c689529ccfd3ffb6557fa1ee2bd94be1cd649ec190bf3dbfff),
  (true, 0xedbb81cb83fc526dfe861a6ef1a3a96cbaedf07d20a1d39e07d27fbcfb609dca),
  (false, 0x2e2db3269155cc40e950986e23798280d459e062ff9bbfdf0a2fbe77f4c56f0f),
  (true, 0xde61ffab9a1df855a5a8e5fc5cfc2098940e0159217887010dad00dcee1c3ea5),
  (false, 0xc8f2d3daa6d431b4dea6420cddf7f2c46412c3d95b50e4c161553c21f4e15261),
  (true, 0x228e8ea37c0e853d2673770bd729602518aa4719f8db8a1e9989f2f74139219a),
  (false, 0xe88c5876ff51a4edb1c694e3196efcd35bf95f6bcfbe3b69db67544516bcf1c6),
  (true, 0xed61692d934a5981f608ec43bae3ce1998f2bac5e4bd5c6e3c516b469e279781),
  (false, 0xcbf4f5a9312f7fa4ff768f54b0f0b29586843dd5b7f8959b292d73b21f37a8d5),
  (false, 0x30d5b0d23fedd03fe8b7495ce3b9833437be86a09531af3564fb50f22cbeda42),
  (true, 0xed5e32ec0494b3c5833aedce8273598d85d90a98312dba6943033b1d5fefc6ee),
  (false, 0x35cfd4d78726c4aee7b6a3f7cc178adeadc6d0f3645d49c687903ecf0ef358a1),
  (true, 0xecdb85724fc2ee8e5dc26b8dad9a8e92bbdabc7d93000072f82c8f68394f53c8),
  (false, 0xa072cca09b9b5bedc54452d19da215d5e98442e3d6206aae64a5869f2e04f712),
  (false, 0x7bcc63a3986ceae9a0295b6e44640696cd6aa4249c3114b30415dcf9d3cb570d),
  (false, 0xeaec2a6be5397daeb5a29f38314a0df0c9efbc1d11185745dfa8ad5dd72b218),
  (false, 0xf99904144fd2cf82c0a367daf7527e21ad7e5e7e2680350a9a6e8b7b9f23ccf1),
  (true, 0x862f06ae960bd88491ac76c818e148b2fc0e6bda4b059f793137e08494ed2590),
  (false, 0x8a36642e4801343c34b68600321f46c4f05d9867f492f451d38df7b683ffbb10),
  (false, 0x5aaebef26258dab5d98229a55f98a286c37d3721fa5ad95009014c04af72db19),
  (false, 0x3bb13ec48235c7586f407151b9e9bae36a9a071e9fddc2847f67504547957e85),
  (false, 0xda322f2f7c28c278882a4b833a0892210e534a91cdf13f6a0729238c0f480a6c),
  (false, 0x434874e514a13dece6bc4b210ce5e410f27bd7eb607f8be55a14a59a09d124a6),
  (false, 0x7df5449e0285cfba93b948eb297dcb43facdb7cbb6c67c15def0d4b7a90f197a),
  (false, 0x48ab78ccd81f1db97a227846a3223480b041289fb38c1b822623caf8781b4841),
  (false, 0xd9b7a5b9cca6fd20bf83a70830cab88c66002d4c58834fb6f87a5f66c8843e50),
  (true, 0xeb67b312f978e6a775e92fdce74bc0d39699830fa0c8ec435cbe1b0e3671fd5b),
  (false, 0x6e7d2572075e51dc8ebf3279e11c1247c34b2fe56eaa98f2e7f175ed08b5a62e),
  (false, 0x9dbb5cfa5b1e649d511222c72ef4e78647a6d75a385fe3ae51bb207f1b8796e3),
  (true, 0xad06a030719c27658e5304c01ff807a89dbccebdfb0b8920408c2611549967d7),
  (false, 0x319250bab0a39504048707e4eccae088af1ff01ac4b4e1cc5d4141b1ca6bc091),
  (true, 0xc720ba983db17676303f360b1dde1d618421deeb855541a92480b10e9705bc49),
  (false, 0x63bd0d533aff152f7b31bae1e7390043a1678e5d92c028f75897f8b80ba2333c),
  (true, 0x3f37d6e87825bd915732ba30b04bc0bf6591eca1d181e3e9279663a73dc86237),
  (false, 0xdae2c5be1f2bb898b9ef79c68a35ce3283e8622e1e75da55132c0c250ecd107d),
  (true, 0x6a9f3f356666bf583cbd29681a8acb379c0cbbbab95712d3c2c68a6857f25623),
  (false, 0xa898b09b85d6bde075c26a066c65f8f01a277430a417579c2fc676d09b506d36),
  (true, 0x57037af12705da772998e0ed0c352ba2efdd41744549e278e6c1c2965ed75d66),
  (false, 0xa9c4566d23784ce2bd69ea20d0eb9fa3a1c74abeff0484c12b05ef4ed697dbfc),
  (false, 0x47b64e04b2d6b5a4be387778a24730f122b80d97789b4e8de8e7afe5813e5288),
  (true, 0x902e6530decfc73dc5ea166c1e4138d28223789bf6c498567d405c64745291f9),
  (false, 0xae383d36644c1f5aa7ed378ecf9c944dbc3f51fda67ab264fda972a0da44515e),
  (true, 0x7ebb465f98e397a806d13baf3f3dd249403b165cb0d8432bae28f2421e9d153e),
  (false, 0xe1c7ffac898e63df2e18fb98c18590c37f7da3d9ff3549aa8b8f367872bdf98f),
  (false, 0xd015bc2e74bece1ffbfba8f7641ada27d05b4db8f0f5787e81bb1c802e26e2a8),
  (false, 0x2558b1abd2dac1dacb96e19693c2b4b55ce43223725874b88c7c8656efaed9bc),
  (true, 0x1d553a01d96f9fc15c5d5b81a8e26d780d1bc3f5e248b770d706051e99b71b76),
  (false, 0x1f3450ee50a3d0c4cdf6cafc920b10e4372ec8cf4bfa5ca7f812de18b33b49e8),
  (false, 0x9517a399019c153bce6b1066324f1c4e2c41cc41347d4514521da0c72f770ef2),
  (true, 0x289dd4bf6fd9ea122782db8c42fcd94999bc262be0311277b865c2d9741f9137),
  (false, 0x25020f7f279393c08c8df80ae1c89d99de10e155d4239cda813e730de151563),
  (true, 0x5758d0c3f88b930d011d8ada34d62ae36e9ba734537103462979e8eff3c8d5ad),
  (false, 0x3851de0d1b9e87c7cae4884e6e4be2daa4ab1963c21e0260e29047ab90c3830e),
  (false, 0x4d43eda0c7bed2ceca7329035ded6b0f97c56650f09a21bb2fa3291d154593da),
  (true, 0x689388dce251131adbcc69bb4eb620ecfaf8b8ce2133f15490bf739c4802442a),
  (false, 0x52cdcb99d5d4528bb82e0ed8417a07e4585f921f8e4f97ed62c4627d8e6377c4),
  (true, 0x4e97ec9c7c0cdc3e20c3ef067bfe2e83e1c82a3455c9d9867531117909782066),
  (false, 0xf76e42a4ea289c0df3c7c457d49eafa0426d0a5d0363c6428308ab629069a0a9),
  (false, 0xed8c135656ab2f5dc2630c5afedac3a72b56efc1334ec6640237f0f5ed0aef61),
  (false, 0xee67eb596a9ed2f1bfcca34092edf52a91d4b4a90e7f6a8b64fe31b5730beb7),
  (true, 0xd8827cb6a2b7da76ad008ca0227e66be29ea633b3853f57675895bfa02a32270),
  (false, 0xd66582e91296e99b416b11fcad8ea4b1f4fd924de02b7775945521ad66726a1a),
  (false, 0x42165785a52ca6dfc5ef4151e34873dbf0466c93304f4d013fbbd9d2d44c8a59),
  (true, 0xbfc20f262bc49d7e863a578ab9f9bbcbf3f83ebcffa5837558595c1bf94b8007),
  (false, 0xfb3f05e5b105d1921c631a914b124e3c690a7cb959f4978fce5f2623fdc2c58a),
  (true, 0x2f94ae7279728d314162de55debd07dff56a76d014419a8d96eb9be13cbe93a5),
  (false, 0x9e2d68c2866dd2386e25171ee7a9b1efc47507e7ba6402062f1e0329b0866239),
  (false, 0xfd596f1b40e9798d1cc6b722f4383341606f3cff813ae142b66916b5df5e6ec8),
  (false, 0xf68f79d858bbc9316db088bb715787b0b92c3efe4b523fd04f3be874fa909655),
  (true, 0xae877bcbbdfe36e3821a8ccef9fbf9f6600ebabc278f28500bdf2011e8f7c712),
  (false, 0x4045e927d6ecf24a13b59da2e0e210fb09319c80352ac62d1deaedcb78555cd7),
  (false, 0x3dd109c419ee6d0054ab9b2935419dd4fcd032e8c7755ecfbc10e63d965da9e3)]

/-- Slopes, `true` for the addition of the base point. -/
def kskSlopes3 : List (Bool × Nat) := [
  (false, 0x709ed5ace8c7539886bcb69660413a8288283e9bc4bfa883386aa1c07df624df),
  (false, 0x2e20aa35763de2c91aa88f6522968a2f669cee9867ac782565eb7f30886f98b9),
  (true, 0x6b52f7054c5594841f8719bbda4105a0e0c8a4da2196aebd8c10aa50ff24a368),
  (false, 0xaab67e3c08a6508da95cede773d7fa9355116c60aa7a5c698bb7a08edeba7a40),
  (true, 0x90f0bfc44753b4dd81973620b1c1377aa0a6661cb325d73c579100c547d18a86),
  (false, 0x7fcd95f8a9998011958e27c5a2c646da1d8a09018e796b7bb9772725ce8b97cd),
  (true, 0xe5f75044ab8a2c5834b04b1a97e934a3768f41482bbe19de97676cd6f103b95d),
  (false, 0x71e9c011f5d9d9ea1747ec50bbab11f28e3f2ffdc878091c0ea81745403126d),
  (false, 0x8490a77c8f8e248aaec1a3610dfb291077f9f5fd4b876c4abf808f321c2d6bd3),
  (true, 0xaa555e089dc6539a46ec6c34a227616e9053f714eef4d2de896c58c9501c3ef6),
  (false, 0x958114e39c72e7d19d9a38a4e494555230b82ed435209ddbe7e89ac3e57143d8),
  (false, 0x4df3979410297315308ce9a53a4a4e72d302f5e2b39296c13ebfccda758ee104),
  (false, 0xbb38af9cc932976f3886fe4d222697cc57c03bf93f74fe4d8e8fe478542910d7),
  (true, 0xe934e150e750c1ce401b4c690715d469cbd0eb54a2da1882929cdddb7b9c54ad),
  (false, 0xe3f4b5f380909790d605bbc675934fd531d99355c83fe8dfbee8e38cb0891cd7),
  (false, 0x3f0993016eb0bf8d7161fceef0960185861a9e34230d2cbed877ff5e326de1b0),
  (true, 0x60c0cf00c20f360c472a89d065d7fafa51d0f873ec1bae8c09f06068ea8206b1),
  (false, 0xbe37b36769d72256dc9c4ccd77d7cc4891e245e4f93cc3f43e5a688d06ba1b19),
  (true, 0x45ad75aa08e56af3d2224c2e3200289e8b324202c7bd8421e43981d03256dacd),
  (false, 0x1a12b80334e3d4e986f7e3234d98f5caa20207466bd688fa210b01de604cbb7f),
  (false, 0x5a5ccf5c21070402648d5d0eba7870c7b6cc6bcec3963702dd1dd434f2fb5f7b),
  (false, 0x640e1d0a4b7df01903914c449b7097aa37fd4540d1a659645c5ff32350f6ed0f),
  (false, 0xa020f4dc998f60baeb2423d81593ac5e64e727b1a5633ed92780c59a368bbf1d),
  (true, 0x8f06334b3426eeb21990dc1d7bf7e76fc9b02be53648b5a2bdec1eef9e2f4f47),
  (false, 0x43917ff01aafe39b0b9ec754cefc7421dc98b2397d4b94cec3590028c56ea76c),
  (false, 0x6d1fdfd6868cde010dbab6bda75d24347a259fac5be226048730588706d06542),
  (true, 0x6fb0c7ecd57e66229c65fce14a548a9d1b877d8b7bcbb9bc9cdd36ccbd930c41),
  (false, 0x64e10a842336d32f0d2a31e905f7f54cd31f2801b0021d85ce4e387d8a3c8c83),
  (false, 0xa16685d57a2dd6e9ba730be1ca21496bfbd9ce8a16fc2dfb8b042252bbfb6df0),
  (true, 0x3bc91d0b6c855e9436b915e174ca47e2d692a4360930a9ae5245671af12e3e0c),
  (false, 0x65504f6ea8e683a5f67b1327d611baee52a8305ab6bcea1b7a48e4cc86a0e9d8),
  (false, 0xe4702f857633d29ce2f2c371a910c29ca465eff6c9330269bef89867244b0af9),
  (false, 0x877bdb0ea91625af57fa22a3084b82bace21dcf390571e5367d120accac37c3e),
  (true, 0x1f9fefe84378275963bdb91caacf90737f5fdb7f88b8d207e4d37e9f1863b24c),
  (false, 0x1cc0cdcbbe138d20b40b7f9c69f6829c3b34a8fc0ecee97e8328b3212546728e),
  (false, 0xb5dc10a3e303c905eae89ab045867fc916df3ac7c09d3ec281109468ef7790d4),
  (false, 0x383525a7d4a15aeb7c78a5ced62d0c43970fcb6d87a2d96466810f0a8426e327),
  (false, 0x3db18f217912964391f920c8d0699f37f662924d24719b0df6e25a0cf130ae44),
  (false, 0xbff1ca4c8fcb2510e9881712a9b17899d17626e3c5c7d1582e21bdf130b85b06),
  (false, 0xd6e63e258c478901050a5431a62418e8fe4703aa7d951c7687f8198bb7c2d72b),
  (true, 0xdda423e828d3dc7fbc9e20c12d09f5ff9a9909f536affa38ebec23aa03b19582),
  (false, 0x3b1b1c03a42b8bf6b9e0b0454ed3977fea2aae63ba4e0a4c709bb4683e0bbb13),
  (false, 0xa8fd66c0688b2593556af91c721d94c9a86b6a5cbc41fc53947e851773384738),
  (true, 0xa8a9064c5eb253bbe62d7662d301864c34fa44aeeeff47f97740d10527f7a1fa),
  (false, 0x36422fce53e73df97528b31f559d76c04d7bb6dfc96f1cceddb1c905b109ba6b),
  (true, 0x4daea3cecfa1bf2790fae6eaed10c49bb650e861542cb674b461aa1a80a09c4c),
  (false, 0xb18806a76f8e23eaaf7e85e5315b6cb2020650e751a35788a5f6e740445d5079),
  (true, 0x5b92ea2fab657ad14e620b213bd5c9a32580784fc167e57a15c5d6fde1076718),
  (false, 0xca18b189064191b2b71b7431aedb7bfd1a3a29bb9d506533395a04e7ec6f412b),
  (false, 0x7c017dafd213293241f27eea3e56f34511b3e4dd41a3cb5edc695e4414285802),
  (true, 0x534530a5ffed50f26ea30f4a69c0bea7b2d21e23cf33c3c0f11b939d52b3e8ee),
  (false, 0x5c515ed2a7c6c195f29d90d13c84a3ac22c1e3fd2b9e1270c8e36332dec5e482),
  (true, 0x8c2f381505035a485475acf2c9d8970e4f8f97ea551115b6c037a4255ec7e66f),
  (false, 0x1ef4922382d5708e16dd40c6fc68fd010d98980ca67016370702c34ece5ffee),
  (true, 0x6e418b2692f16ad74b4000763cfe43e7c1981b73005f95e4d92592d47ea2e18b),
  (false, 0x5eca4d7ba7f64eb7940984508d4a5ca4336e47d9ca2ef5719a5803ed53350b87),
  (false, 0xacf9903fdac9855b03b5fe65788a22432a416fe9d09947b4c48cb440fcc35c6a),
  (true, 0x39f76c146920533ac2926d3d4bc0e74a8e05174c633783428db7a15dba57006e),
  (false, 0xee50892453bf02623aedefb15f3197fde3e9dda8dfc8eb9354cdfaddde6a00ce),
  (false, 0x8bd9ea005b90088725696bf64b4fed46bce70ff2c2e36027fd94d75116a14297),
  (true, 0x66b0e18f44ec74b9cb83bc5cc85013270a0cc1d6b842d3b0962d24f641db5d66),
  (false, 0xa140e8c5122c63b883acf5a0210c699f166fd02bddb96dace555fa4b3b30a55e),
  (true, 0x99c3114741ad8db049d4c0f2b67b03fd6a374792c3dfa1776d95f07f9603aa34),
  (false, 0x79a8cada4e3edc142888b6f0bddf664a292aae23586da46f4df4a43660f2a663),
  (true, 0xc36f2733469d56b566389f7586e53895f256e99b83e81e9a289a2c42e211cc0a),
  (false, 0x330f1094fb88a25fc61d42dc445b939287c197fd72f535bbcde611e1144d10e1),
  (true, 0x8a485e42f23bd3b16d63aba82a928ecd1efba3523d1b979c02f745e7fd3a95ce),
  (false, 0xaaa95b24db004a4592dcab1bce676c2a101106a0e6de5341f4fc91db5b06794),
  (true, 0x7f3f91852da865274f68820d80985ef5b685232bc0d6010f1830142f6b086426),
  (false, 0xc020a15432b28da941daf20b18f24f1b8672d0474d5460332d60296c9095a269),
  (false, 0xee469987f5271207c7264f5221b850a61186841f795c2efe1b7cce3ca515c9a4),
  (true, 0xcb7f0b1d673f6a4ae8917c9879c4ab815d723da58fbe107218c18338b40dd39d),
  (false, 0xda33be1e6147ff0ff71cc68f2ae5431d0e11136e99e46e08c83cfc111bb34592),
  (false, 0x55bd61c6e76cb1dc89fb55acb5b0a77589ea5981c920ce956cc1e2289e595e),
  (true, 0xc4cc1e9a31556600927a0706c1ff79f9739538ded58d53fae3705337ae44ffaa),
  (false, 0xe9fa07157c9e8c03742250cf72f369ef78e331d2a32a7f66daef2024f7627bf3),
  (true, 0x604bd54df6550fb9f735159ff72e65017a1521f28642103d0f505db21a3353bf),
  (false, 0x5d9e262b4ccb4061553a54d370a43f567ca4df12ac770ebfce8e403c74dad68d),
  (false, 0x65504d43a538cdf9a049899e1ef8f92341bc172f60c3960f5a416b42a58edabc),
  (true, 0x5b1cfd9e53b0995505b205b3a450b2902b6353f6502f7a221872136da9b90ec8)]

def kskX : Nat := 0x4fd714449d8cfcccfdaba52c64d63e3aca72be3f94bfeb60aeb5a42ed3d0c205
def kskY : Nat := 0x3f5eee58934974d929f9b9adb10107c4608cd13babf9880f817a331e13034fe1

theorem ksk_point : ∃ h, 0x1c74c825c5b0f08cf6be846bfc93c423f03e3e1f6202fb2d96474b1520bbafad • G = Point.some (kskX : ZMod p) (kskY : ZMod p) h :=
  of_chain (kskSlopes0 ++ kskSlopes1 ++ kskSlopes2 ++ kskSlopes3) (by decide +kernel)

/-- Slopes, `true` for the addition of the base point. -/
def zskSlopes0 : List (Bool × Nat) := [
  (false, 0xa249bcb3191802d3cb56fc75a8731f848e7b2caf080f3477a4e4d904a671af9d),
  (false, 0xc2489a9eef61dfa06d3741ff3b405300988bd0db42a937859069b9cefb576e35),
  (true, 0xca83eef4a3259faa07da557754da61a363987a301994848ac4a01dafc4c7feaa),
  (false, 0x97348e88f9533aa20c890c6555e3f59001b8e45279c9aa2da811786525635c13),
  (false, 0x33ad926ba20e90b859f8865d29d46e20259ab47bfe894aa5d41239939f8ec842),
  (true, 0x62afba335bf3e173650f093bd5a40afeccaff182588c06f1a379b94aaa275df6),
  (false, 0x3737340e08d8a5a6c6c8d4ec4ced0a20821efa384ce5ac0dd3a8d1dfa2011724),
  (false, 0xfe0dd2b23c99a048da20b1f7d9c586b034c53a3c9b16ab1bdaf81a3d6fde25ba),
  (false, 0x7cb905a8562de561be7bc4829d185aef025b139d07e3a8988f65c322a06e80c0),
  (false, 0x90ae363007096a3e306a6f35c8caffd5664d7bf43c74e182722f35e7e99954ed),
  (false, 0x2b8bdf41a00710c6cdb9c5063d5874b5b6108405b808051b038bbbe3f34c8559),
  (true, 0x9b83556837f8e41d1a4a7ec9a0b901a3b606952b2a90801c583e0f8300ea2411),
  (false, 0x2f5c6bb463f2f4ad7ef7976ce7bcbcb099832be773c5e3cba4dc007a85c13429),
  (false, 0xf627b0cdd1bf32f64ff2a2af137a8206f778fee41036908f0a6eb47c8028aa60),
  (false, 0x42ea8c2bc43a5e27b1102ebd5a2283a604e8405c56c606022cfe7b5350bc7fc9),
  (true, 0xa478a078e8bb30e5c74c9368407c2151ff58404c0875d0ecab1f7b4b31ecf907),
  (false, 0x4ea78dce37d19f5264381659fc23dd37f375faa8c530b50267ef9a5fbfd53783),
  (true, 0x51f218ac12ae7fdba49022808d66bab23e45d431a0d8a9b2770ac75eea391a95),
  (false, 0xfaae8104ce7e042eaf652276448b00fa2fcdecd01056fad79c5d42c7ebb5cbc3),
  (true, 0x3c3ef3cd107a4021b5691c8bb81bb1ee51ad2ca14ed248335b530c3fd943a41f),
  (false, 0x96c9bf6cbd09e7b76cf43769d662bfce2d9fe8ab227b5a7d21a248a82ce508d7),
  (false, 0xbf8de226a74bc2c4168e96281792a0a527003b64a12630e177868d679f9d03f8),
  (true, 0x907f707ec3b21559950ce338e3555080c14401bfa1883ac9f15797975d62563e),
  (false, 0x56a3e97a310e281c187b5c0d3112bcdbecd4d009dafd489e26bddead2e151f78),
  (true, 0xd543876b24a39236fa17fb4abe9f0ed4693a05f147879bafc4fc0aabbd89d09c),
  (false, 0xbb8f0f311e39b9cf9137bb7aeec513f6c2403d8fafc51fcf7706f34a8844170f),
  (false, 0xc65ad6ac0c72cd607400a114d461568e8aad6e640d8ac41b3ff937182b8571c6),
  (true, 0xc18858ee5f6b408cce4fc0e52d26fcd2c3bab8f99d98b38e472addfa4c17a173),
  (false, 0x74643b2660fe2f3ff067175b1b10edcabdab40c35b05a92b30b7c2b5de5cae5c),
  (true, 0xb9d4abd024754f3faf0a6adb4286dbf9f437517a1847273608cf17a81441b779),
  (false, 0xe6016c018ea90ae5f7613cdec5b4d604c755b1a732b8fde83cb451aefbf4024e),
  (true, 0x414a442eb942aa843941cadbd772fbfce9054859d7d838c40e8d35fa03d90315),
  (false, 0x9c1ae58fefea88f97c352ab9b71aa83e8953496ac7fc2160adf4479d1eb53a89),
  (true, 0xd36bde97c2a44087ae9b884b50d706bc850faa650a043d9fde5aa6b33d51ba93),
  (false, 0xc932e319ddb8f43ab6b3ef33fd443940b29292a4066f82b71e4a54cd59668885),
  (true, 0x36a61149137f9699970adad44c71d9c5862999ba0456279d1f1d3df152872ef),
  (false, 0xfe72a1ee6a420193a7a85f76f1c1678e3d6bd1cefac2cddf52c51d2bdf769c0d),
  (true, 0x3048f5dcfc9c6d1ce7bf8ef6e9d1228a350e36273ccd9954aa973876584e0ac9),
  (false, 0x8b42ec1f41ae841a444083a2216e9895a8a9d777adb92418dc9ca655c1e4e3e3),
  (true, 0x7ac837170afd72b08269710df35e91975c77e27f1cfe13637b9faacbd72f8e4b),
  (false, 0x63e2225c70976110f5607d51ed5172e56cae3c12b18efdabcdbacc1c50f66b01),
  (true, 0xf333a1c8e077b0adc07da4a4c9300b15fc281401ff3531c0ad25c23d504fd9c2),
  (false, 0x1abf3fc2421e134764b92e073e45120977a190457c853d6310923405e3ef493c),
  (true, 0x5b45f47918359003e3a553cc8caddc4a3e1cbe848379de42f367ed97c632ed5c),
  (false, 0xf2bf0362b56d5ae871324bb5c1f7c951f373ecf545227109d6c1b3a197a45c2e),
  (false, 0x54a2c6ea5a369a3d9df3ff445d1602a3f1c0a0bf31b84b92f1277c2e4d14e61),
  (false, 0x5aabaeef2729b656a855a079fe6da5c9299d47ecbbccfb92711018e6326c14e4),
  (false, 0x404af51e44ce00f120091703eeac86d3b1a50977408acfe9f3619f903c4451c9),
  (false, 0xb5f7a5855acb4798a2c533862b637cca3da3757fe135a2bcc65d1d4147f150a3),
  (true, 0xdd340179e716a5b595214de86d437d8e92c1f7f84286903807459d1c3fe4e50e),
  (false, 0xbbd96eab5b9fffc6780cc432d39278f9217fe7fdadbdaf7205d78c7a6cc9349a),
  (true, 0x2ee4830ac30def86e5289d3f7a3919be74eaa20d0e176dd94eea4171cdc5325a),
  (false, 0xd2234d842e082e8ea5f369de99c6007ad9097907ed01c64132c12d0924ef8f31),
  (false, 0x6fde4ee894017cc178999715fcdfdb779b2f937f7a1e503da294bf63e7c6f2e0),
  (false, 0x333cf5941c31cd07786e0f6b7ab6d30e90838e8e4e7d08c4b08d3d5ad57d216b),
  (false, 0xf80e2bcd7b977f8fb193cc93a040069c4ae230ba3dd1926efa582691e147e9a5),
  (false, 0x458167c8bc73d1679596c624c34916c024ec2449708d22797fca8b0b9a670c14),
  (false, 0xabafc84cbddddbb3d177baa872df1a2dd354f01cc887581883e5b3477bd385b6),
  (false, 0x529dfd407b41e8884e48ec30e08e616c7da5ea3ee3103b97c9a0b109f41eb4ac),
  (true, 0xc0f8508c93d4e653629296cc5af6391335be2bd043650fe0b54316b9081b2e49),
  (false, 0xe08ecf3a06b704975e67bed37130f48858ab51023ed3428a1ad21800caaabd17),
  (false, 0x7be76c4a5d4dabb4d22920281f2fbe8e6c9e75ad6b0f956661ab06b595bb7cfb),
  (false, 0x77b650aca7d004a69b9ce09362f4ea3bdd72089f421377227a6281f00c8f65d1),
  (true, 0xd3185f3f8182c797e715424a66d2a9991f88e4699de6954bc5a66cdac707ef24),
  (false, 0x200fd8765d26008cfbb5b4c24a695e3354e3f5edcd12278e7f9b25477256bbd9),
  (false, 0x8ec08851d551219936e474c3e2a5674f4ae07740284e07b65d2bb31a38e32d3d),
  (true, 0x10d4e810f461573bbc954ba6c7f59164f8a995a0ca73521ec59c7fba8fbd2eb2),
  (false, 0x9355823be482ea8813c4443cf39276313f68dce0e5b2bb21ac6d6914d3d576e0),
  (false, 0x35f338271b0119a6db00fb484d2e88e65dfd56d6dc24b6dad330ea301b59dcec),
  (false, 0xa0593affd7f3748f18717a9e825b1e65247b9ddfa4d0078b8df12181d82fdc52),
  (false, 0xf25c8aaa368bb8fe4bc1b538c9f61c3b8fcdfc37144f519150cefe94743e1f6d),
  (true, 0x9bec38e353ef1e7342c86ed9ddfdfd9f4c82a190765808ae4ca6977ddf67b17f),
  (false, 0x257ec10bed0eead1da4c022229503f41becc7a0bd20bcd41b095c07227b25f1c),
  (true, 0xe2163f8b93d5b25a484a59d91e73b6ac15d32bbec73281725345442836022c36),
  (false, 0xc7329dd6037e9a4e118db4d3dd0606a906382e5fbbde34152489ad57949d1420),
  (false, 0x946c283e729d096d69c4d26928983f10c5ed9c80d4bb4d5c44787913c3d08574),
  (true, 0x29b00fc0e32b71c70d0691739495bfb044c4d716817afe511aa4ee1e0716c963),
  (false, 0xdf5a446c6e74389de5b3e918507ee1f19c6720270e5ca3cdcda98336b84cc7a3),
  (false, 0x3a3c7eb0acef6374c3e98a779c9afa172c2fa7b6e14080de8c1bc617b796acd4),
  (false, 0x335fcf5aca9b6ce89c326e8f8c788d496c38bb3327b4aadfbf8b6819e0b70b88),
  (true, 0x8c14997efbc1a2a480f05c7111d7d7f6d6d47feb114878fc8afb539ae591a6f3),
  (false, 0xeaaaad6913a3c2c8903c6694bb074867b1b0df162dbf0b8ddeaad5579870ab7a),
  (false, 0xbcdafad9746b9e89a963b017743a01d6147eb26ea9b36c0bd0cbab8f0e88871e),
  (false, 0xda3effaca8a002a472e149db4289a956b6b136c62927142f2a9e69c57e37af18),
  (true, 0xd71f02bd57d33d3287debe4456ced68f17de15c608d8e702a004e8fc0c1ba5d9),
  (false, 0xa93f83faea93c6191df5755d3ebc082041c94ee84c0778beb5b590468fd771d3),
  (false, 0xd4811d56a318ffd973eec98e434f11f3513158699dbb8d233e1eaf06412f22b),
  (true, 0x2b09edf9064a444bbfef081e95ff2c78f86667b74029bed82ae98f8c4e1e65c4),
  (false, 0xe6269be43cc9cbbfcc6c37eb3aa630382a8cfd3be018f96f3231c0669a9c8d73),
  (false, 0x185a05e9e6838a5846d2c65eb242b920f4e8be39d57ed71957515d4b34ea864d),
  (false, 0x7c50fe73cbfc75ca1e7bf062cbb3d7e19e118f3f79539f1218838493b80bfb32),
  (true, 0x2777d4e8bc24a4e6ae50ce7680b494b5fdfbeaf52291318dcc1beed80bfbaff0),
  (false, 0xd296fc6d140bcbd2881e8aac20fd8663503b9fd3262f30641fd6725401bc5f),
  (true, 0xdb98a58e97c69f3db3c400434dd53356cecf856a2356fbfed67f513a1e5648dd),
  (false, 0x40a3b93fa27be39cc356b2cb4ef2791385e64c9bca4df4be5e4d2da6b8bcd3f),
  (false, 0x5d6e519eed79a5bb0f1099bfa7f678b73685d82c2574c558ad7de912582ce765),
  (false, 0x90c459b9c71f6e0c3737b109f1aba55c8496f4a33c9c5629a3604bd5d787803d),
  (false, 0xefc939651da5cde0eafcb40006fe603cfc271bae279c90912180f088c0ce0e68),
  (true, 0x6c1ab2424ee4fa70fd87abab6030743ad92e97881f98a77df84151532d7165a9),
  (false, 0xf54bb5e66003e9a5ee60341f3d4610528262ead2229ee1d415e70ef7bf7d49b2)]

/-- Slopes, `true` for the addition of the base point. -/
def zskSlopes1 : List (Bool × Nat) := [
  (false, 0x97f97f4aaa47d19f680a2a0fabb04d6b7f5a7b546578c534567e75cac95fe0bf),
  (true, 0xe5530f82ac7d7a6b30623e650176713fffc3b7666facb3209edb33127b6a268a),
  (false, 0x84e32eb72153a588f060a41783c46be42267104fc15a4bf7644ca965f00a19a4),
  (true, 0x29ec1220f544fdfd1e1510c9a29e1a12b967c6986d35f8a81528f663bf44c47b),
  (false, 0xea817fad994d2de5e2186d8803258a582c2d40c6d51572fdce10d2bac3ce5119),
  (true, 0x7e858667fd409dea7b797548cb75b4c2618b9ec0bd4bf99b0ef4e3ed16ede493),
  (false, 0x3ad64469cb2b94d02a0cb814bf04f06100d46b644f1fecc976d034ca1a5dfd8),
  (false, 0xb6cc5cc5083d529cf264f67fe3d20db58d0887409ab069e5b3aacfdb144eab91),
  (false, 0x585951bfd97356062029ed9d7d12723c916b28f360a5727743bcd35f820834a8),
  (false, 0x3c99fee22a74c2c316106b2613ed326bdc958f1018d3fe07739b5cc628e0a0fa),
  (true, 0xbc2249ecaf5343e6d14df14c338f67b70b0c7e6f2d7a7f733e69c9fc7b947136),
  (false, 0x79442a047c25c300c1b02070f0e2d1db707384b112e9e638d2d6775d53160369),
  (true, 0x3ab23ad8b715ccd51ddc2d68c7744bcde076cefb5a9b82fe9aeb036bb5fb623c),
  (false, 0xd7be01ff0505ff4f1945a8d12aa08692655474904653ece15f6226658b7d0d56),
  (true, 0x148dc9a5011c40f52292eccea07ac432b28c93510f17599ea62a7613d34e733c),
  (false, 0x4df829eefca0b1148956825e3b5f25a07990a6cbed3669fa0a3f9b53459d9acd),
  (false, 0x27572bc27670dac3fafa7ab953d57dbde04bf05c9908b8e895b3b270e3aefb49),
  (true, 0x58b7a6b37fd4f1db9b0e41fb9d6326d6d94a5a94fd21326a16b0b0a40c4d3766),
  (false, 0x784b43087b323156f4f0f2afb8a049e9cceb84c0594ffc13225da24335a6cfdb),
  (true, 0x294dea34bbd9bdf3b46c6be31227ea7103937d056d741fde4d9ffc8235ae80db),
  (false, 0x5c8b061094f95d5fb91930f1bdba2a353cfc48cfe4981277c3302f7d483f6662),
  (false, 0xba4147e5f9510523365a225bb68e8addaa7eea2ea65ae1f9c684ca2013741516),
  (true, 0x858486747c6aee024fcf2759ff362b5b114a1f848ea9bf06c57c851f869c1663),
  (false, 0x554b1c9e6c97198b1d3af2d9307c8a8bd81828e237545329b3dd21b2e6d4f47e),
  (true, 0x15afa13917f4e6f2569824c875afaa26909cb7a50d22243f465900359e5d53c6),
  (false, 0x257401708a70382e2a3bda945cef5adef1644e8d38d3d144c7238f75fe4dab53),
  (false, 0xebeb843c8813d17e5b5aca205c0eb7985678204a43c33449fbf71cb07dd76688),
  (true, 0xccd5118570186e9da0538b504926600e41b263e516fd3c3504a77d65b58bd5e0),
  (false, 0x5eb4cf345346b70f73d493191652122a78a84bfca2a6b70e2b217a825be0ec48),
  (false, 0x864c9b07561928e630b61f8d8aedadf22dc399f0d3af4d49a63a42a3ad805564),
  (true, 0xc8b01bbc87c354d64859cf80d497045b9cf372c74d82cfbeb74e357b8bb50d0),
  (false, 0xf01aa281dc9fda21008fae1230526f028214b9b0b5e856c9e00e0b7f024622e2),
  (true, 0xed0e9e5160f5de6c316d360dc60b39b499aab1d9bb9276c5180e6afde1d62bb5),
  (false, 0x944969747f3638af750cf0da615a9168c512c540ce33bf4ec61a83820f23dd7c),
  (false, 0x120dbd2031b5e2faf9ef02fbbe6a61a04210c29e4c7b49d2e9b74dfde819d74e),
  (false, 0x112144499dc51a0a28fea590d5541021c7870a9a9b3f59d433d4413c684ac7b4),
  (true, 0x734cf92d0058a19134158d829eadacfd95c56defab6e77723259bf52e4b74b88),
  (false, 0xce294a9f5acd0a01e63f57c61f8006fb919b49ac19e338fbee3407637ab413f9),
  (true, 0x2a732f485eba27125bb123ac6a760041647565ddffe45faf661c3281643d0968),
  (false, 0xd25b5cb3093de114e77dafdcb6822121632416c410345e11cad5aececb41eaad),
  (false, 0x2bcd4f64fefc82f331d8801acd713de9293df8a6a7768e49fadd194dcbc84e29),
  (false, 0x7b5d7d5f24a345d5b2388a3ac9af607aab4eac91ce5d7c53a917b78ce4584482),
  (true, 0xd49c78d2cefefd1715c5032e4168ab41c4b56c8648fea061acd8ef467f0b1160),
  (false, 0xbf11d8e82aac301e69d0bd6378f431ed50c06b999a91aba33640bf7acae29165),
  (false, 0x9765c4bb4bbe3e9e4a37c02a4a67ce47244ef6f28d8a98ce0061daf2b296f1f6),
  (true, 0xbdc3a2b686b20f5919f52dd600ddfeb2ed6582a95ff9129b20ccd31608a89bf3),
  (false, 0x9a3a9b6d5b3149485bfa3838dbbbcdb2810da1537114dd6715b3911785eebdcf),
  (false, 0x715178c367bc68d3cad9d9656261751cabc476572a79bac3e22d3b276a6c2c2b),
  (false, 0x413df7d7a1b1f0a60656bd08002bdb5c65fd8e697712088000c6380de54f00b5),
  (false, 0x6bb0bb9964fb261fd0c54883e53e4740e1ca02ee65d9ad7443e60164cdaec475),
  (true, 0xfdc74b3e531a2cbc559479d336c958de1fd23d7fe36d935166841cedde125bd6),
  (false, 0x5b7f1ec558421a2f4b948e8fc76a987808152f2fd8e6df276b0afaa702819a1),
  (true, 0xffe1c1c761f4386aa3b2564879aa3698fc66d2ebc46e74fe1d83d03fba2eac98),
  (false, 0xa754c7ba9ce80172074dd82613313fe9641c2e02f884ff6eb6a8a20e4e44c2ff),
  (true, 0x50cfd66c488b4fae3451dc036cacc340559904d1f168b19234c6247de5b026eb),
  (false, 0x1e811383e7a2fdf5cc7525863c16e4566214753999a11a2867ef74a860b44cb),
  (true, 0x1e75c74d58f5c75ef9b178d996ae59d31e6752c66e5761060b23fe6d6d66b7c7),
  (false, 0x4aa3d5298c33b1caead4ee5dc9bed27f1268efeb41321d10b2f708bce4e75cae),
  (true, 0xb88226e2b75fe2e23a576bac94843599b97c7a5413696d763e526355cd71b367),
  (false, 0x927cba5b815b6d35f25061a6377e277db6c918f54c8646b3a3960d407641f516),
  (false, 0x32cb3a827f29ab658f56dd6441bcd137fc1a550f82d89f9786780ee8e5e81b84),
  (false, 0x511fe05426c61b14abeba0200e4f019747673e6f557f88f0f2bbeaf87e4d1171),
  (false, 0xcb2acce379f7bdc6b2c9b2a39e58918e76af205e81236478166bd8c4c03a94d6),
  (true, 0x8eaec6e2fe000ac02d5660996492a8285999c2a7093f9f4b4928a6b637f032d1),
  (false, 0xf07db0f1138118ddbc4783695065e88aa8f33b806aeb2361ce6129de66133cb7),
  (false, 0xb2a615eb7756b5b8f1b5c69ab379feb7ae070b6f73fb65e478d16ce98c63ac75),
  (true, 0xa749027006d319c16ae80f87b3b314bdfdb38720109c53965de7f1b073e40929),
  (false, 0x2d155d528df5489e5976a192f8991ad98338ec0fe3c2aa21d3fb62d2fae00d30),
  (false, 0xb4fd319ca814a88d2d366c1b4b3c67657c0e2234106bad9ab7fd01e50ddd45f8),
  (false, 0xbb11e2024014b101df2f33c609c1e58f9f6ed6f734bc6df49f1e7913ce616a6c),
  (true, 0x74682e07bc534ed5dc1e980d35c53aab2132300cae35f6fb25e2ccb9ebe65d2e),
  (false, 0x26e8edb8711532545fda7c035e1e60fb60bf6765ff3b889409eb3892cd7b964d),
  (false, 0xc516d718e9cde9ca9a7e4c05b904a68bcb3033b69edcbb9586969df98c860587),
  (true, 0xc0b1dfaac69feb0f58c94a33e561e3dbb30262a77b3044f7965af5305e24468a),
  (false, 0xa4a45890a8d8596299d68399af5964bef87ed628c276594517030bd641164b87),
  (true, 0x151544f0c30a7b9da8a7d1eaab8a115d066a3e89cd0332b8f4e5bc06c734dabd),
  (false, 0xc89a44db6b8a0929957911b13de103ad8405018729cd15300bb49f4cb61bb8ff),
  (false, 0x73b4ffe3d547401d3ba644946864f1caa432e0d89bdd654058a0e60ce1f7126),
  (false, 0x309e486574aa6f6cf7a65c499a522c500f45ba2101ec70e6e00c6c30132607a8),
  (true, 0x1b05a72aca57af3e4e6af7db1b45598fd235f373cd2f8f5d7e585dc65f6d85f0),
  (false, 0xf6af5dd9fb6cbfe918146acd0f03683f3c44ba0bfb3c2657d0777b093b877aef),
  (false, 0x80d41440e570c535f38425e8e3ea431bc2b343c68d5f09ce6efc4eeb4e4702c1),
  (true, 0x82e36e75d033ff74857cfb112ce868cc16d7ed8a757c4f9b7cb11a815e6f8fe7),
  (false, 0xba964ee6a65e218fa85eb7cb21da2d2e790ddb0e676394336cde6d6aac1f11f7),
  (false, 0x17c447b2ac2087959622fd79ff32b553ed17b3f849cb47f3d9cfc723fd3fb7fb),
  (false, 0xef39e2d54651f5a9fdd7469de202fd7f9268502bef94b478dd34e28df028b1fc),
  (false, 0xf9d76d0245acaca0d3a77565816b2dcc0be87379c92ff7a1457334b2cbbd448),
  (true, 0xa0ee979a9cb636d06d7dd264e24ee09ecccffa247d5145873adec5c60bc38761),
  (false, 0xffdda1e2236a12e93f29a4b2be8008c3193f3c75ed9c368af1a87a0fd27bdb24),
  (false, 0x3289ff0d3ca62dcc51416ff2e3ef6e4ef0b0e41bc577136ade1735b79ef7e900),
  (false, 0x8ca1c701f2727b48484049b8e5f0edd238c9e0760978a52482d8867bf41a7dca),
  (true, 0x71f5e75de5ffd44a2ad1c23ed5ad08844162021b296d6eb1959a328f6d66d132),
  (false, 0x88c4383c3167b4d0594a9478f8c6430134841b75bc3e5d65072151c33d12ba3e),
  (true, 0xf35dc344e93589effef142d7b9aef5292402b4e90a7c7f71a21b0ee0a318d197),
  (false, 0xea8f78d203aabecc9a6999e9fb7b51fb25369bd1fae3781ed3a1fc97884a6867),
  (true, 0x40745219f34cafc1f56f32f81079e52fe8bb1d6be14b19bbbf05c4430b41eea8),
  (false, 0x59a2af41ba3edeca1d1750eb7cae34c92fa0f8ec49b55e880acdd8ba655fda3),
  (false, 0xb7d116f2b8646b1dcaed36f5cf15df25085498301e53942f6f0320ce99aa2be8),
  (false, 0xeea4714aec2859795522756fd7cdea8268aeaced204cc4ee25be775023f28490),
  (false, 0x92e2d01421485f00d02b6d903cb357fd79d15ca07b0299d086367d67f73f031d)]

/-- Slopes, `true` for the addition of the base point. -/
def zskSlopes2 : List (Bool × Nat) := [
  (true, 0xc96165ee0ac1534ebceb3e162da5fe0a45fcf709da0874b4a09e444e172eacab),
  (false, 0xbae0ba297b3fb859295d44d663184c94bcd3cbeb9269021febd8a70c547e4842),
  (true, 0x56c4452fc03dccf6f8a70907869a7a962d238dc17f734ace234b4665dad37500),
  (false, 0x5cea02469b24c65e791fe95fe61a42f1870706cdb63d8d30dfea7013834e05f3),
  (true, 0x761a68ee14de557c4ad1ec02c95f6693cdcfd151522c2058a6b12341a0662933),
  (false, 0xc083a3b1fb0b5394405295e21d4e12b11dd74f42af0db6f38f284c71b8329d4d),
  (false, 0xfbf075dfff8e3bb76df3a762736b0f38bd3b1d97ebb6f5d4be6a9915f8fe0e02),
  (false, 0x21e6939a3719a36d8c4909ce03cac4cb4b1a3e573f4dd7ec161d399a9e2faaa7),
  (true, 0x9e07ebf64007103c7c88ad855df3b230b1c40f019f1d4ae97a9db88b729cfee7),
  (false, 0x9c2480cd2a9663c17043652254616f8713de2294b868a1e054fc0de4ccc35bea),
  (false, 0xec61d15dca75ff24005b43d72100286da50762aa8fd650bf98aab77a92971b70),
  (false, 0x7e3990de68096e0b22dfb6f576ef0660e33b1601102db3b5b2190f96ac6b25a8),
  (true, 0x2cc6f0febc89608d37730ee899c3491d6742c224881b9c30183c954ea002956b),
  (false, 0x8cc52a1b7845e29b5fd5f07c1c12ec232789d559a2a5209aed3d75c18072fa42),
  (false, 0xed10b48ff8bf56143ba22eae1dd2aa601294d749d4666f71660c0d547f4603ab),
  (true, 0x70191040de9b8b7a37a5bf98681aaa4a6abdd7623b3f197f124eaad26c17d86e),
  (false, 0xdd462351f82cecc2d34e31c93fac7ef93d78cbbcdabec1f65ef06beedd47db95),
  (false, 0xa8bcad63c0a3e6943f8f80ba1d46ebc1a4f189e7f565ef117bbe02d4ec6a72d4),
  (false, 0x3438f57c4945bda4bd64ac90933ac79ddb1d40e9378cd823c09fd9c523a38139),
  (true, 0x693a93cc0b484aa9192c9317169e2b4924671b29957fa684a09c66a0ffecc9c7),
  (false, 0xe02bd046eb0ebfadbda333c3dfcc20c7d7a6c40b97f4ff61f20e0530348f149b),
  (true, 0x4e6b52ea2ee139633d48fd67841f01650703757a5f909b4d28786bc130940184),
  (false, 0xbea94d011187427ed3f739d532b5458a30e016c1d26b2d785785c51fba60c320),
  (true, 0x228c422c18f1ef2b54a3c37f89ad6bfccd55ff4355e05b12ace57db24423d342),
  (false, 0x7ea7a9924da619f835d727994ca35145d78c48281e0b65307c9bd434639cf1be),
  (false, 0x735d4425689a98969d8b07b2829d5a531fcd218afbd47a9c43142caf0e5c66d4),
  (true, 0x4b9772827c649caa3217158b7f5528b44bbd47b38622661775b0e98b7af3e56d),
  (false, 0x16d1de5c725fde00be053651addbac47d67beacfa8aa7a5df7e1bc9effad976a),
  (true, 0x9949024ffb00bbe4f4fd0871432fdc240924f6a5d2cdebe7e33a7ca4d5b7c9e4),
  (false, 0x31d174e95ef8c13dfcd6d9119b2e0407fa8afe450821acf66df97a210c113bfe),
  (true, 0xdc91ac2cc2de3cc2a6dd5e5702fb4a39aedc2d59b93282a5450526381fb0bb21),
  (false, 0x41a54b7074ca6f8478b67fde4eb0e9f18691efd56be086d0f27a055f39199d1b),
  (false, 0x12ca4a631ae026295e74c7380b76f7a996fec328128306e90e8337a5a2ab3762),
  (true, 0x792aca444da6dab7247e7d9bb63d2628027fbed9240f9197d3bc465caadbd5b2),
  (false, 0xe5bc8a0861e74ecbb9716b12c04050023a5e5c7293b0cfa4132c1d40e1a5b48a),
  (false, 0x68e61d330d1b5b6b7e730bc5ac297b8e80e5e39d5d36de1344c5c62d8e630636),
  (false, 0xe5e2448e08d9d15853fe83503015a21b3e19e292ff5045ad14d6b45eb58b0319),
  (true, 0x410779f320344b54f0f433f5b3b7d83cf00ce9028c0e1b1cdc542603ae6e1cef),
  (false, 0xd47679f68b80731135db7f2d7b634081e518f24eb1515809da2290ab30924131),
  (true, 0x3e51326ec7778dd6cdb16755a08cc9080885a2f1047ea82c061d083469edfc4a),
  (false, 0xf12dc39b05055d1e33632d350442a421b544c5e020d03cc90fd035e387fe36f6),
  (false, 0x4d91c5c62ba5fa2443c8d61e48fa0aaadda8831f094f46f08de35a0fd867f9b),
  (false, 0xaa4fe4e1794746eb218506fda38cc2fbb7e344ae1a68143647a7d1233544d966),
  (false, 0x3e95c2ad97aab22bd9d9f7d182125be9e0267486d4dc095636355b74f2e83f90),
  (true, 0x1033a9d422feecb38a486209523ba58164212bbf49841bc24f997cd80846c6b7),
  (false, 0x927bb2c1754ff6ddcb08b74da41f3fff7e47a0513035737b28642b803f80b0d1),
  (true, 0xb7c037032857becf9daede993ef3bb91579642716d7fbaf2f01a86975fab3987),
  (false, 0xc3da72ff20c234f73071a900b2e270a8232372be01c118ddf09390e573bfb1fb),
  (false, 0x9b5d822fdea980f77608bcfc7f32bbc3577d845b9bc91d12128d682d23aacd15),
  (true, 0x13afc8a66fce76760fa2c02c16cd53a37742ae16aea0e559587fb56bee0f34e5),
  (false, 0xac339cb5559cd5df1d5a6025d7411a1dd1845d7b3d7a68b1b7b9920efa75935c),
  (true, 0x9bf9f542d73fb58c6512499c5238550a904736efa918f225ca10f765ff5f5596),
  (false, 0xb5771cb007bbc2d3acce2af036440c6d5c584b63492c6035da002317a3c22c8a),
  (false, 0xfff2cd331205ae1bae5c2ea4a0cb5c2d40c541d5fc0e78a623474ea32d114fbc),
  (true, 0x92807fb1bced747c0d249c6a53406d64bde7d468b3016e0571acc48bb30ad07d),
  (false, 0x926157afa99b59439515c61b8c19af0c1aa873b39410b0171c6133cccb14b487),
  (false, 0x348c331932d9d4849f52f71e6f3ef0c6282e0e693fd273c3553614a33c2aaa56),
  (true, 0x523670cbff9753838dfee9b9783b96086a84dcc16300094ba3e83fc9cef8b177),
  (false, 0xc3c048f4bece540c7d12d30fd14d40a27e43441d7198dd3992e6a8ac7186bce7),
  (true, 0x34e3b9bba0e61ac6684af5c07c5efdcb961e1b4f772ca6ed6e28c464e3163fe),
  (false, 0xa79d75c29cef7ada761f314060406b136b18438fc8d284af992119337fed6e24),
  (true, 0x6a28d1598139a0aa84c2ac00bd52c6df7a33a23bf722899faa88c3bc7694a677),
  (false, 0x9887f0876591251f64328d98b2694cceff7c2c7c51cf3266b450d1ac36676ed4),
  (true, 0x91ebb479cb3fbb6f1f34c5fb7258c651bb677875e7fdb6f3b97a03014c0bfa7c),
  (false, 0xc99cfe8a5824b1bed5154096cafbfafaef3c6dbcc231684df9ca482517183738),
  (true, 0x439f57c4465527b66a61092a2adace37767381bf21f2618d3f612dcd4311a89),
  (false, 0xe66b93f360bfc6e80286485a224ea9c2b1e5dfc4266df79dedccd3d9d383ab2b),
  (false, 0xa48489477222f0ccaf8cb244899d93665cac942b197778d5d73712216452c848),
  (false, 0xe6ce9ceb95b42e784818c62552a90143f831020d01286e4dd8ee597d264576db),
  (true, 0x9ef43c4fce5d512d48a77304b95d2d3c2e670c96d8a195567796a1b3eeab61df),
  (false, 0x27cf9ad5a0e22c0fb0bd94850a11cf28318e131c7c48f0d79d7e80a3364511b1),
  (false, 0xc9ddabbadc336b59e300fd480df4176770da16c3788d25ae7c13edf4580d05d),
  (false, 0xbb99bb1198e6bcc270f8abacb6c39c924c0b82694dd12556a4451333de1db1b0),
  (true, 0x8ed83ba9b1bc86e31a665e56ffae92726011ba1945d5331be01188140871aa6),
  (false, 0x6956404224f8b47b803b643644389625ee97229920a39e98265b799c730a907a),
  (false, 0xe07bc5fe09b6350594aa59d0c80bec03f3369df843e068d6ac69f12b9446f25e),
  (true, 0xf293b05e95cd0e85d76be38af7756cb7aa9889eb86e9b67f45f15b598198c599),
  (false, 0x7bbfbb2d6685772d33b6eea7b77ca6ec3f0eb4e6ab27f2235a06c7435195ddfa),
  (true, 0xfe0768a16e90b9801b1fc3ff257a137303402066eacffb1896e2af83a0459222),
  (false, 0x26e61225c596fc4fa2b02f02803cebddb73b1ea5a4b661198db22785e7197968),
  (true, 0xe7d30199efdc9a37f3c57fd446b6f92ac01dfdafb53c43a64523e5fdd5081b31),
  (false, 0x509b48fe5815a5fced7f921c66c915ea0908aabae5ce8505cdfd19c8ca36e9f6),
  (true, 0x7247f82609abcca8bb20f8e1406375bb442f3825be48eddc7a260420309ffc66),
  (false, 0xae49169d21477ad88cec00fd9d81d947a0f4e07cc7be7ae6c79b6847700e243d),
  (true, 0xb86229507e2f97fa85663f46027d4ae65f87c4fcc11578c1bff88ea2690110be),
  (false, 0x5ecfb8c42bf1be8289822eced4d582cc4c07c41bc196dd09fb926454f51ad5f3),
  (true, 0x22b9d42704ffff75652c4e6a3096b07bf3fbca05b91196b75472635fbd27dbac),
  (false, 0x2dad075ce73243d6f2c2e0bcea789a0985fc4dcdae26b8d645140a2f46c4c0c0),
  (true, 0xe85f8712402e8c2f03fd0ebd0a31ba7be7374cabc1b169df3c05b35bfa05a056),
  (false, 0xbe274e59b957b71cb9d0b36949bf3005c43df0485836715456d73f6ce655637b),
  (true, 0xf57d3be53302622c9aa9285abfc006a60ba08fe727640fceb0dcaa62192c4d17),
  (false, 0x27d1972453a2ea02f3e671228ac29db935361ea5ba296e3b152cc540f873d392),
  (false, 0xd0c582385bc2b0576f819acb7e085fb52cbfa3cf2c25a27be14b10085c703f9),
  (true, 0xefbb404b96e90c2e959a67114439212b3f8357118d1a96ec116d148faeab1bd3),
  (false, 0x3fe64720b3f8f68f537aa42bb90a2069fe5958c7f4a538e678f7965bf5003c48),
  (false, 0xf75d67ab883b6c9345b7c8ed9ba33647768e1f58354346b542807eb4bb794580),
  (true, 0x9a8ee490ab3f83b7e8f0847b525153fec73e0f2b1bf438ea255c6a176eeedf12),
  (false, 0xb8e96dec89f45ad2d1e3a5881cf1e515b4f71564d626bdd373056b2d7b64b3e1),
  (true, 0x5b289d323323fe7407bcc432fb75df236378f9c5983427022a41d364107d25e3),
  (false, 0xf46432efe611448dc5b51a3654dfa959df4e37a8c42eb634674f5926d36ed645)]

/-- Slopes, `true` for the addition of the base point. -/
def zskSlopes3 : List (Bool × Nat) := [
  (true, 0xb895f9364fe347e7bc4dd8b2e2bd386404f256042a296166f81cea22e3700869),
  (false, 0x1aa6b1d3964aa3d61f28c7eea6858dec0b98aaf077fc57b0d2da5c20fe366f82),
  (true, 0xa9f069b03cbad466abd746ce8ac515b1e5c0348b016f8f88972188d06d21811a),
  (false, 0x9232a478ef45c6ad9540f1009a26848736d5d562ea6ae7680be017900e650260),
  (false, 0x46a11c723f4a04987fb0e64770fb3246ea3b43f63a7f180502568111b2b85216),
  (false, 0xd4f7b9bfccfbc3d45c6b48c8edc01f3af351c760957a0278a2438565a32d14eb),
  (true, 0x668838c98712f1d423f1161826fea311e3ad862f86cffb1c774339b653a755b7),
  (false, 0xd34a7f5cb2c061f57cc26d597806b0b285240cad253bf87fb0f0bfcc6c7d690c),
  (false, 0x31a299ed5f040fe0dc663e8f1936449fcc27d3e54f2985dc5088a0a458d1b547),
  (true, 0x17600046c975cc77d45491ce8f93c4e0e14eeb7e0ead36d47db694f1d1585a0),
  (false, 0x7621456239feaa8f3c5e09a2663b5ffe58c4ed86e5b8ec698548984e56ddc4c2),
  (true, 0xd0b73d78a6db80aa8ff9cad8c32118e091251bca0cad7f2eff8c6399bce45d00),
  (false, 0x311471118fee03b98dafc58a234c8be0dd67432989b8f6883743035cac8a3e2f),
  (false, 0x775866644afd06c703560d0edbdd12951d977804fccc0238f9bb6850fea8f204),
  (true, 0xc870c2161bbabc931840da6ae60868bd7ae4922d69adcebbc0b8ea23709b7e9c),
  (false, 0xb5845e5dc9a4954925e3d5eac482aa4a19809641d1d4662a0e476c97a244ec63),
  (false, 0x311f7e4208568862ffd2f2d065fc564becf62df2853dbbd33ae4611f4ff4fea4),
  (false, 0x9ab61a1b49f9167dc6fe7d1b808ec982d742c13747681130aad9afa43f4bb64f),
  (true, 0x8231a30132bba1d45f8422641fd0641d08b76cf7437f52747f24abf492eb4866),
  (false, 0x1f66cc367cbe03a89b90243f12004375a7746a4898bdcebbafe921ccfe4d6d05),
  (false, 0x311a9bc00f00423fe9267641b48d6f3550705f2827fd56f4974a925fd8e35bb2),
  (false, 0x24ffe04f8ac0b82d05968330f7efd2cf869295111f6f34dc67a4390dbe1f51b3),
  (true, 0x76dda8b2ef30e349a79dffe564b93c203e16afc53673335cddf18d17f71df3e5),
  (false, 0x892b4428d19a71d10134bb65bfa1dc3c5ea762777ce747a4a90f032b0a187a51),
  (true, 0x419bbeac846b4dc0d6a331e7cd318b423cc3884ee5e571bae418ad91e4305d80),
  (false, 0x759755d8f2d09a909670398e68a52ef2c2add6320ec18477507253948bce7a4c),
  (false, 0xba10c90121e863a9df6b8a443d7d617ecfd494d2b10f5c74ee48702f72282b12),
  (false, 0xf3e4b715ef6cac2fe4b3dc115ae768f0d521ab8cb2525578693cca09b614b0dc),
  (false, 0xa96bffd336010ce343ba5b3321b11370525c5827d558f35397e33b7b720c2646),
  (false, 0x2ab166936fc601e5b220631823064672c56c2d9cc15992fdb43cac618ebefb63),
  (true, 0xc786c11ed5d6dea3f1b021b68c661564fec898c1d2b5fcbe6450318d4647e3bf),
  (false, 0xa46d1e42a1d69d8d9ff42abac36d7674562e635424b68198ace8ea6ae23ab064),
  (false, 0x48de637e00643c14b596896fc987d301716752e88391d643e1cbbe1df8e28ba4),
  (false, 0x334cb7a512112ee86f95cd1129a04367661ae60cd780cf451399eaba26bcc663),
  (false, 0xa55bed07e060a80ab7c49f9257cc9fb23aae8e7327b0663650b31a2241a80c2),
  (true, 0x762f6fe60774cd8886fbca768a0601bf274cb2dc09ae9507a5db666c372180a7),
  (false, 0x16aedb2b8087caa0614dc632537225fa303e94c324802c719c69deb946a0f7e3),
  (true, 0x84aef57e68e13fb47089dea3c170d401d243409e0df5bde6d97f9e18879a08b),
  (false, 0xc254cfc99dba4bcca292a8b15d88742d1109713cbb71163b3536209d6b98ca7d),
  (true, 0xe1e7afa1a924cbe4d59081d2f948d380f3f79f5021d636b8905c09de415dd31e),
  (false, 0x7d588823e9b5765fd559d97839adf45f873077a4941868f261eb494d94085977),
  (true, 0x1093150952c07c770ec33ff32f031f8dd28ecfc3b09e011d78ef2ae8871aceb),
  (false, 0xcd16aac5bb7435064e462a85d228a731546b03130829b79001bd004c6e9d1b3c),
  (false, 0x4e6bdc5a39615981592701a8fa19ce5853e5d37e5b56a48a75f761803bf0ecf6),
  (true, 0x8d3d490be4c6521e3fee512c17f4a6fd7e672a29d8db1636cd752232a0d4a37b),
  (false, 0x7f76d55cfc00febae4ecb647df9a0bc96650641db99fc73e47b6e3ddd79e2c8b),
  (false, 0xcf91a37b98aa03de4258750fbb227b44ecd688b1613b2c532cfeb75524f93046),
  (false, 0xb7b3b5ec5e0536292e3f737f9d8efbac2e0672700d2ebc16904ed366f89e6d69),
  (true, 0x5c34ea4d4012b3157570bc3a4c496cc4a336c9929a1a2a823076c7e1d6215e87),
  (false, 0xb795d86084e21e48fd82170e61065eaa242d593acd9a174219943d5f54b19b14),
  (false, 0x1fdedd43533a9c118f1df0c01c3d7d2609be39513eff08a6ff36a51e4c1de1ae),
  (false, 0x2eee6958994e88f46cb5a0580ddf97b929ebe999b2a8966b75003527b7e981ab),
  (false, 0xb8d6c606c9296ec6a9bcf6077fb906cb968bff3558e64045436a38f3e33a68d6),
  (true, 0xe27c0571a00c9937d660e4819fe5c924d984514c7f56eba1b2ceb7512cc5a19f),
  (false, 0x65496858059dfe32354d4e86c0a94d9b5bc1eac200869069d33b68edbc118202),
  (true, 0x1fc1781577e7ffe322096474447486a240aeff6447de74ed416ab1728e8fe5d9),
  (false, 0xa57b9fda8fea1a0d112ba29072ce3308954eac4db1072ec4c1d906aab799a22),
  (false, 0x6c8761ee8361f1873cc88f65ab05e5e314a60e22970f68c174fc26bf8a2ec90d),
  (true, 0x28302b68dbebbdc6c113ac41254fadb4b4b150e7b232d53c878bc3bbfc6b322c),
  (false, 0x44f340273d78764349423d99653e75734fc57ea01c90d2e394362cf50f131db0),
  (true, 0xcd74241d2c471d22b3b431ec3d383c7b4189a231f04ba2e3243425c4b79eda3b),
  (false, 0x1692649514c2671e310ce975b5911b40c3db87201f013a434f11abcf2b62c442),
  (false, 0x43e09520bbd5a137cea7b6de9baa1f47a94bb68570fac8a0177a3283e528d87e),
  (true, 0xcafa9a347b15da26009fcff1524b060119e1b3d564af7a98de5a963866e1acbc),
  (false, 0x42e9b7cf1ddbc568a41a2de25e056a84954c777f4890fb2537d8c3d2eef025d),
  (false, 0x337c635dafb00f600ab1fe2763d457403fe2c76e6665bf755b764a5bb445bd6e),
  (false, 0x5ff55d0dcc473ca38b60093745231788cc04077013701c155a23d25baf9fcc67),
  (true, 0xb6a30118365f22cff0b303b71c65f3a886b23f6a82d484ec1ef3a06704a77581),
  (false, 0x6499928990a912e0018da905338e52b6d34b1dfaed1022959b426633309e4fab),
  (false, 0xca0257e96070c8fb8d8f83e127fe5d845f9c13effb9eb2f02d8ee75432531b3d),
  (false, 0x4460ec481cf1faed23e8b163c94474c0f8dcfdc96845317e0a6b545728b4450a),
  (false, 0xdcff3529d0ad9147082ff267a882351ecd223276f2a7d7cf8359e2faa7030b90),
  (true, 0x81b61f620066b326338e670e55fef29bc49e87d4f9cc0cf36eea20ef80d5accc),
  (false, 0x4a01ee22698d08648366dd534599575573be8a106e97549d026bedc1dc92f488),
  (true, 0x71a14e9f7dbc0a2b7a2e9d51e9a8df31a9dacc798b8bd8cfafb32d28c693f9b1),
  (false, 0x6c8481d44e97ddf4f4d157f7f73f737f921cb024e985ad5beac00a04f5bb21da),
  (true, 0xd562bf3ddb443824d953cbea6bc45f9b6587b723b08b18c94c7b28020a4f1f5c),
  (false, 0xa8bf89dc894cdb529d22a3319a39b0a04598bc6414b0f6d884ec9ce96ce9df35),
  (true, 0xfcc61f3fdef9d121453e684dc966202ad17b045a53dc8517612f7d4eefc15568),
  (false, 0x923fe16394f9e333fd09dd95f3b8fe4251973806d1a9c6b78b4f7f5209baba21),
  (true, 0x4e46a88155981f5bbf84ea5fe0fa109775f5bf67c4e883dd279813f717dd18a6),
  (false, 0x2be62f86c54c2feccda942522ddb3bcf687b5801b47ccb1444b2358fb57e6d18),
  (false, 0x25902a12a81a52ec49e4573c0300fd06f2d98f0a8dad3f7b5525af190e6f30f8),
  (true, 0x5923d7acf00537dfc80bb828e2fa328baa821da1301ae34fa772253b5c96593c)]

def zskX : Nat := 0x2399cfb3a72515ad609f09fd22954319d24b7c438dce00f535c7ee13010856e2
def zskY : Nat := 0x281dd64682f55b96c2cd6d13beb295b79d060783ddacbe1cb51ce8d3885048b1

theorem zsk_point : ∃ h, 0x54276ff8604a3494c5c76d6651f14b289c7253ba636be4bfd7969308f48da47d • G = Point.some (zskX : ZMod p) (zskY : ZMod p) h :=
  of_chain (zskSlopes0 ++ zskSlopes1 ++ zskSlopes2 ++ zskSlopes3) (by decide +kernel)

/-- Slopes, `true` for the addition of the base point. -/
def twoSlopes0 : List (Bool × Nat) := [
  (false, 0xa249bcb3191802d3cb56fc75a8731f848e7b2caf080f3477a4e4d904a671af9d)]

def twoX : Nat := 0x7cf27b188d034f7e8a52380304b51ac3c08969e277f21b35a60b48fc47669978
def twoY : Nat := 0x07775510db8ed040293d9ac69f7430dbba7dade63ce982299e04b79d227873d1

theorem two_point : ∃ h, 2 • G = Point.some (twoX : ZMod p) (twoY : ZMod p) h :=
  of_chain (twoSlopes0) (by decide +kernel)

/-- Slopes, `true` for the addition of the base point. -/
def threeSlopes0 : List (Bool × Nat) := [
  (false, 0xa249bcb3191802d3cb56fc75a8731f848e7b2caf080f3477a4e4d904a671af9d),
  (true, 0x28cdb0fe6681d140c59fb73f85f16459ca4cee083742bada762de4ca226a8086)]

def threeX : Nat := 0x5ecbe4d1a6330a44c8f7ef951d4bf165e6c6b721efada985fb41661bc6e7fd6c
def threeY : Nat := 0x8734640c4998ff7e374b06ce1a64a2ecd82ab036384fb83d9a79b127a27d5032

theorem three_point : ∃ h, 3 • G = Point.some (threeX : ZMod p) (threeY : ZMod p) h :=
  of_chain (threeSlopes0) (by decide +kernel)

end Verif.Lemmas.EccKeys
