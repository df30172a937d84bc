import Verif.Lemmas.SecpOrder
/-
A multiple of the base point: that of the published test vector for deterministic signatures over secp256k1 with the
private key 1 and the message "Satoshi Nakamoto".
-/
namespace Verif.Lemmas.SecpVector
open Verif Verif.Spec.Secp Verif.Lemmas.SecpOrder WeierstrassCurve.Affine

/-- The random number, the coordinates of that multiple, and the second number of the signature before it is made small. -/
def vk : Nat := 0x8f8a276c19f4149656b280621e358cce24f5f52542772691ee69063b74f15d15
def vx : Nat := 0x934b1ea10a4b3c1757e2b0c017d0b6143ce3c9a7e6a4a49860d7a6ab210ee3d8
def vy : Nat := 0xd2831840679da4a3dcd420fb04daa9ff5df5d05ee36a365dd6a9e3ea87f0bc0
def vt : Nat := 0xdbbd3162d46e9f9bef7feb87c16dc13b4f6568a87f4e83f728e2443ba586675c
/-- SHA-256 of the message. -/
def vm : Nat := 0xa0dc65ffca799873cbea0ac274015b9526505daaaed385155425f7337704883e

/-- Slopes, `true` for the addition of the base point. -/
def slopes0 : List (Bool × Nat) := [
  (false, 0xcb35b28428101a303eb9d1235992ac63f58857c2f631ee6936d3aebbeddcd1b1),
  (false, 0x6ad2cb95963c033328d4857d4f8711deff557dd9faaa673b400442833f0efb64),
  (false, 0x9693023fb325cc6c7bc993eb684358ea623d5feea8ff351df662beabd0efdc6d),
  (false, 0xbc380350880ab969e653d334691ca8c2da83b2acde59e7439ed92d96a9654a07),
  (true, 0xbb5d5c9a52a61f61a82b39acaacbfb34a445701cbbcc4235810b4eaf26917369),
  (false, 0x7653ea8ae2f7ea675c092a07265e0f87a87c6e705a70a002f1f3f07c8c9d177f),
  (true, 0x466629ec0d60453ff9b276da340ebbdf23bbd0ae5a7043f71930283d720dc137),
  (false, 0x43100a107ba260ae9c5424678130625b9ba50e5f73c33129ec74a8c4d80b4fb1),
  (true, 0x2b2c88f41dd8c89802fd82a8feb0c9a6a0ed0c99954325e8f7449eba3d39b748),
  (false, 0x88e021b9a60fe5c3738b82f797e64976447322606f10eee0f48acaddc1f52db8),
  (true, 0xc54ee00a45c4c0e80bdcdf62545983ddb1bd6d4757fb64ed176845c43001434c),
  (false, 0x11dd7c15283a99203dc1f092bc5b974520cb64d56a10cba06046b9e61df21e),
  (true, 0x14e5fd240c75367cb327c18f0e1a3505919d1d79d11fbf40d100b8fd400e2c94),
  (false, 0xff8eee4da529a3fda611825d338999fe92b4cb4490ecd686a87b6f48274c852f),
  (false, 0xc528b3fb9186c2b3bb769f488a523fb923cc83df466ef732ccac1905bb92ae61),
  (false, 0x90e145e17614738b2a4aa4b1a5a9645ba87d1e11e1b631dd6185670c342a2a5),
  (false, 0x5f5379ed5befa3d26297eeb4f5f12f595fae9cf74088d7cde5dfbaaeaa421683),
  (true, 0x4fc0334489a8a528cfb1e9c20bb1564296d75522c809ed79065f834acbd39521),
  (false, 0x15282eab4fd4d232cb8f8b4402c9fe1e9e5b1d018144d80a3b5bc60fb29a3e14),
  (false, 0x11bff8fc6b110c1f4a2ced6133c16a161dc8ffbb9a7f0dcd833af6cf5eff829f),
  (true, 0xd8abdb2d6ece1dbfac4c659b2142d14e3f01cf30cc68d966db507642da2d0f4d),
  (false, 0x9912a9cd80ae41d415725408b87b76114efcd902f13d505de68222649ec6c785),
  (false, 0xaeb2e002076011766d3a4dcf0903b456fb1dc46826f5952545c5eb317d54c54b),
  (false, 0xccdf802cc312dd203a4f9a97b429725379672e91c01bbe39bb0daf57cc1e36ea),
  (false, 0xff2fd8bbc75b32b8b680999425ac57b8e15f7107f67749d71700cc1b096de197),
  (true, 0x5cba3dfaf213fba4a37ad96844f9e51c3db10f09ec3e9fcb245b7faf8f986e64),
  (false, 0xceae5bcf8392543e6facac471d4b4937cee6f5b022b1b8ff5dc3671fde0ffe98),
  (false, 0xf5d18d6137d49c7bc788d540e2b52afcf638920d8392d9e945588ecfce2212b9),
  (false, 0xa2baa4a6133a0199911a65e633277e345709b2a96e401027e18a6796e68b194f),
  (true, 0x3289c6a7a93e407146f8806df7176e9ec1ae3540077c1e631eae5ed006574d66),
  (false, 0x3c49680db1cc0523c19257c3a913eef3af8a4e94f16ac4f5ecae15cb7c74a0fe),
  (true, 0x80b89e6abde6a34863b49cbb8392673f4300a7810e1d7712748f9c0abd8e7b34),
  (false, 0x1cadfc38af219e9e48833621803321c57d91940e6fc18db64e48a07c2df9dfdb),
  (true, 0x54e505a13bee5132218f5de18ea53613e7dc28646524464232809bf90a095b91),
  (false, 0x446f36ef8617b01b744ec01a054aa4298e3fcb35c8193b125602bca8e7d09ff6),
  (false, 0xfa6ccb10c3b11c1d7749ab978f431b4211cb533e64b14755b3e4cd1d06f49aa3),
  (true, 0x5a950e7785470ea4d81f6c8e58ec1055a4731bb95114f3426801bcbb7ab5cd41),
  (false, 0x7c56171e8da1a6e91f9439e340ed32e16679ad9b91731b2565302d02b900791a),
  (true, 0xf9b06df785b3dad61d6cef33baca6422222db34d7c30df640b36188f25a87299),
  (false, 0xcf2183c1d9d37ad5a8e1e13798d896243046a5a2265f668918dc91e62d805ba4),
  (false, 0x69eb694589f806ea0e607a7a8376484073da4173691056081b7db91207f915d9),
  (true, 0xa3f6c2946af479b2242840b8f4b192915452cdd7461c9fecc9191441bda0ab9e),
  (false, 0x2b7901e0d90af43d79ab220248c1c46b6259279c09f295b73680065bbdac7d32),
  (true, 0xab3bbc9e49693cf5687e4fffefc34dab13dc8a64cb0466c37c5851900ee68775),
  (false, 0xe9a0a752c7de99bd688022571b0ff1846ae3cd39620b179bd9d0338d1a2c17dd),
  (false, 0x698a1eedb45f6a62c92c497ba14af881d3382dd682d42c26efcba79d0768d364),
  (false, 0xea18c40cf9e3062d4845c2cbdf13498006fa89bc1b8c9ab718f9f6feb024e354),
  (false, 0xec84acff1259489130ef7d7098af6dd718f5d59fa66f87be79007f4e28fc01ae),
  (false, 0xc80d221b31e48858e54c77791265527c4ac69466c4579963b6619450cb32dbfc),
  (false, 0x466264ce1ac05842a2bacf24701881a7b959e8601932b4b9f696bcfa7f8c8332),
  (true, 0x7cdf70c3d191d55352f995ae9675fcc70d9798416d89035597429d5936feb724),
  (false, 0xa212492adec78091ca3f00cd92f71a2db5bbec4fa7992e745e41f011fc4564ec),
  (true, 0x214438425a8a28c3b0d76cb858af14da62c67d2ef3b72777b79ee772389239c),
  (false, 0x14bbbd4bde4d393b71f404742c07254ff6d09a5f5236814927e29692d44b369f),
  (false, 0xc0d484d0a29ee418fe1613a43cedeb82a77dfe15fd0dc408c925524cc02287d2),
  (false, 0x8c4bc5ecb30364c34a3794f477cf213f91c4e0a0812754bf98d8fce9209f39),
  (true, 0x7ee1308991cf022d34cf47e62f1c384c964451d15ff6960be94b2e67017ad5d3),
  (false, 0x9ffe5ce1c0ea53a92ee8de6d0871ed2f389d9b0c4be947950885a2ec112209c7),
  (true, 0x2f9dff4df22f03cfad9fe7470f7a4aacaa1980c1d8acc2e05b254ecd1bb04a17),
  (false, 0x89c12b6b273819d2d38bcdf4ae91de37495438fb653890c1fba736e2002673ac),
  (true, 0x8e208b280b2978be70be06fd5432b49ba50f314e748df7db1092d263b3b97202),
  (false, 0xc2bd0fdf84c965eeb00f7a93dac6b860fdc5cea6c8bf6e47e6e2c1648d7a5cc5),
  (true, 0xe917d27b2e32b39731bbe0897c28ad4acafae8c6573aa510268e009d86f73306),
  (false, 0x43bd0ee8d78bb5186ad71907897d251bc033d82ba3a8ce1fd93285d73c818bfd),
  (true, 0xa7cf51d1b7ab941b05145366bdd2d3684b174705089cf44ff1223d206cb12584),
  (false, 0xaa320874120d61de7df55049a889215a287df84ea7e4dc2ed7c975581243ae44),
  (false, 0xaa4b5f3b761abedc16b8df5934c2da40944c6b3e4539ac83a8d47db9501bb7a),
  (true, 0x3fe22908510e0488d829fcf72b55d67182b7b9e9bd2f73dc733fed6af795220e),
  (false, 0xf2be2e8a2dea664ce7ab67453d16c4772e6ced6ffd2d3a38375930286ad9f621),
  (false, 0x8ca07f7dda4ce44488bf41f8c448934cb0abaf30ba8f253f242ac18246ce6206),
  (false, 0x97c9d2f8dd2020015f3570c569fbe6f5ed9ef6f3e9ff91bd1f5156a25610a885),
  (false, 0x67136c9f7789a8a0875fbd4a0f6ab31a6e13509d29d12386e467e0cff56ac11b),
  (false, 0x5bf0b07036c6ddc1bd6669c463c00e2537b13f358b0fe3d9bb419cfa3135e51e),
  (false, 0xee5886e328d00b4b7179c4590d297155a5d2c03edf231ca7db010fb9dec2e74d),
  (true, 0xcb47f81abb9ee16082739f8710002d4cc752c78043a5c68f2d8aba23681186c2),
  (false, 0xa97d24ec82499615907225cfb63f491ad4c142a5fd8026c87bdf559a350ccf93),
  (false, 0xd6ad4969a79a3ff918b3c9410904ce37a05acc8168c806b99cc490fa0ac5557b),
  (true, 0x851aef590f5df0006045c63e1a1afbc999c6821f0dd9d87249742334dbaa22b9),
  (false, 0xd192eecc4068ce7af822cf139f21970eabcdec9934980de5f4c07c4216438a11),
  (false, 0x2f4eac01e4d00664297c63edf46f308f0d33e2a95b745ad17a1d8e6e8667bde2),
  (false, 0xf6250ac94f9a6803b6f494860eef13fd61fdff465138ae9ffd6b49f4f6848746),
  (true, 0x4d8fa71a95aecbd85798c3bdc69716b6e1e740192917bc229f6f4c020af9053b),
  (false, 0x9821c271ec7c8897f041e5a07fb1b94abe3b273ba1b2b9e014c6269dfb6d3ba2),
  (false, 0x73bb7c625848c0367d8f8c2fbd66ea3eb22d7ff80845c89055463b1fbf44b4b9),
  (false, 0x467800b2e7abc176b2f1a8410335ee2a7ef58f7bbe966cd12bab887b65ee734e),
  (true, 0xce1aec3388c46695daa1d0bb76ff6e01acd0f18ff9585dbc7420997fceb93187),
  (false, 0x155902e2f8a301eb5cd1d8cf9682addcc60dbf6814e9929f89b475ff4d242a2e),
  (false, 0xeab1ee8cacdbcab83f37c2a4926b20f663ca9a9df00da0af87380a70059bb424),
  (true, 0x104da385cf0f456443a17344514ccced98cf6d1e467a0d50a457fa1e80753e0a),
  (false, 0xfce1034506f46fa296fa77d3aa64c19b1bc2b24fc7c40fe6a0ac0b0fa3f57aee),
  (true, 0x2935b75cbef5efdfc80404932489a501b9f9841cda07eed5cb4fb2eecbca271a),
  (false, 0x614448097c031df9225dd9b2ae6d1d20b42a17749d88f6a3dd3093517d25f132),
  (false, 0xa9b418c1f1cfa952478165dc2f0ae48f83a5cd57e848145069870a419f89e419),
  (false, 0xbcb9ab22e19d740a56fbd2b03f053e08fd7fc10407a40de8598f37c197c2e7e4),
  (true, 0xa9ce6a8506433752eb524f15594b0d92cf59a08b527d481602ffe35a9a61e970),
  (false, 0x761f9c2f2fc16642c2db1906601e756b9c6d5479667666808e438c90ba2fc72c),
  (false, 0x7cbcbfbde75aaa75a7d854c2f02659dbf541857e3b3e296f39ab1ea63314c0b7),
  (true, 0xa2ea0d5791c4b53dfdfa0c6a8abcf3b12d4fe6ab0bb4537cd4f982778754cf1),
  (false, 0x38304f89d685a87ef7a4c6544e543ed812b1333880be0e70fd7caf50bc8e3bf8),
  (false, 0xdf15991b4f21f567719a92e9ffb43a8933395f4409e94d4d043eab809ab962ac)]

/-- Slopes, `true` for the addition of the base point. -/
def slopes1 : List (Bool × Nat) := [
  (true, 0xe0b5168acf049705f1b54e9a6dc9cfd43a337c3dfcc344b589bef130e515260),
  (false, 0x713140181466529d02fdfd8a8009b0f97966b835b31b116c4bab2d53c73e878d),
  (true, 0x5bc8807ad5c92a6706f06ec7a5db10f5f573e2e9c849147f75b4a52cf752425c),
  (false, 0x5eafbe20c9143d69435416bf2e1f43dd814c010c5923b3ed54abb811573a8dfb),
  (false, 0x521ffea73d9096195240e4b6984f131b4ef4b6bb34eb32344ff47f9692ee2ec4),
  (true, 0xefd0fdc9403d160d61739c0ae4a1a51359437dfe7c63721a7527f6c022934ff),
  (false, 0xec3dd9ee76874af4896746d417f04378f491141141d7276992fc15fcc10f2f53),
  (false, 0x922e046ad21251af8a75e6a7fddc9697f655ed339e8d9b3bed933736dd0384c3),
  (true, 0xd91e0d92a8896a9cd212ac1da62d2c68ad492aa60f2596363db7bc7c9b0b6bbb),
  (false, 0x1f36df60e4987ef1c29e97da79338f7429a295ddb171d022a4f8000866e02b1b),
  (true, 0xfde1c637abaff641fb95ed8b76bbca69feb9bd1684f84fa0c5a65edaf746e3e5),
  (false, 0x9e2d15547ae4ded97964d40ddd7460e6a78446554c5a9719ff7bc9b4fdb3cd2),
  (false, 0xb0d0f870708e53e93b0199011bddaf959043c098a79b334b9f0f86560c89d80e),
  (false, 0x8e39353549effbcbe01efb3bbd8824840f5fe3a8d74f44ed38639b7151a6a736),
  (true, 0x4d2a8166eba9c9dbccec4241cc959922a12c25d6b823e8071b7ccade26c0f0e0),
  (false, 0xe12db50f5d45754547fbeed414d1c86f151596d673a2301dab9c1647f399bf93),
  (false, 0x3e9c44202ded3f57bd827d257548a51c57435af606c876569e63ba0b2d4014ae),
  (true, 0xa7adca27068176a470eb732f26db014b86f392782cb86cb992ffd28afe35410a),
  (false, 0xaf21f1423a237c092a1b58062adeb9282898821a33463b94d14fd8d373d71790),
  (false, 0x27c09c9f6551436169bcbdebf52dddd95fa246970a41a2508873fe258d45c6c3),
  (false, 0xe1b32085476cecbac262463f518d6346007adc5021f1ea0a32555026d6610447),
  (false, 0xab0e04b11b8e5ad5dcf14be91c238107751e38f6cbce15cdce57cad1a92f48f2),
  (false, 0xd189cc7b7c48dec5039a46627417a7dacdfc88f1c36bc395cf2b18899614688b),
  (false, 0x389d2a8515d9e3676bca5a5fd92e07bf06f03283b7e93de2ad19c91ba53cfe6e),
  (false, 0xdce532eda1e9dfbb1acef5ccbc0ba26491e94dc91a7b72e603d725d83d962520),
  (false, 0xffcb3e627b408f81aa410245b0481389eb0facc6e5c8c8a738970dcf6eb28bf2),
  (false, 0xc31c527f1ac590660aa843700941bf43ceb79e969b6123936c758c05ede21c18),
  (true, 0x9b62d49ad5d9c8aaa1c6e85eb5cb15f6c08edc74bd5e4f7c133f4e7c0b6f8dba),
  (false, 0x7a4456b0806683fa0339880e65c82abe93bf9a9517a0b597ae6fc34dbf62322f),
  (true, 0x10656d0818231125d82e3083d67a00c33543e3c3738599f2cf74d35b6282eacf),
  (false, 0xae80cd4ec89d88c584fbdeca23808504f8388191f3d378fe2fce6dc76a046411),
  (false, 0xa86b66b6c7f2382c2bad7265ea11283f3eeb9322555bf49ba7c1c7079d064e2e),
  (false, 0xc123ef84cec12ac43c5e51e30ba78e87c6165a1c0ac2c7de3ccdc20cae5951c5),
  (false, 0xc3e1ad20f4aa220ba230b01831c13ce4d8d7bd6ecaaaebcb406b3128539aa476),
  (true, 0x287fa9a632d01a82c8af177c6b485072582546aaa285f76afb5dfb19e5b4baa0),
  (false, 0x2dd26cc31060c5e59da84a5b98493d2daaf8f174691897816ddfd2a9734e1406),
  (false, 0x2f8477fcd08b42a7b9823a79b5167f85e0441ab3d688ac1b5ca6079c02bb0e2),
  (false, 0xdd956122bdb83bed6c1607caae839cca6ea478aff20d3ffadf08d964addb2ead),
  (false, 0x4a2d64b03f48510bd04cabca51094f852e5cde79751375ba28e09e3139eb9faf),
  (false, 0xb78f71820d386dcd0adaf50ddc379d4620f644ab441310f7a45a13123edbcd11),
  (true, 0x801bcccded370767b6317447accc6b5e57e9714153cca917c18bc1270ee6f5e),
  (false, 0x7f24643636469872124aaca278de6f8489606edc109c39bce662c4639c91b8ec),
  (true, 0xc1b9b42069ec8693456eb2a3cfb9bf91ac3231876551723abea86e0d4874d4b8),
  (false, 0x832f0d25ddf6f2a2a2e4771e7271d3282bb22d21c79be05bd61d18a8842c000f),
  (true, 0x80168c2610d0c2db09f81084669feb53bb0ac54c501c643a105e8b68704dbe7f),
  (false, 0x96e810e6672761037ba9c2b1e4bc3800fdcdee6ff220c7f4e2b577f89e512730),
  (true, 0x98d410ffda2e678dd639122e23eeb080a9896570ef2c8fe6ba4fca7764d5da36),
  (false, 0xe1c770192988621519ecc15e5bf9edcf8f843625dfc9c933883167b05782baa4),
  (false, 0x781577b1ce47aca791fbb54217371f7e587ee719edfb70fdef65dece5a6886b),
  (false, 0x4ee268378845f94384908b7c529dc930efc37eb374581776d0c7ea5ec2ea20d5),
  (false, 0x9b92e652b9b32f8c146d0c31cc05cd9e08a20ee259f2a35bbd966dbe9ce97cf7),
  (true, 0x115581052e5a67294872af350d026ea2151548fa54f419b95d4bab536567e30),
  (false, 0xce0d9f8192ef6816e7121f67b93508683b32c2390770f8a03b1c472e412abb5a),
  (true, 0x5b484a485d9bd2a5523db63d0feaf43b6144ce8233261566d034b3ca051c3c5e),
  (false, 0x2927267712197e516f898b307800f24967e0041cb458ca53644d508f10ee8bf8),
  (false, 0x3eee56b4f4efdcc0c117d0dacb4d1df9d9c3d070f1d8539138beae62c439d8a4),
  (true, 0xd731e941d7aa83250b0d05ce0e1ffaef8d449768f4cc0df3610b7ca6b92e6cd0),
  (false, 0xa09633b8ccb21c22cd95ba4f3e13560371b6efaa534199457784ac7f11dc4f22),
  (false, 0x7bede4a450a83d99a4ccfd794898b6045b09d7f2736f6d1803f870396bfa5512),
  (true, 0x12f712fd3cc1456bf9899ea5058af78cf617700de88472080e757ee4c6c8b2f3),
  (false, 0x71c0cf6e3f7fe59e83da07312aa7e39a5a8bafa78c0806472d5166e2ca0d1c0e),
  (true, 0x24738605ad7684a3795e007d32a9e09efbd83c24944e5d28ce8be5440237f911),
  (false, 0xb61c66f2e654bba69800b9fd6806f8e3da0f74cc355354bc96ebcaa0a89f209a),
  (false, 0x2889ae347f2930ae02da7b90790bbb5840047ff23bd49c6eca27f7eee4baa39),
  (false, 0xdfb899b8d1ba0a86815857d8268383115cdfdf5526c17ea37517f5e55189b43a),
  (false, 0x1a39fe9cf97ba7d5903fd2d1e72a81a5607f27fc6928824d7199b8833140cfce),
  (true, 0x6ac3f889886c95d8ea7e09abd079fa073e13abf3d78a08056d2ba034a26c5124),
  (false, 0x86a2c4fa2474e891974a20989c7b37bfbb26c47baf1d7ec7327d601851b89037),
  (true, 0x3b1afb142805b13290e888330df3512783f15ac5782030a0dbc76fef1eaee44e),
  (false, 0x9b96eea572b7df46bb3da170460d3d7cecf0466cb0ff9a14bc93e7d1ccabc708),
  (false, 0x6a31528afc8ddd4bd78a444e0eb0220170af7d5b967305e577ba7ce3bdb59c52),
  (false, 0xb144865f4254e87576c76df53e51bf21fc470775c8f61be426840ca54c83cf97),
  (true, 0xe98a60e4ac66f259ca732370a3ede7dfd45bd49428c3f46d3b4633c644d94be7),
  (false, 0x7597da653fc8986a0ca34ccdaa202af5b085515c1a986e2c2084c4921599e8),
  (true, 0x8c9e5213bf4b845f86f8d37c25702dce5904bd253e6025afb13578ffaf5a6fb3),
  (false, 0xcb25197acd1515eb1af9fa8668ef3c9b5cf49a08be5360dfb5c8e4fe41fa369f),
  (false, 0x3ac0a9a91aa1065e6a32431589210a998e0ebc13d1b4043224f219ab19fcd59),
  (false, 0x84264246e10cc6b6880834490920b3280b0b864f2319e9edf34d0a903283c3d),
  (true, 0x32857a0dbbece1e3008a1edec5082229e83da0d9f31e35715b2f37927ed58164),
  (false, 0x7d227212160ce40b60ac0106d3afb78d3efc5113b02effa964e4de812fd07cec),
  (true, 0x75308eb5f973b8494d4941d156783716476204454515c3ebe4e336c85e4daf8a),
  (false, 0x6e7955eaf28cf9e674703013ee64135e8df27990ae7f96a4f275a1e947b359cc),
  (true, 0xa0f88d6605c57cd49038e246f5a1071bbced5c81d8f85709e6f3107e3d5172d5),
  (false, 0x1ed26b8a46d603ccea83055692dd6050b26c7f206a3f188bb496bf31391e2c88),
  (false, 0x46e12faf4134a84e55d6e30ff0faea3aea3693534d5526d2053fa7aecce7094),
  (false, 0x847f21d73f20f961992dfcf1597ced14eed6685731136e62f812cf138cbb1df5),
  (false, 0xbdeff913879adaf2d012ebcbcae94fe0b959ba12420afe4b692b2d704d6b5563),
  (true, 0x9bd3ef4189f28a105e24e84bffcac8fe53abcc10f12f38f9842cbd154707f1bb),
  (false, 0xf599e8b9599a0bdc2b59bf22f22611d43c4104348df540166f2b00e0cd3e5ebd),
  (false, 0x89d6d8faf9d52a270bafdaeedd6fc23385fe81f2b5445b1e120b182e9f37cee8),
  (false, 0xdd68d97cd8be168469dbacb424266d3658ff71221b8cd6518e8434ebaa1416df),
  (true, 0x6866428d115782c7049499ec904d3e0c563d131454da67b14871ecbe8032601e),
  (false, 0x9263bfa4e257a493effc313e9c886df6864e908c37d0cc2cf914ff22d1f5fecc),
  (false, 0x7d29b9c0bcc4a22a7c189c8a5730e1f39e93eb8759e2635b05d2229ad947fd82),
  (false, 0xa085946906c875b9360c27cd3ac3e14e75f597c3865e012870cba96aa51090dc),
  (true, 0x2b9ee50c27beb4df612e20a84cd6e4767508e0267ed4036ab1a15b855cf00566),
  (false, 0x3ca227e658a9e555fd9bf4e92bceee0bda1908e6ae277f922a0fb051ee9deb8b),
  (true, 0x6081cc40f91ae91f05299f268a18bb0d2f167b6d7cfec0b848aa357a04088642),
  (false, 0x2b544479769dec0ab7f67da4e80387c8e6ecd5d39ed0a5cd7084432a71913cb5),
  (true, 0x6b49f2bab2142857e4c2ef6838a33d69cd3d08c3360de571f5bdf241762a87f9)]

/-- Slopes, `true` for the addition of the base point. -/
def slopes2 : List (Bool × Nat) := [
  (false, 0x1ebf08816d019f193d168222efc36cf5a1f2541895053a52d1ce590c61b20528),
  (true, 0xb915a1f5790dac4c8a89cd73df074582687c34ce79f4ff7ca5c97c77929ea9a1),
  (false, 0x5b5d98dd00f7dd714abbdeb93deeed5b1c123d8e43e833e3185b20cd2eb3fc3a),
  (false, 0x2403992aa3059815380e51e8f6f082a65a7f9f739f586c082a99f6b5fe05839e),
  (true, 0xd71d8962f093fdfbb8af74dfec366d24db2687fa43d918eafb2ceb66a3d6beac),
  (false, 0x306c486f1cf3792059bdb0537896108cd77de7b586b8a6093dfce341bc1d3809),
  (false, 0xe4b0b82a4481fa7c5cab1418b7c3a62b8e9a040f1ed1e1be088ab1107fb33eab),
  (true, 0xb73c29246df4082b07caf2984aaaec823c2be0a161961b7b30613c91be194219),
  (false, 0xfc09149f5f2d95df0d68c5880507e624ea0a5a3115c56d06a5d5189287b6a92b),
  (true, 0x4162d865c50094df6a2e909b29c42e866ac53eb6fe7e034e87232aa485f11a2e),
  (false, 0x6637b2a26aadad489b07889ede8d0fa11aa60c42170cd3d415c2aca817ec9beb),
  (true, 0x3a43f1e6fbe597d043d7216593b854cd1102e3836be11ced1cb03c2b682b3afd),
  (false, 0xb401b50c491384e527a1401b36cbb0d53efb7709026146283034977de4baf7d6),
  (true, 0x6c86f554d57c0d2f3f3166d82723bf2d48e914cbb33c37a61ee276972ec12e28),
  (false, 0x73d462a413293c8a4c268a4decbec81d1a2f8fba51dfad36da582cdc5a9523d6),
  (true, 0xd67fc3491bcabafb12120cbeafa40c84c0699e692e4fbc7abd10c5d2c2dd8ff8),
  (false, 0xa4501e510b5e75df96d855e910e52e5838b4d1e39490ca5fa6f98e0308456a1),
  (false, 0x1fafd5090b99559096ee7b67571799a44971c27b22781743c6f0ecc4b730f42c),
  (true, 0xe4ba3b690e3ec925f7f974de039e8457429f2e6346b11287c5b432d273647608),
  (false, 0xaf08860f3b30149b9e80d15e2a7a1ceca9ac627374ed2ebd607b7e9fa36967ff),
  (false, 0xcadd4d8bc661902fd260af9c6c21577c5632e95a7fe566d7d3f18279d968fec5),
  (true, 0xa542a41a586cc10817dd6fbcf86d7e031dd8f908df5a8e212afc2df852cf26b7),
  (false, 0x1ca69e950d6b7ee0060f8621ff756da81c48ddefb0df212a4b98e1880463eeb5),
  (false, 0x9e35a7eee7bc085df4e73d195d44a1fd41e3ccb3767aff1c81290db8a89a6307),
  (false, 0x55f05facc730ea9ee9702c0b9576d310f1266022edf46bb4571abd101602a02d),
  (true, 0xe814efa1acb3e69e5494027999a1e4237d8456c75dff19d93fb1b121c57f90f0),
  (false, 0xd05f01ec1a42d9f4b8b06c50a72f79636533e1fad0feed935edec9da3a2b8634),
  (false, 0xb23b2689d19d53293adc333b3b0ae16226e9a0fb47cd73a0b355fdab17eda768),
  (false, 0x95d5df00d56e457265b955a11bdb47bc45491006c88df61c04651e9f06eeb7a5),
  (true, 0x3fd1938fcd647dbd351f38c0d20c73bb2317b74e156f67b5727e5044c527965),
  (false, 0x34e0bf4009c5583411bc92ff168c324652418b5f31ad1fb7e9292e7feff4b73f),
  (false, 0xbdb5626b6a0d030f05c9d062646fcca396677868cf26750d6db8690b2c0fd11f),
  (true, 0xb1b1304d07b6413742b0e095f05594d0c9138eb715da37b714d957c89a96e8d1),
  (false, 0x4e0cc2268b745745e04518e17fdbfc54eb55cf1268e1cc0d3f259557cc8cc425),
  (false, 0xcf8bc399da8d575627191d574df4192ea967549369a2b0d364e792884e1804a8),
  (true, 0xdee6e6796613f25f3ecdd24886e9af459046641fce9aae02045c64c0f1ef7932),
  (false, 0xffaff1fa4844a484a7d2bcde6efb3a66c4a640e6fba3595a18a8d1d589ac92f2),
  (false, 0xe93b85f05c107858269ca556b396c004e8bcbbe3057b9eab84ffedee3d7ac16e),
  (false, 0xf39a5b20a3e4f259dab0d1421ff02555d17cd71b0893731f4a82d5e848cf57),
  (false, 0xf54d353b457c4da82e87ac80f6b501ece475de5389968e0dc1f628f36beb7778),
  (false, 0x3616ef829a6bd1e7dc2a8dbba6e6750b7789b57e6c9cfa52ffba8f3465dddd01),
  (true, 0xd5b706eb36602358cc18dfefbc8afcf6817ef55b4856c51bb0a220e16a470155),
  (false, 0xf7fb0f13658dbb8215ff8ecce23a973a04b43e7a93954f313c0c6f67ea0f5d6c),
  (false, 0x4be01a89449453043c2e8554835b38b0aade12661f207aa9c50cc727687699cd),
  (false, 0x2276c9b992d6982b6c448063cccae249654350cf26f852ba7268939f9ef6daf1),
  (true, 0x2c49a00c770443e27528833ba5f6e601dde8cee6eaf7d276b12a6a757736bd0),
  (false, 0x6693ca2bead74524cb45f9790c6d18e5a068dd965f0bc9a957a8285e0b838e03),
  (true, 0x560d9bcad6b7d4032e04c9e6ab3653f414972106f3a09e626f8c8832d3dc4d64),
  (false, 0xaa907fc96280c3642cf0430a4a51bf49b0eb90a1486142f0e8bbcb530b10d558),
  (true, 0xff986af3070c98ea76fbaf87fd5ecfda82fc695e4b97f95601f8fa955b30f054),
  (false, 0x88b68e15645d47d86fa2967bb3ca3e2b32b804d0f08851ebe6bbbc8919c78207),
  (false, 0x27ff95997f6ecaf379ef7f2eea1e80f6b318a93556125fa33df8d529117c34c3),
  (true, 0x1cd3478475d9965846bdd30e758c8d09de5a097d26279b48f8afaabc1bd1531),
  (false, 0xbd806a335b315a515c12ac9cef5f7b8938739f302b6cca5ceb4d0f8cff438dbd),
  (true, 0xaefefe89ffbba2b25544fd4092301797442b500a7168bb7792b69d084dba6202),
  (false, 0x57d454d930b42f64e322c54a98e5b60370d294273f4c05fd9500c5a625787106),
  (true, 0x152b6e9a400ad4b9dab2e6475570023c67f6b35f83e708433a27263ba964c13e),
  (false, 0x8211e057d5a5c89e245ebfc887ccfc8d7ed32ee304344997835f36af1f1d779c),
  (false, 0x5a53c7d31e10cf44efd0ab70e0b8ddb08605466d40b523b06727b1f4c1069ca2),
  (false, 0xc197b810512a80bea01db9a116bdd376e86f0fc8b1d5230ceb38bca27184f73e),
  (true, 0x50c73f1a5146a19eb130c9fdb1882277fb73b685516139699c822beaba2b3d7f),
  (false, 0xb35100b94f19dd2c2b4d23e02e81531b3421f501e16121b7ac641e6514e44d7a),
  (false, 0x27c68bad955713b88c477192e6041fedb28ad3d7d7d2e0440bbd360e182ae146),
  (false, 0xbb331aba24e2abcce1f918f0ee5f2482fae5a57fc51c6838c79d871894d0b02f),
  (true, 0xf4c922131be4dcdaa1ae8805d97de39c53a9f9cec00508edd1a76a243391cc7c),
  (false, 0x9ea24dcd6850abc33df99154a9591daf28ed789677c167189737b4f38e9e5baf),
  (true, 0x72bc00d4a8bf3ad27616f34a9f84d89e64465bed30d7cf35973ed742936a707c),
  (false, 0x2333919d21025c81f896fed6eedb16cfe1e4dbf42a2dd4110b520bf4299812c6),
  (false, 0xeb77d9098e1fb606b0cdf988382830f45c04b987eed8da150c8ba48c3e76d70c),
  (true, 0xb61c99cfe06441f9512bfba1d644989840004d2f7964e46f9079e38cc748765b),
  (false, 0x9dc535698baf5add41a83ae40f459a9c5c07c3ecd5fc584460795ec38bd37bc4),
  (false, 0xaa1ad98c2df3e57cf8010a680d1de2c1712f30223d51091881bb12bcd6b775c1),
  (false, 0xe2faa8c0acbe8de49cc13a1915f6cdce3c495c4a5e0221d42f66029911d67c5),
  (true, 0xd446b093f348ea0b3e6b8622c9de083c135e9e07c2a28870bb521e47e076aed7),
  (false, 0x68e85a06ff234534640f6e60ce9d3143f63e906dde35579f21a269effa97de17),
  (false, 0x24a3493e3143337398cf4818c3e7e8ac25f2ebc9931e69189ad408cdf500167c),
  (false, 0x589f38ffef80a1d6b5c64bb64c1cfed0fe7daedec58531e4ad0d7a930e0d2ad5),
  (false, 0x332d5833c69459a6167659c121ba045cf6e483d7b1cd09aa21b1ffafbfe63d0a),
  (true, 0x874c4fb51f5bc195159876b1a069a692d78dc20ae56fed9e7410ce6a0699dd1),
  (false, 0x70bf3f12839c8e66b2d2c84e8ae42ea185685b11c178083379313b3fb55a7b16),
  (true, 0xf96e9e80463e949f839ea10795c03f038c06e4c6818d1b00ff8097a14bd2c382),
  (false, 0x99fefa9af60a51ca568cedc0946a91786ccb005112850bc1641b1ecd878d7c58),
  (true, 0xb6a3206ac2e597177872c8eb1e8aba3101d8a7c60883883f70902a2ab9b9cde7),
  (false, 0x59a589c535b8a7c8ef2d92b6684f99c536a226ba83971fac79e3272e25f1b920),
  (true, 0xa944ef823960433f5521dd08b0957e2ffaa0791394d0f2b9190c1dc8bf97c764),
  (false, 0xd4c93b33a243df11b9035851873b19361329dcb27f35ab87ae68d5b8f51772f2),
  (false, 0x21458053140d7013b45d0fed5e3237707461fc39c4fe8abd4bfb01e89d4ccd39),
  (true, 0x1b9633f62d39679820acae2a86cf0a71a7bcfc0be1e6cff3e850e5360f8f0ae1),
  (false, 0x53524a28ee8aec208f04d25fac2bc839fb62674beaf171c56b38d24cdc566a1b),
  (true, 0xd85ff5b804780062585ad12976ef505fd4df14bedcf187917a2bce1626462d3c),
  (false, 0x8d02b41994ca4ab67fcbaa0c23e6a7dfee31b2984236b384938c9b9670992b86),
  (true, 0x1822459caefd7a0378a65d0def5113ea76b25db3e27a6908de8c5ba97c3314de),
  (false, 0xf65ff69e87aaa0adbc27391d9176d8534f674cb34f35db5e05225aa5dbb52fe1),
  (false, 0x69a9008d1cd32e51a28408cbd5408749b3cc3d2ed6005864f9d640679949394b),
  (false, 0x4e829d72e24e92b1f538bd540c54ba6e1fcbec148e12207705c8d62a2b960809),
  (true, 0xdae7fd4af8a2f06ae12a1621b285e76c8ab83b9754ac95dd043417bdb4851847),
  (false, 0xc0a96a065c79d89a89454ed6cc7834c3974405159f6d24c3529db64dfa4a5ed8),
  (true, 0x6b4f7208aad7ade722fdf9305e33339e8dd9164042d6ef1c2a0c120764b72c8d),
  (false, 0x474e802797b0db27611b74de34ea9c50dd232fdbaf0f1933ee3321d85a18014e),
  (false, 0x86c1239cc2c2e0bd803f5bb902f0c47badae69c6565f604cd59fc2c475d365b4)]

/-- Slopes, `true` for the addition of the base point. -/
def slopes3 : List (Bool × Nat) := [
  (true, 0x977d173c626eb8bf30f2dfa6e2fc06fde6f1c2ad4bb7738f947c6790f8fce931),
  (false, 0xd3fb5b18a5615fdd281ea4f1c447fda32163b89e82701a40ada71599bc197250),
  (false, 0x75d317800b9ee7eac75b83d0f11b3ab2d1d6f3c483384f8bd9de29e5dc18e40f),
  (false, 0x63f5c9742773446b83110cf7e4257318e34a12b98b7b0d95678982ea0b9bc2e),
  (true, 0x18ad2a6646575225aa6dca128a188ce6e8a2305d598741cfe4f4a14cd0f61eb1),
  (false, 0x9d465dd103481ad51d9a40d0bbb86012b996dcf4213aa9adf6101329b5172cca),
  (false, 0x1b855a0c37f89a07553515d1fecf4dc8138497376c93d39624770ff4a41e2f8c),
  (false, 0xf0781653150b5809b0e7ac88600478088d36da409427d17df3c4d9c7f423478c),
  (false, 0x8ab423d562982de3be4826cbef61c4093e330df1c03f2135de33e8777b698837),
  (false, 0x192472fe991d4b0c5c7a7b3f3b1be4bff7687444e1b0fc01892c65a6309eff98),
  (false, 0xd2699e850abf5b14bcd80183d52ece27dad4491fcc3d9f401b804652bdb5dc63),
  (true, 0xc530e5219c03a588fd466053452a55790a104977fd19e8a76a1b66a15bf36c5c),
  (false, 0x69366a2b153caa92ef5aea0967f29bb70744e9c7b2f9a929c64a1af4c2f08aff),
  (true, 0x42aa0b0206d44b19d10e3217b637c0a52b20e1f81b39165b41bd88fcce4a29dd),
  (false, 0x644746b8ed0a866541b00768fadc75b081a3ff6e7af155a17738b986dc19dc5a),
  (false, 0x18b19f136140b9532d5b2b72d3c27ae7813bc5f41cf3a72bd8efebbf16a592ac),
  (false, 0x4c778a9d26d921e165958e48ecd0440cfa67bf65751f7fcc0ba0fee2d94b2e90),
  (false, 0xf0950c0cea3facb94949e1763ba7aede210a19a5eb6e4e717620ae798776392e),
  (true, 0xb87fcbe9292f05ca41aa08df4f633cd0740344b0b65dbc50938f0400d5bcf13),
  (false, 0x94f6f7d03ecf04bd62958d4a7a7ab0c81e9b2d7295edbaecbd713e451e5c8105),
  (true, 0x8736e717ff1dfb2e828c463507aa296cceead15e7c9efea7868d4228094a2236),
  (false, 0x209d8773fbcbd8bd1896273d0eaa947c6083f559c942ec6054ff45a0255213d7),
  (true, 0x395fefae8038d79ecd85cc5a8302f63e267c5a73591bfc40d803b1cf4683a071),
  (false, 0x24b86cf956bdca1b49049d9ff274b699edee0c7a518aa91b701bf3f1348f4f2a),
  (false, 0xededc210ef0276f268cb683554dfa08ba415461de6b741ebc5a84b1e197314db),
  (true, 0x2d579ca3470aa222c65a18b71a814b8a2333a02b7c30a0f81186f52681abbc30),
  (false, 0x8e2e9fc4cee909c6f94c81fe5bf87f089d13720b262a02cd7e4d80e6ab760802),
  (true, 0xd7de49390a9197384f1b1934d5b6e1a942960772992b35e9e1edacac56bd814b),
  (false, 0x6bf065bff55c74f4ad6b9293670729d2281ea3c93810d1ff7913e3bed06d2879),
  (false, 0x4a36bc505ca307e7886a0abdce6515790d39058b778c58878fe08e20eefe67bc),
  (true, 0x7aa1e19ab2b1dd288c3e1a90336ef188baa081d169b7274e6eb6ca0af016dc8d),
  (false, 0xc04496e9b8b1647e89418b11e83a269cadee2fa78ee84abcea65acf256a81af7),
  (true, 0xac94fdcdb2e1378a916276448adec34e200b5c77886652162f781d70edadf683),
  (false, 0xcc673a7e82cbfb1999c8adeed5e7687120f03ad97233f686a8ad1911336686d1),
  (true, 0xa5a23a968207bc6b9316f33107d13268fbfb866ca50c0d4d45f7f57b921e44d0),
  (false, 0xd46619751670e6da5b835ebac9fc84355b5eb8691980454a064340a5bd7697d1),
  (false, 0x7994ab1991afd42e76b4a2245a2e2dcd5c83e973c03c46d39265e0d7ed08d4fc),
  (true, 0x65105f22178168617f0e69f7926b3be7abfd5b123fc6b2729f0c77289ff3f9d1),
  (false, 0xa831617f0486d216c690e78ba503e99674f45c60fba8a3ac177a7e907fb82be7),
  (false, 0x28bac5882a4f1b6f702487feaa3fd83d4a072c72efc08edcc9653bcb395a3717),
  (false, 0xd025e69ad60e98e8515a6690103e5d076e8d7c7ffa0b3685025b6ec758bc4d10),
  (true, 0x972105c532819012b96d8148d58c4611e8bdaf866b226a9a1cfecc8d868e3c6b),
  (false, 0x6f47027547afa761d8ee568576e823588c03c69bac26982bc888c99b3e0f9c06),
  (true, 0x467117d07b4a614ea31d59588499c00f11c60ed29c933dd6b9246231557aac4c),
  (false, 0x1c736e10cdec720cf0de60933f14ecd18351e0f1ee641f30e9a5edc44c12f9d9),
  (true, 0x275e824445fccdeade8a6a1728e75245223818470481ae5062d4c9f637d13af7),
  (false, 0x53a5d8dbf3f78bffc44946a741473fd4fdcad718718df96bfee7380f898893d2),
  (true, 0x9f5caa1dae8fea9147877579a5430a71ac0be35ccfd2eea767f366b27e12919a),
  (false, 0xa79247a2927616687f5732d996613ca4e9b8b364d6de71fe0bca2b3f20054d5d),
  (false, 0xc4ae714d2899f225e29054580f7537178a313eebc2cf4ca37470f9ae482057a4),
  (false, 0x6c864bd5bfe55a4c2208b7d6b40c93220b7682bd18b18959fe00f8b015ad6e7),
  (false, 0xa4da818a311620ec595860b1ae3045516a6e2e6504ba80f226b53087752c30e0),
  (true, 0xdb577f214e831fdc9f66e44d40d4d64758fee18b105481f7e5aedcf890b8129c),
  (false, 0x429e8c9247917f50370b86ff20a767fc9ede9b58183d95d3d1f97041a1e3129d),
  (false, 0xd6500e7a61e379d2a3c0ba75e4954a6303a0af243aa29e17861f4461134d6785),
  (true, 0xa6e71ba150fbf7ce10d41d0b1d41e679e3fb57a73f5974a288621bf0450d29fd),
  (false, 0xc7e6614412ace50858c2f1c19cfec3af937436afb54f0c2a9dfe06abd4d1d685),
  (false, 0x7d2e915742bcda777d619bb91cc73769e8a828472c430f5d20fff4c0d970016e),
  (true, 0x552172b2b7606dcf7a07f4e1951742219edcc3c017dab963bb209dcf0a478ae0),
  (false, 0x4bde9c669b73ec513cf143fd7a08d25d4f4d537085b9f83436dc1a2303f8a9dc),
  (true, 0xbf130c216e133ad9e513dceddc1801d5164d8373c3053a44ec2a2cffb069b2ee),
  (false, 0xd99190d3ad408127eb506120dabc4bb296800da357c9127b85795d398f82e42c),
  (true, 0xea4391fa85292459e23b0208358a7d3a3d4e7fc3ffec21526bf8218a6c4b72e6),
  (false, 0x64e8034f775eeef485c43f4361347c539b9ad7be396628dc2454262ebfa70307),
  (false, 0xf960587d84032db1b8af275d516efd4e6318ec49cf3629bd2acacc2594e9a7aa),
  (true, 0x8f95f31ba39663d2f1775afbafd014657f22c211502915a4722cceda4e064eca),
  (false, 0x13869fc4e338ccc0ea2cb49f0c71f61c7c36a8f42093144d54f7e21b880069ab),
  (false, 0x668a4f3a176f2dff269b8118f9e4aa8d83a31b3ce9e49b25e9149c35d902d8b3),
  (false, 0xbf36b7f0980486aab55ea975ae00ed4c43ff02176b57a5a86c954e290aa35136),
  (false, 0x99b5d28537a7b11dd9ccf4e421cb26d05b5691a9eb8adf16e1a0e14a827dae3e),
  (true, 0x1be32d14610b860294170d83373f32a15322d3fd540317fb22a7fc009eaa19eb),
  (false, 0x25be1939de9f375cb03dec8926b54775d8f792c5e7e5e88cc22a1b246ed34e0e),
  (false, 0xbc37131ddaeeb0b089e09865ddcce76cddc1fcc8d4f272f454713caf8e9ab45),
  (true, 0x745a480f4923b21fbcf83b6e57bb3f4a47db753175dc86358c39dc398cf436fd),
  (false, 0x65eef78109ddaf4bdbf4a46e2a0f728f890b7365a06555698770b386f2dc589),
  (false, 0xcba887070f859aaed52eb337fe403b419703444d104d9434f5fdeead554c542d),
  (true, 0x92c773da44d1622981c7343285c9fa996637e06044b0cadd485807fd9624d16d)]

theorem vk_nsmul : ∃ hn, vk • G = Point.some (vx : ZMod p) (vy : ZMod p) hn :=
  of_chain (K := vk) (X := vx) (Y := vy) (slopes0 ++ slopes1 ++ slopes2 ++ slopes3) (by decide +kernel)

end Verif.Lemmas.SecpVector
