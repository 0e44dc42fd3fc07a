import Verif.Lemmas.SamplingEval

/-!
# The bases of the composite hasher

For each base the square roots that show which candidates are points, and their evaluation in 8 parts.
-/

set_option exponentiation.threshold 1000
set_option maxRecDepth 100000

namespace Verif

/-- The seed `crhSeed blake2s`, as words. -/
def crhKey : List ℕ := [0xee1aa246, 0x41684ee3, 0x9aa7459e, 0x700382e9, 0x711fc22a, 0x71b18404, 0xf7c6c1d4, 0x4bb6fa80]

def crhCerts0 : List (List (Option ℕ)) := [
  [some 0xd855bd0ac75b7f8a200049c37fdb7c74edb660d50ac987cdf5ca23c62df0ab3c45d841911bc42dee20f9a749627066, some 0x578c144429afa242ccfa841afae12c79080334c8f317056edcd8125e253aa0f9b62aadf1f260f02d1b646c1b48aec4],
  [none, some 0x21d38329687773399c345e97061e43e54ca6683d98c705cc355d915dd74ef8a5e69ecc4b5977c0dc22616f68ead838],
  [some 0xc96d28f8f13c416dbad819d13b5618784954f2332d3282c988debe702236ab89b0f6079953fbdbd2ea37b9a68c36c5],
  [some 0xca06c36578769f1d6daf01789a5e04dc3c2eea8b2e5f08bc0785e290ec0da92e52d64104ea0bf660dbf94f527bd435, none, some 0xc56954975a74c8ce8d677cf957581540b483e5d60832f88ccec16c65a1177ee3e2ba5b358c1a6ef3287837a23273ef],
  [some 0x8c9a11310d556cd4c942484b1cab65642d789b40a00db929394fe1712f0cfac5f4853234f62b3c07fbea41c1574d6c, some 0x11f3a30fb4f8cc1d0da0976b09621b72d3830a7a44652c74906c18be1194c34f23079142af97bb165a802a31fbbeb72, none, none, some 0x79156bdd9cfd782b2ba0fa56c6ab9971e750c7fd25bacfd4bdda4e0fdc8d6b90d6a477ff8c39c6ec0eafb6d791cd40],
  [some 0x10d2ebea6f1623510e26fda66c15b2d6e9ae89b7759753e9d0295404f758772881a95bc6e1f743062202494db14f181, some 0x48ec94ac2aa77c97b0bde6ecfc4519875e35089a120bbd1d304ab0efb22a1a0b5abb4568bf017b19b9dc60fa0f890d, some 0xfbd788dfc7fecc84fbc41a11299790e56e385674df94db36654aa04d9583ee45a7969488a5eef94dc43c8444331ddc, some 0xa25310196bf3ba4faab90209a4987bbb52be78eab115c81a9497b0ea8f177de8adcd0a1952ff0267259a5920bc8832, some 0x185241b15b2c90c72cbdaa93e527bc608c6aa5eada34e7e53d1a1cef8961f35dc485cf69a028077cf51a57d7a62b437, some 0xe2825589e63229a8f6795781693c931e4ed9689a4aaca02762002c7a8d42df5b006d7770b24f85a2db46a290cc6169, some 0xa9ac30a25b4cd9b8906423b5a41798cc8bef52d578066f2ca4b39e064885482eb5e76fd5d7a3af4906153d7057e463],
  [none, some 0x3a4dc9cd57dcd62ee4cbc2d6f8a3092e88c3541d634386060b18736a37f52bc673a638bf19496a3421338103ce73f9],
  [some 0x2d1926bb155723baf7e9cbbc4c51d51d487ada83e0710457271171c342139fd0f2e98bd028a4abfb8b9c86c8faa9a5],
  [some 0x9dcfcb203301d1fbf0e48721a5e10e8af384b289dec4d7172fc20f0b812beec7f65b8263add86202f9b878560143e4, some 0xb5c2c1462aa06bb723ef941148ddb11992126f7d4bb65122610e0f74a652d0cf48076bcbf013ac50f39419f8ccaa68],
  [some 0x10022669058a0947551abea7fdbf147db0e73b15862fb5218aa2c179b05de9ef8d633c5532c3d12421936f87a44e629],
  [none, some 0x18c5b3b670b3747cb421e9df4df26fd043000f57c8c9893341a49b1b979aa605d760b6fda8e2094afd578d766821cc8],
  [some 0x1a050567d165669986bb7c47f93aac1b3c9d9a4484ea4edf67ac4e9f0923477c7271c8f30735e646422ed7d3688946f, some 0xa930842576fb3e559c7bc5b26f0f3f4965d053d64b20ceda962affd042584eee86108e0e8c92208e1e35382bfa6ab0, some 0x170c5d406e6875d85a32bd1f94fcd15a59750bc9238f9fd93cc85874a419fc933712749789e006e4e792dbbc7a715d0],
  [none, some 0x19e22ce9b3eb927201bc44b18a3f7d86a55021be036b073ba7ba0fe197dde40a2d3447900ec05a7294887ff418a9da9, some 0xa2480978a9c2ca9dd1a507ece26b999e35f96f0e11c456fe8de7e05e8d8120fc33e770691c08aaf879f73cb68da0c4],
  [some 0x1220c280dd937c5f0b7333a0f0e9f6ac4920c3e5c69debe376fe22a65c62fcce4a61037948fdc64f3dcd0dde318de89],
  [some 0x156415ca2d22d5658c86d3c1e9bec5164a64ed196b56d8a0ab684b7c1b947fb8ab9c226f53b30cc85ce3eb239bc53ca],
  [some 0xb116db6b7d293858d879bd707b9b8c1f450536a6ec2e9e6135e59f7cdfe1e0804dcda1931034a4aab4d76a587725f5, some 0x11f0f88d8267da1dc8d5d74c642575005532155a9e7db2a2161b923699543a649622cc504d4e9c1cac69391879e6eee, some 0x9d1b82cb75c44f15d04b8a07ce7234c20e9bd3be173ae234347a32e44366ef15225a083bdf78032429e5074b626b1f],
  [some 0x87054c5cae9163aea0f08b41bfe9144db3985e81f40e27d6e7505610bff0017b0878fc31a690aa05dcb8b445d287a9],
  [some 0x1a10d951d22ac264b01718e270d5cacd0d99529674c6b0c96be7c7ce88d98021dc9cf6f4d6f68928617c189f1281624, some 0x1063fbe96b09962d9fddae7a9e1abb3236367bd4264254db859796a68ba2123a56ab83a5dd5c3e23dd132e1145cccc8, some 0x1469e047cc46c25d92abc0be0238fa92ebb08de5a20e255f576a072ffe6f807aac50f11c54d587894049e74b8d5dedc, some 0x9020e82996a9610a41e7603472af1999be2bc4ded473aa70b1ec3dafb40e69e464957f2e68611118f11b9ef36fb6b8],
  [some 0xeca3eed41e771cced0d3f1448c4a1e76985813dff3dd97f2403366e05a0bb34f8593c04c567d1a0dd811b8be8964b7, some 0xe297bd1274058ee7dea769680abfe439233642927207967cc70214448a2c39ba1cff38b7dcc3d817e044a409db51f1],
  [some 0xc537bf370142f33b18c5bef098cfe32f4b07cdc95eb522ab90c2e2cee90f607bba34f56d02565f34faee86e2835f4a, some 0xe56ae6e33194676e7c154f295c1d05a11ed059d1d4fc115faf584c6663ee8138606fd8b7c07e701ddb2ecd641d1c7a],
  [some 0x16a947a813f1c1352072968df4a12d915f2507a3ea427f607cfaffcaba0e4c4bda9c0f0e643c2969ef9f72732c50da1],
  [some 0x10b57d0dba53072e20c9dcce6bf6fd5cd190e4f8f5e4525792f02792cdd133bb634ad5893578fd83628954d88800750, none, none, none, none, some 0x189ae43c43e6cb99e534912acd3965326e73e18a8989d6e13ac7ffc5ae1db417e73f190307d076a0cb288ffbdcfa8cb, some 0xb47dd2ac1b842425c751858c1ba41da77691e741ffae945e4a30351435ef8e31ee3e0710e075d499f95e8d0302e958],
  [none, some 0xe06267ec5b01c6901cffe9e15c053ea1f1c1aa332a2286c01624ca9781340f3025120ca882f3d2ab172728e885d3ff],
  [some 0xdc99171c729ce85c2c1ed74ef829d78c5880da2641373b9da026573ffb0f73adb29632bf5cb16cb712c303c7f81fb3],
  [none, some 0x9829c8c19044f74970dda1cfe59e82443e17a04f8c89b10fe0055fdadf981291745f20961d641bc3773d6df1f16b3f, none, some 0x151b8b67d762dac71b53196b35f62e202536f2b22dde35e97e395d9b1db5e800218e5228c653d6ef6e2cd1dd74163ff, some 0x5b0005ae6ad9d149693d8ce1b4e323b8f323fd8dc99bbbb373d2a136418a5dcfe936893abfd06ad1070d81ee01b9e2, some 0x174f102b584c4857009ff890b80e82ad5940b7f272fb3d7abd9bd287df5436fdb08c4c1df54098dbf497a2fc828ad35],
  [some 0x136be41f1666c6830a1c04fbee242166144af109284a1f8315139bfdfa219aaebf1fbbf06ca689f89cf987a81559850],
  [some 0x7bec9abccc9fcc5bc5cca2dccb62c97a00afc5fab70cb17c1cef7ea1003bf9c8e05b983133a92adee7b2452d28b94],
  [some 0xd0fc3770df27f0b870348bcf273613a0f773138cb5eddf23348eee44ec457f54503220a86543b0c877d2b114a1dd8f],
  [some 0x19f092444e98c53a9252a88bc70f0d1ecd83b42503d9899192acb25162e66a3cbe2067a7b193bfd776dd4ad06a61b28, none, some 0x15b1aabebd87c18a74cd956a0ca8492bec9ef1e15c31990728a1aad661d15a4b4a2ce4f185fdb372487231f6a8055f9],
  [some 0xa00c0c8d18326bafa5165e750b0e8c9992c474bbd3d7f50bcc58a72b8efa7e2eaf1ba2f55c0b910f9199e94b496d28],
  [some 0xe85a615ad01d62f92cbd75322fe9b3b8b61f0c719b040cce0add4ad0749cb0b570c1c6ec2c9a1f7fe1cc2156c3c837],
  [some 0x112fa8964770e46c93ca07d8f645409d986b9813b9119e85097cadb89140ce812ffe19e6eafefcc7b71e56ff6f03289],
  [some 0x92079aaa461a4db702e7a4b3f60e07098c7f034b344896dd871cc6ea7391acde033f8bcb149d3b10773f34e529c78d],
  [some 0xe6b95b71c6c0007c9818facb35e4d302926d916af47b1888bb581bc13ebe41554e1209ca1b3dfa2316e473953bed37],
  [some 0x6bceaafb23c95d53e2c71c7baf5bbb3e5673817c143b38eaecc724d0f6cfc416346f79914a5c8c7b4fa067dc19751d, some 0xdb8ae9558e608c954e219d1364f15723b90b78799c20b8b3b0490a0d154ecf4fc841d85f4ff00385d10180f89a4af7],
  [none, some 0x8ca202c019b5fd3786498e71b118b063d9035ef6a53650461788e551fcc83d10371f520166261ab51322fdeaa05e50, some 0x5a344d190e1084d14c7c3ef2cac593645be5353ae3de1a3aa116214dcd4a1eec8674c2cea62e8b3db5d2a3104a0147],
  [some 0x4ff909cb2a5dfb5ba15de20566f207fc31200d4a0d544361e1f5328dfaaf23654c2c06d3f21b421af9b143bf386fef],
  [some 0xb3e092bf3383ddf40feed860592add97453ff58236929ff3392bf24286635afd500aa0bbe7f9086e8ed781a080e14b, none, some 0xdd2fe4efc5f25b00e574a6e2b61fdf9f117d11413802b14725c65833201d8fad5623c51ebf0ccf6ea6841e691021dd, none, some 0x16eeca761ed8474cceb8b80fe255a234c2be7626787dff4adaf0206c466db631769433e43d6aa6d74f27945e7e85a1c, some 0x18ce2a8ba4ca2b332e175af2b1fdc6b929bfa35cf724f01a692a98bf2ac4dbf732ef6ed92cfd3047958edb0eb6a5e1],
  [none, some 0xb2ee5c03b53ed746ef8e35adc5e1c3ab817ed545ceb5296e426e18699b4023a39e202704234140446ec0d95515025f, none, some 0x130a079ef3f50b6d000b63e1fe1d1832847e4cfcbc5ed6078d8141300e5f097bdc1ab2e8f21c1904680ecdbc044a2c3, some 0x119f7a9f8176e937ff6e0d0897036e73e7846cb8826717d96825b4fa21e14ea9492d438f298bf620eec58dbbc8714c1],
  [none, none, none, some 0xda056a14a47898e5d0977fe87444fe04cc5cde8e10de81fcd5668e671f32befe9ec75ca8c158611036b40f25734ac, some 0x119d26bbff11630de6591a7d7eb5d3beb24b7faf4f813f579f38511738fddac11a88a82cc7942172bf92b643f473b30, some 0x12e9fb32c01080e8e55569f16a035a2fe79092141d0d9dfd10d894f1957b38d745a3d9c7044f07e1d876207f94d79e3, some 0x1a13740ba2745fc45c4d4504ff549c5fff0936fc23f84cfd0f9b8169e8f9269550100c5126a875f2bec8dc1bb1fd86f],
  [some 0x78baa04168bf36ad3805952b4d253ab3019e96e404c370776a3c2f08272e7e54e09cddd4307430f3c7acb8e9bdbf8d],
  [some 0x6c6150f0cc18efd9b75eeb135ba3ca0cf1a24a9d0dc90de71925547b472cff45bd4a56988abcd5e1da5a16d4466045, some 0xccaf4ed260f1149895beb7146a14d83281c19186b256154348d464bde87c5b7f39395e20d7c005595587b0d9cfc5e0, some 0xddbcffa2148650eeccef8d3d1c3ad43495ed37a2e073938662c9faad3876b20a0fe91f307046651efc89e3e2633377, some 0xe0255e3f4db0de55791939e598c28305ca6cb761b1b719928f9af7a5ff1d6bb9405a0d6e35d99d7330f762a626f1b9, some 0x119fa90150bcbcbf5b2a823d267fb78cc796f2a14f2691403e0f508edda9c182d7d2591c18ebf87dfa530824892dc4e, some 0xf77b8919c6aed2131ad6a5f893e61030d48c4fc5b8517c89ba0c1b699a4fc17dddcdb425fdafa58b627fc3bb3e9ff9, some 0xfb190b932d4b4b9a3485d8055c2dd5e66c67a9224ba7f090126d0fbe2a04e42c40253a0707e0eaae2fd4ff20ff95ce, some 0x19573f664d471c42fd8cef73d42c5fde3050d69f9f3ba895a0ec011c9bae7027e6c676c925b3a3704656ec5de4c81de],
  [some 0xaf1bdc19493362d641c117a4021023acc859f288737039b4396299487b473edc28dc8f2981195eff931e8bac2fb99c, some 0x1287426e53cbc3efac4957d9de94bb88699e3af5be421e5a545da4061590def4a4d940626737edfde38e0dc73e0ca37],
  [none, none, some 0x52355e53130ffb661bec8ddfb93c7f6f27b262ccdae561d8ba9d4a7b3e60a6e76517463146af00a5b4673f1eadcdbb, some 0x114fd02e715b4f8a826f55cbd4e54bba9029be12d213bec266f0c121cf446486f339532ee52cd20ac07bc72060b27fb],
  [some 0x1a5ca296372ca74406fe02a9acc7f9a6ebd5e5463999aad0425c9b3c1dff137597658d0b1cd018d24ca2df0995c770b, some 0x477aff3f9dd5aa16548406a5a044321335952b44fe32a5910a9fd40c3471fce1c528134a9026aaefeae9c00a5fc0f9, some 0x8e967b596faa3dd35cdc27ca2470cab614ebe203c9149bc5c9c8eef01dac6c06c1de8934148608178ee9a823ff8a94],
  [some 0x360dcf12b5fc20f4c0254cb573fde8e54582c88343affa4903c98fa95e26d500961501663a1a323338c271688977d8],
  [some 0x19ba4d7a4a37a35e0091447e9dffc80d63c8043efe1363654c03e99b09ecd77a4f14cf780cb564fb519a65c1295a924, some 0x107e9076b6df294bb121cd55b3e466bd0b1a001bbf30852b5d7572c289a199fc6ff9671713ffb89634a500d9cdef675],
  [some 0xb34b7e3fc5b80219c92d78a07d4530a12c1812df834511ae9eaa7ddf8410e4a568997e69e9ff69a2a360be35724fbc],
  [some 0x91e825d4f4f38fa7a8b285d7de153c89cfe2b9776d18d33fde310548582881169b9d61a8f0be22f78eb874fdfa80f9, some 0x11074e73f53e0decebbf579cd5ca4053dbd728afc3bd114adabe759d36b0ba0e5961c896ef09d09cbb329986cc1244b],
  [some 0x4da37b6cb914a0e7f4e9a3047d8df33cfcfdc19f3cca37e2db99c334530afc526d61be10284adc45a9638b0a579dda, some 0x7136830a06a774cbca62c01892319cc0ba395ed511000d4d5184db964bed84555d502cfcd4f90f2553f5a4e80c05c1],
  [some 0x4a22a10dd5970c21ad701017a0a2c9e878803af5847b86bc5b89f54999e16a158aa0c5b9e673b4f15a5b1e942ad6da],
  [none, some 0x112fb7c853575b98052850144e9972b95b8379b8cb57f0b646ec92cad7962f6ab0835b69a19c56703bfa1d1e40a8ff5],
  [some 0x1833a57aa5eece45324a0d257a4e9e8172669fba0c97fb0de3046d295f374637057eb18b52d5b2b40871bfc566f37eb, some 0xcfc967537386e53dbc9a983b9645ca829516c0be5a0aac5f57bf7616f130781faf4cb08eb15205abed9b790e633e23, some 0x1ab38550af15f1aa01203fb7077ac26a9f1c25b052e5fa1a088e39ddd00c7612919df2cee60c34c1f58ca47eccfe810],
  [some 0xef2796e378e22c90c6047649da08bcc14db3e1927938e09bb6ca7016fe3330a44d604f3047266c93367c68d7ae8a3d, some 0x108602475501a39434265911b2c28e2b61ef4521293e1bd51720329b30929fe935c3e9ef6131a3274869e2d5dee8d24],
  [some 0xd649e2808336aaec8bc9d7bea2eb17fe2775fa88c57602d7845d05c02bacf2c5e431b8fff8bead8f12a0f4770c29c3, some 0x1141dbe425ec4cb3db5ea11dc74a26b5255c7de347c1d971bbc37628f88b354adcd2c99d08017141ae6eef0445a787f, some 0x18cac04febf720786d0eadfe5f5aab85cdcdc821bde4cb7af21370ee991f4aa950e243765a3e4f0995513c3a477e931, some 0x10c8963da3cf1f5f9d91d5693a3a9c8ab7bef4378d6f1b4cc55a742e7db9eb5aba35cbeaf4f7327c9099877637c0b56, none, some 0x2e62c02249f08a9a4d65b51752099de629c353d13d3bac7db34acfbe403f75b1ef3972ffd66c38cfd850b302cc4ad5],
  [some 0x8a646dfb86b9878b334b7bc4a0b5dd553b23433cac4a35fc21596009a80fcca7b30bcb093c8e72b48ccf2db202dc93],
  [some 0x119548786ed039ddd20bb9a181e6b1ddc075348cb81ba6c8f71a41ba96a342b2b93a2c8def6266c2e2f8d5ef4ff3510],
  [some 0xa1668dead16c18e4e113a55ad48de978781d5a15d0f23afe0c28b2a366aaaafd2b86696e52f7baf2e0ba148d4d8ed6],
  [some 0x12a12949a9f6be01401b2c4d22f8b5171e322dea0ca7c65d216cd776b90615d40dc7ba8e1a9af9022f80fcb23432f3c, some 0x1423ea605ac082768428d2be0f6f5e99b406eab9dd4b0e5f6e41edecc8320969959ae5b29160638bcc22234ea80b30b],
  [none, none, none, some 0xdf56c0c6e27f05cff4bf6bb8946e259391969f0b2655f1869dd8d790f3707752ab2fc33d5daa617b48b3ff357369e0, some 0x4d475a8b2ee59f747be4a0f38f37b4d5062a35f994e1d012218a71446461e2735adefdacb782881a274a9ed1955f52],
  [some 0x468b80a1120afbab90bd0779dd25e0a4360f0b583b96ba43d6d122d2fa802058722f45e3103ef6928fdfc017e8f5c1],
  [none, some 0xcc351a43717155aee794d527cf6538a8c2101dbf2adb3e233de2b2d6c3137f8a484b6cecacd882a763c690611abb00, some 0x142b1a21fdccfea450dea960f8ea56d9f2299b546bd21879de4c2906a411fa4565dc8e363a07ea4095e0f564a4eae64, some 0x63c7410a565e7604563537c7ee41523e6bae709148d9643a25312e5d5d91088ab76de41cda8de91d6c5ad1f523172f],
  [some 0x4b7816dc131ead8fad868cd9c4e898a9a656fdb0f599fa8dc65f61689f2ee9cbd041eb8e3d246ccf4ca32699f3c7a8, some 0x3ed9044a33efcc67585ba6360764be74d7403b37be16270fac72cd067b5fd3391348a2e28db77ebcba8252e01cfce1],
  [some 0x1638939b77368742b85c42fb6e05495f0324258b82bb35a53d015b261eeb8ae0b130468a47c1e1cc3503a82d9b7c5b3],
  [some 0x323a85de54f4ec005e45cb67a71b81d866d5f33f0a1b7006bb58b09fbfe859006793849eeff2ff5eda7e0f46674c75],
  [some 0x1821e88cfd7968664f62647f2090fd565c9de383e4d2a36721b95f2121098ecf81fae8c63d0ee7dbbfa02058ec00088],
  [some 0x731c074a9ed0f9a47178ab505b0397e404d502ccd7cb8eec6d8515c1daebb189aa8131d9208d6765425568b1d8970d],
  [some 0xb5185013ea3903a105c8b73e40378063d6983dc57b1a03d379247ef705505e1be78ec015443fcd00758687306a0346],
  [some 0x1416daeaa1cf34805cc50d09d7f9527775fe89ae63c4e958b471db0a1695de01d7d29fd6a69a52453caebb398352ef8, some 0x941c8258a68b0323b542ebe5380ee0701c9ee3161ed012aa382580097f3f6d3699e575a6414a050bcccac36db183e7, none, some 0x16a8e7438155b193416cdc683b32c0a265385986489eae3a8a473119f823292d6e32be70e3e4f540282cb853d6b55df],
  [some 0x179ac931193bd72d9087aa8d7cc1424e8375c19aa1d93bcb8cc9004e800cb705a356ef58f3ca600d84c9a1f11943906, some 0x102b35f0618fe9bd89be21151e2ce3202457c4201033f04f9cc2f3bca67498ed2d0a6b3d8d5d079036c1e0ab7910eb7, some 0x147aa9ddcfff7ef722de87b968478c27ca0cccfb94f661e6a384ad09ff0d790542cb274c19c266942dbdc9bb3d28560]]

def crhPoints0 : List (ℕ × ℕ) := [
  (0x4a8c4e7a28d62739495d479071f5245413ffabbe7d21f5067235cd4578cd5a82fadc429779154f91eaa4c5024e0bc2, 0x156ae31d39b6148836e0b3c51a6680ea11ad6be3801fc89b0168a1d5be40d5f1d5532963e0d9f1057ed5b93e4b7513d),
  (0xc451b4900749761854bb1518aa445b8e0e6662551800f4bb64d48902988e941cbff945581abaa8921a277d20f21cb3, 0x18c66c2ee5c99778c9ed161d59b2af734d6338ac35c4c8952be049e5c31f9077124be77e4a6883fa8e65e90971527c9),
  (0xdf2dac7463af967d8ee93ddabc2670dd41e2edb106a1cd646cfd24118eb7b5b63a9b69a3f3264555d63f64e15de303, 0xc96d28f8f13c416dbad819d13b5618784954f2332d3282c988debe702236ab89b0f6079953fbdbd2ea37b9a68c36c5),
  (0xaf6b294a888f50c97f56c11ce69db0f38029b3941094d82c5c62495517e1812fb6bab2e51fa4ffa050020d6ddcdd9d, 0xe8d0f1806a9c21f7ad9e437349f125d96e560d2aece0969224a0c3546830813328a2e8fa73e59191e047c85dcd8c12),
  (0x398441aaed794e8a7adea99e6901739a49344b4d04081353e8ee4572d722dcb7183a466649bd18a1c0104abcac8111, 0x13524da3a2813729b0f64c615da9da1a83b892b03cf58bf4a3587e1aa2cba948634b8cc3073c63998fa1049286e32c1),
  (0xbb23fbd6854bd4a581570f23eae88657398000104fc69153d714f147f89287bf3d4f2a0c195b343d59190a9474a465, 0x1048e157569c4110daaa19cb6fd31a24d96eaa02b7d0d1ff24eae91b3c0c2b7e85575d45a285c513c02aac28fa81b9e),
  (0x10ab8a480d47124d5091e80147d9ca1ea5bceab8b3180db25a506bbefb68e4c6efa20a0e728c26ed3b8f664e81f63d0, 0x3a4dc9cd57dcd62ee4cbc2d6f8a3092e88c3541d634386060b18736a37f52bc673a638bf19496a3421338103ce73f9),
  (0xa3a5bda3889586113376ee17bd33cad118b22cbb902be68d7f744a09b7f6f838d8468205966443b92b401e987f265b, 0x2d1926bb155723baf7e9cbbc4c51d51d487ada83e0710457271171c342139fd0f2e98bd028a4abfb8b9c86c8faa9a5),
  (0x8eefe2f803311829726b3ae83ca7cb94426831dfd4b151abd4587158cdf7e1fce06c4bbb3406e2fbcab7f41e6faad8, 0xf87784d19a707f0f17162c5b586b8a0090c78383a95d3dfc9254204562f52f47c355d8640fec5434152be607335599),
  (0x609b6e0c6ca749c489adccb5e038a1cf010431eb68781fbbc6b1a27e140a341b76499b059975dacd6ae05a170961ac, 0xae17df876c705650e959d5ecc557f33f146641a892183d064936181f0369611e35297edcd3c2ee42ef890785bb19d8),
  (0x6fee17ced082803743202933c3540425b6ccc46f20c2a372f087f5b9cc5fd509dac0570afd3ddf48c07eb7e6374de, 0x21df0ab0b9d9a2faf8e72277c2223e15f2d8fd84687afbead9187e008f9d9fb99551d45571df6bd5334728997de339),
  (0xebf06456da44dfa15b60b7811ab73864dba7a949ba60c79f89173d3a1aa4649e5ab56ccc879bcb2be0bfeb50545e06, 0x3d747210de898d4097d9ee73517c25748b89366ebc19918b26dca86fc7a836e39a35fab761ff92368f92443858ea31),
  (0x1a305faeebc6d17acaedf2d48e17413f9b1351d77d2a75af867415e02f4dbb1ad6e2e85b42cdffc9bb52db0804b528e, 0xa2480978a9c2ca9dd1a507ece26b999e35f96f0e11c456fe8de7e05e8d8120fc33e770691c08aaf879f73cb68da0c4),
  (0xa8aa523808164cc6c267f317322113cbd0d7e4b5e31501248d58e73a346cf2288a8651c7a63eeda5f91f883cc644db, 0x8c2e1e09ebd924d583d2865d92a9d05590cdb4a48b34d0e78380055443183332654d0c9b70239b912bef221ce72178),
  (0x7499769967c9817265e9f9be8a89c2ff07999eb06bb36b071427717dcac0941fabbb94e8aa34c8087b8ff94297dc22, 0x57f8e974f2e3946d7298844e055ce9b57c8b216a3fa605143cdd77f85000048c519b1d3ac4cf33ff3a814dc643ac37),
  (0x3e9774012119a62d92e29f0b488202a3c02931567092481c0e15bfdaea93e467573392000aff309028bdc28c4849f4, 0x1111ec34c4f4c9bb06aba3664d2d70658143e1f42ddd8aceabee7fcd5c5e11101e9033bf42087fd60dedaf8b49d94e2),
  (0x1855046be5f7cf10d2fbcf484b1a93dd60da0fb5a3c66334bdfc0ae29beb5949e632888e6307a87fe4c87fc53b26764, 0x87054c5cae9163aea0f08b41bfe9144db3985e81f40e27d6e7505610bff0017b0878fc31a690aa05dcb8b445d287a9),
  (0x18e7c5b93346b3f4b07dfa5573ce4ce69757f2a8eb93929b342941a66f225e9fa6b270f6554c3617d3a16ff4f11c314, 0x11e195dee2e6789bbf91e60382e9a218064ae2e22209fe4ae4175f20a55399632a6c7c501979eef6c17a4610c904949),
  (0x189f3500fd25546adb0ab5ed91c4116706c7dd51bb0be4dedff2290943131482a178fc0a222b3056978c9a1e6e806ed, 0xe297bd1274058ee7dea769680abfe439233642927207967cc70214448a2c39ba1cff38b7dcc3d817e044a409db51f1),
  (0x378e03fc933d1771a28e9fba3e1cb313f69af80b79d5a296b0462a17d3d26a61f7175e9a9a8d103e9e2774c715cc03, 0xc8cf5f34937c8357bef07143452c35790409992f20177dbf4409e353a5597edeaaed6b783f8190672d91329be2e387),
  (0xd7d4c17930852d274bfd0baff7cc58de415b0a05f95c1edfa9dca63773511d10ea8ce5e644bf678b06c6e3918a3d35, 0x16a947a813f1c1352072968df4a12d915f2507a3ea427f607cfaffcaba0e4c4bda9c0f0e643c2969ef9f72732c50da1),
  (0x1350d4fae70dcf060d33fbefa9edfdf7c6ebdf58e60930e64b0e2eb841914260707e091cfc8e9645b0958ea9ff85b9d, 0xb47dd2ac1b842425c751858c1ba41da77691e741ffae945e4a30351435ef8e31ee3e0710e075d499f95e8d0302e958),
  (0x515abb2ef0e237a679dcf0a031dadb9110b0c2566cb82426a27151145e36f5982f7d887b95edb456441bb0adb2a58e, 0xe06267ec5b01c6901cffe9e15c053ea1f1c1aa332a2286c01624ca9781340f3025120ca882f3d2ab172728e885d3ff),
  (0x7ea084a626e49dbf8022c6fca5f8f57a487ca2a99ad4dacd0d676c74f97f060d49c9c7efaf8cd9ae6cac7286c33007, 0xdc99171c729ce85c2c1ed74ef829d78c5880da2641373b9da026573ffb0f73adb29632bf5cb16cb712c303c7f81fb3),
  (0x118462c05afd1ae0f6e0ab511147ac60baf07ff1057d4e3a31bf8f0a179d7f0269b759073f3e993866c666ff7acd66b, 0x174f102b584c4857009ff890b80e82ad5940b7f272fb3d7abd9bd287df5436fdb08c4c1df54098dbf497a2fc828ad35),
  (0x18af8a4b294ea7430bb6f374ca5efd69eee4f57f8a94dfaaf82e7d357d0ca153543320973d3abe0f537a7fa00828163, 0x777c04265ea48295994570adbf0724b8de2ae26e707196eda2286fda672e552b19618529359760fb3927857eaa67b1),
  (0xe22fe9ed2a4fa700293fdf4a22d4589fb3d0dff6d64a6393420997c93b1ef1c6531bfd9c212943fb43d27a96fc2a13, 0x1a67b7c6bf846ee007ea8f63ed4930e8282cef6a149a2c407319337cff944407a7d578aacecc56dd71a44dbad2d746d),
  (0x2606531c85dee011577fc6cda7ca166598c5de9e50a8a82a00926c722af2be2ab8406b1a2440c67e05c6fc9d5e5c4a, 0xd0fc3770df27f0b870348bcf273613a0f773138cb5eddf23348eee44ec457f54503220a86543b0c877d2b114a1dd8f),
  (0x18be359eb34b6a84304e398cf6f463896bdfdb16a46150ea3a506c91fe13f71259db9ec3d3a2ba0c126613214b6048d, 0x531f9a2bec94d21eee2c69cbd6c4a85b58ead4eb31f9feac69478253ec325b62688ef517a024c960819ce0957faa08),
  (0x10e92c7a44c188a09dfb6d7796816ce941cd1f419ac7c49a849848e4c9ac77c02d88ed58d88c051ef13e36354b8177, 0x10e2e398aacde7f1695ef61f7963aae8090157e45213b9a132709888e7a4d81e85c41a13aa3f46f75772616b4b692d9),
  (0xf2c3a2d3e2e1221affaf2469d2b505abe196255936ecb9ccb0204f99fcf347f72e2a0e4a9f9a0d2e22e116e0a19ae3, 0xc5dfe4bcf4f387cd0e484b3a715f87616cbae68f5a0f8250e884e4e994ab4f619a9b7d43d365e10526f3dea93c37ca),
  (0x57cfa059089d5089feb75096443955eeef429cb3683194d60332b658140ae4f5690a11211919451992c24635d245fb, 0x112fa8964770e46c93ca07d8f645409d986b9813b9119e85097cadb89140ce812ffe19e6eafefcc7b71e56ff6f03289),
  (0x30e85fb767bc495726c2857307dc6ad0e5e6ec5c1c9b5312207afc21ce2bfebd1a6379165430163c19df64cd12aa0e, 0x92079aaa461a4db702e7a4b3f60e07098c7f034b344896dd871cc6ea7391acde033f8bcb149d3b10773f34e529c78d),
  (0x11a8fc5d665ad1634bdd0991c1d4083c60ee7c288475539f1a732f2f19b27c83e029c6061d83332fd89d559a7e0da91, 0xc780eaa5fe50ea49a2ecc5a16b646817906c619600987696380a13f8ca89bec1bd4b3a65e4c20661f1db8c6ac412ca),
  (0xc8b070b92c9ba338b4b4c3fb869554eb3be642d58326db4e51e766a04458a0695ca39847a9709880a3a51a79ad6bbf, 0xdb8ae9558e608c954e219d1364f15723b90b78799c20b8b3b0490a0d154ecf4fc841d85f4ff00385d10180f89a4af7),
  (0x8d5d4f7804b1ecadf376b48617fd066e180916504c1106b407a7c52e411564cf2911c5b9f775dc3cc68638ccc60490, 0x5a344d190e1084d14c7c3ef2cac593645be5353ae3de1a3aa116214dcd4a1eec8674c2cea62e8b3db5d2a3104a0147),
  (0x15db2ab48a49ec723b7eca7aa2b977356ec3254ac7efbb33c76f0f18e44a61d248f60f66522e320edde3c185470ce07, 0x4ff909cb2a5dfb5ba15de20566f207fc31200d4a0d544361e1f5328dfaaf23654c2c06d3f21b421af9b143bf386fef),
  (0x4cc99725f52e0d021810b74edbaece5abb638e6b6ae2b9584cc5d5fd1d397f892d35f0d40fc0ed60766b87878fbef2, 0x1956c1b8c2046bf930cee6579ef4b7460f91a4fa3fdee9f048a3796fade83241fd86dd556d302d03d733124f1495a20),
  (0xea9a11ff97018d7463241c9b74b0b3b4847695a7bd63b6eb2dfdd0ddc7840b32802fe11cb529c42580c8417bd14446, 0x119f7a9f8176e937ff6e0d0897036e73e7846cb8826717d96825b4fa21e14ea9492d438f298bf620eec58dbbc8714c1),
  (0xad664904167da620802bde7f3c8474d1616c6a649d988aad0207c220a0be53320953c9c88bcdbdcb8eaf46e5efe07e, 0x1a13740ba2745fc45c4d4504ff549c5fff0936fc23f84cfd0f9b8169e8f9269550100c5126a875f2bec8dc1bb1fd86f),
  (0x9feb9bf902cbe2010c9d0bfd506f5c15eaa918f73335425baededd5706dc2b1e9d9a5d98e41a05853f0ee8e4553a83, 0x1357fa5d65c51b41903002b4154240067213b5c1cf0501ea7892600b1e21981c22ac0665bcf8bcf9141134716424074),
  (0x6dd73c46452b7203dae690933bccd49b1da52187f07de82031875bb514d5a39299c101f4cf695402c834794b65a1d9, 0x18c64fb2f09f26966236c92f5e833d371dcc8907015905c4e4a21df04e60fd989ef5d79da4c5c980a3513a21b37e23),
  (0x91d7a1fc26071dd9e6a6c3f7b3bb1bcfea4e743114ac516f06048179ec1fbac5ba761ff2c569cb8114bc10ca8c9104, 0x85c61f328854abcb767042ceb7fd829388f643a510f1a979ad87ef58b03a10ccbdc93e098c8120a6cfdf238c1f35ca),
  (0xc8912fe0eca8b51a5aad29aa8f096dc7c668ca8ba1c8e5b6922aab0512489dc20d32a677e387f019aa92349b2aa41d, 0x114fd02e715b4f8a826f55cbd4e54bba9029be12d213bec266f0c121cf446486f339532ee52cd20ac07bc72060b27fb),
  (0x197f605886436b3ea7146d08d94ff7cbb35edeb32e4eae0e3234ca2edb76ed02cfaf4351e1c0dc10459d6262be3abc5, 0x8e967b596faa3dd35cdc27ca2470cab614ebe203c9149bc5c9c8eef01dac6c06c1de8934148608178ee9a823ff8a94),
  (0x285b530c1daf432c97f3eca773533bb8a44271058229b93e73ac50f65a3d138756b85c9e7203705e70394f26b6bd40, 0x1782c77050f14c9d17ae073b72d4b5234dd572a7db16394d5ef98a010ab212b16754842c9c5e5ce51cffd8e97768829),
  (0xcdba57874123d4bd7d1186c3dab48b41a875a90514739fcefa9b3de0f0d0912bda8c3fbe5fc17d774084a3cdbfdaf5, 0xa6513eac571e560b28e8eb116302cf497139f145020b3c691c0b03916f2e60500bc6d2bec0047721be6ff26321098c),
  (0x172fb5a66aa7752c1e374ed80406a5f25e5182eaffff1434d54de12f800e5187aa1e7772d6773bc17f3f4b7e99be16b, 0xb34b7e3fc5b80219c92d78a07d4530a12c1812df834511ae9eaa7ddf8410e4a568997e69e9ff69a2a360be35724fbc),
  (0x2f86a67f3e423791a8beb0d21b37fc2148bfd3a48907a68895ef9c308c81276cd3f55f5926b52221527a8e708356bd, 0x11074e73f53e0decebbf579cd5ca4053dbd728afc3bd114adabe759d36b0ba0e5961c896ef09d09cbb329986cc1244b),
  (0xcbaa58d0b6574623963b25ed81c0918d486c1d0d718a4ec0df6f9cc20f64cffe4c63c6f2f2fa02de2c243cfa936cfa, 0x7136830a06a774cbca62c01892319cc0ba395ed511000d4d5184db964bed84555d502cfcd4f90f2553f5a4e80c05c1),
  (0xfbe4b103b44f6ea82ecbf295520cbc25bff082d11398ed13394c40b01a1549bd063292286bd8abeb69e2dad3cb95c2, 0x4a22a10dd5970c21ad701017a0a2c9e878803af5847b86bc5b89f54999e16a158aa0c5b9e673b4f15a5b1e942ad6da),
  (0x36a421171c23c12343d810b0f49734f44593793cf710a0a0ba5b8eb12fb8dfb84e914ce768d3c610bf20da6eb00e6d, 0x9b3ec9928f9b3145e880bf27b7b20f846aa257743f9483ba8499030c8fe5096c03278d95e63a9981491e2e1bf5700c),
  (0x1459ab48a91df7bbbcfab3fa8b829d17376531fd05bf45d690d9e23237bacba3996f12e51240e48d2ed56609eb14019, 0x1ab38550af15f1aa01203fb7077ac26a9f1c25b052e5fa1a088e39ddd00c7612919df2cee60c34c1f58ca47eccfe810),
  (0x9854cb76afe154b3c3bb7eb8a56ef02e3d7a9feaa8625cc22ae2519d1a75dc5a973444c5da09d963eef2db26b1ad79, 0x108602475501a39434265911b2c28e2b61ef4521293e1bd51720329b30929fe935c3e9ef6131a3274869e2d5dee8d24),
  (0x145d672e987c4ba3a25f8e3feafdfbcd57f7547229e896d23c2e7c7b9cb32f3e001393fcc84418a03b9c4dd22c70236, 0x2e62c02249f08a9a4d65b51752099de629c353d13d3bac7db34acfbe403f75b1ef3972ffd66c38cfd850b302cc4ad5),
  (0x13ae4a19ab81c42899e7d5bcfdc37c474324a50d9c56d7cefc21d9ee1d736cac759ce2f224f8c625879fc1d36346fe0, 0x8a646dfb86b9878b334b7bc4a0b5dd553b23433cac4a35fc21596009a80fcca7b30bcb093c8e72b48ccf2db202dc93),
  (0xe41952a07b964d5f3823f7840df1a7c06ea7ad6af2e87620c04fcc4cda56c278e62d05f01630720a17ceb28aba58ed, 0x94e5be90d80d4ce91a4a265482de1d3e1b86aa357359228f81be14109f13d4eb77ba7b5109d99456d932a10b00caf1),
  (0x48a9ffec70e50ef034c1438a3bcaebeebaebd3fabc28d90bc1ed467a0a0964691ad94a92b900fff1c92d77b442bef4, 0x10cd3b82cf3a4d1e159f21b11ccbb51a1aabc98eb24215420e7397d16a29d5519dfd6dac1ad0845922805eb72b2712b),
  (0x11ad7ad71a17aa626eaea3a83db138d4c07944d2c174a698a4c8019f50230fd79e6f56e59b3501921a5a410763f6df2, 0x1423ea605ac082768428d2be0f6f5e99b406eab9dd4b0e5f6e41edecc8320969959ae5b29160638bcc22234ea80b30b),
  (0xbe8d73c9044f29e594e86289874d6064d692e33e845d35bd7d171d935c3bf1add3c44d0e15a492b40da8b9ce4ce994, 0x4d475a8b2ee59f747be4a0f38f37b4d5062a35f994e1d012218a71446461e2735adefdacb782881a274a9ed1955f52),
  (0x139ed264838308afe83d1afe6916c99c10ede0b044b33b839182947e95dad58ab6f0c9079cc4c9ab1648a4f94d0bea3, 0x468b80a1120afbab90bd0779dd25e0a4360f0b583b96ba43d6d122d2fa802058722f45e3103ef6928fdfc017e8f5c1),
  (0xecfe6f1472457f93252ebf26b8c2ae4f324b76f1d76f9c03e91547e4670e693b53da0c0dbcdc08f6b032348ebad248, 0x63c7410a565e7604563537c7ee41523e6bae709148d9643a25312e5d5d91088ab76de41cda8de91d6c5ad1f523172f),
  (0x58186443e5c03a32330da4157dc3014eb9d3e97b4d7ad144d640cbe2e7fea9a060417eca193a391d08ad05bad58a0e, 0x16f6141cd91211e5ee2aa1a3699e47ca54b99b7c936fd680f46ef62b38de82cddf814a14d724881c84e3dad1fe30320),
  (0x1cc502239b28e86df289f44eadcf574da50b07d203e05e9ce63116d30a0e2ba7a324d090dfbf880b266b7046b48997, 0x1638939b77368742b85c42fb6e05495f0324258b82bb35a53d015b261eeb8ae0b130468a47c1e1cc3503a82d9b7c5b3),
  (0xa81740e26aadecc62e6a394edc50f5464497ad26ead52d0fbf0552c85530dfe06d015fb39310f4c53ab40a9d30e665, 0x323a85de54f4ec005e45cb67a71b81d866d5f33f0a1b7006bb58b09fbfe859006793849eeff2ff5eda7e0f46674c75),
  (0x184e6bc8b15981196278e8db0341a63aa19688e892c15bc99d44c8f867e6e7a65ccd9c7d20f8603e060fa4be3f34831, 0x2c1bbd47ed7a646144df787a983965b458fbbac2a7e958acd7cc3da7f8af131eebaeb7cc2f1182c90ebdfa713fff79),
  (0xabab4d3169319d0e87e8d24deeb54eb3470bc099f5a230d97eacf20bb04cdecc4cac9f21da392e2aa03e2f6b99d60a, 0x731c074a9ed0f9a47178ab505b0397e404d502ccd7cb8eec6d8515c1daebb189aa8131d9208d6765425568b1d8970d),
  (0x18ec158218c9c7104fd5199eec211210113a52c5c36fcdc4f1491265050a7ada566f15758bc0db5ad6081c87a0c1c85, 0xf921f603dad7e725353d092e6111bab64c41b53b79f98b4b7a3db0c303f7a1fb23ce841abbc03384933978cf95fcbb),
  (0x828a71c5f2eacd122866b0181cf8653f0f6c1eec89b78a298a9c33ea96b4d8257ffdf3910d6f725a23314fc567374e, 0x43abd1dfafb5d1922437f9e8ee1d30f3cf545a9c6b28ab764eef1e1a87156d4028315d21c1b0ac8285f47ac294aa22),
  (0x455360bff788ed526d035bca6cf5bd373cacf711d247090aefc01cfc7616c80664763e9ab4a42b64c95f7a0cb5c699, 0x147aa9ddcfff7ef722de87b968478c27ca0cccfb94f661e6a384ad09ff0d790542cb274c19c266942dbdc9bb3d28560)]

theorem crhBases0 {seed : Bytes} (hs : seed.length = 32) (h : (chunks 4 seed).map leValue = crhKey)
    {sqrt : Fq → Option Fq} (hsq : SqrtSpec sqrt) :
    sampleBases sqrt (chachaWord seed) 11 70 0 = some (crhPoints0.map castPair, 2165) ∧
      ∀ p ∈ crhPoints0, ED_COFACTOR • edOfXY (castPair p) ≠ 0 :=
  evalBases_chacha hs h hsq (fuel := 11) crhCerts0 crhPoints0 (n := 136) (c := 0) (d := 0) (k := 11)
    (by norm_num) (by decide +kernel)

def crhCerts1 : List (List (Option ℕ)) := [
  [some 0xa398f97759fe4090e3d2e97caf03eae32baf24d6fac6c8c61d5bd166b70acd1717377786ac68674ca488451942174f, some 0x1548473361883fa4b180b49400a554185b0cc2ce395dee1fc66ffe07d03d1e1b0a1f98ffcc1f1ea56d2f3a9c22ca6cc, some 0xa125ab6f0d86283698fd752ccb44a7aa51a9333f0da09c22ff16337e20f3f119baa5eaf473e0fd03fdb171cb1c1274, some 0xc390027c489611b373ab30e28a01a5f07b91bd09ea377df5d87f89fc14cd92a8ca6a83a4f18131a8cfc05eb41b0cb1],
  [some 0x7c0a86e5aa18ec70d152db358ffc6b3f9cce201bad47f70a98c9bb5eb25dba0c087a4943fecf69b1ee0d3090f6d325, some 0xa56dbb8a1e6d2cb936a82546138a40705bc8bc5d473133eacce6beae25e8a17ee1399da96f4c4884bf2378fe50977b],
  [some 0x128c015d19ed3704b99d87401f6584d896e3e8c3e96ca0f29f53db863ae42ab5d8c99098314d0faed391d81cd6c8905],
  [some 0xf3762118e0d8e838b27ac71439a5b8f2149a907dd1ed68e4d03bc173a039696b1e52eed28acac64565c96583ee3e7d],
  [some 0xa4f2a18a32fbb710fb25e7d004d13abb9cf637694f2dd49da5d89a57f4430553892829846fbfb7ac4ab52729eeb2b, some 0x147fe9671f015afb65b145ce2fdea12b34cbd35093b2dddc0c55e9c1ef2f81141c2f830f99b58c2c8c9f6181ba60c50, some 0xb570e908933a55e3982a844fd721d20c5c74550c5e056ba6326bbf2831bdae80765b16450b6bfa160311e0a962867b],
  [some 0x8c17ac227f03ce0e24f2761b66d9d574479145c54ef1955101350594e0ef026eeab68c3cd68523456d1cf75ff4d1b2, some 0x167a5ff278418eeec43b42b0ecc50079c2236b8890ca8f5133038af7da0b5969a46724a43432892a18dc4b4a0d0c674, some 0x11aa3516fddee7161cbe28d70c29bf2419d596f0aaefe72b351f6945252811e192035f252f8f2d7ab4f22e03f3ca424, some 0x14c4294a30d86e6db5f264907930c2dc9d5880331fc1e31d9d79088e2cc38532cde31a5a8492f2c9218bb520fa6049e],
  [none, none, some 0x135da536d3f160528629baa361825cc03e080090813fad949269054360b1cb1cbad3df791f86811d27b5aecda2d31c2, some 0x17d0bef869a1c8e0ab2c188a69da43fb678865aaff2afe87e2f590cbfb0a2256f0aac90bed78aebd7d469f4568193f0, some 0xed5c5e81d4017db4d81ff5a00dbffed454e0be8c9023bd5469f2c18d6e3fa992503dbb2f731878ef795b72148a714d],
  [some 0x4dc8f3c9bc382b5362bc29199381b06a92f15f68055a0a02f7645298d94f4be9ea92366535001d819484a244a7076e],
  [some 0xaac4f6b4aa5fe1fb56299a14e28559fdc7f4727410a9f01a43559080ec12ad34b3a090e2c4504583f990a2daeb6996, some 0x1874145c3a74486ba3ebfdfdbf2c9a9fb97b05f7081c57eb4e7252c0e8debe0c8663e09e51254033a65f8c02c06df72, some 0x14339bf3ef64e38426e495e8f4fee220f33973ba63c6bd63a0cf5db7d24da139a51b2eeb3a75b9c5edbf288abfe0b86, none, none, some 0xeefe6a2a84ad44ff624d7697e3e78cbda4957042ce891c443f9affc2d48f02597eb0b2410f19b7959e813bbe5fdf13, some 0x17cd351974fc60bb2e311ba25f95f8ca2fc47f17b30b186068c07c56c44d166e6a3faa615e165a7ae2d03ed6a78b01d, some 0x42831070b6cbd5eaf04eb67d34c164a3f554976865bd242b4378e74428dc4eaf17d6e36d7fff886e158eef4cb246ba],
  [some 0xaf0e2940f511bd1bb92e07f295835c210b8790fa0a1193e43b0ebfc25ba84c37ab63b0041e3f0e07ba8822d7293691, some 0x8e2dbba2cae6fe7b9f51e28eec3aa1276a4f9b0a44b8a4e0ff8e34e8a3b5b86d58baf517178dd3fb914225846d7ef],
  [some 0x1887e04f3b5140d2dd4f0b7c12a9bb88116ed59f9fa09d51f6b3f123c68950a156d701cd896fc279505e3c1ca929d13],
  [some 0xa129dd0771c992859c7f89391450d5ce25ba2d3216ea452f22900371fc25750641ef3dcecd65c517790081b1706659],
  [some 0x3047635af032b3139bf32071d4663fd5133c07f609646de4c4c3bba11cf6ce0d58816b8d1a0dc524a353673ac38733],
  [none, some 0xea6bc9e4b6bc8abbfdac8bac403fe739538bc9dfa583f40a7ee6e6ab2b4aee720d07c4d5c2818d5009d989936cc8df],
  [some 0x55ce41276670140f74785c34be2805403a4432db51d891f73fceaa87c9123b7a987deff8073d3c4c6568c7daad0e62],
  [some 0x1543ff0d0b8c191db4823e90b3fe0eec1e7e2dd632e9a6df947fb6ecddfbee96576114f60b3d918ca998af772842988, some 0x42376d13f3ccb3a569450bb8dfe79c16a97e980f1dc943b527534dfe4757a9c09d17822f524ce4d75e774d8d6bab5],
  [some 0x123e108fa732957f6d06aa8fdbbb4c32854341fde6bd0a7707b8d1ad8c16295942745c8d2febb017bd4e33c8d39cedd, some 0x133ce3f69e196c94dd1652b0d4a94b2f33385c1a23983b71807449a1e971a100fae1042b358ef7c8aef600a5d4f98d0, some 0x14f2709767b4afdc76d6ad84524b827b6a061b690253f259e1bbf671024a1d534b59eefea9dd9826abf80e74159c612],
  [some 0x4212594a2e4f3940cbf3b8ec4aedaa5aa3ac8b27a4d203dd7efb0ded5408c2c9404d712cc3ebed841a184dfd03edc7],
  [some 0xe3a66e789b8aaebf094704e6559e912a14b2352f95e69805e55b954533ae5e0903246f0a2576fb6fd84bf40837659b, some 0xe69e4013ab11c44ae1bc374277b150919706719cda866b045021d595a0615abffb4df006db6a67dccc41bbc561fcd9, some 0x4de4bf5bd84fab6f983a5394117e74d7e50ddf431947c1e9080e7c2309d56c5510a964d4d9d72e7ef5ee691190e3d2],
  [some 0x132e58bd38f678f68f61f9bfc93fe67a7cbecfaf68bfd63f2949a9c6f1a09d590d1270ae0b1f39f625536173d1ac57a],
  [some 0xcc99e435d324257d58385e6ef0110526b43e1576e456897df123a06bd15a3f91dc5061846898778d41771cd0bd114, some 0x163fe39220f02ea51ea6d8dd78cb24b063c13ff0b14a575bb82c48c2a4c32ce5a06f21ea6c6d986e173ceec187d4b07],
  [some 0x684a7e45d9318c9026a2badcb56e31c49a299e2bcf9ed82968f2d00cdb140a52c206d9fb2d7df0533d6c80365436ed, some 0x4fa6490386178b4b7145a06840ae0b584c7f2018304e69b218c12d5e6561423db58db30abac6e69321679c6f29c434, some 0x18aac6d6a63d8a31737c6eb9404a4e2f7041375a4d2d176ca9d06b0ae0db5a4ef0bc8dff2751dc82f94a6207e1b6147],
  [some 0x14104aec90b69953a600d1454d6e94a23370e9b23b8b0b9d84d32f21f3b2cde127571d6867119e864d9e81a4772bbcd, none, some 0x12b84267df7cd5a3de87b3f6469484572a18b2b489492822982d16913406f196b1143c0456aa79e9e88f8754c872057, some 0xadc947f3fa689735aaf172a004114da50f7d418d48665534aa30e04e7f56f250efd110ed8673259d397b15a3a20b0d, none, some 0x10ff56d1da2298dc5fb15f33c1e795e2ab1674355a0e5bc7e14201a23d00dce9fe36c180f6d3db29a9badba2972aaea],
  [some 0x1247c37cc4ed231212648b99e523999326e4648def396c8904650f24d95483add2d7345a3d1398b6ba417f6eabe9fe, none, some 0x61a48795a816685a4f0c8cf68d10dc80491596870dc356fa2312e5f948406bb0c03365acddf46b42bb3da65f8b2750],
  [some 0x14efeed55112bbcfb29259ffbf6c01f6fb1753e880fadbb7c069803cf3ad69d677974ec8f49487fcd42fc6c234a2e32, some 0x17f8b36d6bb1d8b926e48d25419d5e9980450ea6ebd3fcd4973d1e73e280e75fae23cf43520d3575a8eb35f0233712b],
  [none, none, none, some 0x5c7795922d29e0197bd43e5ea17eccd8146367850a232d074f69f08a1eb3948081609dc13170acfdd7c340de11aceb, some 0x861190969c75d7a36430f66a30b757458cc976b9ea13a5a85c8c7eb055ce797e9909c7454c2c64e511ca7a384652fe, some 0x620cee87d48f16e7bbb218c699c080afdb1bf2de53f95cc4204d2ccad7ed7b52ecd90e46e33a18438282cd239c3b91],
  [some 0x1140d4e74c91426b44d1c1e0aa26700b86439b86d83ae048d0a9ba9f9b38ab335ef9e31d0fdb58aa78d2ddb8e8d1742, some 0x130de0d3bab11a8c02f50966ad12f8ca01db0b3a3e46ce0b970c693b315594f4d2472badca09119061dd7f76fe8c136],
  [some 0x1a4b4cfe0952a946de1c43414c16e4b9a03c3c6e97323168d41d78ee04ca6c8bca737e5220b82d2af7cafcd75454967, some 0x1a6fbb122d8943a6b3f846cd2c8fa9f12fa0411ca6f219f0672e632abdebcbcbc977a7de63b582b7d3fc9aeeb34fbef],
  [some 0x15d246faebe41f5af9f07a9b19f1818b027aed03ec9c5510c53acc572f84a2a4ad3c97f1c3b1dd26ba03d405d933cc6],
  [some 0x8b0ba6be832219d9ae8e572636731f7cbfb3fcc709db2a5b327a72648f96e7fa2958459744a8a41997399460c657c1],
  [some 0xbe608dc6f8f55aff3853d6d44ff436f9f9983e3f862faa7f7a27e4336812bb81ef6faa081d50ccc8fde2c397d22e88],
  [some 0x8e04867667393681e5d3989b8f5bdcbfe2ef0d1a4363f9e3042359d8dbe54bacf356a0e354077d614c4b983660d259],
  [some 0x73ddb4a4f7f0f050f98fb6a88cde3a91271c3c19d25fbedee868797241de5c7bd2231798f17b4c7b68a62e6f76fa4e, none, some 0x128c4017608e9c39281be2dcf65227c4b31cb029d1fb3481476e1de1a143ccecc1a54da925b9022fc3c18dde22d4745],
  [some 0x8d94daf67882f550bb867b1a5a20ff9a0155bedde9c12aea96022347b2386af9ae5a467257ebc4959418ee44e36c49, some 0x11a2f95597dd4fb0ff4b330b69c3b4e6ba1dc0ec09420a1175c9e6bc3a1c00f724f7aa9744b4d9783eb423db1221ef3],
  [some 0x17925f2fb5dff35c47ba61ad62a432678ee5b307e3da970c4e9f61b749c5125f4493e652584fcd632541f1b28995e67, some 0x1010b558d93913cda6b3dbce9baebcbe6c5b54f3b4f420596820a74423397fcc6db907323324177af541d395c23ae6a, some 0x2ed24f0436001f3837367d5dc43f38b6f0f5ea58a78268bcc5b836de99485084f037a00c31f2bb9be224232dfb8dc3],
  [some 0x6e78505e1fba2c45060dee5a46c6787e6ed58ae347e67cf00dbee291913789cc24299be3ccf0cde65cf839f5ba2174],
  [some 0x159e67192f79498795668222e5c06ddac520da23ba5c2264add2c80ac812deb3aa39c91873d0b50bf7e1a134d551fa9],
  [none, none, some 0x1630807f5a6cc8b5e0cf19412995be64bc3e98a698366dbdd397392a7b217431c3d080c6761e26fd60fb1360d556688, some 0x19b5a8b008251626ca9414b893c4de63ab89ac549479104e237cd2a32ec07b2b7b91f8ce0c04c95ca11a8b5f7d63665, some 0x1a1b0c7adce8822f0c4dc74d85eb3ce0ac1271beb6284ff63ede3eb7e68613505f3c7505a51db4a37937bc84f489360, some 0xe2b2d63981ce209002ed4117347ccd8a1699cac8ab516b4e8459ff565412fe1b93e5748c714219a2bed201fb11ebb5],
  [some 0x14546d5c0e14b249365fbdd581ca9df9893ec224cd5a10d77be5893ae81957145af0f4a82847c6ac96f372afc55ded0],
  [none, none, some 0x29d60e0987f82ab440085167d850d1c20a62da4eb9cb533ecafe5e9032900e3c00d98e8612b7ea82d47e6f4ae5e263, some 0x913cec85c74976531ec501bc5c0baf3b4dbf2ce99266cad12350fc9924371f500f8e8cb4a49aaf1f3da26d1c9457c7, some 0xd83d4fd8561d61000cac3f34286184d44b67cc271495715db540c08e2494920ce9d8c0d42468ef5fce5061516f0127],
  [some 0x8136bf5348342631060b66c1f15e271e8d78e163fe983da9d79d3b4a7169958a3bbfb96dcb9ec4729fc7f547b0bde9, some 0x94269fca185471b42995bb3d945dc245b0a7201789a4f30e8d8c102168d7319d7dc91cdc086948b869eda878b19f26, some 0x83fa9f0c26e6dd94a137f55937a41e313a5f3b9e1e734bfe6b6366192e89c1d0c844bca3fcc538816cbaffff834c9, none, some 0x17a50c2ab1d5f61d8aa564107270fe67e5bbcfc364405e23821824f150fb9939ee9a4406a74f09da24dcb0653dee392, some 0x306fac2ce4418d9a50232710849ddf718196f60dbeab05fbebf7f77ba707c0bd5b5a9e8eb4aea073aa491fb6cb20e8, some 0x1091e7febc69e271bdd851aa3088549fddf260f5e0a7cb0c33b6d059fb9274f9748ce8824b9129c7d7456c6e2c60f3c, some 0x154bce026e815059167f98666aa0c6350a0f2c3a2adb4ca8523a058b3c7c65df662ae7efe48cb2389503ff2bbfb55e9, some 0x17e13e85bc6cd6213b44e5dc8fc6d3001678c06ae20bc697791739bb929b2d41f54cb8908e24170cf0a9fc7f305055e, some 0x2291f3b10d9617a580139bcd341b038b2a265c3e5ab6124b63b64c17166867783b5af9285960fcdd77e11db24f01f1, some 0xdbadfceabf9cd192e438cb24f306c8f9ca208dd4cf5686ed114c105b4f90b8356a06182966bc44ad570e53d2df40a3],
  [some 0x77341635797497dc2e072571b4d96941437804a35d6918dda5cf9e0497e034052e26095f0dff3b1182be9612e1b434, some 0x152d4b1f30f66706007a068b624fb4f16e187592e4c7e81ee66bc3840d38aaa6fcea32599404c26ec696fa919d0ef64],
  [some 0x14378feab2a65aca14a6aec7bbb99f30d76be8da0f71db819a73c00f4ab74916bb9ec0aed9f6db65b77c16d689c351f],
  [some 0xb6b4b7385eb0ca3c8ed016695c2c201ca6be52f184d2f4da5b005853ad0f7085a144bc81ff3920738642de79918069],
  [some 0x67d5cdf01650680aa9361030640b735e4c9e6cdfed841d756420e5c5d07543764baaf5557fac885d19a3be0b2de0e4],
  [some 0x18dd9f46504779a8723934f0cd8aeab5af24749df8738d922bcfcec953056ca5f378a49f64eac1945855a1398185b45, some 0x14dc74622fb441e29005b94b9437129126d880e8015d86335939b219ffbae18e51a5ff31170ab860ab64333380db90a, some 0x1289c3303c786ee095193ee4a7feb9de087cdd21ddd5264900e95025a2d6445b280d6eeb289a25a5495537f0bdd8c0],
  [some 0xc0d2a89d4880b34ef644f2fb61e59fe0ef2ef74dc57b597470b671e75e4f475d16c1c370329a8aa0d2cc70dbf8d873, some 0x133608ddd08935a9afd44fabb527b554f97b8fdf454e557117eed5e5687c6d04dde6ba1e231be8cab604dac399a8b68],
  [some 0x14fa0d81942c8715988684a2d1d183004007ce40670b600a279db4445ab7f1ff96a80815595d0463cdbd19e7f20dc68],
  [none, none, some 0xfa0eca791b80a51da68a9b8dc025f655a3f5ff8b6ad0bdbd27ccd0605848386bfb1af2d7bce34e1bc9f9bcb018888c, some 0x18ab49491ab29d82e18f3854e373ac73e20d14a783a15e0d05336eaee905ae7a51602edd040216b7368b349d070330f, some 0x19f413369a89d1366e5bbf46e18ec41c9135c06f139d7e9de6d1171552df489b18554ee1a5f1a9f07016f5804cbf6a8, some 0xb229620127aa4fcf14056d56142819623624b55217ad1e5c1503bcfcfd11256d14f315edc7091881d1407123da40d5],
  [some 0x18656a3df5616eef19a2c03fb7eef0761e568df44ffb23a984e356ba3097375d5323bb2ac1182115a7da8bf85e21479],
  [some 0x13935c05b4a247802cce94432ef7c30583e51aeea592b67d11bfc3b58a7efe05dd63e8f3751b592569dec475f20cddc],
  [some 0x12f387321ea575165ac476eec4467f5905f8e51b7309d84bd994789482b01927411b8432691ae55b3d6770039cfddd2, some 0xd632b4ab23bee04c864e603179a50c7c77b31a7bc2398a741af12ff23fe09840ea49f964b78c8ef1a30425afade218],
  [some 0xc5b041f524b3ec5d454202669607cb1d13fa6f871e0f98c992a8c68a6155a533463ae1cdd8b2b6d4acb3e40ea45f04, some 0xfda12bbbf3ed0e1ccb660d739215e5d94eb1dc64ea5795aa5352b7af3e6a3545f1dcd53a38cd3e04e23773ea9cf8e, some 0x1536d816887a4d5c618e2aea08129778c49ba350a68b1a9b4230ded7636840bbab4d3fa2af65094f0ef22fc2b7966a2],
  [some 0x12c7a9923b299c650146512ff0314994ed7b4160225831e25c406cde031020d3042e5637926673f5ba6075a4390dc43, some 0x19a6079b148e22be667ffd52aea486a4edc0c8e0a41ebecd1a2612744e6973011d03cc07b5b2eff7cba63b1adc87fa7, none, some 0x741641a14653026988629184549b835c62520df5ec98abd5b7ad2ba3ff5160df000ad2400a2d06286dbec8d92297d9, none, some 0x239c387421c188b4cb4baec56ca40fe9dba54c1ea5c68d688b71a0e59e5cce608ca81e7c24cf01b0478c5675585393],
  [some 0x196fa8f1897fda31ac4b0f526e2f70291d9b0c27d4be3452b1e35741b3e3fc73ac08548399900d0d9249ca14c765e0d, some 0x15650c6bf12b4e5abf80856b6f76fdf9add2042186b1891181c12085c19f864fd34b141d2c3e31a16a3d9063bf2af35, some 0x19c88da9c25951b2104f448f73b4bacc6c3ed88040b01cca6ba4e74fe2a0230aca2aa49bfbbb37a2e41d678018fd1e],
  [some 0x6ca12daf7e4ac86eeef08160b9cc52d70f677f71ad4d105b6a3262d5423a1b61fde62e3422b766f2b9e6d17079578],
  [some 0x121593fa61917fced94b7905c19f9d88d616083ee99d5328a184f852fd596cc7a0321b05c545ac28ffc64b943faf06f],
  [none, none, some 0x1791de39c0afd883068a5c490c4990eda011ba0bf7cd41b21b5d47b181bd8a8a32faa353d766f767391b47fa5dfcc14, some 0x1b0f9563dccb4ed18edef95d0def1ceaf4c11566d7e7ab589ac4925bef008ec2e646edf07b99b21115f1679aed15a0, none, none, some 0x14c281cd59915b4a3f344b4df321e2c7f55327237f618f3c152eb256be962fa51bcdfafb784c0bc0031a32a070e4fe6, some 0x60081c1295677c9e7036c5e651a75d925a9cdca1b00714c4f91347aaf85638206a1b29f93211352c4212c780505f7b, some 0x9bd41c793390f0c1599c14d2407c297d8c9db903b82731cfb1e369d730044825d523dacd578029c9ed956104c3341f, some 0x16f307e04616841d4c491b8ad6749db1abd8e388aa61f5192982b26dbffd3efa889e5795a75db3eddd58948d997aa20],
  [some 0x12cb646918e7bb15d519340ec931dfaccc15d57a0364fda8b1588f4807ed98346ee06ef40d5afda8863b7ad9c900f03, some 0xebac206ab0c04c6d49985d74778cdea9882d9e475fe13a7f168b10435a607940a4f89c131340ff43913385a6744393, some 0x654cc95e41f6baa2cec6224c8bc79e1544400d85843a9888f14d331b010957915bc9fd1d4ad50b212df9850fad37c9, none, some 0x133d7bdbc0aae931f8c14a9d8de4c3b51695a3908c5e75a034367014d11c64243e929db1a82c41afe0fed1acf9e9b00],
  [none, some 0xa0cf323e43b22e746c635fdf4498742d0a9596c3924efd6373cb2d1c5665d6930f8eba7cc2d0f4ce984786a4d4077a, some 0x16b223ad45803f95db48d4391313860b081970423e7e75be7b2b206d5104d80e8af46c801d79ad7c3838dcf5b046938, some 0xf36d92d58b773918d381030c7aad624b1129b1a65a93414e9b4956a3d9b26be898c486d730e734addd15fe5f0bbc52],
  [some 0x3af41de48e127243a951d8d8990c7f1ea56775571a605ed80ff6c3c5ed144e364bc5d16860d80b946315356379c787],
  [some 0x1435496d3d72f3a33b92fdf2f135e68a7d7eeaf0d4d69b8192d41bf3943a4803f4e6d7ffeb7210bed6bd44b046add1a],
  [some 0x11c1e3dda7a5eb30220adc31a27abc393a204e595e5ad0d59ce2b26ae7fc4a4e8cccaa6cb725df15df41096045992c5],
  [none, some 0x10c1a92ba6193b65cd9572df696f9e053a2d68cd4e6de94344065749d441ba4f25fc0bc1c207e3258e533435671f591, some 0x219f63443c9d230b296336621587d62c40d6c9fb834b1671fbdcc6ce9a034f9681143e77890604c86a4a0fa3b1cb50, some 0x10775391db36b8777faebc7ac87db56075ea3856d05b8f12ff36c2b67a6376b9efe1a8573eebaf550cd293384a88b22, some 0x1a5c7e94a3f17fff81cba56094cd1b7fbd50773bb70a8598f9f378c53edd0744029f715221ad1c3ed0b36318051b276, some 0x8d1037b403e8cc189e27645a9af259b0f29e798df1c3135004e4058f9dcac72b8e2c951e007f670b5f985340ba3ddd],
  [none, some 0x1649f8b2597f57f4ee7a9e8273b61ab5a9756c1aaf218ca05bcc03ec10e98b6f2e642877e9073b97be66c280fbc54e7],
  [some 0x8b275d9bf48eb6e89c1542d98ec6f566802fa4d7efb8233bd872add88abbd333b12e86f15cbbce4112ab746ecdf27b],
  [none, none, some 0xfe61c9c05943253322b1f8bdda8418879f2e2e1d775333068cfabda6abb016d29ecf92bd1dd037ba803a23cb4506aa],
  [none, some 0xc0a6bbaf40e4eb03311a11850cbfffa08b6768638f295662f0ed91f177c823c042cf43fb44d0f884f34c45566537c9],
  [some 0x2bf1656cbdd2bdf5384ad3d2cca8294a674f4491b94d42bc6c8d4ac8ea8c5b1ca8d27266313dbc22c5bf5d75fbba45],
  [none, some 0xa1d578afb456e45be4ffc4dbc41786280fa806d3c500e994a4c4967ce4274e7284340357e5a4f160f3b10fd8ef9cce, some 0xbdd9347bd04bbf9f92b93987662d853c8f896510626d254d2c66be7663a9019d0afc26db5aa5edf4304c857994f6e1, some 0x9f0aa205275b51bf31d589259634999d789244e2a14c3a46df888f5449b58cec48f6eb2063ad1bcd05c47567210303, none, none, some 0x320104aa4352fdfed1f25adde6f461adecf170cd314de5d83650d76bb4c16241466d262094aa70dc1498d3457b440d, some 0x6f121ee45ae4b1977ecd0dadec71093f02c973006585cc2f4de0bb7884ef11d87be0374b67fb79e6b8b21178a359de, some 0xaca5cf7ff632dd38e153e810961bcc31012a7db9f4a7ce76820e42604726c01377e9855094ff04bddfa87125194a81]]

def crhPoints1 : List (ℕ × ℕ) := [
  (0x188e74adeb1e1d0f8fcad8e8bb7db41f33a08956e92eb223778653aa1886e5eef7831fb316d5334fdfc0adbe247175c, 0xc390027c489611b373ab30e28a01a5f07b91bd09ea377df5d87f89fc14cd92a8ca6a83a4f18131a8cfc05eb41b0cb1),
  (0x1464b1102d1399e41f9b64bbb667ec06605f7a530e88f59f7bf8675f17889597e9f01048895851ceebbdd7fab1d97ab, 0x108cc8a8da6a3be0d045d9b268dbefaa9c71136a3ade25b34267b710be35f5e982a23a68690b3b800499c8701af6886),
  (0x12d63756b3408093ab35fbab3b5dfa2d27c6afd0eb14ae9b0f2692c103c496d11d26886e9b2ae074c014dbab988c357, 0x857a3046263d7a7aa12d4c6aaaf0ed90b49b66c25e497ff4fe2477565b0554b97ec43aaceb2f0597cfa27e329376fc),
  (0xd0454108c0e871056a59eefa0a667aa002b02904037ee1ec3c231b90a3742b70949caf1b5ae3a3bb4a0cf4d78db2f0, 0xf3762118e0d8e838b27ac71439a5b8f2149a907dd1ed68e4d03bc173a039696b1e52eed28acac64565c96583ee3e7d),
  (0x2ea1f486174e0b94aa0f4b1ca155aaf3e1cd73cb7a5ae5153b87ce01306189ccd172823fe847cfe52eb5c8a2cd504c, 0xf8c95d0f31d694e2a2db3c1cca27690dc6659df4970e2378c0f67091d78a519695022deaf494066f05ae1f569d7986),
  (0x194e7ef5f045a6b76a634f8ad2adc85bd1785693b95c6a6cb130b52b76ca4abad6647a4cc0d13f543398863dab2050b, 0x14c4294a30d86e6db5f264907930c2dc9d5880331fc1e31d9d79088e2cc38532cde31a5a8492f2c9218bb520fa6049e),
  (0x18f370a6abefa11ae63c6c7d0cb46dbb7deb0599cca3ab7a5b6b6d100e4b788d5edafdb036b4fb620081bada3f5e252, 0xc0dde795f10f6d1162e5cacc93893c45cdf9347464efd1ca896f6e2c9b085684bb1f89008ce787958f648deb758eb4),
  (0x14f5afe04c77e8c72d4ac98c31d48cb251dd47d8c0e114ed1351bbd573a8535a1d68e6cd13ada895204e413b10ce4a8, 0x4dc8f3c9bc382b5362bc29199381b06a92f15f68055a0a02f7645298d94f4be9ea92366535001d819484a244a7076e),
  (0x7b397a645c4d47af01a5df97a04f35d4a6a43eb87abd33d42fac3b313b054b5c7750d4fa0611ea47784a3fde33c029, 0x16bb735a70e4514db4ab709ef6c87d6762d855b988f566af3afe94875e06bb167f38660c280007816f33110b34db947),
  (0x2b09bb5f8be554b8c921894b9e17198d96cfeaa5be55acaadca57565c39c561004380e02e20df2a5f5c109ae914e10, 0x8e2dbba2cae6fe7b9f51e28eec3aa1276a4f9b0a44b8a4e0ff8e34e8a3b5b86d58baf517178dd3fb914225846d7ef),
  (0x17ce59140ec50fed2116848ef61e3140bd2ad17d8cc86a2ac07dc03ed505c6eb4cc7d982bc071cde9ea3de34484d31f, 0x25bc41240ffcdd98661508ab76ad82990bec9906fb09b9ff88231d7da0b2f6019ded27576903d8f002dc3e356d62ee),
  (0x4eaea11b40de55f6f00294f592b176aeb3854c69e76a1eb9ec5b89950cc3b7b07afcb2e9078be5dd2a8fae1f70d16b, 0xa129dd0771c992859c7f89391450d5ce25ba2d3216ea452f22900371fc25750641ef3dcecd65c517790081b1706659),
  (0x370e2c309a2cfa44093e97d2ad27b965873e6050804daa8334b8715c7d0efc2ea4f8e0c2af0f62a13a08c3b56cc70f, 0x17df2e2bcd4de37b29f129ffacce2fb450f9deb0aebaf213a2e9e7418ec513209b2dbd8a2e5f23b60656c98c53c78ce),
  (0xa449503d2c09b695046305ccb26eeb7b942ef257fb15c29abc6de8c2a79f22a836d6626614e38d4b099f405b6304e6, 0xc3ce7c330e54600a3d5934c0610953e0cf4e29214f8f9b14747b490eddfd11a4fe557f5a3d7e7334fee6766c933722),
  (0x16627ede5675763d0ac0982c2d0b73320702fe77706ca06329508636922af72cfc616e36099eeb2a8ab4254911cf41a, 0x55ce41276670140f74785c34be2805403a4432db51d891f73fceaa87c9123b7a987deff8073d3c4c6568c7daad0e62),
  (0x9625a6d46135d743c6098c8a717a9a71ee2ca9b9fb1b6a9e3a7a672f4fdbea59ad2811406349b1a493f73791354590, 0x1aa16cf4685d41f8be4716fb1134ac158b84209800336fae3a0ecfada24d2857b018bcc0d0adb323792d88b2729454c),
  (0xb7b5e856ed532a51611d894c8cd3ea0e0a30dad9d79687e9ac492a0060f7df6272930144f39eba0cf74bec9b76fecc, 0x5f133ca149c5ecfecd9ae8277c91136382783c70cfd46980d7a2c8a9e4a62ae255be544562267e1a493f18bea639ef),
  (0x4c5e5f7add8f537203211b42e94d83e98f7c34d2ab5a6c242bd616b45640cd5a0cf764f78ecf80963f1ddce4f0be43, 0x16c27eccd96c1b1856f120780565b90bf7f2d67d950418b41746721ccb53f3d4dcb0fd3033c141300eea7b202fc123a),
  (0x89c170d583f727fa5fed46ea15c4160797695d8cb1fbdb9ebd27c451626d5482a66208079ea096742119e2838cc9bc, 0x4de4bf5bd84fab6f983a5394117e74d7e50ddf431947c1e9080e7c2309d56c5510a964d4d9d72e7ef5ee691190e3d2),
  (0xb16bb7cc7544cb286ec548c86d83c6e264dc516aab0f0681c3cd745c7d2c7fd9a0977e6fad3e38dc7114d7d5ac96e0, 0x7b54ba4435a95b5d44e624700d4ad37256ecf80a69162b2c5ec7934aef3e2a863a36394f4e0c6122b389e8c2e53a87),
  (0x47a5ebf60833d03bda66025909325c5d8de2046ab03ef118bad2c0fe756b0c3075b8e1a1880b63e811add0581164ef, 0x4a3c0cf5b60e0074509832951496f013e6c5f3f5e06e1963709da38fbd1531bd046b2589392679a394f113e782b4fa),
  (0x3b46729596689fc53c0e5376c0d5e1e565d397701b9e117eee66f558fa74d35ce7b785266bb71fea8b81af33d83565, 0x18aac6d6a63d8a31737c6eb9404a4e2f7041375a4d2d176ca9d06b0ae0db5a4ef0bc8dff2751dc82f94a6207e1b6147),
  (0x121e4d6119c2ea5c5ce00a2c817f6d448f162c1704d6b0d8a8693d0a43228bd600649100680c22b73798601dbd59cab, 0x9e44d8fa22e75d003fefcd3082cfdcef7172afab542dd2a0df421596393a317727f12c2092c24dea6d1245d68d5517),
  (0x18f4cdffbd224952fccc4ae9a8a9193df041181a3a9625bea862b746668b930de6400d3357222055c39e408c7e0bf28, 0x14c95be821cfa826bebf9337614385e99d9c45c79e7503824d04f49c0c10794664b29de83220b95424d8259a074d8b1),
  (0x4c9cc69a4d5e95ded0b75c96c2fa92eb51f239137c95d29332a7f31249b985390a7db3340e117c001f5af26a516b7d, 0x2eaf0f4109f35f33ccbcee18877351821e89089237d3c1d57f90487be1398a1c29204ffadf2ca92a7a0ca0fdcc8ed6),
  (0x8c3ea46636de983210c6ad98db01ce510cfc3427fbffb29feac13b13b8746fe2ee075f4eba89624f386b3b6ea0e9fe, 0x620cee87d48f16e7bbb218c699c080afdb1bf2de53f95cc4204d2ccad7ed7b52ecd90e46e33a18438282cd239c3b91),
  (0xada631f5bc4c996f51bb8fa53f0c759a0551d23ce80a699e71fe983117a63279b72245213cfcee1ccacc5fd00fa850, 0x7d5c38dc19ff42060bb52a01d019ae7a05293f5d10a6ae65829b9c06f3eeb0c9e6ea89535f6ee77eeae80890173ecb),
  (0x10484324ce458550cc1dc3edf70ce2ad7129c9102d33019b067db6f95e4aa63a34fac2ac1f508dd1e30cedd7d8d265, 0x1a6fbb122d8943a6b3f846cd2c8fa9f12fa0411ca6f219f0672e632abdebcbcbc977a7de63b582b7d3fc9aeeb34fbef),
  (0xb24d14bbee2ede0daeb0a13fbcfe834bc1aa581a2ab5599b1e6f5ad72b0f06f8e5db5bd7a623d55162829acae96ea0, 0x15d246faebe41f5af9f07a9b19f1818b027aed03ec9c5510c53acc572f84a2a4ad3c97f1c3b1dd26ba03d405d933cc6),
  (0x172c6e7fddcb14ed0c667c10b829709de13b2b95278255d95e2eb8df91792eae7f07bbcb446bf53c5742c64fab79093, 0x1232e9f5941eed0ec8c7769466ad61b9d6325f639eb3864c3c0e7bd5579b1181ce204fe98bb575c6b71866b9f39a840),
  (0x5b054a30e27ca27cc51806fa461a48b120bad4a3ec452363f603da422fc47af433c510aa664eab27a62d3a013d8382, 0xbe608dc6f8f55aff3853d6d44ff436f9f9983e3f862faa7f7a27e4336812bb81ef6faa081d50ccc8fde2c397d22e88),
  (0xc1dabaf95bf2148a0adcac516203e80fa06c0f1151ed39eaaf5c6437650ad6992ee3901a1a27ba5d39e7df991abb75, 0x8e04867667393681e5d3989b8f5bdcbfe2ef0d1a4363f9e3042359d8dbe54bacf356a0e354077d614c4b983660d259),
  (0x525d2f271678c49e24227d7738ef769fc5f33ffa0092505209bc4c6f6b21c9b9e66623dbb6d0a7c7fb45d6e9a9a748, 0x128c4017608e9c39281be2dcf65227c4b31cb029d1fb3481476e1de1a143ccecc1a54da925b9022fc3c18dde22d4745),
  (0x1ada715677cb03718f2aec2c01c40c58cad02d45fe261f6f4df5f5412dae2f8dcb14d02a019f9db6919bda3dffb03de, 0x11a2f95597dd4fb0ff4b330b69c3b4e6ba1dc0ec09420a1175c9e6bc3a1c00f724f7aa9744b4d9783eb423db1221ef3),
  (0xda1ecc700b1d863f90f3170107813473daaf9b4901d9088fe75c8fa0e50890fc12fe5201215c88e90833382d0b28d8, 0x2ed24f0436001f3837367d5dc43f38b6f0f5ea58a78268bcc5b836de99485084f037a00c31f2bb9be224232dfb8dc3),
  (0x18862976ea30ccf6920c747d9120aba88624df536b32b641c7b8d3fc6fe3b6208d49f62ae0805404e3d9d2c9eeb9a49, 0x6e78505e1fba2c45060dee5a46c6787e6ed58ae347e67cf00dbee291913789cc24299be3ccf0cde65cf839f5ba2174),
  (0x18c25981377252db92648249c76d7f8df66edf835f39890f3b6c5656f3a98ad7df4d49c70ccec1c20ea71d4faa9b85c, 0x5453d484cd7c524ce49d9e3e45425d6dd0cc50c54f5168d41635af0d881a14dc67c0b2a8c2f4afc58aa5ecb2aae058),
  (0x47b2827ba414ba2784a33f33d725cb2452ae6e43be6058e3d7baa587a9e8e421a12d148e8e42ce5939d822ecf55f02, 0xcb876fde4342ca3638187f556ccc6d900c40283849c223d06f083063b53501fb7777cfa38ebde6e249edfe04ee144c),
  (0xf06b705028af116a8ea8efe20caaec332b2a56b8cd1686a54b28243615e6098633e17692e32b044a2b6994a6c8874c, 0x68f37056e3c5c632d509e314849f5b818eedd0b41f7281a735099c0b87b28ed15c4df9ad7b8395bb9988d503aa2131),
  (0xe31f431ad0d2b4948afe917aec1d329268eefcd5f688f15d3b4d591d0a050e32e87880f74dd4ebc15a6ace017f445e, 0xd83d4fd8561d61000cac3f34286184d44b67cc271495715db540c08e2494920ce9d8c0d42468ef5fce5061516f0127),
  (0x1931852836e953668750604ff651a0a75df9264a45a5b18047bf5e55b7997013ef4903f25eb5025579759b787906da, 0xd28c492d0574193356ccf547ae42722058b9652c25bd0831e2161f5eb9b747e1a1572c069943bbd7b1b1ac2d20bf5e),
  (0x117e3c8e06d60628fbba544969929d86a500f7f86cec6a45bd110a618f8ff16580711049411e664ea989dd16e568064, 0x5b659424b5aa7a66336557b67c4dec03415299d2a8950d308ca5f77935bd55a73cba1e96bfb3d9989f5056e62f109d),
  (0xe446fcd0b3767e07dbf8d4dc0c89ee1f6f99ed13ab49979df93f4ed52bbbfeba83f4577304c2c0f0d8d3448a2d20b8, 0x6ac1476c9aab3e24f09ad3f0e5af480cac1b655ffdf5d7054c262ec55dd36eab5171394260924a2990fe929763cae2),
  (0x158f92d103e40d8352e2eb7e2e4e562e78ce19a5bf207559aebc91a09d58a360f944a1165f53e91d7026336bc73ab09, 0xb6b4b7385eb0ca3c8ed016695c2c201ca6be52f184d2f4da5b005853ad0f7085a144bc81ff3920738642de79918069),
  (0x167a22c87a1d638eadb55694f409d1fb4381a2375da6138004c278256bab579300f6a6adaa8dbdb47f4611d83223775, 0x146647827aec082bb91cfb03c3d3dc7bbd63b8621078f71a98f4149f438d2bca0bfb24eda80537827ef1c41f4d21f1d),
  (0x10cb913a89d4daf611d3ffdc62055e89b70ee178ee717c6b822ec71ebb3c7148a5ecebedb571e04276c926618151cd1, 0x1289c3303c786ee095193ee4a7feb9de087cdd21ddd5264900e95025a2d6445b280d6eeb289a25a5495537f0bdd8c0),
  (0xc3d8a174ced7fc0e7f38f9e820e81e4d856ed057581bc1629ab42cf927a92ad400379305978220905b9910a95b2a9a, 0x133608ddd08935a9afd44fabb527b554f97b8fdf454e557117eed5e5687c6d04dde6ba1e231be8cab604dac399a8b68),
  (0xcdce4c59e20f483a5e144aefe9a9595fdd1eb8773f2390c0a6eb1ec27325e4fa4f342bfa955f37366879191f00b961, 0x5e996dfe8248796cb29d763f84310b16225d0efa845d8e7c7986eb745dc8e01da0dcc2da6a2fba482cee6180df2399),
  (0x178ae9f5b152ac1df46ff9f549b4636e18847c892a1df8b15e69521076d26645e256c0b6b9b60630ce9b76b3c91db94, 0xfc10e4169d669af7270053168d2121b7ecb53daedd6670c2de5e72bd0c36daa9f66a2e4238f6e803377f8edc25bf2c),
  (0x1590adfd9052f0077c8450e1a509940cf7a5556632747ce5a125b5baa5ca26ee7be835f7cdf0efc6d6b16c47bf1b5ad, 0x18656a3df5616eef19a2c03fb7eef0761e568df44ffb23a984e356ba3097375d5323bb2ac1182115a7da8bf85e21479),
  (0x280090b5a75e4623959118ac1084828422c988ef764155b0f7948ca051dcd4fef7047667b7756cac486cc1ffb95602, 0x13935c05b4a247802cce94432ef7c30583e51aeea592b67d11bfc3b58a7efe05dd63e8f3751b592569dec475f20cddc),
  (0x1ad7bacb98c4396d32ee5dad8d6adabcef9c6dd8471cd7c6d9a64f6345b8100433155c9d95f21ed1e566ac3c7ee8eb2, 0xd807916ca1520a79b4b7603b27a42e9dab26d88532da04aad870ffc7c96767d621134acb4873719365bbda50521de9),
  (0x530f140fd0ae0ed6554fae3c0d208d801c74700626a0d91912c4ecc3d4c2404fbb8c258a1805be7d428f69eba15f97, 0x1536d816887a4d5c618e2aea08129778c49ba350a68b1a9b4230ded7636840bbab4d3fa2af65094f0ef22fc2b7966a2),
  (0x2962b2546933ab43b00861988a8ba3e95352a16245c8ebdcd88e51bcae82883561e89649401bae183dcde27cd92913, 0x18a9e0da3a34f62116fba11a734a52b304734a6e24f4d01b667f08ed46aeb31b67eb525b3db30fed4c133a98aa7ac6e),
  (0x1e9703e574aea18632a9a278eb49d8789b6abb0ca92d14f171a6ca3673f2308f4eaa435a7b9a10ad4fcbf6ba044952, 0x19c88da9c25951b2104f448f73b4bacc6c3ed88040b01cca6ba4e74fe2a0230aca2aa49bfbbb37a2e41d678018fd1e),
  (0x17a1c44233f1a2aa1a04fd4063275bb04035fbf32f3c1fbcc6d2360d6cce8329e4ce994263da546beb67d28393ac16f, 0x6ca12daf7e4ac86eeef08160b9cc52d70f677f71ad4d105b6a3262d5423a1b61fde62e3422b766f2b9e6d17079578),
  (0x94da51694a25b08d56f42d063c62a374a25cb21cd6842c33d40e92ac028af76b5cf89db68783440d2fb573207059d3, 0x8ce10671abf8edd8a64e3010874f628cc1796f125b3e5c94db12aa8a33b1339d083b93d3aba53df50c5b46bc050f92),
  (0xb2a035d7d72c6652d95d759883b79030720c456cb2353f0299db3dcfc0a7afc6c7c6c88a99b8cc9ee7fc6e12d0152c, 0x16f307e04616841d4c491b8ad6749db1abd8e388aa61f5192982b26dbffd3efa889e5795a75db3eddd58948d997aa20),
  (0x1a517a1b41bd08197e5950cc155c9c76b52bea610406ec8a03ee91792f9518f90837e85bfd588fdb641bdc01ffdbc95, 0x7a62885bba6257a6aef11693c2fcffc8b97fb9f82f2c351baffb2e6cf781bdd3223369157d3be586f8d2e530616501),
  (0x11a2878bcc9316bb1e65606cebfdeaf88abb3e645c58697988797dcdd0e1197b0198058e021cb38d7138cc86ea90709, 0xf36d92d58b773918d381030c7aad624b1129b1a65a93414e9b4956a3d9b26be898c486d730e734addd15fe5f0bbc52),
  (0x19fbddad887b7c63ba3f4cfb0f7e67e8ed51a1367bd514cb8e992eb0f2c812c7dc7d05514426f8ec103b54f366ddc97, 0x3af41de48e127243a951d8d8990c7f1ea56775571a605ed80ff6c3c5ed144e364bc5d16860d80b946315356379c787),
  (0x110a8b74efd56eefc4bb3a48df8eb80f9b8eea89b4ebc6f40c43fdfa6352151ae0a74f906c752edcb1d66e6e467d787, 0x6ae5af43ede1b09281d5e13d8dead2724aeb43f3a7a9d705c6207080c5a37fd7bcefc43148def4979cebb4fb9522e7),
  (0x26ddb9310ef67d00557f6339ef4a35d265c07ad2d2cc4e95dff9315a9c9a909f732a422a0d6df8cf8733e80084b399, 0x11c1e3dda7a5eb30220adc31a27abc393a204e595e5ad0d59ce2b26ae7fc4a4e8cccaa6cb725df15df41096045992c5),
  (0xd87deb0ed9ae754861ef72d27240c7c68667586172d820fa73534e8bb3b51734ff94a74e6ff9c17770032d1ceb2fd8, 0x8d1037b403e8cc189e27645a9af259b0f29e798df1c3135004e4058f9dcac72b8e2c951e007f670b5f985340ba3ddd),
  (0x10c59f71e7164bd31039ccc4ba4b57fa8b66e7858782ef2a11da1f1f33efee91e6ee043149e6377a3c7b8f21f9612ee, 0x1649f8b2597f57f4ee7a9e8273b61ab5a9756c1aaf218ca05bcc03ec10e98b6f2e642877e9073b97be66c280fbc54e7),
  (0x1a83ce81e5c18fbf3f025056caaf8d6c09997436e515b33689b7b8bc658d2f32b8e96a2c7dabaa36fa6a2fdc98adfbb, 0x12312e87bd08233dd9ef07d93128245b3a2aa4e29055b6be31aef81e17e8c2ce35a2ebd3ea3443243f6148b91320d86),
  (0x474b96ae5366925298b120f4b829534254dad5269848fb51bffdc1aadba161f666b2ee234d43f03f8538ea65039bd7, 0xfe61c9c05943253322b1f8bdda8418879f2e2e1d775333068cfabda6abb016d29ecf92bd1dd037ba803a23cb4506aa),
  (0xc03cf8570752049a1fb11fd6966f9d8969e37efa857065b2adc5d96cf11a351e12ae3a69a5fa5b4d14ed7fc1c04593, 0xc0a6bbaf40e4eb03311a11850cbfffa08b6768638f295662f0ed91f177c823c042cf43fb44d0f884f34c45566537c9),
  (0x196272c7ff894e627fc6f18f4dab5295cc250202f8befd542674ff4ffff277780354f7e89b555314cbdaaeaa7515e6, 0x2bf1656cbdd2bdf5384ad3d2cca8294a674f4491b94d42bc6c8d4ac8ea8c5b1ca8d27266313dbc22c5bf5d75fbba45),
  (0xcd85edad9e867dde5e2ed9263bbf66344e4e70c42c5d576d7e052883cc20d8a399d6033693106c9e1eacea7312ce76, 0xaca5cf7ff632dd38e153e810961bcc31012a7db9f4a7ce76820e42604726c01377e9855094ff04bddfa87125194a81)]

theorem crhBases1 {seed : Bytes} (hs : seed.length = 32) (h : (chunks 4 seed).map leValue = crhKey)
    {sqrt : Fq → Option Fq} (hsq : SqrtSpec sqrt) :
    sampleBases sqrt (chachaWord seed) 11 70 2165 = some (crhPoints1.map castPair, 4613) ∧
      ∀ p ∈ crhPoints1, ED_COFACTOR • edOfXY (castPair p) ≠ 0 :=
  evalBases_chacha hs h hsq (fuel := 11) crhCerts1 crhPoints1 (n := 154) (c := 135) (d := 5) (k := 11)
    (by norm_num) (by decide +kernel)

def crhCerts2 : List (List (Option ℕ)) := [
  [some 0xe515330b152600c6a607a3e36fbc31f98174c2218447e84981e6dd268a0e0065737f5defed9948d1965fc14f12e55b, some 0x7ac0861f9fda0a12adc4b6547baa9caf03041c0733e61fc698523a5bde1f1cebe18902e86053025b474d70d415b259],
  [none, none, some 0x2e643cfd982a1fc0374d8be03bf885c80316cb5324850becf4aff7904f1469eb99d97fe1ed79a3c6897f63d878b682],
  [some 0x1a7b0007d50cf818045b0fdd13ba4e00e9c6504b86ddbfc92efd39b38b6494cae1421b500ddc1a967164d49b0e558cc],
  [some 0x78f2d45285365140485ac9f84f882eaeb75b2bb2e6986effc8863178318012b75d4bc3ccc873acf3d82a819e2c4398],
  [some 0xbf28a02dc416f962f9b6617596471e0e19c154dd59055655f247541aa4a7767bd9caaea1e33be21da24582e1ca0f6f],
  [some 0xd5f1008df657ab8d733afc3d0c7f266c0f1448def399942cf95db8252d744d250db878a5b5c2c226a630ff92330fa3],
  [some 0x18a1566cceafe17a8fb6189143808a832c183383b118c08bc58b122c8fb6aaf8c103b16f52d1764bca73c054b09931e, none, none, some 0x10e4ec8ef59dffcea1615f342a7f11df9d25a7824091aaedf803037eb1b98a1131405ed251c51ccfbc3dbb36e253403],
  [some 0x101d4cc44641181ff2704cfa40c324de4da813fb89df3f7f63087c64ed6b3a2764d3d7c5dea67b8c66fad603cf8f4dd],
  [none, some 0x108880a890fd943371f4c47ceb8bc6704d35c129b95b4413c85c708d75ff159e4bb294b9217fcc5b1d9b4a03d538ac4],
  [some 0xc4b6e48276f057f0f931d3d378c36c48f5a8cbbf211551a4c06b41f4e5abccd9a7872551d20e6d6a0547e79b353b88],
  [some 0x10dc25d5465f7350de29e9bd1ca74ab0db1258d703681191d5e429b1fbb814800692f909be5b614feba0d0a938e03],
  [some 0x1a17caa30b1f092d382c850524884f6a0e6800ac48fc7762e975bc3b83957d3709c4af47e358f56f2b856973f481141],
  [some 0x18b33818d7935f8b1d3c58dd77612b990d9677376a14e8c17a8350d277e5a3ea76c9a6afe22905ec0cae1e8d469cbfa],
  [some 0x17be840d90b53b83e850452d9cbe64a0f77ea93e06f2b0d4860bc00d422d04ad3b550f2e3fd9647040a949b3f6d0e0c, some 0x7378dc0f12e012a049a9a93296360e8a7364e65630917539897819b4c8a377447b89f62bde3b7ecd1988cbe33fa918, some 0x18e6566313f018d0fab47d1c479b92025d9fcd7dd1218915ba82b4540f86f943fe36a0ebadacdd442db5d48833ccbe, some 0x128e2c0741c8d6e5b83116e6fca235eaea3f608448003fadebbca32beff8814ebac86eac456efa18584424d1ad7c19b],
  [some 0x3e0503f9ad6a521987aad3003a2de63d699955148524f970ce78cdf87ec9d452b9e309edaf01f72bd4f3036580aea2],
  [some 0x6c948f9661c6851e2a3ef385a8e63f9321086f840332a69e491f087a1014369afe8fe1cf4c69f44c7accae9d204fe7],
  [some 0x9d91aa52f0d2aa04de0c9b20c4caec0dfec863e1b927491f1b35ccaa1deb4b30e74476ddd78310970af19aa0587f1, some 0x13ce208584a97ea6445486c8c5dd60be469172f40ca2c931f77b1a7496c5300c6091d78564d98a19531d1aa9c722a6a, some 0x16feedce583b85afc690ca026d21c75421b51e1f5bc5242bea4b4a6333b88fa800adb4a09438be2a9aea7e9872e7823],
  [some 0x14d92e440d60dd4608a5286c214bdd1644d4eab9669768fd0799bc4f51f7f740212996db9dec0d3716725f8225e479d],
  [some 0x10d39d05c47a49d79c1267280230ff113909c8b3a5f873f0c02c65a1a955bca944db36b6e363830d5fcd1b3dba94c65, none, none, some 0x1253028cf972a63a5ddd46a967935277af1dda085ba8a75428bfa9267ad68a843c806f6c5d42397918a1200f07aacc],
  [none, some 0x13d2bde8dbe6b3aa0452f1f6539f8a4ecf5b202377e183b31292b66f5d604c5b9fcac14e6e0936d8515cf39e77fa69a],
  [some 0x12b5c96ea625afb848733148e8bbe8a7f3c26d81861d102557fab30911cf0818da85598443041efc00ba7c6960767ad, none, some 0xafc68469f4869226d090b0ee91e2775f663f1628607a13652b93568b39ea89b20d58488d4c079541157a088409a282, some 0xaaed18f6e5c8f595528d3dba72c1a29b0188bcbfacb47b3708eac38c75231584dac2088355042bcda42e8c10ec0c4c],
  [none, some 0x892291ef9cfa434d24aeebcb1cc5d6ddc4dd6dad1287d4bf13e5e1cb1ddd4e2a6d0122a7a03c0b9f312f62a4af2af4, some 0x1075e747a922aaf98b8ce6c709b11d4ca536fda6c6844dfbb06237419bfabd405ff4fc82d1d3a632b7e95c0c1aa42e, some 0x14e6eb2e93ff05937fe5cb4640725444a146601c269fa8f06a20996bf7ba326bc0a3946b5b7c5212c9efd63b686f130],
  [some 0x16676bc8b967d467969c7bc44c008d53bbb1eb3f9000e5791e38d29d0f19cc9f72095e01ffb9474a1846647e4419b93, some 0x6d92f059e760772d63969ee93d16214cd40aea15bca197c0a9e8ea3f7a130222762d870c9f95ac53801e64c297057d, some 0xaf11205ce6adf8c382aed5cdd6abb80e724fcaaf2f4da7706e6d241c476620712c9b1c74f0a74fcde5439882a1323c, some 0xac0772ef8bd4a7a5278c394dc4397ca1110b4f67981e8b4f97d1bf26b0b66cd67c931f228faf7e696c7b76cfcb8daa],
  [none, some 0x266f9cd18ad2ed68a95aa9a2827af74be860e8798ee1ef4fd097a4b44af45c2b9b77bade458ad10475f2f88586e384, some 0x1a443e6cdb601834cd1b4fe867b9908e5d28d2b7db37e262f72f2f119ab41419c1f20a4e4f873ea9c81e4d1d9e93dd1, some 0x37adc8f56f14249083de67eff760b585a250ae88c3c731aefb1c3f30f731bb506fd0edb429c5098a77f6ec013523af, none, some 0x15e65c9f282ea53212390c4b0036ad447c11f239506778d8cc9e575deffd6f47efb23dc743b8e2af9e5f957500a4649, some 0x73019eb8dd0cfd31fc0ae335d05661da0c185bc1f83bb149bfb0d2ed11490dce1759ab4921994c32b9fc07a89dc1b6],
  [some 0x4833be0c2556f52a3383f39ec8e05d1dbba991dc2b0a19a4ad5252d6f4684486512d97b80e38cd6319836ae469fa9f, some 0xe66321a8c69d680d32dc91480602cd1acef5279be41f33b83af3d6b1036e878069db2f6df0906ed98ba3ce87b270a2, some 0x512d1cc1b14e884424586ba80ea71207a8f82709f61e24c6ff7259fe6f83abf80ffce2998deefa8ed498cd457596f3, some 0x18b01f74df92b07e1f7d7c539cef256a0a91a928f4d5eb219cdb74900a090d620db73a359738579f8a99bbc4ca79e6f, none, some 0x14ba468a243a4eb9aad1a164f6df20b4eaa93f17293cedda4e18c2a80eb129f0905ce5a294a191352a38e95a28e6d05, some 0xddd4ac39e14a9161b5bc9974d8aadc04cf48b4681ccc18dcd13aeaf0831bfd720d47ceb721729ecfbe8091b6ca005e, some 0xfafe4928501f2240b77dc97fd75cae32c38d5666c949de2b7eb23f40164c6d03dd62b5ba49547d832a4d9f905536a],
  [some 0x17bee4dcc416591b6b746cad9e2feaac3e49451c5b771f63b8a2a4fc9d74ee0d621449fd1afa86f58c3f7abd0ec7239, some 0x1125afa2d0d1af99a3478714b865541adcee20184099b922e6ed72dbc6890bf6f83f5409ee47369e08aa4be2973755f],
  [none, some 0x7ed15328816bcb0f44a21f39f16b92519d6598addca0771f59426d944c45fae0db0661c71d17a24246f03d9276ef0b, some 0x16cd78679f85498e593812887032f4a41923bf8a0c363d9cf45f411c05ded795db59fe6ae6803cf0358c16b57eae16, some 0x43501f43adfedb33cc42f79ca92d44f53bfb3efd541f2d3537468855197509fe5854d0bdafc40f2302a3643616adb5],
  [some 0x344b8d8a4883ecca7119aa1af10242e106fbdfc1c917cce1dddde3c102d6d8a28babc60c6d467b49e6a38bae8063fb],
  [some 0x10898822419fb725b27b27f513e7e1fab987df16a89b6356738e253b3150f88f85e41ffbb9dd18a132e08a5113a9b8f, none, some 0xc160b2163c3ac45e2f4110af99e9d4cf4ac7434f2b867816b3f3d6eedfda466cf0f7e96a029c08ba48554e767be3d5, some 0x7bdee8e88e08212900d103566e198762d36036f556a61a398bb62ee9aed73034ab5aacfcb12d2cd799e2e0a2ba1c61],
  [none, some 0x7c3b8bd8b54c87388420f16cd45c695097f13390286881016e2c7e9ceb075fa12ad5f675e6b8da1eca38df5a14c3e6],
  [some 0x128a0b8b1c6255659841f1b031bf3be51aa48de6c1389dd64b2deacc7a21e063f2663e2812c0dcaff4f2f5704bc73e4],
  [some 0x4cd8f9af540d69054f1b88d8ac71297e50c2acc39422aab6b35e6ce2c3ab2c828b0f0c1a1c2f85591e2e8dca5448a4, some 0x11b0b47e37b17353382067e1189021763c996c08c0a6f6fd8e9c230d2fb2768c41f13a153b2e953bdc1413706749399, some 0x1949c0abfca2aff64188cb4858553c11adb5888323bcd6b764a13dc57d330125995a1edae00b74e373dc38f60e30863, some 0x89d42167e03d396409a7768f67ff2d6a5c3806e5ae3b9aefce7ebbd7acb4b151b847706cb67fdc28c1f04285b1c308],
  [some 0x1ab11dbc0032c168e39ff0d817598ac9a7367c8f50a30c06d1df2445efd09da889d5f32b6a7df99e21a9e33b55a5d8a],
  [some 0x165aa556b83d88d8fa5a8f18a3543411d5789885c5cebd1030a192b466605a6bb8c4d4932f836e668a0fecb232da5b4, some 0x7cae6dcc73ed59054b95f7494898f3727cb4240301e060760dc32153550bf00866d51a2af236ae0f608201ddd62ab8],
  [none, some 0x10350e1d44cfd601b569b9aeb29f18259ef8301ae81f01c61d71a7e26a6cc85224cb05a6784c9d6db2cbc3ceb80b099],
  [some 0xa36bce5b552d20094194d1ca4e1e939bf02edead359cc692eb24fb673204136dd4196d6d1a7b6bf5193957bdc91078, none, some 0xafa8a67fc46a609cc4ddd708ac889c35e9516f29406df24ee8ab1d41db4f0e918145b5bcdb9340475e6e87d04b16db],
  [some 0xfec8359f161016753519571548d326bb21f80cfc2510a82a86c568e8f659af98478efd2e58fae1c494bd97f53a70cb, some 0x1ffb1571f16dd01dfcea9310466116ce9b6a0c13e30b04d6f1afe6c8c28696ab414362b8c9810f4716d6ac45e1ab21, some 0xf10f677868d1067d02ab6208fdfc1592e924e9f0b94579b9c2d7ddaf0559e27093758babfccbb930ab3afc9167a486, some 0x9243dbdb348f0d3e3600cee690be4616a5650bda23953e80c170eee27e8833a2ac0f32995e4c3104fbaa44c5e15f1e, some 0x14477a36f8d6598bd8c24fdac6ccd4c33325cfe563b8d8948eba201a1cec0e6a383f2ee07d33ed6329e24b0a1239647],
  [some 0xa668b4f3bca04f7244d3ec7725085c3dc8cd7a86230255f991e1d086abe1f2395aa1ac6d83ee265ca14351348298de, some 0x6493dded9efcaac93ab831d151af402a1a34e19d27d58b22d4a83a281dddaf776f6d8ae494cc2c70303dd7dc2a5c20],
  [none, some 0xc20d3d8e561dca532a6259b59970b92b3a31e0b91f58343d6f2c0a4533eb6c1e61f3042a964fc6c4d8d2ea5f57964c, some 0x15239d8f423f8366e85db9a7522643e1fc4d47f43c24a5ee32087922707345eda30df8af7aace607c89d71c674eb04c, some 0x17e2baf5dc8f44cc3b123b90c79d937c455204adbdd3117a6cb5c81f05a5bf2afac2402da0041da6b648bcb6e3af7a8],
  [some 0x16a1ec857f1bb0cde5742a2b8015dfd2e30eaf975cf059eeb9affe3bc4a5bdd38b80ad6bd878e37c2333b205d378bc4, some 0x7fa1124a427139bd7a9c0840b32201dac9af4168b49b55b98354e72813160e69e897d61864538111581311acf92e],
  [some 0x162e099f369c5ab8d0995efc253b624a28f7a6ac723ca1fc90cc237fbd3f3146d84223ad8ff1712b1c3781b13b7397b, some 0x8c084a1bbad3920affd5d943bddc306ae4d043f5a53a4939d18a7d2a7c0396892116c42b3440c14a2a91ee5152675c],
  [some 0x1564a25f79f8f07d30f7be358f3d783e5e1a4bf09e03e9492b0efeb2620250121fcf785218db6b9df1e5b0e0f5f94b2, some 0xd8602315fb3f41f7e4883fbab3be2b3ec511fa502b202fa9e8860e4c5980705ca4e6364d35b97b0c6bc621129465de, some 0x788ddd1b734dca42dd777dce92848b3b61f9b43400f564ae3126dc236f40c315e3e10a2a0bc5e3b8cb5f25929a3634],
  [some 0x15028a17754d3d0e131368d85842755af8dc59a4bba9569e0f86ef493fb10af7190a02821700a9486f6507d019c770c],
  [some 0x2672cdd7a5c5e8cf0ea1855e0fb41f77d32766e1c1354237a6e74d4517ce159879eb68f399b6d822308759768f90d1, some 0x165a19593ae52fd8298dbdb64f4ae7cc6e1b37141e8c709e1e7afda01a2ec6050bf38723db8446ee026e2434b52732d, some 0x15ed7ac352fa1c1544cee4fe75672fb6c799d47b2c9ed282de0d0d54c2e963899064f8423e2588d2676d947ef0a3606],
  [some 0x10f537599328741060af9c9b1e889197eab3df3a4ac6c6dafcd030d1ed79358847c2c3106386edb82bb0770d5a70485],
  [some 0x187881f50e1ece6f267afaf572bf3694f665447d5a732e4267b9dbbd68c218e2736c1c576ca87580bf59c98d6b678e0],
  [some 0x154e21561ad7524660fe8215cb22411214d68fa71203c94258e207d68040d9b43f226f2481a836b629c9a1b66b6963, some 0x1a42249e25b1db3a2f4a3d42990fb1c5d08224433f839e63f7cb7c3fcc1f44439d38d0dc7eff571232c62ee9e64de11],
  [some 0xe5aa9c1258700ecac64f5be2f9c82a89af6ef738ffc53e288405350bf37862cf0f0c6fea415cf7b85abd8d91c2c1ac],
  [some 0x9d636089dcd45bdc38e114ff71c3b43ccc66d94c145e08b2992b289f824fb199e64520f61cdd4690b54f8c253efee, some 0xbfa4792fb0ea5d0a08c2189717f7557fa535be4fe5815d4f17603924c0a6cbe33f49cf97208a5d1afffa073739ab31, none, none, some 0x7588ff1b9121c82eced76dd0f0801bfd73a324b671498f6cedd9e44b2e0a60c81a0ac1f530b4dcfe9ac7106774aa64, some 0xfb810d455ae898d1ebfc6e27e7b1f6d0e23eef3e04f3336c03831afb99d06d1c8b03148a3d856b9dadddadbc44b9],
  [none, some 0xdc52fe511a1af7f72490e55e331a50319f69140f73bb74d136a2037c7cca9e491da5dabf082ce7203d7317fa58cdc3],
  [some 0x594d942699267fc6f12b9abd1967ff60cc9b80e884e2dd5327f51ddc9e3f3ab6905e32477e66ce47c6a8e5df67e2cc, none, none, none, some 0x297f4d580e2a7e03dd024d9b3b18b4ab8b80d4be9e898c55d3e6ea7104b2d54379d4ece0270e70ef7b111d6ae5c72],
  [some 0x32d95c77410c6a21c80831b1dd75f96b6193f4b44604ff886298ff7a9b828b2d904e8a7069a94dded276617ae3ac46],
  [some 0xf5b323f02a27d4d9259910575887416ea2bfd647f366e9b2909a07b915d00e60ee6d97a8f90ad8ee2d26b0bf158f63],
  [some 0x13c7ade6bef83dffeb8e5774214b6aaefe53c272ab41161f2cbe7304ec7f11dba2a8e09173a80d3e0b52b39ac808c6],
  [some 0x11f7426af099be69333b4a6c8e2fc2903218de21f4ac047b7d1eae6d73a1b4d6fa2bb8b9f8bd95f20d368233df5231e],
  [none, some 0xa07b57c2db1977e3ee2c7b779d1c11eaf5c4b462f560ee4b90d5e8073ef39ffc5d62fd7c1cdff0c155d1023d1c5944, some 0x13fd99d9aba431c0804b1be1be5a0a96dbf21b37b5184f312280f151acadaafa233479b00b1d0b7f6936a7a43c82111, some 0x1f06fae895506ed94da7c9d391a38cbbca4920b26b7b76a55b616a7f02b50e008ecd9a1cd8d1ab22284eac5e75cc32],
  [some 0xb53cd4468e4730aaa6f89af048e15806cc1d68eb571002e9f8c0b95414336feed3048efbf2e56ab1792cd9a1318360],
  [some 0xca420c81ed46b8433e3aaeb1354661236fe3d5c7d5b8ac5fb5c51d7e2ae7f53c43ab779a91914e4eeffc274ab6f32d, none, some 0x769ef2f144a2f53d01332bd0a1e4b0e3990e7b622c06fa89b8604bd126537f578b58377edd254d164cd2b9b3a61734, some 0xb48fc99a2d28da2c98ff534ef4880000ca9cd9132757c654ac9c9a726d875d5211f8da8ba13d191c9c65d5c0b1a759],
  [none, some 0x5743b7e8f866e4244fe965d5de5c41ef2fb21b71a55e5614bee551723ed0d5eeb848498e553eb6d32632f53237c879],
  [none, some 0x127c9ac6b767e24a7936a66e2001364321e028cadbb4584b327565a3534c8f37f4eae4b15e12a11ddd338ca583ffcb, some 0x172be9f749f24f360900ee1d675c4b36b1151d6683aecd4d11782a613e709f1baca32c3e45b4ceabe92f132429ebc7b],
  [some 0x195961a737d1fccaedaf365072d3f6561da0c200110c4ed532a66c1da6724a89260d2864d0ce1d38247d383facd584e],
  [none, some 0x1a58de0c228439d8ce4667d3bf53479ecac0b0e9bd6c802438c2eff6c547292f642dae20b271917cf9e949552fc35f9, some 0xbb0ebb6afd16ec5912f271ae597c5c1d59b69c1718e83341e19b4db05034e5ad73054f496d1ba6f21d5b964e565b57],
  [none, some 0x19f308f50948e511fff954b6db7972b4ab6a4937a331001e3b2e954129674765ebd35c661ec94f2112bc9508df8518a, some 0x11762ceeff5fb02bf9cf7db08edb4624fe19dda152cc84a1082f9801960aca40eabebda57b1a7b1f54f8176053d90cb, some 0x10b089bffa8f4d9bf62dd7b5ef7e8e4eed3d8497580256f2732ad56d03ae6dc7f6d6a2da217723eee263b68f61c9f20],
  [some 0xf3fc104193470797c8d91b9298a2154b920751726031508f680df76579483bc8d12b5f4ea703fe9d15d7c797bb082f],
  [none, some 0xf1393ce0364316116d299bfd77af893ff254537c606a683c8014d23d82d6d7b21e7dd6c9fe21826fa1c40ff27fef54],
  [none, some 0x158a423df6f0c40a3195e94bd7e8e50720349afd9568f6001f40c0e4d6d6d8c9a802930791601330e43fa02b942840e, some 0x176bc08c135a5f9a155760660603b75aee48e1b876cfdfa8a14edfb54095f7e9415b1306c1c5fce510cd80cbc70350b],
  [some 0x3c327921edf8452b732a56328a14dff21e46327fdf695ed981a72610c97028864e026af129140be05153d4fa58aaf3, some 0x173421b30b16f38147d2e2f6da5baa7439f65439ffa79036a2747c1c1f3efd51e7038ca26d123104eb6d3ec04745a8c],
  [some 0x1276b29554795c06b2ca4656c714acaa391b190a2a6574be3c91826f2bdd2c1a734fa7a4ffa2f3c2d9d536d709f6fae],
  [some 0x6a3fe99db52648f625e85575f5678e30e4be1a8229f70d93ed7bb01c2953036648750a1a200eb1b130cb87dd860561, some 0x11710d76ea34446f88b70e21f368317df0dc205ba17076970165eb3737a78b9c1639695edf3d9ceab1cc21602a58ed3],
  [some 0x1640c62d9bafaf93dbe51ddfc413eb4cdd65c52d30c6b4f50cdbf982ff03ec9a10ccaa9e4effd306239cec396a7362e]]

def crhPoints2 : List (ℕ × ℕ) := [
  (0xc4b5ea275478923a17edcbdec1d948fc83b303764dc9a5b34e46851c0802293e6281a3dcb7a2923bbd3d81e63a2cb9, 0x7ac0861f9fda0a12adc4b6547baa9caf03041c0733e61fc698523a5bde1f1cebe18902e86053025b474d70d415b259),
  (0x7dbe90bad8b88d9f8da27faa3dbe2f8320fc6804ed4fc6799e61fd3b8c715afd6ec96ebf328afebff2c2e6898e6e4c, 0x17fd6091a2ce6cb0603b8348c6550b5521fc327add08e8331feb23829ba33962b7183c44e12865cbe7f409c2787497f),
  (0x18d7ec0a5d45f56398d799966e0c993008bf45dfedb6910f3467fa8beca063027788e045509a2157317cd7d158ca557, 0x1a7b0007d50cf818045b0fdd13ba4e00e9c6504b86ddbfc92efd39b38b6494cae1421b500ddc1a967164d49b0e558cc),
  (0x13c1d73d76f35467cf9d73b5c57e61b7c403bac9ba473a1d7237756904d2873b56af1d9e0add9ed77c030077364ef22, 0x78f2d45285365140485ac9f84f882eaeb75b2bb2e6986effc8863178318012b75d4bc3ccc873acf3d82a819e2c4398),
  (0xb8403263077ed54cff7bded9848e45dd788eee3c6dfc9117dcee5b13795ff0f39c9d640a1fa072be7fae03c461ebff, 0xbf28a02dc416f962f9b6617596471e0e19c154dd59055655f247541aa4a7767bd9caaea1e33be21da24582e1ca0f6f),
  (0x11dddf3443a2c1ead85df26b9a64c47740df8d84d5200387c1cf8ec8d328b915aeb2c13185607af7427da5752ffae68, 0xd8494589ceb93f38c7cac42f94ca14ae13c5aa220179faf1fa047794dbd3b2f1fda4cb8a4a3d3e5e628f006dccf05e),
  (0x1b5e0411869f9148dd6bf01a8a18676c93ce07e0b157040ad5344ac0dd79c4ad93cad4743c41d9e3dc78bedd7ccefd, 0x9feb7d286b30eddc24efcd29f9581d20507f7adcebf8e03f7331f7ceedaf5f03f757570ae3ae338944e44c91dacbfe),
  (0x7da9c64b7f1125a4edcea94299e6b3bda72c146206deb79521b757af6177375d6f83b6c1ec44058f9a0e15d63fb72c, 0x101d4cc44641181ff2704cfa40c324de4da813fb89df3f7f63087c64ed6b3a2764d3d7c5dea67b8c66fad603cf8f4dd),
  (0xf2f4b21b02f3bb8dcd381bc2ce6d83ac8a38172580ccb36e4bb0a0fa5b4a87210a756bacbef00b48276ef806ed436, 0x108880a890fd943371f4c47ceb8bc6704d35c129b95b4413c85c708d75ff159e4bb294b9217fcc5b1d9b4a03d538ac4),
  (0x2a7126c5250d8a4e63f28f558f180477cc5f0b163f48c6ad44d04d74c2e79fe927044f692a3cd15ab93c00f6e24596, 0xe98361954e2092d541d3ec992885ced12d312741d3fe3d7a32f6edc5239c333d63d61ede2df1931b03781864cac479),
  (0x145923a38e16fbb45060fad30fc41d89e2e03c41ee526be4b6bcc7b58061ff50a24e4e4c8675e293ee1ce7315b8382, 0x10dc25d5465f7350de29e9bd1ca74ab0db1258d703681191d5e429b1fbb814800692f909be5b614feba0d0a938e03),
  (0x36e2dc7cfea97646ba9588e81d04ac43922f7e4943297dd316993d817decdd01acaaceed66738441bc005fdc2c3f73, 0xcbd9be7132057f2b83d701a58c444793c59e83c654c18f05c066c01cff02ca66f124fb1ca70a992506968c0b7eec0),
  (0xed80430ca9ec35693aa409f2cdb0d450680dab11300a96f67b87b4c01d5171536c6e2c590865eb0eaae60b001f2d65, 0x18b33818d7935f8b1d3c58dd77612b990d9677376a14e8c17a8350d277e5a3ea76c9a6afe22905ec0cae1e8d469cbfa),
  (0x5f1cda53fd42cf1f1b60c468f853cf9dd059a8efde4a4406d5e7260b7d38addb1461e50a2d649c563ebe3107fa02b1, 0x128e2c0741c8d6e5b83116e6fca235eaea3f608448003fadebbca32beff8814ebac86eac456efa18584424d1ad7c19b),
  (0xd71a490ce7da19d31f258cbefea93adba0b4372c17c38662981d5c6be0e2a19871ffd0f67c110559f2d50b89d64e11, 0x17035421e17a698acb35aed6c671b54dcb9409dec6fee95ae24e961c18a7e2bc4517a3a4250fe095933ccfc9a7f515f),
  (0xf07c84324693fba5843516fa7488a016cdcebb70691907374b43f6052513fc2ba515c2642affb724baa02bf8eb85d4, 0x141a5b681634a65a810c6cce6f862fb8701d1837cf1e0e880aa43273ff933c97c0ccd6260b3960c388df35162dfb01a),
  (0x26525439b650b4fe723a3b8c1ebe55aba66be4df52b6f3ebf868e2c7465871943ad145d8bc4ecf0a83f1adba3345fc, 0x3e4b693241588fc9d1f92045cf2cc5d80788110b38c14c604ead8986cdbf05970081fa26bc741ddb5a181678d187de),
  (0x89dfede3aacac900457648de7c049a45b218cf0264c13adef189f3a0bc12f074c6dc98288de094c47618029947e052, 0x60a761d6ef031665b0b339aa8c8b69b5d58b476a8b9cff4e79c66ac4e9c88c14f8c3d676213f2d13a19a07dda1b864),
  (0x98946e1c1ccba1b7a7e5d5afd9922a314c57fd4f109cd46643ff322e48178f15cad316c19e849ed92caba8ec3e8e25, 0x1253028cf972a63a5ddd46a967935277af1dda085ba8a75428bfa9267ad68a843c806f6c5d42397918a1200f07aacc),
  (0x897425b2e535a0bd74aafa11a9086c7bdba159617cbf759cf58ad8ecebd5c5b5e7b8a19be0495f496b9bf37347a23d, 0x710e678a06a5b025f5d6a1076750962d2d27f0c976fb53edca36c8c433433a5d0eb12f491f6c92fff2f0c618805967),
  (0x2646857a44dfcb4e6b66f1e950a86158cb8d999aae93b15e44ef83f0dfaed6575fe917001b8ad7c894a5153d5f9727, 0xaaed18f6e5c8f595528d3dba72c1a29b0188bcbfacb47b3708eac38c75231584dac2088355042bcda42e8c10ec0c4c),
  (0x15a00d03eda97213f242d803ad729a4f967f1cc931a76326010a3037cdc0a7a38331d18198c710b2ac4cab37e70f0d0, 0x5fcb932e8520918e3ca90c089a23f6d00e73f13e8b190018515898fa8da4d95b0123fd7a483adf5869c29c49790ed1),
  (0x342df40fb0dc3a5d4b36d3d11414673ac8e3e7f76937106206c582ac6a631648fafccd552716b7fd2ab587e2645725, 0xac0772ef8bd4a7a5278c394dc4397ca1110b4f67981e8b4f97d1bf26b0b66cd67c931f228faf7e696c7b76cfcb8daa),
  (0x7f35e45e9cf3a1bd6200a2b66bad75a19efb69c95190c0693e19e28c820852911003e8db85891e8d8e02123668d394, 0x13b38a75ee803ed943efadd36d0f2d94016c1973efcd7ddd533b15cccf7fef248f40398e6de66b4524ec3f857623e4b),
  (0x168e3cbeee099f1a7000273a4ec7a0c6c70d89660e382f9d2b63e14e7ccb2fe151d90dc51143896a94be3929e194805, 0x19e8a6185400ef8a22f8de3d4a3d37036f6a11d9a887ef13c3b770bc607e33946cd8718d45b6ab8acd61b2606faac97),
  (0x302c0473e9d721d1c1fb13cd0d75fb34b7a4f14119f24e610fa17738283bdca8b589d425a1525cc90575120d652968, 0x9bdf4beab7f5f12c068d4f211af3f96c53f7f17ceb77fcf0848b01fda0b740a7876803911b8c96a47e1b41d68c8aa2),
  (0x40e59bf2d1c909b0efd1710020e8eb0e920dfdd568cf7d4606c994577454528815121286519c2061c38c32d243ec0b, 0x16aea26d417120f926ec2c8cff81bf624e6deb403a0f461e9bc1ba764efd2f618b3087372503bf162061c9bc9e9524c),
  (0xdf7d6b4f8e5dfa434ee0fd4e22b0ecd4bd3e487d69be81d6124ec05ccf11aad0e62cb6d0d4656509e9c1a689b8cc22, 0x179eeb88d7c8cfdfbc9ec1651b046f8391bde133f2bfbc23d15844bf9067127747fb17e2392b9853b221c74517f9c06),
  (0x189f3fc9c811651b06c2e35207f0dd5f6f588b4f716d2b71196e005a86fa0214886cd79d31c5b39c9731d1971daac20, 0x7bdee8e88e08212900d103566e198762d36036f556a61a398bb62ee9aed73034ab5aacfcb12d2cd799e2e0a2ba1c61),
  (0x356b9f1c454586803bf2fbb3760da95663b8d5fe6b79dde4d03acbbcb324b6bef336ea443696312510948998859949, 0x131feba3f0fc4638db6e4ceffccecd1c98ae8bf70ccab0e1d8535b11d1e40a075e0874dba194726663e8720a5eb3c1b),
  (0x3291be17d288dbcee3aa4f57fec55b62e46d5cad99b6335a579c022d039301b283194139f713b87a98b8e4c6c72fae, 0x128a0b8b1c6255659841f1b031bf3be51aa48de6c1389dd64b2deacc7a21e063f2663e2812c0dcaff4f2f5704bc73e4),
  (0x179250d4bed0bd71e9c079d7e197e3ed78171ef7eaedd5c34a7aefb3c5567f2321c337287089654bab31820e1217e4c, 0x1246624afe4d3b162315e49dd394a0dafc6a1ec1b46d7f42f24e373e25c934ec55315d3c34980245c46cfbd7a4e3cf9),
  (0x163f36db35a25e8d98de5c64cc7680403f69248aef3d8181d84c11566c28a85a487c30638982c59b854932e18c819bf, 0x1ab11dbc0032c168e39ff0d817598ac9a7367c8f50a30c06d1df2445efd09da889d5f32b6a7df99e21a9e33b55a5d8a),
  (0x1976ccb92d65c68a0e683a861e1a520e8788915074f7b686213a927ae40a92815bbd24c9e0d2c1ecb467eaa9dcf6512, 0x7cae6dcc73ed59054b95f7494898f3727cb4240301e060760dc32153550bf00866d51a2af236ae0f608201ddd62ab8),
  (0xdf3b18ce6bc444943f91a57b823bb3303fd0dbedf838e0794cbeb53f4098b94dcc1894584f5bd458e4afc314c85d3e, 0x10350e1d44cfd601b569b9aeb29f18259ef8301ae81f01c61d71a7e26a6cc85224cb05a6784c9d6db2cbc3ceb80b099),
  (0x8ee3b16875672aac34e658a65bd6a449c3cdb1f5268dede3b924e4b927c6a0d7963715f35c6bd2377174650e8d0412, 0xfe919f9800a68a297627e963f4c09ee4398883d7b4a59cd00ab712782df8f1858a178e73246cc03daa51782fb4e926),
  (0xd559a9542f28e1ccd853bc3b7be2bd0ab434317ac8a166f71823939de039dd9300f513fa428883b8e9aa2b733dbf35, 0x14477a36f8d6598bd8c24fdac6ccd4c33325cfe563b8d8948eba201a1cec0e6a383f2ee07d33ed6329e24b0a1239647),
  (0x4ec1b064a748ab25114ab2f38c9df884a349fb8f87ecc3c5fc8976f2ee3df84a2e436d1bd4df37b1f38fd28d6f71e5, 0x6493dded9efcaac93ab831d151af402a1a34e19d27d58b22d4a83a281dddaf776f6d8ae494cc2c70303dd7dc2a5c20),
  (0xdaba5417399fb4b698c9bbb890698b5d5df997b141738b864081fb149d782ac2f28fcafeae7b1eca266b9e9c8469ca, 0x17e2baf5dc8f44cc3b123b90c79d937c455204adbdd3117a6cb5c81f05a5bf2afac2402da0041da6b648bcb6e3af7a8),
  (0x706e85248f2ee19a03a330faa1140a15e1e4fdb3ef2b7c8c5ea89a9cffde4e6670fc0fa22bd8113d8ca393292993b5, 0x1adbaa5057ace798c7d8b246460961918481043bf8c5ef3c939dedad2e134ea08a174ac59e79bad03f767ecee5306d3),
  (0x1ad7c4f33ec6ed065eb95ad8848c6a65d826b578430337a12a34f2ade83a6232f06f27bbbdda15dbfaf8b21f2c51d04, 0x12231fbfc0a3d58bb3b2fe728e36d0aaf3e09af0b4fd945e521d7b28f8d44698dea468004cbbf3f3ade2e11aead98a5),
  (0x65ca966003e8b243a2236c3cca3234b24aa9498d4f3ca21e0ae634a376b54b530caa0a64359f1eb6801fc2ca746fc7, 0x135ac68fc51c320835d8e429e0ec4afdec0e03eccf41e2a70c23b53969a073d01277c3a05f43a1ccc3d60da6d65c9cd),
  (0x189c2f9d300a3101ddafd1efbb471238bbe09de23ec23cf679122ee63d7e065afe1e09897e7fbd11b034b9f88337b97, 0x5e11a4a0703d19e509cf32e71d21e56a951458b53a7e253dfaf33b260e3750a57abd1c0e8ff56bfe126f82fe6388f5),
  (0xd7c57b17fd5a95a806f17c60e7c378383603a5b85675b85175600ef61d99944ddf3648c763d140512274e6206fe9fb, 0x4f6299e2956f2971ee1770854ad63fada93cab4e2b2666f112915a6ddab1c77e050dc00c1da7735e91e6b810f5c9fb),
  (0x10235e8b959bcdd7cb9be5a3ca3c586dfc8ae069401e16caede34fffa70a3a58056614d6800d841c8734b4f6fc4a657, 0x9ee6d07e9289a9c0300bf6bab8c0219b779bff5c48a7216f265f229b31b4a7928f311329c79125024db88f2a58fb7c),
  (0xf7c1ded7e68464cb99fcc7052bd67424a0e9826ec9e3756eb44caf338281d0d3142022ca4c04702035656777ed7344, 0x26b226c6e32403d3d35611157555d1cabc85ab2b4de0aaf877c473e37d2671efd49b7eb93578a87913236729498721),
  (0x61f7dad60c58009333a27eb3a7578b415c8b62384045d33095f050e81e31b17b5446e034861867c3cb73548ce3708b, 0x1a42249e25b1db3a2f4a3d42990fb1c5d08224433f839e63f7cb7c3fcc1f44439d38d0dc7eff571232c62ee9e64de11),
  (0xdfeb8effd9e55addd86e92bfa7ca2f8f5b9b0127214388f7ffbbf3e4e7da389e12b1139f60b39e65e7c802d7a84442, 0xe5aa9c1258700ecac64f5be2f9c82a89af6ef738ffc53e288405350bf37862cf0f0c6fea415cf7b85abd8d91c2c1ac),
  (0x92ab3102c2ca0687e23ac7be2af1c0c004283e55f818898cc48247efa655004f5678cecfd622b1630a24ce3437a948, 0xfb810d455ae898d1ebfc6e27e7b1f6d0e23eef3e04f3336c03831afb99d06d1c8b03148a3d856b9dadddadbc44b9),
  (0x719f302709ad36ec62ae89815266b6a20812c90a7f53277945ba9fc2f36ad7e4cd85f28b5d2939446e54556bbf7191, 0xdc52fe511a1af7f72490e55e331a50319f69140f73bb74d136a2037c7cca9e491da5dabf082ce7203d7317fa58cdc3),
  (0x1421d277defecedbb0faea93b8841112c400b14ec643fede108d3b8905a99fc3d782feb141e816f04adba08b40d541b, 0x297f4d580e2a7e03dd024d9b3b18b4ab8b80d4be9e898c55d3e6ea7104b2d54379d4ece0270e70ef7b111d6ae5c72),
  (0xb8406e6073086f3d71799c686b499df8760b12b5a64b3ebf000b9339d8a5d7c1c4fac0ea2c67da5313a9e7324cfd0d, 0x32d95c77410c6a21c80831b1dd75f96b6193f4b44604ff886298ff7a9b828b2d904e8a7069a94dded276617ae3ac46),
  (0x1103ceb53f5c36ab0f6dd7c45396ff6444d23f65530ef6a1e04abbf9d4938b85c4b24c06a0a6e035e947db6a0ce698b, 0xf5b323f02a27d4d9259910575887416ea2bfd647f366e9b2909a07b915d00e60ee6d97a8f90ad8ee2d26b0bf158f63),
  (0x2c70515302f3ec89e5c39e5fae83bee71b6b2596a939efbf090b3744c67bafb4cdd28270739015359a59e703719214, 0x19a7298310618acc64f7768f87ffdd06b2486308e49d278ffc6a3bcb51cc8ee3b68b4639e8c57f346fd6d4c6537f73b),
  (0x12f53198b7d65812e41f5c1faf0726db90452f073ad7c08cb68796ba02c19791ca3802fde835904efd97536b9162f58, 0x11f7426af099be69333b4a6c8e2fc2903218de21f4ac047b7d1eae6d73a1b4d6fa2bb8b9f8bd95f20d368233df5231e),
  (0xb7bb6560ee89667a52e281dab1442371cac2b48aaf63027e9af2604453c8e49442a73b6a192fec124aecec5648ce41, 0x1f06fae895506ed94da7c9d391a38cbbca4920b26b7b76a55b616a7f02b50e008ecd9a1cd8d1ab22284eac5e75cc32),
  (0xfe45b88d9c9c8358044489c68da46868fc27af4c29ea350af6a3ed0d77278a8edcc7ffa65d45d6e2ee28245c446f52, 0xb53cd4468e4730aaa6f89af048e15806cc1d68eb571002e9f8c0b95414336feed3048efbf2e56ab1792cd9a1318360),
  (0x43b4b8be0614d722a1b1150bbc9431a891b66c0df1cc862c0b5f1f107259de497a37b2e83f023b79e704045f808b6c, 0xf9aa7c7d97e81099a2066d1dacc13b19583d19edcdbbc8ca46c595479bc0a2c4f96469a45ec2e7686c5a2a3f4e58a8),
  (0x74d8b707e94073e650851e460872cbb1ef0253ae6b6b84fa0624a4e8182c48a220ab8b3a43063762f915a0e7bd37e5, 0x156f68e2eccaa06a1eb1c5a96c2ecf92af327d78f4fb5390a347cde47ca772a285314faa1aac149b1e28d0acdc83788),
  (0x16a98a4cf79439abd1f77985b2bec0283993b18c543d3509222b7eb208db119f6d13a7831d2bd73bbb2a1e9cdaf593b, 0x172be9f749f24f360900ee1d675c4b36b1151d6683aecd4d11782a613e709f1baca32c3e45b4ceabe92f132429ebc7b),
  (0xd442a4c40d1f4194da6e8340b8b4febc97f0b2c7ef67a272e15a4fe4671085a8501bec3bbe23843e580b94b59b581b, 0x195961a737d1fccaedaf365072d3f6561da0c200110c4ed532a66c1da6724a89260d2864d0ce1d38247d383facd584e),
  (0x15231d612a52de7f945a307860ec5f1d12ec9eca1eea0802480dbf238a6e3d64d7379a2da46c103aa9085c7816d61d2, 0xbb0ebb6afd16ec5912f271ae597c5c1d59b69c1718e83341e19b4db05034e5ad73054f496d1ba6f21d5b964e565b57),
  (0xca9e1b874227c74a9443ecb898cf58ead0e7097216d418c0ede95001022004d88b2f6cb8ef40037fa6cd46ea08bb60, 0x10b089bffa8f4d9bf62dd7b5ef7e8e4eed3d8497580256f2732ad56d03ae6dc7f6d6a2da217723eee263b68f61c9f20),
  (0x69822448834941edd53cd89095016e5b2024c0fdbc4660879b9ff428a55125d6b3554f24030cb310d634366fe84d50, 0xba3e35d631c9e32e722ca4da08a725ce90d2a18e94e23e8f8b5438548fffc44e3a31e4e158fc01e7f2e8386844f7d2),
  (0xbb40abb1bdae467c7506627d251374978f2efdb4585f47c37a478def568d9331232614a1875da75573c27a9c2b8113, 0xf1393ce0364316116d299bfd77af893ff254537c606a683c8014d23d82d6d7b21e7dd6c9fe21826fa1c40ff27fef54),
  (0x16859cb4cd0294fdd6b65eb19834934b1d7bb6ac89cbdb0962469fb3f5c6d10d229774f30d3df9c072084d3c32a9297, 0x176bc08c135a5f9a155760660603b75aee48e1b876cfdfa8a14edfb54095f7e9415b1306c1c5fce510cd80cbc70350b),
  (0x57f5be86af3974dea6355fdb36dd91b6b074ef3d63380fddd07730c34d1faf167363cd596746b55ebdc4c276b8b3be, 0x173421b30b16f38147d2e2f6da5baa7439f65439ffa79036a2747c1c1f3efd51e7038ca26d123104eb6d3ec04745a8c),
  (0x1a7bf462011e87f66dd35252066938cce6acf020a2e6aa18279d499eed87950279395068bbb4d7abb7925e9b3b50826, 0x1276b29554795c06b2ca4656c714acaa391b190a2a6574be3c91826f2bdd2c1a734fa7a4ffa2f3c2d9d536d709f6fae),
  (0x71f2c6c664c7c22be8af0d172a7831c691bf9f04241ac3ea18895edf6276f589680ed5183337751cbb0c4be4bcc625, 0x97296ea921cca3cdaf94de4d6ac6233b1517ed46de0c25aedd037c468ecf4655a7c6ae420c2631d9ebfde9fd5a712e),
  (0x19ba619baf139bb5b613377cbcc93b744bed32c7359b5e6097d335fff0d4e8347b68d2121cf1e28a3f5d7f5c6809f9f, 0x1640c62d9bafaf93dbe51ddfc413eb4cdd65c52d30c6b4f50cdbf982ff03ec9a10ccaa9e4effd306239cec396a7362e)]

theorem crhBases2 {seed : Bytes} (hs : seed.length = 32) (h : (chunks 4 seed).map leValue = crhKey)
    {sqrt : Fq → Option Fq} (hsq : SqrtSpec sqrt) :
    sampleBases sqrt (chachaWord seed) 11 70 4613 = some (crhPoints2.map castPair, 6751) ∧
      ∀ p ∈ crhPoints2, ED_COFACTOR • edOfXY (castPair p) ≠ 0 :=
  evalBases_chacha hs h hsq (fuel := 11) crhCerts2 crhPoints2 (n := 134) (c := 288) (d := 5) (k := 1)
    (by norm_num) (by decide +kernel)

def crhCerts3 : List (List (Option ℕ)) := [
  [some 0x454c1f58ff73be52f4e6ea0c539fce43e886d6d140e80ac1376d0aea08df4223ea07b135458fd2c8db2a69c3398d2d],
  [none, some 0x59219c80f115a2d54fe5f26b88cfdb612c0d60e2888aa1e9929d08448de4544c50c5ec7aa7910de253b301576d50c1],
  [some 0x190c1aed6b882c4f19def0e8ceaa54d69856eaed8fc894b95bfc6de9d7fafc238a006643ce8a31d596c6b282e52c9f2],
  [some 0xec7ff3dadcad149a19677028fc826aa5c39643e4020d4d1cebe46e43f75954c1aa4d356eed243423a909fe3a760097, some 0x5c16476d1bbb98ef2378c54fda9ba22b57c68a72e7c9450e5e98b873d1c18171ed94a2684eb9f31bd0017686bf8b21],
  [some 0xde236cacb715008ee1c066e15e4b7a838f9368c8c5f0d0c30931d76f8bd4a1c6cf703c7360b77c6653ec2f54368e58, some 0x2f44f545344e03a966260fbf50b1f4055d18a653902c649d167e1d1df638500006dc802bde4b34e30f30791daaec3c, some 0x14ee3de39fa67bff9e7171eab612d8661bd8707ef71918515c1bdc4e6f4297ef5da6734f7d8c629d9bfe08ac091ef72],
  [some 0x231b2c05a9c27fb45d2d862c7c5240927b0ee56f8852098bcaa4e87fa7f66fa0294ea4117f5a8171d4829e2029cc75, some 0x971f5d5e1a876655cccb3e846d4c26fee8120515fd3b273ec9f3ea97908e83ba8098b47ea48202d0d77a36b264d0aa, some 0x142ef51e1624ba0f488c8d80882a1ae12d30c98f6f41cf3340cb2d97d0a6f56e2fd8fd8bb9c26ab5f11964ef85f9d7],
  [some 0xd8ed281a694cc6e31bad72c505d0cd61a102f23a070f709801a6f3bd59ae17082188ea8178a157d3338ab42e27aec8],
  [some 0xdd09cc8eade188fd284a61fdc56133342aebed24f13452f451e4b12be3df7297114a1211d9cc7c55cf3da7b6882069, some 0xaed71cf639f82608c74e9008d724d888fa39eb2c020adc8f8475a7f59be70bc07b3c3b6eb64a74b9383b72866d8ec8, some 0x6f74ae268789a73e452771584a9a94e5827cc34a430c45be92f1ea5981b210e88ff85d18bfcd94e20e1791219711f],
  [some 0xd16969644c9f77f9f30602476027ef7670b8d58774ac1c71c3be2b5bf8ce19949d3f29ded3750f47dc432cb637c92c],
  [none, some 0x12357150b9d71a80f2ce1d5cf2e903dc79250019f18f3e5db7d401a81670e4dc0a9ee2fd35a0c1224978e610ff3a017, some 0x12b8b05c7ca24cead7651d26b2cc1a5c5109ff6c394430a154816a6b0c25143fa33447b8a0abfb047d126fec63383b9, none, some 0x102dad48c2ef79737efd806d6fa4354726fe47aa5fd34602633d2fbc7dd9cc6e23d6de3aac6da908254d0076226cda4],
  [some 0x29f370e7cf3907daee5d3189517eba5cc6fb3b92e5cce9f3cdc40a78fa5344e3f4d4256021d78efc1ef86f7c9b5b3f],
  [none, some 0x8ca9aaab99d0bbde1513379aefb0899840534004770008a68c20f0363cdb6174b8458c922254ee3908bb7a9eb939b7],
  [some 0xb844fc0a7bec862a3b4bfb4bd4f5285fa7e8a7f8d6df29b28e52f1b84c34afb63cc6059703f0fc0250762dd2fc180f, none, none, none, some 0x117dc78dcf349ac49141ca9e193e6514c95fad7082247eec397dee2cefcaf72e77ada2091d36bb02ca8e2fd73faa0f2, some 0x100f31fd010f35ab50bbe32f5807452245bd943fc2d78dc4481a7edd8a5a5d448e7a0eb977e01649924c854875148be, some 0x24fa7c12bd761f35a01881285c23ffe707ef87204dd9be5d5af48a259a5c1f89f0dfb914b4838355d0195265f583ed, some 0x148ac8b299b18b96253288bf9bc275cbe9de2c9aebe8b06085cf3fc8a59d3b794f64150d6a7c6d5ff4eb5921e9cf800],
  [some 0x14d7a0a59bc478c608a6562c84f2bfe01f5c627e4f7b87e1ba1906eab956d99a6b15ebffc2154bc65e1c66a15e4d422],
  [none, some 0x3715ac193676b21492d5a9fa313bcf9ea6589e819668d0c819387aac1ff177de330394c7ffce1bb6562fb2061cac6f, none, none, none, some 0x12d5b27c24bfb1a6c218d82fa4b48e366f86cbd5980a116159211d192f2d37e3cd52ff8e03711b14a0586ac04703674, some 0x19e05f22105a0cd85de42a744b1abcc25e1e69d375689c4adcd76ca38aa823c277123368348f14422b5192ce436e99f, some 0xaa7ee6fa4f7e47835c10dae56e406b1bdb9fe839274354c212309b874b135907402d864c5af8c688ced2c1586060e, some 0x1508c121af800a48ca34742430276aa441435702a5431ad0b7ae607e0c6d1b1a73f59c157c152d07a360957c26ced3a, some 0xd9466f36d6bac98e178fecfdc7b40dd14df0de604fceb584ce9d9328a092148d45756cdca259734d22d255f138bd2d],
  [some 0x1533e38a7a21b4a48aab41fc2e65eccb50a7e92d017d2ed8d1b1a696d2852ef7ad73369e12ebcef655bc4a3143745fa],
  [some 0xca2eae2ce13bc667d024a1ccfe7cf42aac1a99deb5a5012ecf3beff83566cad959349233dc3daadb5c92baefa401d6],
  [some 0x4bcfab03557cfc1a6d06ac66148086b119086c78730e9e17772f88178903fd421280d55e5c21f1f1f13189873ec8a3],
  [some 0xf7d5ffa17c24f596cc5f1caaff30b6896dc396376396fb32d192743fd0bb5f345bb806f47aebc938e0b949b889fc3a, some 0xb22ba17bf79173dd390347e35298598ec4f7d837a8dc741f36b6f89718cc8599801c7549de3ffb8e9dbe221ce6216e, some 0x117f2d9b3a28e04e8e5277e70d52477d9eb5cc867eed6d662c8c3921ea9e117ca3ea0f4ecec5134898109633c0cac3c, some 0x1ad6a17364b31a204544ce69cf967a8b6b9dd3eba5bc5957cf752fa52f3edcb1904cb26eba65582d730437b555230aa],
  [some 0x6688d84d219f8da4dec754aea7481bdcbb1cf1199290181124fcd51881e5cd39e6ab8e4f9079d9b49d8e033eda1742],
  [some 0x35238e50fa479561d13bf743d780fbcdee3eca0354a4501776b08f6b81af4a58e72ed4f098e8d27827e3a3a1c9c4a2],
  [some 0xf93e92caafcf4b05626a1d107c07becb35921da16af648a707d3ded8670bdf4d02bc24bd19cea2f39647a9a00bcc4a],
  [some 0x7aeb6e5ac710c44370b8e8ec54281ca1cfe6542bda499fecd75f7a5a0c2a09dd1f20d21d6813307dd4ab024eff852c, some 0xaea013f7de941a13529e592f37840a3b613d027390585f47a765b8f94471e2a07360a8fd81d3dee507e1436a797dc2, some 0x1603d141fa60e9a2e36a6fa0a8652313c6858a005b92c335d41ca2a1ac4baa10e481e049b0906c95469f6a0e16fc2a8, some 0x89df6a333f22fe549e7ee5ad06e3039ad7b4778da3c3f80647d08d7a5cf8634183c27fa2cc5eff2c7f5d9de22d392],
  [none, some 0x8130bd983f64cc85a981285c450e054a1528ff926c6f0eb23ab78a16d1dee0372069ad667d8edb7e2b64d31743cf12, some 0x30a90b795b2480987522357ec9e9e445ca0c5fd95a6a60cd726cba29f1bd3325f88128263c3a30cc97d1843240b1c2],
  [some 0x5d7736ba918a85bad06bda1016864e028e425d702f0063e3ee1194725b405da0e9cc7fec380617c229f019fef6b108],
  [none, some 0x4db895570e342fc8d261b8a3d6c3b5b3065002026f364e399a6be6000b9aaa58b828569fac1892b01ce4dc410858f7],
  [some 0xe96c3a9313fd62f633af774d397bfcc18581d0be76619e62193b93a85fa2e4562b6e7d57548270aa9806bea22f341a, some 0x47fd0f66712f75322e51617420cfda697e6fce94117fc83472dc3c8be8c16e766b7e37f8af4c06f00cab20922cbf56, some 0x11f95471aa3f54b337d3d653fd071d5135921167f48f7c40caf726a5bcbe1ce2a6f8dead2ea5932ea10fb7ae24115b5],
  [some 0x14b04ecbba41d7fc5f97dd4e7534a731a9c7ebc55ebdf33bb0923381bec1908a45b21768d1c453e4f49f847c27436e8, some 0x4fae2806ab451bb68f4985938ebda0982239153a90ed363c0e48732fb6c3aac6bac90fe72490580a536c4a9fca37ed],
  [some 0xc02d495cb6cedf4d62e6547c51ecaaea7db42ee5409a63bbf2492ee9196b71f060b0ea57ce7f01db82528c842b5136, none, none, some 0xa2925fc4c9e67143c1b99c4ae3d80bf1549491ecc24b710ebf94e485a8044404c86d6a944d9f5aeeb044a6f8d662a6],
  [some 0x725d61aee546040a80520ac37ad92d16e17584842b71a7d263a5f60580f29f7c1e6cbda041eb7565f20d959f64371],
  [some 0x2fb8d843366d7e3de03e9dfb0ef1b6c22cb3e9b2d7c2c7905c44c91467f3fa9a2d4a682fbd633000863f07bbfed80c, some 0x18d6192161d86345c3cfa5a4e864cb42154c5db09847fd5fb9b8b26289633c07f2480d0fa690c67b8974b0de8f1e86, some 0x775871ae2b4f9607b3061d0b923e2d4d12c8447c78ddcb3b3087422143231258518a2cfea1552f41947265c403e1a],
  [none, some 0xc19e6d4bb0b449c57fa658b952c39d60fe40984bd25f18b3369cbf6b47b72afb06b767f37ec7c4d924999e1c053ca1],
  [some 0x18aa96790ac2020fe2943e72ca45941e715ae5614208a8367c9b0acfd2feb0dc97a8d81cc122231b9f923494fa27103],
  [some 0x5d855033f8b5709d4a27f506da2734523d78afc434ba9de5a0f1f6e0f77986dab545a4c6bfaa3dd613fd43f7a1cbcb, some 0x12643a6211a4a62a442c770c0a844cac2652d53460826de82c1ff28fc6a61fc02afc3d00fb72090565ef5f683e27b84],
  [some 0xdcf08c57fe98079ea1e20bf4c70a3e170d7ee4c87762b9167d9498615686117e2b3ac3d1fe112d8c1b0f8b3870a9d1],
  [some 0x8d43f0a5ef36aa3ed3103d55fd9c4f752029319c5ab28ece23b5afc2bf4e32d774081dad240a79dc7ebad3fa58089e],
  [some 0x1974027a99d9dd0a4317ff076b8c3607385d7a09e35f8e48e9dcd65d2935519481d1d67f29fa53fef56d30bcb2f25be, some 0x2c77b61ff3a9b02d9c78e04995c19b86fab6b0f05137faf1a356ebee00c08d64d3e57af02dcd4845d0e7b2cd1b3251, some 0xdad8a79f8ad423ee2e24031b7e2294d32f4674abbed95cab6d99c0750587049653139e563fa07009cd7099777d0a67, some 0x275c6ecbc5d687f1a1e9c9b157989c634e3ced38034f4a52d2dd4e04bf3d75e3cdcfb4062a3ab35753acbdff5214a6],
  [some 0x175817c0e5829964ba83afdc9f8bb7eac337f823043d94a570eb5ef89dbd69e07c8d69794d35500a5ccddfc56653d29],
  [some 0x15e9aa30ef8ab55cd5453dfc71fa8a425869de557efbe2b744e4425662244512d8698f059dfb5134d4dad08e4e45c7c],
  [none, some 0xdb7c82f1d15558b5731418346834f0eb5108a628455c8316751b56e40055ccc0dc506bd958e9afc61e21d7c7db4ded, some 0x12f1b904d64382283e6aa3367edcf2698074dc906d3d67f55783f1c3517c6d4982d1d8f08a55882b00f93a8aecf44c7, some 0x12fa7ea22613c80ceeb4bb5ff434c4bb8bec1b2c77aa08c462cb6002efce3c13dfbc10ec7c5803a17e5bae537b4178, some 0x168480e91d4ce5c08e85a2f2c60445e1280cff18d89c06adb0543f1e12c6a3fdc877d89f37e41c9e9d203e285f2aebe],
  [some 0xaccbd03ca9afb0c8877211ee5465b56b538c45f1e31a07d056fccdb36106f1492fad5154765ed68bf47a5ef978c15a, none, none, some 0x64660de95f88f9022b88d9e90bbbd99cb19bdf0f96218bcf28b1e7d47686ecc1b57733e5887a061d799a07dd9c46ca, none, some 0x1378586ee400bcba70105018f9a0e89c88ba4db052248d27d0ff0f61d196c42a44bbdc28edd009092855d5cd358fe28],
  [some 0x8f8f35e40572a54b4fe94f784a6d3100ac2e558a5d2a52c0a8792ce758958d76d8f0787ffac884f9e475b186ea8b15],
  [some 0x58e36d69e0dbb29e905cc17f4a514eed3aa5c2cb4cafe7d3b8cbbbae9938d8d6b4f21ec817b0526613bcddc17a15f9, some 0x8047f22ce84bbbb3749512e2cab38bbc77829b044a8532f9b8eaa9474720d3cc68e5a95dabb8ba9392dc6d33239a99],
  [some 0xf23d9eaf2aa6ad65315ee70520ddf9d23b4411c13aa88f787c30c25553db7f5073dc23f2a9b1e8b3dc5efedb4a07a8],
  [some 0x260f75fdb0d7bcf3ccefeffceb8ca25dfe216537491aab899f929f6118169c8a4b56f94cdc541078285415078207d],
  [some 0xc2c8f1381b50d2193559deb3a7e0cf087f5d64d60cdd4a7e849dcd68d8be8c804689a43b3191380f2c44c0ce0cd140],
  [some 0x11ee51450697dc4608e634a07874434b193717c93b89ec100330271f49c4e69d3eecbb975a319f4acad01d450f859de, none, some 0x109fa20a7087996d93665b3d292ae1f8fad4e3a0eade5f40135cb86256a880e1a05b7c313c7dff56d8e49af8c1d5cc7],
  [none, some 0x1876fba26d70ffc69c39d0c11af034ee4d30c9d1a845e1c2bb8add41113e96a4e4bf609e1cc24754ef4bf11fd4cb3e5, none, some 0x6d638af73d9404ed92a7001c4c5d4d6f113692b2247163b321f217f7eeb714770cb91872246cdc6b2e11cd190926db],
  [some 0x689de0d3514458dfa7b4514eddbc03c519724ae3dce922a823001daa9fd35c2c13ea9284ebb26cf0f1430127a59727, some 0x1748a0cdf1fc6c8651d5ee4dc8f0875bed345f29b61a085c30d2d5a6096494aa5a34afa71c190d55ec0c8681bf19668, some 0xd4f2fbed9ffbde6461acdb66cc1ae0e29cd5104b03dddb8eafd6830ab711db1eef5a0d10d000124bd4afd990255b8d, some 0x14b740cd0c491c3d3e91432c0d63a461c979daccd771e5f7a12cef5ea4965506a51ee7a962ba06f1c6a90b7c6cd45b7],
  [some 0x1e1e2f08567a20bb40ff63704788bbcc3105177b3e5d3e7cbbe68296d55244bfe2f9f8e42c50af7256d90ac65f10ab, some 0x1713ded8be71a58b0fdf43366b4a192178c876d5d066b5c5274db330aaeb42c3c2e3e8db3db8000ffa4dec8abbd95f5],
  [some 0x1632511134fff4f90dcc90f39c1614966c71163101161e35d825a1172647076ea0a8f1e0025ce087c8acd9ac25616b9],
  [some 0x198c6ab2ebf16f43d1bfccb906f2766d304828a87c52c996e6dbcc307390241c1e940a31e262fb8d0d570ebc6966db8, some 0x102c7dcd83aef84fa75d23e0cb4c892f1246b9f55603988706a321b8a9b949f1ab4bfbbe2c638ba75b3423a6d05de12],
  [some 0x16c39a4ecc5ca88c2d968a448671b1c3b1e2fcb4dc030437a919ba0a03b93f5a413db7791ec6e3e5674eedfbc5ba2a7, some 0x12529d41f17aeb7836777626695deec5d1df6b597c2851f17ce165531652f0caf9b2cb3d46a8334fa368fc5844f9d25, some 0x1293a119433c75bc67b6a06e4d6fe9602f88c1cecfc2363ac3bca000f3435749a9c74cf2789cd8ad78e7c177516c4af],
  [some 0x11dcaad17066e8f78ebe7d6ed3662ba33aa02e965022c45bb4d316dd40d3ddb60b8ad25c2aee9570bc3933d60deb300],
  [some 0x449f9a74d435eaf1d227054585ff853fba5124cc9153991ce5ac216f561b2498070159371b3fc2977161cfa669cf57, some 0x1722de9674978530a573d3e8f5e15b6b307ec11d88ebefb0b166f4048a4a5451228ed7b8180cd99fc050ad08c294ec8],
  [none, some 0x15e8adfde2dff18e85826cff829e7ced7ac9162d5f742a7a73ab5bf54aa8b72a48474505417491d44900f33d6fef3ab, none, some 0xa3669162f01db518adbe68a4cfac3851140c6010a3d2d090811355a9a39729e40f61aa9c5239da7ce57aa948d15fa7],
  [some 0x372907b048b54f8c2c1e23b426417d3e74a038724c9525fd74523d85430c6661579934a72dcf87e1b70a3248376b8e, none, some 0xddf24197dd8457660d335462b0dca4539f59987a57d4e3d6f62089059dfa73149cf0893e9e0de3ce63b265535899b2, some 0xf7e163939c9c6da29c455a6985b8b2d13d218e842d630143f9012f198c615683321ea8d272f669556d5dd85f38079f],
  [none, some 0xa860779c36ca5cb20a4d61fb5bc3bc442bca86e6716f140a4c514e0bb0a44664dd69fbb6c6e6ba0db9a648ef287106, some 0xa849e44fd951f4be5f6f31c035ac350f9ba508ae8e19055c5ca3b5405afeba92e9ae727f580fccc9f2f1eada2b4733, some 0xcacdb09e9748c395644c87290e9c9a8258064f6b31c5198cc49c38f18f12fb31aa6ce91bdc2ffa1c87f8e3e813793b],
  [some 0xf9c39ad31ff366d8cb3d7ac592d282d519c47395a6138e59b99aa645e51985df5d479523bdb1e0487adca6c7022b66],
  [some 0x8d14b6c53e28acc75228617719b6a36f78fc0cb1c4d4bc8cffcba06bebf95e29a78e08415984ba9f2b20a351b58308, none, some 0x1930653bb036575b5e178ecf4aa5798bdc9b6f1ee307dc46460e6a7d7b87c0cde16bd58578bf5d9f76f17d16d829e21, some 0x100f53b9db91a672933e3e57ff567802d4be0940db77fba5cfd3f2ba404ff4b6d0b9dcf31acb6197246f0e98d39dc89],
  [some 0xdaf78a199c130328f0c64c598cc58bbe642d1dd8c2b954fb7693a49788e8d266c336eb3ed6a96d44a7178a54d82a2c, some 0xde017a1852e3ee7e8dcc8a894ef34fb952ca2daa10e40120658cbd62f2aa4b6c862acd848659a803acd6947dddbcb5],
  [some 0x1850e4ed6c47fa45de6a0f7dbeb117c8f668362e3e8403ffb39bab478ebaced15f31069f30f3f08d25be29d47d5db39, some 0xbef971d68ab1475c83f17af35ef6816267194b26d2a9f2185b78df4f2261259f2bf6f30d075e69e99eac2b6c78ae39],
  [some 0x5ea29b63ca0dd22e4bf86d4e345c9fdced65b21a1f17a858e38046de49a355f9ea3089f2a8eac955b591f46a7f1e38],
  [none, some 0xb526649b87af2f47d7f35e14629b174c9cee6cb43d2a6ce16e8db594a18bde56447c652d57e95a38cf1786d28488a8, some 0xe6baeb0a3be21f53024647ea6861cf7d3972c039f64631123bbe492b71102b498977faa05edffa1d0757dfd4fd1382],
  [some 0x11a727270588b6daaca7f0b0e40b593a5c5b8472f5190a421eb983dccb9bb5ad6009b4e97210b3f005c241a72b60f57, some 0x1adb4d5a901cea806a1b579d92d93a342b183b7cd74b988eaf08df2b1613d771c82060ad8c919f5c95579d3f22651cf, some 0x11c3836410d79d9ae15e5ae74e7edec7c20053facb3db652d88a5b73cd08589a38ec4429a23c9f43704144a6bc92df],
  [some 0x1a5cbad344c0cabf54ef93c5d4e9a2044d19c2537a25941930c87554314da84632ce5e8977b2e3c5d4207892449a4a9],
  [some 0x144f346e8a1f56a5912d7602809af9d486ba2117331ea88e08c3783e695820e778453b43355a7b85d528d53c3b85008, none, some 0x186de625947734c01bc8b88ab9d2efef2b6b81bcf564929802b8cdfbcfa292a440d48ab33d209e7b28d88f513e4c019],
  [some 0xae4735641ae9096175d4f82c3ac3db3b906e5f26bc89462ebdf5008705da26e89da48eb95f766b470ff1bb0897785b],
  [some 0xe4a5cd757a8565bf4a1b2eaceba1915fe90d51ed201ac5cc450889b70201d54894c27f4640c0258fae6f4eee5986f4, some 0x10e5cc12390112b06776cde8a4cc1eaec7461d457e9702e0ef4bf89f9b74aa23772eea93b6891941a9f2699a67806bf, some 0x13ec18a1b350e8c83a1600d62bd5ea60052bcc363ca303dbcf3f9b0ba2db31c1ca6153eb7c7d9c496b9cd05cbc1f7d1, some 0x5c736907c736234ff7b8eb2a57eabb0979306823288ca168748aee8cab9f613b4cbd40799e192730aef6ebfbdbb49c],
  [some 0xc877d6045690a0fc0848e3fefa1bed44f1d338081543b9c31dc1a9c73f41e760c670201fc2aeacb4a55e3f4c43819f]]

def crhPoints3 : List (ℕ × ℕ) := [
  (0x51d895412e46bf93fdf08a4ca72e9fb873be628e0e5b61418e5a9a014211d4222722b3f9602efddc0fe6c943d2e362, 0x168ee26bec59d2c73461ed6604da96cd63a531c2fb42b845dbbf524d00068bdf3215592faba702dbc2d95963cc672d4),
  (0x6ade3e9668c38bfb96ac1fba038e4720e24819705e1a3c019916db5aa93fb71cda314b902787ff875a3cbd5c9f64fa, 0x15518a996d3fb47f0eb1fce0118795fb8f6cc921e6c88ed3560c527757b63abcaba9757b5586ef2a2b50cfea892af40),
  (0x107de825af22f5cb6e08b470fce655e5fe5cb1a5fe46d993b513c4db71bf2fd0fd8d325eda299d3611f26eaf3864a2, 0x1d7897410c8e25d49d16b1dfb6a3edb09d6b4427f88a4389339b511c89983dde6b56dff3175ce32b9c54d7d1ad360f),
  (0x1e6c6703389d8a17e4f7092f2356ba155426b1f5800a17642cf03e9cfe87254bad98dd2bd4d19bb8445d00f627b57c, 0x5c16476d1bbb98ef2378c54fda9ba22b57c68a72e7c9450e5e98b873d1c18171ed94a2684eb9f31bd0017686bf8b21),
  (0x7ccec8d3c4a512982b2cf447328ee66c83faf2041c749a12f8c0fcf72e548fa43814b45ccd49ff9a6997778ff0d076, 0x14ee3de39fa67bff9e7171eab612d8661bd8707ef71918515c1bdc4e6f4297ef5da6734f7d8c629d9bfe08ac091ef72),
  (0x273bdcea25853ce009c4f8ad65909d1153a92c22ead4133e3c3cf13bb9823844babe15c65ab07e1f6e355fb0d0f8d6, 0x142ef51e1624ba0f488c8d80882a1ae12d30c98f6f41cf3340cb2d97d0a6f56e2fd8fd8bb9c26ab5f11964ef85f9d7),
  (0x15451fc637c2dfab0ed104e1b823bffc290e6dee69ce440e0d9b3c5b17dfde2c699bfb4bcd91a19aeef7ea84efff8e5, 0xd8ed281a694cc6e31bad72c505d0cd61a102f23a070f709801a6f3bd59ae17082188ea8178a157d3338ab42e27aec8),
  (0xb777f556184a4fceb486a08c17189fd1bfffb21121e28f6306b2923687ec1194fb0300bd000cc477cae49b2a357006, 0x1a742fb355c98505256b349571c9f91cbcab226cc50e2cac30a331114712cdf08825dbe5e74032736e7de86ede68ee2),
  (0xba7cb5d0aa93cda76e0c0a2e235c0f5be9cb379588cb174ed8f881374eef92f081f973893f8f9b0eca4f7a47bf6004, 0xdcd0dcb3787172cc47ffbe2541214ba3b2211d79806772ad2fa4045e1079e6826e1e1a512c8af13d2c7cd349c836d5),
  (0xdd613f3eaa1b2c001b32194c7e69bad879138342237d629681b5cdf42ff330b01450d2b6e55aeceb8aeeb3ed79903e, 0xab5f718b9619538e4b2db995a705e6a7b2f5785af7df2ef8bf8f33f22bab3934cdef608539257002b3eff89dd9325d),
  (0xbde60c01bd4432f57a9869193cd0f2d5f439e1bc4086d51d5a79e617bee596148856fe5d34a4423090b6ead1767b82, 0x18446d52ff5d7e2eb4ca88ee34fca80bd5bdeb76e0f46a52b259e25410ef4bb3316891ecfde287188e9c7908364a4c2),
  (0xbcc88eabf8129c7e78c522188cf2aec6fd2f2b6d44d36f3fed5545ec3c09059928f21878e86079c59c680913625335, 0x8ca9aaab99d0bbde1513379aefb0899840534004770008a68c20f0363cdb6174b8458c922254ee3908bb7a9eb939b7),
  (0x16263dac0a07b6c7bef859b8c472b2bacff906374955d5343d4d8d1e081a48bd947c24046a631284aeef1c8abc57707, 0x148ac8b299b18b96253288bf9bc275cbe9de2c9aebe8b06085cf3fc8a59d3b794f64150d6a7c6d5ff4eb5921e9cf800),
  (0x12988cb4b9930ac5f2db6a5f43cc39dfac46d18fed02d4d0788d9978e23d775aff6ffe80030de9041a64429e0ef2f59, 0x60c03bbe08c95e65b0a05da4521d3d182d13cb1bfd5b110351d1c10e73da667059fe8433deab441f26f995ea1b2bdf),
  (0x1903bf257c5d5ef359bf9a1fcc365bae3f5c77ab7820f9fbdccee68ea2a9f7934c3b66f914a661361e3f65a0cc80a0f, 0xd9466f36d6bac98e178fecfdc7b40dd14df0de604fceb584ce9d9328a092148d45756cdca259734d22d255f138bd2d),
  (0xbc85cada7fff932d5d2e542ea69d31699ba35f5eea2f4056117deb84f560873803649f453b8709ff852698bfbf3bac, 0x5afc0d7022f5a07d9051a0a9baea6e65185b6030dd40a191d847c64ce0f5109c3429da4ed143111facfb5cebc8ba07),
  (0x441b1c7576849c8125afc66a6e4fc35221e8576050972d6fad75a66c0b78c72fd855881f947aea3ef02252f5cd5af3, 0xca2eae2ce13bc667d024a1ccfe7cf42aac1a99deb5a5012ecf3beff83566cad959349233dc3daadb5c92baefa401d6),
  (0xf7b8b75b1b241faff20499d1334f72ec5dc0411b6a5b0cd748047ce53ff6fbf05e75b47270d5a31da3a06fd3832309, 0x1626a9b146f93eeabcdff14068cc8b46909d186888204f1077c32a7a2804402d4f8dc6ed1a3de0e93178e7678c1375e),
  (0x13ee8da77b57d3352cf0be9326ba78758ee7adfd155e021bea4d1ae70d44bfba8d72e164ffbbf2c3c12ddeade4bb722, 0xd02ee179df48c1e6b8d9cfa7e1926368fcb446994df9a1fc0f3567155a34fe06921d4459aa7dadd87c84aaadcf57),
  (0x180f1f33c943d105e0e0d546eec2e5cd3eba1e32775c0cc384d547a20b0a118fffee62a121761fd7d000c799e99abcb, 0x147b16dcaa3715d215c3e6bbdfa011f3d67bd01e76283770dce655aa1876232dd24b1b5e06f8626d06b31fcc125e8bf),
  (0x19a7f4783f621fb8575d6b6d62660bf32d8d947885e8d0b061791f7d4e9ca498c060ce06d9017d2d2a755d8253a603b, 0x17916b7c6cac9556469c9c928c9c83f4c349b28fda06f3f077cb1a04e8798b5be242e6f3f67172e0ce0dc5c5e363b5f),
  (0xd733dc8f7ae9a71c7ccbbeec5fb3a78d756f7ff2c11c40dcfd42f1288663f88aca17407ea14bf898ae6b88ad318134, 0xb4fbb34d15419fc0d89ba35c25417c4eed47d55f8a1d4677eb8e50e1a23c20ca08a11f72e6315d917278565ff433b7),
  (0x10eb89ab8a27b031677397b2a3c6090438584e7e5cb39536ae694a7bce5916b2dd01b9d75a8686757bee42daa1f9e1c, 0x89df6a333f22fe549e7ee5ad06e3039ad7b4778da3c3f80647d08d7a5cf8634183c27fa2cc5eff2c7f5d9de22d392),
  (0x25040ad5ab53fb3adf27f5eda3b6b870e296e9eed8acf15ea6f586f40b638dbf6f37cf00a30950a6c4a00673b12f3a, 0x17d913a9e69ec6a2dc5e38aedd75f56d458cd93279aa92e5180f57590178accf112dc1c09c3c5cfb870ee7bcdbf4e3f),
  (0x11426e096721545dc3c58801d6e79310865792fa7251bda337999608aaf65ee82ddecd874594fbf7859aed9c681b423, 0x150c30f5d3386650b6a99e65c8ac2ed1794979590c6132b3b05509b47ae07a2762190c443c7f9e8c2decfe601094ef9),
  (0x2749d62ed22e06a6cac2d7cbb13c773c98b2304e72ef8e107151cc4d05b6be386af60b6af66ede0286483b61e4cc01, 0x4db895570e342fc8d261b8a3d6c3b5b3065002026f364e399a6be6000b9aaa58b828569fac1892b01ce4dc410858f7),
  (0xe0983c180127251a7ff854e8bb3cd142edb31d82eba12aa8e89f9dba99630b66560b39e658c3e8e61cb839d540ecd8, 0x8ea4fefd211b9f92bdc85b2cd0d76606c9b8dc81ac1bcb1243efc55e3d6631ec9bcf595d15a6cd9af7c4851dbeea4c),
  (0x998127caea30fded1d5b17b0a62560e695e47d752b6fd9a7bbd4fb4fd66d58d2a076356ac47d8e833fbae36dd5c894, 0x15e8c1e1119cbcf0fabbc3ad9128b9a8200a0ddc6642658e2e519bc8a5284555050943448db6fa87ab553b56035c814),
  (0xb79385e6c1e9c9bef4017feb12d5e6f8859dbb53bd9f197d08b4eb472b50d7ff877b4448699ece1fe37d469b9a9a91, 0xa2925fc4c9e67143c1b99c4ae3d80bf1549491ecc24b710ebf94e485a8044404c86d6a944d9f5aeeb044a6f8d662a6),
  (0xd0aa2e7420106c833d31e3f7df896c552a2a3f2a6a1b70bd50cc9559f8bcf19abc2f523915ee6aba01c078b1599638, 0x1a7146ffcd6bc8a8593009fc0699ba848b4c29ab8b25c74a1cd27d059b138d61f49767855fbe1492ea99f26a609bc90),
  (0x52bd329db9d1e29cb1938891d3727bdd235fcfb890bdbd52363a4cf78984fb46425709f0e415c8f169a97b6c9677bc, 0x775871ae2b4f9607b3061d0b923e2d4d12c8447c78ddcb3b3087422143231258518a2cfea1552f41947265c403e1a),
  (0x13874d966f9ea20ba09b8b9547095ee0b50dd2ef57a0561f0f61811a10740def53de80602cbb6649a9ed34800e6c5e2, 0xc19e6d4bb0b449c57fa658b952c39d60fe40984bd25f18b3369cbf6b47b72afb06b767f37ec7c4d924999e1c053ca1),
  (0x1ed1ae3c90ed3566e84d10256ce962dcb1ac85806a776045cb5211ed27c464da9fe03dca5d171ecbcc2960a50a3aa0, 0x18aa96790ac2020fe2943e72ca45941e715ae5614208a8367c9b0acfd2feb0dc97a8d81cc122231b9f923494fa27103),
  (0x499eea6e04638bfba77908b916c96a24e9adb09974be7b4406e79e4df0072bcb6d1725bc73e8bacfbdceb9afd7de2f, 0x87f69ff6aac68821f83e4fabf9047057bdac9fbaececb09c316306bd9ee604145b99742048df702ea9ca097c1d847d),
  (0x9b631c70a23e21117c68b7c118b27290d3a09097bdd5eed7d83b2027f66c7129df0d65c4ab30aef9f7435e2038f0a3, 0xdcf08c57fe98079ea1e20bf4c70a3e170d7ee4c87762b9167d9498615686117e2b3ac3d1fe112d8c1b0f8b3870a9d1),
  (0x89b0b1ceef0bd0836cb40276f4461c18fd6129b8073cbed09da60e1c3eab31f84aec7c9595892647542afc73f72676, 0x8d43f0a5ef36aa3ed3103d55fd9c4f752029319c5ab28ece23b5afc2bf4e32d774081dad240a79dc7ebad3fa58089e),
  (0x4a5ec1ce3571bfa4ee2e989cdf35dddc6f6af47bf37252f061e2a4bbde2b9f3e449cece7a57f308de53eb24baed193, 0x275c6ecbc5d687f1a1e9c9b157989c634e3ced38034f4a52d2dd4e04bf3d75e3cdcfb4062a3ab35753acbdff5214a6),
  (0x1157b75393fb8d4bf48b1b81e95dc6c3d577c7ca1b8613ce0d81566cc9a3c1f9d919fd67e577f90a78722753d140216, 0x38b8ca096ce7547a92cac2a2a88dbc6def5a70d0b13a44c7e4ac40302d71620f4286ac9b2caaffdf3be203a99ac2d8),
  (0xf7b3d6840e518d0152ecb88a3e28731ccfdb17a869d8c79081c0ffd4e69b5314ccf071308e3c32007cf6925e4f6d70, 0x15e9aa30ef8ab55cd5453dfc71fa8a425869de557efbe2b744e4425662244512d8698f059dfb5134d4dad08e4e45c7c),
  (0x13e2fb04768ad2fd8d22012c4c3e4a152955dcfa0a68c929d52925e1d83d9178b0ccde849e1f9bd2ffc79dc761c8e02, 0x168480e91d4ce5c08e85a2f2c60445e1280cff18d89c06adb0543f1e12c6a3fdc877d89f37e41c9e9d203e285f2aebe),
  (0xecedcd19be4a3adf4f36949d1fe80bcc9ebd40bb44017ccc8af4cc5fa69b8653745d03b466a5a6a504ecf8362c59cd, 0x1378586ee400bcba70105018f9a0e89c88ba4db052248d27d0ff0f61d196c42a44bbdc28edd009092855d5cd358fe28),
  (0x675aed9e4e69fbe7855f83c276a562b4812b76ec716e6ecea8d869539fdb79b7e7c4862a948874787fa379df80b975, 0x8f8f35e40572a54b4fe94f784a6d3100ac2e558a5d2a52c0a8792ce758958d76d8f0787ffac884f9e475b186ea8b15),
  (0x14364c8ca1c7dc4c6e27e5bad712031b0a623233960d8aeba480759e1c9ac4cbcf17d3ca2ea7a63110210800160437b, 0x8047f22ce84bbbb3749512e2cab38bbc77829b044a8532f9b8eaa9474720d3cc68e5a95dabb8ba9392dc6d33239a99),
  (0x4c6db36aebcb88d494698ae3913221b9c82ec5ab0317caf6c30cd5aa392d53c05e435fa4ecf49e6ec7daf704969305, 0xbbfca7689a6a3d6109a6d967806b4147e795e13fba6affa677316d64b56c80c69781203d564e17d12c610124b5f859),
  (0xe9c420c40268cb4b3f250ecf0e23e467ee974b61cba1d8f48929f387c4ebb702af3ee6e1cecce6b1e6b019a9d7c090, 0x1abd94eb7ea036ef6fe36c16cd29070f442f7dcad8081e466596905c3f7c6964e66a7d49b323abf7d863abeaf87df84),
  (0x6010d0fff4f18a8e7c062f2ad9f4eeb4e9f963403ea2424b2fc6bf1bfa3702f6de69422f864fd2534690a6edd84869, 0xeb7154dfa9c018ad05abe1b8f9686c11a37c8e2ae83644a06ec4625130897396c4d39ff4ce6ec875dc7b3f31f32ec1),
  (0x6071cd001bbb6f3156d2744f2920a0e83c038f2f0de3c9f8d962e7be10f5e419784127373f70ba7327a5013b8197a9, 0x109fa20a7087996d93665b3d292ae1f8fad4e3a0eade5f40135cb86256a880e1a05b7c313c7dff56d8e49af8c1d5cc7),
  (0x31c44e5f8ab25d4c59313edbb8e2d015480324bdffb41948a5152b079429420cd236acdd3330a65f4593d0f696d97e, 0x6d638af73d9404ed92a7001c4c5d4d6f113692b2247163b321f217f7eeb714770cb91872246cdc6b2e11cd190926db),
  (0x10996a584ee277bf1250dc7878cb807446bfe18d9e44659f0e0b8f5742f44de0450e93f515c4949384c9d7ad31faf82, 0x62c63947007f26f251f18dabcb0ef4fd8b3c46337df52fa4e09339cfbfe2afacb96ec999d45f91689e2f483932ba4a),
  (0x1098d3dc071105a47d20cca825c1fd35e5ee5eec5358eabff68b7bd7e3e7d6516b5098073f8e537889defc2fe064a1b, 0x1713ded8be71a58b0fdf43366b4a192178c876d5d066b5c5274db330aaeb42c3c2e3e8db3db8000ffa4dec8abbd95f5),
  (0x15dd2f16277563f1bca4b61f1b7efa96156d9ff0dfaf6c10c2d93429193a8a67b9f0a609bcee4b1364316a39797a31d, 0x1632511134fff4f90dcc90f39c1614966c71163101161e35d825a1172647076ea0a8f1e0025ce087c8acd9ac25616b9),
  (0x12d1fd46a1dbd888e132e830e12e96e17eab532ce52ad71cabf57839bc9e8d8413567728c3d9514aac9d19058c0ea96, 0x102c7dcd83aef84fa75d23e0cb4c892f1246b9f55603988706a321b8a9b949f1ab4bfbbe2c638ba75b3423a6d05de12),
  (0x387b20ecfa13afb8bef0e46b13eb8ecbb85b27b8fff40580b4fbdc481129574222041439463feec9a669721c88eb36, 0x8500348391498effbf9bb987ca4aa5172a4dd613f8f02b72b7982faad5128b7c6ee87508763275ad7a43e88ae93b52),
  (0x39ecb4a67843544ae631aa628db2e5211d27069fba8433c049cf037c2b0c792c7239811a8407ee44babc2cd6f7ef2f, 0x11dcaad17066e8f78ebe7d6ed3662ba33aa02e965022c45bb4d316dd40d3ddb60b8ad25c2aee9570bc3933d60deb300),
  (0x664d1463c9ef9fb9f2303378327503235ba343d3f8713e0b46291b9c36449f7898446a14b9f4434e5e1f934d2cea2e, 0x3c0c5cb07b9897bbe3c881dd433384671aede12866549413dcf2ef7164a2bb04e26fc8ae7f32668903b52f73d6b139),
  (0x11b9a699b68ca02bebac42fa9dbbe51a521ea81205486af5365d96eb9c491672886d39b883b5cdb8e08c998393abe29, 0x10ad3b4b4d4f335ad8d4757c7d19d02c90ecd92f05140be8e724eda1065b0d632fbfb9993adc62608234556b72ea05a),
  (0x1738e1d25db5a2f54e5486a590137f930bdf567f782c60751c3da796aaf7242ae34f861bc727b5698bad0ea20d8b271, 0xf7e163939c9c6da29c455a6985b8b2d13d218e842d630143f9012f198c615683321ea8d272f669556d5dd85f38079f),
  (0x11be3f2c1a56d47ae846e061054f23aa1da150fe59113d919adf97aefd0e9fb265414e24ff781be58030af3ce2b5954, 0xe36c95792dc82730d6b9394392aca097cad3a395c34e75922ec5f6c87a3504e560f05b1423d0066880c71c17ec86c6),
  (0x1627f5abfb9229a86e053b9a0d841f074a11cbb22e7beba9a8721462e36aeed7f5a02d01e329ef3d1042a8a7a551c5c, 0xb476ab44a51d83ed6fc845a70e76b84509157f6b4f0000c539c78974242e7a37ae15af0c424e203c8de35938fdd49b),
  (0xb2bff26823bcf558b5f6c4f3947731f23ff996c34372f30882a1d06f4455ea9853929dcfc4e2a0a9bcd3c7dbf8ec87, 0x100f53b9db91a672933e3e57ff567802d4be0940db77fba5cfd3f2ba404ff4b6d0b9dcf31acb6197246f0e98d39dc89),
  (0xabea69805abef06e18bf3fc7649de0d07e2cca870c95261b7cff19d276086b0bc9e33b423aa5f5115b0e6a678f16d6, 0xd038cbff722cfc47ad3935e35255eb60d00fc556e42f8dfe8dd57257169db4aa853276ab79a658815be96b8222434c),
  (0xa42f4c8c968ce79f457d049f8faa59cb1fd7755d3479534e4dca79c04c075832bee846f445a353f3900f62e65b3d6f, 0xbef971d68ab1475c83f17af35ef6816267194b26d2a9f2185b78df4f2261259f2bf6f30d075e69e99eac2b6c78ae39),
  (0x14adc56a57161b6eb76069da801a3e45746cf9fc83db5d03a5731fccb80cffb8b3de439839f9bf0245f3bf35c95fad0, 0x14f97aab3fb031897ef0d531e6cec9b3d357440e6d5fbe6c60fe1e8dbbfa4aa1d212cba3d5715372f532e0b9580e1c9),
  (0x1553a2a228c2174c4d09fc8d4d7b6162328e732dcca4929b6ee1bcf0999490fafdfd33734a599595be34380c2d674ac, 0xc77f5b0d892ecb7338bf788238e76b9ce96732c6fecd5e0cb7a3e68e9837d4cd81e5498fa12006680168202b02ec7f),
  (0xab39aa076999b8f3ea8f8f0cca0fee2c6cd9314f9d431335f7dd1d72145fba7f840576f6c6cbedaf4529188e95bda9, 0x11c3836410d79d9ae15e5ae74e7edec7c20053facb3db652d88a5b73cd08589a38ec4429a23c9f43704144a6bc92df),
  (0x17fcb7d14da43626bb7efe308c7e5577dfa8912d472c3f611eeec10d2dd01d5f1756d63d9a3ed2e2aa19f1e9f555844, 0x86e98e379043ed0ec0c840f52af1ad5513dcdc952ba4d8be6dada76f46d7bb3de775b9884d1c427c6b876dbb65b58),
  (0x1596a621ee4e92a60681c04767b4b437ac445922e87ffbbbfd8e8c22d6ea6b07bf574fa66cb592694980ea74003ae52, 0x186de625947734c01bc8b88ab9d2efef2b6b81bcf564929802b8cdfbcfa292a440d48ab33d209e7b28d88f513e4c019),
  (0x1054f6ff6ff1b22dfcc3c68f3ed7681c86951f11f089f1ecdf67f2d30e1df8c3a5dcf189337d376c6025c2321f31642, 0xae4735641ae9096175d4f82c3ac3db3b906e5f26bc89462ebdf5008705da26e89da48eb95f766b470ff1bb0897785b),
  (0xc944fffbb33c9d3c6b4aaf2ba5792afc1da16c6f2f87d62ffb5fc2b8dcb90c9252968b1ce65a489ccccd4505554f73, 0x151c6dd0ffddac776434cd542495e8010a9a98addcc86edb67ed7412d5da89edbbea003b661e6d95459c91404244b65),
  (0xc6b8fdbf42f2543690f36cb700469dd646f4db3d906acad7c325219100ad89f027bf1233eba640f1b1012db5371548, 0xe5c270136e8049ca32bcdc6da72d4dd53106baf8dfcfd55bd5a085f2ca0618b644ed24103d5153d06361c0b3bc7e62)]

theorem crhBases3 {seed : Bytes} (hs : seed.length = 32) (h : (chunks 4 seed).map leValue = crhKey)
    {sqrt : Fq → Option Fq} (hsq : SqrtSpec sqrt) :
    sampleBases sqrt (chachaWord seed) 11 70 6751 = some (crhPoints3.map castPair, 8892) ∧
      ∀ p ∈ crhPoints3, ED_COFACTOR • edOfXY (castPair p) ≠ 0 :=
  evalBases_chacha hs h hsq (fuel := 11) crhCerts3 crhPoints3 (n := 135) (c := 421) (d := 15) (k := 4)
    (by norm_num) (by decide +kernel)

def crhCerts4 : List (List (Option ℕ)) := [
  [some 0x1317e7101e161ebf0afab34c5a0ac24ce8614d1a07e30d3114346d2a2f2155215237df40adab264938f9268f7891ca3, some 0x8287fa53dc88d7a691a5e2b8f7c6a0c1820efa8008d15e8d9def6e2256e69d5caec0f8e456e5c0e2463646b7554651, some 0x10ffe12ad13d80b33b2fdcdecc83847aadf3669ca5e35d8eea53a3b48b8e5990488371c466f4b2facc60b1af9ca58d8, some 0x1737e16cda523a5acaf9702c239ced303ddaff19fe3db0bf7625510cae51a073c8e2083a499bf60315b699ba7d13875, some 0xa3b3d8cdd4736f9b091e141c14957c901006d0bca451d6af54ffbae87c25915b296e56e3a2bc27bdfb12cc602f9c8e, some 0xdf2106894d171c667e209c46867e8c74b55c263e466d2990c3eac6a21344c4fa72b1a70638eebcea65fc6e47f71851, some 0x5998fa5fde4b6cd310c3993507c008d887b3e4fa5952a1fc6e5d83357f139c8322cc4f1333d8359b9f8c5fd847bb42],
  [some 0x10612f4172195e432627a9feb707804c43395f5ff90504d96f4091c8df075324c338a837a4deb98e69e06744ebdfb54, some 0xf85a1a6daaf4f94e9b301285fa37956c3fab633c011228fe520512d474e25e04bdfaa9290b1e733457beb63e2206d9],
  [some 0xc22553dbf81726622e4535913193384b9e119f22048f6c50bf9d42f2bc69e7636f4f43360d6e6954b2a93fc6ee48fe],
  [some 0xa467e87aaf5dcd3dc582fa4b6d24f53ea523f84eb0619301c6629db85ecbebf42ea25dba4a6a05ce13b91633a243c5, some 0x159234d9082aa9589082f46acebed18a01a6bdce9e7a48f7dcf6bd3205e6519b0f769aacfc8ca0b2da6e3bf306a437e],
  [some 0x1a60dd909187c61f2956e700f9d7b9449cca6ba72db7aefdc4b92e848677f9cdacbf8c338f55696fcedd85a11f3c689, some 0x17d1960c4dfdce9490a00dbe7cd86f16e5c005fd04e005d85433810fb21cc2680210a8041df75a496046f1b88578fc4, some 0x1342d9b7b6343fdc74b638019e6b9c365213c93baf5bc9feac9cb1243e3e5cf2aaf60d5b0514f3b421c5754126832a2, some 0x1999f54652732c4990ffb88a6dabc9e7f16aa31ce1eb648aea4be4aacdcb54264d844e505e4a7ca15b953af50cb3362],
  [some 0x15ada24fe97647d6602a7422587ae58d2c99915bb001eb3b77fa3ec87873710fbbf6029a8ba8061d03de60df429a1bd],
  [some 0x87c65cfd0e0f4279dfac2d2e5e1761ef0d222103e1abc5b8c4ce7b612069957b91828e568de62cdaf73a200ccef7ba, some 0x1a0ff449228e4a9a6a41f7c157e7adc10f0597ea68ab92115ef1b319a67b478ae4b91743cdedbee53ea0843c868d867],
  [some 0x1c6215cb835e1ccaa1f6ab733f001b52bb8e2aa6181433c795d07b4c3cfa61429a195fef7544a3615a6f65ed216f83],
  [some 0x6d21f3a73734d5a8f8d4f57a711438a2650d43a8ae0be8f20746ded9c45afeaad57ea39049d727a6fff7c25d97f06b, some 0x12f51612f8aebfdf05ada2414cc3e92c0b2644f275d87ebb85693b8160b4ced39de925dd71cafca66f68b06f88fb316],
  [none, some 0x117cc11bdbf425f9cf76b12b7b25e22360674dcf5d201515e4855d6185481af94d15a3d0f141841f3485ba17fda60c8, some 0x843caf02b55b528382d764e7d3f58e84cc1518dd31acacd09e76471bafa7ab998b673774a781013e1d71b9eeeafc9f, none, some 0xd0fdf4269e55977f5063b4550797e5083793ad5cf1ea33c74d1d4d1bd1846ed2576806ad109f695314b812dc3e069a, none, none, some 0x15f714b95df90e9c4c5c21cd1b12b2d1a2e6cab7d04ee7bd7b94676b52611d0e23726e0a4631aa07d39fd096882cf19, some 0x6c22ddb607f20de89ec863e22ed66e0f202d5c69ff3f456894c34b57bea357c66aa2a5e8494df9800bf8af0050eff7, some 0x598efd86776c0daf119fb63894c3f8df20ec8c5fe3b93a30acb77ef7a640b758fb20c718ac33eda9006ee49baa9302, some 0xfa4d3ba2c8dad92e1c125a7fd1f675082301664891efa68f7f91651aa04b9c7e2896b73b5f62e199aaa0ea51d37665],
  [some 0x4ebeca5c05a4bc464df6b4bce18c1c72e6504da3bba201ba551b05b17cb475dbce6de02693c53bac7c5359953b182d, none, some 0x18a0f3d118535f4bb498d630523d0384af61794d5d90952fe6d1af1c15fba4328677a65264b8d823854271baa994849, some 0x11eed6458621d8be80709018db6430bec09dc5397ecc7629b28cf0bf34d2933c8221ae949168afe0a98e443f5625b56],
  [some 0x1821f0c39bc056281639a2d3fc15c20ef8709701df915db45cca753b8b3dd252af81cce4f6a7a593a76b197c6a69b7d],
  [none, some 0x29edc2de54e65f478359bc1f3d3c9ac2f56167983fcf48e9bc0e92e8380c20b85186ad56a42ba0982bcc4c8f315956, some 0xcfb1e7ab3758f7ff8081570a6a3e883c5b84a2544f5144188930ad1765fe8ba233166e2595f23c40fc0910089fd84f],
  [some 0x112178f4aa8bc8e3e88966b206db63c99b93e880c54e2c0071fd7cd36a3d8852f673ba4fdf5a5ab795c7e178f1313ca],
  [some 0x910230bfb7356d89d290ffb7335237a92685fb5eba50fd73f4f2cd26b0778ebcb291005d0a483dfd0b502ec2c3039f, some 0x12bdfbcbef01fe6d0b2d2bc8354c9b19de1557172e987d06f0a1509dcc0607e72a90dafaf50ee51d7708b5a5f74f26d, some 0x123ccde8818385b01581c737e5228332e933be6299d094373cad0fc610867b6847b848afd4d7e98a1ab464353f407df, some 0x104cff2178542ffacf9d5ae8a2e762650d597e38fc36675e3c8c3fcb5922e2e29fd2661c4e5b443f80ac802fa8e7c10],
  [some 0x171853b0e17a28f99f72c07c20d78353d2047f123ce900174630dc4c9e9ef2248ebb725e3d458ea066ab1f5370e5735, none, some 0x1a229a3dde6fe8b453327382419b18c7f47af4f567cac1526d779866f5508445f324a263faac85223d27af0441b7833, some 0x58dffbd5872d4cef47c7b3858c600e9ae542827d0a299dc7eee47913e7893937c000517e518ae928c0c342ff26aa00, some 0x13bc8f327ec503cf68553104694d8c80c6ff43b45f90396f52058949ce38da78199c5532d5128762c8383e662113bbc, none, some 0x16b47248505279daa29f9b76a39fb9c8830a5ee192eeef9d886440e5b2b23eaf681a1cdaf2a32098bb66a7aa91dc56d, some 0xb7b86bfb774c2c2863a5d880b6ee0fc1e64555216ad78aec5d0c3f1f828c2e7dd860f280ba2747a6a6f25c51a4605d],
  [some 0x81aa88b61c897af86c684dd88d26853ead5a8458e3778a3d152379b3b2d8fe5e47b1fe1dd04e651240626511c27e1e],
  [some 0x12aa3b10042dc845b93c4ccd01dc1eaea9c9170522cb98b76b4076fec3d9a5d62ca141d689d558eefdf8c5bc1c6b951, some 0x20dc243ad69b0b39c98735253182ae13fd0ad1095906826c1be3d1b8b0dbdbe28a880025ada1aeaf9c850f0ef3159a, some 0xb2f95e8b6366b901b862264c88970e66b823a5fbc745abc3bcf3015643cf2080c994eb117287cd3902b0864372dd7, some 0x38d2ac09b472d9aac5d80159d4308ae88c35fdee04fec17db737ecad6e6255e4c297ba78fc957a51a58be36dd4f870, none, some 0xac5657d38a5dc457c67cc08f33fbdc56aae9390e5154401ed4bce1f378068d6c79ead9f0acf308bd25376d587db0c8],
  [none, some 0x16fc80613ed787d629c5943351bfe65400c48882a0340b2c36e60b28def7c8e23d89cb9bfa7bb864113a03b733dbea8],
  [some 0x1454caae30c6a796d2b56d1a3e4ae76ae367da5a3e21c7d128ec00198d5e2154b55cb23832b2098acf6414c79f927a],
  [none, some 0x98938c86b8a3ab0afc07f75b94bfa08d6a96f5219682bbed89ce38cb5fe13971198ff58b904a385b1e0d473125b874],
  [some 0xe1b5fb6e2e8c422b7f4626e05c4a7819eb9c83b27071f684043e6e66738f9aebb45cc4d304effab77686eb23f0464f],
  [some 0x10cb9102d9b5fb0a788d435d5b7d4514aa84ba48631f558c529c6da956b8d12a781e942751cb94c4e7bb3c39f771b],
  [some 0x97e340b093c1f5d6d721f6ce70180a3fbae8f639e597bf96af4e35cdd5515ad2b9f7248c6b3e006ad56d6dc57c293d, some 0xdb24fbd000d01eba01e61e55c9068a34b54c087c7159b8feec95bd6325393d07fe56e97c60e98f732587e5957ff4ab],
  [some 0x47d85d24f08429251a9f055abae3f5f21bb248cd9b82ddced2e069377f3811f40129d890ea156d2e1cd91e97b43750, none, some 0x174d5424f1e1c232358ad820a41f035425fa4800095107788fe271fd5d0c3b4a0e8f610b3995963172798a833e0db9a, none, some 0x1362191a2fd271363696b65b33c6b32277d4af86691d4bdabd26bfc1043f9880a88a70ba4af839891b7f660efc088f4, none, some 0x1a1e260e8592e0c3c2de5352780bfff4dd6d31856ef28cac60bae90843e80444aa9f55265ac6faf5d25f7d8ad5b896a, some 0x1a3f3251c947b07a2df8ab8f1a2ada9c79e4f4dd8fc28045d2647f6cbd26164b086c67d7f0fa3a108a799ff176beb59],
  [some 0x159ce0ca3e3b4f85c68b68339e4d9d0d42170e972dffe6f21fd9dc22b7c379916cedfa54844360517f3e1dfab48149e],
  [some 0x190037119986171113e00a68409e0406b71750fc6a76eaa3f3456d1593ae902363e01c70c1c4887302b8f4a1d3755ea],
  [some 0x941b4cee0405fefd114af99b898dd4d541eeefa021e93fd493c2e874793ae6fa3cbf0e9ce9c4162ebe11e505285561],
  [some 0x1326b7dae71f860926a00a4872ff1459a8faa3087893b408dde8bcd9d29c4a3b210f560fce562e9375a5c1d48b7c469],
  [some 0x703114e8b0afe644649199f190d70f89c9a776c9c2867e596c6126ac3fe2a201ce187c7ef8e3e60dc3fa1070e5923a, some 0xa5f9d5982d2d7a4dd730a35a3814c236d4b9c4a37fa5cd8ad117c6c586f133af32b1f7c54f8ef6884165dfa0c5aa3f, none, some 0x125bfe2fdf24aa6196c97718a395abefe391976a442e5d8df38da4df49ac4fcd660bed94b3f2fd9fb10944c0f39890, some 0x4cfc7417081b382a61d75d6662c91d60413dc435849de8fd6e7540b7f2d0d2820689e10b779dcb56f2e69ddaa3268e, some 0xefc235fe40107df9c90f8a5f8a8945330972adb6ed3ca411fa29f2f342b67851b45f6acff6a07bc667f9380b66f2b4],
  [some 0x1209dba73dd2bfd1424fe33b15d636a4d2ec83484c5ab8f9f66b84bfc014478fd8a979b761154b873a5bc5c650fafd4],
  [none, some 0x30248269843b3193d2c25693f4a7a453d572ecbaac40d8638e68e6fcfd27c8702ac8e957e5c88e50147ab9f5725fa1, none, none, some 0xaa1fac9eb2054eddd56b9118db1813847c6e3c18b8fb9227f24363b494a542f852bdefc7f1020318878eaa2bc25193, some 0x1820f96e69959a1e6a3e28a44533203b1efd3011988a6b78ce486ed6f7521a80b71149e096a5d269062982c678676b1, some 0x8190a1fb338cbc40e9ae2830f9748d82708732e4b94e3a78bc0ecf6da2beff5f3669979d6524a00afa03bdc9ca032],
  [some 0xa0b5817b73e7144a7bd6fc95f68d2e7596592c639e798f0deb657d3a0cac16f3aa2eac5b38b5babe69c5148d796a6a, some 0x5e42499be97e70c0d205d11fcbc11d610513ace6d0a7c38134646430b877474c2280b757ed41159f3b89730dad154a, some 0x1a33d84adbf4daa033b8d344fff61d96728e0f80d5f9a66c6c2b1e0be9a73228b73d0bfe4cc1acd5295d86565ee20c3],
  [some 0x29399913a34afe4430c741b39640eb51c574ca2523228e31cdb8b1726f5c648a19bf3344036bb888c5e40e6d5d3d68, some 0x153b8665e4d471243e261be7ec8a7195e52565677f397720977ed704871676a1a627a47d65c224046122b5d62bf6874],
  [none, none, some 0x134994e6fe434b6d0022f9739b23993f03123b01492dbb81ebb5505593376ad78d09867dc51bed7f97653d1cd1523f9, none, some 0x15ae2028e1d2f526c6ca5ec1bcbf3284a83b3d5fbfeaa8eeba7a8f36d5904f914e53fd9057cbd51f7e47201cfd95f28],
  [some 0x17b726c266af988c29a21abdc7f0352a61dfc9a2025c9467c5ba1fba234a713e65bd29ab2bfc1a4067a289c5809e5cb],
  [none, none, some 0x416cd0fd5308885e8cfce48127fd2b190ac4ce8f357363cb4b390fc4cf608084b6dce9283009d987c2358ec47b1608, some 0x18b74e8031e80ab35828114e1956a677dd61d4732e5faa06a7a2b4b6357a72e559750640734d39b673eec72aaf57951],
  [some 0x1896a9391b8ff36ff53934968cb4314be1af24f9713193829ad1f09591ae9347f3a6489479a95fc04744ae2d316ef58, some 0x7806a6b8a93b8348ae02fdd4815ae5ed29af6308c93f4fecc67fd056057d0d09a2809f73e46db5f8dd003117e947c4, some 0xfa8e3e30a37e8ffcf67d04eb064347cf1c334438d28ad0cf7103c989e580c0be29b2b6a2701d45fab56e3d0e0b577e],
  [some 0x16a71de6e935e6f13d4501d2a3bb9066104aec9b7d178fcc0eab3385a11576c6113134fdfddcca2f7563003a9e6fd18, none, some 0x116fc50942c60de07a6ade4aca226057cab31227843807ebf1be9bb5dcf3126f20ee987237e4c3188a9081cbea31dbb, none, none, some 0x1464d9c97f6526dc1c0ae2301be518f17a61854239757fb53574ef7af41a31c1e2374d9313b1e39b476e5293661b434],
  [some 0x11577e37f4cbc76e18a0cbb5320fac4d27ec80560203d5ea0f8e8ace0ea5dff01cab8622673d84f62dec624b7e8be7e],
  [some 0xd873ede9ec5d5dbfe60853e4e5c9e610d6aa919e554bfbf4bda1b123d715bd0e5529da1448510249e6d506ba6573d9, some 0x11803c7db52b83976e9c7f58b27184e2895db89326078ea35669c8b66aefe8b162bec4ea0e4636454aa116b17a32258],
  [some 0x5b325ca00edc20248e7466c08786fe896a8db3743497101bf02ae840e9ff4ddb99014a40c58e3d2e76d94fbb4db797],
  [none, none, some 0x1783b03fc09cbf559f8f9120f6abcf27c9fd8bb73eb6f760910d2ab2df42dd37cb6cf7751790aa054475106b00d064a],
  [some 0x13a689b4e3953d10358ab6daf20dc7bfaa13e0f07d86afad63121d49d5ea0f12417c394d74bfde3b35bf76840724f0e],
  [some 0x180c480fcaf44ca70d6792506c61c47e7ee7c62360e46a679a964dc2ad0e13bd04ded2380193978fe4d904bdffd2730],
  [some 0x372c022d3d79b85fb205f8c7f81581183119b4aae2d0854fe74667ccacb66ddcdc15fab419be8954411da307dadd5b],
  [none, some 0x1489764e9d4bab62bcf352bc9acea9d24435d12987943dfe1c0a24896868e2ed538155f4553c49430ca8df685caa6b7],
  [some 0x1f8ffdea0edfbbe7b84c11d0aa9ea959dd6c867f2f5a3e64f488416d03d5c4f3e851c52829b12e1be5e397c08e700e],
  [some 0xc6b958f31284e013f784970a4f8b8638d2979d2ecd4b5096090b8fc6786bfbf3ed1cafca7fb28bf58611e88ff4e593],
  [some 0x4eeadaeedd035f96ca73ab31be56c46438247ca79328b52a3cd47b0b2207c21e20bf43c82f7658569e52bdc800f710],
  [some 0xc2c80d2622aba6b8de00164e7442781224de6d8c0f5ef4ee09978cc8add7152ceb4f7e162be6c8b91bcadabd77cd75, some 0x3216b972827ad2d7e40ea255967345be315e22d47969ab30b697c65bf0c43368e1a33175cccfc423c83bad0814950c, some 0xada06e76f2253a923a2001c65a129bca4f644bfa9104121a2eb79936394d1483cc1671e837c8ac8cda5310b2ec7dd1, some 0x1229c8c55def65b05c72325fe0727d06fd82d07fa10c1e70b373c50256eb7e687ea1ac7106eb0b7d733eac81700f75d, some 0xbf3c3068205ba07a9b8edf452c753c434985e24ba80f30d1353e829d06044130d864647f4df54cebc6146e9f9c31f1, none, some 0x4be2c06803db58758a6e895d02c373198c2d07e79d1fb1554844f002aa27b3c76fb52d5162c577b4d7e87069a669df],
  [some 0xc1e1443b22528e56c4b16744faa1ae0d7a9bf1f3dcd61127d30c735f61ecbce188e8d59cdb8ae757c540483989f224, some 0x6da61b329f9ea807504493e0d329792d9b276412f7eed5cf2a5ce566401ae6a8815c6989003ba621a5fd7263c57bee, some 0x86043d9b20fcb334655bea66099fea2f57a4fb21ccd4475df52b6c3e704fd12632702dfafec1bc209b7c264561c753, some 0x18957f9d792262ef9309a5fb0e8d601bdeaa503b4dfa41fde22ed24b9039ed61d7d669b23207d27a5b85c1bd4a6e7bb],
  [some 0x642bbc1f5578fd56d55ba0148f6123e3e8b4f15e1ecfa1d7ed92cea9e84f672dbb02c57a4ddde55c5b9348636cc8a7],
  [some 0x11725558b91d4eea001228d310e9c01692871da4b38f0e176493c48b6bae2c31a38c6dcc7e127fdef69c1529307acec],
  [some 0x1874ff17cd52550dfce88dd8af62e083ab577362c1b8d06dff05cd8f684b41b44e722256eca03164c7ae0824889d55f],
  [some 0x152b0fc528b039067faf8cc8ba50807db71f4978fb6ac752fbaa429cb936c1441a27b8e9988a5a71bf4fa427cff7546],
  [some 0xcd6fe69d26fad2426a3a67a2a9687c3c2a4035fe09ad8f663260d47f1da7b150a3e453b24df6a6403f5ecca23f90a1, some 0x13e176d65194dcc162e596aa7522139178ac4a54b2bb6445800276b0a2bd0602b9d638490318f97b39d0ef665d210c3, some 0x10cc82b1a33e837cf09372dac518c63565f798884e2af4f221f2371bc793b0b8270779286b1a41b4d66e522bcf40ac1, some 0x1058463453fba6241185081f718616bf6fa37d2a96381c8f8e755507242a7bfeef3be3b856098bdee8e84db37e4cd7e],
  [some 0x11cd0aeb9851f2fc6bd09bebc3f0eef4c1c468c57a4d2166390548927d4f2a0b06b5a07cb22ae3f873d9655c86d8540, some 0x17c5f7d3a33c0b62512ad643153a190f7f24d602b9f922f66dd575fd1e2f27633971a8e5aff44f77ce01d8960266440, some 0x8c52b2fc98de99b1d4fb4cd135ecfe485cb44e7b7929bef0be32f2c0396ab4d7a7d68edf46d611912e5ace01fde844, some 0x69310dfa6afcf69bcb045ef67c2b38f249fca6ccf8a93337327e2da0c4150df7232925e6395f742fcfd538fca11416, some 0x2bf5dbfba36e5d556f37e97be88432e1d44d86edcd56087dbb864234281cc09c1fa36b3bc5d409b4464f780ea8ead1],
  [some 0x97548718409f8ba5125710a0bf89c422784d643666ba753b31125bf2662e707b5976f9b34cc39269c95e757d2def0d, some 0x7c863cef9c627292bd6a885f271093f94155a61db10d52e985ebb2224fa55c5e7b2f1f5195bce172f29de703932fa4],
  [none, some 0x9bb7abd3201dbe32487aa411c463bb57ab1b9ea145158fca3bed7a57af631d90fe95e0ee165b6ce30e4596c810ea36],
  [some 0xc8632e20f075f9791e6c0aaeca07425d5eb0d4c743d51a4a3060b9f736aa9dc16c08b76372dbdc70b6550670ba54fe],
  [none, some 0x6d11f8b731cd2c774857dc56285a9fe560ac4140265ce26a1c8af62e0e93710e00476e80d277176d6dad460c5bcc42, some 0x8a171556cc5ba9cecd9b66d31ca397359b91bc5b7c586af7ae2af7d98877d665ee7e075fdf12fe79ab205e0d7d3aca],
  [some 0x1b22e0b62b2386265695b4a860e55c73fa34ac3191ae66d66b39af169ebe2cf2c91c703e798bd5c763d364a3b3807],
  [some 0xe18d3146369e858733c3297a71e805aaa3ac52766630413f54dc00d0490f8e36edd6b8cc16b18678b4c3908ca0ab94],
  [none, some 0x1016a0207d6cc573eaa5afa2c1a61769e00bbaddeda8a9e6cd0dd745062984d344f87036af807464cf9cfe175480264, some 0x17b520e6b9991340ec1e1c4af5ac9a5a1a04bd3e34302eabfa09850727599c3dd1191ec6f875c4a9c1d939528638468, none, some 0x11dad517a9008d609eb4841fbb3cd9ecdb7aacb63ed7ee6894284b508c6a93d5b527040043a7973027ce565478d346a],
  [some 0xbc279f96f6abf4d8400ae8ad5d32a640e5984965ce78160d216d8b1e03f7a7f9c2ee0581ec3b9c2d2de1ad13d87dba],
  [some 0x16f718f6dd73d3301d3f36e93841d6e5d8e58ffa7a2da12ceadb1849b947769751e50db88a689b67302906d0da88465],
  [none, none, none, none, some 0x171b4d1338c07eede71b8efafcf6f49c666c07598d2dc0f6a84f61deb3518d2dcaca33534f0fd73021ffc20d41eb6bf, some 0x139c5793ce45b9e7d00647303314967d46bde31dd861b48d02155e87d8c39a18dcab8da7bde5f25ae78ac7d1be03d2],
  [none, some 0x12ca0ffe3c67f41c0fc856699c98059617da6c99d56122a218c4532893c8c60c4d6fa99177b42d2770b3d51df3698a9, none, some 0x14afec767fe4c0cac04f740032d52502b72b93ed4be0de9c537eaba3be87a6d070c73d73fa2ceb9267c1c7aa605fd97, some 0x1752c6d57582a5843276cc526eddab48a54f6ce31fdf6aaa3c0ae6cbc49579c41fb840fe28c2e90a191979c02ed7635, some 0x255000e49e4dcca320c5b16e43fb255d232bdd95df1bfbe8c3dc289079981f657b8994c7c957d0159250d3fe6fb8da],
  [some 0x3b053a64b1f33d2e9774701fbc1661677f480966fd43880ecebbc0d16dc2b87371b252e7b0e9b3fc25aa8d5ecc430f]]

def crhPoints4 : List (ℕ × ℕ) := [
  (0x93516c09cb38e3226eb25e75e002980547ed5465f1ce2fcb217218ce875aa58fb35399c245d82f59664d83243ceb92, 0x5998fa5fde4b6cd310c3993507c008d887b3e4fa5952a1fc6e5d83357f139c8322cc4f1333d8359b9f8c5fd847bb42),
  (0x3419a8b1aa8c75c8cc4ced28a55b09489cbd6dde80ad53f7956307515001a3211d572552fbd898ee9577374570f1cf, 0xb5e02baa1a1bf1779fd5ade6a711a5ade32e8fc4f4016620a15d1ce59465a2124d629b06f4e18d50b10149c1ddf928),
  (0x662330951b6373fd8c8c6824fe0911cc84f3f398daa2e83962ab6431dd9d104e49b77b925f6823a0df877aa4f011ea, 0xec14f23bccf9c4640cc08adb6fb602ce84c853def08422ce33c4ecc74cde18b39c0e00f9f29197305616c03911b703),
  (0x20a8d93af9de920a882c5c4b34d3187ebd56f87f8b5a1c5937c0ba01fa3dd56178955ff27eaf634fe0ad7c7bec9c78, 0x5516f8874266553d32d679bfb55c227a086e16170d6effa123f65c99aae2e66613f399603735f55761dc40cf95bc83),
  (0xc5edbeefcbfdbe8bf83aed1a37057cd68f19319ba05d1206719e7e9c37a7700c49b7ed8b687ca9b7c129f00a9bd7f, 0x1999f54652732c4990ffb88a6dabc9e7f16aa31ce1eb648aea4be4aacdcb54264d844e505e4a7ca15b953af50cb3362),
  (0xc2c6d950710c68efc621f54afe6da979aa83bea96d7eb0dca66422ca5d9a9261ab61cf0a4ddd5520212b2b64e520e1, 0x536021192dac6d60385e7e47199ae2475940dd45f4f4db6773be43328210ef1b4bfd1a87457f9eb4cad9f20bd65e44),
  (0x5c3c8cf8088bf05b5f7491e6b1a5e4a019a03ad629c0bd379bf15c9d7b4c1b2d319a8eb00da6d7f50ffbb45826ceb4, 0x1a0ff449228e4a9a6a41f7c157e7adc10f0597ea68ab92115ef1b319a67b478ae4b91743cdedbee53ea0843c868d867),
  (0x13d71e48346e437f3591cdc4054aaee1644deda6cc9aa83723cfc1dd02fa973165470f8321e4685bd2245fda11f2899, 0x1c6215cb835e1ccaa1f6ab733f001b52bb8e2aa6181433c795d07b4c3cfa61429a195fef7544a3615a6f65ed216f83),
  (0x15c65bb5cf04e164f35c2d123955241c17238a9fc0328338f4b13b2ed5a7cca855cd9d302171ebdbe13a8328984e9fc, 0x7ee8e4e83a24ecd5e02b9c57d50aa8597075a3d9978ba3669cce77a3fdfb12dd2ccae658e350361e1234f907704ceb),
  (0x2a94b9421f4666d3330fe7a68bb49d2286124df6032bf3aedeabcb967aad508509f8cc32b183de63239beeb2ebb051, 0xb3ed0a74fc3611981ef365eccf52c611ffd88cb86323e88f73d0ca9f68fc6398e2c68cf4a09d1eeb5e1f15ae2c899c),
  (0x79a1f8067428fb28f48829d07a2b0441e07f4e725a1deedff8cf6cb20a4996f84ddef60a4f165ef6ef2d06cd4ed8a7, 0x8f4ce1bf62f35ede33fcbedeeb062f2e18fd9f69084c2c83ca9323c6bc1ecc4ee9425ae6e975027a6fdbbc0a9da4ab),
  (0x13daf65516f3628cbe3c01b3f4f6f2acec053979a3a81ea2dadabf96fcced50585644f0930210249c6d369ce03cf4ed, 0x2c1b39de090b8844d76b932cdfed1a2a9bd082e2fbfdb3d926badc01556adaec134075e09585a74a920e6839596484),
  (0xce5661143ea3c5122c181363ad1fc4ace05b11990bbc954fd130f4ce61eb508cdea7e29d7ba705dc21d7250c27a2f0, 0xde885e6c8db7f2c6ba846962370ab2ddc75550aca5c24b066a3182a2a3497474d846d60a6a0dc4440cb6eff76027b2),
  (0xfaac68a111450f0fd31a6423b7d1646a1c9c17b6615961aec2ee8e049ba84933bfc5a5292b34035f2cc6fb479cf51e, 0x9c22b6cd1c545c87b26f554c3392fe80699b6af4a030cf17d38a6283656f7ae7a4219f320a5a550bac41e870ecec37),
  (0xb03816f366a0caf54b9f694cc557789f0bfd9bde4ca39b1d190ce39a6acf9a60b4f51632daf332c832daf71bd87074, 0xa96a54003fcdeb19413011e272d314c94d420f7131ad193b2a9e33047719d1ed0e36e26b1a4bbc8cfdf7fd057183f1),
  (0x1686b774081e433fc4fdc60ed72bd88cf8c9d8d237516a8e8c0c62066826cfb45f0b125c0150ccf722e8d21df385446, 0xb7b86bfb774c2c2863a5d880b6ee0fc1e64555216ad78aec5d0c3f1f828c2e7dd860f280ba2747a6a6f25c51a4605d),
  (0x1599f7ddece0275b32875fc4705aec746751fe31d91b85d0955d4abe830b96cbadd0385f8092872f88f89939b15aee, 0x81aa88b61c897af86c684dd88d26853ead5a8458e3778a3d152379b3b2d8fe5e47b1fe1dd04e651240626511c27e1e),
  (0x11b153d96f70cfe03736d287c42d8c4ac9a0cb1d7dd0db232fe32ffc278d5d2ee0eac9a823c4296e61ba12db9768e87, 0xac5657d38a5dc457c67cc08f33fbdc56aae9390e5154401ed4bce1f378068d6c79ead9f0acf308bd25376d587db0c8),
  (0x105a26e02136225d842c72cc07715247ef45081db9a1e0be441c8a9b34b5b3e68caeb5e770735dfa2d29076889fd7b5, 0x3e724003d7986d639eac7d37854ad5da16916ad6f1d2dc5b85017d2c19cb71f332c08a7058447a43f51fc48cc24159),
  (0x1256fe06446d9a411bab96c1a75ce7dd6289825ec3ac4258a772bfd8d5b3bab8d19989fc27efc599604f1fcdff7ff8d, 0x199e57b69944a432f6850535262fe53af3f7218a6b6f1c74dca762fa07be9dec2560091f7cd4df6fa395beb38606d87),
  (0x1748211bdcd7724edd34772252c676bb5b8af5fc62836ba21ce85c36b21d9db5ceec3647cfdc5805c3694803d45a39c, 0x115a6b9910c6d3fbb3efdc9110c899a8cb842fddf5e90d3316993f6eea966c6a5f1cd4ea46fb5c829eab2b8ceda478d),
  (0x17affa86ff75f37c6a2dbfb95ebd91e02aecfa2e2020abe02a3ba0b46f731bb802c09114e1b4c2c2493a65eb50e7316, 0xe1b5fb6e2e8c422b7f4626e05c4a7819eb9c83b27071f684043e6e66738f9aebb45cc4d304effab77686eb23f0464f),
  (0x13c6cd7d8e3f5698a6e08446efd8ad75cbb0547fb3d1c30a5ed631f12e76605b30e0ac4f7f36ed750fe0ad8eb87471d, 0x1ad2d8d0797758b15937cec36cb9166c8d831a75c6ee199c62e3868df73dc730463db5aed8ae34738ba444c3c6088e6),
  (0xb44e11d8bb26ed748b9e6f7aeabf43a8ecf06c133222f4d91d16494f89179f61db8e1c4130cc660f1fecf39e46f8cc, 0xdb24fbd000d01eba01e61e55c9068a34b54c087c7159b8feec95bd6325393d07fe56e97c60e98f732587e5957ff4ab),
  (0x28468f15843aff65923a52bbdc89b9814540f5d940111a1cc5beca79ef94aaa656084767b9eeb40d1bd45c45049484, 0x1a3f3251c947b07a2df8ab8f1a2ada9c79e4f4dd8fc28045d2647f6cbd26164b086c67d7f0fa3a108a799ff176beb59),
  (0x116c7ce73a8d67adb7056da8588a1f8916ec9bd9393d9e7b6fbe79d98152648505ce428f1b378fee09c90d7d74e87c6, 0x546c3973e15bf269d24f3d32bc6f6a460169098e15151ffcf5c46d8e8d1067003c7d9ee7bbc9fb6d14de2054b7eb63),
  (0x1a1c7c88ed65ddaddb1b177b0853dd570ccc2af35aad16da3a7c8af01f62787d95bf5b9e501f6cd589a217b711d941d, 0x190037119986171113e00a68409e0406b71750fc6a76eaa3f3456d1593ae902363e01c70c1c4887302b8f4a1d3755ea),
  (0x17f7dca4f504a281ad33fba03082ff73a987e1039480a133f456c741eac63aeeb59ec9f7f7c72295172c44b81d77b8f, 0x941b4cee0405fefd114af99b898dd4d541eeefa021e93fd493c2e874793ae6fa3cbf0e9ce9c4162ebe11e505285561),
  (0xb1a4aedb62467325531f0944262aebb64b3b55bfda87a56682a0edb8cfdc483a1cf07ff294e7ef2a59d4a4b31b4e18, 0x1326b7dae71f860926a00a4872ff1459a8faa3087893b408dde8bcd9d29c4a3b210f560fce562e9375a5c1d48b7c469),
  (0x9f6442abf0787b28dc99e9a4d73504e42cdf68d870916777861e0e7b93a651b6a7c2c3cc350b2d6de64ca584814fef, 0xefc235fe40107df9c90f8a5f8a8945330972adb6ed3ca411fa29f2f342b67851b45f6acff6a07bc667f9380b66f2b4),
  (0x16e66e734befb33e73683f1339234f238a3814f753a6909badba11f704e0e49480626efcf580a02b0129136185773d8, 0x8d9c8ba3e7e4edb216078cbb43e5d0ccf411be7c2f67ff7f8ca9e3be0803871980c5a8b9eeab48116303a39af0502d),
  (0x14475d0bc0c1426bc09a70eae9c115d4d23a3744d47e6645e198e546273440657f29d6d555197d5ea73d252141a591b, 0x1a6213bf811d81f022c6adde991b1f241fbd17fd2a97eab7767a142c32f1c102117f6aab629adb684591fc423635fcf),
  (0xba032d8b1569811196ad0790939e4327d6a1ad37f2b7a67b83483337d34862cccdb0a164c999a1e5af74799c191b66, 0x1a33d84adbf4daa033b8d344fff61d96728e0f80d5f9a66c6c2b1e0be9a73228b73d0bfe4cc1acd5295d86565ee20c3),
  (0x12d3fc006c4f2b21ebe78dce36721893e1b39bfe03774cc0851988111792379467cd50c551acc4297d158df225932ea, 0x153b8665e4d471243e261be7ec8a7195e52565677f397720977ed704871676a1a627a47d65c224046122b5d62bf6874),
  (0xef64e2c096f4c281de624b3d05be0138ef6a081844f6f462c71fd210a3ab1fbfa61fe36f2f026c29fd149d98f44652, 0x53584389a7e19859ce5fd450d55612cf9f261d04f66900334bb93c4cb0430702261d6b2a8342ae8d244dfe3026a0d9),
  (0xd32ab7448f64e0f41627711954ab9c2a2b9910e87ac01a1f66b7cf44c0a7074e0487f3888b4b2825b3c4dad833414a, 0x32c7d9f15a176203a0e414902245e87404dd58e0cf4a48a297c03417d4a0ec30af8aa97d403e5c7e8e9763a7f61a36),
  (0x14304cc2f3b08ea77b6f34f467863e343182f9c261c9eadd7125f7dfaf02e24f1a26fb5865fcbe4151b67159c9bb657, 0x22c55e14a6903f90b884ab8b0bded39c4cbcabce0f18eeb47936e456b1a0d1c1740ce028cb2c651dc9d38d550a86b0),
  (0x6431011079d2611dfc5d041b4cf23c47ff45372f81b77c0ea253a9596023551a9bc99b630b706d188a23f7a547dcdc, 0xb3ac07e721925ac94488bb819b05f34b06a6aec82288be4f825e663023c73f58e1aa8d8d8fe2ba8a5351c2f1f4a883),
  (0x8b9ce8d0598229d8f51399086afe89c704bb6fce6b46ba4ce29b156ec01227f4c93dc42d150770173a100fc8886889, 0x67eca97fcebe7d047a579d6ae2f7ac027cc19edd5dbb93cb9c13380ac7a4e3f8e7e86afec4e1c6d091dad6c99e4bcd),
  (0xe1600f8b35a849f2b7b6fda6f905020be7c2ae0d24feb76870814e73b7ae7a2075c43ae99589a88fa8a4f88e233a27, 0x11577e37f4cbc76e18a0cbb5320fac4d27ec80560203d5ea0f8e8ace0ea5dff01cab8622673d84f62dec624b7e8be7e),
  (0x6960eb28696295ef09df66d075724b1a98598aa378c8442fdc057a3c4fa1535439e0b61ff232c58d85f237ff68acb8, 0x11803c7db52b83976e9c7f58b27184e2895db89326078ea35669c8b66aefe8b162bec4ea0e4636454aa116b17a32258),
  (0x14b23b6ef8b0d5281ee1e3c82dff87de9c0e83a476bc04f2bfbcdb8b3d156a365c67c49ec354649fb84b8be93cd15f8, 0x15307e977b634caa1ac9159ac19c23c90b84c3f8cc07c7f03033747791f48b23b725bf9ef3a71c35691e6b044b2486a),
  (0x12862ded426221100617747a0d17490d7c4407907a35b6c2b287f4be7680cb92d782044bd05fd5d94124da0094090a9, 0x1783b03fc09cbf559f8f9120f6abcf27c9fd8bb73eb6f760910d2ab2df42dd37cb6cf7751790aa054475106b00d064a),
  (0x61bde7bb63d511d53fc6b55abad423a9ff8fb31218ca3abd6fddff0f2dbda4fe7288a465c0ca99024b26f159cdff18, 0x73d1aac98bbd19c2e25a52bd806cbf1f819be3f91ca89448c2405b1caaa70ef2f399af58b4021cd1acc897bf8db0f3),
  (0x10b5fa5445508ff1a74ef443a5652e003593d4e1dc412c20cd201058e178a65684c442be348c28f987e4c51fa5d4fcf, 0x2d75c51b15cc2055648c9b65db2cf332345d90cae6cce8a549fd538f3866c446bd7020afe6c68786bb2fb42002d8d1),
  (0x121b953856049581cc0bbf96d310024ebce2a88a74eb37ffe7da213c2401f42ad89ef06bb76f7e1cca27f2f6c4284a3, 0x1770e43ea8797326688ffc7a4a933ba01f1c03e56124309cf0c1bc7ed5c91923a2f47497be6417730c7a25cf82522a6),
  (0xe402ebecc3ce0c413a57a5020b1ef077e43779439d2aa443f6db1ee6b33c7ac4d798cd5c52d6121587432e645de835, 0x65a2e12df056349a6bd094a2f45e9df5df7ce0687bcfaf3d32bfe72382b9d141d347e4eaac3b6c543e32097a35594a),
  (0x19fb1016bef47581f824ae7dc3d803372bf977fb4618233e280f905eb2b7d80a791120343467d8b1eca97f9e922c801, 0x1f8ffdea0edfbbe7b84c11d0aa9ea959dd6c867f2f5a3e64f488416d03d5c4f3e851c52829b12e1be5e397c08e700e),
  (0xc8fddbef5f7c830cb1c45acfb37f7857900cac443ff0d3a979136edc208af159d6d95a23ff91902593820fa6eb8100, 0xc6b958f31284e013f784970a4f8b8638d2979d2ecd4b5096090b8fc6786bfbf3ed1cafca7fb28bf58611e88ff4e593),
  (0x332e63e6b60963940adfbe157bbda0c049df60bafb202993a33068890858c66da49b9c1124b85307a7fdafd2912dda, 0x4eeadaeedd035f96ca73ab31be56c46438247ca79328b52a3cd47b0b2207c21e20bf43c82f7658569e52bdc800f710),
  (0xfb96820c5565ecc1ea478fa6d6e47d5164a6328536c4854828feb8e83b9388507ba9c3bd7da191e2bb128cc165bfa0, 0x4be2c06803db58758a6e895d02c373198c2d07e79d1fb1554844f002aa27b3c76fb52d5162c577b4d7e87069a669df),
  (0x135fa4a4820e5d58d8fb429a433660a197304abc411abbc4a7bcdcf0e072c91123f1fecc894ea2994b5df79bc4f82fd, 0x24e24c4032eabbcd0a6b60bbb873395c3834ef4c156f6f40d0750b0105a929f98df6a90cdf82d8df5063e42b591846),
  (0x6e7f15c88d09ad5457a7ed2143485fba5a587723dc86f74676af870bb190bd7950157107cbe9db15b9fadb8ecadd58, 0x642bbc1f5578fd56d55ba0148f6123e3e8b4f15e1ecfa1d7ed92cea9e84f672dbb02c57a4ddde55c5b9348636cc8a7),
  (0x146203f3f593adb834991b19eec4dadc9fe849c7c577f57fc90603f7bcb1628f09ff60d608845b0fdfcafc203abaf34, 0x11725558b91d4eea001228d310e9c01692871da4b38f0e176493c48b6bae2c31a38c6dcc7e127fdef69c1529307acec),
  (0x15f9788aaacfd9a6ad5bb95791c44a49fad740210d9d7a0781c2aed23c5529a136e0d390fd1432ab5a842c9d35c5bfe, 0x1874ff17cd52550dfce88dd8af62e083ab577362c1b8d06dff05cd8f684b41b44e722256eca03164c7ae0824889d55f),
  (0x2e3db6a1d0b6643d3fd85675d6df74403a898b36e6bcf9826b57592c8da390d6264323f9d899b5d4130daa46f2df19, 0x5b8949c53a0d5a5e400cf3e0fc41333eb0e55b713e6719ef38be05ee75dbebd568e1b596775a596913c5bd83008abb),
  (0x7f780df484367fc84749e03c06fbc6108709d0c09983cf214d57fe625a541aa15e42ba51a95d883814a797d4407ba7, 0x1058463453fba6241185081f718616bf6fa37d2a96381c8f8e755507242a7bfeef3be3b856098bdee8e84db37e4cd7e),
  (0x13aefe0c4ea6ee22eb9b1d1f411ebf71b1671b19be9c57cdedca3022b3cdc06599d361df64df319a79e6c4da3bfa963, 0x182446a1c21a28d70cbcdd6f0b8c508384e8c6c1327bd86a137dbed85e12b3f7aebb9d8f43a2bf6d0c27087f1571530),
  (0x19f0daa9d7951cec547f7ab7335107321242c62ba96a3990a4f37d43981b9c1ed4616f2ae590d4d9713e134ddcf7a49, 0x7c863cef9c627292bd6a885f271093f94155a61db10d52e985ebb2224fa55c5e7b2f1f5195bce172f29de703932fa4),
  (0xd1f91420afd706ee29c3212e482c1583d050914e39d9df11452d485f98c354dc2e363c18bac1cf6b3f4437a5461dbc, 0x9bb7abd3201dbe32487aa411c463bb57ab1b9ea145158fca3bed7a57af631d90fe95e0ee165b6ce30e4596c810ea36),
  (0x13682531adf6acdfdbc269f26919fb216c6dd7d6ba64a159cfc2c1fdcdeffc449f82c25d412bba9a07cdc3a26c7951b, 0xe5d717f6d49af14d1c99b5bdd741f8bcc4291e39b13e74d4c30175c2d29d62559f548ccc8d242414526af98f45ab03),
  (0x136d7ea04db7897b398969f8d2dbab335d032ce106eb65bacbc824dd58f2301df04989a74c37f8a04d7daaf5725d895, 0x8a171556cc5ba9cecd9b66d31ca397359b91bc5b7c586af7ae2af7d98877d665ee7e075fdf12fe79ab205e0d7d3aca),
  (0x111badfb893cfa7aef9afa31fade25e982399883cb99f4233b09ed8b0857e7c6f7e5c7f55fea1d86305f772672f9d0c, 0x1ac88180c625eb263d59c65221b3ae552e336a83ddbf8a8b18cae94c89f5c1d47decb7d2c186743289282c9b5c4c7fa),
  (0xc93b8155b7d31fffc38efa33c431e06ca7b2c89cd29e18ccec800194cfbe596fc3569f945c567ccda51bc55ac31a53, 0xccad14d18e72653f074296f22f61356f7f2da08a8ee34ddf9e862ee9c03871e01d868b63e94e7a0c53fc6f735f546d),
  (0xab00cde96f863cd388a59ae1ca8027427705dd34c64d219133874151159c00e102068220bef5296a869ddbfc4239fc, 0x908cf49d350814bc4fbd7e70ed7b9c4c6b2f279d0794a895b0dd7ab1429ec2bbb8ed042bc5868d828bda9ab872cb97),
  (0x7c2196a71dcb1f609d2f61be9483a97da325b2673b06f6484d7477d6c855b51bb423bf5aa3bcae7d4b762ff4589c71, 0xbc279f96f6abf4d8400ae8ad5d32a640e5984965ce78160d216d8b1e03f7a7f9c2ee0581ec3b9c2d2de1ad13d87dba),
  (0xb1dc41467332157fd0f6f4386af6c2446d3db98ad70832bd758ccc8e28b4436d516b04ae08b36bc423daf40144cf2b, 0x3ec8b6a9edd3b7c4671251d91d2bccbc9480f35952397c5045b0ab1e74d096a1ed0c68a759764a12062f92f2577b9c),
  (0x14f61ca96678f2dac860521ee5821845c9f178a044d4d026c031c30009039a9366a215398f2830512579db60b304aa, 0x19a9dee83f6cb30de6aff793c6e34a49cdc1c0fe31cb1da91f14cd132308465fe2eb1b688421a0e2a2135382e41fc2f),
  (0x79fead374fdf49b21baf99bd3779197167ee87c6b5f1013de02014193b8529b5e86cf7078b9acc54681d0fc23e27e2, 0x255000e49e4dcca320c5b16e43fb255d232bdd95df1bfbe8c3dc289079981f657b8994c7c957d0159250d3fe6fb8da),
  (0x16bbf02f22029069793ec9b881812baa2835f13916e6778f94726a9a17a51e6f2ac0c1e23799fd3441f7e832ee205a1, 0x173350bb3131dad97a391504ce532d9b2a391e999f7d0071024a66ee89b8547a399aaf1484f164c88e31572a133bcf2)]

theorem crhBases4 {seed : Bytes} (hs : seed.length = 32) (h : (chunks 4 seed).map leValue = crhKey)
    {sqrt : Fq → Option Fq} (hsq : SqrtSpec sqrt) :
    sampleBases sqrt (chachaWord seed) 11 70 8892 = some (crhPoints4.map castPair, 11309) ∧
      ∀ p ∈ crhPoints4, ED_COFACTOR • edOfXY (castPair p) ≠ 0 :=
  evalBases_chacha hs h hsq (fuel := 11) crhCerts4 crhPoints4 (n := 152) (c := 555) (d := 12) (k := 3)
    (by norm_num) (by decide +kernel)

def crhCerts5 : List (List (Option ℕ)) := [
  [some 0x34595052b8696fb1718b012c2f4dfc317e90252c1441c852f77f93931d34fc539d361aac7acbbc4eb9c43fce4ac04b, some 0x77015a15a199d63b1c353d7d98f8ced59a5a336db076ae90388c23df637ca0b035c0a3499318c28a79fe35eeba87e2, some 0xbb0d4ebabf2eeac970f1e4d65035b4ecc07fc1f5a4ce55b2839df9e45cc9e8e5cb3110e06c82c46cae5df6f4de81b7],
  [some 0xa83c2d9689ce284715f18811f301a8340c857d475335c06e7dadc328350e034ec0fa2bb52b3e2e9803e18843e4227f, some 0xf848a620c93b0b84a384f2f5aee8de25e62ce4970248becdebb1a7c5665cf1f42a85a48c1fa2ff1e70631a4255ff88, some 0xb56fac4630af2c19d39e39452e1decb5be5176dd8837cb868007e91785734062c0410961b2211f913c833a2ce4fbd0],
  [some 0x493f1b662199f48e702e62ee6cfe6e9efc12ee9b45fc8494f7796ef98b697047154326a1ef115fc1e77ddae35ef586, some 0x11a52e1ca922eeb9dd4f861f45a78d1a9f9617b1244f0eb416e9205a93419611be7d78791f11623be160d250909dd71, some 0xbc9c8646474daefca00794edb3fac3244bd76b2f25d4de7bf2c71b0659d44f737e69f240ef6f22b6fc937b4d90f066, none, none, some 0x72a68a749b2c7c9f28500e3e2eb1a3335b9fbb7c90d67c6d634fe9efb42fa862189dda3bdc7e0d2572bbb5aadd3285],
  [some 0xd94bb21a0016f14a1c7461602fb1a5533a12e48d059dbfb16520f7551983076f78910a29a3af508e091cd2eefdc8f5, none, some 0x188d107c7631ecfaac5b8d82787411f5aa48d75891dedc195186a7ee97452c6690adfaee2d45ae41b7407637bc6e303, some 0xd34a672393a867c271e97535f6d4dfb71aad253af962caa7db53e95d17081603448f4cdacf01cca3ff052242a4c150, some 0x147bf72fd2e6602a2691346b5b7ad236fc836565bf6de14c9618a8c59bf715de85fc8bd8060780c49727379ce1eeb79],
  [some 0x50bcfdda13aa924231dc04b4a1b676b36dfd9d47be408ca412d1efbb6a699997df1c78bfdcaa541572ad992eca06b8, some 0xb510becb4e8051228bf47782161f059e58bf375414c8789da30dd70762052d42b2124a0c32a810edc103a031393fdc],
  [some 0xfce0d6bff8192c4792ec0c6fd570535d6848ee8782f0b059c665dd8570b0165a8546f66f97ed1a64689f5257e9ab80],
  [some 0x8afdb7cdd07a89c133324e379052bd11275f8b4741ffd649e29b853848efa9f9672c239c2e18c67296fc0fb25baf6],
  [some 0x143ec4fec64d29356f5dd7bdfe89f9b21e3ec06475b393e516160d91c7a150b59d9945a00634ec3c6950e392b9e5c22, none, some 0x1061675fb2375e1e78f6d89cc6072f06f0a5fa93e8582987cae52b822a67d9a800ba6e653b16fa9623eb0fffed9fcc0],
  [some 0x63c4ec15dbd741d6f5951890a2f717709e33abaf19d067e1995b710fc678869d703c51d0e0c3c35864c19e0bc0d7a1, none, some 0x293d55a70d6c73ead443feec196d4673134a6b9c2fb00b9bd31b5422fc7651086f9ae5df0a5b5b375f3986c9e0d23d],
  [some 0x15a4faff291e96fb199720de204282621c6c898ddaac5beb6489dbafcdbee3120ca8ecb8e3887f80ca58e041d810eaa],
  [none, some 0x15d12487638530d7216c046114bae797b2071f0d71f283054f2df8a6e74a06bfb21c66e2383ecf7657e728928535f38, some 0x809784e5033f51f847cc0761f8b999b89c06dd1e074ca70deec02afe6704140a0b75b5635edd2a8a5a31b0d3efacf2, some 0x134c99c5782fa0266a4de4740f598267219b226724e1942a5c77e7038fb5c836ed24a7ad7b62d341d0270985005858],
  [some 0x117563730067c649298c5e33b45b13b0981cba49e6f916609768e340c9ef1c1e7f4ba12e3e60aa8fc1e2992c7ebfc77],
  [some 0xd7a0a405cae04e237f993a76255a482d4e4c03fac336c571b922c60946d630de8f9bf5bb5d6ce93834298d4a4163e0, some 0x11bc0cd12a3162218aed11a11cbb19bef8e0fe8256a617c987c3c1499ad0b50a217d06876fe96638dce7eb77a8d20d4],
  [none, some 0x76d5f93058d104a9fb5dc7409d583e35ae12707a0975e7d1dfa91eceb09c51042a45146db33d6956a0ca14df842273],
  [some 0x240503fd21e04d2d2ecbf23f4552ce100f4f9e108a658b579fe063105b0afba10967f9d9beebb871010a0d104dba4b, some 0x134229ac1f6105f134ed4bf3186c455dcb3120a8c0bfe002310e8665e3d861b0cb5c03172b8dce879140a4cb81e750c],
  [some 0xd5a20c5b9369306b7bc21297ce184831d60aea3fb0549edd2d3223fcef331479266515d0cb8f533047b8960b2e9fcc],
  [some 0x15bcfd9ff67c4ee701f9da79d32f04c7ae9047a68defcb78a12bf8428b0a277510c2adfc418b085c7260791dd6d0de7],
  [none, some 0x166cfbcfe8784f22eb6fc49686e537bcacab803f8c087125cf8c43839c4050fdfdaa0c706dad5eef9922683cbc37a1],
  [some 0x870367716e122e24c6c4e45e230f5dd405acd3a6ae4649ab51447e4487ec9592da28c12edb279f539dc1e38548d10b],
  [some 0xe6a2fb1d9de0b4d45095c36e244597f7dc0bd0765e6b509089b64c7bbe05c07026de2fb9505d1485f127c8769ec27b],
  [none, some 0xf11a827f9ec81663a0442c3b39dbfa6f96576ba11c91c20abc8aac00db5d09383adf8d30448291debece8e505b2b2b, some 0x11b32a54c8d4920b4267fd5b8a3b53426768008a11c0f6825cdc8840c2e8fb82eb0202f15b36fe0a4d125937075cd17],
  [some 0x6002795a1f9e26e8587182c3e8386ef24e8ffb22b5c510666aa6436682fa75aaa35a4ccadcff52b49a2fb36e63d4b7],
  [none, some 0x12bd823b7bacb68a32ab230337c2b695d795c352d7c441190cfafb2275372da179d57abf8ce4165b84297e65599002a],
  [some 0x1537b954c7aaf8d8b9c7dd3979c2c40fc9621989e239d90dd1af7c3805aa2125608b91dfc1adebcde91d8575f3814e3],
  [none, some 0x395dffeaebb3d9f35e493ee8e1c31a68e7a58c79f1a432a5b5aa5fd048c4566ef1e0d78cf6ce66009b4c7e83b84ed7, none, some 0x16e48d242476027ef54e079d4d8c2afed607c8b3da710d78533b3cb135580abbd2f4fc5d8df02439560a30292669cb6],
  [some 0x16a8806ee4317add897bd44e43fda040a88c9ea184caf6bcea023aa5d89216fb44cc398fb35ffdbc54a351987dfe769],
  [some 0x13e4ccbea1cfdb9d5a0e1281c3ee3bab00bf8af2879fefedebbaa03a60ffacf1dbac472ba9f242dfc353418dac7adcf, some 0xb73be9d4db07f22a59c29a0b5dd54ba2eb2ca4a0477fc67fedf80fbd941964f74ee00754e453f08292ee68555dc455, some 0x36eb918ee37502c175c48e39a48402a50310c3d72edd5a49ad82875623ef3bdf631557bcc8e49fa43e731e31e8d967],
  [some 0xd8134b8d41972b8507408545f50446fadd9282ac5e6a28c806dd878b2ade57a751642a611b1589cd5e8d0d5dc4a906, some 0x7b2901da7f7507fbe556265134e00261e0bf5c333dd1420d8d66e2929802adb73d1f3bea2c84d15788b0d1b4ca8165, none, some 0x124d7f3cb30618a922a02b0d75481a932b838621db16ca3eb9b3274ea2b9f311a24460fa2c79eaeedefc71cc0702faf, none, some 0x46c9a0bfa4f886ce26524126e403eb954d2672319e4571511c60695c21b7532c342fda488629bf0c9b479dec755e7d],
  [some 0xac2f8b727ed62679439be601bcd843e8e884c3829999b635935cdeec8db4afce6091503af1d248eca54ffd3b768f57, some 0xdbd6d2e1e83072c56f39139221403c3cc0b9887506eef90e8180ab26c7cc5664d3a60782fb44301b0f4a2a9a702332],
  [some 0x1a6581122b1dae264794c395b41dd76b8707d09760a5ba668541810e6abe60ebbf308ff37cf1133f1c0ed477a15ff28, some 0x182dc5cec68c01869d944d2ce0fe8f8c77e105ca2754e9a23e0d5140e9694b7a64754b79afaad97c931fdb252cb0bd3, some 0x47e0c830eacaf2771c56099f0b398772691d76afa05c89922f4dcde96315deb001b9db2b30858b01f578da55145520],
  [some 0xd70caeb4350adeacb448196b501e61c2659f91ec40263cfcff0b345467683ed6959ac393a4a6735d25f3be330962c3, some 0x13ee345378af5153064607414940cfdcc5d2d74548db95950cebc09ca7025109f17ce33cf1b692e6a5dad7d7107aa89],
  [some 0x14420bfaeb1c52fe5f1a1d1c5667ec4ecc7d0bafc56de9f2d73479e0877a8e2014755829f85a82cd0910df44ad253e7],
  [some 0x147d98caec468ea8d0f48e24eb04816acb4682e2103f5168177dbbc0c4059555df2344da5aa1b5c5ee303bb53a08f20],
  [none, some 0x12799fc355f66177ffc93548316449f5dec7de038b02d39239eb252bc79e7b2854e1b0df12368339489f15c964ac8db, some 0x5e2231596dccd6d6c8bece2db99e05313a0dc6be801c893775136854d9d18cac582d1cdd4f4f9f90237301e055b85a],
  [some 0x8f31f5691fe21a84f1ba239e390812d9b8121310498d72155aa0f64933cef0405b41759a08d6b98f8d6b8c43ad7064],
  [some 0x329d30e640cff2b5574606ad60a16231abd2f587823d3810b30dcdc08fe79400d3d58e27cb156ec5db19d1ee3646b6, some 0x14f961e3609dac13dc074890c69acfdd214a81bb7f1cc66afcb6c744c14e33582933171c8f5f0ac4cd372830618222, some 0x142a45415b8fed9b419b0d87ca06c1e3e9f19681844be73a52b387484f2d3cf1e012575e8259def3784d5df3a508a9d, some 0x1991caf8d15cc691aeffeb49b8c7ed378edbf77ed57768966d37eab761e235b8ae5939fab0498f7c1e4ab01ddb02070, some 0xc3a67db46484e7854b9a9edfb6630247ac6d96940ef037f2a2b95d71be436b13011fa13f358deb510464912d246c88, some 0x90f59b71cf30490b3771060f1b00a078b7b0deb73a2d9ebc7d6730aea2ef6ddeb728178c2b5a174593e75b43d30db2],
  [none, some 0x4edcd31e5bce430df5d23270b23c60fd73b9f962fcd25f17b236eba2cfaafa2b3ee38805abdc12eaac1ca1dc4fcb82, some 0x198451b06dc4e9d6e348fb846447854433748e73d4f2b71bfd4f7323d79f70d37a9cfa6af01e0aa6ad3ca3ff30367a7],
  [some 0xe581e1a979bb04f3a621333d85aecea7a9a476612b28a40b2e8be3c55e67ee22bfd7172f24d6723eb676c7b30ce250, some 0x1a795088c96739670c72978de0835e2f4903461d4bf4dd7ae42d391c2ac575f29cab21d851c4039a28132db3949f87c],
  [some 0x896a9ef154daa0e501cce86de49acf5fb97175e4205e5548d433df37134a7ed57604e0cf1532ac00b085b13a402d5a],
  [some 0x138f940c8617bf2bd478c032322ec687a8eb3f1c5513d7452d3d4c707ee30b386298a9b38bed3d9050282e2d703f6a1, some 0x33168dfd367694764ba00df4082d92d4080091e4cc0f61375f262a5d835751a9b91ded8685c362602259ef6f1484ac, some 0x56fd99856beb5c08219eb5dd854e33fb4953b153c431acfe7999331c82405613d3db16384f32424b79f92f3d515890, none, some 0x7b47ced59745db9dfc194d656b452082a7da9346c6da0e6cc40838a0571f93069e89aa0d80512f116a074578f0d55b, some 0x1936dc8af14db606c06c7ba0d2135e103f05ee16b1855777c4a410c5dab8380a2a8c5ed61da71eb7bd3a205615dec20],
  [some 0x545dbdfdabd65b4d8a54df246d6e65dcd0729d984a43e2fe46acc6bba58abfe53f109bd80e4832f17dc479af317a5c],
  [some 0x196118f68e027d49d215f598458f968ea5c728cb68c1b4df483d9e4a02b80502214102643c0d378c89e26f87ccee593],
  [some 0xc72e82040e2b3110b832010d8530b85d5ef461af0c4c9d24edfd8f8e0a954378b7ece7e263102a55e744fd9d6bed62],
  [some 0x470ae08c77355248e4ee50fe63082f16a872c47e2d5b4404f5bda6ed853962c57ecb55bfcaa3296e9daaa4e6a659f1],
  [none, some 0xef034e5c85e9000ddfe41f8916ccc80e91370acbff5d76f89921c306b479127d992f3061395f1e0d472a58429f5eba, some 0xc5e01321d0b82b47d68945a09d99136758c9a69bc334b4cf0a46b90e022554f2cdb607826f41db4728084e3a32395c, some 0x5be0e33ca9a1ccd4bf0d99884670efd3e4fabb23a7cab7c80b42a1a0582a74c6c4b535b4c97dc88b00957bd5c99eed, some 0x1a689450377f5ad666bc44b9adf71f8ef4d801fa07f1b0a1ab6ebbb83b64c6310f3257cb05031be4faf88ba5ad24272, some 0x348dc309f3882b68b71618b5bdfba82effcffa2a550bcd0c312635f09015e68d46bab9648cb51eb3473fb8dd80aee1, some 0x1572ade2318900d97f20af1480b4328066f216a543d3291de732b90725dce2a7700a3bd7c222d1dceb2d416f3ce527c],
  [none, some 0xd9667832fe59448953aac59f8dd0a61358a0e176572a4bd04a0c2b530d8bde312c73e497442025eedc97cf7aa75044, some 0x5b0db2e12e0c51691929ddde222071103b6c878121bf32b4cd9da002f0dc8500ef77bd1e180af5ae3de688b3c9c7c, some 0xd8b91e1f0d24fc0d5b456f8f05467ad80127ceb3c27699cba3e5d3a4d2aaf19b8167a17bbb181484300b71d559ee5d],
  [some 0x1851acbc5e90c0803fcbad45156481664088dabecc10042255842b8d578288ccd5b33507c9a6f472f07378a34ad1f2e],
  [none, some 0xf6142df29a596220263a31d2b32d28df0b019168aae606604d6f789f0a761ac788237d991e3f82c73c275fe2c09af0],
  [some 0x3ced04be83a57534ba22febb4abc3a6d61761fb38e7ce00908473e2bdb8a43b88e02bbe7bba8735efcf2042b65a409],
  [some 0x8ed1d5cb4f18acb41ac99679eddf2d7e3a2ccfb3bfe54eb5440211a7a62d2d694dff929110f583c9d186880a686507],
  [some 0x108cdde7adb876a3d1feeaf4aea6faab088eec5e9e5cbccefd232f8cb1c57ad7852686d9d8230ad7aa0267060808aff, some 0x50714e9e1d67a67be37d05f4e0b8cc7c5ec7ccdc0f8554bbeb0a31c93e0f8ba60af39eb898ee39ad3fa56c56e0046a],
  [none, some 0x155fbc883806d1d5e9dc3426ec15a4dea03661355991feef4655ea71d09c78a6ca9979ddaf4239c421359dd62f4a59c],
  [some 0x10252101143879a2e05af42b844b3d0b03ce6175eb8c805d860d63336d33e37824aba1f432ff127584075bd5f4657ea, some 0x5c4834c3a331809211d9d85f2b43c0e91fc8d63af766c6263a09642087f905f30d3dae8f62abb8544401db11065250],
  [some 0x6bed3b79712a0fedc207a33228aad3a17b3a154bf8561c91501b9bf1d286dcd785fc0c45f50c63c90f60b8245834c6, some 0x30b46ee2e20152e80c40285d34d24dfd780003c0f78f6b21b94e4b01f2a050ea808bb910c7dbaf5c0ac216eb10ea13],
  [none, some 0xfe16d52e689071bc1c81171034bfec9c8ce1b3343c846eadbef4a1e11daa7f7488261fcc498773cf004b77ced8791, some 0x3a9734d60f5f42ad59a5b0f7b9fc94f104f5d16a7c3c946466d7e3b9ac28b9b1728831e90dd1f9f1f25d077cbf520f, some 0x7312fe70ece0be14f9e8ec36636605321f53180533512ac8f1547605a94592a90114aefcdb0f0811e924de1de9b73c],
  [some 0x170146332d4454129ecc830ebb78b4e34d9f3990121f653f80cb92734c44bbafaa1b184d1162f06016c1abf01636c43],
  [some 0x9c5da1a82e9ed3fefabb7dda0870088b63bbb9072bd1c8127b1ec71b06bba2794da52bcedf13ce976828130e4e6607],
  [none, some 0xc97bf1a8469daa33f25edd52f102ad1d58e4bedd102cb4e78376bd6fa9a28ed807a2a7fcbd10fd6272f29b015bb611, none, some 0x135156491b8a57ffc0c1f16117c7c6789552761a37e66702625791536fcee9e0096b31a6667ef7ef5cfe2cd763fdaa5, some 0x9594132a78195903abad2bf76bacadc3176a6e990328af50eedca1e3407734974a9417216ee6e38fcc45606d9116dd, some 0xf177c8c6e713ad1b196f832e42fbbdafdc14af42772d179a81af068483568b158267b9b50c1eff32d044cf8165be74, none, some 0x1a20da8060877e8191182d87725d33cf810e896dd9316b34af12899d314c97fffca5d4d03c066b86ca152727aabd876],
  [some 0x180712c53ca21b039a7ab330e9cb8043a62107f95547ee43faba35531a312845bb6b9ed2286fd74608188365c83c3c0],
  [some 0xb46933b879d275fc971111041ff47e8928544a586025b1bcb1e7f89c147c851c2aa268d1277ed0829e77455ac39d38],
  [some 0x45dfa4b0434db428d9e75dc64f9bd8866bfb829abe05bbee70c04cd2877bf407fdffa98e354646bafdaa6de7c8e5f],
  [some 0x1305009a030b2024f22329a8cec1dec22a866b43804613c325a9672088758cfc0ceb5f9baf3577ded19fea8305f7b5],
  [some 0x346615e79bbe0e6062b0433370be8fb49a8381c776a28bfa19760fe5c084c60a6163521ef58f20b15b6574ae5f9859],
  [some 0x530782bfa82ef7d271d6a1d808c15ab6fd11f9696abbb1731028af40d016c2f53d80e5f9f31873bb6c436fb2daa0c],
  [some 0xb3d364db2b4f5584bfebfb363f9147dd66af29de6895c57b1102d30770679c019b71eb6dd732b71b3b8456d5de9f51, some 0x1031bebc543c8149a337b2c38759bcc2a3326efbcda4ec41236d7cf28f7d3a27e224b6880778285a094218fca0cbad],
  [some 0x1b119499c59fca68f95a7faf633accc331c2aee0e1c150370b05d1b43b764b929e6c62e025215091bbcca0043ec033, some 0xff329d733e09fb3e00b8d2e4d92284975a6f24c63b1382dfedf77d7ac0bd58f73527324056560f4b7c4399e309767b, some 0x110fc4af308078881a8f1a7acf65a8084e1631c61459565dba313fd7daf673c6f1b08ffc1960be69ce3bcd019d27a1e],
  [some 0x16922e6eac84b96804831b6347f187d58381ab26d873aaf4c8d05a51a58d0cdfff5d88cf55f729028dc7e0b264bbe6c, some 0x524e92bf8431d7338c8aa0745e7e342beabb29c79a2b960865747a3c640f80d6e8a55c1cac8cd9a6047c17acdba2f0],
  [some 0xb1d4a2dc2f666fc45b178e109900f05ea8ddc4cbfa7dd12fe41b20e97a5ea5c637582d82788841354aced1f73158d1, some 0x43e59d1ae071cdc2000a1f0bdec88587e422290d7ab13f25694971dfa2681cae73f24df71c453d079ab2e38fd461cc],
  [some 0x13ddff5cd1136fc5783f94e0a1831a6c803b0cd698016676ca4432268c06d4237c680b1f97f790eb465e95fa90d17ee],
  [some 0x15412cf086e8e0dbd4dbcd0bc58aec1acf25ee29456ff2cd1d233cd933ff7722ba63651e2cf184ffcba1803d8b56ad9, some 0x2dd5038cca82d319abdaab6f4d102c1915a03e92490cb9bc58ea94e9ad652596ed2812c611e2c60368eb27e77138c2, some 0x18ef9511719066be4c5cf46dda8e85648583aa841df6d4a79f06b7cd0adf21a64724b87bd6d8ecd31e20f1180d43d04]]

def crhPoints5 : List (ℕ × ℕ) := [
  (0x172fb9038b5cfa7fbdf5e5a3af91ce5ed4e8db6b401d1105455531291d4a38d12eeef250964950edf2e00f9913ae52d, 0xf32cf75d05e1fffcca13db965113862d625a310b5045396c6fc435d5ac7e1731402c334f937d3c185a62090b217e4a),
  (0x524b5b50c36bef65f2eed50827b19b3e9dc4ecd8f7e90dce5d328d6a3cb713067d44d84c1391997485a5c8da823ae0, 0xb56fac4630af2c19d39e39452e1decb5be5176dd8837cb868007e91785734062c0410961b2211f913c833a2ce4fbd0),
  (0x1562c401db62f5393ec21f5323b283d9e2f61fa39be43263d420ceea9bb96696d294e64cb37325ae5cf6e631871611f, 0x72a68a749b2c7c9f28500e3e2eb1a3335b9fbb7c90d67c6d634fe9efb42fa862189dda3bdc7e0d2572bbb5aadd3285),
  (0x5325c5dead2b16a97263b79fd9f7dad31e235fc97082f53689f6682257bf1f18dab682554d65516fe4797486ad1732, 0x147bf72fd2e6602a2691346b5b7ad236fc836565bf6de14c9618a8c59bf715de85fc8bd8060780c49727379ce1eeb79),
  (0xb65915a20577629ce2fe2d5f989db07e974dc901817af29f81383e57a8669a0ac135209012838fcb97bdd1452ed800, 0xf929874c769099a3af1148ea8b2a357bca1abbace04b1681505458b2a742d2d4594afa23cd57ef9747bc5fcec6c025),
  (0x8a66d7f33e33b7b9d4a285300ff1a1f253991f4e7d52ac6023cc0d8fa1f284cb22917bd16cf97a27e1eceab2e9f400, 0xb1596f57ccf7be7ea819b3fccbd8e7bcba9104797222dec52cfc52349897e9bc86164dc06812e620a020ada8165481),
  (0x14743343e29f7e94e8e282620c00f53c72c075007735783c083e5c20a6a7533a3154fbb324e37469bd54fa4ba7a919a, 0x1a58a6a9ae809422a27d29b8928440f491063fa4c80f391ba5538776684b9057774ea81f63d1e741ddf503f04da450b),
  (0xb61772abd846f4ad8dc16aa663883ba1a9eeba8b67ba27b216ac7f2771f2efd5230579dd658f52b9b0ec6d46bb9b68, 0x1061675fb2375e1e78f6d89cc6072f06f0a5fa93e8582987cae52b822a67d9a800ba6e653b16fa9623eb0fffed9fcc0),
  (0x8e0337cbc723f443b9ae571cf9561119a60d67b21cc788ef2d62f6a889ac19cc3d442291c138fdbe996991aeda1ed3, 0x293d55a70d6c73ead443feec196d4673134a6b9c2fb00b9bd31b5422fc7651086f9ae5df0a5b5b375f3986c9e0d23d),
  (0x14f21a2c631e4d06bf8bc12cfd96bad9323ba2bb2aa7d2539bdc437008e7df2ec6de6d91bac7446d8a04c06b0287767, 0x53ea962533277b14a193b28a9d2114f85c115a234a4dd068aac474bd2d59cef640ce78a1c77808786331fbe27ef157),
  (0x13ff331662a0aa4cb85c7a9529ddda262ee0a72a62e1320e4a47886990d95b85c046b3f64c2d8006981ed36838adb99, 0x134c99c5782fa0266a4de4740f598267219b226724e1942a5c77e7038fb5c836ed24a7ad7b62d341d0270985005858),
  (0x2546216864d34f6738a89b93f781191765e7a54a4f7242fc50837aa35509159a8f009fc13e4b0235192726a923477a, 0x117563730067c649298c5e33b45b13b0981cba49e6f916609768e340c9ef1c1e7f4ba12e3e60aa8fc1e2992c7ebfc77),
  (0x681f17c18f54605289f939c83f58c7d9edebc1770fa241bc8f8665d88119706a1eb655ec54c9b33abe68321e05acb4, 0x9279790521fac8ad8c34a65ad5979f2a94ca0adb8ab2128677261b205c3caf74f38cdbb901699cf73a41488572df2d),
  (0x2af182ce064241a3b1168943e59c115fc47189074b17d8fd57ce0457c71676d99ee7e991c99297a1188091223ef675, 0x76d5f93058d104a9fb5dc7409d583e35ae12707a0975e7d1dfa91eceb09c51042a45146db33d6956a0ca14df842273),
  (0xecd78f61c44fff6c940f4106d845d9b934ffb82551e2f26b8a4862fefb75e33b0e7d5204caf20e0cf671e57b46a4e8, 0x134229ac1f6105f134ed4bf3186c455dcb3120a8c0bfe002310e8665e3d861b0cb5c03172b8dce879140a4cb81e750c),
  (0x1046ccde2d9d6d7746569b88751644d8d94fb06649a8844b257fa524c9766a3d31a487df9d20ea05decc66eed33f032, 0xd5a20c5b9369306b7bc21297ce184831d60aea3fb0549edd2d3223fcef331479266515d0cb8f533047b8960b2e9fcc),
  (0x1654c25ee83de669d817eee47c0510477eb5978d04fafbb7174ff6b998e98bcf2b9ecc0e38be94510d2b04a7a334338, 0x526a6c185d4bfc561b6818cf6e58ee9f39d578981616d794e0a2ab9158a588c5ff32646be74f7abde2b86e2292f21a),
  (0x61bc2e9a266c1753c38d00468aa0b7f3b3baaf4f91b2dabd94f330053784ebeb62f1b8e39599984624ba28d84de7bc, 0x166cfbcfe8784f22eb6fc49686e537bcacab803f8c087125cf8c43839c4050fdfdaa0c706dad5eef9922683cbc37a1),
  (0xd9fc4eb512641676884787024a8544222f94519df9a324834be7f2713635efd735f495f6c32c837035c195d04d7513, 0x12736dea656febca17440dc0e7e39dd461d2d1f5a46cd4573a21db175815b6a843134830124d861316afe1c7ab72ef6),
  (0x19d857c1fe0c70dc5e1cc07373d983ee335be89179d5aeed4ee62319c4ff79bc1446d10451d750b1ac871cf92dfce69, 0xe6a2fb1d9de0b4d45095c36e244597f7dc0bd0765e6b509089b64c7bbe05c07026de2fb9505d1485f127c8769ec27b),
  (0x1970e03051d7d33b81d6f81d4068cc62726d476e0794a3c513b949d460fa2928f6e2f9088fadd184f37db64d865803e, 0x11b32a54c8d4920b4267fd5b8a3b53426768008a11c0f6825cdc8840c2e8fb82eb0202f15b36fe0a4d125937075cd17),
  (0x101f177c7969c347ed49755f4f269fdc4069561ff73f7e92c8ffc69a016894f66a375f69bda307800eccbd9539d226f, 0x6002795a1f9e26e8587182c3e8386ef24e8ffb22b5c510666aa6436682fa75aaa35a4ccadcff52b49a2fb36e63d4b7),
  (0x742937c8ee97f7e5c84eceec398979ca7b0506c283996a1b317f6456844f3e272a477a586c50be9f427586c483dee8, 0x826222600a45822310539039251dd1bca97dbdd378cf7d8e23b27d92b5d525ff6e05983731be9accc62819aa66ffd7),
  (0x15304722ef3ee31897ffaae48abf9d14da97b21a18f8c59f99e8466154e90a7264a00fde52ff916632dfb2aa897e09, 0x5abeb0cb4a615d3a9e87ecd5051cfa1d8cb85a62d175fe41d86a6c39aea5edc102a42633e52143a676e7a8a0c7eb1e),
  (0x56171efa7a0c00aa2e3519ef78aa599c986ebdf2eddd56586a1bb1a540c2fddc1a405e44a1d443c77df2b066afc488, 0x16e48d242476027ef54e079d4d8c2afed607c8b3da710d78533b3cb135580abbd2f4fc5d8df02439560a30292669cb6),
  (0x85887b1867b5dba6c192e4bc13fb86445f01a86768bb2fa252d3f4c359aa6324233fdd62ad6c1abef04bac2ae9361b, 0x16a8806ee4317add897bd44e43fda040a88c9ea184caf6bcea023aa5d89216fb44cc398fb35ffdbc54a351987dfe769),
  (0x12ba62b56f1a811700d59ea3e0e88e8ec8de56d73e744f8836855ce85ff2db4867334833906b81606bf1e5186c31b61, 0x1774eb488e19be804c5413232fcc538751fc92f29c63634d545dfa863e558c437a847ec73371b60e0ca4ce1ce17269a),
  (0xf03c24cc461a86df7ec45cc2fb1dd32fdcd368ec7728c1bda386d762451cb4b9b9439e73f8a3a26dba5b04157df413, 0x16770a558201863f814b37f45bd454f84d5b380cf56ce1dcdd701c65de790acead72d69e779d641786d7862138aa184),
  (0x15cb1186f7a35d12b10f5308983dc5b40fab39dce7ee84536329df9d9ebc5adf6f67c57e9f9918e58175324bf8bcecb, 0xdbd6d2e1e83072c56f39139221403c3cc0b9887506eef90e8180ab26c7cc5664d3a60782fb44301b0f4a2a9a702332),
  (0x107f7605adcd44a6463509624f0ce4de97515e4917fc992d5a0e9cd440ac757d7906ad2f770373e5c7169e47906efac, 0x166597de6da45f84f1eafb6cd960fb3a7b9bc7c5154b7058cc41461d0a632216709a36904cf7a7583134725aaebaae1),
  (0x185df791aaeba73979791c6cca3b0c8a9ed0a4b1e25fa4dc559315eb830ab058daba35984b8ced903c50b260a35e717, 0x13ee345378af5153064607414940cfdcc5d2d74548db95950cebc09ca7025109f17ce33cf1b692e6a5dad7d7107aa89),
  (0x10d4e4a259f270a3564f6ba7140a8814aa0fbe65c73730398d309b3627bb48f3e0ad08f875933b2cb35cd2dbf93fbcb, 0x14420bfaeb1c52fe5f1a1d1c5667ec4ecc7d0bafc56de9f2d73479e0877a8e2014755829f85a82cd0910df44ad253e7),
  (0x19a25615d78d3393fe73885c04a20ab1dffe14338bdcb31c40cfc56dad3bb92145638b25f45f3e044c4f4643e6d7d44, 0x147d98caec468ea8d0f48e24eb04816acb4682e2103f5168177dbbc0c4059555df2344da5aa1b5c5ee303bb53a08f20),
  (0x96353cfa04b2949c0edab0680d81f6f35e0b4fc2c8770c7fc5c2b449df55e54578c5781fde50d85b0d4f7f731a5a69, 0x1501814be574413ef7246f23ee7ab35e8e8cc2c4274f705e77e4ec7652f76736ab3302752b0b060f4e54cfe1faa47a7),
  (0x1223286bcd4b7b99abfb1b3bc85c5761a5b2ab65d7c8070eef5ce868ccaeabde3b287834856161611f56ac2c25c68a9, 0x11f0850aea52ed041494b9cce684128406ac7dff0ab861d0998c13970d5790fd6b01bce95f72946f57b5473bc528f9d),
  (0xc0fcce02f18c7723fa7c2c610ca9cbe64b5f39fd8dcffaac3fa826aaedf6e2a0b908a7cab17d689c17634644dfc888, 0x90f59b71cf30490b3771060f1b00a078b7b0deb73a2d9ebc7d6730aea2ef6ddeb728178c2b5a174593e75b43d30db2),
  (0x1c8f2df3eb4788f77ca170f190b97fe6fd35654507bc5407dbef5ad1cfa2662133d382a6f04ac862d3c1f5ff0cb412, 0x198451b06dc4e9d6e348fb846447854433748e73d4f2b71bfd4f7323d79f70d37a9cfa6af01e0aa6ad3ca3ff30367a7),
  (0xe75ff9bedcb0c5e85e4a301c95d62b5214948d62464b75473dbe1816d99e3a26eccc0169b780adcb59ad029b263739, 0x6a53d8b2e9d545573dc478e9913582592a5912c35c5b770b08e9df75cf0a0ed40ab26aae3bfc6e2878d24c6b60785),
  (0x502264fa155002816fa6b69f557ced5d953d4f4244dfdad5a88fa34afb733730d06adc173190559dbd9a7e5c591258, 0x896a9ef154daa0e501cce86de49acf5fb97175e4205e5548d433df37134a7ed57604e0cf1532ac00b085b13a402d5a),
  (0x1a57ea7bd79a1f3ea17be906fb12bd49bb140470acc67876fd79022c53ce12697037ad18a9d14d0e91e16e54b935d6b, 0x1936dc8af14db606c06c7ba0d2135e103f05ee16b1855777c4a410c5dab8380a2a8c5ed61da71eb7bd3a205615dec20),
  (0x9777ef6978ecfb16477b5699809a27fe236a08ab70f5d1d19a8c776a2918d717ebe27411f42b3687dbadefb3f6816f, 0x545dbdfdabd65b4d8a54df246d6e65dcd0729d984a43e2fe46acc6bba58abfe53f109bd80e4832f17dc479af317a5c),
  (0xf310944a8f0d141ad330fbbaf90e171b3e700b1df190688aaf6fbbf8c45eefad1e053ce047a6f8ce3c6aa9fcebb98b, 0x196118f68e027d49d215f598458f968ea5c728cb68c1b4df483d9e4a02b80502214102643c0d378c89e26f87ccee593),
  (0x7aafa2e3c72f0fd37980ef7725c7600591519cb30e07e9d1aa9773d871a397a964d0c92f4ba981cee5c1787160f3cf, 0xe70bc413b6e5b9b582d3bf5f1c1882bcc3e59151e8c6f1fa0564a02bfeb2bc9e53705c4d9cefd62f217b026294129f),
  (0x1519512c67762deb73550e3dea99b19b059fe625238cdcffc90754cfdcceb264ddc60972bc318bb81b83afe2cac6ae1, 0x470ae08c77355248e4ee50fe63082f16a872c47e2d5b4404f5bda6ed853962c57ecb55bfcaa3296e9daaa4e6a659f1),
  (0x735b7456c3a659024729e1381b7f81b791e32e1a6c3eca8c3dac7b6ed7f965faa91ba840378a4ff223a26099aec939, 0x1572ade2318900d97f20af1480b4328066f216a543d3291de732b90725dce2a7700a3bd7c222d1dceb2d416f3ce527c),
  (0x12e28d2107fa18fc14ac4b8af82fd1cdad7b54a644a44cd387437875665781154e37c33dd8cf7519f35fa005ed5e45d, 0xd8b91e1f0d24fc0d5b456f8f05467ad80127ceb3c27699cba3e5d3a4d2aaf19b8167a17bbb181484300b71d559ee5d),
  (0x19bbda2d9930dc7429c1e4fbde13c095a5353e88b5b91c350a3111e09bfe97501dfca16d02856dbddcf3627bd2a0687, 0x1851acbc5e90c0803fcbad45156481664088dabecc10042255842b8d578288ccd5b33507c9a6f472f07378a34ad1f2e),
  (0x6d5acec9f290958107acac4f853af40cbf1901149b0a495dab32671fecaa4ec879e7cb24264a2fe7fbe55934683bb1, 0xb82618252ab788a614cb8e99ee1c123b17d861984a2d88bea5f2b71afed1e54f8339c696e1c07dbdcc98a01d3f6511),
  (0xbb10194623224fcf94862f85281244cfd98eceedcc9b422eed909c3f8ab3b58a47a2a9c3b7fc0e9b7ad5bc77e716d, 0x3ced04be83a57534ba22febb4abc3a6d61761fb38e7ce00908473e2bdb8a43b88e02bbe7bba8735efcf2042b65a409),
  (0x1fbd97c3621ae7e3dac845f2b28cc8a971ada2a190b37f4028b4f522529e817e2dda3e0f8d5b5e7d8800937511512e, 0x8ed1d5cb4f18acb41ac99679eddf2d7e3a2ccfb3bfe54eb5440211a7a62d2d694dff929110f583c9d186880a686507),
  (0xf4333ad80744578027bf1552773d08bc73da3d5cec5ede61111fa2cca15341d5eda636708c30d4de6115877d418c54, 0x50714e9e1d67a67be37d05f4e0b8cc7c5ec7ccdc0f8554bbeb0a31c93e0f8ba60af39eb898ee39ad3fa56c56e0046a),
  (0x111c4129951c51cb11661c32a2aa975235c43a719b9c58ce01e4d9f3c112ab3337f737b123d4ccce9c871a912edbd5e, 0x155fbc883806d1d5e9dc3426ec15a4dea03661355991feef4655ea71d09c78a6ca9979ddaf4239c421359dd62f4a59c),
  (0x122bcd530d33b42d29feb9c6dae7af370320a5738f9ec6ec2a1cff1877e42aba4dd97d565768e960eb30ce36923fa44, 0x5c4834c3a331809211d9d85f2b43c0e91fc8d63af766c6263a09642087f905f30d3dae8f62abb8544401db11065250),
  (0x1000a389bb6bde689446041c9328a826949a5fca51320a32240fd9d872db077958bf4ac00cf672ca45d2d3bd85d96c7, 0x17d85d734e30f97de2ec5980f6c76ed1caad9ef3ffd8423fd3a13e4b816a7af2c8ad18b1f38245128fdfde914ef15ee),
  (0x3de958d3529ead365417eac5813dd716733942747b44a16f938d0963bd1974578e170b004abd900d6743f18e7e9ba9, 0x13b2747a6d8302cb1411cd4363de335e80386dafbc1c26456020db9b460026d6e0a48953324f0f8731f9b21e21648c5),
  (0xec1ec84a1869a10d462ca21affff7d9028fd0ea83db7d4897ed4d44dc4565117872287651970e1491be2ca412b04, 0x3e25e2e4f0cba99c4e3d8f80e9bdece548e659ffd31d3b26e6a9088544fc451c69abbf5ee9d0fa839ca540fe9c93be),
  (0x3cfa99fa19643c37a5c8085355dbfe1a7035c9c629195613e240ed6bf49ad3c379a50fd3a7bed46d639244826931c8, 0x9c5da1a82e9ed3fefabb7dda0870088b63bbb9072bd1c8127b1ec71b06bba2794da52bcedf13ce976828130e4e6607),
  (0xca104d2203828ca215fbf2594404df4981fdf9b83d1d3b481dd20d523c2ab14c790bfff4963d372a18641fff607592, 0xc2c9e11bc9902ad2982e7f57b75fe2211f15c2361fcdbd4023995e6f47e801740fff72c3f994818676d8d8554278b),
  (0xfe5c963df30206524002aa8fd48d4f0d332900ef5940a231bc7c5c16e593aaa6d229fccdd3734fa84c41bedda6f1e, 0x2dc919c3faef3a8c935a8d5e049136dfc0c9736ba094aadf47beda8866357bbb54a3570d79028c248737c9a37c3c41),
  (0x49fd2c4eec5c1be99ec075a54be62c640e20307b5a47b6f071a479d5921c230089142e8d7cfc7eebecbcf5e41437ee, 0xb46933b879d275fc971111041ff47e8928544a586025b1bcb1e7f89c147c851c2aa268d1277ed0829e77455ac39d38),
  (0xe763d4b7b820aab7e969c865a0ba2fbe75aefad90e0aba8f258d8696ce8fa1f23ee849fc0ea971b8cc5fa7363eb40a, 0x1a9dc4bccc0dc0f83ad674a903c4f7d91bc1a3ad7493333600c562aece0d040d68b7d49971cab9c1958e559218371a2),
  (0x211a39c0b4ac09be1478db61699f00141c3c4367204d9a4b991c228771c590cc9f942478c64f1c641057537b3e2739, 0x19b35457dc205caa148e296c3d2875c57f85387bd74cd7b5bcdb8c89980d2731afe71e49450ca88a63720157cfa084c),
  (0x19c84b6678c90da1382cd6c59a8f22803afb70e506fee604504dc09875986da6716f1d8b979525bd3155356c0d5133b, 0x346615e79bbe0e6062b0433370be8fb49a8381c776a28bfa19760fe5c084c60a6163521ef58f20b15b6574ae5f9859),
  (0x56bda3b2654807a79758bf1ec8326ccc0fee3570b5f6bab54873156685853350ba5bbeeee946733fb581b317792b91, 0x530782bfa82ef7d271d6a1d808c15ab6fd11f9696abbb1731028af40d016c2f53d80e5f9f31873bb6c436fb2daa0c),
  (0xdf2bf6b96a51ae3126e2de9a597929f56683e5c449fb47c0cd65d64c2dc6c4548dcb757499be6ae56a2077e4d324a8, 0x19e08875b70d4697c97ce0da919ef7e577fa78405276ea2ddcff4b2c779cac5ef29388da7f887d82aff7de7035f3454),
  (0xad9c49059e4d7006c35522a1afbe4d1ace962fb6943c441b9d3ecf1fa1d554546faa4103f8643e462008d1290c7352, 0x110fc4af308078881a8f1a7acf65a8084e1631c61459565dba313fd7daf673c6f1b08ffc1960be69ce3bcd019d27a1e),
  (0x179bb47bcae8005c70dcc2656bf411a8af79bcaa3c952266159a46eabc96e25427523f234fa415e3135bb63491a3591, 0x524e92bf8431d7338c8aa0745e7e342beabb29c79a2b960865747a3c640f80d6e8a55c1cac8cd9a6047c17acdba2f0),
  (0x7dce70dfadbfaa19c8d2b94d085e0104f94e28350576d8f3b435ffd05652601dfc3e4b76feab7278dc6cb8e25e4690, 0x43e59d1ae071cdc2000a1f0bdec88587e422290d7ab13f25694971dfa2681cae73f24df71c453d079ab2e38fd461cc),
  (0x26079137cc7c87f699f36655fa87dfce1eaa5e6dc6a04233b2e9e25f9b27bd1c0167c74a0175c0113136a09a7125a2, 0x13ddff5cd1136fc5783f94e0a1831a6c803b0cd698016676ca4432268c06d4237c680b1f97f790eb465e95fa90d17ee),
  (0x5900736e7a3e9be6d5d39323f7a0d4faf4bb4c30f3a51accd500051c4fa531ec88fbaf2d5b2d846dcff5a3b581d5c0, 0x1f40f500ac0a7ee17536798ef860e4d1ca9f4abf15a644a502f6b2e95b55e5b29911bc729271335326b0ee7f2bc2fd)]

theorem crhBases5 {seed : Bytes} (hs : seed.length = 32) (h : (chunks 4 seed).map leValue = crhKey)
    {sqrt : Fq → Option Fq} (hsq : SqrtSpec sqrt) :
    sampleBases sqrt (chachaWord seed) 11 70 11309 = some (crhPoints5.map castPair, 13338) ∧
      ∀ p ∈ crhPoints5, ED_COFACTOR • edOfXY (castPair p) ≠ 0 :=
  evalBases_chacha hs h hsq (fuel := 11) crhCerts5 crhPoints5 (n := 128) (c := 706) (d := 13) (k := 6)
    (by norm_num) (by decide +kernel)

def crhCerts6 : List (List (Option ℕ)) := [
  [some 0xc504d981077f953f39240ac678d55e4114fd5663f0206960edef4995ea5b4f42f2b0f57617cae739180ffd1e2951c3],
  [some 0xdebb53a938abc3c18d2009a1edfa6b50bcb4ae25784d2fb03bace65f2a57593b0a7e23cee06281d6ef91c52f9ab106, some 0x399ec3d9189be13775d95210aa469e7c543eebc9ca06666ad05813ec338185db31b26519c2bac1766ab6b0fc475ace],
  [some 0xabb49fe7d49fab68997917a66b72260c8ec7e86ad51edc1489dba5e983687895555fd20500a0e65638b9a2ced1c507, some 0x11c2ed89a681079b8ced4f965a01d061362daf3ff0d4b8fd77f94f6b0a6f1171fe9c29018f59ea127d06eb7bdab19],
  [none, none, some 0xedce11e23456b721bc618f75073743a978c46baed2631f6c31b462f57a50f75cf097ea50d6f64f36d19b55dbea8333],
  [some 0xe6b1ec5ef5f5a5c9f966a89c0380dd94f02db920a07e5172c83843ae8053278e82aab5e7023a07412710b30c33dacf],
  [some 0x39074637b0e23f8abf102617307d8b22d5f2496b65c7e52c94263b25a4e1cfa2d1a0eca7aa72ce6d90230e16eeaa45],
  [some 0x1725735c6fcef9f8e3936de1dc3b7aaa6586bbc6ae71197871af92b579d252f2a52158660d1ceec2eeeb65cb5818e03, some 0x1a40473c683f850a5c91534a25d260a6dd082ce4ee3d36ec6ad591b9ee3251cc395c6203051bfddf2ab1affa573c85d, some 0x14dd7941317ea570ca7f5908c4fb96e01b2c8a1759ccce08623fcbe84a8f041bea3e77ca36e70fefbd132f8a3e6caf0],
  [some 0xdbbe75acf20852060fe934a3680af9306019a184129e855333e84ff29beea3157fa871b9722a5412600c546ba194ae, some 0x5197af885655a2f8112beaeb225eb8cf2698102acd58127058f0b4a3d71bf339779ea9be34235e1f23a2825361ddcf, some 0x1879669b58803f9af528ebd2a7dba9d9a94cbb3e6a3b53cc8c24208a7c02e91d7f1d34a1a62c9ee4ec38faced44956c],
  [some 0x1919def74e620168f9cb7055b8001a3cd21232d70c30c1d50198b0e10a88d54b5fb2bbc6f60f9f6a947c0971ab0001b, some 0xd659c750acbe9d00ac24b0b5e257070693b4caaddc9b95ee3767cc9c02ae75df1c4184ce0fed659b71b90f00794549, none, some 0x12d43e51e3ec1bdf85c5fbffddf179a68d17d1f4490bacb648aab8cb7aad4298bd3b2f8e321e3268c77b33b5cd90fa, some 0xbdf291a5c169d91751c23994995596f420eed1710b61656d3564a25f1138b39c3367c575f2a3154b90d8a8f2cd86ec],
  [some 0x4ed8fc0f18a76c616d59de3c23b3272740d9b98ddfe2bc1e3e8d2bef5f8d7e8c4a1b411aa54f372bd338a18a8f5a33],
  [some 0x133a3b896a32acddd2f4ed8d54c624225d6570c1d562c84b602870328e0de22d6f8c8ce953a152a402da07746d599ec, some 0xe2a1625e305db952529f87fb1488e3449a228c175f7f4f2ea0fc1d2a1a491e68cff3195124063830c953ff59b50076],
  [some 0xe3d1531c78f4f21cd9b7055c2362e8480aea0bcc6ebdfc9e1ab81992d0da9ea575e9598b0e938eabd7353b7944866b, some 0x142ff30503e6dda20543a34ed72e47eb04eb7304c87187ae398bb25f03e5221818a52602a40e048748a79f3505ad58f, some 0x5f1f255755539f07dec5e479f9c1dca701cbea3e65fda317df13a10dbf79c3602a0761e381ad8498b02fc908f160ec, none, some 0xfc31a6a3d622d63516ecd70e43ebca45304e6dc37ab7194d1ee876da6adca5243243dd86f84e5ecc6885c999ca126a, some 0x2d16802bb155f51a2b86f68f742d9928959b30ec88737be85f7f063136ea70f97a80f05dc291b016e007559c315121],
  [some 0x123e3fbab090e8e2ab4d9a07f51032acef27923d232e5bee76f347b6e0e9b5545796b92c5bfd1a50702e9f1807de36],
  [some 0x6a72b8eed487a9e282e3d99d4dc81fb8bf5d11f4b6fbe101951ce090b544c058311fba5a50019f329b2691dfe9941c, none, some 0x958b625c74e743f1e71f2ceea3fc235f8fec8eace6b44ec23d50451dfe4ac2fa292eadded1dbfbd3290c3cd793a146, some 0x1207e52c5122524e7a6923cc17a541e304d62092b34f069528e6c8efeb7d4c39d65f6568dc878fb13607c976dabcbef, some 0x5d5d954ae36d2f02f475f7838ffc2633cfaac2f12bf3e269de34f2ed3da8bd35b0134205202f5f74cfbe6a88540e25],
  [some 0x164f2493b6c962fe0bce20fb51b01241cd3beebf63f64c0a36149fe808a6d3e5b28fb26afd52259965b054a913dd39, some 0xbe107e675ce20d2df60045bc6e9172fa4e44f58b82f1417de2041019225ce7222fad7f3bc204a456e1534b08a3e82b, some 0x9fc629394b6fa9be22c2ed3d029a1037a29fbea06a45197f2ca05a2d905e9d6b46591b1683c42410d60f414339aa66, some 0x1a4d0cebba8fbb24857429533f89a18ddcd719ca5f82a279f3841653236a06a10829851b29eb0fd63a6d4bf2a5253b2],
  [some 0x91b72b7adfbad6bb6f888c7710ba7acb89213aaaa45afdd4cd7f4439d0e120a49df27a01af271b2e7f67593e378f8, some 0xd86eb24cf0b2e11a9899c2f3e74c5bab04d645ee8d932983f0854aff204be68fcb65f6d5e15efeddde03a52c96b8bb],
  [some 0x1a43ddd2c8637dc653e3829d6277ca71a694832b206a0ed694098613f7c3fbe7d946c4daa1ca6b742f3a54fac4d026e, some 0xe6f21bfb3e386f9422455adee8263dcc6bd656810c69ef63fcfaddd44508ca18ff9faa554dc3535e726bbab7045825, some 0x7cc2a7acbb2192fe9610dd25af5f9d1aeb50618f50fa12fa531a37ceda3c59ed09290b43d18c824b2baeb9185ede65, some 0x934e9c9957e9884d363727d4ad2a1f92e3618df077004d518369bcb2ee66fcdcea13e7bd148108f4e2c74ac3902397],
  [some 0x1627d8c5be1173e380b5af0a6a9140292ff9166bbd096a393cc4923d97d3f7aa44a7d91950a1aa1d0493107e55a4e18],
  [some 0x18c73db7e14df3eda9db67c67008c0bb8e1d95a4264cded7d0c956d7d01cd3da5be5d2390b1cb15c832ee5bf1430e05],
  [some 0x157cfff20126360729bd98c5558afabdd026568833a2af93b78a2f43c061327a622b86628a51a8c043a949eaee763ea],
  [some 0xe79702059241ca08426e4be42caeb3ca6b6796d68788a67bd8a937d805e7604fd58b8e06038198ddaaacb15442fe11, some 0x13e58532a1812b8a2aefd12bbe5e6d150eb91fc6ba4356d465a84abc249ee2d78cfe5b67d47c9dc007f02ebef5686cd],
  [some 0x61ef6551a7951d51fedb22a3ca5c1c818d5253d8935eb438952862625493a4f5590aaf482ef45b8e2943fb8d45a869, some 0x1405b8889225e4d0b159f4a7508cf12a2078dfbd620c8820fbc6e976e3291956fb4c0439fce4e98ba7278bfd29b21df, some 0x1abf23549ae6d3e3050666ae832bf589bc28f408d05ea3d3bdcb2b4655bc3b22135328b81b21ed1fe97c00135e17752, some 0x1a3107f273b7388298828435af52f34152199c08e95d4c8a97a4849b4d1389bdb32ba3e56a22afbed146268a9a56482, some 0x11f93ba72b8a1a0e709594c5567f01e9b404b547798cf82e6efcdb491a60bc4984e0452508f5e903d7b2605080daffd],
  [some 0x1166d801fdefa2c5d243c54af27a155bbfae304a51966cf248fa0426adafa710861e7788c57ad9fee2e39b5c3063138, some 0xa35d814740324196f6fd486876093a754e07fb6c6837f6f01a1e6f34f122a89eb02d5a2b9a59234287884a58f608b7],
  [some 0x19de1875e8d851923dc0bbb1aa386234c0ea5444ca1da1ee185f2dfa334e100e409b8ccdad2d5b7168584c58db394cb, some 0x11d8999ca261368f8ddc4b5e4574094add9e732ce1d370785c076d735626f1e0a3cca04abf7f38c9fbcca6de6c40755, some 0x13c9a6bbfe7b4587597c76ab615ab745cb64ba342847099b339f5fab5eec9040ba2ee637fcd93be956ae2b8cb64bc43, some 0xd4126e49679314d73994ca67fb14ba0645d93917bf7951978b0f780d6f942d41c83a4acb51a7191282e1206cdce779],
  [some 0x58824fbfb177b810af7d515d6c25ace29bf5ec51257d9ff7390e49b6c085905b16a4bed5a93aeabe79c221e64cf63b],
  [some 0x3b516475f1c2c6cefa893618c573f6ee50a8a7e1e5717bc816bb35adadea5f3cc874576e15382e4b1300c22d59f733, some 0x100ec26b0391e1da2243da3f469f2bbb27c27c0ffdc88526e8e3ed75b0520b134cfcf0a0c4da4d7cd58bf7cbf9e9c04],
  [some 0x12a4782c37f38b4acddd92af847fca8e355aece11202b3ad948022e837a51d097a3a652932eca77947249a598bf9552],
  [some 0x15ec436288b88546f5f64e846066596bb4440d75f1d91536030287303f2928aef5969cd55b1f7a03a21c57ba7e3f19d, some 0x18d9a5fc1c1a5ebb5181474e0431a44b9aa1bd9ee2e02b5eb765b73ad1dc0aec1bbf808f4dac532dd3e4bd8ab284eeb],
  [some 0x1a20251dcaa2ce8b5852a90e621ba41c5564bd6e5dd29eaec6cb3faa780a7cead5e320b4fe93cfca85af6f633170e7e],
  [some 0xdc0a77bf2da9f9faf85ae627eff2a2e422a92a3b6754138ab08d54b77dd4dab7470f935c30d0e2cdc45d6a5a3db8a2, some 0x7649412bdb9bf4d7acc8acffe90ae92e24ad69a796bab7f5e70d45add4b7022c8b6bad754632071948c852683676b0],
  [some 0x1348109f75ab12a15778678675f0bb8471f0e981bd5d19bf0d63507d588def4f90083f6935f4017bd502b32f2ece722],
  [none, some 0xa4b2a5927ad35d10dd8f8a0090a11c23271c15d6060b5f50aa1efa6f06b0d34b0fc386d2b4d5094aa94dbd79816fbe],
  [some 0xc4f467afedede90c569d6981f03b123b09157244beba282eee02f0f76feb0929ca5750f1360079564dbdcde39227bf],
  [some 0xa1f339c47742f0098585c8588083a1ccd35994a30bf81cd062ffaf596adb8a260c247ab9d19bb6c4347f14497207e5, none, some 0x1984f49a857101adaa02fdf4d7d5368774a1de8e5944140fe49d51b57c123a96a0b3458d3cd8628e5086d8f899dd5c9, some 0xb09e753d3ca8e1f6547d304b51b0db7e8bd91d321afe4c325378747503ae26e329f8ca68b39e47679e4adbf40ec934],
  [some 0xd2bfe54664fe6aafda1f8e4db929f5318b18959ac58750b80adf70079930a32e8fd9aeebcaf4e4a742d4a88914c0eb, some 0xaff59685eae15f46b149e387cdeeacfc2dd4158ce92d1dd810c5a9647651fc07229d34db40b315f57498d401e37e45],
  [some 0x8e477edd0db8e7d299a3579dbdceff4c662edc3f67dc82b2075f9c9c343a3a4d42ea26d6bb7c24eeb1854ec00c043a, some 0x172a62184d5b094e009e610ba7c2fabb63e82258ed943c153989a4363490ec8e7d7654140b2be5f49dd7df7f0b35fa7, some 0xb20fdb18c769b0ebb35245fcb1e14e29ed7492f77799e832cf2645b5b6b485cb9ee71ee1e48a0e7bb5c3b70df9d5ac],
  [some 0x184aed2bc5ab0eba8c095de6bdb6fa7cc63c6e9c50999d191d7ee668d7f937489121ac7e80a99acc6d413bb65ae0556],
  [some 0xe3e92293e62b47afe40e4ea4c3d4e2e4868cdd583e9a296e2bd8bb2af570f8493bfc487bfd3a2850e133e101f3e365],
  [none, none, some 0x4a12d4e1209926bcd6c61ab6d051b8e89ec7dab6ee864ab33122942e2ab4181312a7905d7b8fb23a67fb183c7e1a2, some 0x117a542771c250a5ac2ffbd1922d926c64dacde7235e4d9a743dc2681a25149d1dd1ceee598f400488528ef17bd30fe, some 0x14fe37607783d81ab455818f4363c42a5cb3e981b3f269bf6a08e7c295546ca491b17f274ec60b7e54b8503a07892ec, some 0xa891a34118d0826a7a2f7313d5e20be8af61e6e423e620805eaadb34e58ac5277790d8fd5198865d016e0effea30c1],
  [some 0xd5ea7c5d502e10813789b7490051ea022fb096b45f5ba9f8545f9e7bfab8ced09e5aa0015afed2dd7b4babe022f7b3],
  [some 0x1f1dff8359015683c64d02be381abc5e06ab93b46e28f9fe09879cf77cd6990a197923235a2778c0fec502fb6eca7f, some 0x10f32b3ef2f23fe9cf3acc17c41cdd881da1aa1e8e34908c675ef52cb689cabadebe60bd6d57b0bf2fe82bec087beca, none, some 0x822e0be4f3ec952c505ace4c6792bfb04583f957bcb10612d91d4c47e7557badd09838e406d57648b13939c57779fc],
  [some 0xe9b46f5d3878253d68a675b78f0b67c87f9bc0e79089d3c88561f6eabd875bf95a2208ab338aa79422d27b07921c4e],
  [some 0x34e135efc7cbd863b1d23b6522bd4714066ce746855016153e005a146aac9b26ba01aba1e8362922427ec26a3c0e38],
  [some 0x34f15e05131152aff7b2b3bbf255ff0356292fc226936121b31549c3b1032b89ad585a3f419a323dac76539595f01a, none, some 0xad61e46cbd0f10eb0fcd6e7f6fafb0c2490e3aaf350d4a4d2f30df5525b4d936c713878fdf99f5c0f4ff8d5cc9e483, some 0x17f9451bca3a4328d0c50724eeeaef6d06924c3808b8fbd8f837bf75c65caacce48797489629ea1e10eb4196e7fa7e5, none, some 0xa7342a11a4fc4d081f23615496c501c8a8e221a45375ae0e6b4aaef529da1e0ea8df515983b840a995c45597706e27],
  [none, some 0x56f1c09c19827486db888b28a86e490878a4974ed6b76457c68da131073607ecbfbc776d83a706dc0fa8f6c5d2d09c, some 0xc8f5a79b21a0d4a157540d79315aa83dd525acfadfb7b9a1d2e00734c4395903bc723ba3fa8106e8094d8fb2afc447],
  [some 0x1736cb2f7e45167cef519cb8ade41fb0ca6e1c11a57fd38fe7ec373cba26d99a980d13a3c221b863e3cec6e4dff6e52, some 0x15a3ae37bc30cc6c9cebfdbc69f1b8e5fd6a9c115f8d5253dbc969f4a016752ae264e09a834865491fd5adc38a493e9],
  [none, some 0x1a0ba47e4b491df7be32e2aabeb3220d980c1bc6d2776473e6953213dca4d0afb1a567f4c0ab4b9740bc66299a89a58],
  [some 0xd8e65a8190ba9e076bd4b5d0f167f3acbe3d8d87a0fc3bc6c77f1a315e293d5c7fa036beec36796ebd43c586a84b95],
  [some 0x1284d487b42b9019d9bf59147190bf423c9e348fd76fe0623e4d72087e1b1c94a602530d09a38c5c4eedf2020f2ddb3],
  [some 0x19d02269eeb85d4d235340657cedb7b4c10b79772e255a2c74a53e794b566d362e6c3758b1065c3716e7133bd0cd8c9, some 0x1972b209673ea75d4a494b330a4c01476ec92971f9a97e3dbebaf36dede918a0aefa8a012c3cc0fa4ed6f8c2c167afe, some 0x115589dad28b95503e603742a42791f507213e2ff881e44e4b405566904a12307981667b1edbc6aaa87b3e3636e9041, none, some 0xa7dc0ae2a7362dc97b9fbb1d2b1cf0b36f49aee6756a34decb0aaadce4669477087d70353e7b7d4b5a2f4b85f71f13, some 0x1a1613561927c849fc52813f761fd397faaf5df2e3fae0dc3141f5942a213448aa21714a321553b986dbaa634825ad4, some 0x488680256566d9149364b634e0fdf723e4e89145c6536431307f5b0ea4e9d6a60817645b70ba059048eb70aa65eb45, some 0x3c5f324fb2a84134b3c350073fe0737191d73d1652d443f74df6bbd3a45f16b6668a52eda5f010905545fa333fa269, some 0x1844582dbbf2941a5b93b776312f45911d309905dff12e81529adaa5a756e6cd022ba61c1b6c04c36529dcc3d726599, some 0x1923eeb9f1f90ca4032623f78ba020b159127c4e068741f06575753d3be493073b97e87c2c64144dbc9a858c3c60104],
  [some 0x1a45559b1849af6cb345d3438263f1b11bcbe378643bee87a3a46cc3927646e011dc1d81b896e83c99a968bc8dff454, some 0x10f3bb871d9a62e8633daf92bb3ebcf4038b36bafd6ecfa8cecfeebb003e541e393344c1066fc598bbcc17ad57e9871, some 0x8adc7e9a16cca5dc92bd47a18f89f17b2182fd3b2d98b937200a4391df76b3be6396083e23b921c746c2eedca1696a, none, some 0x14d09e3f3a9fab6b4dfffbcfadf3f2b16aefead16d3844cce2519b535bc6822c059adcc0f4495973f2cf1d1ae8d2111],
  [some 0x88f223495df4eaae14501b70cc79bb54c44d906f2b6cc8f4980ea697008bcfe2818e03450ee44b7ae600e7f43b3f30],
  [none, some 0x7fc31739d0cf594343bf1693ceca40871bc411d43894b7a8f673ec6a8a963f5dc45767b77be44875b8dacb57ad0cb3],
  [some 0x18a451391e58d0052f1c25d6d6a6e9cdbfb2a5ddb334c2185bdd0da2e3c9014d91d639e4a475a87e491f2e6b778640d, some 0xabe997ddb8c3abdc10164d6f5b9a494427e77501cbb44e220cf125461f05822d71ded92ce4a0abf762942d498955f6],
  [some 0xe3df01b189931954f87814158a318710a3678e71ce2ecad34f7b823b2f96393c8a43ae3f69bab5c986b938d12c8883],
  [none, some 0x149fe08fedf112c8607a8d986bc479e2f91159a3de9ceb1bf09971ac68e7bb14962e06c150d7d3fdbb5c7c11a27cbac, some 0x7e7a63e332bea9c665f414a3f2652df1cd97b292f9a531d57824e74b315107be98fbe695f279e0b6f250080ab1fde5],
  [some 0x1879bf051a194d16650dcaeb2fbd822e1c12885c330311a257b9e141855e0a4e18f096f193d5c462ee17dc25013efd2],
  [some 0x84be92a0eac765bd31e88f9f397040b6e0b6516e1a1e2fb1afd2c29872cd3b3cf285cd30bd6934a7517cb49a6a46a0, some 0x1a8f1b313a27c545286332ee4aee3b8b9af43bc04b07c226ca1a4edfc87de17af84f81122ff3ac281f6f52aea05859a],
  [some 0xfb6eebdcfec5f4c0dc4f45973c56718e63ca1fdc528347b1563c65ebc8aa160bf9ea0f3baf9304f12b84f72739b2d9, some 0x8300e96a45a3143d69150a6ffa4989a5b5a4425cd8edee5bb4b58a56bc72641e51c2aa627800ab1ce467e4f32f8bac],
  [some 0x1817d0825a08429ad2864869601c08b87dab5938eb5c0d5a4238566c3df5708f8548a10e712cb08e4ff42b15df059c1],
  [some 0x118f70428874a83170b48300c02f3893f38c0be9e551c6768491ce3fa4314eb213cd7742040bdb135d844b21afcc827],
  [some 0xbc2734f4a9edeafe40dc5d3864a100251840a100a448cab8806d2828161e51fb629a890dcd1366727ea0e3bf580747],
  [some 0x18a45c99832784611f70f8f61bcb482da575590113eb5c02788fdf25d3cb215c9da47797ad917913ec0fa46663df163],
  [some 0x136cf1114e1529ca4f8ef3427d271428a5aa2f9fa5adbfeec087444c71eefb56304b9124464ea97139a1faa5ea3953d],
  [some 0x1512503954fb882adfcf5868cb0919751abe33b7df3a772bf30777471d30f65453195b5c4eb78527a4bbb1fb343a875],
  [some 0x9bf9da5692c0d0d9e7dac00dce5a64ab2c7543656974c9af0e67565880d96fd44429e24cfba34f0e788e4c3a626835, some 0xa77ed01f77a8b8782af93dd593fab56f922e30a3f67cdc2de9b601473207435c2e44ed4fc473650435bc787171293b],
  [some 0x13adfea3aefa548e8b94fbd9a8bdb2622418fc9af4f841bb515deb3e7ea913cbdbeccafabbc9acada8f5e63edd7e65b, some 0xed9298bea4ecbc0b77b436ed7fc404c86ea4388a142a404a90d34f97d285a660abd414775889dbf7a10ff6ee1651d2],
  [some 0x20df0c64568bbf3c500ff14cefd2b2bfb09fc8a92651e60a725568f5eb190d34b045172f3f9e89b045964f53486b62],
  [none, some 0x15c4a6661e4dd4b2dc411fdeb3c4419f0b654595759858c0172e263fe46d53bcc3a917f773bac827c24c86d0f3734b2, some 0x10f61288bc349f41cd22190fd4b9da608354912db46b2c88c97291855b74160e410e66590b19cb50d004e99540e4f8b, some 0x25eb85a4988ce77cf19fe2a40f1cf438d89fe5e5ae43484d61143b1308fecf438cfca0d3215b8a1bcc604abb80b5a],
  [some 0xc24eb800dfec91e5049c4ce467e50c7b29671442525403107eed2a0063cf4b8c427837032f65a9534db1a15469180c, some 0x17f942ccc6d8df8bfe705e13e70a9ca5cb5f792ad03cefdfd30d3254334a4a8869ab89f3fc24d44f054588798ce3096, some 0x89a22f87fbd851f0d51be12765e2768755ec0cf5a851151e70be7d0493f4c4132edfb0d97cebd10f726d96a5a4415d]]

def crhPoints6 : List (ℕ × ℕ) := [
  (0xb2e568657f840d81a6e575c06bf416a265e8eaabed84374c62954e7eaf2d750814d35210131356bed85530e4fcbf63, 0xc504d981077f953f39240ac678d55e4114fd5663f0206960edef4995ea5b4f42f2b0f57617cae739180ffd1e2951c3),
  (0x6286d26eab3e799ba0f61962edcc35e5b5e3e35147a3cae6ed7d846f734d500e66ed2d094164367f509b68251e0862, 0x399ec3d9189be13775d95210aa469e7c543eebc9ca06666ad05813ec338185db31b26519c2bac1766ab6b0fc475ace),
  (0x181e4f1b1ed19adf6ba1902ee232e31dfb74077fbb099d73d2fb1d98e48612ccac6abe295649c2a952586fb6b74d37f, 0x11c2ed89a681079b8ced4f965a01d061362daf3ff0d4b8fd77f94f6b0a6f1171fe9c29018f59ea127d06eb7bdab19),
  (0x193b82d9cf0cebaaafbdbfe442a7e86f7d20942f8e4a9281048a970e9d1d6c5ebe3bac682d3c77d23c67ebd54d5a873, 0xc06c343590ba33a47ea430f79a11f770aa15875222b06fb2c1adccc48ef708ba1ac559df2909b14e3724aa24157cce),
  (0x446eed529bb8fff041270b865b93f63223fc92392dc179ae96deb176c1877072f53224990927762430d8609767e820, 0xe6b1ec5ef5f5a5c9f966a89c0380dd94f02db920a07e5172c83843ae8053278e82aab5e7023a07412710b30c33dacf),
  (0x31f6461192534b62eabd1f6e6327b512d2f6506c27eb32a9ed835c0a7064eacdda04cf8116a33fae0dcb2fa961145d, 0x39074637b0e23f8abf102617307d8b22d5f2496b65c7e52c94263b25a4e1cfa2d1a0eca7aa72ce6d90230e16eeaa45),
  (0x4d7e998701d18f528bba090b3a2d99c8664f558a1726ada349b325d70f9a28f012f3377c5e35e8f03b3233cd396f80, 0x14dd7941317ea570ca7f5908c4fb96e01b2c8a1759ccce08623fcbe84a8f041bea3e77ca36e70fefbd132f8a3e6caf0),
  (0x66a2ecf428b8bf06658b9da6d873700ac5dfe238994dd270bdc62cb5bba885e26ab480194b3ae4235b8e9e86dd14df, 0x1879669b58803f9af528ebd2a7dba9d9a94cbb3e6a3b53cc8c24208a7c02e91d7f1d34a1a62c9ee4ec38faced44956c),
  (0x29276d471a96242fc20615392bfd706bec4511fe23d4a898ed576abc6add8880f02560a0b72cac5f9ebc6c21df2e4a, 0xf047b47203a711aee94386d807f3a42601eb218fe9b229b1bdfd8d5af80f4c7ad7f57eba0d5ceb3977e7570d327915),
  (0x55260cff06cabe4bc0783a88e75cbd69987b905fc2b2daf5428d2cebbc2f73efff9b0a7e274be7dee6b581d01f4117, 0x15f614a08ac697e64cdabe2307d9613f2e20039731530d300b4d503caa9ba818ac14203155ab0c95935875e7570a5ce),
  (0x11f97a96683b469f39ab8a7809690761d852478b3a1af296d4bfec7c5abfd0df1325f0549e4bc2cda54c86e79ccb4ae, 0xcb98e3b994b33173e86638718cc057d588b766e995943ff05266128feefee1ae3b6a2adedbf9c8543f6c00a64aff8b),
  (0x15b9b45a949259fc0afc61351e1df65f22b6763e7e2d29ea3beee5d3ae807018aaa18230a9a877bab1d4c5fa360df92, 0x2d16802bb155f51a2b86f68f742d9928959b30ec88737be85f7f063136ea70f97a80f05dc291b016e007559c315121),
  (0x53e09d094cdeffc2969e32f640f948eb7790c1bad58525df24ff3fffd4213b9215d89d4c17162317de5e1907f7b18f, 0x123e3fbab090e8e2ab4d9a07f51032acef27923d232e5bee76f347b6e0e9b5545796b92c5bfd1a50702e9f1807de36),
  (0x17ffee0348789372d2ba58977b853f99d328cf1533f749c40f23587fc1b1f9e4f1b567265ffb956a021f878161cdfad, 0x5d5d954ae36d2f02f475f7838ffc2633cfaac2f12bf3e269de34f2ed3da8bd35b0134205202f5f74cfbe6a88540e25),
  (0xcc070b8118a18f4d9e469743affa127bb4b0d26b1fdcb149d7b88aa3fc1a8cf545bda86ac2d4affacc39ccf1d0287a, 0x1a4d0cebba8fbb24857429533f89a18ddcd719ca5f82a279f3841653236a06a10829851b29eb0fd63a6d4bf2a5253b2),
  (0x11d5cfdd2835380ceac3a49b25df368db15f632a03c7c1b1770517c45fa3baf76e78fbccfa1834594293e1945f7f3ba, 0xd5cb93cad45e09aba26bfd78b9fcdf6f1e03ad126780659b02dce4bae8fc19873ff74d5a1ea101a72abc5ad3694746),
  (0xef3103cd1c91f0c05f190676c51a6e41b030fc54898689e125847bda647c9b9e8335ae5f04e81b7a3de1cc0bdfeb8e, 0x11aeba97e6d27627904ce9897f41f1b873f7865107e1341cd6ff873071ae1033a21495c72eb7ef79025f8b53c6fdc6a),
  (0x21218361719fac36a551048525dfa7dd2e8be3cc3bf464c484238e4708fad320bd7bf318375db2c8568e18da9950fa, 0x4bbcb9bbe3f9ac8e2faacfc5f835388723488c45247ceb8b27190be08c088572c0dfb29af5e55eb4bf8ef81aa5b1e9),
  (0x17f8a6ebe5b17a5ce9c3aa4979ad4b38ef732bf84aa68c74924d907e06c9cb360595e848c0124c626b003ee64911789, 0x21c66a99b031abeb9d4f4405a0bd2f61410098be9045a1a1e6ccc23d077ac2714d00209f4e34eabcd5d1a40ebcf1fc),
  (0x191da176ca8000192d785ab9cfb6f339b860a50799d561582fd054b1d4ea76cebbe9cb7eabf03131466f67ad9beb14e, 0x157cfff20126360729bd98c5558afabdd026568833a2af93b78a2f43c061327a622b86628a51a8c043a949eaee763ea),
  (0x5c11249a9fcc1a81d4991113ac505c5318f29c4ec5f49707858d3421ab50202d24ebb058a5b1491550dd72fc6d21dd, 0x13e58532a1812b8a2aefd12bbe5e6d150eb91fc6ba4356d465a84abc249ee2d78cfe5b67d47c9dc007f02ebef5686cd),
  (0xc8b4318b5ea7ee2c50489c6a6be4c5431e7510294e23c51af84459eba6cff2693a8326698cd1492d44a7219ddac560, 0x11f93ba72b8a1a0e709594c5567f01e9b404b547798cf82e6efcdb491a60bc4984e0452508f5e903d7b2605080daffd),
  (0xb173b268b44ce66d8f202a187efa6fea61ee28ff1e9d2dbc7713a6d511f4093c2970f0002526b4551a191297481590, 0xa35d814740324196f6fd486876093a754e07fb6c6837f6f01a1e6f34f122a89eb02d5a2b9a59234287884a58f608b7),
  (0xf07a9c3aca0d0ed552b96d2beab140b3b19a3e6262b400f0bd65f37505b383624e7555d439ab9beeb9ca67cce14544, 0xda27d7ce5d7dd5ef0170f604a6348113dd00b9e9359a3d876852b7ac99b3d2d54322f964ae58e77285dedf93231888),
  (0x11013272db82fa653e03d5af994201397b521d69f8170e8fe59ecc7c4b4b51558bd512465f2b0fe4c98dc5a26b25187, 0x155b7f658139932b58b886f0f35238e3786e406afcf95ef27ba53e60348c26fbbf4b8855a56c515c68efdde19b309c6),
  (0x16ab0fba41f0ce490bd3bde65cb3bf02ced2b15cd359c8ae956c29fa0909ce0f82b76a8fe851660b6eeec186d2b07d3, 0x100ec26b0391e1da2243da3f469f2bbb27c27c0ffdc88526e8e3ed75b0520b134cfcf0a0c4da4d7cd58bf7cbf9e9c04),
  (0x16eb0c3ca29425788e55f514312348496134114078acb977035bd83c36d7804f0f10527a676c0741845a158a62cff2f, 0x83f2c35445d836195d2c9574594c9236cd2b24efd4e85445ab6001368ef62f7f67b6f19cd13588f096765a67406aaf),
  (0xa508a8a1cafe22a6d0eecf1c318bd99bf9742759561ba83e1bf83b2b8848289356ed6725045fcbe55bff0ae78d6627, 0x209fe656036aff1122f14b8c5e2ef66078be1912c710d9337d06bc0ceb8751554f653b3b253acda7ca742754d7b116),
  (0x10990516d13943f6e595871bed6446a71a2e35ea8d470c0c12a252aea56e7f776706a9a5bbe23b5914932ee578b8c4b, 0xc37f43b1ae40210b5db2f867f8ef954cc8e1c1b17e9a43286ae351288a03169ad2b38e016c303dcadc909cce8f183),
  (0x79804dc7fbf1a93e724eef131893856cc8375ef616fbd8a755df9c72463002093bc617618819fb291dcc7f30abd72, 0x137f104ebe974f5ee8e3d136cb83e51ebfe2c89595e58d7290c54ea0c3490fdea7ff196bab9cdf96bbff7ad97c98951),
  (0xa2d1c1a2bf43e38fd7b3cf916c504675915e6bb0f8fdb8e8964d013cd1d79618fe4455199e26cec38d25c3fcb80af0, 0x79b93c206a5fc0b0c37f4805423d82d303cb5ae51f41f32e1d2d27e480690b1e0ad94d9ca0bfe8c7b894cd0d1318df),
  (0x160ac99581d250d4fd6bef27ec9429dd2c5261567a04cfb8f14ef4ee57b96828300224fbacdb5bb3177933490d247dd, 0xa4b2a5927ad35d10dd8f8a0090a11c23271c15d6060b5f50aa1efa6f06b0d34b0fc386d2b4d5094aa94dbd79816fbe),
  (0xf5c790eef55773f6e52f781013c583a364c7312597d1c89d651af2b23261f3111ef21f36e4c6838708bdbbdfe8c9a, 0xc4f467afedede90c569d6981f03b123b09157244beba282eee02f0f76feb0929ca5750f1360079564dbdcde39227bf),
  (0x8381904157ce0e775cb8ad51ce112c6428011ef5b5c120486c59664f9bc0ac8a0f21c98f2a488e385b0d503cc9206, 0xb09e753d3ca8e1f6547d304b51b0db7e8bd91d321afe4c325378747503ae26e329f8ca68b39e47679e4adbf40ec934),
  (0x16a82eb3d317f9dfe448d69c14b114399ad23fecc3b7ff8f6476bbe50bf6567489ce69558efd4c81cb36d1c3e7e6ec8, 0xfe44af91da2f8b7f89bbdce4d35a8e1df505dd740be67146e29c865592f6040fe8c00f54bf4cea8f94272bfe1c81bc),
  (0xc5fa36e2acbd99f85103dd974c2a22db96cd7e38796d2dfa8b73f4faadaaa7c110e67760338d58af8305276d393148, 0xb20fdb18c769b0ebb35245fcb1e14e29ed7492f77799e832cf2645b5b6b485cb9ee71ee1e48a0e7bb5c3b70df9d5ac),
  (0x1562c1502252e323eb77ed9a81e17c0543563ef3247b76161d5918cc6d882542c858c298a0ddf506da9395c1636947b, 0x298b735b6a5fff1d7a6fe200c5d9934dbf13093beb79bd8d1b73c92c89b48b8df9427c47f56653be34ac449a51faab),
  (0x1982419dc8172de6b186d09f1b003407d6aa935f3f2426438bf8632cf512d5b0b6c060029a6aebe4041943ebc7e95dd, 0xca512383dee5a31656f771c7dd7458359c4d15a8b67965b0c789748f13d707cdcf60fbb402c5d834278c1efe0c1c9c),
  (0x1a01ab05461ac8bae5531f19b27b37dd4735a2c8899702e6cada057d89e73a39584a98ad3b7c2960e67c268b36ba0d6, 0xa891a34118d0826a7a2f7313d5e20be8af61e6e423e620805eaadb34e58ac5277790d8fd5198865d016e0effea30c1),
  (0xf477459c6c77b854c561e38c0a598b45228c3a88191e3695a444b0ff95ad9ad2e31a5d904c100eba93b161fc91e407, 0xd84fc9ba74e2da45037c0923a0f75117f3295c4c95b7e5269f02913e0e8f31466d02a42ea5012da78d74541fdd084e),
  (0x370d4083e6310b750b27f2d8d06a72a059740bb7e93910b0d6136c0fd1598156f81aefdd098587cc61429dc7f012a7, 0x12c0c3a32d1245599eaaaf22039b67b69dd55f9a93862890c1a44e37221f284693ac50b4bf92a8a3c5786c63a888605),
  (0x11552e6925be0b8c87888d72d0044f65c613a33d5cf1d3ff4cd6aa88ebc161d6358b241948407902319c318df6080a9, 0xc485d6ba8c98c588d25f4ab5123dd351a33e32196489bb566e0038cf4bc0a41db13b3b84cc7558f0e5ed84f86de3b3),
  (0x145fe66619549ab59599f08f482b70bf6517ae5340303fa07bb83a09157758feba29ba6daa4b23a33f83fee94c9e17c, 0x34e135efc7cbd863b1d23b6522bd4714066ce746855016153e005a146aac9b26ba01aba1e8362922427ec26a3c0e38),
  (0x10ce0d71a9ba7ded25990812ce666a1245a5b528815f16d980c34ea0db6f1cc2c598817dc802fbdf89a5e65dc23cd7c, 0x107061c0620149dbe1be25f180a84395179f7d15ca19de110881780c4df6de208627df2d67c47bfdb72fbaa688f91da),
  (0xc732655d8fb087364357a41578c94325e7b48404abe98bd070e7142cc5d7858fcb567e461e64f0300c346adc128d86, 0xe5449e7ca3701624e3b1b2f36fee92dc4db44606155bd57d20822885450ea7134eeb088c057ef99cff72704d503bba),
  (0xdbd22bd07db54e043e831a62b8fe9f9c2a31f5ad80d0695f754767f78dee0be3bba11497f1a8fb7dc296534d4b1f64, 0x15a3ae37bc30cc6c9cebfdbc69f1b8e5fd6a9c115f8d5253dbc969f4a016752ae264e09a834865491fd5adc38a493e9),
  (0x1530e5bc496f642824340b453cf80be634ea3d8d0c1f17504e64fbefb41bac848b40bb436a0afb11d4ee3a4de9ae25c, 0xd7ffe33107f0b4a57d795c0b6171a40a2183693cd9d47e08a0f0e7c3efaf51bf106c4e3f54b4710fcf99d665765a9),
  (0x1cc4b6845e91aff3071a3a22d2ebdb964d1d5fa513b6d13a84212e7e89f4e9fb47a4f3efb78bf2f0133f596f78c53d, 0xd553eb9634564cbecf310a9bafe1476d649c6579541753582be31588ab1ec2ba8bbd0d7113c987164b7c3a7957b46c),
  (0xb83337f0cca5c896649d8a1792ce0d634cbb12d6bbe7f9fa2fb85c04ccfa524b8c5e5ea12bede783955fbe654f39c0, 0x85ecfd9c8257e9289f102f25883d46f658f6aa037e1588fb0e8b0f32279636ccab38135f65c73ac019e0dfdf0d224e),
  (0x55a2bbb76374edb05c72984dd288ec3bc00ba335546edb37baf1c750dd97267bbf73490c1d35c04e28b59e976d0100, 0x1923eeb9f1f90ca4032623f78ba020b159127c4e068741f06575753d3be493073b97e87c2c64144dbc9a858c3c60104),
  (0x1a8a6ac06770c9392bfd3df76c28d364068cf959b8fdfaa1be9024553859bfa77d19cea851147e44826f3b11c68d1f1, 0x613062241b1634115b060371c20a100373db45ea218f4250ce487a844cdfdd56b1af7820bb6a6945dbce2e5172def0),
  (0xb031933ba84a2fbbf5c18a7114247d9f2c1ac12a4d0f098fa25e83808706ce61f3e78ff8a7dc2138eeff2d20c0a19b, 0x88f223495df4eaae14501b70cc79bb54c44d906f2b6cc8f4980ea697008bcfe2818e03450ee44b7ae600e7f43b3f30),
  (0x14d98cc22175ff0ebb945ea9a5e4e4f082a3cde1d2ba9f4f0b799867a7ebe23f69ab4496323733a6d1fed447645d24c, 0x7fc31739d0cf594343bf1693ceca40871bc411d43894b7a8f673ec6a8a963f5dc45767b77be44875b8dacb57ad0cb3),
  (0x1ff61bd6f90059101f38a719ce019d19fc9689b6ad96de168c7034ead9caaafcb499caa2552321212b09d1c6adb586, 0x10250ae3a0c4d3eea2aef72fd45aef1d5faf27dff295f40fce6710a73ea427de9997e6b031b5f548da62bd2b676aa0b),
  (0x1240cab265a81e070aaae9204e017c3c8fd64e45b9aa35625c3217517a44918a1d379640045261a4981a13bb24324d4, 0xe3df01b189931954f87814158a318710a3678e71ce2ecad34f7b823b2f96393c8a43ae3f69bab5c986b938d12c8883),
  (0x3e91f81cd590b759f3aeb267219ac3b57c196f6b5045ce180541a26a83e596a66577f34eadd1deb51404ea198fbbe3, 0x7e7a63e332bea9c665f414a3f2652df1cd97b292f9a531d57824e74b315107be98fbe695f279e0b6f250080ab1fde5),
  (0xd99ee5824c1318f864f1dd94981ebc45e0d568e19c0e95b699f2758cb99fb7f59a9828345d94849754442b12166043, 0x1879bf051a194d16650dcaeb2fbd822e1c12885c330311a257b9e141855e0a4e18f096f193d5c462ee17dc25013efd2),
  (0x4c0af5764ca3b5a8cc52c47d3530e63f71b673f93647a2b26a4a1edfb3530b937da50e54888eddc9e77c545028c8ad, 0x1a8f1b313a27c545286332ee4aee3b8b9af43bc04b07c226ca1a4edfc87de17af84f81122ff3ac281f6f52aea05859a),
  (0xa48407447feb8ae5d0ed4c72442036032bad627f3b93c016835cc9eaf842f6df5c68b4e95cee543f04617d8e2eca84, 0x8300e96a45a3143d69150a6ffa4989a5b5a4425cd8edee5bb4b58a56bc72641e51c2aa627800ab1ce467e4f32f8bac),
  (0xcc3f78a5bbbd16ddb85fa256ba78998daeafea9685ba583054ee521646b93a31db56fd5cb43b95615e8f52559f565e, 0x2cbd3df2248cc11912a139d69f88af9248245f723f52b97acfdcc8f629f0f71eb6d33348ed34f7a0097d4ea20fa640),
  (0x10e371287fa7fd7466956a0520772292b12bb7b1e5c83abfa3277fc2e80af50b85d01e8a3727b7d91ff5e72ee7c216a, 0x118f70428874a83170b48300c02f3893f38c0be9e551c6768491ce3fa4314eb213cd7742040bdb135d844b21afcc827),
  (0xa14e7d871495babca73e8278256f4eb729c8064d3a714bcf408bdd8c574f1d7c41b86edd23c41aadc3fb649ec84863, 0xf21311231b22ffc7fa2963343ca83af50a99520050cac46672f50791f329ae1ba8c2bb2232ec9a128a1f1c40a7f8ba),
  (0xab6b1a3d28850d1b67cb6ff11367387f629a9b98d0dfa2d82b73359a02aed309e37b8cdeec80656fe5c51e6035b678, 0x18a45c99832784611f70f8f61bcb482da575590113eb5c02788fdf25d3cb215c9da47797ad917913ec0fa46663df163),
  (0x6a0ac63e16cd72109fc5b5d3eae6262bb57b932ac5db635887d598c29c913152a60c93d4a1e6762a2b824d02755c2d, 0x136cf1114e1529ca4f8ef3427d271428a5aa2f9fa5adbfeec087444c71eefb56304b9124464ea97139a1faa5ea3953d),
  (0x11cbb554187eb122cf5b7aa8f7bdc0f052cb6e1bb09a54dc11623afd047dfd4ae40169e573fe3117a23e902a507532e, 0x1512503954fb882adfcf5868cb0919751abe33b7df3a772bf30777471d30f65453195b5c4eb78527a4bbb1fb343a875),
  (0x18052a0e7b9e5cbe5b6e73ab131ecdca696c17e653f04f176556142ef9134b93b95bb7b0be6708f3b2415c81d6f3c9c, 0x106bb75f84d68324e100c82970d4e85aa90abc25cfe96b2f109ac2e72d740bcbadd1856e03b8c9b80d303878e8ed6c6),
  (0x161c2165d0345fdbff14359d9f31a410b9a34ac39f7c5797180df8db2d477be743886570f9545df8ab39df9ee2bcf00, 0xc0a7ad5920242ebac351897f21853651b435ba76e0e94ed4628ee02236c259b65f892fb8a776248d67b00911e9ae2f),
  (0x681b53fc75a9cc5a74dfefa1a53ad4919e1198bab9360e3d14a291ae5dd2db43de1648d423373b16f89e65a28013ec, 0x20df0c64568bbf3c500ff14cefd2b2bfb09fc8a92651e60a725568f5eb190d34b045172f3f9e89b045964f53486b62),
  (0x1583b70e59d3d419931032f4d0c96391b5ed96555eb765d120b8220d9db235aeff47a01dda829674204a05d1664f0b3, 0x1abdb8dbd7b881c4e6bebc24260576bd6954ff4a29a2f5a9a1d50ec08d8b81322d28d7a22cdea47e34bf9fb5447f4a7),
  (0xcd9a15b5c5d0c3a0d31947102e1d05109bbadf135570e5cdd52819fd450b86f7ab7c96e53659995d4048f234dc42ea, 0x12498168fc93898d565e9df453b66c492ccede60b4cc27a0082a3b2b575533c03dc7d935683142f759652695a5bbea4)]

theorem crhBases6 {seed : Bytes} (hs : seed.length = 32) (h : (chunks 4 seed).map leValue = crhKey)
    {sqrt : Fq → Option Fq} (hsq : SqrtSpec sqrt) :
    sampleBases sqrt (chachaWord seed) 11 70 13338 = some (crhPoints6.map castPair, 15412) ∧
      ∀ p ∈ crhPoints6, ED_COFACTOR • edOfXY (castPair p) ≠ 0 :=
  evalBases_chacha hs h hsq (fuel := 11) crhCerts6 crhPoints6 (n := 131) (c := 833) (d := 10) (k := 12)
    (by norm_num) (by decide +kernel)

def crhCerts7 : List (List (Option ℕ)) := [
  [some 0x16d866144c7246e37da40c1da5ac2cb8f57eb3031c3b1d6e6dade8458ebd1032faf358fca259ecb5e84853cf9dfc9bd, some 0xa3cccf1986218dab6ca0eafb1beb8af619caae490b06e9960623d4a8f4347ad7fd6e4de035419263b1d19c24fcc2e, some 0xdf89a24200e9d0a3d65297266e249ee7366a6120da4a11abe0df1c0a97d7766e446fcb9adedac5b5a93f11a85577e4],
  [some 0x41e1ef0f4c8daaa3c970aac39b318d0dd7c2fdb73a78de3abcca131cc15a02d322eea00cca73985673f2cf85e4940f, some 0xc8c02e9ed83e2cdeacd7f023f340f872df53c0ce7c25236266b92a57fe8fce9adb3fc9a3e6e7dde508c7bd27ad5592],
  [some 0x90f955cf786f9f8da45cce3dc169fb3bc9f2233ef0ff9c85b4985c9a31cf9091fdda2e366d86a4543cadfa29ede2aa],
  [some 0x22b259a9626f2429ffb1713b8ede1a6612461e27c1de457ed7e5cca5fef98bd0852e3690647bceff9d7c495a7b77bc],
  [some 0x21f14966b0b5ebace2acbef9529526450ed8d561d7d34226a33ee00251948a5709b7334f814e9279a489c0b3e6ed69],
  [none, some 0x1ab7b196e885c8849b4e0653a6fbd9c1b3c647d62ca6afa3f0b23b7e382ede2c3b27cecfc9410db0c25f980d1d3f518, some 0xbe8324ffd054de8b42753674a05407e7e83b8185bcbc80dbbf2b93e82653c87bafa2894f80a709cdaeba85ad979a4d, some 0x1467a164dde25966730304ea7dbb84955f9080eda6c569ed670d11fb08269593a3dcec3f53c08541ebd8ab19ecee4c3],
  [some 0x3f1f3e672adff5702b35356d2cbee8008c26cb1da84dcc5e3f4177294aa1b912f063ae3b6d66dfaa10ef10b050ab0a, none, none, some 0xd20a4bdf5b6b4355735c3f3b6d78f2385516c6d224026b4cf354f458226610cf797b52fbdb177bb0a5d0f13308c92c, some 0x155cb91fb5d0e292a433f2cce898896c241ad70832b2ec75365dd85ba1e526b5578571e5309c596aa4e5b7eefc5afe0, some 0x161a948e1be03e2ba42aa68fa0b3105643817e0dad9fb24dcf6ac54fdce5a6233dac1e013f9cace15b32a1dffdcef5, some 0xe354008a4b89036e0b5a88f1ca8ebdae15e0cc249ab2a7a7f1ed7dc9de9a7aaae936c917c91c388a03670c3a34b0d6, some 0x19a0464802409934e7bc97a29fe102ce97fa67e1d690ffa9508a9e3d77136a6fee4412c91e48f2f5f25b6c2532b01f3],
  [some 0x2ef3f2067086a14e6f7b8e1a4534ed515d8b5630fe9b6e5097bd05b9d34f9a48832618d0912272050f04df9e50ee6a, none, none, some 0x15b825e16d456d344359cd82bef03491c997f8212e1cf1b6e290200f323546347f4b3401f30bde4c6fec03a60164db4],
  [some 0x94d749d22a51bfbcf9204874323d5cde0a727ef495c7152819363811b126e1a43c9f839c0a65dacd5f1cf08080b001],
  [some 0xf4c4079a9a2a8665dad8a95993802777bbc4189ba297447af995624b97d293bcf02a0a36b770a6625014b2562373ed],
  [some 0xec029124cc727e9e8022cda5620c6002cb518255381c2020b39b73672e59c311056f5a850149f6c6464216de232dfa],
  [some 0x1753bbad3a0dd1a3597b20414ae304b4bd4791190699475542acfa44a641956b91f83b0531b0743855875c24df3806e],
  [none, some 0x1212e315d722b15a14cf74bde5d0e79526a38ed11e3f63183754be8b584331a8025fb37b76f9268980efd375aa2def9, some 0x17d3a74f8ddaa3fde30dabd1d9695e9cea69ffda8fc4ea2bad236c28d29ccf0fd29548fb310d26b0fe83c39c1d5a50e, some 0x31db2bc75499c11551af88022133777bbcdd9d1c16a1ee43167d90a71ce5c0b0ede07a9cf18cd8b79c88cc69999b9c, some 0x116dc0ba4874cc196c52e3c6ffd9b2de1e0ad8156ecf3056b98de1b485ec74a2a6a4dcbc4bb007cdbcaedb003c84a9b, some 0x13c28bdd797e3646f7b6b516b1aa2a12dd7a6aefe72cc2831e19bd890b77859297c5b63a9dfd812aa12c967861cded5, some 0x1256718e3fd61c6669060c25171d48f96337967ad180a5ae80c4b6a1c941571c5e2423512d9c1c2f83cb84986e7c0b7],
  [some 0x7bc7028051f08dd225c34cd04867988e295f5cb46788c96380d15cace8e70795b8e57626c574d640c82997f72dc028, some 0xa443fd4a6b94df6a74a3b4dac527d18d2c7474028e636bd90a01887988194c4110d7e089b6aaccc745e42520fda9c9],
  [some 0xd65a85c0dc2e9a09cc2141767a093f95367e447266e8f150c9a62cc8896480c92431584ea4371f5d1d2785b744f874, some 0x1a1a4916501ce4526bb40f363af3775513084ac0c03fda0723f804a00b1104581299e95d4ad8f56608b82609225c5b3],
  [some 0x1797ac119c8d84933a8e6385d876d83687d4b30b74e07d9b776a30a21fa3cbad75998bfd4b1d7385ade228c13c3dbf2, some 0x719841decf2975622ec212071b5b615574dbf84135787aeadb2c78c949a35b4d02f4e6e4be0814b8c3590742fe4296, some 0xa490abe75b6eb0277b83e262e2c5e0beea91b9c6e00bfb358804560c7df5c01710e045a2a7cbc78a212298e33dc9e9, some 0x368280f2cd5409146757ff50569571b7412748bbe6dcfa8867370a25394702bb506d0c220900bbd3b954e51c8a322d],
  [some 0x137ed06f5555cf93887b333935be224707b17d8e46ec813f196bd9c0f08bc81cc5027cbd2ceabd9d4ffd725c55ce72f],
  [some 0x131788079a258eedc6e5de3cbf05d8f5de8a27b3873af718c4789da6ab2737686d8c0c69f639a8d9e0b9161d7dff773, none, some 0x17a053b3b3e25e34cfde71762dfcb6864c3a49710422383dd15781908cd8995c4678091539edbea3ae83fa510cf01ec, some 0xec176edeadecfd23ad4e958703cc5ae1083f4674f200ff96a330ac35654af74b0850018f0bd259dc572f0063d5981d],
  [some 0xa09f10bacdf0bb12f5f1f2fbeedb0461966a28a97c96664cb2ccf77a1d70bce9f3468d529abb928ef14bce81f7f4a7],
  [none, some 0x11c64d15f799cbdcca01ed68e678f3c5bd2c290504261fabe7678999a279738a4840c43e828503b9e876718a2ac4cec],
  [none, some 0x88ececc1a93acf2b56ed2cb7f9a04befba7556daa98d33598a49fbea57c08d25d6eb79ba46ddb3bbf53197b4fd07d9, some 0xc602027c91cfe627974169844778c1ca93b3999dc2696f9433836564c213702875d11e4213e5bf52212d59ec99a9ff],
  [some 0x190deb083b2a9b1f64d36d8d38efdef972e6979c6db06c726600b5c93beea41e36888147bd25d71af739b1a4ee1a124],
  [none, some 0x19f37e1a5daba19d4d7121ca3f7d6a269a962ff6a4547a162bdc306b08e92ffe919188868f5b0a6615a2e6ac30efda6],
  [none, some 0xbe345d12cbcb2ff6b20bf769efa227156517b288b2582b3d8801fa47b2a3936fbd955b308c13aa336c90b76774b025],
  [none, none, none, some 0x19a479110acba58d092f2a9d0408e990c56cd0d4de5e0b79b0548d8a443889d6f9ac46af4a73bf500efd073e158611e],
  [some 0xacab3fe249694f6db8ec1a36efb3a00ce7368889ae176bf3fe30a69b053e96e50ca19d82501f9d7cbf710198d2c5a4, some 0xdd8c645ed43f53a2b711bf987deb0b586f1784c66e1963ce0f4ab767c1e5d9cc46fb9264771743195f901ae1368d20],
  [some 0x1a9879ce44900560f312453dbe42f33deb5120340ed5f1bc89b898156d70c7d304ce5ce7fe313dd8816692464e55925, some 0x18070dfcec4bc6ccefe139cb5909cbc1f53612c960713ab1027ee8152a319d8d8de0e093d50ec9b0de8d46dcccd9ef1, some 0x168b84ff77008911499e3253adc1c5710cc138011cda6de43ee41b6572a3b9a80ac6dfb70825bb1246387197cb73c1c],
  [some 0xd8d95c965df4bcdcc36caa1ee095199e313248dc8074759041555138d66480bb1d97979e8d64dc9fd3b95c3b57783c, some 0x96c456315010cd7965cb4a22354c63c8475f4a26eaa759ca95e2ee3f683df78dd1bc1968a1c7a2a4b047aa213ed343],
  [none, some 0x79c7c74c0a82a2319abda0ae50db5731ecf70310b0c9742dfc5a1fad169856d747a6ed73377df2151c741731f6589b],
  [some 0x198e73e056a8dc945cf9660febf7a98394bd9c69910e299adca6df0ca5fa74d53407b275a4754c651d6e8bd867398ad],
  [some 0x44c218ccb080546b6975faa5bb8f25ba3d799598041daec78e872468569b61be83a3269a7812fb0253ab075153051f],
  [some 0x10ccd9a5bbc8a2de601bf0c18b073fe83bdef8b60a75a8978fb5358d321d88139edff635156042de3e341b83c6eb0e4, some 0x676d1441937521910ab9501a0a871bd423aa2e943ddc32d50bdc84f8437c77431894c62574d16a58e631a6f33ac923, some 0x1608e6f7f6798a240afc693f265e0450bbebd928486917a8b004cc64e98a92d5c734b49a26e2485df5b4a868283ead0, none, some 0x4d381e21242d2acbb8b3d2ad340943dc6dbf989a29d3bc5d2e24e1ebde8ac9a080da00b787e2bde7905e03c716e7b1],
  [some 0x8e90c704530e983c4f743f50fa22f5ed8716df852090134a4902bd5227d7fa27ea28fab884e122fe143ac806c12e68, some 0xc34ae5aefb8a4a9433d78222231ff564b60a5fbc92a75d8a603cba20ceb6f0fd442e440c471f8731ed441244bec8a1, some 0x1251f0499452ff116aa01c237bdcb3586f1c9c5b769ee6360a8c4735da90ed39621289bb20578e6d6e708e242d40da9],
  [some 0xe2c0ba6012635621ab00964df497ec376e8335e7470ed5f63b8c22e7e050a4a7e161bce01832e9e066283311b7bb6d, some 0x17ae97ae08cea12d9094ae193db36bdd96d93206f83a57c254db96c478d9e47af30e08b39284891516d3275784a0820, none, some 0xffc42d81ad7663186db0851bee029fb725292cead3f1a85a7e52f0046a414e9ef7f6357e80a2b66fcb3ac811a2ab8b],
  [some 0x18ec347e1d369f1e4a36941fe22c6c4b546503029f3712a662e43da0b6bea4787fab758bd40b29b69840a8c13a79475],
  [some 0x1088ac701e978b1310f20fd3db67b024c3777de12096a780951cefd0ce5c127f51670196ff80633075e6d08849355bd, some 0x9f4999708b8c1344b5351c5ea398822f39c8589704cc28a0bc9d12f4a0af39d0308942236abbbceaa045551a80f5a9],
  [some 0xa6f6a1649aa343ddaef1b8d32506f715e10fca14729e13e69c2532292de687aa6665e4601f8eed9292d98fc4504596, some 0xc4fe7113bcc8b29fbf3f88631d726627850e902398868bb2b7eb75e038bb5efbc00e167cbe6ee57557bf79f3188d21],
  [some 0x13b8b5e9ec09fc1fcf247fb99197acb2fc60ca5c0a1706b74060b11c3a2880a00d53dcc2ab4165a763ef2dcdd953330, some 0x10d4d8b6e51130198468397dd0d4a8e0ffb65f82cadec2bd7f9aa41c202fa94ecd6e8653fe96d525f9adf4493eaf36b, some 0x1a8523e73937a399017e4a1675a8d0610c793bc1418344f4b60d0c3e091f8a50ced870648e193c174627588076fd08c],
  [none, none, some 0x485aa76ab02545676a7f49c222d6f01d1114549690284d5ffb7c948d8b7011e6fbd38d4e35ba6ac8c507dade0d2b46, some 0x823833336cc9100cdfba5c622b241a00384829739d63a07b67302ee0107310d56b15c5bed375f11ccf3ffc32b967d3, some 0x3de6f3d47ffdb25724131450932fe73672faa249d407f972039afab32a5c0c0a9c18a82a161fa823b2507d22773d6b],
  [some 0xd7baa6840e108ebc5afee45a953889a161b16733132f911e4b912f961c63e36febc74a48dcb1fdadf54642c335359f],
  [some 0x13e654c4fab2b47bd1df33caa4aeb78ef69dcd22ae6b6e4f9310e22c03547398b6b76bc0c74876bbcaffa4c11286aa5, some 0x431bd31553b93f7b1fac8f7b8d7632766505484b4522030f206de70c3feb1ae63a91bf5d9e782df0b1fd3367aa4df1],
  [some 0x252e15ef43bda35ba60c52ea33717fa975dd95ef64e2906ef9f9b7497ba98287431d950b70f7bfb59ccd4abec03223],
  [some 0x7f94400f153b5310b80479a6dffbfd4e117fb03139957b3e2eb30f14670dfe5f231212864de85267cff2152ef49662, some 0x176f35ccfcf4245e5b2e48f756f692975e58abbe8f54ab48d53cfd4212d80d66ecc331b9f283a482157055cf9ab9aa4],
  [none, some 0x7bc88692a3417e71d783902fd8ff8dd2199be1f820dccc7c240379a3c0a6c1e2d59dcc3e820f26dfc4ec03142a25b9, some 0x1a31961612338a5a927175f31311c5c7cf349a4e5d09225534c8b43e836d2002fe141acebea47749679aad672c51dd9, some 0x14bd67f5e5f797c817fd90cd24a5c99027131b667757f8587ee520e171ddc7cfcd170ee0bf37278b73b0e1dbfcc47b5, none, some 0x9ea6dd571ed9b91b21f5b39315690995d44b5750e3c4e767a33bcaeb4729d91c3dcedf369b5b957ac55f6e813118b1, some 0x92685de8a993ed2d6878fccc617c94fab06cc1604278999bd5c695fb7427ec5e45014886f6d2c816ce22aca57198fc, none, some 0xf19ce78b9dfcd3191aeb020b255588707032fde7a9da7cb4c459b93eb074efd121a16d49576ec763da46ae8c7cff7d, some 0xa3104998275bddd2172eb34b4332cf700345e2a0a9f3cd6d1ec374e83662022ec66f9cca747cc04f5cd4a349fc697c, some 0x17ac9907713ff466e0a0eca30fa5798bf122a73b97d139661d98355651537a1c7323b7e036cb1930d764d9379959021],
  [some 0xd29677cc0d9e9fee6fcadc013249b94f87acf6d661783e9f3d77dc208c6b54f7f798bb3e4f040d101d89fb2e8db58a, some 0x15cec56cebcd8ceb8e990e3c64c9f75b8715dea01c334e7be979b155a7e7e324952d23de7e0748a876b99c1f8a0043f],
  [some 0x4affa9ab61c8ca8a4927ed436360a090eb8ce508eee5ca736ff3f77c3fbec97bf7d34dd3a517db901a63581fea123],
  [none, some 0x2e545c9dfea779c77b82f0f1ffe352055506b4b25b4a6c31e54ef33cf38f71a3a6ce05f933478766ae80a65d9043d3],
  [some 0x16d49193193c1839a7e3747fdca051ea11967fd4cb7a16bd45a5d26b72a8c8e52aee0f18c1c17a95ae6401c11e2b12c],
  [some 0xee295ba209dc2e191556335ea94accf271eaf771284c8b76bb3c184b3a32ef260c9c25b0e4048f41fe399d8e5583c],
  [none, some 0x5f93433d315f738c2a33f63335bb85772a203faef18995af7e69222b861e7cf3e43003465a22594d5f12a10e91f87b, some 0x86643a5afadf7657db3d664912c2cba3bab3c1803946cf163e382b03b7e0aba5c580c42c25987fb6ba715c616f995c],
  [some 0xe8a7e0be903a5ed4c5962f1894985577f5f04b5c966ac1e14e80abe74ef9fdea87d7051e54fa6b65048361cee13224],
  [some 0xa201ba71a7384ee1d0ce876a7a1890e1ac78abe0505cb06f7e80f5c2b1dffedb7ea0590eb73923768471733faf7fa4, some 0xb9e872b985f4dc7963aee94e35cddfd9c2556898dfd8e97ed8db4b78f69798e76b0f664ca987a4d36c05ca5a77bd53],
  [some 0xf44bd589877766c3a3974e65cccbaea90cebc859fc0e37f4c546247237496a5459248827d86ca885f13f82d7f6fa2a],
  [some 0x7430f6f47c2b06a1d1409877c80894e8f3d545a60f0dbb149a80c801e31672252c4c573d78f50965c01a4922adc968],
  [some 0x1abbe171d94879cd62f4badbe656337ae48d6880d5ca04aca4e64b108e2c4c8281e16c72446a6ed0a61507b614f2657, some 0xdcea5379c423030eff70017ec897f6e2f5529929581638838cf91c764ae395afd5283b28a5e6ac79731b82778ef1ea, some 0x130a84a0927b531ac0e6515272639b7215dde7475cb813cd3cdf3b5ff69d08d3888553fa3243e62cdc43eedb40c83c4],
  [some 0x1080a83dc47e190bb5e64801cb7849c522e6251232572f4f94a3026228ac3f66b6be06e224e765eb0a1b4c82c47ea89],
  [some 0x14ae4c06a876dc4419ae3b00a581d6205a61edfccbaa29f31bba04d25691815e71d8e705b5ec379a23542a73046eae6, some 0xc181312f54fd47f6c1744f4c75eac9cb6bcd25e763e2caf43385f9d19fc8dbf7e9bd9ef4f07e6fb0ceda736dc16386],
  [some 0x3874c6c8a8f17ebfe332379fb67329086c17c86d67d35914f5709263ef8fa663fb24ce1094adc3a2e1b846346eba55, none, some 0xf5662ca81147c8bf62c4107a1e03a57842e141e66a5557fcde06cb1a7e32708b927afa8f93daabec6e0a794efc465d, some 0x1a7b9acfa93695695c6c9c0437fe7a8a3c62da7212b63039fd37d292fc4c916dbb9ca5e9d5add5e2d76a91618db6a6b],
  [some 0x161be173f988dcd62189ae10e76ffecb410ff41e378049956809451715c53f31dc47c69090bf3904d28045e0a10396f],
  [some 0x7279eb3b57ba4908aacfcfcfc7978df21e0f418c883268cd840b520e43f4169d7631c85aaeb352a3d0cc8a7eaf6f90, some 0x1704fa268c48eef4334e72f007053b37bf18147974e3e22499a6d17fd3d83bc71e1f1af7309244583563d355a9456ad],
  [some 0xfd790f08f51932ef9930623923dd9be067dd44f17648ce2fd3cf8daae4261d9b92306ab67cac6f3a14245ae152df73],
  [some 0xd568f6f5d2e8007750d220783ed25ae48c0693539359cc8f40d7f19d5d68f2cbb1f8e9ffd69238d5b4599eeb39039b],
  [some 0x411a8a089289e618ca241a3c70dd4a3260b5184e8ee80c292d419aa0ca6df13839b72c4c4f41ecd5a5094b1d948fc0],
  [some 0x6ea2f642331682b0d6bbdfdd9fbaece3acc502abd549be0cb79b82ddb01eca716ea22ac9efffed122a1f839f3c17f0, some 0xc27c1e6e5d34f210de294c1735092283ce7ae268a43a21d005ce5001b98e2e8bbc000e0392830997433e1ed363ce40],
  [some 0x78e6972cb9b0c81d248de73b4776c6fc2edfdbfc41235c12852af56c2a8497622301c9554aadb482ad6bb34604416],
  [some 0x18b782a6cd5307a0a2026dbb5c4c2a50c1288d283009c4ec96e4dfefb4a35b23e6eb398288f9f1fa1b7b73a56b0906c, some 0x14f31f85023477742a233207163f94c88b6bcd0f9588344de9f5be7f9c7d8042959e48c58d72aa9b864a44abd0d594],
  [some 0x4f66aa0353fd37dee2ace7c4f31d507a9d3def9a780d4275da1608bdefb3a897294ca2dd05f642402eaf910c70dbfe],
  [some 0xd06c76f326c6cec7aad2a28127b5479dd1599c6b2728dce4d184e46abf80515ca6bdd899f7e6d8c915a720369ecf29, some 0xd82316e02b961a90c0c933fb4658d6afab044f36348ed81c683b00cfefbd0864bf2810f8441fbc0ee3ea48b5dcae1c, some 0x16e0dadbc427ead14995601b48c97464a7c7601e3c7d10c5eef5b0a40109db0d0e8782c8b678336bd02e1d5b8950615],
  [none, some 0x166ebe01edb42bcd1f388907118e64645df1e19965dc809becd68515162e9b38d93121a2b22a42965eac1da810176c4, some 0x182d0b3f79ec7c8545af34438b6912f6b14674f8434c81cf74796dec4a7a74a97809ac900ed08b3beaf55f82f0ecce0],
  [some 0x1134ffeb9a12b8b35eb9943604d2a1a9804028629e4e64fd866494185917e784e5e6a7a8db4668d19eb4414a4a007c1]]

def crhPoints7 : List (ℕ × ℕ) := [
  (0x1843e311075885b937b33fe4f75b762e3a835aba9d0cc19c33b5d7ae9707ad7c7bc4c87e43ec8af89ab36d20e513229, 0xceb0a3d5c4271a2264b3294633249c32ec6f91e01ac97d73128313af717089a8c6ed789521253acf5f80ee57aa881d),
  (0x198d00afecf762eb4e5e3ecec75a827e9000d2b075beeb6cb00a286bd8598c419662371da50171ab979a6d6d4689173, 0xe57a1778ecd2bde78e2dd048ae0842a74386323278ee6bbc8ca905620ab8317c301d7a8c1918229ffff842d852aa6f),
  (0xad0f6987c0b087e604df5d29e9a60ed05194cc6371e6f930e290e0a608f69830c3c6b6d97775fcf7683d24ee5d7e84, 0x11d40f0484ca14b3896a8f22edfdf3fde58e7cfc20413f2993ec9d31fd7786f850d8315f992795c30cc1205d6121d57),
  (0xe050d1628d50ca147c3a5e507f6b0025d9ad8e24a60708fc0c86ca7afda4766cfc1812ad979112fcfc3b5126cdfb92, 0x22b259a9626f2429ffb1713b8ede1a6612461e27c1de457ed7e5cca5fef98bd0852e3690647bceff9d7c495a7b77bc),
  (0x140712b054bd1dd93b58e3f36534ef18c2e98f9ea361abb05bb2a31c5e881bac08b3b75c39f4e18c4531a438b3af5d6, 0x21f14966b0b5ebace2acbef9529526450ed8d561d7d34226a33ee00251948a5709b7334f814e9279a489c0b3e6ed69),
  (0x8555a4d8ce7107bfb855f6f3f43b41ebfe667f31b7b15246f6673937ead6a1c2c096e6216a0b026320422223fa6272, 0x1467a164dde25966730304ea7dbb84955f9080eda6c569ed670d11fb08269593a3dcec3f53c08541ebd8ab19ecee4c3),
  (0x50f18da7a7d9b2599e8e97724aef48e93121292525a9f80489204e927db3f670d6726f372d34be2b6506d3396492c6, 0x1435e197a1075777bf3c4642a3390e30a33374e38c039489eab84be298115918271c179e1b70d125e3093dacd4fe0e),
  (0xcd92008b8dcccc76cc029eca7bb4e7e167de3148512cb3e375ef4efa7853d2a27e15728a76772bc8834a69c9453ff9, 0x15b825e16d456d344359cd82bef03491c997f8212e1cf1b6e290200f323546347f4b3401f30bde4c6fec03a60164db4),
  (0x1ae335ccf185d0ac10252710529f160d167b8c7865ac5d052ad7d04caf703370cc36da1eb2f9a319f0c0eb6506c3ef3, 0x94d749d22a51bfbcf9204874323d5cde0a727ef495c7152819363811b126e1a43c9f839c0a65dacd5f1cf08080b001),
  (0xa4aea064d21b92de4cbed7d122967bb9bf3a40a7a3a3bd8bb85c2c48b05853934c13d82aa38461219f0a633561a8eb, 0xf4c4079a9a2a8665dad8a95993802777bbc4189ba297447af995624b97d293bcf02a0a36b770a6625014b2562373ed),
  (0xd23c4e73185363999714c7f9ad75a677fd0518ec384d80dcab22f5b76b360f9d3120474040a9eca46156b97301609b, 0xc237b4f2f89e6c27bae2f2c73f3cdb17578870abbcf76efe3fc6bc52daee3d0605ede9aafeb609bec27de921dcd207),
  (0x1ad43f24964da2fc60a47f11993d8c9a391eab545cdd9dec1d6199d5510f0cde69912992b37ee9f9bd190f7d71eb42, 0x38fe8b442433d090a353bc57f318efce4e60e1708b7f19cac8928b6fa52ea95debd993dce4f8bcffb04a3db20c7f93),
  (0x49652e98446ea708c2ada612984b975854e9f1361b4b5e0a3c25fc853a6050c94419df5b48479c7f086b81e0ad2dd0, 0x88d32d33c7af245faaa4fe1b2f74ab83ef608b53dd093436e716c59d75328e51291b0f1d263e3d8ccc07b679183f4a),
  (0xbc7f93ea43ed47433305738a0268dfa1925d71ae11a64fd1b06fce68746d770d25abc58ddc6fe69e076f158f05e49c, 0xa443fd4a6b94df6a74a3b4dac527d18d2c7474028e636bd90a01887988194c4110d7e089b6aaccc745e42520fda9c9),
  (0x18c399e0e5685fa2b863b7c5dedc5b9d0a6a4415979857861c6984717d647849098d389229e0049806c0e12f9d5fc10, 0x1a1a4916501ce4526bb40f363af3775513084ac0c03fda0723f804a00b1104581299e95d4ad8f56608b82609225c5b3),
  (0xa2089d6cab87ba42a64979e30ff3872525c3e62bd967fd32d7b84e74d66b7601db56c48762f6e84439e57a351a9f8d, 0x368280f2cd5409146757ff50569571b7412748bbe6dcfa8867370a25394702bb506d0c220900bbd3b954e51c8a322d),
  (0x2b04a063ef5349ce5ca6f1ae2f83d94cd281aa49f7d70bd0126ab3c6cc7666e1a12280711bb53f683289f670f4509a, 0x764d3f226fb3f18db3528cd9456716a9a7c21a1c864b7b2d5ca493ab008b7e4abb35785d315426b008e8da3aa318d2),
  (0x103860b5447cc325b862c456979494540c39d1c5d95f04537e4defebe84f02796b5f90c37ba97d4c5742f9f08afc371, 0xec176edeadecfd23ad4e958703cc5ae1083f4674f200ff96a330ac35654af74b0850018f0bd259dc572f0063d5981d),
  (0x10e8391f7dbbdf992348a51af3b9c4ca5228809ce36f92cd43c265258cc0b35d5789ebdb1d5536da4526b4b702b307b, 0x10d9b355cf7202fb34513cd70b26e36b88c6fca57787d28d24095383febd7432d1816b6dd65446df61774317e080b5a),
  (0xc61359b2e9b75bebed7726977075fc12c2341253ec06bf4488b94c60fb17d4164ddae40a458590909bd8b90e5e1772, 0x91d574b84b742cf99ae6e9de39b9febe501762b0b2b194607ce9961fe1b0c77287510047d7afc4e68158e75d53b315),
  (0x167c39252472a6bb163e52f9d1413bdc5b432abc54cb6c02b8719621bab583f7ed90d5b4c7686c1b958c01b8d739955, 0xc602027c91cfe627974169844778c1ca93b3999dc2696f9433836564c213702875d11e4213e5bf52212d59ec99a9ff),
  (0xa0edf8dc919f02f34ec9bca08854de7bdd4e680979703cace97ef21a3da5c18d094ec090e87b22a479320a83b2ad23, 0x1d5b9594126738cfedcee799124b4b82f470793a1a0cc7f89356d3264a5dbe33a2d52fb42da28ed59524e5b11e5edd),
  (0x13dd09e7b19d4fd4b8f8db5509a331f3a917215f08bf30e37aa8a06ccb3eb338e99964d288b9c91fce8869c6b7b727c, 0xf026471ea56d0f163f3a3c8a97298b07976f396afcbedbc359f29097ab5002df244bbc70a4f5a23ae91953cf1025b),
  (0x1a707c9526e3368dc98e25951f8ff36da5caaa4792e34e3d29ec115125a8ad420253585a041237d508bc932b7a13080, 0xbe345d12cbcb2ff6b20bf769efa227156517b288b2582b3d8801fa47b2a3936fbd955b308c13aa336c90b76774b025),
  (0xe3798ef6c02abaa7d9b61364bad0cbef496bec6d27f30c1e69bee41d7c8c395d933b9ccc30748897315a090dfe89f9, 0x13f2b507185691f5a813169c60baa20dcc0ce5b30f32d783ee195715c5bf62a77098d93b58c40b8418ef8c1ea79ee3),
  (0x18e3dd59a6a20e1b263cf032cc5e4bd8a0da03571e774fc772e6aac92ed5e3d9ed3cfd04b30f1fe18fd78b0064645f3, 0xdd8c645ed43f53a2b711bf987deb0b586f1784c66e1963ce0f4ab767c1e5d9cc46fb9264771743195f901ae1368d20),
  (0x13c5b773e60cb33382247d80434ae64cfe964896b655e1a84912f76a7edb9ecef1f27c3d0ab009b61a3f37b699c113f, 0x4581f620550859b1a1229b31c52ce40956c672ef276cb0db05207962df0c65965eef48bf7da44f60a538e68348c3e5),
  (0x2a6397966f13f5a0c1d84a83adf89c0074e1e757265eaae60a9eab6a48bad4051b170a46aa02cb2cd7069883967319, 0x11775efe675001d4cd53a764a6bfcd751db7aa8da0a6c35545d7f417aa10a088939a12ac75e385de0587855dec12cbe),
  (0x7e92db2c3bb9f9d33b6dbb7949de3fd50ad181fde9a51f95e2291ba18807070caab161814607c994bdfe14a1d0d9fb, 0x134727ecbba8e4894a0481fbe506de3e835e2eff0444a1af0f708100cf2afa93fc3b656bcc8820e6fec4be8ce09a766),
  (0x856e783aa1da34fbb7012cec423030d0799ec56eee56a056eb32f8aca25f769fbe9109e285dedf0d2823272c74e8a1, 0x155308125a8321806b6f5f6de1cea2e0d7002c67e430f57128f43eefa9a0b2c3cae21cd5b8ab3a3331d742798c6754),
  (0x4055c34be730cf1ad3f0542f39ca57e7b455227787d8b01ee6041db540e449b22efffb0c565bcfd17c26c0b3efe391, 0x44c218ccb080546b6975faa5bb8f25ba3d799598041daec78e872468569b61be83a3269a7812fb0253ab075153051f),
  (0x17e68938e25f3f6b6d84d0e1886f3b5e9ee71c6a4d9ee25ce54e6b3e4d27b44c5d295118962a216df48141e8ac6e893, 0x4d381e21242d2acbb8b3d2ad340943dc6dbf989a29d3bc5d2e24e1ebde8ac9a080da00b787e2bde7905e03c716e7b1),
  (0x13cab973b8be18eb3befaddbe93e41cf6cf8c90467ee625df6fc7b1bdb489c37aa49047f09c66aec420ecbf457fd309, 0x1251f0499452ff116aa01c237bdcb3586f1c9c5b769ee6360a8c4735da90ed39621289bb20578e6d6e708e242d40da9),
  (0xab1b00dbcded309e2a0fcc5fe2107804792a41340067cb19a62d9c609adf720096fd6fe4b32ceeb04dee814a1715f0, 0xffc42d81ad7663186db0851bee029fb725292cead3f1a85a7e52f0046a414e9ef7f6357e80a2b66fcb3ac811a2ab8b),
  (0x19b9be928e6e710ec61224973929db278d36d5fd3c2eaf830e0254e5679a0f87de8a9012957457d22951691e425c860, 0x1f76fe35f1a6f8e1979c7e6e7e827664dc89c2d701a264b8c51e55ae9d5db88f10a5eb72bf4d651b84b573ec586b8c),
  (0x5e32dfaa1ea98d7017228f3f4e0748d599a00f53f5930b7f7775da8ce164fadf9bbf2d7b1aced3e01e4206764593, 0x10ef0aca73984d78185d0a40dfdb0b8eae9119a69f047667e36c51cc56898c646dad4020c9544439a687aaae57f0a58),
  (0x40c41f95df1ea4adfad6cdbd718b5dae7d1d72b8a4b7a2b81bb8d40d67a7cf35d2e46d4a5815ab8690b9902afe85ed, 0xe93bd504084838267bc6380983d6d4f29dcb62dd5c8d036c3b76b9d9d08ca11b4b4f2db341911b0fb100860ce772e0),
  (0x184e5f18db47efaf0edb5b0ebc2f8aeeb6e9f86c84fc30098d1c7e25cc44f4ebfcdb33d302461bb135936987d459717, 0x1a8523e73937a399017e4a1675a8d0610c793bc1418344f4b60d0c3e091f8a50ced870648e193c174627588076fd08c),
  (0xa8a4fdb8b98f67568ae8e3532c6d6258ea02bcbb600ce7a0827ddfe4c8aeaa383f45d6644ba06c55fc83178b3efdf1, 0x1705352434513386f16f2ac1c0e1953e3afdf50b7210b95acefc73506deebf40c6f449c05e9e05861566f82dd88c296),
  (0x8f6d2664405996ffa6ec8dd8df3273c599c0269e2030a28f3b413eeae625934948006ab0f09b3fd5e38893992b9d4f, 0xd67f9f93b7005c09e006dc120c10b178c1288bcde1e3fe00a7d10023ece41ca71f95f9e7234e02d71379bd3ccaca62),
  (0x2d5f2ab8e19f85f3167675920aa65f3ea0a25ce943c12e5c159ce316c11e7f6b5e067df5abc3718579ee584d4909a2, 0x431bd31553b93f7b1fac8f7b8d7632766505484b4522030f206de70c3feb1ae63a91bf5d9e782df0b1fd3367aa4df1),
  (0xfb7cc78109b68d29c554b60af304a2240c24d5523db3c35cd6f1f02c7aa242b10ae309989afb4be83ac69cf3412e65, 0x252e15ef43bda35ba60c52ea33717fa975dd95ef64e2906ef9f9b7497ba98287431d950b70f7bfb59ccd4abec03223),
  (0x138fd8ada9c2f5ef0696ce39bbfbc780da1cb9f54b80c53be5e209a4b713f84d7b7a01db3d9f0ddf03485904a15bf0f, 0x176f35ccfcf4245e5b2e48f756f692975e58abbe8f54ab48d53cfd4212d80d66ecc331b9f283a482157055cf9ab9aa4),
  (0xc084c16915c21063153e44910e67d04c8a37c855a90a18536e99bb681d0af3552b24acb31dac265006129e5de4b89a, 0x17ac9907713ff466e0a0eca30fa5798bf122a73b97d139661d98355651537a1c7323b7e036cb1930d764d9379959021),
  (0x17da0d886b38034c72cd4477a6386a1959780bf870a0d3e3e1ddafd4630a30b01dbad7814aa514ae0a806cb05281527, 0x514def4908381c0d5174dca654a9c561b17c08ff31dea7605bc71a5f8ac9cdcdb88b06481f8b75fd9d263e075ffbc2),
  (0x81388704e99ff41f424c79c14950643ef55379c0e83891e50baef1f8ed8f8f637c492c020f1f1bc09ef501f16d748c, 0x4affa9ab61c8ca8a4927ed436360a090eb8ce508eee5ca736ff3f77c3fbec97bf7d34dd3a517db901a63581fea123),
  (0xbae6c045fb4994d6dc633e478dc0ac73cd904f214bf8af521a5bf9e20a6998eea7a3957424f26d781e6f8d194e0b71, 0x17fe5e979c66970febf82cf7aa165e914cdd33e4e99c922ed0e133c7d15b88e73648f3e36ccb8791e5a3f59a26fbc2e),
  (0xcafb1a07f2e4ed9c279afff07bacf7254fd3f1bbaf3c135a829f9d10f86bb9af3b3c661b9542c915f2ffce21fc7402, 0x40f12ce6314f672bbcce786ed7441c790971f5b43d72234a99050902debb71c45c7c52a3e3e8572a227fe3ee1d4ed5),
  (0x7a56d6fa91c36656a8e76f57ad0b5da5ee6a0e829465e4a9abeffe1f0ac327716a2624477aa71b41a95dca1a38d2f9, 0x19f57b05da47327e4a9b05d36b6b48e4afbbb4389e28ec66787ae6e3555a4d124aa9381d4f1bfb790e8dc66271aa7c5),
  (0x1329768ed13649933649cd2222731c60cfa3200939e7ed250f2e4a7897bf8eb121ca112a955bdf26dbdc76f5a96eca7, 0x86643a5afadf7657db3d664912c2cba3bab3c1803946cf163e382b03b7e0aba5c580c42c25987fb6ba715c616f995c),
  (0x8b29c6182be302028bad8c997203d76cc0c76662c3046cc79895574e179d875ec91bb77bdb647a96ae394452d62e11, 0xe8a7e0be903a5ed4c5962f1894985577f5f04b5c966ac1e14e80abe74ef9fdea87d7051e54fa6b65048361cee13224),
  (0x3c1039b6db7c440d0ab6865665893b770e0dcf7345114e524de36cabaa437327ec1f014262299a8a28929856253a90, 0xb9e872b985f4dc7963aee94e35cddfd9c2556898dfd8e97ed8db4b78f69798e76b0f664ca987a4d36c05ca5a77bd53),
  (0x14505f18d3144acd391eb03b3eb5445a1962444a57ad8ccf084e42132a238f36b783747224d4b5ec2866c46101c7d2a, 0xb9ee708e3d998402976e7206d47d8c7115ee2aa6f905572a2e1c0b47d1fe95c2b238bc08279357ff17807d280905d7),
  (0x232bfa0acadb005082b55869e4cb580b831b67470dca1d5119224974d4fa7ac094be3248dc89a9b9ed6c13525dce44, 0x7430f6f47c2b06a1d1409877c80894e8f3d545a60f0dbb149a80c801e31672252c4c573d78f50965c01a4922adc968),
  (0xa738a0ca6006061829392e29c5eb4ac305c4b4665d28a4f0d34c75124164404cc8471d056530dc084bd021cab46eda, 0x7d91fc0e9d5bb91a2ca0ab457b0f83f8c4fb7e8b2992524b256e79ba9f7772de8308048cdbc19db74481124bf37c3d),
  (0x1e32406b7333db90821f12381286585b336805d4030115711a2e20bc3d5d908f1a90bbe765fede7a3c618bf0c7ebe4, 0xa62fc23b7d2f5a0adca1404fe9c49ec7f477a1ddcfa09a25a93209977e8409ab9f7cd60db189a1d4670b37d3b81578),
  (0x3ee6688138426e0e6984ac7c67021ff5961c0c4ff1cef56cabbc667780ecf2ef6440c3bc4b29991eff8df5d8644202, 0xecb914e87013a2cf799171202b5e714eb70ccd199130c42abfdc35e8697f241f219fa53b0f8190d439e58c923e9c7b),
  (0x119db5ad432b1530b410774e54130b712d63181157225869a715a2f03ab9bcfe9516b0a85c74e17ac49c0320bc01aa6, 0x680991d31a79430743c0029216192765cac4bdfc9b08b7f1fe5068a447ee93b5192e592a522a2579216e9e7249596),
  (0x3385d915abe9251d78d0246881b2f8ef85aa6c7a518527fcecd8c9fc0190e5e7ff5e61e48926efde37abc93d880b5d, 0x4c7c2ed82c831d64226adf5e2a494e6611dab11d7d0ef5c872cdde48acf40cf946e0db26f40c7037e0bba1f5efc692),
  (0xf3a6303556629fd82523ef5e1be35f99e2c5f6909f56c7b144361bb2fbd0204b2ef5a70b3522ab0ec16c803dc19e36, 0x1704fa268c48eef4334e72f007053b37bf18147974e3e22499a6d17fd3d83bc71e1f1af7309244583563d355a9456ad),
  (0x11e0d5f2be7e069ed57c39bb6e31d7f51de793c523fe334cd8253a316f047109e7663c5a4b8efe7037f58e34e983198, 0xfd790f08f51932ef9930623923dd9be067dd44f17648ce2fd3cf8daae4261d9b92306ab67cac6f3a14245ae152df73),
  (0xdfc9870875360e46d56b609fe8d651fcc765eae17392c95256dc427619e78cfcaf57af75e0645a3716fa2692f36542, 0xd8d14f21f228ea4eea339ff46276e03596d35fad61b9c28fb28a3e1cabdf0d4b59645a30296dc7af54666114c6fc66),
  (0x1316f022db7114d7f33aff0c8666e1db4d3e6d9f46bdfd1b8dfcd5cd2481be53e00ee38a9929981ad44dcd42cc0472a, 0x16d1fbc0f328704ad70e1a630306bf0e7c224dab2662b82f5c62095193eda0eded1a617e3b0be13af63b6b4e26b7041),
  (0x17762ca0cc98f3fa504be6028a671cf36d7bddb471cd83693502a3a8bcd16b4b8a999f0e254911f16a3ea478826ac79, 0xebbe27a967dbf8b55cdc74556c401896545f109850d96d4eed93dfb84fb9d18b4f5d362c6d7cf6edc581e12c9c31c1),
  (0xb2f13a34413c33386699a0bc0106536e8261231bc5c7135b90c3cedcec8cf38c9efbede6a6ce2e34bffb0e233d6cf1, 0x78e6972cb9b0c81d248de73b4776c6fc2edfdbfc41235c12852af56c2a8497622301c9554aadb482ad6bb34604416),
  (0x157b6b0b3e7229e85e2f3c4708bb82d6aa2400d733cb309011c0fb8fb2ea8a0702fe82c5e313ef0b8395efde377561c, 0x199472692c2dc735210e28e658b09a651976e25f15f8b5ad1096c713a6cca7fd475befb6a728d55e98275bb542f2a6d),
  (0xee724b30b2f82c108626ab508734bdb71d93c82685d90892af3a8ed17f2071a2a22907185c8842e8a3edc80d63c2ca, 0x15ed39c147113b2e75858d8a7ae2bea9f859c03667d064ca9194c26fc1994577fe210a152fa09be44da106ef38f2403),
  (0x13f0dcf80960cb79d97079e8b03c9b563b7ca80da0ad64318545f00a29c2efb80fabad59c3e904149658604c904b727, 0x16e0dadbc427ead14995601b48c97464a7c7601e3c7d10c5eef5b0a40109db0d0e8782c8b678336bd02e1d5b8950615),
  (0x8ea403addd857b5a12b10d60c358e4332e928eaebaf9a858eac857666c1d48aaa44f25dba6bb1fc20cc0ed73a31810, 0x182d0b3f79ec7c8545af34438b6912f6b14674f8434c81cf74796dec4a7a74a97809ac900ed08b3beaf55f82f0ecce0),
  (0xf3eacfca96e2215c8158716c26bd274839986af89b62afaa462dfcac88b08042d2acc4a7e8671f7ba41d72c2be8198, 0x9aea475e23e55f904f6c7d0c541f20821ed76cd7102d3f468d18ee3477c987c8acf2c9a24b99736b1d7beb5b5ff840)]

theorem crhBases7 {seed : Bytes} (hs : seed.length = 32) (h : (chunks 4 seed).map leValue = crhKey)
    {sqrt : Fq → Option Fq} (hsq : SqrtSpec sqrt) :
    sampleBases sqrt (chachaWord seed) 11 70 15412 = some (crhPoints7.map castPair, 17466) ∧
      ∀ p ∈ crhPoints7, ED_COFACTOR • edOfXY (castPair p) ≠ 0 :=
  evalBases_chacha hs h hsq (fuel := 11) crhCerts7 crhPoints7 (n := 129) (c := 963) (d := 4) (k := 6)
    (by norm_num) (by decide +kernel)

/-- The points drawn for all windows. -/
def crhPoints : List (ℕ × ℕ) :=
  crhPoints0 ++ (crhPoints1 ++ (crhPoints2 ++ (crhPoints3 ++ (crhPoints4 ++ (crhPoints5 ++ (crhPoints6 ++ crhPoints7))))))

/-- All of them. -/
theorem crhBases {seed : Bytes} (hs : seed.length = 32) (h : (chunks 4 seed).map leValue = crhKey)
    {sqrt : Fq → Option Fq} (hsq : SqrtSpec sqrt) :
    sampleBases sqrt (chachaWord seed) 11 560 0 = some (crhPoints.map castPair, 17466) ∧
      ∀ p ∈ crhPoints, ED_COFACTOR • edOfXY (castPair p) ≠ 0 := by
  obtain ⟨h0, g0⟩ := crhBases0 hs h hsq
  obtain ⟨h1, g1⟩ := crhBases1 hs h hsq
  obtain ⟨h2, g2⟩ := crhBases2 hs h hsq
  obtain ⟨h3, g3⟩ := crhBases3 hs h hsq
  obtain ⟨h4, g4⟩ := crhBases4 hs h hsq
  obtain ⟨h5, g5⟩ := crhBases5 hs h hsq
  obtain ⟨h6, g6⟩ := crhBases6 hs h hsq
  obtain ⟨h7, g7⟩ := crhBases7 hs h hsq
  have h6 := sampleBases_append _ _ _ _ _ _ _ h6 h7
  have h5 := sampleBases_append _ _ _ _ _ _ _ h5 h6
  have h4 := sampleBases_append _ _ _ _ _ _ _ h4 h5
  have h3 := sampleBases_append _ _ _ _ _ _ _ h3 h4
  have h2 := sampleBases_append _ _ _ _ _ _ _ h2 h3
  have h1 := sampleBases_append _ _ _ _ _ _ _ h1 h2
  have h0 := sampleBases_append _ _ _ _ _ _ _ h0 h1
  constructor
  · simp only [crhPoints, List.map_append]
    exact h0
  intro p hp
  simp only [crhPoints, List.mem_append] at hp
  rcases hp with hp | hp | hp | hp | hp | hp | hp | hp
  · exact g0 p hp
  · exact g1 p hp
  · exact g2 p hp
  · exact g3 p hp
  · exact g4 p hp
  · exact g5 p hp
  · exact g6 p hp
  · exact g7 p hp

end Verif
