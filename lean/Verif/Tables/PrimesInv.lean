/-! Precomputed inverses modulo 2^64 of the small primes.

Generated by script from /repo/src/tables.rs; a literal copy of the constants. -/

set_option maxRecDepth 20000

namespace NumPrime.Tables

/-- src/tables.rs:99-1124 `SMALL_PRIMES_INV` (big-table): pairs (d_inv, q_lim) of `PreInv::new(d_inv, q_lim)` -/
def smallPrimesInvB : List (Nat × Nat) := [
  (0x1, 0xffffffffffffffff), (0xaaaaaaaaaaaaaaab, 0x5555555555555555), (0xcccccccccccccccd, 0x3333333333333333),
  (0x6db6db6db6db6db7, 0x2492492492492492), (0x2e8ba2e8ba2e8ba3, 0x1745d1745d1745d1), (0x4ec4ec4ec4ec4ec5, 0x13b13b13b13b13b1),
  (0xf0f0f0f0f0f0f0f1, 0xf0f0f0f0f0f0f0f), (0x86bca1af286bca1b, 0xd79435e50d79435), (0xd37a6f4de9bd37a7, 0xb21642c8590b216),
  (0x34f72c234f72c235, 0x8d3dcb08d3dcb08), (0xef7bdef7bdef7bdf, 0x842108421084210), (0x14c1bacf914c1bad, 0x6eb3e45306eb3e4),
  (0x8f9c18f9c18f9c19, 0x63e7063e7063e70), (0x82fa0be82fa0be83, 0x5f417d05f417d05), (0x51b3bea3677d46cf, 0x572620ae4c415c9),
  (0x21cfb2b78c13521d, 0x4d4873ecade304d), (0xcbeea4e1a08ad8f3, 0x456c797dd49c341), (0x4fbcda3ac10c9715, 0x4325c53ef368eb0),
  (0xf0b7672a07a44c6b, 0x3d226357e16ece5), (0x193d4bb7e327a977, 0x39b0ad12073615a), (0x7e3f1f8fc7e3f1f9, 0x381c0e070381c0e),
  (0x9b8b577e613716af, 0x33d91d2a2067b23), (0xa3784a062b2e43db, 0x3159721ed7e7534), (0xf47e8fd1fa3f47e9, 0x2e05c0b81702e05),
  (0xa3a0fd5c5f02a3a1, 0x2a3a0fd5c5f02a3), (0x3a4c0a237c32b16d, 0x288df0cac5b3f5d), (0xdab7ec1dd3431b57, 0x27c45979c95204f),
  (0x77a04c8f8d28ac43, 0x2647c69456217ec), (0xa6c0964fda6c0965, 0x2593f69b02593f6), (0x90fdbc090fdbc091, 0x243f6f0243f6f02),
  (0x7efdfbf7efdfbf7f, 0x204081020408102), (0x3e88cb3c9484e2b, 0x1f44659e4a42715), (0xe21a291c077975b9, 0x1de5d6e3f8868a4),
  (0x3aef6ca970586723, 0x1d77b654b82c339), (0xdf5b0f768ce2cabd, 0x1b7d6c3dda338b2), (0x6fe4dfc9bf937f27, 0x1b2036406c80d90),
  (0x5b4fe5e92c0685b5, 0x1a16d3f97a4b01a), (0x1f693a1c451ab30b, 0x1920fb49d0e228d), (0x8d07aa27db35a717, 0x1886e5f0abb0499),
  (0x882383b30d516325, 0x17ad2208e0ecc35), (0xed6866f8d962ae7b, 0x16e1f76b4337c6c), (0x3454dca410f8ed9d, 0x16a13cd15372904),
  (0x1d7ca632ee936f3f, 0x1571ed3c506b39a), (0x70bf015390948f41, 0x15390948f40feac), (0xc96bdb9d3d137e0d, 0x14cab88725af6e7),
  (0x2697cc8aef46c0f7, 0x149539e3b2d066e), (0xc0e8f2a76e68575b, 0x13698df3de07479), (0x687763dfdb43bb1f, 0x125e22708092f11),
  (0x1b10ea929ba144cb, 0x120b470c67c0d88), (0x1d10c4c0478bbced, 0x11e2ef3b3fb8744), (0x63fb9aeb1fdcd759, 0x119453808ca29c0),
  (0x64afaa4f437b2e0f, 0x112358e75d30336), (0xf010fef010fef011, 0x10fef010fef010f), (0x28cbfbeb9a020a33, 0x105197f7d734041),
  (0xff00ff00ff00ff01, 0xff00ff00ff00ff), (0xd624fd1470e99cb7, 0xf92fb2211855a8), (0x8fb3ddbd6205b5c5, 0xf3a0d52cba8723),
  (0xd57da36ca27acdef, 0xf1d48bcee0d399), (0xee70c03b25e4463d, 0xec979118f3fc4d), (0xc5b1a6b80749cb29, 0xe939651fe2d8d3),
  (0x47768073c9b97113, 0xe79372e225fe30), (0x2591e94884ce32ad, 0xdfac1f74346c57), (0xf02806abc74be1fb, 0xd578e97c3f5fe5),
  (0x7ec3e8f3a7198487, 0xd2ba083b445250), (0x58550f8a39409d09, 0xd161543e28e502), (0xec9e48ae6f71de15, 0xcebcf8bb5b4169),
  (0x2ff3a018bfce8063, 0xc5fe740317f9d0), (0x7f9ec3fcf61fe7b1, 0xc2780613c0309e), (0x89f5abe570e046d3, 0xbcdd535db1cc5b),
  (0xda971b23f1545af5, 0xbbc8408cd63069), (0x79d5f00b9a7862a1, 0xb9a7862a0ff465), (0x4dba1df32a128a57, 0xb68d31340e4307),
  (0x87530217b7747d8f, 0xb2927c29da5519), (0x30baae53bb5e06dd, 0xafb321a1496fdf), (0xee70206c12e9b5b3, 0xaceb0f891e6551),
  (0xcdde9462ec9dbe7f, 0xab1cbdd3e2970f), (0xafb64b05ec41cf4d, 0xa87917088e262b), (0x2944ff5aec02945, 0xa513fd6bb00a51),
  (0x2cb033128382df71, 0xa36e71a2cb0331), (0x1ccacc0c84b1c2a9, 0xa03c1688732b30), (0x19a93db575eb3a0b, 0x9c69169b30446d),
  (0xcebeef94fa86fe2d, 0x9baade8e4a2f6e), (0x6faa77fb3f8df54f, 0x980e4156201301), (0x68a58af00975a751, 0x975a750ff68a58),
  (0xd56e36d0c3efac07, 0x9548e4979e0829), (0xd8b44c47a8299b73, 0x93efd1c50e726b), (0x2d9ccaf9ba70e41, 0x91f5bcb8bb02d9),
  (0x985e1c023d9e879, 0x8f67a1e3fdc261), (0x2a343316c494d305, 0x8e2917e0e702c6), (0x70cb7916ab67652f, 0x8d8be33f95d715),
  (0xd398f132fb10fe5b, 0x8c55841c815ed5), (0x6f2a38a6bf54fa1f, 0x88d180cd3a4133), (0x211df689b98f81d7, 0x869222b1acf1ce),
  (0xe994983e90f1ec3, 0x85797b917765ab), (0xad671e44bed87f3b, 0x8355ace3c897db), (0xf9623a0516e70fc7, 0x824a4e60b3262b),
  (0x4b7129be9dece355, 0x80c121b28bd1ba), (0x190f3b7473f62c39, 0x7dc9f3397d4c29), (0x63dacc9aad46f9a3, 0x7d4ece8fe88139),
  (0xc1108fda24e8d035, 0x79237d65bcce50), (0xb77578472319bd8b, 0x77cf53c5f7936c), (0x473d20a1c7ed9da5, 0x75a8accfbdd11e),
  (0xfbe85af0fea2c8fb, 0x7467ac557c228e), (0x58a1f7e6ce0f4c09, 0x732d70ed8db8e9), (0x1a00e58c544986f3, 0x72c62a24c3797f),
  (0x7194a17f55a10dc1, 0x7194a17f55a10d), (0x7084944785e33763, 0x6fa549b41da7e7), (0xba10679bd84886b1, 0x6e8419e6f61221),
  (0xebe9c6bb31260967, 0x6d68b5356c207b), (0x97a3fe4bd1ff25e9, 0x6d0b803685c01b), (0x6c6388395b84d99f, 0x6bf790a8b2d207),
  (0x8c51da6a1335df6d, 0x6ae907ef4b96c2), (0x46f3234475d5add9, 0x6a37991a23aead), (0x905605ca3c619a43, 0x69dfbdd4295b66),
  (0xcee8dff304767747, 0x67dc4c45c8033e), (0xff99c27f00663d81, 0x663d80ff99c27f), (0xacca407f671ddc2b, 0x65ec17e3559948),
  (0xe71298bac1e12337, 0x654ac835cfba5c), (0xfa1e94309cd09045, 0x645c854ae10772), (0xbebccb8e91496b9b, 0x6372990e5f901f),
  (0x312fa30cc7d7b8bd, 0x6325913c07beef), (0x6160ff9e9f006161, 0x6160ff9e9f0061), (0x6b03673b5e28152d, 0x60cdb520e5e88e),
  (0xfe802ffa00bfe803, 0x5ff4017fd005ff), (0xe66fe25c9e907c7b, 0x5ed79e31a4dccd), (0x3f8b236c76528895, 0x5d7d42d48ac5ef),
  (0xf6f923bf01ce2c0d, 0x5c6f35ccba5028), (0x6c3d3d98bed7c42f, 0x5b2618ec6ad0a5), (0x30981efcd4b010e7, 0x5a2553748e42e7),
  (0x6f691fc81ebbe575, 0x59686cf744cd5b), (0xb10480ddb47b52cb, 0x58ae97bab79976), (0x74cd59ed64f3f0d7, 0x58345f1876865f),
  (0x105cb81316d6c0f, 0x5743d5bb24795a), (0x9be64c6d91c1195d, 0x5692c4d1ab74ab), (0x71b3f945a27b1f49, 0x561e46a4d5f337),
  (0x77d80d50e508fd01, 0x5538ed06533997), (0xa5eb778e133551cd, 0x54c807f2c0bec2), (0x18657d3c2d8a3f1b, 0x5345efbc572d36),
  (0x2e40e220c34ad735, 0x523a758f941345), (0xa76593c70a714919, 0x5102370f816c89), (0x1eef452124eea383, 0x50cf129fb94acf),
  (0x38206dc242ba771d, 0x4fd31941cafdd1), (0x4cd4c35807772287, 0x4fa1704aa75945), (0x83de917d5e69ddf3, 0x4f3ed6d45a63ad),
  (0x882ef0403b4a6c15, 0x4f0de57154ebed), (0xf8fb6c51c606b677, 0x4e1cae8815f811), (0xb4abaac446d3e1fd, 0x4cd47ba5f6ff19),
  (0xa9f83bbe484a14e9, 0x4c78ae734df709), (0xbebbc0d1ce874d3, 0x4c4b19ed85cfb8), (0xbd418eaf0473189f, 0x4bf093221d1218),
  (0x44e3af6f372b7e65, 0x4aba3c21dc633f), (0xc87fdace4f9e5d91, 0x4a6360c344de00), (0xec93479c446bd9bb, 0x4a383e9f74d68a),
  (0xdac4d592e777c647, 0x49e28fbabb9940), (0xa63ea8c8f61f0c23, 0x48417b57c78cd7), (0xe476062ea5cbbb6f, 0x47f043713f3a2b),
  (0xdf68761c69daac27, 0x474ff2a10281cf), (0xb813d737637aa061, 0x468b6f9a978f91), (0xa3a77aac1fb15099, 0x45f13f1caff2e2),
  (0x17f0c3e0712c5825, 0x45a5228cec23e9), (0xfd912a70ff30637b, 0x45342c556c66b9), (0xfbb3b5dc01131289, 0x44c4a23feeced7),
  (0x856d560a0f5acdf7, 0x43c5c20d3c9fe6), (0x96472f314d3f89e3, 0x437e494b239798), (0xa76f5c7ed2253531, 0x43142d118e47cb),
  (0x816eae7c7bf69fe7, 0x42ab5c73a13458), (0xb6a2bea4cfb1781f, 0x4221950db0f3db), (0xa3900c53318e81ed, 0x41bbb2f80a4553),
  (0x60aa7f5d9f148d11, 0x40f391612c6680), (0x6be8c0102c7a505d, 0x40b1e94173fefd), (0x8ff3f0ed28728f33, 0x4050647d9d0445),
  (0x680e0a87e5ec7155, 0x4030241b144f3b), (0xbbf70fa49fe829b7, 0x3f90c2ab542cb1), (0xd69d1e7b6a50ca39, 0x3f71412d59f597),
  (0x1a1e0f46b6d26aef, 0x3f137701b98841), (0x7429f9a7a8251829, 0x3e79886b60e278), (0xd9c2219d1b863613, 0x3e5b1916a7181d),
  (0x91406c1820d077ad, 0x3dc4a50968f524), (0x521f4ec02e3d2b97, 0x3da6e4c9550321), (0xbb8283b63dc8eba5, 0x3d4e4f06f1def3),
  (0x431eda153229ebbf, 0x3c4a6bdd24f9a4), (0xaf0bf78d7e01686b, 0x3c11d54b525c73), (0xa9ced0742c086e8d, 0x3bf5b1c5721065),
  (0xc26458ad9f632df9, 0x3bbdb9862f23b4), (0xbbff1255dff892af, 0x3b6a8801db5440), (0xcbd49a333f04d8fd, 0x3b183cf0fed886),
  (0xec84ed6f9cfdeff5, 0x3aabe394bdc3f4), (0x97980cc40bda9d4b, 0x3a5ba3e76156da), (0x777f34d524f5cbd9, 0x3a0c3e953378db),
  (0x2797051d94cbbb7f, 0x38f03561320b1e), (0xea769051b4f43b81, 0x38d6ecaef5908a), (0xce7910f3034d4323, 0x3859cf221e6069),
  (0x92791d1374f5b99b, 0x37f7415dc9588a), (0x89a5645cc68ea1b5, 0x377df0d3902626), (0x5f8aacf796c0cf0b, 0x373622136907fa),
  (0xf2e90a15e33edf99, 0x36ef0c3b39b92f), (0x8e99e5feb897c451, 0x36915f47d55e6d), (0xaca2eda38fb91695, 0x36072cf3f866fd),
  (0x5d9b737be5ea8b41, 0x35d9b737be5ea8), (0x4aefe1db93fd7cf7, 0x35961559cc81c7), (0xa0994ef20b3f8805, 0x35531c897a4592),
  (0x103890bda912822f, 0x353ceebd3e98a4), (0xb441659d13a9147d, 0x34fad381585e5e), (0x1e2134440c4c3f21, 0x347884d1103130),
  (0x263a27727a6883c3, 0x340dd3ac39bf56), (0x78e221472ab33855, 0x3351fdfecc140c), (0x95eac88e82e6faff, 0x333d72b089b524),
  (0xf66c258317be8dab, 0x33148d44d6b261), (0x9ee202c7cb91939, 0x32d7aef8412458), (0x8d2fca1042a09ea3, 0x32c3850e79c0f1),
  (0x82779c856d8b8bf1, 0x328766d59048a2), (0x3879361cba8a223d, 0x325fa18cb11833), (0xf23f43639c3182a7, 0x324bd659327e22),
  (0xa03868fc474bcd13, 0x32246e784360f4), (0x651e78b8c5311a97, 0x31afa5f1a33a08), (0x8ffce639c00c6719, 0x319c63ff398e70),
  (0xf7b460754b0b61cf, 0x3162f7519a86a7), (0x7b03f3359b8e63b1, 0x30271fc9d3fc3c), (0xa55c5326041eb667, 0x2ff104ae89750b),
  (0x647f88ab896a76f5, 0x2fbb62a236d133), (0x8fd971434a55a46d, 0x2f74997d2070b4), (0x9fbf969958046447, 0x2ed84aa8b6fce3),
  (0x9986feba69be3a81, 0x2e832df7a46dbd), (0xa668b3e6d053796f, 0x2e0e0846857cab), (0x97694e6589f4e09b, 0x2decfbdfb55ee6),
  (0x37890c00b7721dbd, 0x2ddc876f3ff488), (0x5ac094a235f37ea9, 0x2dbbc1d4c482c4), (0x31cff775f2d5d65f, 0x2d8af0e0de0556),
  (0xddad8e6b36505217, 0x2d4a7b7d14b30a), (0x5a27df897062cd03, 0x2d2a85073bcf4e), (0xe2396fe0fdb5a625, 0x2d1a9ab13e8be4),
  (0xb352a4957e82317b, 0x2ceb1eb4b9fd8b), (0xd8ab3f2c60c2ea3f, 0x2c8d503a79794c), (0x6893f702f0452479, 0x2c404d708784ed),
  (0x9686fdc182acf7e3, 0x2c31066315ec52), (0x6854037173dce12f, 0x2c1297d80f2664), (0x7f0ded1685c27331, 0x2c037044c55f6b),
  (0xeeda72e1fe490b7d, 0x2be5404cd13086), (0x9e7bfc959a8e6e53, 0x2bb845adaf0cce), (0x49b314d6d4753dd7, 0x2b5f62c639f16d),
  (0x2e8f8c5ac4aa1b3b, 0x2b07e6734f2b88), (0xb8ef723481163d33, 0x2ace569d8342b7), (0x6a2ec96a594287b7, 0x2a791d5dbd4dcf),
  (0xdba41c6d13aab8c5, 0x2a4eff8113017c), (0xc2adbe648dc3aaf1, 0x2a3319e156df32), (0x87a2bade565f91a7, 0x2a0986286526ea),
  (0x4d6fe8798c01f5df, 0x29d29551d91e39), (0x3791310c8c23d98b, 0x29b7529e109f0a), (0xf80e446b01228883, 0x298137491ea465),
  (0x9aed1436fbf500cf, 0x29665e1eb9f9da), (0x7839b54cc8b24115, 0x2909752e019a5e), (0xc128c646ad0309c1, 0x28ef35e2e5efb0),
  (0x14de631624a3c377, 0x28c815aa4b8278), (0x3f7b9fe68b0ecbf9, 0x28bb1b867199da), (0x284ffd75ec00a285, 0x28a13ff5d7b002),
  (0x37803cb80dea2ddb, 0x287ab3f173e755), (0x86b63f7c9ac4c6fd, 0x286dead67713bd), (0x8b6851d1bd99b9d3, 0x2847bfcda6503e),
  (0xb62fda77ca343b6d, 0x2808c1ea6b4777), (0x1f0dc009e34383c9, 0x278d0e0f23ff61), (0x496dc21ddd35b97f, 0x2768863c093c7f),
  (0xb0e96ce17090f82b, 0x27505115a73ca8), (0xaadf05acdd7d024d, 0x274441a61dc1b9), (0xcb138196746eafb5, 0x26b5c166113cf0),
  (0x347f523736755d61, 0x269e65ad07b18e), (0xd14a48a051f7dd0b, 0x2692c25f877560), (0x474d71b1ce914d25, 0x2658fa7523cd11),
  (0x386063f5e28c1f89, 0x26148710cf0f9e), (0x1db7325e32d04e73, 0x2609363b22524f), (0xfef748d3893b880d, 0x25d1065a1c1122),
  (0x2f3351506e935605, 0x25a48a382b863f), (0x7a3637fa2376415b, 0x25837190eccdbc), (0x4ac525d2baa21969, 0x256292e95d510c),
  (0x3a11c16b42cd351f, 0x2541eda98d068c), (0x6c7abde0049c2a11, 0x24e15087fed8f5), (0x54dad0303e069ac7, 0x24c18b20979e5d),
  (0xebf1ac9fdfe91433, 0x24ac7b336de0c5), (0xfafdda8237cec655, 0x24a1fc478c60bb), (0xdce3ff6e71ffb739, 0x2463801231c009),
  (0xbed5737d6286db1b, 0x24300fd506ed33), (0xe479e431fe08b4df, 0x23f314a494da81), (0x9dd9b0dd7742f897, 0x23cadedd2fad3a),
  (0x8f09d7402c5a5e87, 0x237b7ed2664a03), (0x9216d5c4d958738d, 0x23372967dbaf1d), (0xb3139ba11d34ca63, 0x231a308a371f20),
  (0x47d54f7ed644afaf, 0x2306fa63e1e600), (0x92a81d85cf11a1b1, 0x22fd6731575684), (0x754b26533253bdfd, 0x22ea507805749c),
  (0xbbe0efc980bfd467, 0x22e0cce8b3d720), (0xc0d8d594f024dca1, 0x22b1887857d161), (0x8238d43bcaac1a65, 0x227977fcc49cc0),
  (0x27779c1fae6175bb, 0x225db37b5e5f4f), (0xa746ca9af708b2c9, 0x22421b91322ed6), (0x93f3cd9f389be823, 0x21f05b35f52102),
  (0x5cb4a4c04c489345, 0x21e75de5c70d60), (0xbf6047743e85b6b5, 0x21a01d6c19be96), (0x61c147831563545f, 0x21974a6615c81a),
  (0xedb47c0ae62dee9d, 0x213767697cf36a), (0xa3824386673a573, 0x211d9f7fad35f1), (0xa4a77d19e575a0eb, 0x20fb7d9dd36c18),
  (0xa2bee045e066c279, 0x20e2123d661e0e), (0xc23618de8ab43d05, 0x20d135b66ae990), (0x266b515216cb9f2f, 0x20c8cded4d7a8e),
  (0xe279edd9e9c2e85b, 0x20b80b3f43ddbf), (0xd0c591c221dc9c53, 0x2096b9180f46a6), (0x6da8ee9c9ee7c21, 0x207de7e28de5da),
  (0x9dfebcaf4c27e8c3, 0x2054dec8cf1fb3), (0x49aeff9f19dd6de5, 0x204cb630b3aab5), (0x86976a57a296e9c7, 0x202428adc37beb),
  (0xa3b9abf4872b84cd, 0x1fec0c7834def4), (0x34fca6483895e6ef, 0x1fc46fae98a1d0), (0x34b5a333988f873d, 0x1facda430ff619),
  (0xd9dd4f19b5f17be1, 0x1f7e17dd8e15e5), (0xb935b507fd0ce78b, 0x1f765a3556a4ee), (0xb450f5540660e797, 0x1f66ea49d802f1),
  (0x63ff82831ffc1419, 0x1f5f3800faf9c0), (0x8992f718c22a32fb, 0x1f38f4e6c0f1f9), (0x5f3253ad0d37e7bf, 0x1f0b8546752578),
  (0x7c0ffe0fc007c1, 0x1f03ff83f001f0), (0x4d8ebadc0c0640b1, 0x1ec853b0a3883c), (0xe2729af831037bdb, 0x1ec0ee573723eb),
  (0xb8f64bf30feebfe9, 0x1eaad38e6f6894), (0xda93124b544c0bf5, 0x1e9c28a765fe53), (0x9cf7ff0b593c539f, 0x1e94d8758c2003),
  (0xd6bd8861fa0e07d9, 0x1e707ba8f65e68), (0x5cfe75c0bd8ab891, 0x1e53a2a68f574e), (0x43e808757c2e862b, 0x1e1380a56b438d),
  (0x90caa96d595c9d93, 0x1dbf9f513a3802), (0x8fd550625d07135f, 0x1db1d1d58bc600), (0x76b010a86e209f2d, 0x1d9d358f53de38),
  (0xecc0426447769b25, 0x1d81e6df6165c7), (0xe381339caabe3295, 0x1d4bdf7fd40e30), (0xd1b190a2d0c7673f, 0x1d452c7a1c958d),
  (0xc3bce3cf26b0e7eb, 0x1d37cf9b902659), (0x5f87e76f56c61ce3, 0x1d1d3a5791e97b), (0xc06c6857a124b353, 0x1ce89fe6b47416),
  (0x38c040fcba630f75, 0x1ce219f3235071), (0xd078bc4fbd533b21, 0x1cd516dcf92139), (0xde8e15c5dd354f59, 0x1cbb33bd1c2b8b),
  (0xca61d53d7414260f, 0x1ca7e7d2546688), (0xb56bf5ba8eae635d, 0x1c94b5c1b3dbd3), (0x44a72cb0fb6e3949, 0x1c87f7f9c241c1),
  (0x879839a714f45bcd, 0x1c6202706c35a9), (0x2a8994fde5314b7, 0x1c5bb8a9437632), (0xb971920cf2b90135, 0x1c174343b4111e),
  (0x8a8fd0b7df9a6e8b, 0x1c04d0d3e46b42), (0xb31f9a84c1c6eaad, 0x1bfeb00fbf4308), (0x92293b02823c6d83, 0x1bec5dce0b202d),
  (0xeee77ff20fe5ddcf, 0x1be03444620037), (0xe1ea0f6c496c11d, 0x1bce09c66f6fc3), (0xfdf2d3d6f88ccb6b, 0x1ba40228d02b30),
  (0xfa9d74a3457738f9, 0x1b9225b1cf8919), (0xefc3ca3db71a5785, 0x1b864a2ff3f53f), (0x8e2071718d0d6daf, 0x1b80604150e49b),
  (0xbc0fdbfeb6cfabfd, 0x1b6eb1aaeaacf3), (0x1eeab613e5e5aee9, 0x1b62f48da3c8cc), (0x2d2388e90e9e929f, 0x1b516babe96092),
  (0x81dbafba588ddb43, 0x1b2e9cef1e0c87), (0x52eebc51c4799791, 0x1b1d56bedc849b), (0x1c6bc4693b45a047, 0x1b0c267546aec0),
  (0x6eee0974498874d, 0x1ae45f62024fa0), (0xd85b7377a9953cb9, 0x1ad917631b5f54), (0x4b6df412d4caf56f, 0x1ac83d18cb608f),
  (0x6b8afbbb4a053493, 0x1aa6c7ad8c063f), (0xcc5299c96ac7720b, 0x1a90a7b1228e2a), (0xadce84b5c710aa99, 0x1a8027c03ba059),
  (0x9d673f5aa3804225, 0x1a7533289deb89), (0xe6541268efbce7f7, 0x1a2ed7ce16b49f), (0xfcf41e76cf5be669, 0x19fefc0a279a73),
  (0x5c3eb5dc31c383cb, 0x19e4b0cd873b5f), (0x301832d11d8ad6c3, 0x19cfcdfd60e514), (0x2e9c0942f1ce450f, 0x19c56932d66c85),
  (0x97f3f2be37a39a5d, 0x19b5e1ab6fc7c2), (0xe8b7d8a9654187c7, 0x19b0b8a62f2a73), (0xb5d024d7da5b1b55, 0x19a149fc98942c),
  (0xb8ba9d6e7ae3501b, 0x1969517ec25b85), (0xf50865f71b90f1df, 0x194b3083360ba8), (0x739c1682847df9e1, 0x194631f4bebdc1),
  (0xc470a4d842b90ed1, 0x191e84127268fd), (0x1fb1be11698cc409, 0x190adbb543984f), (0xd8d5512a7cd35d15, 0x1901130bd18200),
  (0xa5496821723e07f9, 0x18e3e6b889ac94), (0xbcc8c6d7abaa8167, 0x18c233420e1ec1), (0x52c396c95eb619a1, 0x18aa5872d92bd6),
  (0x6eb7e380878ec74b, 0x18a5989945ccf9), (0x3d5513b504537157, 0x189c1e60b57f60), (0x314391f8862e948f, 0x18893fbc8690b9),
  (0xdc0b17cfcd81f5dd, 0x187b2bb3e1041c), (0x2f6bea3ec89044b3, 0x186d27c9cdcfb8), (0xce13a05869f1b57f, 0x1863d8bf4f2c1c),
  (0x7593474e8ace3581, 0x185f33e2ad7593), (0x7fc329295a05e4d, 0x1855ef75973e13), (0xb05377cba4908d23, 0x1848160153f134),
  (0xe7b2131a628aa39b, 0x1835b72e6f0656), (0x9031dbed7de01527, 0x182c922d83eb39), (0x76844b1c670aa9a9, 0x18280243c0365a),
  (0x6a03f4533b08915f, 0x181a5cd5898e73), (0x1dbca579db0a3999, 0x1803c0961773aa), (0x2ffe800bffa003, 0x17ff4005ffd001),
  (0x478ab1a3e936139d, 0x17e8d670433edb), (0x66e722bc4c5cc095, 0x17d7066cf4bb5d), (0x7a8f63c717278541, 0x17ce285b806b1f),
  (0xdf6eee24d292bc2f, 0x17af52cdf27e02), (0x9fc20d17237dd569, 0x17997d47d01039), (0xcdf9932356bda2ed, 0x177f7ec2c6d0ba),
  (0x97b5e332e80f68d7, 0x177b2f3cd00756), (0x46eee26fd875e2e5, 0x176e4a22f692a0), (0x3548a8e65157a611, 0x1765b94271e11b),
  (0xc288d03be9b71e3b, 0x1761732b044ae4), (0x8151186db38937ab, 0x173f7a5300a2bc), (0x7800b910895a45f1, 0x1722112b48be1f),
  (0xaee0b024182eec3d, 0x1719b7a16eb843), (0x96323eda173b5713, 0x170d3c99cc5052), (0xed0dbd03ae77c8b, 0x16fcad7aed3bb6),
  (0xf73800b7828dc119, 0x16f051b8231ffd), (0x1b61715ec22b7ca5, 0x16e81beae20643), (0xa8533a991ead64bf, 0x16c3721584c1d8),
  (0x7f6c7290e46c2e77, 0x16b34c2ba09663), (0x6325e8d907b01db1, 0x169f3ce292ddcd), (0x28909f70152a1067, 0x169344b2220a0d),
  (0xea7077af0997a0f5, 0x1687592593c1b1), (0x7e605cad10c32e6d, 0x167787f1418ec9), (0x471b33570635b38f, 0x1663e190395ff2),
  (0xab559fa997a61bb3, 0x164c7a4b6eb5b3), (0xad4bdae562bddab9, 0x16316a061182fd), (0x55e1b2f2ed62f45, 0x1629ba914584e4),
  (0x3cd328b1a2dca9b, 0x161e3d57de21b2), (0xd28f4e08733218a9, 0x1612cc01b977f0), (0xb6800b077f186293, 0x160efe30c525ff),
  (0x6fbd138c3fd9c207, 0x15da45249ec5de), (0xb117ccd12ae88a89, 0x15d68ab4acff92), (0x2f1a1a044046bceb, 0x15c3f989d1eb15),
  (0x548aba0b060541e3, 0x15b535ad11b8f0), (0xcf4e808cea111b2f, 0x15addb3f424ec1), (0xdbec1b4fa855a475, 0x159445cb91be6b),
  (0xe3f794eb600d7821, 0x158d0199771e63), (0x34fae0d9a11f7c59, 0x157e87d9b69e04), (0xf006b0ccbbac085d, 0x1568f58bc01ac3),
  (0x3f45076dc3114733, 0x155e3c993fda9b), (0xeef49bfa58a1a1b7, 0x1548eacc5e1e6e), (0x12c4218bea691fa3, 0x1541d8f91ba6a7),
  (0xbc7504e3bd5e64f1, 0x153747060cc340), (0x4ee21c292bb92fad, 0x1514569f93f7c4), (0x34338b7327a4bacf, 0x150309705d3d79),
  (0x3fe5c0833d6fccd1, 0x14ff97020cf5bf), (0xb1e70743535203c1, 0x14e42c114cf47e), (0xefbb5dcdfb4e43d3, 0x14b835bdcb6447),
  (0xca68467ca5394f9f, 0x14b182b53a9ab7), (0x8c51c081408b97a1, 0x14ae2ad094a3d3), (0x3275a899dfa5dd65, 0x149a320ea59f96),
  (0x9e674cb62e1b78bb, 0x1490441de1a2fb), (0xa37ff5bb2a998d47, 0x1489aacce57200), (0x792a999db131a22b, 0x1475f82ad6ff99),
  (0x1b48841bc30d29b9, 0x146c2cfe53204f), (0xf06721d2011d3471, 0x145f2ca490d4a1), (0x93fd2386dff85ebd, 0x1458b2aae0ec87),
  (0x4ce72f54c07ed9b5, 0x144bcb0a3a3150), (0xd6d0fd3e71dd827b, 0x1428a1e65441d4), (0x856405fb1eed819d, 0x142575a6c210d7),
  (0x8ea8aceb7c443989, 0x141f2025ba5c46), (0x34a13026f62e5873, 0x141bf6e35420fd), (0x1eea0208ec0af4f7, 0x1409141d1d313a),
  (0x63679853cea598cb, 0x13dd8bc19c3513), (0xc30b3ebd61f2d0ed, 0x13da76f714dc8f), (0x7eb9037bc7f43bc3, 0x13d13e50f8f49e),
  (0xa583e6f6ce016411, 0x13c80e37ca3819), (0xf1938d895f1a74c7, 0x13bee69fa99ccf), (0x80cf1491c1e81e33, 0x13b8d0ede55835),
  (0x3c0f12886ba8f301, 0x13afb7680bb054), (0xe4b786e0dfcc5ab, 0x13acb0c3841c96), (0x672684c93f2d41ef, 0x139a9c5f434fde),
  (0xe00757badb35c51b, 0x13949cf33a0d9d), (0xd6d84afe66472edf, 0x1382b4a00c31b0), (0xfbbc0eedcbbfb6e1, 0x137fbbc0eedcbb),
  (0x250f43aa08a84983, 0x1370ecf047b069), (0x4400e927b1acaa5, 0x136df9790e3155), (0x56572be34b9d3215, 0x13567dd8defd5b),
  (0x87964ef7781c62bf, 0x13539261fdbc34), (0x29ed84051c06e9af, 0x133c564292d28a), (0xb00acd11ed3f87fd, 0x1333ae178d6388),
  (0x6307881744152d9, 0x13170ad00d1fd7), (0x7a786459f5c1ccc9, 0x13005f01db0947), (0x1308125d74563281, 0x12f51d40342210),
  (0x395310a480b3e34d, 0x12ef815e4ed950), (0x35985baa8b202837, 0x12ecb4abccd827), (0x96304a6e052b3223, 0x12e71dc1d3d820),
  (0xbd8265fc9af8fd45, 0x12e45389a16495), (0x1b6d0b383ec58e0b, 0x12c5d9226476cc), (0xc21a7c3b68b28503, 0x12badc391156fd),
  (0x236fa180fbfd6007, 0x12aa78e412f522), (0xc42accd440ed9595, 0x12a251f5f47fd1), (0x7acf7128236ba3f7, 0x1294cb85c53534),
  (0xf909367a987b9c79, 0x12921963beb65e), (0xb64efb252bfba705, 0x128cb777c69ca8), (0x980d4f5a7e4cd25b, 0x1284aa6cf07294),
  (0xe1ecc4ef27b0c37d, 0x1281fcf6ac7f87), (0x9111aebb81d72653, 0x1279f937367db9), (0x8951f985cb2c67ed, 0x126cad0488be94),
  (0xc439d4fc54e0b5d7, 0x126a06794646a2), (0xe857bf31896d533b, 0x125a2f2bcd3e95), (0xb614bb4cb5023755, 0x124d108389e6b1),
  (0x938a89e5473bf1ff, 0x124a73083771ac), (0xeac481aca34de039, 0x123d6acda0620a), (0x14b961badf4809a7, 0x122b4b2917eafd),
  (0x76784fecba352435, 0x122391bfce1e2f), (0xefa689bb58aef5e1, 0x121e6f1ea579f2), (0xb2b2c4db9c3a8197, 0x1216c09e471568),
  (0x2503bc992279f8cf, 0x120c8cb9d93909), (0xd2ab9aec5ca1541d, 0x1204ed58e64ef9), (0x3e78ba1460f99af3, 0x11fd546578f00c),
  (0xa01426572cfcb63, 0x11e9310b8b4c9c), (0xbea857968f3cbd67, 0x11da3405db9911), (0x78db213eefe659e9, 0x11d7b6f4eb055d),
  (0x963e8541a74d35f5, 0x11d2bee748c145), (0x9e22d152776f2e43, 0x11c1706ddce7a7), (0x5d10d39d1e1f291, 0x11ba0fed2a4f14),
  (0x374468dccaced1dd, 0x11b528538ed64a), (0x8d145c7d110c5ad5, 0x11ab61404242ac), (0x3251a39f5acb5737, 0x119f378ce81d2f),
  (0xa66e50171443506f, 0x1195889ece79da), (0x124f69ad91dd4cbd, 0x118e4c65387077), (0xec24f8f2a61a2793, 0x1187161d70e725),
  (0xb472148e656b7a51, 0x116cd6d1c85239), (0xadf9570e1142f07, 0x1165bbe7ce86b1), (0x89bf33b065119789, 0x11635ee344ce36),
  (0x8f0149803cb291eb, 0x11579767b6d679), (0x8334b63afd190a31, 0x114734711e2b54), (0x920908d50d6aba7d, 0x11428b90147f05),
  (0x57d8b018c5a33d53, 0x113b92f3021636), (0xea1773092dc27ee5, 0x1126cabc886884), (0xcae5f38b7bf2e00f, 0x11247eb1b85976),
  (0x2bd02df34f695349, 0x11190bb01efd65), (0xddfecd5be62e2eb7, 0x11091de0fd679c), (0xdbf849ebec96c4a3, 0x1104963c7e4e0b),
  (0xda31d4d0187357c5, 0x110253516420b0), (0xe34e21cc2d5418a7, 0x10f70db7c41797), (0x68ca5137a9e574ad, 0x10e75ee2bf9ecd),
  (0x3eaa0d0f804bfd19, 0x10e2e91c6e0676), (0x554fb753cc20e9d1, 0x10da049b9d428d), (0x797afcca1300756b, 0x10c6248fe3b1a2),
  (0x8b8d950b52eeea77, 0x10c1c03ed690eb), (0xfb6cd166acabc185, 0x10bb2e1379e3a2), (0x4eb6c5ed9437a7af, 0x10b8fe7f61228e),
  (0xd1eddbd91b790cdb, 0x10b4a10d60a4f7), (0x93d714ea4d8948e9, 0x10ae192681ec0f), (0x3ca13ed8145188d3, 0x10abecfbe5b0ae),
  (0x829086016da89c57, 0x109eefd568b96d), (0xd7da1f432124a543, 0x109a9ff178b40c), (0x7ead5581632fb07f, 0x108531e22f9ff9),
  (0x35443837f63ec3bd, 0x106ddec1af4417), (0x89e2b200e5519461, 0x10614174a4911d), (0xe9ae44f0b7289c0b, 0x105f291f0448e7),
  (0x94387a277b9fa817, 0x105afa0ef32891), (0xc84f1a58abfc2c25, 0x1054b777bd2530), (0x71101d8e3c83377b, 0x104e79a97fb69e),
  (0xc024abe5c50ba69d, 0x104c661eafd845), (0x15de4eb365a65d73, 0x10462ea939c933), (0x9ed28a76bcca931, 0x102f8baa442836),
  (0x816bffbf4a00205b, 0x102d7ff7e94004), (0x1f5c71543d558069, 0x10275ff9f13c02), (0xf25c64d0ec53b859, 0x1017213fcbb4d3),
  (0x96c02c2ef1e0ff0f, 0x101112234579d1), (0x19a804816870a333, 0x100501907d271c), (0x6de49add0971c555, 0x100300901b0510),
  (0x528087e684c71aab, 0xffd008fe5050f), (0xa94152c269bcdeef, 0xff10e02dd5084), (0x379450a3c2b6bdf, 0xfe13b9c80c67f),
  (0xd2cd38bafe5373e1, 0xfdf4384be37ad), (0xc29df2bea71d8bad, 0xfdb54cbe8766e), (0xc15862775f302e83, 0xfd5725ca6ff32),
  (0x1016af2fe55ede09, 0xfc7c84684c6fb), (0x3d26dbd9d1910715, 0xfc3e5265dbaa8), (0x621dab2dfaf3dfbf, 0xfc1f44e0cae12),
  (0xb6f1d7ac287338b1, 0xfb0921c50a7af), (0x8d9e9f0c3f9e7fd9, 0xf999fd70cbc6b), (0x60a93f8762e914bb, 0xf9023fd5339d0),
  (0xb14371f247c159c9, 0xf8a78ce671475), (0x6dd3b484471d4eb3, 0xf8895fee86574), (0xcd172f4701c1684d, 0xf7f2ecb084b10),
  (0x372e686ed8bb537, 0xf7d4eb7d10c29), (0xbc07f7ca65c5b071, 0xf73f52277a3c3), (0xab2b6170c3f78d9b, 0xf7217c598961c),
  (0xf3d74f461fe6f5b5, 0xf68cbb1448f42), (0xdbc13f4b31f3230b, 0xf633d0276e4c5), (0xd1420716e3f1572d, 0xf6163ac20ec79),
  (0xd5be2fd4d805464f, 0xf582ba2bc16c6), (0xc68b97c136943851, 0xf5654f43290a0), (0x9e27918af7cfb473, 0xf4d2a23810bc6),
  (0x5ec8ab6c36ac7f41, 0xf47af4d6a2f27), (0x964076331dd90979, 0xf4066f2b6e652), (0x30198eff77b002d7, 0xf2555048e3a92),
  (0x3af7cb9583ece011, 0xf1c64588a5bf6), (0x34ce06f643d9883b, 0xf1a9be09cb411), (0x79f767e528708c55, 0xf11b7d5259d39),
  (0x185332d2ef2313cd, 0xf0aa284e7f802), (0x43b611b84c8332a3, 0xf0556e5e3b7f2), (0xc2e215e4f43bb63d, 0xefc8bcbc808e5),
  (0xf94b9dd22ce44e97, 0xeecd1a690efbb), (0xd895834a1db166a5, 0xee79aed6d65f2), (0x347d2f16d19b8d09, 0xedd386114d83a),
  (0x1b54d4dc45b7d98d, 0xed2e44366e5e2), (0x117ac30d9a044877, 0xed12cf8e17f64), (0xe10b78a67a526e9, 0xec1cd284b2b2d),
  (0x92da68a818688a9f, 0xebcb44cadda1e), (0xcf2b6c87f741f84b, 0xeb9505943771d), (0xd264f9bd41e18ed9, 0xeb43d57efeadc),
  (0x733cbeaa97166d8f, 0xeaf2dd4c00b03), (0xc9f475b021d22e81, 0xea0141c1ba6a6), (0x731f76f2ec4c852b, 0xe9e68805f05a7),
  (0xdaf6f0c978f69945, 0xe96142b87e431), (0x749c8ad20c61ec93, 0xe8a7acd811b8c), (0x9307ff8bd3c1261, 0xe8587db3e001d),
  (0x334a69fb5a486e2d, 0xe823d186d44dc), (0x1f36c7bf31578617, 0xe8098463ee194), (0x31ebbcc279ea6103, 0xe7d4fbfb3ee1d),
  (0x42e2aad119f466eb, 0xe69bba6981ffa), (0x106ec05a0ab1450d, 0xe681c5cf7d707), (0xb1b38db92a99e731, 0xe5e684930e334),
  (0x784ae377e67071e7, 0xe5993247dc92d), (0x3e9e1471ba6671d7, 0xe4cbfee201016), (0x82c29b59d4d73d0f, 0xe465ee7daf979),
  (0xc23dd07128b5525d, 0xe4199de07af5c), (0x4d4e5ce0e9245133, 0xe3cd8031d4f40), (0xc8fd1057c09f8cc5, 0xe2ea56c157eb2),
  (0xea1516e94f394035, 0xe221e5d4d3c73), (0xb5e3319c564ee9df, 0xe208f09a841c7), (0x126a69f90d822d8b, 0xe1d716a945161),
  (0x501ed6348857aa19, 0xe18c78ec8fd4d), (0xde344a324eee1c83, 0xe173a4a162079), (0x1dd9690cb2c406d1, 0xe1294881bb494),
  (0x8d6c5178d5e4387, 0xe0df1d5f24661), (0x4cea4050a3e8fdc1, 0xe063ec7f50b1e), (0xc114a06acc83f777, 0xe01a4313dc53d),
  (0x20b060ebc0ea01db, 0xdf8780f47c350), (0xfe50045acb78c99f, 0xdef57e8eb9666), (0x291a68705b196e91, 0xde1bdf3f63d46),
  (0xc1042c724273e2bb, 0xde03cb5099809), (0x2cee680bb165b7c9, 0xddbbaecc84bc9), (0xfd2ff9f12e0776d5, 0xdd8bb5ca73db6),
  (0x166a5da63af2cc6f, 0xdcb4d529a6e07), (0xedd16a5930408d27, 0xdc55da73dea60), (0x2adf30c26528844f, 0xdb3ad2585011f),
  (0x9a48d6572b5eec7b, 0xdb0becf636a79), (0x6e8bf2877503cb9d, 0xdaf481ca6fefb), (0xea27a191a7045389, 0xdac5ba7565dae),
  (0x6eb091f34dd45d3f, 0xda7fb4e419d19), (0xdc8a6cabb2937d41, 0xda6867a88d327), (0xbc2f04f254922a05, 0xd9dd005f50b02),
  (0x41431f4d6eb38631, 0xd9aeb01f763f7), (0x7bd717435a08291f, 0xd90d31dd5804a), (0x4232df9c91fc1a55, 0xd7b6453358f31),
  (0xa4651e1d5382eab7, 0xd744e69d900e4), (0x7cfb5409de4cf3c5, 0xd7011a317260e), (0xcdd636fb068b9929, 0xd67a0126e7c19),
  (0xee8f95e740462c97, 0xd5dd39e775bd7), (0x490f97b3a758b4a5, 0xd59a4f2990168), (0x641431563c441287, 0xd52b24cb6269d),
  (0xb743dad3ec45916b, 0xd4a6571da4f04), (0x7b188be8f55c878d, 0xd49044eac6581), (0xd805648b2ca54ef9, 0xd4642e40d1129),
  (0x76dbe6eef60123af, 0xd4222e81fe723), (0x3711525e6a9e8867, 0xd3ca6e8c89f41), (0x85c2215cb383d8f5, 0xd388ce29d4edc),
  (0xe58f554c89825857, 0xd31bc7b7d8013), (0x8fbd3b17c01dacd9, 0xd306071c13fd5), (0x4c8c39dc7aedee65, 0xd2da935479b1a),
  (0x653ac6dda86cd3b3, 0xd2430aa043597), (0xd61c6791a9c2c81, 0xd2025bc6c7db7), (0xb627a30090354237, 0xd1c1d4ad1732b),
  (0x83a89a539c527c23, 0xd196e5f46f8c8), (0x28c8c09330e90d71, 0xd156a0c9293e8), (0xee1178d27b1f029b, 0xd1413d26e0aee),
  (0xcecc740b37860ab5, 0xd0d68c6a4128f), (0x79736fde910c485f, 0xd0c142eaf3837), (0x6873d51f2487234f, 0xd01792ab9d70d),
  (0x2a112180614fb973, 0xcf990317775bc), (0xcb04cea98508f4eb, 0xcf44f8c38790a), (0xc2fcd2c527e28d7d, 0xce88d96d10e45),
  (0x980203ee10393c69, 0xce5f39b07e906), (0x3fa90a1d7d75681f, 0xce20e98148847), (0xdbf3bfefef217cc3, 0xcda4b9c30ccd7),
  (0x66a17fd3087b41e5, 0xcd9015ae32495), (0x962195d496fbbd3b, 0xcd524244aca36), (0xc705a86155443e49, 0xcd14940099cf6),
  (0x3f298ee0be6febff, 0xccd70ac089a07), (0xaa99b084e62fa613, 0xcbb9c535c4371), (0x1f000cb7d0b46fe1, 0xcb7d0b46fe0ff),
  (0x9ed7858637c9b2cf, 0xcaefe5d7135f4), (0x4d871aaf27c106fb, 0xcac7b5f00f0cd), (0x2e6a467cdc75a4f3, 0xca7785ceddbea),
  (0xe9d938fb696dde8d, 0xca13a2a86e1db), (0x40ec71b0b1554485, 0xc9c4009753007), (0x3aae12f861e5f3e9, 0xc94d02e64bfab),
  (0xa97565873959f843, 0xc89b8c9c875ef), (0xb5a960c09fbca8f, 0xc87447737277e), (0x463fe3d268012c91, 0xc860aaa2514e3),
  (0xe59a6bd5f5ee1bdd, 0xc8397c813f1b9), (0x6542e84d7775ce45, 0xc74fa805d6d56), (0x8b6eef58fd9effa9, 0xc6db8a1f5cdfe),
  (0x58993dbb9f98075f, 0xc6a1add9e2398), (0x2997955a810acf61, 0xc68e6be826648), (0x76e3d2f5077db451, 0xc5f4e25fc9df0),
  (0xb37c1d2867e30907, 0xc5bb8bf2ad1cd), (0x53ce6e09bd8d8695, 0xc58256b316ced), (0x39db291ea2a6b0e3, 0xc4fd5ad917b5b),
  (0xddd265ab9c58847d, 0xc49ecb3ea4d7a), (0x5beca8562dddd0cb, 0xc41b00b7d950a), (0xb69031c153ddbed7, 0xc3f57990b87a1),
  (0xd03c2271b42a6fcd, 0xc2ddcb31250f8), (0xcd6fd19e63e40ea3, 0xc2a63b3651432), (0xf7687aa8e4fd7bf1, 0xc26ecae1db72e),
  (0x649dfda112a272a7, 0xc2377a18c051e), (0xecf7866a56d526df, 0xc1ede9efcec29), (0x72bbf1cfdaebfead, 0xc1b6e258d13a0),
  (0x55f6a48df7055719, 0xc19243f5399bb), (0x80060bffcfa00183, 0xc17ff9f400305), (0x8a104f309919b087, 0xc112865703b94),
  (0x98fa7db7652f6a15, 0xc0dbfaea33225), (0x5d7d1b3df70f7ac1, 0xc0b7af12ddfb9), (0x16ab7b5e04cc1f6b, 0xc0a58e464462c),
  (0x78a5bfd2e5ececf9, 0xc06f40512eef2), (0x6506392e171d869f, 0xbfa9275a2b247), (0xc3fc12e221ef146d, 0xbf7367402cdf0),
  (0xf8aa132822c33657, 0xbf61833f4f921), (0x894496574f536f43, 0xbf3dc543a74a1), (0x8b2546b08fb4cbd5, 0xbe9d9302a7115),
  (0x43bbb561bd1aa7f, 0xbe8bd6e051e01), (0x2412c7cc4ea7a12b, 0xbe6868804d5a6), (0x6f0bd406dd71696f, 0xbdfe6c4359f0e),
  (0xad475c6988d54b71, 0xbdeccdb0b5c3a), (0xd812e5d48dbbba27, 0xbdb8058ee429a), (0x22aaca437ba04893, 0xbd94e5c1b371f),
  (0xdba6ff1fecd5f09d, 0xbcb1d293b1af3), (0x13016d3396286773, 0xbc7db8db0c1a5), (0xc746494631bcfa41, 0xbc49bbdfd2662),
  (0xd14888565bf6a10d, 0xbc2723240f402), (0xc002ef885f0adf05, 0xbbe217c2b7c13), (0xe5a04da7fee6ade7, 0xbb8c10aab27b2),
  (0xc114ce5468593bc7, 0xba7ad528a7e79), (0xbb6747dd7f577b7, 0xb9f3611b48c5e), (0x395ce5a20f285839, 0xb9e2806e5e7c4),
  (0x6eee8be66e8618ef, 0xb9aff0c4913fe), (0x52acf64297f1241b, 0xb98e4aedd581c), (0x361dcc48a364093d, 0xb97d7c94b7dc2),
  (0x342d6f475d72e629, 0xb95be902d9d9e), (0x5e978bd46410d413, 0xb94b23c872b90), (0xcc3433d75ba015ad, 0xb8f77714d15a1),
  (0x1c83b7628458d4fb, 0xb882d0beff6a1), (0xf9ca45637e38f809, 0xb850ff9852703), (0xcbed792ffaf6b115, 0xb82fd86db8806),
  (0x9abd961d8c0e8c8d, 0xb7edadd32f76c), (0xe69572fa659340af, 0xb79b3b4df3b7b), (0x9187e7483a6436fd, 0xb769e6d59833f),
  (0x1e9c726993bed9d9, 0xb6c636b5141ff), (0x243554db91976365, 0xb6a59ceae8801), (0x4d06ff994c0088f, 0xb6955461e38f7),
  (0x25b76abcb74889dd, 0xb6648c2dc6bc2), (0x3a409642893c779b, 0xb572282260209), (0x8f8f620d8bc0c927, 0xb552072bde889),
  (0x6f9f196b3369855f, 0xb511e7552f9c4), (0x92a522bb0638ed99, 0xb4c1ff34a5c0e), (0x96270f1efdd7004f, 0xb4922f58d4aa2),
  (0xb4844b380fdaa79d, 0xb46278c16b967), (0x108936aa5f9c1495, 0xb42301cd99b49), (0xb60f606f104c9eb, 0xb3f385dd77e4e),
  (0xc663dfe8263b302f, 0xb394d8ef8f0f6), (0xc91a280b9110b15b, 0xb375601507c14), (0x904287118d10969, 0xb3463f76be376),
  (0x160d36a5d31bf553, 0xb3368f6c4a07c), (0xe84f5fda3c67ad21, 0xb3078fc1c25f0), (0xbd85701f72d4b6ed, 0xb2e84854e93e5),
  (0x4c50cf5924dee1c3, 0xb2b971aa909a4), (0x2455aaf1633bb6e5, 0xb2a9da39d6bc8), (0xd775b39f549b8ac7, 0xb25c0dc29a0fc),
  (0x87fcdda7a252cb49, 0xb24c8698449a7), (0x53df2e3bd254a739, 0xb1d0ae579aefe), (0x8915e69623a5f7ef, 0xb1a2698ea2f9e),
  (0x1ef24c80742dd08b, 0xb108dc4186078), (0xb4d87aaa6fb1e897, 0xb0ea463b00212), (0x788573e8b92dbbfb, 0xb08ec37007962),
  (0x2527b137b0878c1, 0xb024778cc023c), (0x1870a7c8dee9f4f5, 0xaf515df36a88e), (0x39b99e40910a224b, 0xaf24635f6561e),
  (0x45821c0abd4df247, 0xae8f1b92baeaf), (0x10fe2b2f50e02fb3, 0xae715eee11f8e), (0x5762b90c043f0345, 0xadec0b0a3bb36),
  (0x82a67b9193b27bbd, 0xadb10aa4c956f), (0xa6e914e28ec37693, 0xad84e49752245), (0x835d9a4facaf445f, 0xad6782597f0c2),
  (0x48def8175884f82d, 0xad3b81a0d72fe), (0xae900e2d7c9a6f7b, 0xacd52beced79e), (0x1c08431bdd18be89, 0xaca9755063254),
  (0xb370a66d684fd83f, 0xac7dd4cafb12a), (0xb4be33e18f93b279, 0xac354f80dca44), (0x310c50872a7dd5e3, 0xac26d5c2b8ad2),
  (0x447ab1281276697d, 0xabde997dabd3d), (0xc2f122216b2a6c21, 0xab883aa1100a0), (0xab99c8b5ae1c3059, 0xab4ed637f5a0b),
  (0xb78e17a2227d593b, 0xab074e9febf52), (0xabf97d03f7269c5d, 0xaaf90778c2039), (0x867aefc9fdbfe7ff, 0xaab1c7684f034),
  (0xf7f7ad182e47d5b7, 0xaa78f20ebbb3e), (0x50dff95a9847721b, 0xaa23f8dafd4cc), (0xe4cb8a0e83cb6a35, 0xa9dd69cad5934),
  (0x8da72ecdf9247a1d, 0xa935004a07302), (0xc5b04bfc87f31d87, 0xa9270690f3d14), (0xe2dcf622ea2b00f3, 0xa90b1a0aa5d30),
  (0xb9ce9f2e4972f46b, 0xa8d35c9d731e9), (0x1ed785c911bf59f9, 0xa8a9a6a51f16c), (0x4ddb8a4eed70e085, 0xa88de370f596b),
  (0x81e93b4df68c24fd, 0xa856786adae36), (0xee0d0812afcd8357, 0xa7da4c77d3161), (0xf62e3ba72268a891, 0xa7959f863d4a1),
  (0x3194d367c8154147, 0xa76c85e80c195), (0xd096ede8e30c20d5, 0xa743806dc44c4), (0xd68624d27b87a77f, 0xa735d866dfa0a),
  (0xb728fcdc11c8204d, 0xa70cedb02531e), (0x9d6b6038077e066f, 0xa6c8e842c770f), (0xaa732d7a4a360d93, 0xa67791215dd74),
  (0x36af98a423972db5, 0xa66a0a51d363d), (0xc31d00da12940f17, 0xa626893011861), (0xed85352107410b25, 0xa5fe22c55c089),
  (0x829c85ee6db8567b, 0xa5d5cffb77275), (0xef60258952cc6d89, 0xa5ad90c4186e5), (0xcf28c2e0da787741, 0xa578057e7c2eb),
  (0x57567d8494af28f7, 0xa54ff3bb10e91), (0x2c7c98518f174031, 0xa50d5683edc94), (0xb28b363a36825ae7, 0xa4e57854b3df4),
  (0xed1ffeb64f9ae769, 0xa4d8328c4b800), (0xcbbb0115e9b9a31f, 0xa4b06e01d97b3), (0x8d3c5fecb7f9e4ed, 0xa488bca2c4449),
  (0x816271698195cfc3, 0xa4611e6132ed5), (0x9ac939d1c2b1d35d, 0xa41f40f39e646), (0xdd9fb7017b0ec455, 0xa3eab5c3e44e9),
  (0xc94cab1e57276e3d, 0xa34ddd50561e0), (0x8b8806b117c79913, 0xa326d60e94186), (0xa9e63292a3269fd1, 0xa2985a81ce614),
  (0x76da5710f1e989fb, 0xa28b72e26f82e), (0xdded6688d83a918d, 0xa217aa3479693), (0x4e446b6a305428f9, 0xa1fe05c62df4b),
  (0x4ddaca7a3696cfb1, 0xa1cad538aebf9), (0x7eadc4eb87f26ed3, 0xa18b05f490083), (0x76c13a0ff04c00c9, 0xa0ccc4c28fc31),
  (0xcbf800504d2a2681, 0xa09a544d01ffe), (0x731dada6c4fec9b, 0xa0294aa53e9a2), (0xbcb52a664e63f627, 0xa01041a6aaed5),
  (0xf1f9abda071c2aa9, 0xa003c01680870), (0xf262ffa620ffe20b, 0x9fc5558a971c8), (0x93774a3d57199a99, 0x9f9ff9c3c03e5),
  (0xfb3541cd467a1903, 0x9f9389b864ab9), (0x6828cab6b4fe8f51, 0x9f6e4534bdca8), (0x12ac03e3d624cc9d, 0x9f557687235c2),
  (0x6363bd1e9bb7d7f7, 0x9ee633c0391ab), (0x334cfd676a484d2f, 0x9eb4f28e0bb39), (0xd511acd86f143a53, 0x9e6b49e92e4bb),
  (0x73fc2490e0062be5, 0x9dfd4ccbd0045), (0x10780dda36b78b55, 0x9d9c0828536c1), (0xabf601274064e0ab, 0x9d77ad449f777),
  (0x3ef3e4ca27e4a2cd, 0x9d6b92b28ee48), (0x9216a26e690a16f1, 0x9d231a476ed51), (0xbae4849e6034bda7, 0x9cfef711bf120),
  (0xf943a0520e01e9e1, 0x9cc2e1448b765), (0x7c89958f48f6658b, 0x9cb6e26cbc64d), (0xe67128750e0545a5, 0x9c7b03b4a9c67),
  (0xc6c9e1d414516ccf, 0x9c6f0fd980ab1), (0x805307f996e9e81d, 0x9c4b3f3a30c3f), (0x3eddd2cff46ad5bf, 0x9c0fb29436687),
  (0x35582c1aeb5aae85, 0x9bbca025b7aec), (0x4973c88573ef6eb1, 0x9ba4f4421e52c), (0x3063f627c1e715d9, 0x9b1783809ff03),
  (0x711ad679a8dcc243, 0x9b0bc5b4d2eac), (0x51c224a17a3db4b3, 0x9aae172fd8b9c), (0x612325ca50ddaed5, 0x9aa26954607ed),
  (0x9929a7b6b7958b37, 0x9a681e758a022), (0xa78d222e5a857bb9, 0x9a5c7b284942e), (0x3ad0ffe3198d139b, 0x9a2264ecc5558),
  (0x8b4659ac547ed17, 0x99aebb39be56f), (0x1752e8904aff1003, 0x9997ae1a9faac), (0x60745c37ee4e5925, 0x998c2a22b6900),
  (0x29e2da1f6557ee51, 0x997527603f8a8), (0x80d78c24ac49cb89, 0x99473685e4d50), (0xc56c3b495c8d1f79, 0x98eba72512a13),
  (0xcf5bdf9f5088ac2f, 0x98c96d8dee9e1), (0x8a44800e4fae4e7d, 0x98a743453554e), (0xdd76384277e578e7, 0x989be33c9e6bd),
  (0x20b1562d2703facb, 0x9857c692e9a59), (0xef56caf96e9d8e3b, 0x97fd540c05c9e), (0xf54061416aede033, 0x97d04302ed944),
  (0xe0bc78c21a26e4ff, 0x97b9c48289935), (0x524f92731a179cd, 0x9798133ece717), (0x5d3b4ad7deafec8b, 0x96f07c683689e),
  (0x508828f744da88ad, 0x96e55d6393fc5), (0x6e82014031710bcf, 0x96addad861696), (0xadf3b77a22595dd1, 0x96a2c5a2cf0cf),
  (0xd8f0c03f7ea8a87, 0x96818fc825eba), (0x2c49e3483c3a05f3, 0x966b74027f48a), (0xccecbc98c91274c1, 0x964a56850b8ed),
  (0x273a08941bb71e77, 0x962947990eb36), (0xdead5a1e3f341baf, 0x95fd4a4c885e0), (0x83eee092593309fd, 0x95dc5d3954fde),
  (0x4af5f1bd3ae87ce9, 0x95c671ddfe516), (0x4ca85ad2301c9e6d, 0x9584d6340ddf1), (0x1b19592cd31a3943, 0x95641de84afcc),
  (0x3e7aa05e6dcd81bb, 0x953893c386521), (0x86336cecb02ba47f, 0x94f7740d87794), (0xa96b30d0c8a44b2b, 0x94e1cb70c9ce0),
  (0xb7c63fa0cfca0571, 0x94962ecbcc7ce), (0x8eaf59b405a642b5, 0x94559c69059cf), (0xdf29e9cbb536dc17, 0x941ff7e640716),
  (0xed14132c82c1d43f, 0x939fd7a24b099), (0xaf68778e34caab0d, 0x937ff22c014bd), (0xa4f04a3368941d31, 0x934050872c09e),
  (0xe9960969357c07e7, 0x93209446d56f6), (0xeb47b62b7360b469, 0x9316033b5bd22), (0x64c653d779ae730f, 0x92a22b9a79374),
  (0x479702d3319915c7, 0x927838edba206), (0xef3c3eebc6803239, 0x921a2e7112833), (0x93807b1a2e3c0e1b, 0x91e623d5660d0),
  (0x8167e33e3f478029, 0x91c6fc0cab8b6), (0x60cb76e38c339397, 0x917e7d88028eb), (0xae34788ffe4bc283, 0x9169d455585cd),
  (0x4b6246a0c6c093a5, 0x915f81ef2d529), (0x872e594b12b03efb, 0x9140938595d3a), (0xbc0ae83ce9045b15, 0x910d2360a450e),
  (0xad30a3917e0968d, 0x90e417104eabd), (0x124ef5a4e1c7cd63, 0x90c55d0fdea28), (0x5b98fe0e9fe17aaf, 0x90b0e84c04f20),
  (0x414306cfe45400fd, 0x909243fac6b70), (0xa06d1b4fd391e8bb, 0x8ff9d0440d137), (0x11939803a60c2381, 0x8fb3192789d73),
  (0x668c11cc37ea6b23, 0x8f80c0d5031e3), (0x83f9b2089dc10645, 0x8f76b3664f164), (0x65dc8ae47af277a9, 0x8f3a80550abc3),
  (0x6e2368b9c685770b, 0x8f087c50e00c4), (0x3ea137aeba5a6b2d, 0x8efe7fb408cc2), (0x735f57adca48f19d, 0x8eaecce5c4fd7),
  (0x69a8de0ba1b18107, 0x8ea4dccaaec0b), (0x8fb84bdf5822bd79, 0x8e4ba9fbc2ff0), (0xb8fab3b748562721, 0x8dd5688a3b7d6),
  (0xa6c658ea10a65c3b, 0x8d7d3821fd94f), (0xe56381f33ab5e549, 0x8d5feb03c31d7), (0xe3c224da14988139, 0x8d12033cc9d30),
  (0x438c253e6d99f513, 0x8cbac4dec6a82), (0xc1b99f8841a3a6e1, 0x8c9dc80ab604b), (0x63fa18c79c54fa8b, 0x8c942115dcc96),
  (0xe7f6f609619d0d1d, 0x8c3d7df67b539), (0x7b39ef3b70afc109, 0x8c2a4bc35cb3b), (0x73922c61ca7452bf, 0x8c0d8a4f1f264),
  (0x28d96828332372c1, 0x8c03f71cbf906), (0x6b6e92968c4e8463, 0x8bd42abd9a107), (0x571861f084962edb, 0x8bae051d7f6ff),
  (0xd935c64f140f1ef5, 0x8b7e735068135), (0x96459f8fd72a4c4b, 0x8b61f82c5fb08), (0x410ba9a2a18242d9, 0x8b4588a74a05a),
  (0xcf90979f89870391, 0x8b1fb0a7ed403), (0x10f94ff26bc00add, 0x8b0ccc5d8f5c8), (0xa6619fbb9da139b3, 0x8af07f8ac5146),
  (0x765a23334efb03d5, 0x8ae71328ffd49), (0x6f2f613b5e631837, 0x8ab8086624822), (0x666b99bfbcd368b9, 0x8aaea3ab5ae89),
  (0x922b78eb01ed45bd, 0x8a7661f7020fe), (0x7079a199c31de6a9, 0x8a63ab88aa8dd), (0xa181abcda167be5f, 0x8a47a35d020f3),
  (0x2f6dbbcab3a9822d, 0x8a2ba68a3cebf), (0xc5a83ff0e43eba17, 0x8a2254c852497), (0x28c68613dda7d97b, 0x89ea849898bb3),
  (0x5cf33ed49efa5007, 0x89d7f3e285109), (0x9125fdead661590d, 0x899720af36739), (0xaee67f478c7325e7, 0x89442160d11dc),
  (0x735b1274a0e89653, 0x8931bd5875a22), (0x733b56eae1a4e621, 0x891630877aedf), (0x1944ffb316ffe65d, 0x88baaad83e38f),
  (0xf26bc3cfd2a01449, 0x88a86b9090aa4), (0xb5827ba68b83e201, 0x8883fb99bf244), (0xac139507e48eefb7, 0x8868b45e727ee),
  (0xeb7676b25834fda3, 0x88568aef30d47), (0xad898f4763da5c1b, 0x8832468f0bcdd), (0xea906f224398f9a7, 0x88202b9a4df76),
  (0xa8aff3caca28cdad, 0x87e0f31872e9b), (0x46c53aa36b19b083, 0x87c5ecd731f42), (0x9ada32b09603e8cf, 0x87b3eea3bb388),
  (0xd31f842ef5d8e915, 0x87751a6c67d78), (0x6124af44730a33f9, 0x873f6e2f9d34a), (0x828ec4c2b6e64a85, 0x872d938dcfc01),
  (0x3d6f49df999638af, 0x8724a80151dba), (0x7641460a0ea89b65, 0x869f677f6cc1a), (0x97703f98fb7fe291, 0x868db701df58d),
  (0xd343c209e3e6b7b9, 0x8623f563a7d6d), (0x4e5fc01f6a41406f, 0x86099ef0c8886), (0xb78a05b08aa4bcbd, 0x85ef52d38fe87),
  (0x3434a14919d34561, 0x85bad981c7847), (0xccead7dee120f525, 0x8586893de7cfc), (0xe1375a2bccd87673, 0x8549b491e9efe),
  (0xf727d51420a57141, 0x852fb3859bea4), (0x2c3b68cfbcebb00d, 0x851e631fc08f8), (0xda91e2f3e17542f7, 0x8515bc9cde5f1),
  (0xb55f6100ae95d6e3, 0x850472f6185b3), (0x6a0c608e0bbaa975, 0x84b6defbc166b), (0xac5f2fc151c016cb, 0x849d17159854b),
  (0xb1e5af8146e4d00f, 0x8469a54a20645), (0x6e283d3b112602c7, 0x84476f9401ade), (0xf9a48bcb76c96e55, 0x842dd2e2dc25d),
  (0xa776780ca4c0e101, 0x841cc543f58cb), (0x8d40a2d47d99c7c5, 0x83e9b6c3df688), (0x4ed9d8a7aedcefef, 0x83e1382f22ff9),
  (0x55c5cf9586072313, 0x83ae57a327933), (0x62c640e386ef1f09, 0x832fd15e00939), (0xdb876e7feb8b02f9, 0x82ecb9c6669ac),
  (0x5b85ac1558bdf263, 0x82e45ba6652c4), (0xb2b13930c2a889b1, 0x82cb47b00abaa), (0xdf53c897124f8c57, 0x826fa5d0ce5aa),
  (0x68a69390fdce78dd, 0x823598cfc6865), (0x5a1e8f0261e6e7b3, 0x821cc79da73f1), (0xcce38a9ccaab014d, 0x81f37ff3d12c0),
  (0xb0cd4811fe6a8171, 0x81c21947b0acd), (0x911c24573e445027, 0x81a97404af5f7), (0x9e86401e61cac4a9, 0x81a13f02d110e),
  (0xfd2731405f265eb5, 0x8190d81c9877b), (0x3f4c00205c05b02d, 0x817016c0b3ffd), (0xe92e3d0a829a974f, 0x81473c50ac33e),
  (0xdec216e5aa47169d, 0x812ec59f2d11a), (0xa0397bf3448bcd73, 0x8116582e237c8), (0x9ecf538d7efa905b, 0x80b4fe85ec545),
  (0xb1037b5f84886421, 0x807c7894d029a)]

end NumPrime.Tables
