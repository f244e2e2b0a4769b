/-!
# The table of truncated powers of five (src/conv/from_str/powers_of_five.rs:47-2097)

`(hi, lo, exp2)` for `5^i`, `i` from -1024 to 1024; the numbers are copied verbatim from the source.
The table is split into 17 parts.
-/

namespace Verif

/-- src/conv/from_str/powers_of_five.rs:48-175 -/
def powersOfFive2_0 : List (Nat × Nat × Int) := [
  (0xa2a682a5da57c0bd87a601586bd3f698, 0xf53e94d1b2357c32c0eaff3755a2ddcd, -2378),
  (0xcb50234f50edb0ece98f81ae86c8f43f, 0x328e3a061ec2db3f7125bf052b0b9540, -2376),
  (0xfe242c2325291d2823f3621a287b314e, 0xff31c887a673920f4d6f2ec675ce7a90, -2374),
  (0x9ed69b95f739b23916781d50594cfed1, 0x5f7f1d54c8083b4990657d3c09a10c9a, -2371),
  (0xc68c427b75081ec75c1624a46fa03e85, 0xb75ee4a9fa0a4a1bf47edc8b0c094fc1, -2369),
  (0xf82f531a524a2679331badcd8b884e27, 0x25369dd4788cdca2f19e93adcf0ba3b1, -2367),
  (0x9b1d93f0736e580bbff14ca0773530d8, 0x774222a4cb5809e5d7031c4ca167464e, -2364),
  (0xc1e4f8ec9049ee0eafed9fc895027d0e, 0x9512ab4dfe2e0c5f4cc3e35fc9c117e2, -2362),
  (0xf25e3727b45c69925be907baba431c52, 0x3a5756217db98f771ff4dc37bc315ddb, -2360),
  (0x977ae278d0b9c1fb7971a4d4b469f1b3, 0x647695d4ee93f9aa73f909a2d59edaa9, -2357),
  (0xbd599b1704e8327a57ce0e09e1846e20, 0x3d943b4a2a38f81510f74c0b8b069153, -2355),
  (0xecb001dcc6223f18edc1918c59e589a8, 0x4cf94a1cb4c7361a55351f0e6dc835a8, -2353),
  (0x93ee0129fbd5676f9498faf7b82f7609, 0x301bce51f0fc81d075413369049d2189, -2350),
  (0xb8e981747acac14b79bf39b5a63b538b, 0x7c22c1e66d3ba2449291804345c469eb, -2348),
  (0xe723e1d1997d719e582f08230fca286e, 0x5b2b7260088a8ad5b735e05417358466, -2346),
  (0x90766d22ffee6702f71d6515e9de5944, 0xf8fb277c055696c59281ac348e8172bf, -2343),
  (0xb494086bbfea00c3b4e4be5b6455ef96, 0x3739f15b06ac3c76f7221741b221cf6f, -2341),
  (0xe1b90a86afe480f4a21dedf23d6b6b7b, 0xc5086db1c8574b94b4ea9d121eaa434b, -2339),
  (0x8d13a6942deed098e552b4b76663232d, 0x5b25448f1d368f3cf112a22b532a6a0f, -2336),
  (0xb0589039396a84bf1ea761e53ffbebf8, 0xb1ee95b2e484330c2d574ab627f50493, -2334),
  (0xdc6eb44787c525eee6513a5e8ffae6f6, 0xde6a3b1f9da53fcf38ad1d63b1f245b8, -2332),
  (0x89c530acb4db37b54ff2c47b19fcd05a, 0x4b0264f3c28747e1836c325e4f376b93, -2329),
  (0xac367cd7e21205a2a3ef7599e07c0470, 0xddc2fe30b32919d9e4473ef5e3054677, -2327),
  (0xd7441c0dda96870b4ceb5300589b058d, 0x1533bdbcdff360505d590eb35bc69815, -2325),
  (0x868a9188a89e1467101313e03760e378, 0x2d4056960bf81c323a57a930195c1f0d, -2322),
  (0xa82d35ead2c59980d417d8d845391c56, 0x38906c3b8ef6233ec8ed937c1fb326d0, -2320),
  (0xd23883658776ffe1091dcf0e5687636b, 0xc6b4874a72b3ac0e7b28f85b279ff085, -2318),
  (0x8363521f74aa5feca5b2a168f6149e23, 0x5c30d48e87b04b890cf99b38f8c3f653, -2315),
  (0xa43c26a751d4f7e7cf1f49c33399c5ac, 0x333d09b2299c5e6b5038020736f4f3e8, -2313),
  (0xcd4b3051264a35e1c2e71c3400803717, 0x400c4c1eb40376062446028904b230e2, -2311),
  (0x804efe32b7ee61ad19d071a08050226e, 0x8807af93308229c3d6abc195a2ef5e8d, -2308),
  (0xa062bdbf65e9fa1860448e08a0642b0a, 0x2a099b77fca2b434cc56b1fb0bab3630, -2306),
  (0xc87b6d2f3f64789e7855b18ac87d35cc, 0xb48c0255fbcb6141ff6c5e79ce9603bc, -2304),
  (0xfa9a487b0f3d96c6166b1ded7a9c833f, 0xe1af02eb7abe39927f477618423b84ab, -2302),
  (0x9ca06d4ce9867e3bce02f2b46ca1d207, 0xed0d61d32cb6e3fb8f8ca9cf296532eb, -2299),
  (0xc3c888a023e81dcac183af6187ca4689, 0xe850ba47f7e49cfa736fd442f3be7fa6, -2297),
  (0xf4baaac82ce2253d71e49b39e9bcd82c, 0x6264e8d9f5ddc439104bc953b0ae1f8f, -2295),
  (0x98f4aabd1c0d5746672ee1043216071b, 0xbd7f118839aa9aa3aa2f5dd44e6cd3b9, -2292),
  (0xbf31d56c6310ad1800fa99453e9b88e2, 0xacded5ea4815414c94bb3549620808a8, -2290),
  (0xeefe4ac77bd4d85e01393f968e426b1b, 0x58168b64da1a919fb9ea029bba8a0ad2, -2288),
  (0x955eeebcad65073ac0c3c7be18e982f1, 0x170e171f08509b03d43241a1549646c3, -2285),
  (0xbab6aa6bd8be490970f4b9ad9f23e3ad, 0x5cd19ce6ca64c1c4c93ed209a9bbd874, -2283),
  (0xe9645506ceeddb4bcd31e81906ecdc98, 0xb40604207cfdf235fb8e868c142ace91, -2281),
  (0x91deb5244154a90f603f310fa45409df, 0x7083c2944e1eb761bd3914178c9ac11b, -2278),
  (0xb656626d51a9d353384efd538d690c57, 0x4ca4b33961a6653a2c87591d6fc17161, -2276),
  (0xe3ebfb08a61448280662bca870c34f6d, 0x1fcde007ba0ffe88b7a92f64cbb1cdba, -2274),
  (0x8e737ce567ccad1903fdb5e9467a11a4, 0x33e0ac04d449ff1572c9bd9eff4f2094, -2271),
  (0xb2105c1ec1bfd85f44fd23639818960d, 0x40d8d706095c7edacf7c2d06bf22e8b9, -2269),
  (0xde947326722fce77163c6c3c7e1ebb90, 0x910f0cc78bb39e91835b38486eeba2e7, -2267),
  (0x8b1cc7f8075de10a6de5c3a5ced3353a, 0x5aa967fcb750431af219032d455345d0, -2264),
  (0xade3f9f60935594d095f348f42880288, 0xf153c1fbe52453e1ae9f43f896a81745, -2262),
  (0xd95cf8738b82afa04bb701b3132a032b, 0x2da8b27ade6d68da1a4714f6bc521d16, -2260),
  (0x87da1b483731adc42f52610febfa41fa, 0xfc896f8ccb046188506c6d1a35b3522e, -2257),
  (0xa9d0a21a44fe19353b26f953e6f8d279, 0xbbabcb6ffdc579ea64878860c32026b9, -2255),
  (0xd444caa0d63d9f8289f0b7a8e0b70718, 0x2a96be4bfd36d864fda96a78f3e83067, -2253),
  (0x84aafea485e683b1963672c98c72646f, 0x1a9e36ef7e42473f1e89e28b98711e40, -2250),
  (0xa5d5be4da760249dfbc40f7bef8efd8a, 0xe145c4ab5dd2d90ee62c5b2e7e8d65d1, -2248),
  (0xcf4b2de111382dc57ab5135aeb72bced, 0x999735d635478f529fb771fa1e30bf45, -2246),
  (0x818efcacaac31c9b6cb12c18d327b614, 0x7ffe81a5e14cb993a3d2a73c52de778b, -2243),
  (0xa1f2bbd7d573e3c247dd771f07f1a399, 0x9ffe220f599fe7f88cc7510b6796156e, -2241),
  (0xca6f6acdcad0dcb2d9d4d4e6c9ee0c80, 0x07fdaa933007e1f6aff9254e417b9ac9, -2239),
  (0xfd0b45813d8513df904a0a207c698fa0, 0x09fd1537fc09da745bf76ea1d1da817c, -2237),
  (0x9e270b70c6732c6bba2e46544dc1f9c4, 0x063e2d42fd862888b97aa525232890ed, -2234),
  (0xc5b0ce4cf80ff786a8b9d7e961327835, 0x07cdb893bce7b2aae7d94e6e6bf2b529, -2232),
  (0xf71d01e03613f56852e84de3b97f1642, 0x49c126b8ac219f55a1cfa20a06ef6273, -2230),
  (0x9a72212c21cc796133d130ae53ef6de9, 0x6e18b8336b9503958521c54644559d88, -2227),
  (0xc10ea9772a3f97b980c57cd9e8eb4963, 0xc99ee640467a447ae66a3697d56b04ea, -2225),
  (0xf15253d4f4cf7da7e0f6dc1063261bbc, 0xbc069fd05818d599a004c43dcac5c624, -2223),
  (0x96d374651901ae88ec9a498a3df7d155, 0xf58423e2370f85800402faa69ebb9bd6, -2220),
  (0xbc88517e5f421a2b27c0dbeccd75c5ab, 0x72e52cdac4d366e00503b950466a82cc, -2218),
  (0xebaa65ddf712a0b5f1b112e800d33716, 0x4f9e7811760840980644a7a45805237f, -2216),
  (0x934a7faaba6ba471b70eabd10084026d, 0xf1c30b0ae9c5285f03eae8c6b703362f, -2213),
  (0xb81d1f9569068d8e24d256c540a50309, 0x6e33cdcda4367276c4e5a2f864c403bb, -2211),
  (0xe624677ac34830f1ae06ec7690ce43cb, 0xc9c0c1410d440f14761f0bb67df504aa, -2209),
  (0x8fd6c0acba0d1e970cc453ca1a80ea5f, 0x5e1878c8a84a896cc9d367520eb922ea, -2206),
  (0xb3cc70d7e890663ccff568bca12124f7, 0x359e96fad25d2bc7fc48412692676ba5, -2204),
  (0xe0bf8d0de2b47fcc03f2c2ebc9696e35, 0x03063cb986f476b9fb5a51703701468e, -2202),
  (0x8c77b828adb0cfdf8277b9d35de1e4e1, 0x21e3e5f3f458ca343d1872e62260cc19, -2199),
  (0xaf95a632d91d03d76315a848355a5e19, 0x6a5cdf70f16efcc14c5e8f9faaf8ff1f, -2197),
  (0xdb7b0fbf8f6444cd3bdb125a42b0f59f, 0xc4f4174d2dcabbf19f76338795b73ee7, -2195),
  (0x892ce9d7b99eab004568eb7869ae9983, 0xdb188e903c9eb57703a9e034bd928750, -2192),
  (0xab78244da80655c056c32656841a3fe4, 0xd1deb2344bc662d4c4945841ecf72924, -2190),
  (0xd6562d611207eb306c73efec2520cfde, 0x06565ec15eb7fb89f5b96e526834f36e, -2188),
  (0x85f5dc5cab44f2fe43c875f3973481ea, 0xc3f5fb38db32fd363993e4f381211824, -2185),
  (0xa7735373d6162fbdd4ba93707d01a265, 0x74f37a0711ffbc83c7f8de3061695e2d, -2183),
  (0xd1502850cb9bbbad49e9384c9c420afe, 0xd2305888d67faba4b9f715bc79c3b5b9, -2181),
  (0x82d219327f41554c4e31c32fe1a946df, 0x435e3755860fcb46f43a6d95cc1a5193, -2178),
  (0xa3869f7f1f11aa9f61be33fbda139897, 0x1435c52ae793be18b14908fb3f20e5f8, -2176),
  (0xcc68475ee6d615473a2dc0fad0987ebc, 0xd9433675a178ad9edd9b4b3a0ee91f77, -2174),
  (0xff825936a08b9a9908b9313984be9e6c, 0x0f94041309d6d90695021e0892a36754, -2172),
  (0x9fb177c22457409fa573bec3f2f72303, 0x89bc828be62647a41d2152c55ba62095, -2169),
  (0xc79dd5b2ad6d10c78ed0ae74efb4ebc4, 0x6c2ba32edfafd98d2469a776b28fa8ba, -2167),
  (0xf9854b1f58c854f97284da122ba226b5, 0x87368bfa979bcff06d8411545f3392e8, -2165),
  (0x9bf34ef3977d351be793084b5b455831, 0x7482177c9ec161f644728ad4bb803bd1, -2162),
  (0xc2f022b07d5c8262e177ca5e3216ae3d, 0xd1a29d5bc671ba73d58f2d89ea604ac5, -2160),
  (0xf3ac2b5c9cb3a2fb99d5bcf5be9c59cd, 0x460b44b2b80e2910caf2f8ec64f85d77, -2158),
  (0x984b9b19e1f045dd402596199721b820, 0x4bc70aefb308d9aa7ed7db93bf1b3a6a, -2155),
  (0xbe5e81e05a6c5754902efb9ffcea2628, 0x5eb8cdab9fcb10151e8dd278aee20905, -2153),
  (0xedf6225871076d29b43aba87fc24afb2, 0x7667011687bdd41a66314716da9a8b46, -2151),
  (0x94b9d57746a4a43a10a4b494fd96edcf, 0x8a0060ae14d6a4907fdecc6e48a0970c, -2148),
  (0xb9e84ad5184dcd4894cde1ba3cfca943, 0x6c8078d99a0c4db49fd67f89dac8bccf, -2146),
  (0xe8625d8a5e61409aba015a28cc3bd394, 0x47a09710008f6121c7cc1f6c517aec02, -2144),
  (0x913d7a767afcc860b440d8597fa5643c, 0xacc45e6a00599cb51cdf93a3b2ecd381, -2141),
  (0xb58cd91419bbfa78e1510e6fdf8ebd4b, 0xd7f57604807003e26417788c9fa80862, -2139),
  (0xe2f00f59202af91719a5520bd7726c9e, 0xcdf2d385a08c04dafd1d56afc7920a7a, -2137),
  (0x8dd60997b41adbae7007534766a783e3, 0x40b7c43384578308de32562ddcbb468c, -2134),
  (0xb14b8bfda121929a0c092819405164dc, 0x10e5b540656d63cb15beebb953ea1830, -2132),
  (0xdd9e6efd0969f7408f0b721f9065be13, 0x151f22907ec8bcbddb2ea6a7a8e49e3c, -2130),
  (0x8a83055e25e23a8859672753ba3f96cb, 0xed33759a4f3d75f6a8fd2828c98ee2e5, -2127),
  (0xad23c6b5af5ac92a6fc0f128a8cf7c7e, 0xe8805300e30cd374533c7232fbf29b9e, -2125),
  (0xd86cb8631b317b750bb12d72d3035b9e, 0xa2a067c11bd00851680b8ebfbaef4286, -2123),
  (0x8743f33df0feed29274ebc67c3e21943, 0x25a440d8b1620532e1073937d4d58994, -2120),
  (0xa914f00d6d3ea87371226b81b4da9f93, 0xef0d510eddba867f99490785ca0aebf9, -2118),
  (0xd35a2c10c88e52904d6b066222114778, 0xead0a5529529281f7f9b49673c8da6f7, -2116),
  (0x84185b8a7d58f39a3062e3fd554accab, 0x92c267539d39b913afc10de085d8885a, -2113),
  (0xa51e726d1caf3080bc7b9cfcaa9d7fd6, 0x77730128848827589bb15158a74eaa71, -2111),
  (0xce660f0863dafca0eb9a843bd544dfcc, 0x154fc172a5aa312ec29da5aed122550d, -2109),
  (0x80ffc9653e68dde4934092a5654b0bdf, 0x8d51d8e7a78a5ebd39a2878d42b57528, -2106),
  (0xa13fbbbe8e03155db810b74ebe9dced7, 0x70a64f21916cf66c880b29709362d272, -2104),
  (0xc98faaae3183dab52614e5226e45428d, 0x4ccfe2e9f5c83407aa0df3ccb83b870f, -2102),
  (0xfbf39559bde4d1626f9a1e6b09d69330, 0xa003dba4733a4109949170bfe64a68d3, -2100),
  (0x9d783d5816af02dd85c05302e6261bfe, 0x64026946c80468a5fcdae677efee8183, -2097),
  (0xc4d64cae1c5ac394e73067c39fafa2fd, 0xfd0303987a0582cf7c11a015ebea21e4, -2095),
  (0xf60bdfd9a371747a20fc81b4879b8bbd, 0x7c43c47e9886e3835b16081b66e4aa5e, -2093),
  (0x99c76be80626e8cc549dd110d4c13756, 0x6daa5acf1f544e3218edc511204eea7a, -2090),
  (0xc03946e207b0a2ff69c5455509f1852c, 0x0914f182e72961be9f2936556862a519, -2088),
  (0xf047989a899ccbbf443696aa4c6de677, 0x0b5a2de3a0f3ba2e46f383eac27b4e60, -2086),
  (0x962cbf609601ff578aa21e2a6fc4b00a, 0x67185cae4498545cec583272b98d10fc, -2083)]

/-- src/conv/from_str/powers_of_five.rs:176-303 -/
def powersOfFive2_1 : List (Nat × Nat × Int) := [
  (0xbbb7ef38bb827f2d6d4aa5b50bb5dc0d, 0x00de73d9d5be6974276e3f0f67f0553b, -2081),
  (0xeaa5eb06ea631ef8c89d4f224ea35310, 0x411610d04b2e03d13149ced341ec6a89, -2079),
  (0x92a7b2e4527df35b7d625175712613ea, 0x28adca822efcc262bece21440933c296, -2076),
  (0xb7519f9d671d70325cbae5d2cd6f98e4, 0xb2d93d22babbf2fb6e81a9950b80b33b, -2074),
  (0xe5260784c0e4cc3ef3e99f4780cb7f1d, 0xdf8f8c6b696aefba4a2213fa4e60e00a, -2072),
  (0x8f37c4b2f88effa75872038cb07f2f72, 0xabb9b7c321e2d5d46e554c7c70fc8c06, -2069),
  (0xb305b5dfb6b2bf912e8e846fdc9efb4f, 0x56a825b3ea5b8b4989ea9f9b8d3baf08, -2067),
  (0xdfc72357a45f6f757a32258bd3c6ba23, 0x2c522f20e4f26e1bec654782708a9aca, -2065),
  (0x8bdc7616c6bba5a96c5f5777645c3455, 0xfbb35d748f1784d173bf4cb18656a0be, -2062),
  (0xaed3939c786a8f13c7772d553d73416b, 0x7aa034d1b2dd6605d0af1fdde7ec48ee, -2060),
  (0xda887883968532d8b954f8aa8cd011c6, 0x594842061f94bf8744dae7d561e75b29, -2058),
  (0x88954b523e133fc773d51b6a98020b1b, 0xf7cd2943d3bcf7b48b08d0e55d3098f9, -2055),
  (0xaaba9e26cd980fb950ca62453e028de2, 0xf5c07394c8ac35a1adcb051eb47cbf38, -2053),
  (0xd56945b080fe13a7a4fcfad68d83315b, 0xb3309079fad7430a193dc666619bef06, -2051),
  (0x8561cb8e509ecc48c71e1cc61871fed9, 0x4ffe5a4c3cc689e64fc69bfffd017564, -2048),
  (0xa6ba3e71e4c67f5af8e5a3f79e8e7e8f, 0xa3fdf0df4bf82c5fe3b842fffc41d2bd, -2046),
  (0xd068ce0e5df81f31b71f0cf586321e33, 0x8cfd6d171ef63777dca653bffb52476c, -2044),
  (0x824180c8fabb137f1273681973df52e0, 0x381e642e7359e2aae9e7f457fd136ca3, -2041),
  (0xa2d1e0fb3969d85ed710421fd0d72798, 0x4625fd3a10305b55a461f16dfc5847cc, -2039),
  (0xcb86593a07c44e768cd452a7c50cf17e, 0x57af7c88943c722b0d7a6dc97b6e59bf, -2037),
  (0xfe67ef8889b5621430096751b6502ddd, 0xed9b5baab94b8eb5d0d9093bda49f02f, -2035),
  (0x9f00f5b556115d4c9e05e09311f21caa, 0xb481194ab3cf3931a287a5c5686e361d, -2032),
  (0xc6c13322ab95b49fc58758b7d66ea3d5, 0x61a15f9d60c3077e0b298f36c289c3a5, -2030),
  (0xf8717feb567b21c7b6e92ee5cc0a4cca, 0xba09b784b8f3c95d8df3f304732c348e, -2028),
  (0x9b46eff3160cf51cd251bd4f9f866ffe, 0xb44612b2f3985dda78b877e2c7fba0d9, -2025),
  (0xc218abefdb90326406e62ca387680bfe, 0x6157975fb07e755116e695db79fa890f, -2023),
  (0xf29ed6ebd2743efd089fb7cc69420efd, 0xf9ad7d379c9e12a55ca03b5258792b53, -2021),
  (0x97a346536388a75e2563d2dfc1c9495e, 0xbc0c6e42c1e2cba759e42513774bbb14, -2018),
  (0xbd8c17e83c6ad135aebcc797b23b9bb6, 0x6b0f89d3725b7e91305d2e58551ea9d9, -2016),
  (0xecef1de24b8585831a6bf97d9eca82a4, 0x05d36c484ef25e357c7479ee6a66544f, -2014),
  (0x941572ad6f337371f0837bee833e91a6, 0x83a423ad31577ae16dc8cc35027ff4b1, -2011),
  (0xb91acf58cb00504e6ca45aea240e3610, 0x248d2c987dad5999c93aff42431ff1de, -2009),
  (0xe761832efdc0646207cd71a4ad11c394, 0x2db077be9d18b0003b89bf12d3e7ee55, -2007),
  (0x909cf1fd5e983ebd44e06706ec2b1a3c, 0x9c8e4ad7222f6e002536176bc470f4f5, -2004),
  (0xb4c42e7cb63e4e6c961880c8a735e0cb, 0xc3b1dd8ceabb49802e839d46b58d3232, -2002),
  (0xe1f53a1be3cde207bb9ea0fad10358fe, 0xb49e54f0256a1be03a24849862f07ebf, -2000),
  (0x8d3944516e60ad44d543249cc2a2179f, 0x30e2f5161762516c2456d2df3dd64f37, -1997),
  (0xb0879565c9f8d8960a93edc3f34a9d86, 0xfd1bb25b9d3ae5c72d6c87970d4be305, -1995),
  (0xdca97abf3c770ebb8d38e934f01d44e8, 0xbc629ef284899f38f8c7a97cd09edbc7, -1993),
  (0x89e9ecb785ca6935384391c116124b11, 0x75bda35792d603839b7cc9ee0263495c, -1990),
  (0xac6467e5673d0382865476315b96ddd5, 0xd32d0c2d778b8464825bfc6982fc1bb3, -1988),
  (0xd77d81dec10c446327e993bdb27c954b, 0x47f84f38d56e657da2f2fb83e3bb22a0, -1986),
  (0x86ae712b38a7aabdf8f1fc568f8ddd4f, 0x0cfb31838564ff6e85d7dd326e54f5a4, -1983),
  (0xa85a0d7606d1956d772e7b6c337154a2, 0xd039fde466be3f4a274dd47f09ea330d, -1981),
  (0xd27090d38885fac8d4fa1a47404da9cb, 0x84487d5d806dcf1cb121499ecc64bfd0, -1979),
  (0x83865a843553bcbd851c506c88308a1f, 0x32ad4e5a7044a171eeb4ce033fbef7e2, -1976),
  (0xa467f12542a8abece6636487aa3caca6, 0xff58a1f10c55c9ce6a6201840faeb5db, -1974),
  (0xcd81ed6e9352d6e81ffc3da994cbd7d0, 0xbf2eca6d4f6b3c4204fa81e5139a6351, -1972),
  (0x807134651c13c65113fda689fcff66e2, 0x777d3e8451a305a9431c912f2c407e13, -1969),
  (0xa08d817e6318b7e558fd102c7c3f409b, 0x155c8e25660bc71393e3b57af7509d97, -1967),
  (0xc8b0e1ddfbdee5deaf3c54379b4f10c1, 0xdab3b1aebf8eb8d878dca2d9b524c4fd, -1965),
  (0xfadd1a557ad69f565b0b69458222d4f2, 0x51609e1a6f72670e9713cb90226df63d, -1963),
  (0x9cca30756cc62395f8e721cb7155c517, 0x72dc62d085a780691e6c5f3a1584b9e6, -1960),
  (0xc3fcbc92c7f7ac7b7720ea3e4dab365d, 0x4f937b84a7116083660777089ae5e85f, -1958),
  (0xf4fbebb779f5979a54e924cde11603f4, 0xa3785a65d0d5b8a43f8954cac19f6277, -1956),
  (0x991d7352ac397ec07511b700acadc278, 0xe62b387fa2859366a7b5d4feb9039d8a, -1953),
  (0xbf64d0275747de70925624c0d7d93317, 0x1fb6069f8b26f84051a34a3e674484ed, -1951),
  (0xef3e04312d19d60cb6ebadf10dcf7fdc, 0xe7a388476df0b650660c1cce0115a629, -1949),
  (0x9586c29ebc3025c7f2534cb6a8a1afea, 0x10c6352ca4b671f23fc79200c0ad87d9, -1946),
  (0xbae873466b3c2f39eee81fe452ca1be4, 0x94f7c277cde40e6ecfb97680f0d8e9d0, -1944),
  (0xe9a29018060b3b086aa227dd677ca2dd, 0xba35b315c15d120a83a7d4212d0f2444, -1942),
  (0x92059a0f03c704e542a558ea60ade5ca, 0x94618fed98da2b469248e494bc2976aa, -1939),
  (0xb6870092c4b8c61e934eaf24f8d95f3d, 0x3979f3e8ff10b61836db1db9eb33d455, -1937),
  (0xe428c0b775e6f7a638225aee370fb70c, 0x87d870e33ed4e39e4491e5286600c96a, -1935),
  (0x8e997872a9b05ac7e31578d4e269d267, 0xd4e7468e07450e42eadb2f393fc07de2, -1932),
  (0xb23fd68f541c7179dbdad70a1b044701, 0xca211831891651d3a591fb078fb09d5b, -1930),
  (0xdecfcc3329238dd852d18ccca1c558c2, 0x3ca95e3deb5be6488ef679c9739cc4b2, -1928),
  (0x8b41df9ff9b638a733c2f7ffe51b5779, 0x65e9dae6b3196fed595a0c1de841faef, -1925),
  (0xae125787f823c6d100b3b5ffde622d57, 0xbf6451a05fdfcbe8afb08f25625279ab, -1923),
  (0xd996ed69f62cb88540e0a37fd5fab8ad, 0xaf3d660877d7bee2db9cb2eebae71815, -1921),
  (0x87fe546239dbf353488c662fe5bcb36c, 0x8d865fc54ae6d74dc941efd534d06f0d, -1918),
  (0xa9fde97ac852f0281aaf7fbbdf2be047, 0xb0e7f7b69da08d213b926bca82048ad1, -1916),
  (0xd47d63d97a67ac32215b5faad6f6d859, 0x9d21f5a44508b0698a7706bd2285ad85, -1914),
  (0x84ce5e67ec80cb9f54d91bcac65a4738, 0x02353986ab256e41f68a643635938c73, -1911),
  (0xa601f601e7a0fe872a0f62bd77f0d906, 0x02c287e855eec9d2742cfd43c2f86f90, -1909),
  (0xcf82738261893e28f4933b6cd5ed0f47, 0x837329e26b6a7c4711383c94b3b68b74, -1907),
  (0x81b188317cf5c6d998dc052405b4298c, 0xb227fa2d83228dac6ac325dcf0521728, -1904),
  (0xa21dea3ddc33388fff13066d072133ef, 0xdeb1f8b8e3eb31178573ef542c669cf2, -1902),
  (0xcaa564cd534006b3fed7c80848e980eb, 0xd65e76e71ce5fd5d66d0eb293780442f, -1900),
  (0xfd4ebe00a8100860fe8dba0a5b23e126, 0xcbf614a0e41f7cb4c08525f38560553b, -1898),
  (0x9e5136c0690a053c9f18944678f66cb8, 0x3f79cce48e93adf0f85337b8335c3545, -1895),
  (0xc5e58470834c868bc6deb958173407e6, 0x4f58401db238996d366805a640334296, -1893),
  (0xf75ee58ca41fa82eb89667ae1d0109df, 0xe32e50251ec6bfc88402070fd040133b, -1891),
  (0x9a9b4f77e693c91d335e00ccd220a62b, 0xedfcf217333c37dd52814469e2280c05, -1888),
  (0xc1422355e038bb648035810006a8cfb6, 0xe97c2e9d000b45d4a72195845ab20f06, -1886),
  (0xf192ac2b5846ea3da042e140085303a4, 0xa3db3a44400e1749d0e9fae5715e92c8, -1884),
  (0x96fbab9b172c52668429ccc80533e246, 0xe669046aa808ce8e22923ccf66db1bbd, -1881),
  (0xbcba9681dcf7670025343ffa0680dad8, 0xa0034585520b0231ab36cc034091e2ac, -1879),
  (0xebe93c22543540c02e814ff88821118e, 0xc80416e6a68dc2be16047f0410b65b57, -1877),
  (0x9371c59574a148781d10d1fb5514aaf9, 0x3d028e50281899b6cdc2cf628a71f916, -1874),
  (0xb84e36fad1c99a962455067a2a59d5b7, 0x8c4331e4321ec0248133833b2d0e775c, -1872),
  (0xe661c4b9863c013bad6a4818b4f04b25, 0x6f53fe5d3ea6702da1806409f8521533, -1870),
  (0x8ffd1af3f3e580c54c626d0f71162ef7, 0x65947efa4728061c84f03e863b334d40, -1867),
  (0xb3fc61b0f0dee0f69f7b08534d5bbab5, 0x3ef99eb8d8f207a3a62c4e27ca002090, -1865),
  (0xe0fb7a1d2d1699344759ca6820b2a962, 0x8eb806670f2e898c8fb761b1bc8028b4, -1863),
  (0x8c9d2c523c2e1fc0ac981e81146fa9dd, 0x99330400697d15f7d9d29d0f15d01970, -1860),
  (0xafc47766cb39a7b0d7be2621598b9454, 0xff7fc50083dc5b75d0474452db441fcd, -1858),
  (0xdbb595407e08119d0dadafa9afee796a, 0x3f5fb640a4d3725344591567921527c0, -1856),
  (0x89517d484ec50b02288c8dca0df50be2, 0x679bd1e8670427740ab7ad60bb4d38d8, -1853),
  (0xaba5dc9a62764dc2b2afb13c91724edb, 0x0182c66280c531510d6598b8ea20870e, -1851),
  (0xd68f53c0fb13e1335f5b9d8bb5cee291, 0xc1e377fb20f67da550befee724a8a8d1, -1849),
  (0x861994589cec6cc01b99427751a14d9b, 0x192e2afcf49a0e8752775f5076e96983, -1846),
  (0xa79ff96ec42787f0227f93152609a101, 0xdf79b5bc31c092292715372494a3c3e3, -1844),
  (0xd187f7ca753169ec2b1f77da6f8c0942, 0x5758232b3e30b6b370da84edb9ccb4dc, -1842),
  (0x82f4fade893ee2339af3aae885b785c9, 0x769715fb06de723026889314941ff10a, -1839),
  (0xa3b239962b8e9ac081b095a2a725673b, 0xd43cdb79c8960ebc302ab7d9b927ed4c, -1837),
  (0xcc9ec7fbb6724170a21cbb0b50eec10a, 0xc94c12583abb926b3c3565d02771e89f, -1835),
  (0xffc679faa40ed1cccaa3e9ce252a714d, 0x7b9f16ee496a77060b42bf44314e62c7, -1833),
  (0x9fdc0c3ca689431ffea67220d73a86d0, 0x6d436e54ede28a63c709b78a9ed0fdbc, -1830),
  (0xc7d30f4bd02b93e7fe500ea90d092884, 0x889449ea295b2cfcb8cc256d46853d2b, -1828),
  (0xf9c7d31ec43678e1fde41253504b72a5, 0xaab95c64b3b1f83be6ff2ec898268c76, -1826),
  (0x9c1ce3f33aa20b8d3eae8b74122f27a7, 0x8ab3d9bef04f3b25705f7d3d5f1817ca, -1823),
  (0xc3241cf0094a8e708e5a2e5116baf191, 0x6d60d02eac6309eecc775c8cb6de1dbc, -1821),
  (0xf3ed242c0b9d320cb1f0b9e55c69adf5, 0xc8b9043a577bcc6a7f9533afe495a52c, -1819),
  (0x9874369b87423f47ef36742f59c20cb9, 0x9d73a2a476ad5fc28fbd404deedd873b, -1816),
  (0xbe9144426912cf19eb04113b30328fe8, 0x04d08b4d9458b7b333ac90616a94e90a, -1814),
  (0xee359553035782e065c51589fc3f33e2, 0x0604ae20f96ee5a00097b479c53a234d, -1812),
  (0x94e17d53e216b1cc3f9b2d763da7806d, 0x43c2ecd49be54f84005ed0cc1b445610, -1809),
  (0xba19dca8da9c5e3f4f81f8d3cd116088, 0x94b3a809c2dea365007684ff22156b94, -1807),
  (0xe8a053d3114375cf23627708c055b8aa, 0xb9e0920c33964c3e4094263eea9ac679, -1805),
  (0x91643463eaca29a1761d8a657835936a, 0xb42c5b47a03defa6e85c97e752a0bc0b, -1802),
  (0xb5bd417ce57cb409d3a4ecfed642f845, 0x61377219884d6b90a273bde12748eb0e, -1800),
  (0xe32c91dc1edbe10c488e283e8bd3b656, 0xb9854e9fea60c674cb10ad59711b25d2, -1798),
  (0x8dfbdb2993496ca7ad58d927176451f6, 0x33f35123f27c7c08feea6c57e6b0f7a3, -1795),
  (0xb17ad1f3f81bc7d198af0f70dd3d6673, 0xc0f0256cef1b9b0b3ea5076de05d358c, -1793),
  (0xddd98670f622b9c5fedad34d148cc010, 0xb12c2ec82ae281ce0e4e4949587482ef, -1791),
  (0x8aa7f40699d5b41bbf48c4102cd7f80a, 0x6ebb9d3d1acd9120c8f0edcdd748d1d5, -1788),
  (0xad51f108404b2122af1af514380df60d, 0x0a6a848c6180f568fb2d29414d1b064b, -1786)]

/-- src/conv/from_str/powers_of_five.rs:304-431 -/
def powersOfFive2_2 : List (Nat × Nat × Int) := [
  (0xd8a66d4a505de96b5ae1b25946117390, 0x4d0525af79e132c339f87391a061c7dd, -1784),
  (0x8768044e723ab1e318cd0f77cbcae83a, 0x3023378dac2cbfba043b483b043d1cea, -1781),
  (0xa94205620ec95e5bdf005355bebda248, 0xbc2c05711737efa8854a1a49c54c6425, -1779),
  (0xd39286ba927bb5f2d6c0682b2e6d0ada, 0xeb3706cd5d05eb92a69ca0dc369f7d2e, -1777),
  (0x843b94349b8d51b7c638411afd0426c8, 0xd30264405a23b33ba821e489a223ae3d, -1774),
  (0xa54a7941c270a625b7c65161bc45307b, 0x07c2fd5070aca00a922a5dac0aac99cc, -1772),
  (0xce9d1792330ccfaf25b7e5ba2b567c99, 0xc9b3bca48cd7c80d36b4f5170d57c03f, -1770),
  (0x81222ebb5fe801cd7792ef945b160de0, 0x1e1055e6d806dd084231192e6856d827, -1767),
  (0xa16aba6a37e20240d577ab7971db9158, 0x25946b608e08944a52bd5f7a026c8e31, -1765),
  (0xc9c56904c5da82d10ad59657ce5275ae, 0x2ef98638b18ab95ce76cb7588307b1be, -1763),
  (0xfc36c345f75123854d8afbedc1e71319, 0xbab7e7c6dded67b42147e52ea3c99e2d, -1761),
  (0x9da23a0bba92b6335076dd7499306bf0, 0x14b2f0dc4ab460d094ccef3d265e02dc, -1758),
  (0xc50ac88ea93763c0249494d1bf7c86ec, 0x19dfad135d617904ba002b0c6ff58393, -1756),
  (0xf64d7ab253853cb02db9ba062f5ba8a7, 0x2057985834b9d745e88035cf8bf2e478, -1754),
  (0x99f06caf743345ee1c941443dd994968, 0x7436bf3720f4268bb15021a1b777cecb, -1751),
  (0xc06c87db51401769a3b91954d4ff9bc2, 0x91446f04e931302e9da42a0a2555c27e, -1749),
  (0xf087a9d225901d440ca75faa0a3f82b3, 0x35958ac6237d7c3a450d348caeab331d, -1747),
  (0x9654ca23577a124a87e89bca4667b1b0, 0x017d76bbd62e6da46b2840d7ed2afff2, -1744),
  (0xbbe9fcac2d5896dd29e2c2bcd8019e1c, 0x01dcd46acbba090d85f2510de875bfef, -1742),
  (0xeae47bd738aebc94745b736c0e0205a3, 0x025409857ea88b50e76ee55162932feb, -1740),
  (0x92cecd66836d35dcc8b9282388c14385, 0xe17485f36f29571290a54f52dd9bfdf2, -1737),
  (0xb78280c024488353fae7722c6af19467, 0x59d1a7704af3acd734cea3279502fd6f, -1735),
  (0xe56320f02d5aa428f9a14eb785adf981, 0x3046114c5db0980d02024bf17a43bccb, -1733),
  (0x8f5df4961c58a6999c04d132b38cbbf0, 0xbe2bcacfba8e5f0821416f76ec6a55ff, -1730),
  (0xb33571bba36ed0400306057f606feaec, 0xedb6bd83a931f6ca2991cb54a784eb7f, -1728),
  (0xe002ce2a8c4a845003c786df388be5a8, 0x29246ce4937e747cb3f63e29d166265e, -1726),
  (0x8c01c0da97ae92b2025cb44b83576f89, 0x19b6c40edc2f08cdf079e6da22dfd7fb, -1723),
  (0xaf0231113d9a375e82f3e15e642d4b6b, 0x60247512933acb016c986090ab97cdfa, -1721),
  (0xdac2bd558d00c53623b0d9b5fd389e46, 0x382d925738097dc1c7be78b4d67dc178, -1719),
  (0x88b9b65578207b41d64e8811be4362eb, 0xe31c7b768305ee991cd70b71060e98eb, -1716),
  (0xaae823ead6289a124be22a162dd43ba6, 0xdbe39a5423c76a3f640cce4d47923f26, -1714),
  (0xd5a22ce58bb2c096dedab49bb9494a90, 0x92dc80e92cb944cf3d1001e09976ceef, -1712),
  (0x85855c0f774fb85e4b48b0e153cdce9a, 0x5bc9d091bbf3cb01862a012c5fea4155, -1709),
  (0xa6e6b3135523a675de1add19a8c14240, 0xf2bc44b62af0bdc1e7b4817777e4d1ab, -1707),
  (0xd0a05fd82a6c901355a1946012f192d1, 0x2f6b55e3b5aced3261a1a1d555de0616, -1705),
  (0x82643be71a83da0c1584fcbc0bd6fbc2, 0xbda315ae518c143f7d05052555aac3cd, -1702),
  (0xa2fd4ae0e124d08f1ae63beb0eccbab3, 0x6d0bdb19e5ef194f5c46466eab1574c1, -1700),
  (0xcbbc9d99196e04b2e19fcae5d27fe960, 0x484ed1e05f6adfa33357d80a55dad1f1, -1698),
  (0xfeabc4ff5fc985df9a07bd9f471fe3b8, 0x5a6286587745978c002dce0ceb51866e, -1696),
  (0x9f2b5b1f9bddf3abc044d6838c73ee53, 0x387d93f74a8b7eb7801ca0c81312f404, -1693),
  (0xc6f631e782d57096b0560c246f90e9e8, 0x069cf8f51d2e5e656023c8fa17d7b105, -1691),
  (0xf8b3be61638accbc5c6b8f2d8b752462, 0x084437326479f5feb82cbb389dcd9d47, -1689),
  (0x9b7056fcde36bff5b9c3397c772936bd, 0x452aa27f7ecc39bf331bf50362a0824c, -1686),
  (0xc24c6cbc15c46ff3283407db94f3846c, 0x96754b1f5e7f482effe2f2443b48a2df, -1684),
  (0xf2df87eb1b358beff24109d27a306587, 0xbc129de7361f1a3abfdbaed54a1acb97, -1682),
  (0x97cbb4f2f1017775f768a6238c5e3f74, 0xd58ba2b081d37064b7e94d454e50bf3e, -1679),
  (0xbdbea22fad41d5537542cfac6f75cf52, 0x0aee8b5ca2484c7de5e3a096a1e4ef0e, -1677),
  (0xed2e4abb98924aa8529383978b534326, 0x8daa2e33cada5f9d5f5c88bc4a5e2ad2, -1675),
  (0x943ceeb53f5b6ea9339c323eb71409f8, 0x188a5ce05ec87bc25b99d575ae7adac3, -1672),
  (0xb94c2a628f324a5380833ece64d90c76, 0x1eacf418767a9ab2f2804ad31a199174, -1670),
  (0xe79f34fb32fedce860a40e81fe0f4f93, 0xa658311e9419415faf205d87e09ff5d1, -1668),
  (0x90c3811cffdf4a113c6689113ec991bc, 0x47f71eb31c8fc8dbcd743a74ec63f9a2, -1665),
  (0xb4f461643fd71c958b802b558e7bf62b, 0x59f4e65fe3b3bb12c0d14912277cf80b, -1663),
  (0xe23179bd4fcce3baee60362af21af3b6, 0x30721ff7dca0a9d771059b56b15c360e, -1661),
  (0x8d5eec1651e00e54d4fc21dad750d851, 0xde4753fae9e46a26a6a381162ed9a1c9, -1658),
  (0xb0b6a71be65811ea0a3b2a518d250e66, 0x55d928f9a45d84b0504c615bba900a3b, -1656),
  (0xdce450e2dfee16648cc9f4e5f06e51ff, 0xeb4f73380d74e5dc645f79b2a9340cca, -1654),
  (0x8a0eb28dcbf4cdfed7fe390fb644f33f, 0xf311a80308690fa9bebbac0fa9c087fe, -1651),
  (0xac925f313ef2017e8dfdc753a3d6300f, 0xefd61203ca8353942e6a97139430a9fd, -1649),
  (0xd7b6f6fd8eae81de317d39288ccbbc13, 0xebcb9684bd2428793a053cd8793cd47d, -1647),
  (0x86d25a5e792d112adeee43b957ff558c, 0x735f3e12f636994bc44346074bc604ce, -1644),
  (0xa886f0f61778557596a9d4a7adff2aef, 0x90370d97b3c43f9eb55417891eb78601, -1642),
  (0xd2a8ad339d566ad2fc5449d1997ef5ab, 0x7444d0fda0b54f8662a91d6b66656782, -1640),
  (0x83a96c40425602c3ddb4ae22ffef598b, 0x28ab029e847151b3fda9b2631fff60b1, -1637),
  (0xa493c75052eb8374d521d9abbfeb2fed, 0xf2d5c346258da620fd141efbe7ff38dd, -1635),
  (0xcdb8b92467a664520a6a5016afe5fbe9, 0x6f8b3417aef10fa93c5926bae1ff0715, -1633),
  (0x809373b6c0c7feb34682720e2defbd71, 0xe5b7008ecd56a9c9c5b7b834cd3f646d, -1630),
  (0xa0b850a470f9fe6018230e91b96bacce, 0x5f24c0b280ac543c3725a642008f3d88, -1628),
  (0xc8e664cd8d387df81e2bd23627c69801, 0xf6edf0df20d7694b44ef0fd280b30cea, -1626),
  (0xfb1ffe00f0869d7625b6c6c3b1b83e02, 0x74a96d16e90d439e162ad3c720dfd025, -1624),
  (0x9cf3fec096542269d7923c3a4f1326c1, 0x88e9e42e51a84a42cddac45c748be217, -1621),
  (0xc430fe70bbe92b044d76cb48e2d7f071, 0xeb245d39e6125cd38151757391aeda9d, -1619),
  (0xf53d3e0ceae375c560d47e1b1b8dec8e, 0x65ed74885f96f40861a5d2d0761a9144, -1617),
  (0x994646c812ce299b5c84ced0f138b3d8, 0xffb468d53bbe58853d07a3c249d09aca, -1614),
  (0xbf97d87a1781b40233a602852d86e0cf, 0x3fa1830a8aadeea68c498cb2dc44c17d, -1612),
  (0xef7dce989d622102c08f832678e89903, 0x0f89e3cd2d596a502f5befdf9355f1dd, -1610),
  (0x95aea11f625d54a1b859b1f80b915fa1, 0xe9b62e603c57e2721d9975ebbc15b72a, -1607),
  (0xbb1a49673af4a9ca26701e760e75b78a, 0x6423b9f84b6ddb0ea4ffd366ab1b24f4, -1605),
  (0xe9e0dbc109b1d43cb00c26139213256c, 0xfd2ca8765e4951d24e3fc84055e1ee31, -1603),
  (0x922c8958a60f24a5ee0797cc3b4bf764, 0x1e3be949faedd32370e7dd2835ad34df, -1600),
  (0xb6b7abaecf92edcf69897dbf4a1ef53d, 0x25cae39c79a947ec4d21d47243188216, -1598),
  (0xe465969a8377a94343ebdd2f1ca6b28c, 0x6f3d9c83981399e7606a498ed3dea29c, -1596),
  (0x8ebf7e20922ac9ca0a736a3d71e82f97, 0xc58681d23f0c40309c426df9446b25a1, -1593),
  (0xb26f5da8b6b57c3c8d1044ccce623b7d, 0xb6e82246cecf503cc35309779585ef0a, -1591),
  (0xdf0b3512e462db4bb054560001faca5d, 0x24a22ad88283244bf427cbd57ae76acd, -1589),
  (0x8b67012bcebdc90f4e34b5c0013cbe7a, 0x36e55ac75191f6af7898df656cd0a2c0, -1586),
  (0xae40c176c26d3b5321c1e330018bee18, 0xc49eb17925f6745b56bf173ec804cb70, -1584),
  (0xd9d0f1d473088a27ea325bfc01eee99e, 0xf5c65dd76f7411722c6edd0e7a05fe4c, -1582),
  (0x88229724c7e55658f25f797d81355203, 0x599bfaa6a5a88ae75bc54a290c43beef, -1579),
  (0xaa2b3cedf9deabef2ef757dce182a684, 0x3002f9504f12ada132b69cb34f54aeab, -1577),
  (0xd4b60c29785656eafab52dd419e35025, 0x3c03b7a462d759097f6443e02329da56, -1575),
  (0x84f1c799eb35f652dcb13ca4902e1217, 0x458252c6bdc697a5ef9eaa6c15fa2876, -1572),
  (0xa62e3980660373e793dd8bcdb439969d, 0x16e2e7786d383d8f6b8655071b78b293, -1570),
  (0xcfb9c7e07f8450e178d4eec12147fc44, 0x5c9ba15688864cf34667ea48e256df38, -1568),
  (0x81d41cec4fb2b28ceb851538b4ccfdaa, 0xb9e144d61553f0180c00f26d8d764b83, -1565),
  (0xa2492427639f5f3026665a86e2003d15, 0x6859960b9aa8ec1e0f012f08f0d3de64, -1563),
  (0xcadb6d313c8736fc2ffff1289a804c5a, 0xc26ffb8e8153272592c17acb2d08d5fd, -1561),
  (0xfd92487d8ba904bb3bffed72c1205f71, 0x730bfa7221a7f0eef771d97df84b0b7c, -1559),
  (0x9e7b6d4e7749a2f5057ff467b8b43ba6, 0xe7e77c875508f6955aa727eebb2ee72d, -1556),
  (0xc61a48a2151c0bb246dff181a6e14a90, 0xa1e15ba92a4b343ab150f1ea69faa0f9, -1554),
  (0xf7a0daca9a630e9ed897ede210999d34, 0xca59b29374de01495da52e6504794937, -1552),
  (0x9ac488bea07de923475ef4ad4a600240, 0xfe780f9c290ac0cdda873cff22cbcdc2, -1549),
  (0xc175aaee489d636c1936b1d89cf802d1, 0x3e161383334d710151290c3eeb7ec133, -1547),
  (0xf1d315a9dac4bc471f845e4ec4360385, 0x8d9b98640020cd41a5734f4ea65e7180, -1545),
  (0x9723ed8a28baf5ac73b2baf13aa1c233, 0x78813f3e801480490768119127fb06f0, -1542),
  (0xbcece8ecb2e9b317909f69ad894a32c0, 0x56a18f0e2019a05b494215f571f9c8ac, -1540),
  (0xec282327dfa41fdd74c74418eb9cbf70, 0x6c49f2d1a82008721b929b72ce783ad7, -1538),
  (0x939915f8ebc693ea68fc8a8f9341f7a6, 0x43ae37c309140547513ba127c10b24c6, -1535),
  (0xb87f5b7726b838e5033bad337812758f, 0xd499c5b3cb590699258a8971b14dedf8, -1533),
  (0xe69f3254f066471e440a9880561712f3, 0xc9c03720be2f483f6eed2bce1da16976, -1531),
  (0x90237f75163fec72ea869f5035ce6bd8, 0x5e18227476dd8d27a5543b60d284e1e9, -1528),
  (0xb42c5f525bcfe78fa5284724434206ce, 0x759e2b119494f0718ea94a3907261a64, -1526),
  (0xe1377726f2c3e1738e7258ed54128882, 0x1305b5d5f9ba2c8df2539cc748efa0fd, -1524),
  (0x8cc2aa7857ba6ce839077794548b9551, 0x4be391a5bc145bd8b77441fc8d95c49e, -1521),
  (0xaff355166da908224749557969ae7aa5, 0x9edc760f2b1972cee551527bb0fb35c5, -1519),
  (0xdbf02a5c09134a2ad91baad7c41a194f, 0x06939392f5dfcf829ea5a71a9d3a0337, -1517),
  (0x89761a7985ac0e5ac7b14ac6da904fd1, 0x641c3c3bd9abe1b1a3278870a2444202, -1514),
  (0xabd3a117e71711f1799d9d78913463c5, 0xbd234b4ad016da1e0bf16a8ccad55283, -1512),
  (0xd6c8895de0dcd66dd80504d6b5817cb7, 0x2c6c1e1d841c90a58eedc52ffd8aa724, -1510),
  (0x863d55daac8a0604a70323063170edf2, 0x7bc392d27291da6779549b3dfe76a876, -1507),
  (0xa7ccab5157ac8785d0c3ebc7bdcd296f, 0x1ab477870f36510157a9c20d7e145294, -1505),
  (0xd1bfd625ad97a96744f4e6b9ad4073ca, 0xe1619568d303e541ad943290dd996739, -1503),
  (0x8317e5d78c7ec9e08b1910340c48485e, 0xccdcfd6183e26f490c7c9f9a8a7fe083, -1500),
  (0xa3dddf4d6f9e7c58addf54410f5a5a76, 0x80143cb9e4db0b1b4f9bc7812d1fd8a4, -1498),
  (0xccd55720cb861b6ed95729515330f114, 0x20194be85e11cde22382b9617867cecd, -1496),
  (0x800556747f33d12547d679d2d3fe96ac, 0x940fcf713acb20ad5631b3dceb40e140, -1493),
  (0xa006ac119f00c56e99cc184788fe3c57, 0xb913c34d897de8d8abbe20d426111990, -1491),
  (0xc808571606c0f6ca403f1e596b3dcb6d, 0xa758b420ebdd630ed6ada9092f955ff5, -1489)]

/-- src/conv/from_str/powers_of_five.rs:432-559 -/
def powersOfFive2_3 : List (Nat × Nat × Int) := [
  (0xfa0a6cdb8871347cd04ee5efc60d3e49, 0x112ee12926d4bbd28c59134b7b7ab7f2, -1487),
  (0x9c4684093546c0ce02314fb5dbc846ed, 0xaabd4cb9b844f56397b7ac0f2d2cb2f7, -1484),
  (0xc358250b8298710182bda3a352ba58a9, 0x156c9fe8265632bc7da59712f877dfb5, -1482),
  (0xf42e2e4e633e8d41e36d0c8c2768eed3, 0x5ac7c7e22febbf6b9d0efcd7b695d7a2, -1480),
  (0x989cdcf0fe0718492e2427d798a19544, 0x18bcdced5df357a342295e06d21da6c5, -1477),
  (0xbec4142d3d88de5b79ad31cd7ec9fa95, 0x1eec1428b5702d8c12b3b58886a51077, -1475),
  (0xee7519388ceb15f258187e40de7c793a, 0x66a71932e2cc38ef1760a2eaa84e5494, -1473),
  (0x95092fc35812edb7770f4ee88b0dcbc4, 0x80286fbfcdbfa3956e9c65d2a930f4dd, -1470),
  (0xba4b7bb42e17a92554d322a2add13eb5, 0xa0328bafc12f8c7aca437f47537d3214, -1468),
  (0xe8de5aa1399d936eaa07eb4b59458e63, 0x083f2e9bb17b6f997cd45f19285c7e99, -1466),
  (0x918af8a4c4027c252a44f30f17cb78fd, 0xe5277d214eed25bfee04bb6fb939cf1f, -1463),
  (0xb5edb6cdf5031b2e74d62fd2ddbe573d, 0x5e715c69a2a86f2fe985ea4ba78842e7, -1461),
  (0xe36924817243e1fa120bbbc7952ded0c, 0xb60db3840b528afbe3e764de916a53a1, -1459),
  (0x8e21b6d0e76a6d3c4b47555cbd3cb427, 0xf1c89032871396dd6e709f0b1ae27445, -1456),
  (0xb1aa24852145088b5e192ab3ec8be131, 0xee3ab43f28d87c94ca0cc6cde19b1156, -1454),
  (0xde14ada669964aae359f7560e7aed97e, 0x69c9614ef30e9bb9fc8ff8815a01d5ac, -1452),
  (0x8accec8801fdeeace183a95c90cd47ef, 0x021ddcd157e921543dd9fb50d841258b, -1449),
  (0xad8027aa027d6a5819e493b3b50099ea, 0xc2a55405ade369a94d507a250e516eee, -1447),
  (0xd8e03194831cc4ee205db8a0a240c065, 0x734ea907195c4413a0a498ae51e5caa9, -1445),
  (0x878c1efcd1f1fb14d43a93646568783f, 0x681129a46fd9aa8c4466df6cf32f9eaa, -1442),
  (0xa96f26bc066e79da0949383d7ec2964f, 0x4215740d8bd0152f558097482ffb8654, -1440),
  (0xd3caf06b080a18508b9b864cde733be3, 0x129ad110eec41a7b2ae0bd1a3bfa67e9, -1438),
  (0x845ed642e5064f32574133f00b08056d, 0xeba0c2aa953a908cfacc7630657c80f2, -1435),
  (0xa5768bd39e47e2feed1180ec0dca06c9, 0x6688f3553a8934b0397f93bc7edba12e, -1433),
  (0xced42ec885d9dbbea855e127113c887b, 0xc02b302a892b81dc47df78ab9e92897a, -1431),
  (0x81449d3d53a829572935acb86ac5d54d, 0x581afe1a95bb3129acebab6b431b95ec, -1428),
  (0xa195c48ca89233acf38317e685774aa0, 0xae21bda13b29fd741826964613e27b67, -1426),
  (0xc9fb35afd2b6c0983063dde026d51d48, 0xd9aa2d0989f47cd11e303bd798db1a41, -1424),
  (0xfc7a031bc76470be3c7cd558308a649b, 0x1014b84bec719c0565bc4acd7f11e0d2, -1422),
  (0x9dcc41f15c9ec676e5ce05571e567ee0, 0xea0cf32f73c701835f95aec06f6b2c83, -1419),
  (0xc53f526db3c678149f4186ace5ec1e99, 0x24902ffb50b8c1e4377b1a708b45f7a4, -1417),
  (0xf68f270920b81619c711e8581f67263f, 0x6db43bfa24e6f25d4559e10cae17758d, -1415),
  (0x9a197865b4730dd01c6b313713a077e7, 0xa490a57c5710577a4b582ca7eccea978, -1412),
  (0xc09fd67f218fd1442385fd84d88895e1, 0x8db4cedb6cd46d58de2e37d1e80253d6, -1410),
  (0xf0c7cc1ee9f3c5952c677ce60eaabb59, 0xf1220292480988af15b9c5c66202e8cb, -1408),
  (0x967cdf9352385b7d3bc0ae0fc92ab518, 0x36b5419b6d05f56d6d941b9bfd41d17f, -1405),
  (0xbc1c177826c6725c8ab0d993bb75625e, 0x44629202484772c8c8f92282fc9245df, -1403),
  (0xeb231d5630780ef3ad5d0ff8aa52baf5, 0xd57b3682da594f7afb376b23bbb6d757, -1401),
  (0x92f5f255de4b09584c5a29fb6a73b4d9, 0xa56d0211c877d1acdd02a2f655524696, -1398),
  (0xb7b36eeb55ddcbae5f70b47a4510a210, 0x0ec842963a95c61814434bb3eaa6d83b, -1396),
  (0xe5a04aa62b553e99f74ce198d654ca94, 0x127a533bc93b379e19541ea0e5508e4a, -1394),
  (0x8f842ea7db1547203a900cff85f4fe9c, 0x8b8c74055dc502c2cfd493248f5258ee, -1391),
  (0xb3653a51d1da98e84934103f67723e43, 0xae6f9106b536437383c9b7edb326ef2a, -1389),
  (0xe03e88e646513f225b81144f414ecdd4, 0x9a0b75486283d45064bc25e91ff0aaf5, -1387),
  (0x8c27158febf2c7757930acb188d140a4, 0xe047294d3d9264b23ef597b1b3f66ad9, -1384),
  (0xaf30daf3e6ef7952d77cd7ddeb0590ce, 0x1858f3a08cf6fddeceb2fd9e20f4058f, -1382),
  (0xdafd11b0e0ab57a78d5c0dd565c6f501, 0x9e6f3088b034bd56825fbd05a93106f3, -1380),
  (0x88de2b0e8c6b16c8b85988a55f9c5921, 0x03057e556e20f656117bd62389bea458, -1377),
  (0xab15b5d22f85dc7ae66feaceb7836f69, 0x43c6ddeac9a933eb95dacbac6c2e4d6e, -1375),
  (0xd5db2346bb675399a00be58265644b43, 0x94b895657c1380e67b517e978739e0c9, -1373),
  (0x85a8f60c3520944004076f717f5eaf0a, 0x3cf35d5f6d8c30900d12ef1eb4842c7e, -1370),
  (0xa713338f4268b95005094b4ddf365acc, 0xcc3034b748ef3cb41057aae661a5379d, -1368),
  (0xd0d800731302e7a4064b9e215703f17f, 0xff3c41e51b2b0be1146d959ffa0e8585, -1366),
  (0x82870047ebe1d0c683ef42d4d66276ef, 0xff85a92f30fae76cacc47d83fc491373, -1363),
  (0xa328c059e6da44f824eb138a0bfb14ab, 0xff67137afd39a147d7f59ce4fb5b584f, -1361),
  (0xcbf2f0706090d6362e25d86c8ef9d9d6, 0xff40d859bc880999cdf3041e3a322e63, -1359),
  (0xfeefac8c78b50bc3b9af4e87b2b8504c, 0xbf110e702baa0c00416fc525c8beb9fc, -1357),
  (0x9f55cbd7cb71275a540d9114cfb3322f, 0xf76aa9061b4a478028e5db379d77343e, -1354),
  (0xc72b3ecdbe4d7130e910f55a039ffebb, 0xf5455347a21cd960331f520584d5014d, -1352),
  (0xf8f60e812de0cd7d235532b08487fe6a, 0xf296a8198aa40fb83fe72686e60a41a0, -1350),
  (0x9b99c910bcac806e36153fae52d4ff02, 0xd79e290ff6a689d327f078144fc66904, -1347),
  (0xc2803b54ebd7a089c39a8f99e78a3ec3, 0x8d85b353f4502c47f1ec961963b80345, -1345),
  (0xf3204a2a26cd88ac34813380616cce74, 0x70e72028f1643759ee67bb9fbca60417, -1343),
  (0x97f42e5a5840756ba0d0c0303ce40108, 0xc690741996dea2983500d543d5e7c28e, -1340),
  (0xbdf139f0ee5092c68904f03c4c1d014a, 0xf834911ffc964b3e42410a94cb61b332, -1338),
  (0xed6d886d29e4b7782b462c4b5f24419d, 0xb641b567fbbbde0dd2d14d39fe3a1ffe, -1336),
  (0x946475443a2ef2ab1b0bdbaf1b76a902, 0x91e91160fd556ac8a3c2d0443ee453ff, -1333),
  (0xb97d929548baaf55e1ced29ae2545343, 0x366355b93caac57accb384554e9d68fe, -1331),
  (0xe7dcf73a9ae95b2b5a4287419ae96814, 0x03fc2b278bd576d97fe0656aa244c33e, -1329),
  (0x90ea1a84a0d1d8fb1869948900d1e10c, 0x827d9af8b7656a47efec3f62a56afa07, -1326),
  (0xb524a125c9064f39de83f9ab4106594f, 0xa31d01b6e53ec4d9ebe74f3b4ec5b888, -1324),
  (0xe26dc96f3b47e3085624f8161147efa3, 0x8be442249e8e761066e1230a227726ab, -1322),
  (0x8d849de5850cede535d71b0dcaccf5c6, 0x376ea956e31909ca404cb5e6558a782b, -1319),
  (0xb0e5c55ee650295e834ce1d13d803337, 0xc54a53ac9bdf4c3cd05fe35feaed1635, -1317),
  (0xdd1f36b69fe433b624201a458ce04005, 0xb69ce897c2d71f4c0477dc37e5a85bc3, -1315),
  (0x8a33823223eea051d694106b780c2803, 0x9222115ed9c6738f82cae9a2ef89395a, -1312),
  (0xacc062beacea48664c391486560f3204, 0x76aa95b690381073637da40bab6b87b0, -1310),
  (0xd7f07b6e5824da7fdf4759a7eb92fe85, 0x94553b24344614903c5d0d0e9646699c, -1308),
  (0x86f64d24f717088feb8c9808f33bdf13, 0x7cb544f6a0abccda25ba28291dec0201, -1305),
  (0xa8b3e06e34dccab3e66fbe0b300ad6d8, 0x5be2963448d6c010af28b23365670282, -1303),
  (0xd2e0d889c213fd60e00bad8dfc0d8c8e, 0x72db3bc15b0c7014daf2dec03ec0c322, -1301),
  (0x83cc8756194c7e5c8c074c78bd8877d9, 0x07c90558d8e7c60d08d7cb38273879f5, -1298),
  (0xa4bfa92b9f9f9df3af091f96ecea95cf, 0x49bb46af0f21b7904b0dbe0631069873, -1296),
  (0xcdef9376878785709acb677ca8253b43, 0x1c2a185ad2ea25745dd12d87bd483e90, -1294),
  (0x80b5bc2a14b4b36660bf20ade9174509, 0xf19a4f38c3d25768baa2bc74d64d271a, -1291),
  (0xa0e32b3499e1e03ff8eee8d9635d164c, 0x6e00e306f4c6ed42e94b6b920be070e0, -1289),
  (0xc91bf601c05a584ff72aa30fbc345bdf, 0x89811bc8b1f8a893a39e46768ed88d18, -1287),
  (0xfb62f3823070ee63f4f54bd3ab4172d7, 0x6be162bade76d2b88c85d814328eb05e, -1285),
  (0x9d1dd8315e4694fe79194f644b08e7c6, 0xa36cddb4cb0a43b357d3a70c9f992e3b, -1282),
  (0xc4654e3db5d83a3e175fa33d5dcb21b8, 0x4c481521fdccd4a02dc890cfc77f79ca, -1280),
  (0xf57ea1cd234e48cd9d378c0cb53dea26, 0x5f5a1a6a7d4009c8393ab503b95f583c, -1278),
  (0x996f25203610ed808242b787f146b257, 0xfb9850828e48061d23c4b12253db9725, -1275),
  (0xbfcaee68439528e0a2d36569ed985eed, 0xfa7e64a331da07a46cb5dd6ae8d27cef, -1273),
  (0xefbdaa02547a7318cb883ec468fe76a9, 0x791dfdcbfe50898d87e354c5a3071c2b, -1271),
  (0x95d68a4174cc87ef7f35273ac19f0a29, 0xebb2be9f7ef255f874ee14fb85e4719b, -1268),
  (0xbb4c2cd1d1ffa9eb5f0271097206ccb4, 0x669f6e475eaeeb7692299a3a675d8e01, -1266),
  (0xea1f3806467f946636c30d4bce887fe1, 0x804749d9365aa65436b400c90134f182, -1264),
  (0x92538303ec0fbcbfe239e84f61154fec, 0xf02c8e27c1f8a7f4a230807da0c116f1, -1261),
  (0xb6e863c4e713abefdac86263395aa3e8, 0x2c37b1b1b276d1f1cabca09d08f15cad, -1259),
  (0xe4a27cb620d896ebd17a7afc07b14ce2, 0x37459e1e1f14866e3d6bc8c44b2db3d9, -1257),
  (0x8ee58df1d4875e5362ec8cdd84ced00d, 0x628b82d2d36cd404e6635d7aaefc9067, -1254),
  (0xb29ef16e49a935e83ba7b014e6028410, 0xbb2e6387884809061ffc34d95abbb481, -1252),
  (0xdf46adc9dc1383624a919c1a1f832514, 0xe9f9fc696a5a0b47a7fb420fb16aa1a2, -1250),
  (0x8b8c2c9e298c321d6e9b019053b1f72d, 0x123c3dc1e278470cc8fd0949cee2a505, -1247),
  (0xae6f37c5b3ef3ea4ca41c1f4689e74f8, 0x56cb4d325b1658cffb3c4b9c429b4e46, -1245),
  (0xda0b05b720eb0e4dfcd2327182c61236, 0x6c7e207ef1dbef03fa0b5e83534221d8, -1243),
  (0x8846e3927492e8f0be035f86f1bbcb62, 0x03ced44f572975627c471b1214095527, -1240),
  (0xaa589c7711b7a32ced843768ae2abe3a, 0x84c289632cf3d2bb1b58e1d6990baa71, -1238),
  (0xd4eec394d6258bf828e54542d9b56dc9, 0x25f32bbbf830c769e22f1a4c3f4e950d, -1236),
  (0x85153a3d05d7777b198f4b49c811649d, 0xb7b7fb557b1e7ca22d5d706fa7911d28, -1233),
  (0xa65a88cc474d5559dff31e1c3a15bdc5, 0x25a5fa2ad9e61bcab8b4cc8b91756472, -1231),
  (0xcff12aff5920aab057efe5a3489b2d36, 0x6f0f78b5905fa2bd66e1ffae75d2bd8e, -1229),
  (0x81f6badf97b46aae36f5ef860d60fc42, 0x0569ab717a3bc5b6604d3fcd09a3b679, -1226),
  (0xa27469977da18559c4b36b6790b93b52, 0x86c4164dd8cab723f8608fc04c0ca417, -1224),
  (0xcb1183fd5d09e6b035e0464174e78a27, 0x28751be14efd64ecf678b3b05f0fcd1d, -1222),
  (0xfdd5e4fcb44c605c435857d1d2216cb0, 0xf29262d9a2bcbe283416e09c76d3c065, -1220),
  (0x9ea5af1df0afbc39aa1736e32354e3ee, 0x979b7dc805b5f6d9208e4c61ca44583f, -1217),
  (0xc64f1ae56cdbab48149d049bec2a1cea, 0x3d825d3a0723748f68b1df7a3cd56e4e, -1215),
  (0xf7e2e19ec812961a19c445c2e734a424, 0xcce2f48888ec51b342de5758cc0ac9e2, -1213),
  (0x9aedcd033d0b9dd0501aab99d080e697, 0x000dd8d55593b31009caf6977f86be2d, -1210),
  (0xc1a940440c4e85446421568044a1203c, 0xc0114f0aaaf89fd40c3db43d5f686db9, -1208),
  (0xf21390550f6226957d29ac2055c9684b, 0xf015a2cd55b6c7c90f4d214cb7428927, -1206),
  (0x974c3a35299d581d6e3a0b94359de12f, 0x760d85c055923cdda99034cff28995b8, -1203),
  (0xbd1f48c27404ae24c9c88e794305597b, 0x5390e7306af6cc1513f44203ef2bfb26, -1201),
  (0xec671af31105d9adfc3ab21793c6afda, 0x287520fc85b47f1a58f15284eaf6f9f0, -1199),
  (0x93c070d7eaa3a80cbda4af4ebc5c2de8, 0x5949349dd390cf707796d39312da5c36, -1196),
  (0xb8b08d0de54c920fed0ddb226b733962, 0x6f9b81c54875034c957c8877d790f343, -1194),
  (0xe6dcb0515e9fb693e85151eb065007bb, 0x0b8262369a92441fbadbaa95cd753014, -1192)]

/-- src/conv/from_str/powers_of_five.rs:560-687 -/
def powersOfFive2_4 : List (Nat × Nat × Int) := [
  (0x9049ee32db23d21c7132d332e3f204d4, 0xe7317d62209b6a93d4c94a9da0693e0c, -1189),
  (0xb45c69bf91ecc6a38d7f87ff9cee860a, 0x20fddcbaa8c24538c9fb9d4508838d90, -1187),
  (0xe173842f7667f84c70df69ff842a278c, 0xa93d53e952f2d686fc7a84964aa470f4, -1185),
  (0x8ce8329daa00fb2fc68ba23fb29a58b7, 0xe9c65471d3d7c6145dcc92ddeea6c698, -1182),
  (0xb0223f45148139fbb82e8acf9f40eee5, 0xe437e98e48cdb799753fb7956a50783e, -1180),
  (0xdc2acf1659a1887aa63a2d8387112a9f, 0x5d45e3f1db01257fd28fa57ac4e4964e, -1178),
  (0x899ac16df804f54ca7e45c72346abaa3, 0x9a4bae7728e0b76fe399c76cbb0eddf1, -1175),
  (0xac0171c97606329fd1dd738ec185694c, 0x80de9a14f318e54bdc803947e9d2956d, -1173),
  (0xd701ce3bd387bf47c654d07271e6c39f, 0xa116409a2fdf1e9ed3a04799e4473ac8, -1171),
  (0x866120e56434d78cdbf5024787303a43, 0xc4ade8605deb732344442cc02eac84bd, -1168),
  (0xa7f9691ebd420d7012f242d968fc48d4, 0xb5d9627875664fec155537f03a57a5ec, -1166),
  (0xd1f7c3666c9290cc17aed38fc33b5b09, 0xe34fbb1692bfe3e71aaa85ec48ed8f68, -1164),
  (0x833ada2003db9a7f8ecd4439da0518e6, 0x2e11d4ee1bb7ee7070aa93b3ad9479a1, -1161),
  (0xa40990a804d2811f7280954850865f1f, 0xb9964a29a2a5ea0c8cd538a098f99809, -1159),
  (0xcd0bf4d2060721674f20ba9a64a7f6e7, 0xa7fbdcb40b4f648fb00a86c8bf37fe0b, -1157),
  (0x8027790343c474e0917474a07ee8fa50, 0xc8fd69f087119ed9ce06943d7782fec7, -1154),
  (0xa031574414b59218b5d191c89ea338e4, 0xfb3cc46ca8d606904188394cd563be79, -1152),
  (0xc83dad1519e2f69ee345f63ac64c071e, 0x3a0bf587d30b883451ea47a00abcae17, -1150),
  (0xfa4d185a605bb4469c1773c977df08e5, 0xc88ef2e9c7ce6a416664d9880d6bd99d, -1148),
  (0x9c702f387c3950ac218ea85deaeb658f, 0x9d5957d21ce10268dfff07f508636802, -1145),
  (0xc38c3b069b47a4d729f2527565a63ef3, 0x84afadc6a419430317fec9f24a7c4202, -1143),
  (0xf46f49c842198e0cf46ee712bf0fceb0, 0x65db99384d1f93c3ddfe7c6edd1b5283, -1141),
  (0x98c58e1d294ff8c818c5506bb769e12e, 0x3fa93fc33033bc5a6abf0dc54a311392, -1138),
  (0xbef6f1a473a3f6fa1ef6a486a5445979, 0xcf938fb3fc40ab71056ed1369cbd5876, -1136),
  (0xeeb4ae0d908cf4b8a6b44da84e956fd8, 0x437873a0fb50d64d46ca858443ecae94, -1134),
  (0x9530ecc87a5818f36830b089311d65e7, 0x2a2b48449d1285f04c3e9372aa73ed1c, -1131),
  (0xba7d27fa98ee1f30423cdcab7d64bf60, 0xf4b61a55c457276c5f4e384f5510e863, -1129),
  (0xe91c71f93f29a6fc52cc13d65cbdef39, 0x31e3a0eb356cf1477721c6632a55227c, -1127),
  (0x91b1c73bc77a085db3bf8c65f9f6b583, 0xbf2e4493016416ccaa751bfdfa75358e, -1124),
  (0xb61e390ab9588a7520af6f7f787462e4, 0xaef9d5b7c1bd1c7fd51262fd791282f1, -1122),
  (0xe3a5c74d67aead1268db4b5f56917b9d, 0xdab84b25b22c639fca56fbbcd75723ad, -1120),
  (0x8e479c9060cd2c2b81890f1b961aed42, 0xa8b32ef78f5bbe43de765d560696764c, -1117),
  (0xb1d983b47900773661eb52e27ba1a893, 0x52dffab57332add4d613f4ab883c13df, -1115),
  (0xde4fe4a197409503fa66279b1a8a12b8, 0x2797f962cfff594a0b98f1d66a4b18d7, -1113),
  (0x8af1eee4fe885d227c7fd8c0f0964bb3, 0x18befbddc1ff97ce473f9726026eef86, -1110),
  (0xadae6a9e3e2a746b1b9fcef12cbbde9f, 0xdeeebad5327f7dc1d90f7cef830aab68, -1108),
  (0xd91a0545cdb51185e287c2ad77ead647, 0xd6aa698a7f1f5d324f535c2b63cd5642, -1106),
  (0x87b0434ba0912af3ad94d9ac6af2c5ec, 0xe62a81f68f739a3f7194199b1e6055e9, -1103),
  (0xa99c541e88b575b098fa101785af7768, 0x1fb52274335080cf4df92001e5f86b64, -1101),
  (0xd40369262ae2d31cbf38941d671b5542, 0x27a26b114024a103217768025f76863d, -1099),
  (0x848221b7dacdc3f1f7835c9260711549, 0x58c582eac816e4a1f4eaa1017baa13e6, -1096),
  (0xa5a2aa25d18134ee756433b6f88d5a9b, 0xaef6e3a57a1c9dca72254941da9498df, -1094),
  (0xcf0b54af45e1822a12bd40a4b6b0b142, 0x9ab49c8ed8a3c53d0eae9b925139bf17, -1092),
  (0x816714ed8bacf15a4bb64866f22e6ec9, 0xa0b0e1d947665b46292d213b72c4176e, -1089),
  (0xa1c0da28ee982db0dea3da80aeba0a7c, 0x08dd1a4f993ff217b378698a4f751d4a, -1087),
  (0xca3110b32a3e391d164cd120da688d1b, 0x0b1460e37f8fee9da05683ece352649d, -1085),
  (0xfcbd54dff4cdc7645be005691102b061, 0xcdd9791c5f73ea45086c24e81c26fdc4, -1083),
  (0x9df6550bf9009c9eb96c0361aaa1ae3d, 0x20a7ebb1bba8726b2543971111985e9a, -1080),
  (0xc573ea4ef740c3c667c7043a154a19cc, 0x68d1e69e2a928f05ee947cd555fe7641, -1078),
  (0xf6d0e4e2b510f4b801b8c5489a9ca03f, 0x83066045b53732c76a399c0aab7e13d1, -1076),
  (0x9a428f0db12a98f301137b4d60a1e427, 0xb1e3fc2b91427fbca2640186ab2ecc63, -1073),
  (0xc0d332d11d753f2fc1585a20b8ca5d31, 0x9e5cfb3675931fabcafd01e855fa7f7c, -1071),
  (0xf107ff8564d28efbb1ae70a8e6fcf47e, 0x05f43a0412f7e796bdbc42626b791f5b, -1069),
  (0x96a4ffb35f03995d4f0d0669905e18ce, 0xc3b8a4428bdaf0be3695a97d832bb398, -1066),
  (0xbc4e3fa036c47fb4a2d04803f4759f02, 0x74a6cd532ed1acedc43b13dce3f6a07f, -1064),
  (0xeb61cf8844759fa1cb845a04f19306c3, 0x11d080a7fa8618293549d8d41cf4489e, -1062),
  (0x931d21b52ac983c51f32b84316fbe439, 0xeb225068fc93cf19c14e27849218ad63, -1059),
  (0xb7e46a22757be4b666ff6653dcbadd48, 0x65eae4833bb8c2e031a1b165b69ed8bc, -1057),
  (0xe5dd84ab12dadde400bf3fe8d3e9949a, 0x7f659da40aa6f3983e0a1dbf24468eeb, -1055),
  (0x8faa72eaebc8caae807787f18471fce0, 0x8f9f828686a8583f26c6529776ac1953, -1052),
  (0xb3950fa5a6bafd5a209569ede58e7c18, 0xb387632828526e4ef077e73d54571fa7, -1050),
  (0xe07a538f1069bcb0a8bac4695ef21b1e, 0xe0693bf2326709e2ac95e10ca96ce791, -1048),
  (0x8c4c74396a4215ee6974bac1db5750f3, 0x4c41c5775f80662dabddaca7e9e410bb, -1045),
  (0xaf5f9147c4d29b6a03d1e972522d2530, 0x1f5236d537607fb916d517d1e45d14e9, -1043),
  (0xdb377599b607424484c663cee6b86e7c, 0x2726c48a85389fa75c8a5dc65d745a24, -1041),
  (0x8902a98011c4896ad2fbfe615033450d, 0x98783ad6934363c899d67a9bfa68b856, -1038),
  (0xab4353e01635abc587bafdf9a4401650, 0xfe96498c38143cbac04c1942f902e66c, -1036),
  (0xd61428d81bc316b6e9a9bd780d501be5, 0x3e3bdbef46194be9705f1f93b743a007, -1034),
  (0x85cc99871159ee32520a166b0852116f, 0x46e569758bcfcf71e63b73bc528a4404, -1031),
  (0xa73fbfe8d5b069bee68c9c05ca6695cb, 0x189ec3d2eec3c34e5fca50ab672cd505, -1029),
  (0xd10fafe30b1c842ea02fc3073d003b3d, 0xdec674c7aa74b421f7bce4d640f80a47, -1027),
  (0x82a9cdede6f1d29d241dd9e486202506, 0xab3c08fcca88f0953ad60f05e89b066c, -1024),
  (0xa354416960ae47446d25505da7a82e48, 0x560b0b3bfd2b2cba898b92c762c1c807, -1022),
  (0xcc2951c3b8d9d915886ea475119239da, 0x6b8dce0afc75f7e92bee77793b723a09, -1020),
  (0xff33a634a7104f5aea8a4d9255f6c851, 0x0671418dbb9375e376ea15578a4ec88b, -1018),
  (0x9f8047e0e86a3198d296707b75ba3d32, 0xa406c8f8953c29ae2a524d56b6713d57, -1015),
  (0xc76059d92284bdff073c0c9a5328cc7f, 0x4d087b36ba8b3419b4e6e0ac640d8cad, -1013),
  (0xf938704f6b25ed7ec90b0fc0e7f2ff9f, 0x204a9a04692e0120222098d77d10efd8, -1011),
  (0x9bc34631a2f7b46f3da6e9d890f7dfc3, 0x742ea042c1bcc0b415545f86ae2a95e7, -1008),
  (0xc2b417be0bb5a18b0d10a44eb535d7b4, 0x513a4853722bf0e11aa9776859b53b61, -1006),
  (0xf3611dad8ea309edd054cd6262834da1, 0x6588da684eb6ed196153d54270228a39, -1004),
  (0x981cb28c7925e634a235005d7d921084, 0xdf7588813132542fdcd4654986159664, -1001),
  (0xbe23df2f976f5fc1cac24074dcf694a6, 0x1752eaa17d7ee93bd4097e9be79afbfd, -999),
  (0xedacd6fb7d4b37b23d72d092143439cf, 0x9d27a549dcdea38ac90bde42e181bafc, -997),
  (0x948c065d2e4f02cf6667c25b4ca0a421, 0xc238c74e2a0b2636bda76ae9ccf114dd, -994),
  (0xb9af07f479e2c3834001b2f21fc8cd2a, 0x32c6f921b48defc46d1145a4402d5a15, -992),
  (0xe81ac9f1985b746410021faea7bb0074, 0xbf78b76a21b16bb58855970d5038b09a, -990),
  (0x9110be36ff3928be8a0153cd28d4e048, 0xf7ab72a2550ee35175357e6852236e60, -987),
  (0xb554edc4bf0772ee2c81a8c0730a185b, 0x35964f4aea529c25d282de0266ac49f8, -985),
  (0xe2aa2935eec94fa9b7a212f08fcc9e72, 0x02fbe31da4e7432f4723958300575c76, -983),
  (0x8daa59c1b53dd1ca12c54bd659dfe307, 0x41dd6df2871089fd8c763d71e03699ca, -980),
  (0xb114f032228d463c97769ecbf057dbc9, 0x1254c96f28d4ac7cef93ccce5844403c, -978),
  (0xdd5a2c3eab3097cbbd54467eec6dd2bb, 0x56e9fbcaf309d79c2b78c001ee55504b, -976),
  (0x8a585ba72afe5edf5654ac0f53c4a3b5, 0x16523d5ed7e626c19b2b780134f5522f, -973),
  (0xacee7290f5bdf6972be9d71328b5cca2, 0x5be6ccb68ddfb07201f656018232a6bb, -971),
  (0xd82a0f35332d743cf6e44cd7f2e33fca, 0xf2e07fe431579c8e8273eb81e2bf506a, -969),
  (0x871a49813ffc68a61a4eb006f7ce07de, 0xd7cc4fee9ed6c1d9118873312db79242, -966),
  (0xa8e0dbe18ffb82cfa0e25c08b5c189d6, 0x8dbf63ea468c724f55ea8ffd792576d2, -964),
  (0xd31912d9f3fa6383891af30ae331ec4c, 0x312f3ce4d82f8ee32b6533fcd76ed487, -962),
  (0x83efabc8387c7e3235b0d7e6cdff33af, 0x9ebd860f071db94dfb1f407e06a544d4, -959),
  (0xa4eb96ba469b9dbec31d0de0817f009b, 0x866ce792c8e527a179e7109d884e960a, -957),
  (0xce267c68d842852e73e45158a1dec0c2, 0x680821777b1e7189d860d4c4ea623b8c, -955),
  (0x80d80dc18729933d086eb2d7652b3879, 0x810514eaacf306f6273c84fb127d6537, -952),
  (0xa10e1131e8f3f80c4a8a5f8d3e760697, 0xe1465a25582fc8b3b10ba639d71cbe85, -950),
  (0xc951957e6330f60f5d2cf7708e13883d, 0xd997f0aeae3bbae09d4e8fc84ce3ee27, -948),
  (0xfba5faddfbfd33933478354cb1986a4d, 0x4ffdecda59caa998c4a233ba601ce9b1, -946),
  (0x9d47bccabd7e403c00cb214feeff4270, 0x51feb408781ea9ff7ae560547c12120e, -943),
  (0xc499abfd6cddd04b00fde9a3eabf130c, 0x667e610a9626547f599eb8699b169692, -941),
  (0xf5c016fcc815445dc13d640ce56ed7cf, 0x801df94d3bafe99f3006668401dc3c36, -939),
  (0x99980e5dfd0d4aba98c65e880f6546e1, 0xb012bbd0454df2037e0400128129a5a2, -936),
  (0xbffe11f57c509d693ef7f62a133e989a, 0x1c176ac456a16e845d85001721740f0a, -934),
  (0xeffd9672db64c4c38eb5f3b4980e3ec0, 0xa31d45756c49ca2574e6401ce9d112cd, -932),
  (0x95fe7e07c91efafa3931b850df08e738, 0x65f24b6963ae1e57690fe8121222abc0, -929),
  (0xbb7e1d89bb66b9b8c77e266516cb2106, 0x7f6ede43bc99a5ed4353e21696ab56b0, -927),
  (0xea5da4ec2a406826f95daffe5c7de948, 0x1f4a95d4abc00f689428da9c3c562c5c, -925),
  (0x927a87139a6841185bda8dfef9ceb1cd, 0x138e9da4eb5809a15c9988a1a5b5dbb9, -922),
  (0xb71928d88102515e72d1317eb8425e40, 0x5872450e262e0c09b3bfeaca0f2352a8, -920),
  (0xe4df730ea142e5b60f857dde6652f5d0, 0x6e8ed651afb98f0c20afe57c92ec2752, -918),
  (0x8f0ba7e924c9cf91c9b36eaafff3d9a2, 0x451945f30dd3f967946def6ddbd39893, -915),
  (0xb2ce91e36dfc43763c204a55bff0d00a, 0xd65f976fd148f7c179896b4952c87eb8, -913),
  (0xdf82365c497b5453cb285ceb2fed040d, 0x8bf77d4bc59b35b1d7ebc61ba77a9e66, -911),
  (0x8bb161f9aded14b45ef93a12fdf42288, 0x777aae4f5b81018f26f35bd148aca300, -908),
  (0xae9dba78196859e176b78897bd712b2a, 0x955959e3326141f2f0b032c59ad7cbc0, -906),
  (0xda4529161fc27059d4656abdaccd75f5, 0x3aafb05bfef9926facdc3f77018dbeb0, -904),
  (0x886b39add3d9863824bf62b68c0069b9, 0x44adce397f5bfb85cc09a7aa60f8972e, -901),
  (0xaa86081948cfe7c62def3b642f008427, 0x95d941c7df32fa673f0c1194f936bcf9, -899),
  (0xd5278a1f9b03e1b7b96b0a3d3ac0a531, 0x7b4f9239d6ffb9010ecf15fa37846c38, -897),
  (0x8538b653c0e26d12d3e2e66644b8673e, 0xed11bb64265fd3a0a9416dbc62b2c3a3, -894)]

/-- src/conv/from_str/powers_of_five.rs:688-815 -/
def powersOfFive2_5 : List (Nat × Nat × Int) := [
  (0xa686e3e8b11b085788db9fffd5e6810e, 0xa8562a3d2ff7c888d391c92b7b5f748b, -892),
  (0xd0289ce2dd61ca6d6b1287ffcb602152, 0x526bb4cc7bf5baab08763b765a3751ae, -890),
  (0x8219620dca5d1e8462eb94ffdf1c14d3, 0x738350ffcd7994aae549e529f862930d, -887),
  (0xa29fba913cf466257ba67a3fd6e31a08, 0x5064253fc0d7f9d59e9c5e74767b37d0, -885),
  (0xcb47a9358c317faeda9018cfcc9be08a, 0x647d2e8fb10df84b06437611941a05c4, -883),
  (0xfe199382ef3ddf9a91341f03bfc2d8ac, 0xfd9c7a339d51765dc7d45395f9208735, -881),
  (0x9ecffc31d586abc09ac0936257d9c76c, 0x1e81cc604252e9fa9ce4b43dbbb45481, -878),
  (0xc683fb3e4ae856b0c170b83aedd03947, 0x26223f7852e7a479441de14d2aa169a2, -876),
  (0xf824fa0ddda26c5cf1cce649a9444798, 0xefaacf5667a18d97952559a07549c40a, -874),
  (0x9b171c48aa8583ba17200fee09caacbf, 0x95cac19600c4f87ebd375804494e1a86, -871),
  (0xc1dce35ad526e4a89ce813e98c3d57ef, 0x7b3d71fb80f6369e6c852e055ba1a128, -869),
  (0xf2541c318a709dd2c42218e3ef4cadeb, 0x5a0cce7a6133c44607a67986b28a0972, -867),
  (0x9774919ef68662a3ba954f8e758fecb3, 0x1848010c7cc05aabc4c80bf42f9645e7, -864),
  (0xbd51b606b427fb4ca93aa37212f3e7df, 0xde5a014f9bf07156b5fa0ef13b7bd761, -862),
  (0xeca623886131fa1fd3894c4e97b0e1d7, 0xd5f081a382ec8dac637892ad8a5acd39, -860),
  (0x93e7d6353cbf3c53e435cfb11ece8d26, 0xe5b6510631d3d88bbe2b5bac7678c044, -857),
  (0xb8e1cbc28bef0b68dd43439d66823070, 0x9f23e547be48ceaeadb632979416f055, -855),
  (0xe71a3eb32eeace4314941484c022bc8c, 0xc6ecde99addb025a5923bf3d791cac6a, -853),
  (0x9070672ffd52c0e9ecdc8cd2f815b5d7, 0xfc540b200ca8e17877b657866bb1ebc2, -850),
  (0xb48c80fbfca771246813b007b61b234d, 0xfb690de80fd319d695a3ed68069e66b3, -848),
  (0xe1afa13afbd14d6d82189c09a3a1ec21, 0x7a43516213c7e04c3b0ce8c20846005f, -846),
  (0x8d0dc4c4dd62d064714f618606453394, 0xec6a12dd4c5cec2fa4e81179452bc03b, -843),
  (0xb05135f614bb847d8da339e787d6807a, 0x278497949f74273b8e2215d79676b04a, -841),
  (0xdc65837399ea659cf10c086169cc2098, 0xb165bd79c751310a71aa9b4d7c145c5d, -839),
  (0x89bf722840327f8216a7853ce21f945f, 0x6edf966c1c92bea6870aa1106d8cb9ba, -836),
  (0xac2f4eb2503f1f629c51668c1aa77977, 0x4a977c0723b76e5028cd495488efe829, -834),
  (0xd73b225ee44ee73b4365c02f215157d5, 0x1d3d5b08eca549e433009ba9ab2be233, -832),
  (0x8684f57b4eb150850a1f981d74d2d6e5, 0x324658e593e74e2e9fe0614a0afb6d60, -829),
  (0xa82632da225da4a64ca77e24d2078c9e, 0x7ed7ef1ef8e121ba47d8799c8dba48b8, -827),
  (0xd22fbf90aaf50dcfdfd15dae06896fc6, 0x1e8deae6b7196a28d9ce9803b128dae6, -825),
  (0x835dd7ba6ad928a1ebe2da8cc415e5db, 0xd318b2d0326fe25988211f024eb988cf, -822),
  (0xa4354da9058f72ca66db912ff51b5f52, 0xc7dedf843f0bdaefea2966c2e267eb03, -820),
  (0xcd42a11346f34f7d0092757bf2623727, 0x79d697654eced1abe4b3c0739b01e5c4, -818),
  (0x8049a4ac0c5811ae205b896d777d6278, 0xac261e9f5141430b6ef0584840e12f9b, -815),
  (0xa05c0dd70f6e1619a8726bc8d55cbb16, 0xd72fa647259193ce4aac6e5a51197b81, -813),
  (0xc873114cd3499ba0128f06bb0ab3e9dc, 0x8cfb8fd8eef5f8c1dd5789f0e55fda62, -811),
  (0xfa8fd5a0081c02881732c869cd60e453, 0xb03a73cf2ab376f254ad6c6d1eb7d0fa, -809),
  (0x9c99e584051181950e7fbd42205c8eb4, 0x4e2488617ab02a5774ec63c43332e29c, -806),
  (0xc3c05ee50655e1fa521fac92a873b261, 0x61adaa79d95c34ed52277cb53fff9b43, -804),
  (0xf4b0769e47eb5a78e6a797b752909ef9, 0xba1915184fb34228a6b15be28fff8214, -802),
  (0x98ee4a22ecf3188b9028bed2939a635c, 0x144fad2f31d00959682ed96d99ffb14d, -799),
  (0xbf29dcaba82fdeae7432ee873880fc33, 0x1963987afe440bafc23a8fc9007f9da0, -797),
  (0xeef453d6923bd65a113faa2906a13b3f, 0xdfbc7e99bdd50e9bb2c933bb409f8508, -795),
  (0x9558b4661b6565f84ac7ca59a424c507, 0xebd5cf2016a529214fbdc0550863b325, -792),
  (0xbaaee17fa23ebf765d79bcf00d2df649, 0xe6cb42e81c4e7369a3ad306a4a7c9fee, -790),
  (0xe95a99df8ace6f53f4d82c2c107973dc, 0x607e13a2236210440c987c84dd1bc7ea, -788),
  (0x91d8a02bb6c1059479071b9b8a4be869, 0xbc4ecc45561d4a2a87df4dd30a315cf2, -785),
  (0xb64ec836a47146f99748e2826cdee284, 0x2b627f56aba49cb529d72147ccbdb42e, -783),
  (0xe3e27a444d8d98b7fd1b1b2308169b25, 0x363b1f2c568dc3e2744ce999bfed213a, -781),
  (0x8e6d8c6ab0787f72fe30f0f5e50e20f7, 0x41e4f37bb6189a6d88b0120017f434c4, -778),
  (0xb208ef855c969f4fbdbd2d335e51a935, 0x125e305aa39ec108eadc16801df141f5, -776),
  (0xde8b2b66b3bc4723ad2c788035e61382, 0x56f5bc714c86714b25931c20256d9273, -774),
  (0x8b16fb203055ac764c3bcb5021afcc31, 0x765995c6cfd406cef77bf19417647b88, -771),
  (0xaddcb9e83c6b1793df4abe242a1bbf3d, 0xd3effb3883c90882b55aedf91d3d9a6a, -769),
  (0xd953e8624b85dd78d71d6dad34a2af0d, 0x48ebfa06a4bb4aa362b1a977648d0104, -767),
  (0x87d4713d6f33aa6b8672648c40e5ad68, 0x4d937c4426f50ea61daf09ea9ed820a2, -764),
  (0xa9c98d8ccb009506680efdaf511f18c2, 0x60f85b5530b2524fa51acc65468e28cb, -762),
  (0xd43bf0effdc0ba480212bd1b2566def2, 0xf936722a7cdee6e38e617f7e9831b2fe, -760),
  (0x84a57695fe98746d014bb630f7604b57, 0xdbc2075a8e0b504e38fcefaf1f1f0fdf, -757),
  (0xa5ced43b7e3e9188419ea3bd35385e2d, 0xd2b28931318e2461c73c2b9ae6e6d3d6, -755),
  (0xcf42894a5dce35ea52064cac828675b9, 0x475f2b7d7df1ad7a390b3681a0a088cc, -753),
  (0x818995ce7aa0e1b27343efebd1940993, 0xcc9b7b2e6eb70c6c63a702110464557f, -750),
  (0xa1ebfb4219491a1f1014ebe6c5f90bf8, 0xbfc259fa0a64cf877c90c295457d6adf, -748),
  (0xca66fa129f9b60a6d41a26e077774ef6, 0xefb2f0788cfe03695bb4f33a96dcc597, -746),
  (0xfd00b897478238d08920b098955522b4, 0xab9fac96b03d8443b2a230093c93f6fd, -744),
  (0x9e20735e8cb1638255b46e5f5d5535b0, 0xeb43cbde2e2672aa4fa55e05c5dc7a5e, -741),
  (0xc5a890362fddbc62eb2189f734aa831d, 0x2614bed5b9b00f54e38eb587375398f6, -739),
  (0xf712b443bbd52b7ba5e9ec7501d523e4, 0x6f99ee8b281c132a1c7262e905287f33, -737),
  (0x9a6bb0aa55653b2d47b233c92125366e, 0xc5c03516f9118bfa51c77dd1a3394f80, -734),
  (0xc1069cd4eabe89f8999ec0bb696e840a, 0x7730425cb755eef8e6395d460c07a360, -732),
  (0xf148440a256e2c76c00670ea43ca250d, 0x14fc52f3e52b6ab71fc7b4978f098c38, -730),
  (0x96cd2a865764dbca380406926a5e5728, 0x2d1db3d86f3b22b273dcd0deb965f7a3, -727),
  (0xbc807527ed3e12bcc605083704f5ecf2, 0x386520ce8b09eb5f10d4051667bf758c, -725),
  (0xeba09271e88d976bf7864a44c633682e, 0xc67e69022dcc6636d509065c01af52ef, -723),
  (0x93445b8731587ea37ab3ee6afbe0211d, 0x3c0f01a15c9fbfe24525a3f9810d93d5, -720),
  (0xb8157268fdae9e4c5960ea05bad82964, 0x8b12c209b3c7afdad66f0cf7e150f8ca, -718),
  (0xe61acf033d1a45df6fb92487298e33bd, 0xadd7728c20b99bd18c0ad035d9a536fd, -716),
  (0x8fd0c16206306baba5d3b6d479f8e056, 0x8ca6a79794740162f786c221a807425e, -713),
  (0xb3c4f1ba87bc86968f48a4899877186c, 0x2fd0517d799101bbb56872aa120912f6, -711),
  (0xe0b62e2929aba83c331acdabfe94de87, 0x3bc465dcd7f5422aa2c28f54968b57b3, -709),
  (0x8c71dcd9ba0b49259ff0c08b7f1d0b14, 0x855abfaa06f9495aa5b99994de1716d0, -706),
  (0xaf8e5410288e1b6f07ecf0ae5ee44dd9, 0xa6b16f9488b79bb14f27fffa159cdc84, -704),
  (0xdb71e91432b1a24ac9e82cd9f69d6150, 0x105dcb79aae5829da2f1fff89b0413a5, -702),
  (0x892731ac9faf056ebe311c083a225cd2, 0x0a3a9f2c0acf71a285d73ffb60e28c47, -699),
  (0xab70fe17c79ac6ca6dbd630a48aaf406, 0x8cc946f70d834e0b274d0ffa391b2f59, -697),
  (0xd64d3d9db981787d092cbbccdad5b108, 0x2ffb98b4d0e4218df12053f8c761fb2f, -695),
  (0x85f0468293f0eb4e25bbf56008c58ea5, 0x1dfd3f71028e94f8b6b4347b7c9d3cfd, -692),
  (0xa76c582338ed2621af2af2b80af6f24e, 0x657c8f4d43323a36e461419a5bc48c3d, -690),
  (0xd1476e2c07286faa1af5af660db4aee1, 0xfedbb32093fec8c49d799200f2b5af4c, -688),
  (0x82cca4db847945ca50d98d9fc890ed4d, 0x3f494ff45c7f3d7ae26bfb4097b18d8f, -685),
  (0xa37fce126597973ce50ff107bab528a0, 0x8f1ba3f1739f0cd99b06fa10bd9df0f3, -683),
  (0xcc5fc196fefd7d0c1e53ed49a96272c8, 0xb2e28cedd086d01001c8b894ed056d30, -681),
  (0xff77b1fcbebcdc4f25e8e89c13bb0f7a, 0xdf9b302944a88414023ae6ba2846c87c, -679),
  (0x9faacf3df73609b177b191618c54e9ac, 0xcbc0fe19cae9528c8164d034592c3d4e, -676),
  (0xc795830d75038c1dd59df5b9ef6a2417, 0xfeb13da03da3a72fa1be04416f774ca1, -674),
  (0xf97ae3d0d2446f254b0573286b44ad1d, 0xfe5d8d084d0c90fb8a2d8551cb551fc9, -672),
  (0x9becce62836ac5774ee367f9430aec32, 0xbefa78253027da9d365c73531f1533de, -669),
  (0xc2e801fb244576d5229c41f793cda73f, 0x6eb9162e7c31d14483f39027e6da80d5, -667),
  (0xf3a20279ed56d48a6b43527578c1110f, 0x4a675bba1b3e4595a4f07431e091210b, -665),
  (0x9845418c345644d6830a13896b78aaa9, 0x8e8099545106eb7d8716489f2c5ab4a6, -662),
  (0xbe5691ef416bd60c23cc986bc656d553, 0xf220bfa96548a65ce8dbdac6f77161d0, -660),
  (0xedec366b11c6cb8f2cbfbe86b7ec8aa8, 0xeea8ef93be9acff42312d178b54dba44, -658),
  (0x94b3a202eb1c3f397bf7d71432f3d6a9, 0x952995bc5720c1f895ebc2eb7150946b, -655),
  (0xb9e08a83a5e34f07daf5ccd93fb0cc53, 0xfa73fb2b6ce8f276bb66b3a64da4b985, -653),
  (0xe858ad248f5c22c9d1b3400f8f9cff68, 0xf910f9f648232f146a40608fe10de7e7, -651),
  (0x91376c36d99995be23100809b9c21fa1, 0x9baa9c39ed15fd6cc2683c59eca8b0f0, -648),
  (0xb58547448ffffb2dabd40a0c2832a78a, 0x02954348685b7cc7f3024b7067d2dd2c, -646),
  (0xe2e69915b3fff9f916c90c8f323f516c, 0x833a941a82725bf9efc2de4c81c79477, -644),
  (0x8dd01fad907ffc3bae3da7d97f6792e3, 0xd2049c909187797c35d9caefd11cbcca, -641),
  (0xb1442798f49ffb4a99cd11cfdf41779c, 0xc685c3b4b5e957db43503dabc563ebfd, -639),
  (0xdd95317f31c7fa1d40405643d711d583, 0xf82734a1e363add214244d16b6bce6fd, -637),
  (0x8a7d3eef7f1cfc52482835ea666b2572, 0x7b1880e52e1e4ca34c96b02e3236105e, -634),
  (0xad1c8eab5ee43b66da3243650005eecf, 0x19dea11e79a5dfcc1fbc5c39bec39475, -632),
  (0xd863b256369d4a4090bed43e40076a82, 0xe0564966180f57bf27ab73482e747993, -630),
  (0x873e4f75e2224e685a7744a6e804a291, 0xcc35eddfcf0996d778cb280d1d08cbfb, -627),
  (0xa90de3535aaae202711515d0a205cb36, 0x3f436957c2cbfc8d56fdf210644afefa, -625),
  (0xd3515c2831559a830d5a5b44ca873e03, 0xcf1443adb37efbb0acbd6e947d5dbeb9, -623),
  (0x8412d9991ed58091e858790afe9486c2, 0x616caa4c902f5d4e6bf6651cce5a9734, -620),
  (0xa5178fff668ae0b6626e974dbe39a872, 0xf9c7d4dfb43b34a206f3fe6401f13d01, -618),
  (0xce5d73ff402d98e3fb0a3d212dc8128f, 0xb839ca17a14a01ca88b0fdfd026d8c41, -616),
  (0x80fa687f881c7f8e7ce66634bc9d0b99, 0xd3241e4ec4ce411e956e9ebe218477a8, -613),
  (0xa139029f6a239f721c1fffc1ebc44e80, 0x47ed25e27601d1663aca466da9e59593, -611),
  (0xc987434744ac874ea327ffb266b56220, 0x59e86f5b138245bfc97cd809145efaf7, -609),
  (0xfbe9141915d7a9224bf1ff9f0062baa8, 0x70628b31d862d72fbbdc0e0b5976b9b5, -607),
  (0x9d71ac8fada6c9b56f773fc3603db4a9, 0x463d96ff273dc67dd56988c717ea3411, -604),
  (0xc4ce17b399107c22cb550fb4384d21d3, 0x97ccfcbef10d381d4ac3eaf8dde4c115, -602),
  (0xf6019da07f549b2b7e2a53a146606a48, 0x7dc03beead5086249d74e5b7155df15b, -600),
  (0x99c102844f94e0fb2eda7444cbfc426d, 0x4e9825752c5253d6e2690f926d5ab6d9, -597)]

/-- src/conv/from_str/powers_of_five.rs:816-943 -/
def powersOfFive2_6 : List (Nat × Nat × Int) := [
  (0xc0314325637a1939fa911155fefb5308, 0xa23e2ed27766e8cc9b03537708b1648f, -595),
  (0xf03d93eebc589f88793555ab7eba27ca, 0xcacdba871540a2ffc1c42854caddbdb3, -593),
  (0x96267c7535b763b54bc1558b2f3458de, 0xbec094946d4865dfd91a9934feca9690, -590),
  (0xbbb01b9283253ca29eb1aaedfb016f16, 0x6e70b9b9889a7f57cf613f823e7d3c34, -588),
  (0xea9c227723ee8bcb465e15a979c1cadc, 0x0a0ce827eac11f2dc3398f62ce1c8b41, -586),
  (0x92a1958a7675175f0bfacd89ec191ec9, 0x86481118f2b8b37c9a03f99dc0d1d708, -583),
  (0xb749faed14125d36cef980ec671f667b, 0xe7da155f2f66e05bc084f80531064cca, -581),
  (0xe51c79a85916f48482b7e12780e7401a, 0xe1d09ab6fb409872b0a636067d47dffd, -579),
  (0x8f31cc0937ae58d2d1b2ecb8b0908810, 0xcd2260b25d085f47ae67e1c40e4cebfe, -576),
  (0xb2fe3f0b8599ef07861fa7e6dcb4aa15, 0x006af8def44a77199a01da3511e026fe, -574),
  (0xdfbdcece67006ac967a791e093e1d49a, 0x4085b716b15d14e0008250c2565830bd, -572),
  (0x8bd6a141006042bde0c8bb2c5c6d24e0, 0x6853926e2eda2d0c0051727975f71e76, -569),
  (0xaecc49914078536d58fae9f773886e18, 0x82687709ba90b84f0065cf17d374e614, -567),
  (0xda7f5bf590966848af39a475506a899e, 0xa30294cc2934e662c07f42ddc8521f99, -565),
  (0x888f99797a5e012d6d8406c952429603, 0x25e19cff99c10ffdb84f89ca9d3353bf, -562),
  (0xaab37fd7d8f58178c8e5087ba6d33b83, 0xef5a043f803153fd26636c3d448028af, -560),
  (0xd5605fcdcf32e1d6fb1e4a9a90880a64, 0xeb30854f603da8fc6ffc474c95a032db, -558),
  (0x855c3be0a17fcd265cf2eea09a55067f, 0x12fe53519c26899dc5fdac8fdd841fc9, -555),
  (0xa6b34ad8c9dfc06ff42faa48c0ea481e, 0xd7bde82603302c05377d17b3d4e527bb, -553),
  (0xd0601d8efc57b08bf13b94daf124da26, 0x8dad622f83fc3706855c5da0ca1e71aa, -551),
  (0x823c12795db6ce5776c53d08d6b70858, 0x188c5d5db27da2641359ba847e53070a, -548),
  (0xa2cb1717b52481ed54768c4b0c64ca6e, 0x1eaf74b51f1d0afd183029259de7c8cd, -546),
  (0xcb7ddcdda26da268a9942f5dcf7dfd09, 0xa65b51e266e44dbc5e3c336f0561bb00, -544),
  (0xfe5d54150b090b02d3f93b35435d7c4c, 0x0ff2265b009d612b75cb404ac6ba29c0, -542),
  (0x9efa548d26e5a6e1c47bc5014a1a6daf, 0x89f757f8e0625cbb299f082ebc345a18, -539),
  (0xc6b8e9b0709f109a359ab6419ca1091b, 0x6c752df7187af3e9f406ca3a6b41709e, -537),
  (0xf867241c8cc6d4c0c30163d203c94b62, 0x47927974de99b0e471087cc90611ccc6, -535),
  (0x9b407691d7fc44f879e0de63425dcf1d, 0x6cbb8be90b200e8ec6a54dfda3cb1ffb, -532),
  (0xc21094364dfb5636985915fc12f542e4, 0xc7ea6ee34de81232784ea17d0cbde7fa, -530),
  (0xf294b943e17a2bc43e6f5b7b17b2939d, 0xf9e50a9c216216bf166249dc4fed61f9, -528),
  (0x979cf3ca6cec5b5aa705992ceecf9c42, 0xbc2f26a194dd4e376dfd6e29b1f45d3b, -525),
  (0xbd8430bd0827723150c6ff782a838353, 0x6b3af049fa14a1c5497cc9b41e71748a, -523),
  (0xece53cec4a314ebda4f8bf5635246428, 0x4609ac5c7899ca369bdbfc21260dd1ad, -521),
  (0x940f4613ae5ed136871b7795e136be99, 0x2bc60bb9cb601e6221697d94b7c8a30c, -518),
  (0xb913179899f6858428e2557b59846e3f, 0x76b78ea83e3825faa9c3dcf9e5bacbcf, -516),
  (0xe757dd7ec07426e5331aeada2fe589cf, 0x546572524dc62f795434d4385f297ec3, -514),
  (0x9096ea6f3848984f3ff0d2c85def7621, 0x94bf6773709bddabd4a104a33b79ef3a, -511),
  (0xb4bca50b065abe630fed077a756b53a9, 0xf9ef41504cc2d516c9c945cc0a586b08, -509),
  (0xe1ebce4dc7f16dfbd3e8495912c62894, 0x786b11a45ff38a5c7c3b973f0cee85ca, -507),
  (0x8d3360f09cf6e4bd64712dd7abbbd95c, 0xcb42eb06bbf83679cda53e876815139e, -504),
  (0xb080392cc4349decbd8d794d96aacfb3, 0xfe13a5c86af64418410e8e29421a5886, -502),
  (0xdca04777f541c567ecf0d7a0fc5583a0, 0xfd988f3a85b3d51e515231b392a0eea8, -500),
  (0x89e42caaf9491b60f41686c49db57244, 0x9e7f598493906532f2d35f103ba49529, -497),
  (0xac5d37d5b79b6239311c2875c522ced5, 0xc61f2fe5b8747e7faf8836d44a8dba73, -495),
  (0xd77485cb25823ac77d633293366b828b, 0x37a6fbdf26919e1f9b6a44895d312910, -493),
  (0x86a8d39ef77164bcae5dff9c02033197, 0x02c85d6b781b02d3c1226ad5da3eb9aa, -490),
  (0xa8530886b54dbdebd9f57f830283fdfc, 0xc37a74c65621c388b16b058b50ce6814, -488),
  (0xd267caa862a12d66d072df63c324fd7b, 0xf45911f7ebaa346addc5c6ee25020219, -486),
  (0x8380dea93da4bc604247cb9e59f71e6d, 0x78b7ab3af34a60c2ca9b9c54d7214150, -483),
  (0xa46116538d0deb7852d9be85f074e608, 0xd6e59609b01cf8f37d42836a0ce991a4, -481),
  (0xcd795be87051665667902e276c921f8b, 0x0c9efb8c1c2437305c9324449023f60d, -479),
  (0x806bd9714632dff600ba1cd8a3db53b6, 0xe7e35d379196a27e39dbf6aada1679c8, -476),
  (0xa086cfcd97bf97f380e8a40eccd228a4, 0xa1dc348575fc4b1dc852f455909c183a, -474),
  (0xc8a883c0fdaf7df06122cd128006b2cd, 0xca5341a6d37b5de53a67b16af4c31e48, -472),
  (0xfad2a4b13d1b5d6c796b805720085f81, 0x3ce81210885a355e89019dc5b1f3e5db, -470),
  (0x9cc3a6eec6311a63cbe3303674053bb0, 0xc6110b4a5538615b15a1029b8f386fa9, -467),
  (0xc3f490aa77bd60fcbedbfc4411068a9c, 0xf7954e1cea8679b1db09434273068b93, -465),
  (0xf4f1b4d515acb93bee92fb5515482d44, 0x357aa1a42528181e51cb94130fc82e78, -463),
  (0x991711052d8bf3c5751bdd152d4d1c4a, 0xa16ca50697390f12f31f3c8be9dd1d0b, -460),
  (0xbf5cd54678eef0b6d262d45a78a0635d, 0x49c7ce483d0752d7afe70baee454644d, -458),
  (0xef340a98172aace486fb897116c87c34, 0x9c39c1da4c49278d9be0ce9a9d697d61, -456),
  (0x9580869f0e7aac0ed45d35e6ae3d4da0, 0xe1a419286fadb8b8816c8120a261ee5c, -453),
  (0xbae0a846d21957128974836059cca109, 0x1a0d1f728b9926e6a1c7a168cafa69f3, -451),
  (0xe998d258869facd72bd1a438703fc94b, 0x6090674f2e7f70a04a3989c2fdb90470, -449),
  (0x91ff83775423cc067b6306a34627ddcf, 0x1c5a40917d0fa6642e63f619de93a2c6, -446),
  (0xb67f6455292cbf081a3bc84c17b1d542, 0xe370d0b5dc538ffd39fcf3a056388b78, -444),
  (0xe41f3d6a7377eeca20caba5f1d9e4a93, 0x9c4d04e3536873fc887c30886bc6ae56, -442),
  (0x8e938662882af53e547eb47b7282ee9c, 0x41b0230e1421487dd54d9e55435c2cf5, -439),
  (0xb23867fb2a35b28de99e619a4f23aa43, 0x521c2bd199299a9d4aa105ea94333833, -437),
  (0xdec681f9f4c31f316405fa00e2ec94d4, 0x26a336c5ff7401449d49476539400640, -435),
  (0x8b3c113c38f9f37ede83bc408dd3dd04, 0x9826023bbfa880cae24dcc9f43c803e8, -432),
  (0xae0b158b4738705e9624ab50b148d445, 0xbe2f82caaf92a0fd9ae13fc714ba04e2, -430),
  (0xd98ddaee19068c763badd624dd9b0957, 0x2dbb637d5b77493d01998fb8d9e8861a, -428),
  (0x87f8a8d4cfa417c9e54ca5d70a80e5d6, 0x7c951e2e592a8dc620fff9d3883153d0, -425),
  (0xa9f6d30a038d1dbc5e9fcf4ccd211f4c, 0x1bba65b9ef753137a93ff8486a3da8c4, -423),
  (0xd47487cc8470652b7647c3200069671f, 0x22a8ff286b527d85938ff65a84cd12f6, -421),
  (0x84c8d4dfd2c63f3b29ecd9f40041e073, 0x75a99f7943138e737c39f9f893002bd9, -418),
  (0xa5fb0a17c777cf09f468107100525890, 0x5314075793d872105b487876b7c036d0, -416),
  (0xcf79cc9db955c2cc7182148d4066eeb4, 0x67d9092d78ce8e94721a969465b04484, -414),
  (0x81ac1fe293d599bfc6f14cd848405530, 0xc0e7a5bc6b81191cc7509e1cbf8e2ad2, -411),
  (0xa21727db38cb002fb8ada00e5a506a7c, 0xf1218f2b86615f63f924c5a3ef71b587, -409),
  (0xca9cf1d206fdc03ba6d90811f0e4851c, 0x2d69f2f667f9b73cf76df70ceb4e22e9, -407),
  (0xfd442e4688bd304a908f4a166d1da663, 0x38c46fb401f8250c354974d02621aba3, -405),
  (0x9e4a9cec15763e2e9a598e4e043287fe, 0x037ac5d0813b1727a14de90217d50b46, -402),
  (0xc5dd44271ad3cdba40eff1e1853f29fd, 0x84597744a189dcf189a163429dca4e17, -400),
  (0xf7549530e188c128d12bee59e68ef47c, 0xe56fd515c9ec542dec09bc13453ce19d, -398),
  (0x9a94dd3e8cf578b982bb74f8301958ce, 0x0f65e52d9e33b49cb386158c0b460d02, -395),
  (0xc13a148e3032d6e7e36a52363c1faf01, 0x933f5e7905c0a1c3e0679aef0e179043, -393),
  (0xf18899b1bc3f8ca1dc44e6c3cb279ac1, 0xf80f36174730ca34d88181aad19d7454, -391),
  (0x96f5600f15a7b7e529ab103a5ef8c0b9, 0x3b0981ce8c7e7e610750f10ac30268b4, -388),
  (0xbcb2b812db11a5de7415d448f6b6f0e7, 0x89cbe2422f9e1df949252d4d73c302e1, -386),
  (0xebdf661791d60f56111b495b3464ad21, 0x6c3edad2bb85a5779b6e78a0d0b3c39a, -384),
  (0x936b9fcebb25c995cab10dd900beec34, 0xe3a748c3b533876ac1250b6482705a40, -381),
  (0xb84687c269ef3bfb3d5d514f40eea742, 0x1c911af4a2806945716e4e3da30c70d0, -379),
  (0xe65829b3046b0afa0cb4a5a3112a5112, 0xa3b561b1cb208396cdc9e1cd0bcf8d04, -377),
  (0x8ff71a0fe2c2e6dc47f0e785eaba72ab, 0xa6515d0f1ef4523e409e2d202761b822, -374),
  (0xb3f4e093db73a09359ed216765690f56, 0x8fe5b452e6b166cdd0c5b868313a262b, -372),
  (0xe0f218b8d25088b8306869c13ec3532c, 0x33df2167a05dc08144f726823d88afb6, -370),
  (0x8c974f73837255731e414218c73a13fb, 0xa06b74e0c43a9850cb1a781166756dd1, -367),
  (0xafbd2350644eeacfe5d1929ef90898fa, 0x88865218f5493e64fde11615c012c946, -365),
  (0xdbac6c247d62a583df45f746b74abf39, 0x2aa7e69f329b8dfe3d595b9b30177b98, -363),
  (0x894bc396ce5da7726b8bba8c328eb783, 0xbaa8f0237fa138bee657d940fe0ead3f, -360),
  (0xab9eb47c81f5114f066ea92f3f326564, 0xa9532c2c5f8986ee9fedcf913d92588e, -358),
  (0xd686619ba27255a2c80a537b0efefebd, 0xd3a7f737776be8aa47e943758cf6eeb2, -356),
  (0x8613fd0145877585bd06742ce95f5f36, 0xa448fa82aaa3716a6cf1ca29781a552f, -353),
  (0xa798fc4196e952e72c48113823b73704, 0x4d5b3923554c4dc5082e3cb3d620ea7b, -351),
  (0xd17f3b51fca3a7a0f75a15862ca504c5, 0x60b2076c2a9f61364a39cbe0cba9251a, -349),
  (0x82ef85133de648c49a984d73dbe722fb, 0x5c6f44a39aa39cc1ee641f6c7f49b730, -346),
  (0xa3ab66580d5fdaf5c13e60d0d2e0ebba, 0x338b15cc814c83f269fd27479f1c24fc, -344),
  (0xcc963fee10b7d1b3318df905079926a8, 0xc06ddb3fa19fa4ef047c711986e32e3b, -342),
  (0xffbbcfe994e5c61ffdf17746497f7052, 0xf089520f8a078e2ac59b8d5fe89bf9ca, -340),
  (0x9fd561f1fd0f9bd3feb6ea8bedefa633, 0xd655d349b644b8dabb81385bf1617c1e, -337),
  (0xc7caba6e7c5382c8fe64a52ee96b8fc0, 0xcbeb481c23d5e7116a618672edb9db26, -335),
  (0xf9bd690a1b68637b3dfdce7aa3c673b0, 0xfee61a232ccb60d5c4f9e80fa92851ef, -333),
  (0x9c1661a651213e2d06bea10ca65c084e, 0x9f4fd055fbff1c859b1c3109c9b93335, -330),
  (0xc31bfa0fe5698db8486e494fcff30a62, 0x4723c46b7afee3a701e33d4c3c278003, -328),
  (0xf3e2f893dec3f1265a89dba3c3efccfa, 0xd8ecb58659be9c90c25c0c9f4b316004, -326),
  (0x986ddb5c6b3a76b7f89629465a75e01c, 0xc793f173f81721da797987e38efedc02, -323),
  (0xbe89523386091465f6bbb397f1135823, 0xf978edd0f61cea5117d7e9dc72be9303, -321),
  (0xee2ba6c0678b597f746aa07ded582e2c, 0xf7d7294533a424e55dcde4538f6e37c4, -319),
  (0x94db483840b717efa8c2a44eb4571cdc, 0x1ae679cb4046970f5aa0aeb439a4e2da, -316),
  (0xba121a4650e4ddeb92f34d62616ce413, 0x21a0183e10583cd33148da61480e1b91, -314),
  (0xe896a0d7e51e156677b020baf9c81d17, 0xea081e4d946e4c07fd9b10f99a11a275, -312),
  (0x915e2486ef32cd600ace1474dc1d122e, 0xf24512f07cc4ef84fe80ea9c004b0589, -309),
  (0xb5b5ada8aaff80b80d819992132456ba, 0xaed657ac9bf62b663e212543005dc6eb, -307),
  (0xe3231912d5bf60e610e1fff697ed6c69, 0x5a8bed97c2f3b63fcda96e93c07538a6, -305),
  (0x8df5efabc5979c8fca8d3ffa1ef463c1, 0xd897747ed9d851e7e089e51c58494368, -302),
  (0xb1736b96b6fd83b3bd308ff8a6b17cb2, 0x4ebd519e904e6661d8ac5e636e5b9442, -300)]

/-- src/conv/from_str/powers_of_five.rs:944-1071 -/
def powersOfFive2_7 : List (Nat × Nat × Int) := [
  (0xddd0467c64bce4a0ac7cb3f6d05ddbde, 0xe26ca6063461fffa4ed775fc49f27952, -298),
  (0x8aa22c0dbef60ee46bcdf07a423aa96b, 0x4d83e7c3e0bd3ffc7146a9bdae378bd3, -295),
  (0xad4ab7112eb3929d86c16c98d2c953c6, 0x20e4e1b4d8ec8ffb8d98542d19c56ec8, -293),
  (0xd89d64d57a607744e871c7bf077ba8b7, 0xa91e1a220f27b3fa70fe69386036ca7b, -291),
  (0x87625f056c7c4a8b11471cd764ad4972, 0xc9b2d0554978d07c869f01c33c223e8c, -288),
  (0xa93af6c6c79b5d2dd598e40d3dd89bcf, 0x7c1f846a9bd7049ba846c2340b2ace30, -286),
  (0xd389b478798234794aff1d108d4ec2c3, 0x5b27658542ccc5c2925872c10df581bc, -284),
  (0x843610cb4bf160cbcedf722a585139ba, 0x18f89f7349bffb999b7747b8a8b97115, -281),
  (0xa54394fe1eedb8fec2974eb4ee658828, 0x9f36c7501c2ffa80025519a6d2e7cd5a, -279),
  (0xce947a3da6a9273e733d226229feea32, 0xc7047924233bf92002ea601087a1c0b1, -277),
  (0x811ccc668829b8870806357d5a3f525f, 0xbc62cbb696057bb401d27c0a54c5186f, -274),
  (0xa163ff802a3426a8ca07c2dcb0cf26f7, 0xab7b7ea43b86daa102471b0ce9f65e8a, -272),
  (0xc9bcff6034c13052fc89b393dd02f0b5, 0x965a5e4d4a68914942d8e1d02473f62d, -270),
  (0xfc2c3f3841f17c67bbac2078d443ace2, 0xfbf0f5e09d02b59b938f1a442d90f3b8, -268),
  (0x9d9ba7832936edc0d54b944b84aa4c0d, 0xdd7699ac6221b1813c39706a9c7a9853, -265),
  (0xc5029163f384a9310a9e795e65d4df11, 0x54d440177aaa1de18b47cc8543993e68, -263),
  (0xf64335bcf065d37d4d4617b5ff4a16d5, 0xaa09501d5954a559ee19bfa6947f8e02, -261),
  (0x99ea0196163fa42e504bced1bf8e4e45, 0x8a45d21257d4e75834d017c81ccfb8c1, -258),
  (0xc06481fb9bcf8d39e45ec2862f71e1d6, 0xecd74696edca212e42041dba2403a6f2, -256),
  (0xf07da27a82c370885d767327bb4e5a4c, 0xa80d183ca93ca979d2852528ad0490ae, -254),
  (0x964e858c91ba26553a6a07f8d510f86f, 0xe9082f25e9c5e9ec239337396c22da6d, -251),
  (0xbbe226efb628afea890489f70a55368b, 0xe34a3aef643764672c780507c72b9108, -249),
  (0xeadab0aba3b2dbe52b45ac74ccea842e, 0xdc1cc9ab3d453d80f7960649b8f6754a, -247),
  (0x92c8ae6b464fc96f3b0b8bc90012929d, 0x4991fe0b064b46709abdc3ee139a094e, -244),
  (0xb77ada0617e3bbcb09ce6ebb40173744, 0x9bf67d8dc7de180cc16d34e998808ba2, -242),
  (0xe55990879ddcaabdcc420a6a101d0515, 0xc2f41cf139d59e0ff1c88223fea0ae8a, -240),
  (0x8f57fa54c2a9eab69fa946824a12232d, 0x99d89216c42582c9f71d51567f246d16, -237),
  (0xb32df8e9f354656447939822dc96abf9, 0x004eb69c752ee37c74e4a5ac1eed885c, -235),
  (0xdff9772470297ebd59787e2b93bc56f7, 0x40626443927a9c5b921dcf1726a8ea73, -233),
  (0x8bfbea76c619ef3657eb4edb3c55b65a, 0x883d7eaa3b8ca1b93b52a16e78299288, -230),
  (0xaefae51477a06b03ede622920b6b23f1, 0x2a4cde54ca6fca278a2749ca1633f72a, -228),
  (0xdab99e59958885c4e95fab368e45eced, 0x74e015e9fd0bbcb16cb11c3c9bc0f4f4, -226),
  (0x88b402f7fd75539b11dbcb0218ebb414, 0x690c0db23e2755eee3eeb1a5e1589918, -223),
  (0xaae103b5fcd2a881d652bdc29f26a119, 0x834f111ecdb12b6a9cea5e0f59aebf5f, -221),
  (0xd59944a37c0752a24be76d3346f0495f, 0xe422d566811d76454424f593301a6f37, -219),
  (0x857fcae62d8493a56f70a4400c562ddb, 0xee95c56010b269eb4a97197bfe108582, -216),
  (0xa6dfbd9fb8e5b88ecb4ccd500f6bb952, 0xea3b36b814df04661d3cdfdafd94a6e2, -214),
  (0xd097ad07a71f26b27e2000a41346a7a7, 0xa4ca04661a16c57fa48c17d1bcf9d09b, -212),
  (0x825ecc24c873782f8ed400668c0c28c8, 0xc6fe42bfd04e3b6fc6d78ee3161c2261, -209),
  (0xa2f67f2dfa90563b728900802f0f32fa, 0xf8bdd36fc461ca4bb88d729bdba32af9, -207),
  (0xcbb41ef979346bca4f2b40a03ad2ffb9, 0xb6ed484bb57a3cdea6b0cf42d28bf5b8, -205),
  (0xfea126b7d78186bce2f610c84987bfa8, 0x24a89a5ea2d8cc16505d0313872ef326, -203),
  (0x9f24b832e6b0f4360dd9ca7d2df4d7c9, 0x16e9607b25c77f8df23a21ec347d57f7, -200),
  (0xc6ede63fa05d314391503d1c79720dbb, 0x5ca3b899ef395f716ec8aa67419cadf5, -198),
  (0xf8a95fcf88747d9475a44c6397ce912a, 0x33cca6c06b07b74dca7ad5011203d973, -196),
  (0x9b69dbe1b548ce7cc986afbe3ee11aba, 0x605fe83842e4d2909e8cc520ab4267e7, -193),
  (0xc24452da229b021bfbe85badce996168, 0xf877e246539e0734c62ff668d61301e1, -191),
  (0xf2d56790ab41c2a2fae27299423fb9c3, 0x3695dad7e8858901f7bbf4030b97c25a, -189),
  (0x97c560ba6b0919a5dccd879fc967d41a, 0x021da8c6f15375a13ad57881e73ed978, -186),
  (0xbdb6b8e905cb600f5400e987bbc1c920, 0x82a512f8ada85309898ad6a2610e8fd6, -184),
  (0xed246723473e3813290123e9aab23b68, 0xa34e57b6d91267cbebed8c4af95233cc, -182),
  (0x9436c0760c86e30bf9a0b6720aaf6521, 0x6610f6d247ab80df737477aedbd3605f, -179),
  (0xb94470938fa89bcef808e40e8d5b3e69, 0xbf953486d99661175051959a92c83877, -177),
  (0xe7958cb87392c2c2b60b1d1230b20e04, 0x2f7a81a88ffbf95d2465fb01377a4695, -175),
  (0x90bd77f3483bb9b9b1c6f22b5e6f48c2, 0x9dac910959fd7bda36bfbce0c2ac6c1d, -172),
  (0xb4ecd5f01a4aa8281e38aeb6360b1af3, 0x4517b54bb07cdad0c46fac18f3578724, -170),
  (0xe2280b6c20dd523225c6da63c38de1b0, 0x165da29e9c9c1184f58b971f302d68ee, -168),
  (0x8d590723948a535f579c487e5a38ad0e, 0x0dfa85a321e18af319773e737e1c6194, -165),
  (0xb0af48ec79ace8372d835a9df0c6d851, 0x9179270bea59edafdfd50e105da379f9, -163),
  (0xdcdb1b2798182244f8e431456cf88e65, 0xf5d770cee4f0691bd7ca5194750c5878, -161),
  (0x8a08f0f8bf0f156b1b8e9ecb641b58ff, 0xb9a6a6814f1641b166de72fcc927b74b, -158),
  (0xac8b2d36eed2dac5e272467e3d222f3f, 0xa8105021a2dbd21dc0960fbbfb71a51e, -156),
  (0xd7adf884aa8791775b0ed81dcc6abb0f, 0x9214642a0b92c6a530bb93aafa4e0e65, -154),
  (0x86ccbb52ea94baea98e947129fc2b4e9, 0xbb4cbe9a473bbc273e753c4adc70c8ff, -151),
  (0xa87fea27a539e9a53f2398d747b36224, 0x2a1fee40d90aab310e128b5d938cfb3f, -149),
  (0xd29fe4b18e88640e8eec7f0d19a03aad, 0x34a7e9d10f4d55fd51972e34f8703a0f, -147),
  (0x83a3eeeef9153e891953cf68300424ac, 0x40e8f222a99055be52fe7ce11b462449, -144),
  (0xa48ceaaab75a8e2b5fa8c3423c052dd7, 0x51232eab53f46b2de7be1c196217ad5b, -142),
  (0xcdb02555653131b63792f412cb06794d, 0x256bfa5628f185f961ada31fba9d98b2, -140),
  (0x808e17555f3ebf11e2bbd88bbee40bd0, 0x37637c75d996f3bbdd0c85f3d4a27f6f, -137),
  (0xa0b19d2ab70e6ed65b6aceaeae9d0ec4, 0x453c5b934ffcb0aad44fa770c9cb1f4b, -135),
  (0xc8de047564d20a8bf245825a5a445275, 0x568b727823fbdcd58963914cfc3de71e, -133),
  (0xfb158592be068d2eeed6e2f0f0d56712, 0xac2e4f162cfad40aebbc75a03b4d60e6, -131),
  (0x9ced737bb6c4183d55464dd69685606b, 0xab9cf16ddc1cc486d355c98425105c90, -128),
  (0xc428d05aa4751e4caa97e14c3c26b886, 0x96842dc95323f5a8882b3be52e5473b4, -126),
  (0xf53304714d9265dfd53dd99f4b3066a8, 0x3c25393ba7ecf312aa360ade79e990a1, -124),
  (0x993fe2c6d07b7fabe546a8038efe4029, 0x259743c548f417ebaa61c6cb0c31fa64, -121),
  (0xbf8fdb78849a5f96de98520472bdd033, 0x6efd14b69b311de694fa387dcf3e78fd, -119),
  (0xef73d256a5c0f77c963e66858f6d4440, 0x4abc59e441fd65603a38c69d430e173d, -117),
  (0x95a8637627989aaddde7001379a44aa8, 0x2eb5b82ea93e5f5c24637c2249e8ce86, -114),
  (0xbb127c53b17ec1595560c018580d5d52, 0x3a63263a538df7332d7c5b2adc630227, -112),
  (0xe9d71b689dde71afaab8f01e6e10b4a6, 0xc8fbefc8e87174fff8db71f5937bc2b1, -110),
  (0x9226712162ab070dcab3961304ca70e8, 0x3d9d75dd9146e91ffb8927397c2d59af, -107),
  (0xb6b00d69bb55c8d13d607b97c5fd0d22, 0x4d04d354f598a367fa6b7107db38b01a, -105),
  (0xe45c10c42a2b3b058cb89a7db77c506a, 0xe046082a32fecc41f9064d49d206dc21, -103),
  (0x8eb98a7a9a5b04e377f3608e92adb242, 0xcc2bc51a5fdf3fa93ba3f04e23444995, -100),
  (0xb267ed1940f1c61c55f038b237591ed3, 0x7f36b660f7d70f938a8cec61ac155bfa, -98),
  (0xdf01e85f912e37a36b6c46dec52f6688, 0x5f0463f935ccd3786d30277a171ab2f8, -96),
  (0x8b61313bbabce2c62323ac4b3b3da015, 0x3b62be7bc1a0042b443e18ac4e70afdb, -93),
  (0xae397d8aa96c1b77abec975e0a0d081a, 0x8a3b6e1ab2080536154d9ed7620cdbd2, -91),
  (0xd9c7dced53c7225596e7bd358c904a21, 0x2cca49a15e8a06839aa1068d3a9012c7, -89),
  (0x881cea14545c75757e50d64177da2e54, 0xbbfe6e04db16441240a4a418449a0bbc, -86),
  (0xaa242499697392d2dde50bd1d5d0b9e9, 0xeafe098611dbd516d0cdcd1e55c08eab, -84),
  (0xd4ad2dbfc3d07787955e4ec64b44e864, 0x65bd8be79652ca5c85014065eb30b256, -82),
  (0x84ec3c97da624ab4bd5af13bef0b113e, 0xbf967770bdf3be79d320c83fb2fe6f75, -79),
  (0xa6274bbdd0fadd61ecb1ad8aeacdd58e, 0x6f7c154ced70ae1847e8fa4f9fbe0b53, -77),
  (0xcfb11ead453994ba67de18eda5814af2, 0x0b5b1aa028ccd99e59e338e387ad8e28, -75),
  (0x81ceb32c4b43fcf480eacf948770ced7, 0x4718f0a419800802f82e038e34cc78d9, -72),
  (0xa2425ff75e14fc31a1258379a94d028d, 0x18df2ccd1fe00a03b6398471c1ff970f, -70),
  (0xcad2f7f5359a3b3e096ee45813a04330, 0x5f16f80067d80c84a3c7e58e327f7cd3, -68),
  (0xfd87b5f28300ca0d8bca9d6e188853fc, 0x76dcb60081ce0fa5ccb9def1bf1f5c08, -66),
  (0x9e74d1b791e07e48775ea264cf55347d, 0xca49f1c05120c9c79ff42b5717739985, -63),
  (0xc612062576589dda95364afe032a819d, 0x3cdc6e306568fc3987f1362cdd507fe6, -61),
  (0xf79687aed3eec5513a83ddbd83f52204, 0x8c1389bc7ec33b47e9ed83b814a49fe0, -59),
  (0x9abe14cd44753b52c4926a9672793542, 0xd78c3615cf3a050cf23472530ce6e3ec, -56),
  (0xc16d9a0095928a2775b7053c0f178293, 0x8d6f439b430886502ec18ee7d0209ce7, -54),
  (0xf1c90080baf72cb15324c68b12dd6338, 0x70cb148213caa7e43a71f2a1c428c420, -52),
  (0x971da05074da7beed3f6fc16ebca5e03, 0x467eecd14c5ea8eea48737a51a997a94, -49),
  (0xbce5086492111aea88f4bb1ca6bcf584, 0x181ea8059f76532a4da9058e613fd939, -47),
  (0xec1e4a7db69561a52b31e9e3d06c32e5, 0x1e2652070753e7f4e11346f1f98fcf88, -45),
  (0x9392ee8e921d5d073aff322e62439fcf, 0x32d7f344649470f90cac0c573bf9e1b5, -42),
  (0xb877aa3236a4b44909befeb9fad487c2, 0xff8df0157db98d374fd70f6d0af85a22, -40),
  (0xe69594bec44de15b4c2ebe687989a9b3, 0xbf716c1add27f08523ccd3484db670aa, -38),
  (0x901d7cf73ab0acd90f9d37014bf60a10, 0x57a6e390ca38f6533660040d3092066a, -35),
  (0xb424dc35095cd80f538484c19ef38c94, 0x6d909c74fcc733e803f805107cb68805, -33),
  (0xe12e13424bb40e132865a5f206b06fb9, 0x88f4c3923bf900e204f606549be42a06, -31),
  (0x8cbccc096f5088cbf93f87b7442e45d3, 0xf598fa3b657ba08d4319c3f4e16e9a44, -28),
  (0xafebff0bcb24aafef78f69a51539d748, 0xf2ff38ca3eda88b093e034f219ca40d5, -26),
  (0xdbe6fecebdedd5beb573440e5a884d1b, 0x2fbf06fcce912adcb8d8422ea03cd10a, -24),
  (0x89705f4136b4a59731680a88f8953030, 0xfdd7645e011abac9f387295d242602a6, -21),
  (0xabcc77118461cefcfdc20d2b36ba7c3d, 0x3d4d3d758161697c7068f3b46d2f8350, -19),
  (0xd6bf94d5e57a42bc3d32907604691b4c, 0x8ca08cd2e1b9c3db8c8330a1887b6424, -17),
  (0x8637bd05af6c69b5a63f9a49c2c1b10f, 0xd7e45803cd141a6937d1fe64f54d1e96, -14),
  (0xa7c5ac471b4784230fcf80dc33721d53, 0xcddd6e04c059210385c67dfe32a0663c, -12),
  (0xd1b71758e219652bd3c36113404ea4a8, 0xc154c985f06f694467381d7dbf487fcb, -10),
  (0x83126e978d4fdf3b645a1cac083126e9, 0x78d4fdf3b645a1cac083126e978d4fdf, -7),
  (0xa3d70a3d70a3d70a3d70a3d70a3d70a3, 0xd70a3d70a3d70a3d70a3d70a3d70a3d7, -5),
  (0xcccccccccccccccccccccccccccccccc, 0xcccccccccccccccccccccccccccccccc, -3)]

/-- src/conv/from_str/powers_of_five.rs:1072-1199 -/
def powersOfFive2_8 : List (Nat × Nat × Int) := [
  (0x80000000000000000000000000000000, 0x00000000000000000000000000000000, 0),
  (0xa0000000000000000000000000000000, 0x00000000000000000000000000000000, 2),
  (0xc8000000000000000000000000000000, 0x00000000000000000000000000000000, 4),
  (0xfa000000000000000000000000000000, 0x00000000000000000000000000000000, 6),
  (0x9c400000000000000000000000000000, 0x00000000000000000000000000000000, 9),
  (0xc3500000000000000000000000000000, 0x00000000000000000000000000000000, 11),
  (0xf4240000000000000000000000000000, 0x00000000000000000000000000000000, 13),
  (0x98968000000000000000000000000000, 0x00000000000000000000000000000000, 16),
  (0xbebc2000000000000000000000000000, 0x00000000000000000000000000000000, 18),
  (0xee6b2800000000000000000000000000, 0x00000000000000000000000000000000, 20),
  (0x9502f900000000000000000000000000, 0x00000000000000000000000000000000, 23),
  (0xba43b740000000000000000000000000, 0x00000000000000000000000000000000, 25),
  (0xe8d4a510000000000000000000000000, 0x00000000000000000000000000000000, 27),
  (0x9184e72a000000000000000000000000, 0x00000000000000000000000000000000, 30),
  (0xb5e620f4800000000000000000000000, 0x00000000000000000000000000000000, 32),
  (0xe35fa931a00000000000000000000000, 0x00000000000000000000000000000000, 34),
  (0x8e1bc9bf040000000000000000000000, 0x00000000000000000000000000000000, 37),
  (0xb1a2bc2ec50000000000000000000000, 0x00000000000000000000000000000000, 39),
  (0xde0b6b3a764000000000000000000000, 0x00000000000000000000000000000000, 41),
  (0x8ac7230489e800000000000000000000, 0x00000000000000000000000000000000, 44),
  (0xad78ebc5ac6200000000000000000000, 0x00000000000000000000000000000000, 46),
  (0xd8d726b7177a80000000000000000000, 0x00000000000000000000000000000000, 48),
  (0x878678326eac90000000000000000000, 0x00000000000000000000000000000000, 51),
  (0xa968163f0a57b4000000000000000000, 0x00000000000000000000000000000000, 53),
  (0xd3c21bcecceda1000000000000000000, 0x00000000000000000000000000000000, 55),
  (0x84595161401484a00000000000000000, 0x00000000000000000000000000000000, 58),
  (0xa56fa5b99019a5c80000000000000000, 0x00000000000000000000000000000000, 60),
  (0xcecb8f27f4200f3a0000000000000000, 0x00000000000000000000000000000000, 62),
  (0x813f3978f89409844000000000000000, 0x00000000000000000000000000000000, 65),
  (0xa18f07d736b90be55000000000000000, 0x00000000000000000000000000000000, 67),
  (0xc9f2c9cd04674edea400000000000000, 0x00000000000000000000000000000000, 69),
  (0xfc6f7c40458122964d00000000000000, 0x00000000000000000000000000000000, 71),
  (0x9dc5ada82b70b59df020000000000000, 0x00000000000000000000000000000000, 74),
  (0xc5371912364ce3056c28000000000000, 0x00000000000000000000000000000000, 76),
  (0xf684df56c3e01bc6c732000000000000, 0x00000000000000000000000000000000, 78),
  (0x9a130b963a6c115c3c7f400000000000, 0x00000000000000000000000000000000, 81),
  (0xc097ce7bc90715b34b9f100000000000, 0x00000000000000000000000000000000, 83),
  (0xf0bdc21abb48db201e86d40000000000, 0x00000000000000000000000000000000, 85),
  (0x96769950b50d88f41314448000000000, 0x00000000000000000000000000000000, 88),
  (0xbc143fa4e250eb3117d955a000000000, 0x00000000000000000000000000000000, 90),
  (0xeb194f8e1ae525fd5dcfab0800000000, 0x00000000000000000000000000000000, 92),
  (0x92efd1b8d0cf37be5aa1cae500000000, 0x00000000000000000000000000000000, 95),
  (0xb7abc627050305adf14a3d9e40000000, 0x00000000000000000000000000000000, 97),
  (0xe596b7b0c643c7196d9ccd05d0000000, 0x00000000000000000000000000000000, 99),
  (0x8f7e32ce7bea5c6fe4820023a2000000, 0x00000000000000000000000000000000, 102),
  (0xb35dbf821ae4f38bdda2802c8a800000, 0x00000000000000000000000000000000, 104),
  (0xe0352f62a19e306ed50b2037ad200000, 0x00000000000000000000000000000000, 106),
  (0x8c213d9da502de454526f422cc340000, 0x00000000000000000000000000000000, 109),
  (0xaf298d050e4395d69670b12b7f410000, 0x00000000000000000000000000000000, 111),
  (0xdaf3f04651d47b4c3c0cdd765f114000, 0x00000000000000000000000000000000, 113),
  (0x88d8762bf324cd0fa5880a69fb6ac800, 0x00000000000000000000000000000000, 116),
  (0xab0e93b6efee00538eea0d047a457a00, 0x00000000000000000000000000000000, 118),
  (0xd5d238a4abe9806872a4904598d6d880, 0x00000000000000000000000000000000, 120),
  (0x85a36366eb71f04147a6da2b7f864750, 0x00000000000000000000000000000000, 123),
  (0xa70c3c40a64e6c51999090b65f67d924, 0x00000000000000000000000000000000, 125),
  (0xd0cf4b50cfe20765fff4b4e3f741cf6d, 0x00000000000000000000000000000000, 127),
  (0x82818f1281ed449fbff8f10e7a8921a4, 0x20000000000000000000000000000000, 130),
  (0xa321f2d7226895c7aff72d52192b6a0d, 0x28000000000000000000000000000000, 132),
  (0xcbea6f8ceb02bb399bf4f8a69f764490, 0x72000000000000000000000000000000, 134),
  (0xfee50b7025c36a0802f236d04753d5b4, 0x8e800000000000000000000000000000, 136),
  (0x9f4f2726179a224501d762422c946590, 0xd9100000000000000000000000000000, 139),
  (0xc722f0ef9d80aad6424d3ad2b7b97ef5, 0x0f540000000000000000000000000000, 141),
  (0xf8ebad2b84e0d58bd2e0898765a7deb2, 0x53290000000000000000000000000000, 143),
  (0x9b934c3b330c857763cc55f49f88eb2f, 0x73f9a000000000000000000000000000, 146),
  (0xc2781f49ffcfa6d53cbf6b71c76b25fb, 0x50f80800000000000000000000000000, 148),
  (0xf316271c7fc3908a8bef464e3945ef7a, 0x25360a00000000000000000000000000, 150),
  (0x97edd871cfda3a5697758bf0e3cbb5ac, 0x5741c640000000000000000000000000, 153),
  (0xbde94e8e43d0c8ec3d52eeed1cbea317, 0x6d1237d0000000000000000000000000, 155),
  (0xed63a231d4c4fb274ca7aaa863ee4bdd, 0x4856c5c4000000000000000000000000, 157),
  (0x945e455f24fb1cf88fe8caa93e74ef6a, 0x4d363b9a800000000000000000000000, 160),
  (0xb975d6b6ee39e436b3e2fd538e122b44, 0xe083ca81200000000000000000000000, 162),
  (0xe7d34c64a9c85d4460dbbca87196b616, 0x18a4bd21680000000000000000000000, 164),
  (0x90e40fbeea1d3a4abc8955e946fe31cd, 0xcf66f634e10000000000000000000000, 167),
  (0xb51d13aea4a488dd6babab6398bdbe41, 0x4340b3c2194000000000000000000000, 169),
  (0xe264589a4dcdab14c696963c7eed2dd1, 0x9410e0b29f9000000000000000000000, 171),
  (0x8d7eb76070a08aecfc1e1de5cf543ca2, 0xfc8a8c6fa3ba00000000000000000000, 174),
  (0xb0de65388cc8ada83b25a55f43294bcb, 0xbbad2f8b8ca880000000000000000000, 176),
  (0xdd15fe86affad91249ef0eb713f39ebe, 0xaa987b6e6fd2a0000000000000000000, 178),
  (0x8a2dbf142dfcc7ab6e3569326c784337, 0x2a9f4d2505e3a4000000000000000000, 181),
  (0xacb92ed9397bf99649c2c37f07965404, 0xf547206e475c8d000000000000000000, 183),
  (0xd7e77a8f87daf7fbdc33745ec97be906, 0x3298e889d933b0400000000000000000, 185),
  (0x86f0ac99b4e8dafd69a028bb3ded71a3, 0xdf9f915627c04e280000000000000000, 188),
  (0xa8acd7c0222311bcc40832ea0d68ce0c, 0xd78775abb1b061b20000000000000000, 190),
  (0xd2d80db02aabd62bf50a3fa490c30190, 0x0d6953169e1c7a1e8000000000000000, 192),
  (0x83c7088e1aab65db792667c6da79e0fa, 0x0861d3ee22d1cc531000000000000000, 195),
  (0xa4b8cab1a1563f52577001b891185938, 0x8a7a48e9ab863f67d400000000000000, 197),
  (0xcde6fd5e09abcf26ed4c0226b55e6f86, 0xad18db241667cf41c900000000000000, 199),
  (0x80b05e5ac60b6178544f8158315b05b4, 0x2c2f88f68e00e1891da0000000000000, 202),
  (0xa0dc75f1778e39d6696361ae3db1c721, 0x373b6b34318119eb6508000000000000, 204),
  (0xc913936dd571c84c03bc3a19cd1e38e9, 0x850a46013de160663e4a000000000000, 206),
  (0xfb5878494ace3a5f04ab48a04065c723, 0xe64cd7818d59b87fcddc800000000000, 208),
  (0x9d174b2dcec0e47b62eb0d64283f9c76, 0x6ff006b0f858134fe0a9d00000000000, 211),
  (0xc45d1df942711d9a3ba5d0bd324f8394, 0x0bec085d366e1823d8d4440000000000, 213),
  (0xf5746577930d6500ca8f44ec7ee36479, 0x0ee70a7484099e2ccf09550000000000, 215),
  (0x9968bf6abbe85f207e998b13cf4e1ecb, 0xa9506688d28602dc0165d52000000000, 218),
  (0xbfc2ef456ae276e89e3fedd8c321a67e, 0x93a4802b0727839301bf4a6800000000, 220),
  (0xefb3ab16c59b14a2c5cfe94ef3ea101e, 0x388da035c8f16477c22f1d0200000000, 222),
  (0x95d04aee3b80ece5bba1f1d158724a12, 0xe35884219d96decad95d722140000000, 225),
  (0xbb445da9ca61281f2a8a6e45ae8edc97, 0x9c2ea52a04fc967d8fb4cea990000000, 227),
  (0xea1575143cf97226f52d09d71a3293bd, 0x833a4e74863bbc1cf3a20253f4000000, 229),
  (0x924d692ca61be758593c2626705f9c56, 0x72047108d3e555921845417478800000, 232),
  (0xb6e0c377cfa2e12e6f8b2fb00c77836c, 0x0e858d4b08deaaf69e5691d196a00000, 234),
  (0xe498f455c38b997a0b6dfb9c0f956447, 0x1226f09dcb1655b445ec3645fc480000, 236),
  (0x8edf98b59a373fec4724bd4189bd5eac, 0x6b5856629eedf590abb3a1ebbdad0000, 239),
  (0xb2977ee300c50fe758edec91ec2cb657, 0x862e6bfb46a972f4d6a08a66ad184000, 241),
  (0xdf3d5e9bc0f653e12f2967b66737e3ed, 0x67ba06fa1853cfb20c48ad00585e5000, 243),
  (0x8b865b215899f46cbd79e0d20082ee74, 0x60d4445c4f3461cf47ad6c20373af200, 246),
  (0xae67f1e9aec07187ecd8590680a3aa11, 0x7909557363017a431998c7284509ae80, 248),
  (0xda01ee641a708de9e80e6f4820cc9495, 0xd74baad03bc1d8d3dffef8f2564c1a20, 250),
  (0x884134fe908658b23109058d147fdcdd, 0xa68f4ac2255927846bff5b9775ef9054, 253),
  (0xaa51823e34a7eedebd4b46f0599fd415, 0x10331d72aeaf716586ff327d536b7469, 255),
  (0xd4e5e2cdc1d1ea966c9e18ac7007c91a, 0x543fe4cf5a5b4dbee8beff1ca8465183, 257),
  (0x850fadc09923329e03e2cf6bc604ddb0, 0x74a7ef019879109751775f71e92bf2f2, 260),
  (0xa6539930bf6bff4584db8346b786151c, 0x91d1eac1fe9754bd25d5374e6376efae, 262),
  (0xcfe87f7cef46ff16e612641865679a63, 0xb64665727e3d29ec6f4a8521fc54ab9a, 264),
  (0x81f14fae158c5f6e4fcb7e8f3f60c07e, 0x51ebff678ee63a33c58e93353db4eb40, 267),
  (0xa26da3999aef7749e3be5e330f38f09d, 0xe666ff41729fc8c0b6f238028d222610, 269),
  (0xcb090c8001ab551c5cadf5bfd3072cc5, 0x6000bf11cf47baf0e4aec603306aaf94, 271),
  (0xfdcb4fa002162a6373d9732fc7c8f7f6, 0xb800eed64319a9ad1dda7783fc855b79, 273),
  (0x9e9f11c4014dda7e2867e7fddcdd9afa, 0x33009545e9f00a0c32a88ab27dd3592c, 276),
  (0xc646d63501a1511db281e1fd541501b8, 0xbfc0ba97646c0c8f3f52ad5f1d482f77, 278),
  (0xf7d88bc24209a5651f225a7ca91a4226, 0xefb0e93d3d870fb30f2758b6e49a3b54, 280),
  (0x9ae757596946075f3375788de9b06958, 0x55ce91c6467469cfe97897724ee06515, 283),
  (0xc1a12d2fc39789370052d6b1641c83ae, 0x6b423637d8118443e3d6bd4ee2987e5a, 285),
  (0xf209787bb47d6b84c0678c5dbd23a49a, 0x0612c3c5ce15e554dccc6ca29b3e9df0, 287),
  (0x9745eb4d50ce6332f840b7ba963646e0, 0x43cbba5ba0cdaf5509ffc3e5a10722b6, 290),
  (0xbd176620a501fbffb650e5a93bc3d898, 0x54bea8f289011b2a4c7fb4df0948eb64, 292),
  (0xec5d3fa8ce427affa3e51f138ab4cebe, 0x69ee532f2b4161f4df9fa216cb9b263d, 294)]

/-- src/conv/from_str/powers_of_five.rs:1200-1327 -/
def powersOfFive2_9 : List (Nat × Nat × Int) := [
  (0x93ba47c980e98cdfc66f336c36b10137, 0x0234f3fd7b08dd390bc3c54e3f40f7e6, 297),
  (0xb8a8d9bbe123f017b80b0047445d4184, 0xc2c230fcd9cb14874eb4b6a1cf1135df, 299),
  (0xe6d3102ad96cec1da60dc059157491e5, 0xf372bd3c103dd9a92261e44a42d58357, 301),
  (0x9043ea1ac7e4139287c89837ad68db2f, 0xb827b6458a26a809b57d2eae69c57216, 304),
  (0xb454e4a179dd187729babe4598c311fb, 0xa631a3d6ecb0520c22dc7a5a0436ce9c, 306),
  (0xe16a1dc9d8545e94f4296dd6fef3d67a, 0x8fbe0ccca7dc668f2b9398f085448243, 308),
  (0x8ce2529e2734bb1d1899e4a65f58660c, 0x99d6c7ffe8e9c0197b3c3f96534ad16a, 311),
  (0xb01ae745b101e9e45ec05dcff72e7f8f, 0xc04c79ffe324301fda0b4f7be81d85c4, 313),
  (0xdc21a1171d42645d76707543f4fa1f73, 0xb05f987fdbed3c27d08e235ae224e736, 315),
  (0x899504ae72497eba6a06494a791c53a8, 0x4e3bbf4fe9744598e258d618cd571081, 318),
  (0xabfa45da0edbde690487db9d17636892, 0x61caaf23e3d156ff1aef0b9f00acd4a2, 320),
  (0xd6f8d7509292d60345a9d2845d3c42b6, 0xfa3d5aecdcc5acbee1aace86c0d809ca, 322),
  (0x865b86925b9bc5c20b8a2392ba45a9b2, 0x5c6658d409fb8bf74d0ac1143887061e, 325),
  (0xa7f26836f282b7328e6cac7768d7141e, 0xf37fef090c7a6ef5204d715946a8c7a6, 327),
  (0xd1ef0244af2364ff3207d795430cd926, 0xb05feacb4f990ab26860cdaf9852f990, 329),
  (0x8335616aed761f1f7f44e6bd49e807b8, 0x2e3bf2bf11bfa6af813c808dbf33dbfa, 332),
  (0xa402b9c5a8d3a6e75f16206c9c6209a6, 0x39caef6ed62f905b618ba0b12f00d2f8, 334),
  (0xcd036837130890a136dba887c37a8c0f, 0xc83dab4a8bbb747239ee88dd7ac107b6, 336),
  (0x802221226be55a64c2494954da2c9789, 0xdd268b0e975528c76435158a6cb8a4d2, 339),
  (0xa02aa96b06deb0fdf2db9baa10b7bd6c, 0x54702dd23d2a72f93d425aed07e6ce06, 341),
  (0xc83553c5c8965d3d6f92829494e5acc7, 0x698c3946cc750fb78c92f1a849e08188, 343),
  (0xfa42a8b73abbf48ccb772339ba1f17f9, 0x43ef47987f9253a56fb7ae125c58a1ea, 345),
  (0x9c69a97284b578d7ff2a760414536efb, 0xca758cbf4fbb744765d2cccb79b76532, 348),
  (0xc38413cf25e2d70dfef5138519684aba, 0xbd12efef23aa51593f477ffe58253e7f, 350),
  (0xf46518c2ef5b8cd17eb258665fc25d69, 0x6c57abeaec94e5af8f195ffdee2e8e1f, 352),
  (0x98bf2f79d5993802ef2f773ffbd97a61, 0xe3b6cb72d3dd0f8db96fdbfeb4dd18d3, 355),
  (0xbeeefb584aff8603aafb550ffacfd8fa, 0x5ca47e4f88d4537127cbd2fe62145f08, 357),
  (0xeeaaba2e5dbf678495ba2a53f983cf38, 0xf3cd9de36b09684d71bec7bdfa9976ca, 359),
  (0x952ab45cfa97a0b2dd945a747bf26183, 0x986082ae22e5e13067173cd6bc9fea3e, 362),
  (0xba756174393d88df94f971119aeef9e4, 0x7e78a359ab9f597c80dd0c0c6bc7e4ce, 364),
  (0xe912b9d1478ceb177a37cd5601aab85d, 0x9e16cc3016872fdba1144f0f86b9de01, 366),
  (0x91abb422ccb812eeac62e055c10ab33a, 0x82ce3f9e0e147de944acb169b4342ac0, 369),
  (0xb616a12b7fe617aa577b986b314d6009, 0x2381cf8591999d6395d7ddc421413571, 371),
  (0xe39c49765fdf9d94ed5a7e85fda0b80b, 0x6c624366f60004bc7b4dd535299182cd, 373),
  (0x8e41ade9fbebc27d14588f13be847307, 0x23bd6a2059c002f5cd10a54139faf1c0, 376),
  (0xb1d219647ae6b31c596eb2d8ae258fc8, 0xecacc4a8703003b34054ce918879ae30, 378),
  (0xde469fbd99a05fe36fca5f8ed9aef3bb, 0x27d7f5d28c3c04a0106a0235ea9819bc, 380),
  (0x8aec23d680043bee25de7bb9480d5854, 0xf8e6f9a397a582e40a424161b29f1015, 383),
  (0xada72ccc20054ae9af561aa79a10ae6a, 0x3720b80c7d8ee39d0cd2d1ba1f46d41b, 385),
  (0xd910f7ff28069da41b2ba1518094da04, 0xc4e8e60f9cf29c8450078628a7188922, 387),
  (0x87aa9aff7904228690fb44d2f05d0842, 0xfb118fc9c217a1d2b204b3d9686f55b5, 390),
  (0xa99541bf57452b28353a1607ac744a53, 0xb9d5f3bc329d8a475e85e0cfc28b2b22, 392),
  (0xd3fa922f2d1675f242889b8997915ce8, 0xa84b70ab3f44ecd936275903b32df5eb, 394),
  (0x847c9b5d7c2e09b769956135febada11, 0x692f266b078b1407c1d897a24ffcb9b3, 397),
  (0xa59bc234db398c2543fab9837e699095, 0xc37af005c96dd909b24ebd8ae3fbe81f, 399),
  (0xcf02b2c21207ef2e94f967e45e03f4bb, 0x3459ac073bc94f4c1ee26ced9cfae227, 401),
  (0x8161afb94b44f57d1d1be0eebac278f5, 0x00b80b84855dd18f934d8414821ccd58, 404),
  (0xa1ba1ba79e1632dc6462d92a69731732, 0x40e60e65a6b545f37820e519a2a400af, 406),
  (0xca28a291859bbf937d7b8f7503cfdcfe, 0xd11f91ff1062977056291e600b4d00db, 408),
  (0xfcb2cb35e702af785cda735244c3d43e, 0x8567767ed47b3d4c6bb365f80e204111, 410),
  (0x9defbf01b061adab3a0888136afa64a7, 0x1360aa0f44cd064fc3501fbb08d428ab, 413),
  (0xc56baec21c7a1916088aaa1845b8fdd0, 0xd838d493160047e3b42427a9cb0932d5, 415),
  (0xf6c69a72a3989f5b8aad549e57273d45, 0x0e4709b7db8059dca12d31943dcb7f8b, 417),
  (0x9a3c2087a63f639936ac54e2f678864b, 0x28ec6612e9303829e4bc3efca69f2fb7, 420),
  (0xc0cb28a98fcf3c7f84576a1bb416a7dd, 0xf3277f97a37c46345deb4ebbd046fba4, 422),
  (0xf0fdf2d3f3c30b9f656d44a2a11c51d5, 0x6ff15f7d8c5b57c17566226ac458ba8e, 424),
  (0x969eb7c47859e7439f644ae5a4b1b325, 0x65f6dbae77b916d8e95fd582bab77498, 427),
  (0xbc4665b596706114873d5d9f0dde1fee, 0xbf74929a15a75c8f23b7cae3696551bf, 429),
  (0xeb57ff22fc0c7959a90cb506d155a7ea, 0x6f51b7409b1133b2eca5bd9c43bea62e, 431),
  (0x9316ff75dd87cbd809a7f12442d588f2, 0x8593128860eac04fd3e79681aa5727dd, 434),
  (0xb7dcbf5354e9bece0c11ed6d538aeb2f, 0x26f7d72a79257063c8e17c2214ecf1d4, 436),
  (0xe5d3ef282a242e818f1668c8a86da5fa, 0xf0b5ccf5176ecc7cbb19db2a9a282e49, 438),
  (0x8fa475791a569d10f96e017d694487bc, 0xd671a0192ea53fcdf4f028faa0591cee, 441),
  (0xb38d92d760ec445537c981dcc395a9ac, 0x0c0e081f7a4e8fc1722c3339486f6429, 443),
  (0xe070f78d3927556a85bbe253f47b1417, 0x0f118a2758e233b1ceb740079a8b3d33, 445),
  (0x8c469ab843b8956293956d7478ccec8e, 0x696af658978d604f21328804c0970640, 448),
  (0xaf58416654a6babb387ac8d1970027b2, 0x03c5b3eebd70b862e97f2a05f0bcc7d0, 450),
  (0xdb2e51bfe9d0696a06997b05fcc0319e, 0x84b720ea6ccce67ba3def4876cebf9c4, 452),
  (0x88fcf317f22241e2441fece3bdf81f03, 0x12f274928400100d466b58d4a4137c1a, 455),
  (0xab3c2fddeeaad25ad527e81cad7626c3, 0xd7af11b72500141098062f09cd185b21, 457),
  (0xd60b3bd56a5586f18a71e223d8d3b074, 0xcd9ad624ee401914be07bacc405e71ea, 459),
  (0x85c7056562757456f6872d5667844e49, 0x0080c5d714e80facf6c4d4bfa83b0732, 462),
  (0xa738c6bebb12d16cb428f8ac016561db, 0x40a0f74cda221398347609ef9249c8fe, 464),
  (0xd106f86e69d785c7e13336d701beba52, 0x10c9352010aa987e41938c6b76dc3b3e, 466),
  (0x82a45b450226b39cecc0024661173473, 0x4a7dc1340a6a9f4ee8fc37c32a49a507, 469),
  (0xa34d721642b0608427f002d7f95d0190, 0x1d1d31810d054722a33b45b3f4dc0e48, 471),
  (0xcc20ce9bd35c78a531ec038df7b441f4, 0x24647de1504698eb4c0a1720f21311db, 473),
  (0xff290242c83396ce7e67047175a15271, 0x2d7d9d59a4583f261f0c9ce92e97d651, 475),
  (0x9f79a169bd203e410f0062c6e984d386, 0xbc6e825806b72777d367e211bd1ee5f3, 478),
  (0xc75809c42c684dd152c07b78a3e60868, 0x6b8a22ee0864f155c841da962c669f70, 480),
  (0xf92e0c3537826145a7709a56ccdf8a82, 0x866caba98a7e2dab3a52513bb780474c, 482),
  (0x9bbcc7a142b17ccb88a66076400bb691, 0x9403eb49f68edc8b047372c552b02c8f, 485),
  (0xc2abf989935ddbfe6acff893d00ea435, 0xf904e61c743293adc5904f76a75c37b3, 487),
  (0xf356f7ebf83552fe0583f6b8c4124d43, 0x77461fa3913f389936f46354513345a0, 489),
  (0x98165af37b2153dec3727a337a8b704a, 0x2a8bd3c63ac7835fc258be14b2c00b84, 492),
  (0xbe1bf1b059e9a8d6744f18c0592e4c5c, 0xb52ec8b7c9796437b2eeed99df700e65, 494),
  (0xeda2ee1c7064130c1162def06f79df73, 0xe27a7ae5bbd7bd459faaa900574c11fe, 496),
  (0x9485d4d1c63e8be78addcb5645ac2ba8, 0x6d8c8ccf9566d64b83caa9a0368f8b3f, 499),
  (0xb9a74a0637ce2ee16d953e2bd7173692, 0x88efb0037ac08bde64bd540844336e0e, 501),
  (0xe8111c87c5c1ba99c8fa8db6ccdd0437, 0x2b2b9c045970aed5fdeca90a55404992, 503),
  (0x910ab1d4db9914a01d9c9892400a22a2, 0x7afb4182b7e66d45beb3e9a675482dfb, 506),
  (0xb54d5e4a127f59c82503beb6d00cab4b, 0x19ba11e365e008972e60e410129a397a, 508),
  (0xe2a0b5dc971f303a2e44ae64840fd61d, 0xe028965c3f580abcf9f91d141740c7d9, 510),
  (0x8da471a9de737e245ceaecfed289e5d2, 0xac195df9a79706b61c3bb22c8e887ce7, 513),
  (0xb10d8e1456105dad7425a83e872c5f47, 0x571fb578117cc863a34a9eb7b22a9c21, 515),
  (0xdd50f1996b947518d12f124e28f77719, 0x2ce7a2d615dbfa7c8c1d46659eb5432a, 517),
  (0x8a5296ffe33cc92f82bd6b70d99aaa6f, 0xbc10c5c5cda97c8dd7924bff833149fa, 520),
  (0xace73cbfdc0bfb7b636cc64d1001550b, 0xab14f7374113dbb14d76deff63fd9c78, 522),
  (0xd8210befd30efa5a3c47f7e05401aa4e, 0x95da35051158d29da0d496bf3cfd0397, 524),
  (0x8714a775e3e95c7865acfaec34810a71, 0x1da861232ad783a28484de37861e223e, 527),
  (0xa8d9d1535ce3b3967f1839a741a14d0d, 0x6512796bf58d648b25a615c567a5aace, 529),
  (0xd31045a8341ca07c1ede48111209a050, 0xbe5717c6f2f0bdadef0f9b36c18f1581, 531),
  (0x83ea2b892091e44d934aed0aab460432, 0x76f66edc57d6768cb569c10238f96d70, 534),
  (0xa4e4b66b68b65d60f81da84d5617853f, 0x14b40a936dcc142fe2c43142c737c8cd, 536),
  (0xce1de40642e3f4b936251260ab9d668e, 0xd9e10d38493f193bdb753d937905bb00, 538),
  (0x80d2ae83e9ce78f3c1d72b7c6b426019, 0x482ca8432dc76fc56929467c2ba394e0, 541),
  (0xa1075a24e4421730b24cf65b8612f81f, 0x9a37d253f9394bb6c373981b368c7a18, 543),
  (0xc94930ae1d529cfcdee033f26797b627, 0x80c5c6e8f7879ea474507e22042f989e, 545),
  (0xfb9b7cd9a4a7443c169840ef017da3b1, 0x60f738a33569864d91649daa853b7ec6, 547),
  (0x9d412e0806e88aa58e1f289560ee864e, 0xdc9a83660161f3f07adee28a93452f3b, 550),
  (0xc491798a08a2ad4ef1a6f2bab92a27e2, 0x93c1243f81ba70ec99969b2d38167b0a, 552),
  (0xf5b5d7ec8acb58a2ae10af696774b1db, 0x38b16d4f62290d27bffc41f8861c19cd, 554),
  (0x9991a6f3d6bf1765acca6da1e0a8ef29, 0x036ee4519d59a838d7fda93b53d19020, 557),
  (0xbff610b0cc6edd3f17fd090a58d32af3, 0x444a9d6604b012470dfd138a28c5f428, 559),
  (0xeff394dcff8a948eddfc4b4cef07f5b0, 0x155d44bf85dc16d8d17c586cb2f77132, 561),
  (0x95f83d0a1fb69cd94abdaf101564f98e, 0x0d5a4af7b3a98e4782edb743efdaa6bf, 564),
  (0xbb764c4ca7a4440f9d6d1ad41abe37f1, 0x90b0ddb5a093f1d963a92514ebd1506f, 566),
  (0xea53df5fd18d551384c86189216dc5ed, 0xf4dd152308b8ee4fbc936e5a26c5a48b, 568),
  (0x92746b9be2f8552c32fd3cf5b4e49bb4, 0xb90a2d35e57394f1d5dc24f8583b86d7, 571),
  (0xb7118682dbb66a773fbc8c33221dc2a1, 0xe74cb8835ed07a2e4b532e366e4a688c, 573),
  (0xe4d5e82392a405150fabaf3feaa5334a, 0x611fe6a4368498b9de27f9c409dd02b0, 575),
  (0x8f05b1163ba6832d29cb4d87f2a7400e, 0x7cb3f026a212df742ad8fc1a862a21ae, 578),
  (0xb2c71d5bca9023f8743e20e9ef511012, 0x1be0ec304a979751358f3b2127b4aa19, 580),
  (0xdf78e4b2bd342cf6914da9246b255416, 0xa2d9273c5d3d7d2582f309e971a1d4a0, 582),
  (0x8bab8eefb6409c1a1ad089b6c2f7548e, 0x25c7b885ba466e3771d7e631e70524e4, 585),
  (0xae9672aba3d0c320a184ac2473b529b1, 0xaf39a6a728d809c54e4ddfbe60c66e1d, 587),
  (0xda3c0f568cc4f3e8c9e5d72d90a2741e, 0x1b081050f30e0c36a1e157adf8f809a4, 589),
  (0x8865899617fb18717e2fa67c7a658892, 0xd0e50a3297e8c7a2252cd6ccbb9b0606, 592)]

/-- src/conv/from_str/powers_of_five.rs:1328-1455 -/
def powersOfFive2_10 : List (Nat × Nat × Int) := [
  (0xaa7eebfb9df9de8dddbb901b98feeab7, 0x851e4cbf3de2f98aae780c7fea81c788, 594),
  (0xd51ea6fa85785631552a74227f3ea565, 0x6665dfef0d5bb7ed5a160f9fe522396a, 596),
  (0x8533285c936b35ded53a88958f87275f, 0x5fffabf5685952f4584dc9c3ef3563e2, 599),
  (0xa67ff273b84603568a892abaf368f137, 0x37ff96f2c26fa7b16e613c34eb02bcdb, 601),
  (0xd01fef10a657842c2d2b7569b0432d85, 0x05ff7caf730b919dc9f98b4225c36c11, 603),
  (0x8213f56a67f6b29b9c3b29620e29fc73, 0x23bfadeda7e73b029e3bf709579a238b, 606),
  (0xa298f2c501f45f428349f3ba91b47b8f, 0xecaf996911e109c345caf4cbad80ac6e, 608),
  (0xcb3f2f7642717713241c70a936219a73, 0xe7db7fc356594c34173db1fe98e0d789, 610),
  (0xfe0efb53d30dd4d7ed238cd383aa0110, 0xe1d25fb42bef9f411d0d1e7e3f190d6b, 612),
  (0x9ec95d1463e8a506f4363804324a40aa, 0x8d237bd09b75c388b228330ee76fa863, 615),
  (0xc67bb4597ce2ce48b143c6053edcd0d5, 0x306c5ac4c253346adeb23fd2a14b927c, 617),
  (0xf81aa16fdc1b81dadd94b7868e94050a, 0x7c877175f2e80185965ecfc7499e771b, 619),
  (0x9b10a4e5e9913128ca7cf2b4191c8326, 0x8dd4a6e9b7d100f37dfb41dc8e030a71, 622),
  (0xc1d4ce1f63f57d72fd1c2f611f63a3f0, 0x3149d0a425c541305d7a1253b183cd0d, 624),
  (0xf24a01a73cf2dccfbc633b39673c8cec, 0x3d9c44cd2f36917c74d896e89de4c050, 626),
  (0x976e41088617ca01d5be0503e085d813, 0xa681ab003d821aedc9075e5162aef832, 629),
  (0xbd49d14aa79dbc824b2d8644d8a74e18, 0x902215c04ce2a1a93b4935e5bb5ab63f, 631),
  (0xec9c459d51852ba2ddf8e7d60ed1219e, 0xb42a9b30601b4a138a1b835f2a3163ce, 633),
  (0x93e1ab8252f33b45cabb90e5c942b503, 0x309aa0fe3c110e4c3651321b7a5ede61, 636),
  (0xb8da1662e7b00a173d6a751f3b936243, 0xfcc1493dcb1551df43e57ea258f695f9, 638),
  (0xe7109bfba19c0c9d0cc512670a783ad4, 0xfbf19b8d3ddaa65714dede4aef343b77, 640),
  (0x906a617d450187e227fb2b80668b24c5, 0x1d77013846a8a7f66d0b4aeed580a52a, 643),
  (0xb484f9dc9641e9dab1f9f660802dedf6, 0x64d4c1865852d1f4084e1daa8ae0ce75, 645),
  (0xe1a63853bbd264515e7873f8a0396973, 0xfe09f1e7ee6786710a61a5152d990213, 647),
  (0x8d07e33455637eb2db0b487b6423e1e8, 0x7ec63730f500b406a67d072d3c7fa14b, 650),
  (0xb049dc016abc5e5f91ce1a9a3d2cda62, 0x9e77c4fd3240e108501c48f88b9f899e, 652),
  (0xdc5c5301c56b75f77641a140cc7810fb, 0x4615b63c7ed1194a64235b36ae876c06, 654),
  (0x89b9b3e11b6329baa9e904c87fcb0a9d, 0x0bcd91e5cf42afce7e9619022d14a384, 657),
  (0xac2820d9623bf429546345fa9fbdcd44, 0x4ec0f65f43135bc21e3b9f42b859cc65, 659),
  (0xd732290fbacaf133a97c177947ad4095, 0x627133f713d832b2a5ca871366703f7e, 661),
  (0x867f59a9d4bed6c049ed8eabcccc485d, 0x5d86c07a6c671fafa79e946c200627af, 664),
  (0xa81f301449ee8c705c68f256bfff5a74, 0xb4e870990780e79b918639872807b19a, 666),
  (0xd226fc195c6a2f8c73832eec6fff3111, 0xe2228cbf4961218275e7c7e8f2099e01, 668),
  (0x83585d8fd9c25db7c831fd53c5ff7eab, 0x2d5597f78ddcb4f189b0dcf1974602c1, 671),
  (0xa42e74f3d032f525ba3e7ca8b77f5e55, 0xf8aafdf57153e22dec1d142dfd178371, 673),
  (0xcd3a1230c43fb26f28ce1bd2e55f35eb, 0x76d5bd72cda8dab9672459397c5d644d, 675),
  (0x80444b5e7aa7cf857980d163cf5b81b3, 0x2a459667c08988b3e076b7c3edba5eb0, 678),
  (0xa0555e361951c366d7e105bcc332621f, 0xf4d6fc01b0abeae0d89465b4e928f65c, 680),
  (0xc86ab5c39fa634408dd9472bf3fefaa7, 0xf20cbb021cd6e5990eb97f22237333f3, 682),
  (0xfa856334878fc150b14f98f6f0feb951, 0xee8fe9c2a40c9eff5267deeaac5000f0, 684),
  (0x9c935e00d4b9d8d26ed1bf9a569f33d3, 0x3519f219a687e35f9380eb52abb20096, 687),
  (0xc3b8358109e84f070a862f80ec4700c8, 0x02606ea01029dc3778612627569e80bc, 689),
  (0xf4a642e14c6262c8cd27bb612758c0fa, 0x02f88a481434534556796fb12c4620eb, 691),
  (0x98e7e9cccfbd7dbd8038d51cb897789c, 0x41db566d0ca0b40b560be5cebbabd492, 694),
  (0xbf21e44003acdd2ce0470a63e6bd56c3, 0x52522c084fc8e10e2b8edf426a96c9b7, 696),
  (0xeeea5d50049814781858ccfce06cac74, 0x26e6b70a63bb1951b6729713053c7c25, 698),
  (0x95527a5202df0ccb0f37801e0c43ebc8, 0x985032667e54efd312079e6be345cd97, 701),
  (0xbaa718e68396cffdd30560258f54e6ba, 0xbe643f001dea2bc7d6898606dc1740fd, 703),
  (0xe950df20247c83fd47c6b82ef32a2069, 0x6dfd4ec02564b6b9cc2be788931d113c, 705),
  (0x91d28b7416cdd27e4cdc331d57fa5441, 0xe4be5138175ef2341f9b70b55bf22ac5, 708),
  (0xb6472e511c81471de0133fe4adf8e952, 0x5dede5861d36aec127824ce2b2eeb577, 710),
  (0xe3d8f9e563a198e558180fddd97723a6, 0xf5695ee7a4845a717162e01b5faa62d5, 712),
  (0x8e679c2f5e44ff8f570f09eaa7ea7648, 0x5961db50c6d2b886e6ddcc111bca7dc5, 715),
  (0xb201833b35d63f732cd2cc6551e513da, 0x6fba5224f88766a8a0953f1562bd1d36, 717),
  (0xde81e40a034bcf4ff8077f7ea65e58d1, 0x0ba8e6ae36a94052c8ba8edabb6c6484, 719),
  (0x8b112e86420f6191fb04afaf27faf782, 0xa749902ce229c833bd749948b523bed2, 722),
  (0xadd57a27d29339f679c5db9af1f9b563, 0x511bf4381ab43a40acd1bf9ae26cae87, 724),
  (0xd94ad8b1c738087418375281ae7822bc, 0x2562f146216148d0d8062f819b07da29, 726),
  (0x87cec76f1c8305488f2293910d0b15b5, 0x975dd6cbd4dccd828703ddb100e4e859, 729),
  (0xa9c2794ae3a3c69ab2eb3875504ddb22, 0xfd354c7eca1400e328c4d51d411e2270, 731),
  (0xd433179d9c8cb8415fa60692a46151eb, 0xbc829f9e7c99011bf2f60a649165ab0c, 733),
  (0x849feec281d7f328dbc7c41ba6bcd333, 0x55d1a3c30ddfa0b177d9c67edadf8ae7, 736),
  (0xa5c7ea73224deff312b9b522906c0800, 0x2b460cb3d15788ddd5d0381e91976da1, 738),
  (0xcf39e50feae16befd768226b34870a00, 0x36178fe0c5ad6b154b44462635fd4909, 740),
  (0x81842f29f2cce375e6a1158300d46640, 0x21ceb9ec7b8c62ed4f0aabd7e1be4da6, 743),
  (0xa1e53af46f801c5360495ae3c1097fd0, 0x2a4268679a6f7ba8a2cd56cdda2de10f, 745),
  (0xca5e89b18b602368385bb19cb14bdfc4, 0x34d30281810b5a92cb80ac8150b95953, 747),
  (0xfcf62c1dee382c4246729e03dd9ed7b5, 0x4207c321e14e31377e60d7a1a4e7afa8, 749),
  (0x9e19db92b4e31ba96c07a2c26a8346d1, 0x4944d9f52cd0dec2aefc86c50710cdc9, 752),
  (0xc5a05277621be293c7098b7305241885, 0x9b961072780516735abba87648d5013b, 754),
  (0xf70867153aa2db38b8cbee4fc66d1ea7, 0x027b948f16065c10316a9293db0a418a, 756),
  (0x9a65406d44a5c903737f74f1dc043328, 0x618d3cd96dc3f98a1ee29b9c68e668f6, 759),
  (0xc0fe908895cf3b44505f522e53053ff2, 0x79f08c0fc934f7eca69b428383200334, 761),
  (0xf13e34aabb430a15647726b9e7c68fef, 0x186caf13bb8235e7d042132463e80401, 763),
  (0x96c6e0eab509e64d5eca783430dc19f5, 0x6f43ed6c553161b0e2294bf6be710280, 766),
  (0xbc789925624c5fe0b67d16413d132072, 0xcb14e8c76a7dba1d1ab39ef46e0d4321, 768),
  (0xeb96bf6ebadf77d8e41c5bd18c57e88f, 0x7dda22f9451d28a4616086b1899093e9, 770),
  (0x933e37a534cbaae78e91b962f7b6f159, 0xaea855dbcb323966bcdc542ef5fa5c71, 773),
  (0xb80dc58e81fe95a1723627bbb5a4adb0, 0x1a526b52bdfec7c06c13693ab378f38e, 775),
  (0xe61136f2227e3b09cec3b1aaa30dd91c, 0x20e706276d7e79b08718438960573071, 777),
  (0x8fcac257558ee4e6213a4f0aa5e8a7b1, 0x949063d8a46f0c0e546f2a35dc367e47, 780),
  (0xb3bd72ed2af29e1fa988e2cd4f62d19d, 0xf9b47ccecd8acf11e98af4c353441dd8, 782),
  (0xe0accfa875af45a793eb1b80a33b8605, 0x78219c0280ed82d663edb1f42815254f, 784),
  (0x8c6c01c9498d8b88bc72f130660533c3, 0x6b150181909471c5fe748f38990d3751, 787),
  (0xaf87023b9bf0ee6aeb8fad7c7f8680b4, 0x45da41e1f4b98e377e11b306bf508525, 789),
  (0xdb68c2ca82ed2a05a67398db9f6820e1, 0x5750d25a71e7f1c55d961fc86f24a66f, 791),
  (0x892179be91d43a4388083f8943a1148c, 0xd69283788730f71b5a7dd3dd4576e805, 794),
  (0xab69d82e364948d46a0a4f6b948959b0, 0x0c372456a8fd34e2311d48d496d4a206, 796),
  (0xd6444e39c3db9b09848ce34679abb01c, 0x0f44ed6c533c821abd649b09bc89ca88, 798),
  (0x85eab0e41a6940e5f2d80e0c0c0b4e11, 0x898b1463b405d150b65ee0e615d61e95, 801),
  (0xa7655d1d2103911f6f8e118f0f0e2195, 0xebedd97ca10745a4e3f6991f9b4ba63a, 803),
  (0xd13eb464694475674b7195f2d2d1a9fb, 0x66e94fdbc949170e1cf43f67821e8fc9, 805),
  (0x82c730bec1cac9608f26fdb7c3c30a3d, 0x2051d1e95dcdae68d218a7a0b15319dd, 808),
  (0xa378fcee723d7bb8b2f0bd25b4b3cccc, 0x68664663b5411a03069ed188dda7e055, 810),
  (0xcc573c2a0eccdaa6dfacec6f21e0bfff, 0x827fd7fca2916083c84685eb1511d86a, 812),
  (0xff6d0b34928011509798278aea58efff, 0x631fcdfbcb35b8a4ba582765da564e85, 814),
  (0x9fa42700db900ad25ebf18b6d27795ff, 0x9df3e0bd5f019366f477189fa875f113, 817),
  (0xc78d30c112740d86f66edee487157b7f, 0x8570d8ecb6c1f840b194dec792936d58, 819),
  (0xf9707cf1571110e8b40a969da8dada5f, 0x66cd0f27e4727650ddfa1679773848ae, 821),
  (0x9be64e16d66aaa9170869e228988c87b, 0xa0402978eec789f28abc4e0bea832d6c, 824),
  (0xc2dfe19c8c055535cca845ab2beafa9a, 0x885033d72a796c6f2d6b618ee523f8c8, 826),
  (0xf397da03af06aa833fd25715f6e5b941, 0x2a6440ccf517c78af8c639f29e6cf6fa, 828),
  (0x983ee8424d642a9207e3766dba4f93c8, 0xba7ea880192edcb6db7be437a3041a5c, 831),
  (0xbe4ea252e0bd353689dc540928e378ba, 0xe91e52a01f7a93e4925add458bc520f3, 833),
  (0xede24ae798ec82842c53690b731c56e9, 0xa365e748275938ddb6f19496eeb66930, 835),
  (0x94ad6ed0bf93d1929bb421a727f1b652, 0x061fb08d1897c38a9256fcde553201be, 838),
  (0xb9d8ca84ef78c5f742a12a10f1ee23e6, 0x87a79cb05ebdb46d36ecbc15ea7e822d, 840),
  (0xe84efd262b56f775134974952e69ace0, 0x299183dc766d218884a7eb1b651e22b9, 842),
  (0x91315e37db165aa92c0de8dd3d020c0c, 0x19faf269ca0434f552e8f2f11f32d5b3, 845),
  (0xb57db5c5d1dbf153771163148c428f0f, 0x2079af043c854232a7a32fad66ff8b20, 847),
  (0xe2dd23374652eda854d5bbd9af5332d2, 0xe8981ac54ba692bf518bfb98c0bf6de8, 849),
  (0x8dca36028bf3d489350595680d93ffc3, 0xd15f10bb4f481bb792f77d3f7877a4b1, 852),
  (0xb13cc3832ef0c9ab8246fac210f8ffb4, 0xc5b6d4ea231a22a577b55c8f56958ddd, 854),
  (0xdd8bf463faacfc1662d8b97295373fa1, 0xf7248a24abe0ab4ed5a2b3b32c3af155, 856),
  (0x8a7778be7cac1d8dfdc773e79d4287c5, 0x3a76d656eb6c6b114585b04ffba4d6d5, 859),
  (0xad1556ee1bd724f17d3950e1849329b6, 0x89148beca64785d596e71c63fa8e0c8a, 861),
  (0xd85aaca9a2ccee2ddc87a519e5b7f424, 0x2b59aee7cfd9674afca0e37cf9318fad, 863),
  (0x8738abea05c014dca9d4c7302f92f896, 0x9b180d50e1e7e08edde48e2e1bbef9cc, 866),
  (0xa906d6e487301a13d449f8fc3b77b6bc, 0x41de10a51a61d8b2955db1b9a2aeb83f, 868),
  (0xd3488c9da8fc2098c95c773b4a55a46b, 0x525594ce60fa4edf3ab51e280b5a664f, 870),
  (0x840d57e2899d945f7dd9ca850e7586c3, 0x13757d00fc9c714b84b132d907187ff1, 873),
  (0xa510addb2c04f9775d503d265212e873, 0xd852dc413bc38d9e65dd7f8f48de9fee, 875),
  (0xce54d951f70637d534a44c6fe697a290, 0xce6793518ab47105ff54df731b1647e9, 877),
  (0x80f507d33a63e2e540e6afc5f01ec59a, 0x8100bc12f6b0c6a3bf950ba7f0edecf1, 880),
  (0xa13249c808fcdb9e91205bb76c267701, 0x2140eb17b45cf84caf7a4e91ed29682e, 882),
  (0xc97edc3a0b3c1286356872a5473014c1, 0x699125dda174365fdb58e2366873c23a, 884),
  (0xfbde93488e0b1727c2c28f4e98fc19f1, 0xc3f56f5509d143f7d22f1ac40290b2c8, 886),
  (0x9d6b1c0d58c6ee78d9b999911f9d9037, 0x1a7965952622ca7ae35d70ba819a6fbd, 889)]

/-- src/conv/from_str/powers_of_five.rs:1456-1583 -/
def powersOfFive2_11 : List (Nat × Nat × Int) := [
  (0xc4c5e310aef8aa171027fff56784f444, 0xe117befa6fab7d199c34cce922010bac, 891),
  (0xf5f75bd4dab6d49cd431fff2c1663156, 0x195daeb90b965c60034200236a814e97, 893),
  (0x99ba996508b244e2049f3ff7b8dfded5, 0xcfda8d33a73df9bc020940162290d11e, 896),
  (0xc0293fbe4aded61a85c70ff5a717d68b, 0x43d13080910d782b028b901bab350566, 898),
  (0xf0338faddd968ba12738d3f310ddcc2e, 0x14c57ca0b550d635c32e7422960246c0, 900),
  (0x962039ccaa7e1744b8838477ea8a9f9c, 0xccfb6de4715285e199fd08959dc16c38, 903),
  (0xbba8483fd51d9d15e6a46595e52d4784, 0x003a495d8da7275a007c4abb0531c746, 905),
  (0xea925a4fca65045b604d7efb5e789965, 0x0048dbb4f110f130809b5d69c67e3917, 907),
  (0x929b7871de7f22b91c306f5d1b0b5fdf, 0x202d895116aa96be50611a621c0ee3ae, 910),
  (0xb742568e561eeb67633c8b3461ce37d6, 0xe838eba55c553c6de47960faa3129c9a, 912),
  (0xe512ec31eba6a6413c0bae017a41c5cc, 0xa247268eb36a8b895d97b9394bd743c1, 914),
  (0x8f2bd39f334827e8c5874cc0ec691b9f, 0xe56c781930229735da7ed3c3cf668a58, 917),
  (0xb2f6c887001a31e2f6e91ff127836287, 0xdec7961f7c2b3d03511e88b4c3402cef, 919),
  (0xdfb47aa8c020be5bb4a367ed71643b29, 0xd6797ba75b360c4425662ae1f410382a, 921),
  (0x8bd0cca9781476f950e620f466dea4fa, 0x260bed489901c7aa975fdacd388a231a, 924),
  (0xaec4ffd3d61994b7a51fa93180964e38, 0xaf8ee89abf4239953d37d18086acabe1, 926),
  (0xda763fc8cb9ff9e58e67937de0bbe1c6, 0xdb72a2c16f12c7fa8c85c5e0a857d6d9, 928),
  (0x8889e7dd7f43fc2f7900bc2eac756d1c, 0x4927a5b8e56bbcfc97d39bac6936e648, 931),
  (0xaaac61d4df14fb3b5740eb3a5792c863, 0x5b718f271ec6ac3bbdc8829783849fda, 933),
  (0xd5577a4a16da3a0a2d112608ed777a7c, 0x324df2f0e678574aad3aa33d6465c7d0, 935),
  (0x8556ac6e4e4864465c2ab7c5946aac8d, 0x9f70b7d6900b368eac44a6065ebf9ce2, 938),
  (0xa6ac5789e1da7d57f33565b6f98557b1, 0x074ce5cc340e04325755cf87f66f841b, 940),
  (0xd0576d6c5a511cadf002bf24b7e6ad9d, 0x49201f3f4111853eed2b4369f40b6521, 942),
  (0x8236a463b872b1ecb601b776f2f02c82, 0x4db4138788aaf347543b0a2238871f35, 945),
  (0xa2c44d7ca68f5e67e3822554afac37a2, 0xe12118696ad5b0192949ccaac6a8e702, 947),
  (0xcb7560dbd0333601dc62aea9db97458b, 0x99695e83c58b1c1f739c3fd5785320c2, 949),
  (0xfe52b912c4400382537b5a54527d16ee, 0x7fc3b624b6ede32750834fcad667e8f3, 951),
  (0x9ef3b3abbaa80231742d1874b38e2e55, 0x0fda51d6f254adf8925211dec600f198, 954),
  (0xc6b0a096a95202bdd1385e91e071b9ea, 0x53d0e64caee9d976b6e6965677812dfe, 956),
  (0xf85cc8bc53a6836d45867636588e2864, 0xe8c51fdfdaa44fd464a03bec1561797d, 958),
  (0x9b39fd75b44812244b7409e1f758d93f, 0x117b33ebe8a6b1e4bee425738d5cebee, 961),
  (0xc2087cd3215a16ad5e510c5a752f0f8e, 0xd5da00e6e2d05e5dee9d2ed070b426ea, 963),
  (0xf28a9c07e9b09c58b5e54f71127ad372, 0x8b5081209b8475f56a447a848ce130a5, 965),
  (0x9796a184f20e61b771af51a6ab8cc427, 0x971250b46132c9b9626acc92d80cbe67, 968),
  (0xbd7c49e62e91fa254e1b2610566ff531, 0x7cd6e4e1797f7c27bb057fb78e0fee00, 970),
  (0xecdb5c5fba3678aea1a1ef946c0bf27d, 0xdc0c9e19d7df5b31a9c6dfa57193e981, 972),
  (0x940919bbd4620b6d250535bcc387778e, 0xa987e2d026eb98ff0a1c4bc766fc71f0, 975),
  (0xb90b602ac97a8e486e46832bf4695572, 0x53e9db8430a67f3ecca35eb940bb8e6c, 977),
  (0xe74e38357bd931da89d823f6f183aace, 0xe8e452653cd01f0e7fcc366790ea7208, 979),
  (0x9090e3216d67bf289627167a56f24ac1, 0x518eb37f460213690fdfa200ba928745, 982),
  (0xb4b51be9c8c1aef2bbb0dc18ecaedd71, 0xa5f2605f1782984353d78a80e9372916, 984),
  (0xe1e262e43af21aaf6a9d131f27da94ce, 0x0f6ef876dd633e5428cd6d212384f35b, 986),
  (0x8d2d7dcea4d750ada2a22bf378e89d00, 0xc9a55b4a4a5e06f499806434b6331819, 989),
  (0xb078dd424e0d24d90b4ab6f05722c440, 0xfc0eb21cdcf588b1bfe07d41e3bfde1f, 991),
  (0xdc971492e1906e0f4e1d64ac6ceb7551, 0x3b125ea41432eade2fd89c925cafd5a7, 993),
  (0x89de6cdbccfa44c990d25eebc4132952, 0xc4eb7b268c9fd2cadde761db79ede588, 996),
  (0xac560812c038d5fbf506f6a6b517f3a7, 0x762659f02fc7c77d95613a5258695eeb, 998),
  (0xd76b8a1770470b7af248b450625df091, 0x53aff06c3bb9b95cfab988e6ee83b6a5, 1000),
  (0x86a3364ea62c672cd76d70b23d7ab65a, 0xd44df643a55413da1cb3f59055125227, 1003),
  (0xa84c03e24fb780f80d48ccdeccd963f1, 0x896173d48ea918d0a3e0f2f46a56e6b1, 1005),
  (0xd25f04dae3a56136109b0016800fbced, 0xebb9d0c9b2535f04ccd92fb184eca05d, 1007),
  (0x837b6308ce475cc1ca60e00e1009d614, 0xb354227e0f741b630007bdcef313e43a, 1010),
  (0xa45a3bcb01d933f23cf91811940c4b99, 0xe0292b1d9351223bc009ad42afd8dd49, 1012),
  (0xcd70cabdc24f80eecc375e15f90f5e80, 0x583375e4f8256acab00c18935bcf149b, 1014),
  (0x80667eb69971b0953fa29acdbba99b10, 0x372029af1b1762beae078f5c19616ce1, 1017),
  (0xa0801e643fce1cba8f8b41812a9401d4, 0x44e8341ae1dd3b6e598973331fb9c819, 1019),
  (0xc8a025fd4fc1a3e9336e11e175390249, 0x562241219a548a49efebcfffe7a83a20, 1021),
  (0xfac82f7ca3b20ce380499659d28742db, 0xabaad16a00e9acdc6be6c3ffe19248a8, 1023),
  (0x9cbd1dade64f480e302dfdf8239489c9, 0x4b4ac2e240920c09c3703a7fecfb6d69, 1026),
  (0xc3ec65195fe31a11bc397d762c79ac3b, 0x9e1d739ad0b68f0c344c491fe83a48c3, 1028),
  (0xf4e77e5fb7dbe0962b47dcd3b798174a, 0x85a4d08184e432cf415f5b67e248daf4, 1030),
  (0x9910aefbd2e96c5ddb0cea0452bf0e8e, 0x93870250f30e9fc188db9920ed6d88d8, 1033),
  (0xbf54dabac7a3c77551d02485676ed232, 0x3868c2e52fd247b1eb127f6928c8eb0e, 1035),
  (0xef2a1169798cb952a6442da6c14a86be, 0xc682f39e7bc6d99e65d71f4372fb25d2, 1037),
  (0x957a4ae1ebf7f3d3a7ea9c8838ce9437, 0x3c11d8430d5c4802ffa6738a27dcf7a3, 1040),
  (0xbad8dd9a66f5f0c891e543aa47023945, 0x0b164e53d0b35a03bf90106cb1d4358c, 1042),
  (0xe98f150100b36cfab65e9494d8c2c796, 0x4ddbe1e8c4e03084af741487de4942ef, 1044),
  (0x91f96d20a070241cb1fb1cdd0779bcbd, 0xf0a96d317b0c1e52eda88cd4eaedc9d5, 1047),
  (0xb677c868c88c2d23de79e41449582bed, 0x6cd3c87dd9cf25e7a912b00a25a93c4b, 1049),
  (0xe415ba82faaf386cd6185d195bae36e8, 0xc808ba9d5042ef6193575c0caf138b5d, 1051),
  (0x8e8d9491dcad834405cf3a2fd94ce251, 0x7d0574a25229d59cfc169987ed6c371a, 1054),
  (0xb230f9b653d8e415074308bbcfa01ae5, 0xdc46d1cae6b44b043b1c3fe9e8c744e1, 1056),
  (0xdebd3823e8cf1d1a4913caeac388219f, 0x5358863da0615dc549e34fe462f91619, 1058),
  (0x8b364316718172306dac5ed2ba351503, 0x941753e6843cda9b4e2e11eebddbadd0, 1061),
  (0xae03d3dc0de1cebc8917768768c25a44, 0x791d28e0254c114221b9966a6d529944, 1063),
  (0xd984c8d3115a426bab5d542942f2f0d5, 0x976473182e9f1592aa27fc0508a73f95, 1065),
  (0x87f2fd83ead869834b1a5499c9d7d685, 0x7e9ec7ef1d236d7baa58fd83256887bd, 1068),
  (0xa9efbce4e58e83e41de0e9c03c4dcc26, 0xde4679eae46c48da94ef3ce3eec2a9ac, 1070),
  (0xd46bac1e1ef224dd255924304b613f30, 0x95d818659d875b113a2b0c1cea735417, 1072),
  (0x84c34b92d357570a3757b69e2f1cc77e, 0x5da70f3f827498eac45ae7921288148e, 1075),
  (0xa5f41e77882d2cccc52da445bae3f95d, 0xf510d30f6311bf257571a176972a19b2, 1077),
  (0xcf7126156a3877fff6790d57299cf7b5, 0x725507d33bd62eeed2ce09d43cf4a01f, 1079),
  (0x81a6b7cd62634afffa0ba8567a021ad1, 0x677524e40565dd5543c0c624a618e413, 1082),
  (0xa21065c0bafc1dbff88e926c1882a185, 0xc1526e1d06bf54aa94b0f7adcf9f1d18, 1084),
  (0xca947f30e9bb252ff6b237071ea349e7, 0x31a709a4486f29d539dd35994386e45e, 1086),
  (0xfd399efd2429ee7bf45ec4c8e64c1c60, 0xfe10cc0d5a8af44a885482ff94689d75, 1088),
  (0x9e44035e369a350d78bb3afd8fef91bc, 0x9eca7f885896d8ae9534d1dfbcc16269, 1091),
  (0xc5d50435c440c250d6ea09bcf3eb762b, 0xc67d1f6a6ebc8eda3a820657abf1bb04, 1093),
  (0xf74a45433550f2e50ca48c2c30e653b6, 0xb81c67450a6bb290c92287ed96ee29c5, 1095),
  (0x9a8e6b4a015297cf27e6d79b9e8ff452, 0x3311c08b26834f9a7db594f47e54da1b, 1098),
  (0xc132061c81a73dc2f1e08d828633f166, 0xbfd630adf02423811d22fa319dea10a2, 1100),
  (0xf17e87a3a2110d33ae58b0e327c0edc0, 0x6fcbbcd96c2d2c61646bb8be056494ca, 1102),
  (0x96ef14c6454aa8404cf76e8df8d89498, 0x45df5607e39c3bbcdec35376c35edcfe, 1105),
  (0xbcaad9f7d69d525060354a31770eb9be, 0x57572b89dc834aac167428547436943e, 1107),
  (0xebd59075cc44a6e478429cbdd4d2682d, 0xed2cf66c53a41d571c1132699144394d, 1109),
  (0x93657a499faae84ecb29a1f6a503811c, 0xb43c1a03b4469256718abf81facaa3d0, 1112),
  (0xb83ed8dc0795a2627df40a744e446163, 0xe14b2084a15836ec0ded6f62797d4cc4, 1114),
  (0xe64e8f13097b0afb1d710d1161d579bc, 0xd99de8a5c9ae44a71168cb3b17dc9ff5, 1116),
  (0x8ff1196be5ece6dcf266a82add256c16, 0x0802b1679e0ceae86ae17f04eee9e3f9, 1119),
  (0xb3ed5fc6df6820942f005235946ec71b, 0x8a035dc1859025a28599dec62aa45cf8, 1121),
  (0xe0e8b7b8974228b93ac066c2f98a78e2, 0x6c843531e6f42f0b27005677b54d7436, 1123),
  (0x8c9172d35e895973c4b84039dbf68b8d, 0x83d2a13f30589d66f860360ad15068a1, 1126),
  (0xafb5cf88362bafd0b5e6504852f42e70, 0xe4c7498efc6ec4c0b678438d85a482ca, 1128),
  (0xdba3436a43b69bc4e35fe45a67b13a0d, 0x1df91bf2bb8a75f0e4165470e70da37c, 1130),
  (0x89460a226a52215b0e1beeb880cec448, 0x32bbb177b53689b68e8df4c69068862e, 1133),
  (0xab978cab04e6a9b1d1a2ea66a102755a, 0x3f6a9dd5a2842c24323171f83482a7b9, 1135),
  (0xd67d6fd5c620541e460ba500494312b0, 0xcf45454b0b25372d3ebdce7641a351a8, 1137),
  (0x860e65e59bd43492ebc747202dc9ebae, 0x818b4b4ee6f7427c4736a109e9061309, 1140),
  (0xa791ff5f02c941b7a6b918e8393c669a, 0x21ee1e22a0b5131b5904494c634797cb, 1142),
  (0xd1767f36c37b922590675f22478b8040, 0xaa69a5ab48e257e22f455b9f7c197dbe, 1144),
  (0x82ea0f823a2d3b577a409b756cb73028, 0x6a82078b0d8d76ed5d8b5943ad8fee96, 1147),
  (0xa3a49362c8b88a2d58d0c252c7e4fc32, 0x8522896dd0f0d4a8b4ee2f9498f3ea3c, 1149),
  (0xcc8db83b7ae6acb8af04f2e779de3b3f, 0x266b2bc9452d09d2e229bb79bf30e4cb, 1151),
  (0xffb1264a59a057e6dac62fa15855ca0e, 0xf005f6bb96784c479ab42a582efd1dfe, 1153),
  (0x9fceb7ee780436f048bbddc4d7359e49, 0x5603ba353e0b2facc0b09a771d5e32bf, 1156),
  (0xc7c265ea160544ac5aead5360d0305db, 0xab84a8c28d8dfb97f0dcc114e4b5bf6e, 1158),
  (0xf9b2ff649b8695d771a58a839043c752, 0x9665d2f330f17a7ded13f15a1de32f4a, 1160),
  (0x9c0fdf9ee1341da6a70776923a2a5c93, 0x9dffa3d7fe96ec8eb42c76d852adfd8e, 1163),
  (0xc313d7869981251050c95436c8b4f3b8, 0x857f8ccdfe3ca7b26137948e67597cf2, 1165),
  (0xf3d8cd683fe16e5464fba9447ae230a6, 0xa6df70017dcbd19ef98579b2012fdc2e, 1167),
  (0x9867806127ece4f4bf1d49cacccd5e68, 0x284ba600ee9f63035bf36c0f40bde99d, 1170),
  (0xbe81607971e81e31eee49c3d8000b602, 0x325e8f812a473bc432f0471310ed6404, 1172),
  (0xee21b897ce6225be6a9dc34ce000e382, 0xbef6336174d90ab53fac58d7d528bd05, 1174),
  (0x94d5135ee0fd579702a29a100c008e31, 0xb759e01ce907a6b147cbb786e5397623, 1177),
  (0xba0a5836993cad7cc34b40940f00b1be, 0x253058242349905d99bea5689e87d3ac, 1179),
  (0xe88cee443f8bd8dbf41e10b912c0de2d, 0xae7c6e2d2c1bf475002e4ec2c629c897, 1181),
  (0x915814eaa7b767897892ca73abb88adc, 0x8d0dc4dc3b9178c9201cf139bbda1d5e, 1184),
  (0xb5ae1a2551a5416bd6b77d1096a6ad93, 0xb05136134a75d6fb68242d882ad0a4b6, 1186)]

/-- src/conv/from_str/powers_of_five.rs:1584-1711 -/
def powersOfFive2_12 : List (Nat × Nat × Int) := [
  (0xe319a0aea60e91c6cc655c54bc5058f8, 0x9c6583981d134cba422d38ea3584cde4, 1188),
  (0x8df0046d27c91b1c3fbf59b4f5b2379b, 0x61bf723f122c0ff4695c4392617300ae, 1191),
  (0xb16c058871bb61e34faf3022331ec582, 0x3a2f4eced6b713f183b35476f9cfc0da, 1193),
  (0xddc706ea8e2a3a5c239afc2abfe676e2, 0xc8bb22828c64d8ede4a02994b843b110, 1195),
  (0x8a9c645298da64799640dd9ab7f00a4d, 0xbd74f59197bf0794aee419fcf32a4eaa, 1198),
  (0xad437d673f10fd97fbd1150165ec0ce1, 0x2cd232f5fdaec979da9d207c2ff4e255, 1200),
  (0xd8945cc10ed53cfdfac55a41bf671019, 0x7806bfb37d1a7bd85144689b3bf21aea, 1202),
  (0x875cb9f8a945461ebcbb586917a06a0f, 0xeb0437d02e308d6732cac161057750d2, 1205),
  (0xa933e876d39697a66bea2e835d888493, 0xe5c545c439bcb0c0ff7d71b946d52507, 1207),
  (0xd380e294887c3d9006e4ba2434eaa5b8, 0xdf369735482bdcf13f5cce27988a6e48, 1209),
  (0x84308d9cd54da67a044ef456a112a793, 0x8b821e814d1b6a16c79a00d8bf5684ed, 1212),
  (0xa53cb1040aa110188562b16c49575178, 0x6e62a621a062449c7980810eef2c2628, 1214),
  (0xce8bdd450d49541ea6bb5dc75bad25d6, 0x89fb4faa087ad5c397e0a152aaf72fb3, 1216),
  (0x81176a4b284dd49328351a9c994c37a6, 0x163d11ca454cc59a3eec64d3aada7dcf, 1219),
  (0xa15d44ddf26149b7f2426143bf9f458f, 0x9bcc563cd69ff700cea77e0895911d43, 1221),
  (0xc9b496156ef99c25eed2f994af8716f3, 0x82bf6bcc0c47f4c102515d8abaf56494, 1223),
  (0xfc21bb9acab8032f6a87b7f9db68dcb0, 0x636f46bf0f59f1f142e5b4ed69b2bdba, 1225),
  (0x9d951540beb301fda294d2fc292189ee, 0x3e258c3769983736c9cf9114620fb694, 1228),
  (0xc4fa5a90ee5fc27d0b3a07bb3369ec69, 0xcdaeef4543fe45047c4375597a93a439, 1230),
  (0xf638f13529f7b31c4e0889aa00446784, 0x411aab1694fdd6459b5452afd9388d47, 1232),
  (0x99e396c13a3acff1b0c5560a402ac0b2, 0xa8b0aaee1d1ea5eb8114b3ade7c3584c, 1235),
  (0xc05c7c7188c983ee1cf6ab8cd03570df, 0x52dcd5a9a4664f666159e09961b42e60, 1237),
  (0xf0739b8deafbe4e9a43456700442cd17, 0x27940b140d7fe33ff9b058bfba2139f8, 1239),
  (0x96484138b2dd6f1206a0b60602a9c02e, 0x78bc86ec886fee07fc0e3777d454c43b, 1242),
  (0xbbda5186df94cad68848e3878354303a, 0x16eba8a7aa8be989fb11c555c969f549, 1244),
  (0xead0e5e89779fd8c2a5b1c6964293c48, 0x9ca692d1952ee3ec79d636ab3bc4729c, 1246),
  (0x92c28fb15eac3e779a78f1c1de99c5ad, 0x61e81bc2fd3d4e73cc25e22b055ac7a1, 1249),
  (0xb773339db6574e1581172e3256403718, 0xba6222b3bc8ca210bf2f5ab5c6b1798a, 1251),
  (0xe550008523ed219ae15cf9beebd044de, 0xe8faab60abafca94eefb3163385dd7ec, 1253),
  (0x8f52005336743500ccda1c1753622b0b, 0x519cab1c6b4dde9d155cfede033aa6f3, 1256),
  (0xb3268068041142410010a31d283ab5ce, 0x2603d5e3862156445ab43e95840950b0, 1258),
  (0xdff02082051592d14014cbe472496341, 0xaf84cb5c67a9abd571614e3ae50ba4dd, 1260),
  (0x8bf61451432d7bc2c80cff6ec76dde09, 0x0db2ff19c0ca0b6566dcd0e4cf27470a, 1263),
  (0xaef3996593f8dab37a103f4a7949558b, 0x511fbee030fc8e3ec094051e02f118cc, 1265),
  (0xdab07fbef8f7116058944f1d179baaee, 0x2567ae983d3bb1ce70b9066583ad5eff, 1267),
  (0x88ae4fd75b9a6adc375cb1722ec14ad4, 0xd760cd1f26454f210673a3ff724c5b5f, 1270),
  (0xaad9e3cd328105934533ddceba719d8a, 0x0d390066efd6a2e948108cff4edf7237, 1272),
  (0xd5905cc07f2146f81680d542690e04ec, 0x90874080abcc4ba39a14b03f22974ec5, 1274),
  (0x857a39f84f74cc5b0e10854981a8c313, 0xda5488506b5faf46404cee27759e913b, 1277),
  (0xa6d8c8766351ff71d194a69be212f3d8, 0xd0e9aa6486379b17d06029b15306358a, 1279),
  (0xd08efa93fc267f4e45f9d042da97b0cf, 0x052414fda7c581ddc478341da7c7c2ed, 1281),
  (0x82595c9c7d980f90ebbc2229c89ece81, 0x63368d1e88db712a9acb209288dcd9d4, 1284),
  (0xa2efb3c39cfe137526ab2ab43ac68221, 0xbc0430662b124d75417de8b72b141049, 1286),
  (0xcbaba0b4843d98527055f561497822aa, 0x2b053c7fb5d6e0d291dd62e4f5d9145b, 1288),
  (0xfe9688e1a54cfe670c6b72b99bd62b54, 0xb5c68b9fa34c99073654bb9e334f5972, 1290),
  (0x9f1e158d07501f0067c327b40165db14, 0xf19c1743c60fdfa481f4f542e01197e7, 1293),
  (0xc6e59af0492426c081b3f1a101bf51da, 0x2e031d14b793d78da27232939815fde1, 1295),
  (0xf89f01ac5b6d3070a220ee09422f2650, 0xb983e459e578cd710b0ebf387e1b7d59, 1297),
  (0x9b63610bb9243e46655494c5c95d77f2, 0x73f26eb82f6b8066a6e937834ed12e58, 1300),
  (0xc23c394ea76d4dd7fea9b9f73bb4d5ef, 0x10ef0a663b46608050a38564228579ee, 1302),
  (0xf2cb47a25148a14dfe5428750aa20b6a, 0xd52accffca17f8a064cc66bd2b26d869, 1304),
  (0x97bf0cc572cd64d0bef4994926a54722, 0xc53ac01fde4efb643effc0363af84742, 1307),
  (0xbdaecff6cf80be04eeb1bf9b704e98eb, 0x76897027d5e2ba3d4ebfb043c9b65912, 1309),
  (0xed1a83f48360ed862a5e2f824c623f26, 0x542bcc31cb5b68cca26f9c54bc23ef57, 1311),
  (0x94309278d21c9473da7addb16fbd6777, 0xf49b5f9f1f19217fe585c1b4f5967596, 1314),
  (0xb93cb71706a3b990d119951dcbacc155, 0xf1c23786e6df69dfdee7322232fc12fc, 1316),
  (0xe78be4dcc84ca7f5055ffa653e97f1ab, 0x6e32c568a0974457d6a0feaabfbb17bb, 1318),
  (0x90b76f09fd2fe8f9235bfc7f471ef70b, 0x24dfbb61645e8ab6e6249f2ab7d4eed5, 1321),
  (0xb4e54acc7c7be3376c32fb9f18e6b4cd, 0xee17aa39bd762d649fadc6f565ca2a8a, 1323),
  (0xe21e9d7f9b9adc05473fba86df206201, 0x699d94c82cd3b8bdc79938b2bf3cb52c, 1325),
  (0x8d53226fc140c9834c87d4944b743d40, 0xe2027cfd1c0453769cbfc36fb785f13c, 1328),
  (0xb0a7eb0bb190fbe41fa9c9b95e514c91, 0x1a831c3c6305685443efb44ba5676d8b, 1330),
  (0xdcd1e5ce9df53add27943c27b5e59fb5, 0x6123e34b7bc6c26954eba15e8ec148ed, 1332),
  (0x8a032fa122b944ca38bca598d1af83d1, 0x5cb66e0f2d5c3981d51344db1938cd94, 1335),
  (0xac83fb896b6795fcc6ebceff061b64c5, 0xb3e40992f8b347e24a581611df8700f9, 1337),
  (0xd7a4fa6bc6417b7bf8a6c2bec7a23df7, 0x20dd0bf7b6e019dadcee1b965768c138, 1339),
  (0x86c71c835be8ed2d7b6839b73cc566ba, 0x748a277ad24c1028ca14d13df6a178c3, 1342),
  (0xa878e3a432e32878da4248250bf6c069, 0x11acb15986df1432fc9a058d7449d6f3, 1344),
  (0xd2971c8d3f9bf29710d2da2e4ef47083, 0x5617ddafe896d93fbbc086f0d15c4cb0, 1346),
  (0x839e71d847c1779e6a83c85cf158c652, 0x15ceea8df15e47c7d558545682d9afee, 1349),
  (0xa4860e4e59b1d5860524ba742daef7e6, 0x9b42a5316db5d9b9caae696c23901bea, 1351),
  (0xcda791e1f01e4ae7866de911391ab5e0, 0x42134e7dc92350283d5a03c72c7422e4, 1353),
  (0x8088bb2d3612eed0b404b1aac3b0b1ac, 0x294c110e9db612192658425c7bc895cf, 1356),
  (0xa0aae9f88397aa84e105de15749cde17, 0x339f15524523969f6fee52f39ababb42, 1358),
  (0xc8d5a476a47d95261947559ad1c4159d, 0x0086daa6d66c7c474be9e7b081696a13, 1360),
  (0xfb0b0d944d9cfa6f9f992b0186351b04, 0x40a891508c079b591ee4619ca1c3c498, 1362),
  (0x9ce6e87cb0821c85c3bfbae0f3e130e2, 0xa8695ad25784c117b34ebd01e51a5adf, 1365),
  (0xc420a29bdca2a3a734afa99930d97d1b, 0x5283b186ed65f15da0226c425e60f196, 1367),
  (0xf528cb42d3cb4c9101db93ff7d0fdc62, 0x27249de8a8bf6db5082b0752f5f92dfc, 1369),
  (0x99397f09c45f0fdaa1293c7fae29e9bd, 0x5876e2b16977a491251ae493d9bbbcbd, 1372),
  (0xbf87decc3576d3d149738b9f99b4642c, 0xae949b5dc3d58db56e619db8d02aabed, 1374),
  (0xef69d67f42d488c59bd06e8780217d37, 0xda39c23534caf122c9fa0527043556e8, 1376),
  (0x95a2260f89c4d57b81624514b014ee42, 0xe864196140fed6b5be3c433862a15651, 1379),
  (0xbb0aaf936c360ada61bad659dc1a29d3, 0xa27d1fb9913e8c632dcb54067b49abe5, 1381),
  (0xe9cd5b7847438d90fa298bf05320b448, 0x8b1c67a7f58e2f7bf93e29081a1c16df, 1383),
  (0x9220592b2c8a387a9c59f77633f470ad, 0x56f1c0c8f978ddad7bc6d9a510518e4b, 1386),
  (0xb6a86f75f7acc69943707553c0f18cd8, 0xacae30fb37d71518dab8900e5465f1de, 1388),
  (0xe4528b537597f83f944c92a8b12df00e, 0xd7d9bd3a05ccda5f1166b411e97f6e56, 1390),
  (0x8eb39714297efb27bcafdba96ebcb609, 0x46e8164443a0087b6ae0308b31efa4f5, 1393),
  (0xb2607cd933deb9f1abdbd293ca6be38b, 0x98a21bd554880a9a45983cadfe6b8e33, 1395),
  (0xdef89c0f80d6686e16d2c738bd06dc6e, 0x7ecaa2caa9aa0d40d6fe4bd97e0671c0, 1397),
  (0x8b5b6189b0860144ce43bc83762449c5, 0x0f3ea5beaa0a4848865eef67eec40718, 1400),
  (0xae3239ec1ca7819601d4aba453ad5c36, 0x530e4f2e548cda5aa7f6ab41ea7508de, 1402),
  (0xd9bec86723d161fb8249d68d6898b343, 0xe7d1e2f9e9b010f151f4561265124b15, 1404),
  (0x88173d407662dd3d316e2618615f700a, 0x70e32ddc320e0a96d338b5cb7f2b6eed, 1407),
  (0xaa1d0c9093fb948c7dc9af9e79b74c0d, 0x0d1bf9533e918d3c8806e33e5ef64aa8, 1409),
  (0xd4a44fb4b8fa79af9d3c1b8618251f10, 0x5062f7a80e35f08baa089c0df6b3dd53, 1411),
  (0x84e6b1d0f39c8c0dc2459133cf17336a, 0x323ddac908e1b6574a456188ba306a53, 1414),
  (0xa6205e453083af1132d6f580c2dd0044, 0xbecd517b4b1a23ed1cd6b9eae8bc84e8, 1416),
  (0xcfa875d67ca49ad57f8cb2e0f3944055, 0xee80a5da1de0ace8640c6865a2eba623, 1418),
  (0x81c949a60de6e0c56fb7efcc983ca835, 0xb51067a852ac6c113e87c13f85d347d5, 1421),
  (0xa23b9c0f916098f6cba5ebbfbe4bd243, 0x22548192675787158e29b18f674819cb, 1423),
  (0xcaca831375b8bf347e8f66afaddec6d3, 0xeae9a1f7012d68daf1b41df3411a203e, 1425),
  (0xfd7d23d85326ef019e33405b99567888, 0xe5a40a74c178c311ae2125701160a84d, 1427),
  (0x9e6e366733f8556102e008393fd60b55, 0x8f868688f8eb79eb0cd4b7660adc6930, 1430),
  (0xc609c40100f66ab943980a478fcb8e2a, 0xf368282b37265865d009e53f8d93837c, 1432),
  (0xf78c350141340567947e0cd973be71b5, 0xb042323604efee7f440c5e8f70f8645c, 1434),
  (0x9ab7a120c8c08360bccec807e8570711, 0x8e295f61c315f50f8a87bb19a69b3eb9, 1437),
  (0xc1658968faf0a438ec027a09e26cc8d5, 0xf1b3b73a33db72536d29a9e010420e67, 1439),
  (0xf1beebc339accd472703188c5b07fb0b, 0x6e20a508c0d24ee84874145814529201, 1441),
  (0x9717535a040c004c7861ef57b8e4fce7, 0x24d46725788371512d488cb70cb39b41, 1444),
  (0xbcdd2830850f005f967a6b2da71e3c20, 0xee0980eed6a44da5789aafe4cfe08211, 1446),
  (0xec14723ca652c0777c1905f910e5cb29, 0x298be12a8c4d610ed6c15bde03d8a295, 1448),
  (0x938cc765e7f3b84aad8fa3bbaa8f9ef9, 0xb9f76cba97b05ca94638d96ac267659d, 1451),
  (0xb86ff93f61f0a65d58f38caa953386b8, 0x287547e93d9c73d397c70fc573013f05, 1453),
  (0xe68bf78f3a6ccff4af306fd53a806866, 0x329299e38d0390c87db8d3b6cfc18ec6, 1455),
  (0x90177ab9848401f8ed7e45e54490413f, 0xdf9ba02e38223a7d4e93845241d8f93b, 1458),
  (0xb41d5967e5a5027728ddd75e95b4518f, 0xd7828839c62ac91ca2386566d24f378a, 1460),
  (0xe124afc1df0e4314f3154d363b2165f3, 0xcd632a4837b57b63cac67ec086e3056d, 1462),
  (0x8cb6edd92b68e9ed17ed5041e4f4dfb8, 0x605dfa6d22d16d1e5ebc0f38544de364, 1465),
  (0xafe4a94f764324685de8a4525e3217a6, 0x787579086b85c865f66b130669615c3d, 1467),
  (0xdbddd3a353d3ed827562cd66f5be9d90, 0x1692d74a86673a7f7405d7c803b9b34d, 1469),
  (0x896aa44614647471895dc0605997227a, 0x0e1bc68e9400848fa883a6dd02541010, 1472),
  (0xabc54d57997d918debb530786ffceb18, 0x91a2b8323900a5b392a4909442e91414, 1474),
  (0xd6b6a0ad7fdcf5f166a27c968bfc25de, 0xb60b663ec740cf20774db4b953a35919, 1476),
  (0x8632246c6fea19b6e0258dde177d97ab, 0x31c71fe73c8881744a9090f3d44617af, 1479),
  (0xa7bead878be4a024982ef1559d5cfd95, 0xfe38e7e10baaa1d15d34b530c9579d9b, 1481),
  (0xd1ae58e96eddc82dbe3aadab04b43cfb, 0x7dc721d94e954a45b481e27cfbad8502, 1483)]

/-- src/conv/from_str/powers_of_five.rs:1712-1839 -/
def powersOfFive2_13 : List (Nat × Nat × Int) := [
  (0x830cf791e54a9d1c96e4ac8ae2f0a61d, 0x2e9c7527d11d4e6b90d12d8e1d4c7321, 1486),
  (0xa3d035765e9d4463bc9dd7ad9baccfa4, 0x7a439271c564a206750578f1a49f8fea, 1488),
  (0xccc442d3f644957cabc54d990298038d, 0x98d4770e36bdca881246d72e0dc773e4, 1490),
  (0xfff55388f3d5badbd6b6a0ff433e0470, 0xff0994d1c46d3d2a16d88cf9913950dd, 1492),
  (0x9ff95435986594c96632249f8a06c2c6, 0x9f65fd031ac4463a4e47581bfac3d28a, 1495),
  (0xc7f7a942fe7ef9fbbfbeadc76c887378, 0x473f7c43e17557c8e1d92e22f974c72d, 1497),
  (0xf9f59393be1eb87aafae593947aa9056, 0x590f5b54d9d2adbb1a4f79abb7d1f8f8, 1499),
  (0x9c397c3c56d3334cadccf7c3ccca9a35, 0xf7a999150823ac94f071ac0b52e33b9b, 1502),
  (0xc347db4b6c88001fd94035b4bffd40c3, 0x7593ff5a4a2c97ba2c8e170e279c0a82, 1504),
  (0xf419d21e47aa0027cf904321effc90f4, 0x52f8ff30dcb7bda8b7b19cd1b1830d22, 1506),
  (0x98902352ecca4018e1ba29f535fdda98, 0xb3db9f7e89f2d68972cf02030ef1e835, 1509),
  (0xbeb42c27a7fcd01f1a28b472837d513e, 0xe0d2875e2c6f8c2bcf82c283d2ae6243, 1511),
  (0xee61373191fc0426e0b2e18f245ca58e, 0x99072935b78b6f36c3637324c759fad4, 1513),
  (0x94fcc27efb3d82984c6fccf976b9e779, 0x1fa479c192b725823a1e27f6fc983cc4, 1516),
  (0xba3bf31eba0ce33e5f8bc037d4686157, 0x678d9831f764eee2c8a5b1f4bbbe4bf5, 1518),
  (0xe8caefe668901c0df76eb045c98279ad, 0x4170fe3e753e2a9b7acf1e71eaaddef3, 1520),
  (0x917ed5f0015a1188baa52e2b9df18c0c, 0x48e69ee70946daa12cc1730732acab57, 1523),
  (0xb5de8b6c01b095eae94e79b6856def0f, 0x5b2046a0cb98914977f1cfc8ff57d62d, 1525),
  (0xe3562e47021cbb65a3a2182426c96ad3, 0x31e85848fe7eb59bd5ee43bb3f2dcbb9, 1527),
  (0x8e15dcec6151f51f86454f16983de2c3, 0xff31372d9f0f318165b4ea55077c9f53, 1530),
  (0xb19b542779a6726767d6a2dc3e4d5b74, 0xfefd84f906d2fde1bf2224ea495bc728, 1532),
  (0xde02293158100f0141cc4b934de0b252, 0x3ebce6374887bd5a2eeaae24dbb2b8f2, 1534),
  (0x8ac159bed70a0960c91faf3c10ac6f73, 0x67360fe28d54d6585d52acd7094fb397, 1537),
  (0xad71b02e8ccc8bb8fb679b0b14d78b50, 0x410393db30aa0bee74a7580ccba3a07d, 1539),
  (0xd8ce1c3a2fffaea73a4181cdda0d6e24, 0x514478d1fcd48eea11d12e0ffe8c889d, 1541),
  (0x8780d1a45dffcd288468f120a84864d6, 0xb2cacb833e04d9524b22bcc9ff17d562, 1544),
  (0xa961060d757fc072a5832d68d25a7e0c, 0x5f7d7e640d860fa6ddeb6bfc7eddcaba, 1546),
  (0xd3b94790d2dfb08f4ee3f8c306f11d8f, 0x775cddfd10e79390956646fb9e953d69, 1548),
  (0x8453ccba83cbce59914e7b79e456b279, 0xaa9a0abe2a90bc3a5d5fec5d431d4662, 1551),
  (0xa568bfe924bec1eff5a21a585d6c5f18, 0x15408d6db534eb48f4b7e77493e497fa, 1553),
  (0xcec2efe36dee726bf30aa0ee74c776de, 0x1a90b0c92282261b31e5e151b8ddbdf9, 1555),
  (0x8139d5ee24b5078377e6a49508fcaa4a, 0xd09a6e7db59157d0ff2facd3138a96bb, 1558),
  (0xa1884b69ade2496455e04dba4b3bd4dd, 0x84c10a1d22f5adc53efb9807d86d3c6a, 1560),
  (0xc9ea5e44195adbbd6b586128de0aca14, 0xe5f14ca46bb319368eba7e09ce888b85, 1562),
  (0xfc64f5d51fb192acc62e7973158d7c9a, 0x1f6d9fcd869fdf8432691d8c422aae66, 1564),
  (0x9dbf19a533cefbabfbdd0be7ed786de0, 0x53a483e07423ebb29f81b277a95aad00, 1567),
  (0xc52ee00e80c2ba96fad44ee1e8d68958, 0x688da4d8912ce69f47621f1593b15840, 1569),
  (0xf67a981220f3693cb989629a630c2bae, 0x82b10e0eb5782047193aa6daf89dae50, 1571),
  (0x9a0c9f0b549821c5f3f5dda07de79b4d, 0x11aea8c9316b142c6fc4a848db628cf2, 1574),
  (0xc08fc6ce29be2a3770f355089d618220, 0x561a52fb7dc5d9378bb5d25b123b302e, 1576),
  (0xf0b3b881b42db4c54d302a4ac4b9e2a8, 0x6ba0e7ba5d374f856ea346f1d6c9fc3a, 1578),
  (0x96705351109c90fb503e1a6ebaf42da9, 0x434490d47a4291b365260c57263e3da4, 1581),
  (0xbc0c682554c3b53a244da10a69b13913, 0x9415b50998d336203e6f8f6cefcdcd0d, 1583),
  (0xeb0f822ea9f4a288ad61094d041d8758, 0x791b224bff0803a84e0b73482bc14050, 1585),
  (0x92e9b15d2a38e5956c5ca5d022927497, 0x4bb0f56f7f65024930c7280d1b58c832, 1588),
  (0xb7a41db474c71efac773cf442b3711bd, 0x1e9d32cb5f3e42db7cf8f210622efa3f, 1590),
  (0xe58d252191f8e6b97950c3153604d62c, 0x66447f7e370dd3925c372e947abab8cf, 1592),
  (0x8f783734fb3b9033ebd279ed41c305db, 0xbfeacfaee268a43b79a27d1cccb4b381, 1595),
  (0xb35645023a0a7440e6c718689233c752, 0xafe5839a9b02cd4a580b1c63ffe1e061, 1597),
  (0xe02bd642c88d11512078de82b6c0b927, 0x5bdee48141c3809cee0de37cffda587a, 1599),
  (0x8c1b65e9bd582ad2b44b8b11b23873b8, 0x996b4ed0c91a306214c8ae2e1fe8774c, 1602),
  (0xaf223f642cae3587615e6dd61ec690a6, 0xbfc62284fb60bc7a99fad9b9a7e2951f, 1604),
  (0xdaeacf3d37d9c2e939b6094ba67834d0, 0x6fb7ab263a38eb994079902811db3a67, 1606),
  (0x88d2c18642e819d1c411c5cf480b2102, 0x45d2caf7e463933fc84bfa190b290480, 1609),
  (0xab0771e7d3a22046351637431a0de942, 0xd7477db5dd7c780fba5ef89f4df345a0, 1611),
  (0xd5c94e61c88aa857c25bc513e0916393, 0x8d195d2354db9613a8f6b6c721701708, 1613),
  (0x859dd0fd1d56a936d9795b2c6c5ade3c, 0x382fda3615093dcc499a323c74e60e65, 1616),
  (0xa705453c64ac53848fd7b1f7877195cb, 0x463bd0c39a4b8d3f5c00becb921f91fe, 1618),
  (0xd0c6968b7dd76865b3cd9e75694dfb3e, 0x17cac4f480de708f3300ee7e76a7767e, 1620),
  (0x827c1e172ea6a13f9060830961d0bd06, 0xcedebb18d08b06597fe0950f0a28aa0f, 1623),
  (0xa31b259cfa50498f7478a3cbba44ec48, 0x829669df04adc7efdfd8ba52ccb2d493, 1625),
  (0xcbe1ef0438e45bf35196ccbea8d6275a, 0xa33c0456c5d939ebd7cee8e77fdf89b7, 1627),
  (0xfeda6ac5471d72f025fc7fee530bb131, 0x4c0b056c774f8866cdc2a3215fd76c25, 1629),
  (0x9f4882bb4c7267d617bdcff4f3e74ebe, 0xcf86e363ca91b5404099a5f4dbe6a397, 1632),
  (0xc71aa36a1f8f01cb9dad43f230e1226e, 0x83689c3cbd36229050c00f7212e04c7d, 1634),
  (0xf8e14c44a772c23e851894eebd196b0a, 0x2442c34bec83ab3464f0134e97985f9c, 1636),
  (0x9b8ccfaae8a7b967132f5d15362fe2e6, 0x56a9ba0f73d24b00bf160c111ebf3bc2, 1639),
  (0xc2700395a2d1a7c0d7fb345a83bbdb9f, 0xec54289350c6ddc0eedb8f15666f0ab2, 1641),
  (0xf30c047b0b8611b10dfa017124aad287, 0xe76932b824f895312a9272dac00acd5f, 1643),
  (0x97e782cce733cb0ea8bc40e6b6eac394, 0xf0a1bfb3171b5d3eba9b87c8b806c05b, 1646),
  (0xbde163802100bdd252eb512064a5747a, 0x2cca2f9fdce2348e694269bae6087072, 1648),
  (0xed59bc602940ed46e7a625687dced198, 0xb7fcbb87d41ac1b2039304299f8a8c8e, 1650),
  (0x945815bc19c8944c50c7d7614ea142ff, 0x72fdf534e490b90f423be29a03b697d9, 1653),
  (0xb96e1b2b203ab95f64f9cd39a24993bf, 0x4fbd72821db4e75312cadb4084a43dcf, 1655),
  (0xe7c9a1f5e84967b73e3840880adbf8af, 0x23accf22a5222127d77d9210a5cd4d43, 1657),
  (0x90de0539b12de0d286e3285506c97b6d, 0x764c0175a73554b8e6ae7b4a67a0504a, 1660),
  (0xb51586881d795907289bf26a487bda48, 0xd3df01d31102a9e7205a1a1d0188645c, 1662),
  (0xe25ae82a24d7af48f2c2ef04da9ad0db, 0x08d6c247d5435460e870a0a441ea7d73, 1664),
  (0x8d78d11a5706cd8d97b9d56308a0c288, 0xe586396ce54a14bc91466466a9328e68, 1667),
  (0xb0d70560ecc880f0fda84abbcac8f32b, 0x1ee7c7c81e9c99ebb597fd80537f3202, 1669),
  (0xdd0cc6b927faa12d3d125d6abd7b2ff5, 0xe6a1b9ba2643c066a2fdfce0685efe83, 1671),
  (0x8a27fc33b8fca4bc462b7a62b66cfdf9, 0xb025141457ea584025debe0c413b5f12, 1674),
  (0xacb1fb40a73bcdeb57b658fb64083d78, 0x1c2e59196de4ee502f566d8f518a36d6, 1676),
  (0xd7de7a10d10ac1662da3ef3a3d0a4cd6, 0x2339ef5fc95e29e43b2c08f325ecc48c, 1678),
  (0x86eb0c4a82a6b8dfdc86758466267005, 0xd604359bdddada2ea4fb8597f7b3fad7, 1681),
  (0xa8a5cf5d23506717d3a812e57fb00c07, 0x4b854302d55190ba4e3a66fdf5a0f98d, 1683),
  (0xd2cf43346c2480ddc892179edf9c0f09, 0x1e6693c38aa5f4e8e1c900bd730937f0, 1685),
  (0x83c18a00c396d08a9d5b4ec34bc18965, 0xb3001c5a36a7b9118d1da07667e5c2f6, 1688),
  (0xa4b1ec80f47c84ad44b222741eb1ebbf, 0x1fc02370c451a755f065089401df33b4, 1690),
  (0xcdde67a1319ba5d895deab11265e66ae, 0xe7b02c4cf566112b6c7e4ab9025700a1, 1692),
  (0x80ab00c4bf0147a75dab2aeab7fb002d, 0x50ce1bb0195fcabb23ceeeb3a1766064, 1695),
  (0xa0d5c0f5eec199913515f5a565f9c038, 0xa501a29c1fb7bd69ecc2aa6089d3f87d, 1697),
  (0xc90b31336a71fff5825b730ebf783046, 0xce420b4327a5acc467f354f8ac48f69d, 1699),
  (0xfb4dfd80450e7ff2e2f24fd26f563c58, 0x81d28e13f18f17f581f02a36d75b3444, 1701),
  (0x9d10be702b290ff7cdd771e38595e5b7, 0x512398cc76f96ef971361a62469900ab, 1704),
  (0xc454ee0c35f353f5c14d4e5c66fb5f25, 0x256c7eff94b7cab7cd83a0fad83f40d5, 1706),
  (0xf56a298f437028f331a0a1f380ba36ee, 0x6ec79ebf79e5bd65c0e489398e4f110b, 1708),
  (0x996259f98a261997ff04653830746255, 0x053cc337ac2f965f988ed5c3f8f16aa7, 1711),
  (0xbfbaf077ecaf9ffdfec57e863c917aea, 0x468bf405973b7bf77eb28b34f72dc550, 1713),
  (0xefa9ac95e7db87fd7e76de27cbb5d9a4, 0xd82ef106fd0a5af55e5f2e0234f936a4, 1715),
  (0x95ca0bddb0e934fe6f0a4ad8df51a807, 0x071d56a45e2678d95afb7cc1611bc227, 1718),
  (0xbb3c8ed51d23823e0accdd8f17261208, 0xc8e4ac4d75b0170fb1ba5bf1b962b2b0, 1720),
  (0xea0bb28a646c62cd8d8014f2dcef968a, 0xfb1dd760d31c1cd39e28f2ee27bb5f5d, 1722),
  (0x92474f967ec3bdc078700d17ca15be16, 0xdcf2a69c83f1920442d997d4d8d51b9a, 1725),
  (0xb6d9237c1e74ad30968c105dbc9b2d9c, 0x942f5043a4edf685538ffdca0f0a6280, 1727),
  (0xe48f6c5b2611d87cbc2f14752bc1f903, 0xb93b24548e297426a873fd3c92ccfb20, 1729),
  (0x8ed9a3b8f7cb274df59d6cc93b593ba2, 0x53c4f6b4d8d9e89829487e45dbc01cf4, 1732),
  (0xb2900ca735bdf1217304c7fb8a2f8a8a, 0xe8b634620f1062be339a9dd752b02431, 1734),
  (0xdf340fd1032d6d69cfc5f9fa6cbb6d2d, 0xa2e3c17a92d47b6dc081454d275c2d3e, 1736),
  (0x8b8089e2a1fc646221dbbc3c83f5243c, 0x85ce58ec9bc4cd249850cb5038999c46, 1739),
  (0xae60ac5b4a7b7d7aaa52ab4ba4f26d4b, 0xa741ef27c2b6006dbe64fe2446c00358, 1741),
  (0xd9f8d7721d1a5cd954e7561e8e2f089e, 0x91126af1b36380892dfe3dad5870042e, 1743),
  (0x883b86a752307a07d51095d318dd6563, 0x1aab82d7101e3055bcbee68c5746029d, 1746),
  (0xaa4a685126bc9889ca54bb47df14bebb, 0xe156638cd425bc6b2beea02f6d178344, 1748),
  (0xd4dd0265706bbeac3ce9ea19d6d9ee6a, 0xd9abfc70092f2b85f6ea483b485d6415, 1750),
  (0x850a217f6643572ba612325026483502, 0xc80b7dc605bd7b33ba526d250d3a5e8d, 1753),
  (0xa64ca9df3fd42cf68f96bee42fda4243, 0x7a0e5d37872cda00a8e7086e5088f630, 1755),
  (0xcfdfd4570fc93834337c6e9d3bd0d2d4, 0x5891f48568f81080d320ca89e4ab33bd, 1757),
  (0x81ebe4b669ddc320a02dc522456283c4, 0xb75b38d3619b0a5083f47e962eeb0056, 1760),
  (0xa266dde4045533e8c839366ad6bb24b5, 0xe53207083a01cce4a4f19e3bbaa5c06b, 1762),
  (0xcb00955d056a80e2fa4784058c69ede3, 0x5e7e88ca4882401dce2e05caa94f3086, 1764),
  (0xfdc0bab446c5211bb8d96506ef84695c, 0x361e2afcdaa2d02541b9873d53a2fca8, 1766),
  (0x9e9874b0ac3b34b15387df2455b2c1d9, 0xa1d2dade08a5c2174913f4865445dde9, 1769),
  (0xc63e91dcd74a01dda869d6ed6b1f7250, 0x0a4791958acf329d1b58f1a7e9575563, 1771),
  (0xf7ce36540d1c825512844ca8c5e74ee4, 0x0cd975faed82ff44622f2e11e3ad2abc, 1773),
  (0x9ae0e1f48831d1752b92afe97bb0914e, 0x8807e9bcd471df8abd5d7ccb2e4c3ab5, 1776),
  (0xc1991a71aa3e45d276775be3da9cb5a2, 0x2a09e42c098e576d6cb4dbfdf9df4963, 1778),
  (0xf1ff610e14cdd747141532dcd143e30a, 0xb48c5d370bf1ed48c7e212fd78571bbb, 1780)]

/-- src/conv/from_str/powers_of_five.rs:1840-1967 -/
def powersOfFive2_14 : List (Nat × Nat × Int) := [
  (0x973f9ca8cd00a68c6c8d3fca02ca6de6, 0xb0d7ba426777344d7ced4bde6b367155, 1783),
  (0xbd0f83d30040d02f87b08fbc837d0960, 0x5d0da8d301550160dc289ed606040daa, 1785),
  (0xec5364c7c051043b699cb3aba45c4bb8, 0x74511307c1aa41b91332c68b87851115, 1787),
  (0x93b41efcd832a2a52201f04b46b9af53, 0x48b2abe4d90a6913abffbc1734b32aad, 1790),
  (0xb8a126bc0e3f4b4e6a826c5e18681b28, 0x1adf56de0f4d035896ffab1d01dff558, 1792),
  (0xe6c9706b11cf1e22052307759e8221f2, 0x21972c959320442ebcbf95e44257f2af, 1794),
  (0x903de642eb2172d54335e4a983115537, 0x54fe7bdd7bf42a9d35f7bdaea976f7ad, 1797),
  (0xb44d5fd3a5e9cf8a94035dd3e3d5aa85, 0x2a3e1ad4daf135448375ad1a53d4b598, 1799),
  (0xe160b7c88f64436d39043548dccb1526, 0x74cda18a11ad8295a4531860e8c9e2fe, 1801),
  (0x8cdc72dd599eaa2443a2a14d89feed38, 0x090084f64b0c719d86b3ef3c917e2ddf, 1804),
  (0xb0138f94b00654ad548b49a0ec7ea886, 0x0b40a633ddcf8e04e860eb0bb5ddb957, 1806),
  (0xdc187379dc07e9d8a9ae1c09279e52a7, 0x8e10cfc0d5437186227925cea35527ac, 1808),
  (0x898f482c2984f2276a0cd185b8c2f3a8, 0xb8ca81d8854a26f3d58bb7a1261538cc, 1811),
  (0xabf31a3733e62eb1449005e726f3b092, 0xe6fd224ea69cb0b0caeea5896f9a86ff, 1813),
  (0xd6efe0c500dfba5d95b40760f0b09cb7, 0xa0bc6ae25043dcdcfdaa4eebcb8128be, 1815),
  (0x8655ec7b208bd47a7d90849c966e61f2, 0xc475c2cd722a6a0a1e8a71535f30b977, 1818),
  (0xa7eb6799e8aec9991cf4a5c3bc09fa6f, 0x75933380ceb5048ca62d0da836fce7d5, 1820),
  (0xd1e6418062da7bff6431cf34ab0c790b, 0x52f80061026245afcfb8511244bc21ca, 1822),
  (0x832fe8f03dc88d7f9e9f2180eae7cba7, 0x13db003ca17d6b8de1d332ab6af5951e, 1825),
  (0xa3fbe32c4d3ab0df8646e9e125a1be90, 0xd8d1c04bc9dcc6715a47ff5645b2fa66, 1827),
  (0xccfadbf760895d1767d8a4596f0a2e35, 0x0f06305ebc53f80db0d9ff2bd71fb8ff, 1829),
  (0x801cc97a9c55da2ea0e766b7e5665ce1, 0x2963de3b35b47b088e883f7b6673d39f, 1832),
  (0xa023fbd9436b50ba49214065debff419, 0x73bcd5ca032199cab22a4f5a4010c887, 1834),
  (0xc82cfacf944624e8db69907f566ff11f, 0xd0ac0b3c83ea003d5eb4e330d014faa9, 1836),
  (0xfa3839837957ae231243f49f2c0bed67, 0xc4d70e0ba4e4804cb6621bfd041a3954, 1838),
  (0x9c6323f22bd6ccd5eb6a78e37b877460, 0xdb0668c7470ed02ff1fd517e229063d4, 1841),
  (0xc37beceeb6cc800b6645171c5a695179, 0x11c802f918d2843bee7ca5ddab347cc9, 1843),
  (0xf45ae82a647fa00e3fd65ce37103a5d7, 0x563a03b75f07254aea1bcf5516019bfc, 1845),
  (0x98b8d11a7ecfc408e7e5fa0e26a247a6, 0x95e442529b64774ed25161952dc1017d, 1848),
  (0xbee705611e83b50b21df7891b04ad990, 0x3b5d52e7423d952286e5b9fa793141dc, 1850),
  (0xeea0c6b96624a24dea5756b61c5d8ff4, 0x4a34a7a112ccfa6b289f2879177d9254, 1852),
  (0x95247c33dfd6e570b2769631d1ba79f8, 0xae60e8c4abc01c82f963794baeae7b74, 1855),
  (0xba6d9b40d7cc9eccdf143bbe46291876, 0xd9f922f5d6b023a3b7bc579e9a5a1a51, 1857),
  (0xe90902110dbfc68016d94aadd7b35e94, 0x90776bb34c5c2c8ca5ab6d8640f0a0e6, 1859),
  (0x91a5a14aa897dc100e47ceaca6d01b1c, 0xda4aa3500fb99bd7e78b2473e896648f, 1862),
  (0xb60f099d52bdd31411d9c257d08421e4, 0x10dd4c2413a802cde16ded90e2bbfdb3, 1864),
  (0xe392cc04a76d47d9165032edc4a52a5d, 0x15149f2d1892038159c968f51b6afd20, 1866),
  (0x8e3bbf82e8a44ce7adf21fd49ae73a7a, 0x2d2ce37c2f5b4230d81de1993122de34, 1869),
  (0xb1caaf63a2cd6021996ea7c9c1a10918, 0xb8781c5b3b3212bd0e2559ff7d6b95c1, 1871),
  (0xde3d5b3c8b80b829ffca51bc32094b5e, 0xe696237209fe976c51aeb07f5cc67b32, 1873),
  (0x8ae65905d730731a3fde73159f45cf1b, 0x501dd627463f1ea3b30d2e4f99fc0cff, 1876),
  (0xad9fef474cfc8fe0cfd60fdb071742e2, 0x24254bb117cee64c9fd079e3807b103f, 1878),
  (0xd907eb19203bb3d903cb93d1c8dd139a, 0xad2e9e9d5dc29fdfc7c4985c6099d44e, 1880),
  (0x87a4f2efb4255067a25f3c631d8a2c40, 0xac3d23225a99a3ebdcdadf39bc6024b1, 1883),
  (0xa98e2faba12ea4818af70b7be4ecb750, 0xd74c6beaf1400ce6d41197082b782ddd, 1885),
  (0xd3f1bb96897a4da1edb4ce5ade27e525, 0x0d1f86e5ad9010208915fcca36563955, 1887),
  (0x8477153e15ec7085349100f8cad8ef37, 0x2833b44f8c7a0a1455adbdfe61f5e3d5, 1890),
  (0xa594da8d9b678ca681b54136fd8f2b04, 0xf240a1636f988c996b192d7dfa735cca, 1892),
  (0xcefa113102416fd022229184bcf2f5c6, 0x2ed0c9bc4b7eafbfc5df78dd791033fd, 1894),
  (0x815c4abea168e5e215559af2f617d99b, 0xdd427e15af2f2dd7dbabab8a6baa207e, 1897),
  (0xa1b35d6e49c31f5a9aab01afb39dd002, 0xd4931d9b1afaf94dd296966d0694a89d, 1899),
  (0xca2034c9dc33e7314155c21ba0854403, 0x89b7e501e1b9b7a1473c3c084839d2c5, 1901),
  (0xfca841fc5340e0fd91ab32a288a69504, 0x6c25de425a282589990b4b0a5a484776, 1903),
  (0x9de9293db4088c9e7b0affa595681d22, 0xc397aae978591775ffa70ee6786d2caa, 1906),
  (0xc563738d210aafc619cdbf8efac2246b, 0x747d95a3d66f5d537f90d2a0168877d4, 1908),
  (0xf6bc5070694d5bb7a0412f72b972ad86, 0x519cfb0ccc0b34a85f7507481c2a95c9, 1910),
  (0x9a35b24641d05952c428bda7b3e7ac73, 0xf3021ce7ff8700e93ba9248d119a9d9e, 1913),
  (0xc0c31ed7d2446fa77532ed11a0e19790, 0xefc2a421ff68c1238a936db056014505, 1915),
  (0xf0f3e68dc6d58b91527fa8560919fd75, 0x2bb34d2a7f42f16c6d38491c6b819646, 1917),
  (0x969870189c45773ad38fc935c5b03e69, 0x3b50103a8f89d6e3c4432db1c330fdec, 1920),
  (0xbc3e8c1ec356d5098873bb83371c4e03, 0x8a241449336c4c9cb553f91e33fd3d67, 1922),
  (0xeb4e2f26742c8a4bea90aa6404e36184, 0x6cad195b80475fc3e2a8f765c0fc8cc1, 1924),
  (0x9310dd78089bd66f729a6a7e830e1cf2, 0xc3ec2fd9302c9bda6da99a9f989dd7f8, 1927),
  (0xb7d514d60ac2cc0b4f41051e23d1a42f, 0x74e73bcf7c37c2d1091401477ec54df6, 1929),
  (0xe5ca5a0b8d737f0e23114665acc60d3b, 0x52210ac35b45b3854b5901995e76a174, 1931),
  (0x8f9e784738682f68d5eacbff8bfbc845, 0x1354a6ba190b90334f17a0ffdb0a24e8, 1934),
  (0xb386165906823b430b657eff6efaba56, 0x5829d0689f4e744022dd893fd1ccae23, 1936),
  (0xe0679bef4822ca13ce3edebf4ab968eb, 0xee344482c72211502b94eb8fc63fd9ac, 1938),
  (0x8c40c1758d15be4c60e74b378eb3e193, 0x74e0aad1bc754ad21b3d1339dbe7e80b, 1941),
  (0xaf50f1d2f05b2ddf79211e057260d9f8, 0x5218d5862b929d86a20c580852e1e20e, 1943),
  (0xdb252e47ac71f95757696586cef91076, 0x669f0ae7b67744e84a8f6e0a679a5a91, 1945),
  (0x88f73ceccbc73bd696a1df74415baa4a, 0x002366d0d20a8b112e99a4c680c0789b, 1948),
  (0xab350c27feb90acc3c4a575151b294dc, 0x802c4085068d2dd57a400df820f096c2, 1950),
  (0xd6024f31fe674d7f4b5ced25a61f3a13, 0xa03750a64830794ad8d01176292cbc72, 1952),
  (0x85c1717f3f00906f8f1a143787d3844c, 0x44229267ed1e4bcec7820ae9d9bbf5c7, 1955),
  (0xa731cddf0ec0b48b72e0994569c8655f, 0x552b3701e865dec279628da4502af339, 1957),
  (0xd0fe4156d270e1ae4f98bf96c43a7eb7, 0x2a7604c2627f567317bb310d6435b007, 1959),
  (0x829ee8d643868d0cf1bf77be3aa48f32, 0x7a89c2f97d8f9607eed4fea85ea18e04, 1962),
  (0xa346a30bd46830502e2f55adc94db2ff, 0x192c33b7dcf37b89ea8a3e527649f186, 1964),
  (0xcc184bcec9823c6439bb2b193ba11fbe, 0xdf7740a5d4305a6c652ccde713dc6de7, 1966),
  (0xff1e5ec27be2cb7d4829f5df8a8967ae, 0x975510cf493c71077e780160d8d38961, 1968),
  (0x9f72fb398d6dbf2e4d1a39abb695e0cd, 0x1e952a818dc5c6a4af0b00dc878435dd, 1971),
  (0xc74fba07f0c92ef9e060c816a43b5900, 0x663a7521f137384ddacdc113a9654354, 1973),
  (0xf923a889ecfb7ab85878fa1c4d4a2f40, 0x7fc9126a6d8506615181315893be9429, 1975),
  (0x9bb64956341d2cb3374b9c51b04e5d88, 0x4fddab82847323fcd2f0bed75c571c99, 1978),
  (0xc2a3dbabc12477e0051e83661c61f4ea, 0x63d51663258fecfc07acee8d336ce3c0, 1980),
  (0xf34cd296b16d95d80666243fa37a7224, 0xfcca5bfbeef3e83b09982a3080481cb0, 1982),
  (0x9810039e2ee47da703ffd6a7c62c8757, 0x1dfe797d75587124e5ff1a5e502d11ee, 1985),
  (0xbe140485ba9d9d10c4ffcc51b7b7a92c, 0xe57e17dcd2ae8d6e1f7ee0f5e4385669, 1987),
  (0xed9905a729450454f63fbf6625a59378, 0x1edd9dd4075a30c9a75e99335d466c04, 1989),
  (0x947fa38879cb22b519e7d79fd7877c2b, 0x134a82a484985e7e089b1fc01a4c0382, 1992),
  (0xb99f8c6a983deb626061cd87cd695b35, 0xd81d234da5be761d8ac1e7b020df0463, 1994),
  (0xe8076f853e4d663af87a40e9c0c3b203, 0x4e246c210f2e13a4ed72619c2916c57c, 1996),
  (0x9104a5b346f05fe4db4c6892187a4f42, 0x10d6c394a97ccc4714677d0199ae3b6d, 1999),
  (0xb545cf2018ac77de121f82b69e98e312, 0x950c7479d3dbff58d9815c420019ca48, 2001),
  (0xe29742e81ed795d596a76364463f1bd7, 0x3a4f919848d2ff2f0fe1b35280203cdb, 2003),
  (0x8d9e89d11346bda57e289e1eabe77166, 0x8471baff2d83df7d69ed101390142609, 2006),
  (0xb1062c4558186d0eddb2c5a656e14dc0, 0x258e29bef8e4d75cc468541874192f8b, 2008),
  (0xdd47b756ae1e8852951f770fec99a130, 0x2ef1b42eb71e0d33f582691e911f7b6e, 2010),
  (0x8a4cd2962cd315339d33aa69f3e004be, 0x1d57109d3272c840797181b31ab3ad24, 2013),
  (0xace0073bb807da808480950470d805ed, 0xa4acd4c47f0f7a5097cde21fe160986d, 2015),
  (0xd818090aa609d120a5a0ba458d0e0769, 0x0dd809f59ed358e4bdc15aa7d9b8be89, 2017),
  (0x870f05a6a7c622b46784746b7828c4a1, 0xa8a706398344178ef698d8a8e8137715, 2020),
  (0xa8d2c71051b7ab61816591865632f5ca, 0x12d0c7c7e4151d72b43f0ed3221854db, 2022),
  (0xd30778d466259639e1bef5e7ebbfb33c, 0x9784f9b9dd1a64cf614ed287ea9e6a12, 2024),
  (0x83e4ab84bfd77de42d1759b0f357d005, 0xdeb31c142a307f019cd14394f2a3024b, 2027),
  (0xa4ddd665efcd5d5d385d301d302dc407, 0x565fe31934bc9ec20405947a2f4bc2de, 2029),
  (0xce154bff6bc0b4b486747c247c393509, 0x2bf7dbdf81ebc6728506f998bb1eb395, 2031),
  (0x80cd4f7fa35870f0d408cd96cda3c125, 0xbb7ae96bb1335c0793245bff74f3303d, 2034),
  (0xa100a35f8c2e8d2d090b00fc810cb16f, 0x2a59a3c69d80330977ed72ff522ffc4d, 2036),
  (0xc940cc376f3a30784b4dc13ba14fddca, 0xf4f00cb844e03fcbd5e8cfbf26bbfb60, 2038),
  (0xfb90ff454b08bc965e21318a89a3d53d, 0xb22c0fe656184fbecb6303aef06afa38, 2040),
  (0x9d3a9f8b4ee575ddfad4bef696066546, 0x8f5b89eff5cf31d73f1de24d5642dc63, 2043),
  (0xc489476e229ed3557989eeb43b87fe98, 0x33326c6bf342fe4d0ee55ae0abd3937c, 2045),
  (0xf5ab9949ab46882ad7ec6a614a69fe3e, 0x3fff0786f013bde0529eb198d6c8785b, 2047),
  (0x998b3fce0b0c151ac6f3c27cce823ee6, 0xe7ff64b4560c56ac33a32eff863d4b38, 2050),
  (0xbfee0fc18dcf1a6178b0b31c0222cea0, 0xa1ff3de16b8f6c57408bfabf67cc9e07, 2052),
  (0xefe993b1f142e0f9d6dcdfe302ab8248, 0xca7f0d59c673476d10aef96f41bfc588, 2054),
  (0x95f1fc4f36c9cc9c264a0bede1ab316d, 0x7e8f68581c080ca42a6d5be58917db75, 2057),
  (0xbb6e7b63047c3fc32fdc8ee95a15fdc8, 0xde33426e230a0fcd3508b2deeb5dd252, 2059),
  (0xea4a1a3bc59b4fb3fbd3b2a3b09b7d3b, 0x15c01309abcc93c0824adf96a63546e7, 2061),
  (0x926e50655b8111d07d644fa64e612e44, 0xed980be60b5fdc58516ecbbe27e14c50, 2064),
  (0xb709e47eb26156449cbd638fe1f979d6, 0x28fe0edf8e37d36e65ca7eadb1d99f65, 2066),
  (0xe4cc5d9e5ef9abd5c3ecbc73da77d84b, 0xb33d929771c5c849ff3d1e591e50073e, 2068),
  (0x8effba82fb5c0b659a73f5c8688ae72f, 0x50067b9ea71b9d2e3f8632f7b2f20486, 2071),
  (0xb2bfa923ba330e3f0110f33a82ada0fb, 0x24081a8650e28479cf67bfb59fae85a8, 2073),
  (0xdf6f936ca8bfd1cec155300923590939, 0xed0a2127e51b25984341afa3079a2712, 2075),
  (0x8ba5bc23e977e32138d53e05b617a5c4, 0x342654b8ef30f77f2a090dc5e4c0586b, 2078)]

/-- src/conv/from_str/powers_of_five.rs:1968-2095 -/
def powersOfFive2_15 : List (Nat × Nat × Int) := [
  (0xae8f2b2ce3d5dbe9870a8d87239d8f35, 0x412fe9e72afd355ef48b51375df06e86, 2080),
  (0xda32f5f81ccb52e3e8cd30e8ec84f302, 0x917be460f5bc82b6b1ae2585356c8a28, 2082),
  (0x885fd9bb11ff13ce71803e9193d317e1, 0x9aed6ebc9995d1b22f0cd7734163d659, 2085),
  (0xaa77d029d67ed8c20de04e35f8c7ddda, 0x01a8ca6bbffb461ebad00d5011bccbef, 2087),
  (0xd515c4344c1e8ef2915861c376f9d550, 0x8212fd06affa17a6698410a4162bfeeb, 2089),
  (0x852d9aa0af9319579ad73d1a2a5c2552, 0x514bde242dfc4ec801f28a668ddb7f53, 2092),
  (0xa6790148db77dfad818d0c60b4f32ea6, 0xe59ed5ad397b627a026f2d0031525f27, 2094),
  (0xd017419b1255d798e1f04f78e22ffa50, 0x9f068b1887da3b18830af8403da6f6f1, 2096),
  (0x820e8900eb75a6bf8d3631ab8d5dfc72, 0x636416ef54e864ef51e6db2826885a57, 2099),
  (0xa2922b412653106f7083be1670b57b8e, 0xfc3d1cab2a227e2b266091f2302a70ed, 2101),
  (0xcb36b6116fe7d48b4ca4ad9c0ce2da72, 0xbb4c63d5f4ab1db5eff8b66ebc350d28, 2103),
  (0xfe046395cbe1c9ae1fcdd903101b910f, 0x6a1f7ccb71d5e5236bf6e40a6b425072, 2105),
  (0x9ec2be3d9f6d1e0cd3e0a7a1ea113aa9, 0xa253adff2725af36237a4e8683097247, 2108),
  (0xc6736dcd0748659008d8d18a64958954, 0x0ae8997ef0ef1b03ac58e22823cbced9, 2110),
  (0xf8104940491a7ef40b0f05ecfdbaeba9, 0x0da2bfdead2ae1c4976f1ab22cbec28f, 2112),
  (0x9b0a2dc82db08f5886e963b41e94d349, 0xa885b7eb2c3acd1adea570af5bf73999, 2115),
  (0xc1ccb93a391cb32ea8a3bca1263a081c, 0x12a725e5f7498061964eccdb32f50800, 2117),
  (0xf23fe788c763dffa52ccabc96fc88a23, 0x1750ef5f751be079fbe28011ffb24a00, 2119),
  (0x9767f0b57c9e6bfc73bfeb5de5dd5655, 0xee92959ba9316c4c3d6d900b3fcf6e40, 2122),
  (0xbd41ece2dbc606fb90afe6355f54abeb, 0x6a373b02937dc75f4cc8f40e0fc349d0, 2124),
  (0xec92681b92b788ba74dbdfc2b729d6e6, 0x44c509c3385d39371ffb311193b41c44, 2126),
  (0x93db81113bb2b57489096bd9b27a264f, 0xeafb261a033a43c273fcfeaafc5091aa, 2129),
  (0xb8d261558a9f62d1ab4bc6d01f18afe3, 0xe5b9efa08408d4b310fc3e55bb64b615, 2131),
  (0xe706f9aaed473b86161eb88426dedbdc, 0xdf286b88a50b09dfd53b4deb2a3de39a, 2133),
  (0x90645c0ad44c8533cdd33352984b496a, 0x0b7943356726e62be54510b2fa66ae40, 2136),
  (0xb47d730d895fa680c14800273e5e1bc4, 0x8e579402c0f09fb6de9654dfb90059d0, 2138),
  (0xe19ccfd0ebb79020f19a00310df5a2b5, 0xb1ed7903712cc7a4963bea17a7407045, 2140),
  (0x8d0201e29352ba149700401ea8b985b1, 0x8f346ba226bbfcc6dde5724ec888462b, 2143),
  (0xb042825b38276899bcc0502652e7e71d, 0xf301868ab06afbf8955ecee27aaa57b5, 2145),
  (0xdc5322f2063142c02bf0642fe7a1e0e5, 0x6fc1e82d5c85baf6bab6829b1954eda3, 2147),
  (0x89b3f5d743dec9b81b763e9df0c52c8f, 0x65d9311c59d394da34b211a0efd51486, 2150),
  (0xac20f34d14d67c262253ce456cf677b3, 0x3f4f7d6370487a10c1de96092bca59a7, 2152),
  (0xd72930205a0c1b2faae8c1d6c83415a0, 0x0f235cbc4c5a9894f2563b8b76bcf011, 2154),
  (0x8679be14384790fdcad179263d208d84, 0x097619f5afb89f5d1775e5372a36160b, 2157),
  (0xa8182d994659753d3d85d76fcc68b0e5, 0x0bd3a0731ba6c7345d535e84f4c39b8d, 2159),
  (0xd21e38ff97efd28c8ce74d4bbf82dd1e, 0x4ec8888fe290790174a8362631f48271, 2161),
  (0x8352e39fbef5e397d810904f57b1ca32, 0xf13d5559ed9a4ba0e8e921d7df38d186, 2164),
  (0xa4279c87aeb35c7dce14b4632d9e3cbf, 0xad8caab06900de8923236a4dd70705e8, 2166),
  (0xcd3183a99a60339d4199e17bf905cbef, 0x98efd55c8341162b6bec44e14cc8c762, 2168),
  (0x803ef24a007c204249002ced7ba39f75, 0xbf95e559d208addb2373ab0ccffd7c9d, 2171),
  (0xa04eaedc809b2852db403828da8c8753, 0x2f7b5eb0468ad951ec5095d003fcdbc4, 2173),
  (0xc8625a93a0c1f26792104633112fa927, 0xfb5a365c582d8fa66764bb4404fc12b6, 2175),
  (0xfa7af13888f26f01769457bfd57b9371, 0xfa30c3f36e38f390013dea15063b1763, 2177),
  (0x9c8cd6c355978560ea1cb6d7e56d3c27, 0x3c5e7a7824e3983a00c6b24d23e4ee9e, 2180),
  (0xc3b00c742afd66b924a3e48ddec88b31, 0x0b7619162e1c7e4880f85ee06cde2a45, 2182),
  (0xf49c0f9135bcc0676dccddb1567aadfd, 0x4e539f5bb9a39ddaa13676988815b4d7, 2184),
  (0x98e189bac195f840a4a00a8ed60cacbe, 0x50f44399540642a8a4c20a1f550d9106, 2187),
  (0xbf19ec2971fb7650cdc80d328b8fd7ed, 0xe531547fa907d352cdf28ca72a50f548, 2189),
  (0xeee06733ce7a53e5013a107f2e73cde9, 0x5e7da99f9349c827816f2fd0f4e5329a, 2191),
  (0x954c4080610c746f20c44a4f7d0860b1, 0xdb0e8a03bc0e1d18b0e57de2990f3fa0, 2194),
  (0xba9f50a0794f918ae8f55ce35c4a78de, 0x51d22c84ab11a45edd1edd5b3f530f88, 2196),
  (0xe94724c897a375eda332b41c335d1715, 0xe646b7a5d5d60d76946694b20f27d36a, 2198),
  (0x91cc76fd5ec629b485ffb091a01a2e6d, 0xafec32c7a5a5c86a1cc01cef4978e422, 2201),
  (0xb63f94bcb677b421a77f9cb60820ba09, 0x1be73f798f0f3a84a3f0242b1bd71d2b, 2203),
  (0xe3cf79ebe415a12a115f83e38a28e88b, 0x62e10f57f2d30925ccec2d35e2cce476, 2205),
  (0x8e61ac336e8d84ba4adbb26e36599157, 0x1dcca996f7c3e5b7a0139c41adc00ec9, 2208),
  (0xb1fa17404a30e5e8dd929f09c3eff5ac, 0xe53fd3fcb5b4df25881883521930127c, 2210),
  (0xde789d105cbd1f6314f746cc34ebf318, 0x1e8fc8fbe32216eeea1ea4269f7c171b, 2212),
  (0x8b0b622a39f6339ded1a8c3fa11377ef, 0x1319dd9d6df54e555253269823ad8e71, 2215),
  (0xadce3ab4c873c08568612f4f895855ea, 0xd7e05504c972a1eaa6e7f03e2c98f20d, 2217),
  (0xd941c961fa90b0a6c2797b236bae6b65, 0x8dd86a45fbcf4a6550a1ec4db7bf2e90, 2219),
  (0x87c91ddd3c9a6e68398becf6234d031f, 0x78a7426bbd618e7f526533b092d77d1a, 2222),
  (0xa9bb65548bc10a0247eee833ac2043e7, 0x56d11306acb9f21f26fe809cb78d5c61, 2224),
  (0xd42a3ea9aeb14c82d9eaa240972854e1, 0x2c8557c857e86ea6f0be20c3e570b379, 2226),
  (0x849a672a0d2ecfd1c832a5685e79350c, 0xbbd356dd36f145285676d47a6f66702b, 2229),
  (0xa5c100f4907a83c63a3f4ec27617824f, 0xeac82c9484ad96726c1489990b400c36, 2231),
  (0xcf314131b49924b7c8cf2273139d62e3, 0xe57a37b9a5d8fc0f0719abff4e100f44, 2233),
  (0x817ec8bf10dfb6f2dd817587ec425dce, 0x6f6c62d407a79d8964700b7f90ca098a, 2236),
  (0xa1de7aeed517a4af94e1d2e9e752f542, 0x0b477b89099184ebbd8c0e5f74fc8bed, 2238),
  (0xca5619aa8a5d8ddb7a1a47a46127b292, 0x8e195a6b4bf5e626acef11f7523baee9, 2240),
  (0xfceba0152cf4f15258a0d98d79719f37, 0x319fb1061ef35fb0582ad67526ca9aa3, 2242),
  (0x9e13440d3c1916d3776487f86be70382, 0x7f03cea3d3581bce371ac609383ea0a6, 2245),
  (0xc59815108b1f5c88553da9f686e0c463, 0x1ec4c24cc82e22c1c4e1778b864e48cf, 2247),
  (0xf6fe1a54ade733aa6a8d14742898f57b, 0xe675f2dffa39ab723619d56e67e1db03, 2249),
  (0x9a5ed074ecb0804a82982cc8995f996d, 0x7009b7cbfc640b2761d0256500ed28e2, 2252),
  (0xc0f6849227dca05d233e37fabfb77fc8, 0xcc0c25befb7d0df13a442ebe4128731a, 2254),
  (0xf13425b6b1d3c8746c0dc5f96fa55fba, 0xff0f2f2eba5c516d88d53a6dd1728fe1, 2256),
  (0x96c097922f245d48c3889bbbe5c75bd4, 0xdf697d7d3479b2e475854484a2e799ec, 2259),
  (0xbc70bd76baed749af46ac2aadf3932ca, 0x1743dcdc81981f9d92e695a5cba18068, 2261),
  (0xeb8cecd469a8d1c1b185735597077f7c, 0x9d14d413a1fe2784f7a03b0f3e89e082, 2263),
  (0x93381404c20983190ef368157e64afad, 0xe22d048c453ed8b31ac424e987162c51, 2266),
  (0xb8061905f28be3df52b0421addfddb99, 0x5ab845af568e8edfe1752e23e8dbb765, 2268),
  (0xe6079f476f2edcd7275c52a1957d527f, 0xb166571b2c323297d9d279ace312a53f, 2270),
  (0x8fc4c38ca57d4a067899b3a4fd6e538f, 0xcedff670fb9f5f9ee8238c0c0deba747, 2273),
  (0xb3b5f46fcedc9c8816c0208e3cc9e873, 0xc297f40d3a873786a22c6f0f11669119, 2275),
  (0xe0a3718bc293c3aa1c7028b1cbfc6290, 0xb33df110892905684ab78ad2d5c0355f, 2277),
  (0x8c6626f7599c5a4a51c6196f1f7dbd9a, 0x7006b6aa55b9a3612eb2b6c3c598215b, 2280),
  (0xaf7fb0b5300370dce6379fcae75d2d01, 0x0c086454eb280c397a5f6474b6fe29b2, 2282),
  (0xdb5f9ce27c044d141fc587bda1347841, 0x4f0a7d6a25f20f47d8f73d91e4bdb41f, 2284),
  (0x891bc20d8d82b02c93db74d684c0cb28, 0xd1668e6257b7498ce79a867b2ef69093, 2287),
  (0xab62b290f0e35c37b8d2520c25f0fdf3, 0x05c031faeda51bf021812819fab434b8, 2289),
  (0xd63b5f352d1c3345a706e68f2f6d3d6f, 0xc7303e79a90e62ec29e17220796141e6, 2291),
  (0x85e51b813c31a00b886450197da44665, 0xdc7e270c09a8fdd39a2ce7544bdcc930, 2294),
  (0xa75e62618b3e080e6a7d641fdd0d57ff, 0x539db0cf0c133d4880b821295ed3fb7c, 2296),
  (0xd135faf9ee0d8a12051cbd27d450adff, 0x28851d02cf180c9aa0e62973b688fa5b, 2298),
  (0x82c1bcdc34c8764b4331f638e4b26cbf, 0x79533221c16f07e0a48fd9e852159c78, 2301),
  (0xa3722c1341fa93de13fe73c71ddf07ef, 0x57a7feaa31cac9d8cdb3d062669b0397, 2303),
  (0xcc4eb718127938d598fe10b8e556c9eb, 0x2d91fe54be3d7c4f0120c47b0041c47d, 2305),
  (0xff6264de1717870aff3d94e71eac7c65, 0xf8f67de9edccdb62c168f599c052359c, 2307),
  (0x9f9d7f0ace6eb466df867d10732bcdbf, 0xbb9a0eb234a0091db8e1998018336181, 2310),
  (0xc784decd820a618097681c548ff6c12f, 0xaa80925ec1c80b652719ffe01e4039e2, 2312),
  (0xf9661680e28cf9e0bd422369b3f4717b, 0x9520b6f6723a0e3e70e07fd825d0485a, 2314),
  (0x9bdfce108d981c2c764956221078c6ed, 0x3d34725a076448e7068c4fe717a22d38, 2317),
  (0xc2d7c194b0fe233793dbabaa9496f8a8, 0x8c818ef0893d5b20c82f63e0dd8ab886, 2319),
  (0xf38db1f9dd3dac0578d2969539bcb6d2, 0xafa1f2acab8cb1e8fa3b3cd914ed66a8, 2321),
  (0x98388f3c2a468b836b839e1d4415f243, 0xadc537abeb37ef319c650607ad146029, 2324),
  (0xbe46b30b34d82e64466485a4951b6ed4, 0x99368596e605eafe037e478998597833, 2326),
  (0xedd85fce020e39fd57fda70dba624a89, 0xbf8426fc9f8765bd845dd96bfe6fd640, 2328),
  (0x94a73be0c148e43e56fe8868947d6e96, 0x17b2985de3b49f9672baa7e37f05e5e8, 2331),
  (0xb9d10ad8f19b1d4decbe2a82b99cca3b, 0x9d9f3e755ca1c77c0f6951dc5ec75f62, 2333),
  (0xe8454d8f2e01e4a167edb5236803fcca, 0x85070e12b3ca395b1343a6537679373b, 2335),
  (0x912b50797cc12ee4e0f4913621027dfe, 0x932468cbb05e63d8ec0a47f42a0bc284, 2338),
  (0xb5762497dbf17a9e1931b583a9431d7e, 0x37ed82fe9c75fccf270cd9f1348eb326, 2340),
  (0xe2d3adbdd2edd9459f7e22e49393e4dd, 0xc5e8e3be43937c02f0d0106d81b25fef, 2342),
  (0x8dc44c96a3d4a7cb83aed5cedc3c6f0a, 0x9bb18e56ea3c2d81d6820a44710f7bf5, 2345),
  (0xb1355fbc4cc9d1be649a8b42934b8acd, 0x429df1eca4cb38e24c228cd58d535af3, 2347),
  (0xdd82b7ab5ffc462dfdc12e13381e6d80, 0x93456e67cdfe071adf2b300af0a831b0, 2349),
  (0x8a71b2cb1bfdabdcbe98bccc03130470, 0x5c0b6500e0bec470cb7afe06d6691f0e, 2352),
  (0xad0e1f7de2fd16d3ee3eebff03d7c58c, 0x730e3e4118ee758cfe59bd888c0366d1, 2354),
  (0xd851a75d5bbc5c88e9cea6fec4cdb6ef, 0x8fd1cdd15f2a12f03df02ceaaf044085, 2356),
  (0x8733089a5955b9d59221285f3b009255, 0xb9e320a2db7a4bd626b61c12ad62a853, 2359),
  (0xa8ffcac0efab284af6a9727709c0b6eb, 0x285be8cb9258decbb063a31758bb5268, 2361),
  (0xd33fbd712b95f25db453cf14cc30e4a5, 0xf272e2fe76ef167e9c7c8bdd2eea2702, 2363),
  (0x8407d666bb3db77a90b4616cff9e8ee7, 0xb787cddf0a556e0f21cdd76a3d525861, 2366),
  (0xa509cc006a0d255934e179c83f8632a1, 0xa569c156cceac992ea414d44cca6ee7a, 2368),
  (0xce4c3f0084906eaf8219d83a4f67bf4a, 0x0ec431ac80257bf7a4d1a095ffd0aa18, 2370),
  (0x80efa76052da452db150272471a0d78e, 0x493a9f0bd0176d7ac703045dbfe26a4f, 2373),
  (0xa12b91386790d6791da430ed8e090d71, 0xdb8946cec41d48d978c3c5752fdb04e3, 2375)]

/-- src/conv/from_str/powers_of_five.rs:2096-2096 -/
def powersOfFive2_16 : List (Nat × Nat × Int) := [
  (0xc976758681750c17650d3d28f18b50ce, 0x526b988275249b0fd6f4b6d27bd1c61c, 2377)]

/-- src/conv/from_str/powers_of_five.rs:47-2097 -/
def powersOfFive2 : List (Nat × Nat × Int) :=
  powersOfFive2_0 ++ powersOfFive2_1 ++ powersOfFive2_2 ++ powersOfFive2_3 ++ powersOfFive2_4 ++
  powersOfFive2_5 ++ powersOfFive2_6 ++ powersOfFive2_7 ++
  powersOfFive2_8 ++ powersOfFive2_9 ++ powersOfFive2_10 ++ powersOfFive2_11 ++
  powersOfFive2_12 ++ powersOfFive2_13 ++ powersOfFive2_14 ++ powersOfFive2_15 ++ powersOfFive2_16

end Verif
