/-!
# The table of Feynman's algorithm (src/math/feynman.rs:17-7890)

For `n` from 1 to 492 the words of `(f, l)`, with `f` standing for `1 + 2^-n` and `l` for its logarithm. The numbers
are copied verbatim from the source. The table is split into 4 parts.
-/

namespace Verif

/-- src/math/feynman.rs:20-1985 -/
def feynmanLut_0 : List ((Nat × Nat × Nat × Nat) × (Nat × Nat × Nat × Nat)) := [
  ((0x00001800000000000000000000000000, 0x00000000000000000000000000000000, 0x00000000000000000000000000000000, 0x00000000000000000000000000000000),
    (0x0000067cc8fb2fe612fcada35d9bd014, 0x886067d20ffb34547d7c2b38ad78ec59, 0xe3b60c2df0cb19edaebb7fadca437b8a, 0x073c4752d66d15d6f9b5da7e09dc7fec)),
  ((0x00001400000000000000000000000000, 0x00000000000000000000000000000000, 0x00000000000000000000000000000000, 0x00000000000000000000000000000000),
    (0x00000391fef8f353443584bb03de5ff7, 0x34495c765ea7411adc1b170f133f564b, 0xfc746a192a8fd7cdd3baa3103360ed08, 0xde46de9fc85bfc087279f78383094d75)),
  ((0x00001200000000000000000000000000, 0x00000000000000000000000000000000, 0x00000000000000000000000000000000, 0x00000000000000000000000000000000),
    (0x000001e27076e2af2e5e9ea87ffe1fe9, 0xe155db94ebc4017f6f957dd0897c1ff9, 0x17c959e05a342cfca2ad7a023f574264, 0x6cc77fd2c1f6cf9a71577286a0066ec1)),
  ((0x00001100000000000000000000000000, 0x00000000000000000000000000000000, 0x00000000000000000000000000000000, 0x00000000000000000000000000000000),
    (0x000000f85186008b15330be64b8b7759, 0x97898d3474d3375b5259671851f0a96f, 0x698496172da6bde861006908722d985b, 0xadcca99f0cc1de7a9459e9bc3578977e)),
  ((0x00001080000000000000000000000000, 0x00000000000000000000000000000000, 0x00000000000000000000000000000000, 0x00000000000000000000000000000000),
    (0x0000007e0a6c39e0cc0133e3f04f1ef2, 0x29faeaefae14cddf35ad1df6c758fe36, 0x73dcd8a38a3ffec979e9d55d9a7bae0a, 0x5d2e39ce344310f6e3a3902127ef47cb)),
  ((0x00001040000000000000000000000000, 0x00000000000000000000000000000000, 0x00000000000000000000000000000000, 0x00000000000000000000000000000000),
    (0x0000003f815161f807c79f3db4e9a6f5, 0x7aadbeb03be903ddc5335d140fe05771, 0x22f837a59b490758dcd0b7841aece8f9, 0xf71ccba7510a93b4ede62e808e1531ef)),
  ((0x00001020000000000000000000000000, 0x00000000000000000000000000000000, 0x00000000000000000000000000000000, 0x00000000000000000000000000000000),
    (0x0000001fe02a6b106788fc37690391dc, 0x282d2b3db2c3ef9a073a8767027886b5, 0x788c3d122f7ff51bc9855e4c4a44afac, 0xf68d7d99e1b469bb0f82ed4520ee290d)),
  ((0x00001010000000000000000000000000, 0x00000000000000000000000000000000, 0x00000000000000000000000000000000, 0x00000000000000000000000000000000),
    (0x0000000ff805515885e0250435ab4da6, 0xa5bb48ccd29dd6d72582491ba6e335a1, 0xa33227ed64a064192b38fd137bfbccc9, 0x5af15699b47493a53ec28b4baf715f07)),
  ((0x00001008000000000000000000000000, 0x00000000000000000000000000000000, 0x00000000000000000000000000000000, 0x00000000000000000000000000000000),
    (0x00000007fe00aa6ac4399e29e3a153e3, 0xb1ab1cad8ec22e89a011ec73356cc12a, 0xce6e866e737d102ec7bf0dd3f9376492, 0xe4bbad0d98ea24e690306566babedd4c)),
  ((0x00001004000000000000000000000000, 0x00000000000000000000000000000000, 0x00000000000000000000000000000000, 0x00000000000000000000000000000000),
    (0x00000003ff8015515621f7809a0a3249, 0x9268e8e30d61762ef4eb06e34c564a6e, 0xb720c453519e9f158acddd3878b775f3, 0x5b760ac4e6045033072c12cbec254884)),
  ((0x00001002000000000000000000000000, 0x00000000000000000000000000000000, 0x00000000000000000000000000000000, 0x00000000000000000000000000000000),
    (0x00000001ffe002aa6ab1106678ad8b31, 0x8cb38545eb8e9e5e0fc9e4e588a365c0, 0x9d7ac7dcd939ca5e80ec22369cbdd10a, 0x5afdad4954a65648d0b5c2e395e6a715)),
  ((0x00001001000000000000000000000000, 0x00000000000000000000000000000000, 0x00000000000000000000000000000000, 0x00000000000000000000000000000000),
    (0x00000000fff8005551558885de026e27, 0x1ee0549c8cd0b8002d083c9b2e919822, 0x2f25f83c3767ce5b794e8add50321de7, 0xbf63af6577335116cb84fbd5c2e9ee97)),
  ((0x00001000800000000000000000000000, 0x00000000000000000000000000000000, 0x00000000000000000000000000000000, 0x00000000000000000000000000000000),
    (0x000000007ffe000aaa6aac443999e2bc, 0x2bf0f6a90d794de4647be46c08a95c4b, 0x26860f2added6c36eede8f576ffd9795, 0xb75ca2f9fd6b95bc2ca6aeb8cb58a5d4)),
  ((0x00001000400000000000000000000000, 0x00000000000000000000000000000000, 0x00000000000000000000000000000000, 0x00000000000000000000000000000000),
    (0x000000003fff80015551556221f77809, 0xbe9c10dcf437a08a27c47f7b8170b322, 0x8bbda9876d250db837e0c455be77fadc, 0x4b6047785988ee5e462874b04b13f0c8)),
  ((0x00001000200000000000000000000000, 0x00000000000000000000000000000000, 0x00000000000000000000000000000000, 0x00000000000000000000000000000000),
    (0x000000001fffe0002aaa6aab11106667, 0x8af6af8e86e2082c24db8582a09b18c5, 0xae43b04b508dbc15dcc658eb217a56ba, 0x06c4b8c829de3945304c7683e6188490)),
  ((0x00001000100000000000000000000000, 0x00000000000000000000000000000000, 0x00000000000000000000000000000000, 0x00000000000000000000000000000000),
    (0x000000000ffff80005555155588885dd, 0xe027007028c98aff31675af1e4b66187, 0x6afc0bd81443999513506e4d063bb320, 0x30263e5a8ece440ba526da63fd056703)),
  ((0x00001000080000000000000000000000, 0x00000000000000000000000000000000, 0x00000000000000000000000000000000, 0x00000000000000000000000000000000),
    (0x0000000007fffe0000aaaa6aaac44439, 0x999e2be0be2cc64bfe601489ed796d11, 0xb54384e5f047cf23ee99e364468bc4d1, 0xf54961e3175a4aaf940670b0424befa3)),
  ((0x00001000040000000000000000000000, 0x00000000000000000000000000000000, 0x00000000000000000000000000000000, 0x00000000000000000000000000000000),
    (0x0000000003ffff800015555155562221, 0xf777809c07c09c7b879ee1f3f054f5e1, 0x212f17ef54ada6f1c529ff674e368b6f, 0xb251d0c89ce59e1ecfbe8ee1cbdf0e07)),
  ((0x00001000020000000000000000000000, 0x00000000000000000000000000000000, 0x00000000000000000000000000000000, 0x00000000000000000000000000000000),
    (0x0000000001ffffe00002aaaa6aaab111, 0x10666678af88f8afc3dc375d76918bec, 0x24f350d7ad150864282b4d0177f31628, 0x390ec195e8e38bce66a17a0a8e3e2cfb)),
  ((0x00001000010000000000000000000000, 0x00000000000000000000000000000000, 0x00000000000000000000000000000000, 0x00000000000000000000000000000000),
    (0x0000000000fffff80000555551555588, 0x8885ddde0270250270437435a9dab4ef, 0xaabcb1b03f5fe8c46ecb48cbe29eac65, 0x18358062ec61850699a0b6fbaa1f6a27)),
  ((0x00001000008000000000000000000000, 0x00000000000000000000000000000000, 0x00000000000000000000000000000000, 0x00000000000000000000000000000000),
    (0x00000000007ffffe00000aaaaa6aaaac, 0x4444399999e2be29e2be3a1ba153b53e, 0x3c6f548a036c42627ce21ecd8ec1b651, 0x77c93b7cf71930f750114e1e6afd46f0)),
  ((0x00001000004000000000000000000000, 0x00000000000000000000000000000000, 0x00000000000000000000000000000000, 0x00000000000000000000000000000000),
    (0x00000000003fffff8000015555515555, 0x622221f7777809c09a09c0a32632498c, 0x9926a3dd45aba577cbc78bbed1a1762e, 0xb8c0c3f0cfa25356fbbce4d3163cf518)),
  ((0x00001000002000000000000000000000, 0x00000000000000000000000000000000, 0x00000000000000000000000000000000, 0x00000000000000000000000000000000),
    (0x00000000001fffffe000002aaaaa6aaa, 0xab1111106666678af8ad8af8b319318c, 0xb2cb3855b3d18c01a1a8a5e426fd26de, 0x0fc9c6ccda344c34b5a17cfa25d62625)),
  ((0x00001000001000000000000000000000, 0x00000000000000000000000000000000, 0x00000000000000000000000000000000, 0x00000000000000000000000000000000),
    (0x00000000000ffffff800000555555155, 0x5558888885dddde027026e270271ee1e, 0xe0548549c8e25e450168975ae8e725b9, 0x3e083c9b1f845d84d0913c6add2db664)),
  ((0x00001000000800000000000000000000, 0x00000000000000000000000000000000, 0x00000000000000000000000000000000, 0x00000000000000000000000000000000),
    (0x000000000007fffffe000000aaaaaa6a, 0xaaaac444443999999e2be2bc2be2bf0f, 0x70f6a90a90d796337c6f69e930c1932a, 0x1b5e066c08a954c45058df002f7fa6c5)),
  ((0x00001000000400000000000000000000, 0x00000000000000000000000000000000, 0x00000000000000000000000000000000, 0x00000000000000000000000000000000),
    (0x000000000003ffffff80000015555551, 0x555556222221f77777809c09be9c09c1, 0x0dd0dcf437437a08b7cff933f0a51022, 0x643b5affc570b32287fa303893394581)),
  ((0x00001000000200000000000000000000, 0x00000000000000000000000000000000, 0x00000000000000000000000000000000, 0x00000000000000000000000000000000),
    (0x000000000001ffffffe0000002aaaaaa, 0x6aaaaab111111066666678af8af6af8a, 0xf8e86e86e2082082c24f0d95b3e6e3cc, 0xf6fdb25e0ea3a0c5ae43ae6990582a76)),
  ((0x00001000000100000000000000000000, 0x00000000000000000000000000000000, 0x00000000000000000000000000000000, 0x00000000000000000000000000000000),
    (0x000000000000fffffff8000000555555, 0x5155555588888885ddddde0270270070, 0x27028c98c98aff2ff31675c47237b4ef, 0xbfc34204702419987afc0bd81352b897)),
  ((0x00001000000080000000000000000000, 0x00000000000000000000000000000000, 0x00000000000000000000000000000000, 0x00000000000000000000000000000000),
    (0x0000000000007ffffffe0000000aaaaa, 0xaa6aaaaaac44444439999999e2be2be0, 0xbe2be2cc64c64bfe5fe60148a02cd633, 0x91c55cbe86125ac89565a4e5f047ceab)),
  ((0x00001000000040000000000000000000, 0x00000000000000000000000000000000, 0x00000000000000000000000000000000, 0x00000000000000000000000000000000),
    (0x0000000000003fffffff800000015555, 0x555155555562222221f777777809c09c, 0x07c09c09c7b87b879ee1ee1f3f0564b2, 0x0d26a3e3874fbabad80a983394ada6f2)),
  ((0x00001000000020000000000000000000, 0x00000000000000000000000000000000, 0x00000000000000000000000000000000, 0x00000000000000000000000000000000),
    (0x0000000000001fffffffe00000002aaa, 0xaaaa6aaaaaab11111110666666678af8, 0xaf88f8af8afc3dc3dc375d75d76918c0, 0x178f0dab096399224c0a2c45ad9d8864)),
  ((0x00001000000010000000000000000000, 0x00000000000000000000000000000000, 0x00000000000000000000000000000000, 0x00000000000000000000000000000000),
    (0x0000000000000ffffffff80000000555, 0x5555515555555888888885dddddde027, 0x0270250270270437437435a9da9dab4e, 0xfac11f19c8e260d56a6deb8bad17e9d5)),
  ((0x00001000000008000000000000000000, 0x00000000000000000000000000000000, 0x00000000000000000000000000000000, 0x00000000000000000000000000000000),
    (0x00000000000007fffffffe00000000aa, 0xaaaaaa6aaaaaaac4444444399999999e, 0x2be2be29e2be2be3a1ba1ba153b53b53, 0xe3c6f69de02ceb88f0f2b213d6d9f942)),
  ((0x00001000000004000000000000000000, 0x00000000000000000000000000000000, 0x00000000000000000000000000000000, 0x00000000000000000000000000000000),
    (0x00000000000003ffffffff8000000015, 0x555555515555555622222221f7777777, 0x809c09c09a09c09c0a32632632498c98, 0xc9926a3de9aeba08b7d19d4e31fa532f)),
  ((0x00001000000002000000000000000000, 0x00000000000000000000000000000000, 0x00000000000000000000000000000000, 0x00000000000000000000000000000000),
    (0x00000000000001ffffffffe000000002, 0xaaaaaaaa6aaaaaaab111111110666666, 0x6678af8af8ad8af8af8b319319318cb2, 0xcb2cb3855b3e6e0017a46302d4b8ee77)),
  ((0x00001000000001000000000000000000, 0x00000000000000000000000000000000, 0x00000000000000000000000000000000, 0x00000000000000000000000000000000),
    (0x00000000000000fffffffff800000000, 0x5555555551555555558888888885dddd, 0xddde027027026e270270271ee1ee1ee0, 0x548548549c8e25f9a41675c473a0bb80)),
  ((0x00001000000000800000000000000000, 0x00000000000000000000000000000000, 0x00000000000000000000000000000000, 0x00000000000000000000000000000000),
    (0x000000000000007ffffffffe00000000, 0x0aaaaaaaaa6aaaaaaaac444444443999, 0x999999e2be2be2bc2be2be2bf0f70f70, 0xf6a90a90a90d7963391c369df582417c)),
  ((0x00001000000000400000000000000000, 0x00000000000000000000000000000000, 0x00000000000000000000000000000000, 0x00000000000000000000000000000000),
    (0x000000000000003fffffffff80000000, 0x015555555551555555556222222221f7, 0x7777777809c09c09be9c09c09c10dd0d, 0xd0dcf437437437a08b7d14e73f0564b3)),
  ((0x00001000000000200000000000000000, 0x00000000000000000000000000000000, 0x00000000000000000000000000000000, 0x00000000000000000000000000000000),
    (0x000000000000001fffffffffe0000000, 0x002aaaaaaaaa6aaaaaaaab1111111110, 0x66666666678af8af8af6af8af8af8e86, 0xe86e86e2082082082c24f0dab07e6e15)),
  ((0x00001000000000100000000000000000, 0x00000000000000000000000000000000, 0x00000000000000000000000000000000, 0x00000000000000000000000000000000),
    (0x000000000000000ffffffffff8000000, 0x00055555555551555555555888888888, 0x85dddddddde027027027007027027028, 0xc98c98c98aff2ff2ff31675c4738cf4f)),
  ((0x00001000000000080000000000000000, 0x00000000000000000000000000000000, 0x00000000000000000000000000000000, 0x00000000000000000000000000000000),
    (0x0000000000000007fffffffffe000000, 0x0000aaaaaaaaaa6aaaaaaaaac4444444, 0x4439999999999e2be2be2be0be2be2be, 0x2cc64c64c64bfe5fe5fe60148a02ceb8)),
  ((0x00001000000000040000000000000000, 0x00000000000000000000000000000000, 0x00000000000000000000000000000000, 0x00000000000000000000000000000000),
    (0x0000000000000003ffffffffff800000, 0x00001555555555515555555556222222, 0x2221f777777777809c09c09c07c09c09, 0xc09c7b87b87b879ee1ee1ee1f3f0564b)),
  ((0x00001000000000020000000000000000, 0x00000000000000000000000000000000, 0x00000000000000000000000000000000, 0x00000000000000000000000000000000),
    (0x0000000000000001ffffffffffe00000, 0x000002aaaaaaaaaa6aaaaaaaaab11111, 0x111110666666666678af8af8af88f8af, 0x8af8afc3dc3dc3dc375d75d75d76918c)),
  ((0x00001000000000010000000000000000, 0x00000000000000000000000000000000, 0x00000000000000000000000000000000, 0x00000000000000000000000000000000),
    (0x0000000000000000fffffffffff80000, 0x00000055555555555155555555558888, 0x88888885ddddddddde02702702702502, 0x70270270437437437435a9da9da9dab5)),
  ((0x00001000000000008000000000000000, 0x00000000000000000000000000000000, 0x00000000000000000000000000000000, 0x00000000000000000000000000000000),
    (0x00000000000000007ffffffffffe0000, 0x0000000aaaaaaaaaaa6aaaaaaaaaac44, 0x44444444399999999999e2be2be2be29, 0xe2be2be2be3a1ba1ba1ba153b53b53b5)),
  ((0x00001000000000004000000000000000, 0x00000000000000000000000000000000, 0x00000000000000000000000000000000, 0x00000000000000000000000000000000),
    (0x00000000000000003fffffffffff8000, 0x00000001555555555551555555555562, 0x2222222221f7777777777809c09c09c0, 0x9a09c09c09c0a32632632632498c98ca)),
  ((0x00001000000000002000000000000000, 0x00000000000000000000000000000000, 0x00000000000000000000000000000000, 0x00000000000000000000000000000000),
    (0x00000000000000001fffffffffffe000, 0x000000002aaaaaaaaaaa6aaaaaaaaaab, 0x1111111111106666666666678af8af8a, 0xf8ad8af8af8af8b319319319318cb2cb)),
  ((0x00001000000000001000000000000000, 0x00000000000000000000000000000000, 0x00000000000000000000000000000000, 0x00000000000000000000000000000000),
    (0x00000000000000000ffffffffffff800, 0x00000000055555555555515555555555, 0x58888888888885dddddddddde0270270, 0x27026e270270270271ee1ee1ee1ee055)),
  ((0x00001000000000000800000000000000, 0x00000000000000000000000000000000, 0x00000000000000000000000000000000, 0x00000000000000000000000000000000),
    (0x000000000000000007fffffffffffe00, 0x0000000000aaaaaaaaaaaa6aaaaaaaaa, 0xaac444444444443999999999999e2be2, 0xbe2be2bc2be2be2be2bf0f70f70f70f7)),
  ((0x00001000000000000400000000000000, 0x00000000000000000000000000000000, 0x00000000000000000000000000000000, 0x00000000000000000000000000000000),
    (0x000000000000000003ffffffffffff80, 0x00000000001555555555555155555555, 0x5556222222222221f77777777777809c, 0x09c09c09be9c09c09c09c10dd0dd0dd1)),
  ((0x00001000000000000200000000000000, 0x00000000000000000000000000000000, 0x00000000000000000000000000000000, 0x00000000000000000000000000000000),
    (0x000000000000000001ffffffffffffe0, 0x000000000002aaaaaaaaaaaa6aaaaaaa, 0xaaaab111111111111066666666666678, 0xaf8af8af8af6af8af8af8af8e86e86e8)),
  ((0x00001000000000000100000000000000, 0x00000000000000000000000000000000, 0x00000000000000000000000000000000, 0x00000000000000000000000000000000),
    (0x000000000000000000fffffffffffff8, 0x00000000000055555555555551555555, 0x55555588888888888885ddddddddddde, 0x027027027027007027027027028c98ca)),
  ((0x00001000000000000080000000000000, 0x00000000000000000000000000000000, 0x00000000000000000000000000000000, 0x00000000000000000000000000000000),
    (0x0000000000000000007ffffffffffffe, 0x0000000000000aaaaaaaaaaaaa6aaaaa, 0xaaaaaaac444444444444399999999999, 0x99e2be2be2be2be0be2be2be2be2cc65)),
  ((0x00001000000000000040000000000000, 0x00000000000000000000000000000000, 0x00000000000000000000000000000000, 0x00000000000000000000000000000000),
    (0x0000000000000000003fffffffffffff, 0x80000000000001555555555555515555, 0x5555555562222222222221f777777777, 0x777809c09c09c09c07c09c09c09c09c8)),
  ((0x00001000000000000020000000000000, 0x00000000000000000000000000000000, 0x00000000000000000000000000000000, 0x00000000000000000000000000000000),
    (0x0000000000000000001fffffffffffff, 0xe00000000000002aaaaaaaaaaaaa6aaa, 0xaaaaaaaaab1111111111111066666666, 0x6666678af8af8af8af88f8af8af8af8b)),
  ((0x00001000000000000010000000000000, 0x00000000000000000000000000000000, 0x00000000000000000000000000000000, 0x00000000000000000000000000000000),
    (0x0000000000000000000fffffffffffff, 0xf8000000000000055555555555555155, 0x55555555555888888888888885dddddd, 0xdddddde0270270270270250270270270)),
  ((0x00001000000000000008000000000000, 0x00000000000000000000000000000000, 0x00000000000000000000000000000000, 0x00000000000000000000000000000000),
    (0x00000000000000000007ffffffffffff, 0xfe00000000000000aaaaaaaaaaaaaa6a, 0xaaaaaaaaaaaac4444444444444399999, 0x999999999e2be2be2be2be29e2be2be3)),
  ((0x00001000000000000004000000000000, 0x00000000000000000000000000000000, 0x00000000000000000000000000000000, 0x00000000000000000000000000000000),
    (0x00000000000000000003ffffffffffff, 0xff800000000000001555555555555551, 0x5555555555555622222222222221f777, 0x7777777777809c09c09c09c09a09c09c)),
  ((0x00001000000000000002000000000000, 0x00000000000000000000000000000000, 0x00000000000000000000000000000000, 0x00000000000000000000000000000000),
    (0x00000000000000000001ffffffffffff, 0xffe000000000000002aaaaaaaaaaaaaa, 0x6aaaaaaaaaaaaab11111111111111066, 0x66666666666678af8af8af8af8ad8af9)),
  ((0x00001000000000000001000000000000, 0x00000000000000000000000000000000, 0x00000000000000000000000000000000, 0x00000000000000000000000000000000),
    (0x00000000000000000000ffffffffffff, 0xfff80000000000000055555555555555, 0x51555555555555558888888888888885, 0xddddddddddddde027027027027026e27)),
  ((0x00001000000000000000800000000000, 0x00000000000000000000000000000000, 0x00000000000000000000000000000000, 0x00000000000000000000000000000000),
    (0x000000000000000000007fffffffffff, 0xfffe000000000000000aaaaaaaaaaaaa, 0xaa6aaaaaaaaaaaaaac44444444444444, 0x3999999999999999e2be2be2be2be2bc)),
  ((0x00001000000000000000400000000000, 0x00000000000000000000000000000000, 0x00000000000000000000000000000000, 0x00000000000000000000000000000000),
    (0x000000000000000000003fffffffffff, 0xffff8000000000000001555555555555, 0x55515555555555555562222222222222, 0x21f77777777777777809c09c09c09c0a)),
  ((0x00001000000000000000200000000000, 0x00000000000000000000000000000000, 0x00000000000000000000000000000000, 0x00000000000000000000000000000000),
    (0x000000000000000000001fffffffffff, 0xffffe0000000000000002aaaaaaaaaaa, 0xaaaa6aaaaaaaaaaaaaab111111111111, 0x111066666666666666678af8af8af8b0)),
  ((0x00001000000000000000100000000000, 0x00000000000000000000000000000000, 0x00000000000000000000000000000000, 0x00000000000000000000000000000000),
    (0x000000000000000000000fffffffffff, 0xfffff800000000000000055555555555, 0x55555155555555555555588888888888, 0x888885dddddddddddddde02702702702)),
  ((0x00001000000000000000080000000000, 0x00000000000000000000000000000000, 0x00000000000000000000000000000000, 0x00000000000000000000000000000000),
    (0x0000000000000000000007ffffffffff, 0xfffffe0000000000000000aaaaaaaaaa, 0xaaaaaa6aaaaaaaaaaaaaaac444444444, 0x44444439999999999999999e2be2be2c)),
  ((0x00001000000000000000040000000000, 0x00000000000000000000000000000000, 0x00000000000000000000000000000000, 0x00000000000000000000000000000000),
    (0x0000000000000000000003ffffffffff, 0xffffff80000000000000001555555555, 0x55555551555555555555555622222222, 0x22222221f777777777777777809c09c1)),
  ((0x00001000000000000000020000000000, 0x00000000000000000000000000000000, 0x00000000000000000000000000000000, 0x00000000000000000000000000000000),
    (0x0000000000000000000001ffffffffff, 0xffffffe00000000000000002aaaaaaaa, 0xaaaaaaaa6aaaaaaaaaaaaaaab1111111, 0x1111111110666666666666666678af8b)),
  ((0x00001000000000000000010000000000, 0x00000000000000000000000000000000, 0x00000000000000000000000000000000, 0x00000000000000000000000000000000),
    (0x0000000000000000000000ffffffffff, 0xfffffff8000000000000000055555555, 0x55555555515555555555555555888888, 0x888888888885ddddddddddddddde0270)),
  ((0x00001000000000000000008000000000, 0x00000000000000000000000000000000, 0x00000000000000000000000000000000, 0x00000000000000000000000000000000),
    (0x00000000000000000000007fffffffff, 0xfffffffe00000000000000000aaaaaaa, 0xaaaaaaaaaa6aaaaaaaaaaaaaaaac4444, 0x444444444444399999999999999999e3)),
  ((0x00001000000000000000004000000000, 0x00000000000000000000000000000000, 0x00000000000000000000000000000000, 0x00000000000000000000000000000000),
    (0x00000000000000000000003fffffffff, 0xffffffff800000000000000001555555, 0x55555555555155555555555555556222, 0x22222222222221f77777777777777778)),
  ((0x00001000000000000000002000000000, 0x00000000000000000000000000000000, 0x00000000000000000000000000000000, 0x00000000000000000000000000000000),
    (0x00000000000000000000001fffffffff, 0xffffffffe000000000000000002aaaaa, 0xaaaaaaaaaaaa6aaaaaaaaaaaaaaaab11, 0x11111111111111106666666666666666)),
  ((0x00001000000000000000001000000000, 0x00000000000000000000000000000000, 0x00000000000000000000000000000000, 0x00000000000000000000000000000000),
    (0x00000000000000000000000fffffffff, 0xfffffffff80000000000000000055555, 0x55555555555551555555555555555558, 0x888888888888888885ddddddddddddde)),
  ((0x00001000000000000000000800000000, 0x00000000000000000000000000000000, 0x00000000000000000000000000000000, 0x00000000000000000000000000000000),
    (0x000000000000000000000007ffffffff, 0xfffffffffe000000000000000000aaaa, 0xaaaaaaaaaaaaaa6aaaaaaaaaaaaaaaaa, 0xc444444444444444443999999999999a)),
  ((0x00001000000000000000000400000000, 0x00000000000000000000000000000000, 0x00000000000000000000000000000000, 0x00000000000000000000000000000000),
    (0x000000000000000000000003ffffffff, 0xffffffffff8000000000000000001555, 0x55555555555555515555555555555555, 0x56222222222222222221f77777777777)),
  ((0x00001000000000000000000200000000, 0x00000000000000000000000000000000, 0x00000000000000000000000000000000, 0x00000000000000000000000000000000),
    (0x000000000000000000000001ffffffff, 0xffffffffffe0000000000000000002aa, 0xaaaaaaaaaaaaaaaa6aaaaaaaaaaaaaaa, 0xaab11111111111111111106666666666)),
  ((0x00001000000000000000000100000000, 0x00000000000000000000000000000000, 0x00000000000000000000000000000000, 0x00000000000000000000000000000000),
    (0x000000000000000000000000ffffffff, 0xfffffffffff800000000000000000055, 0x55555555555555555155555555555555, 0x555588888888888888888885ddddddde)),
  ((0x00001000000000000000000080000000, 0x00000000000000000000000000000000, 0x00000000000000000000000000000000, 0x00000000000000000000000000000000),
    (0x0000000000000000000000007fffffff, 0xfffffffffffe0000000000000000000a, 0xaaaaaaaaaaaaaaaaaa6aaaaaaaaaaaaa, 0xaaaaac4444444444444444443999999a)),
  ((0x00001000000000000000000040000000, 0x00000000000000000000000000000000, 0x00000000000000000000000000000000, 0x00000000000000000000000000000000),
    (0x0000000000000000000000003fffffff, 0xffffffffffff80000000000000000001, 0x55555555555555555551555555555555, 0x55555562222222222222222221f77777)),
  ((0x00001000000000000000000020000000, 0x00000000000000000000000000000000, 0x00000000000000000000000000000000, 0x00000000000000000000000000000000),
    (0x0000000000000000000000001fffffff, 0xffffffffffffe0000000000000000000, 0x2aaaaaaaaaaaaaaaaaaa6aaaaaaaaaaa, 0xaaaaaaab111111111111111111106666)),
  ((0x00001000000000000000000010000000, 0x00000000000000000000000000000000, 0x00000000000000000000000000000000, 0x00000000000000000000000000000000),
    (0x0000000000000000000000000fffffff, 0xfffffffffffff8000000000000000000, 0x05555555555555555555515555555555, 0x555555555888888888888888888885de)),
  ((0x00001000000000000000000008000000, 0x00000000000000000000000000000000, 0x00000000000000000000000000000000, 0x00000000000000000000000000000000),
    (0x00000000000000000000000007ffffff, 0xfffffffffffffe000000000000000000, 0x00aaaaaaaaaaaaaaaaaaaa6aaaaaaaaa, 0xaaaaaaaaaac44444444444444444443a)),
  ((0x00001000000000000000000004000000, 0x00000000000000000000000000000000, 0x00000000000000000000000000000000, 0x00000000000000000000000000000000),
    (0x00000000000000000000000003ffffff, 0xffffffffffffff800000000000000000, 0x00155555555555555555555155555555, 0x55555555555622222222222222222222)),
  ((0x00001000000000000000000002000000, 0x00000000000000000000000000000000, 0x00000000000000000000000000000000, 0x00000000000000000000000000000000),
    (0x00000000000000000000000001ffffff, 0xffffffffffffffe00000000000000000, 0x0002aaaaaaaaaaaaaaaaaaaa6aaaaaaa, 0xaaaaaaaaaaaab1111111111111111111)),
  ((0x00001000000000000000000001000000, 0x00000000000000000000000000000000, 0x00000000000000000000000000000000, 0x00000000000000000000000000000000),
    (0x00000000000000000000000000ffffff, 0xfffffffffffffff80000000000000000, 0x00005555555555555555555551555555, 0x55555555555555888888888888888889)),
  ((0x00001000000000000000000000800000, 0x00000000000000000000000000000000, 0x00000000000000000000000000000000, 0x00000000000000000000000000000000),
    (0x000000000000000000000000007fffff, 0xfffffffffffffffe0000000000000000, 0x00000aaaaaaaaaaaaaaaaaaaaa6aaaaa, 0xaaaaaaaaaaaaaaac4444444444444444)),
  ((0x00001000000000000000000000400000, 0x00000000000000000000000000000000, 0x00000000000000000000000000000000, 0x00000000000000000000000000000000),
    (0x000000000000000000000000003fffff, 0xffffffffffffffff8000000000000000, 0x00000155555555555555555555515555, 0x55555555555555556222222222222222)),
  ((0x00001000000000000000000000200000, 0x00000000000000000000000000000000, 0x00000000000000000000000000000000, 0x00000000000000000000000000000000),
    (0x000000000000000000000000001fffff, 0xffffffffffffffffe000000000000000, 0x0000002aaaaaaaaaaaaaaaaaaaaa6aaa, 0xaaaaaaaaaaaaaaaaab11111111111111)),
  ((0x00001000000000000000000000100000, 0x00000000000000000000000000000000, 0x00000000000000000000000000000000, 0x00000000000000000000000000000000),
    (0x000000000000000000000000000fffff, 0xfffffffffffffffff800000000000000, 0x00000005555555555555555555555155, 0x55555555555555555558888888888889)),
  ((0x00001000000000000000000000080000, 0x00000000000000000000000000000000, 0x00000000000000000000000000000000, 0x00000000000000000000000000000000),
    (0x0000000000000000000000000007ffff, 0xfffffffffffffffffe00000000000000, 0x00000000aaaaaaaaaaaaaaaaaaaaaa6a, 0xaaaaaaaaaaaaaaaaaaaac44444444444)),
  ((0x00001000000000000000000000040000, 0x00000000000000000000000000000000, 0x00000000000000000000000000000000, 0x00000000000000000000000000000000),
    (0x0000000000000000000000000003ffff, 0xffffffffffffffffff80000000000000, 0x00000000155555555555555555555551, 0x55555555555555555555562222222222)),
  ((0x00001000000000000000000000020000, 0x00000000000000000000000000000000, 0x00000000000000000000000000000000, 0x00000000000000000000000000000000),
    (0x0000000000000000000000000001ffff, 0xffffffffffffffffffe0000000000000, 0x0000000002aaaaaaaaaaaaaaaaaaaaaa, 0x6aaaaaaaaaaaaaaaaaaaaab111111111)),
  ((0x00001000000000000000000000010000, 0x00000000000000000000000000000000, 0x00000000000000000000000000000000, 0x00000000000000000000000000000000),
    (0x0000000000000000000000000000ffff, 0xfffffffffffffffffff8000000000000, 0x00000000005555555555555555555555, 0x51555555555555555555555588888889)),
  ((0x00001000000000000000000000008000, 0x00000000000000000000000000000000, 0x00000000000000000000000000000000, 0x00000000000000000000000000000000),
    (0x00000000000000000000000000007fff, 0xfffffffffffffffffffe000000000000, 0x00000000000aaaaaaaaaaaaaaaaaaaaa, 0xaa6aaaaaaaaaaaaaaaaaaaaaac444444)),
  ((0x00001000000000000000000000004000, 0x00000000000000000000000000000000, 0x00000000000000000000000000000000, 0x00000000000000000000000000000000),
    (0x00000000000000000000000000003fff, 0xffffffffffffffffffff800000000000, 0x00000000000155555555555555555555, 0x55515555555555555555555555622222)),
  ((0x00001000000000000000000000002000, 0x00000000000000000000000000000000, 0x00000000000000000000000000000000, 0x00000000000000000000000000000000),
    (0x00000000000000000000000000001fff, 0xffffffffffffffffffffe00000000000, 0x0000000000002aaaaaaaaaaaaaaaaaaa, 0xaaaa6aaaaaaaaaaaaaaaaaaaaaab1111)),
  ((0x00001000000000000000000000001000, 0x00000000000000000000000000000000, 0x00000000000000000000000000000000, 0x00000000000000000000000000000000),
    (0x00000000000000000000000000000fff, 0xfffffffffffffffffffff80000000000, 0x00000000000005555555555555555555, 0x55555155555555555555555555555889)),
  ((0x00001000000000000000000000000800, 0x00000000000000000000000000000000, 0x00000000000000000000000000000000, 0x00000000000000000000000000000000),
    (0x000000000000000000000000000007ff, 0xfffffffffffffffffffffe0000000000, 0x00000000000000aaaaaaaaaaaaaaaaaa, 0xaaaaaa6aaaaaaaaaaaaaaaaaaaaaaac4)),
  ((0x00001000000000000000000000000400, 0x00000000000000000000000000000000, 0x00000000000000000000000000000000, 0x00000000000000000000000000000000),
    (0x000000000000000000000000000003ff, 0xffffffffffffffffffffff8000000000, 0x00000000000000155555555555555555, 0x55555551555555555555555555555556)),
  ((0x00001000000000000000000000000200, 0x00000000000000000000000000000000, 0x00000000000000000000000000000000, 0x00000000000000000000000000000000),
    (0x000000000000000000000000000001ff, 0xffffffffffffffffffffffe000000000, 0x0000000000000002aaaaaaaaaaaaaaaa, 0xaaaaaaaa6aaaaaaaaaaaaaaaaaaaaaab)),
  ((0x00001000000000000000000000000100, 0x00000000000000000000000000000000, 0x00000000000000000000000000000000, 0x00000000000000000000000000000000),
    (0x000000000000000000000000000000ff, 0xfffffffffffffffffffffff800000000, 0x00000000000000005555555555555555, 0x55555555515555555555555555555555)),
  ((0x00001000000000000000000000000080, 0x00000000000000000000000000000000, 0x00000000000000000000000000000000, 0x00000000000000000000000000000000),
    (0x0000000000000000000000000000007f, 0xfffffffffffffffffffffffe00000000, 0x00000000000000000aaaaaaaaaaaaaaa, 0xaaaaaaaaaa6aaaaaaaaaaaaaaaaaaaab)),
  ((0x00001000000000000000000000000040, 0x00000000000000000000000000000000, 0x00000000000000000000000000000000, 0x00000000000000000000000000000000),
    (0x0000000000000000000000000000003f, 0xffffffffffffffffffffffff80000000, 0x00000000000000000155555555555555, 0x55555555555155555555555555555555)),
  ((0x00001000000000000000000000000020, 0x00000000000000000000000000000000, 0x00000000000000000000000000000000, 0x00000000000000000000000000000000),
    (0x0000000000000000000000000000001f, 0xffffffffffffffffffffffffe0000000, 0x0000000000000000002aaaaaaaaaaaaa, 0xaaaaaaaaaaaa6aaaaaaaaaaaaaaaaaab)),
  ((0x00001000000000000000000000000010, 0x00000000000000000000000000000000, 0x00000000000000000000000000000000, 0x00000000000000000000000000000000),
    (0x0000000000000000000000000000000f, 0xfffffffffffffffffffffffff8000000, 0x00000000000000000005555555555555, 0x55555555555551555555555555555555)),
  ((0x00001000000000000000000000000008, 0x00000000000000000000000000000000, 0x00000000000000000000000000000000, 0x00000000000000000000000000000000),
    (0x00000000000000000000000000000007, 0xfffffffffffffffffffffffffe000000, 0x00000000000000000000aaaaaaaaaaaa, 0xaaaaaaaaaaaaaa6aaaaaaaaaaaaaaaab)),
  ((0x00001000000000000000000000000004, 0x00000000000000000000000000000000, 0x00000000000000000000000000000000, 0x00000000000000000000000000000000),
    (0x00000000000000000000000000000003, 0xffffffffffffffffffffffffff800000, 0x00000000000000000000155555555555, 0x55555555555555515555555555555555)),
  ((0x00001000000000000000000000000002, 0x00000000000000000000000000000000, 0x00000000000000000000000000000000, 0x00000000000000000000000000000000),
    (0x00000000000000000000000000000001, 0xffffffffffffffffffffffffffe00000, 0x0000000000000000000002aaaaaaaaaa, 0xaaaaaaaaaaaaaaaa6aaaaaaaaaaaaaab)),
  ((0x00001000000000000000000000000001, 0x00000000000000000000000000000000, 0x00000000000000000000000000000000, 0x00000000000000000000000000000000),
    (0x00000000000000000000000000000000, 0xfffffffffffffffffffffffffff80000, 0x00000000000000000000005555555555, 0x55555555555555555155555555555555)),
  ((0x00001000000000000000000000000000, 0x80000000000000000000000000000000, 0x00000000000000000000000000000000, 0x00000000000000000000000000000000),
    (0x00000000000000000000000000000000, 0x7ffffffffffffffffffffffffffe0000, 0x00000000000000000000000aaaaaaaaa, 0xaaaaaaaaaaaaaaaaaa6aaaaaaaaaaaab)),
  ((0x00001000000000000000000000000000, 0x40000000000000000000000000000000, 0x00000000000000000000000000000000, 0x00000000000000000000000000000000),
    (0x00000000000000000000000000000000, 0x3fffffffffffffffffffffffffff8000, 0x00000000000000000000000155555555, 0x55555555555555555551555555555555)),
  ((0x00001000000000000000000000000000, 0x20000000000000000000000000000000, 0x00000000000000000000000000000000, 0x00000000000000000000000000000000),
    (0x00000000000000000000000000000000, 0x1fffffffffffffffffffffffffffe000, 0x0000000000000000000000002aaaaaaa, 0xaaaaaaaaaaaaaaaaaaaa6aaaaaaaaaab)),
  ((0x00001000000000000000000000000000, 0x10000000000000000000000000000000, 0x00000000000000000000000000000000, 0x00000000000000000000000000000000),
    (0x00000000000000000000000000000000, 0x0ffffffffffffffffffffffffffff800, 0x00000000000000000000000005555555, 0x55555555555555555555515555555555)),
  ((0x00001000000000000000000000000000, 0x08000000000000000000000000000000, 0x00000000000000000000000000000000, 0x00000000000000000000000000000000),
    (0x00000000000000000000000000000000, 0x07fffffffffffffffffffffffffffe00, 0x00000000000000000000000000aaaaaa, 0xaaaaaaaaaaaaaaaaaaaaaa6aaaaaaaab)),
  ((0x00001000000000000000000000000000, 0x04000000000000000000000000000000, 0x00000000000000000000000000000000, 0x00000000000000000000000000000000),
    (0x00000000000000000000000000000000, 0x03ffffffffffffffffffffffffffff80, 0x00000000000000000000000000155555, 0x55555555555555555555555155555555)),
  ((0x00001000000000000000000000000000, 0x02000000000000000000000000000000, 0x00000000000000000000000000000000, 0x00000000000000000000000000000000),
    (0x00000000000000000000000000000000, 0x01ffffffffffffffffffffffffffffe0, 0x0000000000000000000000000002aaaa, 0xaaaaaaaaaaaaaaaaaaaaaaaa6aaaaaab)),
  ((0x00001000000000000000000000000000, 0x01000000000000000000000000000000, 0x00000000000000000000000000000000, 0x00000000000000000000000000000000),
    (0x00000000000000000000000000000000, 0x00fffffffffffffffffffffffffffff8, 0x00000000000000000000000000005555, 0x55555555555555555555555551555555)),
  ((0x00001000000000000000000000000000, 0x00800000000000000000000000000000, 0x00000000000000000000000000000000, 0x00000000000000000000000000000000),
    (0x00000000000000000000000000000000, 0x007ffffffffffffffffffffffffffffe, 0x00000000000000000000000000000aaa, 0xaaaaaaaaaaaaaaaaaaaaaaaaaa6aaaab)),
  ((0x00001000000000000000000000000000, 0x00400000000000000000000000000000, 0x00000000000000000000000000000000, 0x00000000000000000000000000000000),
    (0x00000000000000000000000000000000, 0x003fffffffffffffffffffffffffffff, 0x80000000000000000000000000000155, 0x55555555555555555555555555515555)),
  ((0x00001000000000000000000000000000, 0x00200000000000000000000000000000, 0x00000000000000000000000000000000, 0x00000000000000000000000000000000),
    (0x00000000000000000000000000000000, 0x001fffffffffffffffffffffffffffff, 0xe000000000000000000000000000002a, 0xaaaaaaaaaaaaaaaaaaaaaaaaaaaa6aab)),
  ((0x00001000000000000000000000000000, 0x00100000000000000000000000000000, 0x00000000000000000000000000000000, 0x00000000000000000000000000000000),
    (0x00000000000000000000000000000000, 0x000fffffffffffffffffffffffffffff, 0xf8000000000000000000000000000005, 0x55555555555555555555555555555155)),
  ((0x00001000000000000000000000000000, 0x00080000000000000000000000000000, 0x00000000000000000000000000000000, 0x00000000000000000000000000000000),
    (0x00000000000000000000000000000000, 0x0007ffffffffffffffffffffffffffff, 0xfe000000000000000000000000000000, 0xaaaaaaaaaaaaaaaaaaaaaaaaaaaaaa6b)),
  ((0x00001000000000000000000000000000, 0x00040000000000000000000000000000, 0x00000000000000000000000000000000, 0x00000000000000000000000000000000),
    (0x00000000000000000000000000000000, 0x0003ffffffffffffffffffffffffffff, 0xff800000000000000000000000000000, 0x15555555555555555555555555555551)),
  ((0x00001000000000000000000000000000, 0x00020000000000000000000000000000, 0x00000000000000000000000000000000, 0x00000000000000000000000000000000),
    (0x00000000000000000000000000000000, 0x0001ffffffffffffffffffffffffffff, 0xffe00000000000000000000000000000, 0x02aaaaaaaaaaaaaaaaaaaaaaaaaaaaaa))]

/-- src/math/feynman.rs:1988-3953 -/
def feynmanLut_1 : List ((Nat × Nat × Nat × Nat) × (Nat × Nat × Nat × Nat)) := [
  ((0x00001000000000000000000000000000, 0x00010000000000000000000000000000, 0x00000000000000000000000000000000, 0x00000000000000000000000000000000),
    (0x00000000000000000000000000000000, 0x0000ffffffffffffffffffffffffffff, 0xfff80000000000000000000000000000, 0x00555555555555555555555555555555)),
  ((0x00001000000000000000000000000000, 0x00008000000000000000000000000000, 0x00000000000000000000000000000000, 0x00000000000000000000000000000000),
    (0x00000000000000000000000000000000, 0x00007fffffffffffffffffffffffffff, 0xfffe0000000000000000000000000000, 0x000aaaaaaaaaaaaaaaaaaaaaaaaaaaab)),
  ((0x00001000000000000000000000000000, 0x00004000000000000000000000000000, 0x00000000000000000000000000000000, 0x00000000000000000000000000000000),
    (0x00000000000000000000000000000000, 0x00003fffffffffffffffffffffffffff, 0xffff8000000000000000000000000000, 0x00015555555555555555555555555555)),
  ((0x00001000000000000000000000000000, 0x00002000000000000000000000000000, 0x00000000000000000000000000000000, 0x00000000000000000000000000000000),
    (0x00000000000000000000000000000000, 0x00001fffffffffffffffffffffffffff, 0xffffe000000000000000000000000000, 0x00002aaaaaaaaaaaaaaaaaaaaaaaaaab)),
  ((0x00001000000000000000000000000000, 0x00001000000000000000000000000000, 0x00000000000000000000000000000000, 0x00000000000000000000000000000000),
    (0x00000000000000000000000000000000, 0x00000fffffffffffffffffffffffffff, 0xfffff800000000000000000000000000, 0x00000555555555555555555555555555)),
  ((0x00001000000000000000000000000000, 0x00000800000000000000000000000000, 0x00000000000000000000000000000000, 0x00000000000000000000000000000000),
    (0x00000000000000000000000000000000, 0x000007ffffffffffffffffffffffffff, 0xfffffe00000000000000000000000000, 0x000000aaaaaaaaaaaaaaaaaaaaaaaaab)),
  ((0x00001000000000000000000000000000, 0x00000400000000000000000000000000, 0x00000000000000000000000000000000, 0x00000000000000000000000000000000),
    (0x00000000000000000000000000000000, 0x000003ffffffffffffffffffffffffff, 0xffffff80000000000000000000000000, 0x00000015555555555555555555555555)),
  ((0x00001000000000000000000000000000, 0x00000200000000000000000000000000, 0x00000000000000000000000000000000, 0x00000000000000000000000000000000),
    (0x00000000000000000000000000000000, 0x000001ffffffffffffffffffffffffff, 0xffffffe0000000000000000000000000, 0x00000002aaaaaaaaaaaaaaaaaaaaaaab)),
  ((0x00001000000000000000000000000000, 0x00000100000000000000000000000000, 0x00000000000000000000000000000000, 0x00000000000000000000000000000000),
    (0x00000000000000000000000000000000, 0x000000ffffffffffffffffffffffffff, 0xfffffff8000000000000000000000000, 0x00000000555555555555555555555555)),
  ((0x00001000000000000000000000000000, 0x00000080000000000000000000000000, 0x00000000000000000000000000000000, 0x00000000000000000000000000000000),
    (0x00000000000000000000000000000000, 0x0000007fffffffffffffffffffffffff, 0xfffffffe000000000000000000000000, 0x000000000aaaaaaaaaaaaaaaaaaaaaab)),
  ((0x00001000000000000000000000000000, 0x00000040000000000000000000000000, 0x00000000000000000000000000000000, 0x00000000000000000000000000000000),
    (0x00000000000000000000000000000000, 0x0000003fffffffffffffffffffffffff, 0xffffffff800000000000000000000000, 0x00000000015555555555555555555555)),
  ((0x00001000000000000000000000000000, 0x00000020000000000000000000000000, 0x00000000000000000000000000000000, 0x00000000000000000000000000000000),
    (0x00000000000000000000000000000000, 0x0000001fffffffffffffffffffffffff, 0xffffffffe00000000000000000000000, 0x00000000002aaaaaaaaaaaaaaaaaaaab)),
  ((0x00001000000000000000000000000000, 0x00000010000000000000000000000000, 0x00000000000000000000000000000000, 0x00000000000000000000000000000000),
    (0x00000000000000000000000000000000, 0x0000000fffffffffffffffffffffffff, 0xfffffffff80000000000000000000000, 0x00000000000555555555555555555555)),
  ((0x00001000000000000000000000000000, 0x00000008000000000000000000000000, 0x00000000000000000000000000000000, 0x00000000000000000000000000000000),
    (0x00000000000000000000000000000000, 0x00000007ffffffffffffffffffffffff, 0xfffffffffe0000000000000000000000, 0x000000000000aaaaaaaaaaaaaaaaaaab)),
  ((0x00001000000000000000000000000000, 0x00000004000000000000000000000000, 0x00000000000000000000000000000000, 0x00000000000000000000000000000000),
    (0x00000000000000000000000000000000, 0x00000003ffffffffffffffffffffffff, 0xffffffffff8000000000000000000000, 0x00000000000015555555555555555555)),
  ((0x00001000000000000000000000000000, 0x00000002000000000000000000000000, 0x00000000000000000000000000000000, 0x00000000000000000000000000000000),
    (0x00000000000000000000000000000000, 0x00000001ffffffffffffffffffffffff, 0xffffffffffe000000000000000000000, 0x00000000000002aaaaaaaaaaaaaaaaab)),
  ((0x00001000000000000000000000000000, 0x00000001000000000000000000000000, 0x00000000000000000000000000000000, 0x00000000000000000000000000000000),
    (0x00000000000000000000000000000000, 0x00000000ffffffffffffffffffffffff, 0xfffffffffff800000000000000000000, 0x00000000000000555555555555555555)),
  ((0x00001000000000000000000000000000, 0x00000000800000000000000000000000, 0x00000000000000000000000000000000, 0x00000000000000000000000000000000),
    (0x00000000000000000000000000000000, 0x000000007fffffffffffffffffffffff, 0xfffffffffffe00000000000000000000, 0x000000000000000aaaaaaaaaaaaaaaab)),
  ((0x00001000000000000000000000000000, 0x00000000400000000000000000000000, 0x00000000000000000000000000000000, 0x00000000000000000000000000000000),
    (0x00000000000000000000000000000000, 0x000000003fffffffffffffffffffffff, 0xffffffffffff80000000000000000000, 0x00000000000000015555555555555555)),
  ((0x00001000000000000000000000000000, 0x00000000200000000000000000000000, 0x00000000000000000000000000000000, 0x00000000000000000000000000000000),
    (0x00000000000000000000000000000000, 0x000000001fffffffffffffffffffffff, 0xffffffffffffe0000000000000000000, 0x00000000000000002aaaaaaaaaaaaaab)),
  ((0x00001000000000000000000000000000, 0x00000000100000000000000000000000, 0x00000000000000000000000000000000, 0x00000000000000000000000000000000),
    (0x00000000000000000000000000000000, 0x000000000fffffffffffffffffffffff, 0xfffffffffffff8000000000000000000, 0x00000000000000000555555555555555)),
  ((0x00001000000000000000000000000000, 0x00000000080000000000000000000000, 0x00000000000000000000000000000000, 0x00000000000000000000000000000000),
    (0x00000000000000000000000000000000, 0x0000000007ffffffffffffffffffffff, 0xfffffffffffffe000000000000000000, 0x000000000000000000aaaaaaaaaaaaab)),
  ((0x00001000000000000000000000000000, 0x00000000040000000000000000000000, 0x00000000000000000000000000000000, 0x00000000000000000000000000000000),
    (0x00000000000000000000000000000000, 0x0000000003ffffffffffffffffffffff, 0xffffffffffffff800000000000000000, 0x00000000000000000015555555555555)),
  ((0x00001000000000000000000000000000, 0x00000000020000000000000000000000, 0x00000000000000000000000000000000, 0x00000000000000000000000000000000),
    (0x00000000000000000000000000000000, 0x0000000001ffffffffffffffffffffff, 0xffffffffffffffe00000000000000000, 0x00000000000000000002aaaaaaaaaaab)),
  ((0x00001000000000000000000000000000, 0x00000000010000000000000000000000, 0x00000000000000000000000000000000, 0x00000000000000000000000000000000),
    (0x00000000000000000000000000000000, 0x0000000000ffffffffffffffffffffff, 0xfffffffffffffff80000000000000000, 0x00000000000000000000555555555555)),
  ((0x00001000000000000000000000000000, 0x00000000008000000000000000000000, 0x00000000000000000000000000000000, 0x00000000000000000000000000000000),
    (0x00000000000000000000000000000000, 0x00000000007fffffffffffffffffffff, 0xfffffffffffffffe0000000000000000, 0x000000000000000000000aaaaaaaaaab)),
  ((0x00001000000000000000000000000000, 0x00000000004000000000000000000000, 0x00000000000000000000000000000000, 0x00000000000000000000000000000000),
    (0x00000000000000000000000000000000, 0x00000000003fffffffffffffffffffff, 0xffffffffffffffff8000000000000000, 0x00000000000000000000015555555555)),
  ((0x00001000000000000000000000000000, 0x00000000002000000000000000000000, 0x00000000000000000000000000000000, 0x00000000000000000000000000000000),
    (0x00000000000000000000000000000000, 0x00000000001fffffffffffffffffffff, 0xffffffffffffffffe000000000000000, 0x00000000000000000000002aaaaaaaab)),
  ((0x00001000000000000000000000000000, 0x00000000001000000000000000000000, 0x00000000000000000000000000000000, 0x00000000000000000000000000000000),
    (0x00000000000000000000000000000000, 0x00000000000fffffffffffffffffffff, 0xfffffffffffffffff800000000000000, 0x00000000000000000000000555555555)),
  ((0x00001000000000000000000000000000, 0x00000000000800000000000000000000, 0x00000000000000000000000000000000, 0x00000000000000000000000000000000),
    (0x00000000000000000000000000000000, 0x000000000007ffffffffffffffffffff, 0xfffffffffffffffffe00000000000000, 0x000000000000000000000000aaaaaaab)),
  ((0x00001000000000000000000000000000, 0x00000000000400000000000000000000, 0x00000000000000000000000000000000, 0x00000000000000000000000000000000),
    (0x00000000000000000000000000000000, 0x000000000003ffffffffffffffffffff, 0xffffffffffffffffff80000000000000, 0x00000000000000000000000015555555)),
  ((0x00001000000000000000000000000000, 0x00000000000200000000000000000000, 0x00000000000000000000000000000000, 0x00000000000000000000000000000000),
    (0x00000000000000000000000000000000, 0x000000000001ffffffffffffffffffff, 0xffffffffffffffffffe0000000000000, 0x00000000000000000000000002aaaaab)),
  ((0x00001000000000000000000000000000, 0x00000000000100000000000000000000, 0x00000000000000000000000000000000, 0x00000000000000000000000000000000),
    (0x00000000000000000000000000000000, 0x000000000000ffffffffffffffffffff, 0xfffffffffffffffffff8000000000000, 0x00000000000000000000000000555555)),
  ((0x00001000000000000000000000000000, 0x00000000000080000000000000000000, 0x00000000000000000000000000000000, 0x00000000000000000000000000000000),
    (0x00000000000000000000000000000000, 0x0000000000007fffffffffffffffffff, 0xfffffffffffffffffffe000000000000, 0x000000000000000000000000000aaaab)),
  ((0x00001000000000000000000000000000, 0x00000000000040000000000000000000, 0x00000000000000000000000000000000, 0x00000000000000000000000000000000),
    (0x00000000000000000000000000000000, 0x0000000000003fffffffffffffffffff, 0xffffffffffffffffffff800000000000, 0x00000000000000000000000000015555)),
  ((0x00001000000000000000000000000000, 0x00000000000020000000000000000000, 0x00000000000000000000000000000000, 0x00000000000000000000000000000000),
    (0x00000000000000000000000000000000, 0x0000000000001fffffffffffffffffff, 0xffffffffffffffffffffe00000000000, 0x00000000000000000000000000002aab)),
  ((0x00001000000000000000000000000000, 0x00000000000010000000000000000000, 0x00000000000000000000000000000000, 0x00000000000000000000000000000000),
    (0x00000000000000000000000000000000, 0x0000000000000fffffffffffffffffff, 0xfffffffffffffffffffff80000000000, 0x00000000000000000000000000000555)),
  ((0x00001000000000000000000000000000, 0x00000000000008000000000000000000, 0x00000000000000000000000000000000, 0x00000000000000000000000000000000),
    (0x00000000000000000000000000000000, 0x00000000000007ffffffffffffffffff, 0xfffffffffffffffffffffe0000000000, 0x000000000000000000000000000000ab)),
  ((0x00001000000000000000000000000000, 0x00000000000004000000000000000000, 0x00000000000000000000000000000000, 0x00000000000000000000000000000000),
    (0x00000000000000000000000000000000, 0x00000000000003ffffffffffffffffff, 0xffffffffffffffffffffff8000000000, 0x00000000000000000000000000000015)),
  ((0x00001000000000000000000000000000, 0x00000000000002000000000000000000, 0x00000000000000000000000000000000, 0x00000000000000000000000000000000),
    (0x00000000000000000000000000000000, 0x00000000000001ffffffffffffffffff, 0xffffffffffffffffffffffe000000000, 0x00000000000000000000000000000003)),
  ((0x00001000000000000000000000000000, 0x00000000000001000000000000000000, 0x00000000000000000000000000000000, 0x00000000000000000000000000000000),
    (0x00000000000000000000000000000000, 0x00000000000000ffffffffffffffffff, 0xfffffffffffffffffffffff800000000, 0x00000000000000000000000000000000)),
  ((0x00001000000000000000000000000000, 0x00000000000000800000000000000000, 0x00000000000000000000000000000000, 0x00000000000000000000000000000000),
    (0x00000000000000000000000000000000, 0x000000000000007fffffffffffffffff, 0xfffffffffffffffffffffffe00000000, 0x00000000000000000000000000000000)),
  ((0x00001000000000000000000000000000, 0x00000000000000400000000000000000, 0x00000000000000000000000000000000, 0x00000000000000000000000000000000),
    (0x00000000000000000000000000000000, 0x000000000000003fffffffffffffffff, 0xffffffffffffffffffffffff80000000, 0x00000000000000000000000000000000)),
  ((0x00001000000000000000000000000000, 0x00000000000000200000000000000000, 0x00000000000000000000000000000000, 0x00000000000000000000000000000000),
    (0x00000000000000000000000000000000, 0x000000000000001fffffffffffffffff, 0xffffffffffffffffffffffffe0000000, 0x00000000000000000000000000000000)),
  ((0x00001000000000000000000000000000, 0x00000000000000100000000000000000, 0x00000000000000000000000000000000, 0x00000000000000000000000000000000),
    (0x00000000000000000000000000000000, 0x000000000000000fffffffffffffffff, 0xfffffffffffffffffffffffff8000000, 0x00000000000000000000000000000000)),
  ((0x00001000000000000000000000000000, 0x00000000000000080000000000000000, 0x00000000000000000000000000000000, 0x00000000000000000000000000000000),
    (0x00000000000000000000000000000000, 0x0000000000000007ffffffffffffffff, 0xfffffffffffffffffffffffffe000000, 0x00000000000000000000000000000000)),
  ((0x00001000000000000000000000000000, 0x00000000000000040000000000000000, 0x00000000000000000000000000000000, 0x00000000000000000000000000000000),
    (0x00000000000000000000000000000000, 0x0000000000000003ffffffffffffffff, 0xffffffffffffffffffffffffff800000, 0x00000000000000000000000000000000)),
  ((0x00001000000000000000000000000000, 0x00000000000000020000000000000000, 0x00000000000000000000000000000000, 0x00000000000000000000000000000000),
    (0x00000000000000000000000000000000, 0x0000000000000001ffffffffffffffff, 0xffffffffffffffffffffffffffe00000, 0x00000000000000000000000000000000)),
  ((0x00001000000000000000000000000000, 0x00000000000000010000000000000000, 0x00000000000000000000000000000000, 0x00000000000000000000000000000000),
    (0x00000000000000000000000000000000, 0x0000000000000000ffffffffffffffff, 0xfffffffffffffffffffffffffff80000, 0x00000000000000000000000000000000)),
  ((0x00001000000000000000000000000000, 0x00000000000000008000000000000000, 0x00000000000000000000000000000000, 0x00000000000000000000000000000000),
    (0x00000000000000000000000000000000, 0x00000000000000007fffffffffffffff, 0xfffffffffffffffffffffffffffe0000, 0x00000000000000000000000000000000)),
  ((0x00001000000000000000000000000000, 0x00000000000000004000000000000000, 0x00000000000000000000000000000000, 0x00000000000000000000000000000000),
    (0x00000000000000000000000000000000, 0x00000000000000003fffffffffffffff, 0xffffffffffffffffffffffffffff8000, 0x00000000000000000000000000000000)),
  ((0x00001000000000000000000000000000, 0x00000000000000002000000000000000, 0x00000000000000000000000000000000, 0x00000000000000000000000000000000),
    (0x00000000000000000000000000000000, 0x00000000000000001fffffffffffffff, 0xffffffffffffffffffffffffffffe000, 0x00000000000000000000000000000000)),
  ((0x00001000000000000000000000000000, 0x00000000000000001000000000000000, 0x00000000000000000000000000000000, 0x00000000000000000000000000000000),
    (0x00000000000000000000000000000000, 0x00000000000000000fffffffffffffff, 0xfffffffffffffffffffffffffffff800, 0x00000000000000000000000000000000)),
  ((0x00001000000000000000000000000000, 0x00000000000000000800000000000000, 0x00000000000000000000000000000000, 0x00000000000000000000000000000000),
    (0x00000000000000000000000000000000, 0x000000000000000007ffffffffffffff, 0xfffffffffffffffffffffffffffffe00, 0x00000000000000000000000000000000)),
  ((0x00001000000000000000000000000000, 0x00000000000000000400000000000000, 0x00000000000000000000000000000000, 0x00000000000000000000000000000000),
    (0x00000000000000000000000000000000, 0x000000000000000003ffffffffffffff, 0xffffffffffffffffffffffffffffff80, 0x00000000000000000000000000000000)),
  ((0x00001000000000000000000000000000, 0x00000000000000000200000000000000, 0x00000000000000000000000000000000, 0x00000000000000000000000000000000),
    (0x00000000000000000000000000000000, 0x000000000000000001ffffffffffffff, 0xffffffffffffffffffffffffffffffe0, 0x00000000000000000000000000000000)),
  ((0x00001000000000000000000000000000, 0x00000000000000000100000000000000, 0x00000000000000000000000000000000, 0x00000000000000000000000000000000),
    (0x00000000000000000000000000000000, 0x000000000000000000ffffffffffffff, 0xfffffffffffffffffffffffffffffff8, 0x00000000000000000000000000000000)),
  ((0x00001000000000000000000000000000, 0x00000000000000000080000000000000, 0x00000000000000000000000000000000, 0x00000000000000000000000000000000),
    (0x00000000000000000000000000000000, 0x0000000000000000007fffffffffffff, 0xfffffffffffffffffffffffffffffffe, 0x00000000000000000000000000000000)),
  ((0x00001000000000000000000000000000, 0x00000000000000000040000000000000, 0x00000000000000000000000000000000, 0x00000000000000000000000000000000),
    (0x00000000000000000000000000000000, 0x0000000000000000003fffffffffffff, 0xffffffffffffffffffffffffffffffff, 0x80000000000000000000000000000000)),
  ((0x00001000000000000000000000000000, 0x00000000000000000020000000000000, 0x00000000000000000000000000000000, 0x00000000000000000000000000000000),
    (0x00000000000000000000000000000000, 0x0000000000000000001fffffffffffff, 0xffffffffffffffffffffffffffffffff, 0xe0000000000000000000000000000000)),
  ((0x00001000000000000000000000000000, 0x00000000000000000010000000000000, 0x00000000000000000000000000000000, 0x00000000000000000000000000000000),
    (0x00000000000000000000000000000000, 0x0000000000000000000fffffffffffff, 0xffffffffffffffffffffffffffffffff, 0xf8000000000000000000000000000000)),
  ((0x00001000000000000000000000000000, 0x00000000000000000008000000000000, 0x00000000000000000000000000000000, 0x00000000000000000000000000000000),
    (0x00000000000000000000000000000000, 0x00000000000000000007ffffffffffff, 0xffffffffffffffffffffffffffffffff, 0xfe000000000000000000000000000000)),
  ((0x00001000000000000000000000000000, 0x00000000000000000004000000000000, 0x00000000000000000000000000000000, 0x00000000000000000000000000000000),
    (0x00000000000000000000000000000000, 0x00000000000000000003ffffffffffff, 0xffffffffffffffffffffffffffffffff, 0xff800000000000000000000000000000)),
  ((0x00001000000000000000000000000000, 0x00000000000000000002000000000000, 0x00000000000000000000000000000000, 0x00000000000000000000000000000000),
    (0x00000000000000000000000000000000, 0x00000000000000000001ffffffffffff, 0xffffffffffffffffffffffffffffffff, 0xffe00000000000000000000000000000)),
  ((0x00001000000000000000000000000000, 0x00000000000000000001000000000000, 0x00000000000000000000000000000000, 0x00000000000000000000000000000000),
    (0x00000000000000000000000000000000, 0x00000000000000000000ffffffffffff, 0xffffffffffffffffffffffffffffffff, 0xfff80000000000000000000000000000)),
  ((0x00001000000000000000000000000000, 0x00000000000000000000800000000000, 0x00000000000000000000000000000000, 0x00000000000000000000000000000000),
    (0x00000000000000000000000000000000, 0x000000000000000000007fffffffffff, 0xffffffffffffffffffffffffffffffff, 0xfffe0000000000000000000000000000)),
  ((0x00001000000000000000000000000000, 0x00000000000000000000400000000000, 0x00000000000000000000000000000000, 0x00000000000000000000000000000000),
    (0x00000000000000000000000000000000, 0x000000000000000000003fffffffffff, 0xffffffffffffffffffffffffffffffff, 0xffff8000000000000000000000000000)),
  ((0x00001000000000000000000000000000, 0x00000000000000000000200000000000, 0x00000000000000000000000000000000, 0x00000000000000000000000000000000),
    (0x00000000000000000000000000000000, 0x000000000000000000001fffffffffff, 0xffffffffffffffffffffffffffffffff, 0xffffe000000000000000000000000000)),
  ((0x00001000000000000000000000000000, 0x00000000000000000000100000000000, 0x00000000000000000000000000000000, 0x00000000000000000000000000000000),
    (0x00000000000000000000000000000000, 0x000000000000000000000fffffffffff, 0xffffffffffffffffffffffffffffffff, 0xfffff800000000000000000000000000)),
  ((0x00001000000000000000000000000000, 0x00000000000000000000080000000000, 0x00000000000000000000000000000000, 0x00000000000000000000000000000000),
    (0x00000000000000000000000000000000, 0x0000000000000000000007ffffffffff, 0xffffffffffffffffffffffffffffffff, 0xfffffe00000000000000000000000000)),
  ((0x00001000000000000000000000000000, 0x00000000000000000000040000000000, 0x00000000000000000000000000000000, 0x00000000000000000000000000000000),
    (0x00000000000000000000000000000000, 0x0000000000000000000003ffffffffff, 0xffffffffffffffffffffffffffffffff, 0xffffff80000000000000000000000000)),
  ((0x00001000000000000000000000000000, 0x00000000000000000000020000000000, 0x00000000000000000000000000000000, 0x00000000000000000000000000000000),
    (0x00000000000000000000000000000000, 0x0000000000000000000001ffffffffff, 0xffffffffffffffffffffffffffffffff, 0xffffffe0000000000000000000000000)),
  ((0x00001000000000000000000000000000, 0x00000000000000000000010000000000, 0x00000000000000000000000000000000, 0x00000000000000000000000000000000),
    (0x00000000000000000000000000000000, 0x0000000000000000000000ffffffffff, 0xffffffffffffffffffffffffffffffff, 0xfffffff8000000000000000000000000)),
  ((0x00001000000000000000000000000000, 0x00000000000000000000008000000000, 0x00000000000000000000000000000000, 0x00000000000000000000000000000000),
    (0x00000000000000000000000000000000, 0x00000000000000000000007fffffffff, 0xffffffffffffffffffffffffffffffff, 0xfffffffe000000000000000000000000)),
  ((0x00001000000000000000000000000000, 0x00000000000000000000004000000000, 0x00000000000000000000000000000000, 0x00000000000000000000000000000000),
    (0x00000000000000000000000000000000, 0x00000000000000000000003fffffffff, 0xffffffffffffffffffffffffffffffff, 0xffffffff800000000000000000000000)),
  ((0x00001000000000000000000000000000, 0x00000000000000000000002000000000, 0x00000000000000000000000000000000, 0x00000000000000000000000000000000),
    (0x00000000000000000000000000000000, 0x00000000000000000000001fffffffff, 0xffffffffffffffffffffffffffffffff, 0xffffffffe00000000000000000000000)),
  ((0x00001000000000000000000000000000, 0x00000000000000000000001000000000, 0x00000000000000000000000000000000, 0x00000000000000000000000000000000),
    (0x00000000000000000000000000000000, 0x00000000000000000000000fffffffff, 0xffffffffffffffffffffffffffffffff, 0xfffffffff80000000000000000000000)),
  ((0x00001000000000000000000000000000, 0x00000000000000000000000800000000, 0x00000000000000000000000000000000, 0x00000000000000000000000000000000),
    (0x00000000000000000000000000000000, 0x000000000000000000000007ffffffff, 0xffffffffffffffffffffffffffffffff, 0xfffffffffe0000000000000000000000)),
  ((0x00001000000000000000000000000000, 0x00000000000000000000000400000000, 0x00000000000000000000000000000000, 0x00000000000000000000000000000000),
    (0x00000000000000000000000000000000, 0x000000000000000000000003ffffffff, 0xffffffffffffffffffffffffffffffff, 0xffffffffff8000000000000000000000)),
  ((0x00001000000000000000000000000000, 0x00000000000000000000000200000000, 0x00000000000000000000000000000000, 0x00000000000000000000000000000000),
    (0x00000000000000000000000000000000, 0x000000000000000000000001ffffffff, 0xffffffffffffffffffffffffffffffff, 0xffffffffffe000000000000000000000)),
  ((0x00001000000000000000000000000000, 0x00000000000000000000000100000000, 0x00000000000000000000000000000000, 0x00000000000000000000000000000000),
    (0x00000000000000000000000000000000, 0x000000000000000000000000ffffffff, 0xffffffffffffffffffffffffffffffff, 0xfffffffffff800000000000000000000)),
  ((0x00001000000000000000000000000000, 0x00000000000000000000000080000000, 0x00000000000000000000000000000000, 0x00000000000000000000000000000000),
    (0x00000000000000000000000000000000, 0x0000000000000000000000007fffffff, 0xffffffffffffffffffffffffffffffff, 0xfffffffffffe00000000000000000000)),
  ((0x00001000000000000000000000000000, 0x00000000000000000000000040000000, 0x00000000000000000000000000000000, 0x00000000000000000000000000000000),
    (0x00000000000000000000000000000000, 0x0000000000000000000000003fffffff, 0xffffffffffffffffffffffffffffffff, 0xffffffffffff80000000000000000000)),
  ((0x00001000000000000000000000000000, 0x00000000000000000000000020000000, 0x00000000000000000000000000000000, 0x00000000000000000000000000000000),
    (0x00000000000000000000000000000000, 0x0000000000000000000000001fffffff, 0xffffffffffffffffffffffffffffffff, 0xffffffffffffe0000000000000000000)),
  ((0x00001000000000000000000000000000, 0x00000000000000000000000010000000, 0x00000000000000000000000000000000, 0x00000000000000000000000000000000),
    (0x00000000000000000000000000000000, 0x0000000000000000000000000fffffff, 0xffffffffffffffffffffffffffffffff, 0xfffffffffffff8000000000000000000)),
  ((0x00001000000000000000000000000000, 0x00000000000000000000000008000000, 0x00000000000000000000000000000000, 0x00000000000000000000000000000000),
    (0x00000000000000000000000000000000, 0x00000000000000000000000007ffffff, 0xffffffffffffffffffffffffffffffff, 0xfffffffffffffe000000000000000000)),
  ((0x00001000000000000000000000000000, 0x00000000000000000000000004000000, 0x00000000000000000000000000000000, 0x00000000000000000000000000000000),
    (0x00000000000000000000000000000000, 0x00000000000000000000000003ffffff, 0xffffffffffffffffffffffffffffffff, 0xffffffffffffff800000000000000000)),
  ((0x00001000000000000000000000000000, 0x00000000000000000000000002000000, 0x00000000000000000000000000000000, 0x00000000000000000000000000000000),
    (0x00000000000000000000000000000000, 0x00000000000000000000000001ffffff, 0xffffffffffffffffffffffffffffffff, 0xffffffffffffffe00000000000000000)),
  ((0x00001000000000000000000000000000, 0x00000000000000000000000001000000, 0x00000000000000000000000000000000, 0x00000000000000000000000000000000),
    (0x00000000000000000000000000000000, 0x00000000000000000000000000ffffff, 0xffffffffffffffffffffffffffffffff, 0xfffffffffffffff80000000000000000)),
  ((0x00001000000000000000000000000000, 0x00000000000000000000000000800000, 0x00000000000000000000000000000000, 0x00000000000000000000000000000000),
    (0x00000000000000000000000000000000, 0x000000000000000000000000007fffff, 0xffffffffffffffffffffffffffffffff, 0xfffffffffffffffe0000000000000000)),
  ((0x00001000000000000000000000000000, 0x00000000000000000000000000400000, 0x00000000000000000000000000000000, 0x00000000000000000000000000000000),
    (0x00000000000000000000000000000000, 0x000000000000000000000000003fffff, 0xffffffffffffffffffffffffffffffff, 0xffffffffffffffff8000000000000000)),
  ((0x00001000000000000000000000000000, 0x00000000000000000000000000200000, 0x00000000000000000000000000000000, 0x00000000000000000000000000000000),
    (0x00000000000000000000000000000000, 0x000000000000000000000000001fffff, 0xffffffffffffffffffffffffffffffff, 0xffffffffffffffffe000000000000000)),
  ((0x00001000000000000000000000000000, 0x00000000000000000000000000100000, 0x00000000000000000000000000000000, 0x00000000000000000000000000000000),
    (0x00000000000000000000000000000000, 0x000000000000000000000000000fffff, 0xffffffffffffffffffffffffffffffff, 0xfffffffffffffffff800000000000000)),
  ((0x00001000000000000000000000000000, 0x00000000000000000000000000080000, 0x00000000000000000000000000000000, 0x00000000000000000000000000000000),
    (0x00000000000000000000000000000000, 0x0000000000000000000000000007ffff, 0xffffffffffffffffffffffffffffffff, 0xfffffffffffffffffe00000000000000)),
  ((0x00001000000000000000000000000000, 0x00000000000000000000000000040000, 0x00000000000000000000000000000000, 0x00000000000000000000000000000000),
    (0x00000000000000000000000000000000, 0x0000000000000000000000000003ffff, 0xffffffffffffffffffffffffffffffff, 0xffffffffffffffffff80000000000000)),
  ((0x00001000000000000000000000000000, 0x00000000000000000000000000020000, 0x00000000000000000000000000000000, 0x00000000000000000000000000000000),
    (0x00000000000000000000000000000000, 0x0000000000000000000000000001ffff, 0xffffffffffffffffffffffffffffffff, 0xffffffffffffffffffe0000000000000)),
  ((0x00001000000000000000000000000000, 0x00000000000000000000000000010000, 0x00000000000000000000000000000000, 0x00000000000000000000000000000000),
    (0x00000000000000000000000000000000, 0x0000000000000000000000000000ffff, 0xffffffffffffffffffffffffffffffff, 0xfffffffffffffffffff8000000000000)),
  ((0x00001000000000000000000000000000, 0x00000000000000000000000000008000, 0x00000000000000000000000000000000, 0x00000000000000000000000000000000),
    (0x00000000000000000000000000000000, 0x00000000000000000000000000007fff, 0xffffffffffffffffffffffffffffffff, 0xfffffffffffffffffffe000000000000)),
  ((0x00001000000000000000000000000000, 0x00000000000000000000000000004000, 0x00000000000000000000000000000000, 0x00000000000000000000000000000000),
    (0x00000000000000000000000000000000, 0x00000000000000000000000000003fff, 0xffffffffffffffffffffffffffffffff, 0xffffffffffffffffffff800000000000)),
  ((0x00001000000000000000000000000000, 0x00000000000000000000000000002000, 0x00000000000000000000000000000000, 0x00000000000000000000000000000000),
    (0x00000000000000000000000000000000, 0x00000000000000000000000000001fff, 0xffffffffffffffffffffffffffffffff, 0xffffffffffffffffffffe00000000000)),
  ((0x00001000000000000000000000000000, 0x00000000000000000000000000001000, 0x00000000000000000000000000000000, 0x00000000000000000000000000000000),
    (0x00000000000000000000000000000000, 0x00000000000000000000000000000fff, 0xffffffffffffffffffffffffffffffff, 0xfffffffffffffffffffff80000000000)),
  ((0x00001000000000000000000000000000, 0x00000000000000000000000000000800, 0x00000000000000000000000000000000, 0x00000000000000000000000000000000),
    (0x00000000000000000000000000000000, 0x000000000000000000000000000007ff, 0xffffffffffffffffffffffffffffffff, 0xfffffffffffffffffffffe0000000000)),
  ((0x00001000000000000000000000000000, 0x00000000000000000000000000000400, 0x00000000000000000000000000000000, 0x00000000000000000000000000000000),
    (0x00000000000000000000000000000000, 0x000000000000000000000000000003ff, 0xffffffffffffffffffffffffffffffff, 0xffffffffffffffffffffff8000000000)),
  ((0x00001000000000000000000000000000, 0x00000000000000000000000000000200, 0x00000000000000000000000000000000, 0x00000000000000000000000000000000),
    (0x00000000000000000000000000000000, 0x000000000000000000000000000001ff, 0xffffffffffffffffffffffffffffffff, 0xffffffffffffffffffffffe000000000)),
  ((0x00001000000000000000000000000000, 0x00000000000000000000000000000100, 0x00000000000000000000000000000000, 0x00000000000000000000000000000000),
    (0x00000000000000000000000000000000, 0x000000000000000000000000000000ff, 0xffffffffffffffffffffffffffffffff, 0xfffffffffffffffffffffff800000000)),
  ((0x00001000000000000000000000000000, 0x00000000000000000000000000000080, 0x00000000000000000000000000000000, 0x00000000000000000000000000000000),
    (0x00000000000000000000000000000000, 0x0000000000000000000000000000007f, 0xffffffffffffffffffffffffffffffff, 0xfffffffffffffffffffffffe00000000)),
  ((0x00001000000000000000000000000000, 0x00000000000000000000000000000040, 0x00000000000000000000000000000000, 0x00000000000000000000000000000000),
    (0x00000000000000000000000000000000, 0x0000000000000000000000000000003f, 0xffffffffffffffffffffffffffffffff, 0xffffffffffffffffffffffff80000000)),
  ((0x00001000000000000000000000000000, 0x00000000000000000000000000000020, 0x00000000000000000000000000000000, 0x00000000000000000000000000000000),
    (0x00000000000000000000000000000000, 0x0000000000000000000000000000001f, 0xffffffffffffffffffffffffffffffff, 0xffffffffffffffffffffffffe0000000)),
  ((0x00001000000000000000000000000000, 0x00000000000000000000000000000010, 0x00000000000000000000000000000000, 0x00000000000000000000000000000000),
    (0x00000000000000000000000000000000, 0x0000000000000000000000000000000f, 0xffffffffffffffffffffffffffffffff, 0xfffffffffffffffffffffffff8000000)),
  ((0x00001000000000000000000000000000, 0x00000000000000000000000000000008, 0x00000000000000000000000000000000, 0x00000000000000000000000000000000),
    (0x00000000000000000000000000000000, 0x00000000000000000000000000000007, 0xffffffffffffffffffffffffffffffff, 0xfffffffffffffffffffffffffe000000)),
  ((0x00001000000000000000000000000000, 0x00000000000000000000000000000004, 0x00000000000000000000000000000000, 0x00000000000000000000000000000000),
    (0x00000000000000000000000000000000, 0x00000000000000000000000000000003, 0xffffffffffffffffffffffffffffffff, 0xffffffffffffffffffffffffff800000)),
  ((0x00001000000000000000000000000000, 0x00000000000000000000000000000002, 0x00000000000000000000000000000000, 0x00000000000000000000000000000000),
    (0x00000000000000000000000000000000, 0x00000000000000000000000000000001, 0xffffffffffffffffffffffffffffffff, 0xffffffffffffffffffffffffffe00000)),
  ((0x00001000000000000000000000000000, 0x00000000000000000000000000000001, 0x00000000000000000000000000000000, 0x00000000000000000000000000000000),
    (0x00000000000000000000000000000000, 0x00000000000000000000000000000000, 0xffffffffffffffffffffffffffffffff, 0xfffffffffffffffffffffffffff80000)),
  ((0x00001000000000000000000000000000, 0x00000000000000000000000000000000, 0x80000000000000000000000000000000, 0x00000000000000000000000000000000),
    (0x00000000000000000000000000000000, 0x00000000000000000000000000000000, 0x7fffffffffffffffffffffffffffffff, 0xfffffffffffffffffffffffffffe0000)),
  ((0x00001000000000000000000000000000, 0x00000000000000000000000000000000, 0x40000000000000000000000000000000, 0x00000000000000000000000000000000),
    (0x00000000000000000000000000000000, 0x00000000000000000000000000000000, 0x3fffffffffffffffffffffffffffffff, 0xffffffffffffffffffffffffffff8000)),
  ((0x00001000000000000000000000000000, 0x00000000000000000000000000000000, 0x20000000000000000000000000000000, 0x00000000000000000000000000000000),
    (0x00000000000000000000000000000000, 0x00000000000000000000000000000000, 0x1fffffffffffffffffffffffffffffff, 0xffffffffffffffffffffffffffffe000)),
  ((0x00001000000000000000000000000000, 0x00000000000000000000000000000000, 0x10000000000000000000000000000000, 0x00000000000000000000000000000000),
    (0x00000000000000000000000000000000, 0x00000000000000000000000000000000, 0x0fffffffffffffffffffffffffffffff, 0xfffffffffffffffffffffffffffff800)),
  ((0x00001000000000000000000000000000, 0x00000000000000000000000000000000, 0x08000000000000000000000000000000, 0x00000000000000000000000000000000),
    (0x00000000000000000000000000000000, 0x00000000000000000000000000000000, 0x07ffffffffffffffffffffffffffffff, 0xfffffffffffffffffffffffffffffe00)),
  ((0x00001000000000000000000000000000, 0x00000000000000000000000000000000, 0x04000000000000000000000000000000, 0x00000000000000000000000000000000),
    (0x00000000000000000000000000000000, 0x00000000000000000000000000000000, 0x03ffffffffffffffffffffffffffffff, 0xffffffffffffffffffffffffffffff80)),
  ((0x00001000000000000000000000000000, 0x00000000000000000000000000000000, 0x02000000000000000000000000000000, 0x00000000000000000000000000000000),
    (0x00000000000000000000000000000000, 0x00000000000000000000000000000000, 0x01ffffffffffffffffffffffffffffff, 0xffffffffffffffffffffffffffffffe0)),
  ((0x00001000000000000000000000000000, 0x00000000000000000000000000000000, 0x01000000000000000000000000000000, 0x00000000000000000000000000000000),
    (0x00000000000000000000000000000000, 0x00000000000000000000000000000000, 0x00ffffffffffffffffffffffffffffff, 0xfffffffffffffffffffffffffffffff8)),
  ((0x00001000000000000000000000000000, 0x00000000000000000000000000000000, 0x00800000000000000000000000000000, 0x00000000000000000000000000000000),
    (0x00000000000000000000000000000000, 0x00000000000000000000000000000000, 0x007fffffffffffffffffffffffffffff, 0xfffffffffffffffffffffffffffffffe)),
  ((0x00001000000000000000000000000000, 0x00000000000000000000000000000000, 0x00400000000000000000000000000000, 0x00000000000000000000000000000000),
    (0x00000000000000000000000000000000, 0x00000000000000000000000000000000, 0x00400000000000000000000000000000, 0x00000000000000000000000000000000))]

/-- src/math/feynman.rs:3956-5921 -/
def feynmanLut_2 : List ((Nat × Nat × Nat × Nat) × (Nat × Nat × Nat × Nat)) := [
  ((0x00001000000000000000000000000000, 0x00000000000000000000000000000000, 0x00200000000000000000000000000000, 0x00000000000000000000000000000000),
    (0x00000000000000000000000000000000, 0x00000000000000000000000000000000, 0x00200000000000000000000000000000, 0x00000000000000000000000000000000)),
  ((0x00001000000000000000000000000000, 0x00000000000000000000000000000000, 0x00100000000000000000000000000000, 0x00000000000000000000000000000000),
    (0x00000000000000000000000000000000, 0x00000000000000000000000000000000, 0x00100000000000000000000000000000, 0x00000000000000000000000000000000)),
  ((0x00001000000000000000000000000000, 0x00000000000000000000000000000000, 0x00080000000000000000000000000000, 0x00000000000000000000000000000000),
    (0x00000000000000000000000000000000, 0x00000000000000000000000000000000, 0x00080000000000000000000000000000, 0x00000000000000000000000000000000)),
  ((0x00001000000000000000000000000000, 0x00000000000000000000000000000000, 0x00040000000000000000000000000000, 0x00000000000000000000000000000000),
    (0x00000000000000000000000000000000, 0x00000000000000000000000000000000, 0x00040000000000000000000000000000, 0x00000000000000000000000000000000)),
  ((0x00001000000000000000000000000000, 0x00000000000000000000000000000000, 0x00020000000000000000000000000000, 0x00000000000000000000000000000000),
    (0x00000000000000000000000000000000, 0x00000000000000000000000000000000, 0x00020000000000000000000000000000, 0x00000000000000000000000000000000)),
  ((0x00001000000000000000000000000000, 0x00000000000000000000000000000000, 0x00010000000000000000000000000000, 0x00000000000000000000000000000000),
    (0x00000000000000000000000000000000, 0x00000000000000000000000000000000, 0x00010000000000000000000000000000, 0x00000000000000000000000000000000)),
  ((0x00001000000000000000000000000000, 0x00000000000000000000000000000000, 0x00008000000000000000000000000000, 0x00000000000000000000000000000000),
    (0x00000000000000000000000000000000, 0x00000000000000000000000000000000, 0x00008000000000000000000000000000, 0x00000000000000000000000000000000)),
  ((0x00001000000000000000000000000000, 0x00000000000000000000000000000000, 0x00004000000000000000000000000000, 0x00000000000000000000000000000000),
    (0x00000000000000000000000000000000, 0x00000000000000000000000000000000, 0x00004000000000000000000000000000, 0x00000000000000000000000000000000)),
  ((0x00001000000000000000000000000000, 0x00000000000000000000000000000000, 0x00002000000000000000000000000000, 0x00000000000000000000000000000000),
    (0x00000000000000000000000000000000, 0x00000000000000000000000000000000, 0x00002000000000000000000000000000, 0x00000000000000000000000000000000)),
  ((0x00001000000000000000000000000000, 0x00000000000000000000000000000000, 0x00001000000000000000000000000000, 0x00000000000000000000000000000000),
    (0x00000000000000000000000000000000, 0x00000000000000000000000000000000, 0x00001000000000000000000000000000, 0x00000000000000000000000000000000)),
  ((0x00001000000000000000000000000000, 0x00000000000000000000000000000000, 0x00000800000000000000000000000000, 0x00000000000000000000000000000000),
    (0x00000000000000000000000000000000, 0x00000000000000000000000000000000, 0x00000800000000000000000000000000, 0x00000000000000000000000000000000)),
  ((0x00001000000000000000000000000000, 0x00000000000000000000000000000000, 0x00000400000000000000000000000000, 0x00000000000000000000000000000000),
    (0x00000000000000000000000000000000, 0x00000000000000000000000000000000, 0x00000400000000000000000000000000, 0x00000000000000000000000000000000)),
  ((0x00001000000000000000000000000000, 0x00000000000000000000000000000000, 0x00000200000000000000000000000000, 0x00000000000000000000000000000000),
    (0x00000000000000000000000000000000, 0x00000000000000000000000000000000, 0x00000200000000000000000000000000, 0x00000000000000000000000000000000)),
  ((0x00001000000000000000000000000000, 0x00000000000000000000000000000000, 0x00000100000000000000000000000000, 0x00000000000000000000000000000000),
    (0x00000000000000000000000000000000, 0x00000000000000000000000000000000, 0x00000100000000000000000000000000, 0x00000000000000000000000000000000)),
  ((0x00001000000000000000000000000000, 0x00000000000000000000000000000000, 0x00000080000000000000000000000000, 0x00000000000000000000000000000000),
    (0x00000000000000000000000000000000, 0x00000000000000000000000000000000, 0x00000080000000000000000000000000, 0x00000000000000000000000000000000)),
  ((0x00001000000000000000000000000000, 0x00000000000000000000000000000000, 0x00000040000000000000000000000000, 0x00000000000000000000000000000000),
    (0x00000000000000000000000000000000, 0x00000000000000000000000000000000, 0x00000040000000000000000000000000, 0x00000000000000000000000000000000)),
  ((0x00001000000000000000000000000000, 0x00000000000000000000000000000000, 0x00000020000000000000000000000000, 0x00000000000000000000000000000000),
    (0x00000000000000000000000000000000, 0x00000000000000000000000000000000, 0x00000020000000000000000000000000, 0x00000000000000000000000000000000)),
  ((0x00001000000000000000000000000000, 0x00000000000000000000000000000000, 0x00000010000000000000000000000000, 0x00000000000000000000000000000000),
    (0x00000000000000000000000000000000, 0x00000000000000000000000000000000, 0x00000010000000000000000000000000, 0x00000000000000000000000000000000)),
  ((0x00001000000000000000000000000000, 0x00000000000000000000000000000000, 0x00000008000000000000000000000000, 0x00000000000000000000000000000000),
    (0x00000000000000000000000000000000, 0x00000000000000000000000000000000, 0x00000008000000000000000000000000, 0x00000000000000000000000000000000)),
  ((0x00001000000000000000000000000000, 0x00000000000000000000000000000000, 0x00000004000000000000000000000000, 0x00000000000000000000000000000000),
    (0x00000000000000000000000000000000, 0x00000000000000000000000000000000, 0x00000004000000000000000000000000, 0x00000000000000000000000000000000)),
  ((0x00001000000000000000000000000000, 0x00000000000000000000000000000000, 0x00000002000000000000000000000000, 0x00000000000000000000000000000000),
    (0x00000000000000000000000000000000, 0x00000000000000000000000000000000, 0x00000002000000000000000000000000, 0x00000000000000000000000000000000)),
  ((0x00001000000000000000000000000000, 0x00000000000000000000000000000000, 0x00000001000000000000000000000000, 0x00000000000000000000000000000000),
    (0x00000000000000000000000000000000, 0x00000000000000000000000000000000, 0x00000001000000000000000000000000, 0x00000000000000000000000000000000)),
  ((0x00001000000000000000000000000000, 0x00000000000000000000000000000000, 0x00000000800000000000000000000000, 0x00000000000000000000000000000000),
    (0x00000000000000000000000000000000, 0x00000000000000000000000000000000, 0x00000000800000000000000000000000, 0x00000000000000000000000000000000)),
  ((0x00001000000000000000000000000000, 0x00000000000000000000000000000000, 0x00000000400000000000000000000000, 0x00000000000000000000000000000000),
    (0x00000000000000000000000000000000, 0x00000000000000000000000000000000, 0x00000000400000000000000000000000, 0x00000000000000000000000000000000)),
  ((0x00001000000000000000000000000000, 0x00000000000000000000000000000000, 0x00000000200000000000000000000000, 0x00000000000000000000000000000000),
    (0x00000000000000000000000000000000, 0x00000000000000000000000000000000, 0x00000000200000000000000000000000, 0x00000000000000000000000000000000)),
  ((0x00001000000000000000000000000000, 0x00000000000000000000000000000000, 0x00000000100000000000000000000000, 0x00000000000000000000000000000000),
    (0x00000000000000000000000000000000, 0x00000000000000000000000000000000, 0x00000000100000000000000000000000, 0x00000000000000000000000000000000)),
  ((0x00001000000000000000000000000000, 0x00000000000000000000000000000000, 0x00000000080000000000000000000000, 0x00000000000000000000000000000000),
    (0x00000000000000000000000000000000, 0x00000000000000000000000000000000, 0x00000000080000000000000000000000, 0x00000000000000000000000000000000)),
  ((0x00001000000000000000000000000000, 0x00000000000000000000000000000000, 0x00000000040000000000000000000000, 0x00000000000000000000000000000000),
    (0x00000000000000000000000000000000, 0x00000000000000000000000000000000, 0x00000000040000000000000000000000, 0x00000000000000000000000000000000)),
  ((0x00001000000000000000000000000000, 0x00000000000000000000000000000000, 0x00000000020000000000000000000000, 0x00000000000000000000000000000000),
    (0x00000000000000000000000000000000, 0x00000000000000000000000000000000, 0x00000000020000000000000000000000, 0x00000000000000000000000000000000)),
  ((0x00001000000000000000000000000000, 0x00000000000000000000000000000000, 0x00000000010000000000000000000000, 0x00000000000000000000000000000000),
    (0x00000000000000000000000000000000, 0x00000000000000000000000000000000, 0x00000000010000000000000000000000, 0x00000000000000000000000000000000)),
  ((0x00001000000000000000000000000000, 0x00000000000000000000000000000000, 0x00000000008000000000000000000000, 0x00000000000000000000000000000000),
    (0x00000000000000000000000000000000, 0x00000000000000000000000000000000, 0x00000000008000000000000000000000, 0x00000000000000000000000000000000)),
  ((0x00001000000000000000000000000000, 0x00000000000000000000000000000000, 0x00000000004000000000000000000000, 0x00000000000000000000000000000000),
    (0x00000000000000000000000000000000, 0x00000000000000000000000000000000, 0x00000000004000000000000000000000, 0x00000000000000000000000000000000)),
  ((0x00001000000000000000000000000000, 0x00000000000000000000000000000000, 0x00000000002000000000000000000000, 0x00000000000000000000000000000000),
    (0x00000000000000000000000000000000, 0x00000000000000000000000000000000, 0x00000000002000000000000000000000, 0x00000000000000000000000000000000)),
  ((0x00001000000000000000000000000000, 0x00000000000000000000000000000000, 0x00000000001000000000000000000000, 0x00000000000000000000000000000000),
    (0x00000000000000000000000000000000, 0x00000000000000000000000000000000, 0x00000000001000000000000000000000, 0x00000000000000000000000000000000)),
  ((0x00001000000000000000000000000000, 0x00000000000000000000000000000000, 0x00000000000800000000000000000000, 0x00000000000000000000000000000000),
    (0x00000000000000000000000000000000, 0x00000000000000000000000000000000, 0x00000000000800000000000000000000, 0x00000000000000000000000000000000)),
  ((0x00001000000000000000000000000000, 0x00000000000000000000000000000000, 0x00000000000400000000000000000000, 0x00000000000000000000000000000000),
    (0x00000000000000000000000000000000, 0x00000000000000000000000000000000, 0x00000000000400000000000000000000, 0x00000000000000000000000000000000)),
  ((0x00001000000000000000000000000000, 0x00000000000000000000000000000000, 0x00000000000200000000000000000000, 0x00000000000000000000000000000000),
    (0x00000000000000000000000000000000, 0x00000000000000000000000000000000, 0x00000000000200000000000000000000, 0x00000000000000000000000000000000)),
  ((0x00001000000000000000000000000000, 0x00000000000000000000000000000000, 0x00000000000100000000000000000000, 0x00000000000000000000000000000000),
    (0x00000000000000000000000000000000, 0x00000000000000000000000000000000, 0x00000000000100000000000000000000, 0x00000000000000000000000000000000)),
  ((0x00001000000000000000000000000000, 0x00000000000000000000000000000000, 0x00000000000080000000000000000000, 0x00000000000000000000000000000000),
    (0x00000000000000000000000000000000, 0x00000000000000000000000000000000, 0x00000000000080000000000000000000, 0x00000000000000000000000000000000)),
  ((0x00001000000000000000000000000000, 0x00000000000000000000000000000000, 0x00000000000040000000000000000000, 0x00000000000000000000000000000000),
    (0x00000000000000000000000000000000, 0x00000000000000000000000000000000, 0x00000000000040000000000000000000, 0x00000000000000000000000000000000)),
  ((0x00001000000000000000000000000000, 0x00000000000000000000000000000000, 0x00000000000020000000000000000000, 0x00000000000000000000000000000000),
    (0x00000000000000000000000000000000, 0x00000000000000000000000000000000, 0x00000000000020000000000000000000, 0x00000000000000000000000000000000)),
  ((0x00001000000000000000000000000000, 0x00000000000000000000000000000000, 0x00000000000010000000000000000000, 0x00000000000000000000000000000000),
    (0x00000000000000000000000000000000, 0x00000000000000000000000000000000, 0x00000000000010000000000000000000, 0x00000000000000000000000000000000)),
  ((0x00001000000000000000000000000000, 0x00000000000000000000000000000000, 0x00000000000008000000000000000000, 0x00000000000000000000000000000000),
    (0x00000000000000000000000000000000, 0x00000000000000000000000000000000, 0x00000000000008000000000000000000, 0x00000000000000000000000000000000)),
  ((0x00001000000000000000000000000000, 0x00000000000000000000000000000000, 0x00000000000004000000000000000000, 0x00000000000000000000000000000000),
    (0x00000000000000000000000000000000, 0x00000000000000000000000000000000, 0x00000000000004000000000000000000, 0x00000000000000000000000000000000)),
  ((0x00001000000000000000000000000000, 0x00000000000000000000000000000000, 0x00000000000002000000000000000000, 0x00000000000000000000000000000000),
    (0x00000000000000000000000000000000, 0x00000000000000000000000000000000, 0x00000000000002000000000000000000, 0x00000000000000000000000000000000)),
  ((0x00001000000000000000000000000000, 0x00000000000000000000000000000000, 0x00000000000001000000000000000000, 0x00000000000000000000000000000000),
    (0x00000000000000000000000000000000, 0x00000000000000000000000000000000, 0x00000000000001000000000000000000, 0x00000000000000000000000000000000)),
  ((0x00001000000000000000000000000000, 0x00000000000000000000000000000000, 0x00000000000000800000000000000000, 0x00000000000000000000000000000000),
    (0x00000000000000000000000000000000, 0x00000000000000000000000000000000, 0x00000000000000800000000000000000, 0x00000000000000000000000000000000)),
  ((0x00001000000000000000000000000000, 0x00000000000000000000000000000000, 0x00000000000000400000000000000000, 0x00000000000000000000000000000000),
    (0x00000000000000000000000000000000, 0x00000000000000000000000000000000, 0x00000000000000400000000000000000, 0x00000000000000000000000000000000)),
  ((0x00001000000000000000000000000000, 0x00000000000000000000000000000000, 0x00000000000000200000000000000000, 0x00000000000000000000000000000000),
    (0x00000000000000000000000000000000, 0x00000000000000000000000000000000, 0x00000000000000200000000000000000, 0x00000000000000000000000000000000)),
  ((0x00001000000000000000000000000000, 0x00000000000000000000000000000000, 0x00000000000000100000000000000000, 0x00000000000000000000000000000000),
    (0x00000000000000000000000000000000, 0x00000000000000000000000000000000, 0x00000000000000100000000000000000, 0x00000000000000000000000000000000)),
  ((0x00001000000000000000000000000000, 0x00000000000000000000000000000000, 0x00000000000000080000000000000000, 0x00000000000000000000000000000000),
    (0x00000000000000000000000000000000, 0x00000000000000000000000000000000, 0x00000000000000080000000000000000, 0x00000000000000000000000000000000)),
  ((0x00001000000000000000000000000000, 0x00000000000000000000000000000000, 0x00000000000000040000000000000000, 0x00000000000000000000000000000000),
    (0x00000000000000000000000000000000, 0x00000000000000000000000000000000, 0x00000000000000040000000000000000, 0x00000000000000000000000000000000)),
  ((0x00001000000000000000000000000000, 0x00000000000000000000000000000000, 0x00000000000000020000000000000000, 0x00000000000000000000000000000000),
    (0x00000000000000000000000000000000, 0x00000000000000000000000000000000, 0x00000000000000020000000000000000, 0x00000000000000000000000000000000)),
  ((0x00001000000000000000000000000000, 0x00000000000000000000000000000000, 0x00000000000000010000000000000000, 0x00000000000000000000000000000000),
    (0x00000000000000000000000000000000, 0x00000000000000000000000000000000, 0x00000000000000010000000000000000, 0x00000000000000000000000000000000)),
  ((0x00001000000000000000000000000000, 0x00000000000000000000000000000000, 0x00000000000000008000000000000000, 0x00000000000000000000000000000000),
    (0x00000000000000000000000000000000, 0x00000000000000000000000000000000, 0x00000000000000008000000000000000, 0x00000000000000000000000000000000)),
  ((0x00001000000000000000000000000000, 0x00000000000000000000000000000000, 0x00000000000000004000000000000000, 0x00000000000000000000000000000000),
    (0x00000000000000000000000000000000, 0x00000000000000000000000000000000, 0x00000000000000004000000000000000, 0x00000000000000000000000000000000)),
  ((0x00001000000000000000000000000000, 0x00000000000000000000000000000000, 0x00000000000000002000000000000000, 0x00000000000000000000000000000000),
    (0x00000000000000000000000000000000, 0x00000000000000000000000000000000, 0x00000000000000002000000000000000, 0x00000000000000000000000000000000)),
  ((0x00001000000000000000000000000000, 0x00000000000000000000000000000000, 0x00000000000000001000000000000000, 0x00000000000000000000000000000000),
    (0x00000000000000000000000000000000, 0x00000000000000000000000000000000, 0x00000000000000001000000000000000, 0x00000000000000000000000000000000)),
  ((0x00001000000000000000000000000000, 0x00000000000000000000000000000000, 0x00000000000000000800000000000000, 0x00000000000000000000000000000000),
    (0x00000000000000000000000000000000, 0x00000000000000000000000000000000, 0x00000000000000000800000000000000, 0x00000000000000000000000000000000)),
  ((0x00001000000000000000000000000000, 0x00000000000000000000000000000000, 0x00000000000000000400000000000000, 0x00000000000000000000000000000000),
    (0x00000000000000000000000000000000, 0x00000000000000000000000000000000, 0x00000000000000000400000000000000, 0x00000000000000000000000000000000)),
  ((0x00001000000000000000000000000000, 0x00000000000000000000000000000000, 0x00000000000000000200000000000000, 0x00000000000000000000000000000000),
    (0x00000000000000000000000000000000, 0x00000000000000000000000000000000, 0x00000000000000000200000000000000, 0x00000000000000000000000000000000)),
  ((0x00001000000000000000000000000000, 0x00000000000000000000000000000000, 0x00000000000000000100000000000000, 0x00000000000000000000000000000000),
    (0x00000000000000000000000000000000, 0x00000000000000000000000000000000, 0x00000000000000000100000000000000, 0x00000000000000000000000000000000)),
  ((0x00001000000000000000000000000000, 0x00000000000000000000000000000000, 0x00000000000000000080000000000000, 0x00000000000000000000000000000000),
    (0x00000000000000000000000000000000, 0x00000000000000000000000000000000, 0x00000000000000000080000000000000, 0x00000000000000000000000000000000)),
  ((0x00001000000000000000000000000000, 0x00000000000000000000000000000000, 0x00000000000000000040000000000000, 0x00000000000000000000000000000000),
    (0x00000000000000000000000000000000, 0x00000000000000000000000000000000, 0x00000000000000000040000000000000, 0x00000000000000000000000000000000)),
  ((0x00001000000000000000000000000000, 0x00000000000000000000000000000000, 0x00000000000000000020000000000000, 0x00000000000000000000000000000000),
    (0x00000000000000000000000000000000, 0x00000000000000000000000000000000, 0x00000000000000000020000000000000, 0x00000000000000000000000000000000)),
  ((0x00001000000000000000000000000000, 0x00000000000000000000000000000000, 0x00000000000000000010000000000000, 0x00000000000000000000000000000000),
    (0x00000000000000000000000000000000, 0x00000000000000000000000000000000, 0x00000000000000000010000000000000, 0x00000000000000000000000000000000)),
  ((0x00001000000000000000000000000000, 0x00000000000000000000000000000000, 0x00000000000000000008000000000000, 0x00000000000000000000000000000000),
    (0x00000000000000000000000000000000, 0x00000000000000000000000000000000, 0x00000000000000000008000000000000, 0x00000000000000000000000000000000)),
  ((0x00001000000000000000000000000000, 0x00000000000000000000000000000000, 0x00000000000000000004000000000000, 0x00000000000000000000000000000000),
    (0x00000000000000000000000000000000, 0x00000000000000000000000000000000, 0x00000000000000000004000000000000, 0x00000000000000000000000000000000)),
  ((0x00001000000000000000000000000000, 0x00000000000000000000000000000000, 0x00000000000000000002000000000000, 0x00000000000000000000000000000000),
    (0x00000000000000000000000000000000, 0x00000000000000000000000000000000, 0x00000000000000000002000000000000, 0x00000000000000000000000000000000)),
  ((0x00001000000000000000000000000000, 0x00000000000000000000000000000000, 0x00000000000000000001000000000000, 0x00000000000000000000000000000000),
    (0x00000000000000000000000000000000, 0x00000000000000000000000000000000, 0x00000000000000000001000000000000, 0x00000000000000000000000000000000)),
  ((0x00001000000000000000000000000000, 0x00000000000000000000000000000000, 0x00000000000000000000800000000000, 0x00000000000000000000000000000000),
    (0x00000000000000000000000000000000, 0x00000000000000000000000000000000, 0x00000000000000000000800000000000, 0x00000000000000000000000000000000)),
  ((0x00001000000000000000000000000000, 0x00000000000000000000000000000000, 0x00000000000000000000400000000000, 0x00000000000000000000000000000000),
    (0x00000000000000000000000000000000, 0x00000000000000000000000000000000, 0x00000000000000000000400000000000, 0x00000000000000000000000000000000)),
  ((0x00001000000000000000000000000000, 0x00000000000000000000000000000000, 0x00000000000000000000200000000000, 0x00000000000000000000000000000000),
    (0x00000000000000000000000000000000, 0x00000000000000000000000000000000, 0x00000000000000000000200000000000, 0x00000000000000000000000000000000)),
  ((0x00001000000000000000000000000000, 0x00000000000000000000000000000000, 0x00000000000000000000100000000000, 0x00000000000000000000000000000000),
    (0x00000000000000000000000000000000, 0x00000000000000000000000000000000, 0x00000000000000000000100000000000, 0x00000000000000000000000000000000)),
  ((0x00001000000000000000000000000000, 0x00000000000000000000000000000000, 0x00000000000000000000080000000000, 0x00000000000000000000000000000000),
    (0x00000000000000000000000000000000, 0x00000000000000000000000000000000, 0x00000000000000000000080000000000, 0x00000000000000000000000000000000)),
  ((0x00001000000000000000000000000000, 0x00000000000000000000000000000000, 0x00000000000000000000040000000000, 0x00000000000000000000000000000000),
    (0x00000000000000000000000000000000, 0x00000000000000000000000000000000, 0x00000000000000000000040000000000, 0x00000000000000000000000000000000)),
  ((0x00001000000000000000000000000000, 0x00000000000000000000000000000000, 0x00000000000000000000020000000000, 0x00000000000000000000000000000000),
    (0x00000000000000000000000000000000, 0x00000000000000000000000000000000, 0x00000000000000000000020000000000, 0x00000000000000000000000000000000)),
  ((0x00001000000000000000000000000000, 0x00000000000000000000000000000000, 0x00000000000000000000010000000000, 0x00000000000000000000000000000000),
    (0x00000000000000000000000000000000, 0x00000000000000000000000000000000, 0x00000000000000000000010000000000, 0x00000000000000000000000000000000)),
  ((0x00001000000000000000000000000000, 0x00000000000000000000000000000000, 0x00000000000000000000008000000000, 0x00000000000000000000000000000000),
    (0x00000000000000000000000000000000, 0x00000000000000000000000000000000, 0x00000000000000000000008000000000, 0x00000000000000000000000000000000)),
  ((0x00001000000000000000000000000000, 0x00000000000000000000000000000000, 0x00000000000000000000004000000000, 0x00000000000000000000000000000000),
    (0x00000000000000000000000000000000, 0x00000000000000000000000000000000, 0x00000000000000000000004000000000, 0x00000000000000000000000000000000)),
  ((0x00001000000000000000000000000000, 0x00000000000000000000000000000000, 0x00000000000000000000002000000000, 0x00000000000000000000000000000000),
    (0x00000000000000000000000000000000, 0x00000000000000000000000000000000, 0x00000000000000000000002000000000, 0x00000000000000000000000000000000)),
  ((0x00001000000000000000000000000000, 0x00000000000000000000000000000000, 0x00000000000000000000001000000000, 0x00000000000000000000000000000000),
    (0x00000000000000000000000000000000, 0x00000000000000000000000000000000, 0x00000000000000000000001000000000, 0x00000000000000000000000000000000)),
  ((0x00001000000000000000000000000000, 0x00000000000000000000000000000000, 0x00000000000000000000000800000000, 0x00000000000000000000000000000000),
    (0x00000000000000000000000000000000, 0x00000000000000000000000000000000, 0x00000000000000000000000800000000, 0x00000000000000000000000000000000)),
  ((0x00001000000000000000000000000000, 0x00000000000000000000000000000000, 0x00000000000000000000000400000000, 0x00000000000000000000000000000000),
    (0x00000000000000000000000000000000, 0x00000000000000000000000000000000, 0x00000000000000000000000400000000, 0x00000000000000000000000000000000)),
  ((0x00001000000000000000000000000000, 0x00000000000000000000000000000000, 0x00000000000000000000000200000000, 0x00000000000000000000000000000000),
    (0x00000000000000000000000000000000, 0x00000000000000000000000000000000, 0x00000000000000000000000200000000, 0x00000000000000000000000000000000)),
  ((0x00001000000000000000000000000000, 0x00000000000000000000000000000000, 0x00000000000000000000000100000000, 0x00000000000000000000000000000000),
    (0x00000000000000000000000000000000, 0x00000000000000000000000000000000, 0x00000000000000000000000100000000, 0x00000000000000000000000000000000)),
  ((0x00001000000000000000000000000000, 0x00000000000000000000000000000000, 0x00000000000000000000000080000000, 0x00000000000000000000000000000000),
    (0x00000000000000000000000000000000, 0x00000000000000000000000000000000, 0x00000000000000000000000080000000, 0x00000000000000000000000000000000)),
  ((0x00001000000000000000000000000000, 0x00000000000000000000000000000000, 0x00000000000000000000000040000000, 0x00000000000000000000000000000000),
    (0x00000000000000000000000000000000, 0x00000000000000000000000000000000, 0x00000000000000000000000040000000, 0x00000000000000000000000000000000)),
  ((0x00001000000000000000000000000000, 0x00000000000000000000000000000000, 0x00000000000000000000000020000000, 0x00000000000000000000000000000000),
    (0x00000000000000000000000000000000, 0x00000000000000000000000000000000, 0x00000000000000000000000020000000, 0x00000000000000000000000000000000)),
  ((0x00001000000000000000000000000000, 0x00000000000000000000000000000000, 0x00000000000000000000000010000000, 0x00000000000000000000000000000000),
    (0x00000000000000000000000000000000, 0x00000000000000000000000000000000, 0x00000000000000000000000010000000, 0x00000000000000000000000000000000)),
  ((0x00001000000000000000000000000000, 0x00000000000000000000000000000000, 0x00000000000000000000000008000000, 0x00000000000000000000000000000000),
    (0x00000000000000000000000000000000, 0x00000000000000000000000000000000, 0x00000000000000000000000008000000, 0x00000000000000000000000000000000)),
  ((0x00001000000000000000000000000000, 0x00000000000000000000000000000000, 0x00000000000000000000000004000000, 0x00000000000000000000000000000000),
    (0x00000000000000000000000000000000, 0x00000000000000000000000000000000, 0x00000000000000000000000004000000, 0x00000000000000000000000000000000)),
  ((0x00001000000000000000000000000000, 0x00000000000000000000000000000000, 0x00000000000000000000000002000000, 0x00000000000000000000000000000000),
    (0x00000000000000000000000000000000, 0x00000000000000000000000000000000, 0x00000000000000000000000002000000, 0x00000000000000000000000000000000)),
  ((0x00001000000000000000000000000000, 0x00000000000000000000000000000000, 0x00000000000000000000000001000000, 0x00000000000000000000000000000000),
    (0x00000000000000000000000000000000, 0x00000000000000000000000000000000, 0x00000000000000000000000001000000, 0x00000000000000000000000000000000)),
  ((0x00001000000000000000000000000000, 0x00000000000000000000000000000000, 0x00000000000000000000000000800000, 0x00000000000000000000000000000000),
    (0x00000000000000000000000000000000, 0x00000000000000000000000000000000, 0x00000000000000000000000000800000, 0x00000000000000000000000000000000)),
  ((0x00001000000000000000000000000000, 0x00000000000000000000000000000000, 0x00000000000000000000000000400000, 0x00000000000000000000000000000000),
    (0x00000000000000000000000000000000, 0x00000000000000000000000000000000, 0x00000000000000000000000000400000, 0x00000000000000000000000000000000)),
  ((0x00001000000000000000000000000000, 0x00000000000000000000000000000000, 0x00000000000000000000000000200000, 0x00000000000000000000000000000000),
    (0x00000000000000000000000000000000, 0x00000000000000000000000000000000, 0x00000000000000000000000000200000, 0x00000000000000000000000000000000)),
  ((0x00001000000000000000000000000000, 0x00000000000000000000000000000000, 0x00000000000000000000000000100000, 0x00000000000000000000000000000000),
    (0x00000000000000000000000000000000, 0x00000000000000000000000000000000, 0x00000000000000000000000000100000, 0x00000000000000000000000000000000)),
  ((0x00001000000000000000000000000000, 0x00000000000000000000000000000000, 0x00000000000000000000000000080000, 0x00000000000000000000000000000000),
    (0x00000000000000000000000000000000, 0x00000000000000000000000000000000, 0x00000000000000000000000000080000, 0x00000000000000000000000000000000)),
  ((0x00001000000000000000000000000000, 0x00000000000000000000000000000000, 0x00000000000000000000000000040000, 0x00000000000000000000000000000000),
    (0x00000000000000000000000000000000, 0x00000000000000000000000000000000, 0x00000000000000000000000000040000, 0x00000000000000000000000000000000)),
  ((0x00001000000000000000000000000000, 0x00000000000000000000000000000000, 0x00000000000000000000000000020000, 0x00000000000000000000000000000000),
    (0x00000000000000000000000000000000, 0x00000000000000000000000000000000, 0x00000000000000000000000000020000, 0x00000000000000000000000000000000)),
  ((0x00001000000000000000000000000000, 0x00000000000000000000000000000000, 0x00000000000000000000000000010000, 0x00000000000000000000000000000000),
    (0x00000000000000000000000000000000, 0x00000000000000000000000000000000, 0x00000000000000000000000000010000, 0x00000000000000000000000000000000)),
  ((0x00001000000000000000000000000000, 0x00000000000000000000000000000000, 0x00000000000000000000000000008000, 0x00000000000000000000000000000000),
    (0x00000000000000000000000000000000, 0x00000000000000000000000000000000, 0x00000000000000000000000000008000, 0x00000000000000000000000000000000)),
  ((0x00001000000000000000000000000000, 0x00000000000000000000000000000000, 0x00000000000000000000000000004000, 0x00000000000000000000000000000000),
    (0x00000000000000000000000000000000, 0x00000000000000000000000000000000, 0x00000000000000000000000000004000, 0x00000000000000000000000000000000)),
  ((0x00001000000000000000000000000000, 0x00000000000000000000000000000000, 0x00000000000000000000000000002000, 0x00000000000000000000000000000000),
    (0x00000000000000000000000000000000, 0x00000000000000000000000000000000, 0x00000000000000000000000000002000, 0x00000000000000000000000000000000)),
  ((0x00001000000000000000000000000000, 0x00000000000000000000000000000000, 0x00000000000000000000000000001000, 0x00000000000000000000000000000000),
    (0x00000000000000000000000000000000, 0x00000000000000000000000000000000, 0x00000000000000000000000000001000, 0x00000000000000000000000000000000)),
  ((0x00001000000000000000000000000000, 0x00000000000000000000000000000000, 0x00000000000000000000000000000800, 0x00000000000000000000000000000000),
    (0x00000000000000000000000000000000, 0x00000000000000000000000000000000, 0x00000000000000000000000000000800, 0x00000000000000000000000000000000)),
  ((0x00001000000000000000000000000000, 0x00000000000000000000000000000000, 0x00000000000000000000000000000400, 0x00000000000000000000000000000000),
    (0x00000000000000000000000000000000, 0x00000000000000000000000000000000, 0x00000000000000000000000000000400, 0x00000000000000000000000000000000)),
  ((0x00001000000000000000000000000000, 0x00000000000000000000000000000000, 0x00000000000000000000000000000200, 0x00000000000000000000000000000000),
    (0x00000000000000000000000000000000, 0x00000000000000000000000000000000, 0x00000000000000000000000000000200, 0x00000000000000000000000000000000)),
  ((0x00001000000000000000000000000000, 0x00000000000000000000000000000000, 0x00000000000000000000000000000100, 0x00000000000000000000000000000000),
    (0x00000000000000000000000000000000, 0x00000000000000000000000000000000, 0x00000000000000000000000000000100, 0x00000000000000000000000000000000)),
  ((0x00001000000000000000000000000000, 0x00000000000000000000000000000000, 0x00000000000000000000000000000080, 0x00000000000000000000000000000000),
    (0x00000000000000000000000000000000, 0x00000000000000000000000000000000, 0x00000000000000000000000000000080, 0x00000000000000000000000000000000)),
  ((0x00001000000000000000000000000000, 0x00000000000000000000000000000000, 0x00000000000000000000000000000040, 0x00000000000000000000000000000000),
    (0x00000000000000000000000000000000, 0x00000000000000000000000000000000, 0x00000000000000000000000000000040, 0x00000000000000000000000000000000)),
  ((0x00001000000000000000000000000000, 0x00000000000000000000000000000000, 0x00000000000000000000000000000020, 0x00000000000000000000000000000000),
    (0x00000000000000000000000000000000, 0x00000000000000000000000000000000, 0x00000000000000000000000000000020, 0x00000000000000000000000000000000)),
  ((0x00001000000000000000000000000000, 0x00000000000000000000000000000000, 0x00000000000000000000000000000010, 0x00000000000000000000000000000000),
    (0x00000000000000000000000000000000, 0x00000000000000000000000000000000, 0x00000000000000000000000000000010, 0x00000000000000000000000000000000)),
  ((0x00001000000000000000000000000000, 0x00000000000000000000000000000000, 0x00000000000000000000000000000008, 0x00000000000000000000000000000000),
    (0x00000000000000000000000000000000, 0x00000000000000000000000000000000, 0x00000000000000000000000000000008, 0x00000000000000000000000000000000)),
  ((0x00001000000000000000000000000000, 0x00000000000000000000000000000000, 0x00000000000000000000000000000004, 0x00000000000000000000000000000000),
    (0x00000000000000000000000000000000, 0x00000000000000000000000000000000, 0x00000000000000000000000000000004, 0x00000000000000000000000000000000)),
  ((0x00001000000000000000000000000000, 0x00000000000000000000000000000000, 0x00000000000000000000000000000002, 0x00000000000000000000000000000000),
    (0x00000000000000000000000000000000, 0x00000000000000000000000000000000, 0x00000000000000000000000000000002, 0x00000000000000000000000000000000)),
  ((0x00001000000000000000000000000000, 0x00000000000000000000000000000000, 0x00000000000000000000000000000001, 0x00000000000000000000000000000000),
    (0x00000000000000000000000000000000, 0x00000000000000000000000000000000, 0x00000000000000000000000000000001, 0x00000000000000000000000000000000)),
  ((0x00001000000000000000000000000000, 0x00000000000000000000000000000000, 0x00000000000000000000000000000000, 0x80000000000000000000000000000000),
    (0x00000000000000000000000000000000, 0x00000000000000000000000000000000, 0x00000000000000000000000000000000, 0x80000000000000000000000000000000)),
  ((0x00001000000000000000000000000000, 0x00000000000000000000000000000000, 0x00000000000000000000000000000000, 0x40000000000000000000000000000000),
    (0x00000000000000000000000000000000, 0x00000000000000000000000000000000, 0x00000000000000000000000000000000, 0x40000000000000000000000000000000)),
  ((0x00001000000000000000000000000000, 0x00000000000000000000000000000000, 0x00000000000000000000000000000000, 0x20000000000000000000000000000000),
    (0x00000000000000000000000000000000, 0x00000000000000000000000000000000, 0x00000000000000000000000000000000, 0x20000000000000000000000000000000)),
  ((0x00001000000000000000000000000000, 0x00000000000000000000000000000000, 0x00000000000000000000000000000000, 0x10000000000000000000000000000000),
    (0x00000000000000000000000000000000, 0x00000000000000000000000000000000, 0x00000000000000000000000000000000, 0x10000000000000000000000000000000)),
  ((0x00001000000000000000000000000000, 0x00000000000000000000000000000000, 0x00000000000000000000000000000000, 0x08000000000000000000000000000000),
    (0x00000000000000000000000000000000, 0x00000000000000000000000000000000, 0x00000000000000000000000000000000, 0x08000000000000000000000000000000))]

/-- src/math/feynman.rs:5924-7889 -/
def feynmanLut_3 : List ((Nat × Nat × Nat × Nat) × (Nat × Nat × Nat × Nat)) := [
  ((0x00001000000000000000000000000000, 0x00000000000000000000000000000000, 0x00000000000000000000000000000000, 0x04000000000000000000000000000000),
    (0x00000000000000000000000000000000, 0x00000000000000000000000000000000, 0x00000000000000000000000000000000, 0x04000000000000000000000000000000)),
  ((0x00001000000000000000000000000000, 0x00000000000000000000000000000000, 0x00000000000000000000000000000000, 0x02000000000000000000000000000000),
    (0x00000000000000000000000000000000, 0x00000000000000000000000000000000, 0x00000000000000000000000000000000, 0x02000000000000000000000000000000)),
  ((0x00001000000000000000000000000000, 0x00000000000000000000000000000000, 0x00000000000000000000000000000000, 0x01000000000000000000000000000000),
    (0x00000000000000000000000000000000, 0x00000000000000000000000000000000, 0x00000000000000000000000000000000, 0x01000000000000000000000000000000)),
  ((0x00001000000000000000000000000000, 0x00000000000000000000000000000000, 0x00000000000000000000000000000000, 0x00800000000000000000000000000000),
    (0x00000000000000000000000000000000, 0x00000000000000000000000000000000, 0x00000000000000000000000000000000, 0x00800000000000000000000000000000)),
  ((0x00001000000000000000000000000000, 0x00000000000000000000000000000000, 0x00000000000000000000000000000000, 0x00400000000000000000000000000000),
    (0x00000000000000000000000000000000, 0x00000000000000000000000000000000, 0x00000000000000000000000000000000, 0x00400000000000000000000000000000)),
  ((0x00001000000000000000000000000000, 0x00000000000000000000000000000000, 0x00000000000000000000000000000000, 0x00200000000000000000000000000000),
    (0x00000000000000000000000000000000, 0x00000000000000000000000000000000, 0x00000000000000000000000000000000, 0x00200000000000000000000000000000)),
  ((0x00001000000000000000000000000000, 0x00000000000000000000000000000000, 0x00000000000000000000000000000000, 0x00100000000000000000000000000000),
    (0x00000000000000000000000000000000, 0x00000000000000000000000000000000, 0x00000000000000000000000000000000, 0x00100000000000000000000000000000)),
  ((0x00001000000000000000000000000000, 0x00000000000000000000000000000000, 0x00000000000000000000000000000000, 0x00080000000000000000000000000000),
    (0x00000000000000000000000000000000, 0x00000000000000000000000000000000, 0x00000000000000000000000000000000, 0x00080000000000000000000000000000)),
  ((0x00001000000000000000000000000000, 0x00000000000000000000000000000000, 0x00000000000000000000000000000000, 0x00040000000000000000000000000000),
    (0x00000000000000000000000000000000, 0x00000000000000000000000000000000, 0x00000000000000000000000000000000, 0x00040000000000000000000000000000)),
  ((0x00001000000000000000000000000000, 0x00000000000000000000000000000000, 0x00000000000000000000000000000000, 0x00020000000000000000000000000000),
    (0x00000000000000000000000000000000, 0x00000000000000000000000000000000, 0x00000000000000000000000000000000, 0x00020000000000000000000000000000)),
  ((0x00001000000000000000000000000000, 0x00000000000000000000000000000000, 0x00000000000000000000000000000000, 0x00010000000000000000000000000000),
    (0x00000000000000000000000000000000, 0x00000000000000000000000000000000, 0x00000000000000000000000000000000, 0x00010000000000000000000000000000)),
  ((0x00001000000000000000000000000000, 0x00000000000000000000000000000000, 0x00000000000000000000000000000000, 0x00008000000000000000000000000000),
    (0x00000000000000000000000000000000, 0x00000000000000000000000000000000, 0x00000000000000000000000000000000, 0x00008000000000000000000000000000)),
  ((0x00001000000000000000000000000000, 0x00000000000000000000000000000000, 0x00000000000000000000000000000000, 0x00004000000000000000000000000000),
    (0x00000000000000000000000000000000, 0x00000000000000000000000000000000, 0x00000000000000000000000000000000, 0x00004000000000000000000000000000)),
  ((0x00001000000000000000000000000000, 0x00000000000000000000000000000000, 0x00000000000000000000000000000000, 0x00002000000000000000000000000000),
    (0x00000000000000000000000000000000, 0x00000000000000000000000000000000, 0x00000000000000000000000000000000, 0x00002000000000000000000000000000)),
  ((0x00001000000000000000000000000000, 0x00000000000000000000000000000000, 0x00000000000000000000000000000000, 0x00001000000000000000000000000000),
    (0x00000000000000000000000000000000, 0x00000000000000000000000000000000, 0x00000000000000000000000000000000, 0x00001000000000000000000000000000)),
  ((0x00001000000000000000000000000000, 0x00000000000000000000000000000000, 0x00000000000000000000000000000000, 0x00000800000000000000000000000000),
    (0x00000000000000000000000000000000, 0x00000000000000000000000000000000, 0x00000000000000000000000000000000, 0x00000800000000000000000000000000)),
  ((0x00001000000000000000000000000000, 0x00000000000000000000000000000000, 0x00000000000000000000000000000000, 0x00000400000000000000000000000000),
    (0x00000000000000000000000000000000, 0x00000000000000000000000000000000, 0x00000000000000000000000000000000, 0x00000400000000000000000000000000)),
  ((0x00001000000000000000000000000000, 0x00000000000000000000000000000000, 0x00000000000000000000000000000000, 0x00000200000000000000000000000000),
    (0x00000000000000000000000000000000, 0x00000000000000000000000000000000, 0x00000000000000000000000000000000, 0x00000200000000000000000000000000)),
  ((0x00001000000000000000000000000000, 0x00000000000000000000000000000000, 0x00000000000000000000000000000000, 0x00000100000000000000000000000000),
    (0x00000000000000000000000000000000, 0x00000000000000000000000000000000, 0x00000000000000000000000000000000, 0x00000100000000000000000000000000)),
  ((0x00001000000000000000000000000000, 0x00000000000000000000000000000000, 0x00000000000000000000000000000000, 0x00000080000000000000000000000000),
    (0x00000000000000000000000000000000, 0x00000000000000000000000000000000, 0x00000000000000000000000000000000, 0x00000080000000000000000000000000)),
  ((0x00001000000000000000000000000000, 0x00000000000000000000000000000000, 0x00000000000000000000000000000000, 0x00000040000000000000000000000000),
    (0x00000000000000000000000000000000, 0x00000000000000000000000000000000, 0x00000000000000000000000000000000, 0x00000040000000000000000000000000)),
  ((0x00001000000000000000000000000000, 0x00000000000000000000000000000000, 0x00000000000000000000000000000000, 0x00000020000000000000000000000000),
    (0x00000000000000000000000000000000, 0x00000000000000000000000000000000, 0x00000000000000000000000000000000, 0x00000020000000000000000000000000)),
  ((0x00001000000000000000000000000000, 0x00000000000000000000000000000000, 0x00000000000000000000000000000000, 0x00000010000000000000000000000000),
    (0x00000000000000000000000000000000, 0x00000000000000000000000000000000, 0x00000000000000000000000000000000, 0x00000010000000000000000000000000)),
  ((0x00001000000000000000000000000000, 0x00000000000000000000000000000000, 0x00000000000000000000000000000000, 0x00000008000000000000000000000000),
    (0x00000000000000000000000000000000, 0x00000000000000000000000000000000, 0x00000000000000000000000000000000, 0x00000008000000000000000000000000)),
  ((0x00001000000000000000000000000000, 0x00000000000000000000000000000000, 0x00000000000000000000000000000000, 0x00000004000000000000000000000000),
    (0x00000000000000000000000000000000, 0x00000000000000000000000000000000, 0x00000000000000000000000000000000, 0x00000004000000000000000000000000)),
  ((0x00001000000000000000000000000000, 0x00000000000000000000000000000000, 0x00000000000000000000000000000000, 0x00000002000000000000000000000000),
    (0x00000000000000000000000000000000, 0x00000000000000000000000000000000, 0x00000000000000000000000000000000, 0x00000002000000000000000000000000)),
  ((0x00001000000000000000000000000000, 0x00000000000000000000000000000000, 0x00000000000000000000000000000000, 0x00000001000000000000000000000000),
    (0x00000000000000000000000000000000, 0x00000000000000000000000000000000, 0x00000000000000000000000000000000, 0x00000001000000000000000000000000)),
  ((0x00001000000000000000000000000000, 0x00000000000000000000000000000000, 0x00000000000000000000000000000000, 0x00000000800000000000000000000000),
    (0x00000000000000000000000000000000, 0x00000000000000000000000000000000, 0x00000000000000000000000000000000, 0x00000000800000000000000000000000)),
  ((0x00001000000000000000000000000000, 0x00000000000000000000000000000000, 0x00000000000000000000000000000000, 0x00000000400000000000000000000000),
    (0x00000000000000000000000000000000, 0x00000000000000000000000000000000, 0x00000000000000000000000000000000, 0x00000000400000000000000000000000)),
  ((0x00001000000000000000000000000000, 0x00000000000000000000000000000000, 0x00000000000000000000000000000000, 0x00000000200000000000000000000000),
    (0x00000000000000000000000000000000, 0x00000000000000000000000000000000, 0x00000000000000000000000000000000, 0x00000000200000000000000000000000)),
  ((0x00001000000000000000000000000000, 0x00000000000000000000000000000000, 0x00000000000000000000000000000000, 0x00000000100000000000000000000000),
    (0x00000000000000000000000000000000, 0x00000000000000000000000000000000, 0x00000000000000000000000000000000, 0x00000000100000000000000000000000)),
  ((0x00001000000000000000000000000000, 0x00000000000000000000000000000000, 0x00000000000000000000000000000000, 0x00000000080000000000000000000000),
    (0x00000000000000000000000000000000, 0x00000000000000000000000000000000, 0x00000000000000000000000000000000, 0x00000000080000000000000000000000)),
  ((0x00001000000000000000000000000000, 0x00000000000000000000000000000000, 0x00000000000000000000000000000000, 0x00000000040000000000000000000000),
    (0x00000000000000000000000000000000, 0x00000000000000000000000000000000, 0x00000000000000000000000000000000, 0x00000000040000000000000000000000)),
  ((0x00001000000000000000000000000000, 0x00000000000000000000000000000000, 0x00000000000000000000000000000000, 0x00000000020000000000000000000000),
    (0x00000000000000000000000000000000, 0x00000000000000000000000000000000, 0x00000000000000000000000000000000, 0x00000000020000000000000000000000)),
  ((0x00001000000000000000000000000000, 0x00000000000000000000000000000000, 0x00000000000000000000000000000000, 0x00000000010000000000000000000000),
    (0x00000000000000000000000000000000, 0x00000000000000000000000000000000, 0x00000000000000000000000000000000, 0x00000000010000000000000000000000)),
  ((0x00001000000000000000000000000000, 0x00000000000000000000000000000000, 0x00000000000000000000000000000000, 0x00000000008000000000000000000000),
    (0x00000000000000000000000000000000, 0x00000000000000000000000000000000, 0x00000000000000000000000000000000, 0x00000000008000000000000000000000)),
  ((0x00001000000000000000000000000000, 0x00000000000000000000000000000000, 0x00000000000000000000000000000000, 0x00000000004000000000000000000000),
    (0x00000000000000000000000000000000, 0x00000000000000000000000000000000, 0x00000000000000000000000000000000, 0x00000000004000000000000000000000)),
  ((0x00001000000000000000000000000000, 0x00000000000000000000000000000000, 0x00000000000000000000000000000000, 0x00000000002000000000000000000000),
    (0x00000000000000000000000000000000, 0x00000000000000000000000000000000, 0x00000000000000000000000000000000, 0x00000000002000000000000000000000)),
  ((0x00001000000000000000000000000000, 0x00000000000000000000000000000000, 0x00000000000000000000000000000000, 0x00000000001000000000000000000000),
    (0x00000000000000000000000000000000, 0x00000000000000000000000000000000, 0x00000000000000000000000000000000, 0x00000000001000000000000000000000)),
  ((0x00001000000000000000000000000000, 0x00000000000000000000000000000000, 0x00000000000000000000000000000000, 0x00000000000800000000000000000000),
    (0x00000000000000000000000000000000, 0x00000000000000000000000000000000, 0x00000000000000000000000000000000, 0x00000000000800000000000000000000)),
  ((0x00001000000000000000000000000000, 0x00000000000000000000000000000000, 0x00000000000000000000000000000000, 0x00000000000400000000000000000000),
    (0x00000000000000000000000000000000, 0x00000000000000000000000000000000, 0x00000000000000000000000000000000, 0x00000000000400000000000000000000)),
  ((0x00001000000000000000000000000000, 0x00000000000000000000000000000000, 0x00000000000000000000000000000000, 0x00000000000200000000000000000000),
    (0x00000000000000000000000000000000, 0x00000000000000000000000000000000, 0x00000000000000000000000000000000, 0x00000000000200000000000000000000)),
  ((0x00001000000000000000000000000000, 0x00000000000000000000000000000000, 0x00000000000000000000000000000000, 0x00000000000100000000000000000000),
    (0x00000000000000000000000000000000, 0x00000000000000000000000000000000, 0x00000000000000000000000000000000, 0x00000000000100000000000000000000)),
  ((0x00001000000000000000000000000000, 0x00000000000000000000000000000000, 0x00000000000000000000000000000000, 0x00000000000080000000000000000000),
    (0x00000000000000000000000000000000, 0x00000000000000000000000000000000, 0x00000000000000000000000000000000, 0x00000000000080000000000000000000)),
  ((0x00001000000000000000000000000000, 0x00000000000000000000000000000000, 0x00000000000000000000000000000000, 0x00000000000040000000000000000000),
    (0x00000000000000000000000000000000, 0x00000000000000000000000000000000, 0x00000000000000000000000000000000, 0x00000000000040000000000000000000)),
  ((0x00001000000000000000000000000000, 0x00000000000000000000000000000000, 0x00000000000000000000000000000000, 0x00000000000020000000000000000000),
    (0x00000000000000000000000000000000, 0x00000000000000000000000000000000, 0x00000000000000000000000000000000, 0x00000000000020000000000000000000)),
  ((0x00001000000000000000000000000000, 0x00000000000000000000000000000000, 0x00000000000000000000000000000000, 0x00000000000010000000000000000000),
    (0x00000000000000000000000000000000, 0x00000000000000000000000000000000, 0x00000000000000000000000000000000, 0x00000000000010000000000000000000)),
  ((0x00001000000000000000000000000000, 0x00000000000000000000000000000000, 0x00000000000000000000000000000000, 0x00000000000008000000000000000000),
    (0x00000000000000000000000000000000, 0x00000000000000000000000000000000, 0x00000000000000000000000000000000, 0x00000000000008000000000000000000)),
  ((0x00001000000000000000000000000000, 0x00000000000000000000000000000000, 0x00000000000000000000000000000000, 0x00000000000004000000000000000000),
    (0x00000000000000000000000000000000, 0x00000000000000000000000000000000, 0x00000000000000000000000000000000, 0x00000000000004000000000000000000)),
  ((0x00001000000000000000000000000000, 0x00000000000000000000000000000000, 0x00000000000000000000000000000000, 0x00000000000002000000000000000000),
    (0x00000000000000000000000000000000, 0x00000000000000000000000000000000, 0x00000000000000000000000000000000, 0x00000000000002000000000000000000)),
  ((0x00001000000000000000000000000000, 0x00000000000000000000000000000000, 0x00000000000000000000000000000000, 0x00000000000001000000000000000000),
    (0x00000000000000000000000000000000, 0x00000000000000000000000000000000, 0x00000000000000000000000000000000, 0x00000000000001000000000000000000)),
  ((0x00001000000000000000000000000000, 0x00000000000000000000000000000000, 0x00000000000000000000000000000000, 0x00000000000000800000000000000000),
    (0x00000000000000000000000000000000, 0x00000000000000000000000000000000, 0x00000000000000000000000000000000, 0x00000000000000800000000000000000)),
  ((0x00001000000000000000000000000000, 0x00000000000000000000000000000000, 0x00000000000000000000000000000000, 0x00000000000000400000000000000000),
    (0x00000000000000000000000000000000, 0x00000000000000000000000000000000, 0x00000000000000000000000000000000, 0x00000000000000400000000000000000)),
  ((0x00001000000000000000000000000000, 0x00000000000000000000000000000000, 0x00000000000000000000000000000000, 0x00000000000000200000000000000000),
    (0x00000000000000000000000000000000, 0x00000000000000000000000000000000, 0x00000000000000000000000000000000, 0x00000000000000200000000000000000)),
  ((0x00001000000000000000000000000000, 0x00000000000000000000000000000000, 0x00000000000000000000000000000000, 0x00000000000000100000000000000000),
    (0x00000000000000000000000000000000, 0x00000000000000000000000000000000, 0x00000000000000000000000000000000, 0x00000000000000100000000000000000)),
  ((0x00001000000000000000000000000000, 0x00000000000000000000000000000000, 0x00000000000000000000000000000000, 0x00000000000000080000000000000000),
    (0x00000000000000000000000000000000, 0x00000000000000000000000000000000, 0x00000000000000000000000000000000, 0x00000000000000080000000000000000)),
  ((0x00001000000000000000000000000000, 0x00000000000000000000000000000000, 0x00000000000000000000000000000000, 0x00000000000000040000000000000000),
    (0x00000000000000000000000000000000, 0x00000000000000000000000000000000, 0x00000000000000000000000000000000, 0x00000000000000040000000000000000)),
  ((0x00001000000000000000000000000000, 0x00000000000000000000000000000000, 0x00000000000000000000000000000000, 0x00000000000000020000000000000000),
    (0x00000000000000000000000000000000, 0x00000000000000000000000000000000, 0x00000000000000000000000000000000, 0x00000000000000020000000000000000)),
  ((0x00001000000000000000000000000000, 0x00000000000000000000000000000000, 0x00000000000000000000000000000000, 0x00000000000000010000000000000000),
    (0x00000000000000000000000000000000, 0x00000000000000000000000000000000, 0x00000000000000000000000000000000, 0x00000000000000010000000000000000)),
  ((0x00001000000000000000000000000000, 0x00000000000000000000000000000000, 0x00000000000000000000000000000000, 0x00000000000000008000000000000000),
    (0x00000000000000000000000000000000, 0x00000000000000000000000000000000, 0x00000000000000000000000000000000, 0x00000000000000008000000000000000)),
  ((0x00001000000000000000000000000000, 0x00000000000000000000000000000000, 0x00000000000000000000000000000000, 0x00000000000000004000000000000000),
    (0x00000000000000000000000000000000, 0x00000000000000000000000000000000, 0x00000000000000000000000000000000, 0x00000000000000004000000000000000)),
  ((0x00001000000000000000000000000000, 0x00000000000000000000000000000000, 0x00000000000000000000000000000000, 0x00000000000000002000000000000000),
    (0x00000000000000000000000000000000, 0x00000000000000000000000000000000, 0x00000000000000000000000000000000, 0x00000000000000002000000000000000)),
  ((0x00001000000000000000000000000000, 0x00000000000000000000000000000000, 0x00000000000000000000000000000000, 0x00000000000000001000000000000000),
    (0x00000000000000000000000000000000, 0x00000000000000000000000000000000, 0x00000000000000000000000000000000, 0x00000000000000001000000000000000)),
  ((0x00001000000000000000000000000000, 0x00000000000000000000000000000000, 0x00000000000000000000000000000000, 0x00000000000000000800000000000000),
    (0x00000000000000000000000000000000, 0x00000000000000000000000000000000, 0x00000000000000000000000000000000, 0x00000000000000000800000000000000)),
  ((0x00001000000000000000000000000000, 0x00000000000000000000000000000000, 0x00000000000000000000000000000000, 0x00000000000000000400000000000000),
    (0x00000000000000000000000000000000, 0x00000000000000000000000000000000, 0x00000000000000000000000000000000, 0x00000000000000000400000000000000)),
  ((0x00001000000000000000000000000000, 0x00000000000000000000000000000000, 0x00000000000000000000000000000000, 0x00000000000000000200000000000000),
    (0x00000000000000000000000000000000, 0x00000000000000000000000000000000, 0x00000000000000000000000000000000, 0x00000000000000000200000000000000)),
  ((0x00001000000000000000000000000000, 0x00000000000000000000000000000000, 0x00000000000000000000000000000000, 0x00000000000000000100000000000000),
    (0x00000000000000000000000000000000, 0x00000000000000000000000000000000, 0x00000000000000000000000000000000, 0x00000000000000000100000000000000)),
  ((0x00001000000000000000000000000000, 0x00000000000000000000000000000000, 0x00000000000000000000000000000000, 0x00000000000000000080000000000000),
    (0x00000000000000000000000000000000, 0x00000000000000000000000000000000, 0x00000000000000000000000000000000, 0x00000000000000000080000000000000)),
  ((0x00001000000000000000000000000000, 0x00000000000000000000000000000000, 0x00000000000000000000000000000000, 0x00000000000000000040000000000000),
    (0x00000000000000000000000000000000, 0x00000000000000000000000000000000, 0x00000000000000000000000000000000, 0x00000000000000000040000000000000)),
  ((0x00001000000000000000000000000000, 0x00000000000000000000000000000000, 0x00000000000000000000000000000000, 0x00000000000000000020000000000000),
    (0x00000000000000000000000000000000, 0x00000000000000000000000000000000, 0x00000000000000000000000000000000, 0x00000000000000000020000000000000)),
  ((0x00001000000000000000000000000000, 0x00000000000000000000000000000000, 0x00000000000000000000000000000000, 0x00000000000000000010000000000000),
    (0x00000000000000000000000000000000, 0x00000000000000000000000000000000, 0x00000000000000000000000000000000, 0x00000000000000000010000000000000)),
  ((0x00001000000000000000000000000000, 0x00000000000000000000000000000000, 0x00000000000000000000000000000000, 0x00000000000000000008000000000000),
    (0x00000000000000000000000000000000, 0x00000000000000000000000000000000, 0x00000000000000000000000000000000, 0x00000000000000000008000000000000)),
  ((0x00001000000000000000000000000000, 0x00000000000000000000000000000000, 0x00000000000000000000000000000000, 0x00000000000000000004000000000000),
    (0x00000000000000000000000000000000, 0x00000000000000000000000000000000, 0x00000000000000000000000000000000, 0x00000000000000000004000000000000)),
  ((0x00001000000000000000000000000000, 0x00000000000000000000000000000000, 0x00000000000000000000000000000000, 0x00000000000000000002000000000000),
    (0x00000000000000000000000000000000, 0x00000000000000000000000000000000, 0x00000000000000000000000000000000, 0x00000000000000000002000000000000)),
  ((0x00001000000000000000000000000000, 0x00000000000000000000000000000000, 0x00000000000000000000000000000000, 0x00000000000000000001000000000000),
    (0x00000000000000000000000000000000, 0x00000000000000000000000000000000, 0x00000000000000000000000000000000, 0x00000000000000000001000000000000)),
  ((0x00001000000000000000000000000000, 0x00000000000000000000000000000000, 0x00000000000000000000000000000000, 0x00000000000000000000800000000000),
    (0x00000000000000000000000000000000, 0x00000000000000000000000000000000, 0x00000000000000000000000000000000, 0x00000000000000000000800000000000)),
  ((0x00001000000000000000000000000000, 0x00000000000000000000000000000000, 0x00000000000000000000000000000000, 0x00000000000000000000400000000000),
    (0x00000000000000000000000000000000, 0x00000000000000000000000000000000, 0x00000000000000000000000000000000, 0x00000000000000000000400000000000)),
  ((0x00001000000000000000000000000000, 0x00000000000000000000000000000000, 0x00000000000000000000000000000000, 0x00000000000000000000200000000000),
    (0x00000000000000000000000000000000, 0x00000000000000000000000000000000, 0x00000000000000000000000000000000, 0x00000000000000000000200000000000)),
  ((0x00001000000000000000000000000000, 0x00000000000000000000000000000000, 0x00000000000000000000000000000000, 0x00000000000000000000100000000000),
    (0x00000000000000000000000000000000, 0x00000000000000000000000000000000, 0x00000000000000000000000000000000, 0x00000000000000000000100000000000)),
  ((0x00001000000000000000000000000000, 0x00000000000000000000000000000000, 0x00000000000000000000000000000000, 0x00000000000000000000080000000000),
    (0x00000000000000000000000000000000, 0x00000000000000000000000000000000, 0x00000000000000000000000000000000, 0x00000000000000000000080000000000)),
  ((0x00001000000000000000000000000000, 0x00000000000000000000000000000000, 0x00000000000000000000000000000000, 0x00000000000000000000040000000000),
    (0x00000000000000000000000000000000, 0x00000000000000000000000000000000, 0x00000000000000000000000000000000, 0x00000000000000000000040000000000)),
  ((0x00001000000000000000000000000000, 0x00000000000000000000000000000000, 0x00000000000000000000000000000000, 0x00000000000000000000020000000000),
    (0x00000000000000000000000000000000, 0x00000000000000000000000000000000, 0x00000000000000000000000000000000, 0x00000000000000000000020000000000)),
  ((0x00001000000000000000000000000000, 0x00000000000000000000000000000000, 0x00000000000000000000000000000000, 0x00000000000000000000010000000000),
    (0x00000000000000000000000000000000, 0x00000000000000000000000000000000, 0x00000000000000000000000000000000, 0x00000000000000000000010000000000)),
  ((0x00001000000000000000000000000000, 0x00000000000000000000000000000000, 0x00000000000000000000000000000000, 0x00000000000000000000008000000000),
    (0x00000000000000000000000000000000, 0x00000000000000000000000000000000, 0x00000000000000000000000000000000, 0x00000000000000000000008000000000)),
  ((0x00001000000000000000000000000000, 0x00000000000000000000000000000000, 0x00000000000000000000000000000000, 0x00000000000000000000004000000000),
    (0x00000000000000000000000000000000, 0x00000000000000000000000000000000, 0x00000000000000000000000000000000, 0x00000000000000000000004000000000)),
  ((0x00001000000000000000000000000000, 0x00000000000000000000000000000000, 0x00000000000000000000000000000000, 0x00000000000000000000002000000000),
    (0x00000000000000000000000000000000, 0x00000000000000000000000000000000, 0x00000000000000000000000000000000, 0x00000000000000000000002000000000)),
  ((0x00001000000000000000000000000000, 0x00000000000000000000000000000000, 0x00000000000000000000000000000000, 0x00000000000000000000001000000000),
    (0x00000000000000000000000000000000, 0x00000000000000000000000000000000, 0x00000000000000000000000000000000, 0x00000000000000000000001000000000)),
  ((0x00001000000000000000000000000000, 0x00000000000000000000000000000000, 0x00000000000000000000000000000000, 0x00000000000000000000000800000000),
    (0x00000000000000000000000000000000, 0x00000000000000000000000000000000, 0x00000000000000000000000000000000, 0x00000000000000000000000800000000)),
  ((0x00001000000000000000000000000000, 0x00000000000000000000000000000000, 0x00000000000000000000000000000000, 0x00000000000000000000000400000000),
    (0x00000000000000000000000000000000, 0x00000000000000000000000000000000, 0x00000000000000000000000000000000, 0x00000000000000000000000400000000)),
  ((0x00001000000000000000000000000000, 0x00000000000000000000000000000000, 0x00000000000000000000000000000000, 0x00000000000000000000000200000000),
    (0x00000000000000000000000000000000, 0x00000000000000000000000000000000, 0x00000000000000000000000000000000, 0x00000000000000000000000200000000)),
  ((0x00001000000000000000000000000000, 0x00000000000000000000000000000000, 0x00000000000000000000000000000000, 0x00000000000000000000000100000000),
    (0x00000000000000000000000000000000, 0x00000000000000000000000000000000, 0x00000000000000000000000000000000, 0x00000000000000000000000100000000)),
  ((0x00001000000000000000000000000000, 0x00000000000000000000000000000000, 0x00000000000000000000000000000000, 0x00000000000000000000000080000000),
    (0x00000000000000000000000000000000, 0x00000000000000000000000000000000, 0x00000000000000000000000000000000, 0x00000000000000000000000080000000)),
  ((0x00001000000000000000000000000000, 0x00000000000000000000000000000000, 0x00000000000000000000000000000000, 0x00000000000000000000000040000000),
    (0x00000000000000000000000000000000, 0x00000000000000000000000000000000, 0x00000000000000000000000000000000, 0x00000000000000000000000040000000)),
  ((0x00001000000000000000000000000000, 0x00000000000000000000000000000000, 0x00000000000000000000000000000000, 0x00000000000000000000000020000000),
    (0x00000000000000000000000000000000, 0x00000000000000000000000000000000, 0x00000000000000000000000000000000, 0x00000000000000000000000020000000)),
  ((0x00001000000000000000000000000000, 0x00000000000000000000000000000000, 0x00000000000000000000000000000000, 0x00000000000000000000000010000000),
    (0x00000000000000000000000000000000, 0x00000000000000000000000000000000, 0x00000000000000000000000000000000, 0x00000000000000000000000010000000)),
  ((0x00001000000000000000000000000000, 0x00000000000000000000000000000000, 0x00000000000000000000000000000000, 0x00000000000000000000000008000000),
    (0x00000000000000000000000000000000, 0x00000000000000000000000000000000, 0x00000000000000000000000000000000, 0x00000000000000000000000008000000)),
  ((0x00001000000000000000000000000000, 0x00000000000000000000000000000000, 0x00000000000000000000000000000000, 0x00000000000000000000000004000000),
    (0x00000000000000000000000000000000, 0x00000000000000000000000000000000, 0x00000000000000000000000000000000, 0x00000000000000000000000004000000)),
  ((0x00001000000000000000000000000000, 0x00000000000000000000000000000000, 0x00000000000000000000000000000000, 0x00000000000000000000000002000000),
    (0x00000000000000000000000000000000, 0x00000000000000000000000000000000, 0x00000000000000000000000000000000, 0x00000000000000000000000002000000)),
  ((0x00001000000000000000000000000000, 0x00000000000000000000000000000000, 0x00000000000000000000000000000000, 0x00000000000000000000000001000000),
    (0x00000000000000000000000000000000, 0x00000000000000000000000000000000, 0x00000000000000000000000000000000, 0x00000000000000000000000001000000)),
  ((0x00001000000000000000000000000000, 0x00000000000000000000000000000000, 0x00000000000000000000000000000000, 0x00000000000000000000000000800000),
    (0x00000000000000000000000000000000, 0x00000000000000000000000000000000, 0x00000000000000000000000000000000, 0x00000000000000000000000000800000)),
  ((0x00001000000000000000000000000000, 0x00000000000000000000000000000000, 0x00000000000000000000000000000000, 0x00000000000000000000000000400000),
    (0x00000000000000000000000000000000, 0x00000000000000000000000000000000, 0x00000000000000000000000000000000, 0x00000000000000000000000000400000)),
  ((0x00001000000000000000000000000000, 0x00000000000000000000000000000000, 0x00000000000000000000000000000000, 0x00000000000000000000000000200000),
    (0x00000000000000000000000000000000, 0x00000000000000000000000000000000, 0x00000000000000000000000000000000, 0x00000000000000000000000000200000)),
  ((0x00001000000000000000000000000000, 0x00000000000000000000000000000000, 0x00000000000000000000000000000000, 0x00000000000000000000000000100000),
    (0x00000000000000000000000000000000, 0x00000000000000000000000000000000, 0x00000000000000000000000000000000, 0x00000000000000000000000000100000)),
  ((0x00001000000000000000000000000000, 0x00000000000000000000000000000000, 0x00000000000000000000000000000000, 0x00000000000000000000000000080000),
    (0x00000000000000000000000000000000, 0x00000000000000000000000000000000, 0x00000000000000000000000000000000, 0x00000000000000000000000000080000)),
  ((0x00001000000000000000000000000000, 0x00000000000000000000000000000000, 0x00000000000000000000000000000000, 0x00000000000000000000000000040000),
    (0x00000000000000000000000000000000, 0x00000000000000000000000000000000, 0x00000000000000000000000000000000, 0x00000000000000000000000000040000)),
  ((0x00001000000000000000000000000000, 0x00000000000000000000000000000000, 0x00000000000000000000000000000000, 0x00000000000000000000000000020000),
    (0x00000000000000000000000000000000, 0x00000000000000000000000000000000, 0x00000000000000000000000000000000, 0x00000000000000000000000000020000)),
  ((0x00001000000000000000000000000000, 0x00000000000000000000000000000000, 0x00000000000000000000000000000000, 0x00000000000000000000000000010000),
    (0x00000000000000000000000000000000, 0x00000000000000000000000000000000, 0x00000000000000000000000000000000, 0x00000000000000000000000000010000)),
  ((0x00001000000000000000000000000000, 0x00000000000000000000000000000000, 0x00000000000000000000000000000000, 0x00000000000000000000000000008000),
    (0x00000000000000000000000000000000, 0x00000000000000000000000000000000, 0x00000000000000000000000000000000, 0x00000000000000000000000000008000)),
  ((0x00001000000000000000000000000000, 0x00000000000000000000000000000000, 0x00000000000000000000000000000000, 0x00000000000000000000000000004000),
    (0x00000000000000000000000000000000, 0x00000000000000000000000000000000, 0x00000000000000000000000000000000, 0x00000000000000000000000000004000)),
  ((0x00001000000000000000000000000000, 0x00000000000000000000000000000000, 0x00000000000000000000000000000000, 0x00000000000000000000000000002000),
    (0x00000000000000000000000000000000, 0x00000000000000000000000000000000, 0x00000000000000000000000000000000, 0x00000000000000000000000000002000)),
  ((0x00001000000000000000000000000000, 0x00000000000000000000000000000000, 0x00000000000000000000000000000000, 0x00000000000000000000000000001000),
    (0x00000000000000000000000000000000, 0x00000000000000000000000000000000, 0x00000000000000000000000000000000, 0x00000000000000000000000000001000)),
  ((0x00001000000000000000000000000000, 0x00000000000000000000000000000000, 0x00000000000000000000000000000000, 0x00000000000000000000000000000800),
    (0x00000000000000000000000000000000, 0x00000000000000000000000000000000, 0x00000000000000000000000000000000, 0x00000000000000000000000000000800)),
  ((0x00001000000000000000000000000000, 0x00000000000000000000000000000000, 0x00000000000000000000000000000000, 0x00000000000000000000000000000400),
    (0x00000000000000000000000000000000, 0x00000000000000000000000000000000, 0x00000000000000000000000000000000, 0x00000000000000000000000000000400)),
  ((0x00001000000000000000000000000000, 0x00000000000000000000000000000000, 0x00000000000000000000000000000000, 0x00000000000000000000000000000200),
    (0x00000000000000000000000000000000, 0x00000000000000000000000000000000, 0x00000000000000000000000000000000, 0x00000000000000000000000000000200)),
  ((0x00001000000000000000000000000000, 0x00000000000000000000000000000000, 0x00000000000000000000000000000000, 0x00000000000000000000000000000100),
    (0x00000000000000000000000000000000, 0x00000000000000000000000000000000, 0x00000000000000000000000000000000, 0x00000000000000000000000000000100)),
  ((0x00001000000000000000000000000000, 0x00000000000000000000000000000000, 0x00000000000000000000000000000000, 0x00000000000000000000000000000080),
    (0x00000000000000000000000000000000, 0x00000000000000000000000000000000, 0x00000000000000000000000000000000, 0x00000000000000000000000000000080)),
  ((0x00001000000000000000000000000000, 0x00000000000000000000000000000000, 0x00000000000000000000000000000000, 0x00000000000000000000000000000040),
    (0x00000000000000000000000000000000, 0x00000000000000000000000000000000, 0x00000000000000000000000000000000, 0x00000000000000000000000000000040)),
  ((0x00001000000000000000000000000000, 0x00000000000000000000000000000000, 0x00000000000000000000000000000000, 0x00000000000000000000000000000020),
    (0x00000000000000000000000000000000, 0x00000000000000000000000000000000, 0x00000000000000000000000000000000, 0x00000000000000000000000000000020)),
  ((0x00001000000000000000000000000000, 0x00000000000000000000000000000000, 0x00000000000000000000000000000000, 0x00000000000000000000000000000010),
    (0x00000000000000000000000000000000, 0x00000000000000000000000000000000, 0x00000000000000000000000000000000, 0x00000000000000000000000000000010)),
  ((0x00001000000000000000000000000000, 0x00000000000000000000000000000000, 0x00000000000000000000000000000000, 0x00000000000000000000000000000008),
    (0x00000000000000000000000000000000, 0x00000000000000000000000000000000, 0x00000000000000000000000000000000, 0x00000000000000000000000000000008)),
  ((0x00001000000000000000000000000000, 0x00000000000000000000000000000000, 0x00000000000000000000000000000000, 0x00000000000000000000000000000004),
    (0x00000000000000000000000000000000, 0x00000000000000000000000000000000, 0x00000000000000000000000000000000, 0x00000000000000000000000000000004)),
  ((0x00001000000000000000000000000000, 0x00000000000000000000000000000000, 0x00000000000000000000000000000000, 0x00000000000000000000000000000002),
    (0x00000000000000000000000000000000, 0x00000000000000000000000000000000, 0x00000000000000000000000000000000, 0x00000000000000000000000000000002)),
  ((0x00001000000000000000000000000000, 0x00000000000000000000000000000000, 0x00000000000000000000000000000000, 0x00000000000000000000000000000001),
    (0x00000000000000000000000000000000, 0x00000000000000000000000000000000, 0x00000000000000000000000000000000, 0x00000000000000000000000000000001))]

/-- src/math/feynman.rs:17-7890 -/
def feynmanLut : List ((Nat × Nat × Nat × Nat) × (Nat × Nat × Nat × Nat)) :=
  feynmanLut_0 ++ feynmanLut_1 ++ feynmanLut_2 ++ feynmanLut_3

end Verif
