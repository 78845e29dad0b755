import Verif.Data.Bytes
/-
Generated by tools/gen_tables.py from client_repo.go. Do not edit.
-/
set_option maxRecDepth 10000
namespace Verif.Data

/-- `__cr_idx[0]`, from item 0 on (client_repo.go:14-30). -/
def crIdx0_0 : List ClientTuple := [
  cr no 8 8 0 no 0 no,
  cr no 0x80000000d 0xd00000011 0 no 0 no,
  cr no 0x1100000018 0x1100000018 0 no 0 no,
  cr 0 0 0x180000001d 0 no 0 no,
  cr 1 0 0x1d00000023 0 no 0 no,
  cr no 0x2300000029 0x2300000029 0 no 0 no,
  cr no 0x290000002f 0x290000002f 0 no 0 no,
  cr 2 0 0x2f00000035 0 no 0 no,
  cr 3 0 0x350000003a 0 no 0 no,
  cr no 0x3a0000003f 0x3a0000003f 0 no 0 no,
  cr no 0x3f00000046 0x3f00000046 0 no 0 no,
  cr no 0x460000004b 0x460000004b 0 no 0 no,
  cr 4 0 0x4b00000054 0 no 0 no,
  cr no 0x5400000062 0x6200000069 0 no 0 no,
  cr 5 0 0x690000006f 0 no 0 no,
  cr no 0x6f00000076 0x760000007c 0 no 0 no,
  cr 6 0 0x7c00000081 0 no 0 no]

/-- `__cr_idx[0]` (client_repo.go). -/
def crIdx0 : List ClientTuple := crIdx0_0

/-- `__cr_idx[1]`, from item 0 on (client_repo.go:34-533). -/
def crIdx1_0 : List ClientTuple := [
  cr 7 0 0x8100000091 0 1 0 no,
  cr 8 0 0x9100000097 0 no 0 no,
  cr 9 0 0x97000000a3 0 1 0 no,
  cr 0xa 0 0xa3000000a9 0 1 0 no,
  cr 0xb 0 0xa9000000b6 0 1 0 no,
  cr 0xc 0 0xb6000000bd 0 1 0x180000001d no,
  cr 0xd 0 0xbd000000c8 0 1 0x1d00000023 no,
  cr 0xe 0 0x7c00000081 0 1 0x7c00000081 no,
  cr 0xf 0 0xc8000000d1 0 1 0x180000001d no,
  cr no 0xd1000000df 0xdf000000ef 0 no 0 no,
  cr no 0xef000000f8 0xf800000102 0 no 0 no,
  cr no 0x1020000010f 0x10f00000117 0 no 0x180000001d no,
  cr no 0x1170000011f 0x1170000011f 0 no 0 no,
  cr no 0x11f0000012d 0x12d0000013c 0 no 0x180000001d no,
  cr 0x10 0 0x13c00000140 0 1 0 no,
  cr 0x11 0 0x14000000145 0 1 0 no,
  cr 0x12 0 0x14500000150 0 1 0 no,
  cr 0x13 0 0x15000000165 0 1 0 no,
  cr 0x14 0 0x1650000016a 0 1 0 no,
  cr 0x15 0 0x16a00000171 0 1 0x1d00000023 no,
  cr 0x16 0 0x17100000175 0 1 0 no,
  cr 0x17 0 0x1750000017e 0 no 0 no,
  cr 0x18 0 0x17e00000183 0 1 0x1d00000023 no,
  cr 0x19 0 0x18300000191 0 1 0 no,
  cr 0x1a 0 0x191000001aa 0 1 0 no,
  cr 0x1b 0 0x1aa000001b6 0 1 0 no,
  cr 0x1c 0 0x1b6000001bb 0 1 0x350000003a no,
  cr 0x1d 0 0x1bb000001c4 0 1 0x1d00000023 no,
  cr 0x1e 0 0x1c4000001ca 0 1 0 no,
  cr 0x1f 0 0x1ca000001d5 0 1 0x350000003a no,
  cr 0x20 0 0x1d5000001e3 0 1 0 no,
  cr 0x21 0 0x1e3000001e6 0 1 0 no,
  cr 0x22 0 0x1e6000001f5 0 1 0x350000003a no,
  cr 0x23 0 0x1f500000201 0 1 0x1d00000023 no,
  cr 0x24 0 0x6200000069 0 1 0 no,
  cr 0x25 0 0x20100000217 0 1 0 no,
  cr 0x26 0 0x2170000021f 0 1 0x690000006f no,
  cr 0x27 0 0x21f00000223 0 1 0 no,
  cr no 0x22300000232 0x2320000023c 0 no 0 no,
  cr 0x28 0 0x23c00000243 0 1 0 no,
  cr 0x29 0 0x2430000024d 0 1 0 no,
  cr 0x2a 0 0x24d00000257 0 1 0 no,
  cr no 0x25700000267 0x26700000272 0 no 0 no,
  cr 0x2b 0 0x2720000027b 0 1 0 no,
  cr no 0x27b00000280 0x27b00000280 0 no 0 no,
  cr 0x2c 0 0x28000000283 0 1 0x2830000028d no,
  cr no 0x28d00000297 0x297000002a0 0 1 0x2f00000035 no,
  cr 0x2d 0 0x2a0000002ac 0 1 0x350000003a no,
  cr 0x2e 0 0x2ac000002b4 0 1 0x350000003a no,
  cr 0x2f 0 0x2b4000002b8 0 1 0 no,
  cr 0x30 0 0x2b8000002c4 0 1 0 no,
  cr 0x31 0 0x2c4000002d4 0 1 0 no,
  cr no 0x2d4000002e0 0x2d4000002e0 0 no 0x1100000018 no,
  cr 0x32 0 0x2e0000002e7 0 1 0 no,
  cr 0x33 0 0x2e7000002f4 0 1 0 no,
  cr 0x34 0 0x2f400000300 0 1 0 no,
  cr 0x35 0 0x30000000304 0 1 0 no,
  cr 0x36 0 0x3040000030f 0 1 0 no,
  cr 0x37 0 0x30f0000031c 0 1 0 no,
  cr no 0x31c00000328 0x31c00000328 0 no 0x1100000018 no,
  cr 0x38 0 0x3280000032d 0 1 0 no,
  cr 0x39 0 0x32d0000033a 0 1 0 no,
  cr 0x3a 0 0x33a0000034e 0 1 0 no,
  cr 0x3b 0 0x34e0000035b 0 no 0 no,
  cr 0x3c 0 0x35b00000369 0 1 0 no,
  cr 0x3d 0 0x3690000036f 0 1 0 no,
  cr 0x3e 0 0x36f00000384 0 1 0 no,
  cr 0x3f 0 0x38400000391 0 1 0 no,
  cr 0x40 0 0x391000003a4 0 1 0 no,
  cr 0x41 0 0x3a4000003a8 0 1 0x1d00000023 no,
  cr 0x42 0 0x3a8000003af 0 no 0 no,
  cr 0x43 0 0x3af000003b3 0 1 0 no,
  cr 0x44 0 0x3b3000003c9 0 1 0 no,
  cr 0x45 0 0x3c9000003ce 0 1 0 no,
  cr no 0x3ce000003d9 0x3d9000003e5 0 no 0 no,
  cr 0x46 0 0x3e5000003ee 0 1 0 no,
  cr 0x47 0 0x3ee000003f4 0 1 0 no,
  cr 0x48 0 0x3f4000003fc 0 1 0 no,
  cr 0x49 0 0x3fc0000040e 0 1 0x350000003a no,
  cr 0x4a 0 0x40e0000041d 0 1 0 no,
  cr 0x4b 0 0x41d0000042f 0 1 0 no,
  cr 0x4c 0 0x42f00000437 0 1 0 no,
  cr 0x4d 0 0x43700000444 0 no 0 no,
  cr 0x4e 0 0x4440000044b 0 1 0 no,
  cr 0x4f 0 0x44b00000456 0 1 0x180000001d no,
  cr 0x50 0 0x45600000467 0 1 0 no,
  cr 0x51 0 0x46700000476 0 1 0 no,
  cr 0x52 0 0x4760000047a 0 1 0x180000001d no,
  cr 0x53 0 0x47a00000484 0 no 0x180000001d no,
  cr 0x54 0 0x4840000048b 0 no 0x180000001d no,
  cr 0x55 0 0x48b00000495 0 no 0x180000001d no,
  cr 0x56 0 0x495000004a2 0 no 0x180000001d no,
  cr 0x57 0 0x4a2000004af 0 no 0x1d00000023 no,
  cr no 0x4af000004b4 0x4b4000004b8 0 no 0 no,
  cr 0x58 0 0x4b8000004bd 0 1 0 no,
  cr 0x59 0 0x4bd000004c3 0 1 0 no,
  cr 0x5a 0 0x4c3000004d9 0 1 0x180000001d no,
  cr 0x5b 0 0x4d9000004e3 0 1 0x1d00000023 no,
  cr 0x5c 0 0x4e3000004ee 0 1 0x1d00000023 no,
  cr 0x5d 0 0x4ee000004fa 0 1 0x180000001d no,
  cr 0x5e 0 0x4fa00000506 0 1 0x180000001d no,
  cr 0x5f 0 0x5060000050a 0 1 0x180000001d no,
  cr 0x60 0 0x50a00000520 0 1 0x180000001d no,
  cr 0x61 0 0x5200000052b 0 1 0x180000001d no,
  cr 0x62 0 0x52b00000536 0 no 0x180000001d no,
  cr 0x63 0 0x5360000053a 0 1 0x180000001d no,
  cr no 0x53a00000548 0x54800000557 0 no 0 no,
  cr 0x64 0 0x55700000567 0 1 0 no,
  cr 0x65 0 0x56700000573 0 2 0x180000001d no,
  cr no 0x57300000579 0x5790000057f 0 no 0x180000001d no,
  cr 0x66 0 0x57f00000588 0 2 0x180000001d no,
  cr 0x67 0 0x58800000595 0 1 0x180000001d no,
  cr 0x68 0 0x595000005a3 0 1 0x1d00000023 0,
  cr 0x69 0 0x595000005a3 0 no 0x1d00000023 no,
  cr 0x6a 0 0x5a3000005a7 0 1 0x180000001d no,
  cr 0x6b 0 0x5a3000005a7 0 no 0x1d00000023 no,
  cr 0x6c 0 0x5a7000005b3 0 1 0x180000001d no,
  cr 0x6d 0 0x5b3000005b9 0 1 0x350000003a no,
  cr 0x6e 0 0x5b9000005c5 0 1 0x180000001d no,
  cr no 0x5c5000005cc 0x5c5000005cc 0 no 0x180000001d no,
  cr no 0x5cc000005df 0x5df000005e6 0 no 0x180000001d no,
  cr no 0x5e6000005f5 0x5df000005e6 0 no 0x1d00000023 no,
  cr 0x6f 0 0x5f500000604 0 1 0x180000001d no,
  cr 0x70 0 0x6040000060e 0 no 0 no,
  cr 0x71 0 0x60e00000618 0 1 0x180000001d no,
  cr 0x72 0 0x61800000621 0 1 0 no,
  cr 0x73 0 0x6210000062a 0 1 0x180000001d no,
  cr 0x74 0 0x6210000062a 0 1 0 no,
  cr 0x75 0 0x62a0000063f 0 1 0 no,
  cr 0x76 0 0x63f00000648 0 1 0x180000001d no,
  cr 0x77 0 0x6480000065e 0 1 0x180000001d no,
  cr 0x78 0 0x65e0000066a 0 1 0x180000001d no,
  cr 0x79 0 0x66a00000677 0 1 0x180000001d no,
  cr 0x7a 0 0x67700000685 0 1 0x180000001d no,
  cr 0x7b 0 0x6850000068f 0 1 0x180000001d no,
  cr 0x7c 0 0x68f0000069e 0 1 0x180000001d no,
  cr 0x7d 0 0x69e000006b0 0 1 0x180000001d no,
  cr 0x7e 0 0x6b0000006be 0 1 0x180000001d no,
  cr 0x7f 0 0x6be000006c4 0 1 0x180000001d no,
  cr 0x80 0 0x6c4000006d3 0 1 0x180000001d no,
  cr 0x81 0 0x6d3000006e0 0 1 0x180000001d no,
  cr 0x82 0 0x6e0000006ee 0 1 0x180000001d no,
  cr 0x83 0 0x6ee000006f3 0 1 0x180000001d no,
  cr 0x84 0 0x6f3000006ff 0 1 0x180000001d no,
  cr 0x85 0 0x6ff00000707 0 1 0x180000001d no,
  cr 0x86 0 0x70700000710 0 1 0x180000001d no,
  cr 0x87 0 0x71000000715 0 1 0x180000001d no,
  cr 0x88 0 0x71500000721 0 1 0x180000001d no,
  cr 0x89 0 0x72100000727 0 1 0x350000003a no,
  cr 0x8a 0 0x72700000730 0 1 0x180000001d no,
  cr 0x8b 0 0x73000000736 0 1 0x1d00000023 no,
  cr 0x8c 0 0x7360000073c 0 1 0x180000001d no,
  cr 0x8d 0 0x73c00000749 0 1 0x1d00000023 1,
  cr 0x8e 0 0x74900000750 0 1 0x180000001d no,
  cr 0x8f 0 0x7500000075a 0 1 0x180000001d no,
  cr 0x90 0 0x75a00000760 0 1 0x350000003a no,
  cr 0x91 0 0x7600000076b 0 1 0x180000001d no,
  cr 0x92 0 0x76b00000776 0 1 0x180000001d no,
  cr 0x93 0 0x77600000786 0 1 0x180000001d no,
  cr 0x94 0 0x78600000790 0 1 0 no,
  cr 0x95 0 0x79000000797 0 1 0 no,
  cr 0x96 0 0x797000007a1 0 1 0x180000001d no,
  cr 0x97 0 0x7a1000007ac 0 1 0x180000001d no,
  cr 0x98 0 0x7a1000007ac 0 1 0 no,
  cr 0x99 0 0x7ac000007b1 0 1 0x180000001d no,
  cr 0x9a 0 0x7b1000007bc 0 1 0x350000003a no,
  cr 0x9b 0 0x7bc000007c5 0 1 0x180000001d no,
  cr 0x9c 0 0x7bc000007c5 0 1 0 no,
  cr 0x9d 0 0x7c5000007d6 0 1 0x180000001d no,
  cr 0x9e 0 0x7d6000007ea 0 1 0x180000001d no,
  cr 0x9f 0 0x7ea000007f7 0 1 0x180000001d no,
  cr 0xa0 0 0x7f700000804 0 1 0x180000001d no,
  cr 0xa1 0 0x7f700000804 0 1 0 no,
  cr 0xa2 0 0x80400000809 0 1 0x180000001d no,
  cr 0xa3 0 0x80400000809 0 1 0 no,
  cr 0xa4 0 0x80900000817 0 1 0x180000001d no,
  cr 0xa5 0 0x81700000820 0 1 0x180000001d no,
  cr 0xa6 0 0x82000000824 0 1 0 no,
  cr 0xa7 0 0x82400000830 0 no 0x180000001d no,
  cr 0xa8 0 0x83000000834 0 1 0x4b00000054 no,
  cr 0xa9 0 0x83000000834 0 1 0x4b00000054 no,
  cr 0xaa 0 0x8340000083a 0 1 0x1d00000023 no,
  cr 0xab 0 0x83a00000840 0 1 0 no,
  cr 0xac 0 0x8400000084f 0 1 0x1d00000023 no,
  cr 0xad 0 0x84f0000085e 0 1 0 no,
  cr 0xae 0 0x85e00000862 0 1 0 no,
  cr 0xaf 0 0x86200000869 0 1 0x1d00000023 no,
  cr 0xb0 0 0x86900000879 0 1 0 no,
  cr 0xb1 0 0x87900000881 0 1 0x180000001d no,
  cr 0xb2 0 0x88100000885 0 1 0x180000001d no,
  cr 0xb3 0 0x8850000088e 0 1 0x180000001d no,
  cr 0xb4 0 0x6040000060e 0 1 0x180000001d no,
  cr 0xb5 0 0x88e0000089e 0 1 0x180000001d no,
  cr 0xb6 0 0x89e000008a3 0 1 0x180000001d no,
  cr 0xb7 0 0x89e000008a3 0 1 0 no,
  cr 0xb8 0 0x8a3000008b1 0 1 0 no,
  cr 0xb9 0 0x8b1000008be 0 1 0x180000001d no,
  cr 0xba 0 0x8be000008cb 0 1 0x180000001d no,
  cr 0xbb 0 0x8cb000008d7 0 1 0 no,
  cr 0xbc 0 0x8d7000008e1 0 1 0x180000001d no,
  cr 0xbd 0 0x8e1000008ea 0 1 0x180000001d no,
  cr 0xbe 0 0x8ea000008fe 0 1 0x180000001d no,
  cr 0xbf 0 0x8ea000008fe 0 1 0 no,
  cr no 0x8fe00000905 0x8fe00000905 0 no 0 no,
  cr 0xc0 0 0x9050000090c 0 1 0x180000001d no,
  cr 0xc1 0 0x90c00000917 0 1 0x180000001d no,
  cr 0xc2 0 0x91700000929 0 1 0 no,
  cr 0xc3 0 0x92900000935 0 1 0x180000001d no,
  cr 0xc4 0 0x93500000944 0 1 0 no,
  cr 0xc5 0 0x9440000094f 0 1 0 no,
  cr 0xc6 0 0x94f00000967 0 1 0 no,
  cr no 0x9670000096c 0x9670000096c 0 no 0 no,
  cr 0xc7 0 0x96c00000979 0 1 0x350000003a no,
  cr 0xc8 0 0x96c00000979 0 1 0 no,
  cr 0xc9 0 0x9790000098a 0 1 0 no,
  cr 0xca 0 0x98a00000991 0 1 0 no,
  cr 0xcb 0 0x99100000996 0 1 0 no,
  cr 0xcc 0 0x9960000099e 0 1 0 no,
  cr 0xcd 0 0x99e000009a4 0 1 0 no,
  cr 0xce 0 0x9a4000009b8 0 1 0 no,
  cr 0xcf 0 0x9b8000009c6 0 1 0 no,
  cr 0xd0 0 0x9c6000009cf 0 1 0x180000001d no,
  cr 0xd1 0 0x9c6000009cf 0 1 0 no,
  cr 0xd2 0 0x9cf000009d7 0 1 0 no,
  cr 0xd3 0 0x9d7000009e4 0 1 0 no,
  cr 0xd4 0 0x9e4000009e9 0 1 0 no,
  cr 0xd5 0 0x9e9000009f6 0 1 0 no,
  cr 0xd6 0 0x9f6000009fc 0 1 0x1d00000023 2,
  cr 0xd7 0 0x9fc00000a0b 0 1 0 no,
  cr 0xd8 0 0xa0b00000a17 0 1 0x1100000018 no,
  cr 0xd9 0 0xa1700000a22 0 1 0 no,
  cr 0xda 0 0xa2200000a32 0 1 0 no,
  cr 0xdb 0 0xa3200000a37 0 1 0 no,
  cr 0xdc 0 0xa3700000a4c 0 1 0 no,
  cr 0xdd 0 0xa4c00000a57 0 1 0 no,
  cr 0xde 0 0xa5700000a5b 0 1 0x180000001d no,
  cr 0xdf 0 0xa5b00000a61 0 1 0 no,
  cr 0xe0 0 0xa6100000a70 0 no 0 no,
  cr 0xe1 0 0xa7000000a82 0 1 0x1d00000023 3,
  cr 0xe2 0 0xa7000000a82 0 1 0x180000001d no,
  cr 0xe3 0 0xa8200000a98 0 1 0 no,
  cr 0xe4 0 0xa9800000aa7 0 1 0 no,
  cr 0xe5 0 0xaa700000ab4 0 1 0x180000001d no,
  cr 0xe6 0 0xab400000abd 0 1 0 no,
  cr 0xe7 0 0xabd00000ac5 0 1 0x1d00000023 4,
  cr 0xe8 0 0xac500000ad7 0 1 0x180000001d no,
  cr 0xe9 0 0xad700000ae2 0 1 0 no,
  cr 0xea 0 0xae200000aef 0 1 0 no,
  cr 0xeb 0 0xaef00000af5 0 1 0 no,
  cr 0xec 0 0xaf500000afa 0 1 0 no,
  cr 0xed 0 0xafa00000b02 0 1 0 no,
  cr 0xee 0 0xb0200000b0b 0 1 0 no,
  cr 0xef 0 0xb0b00000b11 0 1 0 no,
  cr 0xf0 0 0xb1100000b26 0 1 0 no,
  cr no 0xb2600000b38 0xb2600000b38 0 no 0 no,
  cr 0xf1 0 0xb3800000b3d 0 1 0 no,
  cr 0xf2 0 0xb3d00000b45 0 1 0x1d00000023 5,
  cr 0xf3 0 0xb4500000b51 0 1 0 no,
  cr 0xf4 0 0xb5100000b57 0 1 0 no,
  cr 0xf5 0 0xb5700000b64 0 1 0 no,
  cr 0xf6 0 0xb6400000b6f 0 1 0 no,
  cr 0xf7 0 0xb6f00000b75 0 1 0 no,
  cr 0xf8 0 0xb7500000b87 0 1 0x180000001d no,
  cr 0xf9 0 0xb8700000b99 0 1 0x180000001d no,
  cr 0xfa 0 0xb9900000b9e 0 1 0x180000001d no,
  cr 0xfb 0 0xb9e00000ba9 0 1 0x180000001d no,
  cr 0xfc 0 0xba900000bb1 0 1 0x290000002f no,
  cr 0xfd 0 0xbb100000bc0 0 1 0x180000001d no,
  cr 0xfe 0 0xbc000000bc9 0 1 0x180000001d no,
  cr 0xff 0 0xbc900000bd7 0 1 0x180000001d no,
  cr 0x100 0 0xbd700000be0 0 1 0x180000001d no,
  cr 0x101 0 0xbe000000bee 0 1 0x180000001d no,
  cr 0x102 0 0xbee00000bfb 0 1 0x180000001d no,
  cr 0x103 0 0xbfb00000c03 0 1 0x180000001d no,
  cr 0x104 0 0xc0300000c0a 0 1 0x180000001d no,
  cr 0x105 0 0xc0a00000c0f 0 1 0x180000001d no,
  cr 0x106 0 0xc0f00000c16 0 1 0x180000001d no,
  cr 0x107 0 0xc1600000c2b 0 1 0x180000001d no,
  cr 0x108 0 0xc2b00000c39 0 1 0x180000001d no,
  cr 0x109 0 0xc3900000c44 0 1 0 no,
  cr 0x10a 0 0xc4400000c50 0 1 0 no,
  cr 0x10b 0 0xc5000000c5e 0 1 0 no,
  cr 0x10c 0 0xc5e00000c6c 0 1 0x180000001d no,
  cr 0x10d 0 0xc6c00000c78 0 1 0x1d00000023 no,
  cr 0x10e 0 0xc6c00000c78 0 1 0x180000001d no,
  cr 0x10f 0 0xc6c00000c78 0 1 0 no,
  cr 0x110 0 0xc6c00000c78 0 1 0x350000003a no,
  cr 0x111 0 0xc7800000c82 0 1 0x350000003a no,
  cr 0x112 0 0xc8200000c90 0 1 0x180000001d no,
  cr 0x113 0 0xc9000000c9a 0 1 0x350000003a no,
  cr 0x114 0 0xc9a00000ca8 0 1 0x1d00000023 no,
  cr 0x115 0 0xc9a00000ca8 0 1 0xd00000011 no,
  cr 0x116 0 0xc9a00000ca8 0 1 0x1d00000023 no,
  cr 0x117 0 0xc9a00000ca8 0 1 0x180000001d no,
  cr 0x118 0 0xc9a00000ca8 0 1 0x180000001d no,
  cr 0x119 0 0xca800000cbb 0 1 0x760000007c no,
  cr 0x11a 0 0xcbb00000ccd 0 1 0 no,
  cr 0x11b 0 0xcbb00000ccd 0 1 0 no,
  cr 0x11c 0 0xccd00000cde 0 1 0 no,
  cr 0x11d 0 0xcde00000cee 0 1 0 no,
  cr 0x11e 0 0xcee00000cf4 0 1 0x350000003a no,
  cr no 0xcf400000cfb 0xcf400000cfb 0 no 0x350000003a no,
  cr 0x11f 0 0xcfb00000d01 0 1 0x350000003a no,
  cr 0x120 0 0xd0100000d09 0 1 0x350000003a no,
  cr 0x121 0 0xd0900000d14 0 1 0x180000001d no,
  cr 0x122 0 0xd1400000d21 0 1 0x180000001d no,
  cr 0x123 0 0xd1400000d21 0 1 0 no,
  cr no 0xd2100000d27 0xd1400000d21 0 no 0 no,
  cr 0x124 0 0xd2700000d34 0 1 0x180000001d no,
  cr 0x125 0 0xd2700000d34 0 1 0x1d00000023 no,
  cr 0x126 0 0xd3400000d48 0 1 0x180000001d no,
  cr 0x127 0 0xd3400000d48 0 1 0x1d00000023 no,
  cr 0x128 0 0xd3400000d48 0 no 0x180000001d no,
  cr 0x129 0 0xd4800000d4c 0 1 0x350000003a no,
  cr 0x12a 0 0xd4c00000d52 0 1 0x350000003a no,
  cr 0x12b 0 0xd5200000d58 0 1 0x350000003a no,
  cr 0x12c 0 0xd5200000d58 0 1 0x350000003a no,
  cr 0x12d 0 0xd5800000d68 0 1 0 no,
  cr 0x12e 0 0xd6800000d75 0 no 0 no,
  cr 0x12f 0 0xd7500000d81 0 1 0 no,
  cr 0x130 0 0xd8100000d86 0 1 0x1d00000023 6,
  cr 0x131 0 0xd8600000d98 0 1 0 no,
  cr 0x132 0 0xd9800000da1 0 1 0 no,
  cr 0x133 0 0xda100000da6 0 1 0x180000001d no,
  cr 0x134 0 0xda100000da6 0 1 0x180000001d no,
  cr 0x135 0 0xda600000dad 0 1 0x1d00000023 7,
  cr 0x136 0 0xdad00000db6 0 1 0x350000003a no,
  cr no 0xdb600000dc1 0xdb600000dc1 0 no 0x1d00000023 no,
  cr 0x137 0 0xdc100000dca 0 1 0x290000002f no,
  cr 0x138 0 0xdc100000dca 0 1 0x350000003a no,
  cr 0x139 0 0xdca00000dd3 0 1 0x350000003a no,
  cr 0x13a 0 0xdd300000ddc 0 1 0x350000003a no,
  cr 0x13b 0 0xddc00000de1 0 1 0x350000003a 8,
  cr 0x13c 0 0xde100000df1 0 1 0 no,
  cr 0x13d 0 0xdf100000dfc 0 1 0 no,
  cr 0x13e 0 0xdfc00000e02 0 1 0x350000003a no,
  cr 0x13f 0 0xe0200000e06 0 1 0x350000003a no,
  cr 0x140 0 0xe0600000e1c 0 1 0 no,
  cr 0x141 0 0xe1c00000e25 0 1 0 no,
  cr 0x142 0 0xe2500000e38 0 1 0 no,
  cr 0x143 0 0xe3800000e42 0 1 0 no,
  cr 0x144 0 0xe4200000e4c 0 1 0x290000002f no,
  cr 0x145 0 0xe4c00000e51 0 1 0x290000002f no,
  cr 0x146 0 0xe5100000e59 0 1 0x290000002f no,
  cr 0x147 0 0xe5900000e66 0 1 0 no,
  cr 0x148 0 0xe6600000e6e 0 1 0x350000003a no,
  cr 0x149 0 0xe6e00000e76 0 1 0x350000003a no,
  cr 0x14a 0 0xe7600000e83 0 1 0 no,
  cr 0x14b 0 0xe8300000e92 0 1 0 no,
  cr 0x14c 0 0xe8300000e92 0 no 0 no,
  cr 0x14d 0 0xe8300000e92 0 1 0x180000001d no,
  cr 0x14e 0 0xe9200000ea2 0 1 0 no,
  cr 0x14f 0 0xe9200000ea2 0 no 0 no,
  cr 0x150 0 0xea200000eac 0 1 0x760000007c no,
  cr 0x151 0 0xea200000eac 0 1 0 no,
  cr 0x152 0 0xea200000eac 0 1 0 no,
  cr no 0xeac00000eba 0xea200000eac 0 no 0 no,
  cr 0x153 0 0xea200000eac 0 1 0x1d00000023 no,
  cr 0x154 0 0xea200000eac 0 1 0x180000001d no,
  cr 0x155 0 0xea200000eac 0 1 0x350000003a no,
  cr 0x156 0 0xeba00000ec8 0 1 0x460000004b no,
  cr 0x157 0 0xeba00000ec8 0 1 0x350000003a no,
  cr 0x158 0 0xec800000eda 0 1 0x1d00000023 no,
  cr 0x159 0 0xeda00000ee1 0 1 0x460000004b no,
  cr 0x15a 0 0xeda00000ee1 0 1 0x350000003a no,
  cr 0x15b 0 0xeda00000ee1 0 1 0x350000003a no,
  cr 0x15c 0 0xee100000eeb 0 1 0 no,
  cr 0x15d 0 0xeeb00000ef3 0 1 0 no,
  cr 0x15e 0 0xef300000f04 0 1 0 no,
  cr 0x15f 0 0xf0400000f0c 0 1 0x1d00000023 no,
  cr 0x160 0 0xf0c00000f1d 0 1 0 no,
  cr 0x161 0 0xf1d00000f24 0 1 0 no,
  cr 0x162 0 0xf2400000f2c 0 1 0 no,
  cr 0x163 0 0xf2c00000f34 0 1 0 no,
  cr 0x164 0 0xf3400000f3c 0 1 0 no,
  cr 0x165 0 0xf3c00000f42 0 1 0 no,
  cr 0x166 0 0xf4200000f4f 0 1 0x180000001d no,
  cr 0x167 0 0xf4f00000f54 0 1 0 no,
  cr 0x168 0 0xf4f00000f54 0 no 0 no,
  cr 0x169 0 0xf5400000f5c 0 1 0x180000001d no,
  cr 0x16a 0 0xf5400000f5c 0 1 0x1d00000023 no,
  cr 0x16b 0 0xf5400000f5c 0 no 0x1d00000023 no,
  cr 0x16c 0 0xf5c00000f68 0 1 0x2300000029 9,
  cr 0x16d 0 0xf6800000f72 0 1 0x180000001d no,
  cr 0x16e 0 0xf7200000f7f 0 1 0x180000001d no,
  cr 0x16f 0 0xf7f00000f8a 0 1 0x1d00000023 no,
  cr 0x170 0 0xf7f00000f8a 0 no 0x1d00000023 no,
  cr 0x171 0 0xf8a00000f8f 0 no 0x1d00000023 no,
  cr 0x172 0 0xf7f00000f8a 0 1 0 no,
  cr 0x173 0 0xf5c00000f68 0 1 0x2300000029 0xa,
  cr 0x174 0 0xf8f00000f99 0 1 0x2300000029 no,
  cr 0x175 0 0xf8f00000f99 0 1 0x2300000029 no,
  cr 0x176 0 0xf9900000fa7 0 1 0x1d00000023 no,
  cr 0x177 0 0xf9900000fa7 0 1 0x1d00000023 no,
  cr 0x178 0 0xfa700000fb1 0 1 0x2300000029 0xb,
  cr 0x179 0 0xfa700000fb1 0 1 0x2300000029 0xc,
  cr 0x17a 0 0xf8a00000f8f 0 1 0 0xd,
  cr 0x17b 0 0xf8a00000f8f 0 no 0x180000001d no,
  cr 0x17c 0 0xfb800000fbe 0 1 0x1d00000023 no,
  cr 0x17d 0 0xfbe00000fc6 0 1 0 no,
  cr 0x17e 0 0xfc600000fd3 0 1 0x1d00000023 0xe,
  cr 0x17f 0 0xfd300000fdd 0 1 0 no,
  cr 0x180 0 0xfdd00000fe5 0 1 0x350000003a no,
  cr 0x181 0 0xfe500000fee 0 1 0x3a0000003f 0xf,
  cr 0x182 0 0xfee00000ffb 0 1 0 no,
  cr 0x183 0 0xffb00001008 0 1 0 no,
  cr 0x184 0 0x100800001013 0 1 0 no,
  cr 0x185 0 0x101300001021 0 1 0x1d00000023 no,
  cr 0x186 0 0x101300001021 0 1 0x1d00000023 no,
  cr 0x187 0 0x102100001034 0 1 0x180000001d no,
  cr 0x188 0 0x103400001047 0 1 0x180000001d no,
  cr 0x189 0 0x101300001021 0 0 0x180000001d no,
  cr 0x18a 0 0x101300001021 0 1 0x180000001d no,
  cr 0x18b 0 0x10470000104e 0 1 0x180000001d no,
  cr 0x18c 0 0x104e00001058 0 1 0x180000001d no,
  cr 0x18d 0 0x10580000105e 0 1 0x180000001d no,
  cr 0x18e 0 0x10580000105e 0 1 0x1d00000023 no,
  cr 0x18f 0 0x105e00001065 0 1 0 no,
  cr 0x190 0 0x10650000106c 0 no 0x180000001d no,
  cr 0x191 0 0x10650000106c 0 1 0x1d00000023 0x10,
  cr 0x192 0 0x10650000106c 0 1 0 0x11,
  cr 0x193 0 0x10650000106c 0 no 0 no,
  cr 0x194 0 0x106c00001080 0 1 0 no,
  cr 0x195 0 0x108000001095 0 1 0 no,
  cr 0x196 0 0x1095000010a7 0 1 0 no,
  cr 0x197 0 0x10a7000010b2 0 1 0 no,
  cr 0x198 0 0x10b2000010b6 0 1 0x1d00000023 0x12,
  cr 0x199 0 0x10b2000010b6 0 1 0x1d00000023 0x13,
  cr 0x19a 0 0x10b6000010bf 0 1 0x350000003a 0x14,
  cr 0x19b 0 0x10bf000010c9 0 1 0 no,
  cr 0x19c 0 0x10c9000010d8 0 1 0 no,
  cr 0x19d 0 0x10d8000010e6 0 1 0 no,
  cr 0x19e 0 0x10e6000010f5 0 1 0 no,
  cr 0x19f 0 0x10f500001104 0 1 0 no,
  cr 0x1a0 0 0x11040000110e 0 1 0 no,
  cr 0x1a1 0 0x110e00001118 0 1 0 no,
  cr 0x1a2 0 0x11180000111f 0 1 0x1d00000023 0x15,
  cr 0x1a3 0 0x111f00001139 0 1 0 no,
  cr 0x1a4 0 0x111f00001139 0 1 0x180000001d no,
  cr 0x1a5 0 0x113900001148 0 1 0 no,
  cr 0x1a6 0 0x11480000115a 0 1 0 no,
  cr 0x1a7 0 0x11480000115a 0 1 0 no,
  cr 0x1a8 0 0x115a00001165 0 1 0 no,
  cr 0x1a9 0 0x11650000116d 0 1 0x180000001d no,
  cr 0x1aa 0 0x116d00001174 0 1 0 no,
  cr no 0x11740000117b 0x117b00001182 0 no 0 no,
  cr 0x1ab 0 0x118200001190 0 1 0x180000001d no,
  cr 0x1ac 0 0x11900000119c 0 1 0x180000001d no,
  cr 0x1ad 0 0x11900000119c 0 1 0 no,
  cr 0x1ae 0 0x119c000011aa 0 1 0x180000001d no,
  cr 0x1af 0 0x119c000011aa 0 1 0x1d00000023 no,
  cr 0x1b0 0 0x11aa000011be 0 1 0 no,
  cr 0x1b1 0 0x11be000011ca 0 1 0 no,
  cr 0x1b2 0 0x11ca000011d0 0 1 0 0x16,
  cr no 0x11d0000011d9 0x11d9000011e3 0 no 0 no,
  cr 0x1b3 0 0x11e3000011f1 0 1 0x180000001d no,
  cr 0x1b4 0 0x11e3000011f1 0 1 0x1d00000023 no,
  cr no 0x11f1000011fc 0x11fc00001200 0 no 0 no,
  cr 0x1b5 0 0x12000000120c 0 1 0 no,
  cr 0x1b6 0 0x120c00001217 0 1 0x180000001d no,
  cr 0x1b7 0 0x120c00001217 0 1 0x1d00000023 no,
  cr 0x1b8 0 0x121700001224 0 1 0 no,
  cr 0x1b9 0 0x12240000122c 0 1 0 no,
  cr 0x1ba 0 0x122c00001233 0 1 0 no,
  cr 0x1bb 0 0x12330000124a 0 1 0 no,
  cr 0x1bc 0 0x12330000124a 0 1 0 no,
  cr 0x1bd 0 0x124a00001255 0 1 0x1d00000023 no,
  cr 0x1be 0 0x12550000125e 0 1 0 no,
  cr 0x1bf 0 0x125e0000126b 0 1 0 no,
  cr 0x1c0 0 0x125e0000126b 0x126b0000126e no 0 no,
  cr 0x1c1 0 0x126e0000127f 0 1 0 no,
  cr 0x1c2 0 0x127f00001290 0 1 0 no,
  cr 0x1c3 0 0x125e0000126b 0 no 0 no,
  cr 0x1c4 0 0x129000001298 0 1 0 no,
  cr 0x1c5 0 0x1298000012a5 0 1 0 no,
  cr 0x1c6 0 0x12a5000012ab 0 1 0 no,
  cr 0x1c7 0 0x12ab000012b0 0 1 0 no,
  cr 0x1c8 0 0x12b0000012c0 0 1 0x180000001d no,
  cr 0x1c9 0 0x12c0000012cc 0 1 0x180000001d no,
  cr 0x1ca 0 0x12cc000012d9 0 1 0x180000001d no,
  cr 0x1cb 0 0x12d9000012e0 0 1 0x180000001d no,
  cr 0x1cc 0 0x12e0000012e9 0 1 0x1d00000023 0x17,
  cr 0x1cd 0 0x12e9000012f5 0 no 0x180000001d no,
  cr 0x1ce 0 0x12f5000012ff 0 1 0 no,
  cr 0x1cf 0 0x12ff0000130a 0 1 0 no,
  cr 0x1d0 0 0x130a0000131b 0 1 0x1d00000023 no,
  cr 0x1d1 0 0x131b00001329 0 1 0x1d00000023 0x18,
  cr 0x1d2 0 0x132900001336 0 1 0x1d00000023 0x19,
  cr 0x1d3 0 0x130a0000131b 0 1 0x1d00000023 no,
  cr 0x1d4 0 0x132900001336 0 1 0x1d00000023 0x1a,
  cr 0x1d5 0 0x133600001342 0 1 0x1d00000023 no,
  cr 0x1d6 0 0x13420000134a 0 1 0x1d00000023 0x1b,
  cr 0x1d7 0 0x13420000134a 0 1 0x1d00000023 0x1c,
  cr 0x1d8 0 0x134a00001359 0 1 0x180000001d no,
  cr 0x1d9 0 0x13590000135f 0 1 0x1d00000023 0x1d,
  cr no 0x135f0000136a 0x136a0000137c 0 no 0x1d00000023 no,
  cr 0x1da 0 0x137c00001389 0 1 0 no,
  cr 0x1db 0 0x137c00001389 0 1 0x1d00000023 0x1e,
  cr 0x1dc 0 0x138900001394 0 1 0 no,
  cr 0x1dd 0 0x13940000139c 0 1 0 no]

/-- `__cr_idx[1]`, from item 500 on (client_repo.go:534-621). -/
def crIdx1_1 : List ClientTuple := [
  cr 0x1de 0 0x139c000013a6 0 1 0 no,
  cr 0x1df 0 0x13a6000013b1 0 1 0 no,
  cr 0x1e0 0 0x13b1000013ba 0 1 0 no,
  cr 0x1e1 0 0x13ba000013c1 0 1 0 no,
  cr 0x1e2 0 0x13c1000013c5 0 1 0x2830000028d no,
  cr 0x1e3 0 0x13c5000013d0 0 1 0 no,
  cr 0x1e4 0 0x13d0000013da 0 1 0 no,
  cr 0x1e5 0 0x13da000013e1 0 1 0 no,
  cr 0x1e6 0 0x13e1000013e6 0 1 0 no,
  cr 0x1e7 0 0x13e6000013f3 0 1 0 no,
  cr 0x1e8 0 0x13f3000013fd 0 1 0 no,
  cr 0x1e9 0 0x13fd00001402 0 1 0x1d00000023 no,
  cr 0x1ea 0 0x140200001408 0 1 0x350000003a no,
  cr 0x1eb 0 0x14080000140e 0 1 0x1d00000023 no,
  cr 0x1ec 0 0x140e00001415 0 1 0 no,
  cr 0x1ed 0 0x14150000141b 0 1 0 no,
  cr 0x1ee 0 0x141b00001423 0 1 0 no,
  cr no 0x14230000142b 0x14230000142b 0 no 0x1d00000023 no,
  cr 0x1ef 0 0x142b00001430 0 1 0x142b00001430 no,
  cr 0x1f0 0 0x143000001437 0 1 0x1d00000023 no,
  cr 0x1f1 0 0x14370000143d 0 1 0x2830000028d no,
  cr 0x1f2 0 0x143d0000144c 0 1 0 no,
  cr 0x1f3 0 0x144c00001456 0 1 0 no,
  cr 0x1f4 0 0x14560000145e 0 1 0x350000003a no,
  cr 0x1f5 0 0x145e00001463 0 1 0x1d00000023 no,
  cr 0x1f6 0 0x146300001469 0 1 0x350000003a no,
  cr 0x1f7 0 0x146900001479 0 1 0x1d00000023 no,
  cr 0x1f8 0 0x146900001479 0 1 0x1d00000023 no,
  cr 0x1f9 0 0x147900001485 0 1 0x1d00000023 no,
  cr 0x1fa 0 0x14850000148c 0 1 0 no,
  cr 0x1fb 0 0x148c00001497 0 1 0x1d00000023 no,
  cr 0x1fc 0 0x14970000149b 0 1 0x14970000149b 0x1f,
  cr 0x1fd 0 0x149b000014a8 0 1 0x1100000018 no,
  cr 0x1fe 0 0x14a8000014b1 0 1 0x1100000018 no,
  cr 0x1ff 0 0x14a8000014b1 0 1 0x1100000018 no,
  cr 0x200 0 0x14b1000014c2 0x14c2000014c5 no 0x1100000018 no,
  cr 0x201 0 0x14b1000014c2 0x14c5000014c8 no 0x1100000018 no,
  cr 0x202 0 0x14b1000014c2 0x14c8000014cc no 0x1100000018 no,
  cr 0x203 0 0x14b1000014c2 0x14cc000014d0 no 0x1100000018 no,
  cr 0x204 0 0x14b1000014c2 0 1 0x1100000018 no,
  cr 0x205 0 0x14b1000014c2 0 1 0x1100000018 no,
  cr 0x206 0 0x14d0000014e8 0 1 0x1100000018 no,
  cr 0x207 0 0x14e8000014f6 0 1 0 no,
  cr 0x208 0 0x14f6000014fe 0 1 0x350000003a no,
  cr 0x209 0 0x14fe00001503 0 1 0x2830000028d no,
  cr 0x20a 0 0x150300001509 0 1 0 no,
  cr 0x20b 0 0x150900001510 0 1 0x1d00000023 no,
  cr 0x20c 0 0x151000001517 0 1 0 no,
  cr 0x20d 0 0x151700001527 0 1 0x1d00000023 no,
  cr 0x20e 0 0x152700001534 0 1 8 no,
  cr 0x20f 0 8 0 1 8 no,
  cr 0x210 0 8 0 1 8 no,
  cr 0x211 0 8 0 no 0 no,
  cr 0x212 0 0x15340000153f 0 1 0 no,
  cr 0x213 0 0x153f00001552 0 1 0 no,
  cr no 0x15520000155a 0x155a00001564 0 no 0 no,
  cr 0x214 0 0x15640000156b 0 1 0 no,
  cr 0x215 0 0x156b00001572 0 1 0 no,
  cr 0x216 0 0x15720000157e 0 1 0 no,
  cr 0x217 0 0x157e00001584 0 1 0x1d00000023 no,
  cr 0x218 0 0x15840000158b 0 1 0 no,
  cr 0x219 0 0x158b00001593 0 1 0x1d00000023 no,
  cr 0x21a 0 0x15930000159a 0 1 0 no,
  cr no 0x159a000015a7 0x15a7000015b4 0 no 0 no,
  cr 0x21b 0 0x15b4000015b9 0 1 0 no,
  cr 0x21c 0 0x15b9000015cb 0 no 0 no,
  cr 0x21d 0 0x15cb000015d3 0 1 0 no,
  cr 0x21e 0 0x15d3000015e2 0 no 0x1d00000023 no,
  cr 0x21f 0 0x15e2000015e7 0 1 0 no,
  cr 0x220 0 0x15e2000015e7 0 1 0x1d00000023 no,
  cr 0x221 0 0x15e7000015eb 0 1 0x1d00000023 no,
  cr 0x222 0 0x15eb00001604 0 1 0x1d00000023 no,
  cr 0x223 0 0x160400001611 0 1 0x1d00000023 no,
  cr 0x224 0 0x160400001611 0 1 0x1d00000023 no,
  cr 0x225 0 0x160400001611 0 1 0x1d00000023 no,
  cr 0x226 0 0x160400001611 0 no 0x1d00000023 no,
  cr 0x227 0 0x161100001617 0 1 0x1d00000023 no,
  cr 0x228 0 0x161100001617 0 1 0x1d00000023 no,
  cr no 0x161700001620 0x161100001617 0 no 0x1d00000023 no,
  cr 0x229 0 0x162000001626 0 1 0 no,
  cr 0x22a 0 0x3f00000046 0 1 0x3f00000046 no,
  cr no 0x16260000162a 0x16260000162a 0 no 0 no,
  cr no 0x162a00001637 0x162a00001637 0 no 0 no,
  cr 0x22b 0 0x16370000163a 0 1 0x350000003a no,
  cr 0x22c 0 0x163a00001644 0 1 0 no,
  cr 0x22d 0 0x164400001654 0 no 0 no,
  cr 0x22e 0 0x16540000165e 0 1 0x1d00000023 no,
  cr 0x22f 0 0xeda00000ee1 0 no 0x350000003a no]

/-- `__cr_idx[1]` (client_repo.go). -/
def crIdx1 : List ClientTuple := crIdx1_0 ++ crIdx1_1

/-- `__cr_idx[2]`, from item 0 on (client_repo.go:625-652). -/
def crIdx2_0 : List ClientTuple := [
  cr 0x230 0 0x165e00001667 0 1 0 no,
  cr 0x231 0 0x168800001694 0 1 0 no,
  cr no 0x16f600001700 0x16f600001700 0 no 0 no,
  cr 0x232 0 0x171f00001726 0 1 0 no,
  cr 0x233 0 0x174000001749 0 1 0 no,
  cr 0x234 0 0x176200001775 0 1 0 no,
  cr 0x235 0 0x17b2000017ba 0 1 0 no,
  cr 0x236 0 0x17ce000017d5 0 1 0 no,
  cr 0x237 0 0x17e8000017fd 0 1 0 no,
  cr 0x238 0 0x182200001829 0 1 0 no,
  cr 0x239 0 0x183f0000184a 0 1 0 no,
  cr 0x23a 0 0x186400001877 0 1 0 no,
  cr 0x23b 0 0x188e00001896 0 1 0 no,
  cr 0x23c 0 0x1896000018a0 0 1 0 no,
  cr 0x23d 0 0x18ba000018c5 0 1 0 no,
  cr 0x23e 0 0x18d7000018db 0 1 0 no,
  cr 0x23f 0 0x18fb00001902 0 1 0 no,
  cr 0x240 0 0x19180000191e 0 1 0 no,
  cr 0x241 0 0x19330000193d 0 1 0 no,
  cr 0x242 0 0x195600001960 0 1 0 no,
  cr 0x243 0 0x19a5000019ab 0 1 0 no,
  cr no 0x19c2000019ca 0x19c2000019ca 0 no 0 no,
  cr 0x244 0 0x19ed000019f4 0 1 0 no,
  cr 0x245 0 0x1a1200001a19 0 1 0 no,
  cr 0x246 0 0x1a3500001a3d 0 1 0 no,
  cr 0x247 0 0x1a5c00001a64 0 1 0 no,
  cr 0x248 0 0x1a7900001a81 0 1 0 no,
  cr 0x249 0 0x19180000191e 0 1 0 no]

/-- `__cr_idx[2]` (client_repo.go). -/
def crIdx2 : List ClientTuple := crIdx2_0

/-- `__cr_idx[3]`, from item 0 on (client_repo.go:656-799). -/
def crIdx3_0 : List ClientTuple := [
  cr 0x24a 0 0x1abd00001ac6 0 1 0 no,
  cr 0x24b 0 0x1adc00001ae2 0 1 0 no,
  cr 0x24c 0 0x1afb00001b04 0 1 0 no,
  cr 0x24d 0 0x1b1800001b25 0 1 0 no,
  cr 0x24e 0 0x1b2500001b29 0 1 0 no,
  cr no 0x1b4500001b53 0x1b4500001b53 0 no 0 no,
  cr no 0x1b7100001b7b 0x1b7b00001b85 0 no 0 no,
  cr 0x24f 0 0x1ba500001bb0 0 1 0 no,
  cr 0x250 0 0x1bd300001bd6 0 1 0 no,
  cr no 0x1bf900001c01 0x1bf900001c01 0 no 0 no,
  cr 0x251 0 0x1c2500001c28 0 1 0 no,
  cr 0x252 0 0x1c4400001c4b 0 no 0 no,
  cr 0x253 0 0x1c7400001c86 0 1 0 no,
  cr 0x254 0 0x1cbe00001cc2 0 1 0 no,
  cr 0x255 0 0x1cd300001cd9 0 1 0 no,
  cr 0x256 0 0x1cf700001cfc 0 1 0 no,
  cr 0x257 0 0x1d1900001d21 0 1 0 no,
  cr 0x258 0 0x1d4400001d50 0 1 0 no,
  cr 0x259 0 0x1d7600001d84 0 1 0 no,
  cr 0x25a 0 0x1db400001dc6 0 1 0 no,
  cr 0x25b 0 0x1ddd00001dea 0 1 0 no,
  cr 0x25c 0 0x1e1100001e19 0 1 0 no,
  cr 0x25d 0 0x1e3200001e37 0 1 0 no,
  cr 0x25e 0 0x1e4d00001e54 0 1 0 no,
  cr 0x25f 0 0x1e7900001e7d 0 1 0 no,
  cr 0x260 0 0x1e7d00001e95 0 1 0 no,
  cr 0x261 0 0x1e9500001e9c 0 1 0 no,
  cr 0x262 0 0x1e9c00001ea0 0 1 0 no,
  cr 0x263 0 0x1ea000001eaf 0 1 0 no,
  cr 0x264 0 0x1eaf00001eb7 0 1 0 no,
  cr 0x265 0 0x1ed900001ee6 0 1 0 no,
  cr 0x266 0 0x1ee600001ef8 0 1 0 no,
  cr 0x267 0 0x1ef800001f08 0 1 0 no,
  cr 0x268 0 0x1f0800001f0c 0 1 0 no,
  cr 0x269 0 0x1f0c00001f10 0 1 0 no,
  cr 0x26a 0 0x1f1000001f19 0 1 0 no,
  cr 0x26b 0 0x1f3a00001f40 0 1 0 no,
  cr 0x26c 0 0x1f3a00001f40 0 1 0 no,
  cr 0x26d 0 0x1f4000001f4d 0 1 0 no,
  cr 0x26e 0 0x1f7700001f80 0 1 0 no,
  cr 0x26f 0 0x1faa00001fb1 0 1 0 no,
  cr 0x270 0 0x1fb100001fc8 0 1 0 no,
  cr 0x271 0 0x1fc800001fd5 0 1 0 no,
  cr 0x272 0 0x1fd500001fdc 0 1 0 no,
  cr 0x273 0 0x20010000200f 0 1 0 no,
  cr 0x274 0 0x200f0000201f 0 1 0 no,
  cr 0x275 0 0x201f00002025 0 1 0 no,
  cr 0x276 0 0x20250000202b 0 1 0 no,
  cr 0x277 0 0x202b0000203f 0 1 0 no,
  cr 0x278 0 0x203f00002048 0 1 0 no,
  cr 0x279 0 0x206e00002079 0 1 0 no,
  cr 0x27a 0 0x209e000020af 0 1 0 no,
  cr 0x27b 0 0x20d4000020de 0 1 0 no,
  cr 0x27c 0 0x210600002114 0 1 0 no,
  cr 0x27d 0 0x21400000214c 0 1 0 no,
  cr 0x27e 0 0x217400002183 0 1 0 no,
  cr 0x27f 0 0x21b1000021c5 0 1 0 no,
  cr 0x280 0 0x21da000021f4 0 1 0 no,
  cr 0x281 0 0x22180000222e 0 1 0 no,
  cr no 0x222e00002235 0x223500002241 0 no 0 no,
  cr 0x282 0 0x224100002257 0 1 0 no,
  cr 0x283 0 0x225700002265 0 1 0 no,
  cr 0x284 0 0x22650000226e 0 1 0 no,
  cr 0x285 0 0x226e00002277 0 1 0 no,
  cr 0x286 0 0x22770000227c 0 1 0 no,
  cr 0x287 0 0x227c00002284 0 no 0 no,
  cr 0x288 0 0x228400002288 0 1 0 no,
  cr no 0x228800002295 0x228800002295 0 no 0 no,
  cr 0x289 0 0x2295000022a1 0 1 0 no,
  cr 0x28a 0 0x22a1000022b4 0 1 0 no,
  cr 0x28b 0 0x22b4000022c4 0 1 0 no,
  cr 0x28c 0 0x22c4000022c9 0 1 0 no,
  cr 0x28d 0 0x22c9000022d0 0 1 0 no,
  cr 0x28e 0 0x22d0000022d5 0 1 0 no,
  cr 0x28f 0 0x22d5000022da 0 1 0 no,
  cr 0x290 0 0x22da000022f1 0 1 0 no,
  cr 0x291 0 0x22f1000022fc 0 1 0 no,
  cr 0x292 0 0x22fc0000230e 0 1 0 no,
  cr 0x293 0 0x230e00002315 0 1 0 no,
  cr 0x294 0 0x23150000231d 0 1 0 no,
  cr 0x295 0 0x231d00002327 0 1 0 no,
  cr 0x296 0 0x232700002331 0 1 0 no,
  cr 0x297 0 0x233100002336 0 1 0 no,
  cr 0x298 0 0x23360000233c 0 1 0 no,
  cr 0x299 0 0x233c00002351 0 1 0 no,
  cr 0x29a 0 0x235100002357 0 1 0 no,
  cr 0x29b 0 0x23570000235d 0 1 0 no,
  cr 0x29c 0 0x235d00002361 0 1 0 no,
  cr no 0x236100002377 0x23770000238d 0 no 0 no,
  cr 0x29d 0 0x238d00002392 0 1 0 no,
  cr 0x29e 0 0x23920000239d 0 1 0 no,
  cr 0x29f 0 0x239d000023a1 0 1 0 no,
  cr 0x2a0 0 0x23a1000023a5 0 1 0 no,
  cr 0x2a1 0 0x23a5000023ab 0 1 0 no,
  cr 0x2a2 0 0x23ab000023b9 0 1 0 no,
  cr 0x2a3 0 0x23b9000023c2 0 1 0 no,
  cr 0x2a4 0 0x23c2000023cb 0 1 0 no,
  cr 0x2a5 0 0x23cb000023d4 0 1 0 no,
  cr no 0x23d4000023e4 0x23d4000023e4 0 no 0 no,
  cr 0x2a6 0 0x23e4000023eb 0 1 0 no,
  cr 0x2a7 0 0x23eb0000240f 0 1 0 no,
  cr 0x2a8 0 0x240f0000241b 0 no 0 no,
  cr 0x2a9 0 0x241b00002422 0 1 0 no,
  cr 0x2aa 0 0x242200002430 0 no 0 no,
  cr 0x2ab 0 0x243000002434 0 no 0 no,
  cr 0x2ac 0 0x243400002447 0 1 0 no,
  cr 0x2ad 0 0x24470000244d 0 no 0 no,
  cr 0x2ae 0 0x244d00002452 0 1 0 no,
  cr 0x2af 0 0x245200002467 0 1 0 no,
  cr 0x2b0 0 0x246700002479 0 1 0 no,
  cr 0x2b1 0 0x24790000247f 0 no 0 no,
  cr 0x2b2 0 0x247f0000248e 0 no 0 no,
  cr 0x2b3 0 0x248e00002499 0 1 0 no,
  cr no 0x24bf000024d6 0x24d6000024de 0 no 0 no,
  cr 0x2b4 0 0x24fd00002504 0 1 0 no,
  cr 0x2b5 0 0x252700002533 0 1 0 no,
  cr 0x2b6 0 0x256f00002576 0 no 0 no,
  cr 0x2b7 0 0x2599000025a9 0 1 0 no,
  cr 0x2b8 0 0x25d2000025e3 0 1 0 no,
  cr 0x2b9 0 0x260d00002621 0 1 0 no,
  cr 0x2ba 0 0x26480000264f 0 1 0 no,
  cr 0x2bb 0 0x266d00002677 0 1 0 no,
  cr no 0x269a000026a1 0x269a000026a1 0 no 0 no,
  cr 0x2bc 0 0x26b9000026c0 0 no 0 no,
  cr 0x2bd 0 0x26e2000026e8 0 1 0 no,
  cr 0x2be 0 0x27080000270e 0 1 0 no,
  cr 0x2bf 0 0x273b00002740 0 1 0 no,
  cr 0x2c0 0 0x275d00002764 0 1 0 no,
  cr 0x2c1 0 0x27910000279c 0 1 0 no,
  cr 0x2c2 0 0x27c7000027cd 0 1 0 no,
  cr 0x2c3 0 0x27e4000027f6 0 1 0 no,
  cr 0x2c4 0 0x284b00002856 0 1 0 no,
  cr 0x2c5 0 0x287a00002880 0 1 0 no,
  cr 0x2c6 0 0x28930000289c 0 1 0 no,
  cr 0x2c7 0 0x28be000028c1 0 1 0 no,
  cr 0x2c8 0 0x28c1000028cb 0 1 0 no,
  cr 0x2c9 0 0x28cb000028ce 0 1 0 no,
  cr 0x2ca 0 0x28dd000028e3 0 1 0 no,
  cr 0x2cb 0 0x28f6000028fc 0 1 0 no,
  cr 0x2cc 0 0x291c00002929 0 1 0 no,
  cr 0x2cd 0 0x29550000295c 0 1 0 no,
  cr no 0x29740000297f 0x29740000297f 0 no 0 no,
  cr no 0x29a5000029b9 0x29a5000029b9 0 no 0 no,
  cr 0x2ce 0 0x29e4000029e9 0 1 0 no]

/-- `__cr_idx[3]` (client_repo.go). -/
def crIdx3 : List ClientTuple := crIdx3_0

/-- `__cr_idx[4]`, from item 0 on (client_repo.go:803-845). -/
def crIdx4_0 : List ClientTuple := [
  cr 0x2cf 0 0x2a0900002a12 0 1 0 no,
  cr 0x2d0 0 0x2a1200002a17 0 1 0 no,
  cr 0x2d1 0 0x2a1700002a1e 0 1 0 no,
  cr 0x2d2 0 0x2a1e00002a23 0 1 0 no,
  cr 0x2d3 0 0x2a2300002a2d 0 1 0 no,
  cr 0x2d4 0 0x2a2d00002a33 0 1 0 no,
  cr 0x2d5 0 0x2a3300002a39 0 1 0 no,
  cr 0x2d6 0 0x2a3900002a40 0 1 0 no,
  cr 0x2d7 0 0x2a4000002a4a 0 1 0 no,
  cr 0x2d8 0 0x2a4a00002a55 0 1 0 no,
  cr 0x2d9 0 0x2a5500002a59 0 1 0 no,
  cr 0x2da 0 0x2a5900002a62 0 1 0 no,
  cr 0x2db 0 0x2a6200002a6d 0 1 0 no,
  cr 0x2dc 0 0x2a6d00002a76 0 1 0 no,
  cr 0x2dd 0 0x2a7600002a7e 0 1 0 no,
  cr 0x2de 0 0x2a7e00002a87 0 1 0 no,
  cr 0x2df 0 0x2a8700002a8c 0 1 0 no,
  cr 0x2e0 0 0x2a8c00002a8f 0 1 0 no,
  cr 0x2e1 0 0x2a8f00002a95 0 1 0 no,
  cr 0x2e2 0 0x2a9500002aa8 0 1 0 no,
  cr 0x2e3 0 0x2aa800002abc 0 1 0 no,
  cr 0x2e4 0 0x2abc00002ac0 0 1 0 no,
  cr 0x2e5 0 0x2ac000002ac4 0 1 0 no,
  cr 0x2e6 0 0x2ac400002acf 0 1 0 no,
  cr 0x2e7 0 0x2acf00002ade 0 1 0 no,
  cr 0x2e8 0 0x2ade00002af1 0 1 0 no,
  cr 0x2e9 0 0x2af100002af4 0 1 0 no,
  cr no 0x2af400002b08 0x2af400002b08 0 no 0 no,
  cr 0x2ea 0 0x2b0800002b15 0 1 0 no,
  cr 0x2eb 0 0x2b1500002b1c 0 1 0 no,
  cr 0x2ec 0 0x2b1c00002b24 0 1 0 no,
  cr 0x2ed 0 0x2b2400002b29 0 1 0 no,
  cr 0x2ee 0 0x2b2900002b33 0 1 0 no,
  cr 0x2ef 0 0x2b3300002b38 0 1 0 no,
  cr 0x2f0 0 0x2b3800002b40 0 1 0 no,
  cr 0x2f1 0 0x2b4000002b48 0 1 0 no,
  cr 0x2f2 0 0x2b4800002b4e 0 1 0 no,
  cr 0x2f3 0 0x2b4e00002b57 0 1 0 no,
  cr 0x2f4 0 0x2b5700002b64 0 1 0 no,
  cr 0x2f5 0 0x2b6400002b70 0 1 0 no,
  cr 0x2f6 0 0x2b7000002b7d 0 no 0 no,
  cr 0x2f7 0 0x2b7d00002b81 0 1 0 no,
  cr 0x2f8 0 0x2b8100002b88 0 1 0 no]

/-- `__cr_idx[4]` (client_repo.go). -/
def crIdx4 : List ClientTuple := crIdx4_0

/-- `__cr_idx[5]`, from item 0 on (client_repo.go:849-1348). -/
def crIdx5_0 : List ClientTuple := [
  cr 0x2f9 0 0x2b8800002b8d 0 1 0 no,
  cr 0x2fa 0 0x2b8d00002b91 0 1 0 no,
  cr 0x2fb 0 0x2b9100002b95 0 no 0 no,
  cr 0x2fc 0 0x2b9500002b9f 0 1 0 no,
  cr 0x2fd 0 0x2b9f00002ba4 0 1 0 no,
  cr 0x2fe 0 0x2b9f00002ba4 0 1 0 no,
  cr 0x2ff 0 0x2b9f00002ba4 0 1 0 no,
  cr 0x300 0 0x2ba400002bb4 0 1 0 no,
  cr 0x301 0 0x2bb400002bbb 0 1 0 no,
  cr 0x302 0 0x2bbb00002bd1 0 1 0 no,
  cr 0x303 0 0x2bd100002bdb 0 1 0 no,
  cr 0x304 0 0x2bdb00002be3 0 no 0 no,
  cr 0x305 0 0x2be300002bfc 0 1 0 no,
  cr 0x306 0 0x2bfc00002c13 0 1 0 no,
  cr 0x307 0 0x2c1300002c25 0 1 0 no,
  cr 0x308 0 0x2c1300002c25 0 no 0 no,
  cr 0x309 0 0x2c2500002c34 0 1 0 no,
  cr 0x30a 0 0x2c3400002c41 0 1 0 no,
  cr 0x30b 0 0x2c4100002c54 0 1 0 no,
  cr 0x30c 0 0x2c5400002c5c 0 1 0 no,
  cr 0x30d 0 0x2c5400002c5c 0 no 0 no,
  cr 0x30e 0 0x2c5c00002c65 0 1 0 no,
  cr 0x30f 0 0x2c6500002c6c 0 1 0 no,
  cr 0x310 0 0x2c6c00002c71 0 1 0 no,
  cr 0x311 0 0x2c7100002c7a 0 no 0 no,
  cr 0x312 0 0x2c7100002c7a 0 1 0 no,
  cr 0x313 0 0x2c7a00002c87 0 no 0 no,
  cr 0x314 0 0x2c8700002c9c 0 no 0 no,
  cr 0x315 0 0x2c9c00002ca7 0 no 0 no,
  cr 0x316 0 0x2ca700002cb3 0 1 0 no,
  cr 0x317 0 0x2cb300002cc3 0 1 0 no,
  cr 0x318 0 0x2cc300002cce 0 1 0 no,
  cr 0x319 0 0x2cce00002cd4 0 no 0 no,
  cr 0x31a 0 0x2cd400002cd9 0 1 0 no,
  cr 0x31b 0 0x2cd900002cdf 0 1 0 no,
  cr 0x31c 0 0x2cd900002cdf 0 1 0 no,
  cr 0x31d 0 0x2cdf00002cf5 0 1 0 no,
  cr 0x31e 0 0x2cf500002cfd 0 1 0 no,
  cr 0x31f 0 0x2cfd00002d07 0 1 0 no,
  cr 0x320 0 0x2d0700002d10 0 1 0 no,
  cr no 0x2d1000002d21 0x2d1000002d21 0 no 0 no,
  cr 0x321 0 0x2d2100002d28 0 1 0 no,
  cr 0x322 0 0x2d2100002d28 0 1 0 no,
  cr 0x323 0 0x2d2800002d2e 0 1 0 no,
  cr 0x324 0 0x2d2e00002d35 0 1 0 no,
  cr 0x325 0 0x2b1c00002b24 0 1 0 no,
  cr 0x326 0 0x2d3500002d3a 0 no 0 no,
  cr 0x327 0 0x2d3500002d3a 0 1 0 no,
  cr 0x328 0 0x2d3a00002d40 0 no 0 no,
  cr 0x329 0 0x2d4000002d51 0 1 0 no,
  cr 0x32a 0 0x2d5100002d59 0 1 0 no,
  cr 0x32b 0 0x2d5900002d63 0 1 0 no,
  cr 0x32c 0 0x2d6300002d6e 0 1 0 no,
  cr 0x32d 0 0x2d6e00002d78 0 1 0 no,
  cr 0x32e 0 0x2d7800002d83 0 1 0 no,
  cr 0x32f 0 0x2d8300002d8e 0 1 0 no,
  cr 0x330 0 0x2d8e00002d96 0 no 0 no,
  cr 0x331 0 0x2d9600002da3 0 1 0 no,
  cr 0x332 0 0x2da300002da7 0 1 0 no,
  cr 0x333 0 0x2da700002db0 0 1 0 no,
  cr 0x334 0 0x2db000002dbc 0 1 0 no,
  cr 0x335 0 0x2dbc00002dc2 0 1 0 no,
  cr no 0x2dc200002dcb 0x2dc200002dcb 0 no 0 no,
  cr 0x336 0 0x2dcb00002dd3 0 1 0 no,
  cr 0x337 0 0x2dd300002dda 0 1 0 no,
  cr 0x338 0 0x2dda00002de5 0 2 0 no,
  cr 0x339 0 0x2de500002df5 0 1 0 no,
  cr 0x33a 0 0x2df500002dfb 0 1 0 no,
  cr 0x33b 0 0x2dfb00002e03 0 1 0 no,
  cr no 0x2dfb00002e03 0x2dfb00002e03 0 no 0 no,
  cr no 0x2e0300002e0e 0x2e0300002e0e 0 no 0 no,
  cr 0x33c 0 0x2e0e00002e24 0 1 0 no,
  cr 0x33d 0 0x2dbc00002dc2 0 1 0 no,
  cr 0x33e 0 0x2e2400002e2c 0 1 0 no,
  cr 0x33f 0 0x2e2c00002e37 0 1 0 no,
  cr 0x340 0 0x2e3700002e43 0 1 0 no,
  cr 0x341 0 0x2e4300002e4b 0 1 0 no,
  cr 0x342 0 0x2e4b00002e5a 0 1 0 no,
  cr 0x343 0 0x2e5a00002e69 0 1 0 no,
  cr 0x344 0 0x2e6900002e6e 0 1 0 no,
  cr 0x345 0 0x2e6e00002e78 0 1 0 no,
  cr 0x346 0 0x2e7800002e89 0 1 0 no,
  cr 0x347 0 0x2e7800002e89 0 1 0 no,
  cr 0x348 0 0x2e8900002e94 0 1 0 no,
  cr 0x349 0 0x2e9400002ea1 0 1 0 no,
  cr 0x34a 0 0x2ea100002eb3 0 1 0 no,
  cr 0x34b 0 0x2eb300002ec0 0 1 0 no,
  cr 0x34c 0 0x2ec000002ecb 0 1 0 no,
  cr 0x34d 0 0x2ecb00002ed7 0 1 0 no,
  cr 0x34e 0 0x2ed700002ee3 0 1 0 no,
  cr 0x34f 0 0x2ee300002eea 0 1 0 no,
  cr 0x350 0 0x2ee300002eea 0 1 0 no,
  cr 0x351 0 0x2ee300002eea 0 1 0 no,
  cr 0x352 0 0x2db000002dbc 0 no 0 no,
  cr 0x353 0 0x2eea00002eef 0 1 0 no,
  cr 0x354 0 0x2eef00002ef6 0 1 0 no,
  cr 0x355 0 0x2ef600002efe 0 1 0 no,
  cr no 0x2efe00002f12 0x2ef600002efe 0 no 0 no,
  cr 0x356 0 0x2f1200002f1d 0 1 0 no,
  cr 0x357 0 0x2f1d00002f23 0 no 0 no,
  cr 0x358 0 0x2f2300002f2a 0 1 0 no,
  cr 0x359 0 0x2f2a00002f35 0 1 0 no,
  cr 0x35a 0 0x2f3500002f3d 0 1 0 no,
  cr 0x35b 0 0x2f3d00002f43 0 1 0 no,
  cr 0x35c 0 0x2f4300002f48 0 1 0 no,
  cr no 0x2f4800002f4e 0x2f4e00002f52 0x2f5200002f55 no 0 no,
  cr 0x35d 0 0x2f5500002f5d 0 1 0 no,
  cr 0x35e 0 0x2f5d00002f67 0 1 0 no,
  cr 0x35f 0 0x2f6700002f7e 0 1 0 no,
  cr 0x360 0 0x2f7e00002f8d 0 1 0 no,
  cr 0x361 0 0x2f8d00002f90 0 1 0 no,
  cr 0x362 0 0x2f9000002f97 0 1 0 no,
  cr 0x363 0 0x2f9700002fa1 0 no 0 no,
  cr 0x364 0 0x2fa100002fa8 0 1 0 no,
  cr 0x365 0 0x2fa100002fa8 0 no 0 no,
  cr 0x366 0 0x2fa800002fb5 0 1 0 no,
  cr 0x367 0 0x2fb500002fbd 0 no 0 no,
  cr 0x368 0 0x2fbd00002fc6 0 1 0 no,
  cr 0x369 0 0x2fc600002fcd 0 no 0 no,
  cr 0x36a 0 0x2f3500002f3d 0 no 0 no,
  cr 0x36b 0 0x2fcd00002fd6 0 1 0 no,
  cr 0x36c 0 0x2fd600002fe9 0 2 0 no,
  cr 0x36d 0 0x2fe900002ff9 0 1 0 no,
  cr 0x36e 0 0x2fe900002ff9 0 1 0 no,
  cr 0x36f 0 0x2ff900003007 0 1 0 no,
  cr 0x370 0 0x30070000301c 0 no 0 no,
  cr 0x371 0 0x301c00003026 0 1 0 no,
  cr 0x372 0 0x302600003038 0 1 0 no,
  cr no 0x30380000305c 0x2fe900002ff9 0 no 0 no,
  cr 0x373 0 0x305c00003073 0 1 0 no,
  cr 0x374 0 0x307300003078 0 1 0 no,
  cr 0x375 0 0x30780000308a 0 1 0 no,
  cr 0x376 0 0x30780000308a 0 1 0 no,
  cr no 0x308a00003094 0x30940000309f 0 no 0 no,
  cr 0x377 0 0x309f000030a6 0 1 0 no,
  cr 0x378 0 0x30a6000030ac 0 1 0 no,
  cr 0x379 0 0x30a6000030ac 0 1 0 no,
  cr 0x37a 0 0x30ac000030b7 0 1 0 no,
  cr 0x37b 0 0x30b7000030bd 0 1 0 no,
  cr 0x37c 0 0x30bd000030c3 0 no 0 no,
  cr 0x37d 0 0x30c3000030ce 0 1 0 no,
  cr 0x37e 0 0x30ce000030d4 0 1 0 no,
  cr 0x37f 0 0x30d4000030dc 0 no 0 no,
  cr 0x380 0 0x30dc000030e1 0 no 0 no,
  cr 0x381 0 0x30dc000030e1 0 1 0 no,
  cr 0x382 0 0x30e1000030ea 0 1 0 no,
  cr 0x383 0 0x30ea000030f0 0 1 0 no,
  cr 0x384 0 0x30f0000030f6 0 no 0 no,
  cr 0x385 0 0x30f6000030fc 0 1 0 no,
  cr 0x386 0 0x30fc00003102 0 1 0 no,
  cr 0x387 0 0x310200003109 0 1 0 no,
  cr 0x388 0 0x310900003120 0 no 0 no,
  cr 0x389 0 0x31200000312c 0 1 0 no,
  cr 0x38a 0 0x312c00003133 0 no 0 no,
  cr 0x38b 0 0x31330000313e 0 1 0 no,
  cr 0x38c 0 0x313e00003142 0 1 0 no,
  cr 0x38d 0 0x314200003148 0 no 0 no,
  cr 0x38e 0 0x31480000314b 0 1 0 no,
  cr 0x38f 0 0x314b00003154 0 1 0 no,
  cr 0x390 0 0x31540000315b 0 1 0 no,
  cr 0x391 0 0x315b0000315e 0 1 0 no,
  cr 0x392 0 0x315e00003165 0 1 0 no,
  cr 0x393 0 0x316500003175 0 1 0 no,
  cr 0x394 0 0x317500003181 0 1 0 no,
  cr 0x395 0 0x318100003189 0 1 0 no,
  cr 0x396 0 0x31890000318e 0 1 0 no,
  cr 0x397 0 0x318e00003199 0 1 0 no,
  cr 0x398 0 0x31990000319f 0 1 0 no,
  cr 0x399 0 0x319f000031ad 0 1 0 no,
  cr 0x39a 0 0x31ad000031b8 0 1 0 no,
  cr 0x39b 0 0x31b8000031bf 0 no 0 no,
  cr 0x39c 0 0x31bf000031d0 0 1 0 no,
  cr 0x39d 0 0x31d0000031d5 0 1 0 no,
  cr 0x39e 0 0x31d5000031db 0 1 0 no,
  cr 0x39f 0 0x31db000031df 0 1 0 no,
  cr 0x3a0 0 0x31df000031e5 0 1 0 no,
  cr 0x3a1 0 0x31e5000031e9 0 1 0 no,
  cr 0x3a2 0 0x31e9000031f0 0 1 0 no,
  cr 0x3a3 0 0x31f0000031f9 0 1 0 no,
  cr 0x3a4 0 0x31f900003200 0 1 0 no,
  cr 0x3a5 0 0x31f900003200 0 1 0 no,
  cr 0x3a6 0 0x320000003208 0 1 0 no,
  cr 0x3a7 0 0x320800003215 0 1 0 no,
  cr 0x3a8 0 0x32150000321b 0 1 0 no,
  cr 0x3a9 0 0x321b00003220 0 1 0 no,
  cr 0x3aa 0 0x321b00003220 0 no 0 no,
  cr 0x3ab 0 0x322000003228 0 1 0 no,
  cr 0x3ac 0 0x322800003236 0 1 0 no,
  cr 0x3ad 0 0x32360000323b 0 1 0 no,
  cr 0x3ae 0 0x323b00003242 0 1 0 no,
  cr 0x3af 0 0x324200003247 0 1 0 no,
  cr 0x3b0 0 0x324700003256 0 1 0 no,
  cr 0x3b1 0 0x32560000325f 0 no 0 no,
  cr 0x3b2 0 0x325f00003269 0 1 0 no,
  cr 0x3b3 0 0x32690000326f 0 1 0 no,
  cr 0x3b4 0 0x326f00003275 0 1 0 no,
  cr 0x3b5 0 0x32750000327b 0 1 0 no,
  cr 0x3b6 0 0x327b00003285 0 1 0 no,
  cr no 0x32850000328e 0x328e00003297 0 no 0 no,
  cr no 0x3297000032ae 0x32ae000032c0 0 no 0 no,
  cr 0x3b7 0 0x32c0000032ce 0 1 0 no,
  cr 0x3b8 0 0x32ce000032db 0 1 0 no,
  cr 0x3b9 0 0x32db000032e7 0 1 0 no,
  cr 0x3ba 0 0x32e7000032f1 0 1 0 no,
  cr 0x3bb 0 0x32f1000032ff 0 1 0 no,
  cr 0x3bc 0 0x32ff00003315 0 1 0 no,
  cr 0x3bd 0 0x331500003327 0 1 0 no,
  cr 0x3be 0 0x332700003330 0 1 0 no,
  cr no 0x333000003338 0x333800003348 0 no 0 no,
  cr no 0x334800003358 0x335800003365 0 no 0 no,
  cr 0x3bf 0 0x336500003368 0 1 0 no,
  cr 0x3c0 0 0x2acf00002ade 0 1 0 no,
  cr 0x3c1 0 0x336800003379 0 no 0 no,
  cr no 0x337900003398 0x3398000033b5 0 no 0 no,
  cr no 0x33b5000033c9 0x33c9000033dd 0 no 0 no,
  cr 0x3c2 0 0x33dd000033e7 0 no 0 no,
  cr 0x3c3 0 0x33e7000033f2 0 1 0 no,
  cr 0x3c4 0 0x33f2000033f7 0 no 0 no,
  cr no 0x33f7000033fd 0x33f7000033fd 0 no 0 no,
  cr 0x3c5 0 0x33fd00003406 0 1 0 no,
  cr 0x3c6 0 0xabd00000ac5 0 1 0 no,
  cr 0x3c7 0 0x340600003411 0 1 0 no,
  cr 0x3c8 0 0x34110000341e 0 1 0 no,
  cr no 0x341e00003428 0x341e00003428 0 no 0 no,
  cr no 0x342800003432 0x34320000343d 0 no 0 no,
  cr 0x3c9 0 0x343d00003444 0 1 0 no,
  cr 0x3ca 0 0x34440000344e 0 1 0 no,
  cr 0x3cb 0 0x344e00003462 0 1 0 no,
  cr 0x3cc 0 0x346200003476 0 1 0 no,
  cr 0x3cd 0 0x34760000347f 0 1 0 no,
  cr 0x3ce 0 0x347f000034a1 0 1 0 no,
  cr 0x3cf 0 0x34a1000034c8 0 1 0 no,
  cr no 0x34c8000034d8 0x34d8000034f1 0 no 0 no,
  cr 0x3d0 0 0x34f100003504 0 1 0 no,
  cr no 0x35040000351e 0x351e00003524 0 no 0 no,
  cr 0x3d1 0 0x35240000352e 0 1 0 no,
  cr 0x3d2 0 0x352e00003537 0 1 0 no,
  cr 0x3d3 0 0x353700003542 0 1 0 no,
  cr 0x3d4 0 0x35420000354f 0 1 0 no,
  cr 0x3d5 0 0x354f00003558 0 1 0 no,
  cr 0x3d6 0 0x355800003562 0 1 0 no,
  cr 0x3d7 0 0x356200003571 0 1 0 no,
  cr 0x3d8 0 0x357100003577 0 1 0 no,
  cr no 0x357700003591 0x35910000359c 0 no 0 no,
  cr 0x3d9 0 0x359c000035a5 0 1 0 no,
  cr 0x3da 0 0x35a5000035ad 0 1 0 no,
  cr 0x3db 0 0x31b8000031bf 0 1 0 no,
  cr 0x3dc 0 0x35ad000035b7 0 1 0 no,
  cr 0x3dd 0 0x35b7000035ba 0 1 0 no,
  cr 0x3de 0 0x35ba000035c6 0 1 0 no,
  cr 0x3df 0 0x35c6000035c8 0 1 0 no,
  cr 0x3e0 0 0x35c8000035cf 0 1 0 no,
  cr no 0x35cf000035e0 0x35e0000035e5 0 no 0 no,
  cr 0x3e1 0 0x35e5000035ee 0 1 0 no,
  cr 0x3e2 0 0x2d2e00002d35 0 1 0 no,
  cr 0x3e3 0 0x35ee00003600 0 1 0 no,
  cr 0x3e4 0 0x360000003612 0 1 0 no,
  cr 0x3e5 0 0x36120000361c 0 1 0 no,
  cr 0x3e6 0 0x361c00003626 0 1 0 no,
  cr 0x3e7 0 0x362600003633 0 1 0 no,
  cr 0x3e8 0 0x363300003639 0 1 0 no,
  cr 0x3e9 0 0x363900003641 0 1 0 no,
  cr 0x3ea 0 0x36410000364c 0 1 0 no,
  cr 0x3eb 0 0x364c00003657 0 1 0 no,
  cr 0x3ec 0 0x365700003661 0 1 0 no,
  cr 0x3ed 0 0x36610000366d 0 1 0 no,
  cr 0x3ee 0 0x366d00003679 0 1 0 no,
  cr no 0x367900003688 0x368800003697 0 no 0 no,
  cr 0x3ef 0 0x3697000036a3 0 1 0 no,
  cr 0x3f0 0 0x36a3000036bc 0 1 0 no,
  cr 0x3f1 0 0x36bc000036da 0 1 0 no,
  cr 0x3f2 0 0x36da000036e8 0 1 0 no,
  cr 0x3f3 0 0x36da000036e8 0 1 0 no,
  cr 0x3f4 0 0x36e8000036eb 0 1 0 no,
  cr 0x3f5 0 0x36eb000036fc 0 1 0 no,
  cr 0x3f6 0 0x36fc00003704 0 1 0 no,
  cr 0x3f7 0 0x37040000370f 0 1 0 no,
  cr 0x3f8 0 0x370f0000371c 0 1 0 no,
  cr no 0x371c00003728 0x371c00003728 0 no 0 no,
  cr no 0x372800003734 0x373400003741 0 no 0 no,
  cr no 0x37410000375e 0x375e0000376d 0 no 0 no,
  cr 0x3f9 0 0x376d00003777 0 1 0 no,
  cr 0x3fa 0 0x37770000377f 0 no 0 no,
  cr no 0x377f0000378b 0x378b00003795 0 no 0 no,
  cr no 0x3795000037a1 0x37a1000037a7 0 no 0 no,
  cr no 0x37a7000037b8 0x2f7e00002f8d 0 no 0 no,
  cr 0x3fb 0 0x37b8000037c6 0 no 0 no,
  cr no 0x37c6000037cc 0x37c6000037cc 0 no 0 no,
  cr 0x3fc 0 0x37cc000037d5 0 no 0 no,
  cr 0x3fd 0 0x37d5000037e1 0 1 0 no,
  cr 0x3fe 0 0x37e1000037ef 0 1 0 no,
  cr 0x3ff 0 0x37ef00003803 0 1 0 no,
  cr no 0x380300003812 0x381200003822 0 no 0 no,
  cr 0x400 0 0x38220000383d 0 no 0 no,
  cr no 0x383d0000384b 0x384b00003856 0 no 0 no,
  cr no 0x385600003865 0x38650000386c 0 no 0 no,
  cr 0x401 0 0x386c0000387d 0 1 0 no,
  cr 0x402 0 0x387d0000388c 0 no 0 no,
  cr no 0x388c000038a2 0x38a2000038af 0 no 0 no,
  cr 0x403 0 0x38af000038b4 0 1 0 no,
  cr 0x404 0 0x38b4000038c5 0 1 0 no,
  cr 0x405 0 0x38c5000038d6 0 1 0 no,
  cr no 0x38d6000038e0 0x38e0000038e6 0 no 0 no,
  cr 0x406 0 0x38e6000038ef 0 1 0 no,
  cr 0x407 0 0x38ef000038f3 0 1 0 no,
  cr 0x408 0 0x38f3000038f7 0 1 0 no,
  cr no 0x38f7000038fa 0x38fa00003903 0 no 0 no,
  cr 0x409 0 0x39030000390c 0 1 0 no,
  cr 0x40a 0 0x390c00003918 0 1 0 no,
  cr 0x40b 0 0x391800003925 0 1 0 no,
  cr 0x40c 0 0x392500003934 0 1 0 no,
  cr 0x40d 0 0x39340000393d 0 1 0 no,
  cr 0x40e 0 0x39340000393d 0 2 0 no,
  cr no 0x393d00003948 0x394800003952 0 no 0 no,
  cr 0x40f 0 0x395200003966 0 1 0 no,
  cr 0x410 0 0x2fcd00002fd6 0 1 0 no,
  cr no 0x396600003976 0x397600003980 0 no 0 no,
  cr no 0x39800000398c 0x39800000398c 0 no 0 no,
  cr 0x411 0 0x398c0000399b 0 1 0 no,
  cr no 0x399b000039b2 0x39b2000039c0 0 no 0 no,
  cr 0x412 0 0x39c0000039d2 0 no 0 no,
  cr 0x413 0 0x39d2000039d6 0 1 0 no,
  cr no 0x39d6000039dd 0x39dd000039e4 0 no 0 no,
  cr 0x414 0 0x39e4000039ea 0 1 0 no,
  cr 0x415 0 0x39ea000039f9 0 1 0 no,
  cr 0x416 0 0x39f900003a00 0 1 0 no,
  cr 0x417 0 0x3a0000003a0c 0 1 0 no,
  cr 0x418 0 0x3a0c00003a12 0 1 0 no,
  cr 0x419 0 0x3a1200003a13 0 1 0 no,
  cr no 0x3a1300003a20 0x3a2000003a28 0 no 0 no,
  cr 0x41a 0 0x3a2800003a2f 0 1 0 no,
  cr 0x41b 0 0x2dcb00002dd3 0 1 0 no,
  cr 0x41c 0 0x3a2f00003a41 0 no 0 no,
  cr 0x41d 0 0x3a4100003a48 0 1 0 no,
  cr 0x41e 0 0x3a4800003a4d 0 1 0 no,
  cr 0x41f 0 0x3a4d00003a52 0 1 0 no,
  cr 0x420 0 0x3a5200003a60 0 1 0 no,
  cr 0x421 0 0x3a6000003a67 0 1 0 no,
  cr 0x422 0 0x3a6700003a76 0 1 0 no,
  cr 0x423 0 0x3a7600003a7b 0 1 0 no,
  cr 0x424 0 0x3a7b00003a80 0 1 0 no,
  cr 0x425 0 0x3a8000003a84 0 1 0 no,
  cr 0x426 0 0x3a8400003a8c 0 1 0 no,
  cr 0x427 0 0x3a8c00003a9d 0 1 0 no,
  cr 0x428 0 0x3a9d00003aad 0 1 0 no,
  cr 0x429 0 0x3aad00003ab8 0 no 0 no,
  cr 0x42a 0 0x3ab800003abe 0 1 0 no,
  cr 0x42b 0 0x3abe00003ac6 0 1 0 no,
  cr 0x42c 0 0x3ac600003acd 0 1 0 no,
  cr 0x42d 0 0x3acd00003ad7 0 1 0 no,
  cr 0x42e 0 0x3ad700003add 0 1 0 no,
  cr 0x42f 0 0x3add00003af3 0 1 0 no,
  cr 0x430 0 0x3af300003b01 0 no 0 no,
  cr 0x431 0 0x3b0100003b07 0 1 0 no,
  cr 0x432 0 0x3b0700003b15 0 1 0 no,
  cr 0x433 0 0x3b1500003b23 0 1 0 no,
  cr 0x434 0 0x3b2300003b32 0 1 0 no,
  cr 0x435 0 0x3b3200003b3a 0 1 0 no,
  cr 0x436 0 0x3b3a00003b40 0 1 0 no,
  cr 0x437 0 0x3b4000003b45 0 1 0 no,
  cr 0x438 0 0x3b4500003b4e 0 no 0 no,
  cr 0x439 0 0x3b4e00003b53 0 1 0 no,
  cr 0x43a 0 0x3b5300003b57 0 1 0 no,
  cr 0x43b 0 0x3b5700003b5c 0 1 0 no,
  cr 0x43c 0 0x3b5c00003b60 0 1 0 no,
  cr 0x43d 0 0x3b6000003b6a 0 1 0 no,
  cr 0x43e 0 0x3b6a00003b6e 0 1 0 no,
  cr 0x43f 0 0x3b6e00003b76 0 1 0 no,
  cr 0x440 0 0x3b7600003b85 0 1 0 no,
  cr 0x441 0 0x3b8500003b89 0 no 0 no,
  cr 0x442 0 0x3b8900003b8e 0 1 0 no,
  cr 0x443 0 0x3b8e00003b97 0 1 0 no,
  cr no 0x3b9700003bb1 0x3bb100003bc9 0 no 0 no,
  cr 0x444 0 0x3bc900003bd4 0 1 0 no,
  cr 0x445 0 0x3bd400003bdf 0 1 0 no,
  cr 0x446 0 0x3bdf00003be7 0 1 0 no,
  cr 0x447 0 0x3be700003bee 0 1 0 no,
  cr 0x448 0 0x3bee00003bf8 0 1 0 no,
  cr 0x449 0 0x3bf800003c02 0 1 0 no,
  cr 0x44a 0 0x3c0200003c0a 0 1 0 no,
  cr 0x44b 0 0x2dd300002dda 0 1 0 no,
  cr 0x44c 0 0x3c0a00003c14 0 1 0 no,
  cr 0x44d 0 0x3c1400003c1a 0 1 0 no,
  cr 0x44e 0 0x3c1a00003c23 0 1 0 no,
  cr 0x44f 0 0x3c2300003c27 0 1 0 no,
  cr 0x450 0 0x3c2700003c2c 0 1 0 no,
  cr 0x451 0 0x3c2c00003c38 0 1 0 no,
  cr 0x452 0 0x3c3800003c40 0 1 0 no,
  cr 0x453 0 0x3c4000003c57 0 no 0 no,
  cr 0x454 0 0x3c5700003c5f 0 1 0 no,
  cr 0x455 0 0x3c5f00003c65 0 1 0 no,
  cr 0x456 0 0x3c6500003c6f 0 1 0 no,
  cr 0x457 0 0x3c6f00003c7c 0 1 0 no,
  cr 0x458 0 0x3c7c00003c80 0 1 0 no,
  cr 0x459 0 0x3c8000003c85 0 1 0 no,
  cr 0x45a 0 0x3c8500003c8b 0 1 0 no,
  cr 0x45b 0 0x3c8b00003c96 0 1 0 no,
  cr 0x45c 0 0x3c9600003c9b 0 1 0 no,
  cr 0x45d 0 0x3c9b00003ca3 0 1 0 no,
  cr 0x45e 0 0x3ca300003cb2 0 1 0 no,
  cr 0x45f 0 0x3cb200003cc3 0 1 0 no,
  cr 0x460 0 0x3cc300003cc7 0 1 0 no,
  cr 0x461 0 0x3cc700003cd0 0 1 0 no,
  cr 0x462 0 0x3cd000003cd6 0 1 0 no,
  cr 0x463 0 0x3cd600003cde 0 1 0 no,
  cr 0x464 0 0x3cde00003ce8 0 1 0 no,
  cr 0x465 0 0x3ce800003cf7 0 no 0 no,
  cr 0x466 0 0x3cf700003d00 0 1 0 no,
  cr 0x467 0 0x3d0000003d06 0 1 0 no,
  cr 0x468 0 0x3d0600003d0e 0 1 0 no,
  cr 0x469 0 0x3d0e00003d18 0 1 0 no,
  cr 0x46a 0 0x3d1800003d1d 0 1 0 no,
  cr 0x46b 0 0x3d1d00003d26 0 1 0 no,
  cr 0x46c 0 0x3d2600003d2c 0 1 0 no,
  cr 0x46d 0 0x3d2c00003d34 0 1 0 no,
  cr 0x46e 0 0x3d3400003d40 0 1 0 no,
  cr 0x46f 0 0x3d4000003d4b 0 1 0 no,
  cr 0x470 0 0x3d4b00003d55 0 1 0 no,
  cr 0x471 0 0x3d5500003d5a 0 1 0 no,
  cr 0x472 0 0x3d5a00003d5d 0 1 0 no,
  cr 0x473 0 0x3d5d00003d65 0 1 0 no,
  cr 0x474 0 0x3d6500003d6b 0 no 0 no,
  cr 0x475 0 0x30e1000030ea 0 1 0 no,
  cr 0x476 0 0x3d6b00003d76 0 1 0 no,
  cr 0x477 0 0x3d7600003d7d 0 1 0 no,
  cr 0x478 0 0x3d7d00003d82 0 1 0 no,
  cr 0x479 0 0x3d8200003d8b 0 1 0 no,
  cr 0x47a 0 0x3d8b00003d8e 0 1 0 no,
  cr 0x47b 0 0x3d8e00003d97 0 1 0 no,
  cr 0x47c 0 0x3d9700003d9d 0 1 0 no,
  cr 0x47d 0 0x3d9d00003da2 0 1 0 no,
  cr 0x47e 0 0x3da200003dad 0 1 0 no,
  cr 0x47f 0 0x3dad00003db5 0 1 0 no,
  cr 0x480 0 0x3db500003dbe 0 no 0 no,
  cr 0x481 0 0x3dbe00003dc6 0 1 0 no,
  cr 0x482 0 0x3dc600003dd0 0 1 0 no,
  cr 0x483 0 0x3dd000003dd5 0 1 0 no,
  cr 0x484 0 0x3dd500003dde 0 1 0 no,
  cr 0x485 0 0x3dde00003de4 0 1 0 no,
  cr 0x486 0 0x3de400003deb 0 1 0 no,
  cr 0x487 0 0x3deb00003df1 0 no 0 no,
  cr 0x488 0 0x3df100003dfa 0 1 0 no,
  cr 0x489 0 0x3dfa00003dfd 0 1 0 no,
  cr 0x48a 0 0x3dfd00003e04 0 1 0 no,
  cr 0x48b 0 0x3e0400003e0f 0 1 0 no,
  cr 0x48c 0 0x3e0f00003e18 0 1 0 no,
  cr 0x48d 0 0x3e1800003e1f 0 1 0 no,
  cr 0x48e 0 0x3e1f00003e28 0 no 0 no,
  cr 0x48f 0 0x3e2800003e2e 0 1 0 no,
  cr 0x490 0 0x3e2e00003e3a 0 1 0 no,
  cr 0x491 0 0x3e3a00003e48 0 1 0 no,
  cr 0x492 0 0x2de500002df5 0 1 0 no,
  cr 0x493 0 0x3e4800003e51 0 1 0 no,
  cr 0x494 0 0x3e5100003e5a 0 no 0 no,
  cr 0x495 0 0x3e5a00003e64 0 1 0 no,
  cr 0x496 0 0x3e6400003e6f 0 1 0 no,
  cr 0x497 0 0x3e6f00003e74 0 1 0 no,
  cr 0x498 0 0x3e7400003e7d 0 1 0 no,
  cr 0x499 0 0x3e7d00003e84 0 1 0 no,
  cr 0x49a 0 0x31990000319f 0 1 0 no,
  cr 0x49b 0 0x3e8400003e8b 0 no 0 no,
  cr 0x49c 0 0x3e8b00003e98 0 1 0 no,
  cr 0x49d 0 0x3e9800003e9d 0 1 0 no,
  cr 0x49e 0 0x3e9d00003ea2 0 1 0 no,
  cr 0x49f 0 0x3ea200003ea7 0 1 0 no,
  cr 0x4a0 0 0x3ea700003eac 0 1 0 no,
  cr 0x4a1 0 0x3eac00003eb4 0 1 0 no,
  cr 0x4a2 0 0x3eb400003ebb 0 1 0 no,
  cr 0x4a3 0 0x3ebb00003ebf 0 1 0 no,
  cr 0x4a4 0 0x3ebf00003ec7 0 1 0 no,
  cr 0x4a5 0 0x3ec700003ed1 0 no 0 no,
  cr 0x4a6 0 0x3ed100003ed8 0 1 0 no,
  cr 0x4a7 0 0x3ed800003ee0 0 no 0 no,
  cr 0x4a8 0 0x3ee000003ee8 0 1 0 no,
  cr 0x4a9 0 0x3ee800003ef3 0 1 0 no,
  cr 0x4aa 0 0x3ef300003efb 0 2 0 no,
  cr 0x4ab 0 0x3efb00003f05 0 1 0 no,
  cr 0x4ac 0 0x3f0500003f0f 0 1 0 no,
  cr 0x4ad 0 0x3f0f00003f18 0 1 0 no,
  cr 0x4ae 0 0x3f1800003f1d 0 1 0 no,
  cr 0x4af 0 0x3f1d00003f26 0 1 0 no,
  cr 0x4b0 0 0x3f2600003f2d 0 1 0 no,
  cr 0x4b1 0 0x3f2d00003f3d 0 no 0 no,
  cr 0x4b2 0 0x3f3d00003f48 0 1 0 no,
  cr 0x4b3 0 0x3f4800003f4e 0 1 0 no,
  cr 0x4b4 0 0x3f4e00003f5a 0 1 0 no,
  cr 0x4b5 0 0x3f5a00003f62 0 1 0 no,
  cr 0x4b6 0 0x3f6200003f67 0 1 0 no,
  cr 0x4b7 0 0x3f6700003f6d 0 1 0 no,
  cr 0x4b8 0 0x3f6d00003f73 0 1 0 no,
  cr 0x4b9 0 0x3f7300003f85 0 no 0 no,
  cr 0x4ba 0 0x3f8500003f8c 0 1 0 no,
  cr 0x4bb 0 0x3f8c00003f96 0 1 0 no,
  cr 0x4bc 0 0x3f9600003f9e 0 1 0 no,
  cr 0x4bd 0 0x3f9e00003fa6 0 no 0 no,
  cr 0x4be 0 0x3fa600003fb0 0 1 0 no,
  cr 0x4bf 0 0x3fb000003fb8 0 1 0 no,
  cr 0x4c0 0 0x3fb800003fc3 0 1 0 no,
  cr 0x4c1 0 0x3fc300003fcc 0 1 0 no,
  cr 0x4c2 0 0x3fcc00003fd6 0 1 0 no]

/-- `__cr_idx[5]`, from item 500 on (client_repo.go:1349-1459). -/
def crIdx5_1 : List ClientTuple := [
  cr 0x4c3 0 0x3fd600003fe2 0 no 0 no,
  cr 0x4c4 0 0x3fe200003ffb 0 no 0 no,
  cr 0x4c5 0 0x3ffb00004011 0 no 0 no,
  cr 0x4c6 0 0x401100004034 0 no 0 no,
  cr 0x4c7 0 0x40340000403c 0 1 0 no,
  cr 0x4c8 0 0x403c00004046 0 1 0 no,
  cr 0x4c9 0 0x404600004052 0 1 0 no,
  cr 0x4ca 0 0x40520000405e 0 no 0 no,
  cr 0x4cb 0 0x405e00004062 0 1 0 no,
  cr 0x4cc 0 0x406200004066 0 no 0 no,
  cr 0x4cd 0 0x40660000406b 0 1 0 no,
  cr 0x4ce 0 0x406b0000406e 0 1 0 no,
  cr 0x4cf 0 0x406e00004074 0 1 0 no,
  cr 0x4d0 0 0x40740000407e 0 no 0 no,
  cr 0x4d1 0 0x407e00004090 0 1 0 no,
  cr 0x4d2 0 0x409000004096 0 1 0 no,
  cr 0x4d3 0 0x40960000409a 0 1 0 no,
  cr 0x4d4 0 0x409a000040a2 0 1 0 no,
  cr 0x4d5 0 0x40a2000040a6 0 1 0 no,
  cr 0x4d6 0 0x40a6000040ae 0 1 0 no,
  cr 0x4d7 0 0x40ae000040b5 0 1 0 no,
  cr 0x4d8 0 0x40b5000040bb 0 1 0 no,
  cr 0x4d9 0 0x40bb000040c3 0 1 0 no,
  cr 0x4da 0 0x40c3000040c9 0 1 0 no,
  cr 0x4db 0 0x40c9000040d1 0 no 0 no,
  cr 0x4dc 0 0x40d1000040dd 0 1 0 no,
  cr 0x4dd 0 0x40dd000040e5 0 no 0 no,
  cr 0x4de 0 0x40e5000040ec 0 no 0 no,
  cr 0x4df 0 0x40ec000040f5 0 1 0 no,
  cr 0x4e0 0 0x40f5000040fe 0 1 0 no,
  cr 0x4e1 0 0x40fe0000410a 0 1 0 no,
  cr no 0x410a00004115 0x410a00004115 0 no 0 no,
  cr 0x4e2 0 0x41150000411f 0 1 0 no,
  cr 0x4e3 0 0x411f00004129 0 1 0 no,
  cr 0x4e4 0 0x41290000413b 0 1 0 no,
  cr 0x4e5 0 0x413b00004148 0 1 0 no,
  cr 0x4e6 0 0x414800004155 0 no 0 no,
  cr 0x4e7 0 0x41550000415e 0 1 0 no,
  cr no 0x415e00004166 0x415e00004166 0 no 0 no,
  cr 0x4e8 0 0x41660000416a 0 1 0 no,
  cr 0x4e9 0 0x416a00004175 0 1 0 no,
  cr 0x4ea 0 0x41750000418b 0 1 0 no,
  cr 0x4eb 0 0x418b00004193 0 1 0 no,
  cr no 0x4193000041a0 0x41a0000041a5 0 no 0 no,
  cr 0x4ec 0 0x41a5000041bb 0 1 0 no,
  cr no 0x41bb000041c9 0x41c9000041cf 0 no 0 no,
  cr 0x4ed 0 0x41cf000041db 0 1 0 no,
  cr 0x4ee 0 0x41db000041e5 0 1 0 no,
  cr 0x4ef 0 0x41e5000041ed 0 1 0 no,
  cr 0x4f0 0 0x41ed000041f9 0 1 0 no,
  cr 0x4f1 0 0x41f900004201 0 1 0 no,
  cr no 0x420100004209 0x420100004209 0 no 0 no,
  cr 0x4f2 0 0x420900004212 0 1 0 no,
  cr no 0x362600003633 0x362600003633 0 no 0 no,
  cr 0x4f3 0 0x42120000421a 0 1 0 no,
  cr 0x4f4 0 0x421a0000421e 0 1 0 no,
  cr 0x4f5 0 0x421e00004224 0 1 0 no,
  cr 0x4f6 0 0x42240000422b 0 1 0 no,
  cr 0x4f7 0 0x422b0000422f 0 1 0 no,
  cr 0x4f8 0 0x422f00004233 0 1 0 no,
  cr 0x4f9 0 0x423300004237 0 1 0 no,
  cr 0x4fa 0 0x42370000423b 0 1 0 no,
  cr 0x4fb 0 0x423b0000424a 0 1 0 no,
  cr 0x4fc 0 0x424a00004256 0 1 0 no,
  cr 0x4fd 0 0x425600004260 0 1 0 no,
  cr 0x4fe 0 0x426000004268 0 1 0 no,
  cr no 0x426800004272 0x426800004272 0 no 0 no,
  cr no 0x427200004278 0x427200004278 0 no 0 no,
  cr 0x4ff 0 0x42780000427d 0 1 0 no,
  cr 0x500 0 0x427d0000428a 0 1 0 no,
  cr no 0x428a00004294 0x42940000429a 0 no 0 no,
  cr 0x501 0 0x429a000042a9 0 1 0 no,
  cr 0x502 0 0x42a9000042b4 0 1 0 no,
  cr 0x503 0 0x42b4000042bc 0 1 0 no,
  cr 0x504 0 0x42bc000042ca 0 1 0 no,
  cr 0x505 0 0x42ca000042ce 0 1 0 no,
  cr 0x506 0 0x42ce000042d6 0 1 0 no,
  cr 0x507 0 0x42d6000042da 0 1 0 no,
  cr 0x508 0 0x42da000042e0 0 1 0 no,
  cr 0x509 0 0x42e0000042e7 0 1 0 no,
  cr 0x50a 0 0x42e7000042f1 0 1 0 no,
  cr 0x50b 0 0x42f100004303 0 1 0 no,
  cr 0x50c 0 0x43030000430f 0 1 0 no,
  cr 0x50d 0 0x430f00004314 0 no 0 no,
  cr 0x50e 0 0x43140000431a 0 1 0 no,
  cr 0x50f 0 0x431a0000432e 0 1 0 no,
  cr 0x510 0 0x432e00004338 0 1 0 no,
  cr 0x511 0 0x43380000433f 0 1 0 no,
  cr 0x512 0 0x433f00004344 0 1 0 no,
  cr 0x513 0 0x434400004349 0 1 0 no,
  cr 0x514 0 0x43490000434d 0 1 0 no,
  cr no 0x434d00004353 0x435300004358 0 no 0 no,
  cr 0x515 0 0x435800004364 0 1 0 no,
  cr 0x516 0 0x436400004369 0 1 0 no,
  cr 0x517 0 0x436900004379 0 1 0 no,
  cr 0x518 0 0x43790000437e 0 1 0 no,
  cr 0x519 0 0x43790000437e 0 1 0 no,
  cr 0x51a 0 0x437e00004389 0 1 0 no,
  cr 0x51b 0 0x43890000438e 0 1 0 no,
  cr 0x51c 0 0x438e00004393 0 1 0 no,
  cr 0x51d 0 0x439300004397 0 1 0 no,
  cr no 0x43970000439f 0x439f000043a7 0 no 0 no,
  cr 0x51e 0 0x43a7000043ab 0 1 0 no,
  cr 0x51f 0 0x43ab000043b2 0 1 0 no,
  cr 0x520 0 0x43ab000043b2 0 1 0 no,
  cr 0x521 0 0x43b2000043ba 0 1 0 no,
  cr 0x522 0 0x43ba000043c1 0 1 0 no,
  cr 0x523 0 0x43c1000043c8 0 1 0 no,
  cr 0x524 0 0x43c8000043ca 0 2 0 no,
  cr 0x525 0 0x43ca000043cc 0 1 0 no,
  cr 0x526 0 0x43c8000043ca 0 2 0 no]

/-- `__cr_idx[5]` (client_repo.go). -/
def crIdx5 : List ClientTuple := crIdx5_0 ++ crIdx5_1

/-- `__cr_idx[6]`, from item 0 on (client_repo.go:1463-1497). -/
def crIdx6_0 : List ClientTuple := [
  cr 0x527 0 0x43cc000043db 0 1 0 no,
  cr 0x528 0 0x43db000043ec 0 1 0 no,
  cr 0x529 0 0x43db000043ec 0 1 0 no,
  cr 0x52a 0 0x43ec000043f8 0 1 0 no,
  cr 0x52b 0 0x43f800004403 0 1 0 no,
  cr 0x52c 0 0x44030000440c 0 1 0 no,
  cr 0x52d 0 0x440c00004413 0 1 0 no,
  cr 0x52e 0 0x44130000441e 0 1 0 no,
  cr 0x52f 0 0x441e00004423 0 1 0 no,
  cr 0x530 0 0x44230000442a 0 1 0 no,
  cr 0x531 0 0x442a00004431 0 1 0 no,
  cr 0x532 0 0x443100004439 0 1 0 no,
  cr 0x533 0 0x443900004441 0 1 0 no,
  cr 0x534 0 0x44410000444a 0 1 0 no,
  cr 0x535 0 0x444a00004451 0 1 0 no,
  cr no 0x44510000445a 0x445a00004462 0 no 0 no,
  cr no 0x44620000446e 0x446e00004479 0 no 0 no,
  cr 0x536 0 0x447900004484 0 1 0 no,
  cr 0x537 0 0x448400004489 0 1 0 no,
  cr 0x538 0 0x448900004493 0 1 0 no,
  cr 0x539 0 0x449300004499 0 1 0 no,
  cr 0x53a 0 0x4499000044a1 0 1 0 no,
  cr 0x53b 0 0x44a1000044a9 0 1 0 no,
  cr 0x53c 0 0x44a9000044b3 0 1 0 no,
  cr 0x53d 0 0x44b3000044bb 0 1 0 no,
  cr no 0x44bb000044c7 0x44c7000044d1 0 no 0 no,
  cr 0x53e 0 0x44d1000044dc 0 1 0 no,
  cr 0x53f 0 0x44dc000044e5 0 1 0 no,
  cr 0x540 0 0x44e5000044ef 0 1 0 no,
  cr 0x541 0 0x44ef000044f9 0 1 0 no,
  cr 0x542 0 0x44f900004500 0 1 0 no,
  cr 0x543 0 0x45000000450b 0 1 0 no,
  cr 0x544 0 0x450b00004513 0 1 0 no,
  cr 0x545 0 0x45130000451a 0 1 0 no,
  cr no 0x451a00004527 0x45270000452c 0 no 0 no]

/-- `__cr_idx[6]` (client_repo.go). -/
def crIdx6 : List ClientTuple := crIdx6_0

/-- `__cr_ef`, from item 0 on (client_repo.go:2853-3048). -/
def crEf_0 : List Compiler.EngineFn := [
  fn [(chunk! "28", 0x180000001d)] 0x1d00000023,
  fn [(chunk! "28", 0x180000001d)] 0x1d00000023,
  fn [(chunk! "28", 0x180000001d)] 0x1d00000023,
  fn [(chunk! "28", 0x180000001d)] 0x1d00000023,
  fn [(chunk! "28", 0x180000001d)] 0x1d00000023,
  fn [(chunk! "28", 0x180000001d)] 0x1d00000023,
  fn [(chunk! "28", 0x180000001d)] 0x1d00000023,
  fn [(chunk! "28", 0x180000001d)] 0x1d00000023,
  fn [(chunk! "3", 0x1d00000023)] 0x350000003a,
  fn [(chunk! "15", 0x180000001d)] 0x2300000029,
  fn [(chunk! "15", 0x180000001d)] 0x2300000029,
  fn [(chunk! "15", 0x180000001d)] 0x2300000029,
  fn [(chunk! "15", 0x180000001d)] 0x2300000029,
  fn [(chunk! "15", 0x180000001d), (chunk! "3.5", 0xfb100000fb8), (chunk! "7", 0x2300000029)] 0,
  fn [(chunk! "28", 0x180000001d)] 0x1d00000023,
  fn [(chunk! "4", 0xfee00000fee)] 0x3a0000003f,
  fn [(chunk! "4.2", 0x180000001d)] 0x1d00000023,
  fn [(chunk! "3", 0x1d00000023)] 0,
  fn [(chunk! "28", 0x180000001d)] 0x1d00000023,
  fn [(chunk! "28", 0x180000001d)] 0x1d00000023,
  fn [(chunk! "2.28", 0x1d00000023), (chunk! "2.9.16", 0xfee00000fee)] 0x350000003a,
  fn [(chunk! "28", 0x180000001d)] 0x1d00000023,
  fn [(chunk! "28", 0x180000001d)] 0,
  fn [(chunk! "28", 0x180000001d)] 0x1d00000023,
  fn [(chunk! "28", 0x180000001d)] 0x1d00000023,
  fn [(chunk! "28", 0x180000001d)] 0x1d00000023,
  fn [(chunk! "28", 0x180000001d)] 0x1d00000023,
  fn [(chunk! "28", 0x180000001d)] 0x1d00000023,
  fn [(chunk! "28", 0x180000001d)] 0x1d00000023,
  fn [(chunk! "28", 0x180000001d)] 0x1d00000023,
  fn [(chunk! "4", 0x180000001d)] 0x1d00000023,
  fn [(chunk! "4", 0x1d00000023)] 0x14970000149b]

/-- `__cr_ef` (client_repo.go). -/
def crEf : List Compiler.EngineFn := crEf_0

/-- `__cr_ev`, from item 0 on (client_repo.go:3056-3075). -/
def crEv_0 : List (Nat × Nat) := [
  (0x760000007c, 0),
  (0x180000001d, 1),
  (0x2f00000035, 2),
  (0x142b00001430, 3),
  (0xd00000011, 4),
  (0x4b00000054, 5),
  (0xfb100000fb8, 6),
  (0x350000003a, 7),
  (0x290000002f, 8),
  (0x3a0000003f, 9),
  (0x690000006f, 0xa),
  (0x7c00000081, 0xb),
  (8, 0xc),
  (0x3f00000046, 0xd),
  (0x2300000029, 0xe),
  (0x460000004b, 0xf),
  (0x2830000028d, 0x10),
  (0x1100000018, 0x11),
  (0x1d00000023, 0x12),
  (0x14970000149b, 0x13)]

/-- `__cr_ev` (client_repo.go). -/
def crEv : List (Nat × Nat) := crEv_0

/-- `__cr_evre`, from item 0 on (client_repo.go:3078-3097). -/
def crEvre_0 : List (List Chunk) := [
  pat! "(?i)ArkWeb\\s*[/\\s]\\s*(\\d+(?:.\\d+)+)",
  pat! "(?i)Chrome\\s*[/\\s]\\s*(\\d+(?:.\\d+)+)",
  pat! "(?i)Clecko\\s*[/\\s]\\s*(\\d+(?:.\\d+)+)",
  pat! "(?i)Dillo\\s*[/\\s]\\s*(\\d+(?:.\\d+)+)",
  pat! "(?i)Edge\\s*[/\\s]\\s*(\\d+(?:.\\d+)+)",
  pat! "(?i)EkiohFlow\\s*[/\\s]\\s*(\\d+(?:.\\d+)+)",
  pat! "(?i)Elektra\\s*[/\\s]\\s*(\\d+(?:.\\d+)+)",
  pat! "(?i)[ ](?:rv[: ]([0-9\\.]+)).*gecko/[0-9.]+",
  pat! "(?i)Goanna\\s*[/\\s]\\s*(\\d+(?:.\\d+)+)",
  pat! "(?i)KHTML\\s*[/\\s]\\s*(\\d+(?:.\\d+)+)",
  pat! "(?i)LibWeb\\s*[/\\s]\\s*(\\d+(?:.\\d+)+)",
  pat! "(?i)Maple\\s*[/\\s]\\s*(\\d+(?:.\\d+)+)",
  pat! "(?i)NetFront\\s*[/\\s]\\s*(\\d+(?:.\\d+)+)",
  pat! "(?i)NetSurf\\s*[/\\s]\\s*(\\d+(?:.\\d+)+)",
  pat! "(?i)Presto\\s*[/\\s]\\s*(\\d+(?:.\\d+)+)",
  pat! "(?i)Servo\\s*[/\\s]\\s*(\\d+(?:.\\d+)+)",
  pat! "(?i)Text-based\\s*[/\\s]\\s*(\\d+(?:.\\d+)+)",
  pat! "(?i)Trident\\s*[/\\s]\\s*(\\d+(?:.\\d+)+)",
  pat! "(?i)WebKit\\s*[/\\s]\\s*(\\d+(?:.\\d+)+)",
  pat! "(?i)iCab\\s*[/\\s]\\s*(\\d+(?:.\\d+)+)"]

/-- `__cr_evre` (client_repo.go). -/
def crEvre : List (List Chunk) := crEvre_0

/-- `__cr_re`, from item 0 on (client_repo.go:1501-1750). -/
def crRe_0 : List (List Chunk) := [
  pat! "(?i)(?:^|[^A-Z0-9\\-_]|[^A-Z0-9\\-]_|sprd-|MZ-)(?:Chr[o0]me/)",
  pat! "(?i)(?:^|[^A-Z0-9\\-_]|[^A-Z0-9\\-]_|sprd-|MZ-)(?:(?:Apple)?WebKit)",
  pat! "(?i)(?:^|[^A-Z0-9\\-_]|[^A-Z0-9\\-]_|sprd-|MZ-)(?:Clecko)",
  pat! "(?i)(?:^|[^A-Z0-9\\-_]|[^A-Z0-9\\-]_|sprd-|MZ-)(?:Gecko)",
  pat! "(?i)(?:^|[^A-Z0-9\\-_]|[^A-Z0-9\\-]_|sprd-|MZ-)(?:Ekioh(?:Flow)?)",
  pat! "(?i)(?:^|[^A-Z0-9\\-_]|[^A-Z0-9\\-]_|sprd-|MZ-)(?:LibWeb\\+LibJs)",
  pat! "(?i)(?:^|[^A-Z0-9\\-_]|[^A-Z0-9\\-]_|sprd-|MZ-)(?:Maple (\\d+[.\\d]+)|Maple\\d{4})",
  pat! "(?i)(?:^|[^A-Z0-9\\-_]|[^A-Z0-9\\-]_|sprd-|MZ-)(?:FireSendBrowser/([\\d.]+))",
  pat! "(?i)(?:^|[^A-Z0-9\\-_]|[^A-Z0-9\\-]_|sprd-|MZ-)(?:buscari/([\\d.]+))",
  pat! "(?i)(?:^|[^A-Z0-9\\-_]|[^A-Z0-9\\-]_|sprd-|MZ-)(?:ArtisReader/([\\d.]+))",
  pat! "(?i)(?:^|[^A-Z0-9\\-_]|[^A-Z0-9\\-]_|sprd-|MZ-)(?:SamanthaDoubao/([\\d.]+))",
  pat! "(?i)(?:^|[^A-Z0-9\\-_]|[^A-Z0-9\\-]_|sprd-|MZ-)(?:HeyTapBrowser/([\\d.]+))",
  pat! "(?i)(?:^|[^A-Z0-9\\-_]|[^A-Z0-9\\-]_|sprd-|MZ-)(?:QuarkPC/(\\d+\\.[\\.\\d]+))",
  pat! "(?i)(?:^|[^A-Z0-9\\-_]|[^A-Z0-9\\-]_|sprd-|MZ-)(?:AltiBrowser/([\\d.]+))",
  pat! "(?i)(?:^|[^A-Z0-9\\-_]|[^A-Z0-9\\-]_|sprd-|MZ-)(?:Maple (\\d+[.\\d]+)|Maple\\d{4})",
  pat! "(?i)(?:^|[^A-Z0-9\\-_]|[^A-Z0-9\\-]_|sprd-|MZ-)(?:Singlebox/(\\d+\\.[\\.\\d]+))",
  pat! "(?i)(?:^|[^A-Z0-9\\-_]|[^A-Z0-9\\-]_|sprd-|MZ-)(?:TUSK/(\\d+[.\\d]+))",
  pat! "(?i)(?:^|[^A-Z0-9\\-_]|[^A-Z0-9\\-]_|sprd-|MZ-)(?:Dezor/(\\d+[.\\d]+))",
  pat! "(?i)(?:^|[^A-Z0-9\\-_]|[^A-Z0-9\\-]_|sprd-|MZ-)(?:OJR Browser/([\\d.]+))",
  pat! "(?i)(?:^|[^A-Z0-9\\-_]|[^A-Z0-9\\-]_|sprd-|MZ-)(?:SecureBrowser/([\\d.]+))",
  pat! "(?i)(?:^|[^A-Z0-9\\-_]|[^A-Z0-9\\-]_|sprd-|MZ-)(?:Veera/([\\d.]+))",
  pat! "(?i)(?:^|[^A-Z0-9\\-_]|[^A-Z0-9\\-]_|sprd-|MZ-)(?:Ninesky(?:-android-mobile)?/([\\d.]+))",
  pat! "(?i)(?:^|[^A-Z0-9\\-_]|[^A-Z0-9\\-]_|sprd-|MZ-)(?:Perk/([\\d.]+))",
  pat! "(?i)(?:^|[^A-Z0-9\\-_]|[^A-Z0-9\\-]_|sprd-|MZ-)(?:Presearch \\(Tempest\\))",
  pat! "(?i)(?:^|[^A-Z0-9\\-_]|[^A-Z0-9\\-]_|sprd-|MZ-)(?:QtWeb Internet Browser(?:/(\\d+[.\\d]+))?)",
  pat! "(?i)(?:^|[^A-Z0-9\\-_]|[^A-Z0-9\\-]_|sprd-|MZ-)(?:UPhoneWebBrowser(\\d+[.\\d]+))",
  pat! "(?i)(?:^|[^A-Z0-9\\-_]|[^A-Z0-9\\-]_|sprd-|MZ-)(?:(?:MIB|MotorolaWebKit.*Version)/(\\d+[.\\d]+))",
  pat! "(?i)(?:^|[^A-Z0-9\\-_]|[^A-Z0-9\\-]_|sprd-|MZ-)(?:iNet Browser(?: (\\d+[.\\d]+))?)",
  pat! "(?i)(?:^|[^A-Z0-9\\-_]|[^A-Z0-9\\-]_|sprd-|MZ-)(?:Prism/([\\d.]+))",
  pat! "(?i)(?:^|[^A-Z0-9\\-_]|[^A-Z0-9\\-]_|sprd-|MZ-)(?:Awesomium/([\\d.]+))",
  pat! "(?i)(?:^|[^A-Z0-9\\-_]|[^A-Z0-9\\-]_|sprd-|MZ-)(?:Roccat(?:/(\\d+[.\\d]+))?)",
  pat! "(?i)(?:^|[^A-Z0-9\\-_]|[^A-Z0-9\\-]_|sprd-|MZ-)(?:Swiftweasel(?:/(\\d+[.\\d]+))?)",
  pat! "(?i)(?:^|[^A-Z0-9\\-_]|[^A-Z0-9\\-]_|sprd-|MZ-)(?:wkbrowser (\\d+[.\\d]+))",
  pat! "(?i)(?:^|[^A-Z0-9\\-_]|[^A-Z0-9\\-]_|sprd-|MZ-)(?:KUN/(\\d+[.\\d]+))",
  pat! "(?i)(?:^|[^A-Z0-9\\-_]|[^A-Z0-9\\-]_|sprd-|MZ-)(?:NaenaraBrowser(?:/(\\d+[.\\d]+))?)",
  pat! "(?i)(?:^|[^A-Z0-9\\-_]|[^A-Z0-9\\-]_|sprd-|MZ-)(?:nook browser(?:/(\\d+[.\\d]+))?)",
  pat! "(?i)(?:^|[^A-Z0-9\\-_]|[^A-Z0-9\\-]_|sprd-|MZ-)(?:xChaos_Arachne/5\\.(\\d+\\.[.\\d]+))",
  pat! "(?i)(?:^|[^A-Z0-9\\-_]|[^A-Z0-9\\-]_|sprd-|MZ-)(?:WeltweitimnetzBrowser/(\\d+\\.[.\\d]+))",
  pat! "(?i)(?:^|[^A-Z0-9\\-_]|[^A-Z0-9\\-]_|sprd-|MZ-)(?:(?:Ladybird|LibWeb\\+LibJS/.*Browser)/(\\d+\\.[.\\d]+))",
  pat! "(?i)(?:^|[^A-Z0-9\\-_]|[^A-Z0-9\\-]_|sprd-|MZ-)(?:Kitt/(\\d+\\.[.\\d]+))",
  pat! "(?i)(?:^|[^A-Z0-9\\-_]|[^A-Z0-9\\-]_|sprd-|MZ-)(?:SkyLeap/(\\d+\\.[.\\d]+))",
  pat! "(?i)(?:^|[^A-Z0-9\\-_]|[^A-Z0-9\\-]_|sprd-|MZ-)(?:MaxBrowser/(\\d+\\.[.\\d]+))",
  pat! "(?i)(?:^|[^A-Z0-9\\-_]|[^A-Z0-9\\-]_|sprd-|MZ-)(?:YouBrowser/(\\d+\\.[.\\d]+))",
  pat! "(?i)(?:^|[^A-Z0-9\\-_]|[^A-Z0-9\\-]_|sprd-|MZ-)(?:EudoraWeb (\\d+[.\\d]+))",
  pat! "(?i)(?:^|[^A-Z0-9\\-_]|[^A-Z0-9\\-]_|sprd-|MZ-)(?:^w3m/(\\d+[.\\d]+))",
  pat! "(?i)(?:^|[^A-Z0-9\\-_]|[^A-Z0-9\\-]_|sprd-|MZ-)(?:WebianShell/(\\d+[.\\d]+))",
  pat! "(?i)(?:^|[^A-Z0-9\\-_]|[^A-Z0-9\\-]_|sprd-|MZ-)(?:Vonkeror(?:/(\\d+[.\\d]+))?)",
  pat! "(?i)(?:^|[^A-Z0-9\\-_]|[^A-Z0-9\\-]_|sprd-|MZ-)(?:Wyzo/(\\d+\\.[.\\d]+))",
  pat! "(?i)(?:^|[^A-Z0-9\\-_]|[^A-Z0-9\\-]_|sprd-|MZ-)(?:Liri/(\\d+\\.[.\\d]+))",
  pat! "(?i)(?:^|[^A-Z0-9\\-_]|[^A-Z0-9\\-]_|sprd-|MZ-)(?:Columbus/(\\d+\\.[.\\d]+))",
  pat! "(?i)(?:^|[^A-Z0-9\\-_]|[^A-Z0-9\\-]_|sprd-|MZ-)(?:K-Ninja/(\\d+\\.[.\\d]+))",
  pat! "(?i)(?:^|[^A-Z0-9\\-_]|[^A-Z0-9\\-]_|sprd-|MZ-)(?:^PB(\\d+\\.[.\\d]+))",
  pat! "(?i)(?:^|[^A-Z0-9\\-_]|[^A-Z0-9\\-]_|sprd-|MZ-)(?:EastBrowser/(\\d+\\.[.\\d]+))",
  pat! "(?i)(?:^|[^A-Z0-9\\-_]|[^A-Z0-9\\-]_|sprd-|MZ-)(?:Qiyu/(\\d+\\.[.\\d]+))",
  pat! "(?i)(?:^|[^A-Z0-9\\-_]|[^A-Z0-9\\-]_|sprd-|MZ-)(?:WebDiscover/(\\d+\\.[.\\d]+))",
  pat! "(?i)(?:^|[^A-Z0-9\\-_]|[^A-Z0-9\\-]_|sprd-|MZ-)(?:LeganBrowser/(\\d+\\.[.\\d]+))",
  pat! "(?i)(?:^|[^A-Z0-9\\-_]|[^A-Z0-9\\-]_|sprd-|MZ-)(?:Aplix_.*_browser/(\\d+\\.[.\\d]+))",
  pat! "(?i)(?:^|[^A-Z0-9\\-_]|[^A-Z0-9\\-]_|sprd-|MZ-)(?:Mogok/(\\d+\\.[.\\d]+))",
  pat! "(?i)(?:^|[^A-Z0-9\\-_]|[^A-Z0-9\\-]_|sprd-|MZ-)(?:(?:IOS)?TrueLocationBrowser/(\\d+\\.[.\\d]+))",
  pat! "(?i)(?:^|[^A-Z0-9\\-_]|[^A-Z0-9\\-]_|sprd-|MZ-)(?:DiigoBrowser$)",
  pat! "(?i)(?:^|[^A-Z0-9\\-_]|[^A-Z0-9\\-]_|sprd-|MZ-)(?:.*OnBrowserLite(\\d+\\.[.\\d]+))",
  pat! "(?i)(?:^|[^A-Z0-9\\-_]|[^A-Z0-9\\-]_|sprd-|MZ-)(?:Bluefy/(\\d+\\.[.\\d]+))",
  pat! "(?i)(?:^|[^A-Z0-9\\-_]|[^A-Z0-9\\-]_|sprd-|MZ-)(?:(?:Novarra-Vision|Vision-Browser)(?:/(\\d+[.\\d]+))?)",
  pat! "(?i)(?:^|[^A-Z0-9\\-_]|[^A-Z0-9\\-]_|sprd-|MZ-)(?:SurfyBrowser/(\\d+[.\\d]+))",
  pat! "(?i)(?:^|[^A-Z0-9\\-_]|[^A-Z0-9\\-]_|sprd-|MZ-)(?:18\\+/([\\d.]+))",
  pat! "(?i)(?:^|[^A-Z0-9\\-_]|[^A-Z0-9\\-]_|sprd-|MZ-)(?:GoKu-iOS/(\\d+[.\\d]+))",
  pat! "(?i)(?:^|[^A-Z0-9\\-_]|[^A-Z0-9\\-]_|sprd-|MZ-)(?:Ask\\.com Mobile Browser)",
  pat! "(?i)(?:^|[^A-Z0-9\\-_]|[^A-Z0-9\\-]_|sprd-|MZ-)(?:Bang/(\\d+[.\\d]+))",
  pat! "(?i)(?:^|[^A-Z0-9\\-_]|[^A-Z0-9\\-]_|sprd-|MZ-)(?:ManagedBrowser(?:/(\\d+[.\\d]+))?)",
  pat! "(?i)(?:^|[^A-Z0-9\\-_]|[^A-Z0-9\\-]_|sprd-|MZ-)(?:Lotus/(\\d+[.\\d]+))",
  pat! "(?i)(?:^|[^A-Z0-9\\-_]|[^A-Z0-9\\-]_|sprd-|MZ-)(?:Ninetails(?:/(\\d+[.\\d]+))?)",
  pat! "(?i)(?:^|[^A-Z0-9\\-_]|[^A-Z0-9\\-]_|sprd-|MZ-)(?:Wexond(?:/(\\d+[.\\d]+))?)",
  pat! "(?i)(?:^|[^A-Z0-9\\-_]|[^A-Z0-9\\-]_|sprd-|MZ-)(?:catalyst(?:/(\\d+[.\\d]+))?)",
  pat! "(?i)(?:^|[^A-Z0-9\\-_]|[^A-Z0-9\\-]_|sprd-|MZ-)(?:Impervious(?:/(\\d+[.\\d]+))?)",
  pat! "(?i)(?:^|[^A-Z0-9\\-_]|[^A-Z0-9\\-]_|sprd-|MZ-)(?:RakutenBrowser(?:/(\\d+[.\\d]+))?)",
  pat! "(?i)(?:^|[^A-Z0-9\\-_]|[^A-Z0-9\\-]_|sprd-|MZ-)(?:RakutenWebSearch(?:/(\\d+[.\\d]+))?)",
  pat! "(?i)(?:^|[^A-Z0-9\\-_]|[^A-Z0-9\\-]_|sprd-|MZ-)(?:VibeMate(?:/(\\d+[.\\d]+))?)",
  pat! "(?i)(?:^|[^A-Z0-9\\-_]|[^A-Z0-9\\-]_|sprd-|MZ-)(?:yixia\\.browser/com\\.donerbrowser\\.app/)",
  pat! "(?i)(?:^|[^A-Z0-9\\-_]|[^A-Z0-9\\-]_|sprd-|MZ-)(?:tararia/(\\d+\\.[.\\d]+))",
  pat! "(?i)(?:^|[^A-Z0-9\\-_]|[^A-Z0-9\\-]_|sprd-|MZ-)(?:SberBrowser/(\\d+\\.[.\\d]+))",
  pat! "(?i)(?:^|[^A-Z0-9\\-_]|[^A-Z0-9\\-]_|sprd-|MZ-)(?:Raspbian Chromium/(?:(\\d+[.\\d]+))?)",
  pat! "(?i)(?:^|[^A-Z0-9\\-_]|[^A-Z0-9\\-]_|sprd-|MZ-)(?:Quick Search TV(?:/(?:Wild Moon Edition )?(\\d+[.\\d]+))?)",
  pat! "(?i)(?:^|[^A-Z0-9\\-_]|[^A-Z0-9\\-]_|sprd-|MZ-)(?:Skye/(\\d+\\.[.\\d]+))",
  pat! "(?i)(?:^|[^A-Z0-9\\-_]|[^A-Z0-9\\-]_|sprd-|MZ-)(?:VD/\\d+)",
  pat! "(?i)(?:^|[^A-Z0-9\\-_]|[^A-Z0-9\\-]_|sprd-|MZ-)(?:\\[(?:HB/29|PB/(?:66|81))\\])",
  pat! "(?i)(?:^|[^A-Z0-9\\-_]|[^A-Z0-9\\-]_|sprd-|MZ-)(?:\\[HS/\\d+\\])",
  pat! "(?i)(?:^|[^A-Z0-9\\-_]|[^A-Z0-9\\-]_|sprd-|MZ-)(?:\\[PB/\\d+\\])",
  pat! "(?i)(?:^|[^A-Z0-9\\-_]|[^A-Z0-9\\-]_|sprd-|MZ-)(?:^Normalized (?:iPad|iPhone) \\(iOS Safari\\))",
  pat! "(?i)(?:^|[^A-Z0-9\\-_]|[^A-Z0-9\\-]_|sprd-|MZ-)(?:Nuviu/(?:(\\d+[.\\d]+))?)",
  pat! "(?i)(?:^|[^A-Z0-9\\-_]|[^A-Z0-9\\-]_|sprd-|MZ-)(?:DoCoMo/(?:(\\d+[.\\d]+))?)",
  pat! "(?i)(?:^|[^A-Z0-9\\-_]|[^A-Z0-9\\-]_|sprd-|MZ-)(?:com\\.airfind\\.browser/(?:(\\d+[.\\d]+))?)",
  pat! "(?i)(?:^|[^A-Z0-9\\-_]|[^A-Z0-9\\-]_|sprd-|MZ-)(?:ArcMobile2(?:/(\\d+\\.[.\\d]+);)?)",
  pat! "(?i)(?:^|[^A-Z0-9\\-_]|[^A-Z0-9\\-]_|sprd-|MZ-)(?:Nuanti(?:Meta)?/(\\d+\\.[.\\d]+))",
  pat! "(?i)(?:^|[^A-Z0-9\\-_]|[^A-Z0-9\\-]_|sprd-|MZ-)(?:RokuBrowser/(\\d+\\.[.\\d]+))",
  pat! "(?i)(?:^|[^A-Z0-9\\-_]|[^A-Z0-9\\-]_|sprd-|MZ-)(?:PicoBrowser/(\\d+\\.[.\\d]+))",
  pat! "(?i)(?:^|[^A-Z0-9\\-_]|[^A-Z0-9\\-]_|sprd-|MZ-)(?:Alva/(\\d+\\.[.\\d]+))",
  pat! "(?i)(?:^|[^A-Z0-9\\-_]|[^A-Z0-9\\-]_|sprd-|MZ-)(?:Norton/(\\d+\\.[.\\d]+))",
  pat! "(?i)(?:^|[^A-Z0-9\\-_]|[^A-Z0-9\\-]_|sprd-|MZ-)(?:Odd/(\\d+\\.[.\\d]+))",
  pat! "(?i)(?:^|[^A-Z0-9\\-_]|[^A-Z0-9\\-]_|sprd-|MZ-)(?:Safari/537\\.36 (?:Browser|Navegador))",
  pat! "(?i)(?:^|[^A-Z0-9\\-_]|[^A-Z0-9\\-]_|sprd-|MZ-)(?:YAGI/(\\d+\\.[.\\d]+))",
  pat! "(?i)(?:^|[^A-Z0-9\\-_]|[^A-Z0-9\\-]_|sprd-|MZ-)(?:Keepsafe Browser(?:/(\\d+[.\\d]+))?)",
  pat! "(?i)(?:^|[^A-Z0-9\\-_]|[^A-Z0-9\\-]_|sprd-|MZ-)(?:(.*)Vast Browser/(\\d+\\.[.\\d]+))",
  pat! "(?i)(?:^|[^A-Z0-9\\-_]|[^A-Z0-9\\-]_|sprd-|MZ-)(?:(.*)U Browser(\\d+\\.[.\\d]+))",
  pat! "(?i)(?:^|[^A-Z0-9\\-_]|[^A-Z0-9\\-]_|sprd-|MZ-)(?:Chrome/(\\d+\\.[.\\d]+).+TeslaBrowser/)",
  pat! "(?i)(?:^|[^A-Z0-9\\-_]|[^A-Z0-9\\-]_|sprd-|MZ-)(?:Chrome/(\\d+\\.[.\\d]+).+Sparrow)",
  pat! "(?i)(?:^|[^A-Z0-9\\-_]|[^A-Z0-9\\-]_|sprd-|MZ-)(?:Sparrow/.+CFNetwork)",
  pat! "(?i)(?:^|[^A-Z0-9\\-_]|[^A-Z0-9\\-]_|sprd-|MZ-)(?:Lilo/(\\d+\\.[.\\d]+))",
  pat! "(?i)(?:^|[^A-Z0-9\\-_]|[^A-Z0-9\\-]_|sprd-|MZ-)(?:Lilo/.+CFNetwork)",
  pat! "(?i)(?:^|[^A-Z0-9\\-_]|[^A-Z0-9\\-]_|sprd-|MZ-)(?:lexi/(\\d+[.\\d]+))",
  pat! "(?i)(?:^|[^A-Z0-9\\-_]|[^A-Z0-9\\-]_|sprd-|MZ-)(?:Floorp/(\\d+[.\\d]+))",
  pat! "(?i)(?:^|[^A-Z0-9\\-_]|[^A-Z0-9\\-]_|sprd-|MZ-)(?:SurfBrowser/(\\d+[.\\d]+))",
  pat! "(?i)(?:^|[^A-Z0-9\\-_]|[^A-Z0-9\\-]_|sprd-|MZ-)(?:ABB/(\\d+[.\\d]+))",
  pat! "(?i)(?:^|[^A-Z0-9\\-_]|[^A-Z0-9\\-]_|sprd-|MZ-)(?:\\d+/tclwebkit(?:\\d+[.\\d]*))",
  pat! "(?i)(?:^|[^A-Z0-9\\-_]|[^A-Z0-9\\-]_|sprd-|MZ-)(?:HiBrowser/v?(\\d+[.\\d]+))",
  pat! "(?i)(?:^|[^A-Z0-9\\-_]|[^A-Z0-9\\-]_|sprd-|MZ-)(?:CYBrowser/(\\d+[.\\d]+))",
  pat! "(?i)(?:^|[^A-Z0-9\\-_]|[^A-Z0-9\\-]_|sprd-|MZ-)(?:Chrome/.+ SiteKiosk (\\d+[.\\d]+))",
  pat! "(?i)(?:^|[^A-Z0-9\\-_]|[^A-Z0-9\\-]_|sprd-|MZ-)(?:SiteKiosk (\\d+[.\\d]+))",
  pat! "(?i)(?:^|[^A-Z0-9\\-_]|[^A-Z0-9\\-]_|sprd-|MZ-)(?:ReqwirelessWeb/(\\d+[.\\d]+))",
  pat! "(?i)(?:^|[^A-Z0-9\\-_]|[^A-Z0-9\\-]_|sprd-|MZ-)(?:T\\+Browser/(\\d+[.\\d]+))",
  pat! "(?i)(?:^|[^A-Z0-9\\-_]|[^A-Z0-9\\-]_|sprd-|MZ-)(?:Private Browser/(\\d+[.\\d]+) Chrome/)",
  pat! "(?i)(?:^|[^A-Z0-9\\-_]|[^A-Z0-9\\-]_|sprd-|MZ-)(?:ChanjetCloud/(\\d+[.\\d]+))",
  pat! "(?i)(?:^|[^A-Z0-9\\-_]|[^A-Z0-9\\-]_|sprd-|MZ-)(?:SushiBrowser/(\\d+[.\\d]+))",
  pat! "(?i)(?:^|[^A-Z0-9\\-_]|[^A-Z0-9\\-]_|sprd-|MZ-)(?:dBrowser/(\\d+[.\\d]+))",
  pat! "(?i)(?:^|[^A-Z0-9\\-_]|[^A-Z0-9\\-]_|sprd-|MZ-)(?:LTBrowser/(\\d+[.\\d]+))",
  pat! "(?i)(?:^|[^A-Z0-9\\-_]|[^A-Z0-9\\-]_|sprd-|MZ-)(?:lagatos-browser/(\\d+[.\\d]+))",
  pat! "(?i)(?:^|[^A-Z0-9\\-_]|[^A-Z0-9\\-]_|sprd-|MZ-)(?:psi-secure-browser/(\\d+[.\\d]+))",
  pat! "(?i)(?:^|[^A-Z0-9\\-_]|[^A-Z0-9\\-]_|sprd-|MZ-)(?:Harman_Browser/(\\d+[.\\d]+))",
  pat! "(?i)(?:^|[^A-Z0-9\\-_]|[^A-Z0-9\\-]_|sprd-|MZ-)(?:bonsai-browser/(\\d+[.\\d]+))",
  pat! "(?i)(?:^|[^A-Z0-9\\-_]|[^A-Z0-9\\-]_|sprd-|MZ-)(?:spectre-browser/(\\d+[.\\d]+))",
  pat! "(?i)(?:^|[^A-Z0-9\\-_]|[^A-Z0-9\\-]_|sprd-|MZ-)(?:FlashBrowser/(\\d+[.\\d]+))",
  pat! "(?i)(?:^|[^A-Z0-9\\-_]|[^A-Z0-9\\-]_|sprd-|MZ-)(?:Secure/(?:(\\d+[.\\d]+))?)",
  pat! "(?i)(?:^|[^A-Z0-9\\-_]|[^A-Z0-9\\-]_|sprd-|MZ-)(?:Arvin/(\\d+[.\\d]+))",
  pat! "(?i)(?:^|[^A-Z0-9\\-_]|[^A-Z0-9\\-]_|sprd-|MZ-)(?:Version/.+Chrome/.+EdgW/(\\d+[.\\d]+))",
  pat! "(?i)(?:^|[^A-Z0-9\\-_]|[^A-Z0-9\\-]_|sprd-|MZ-)(?:Mandarin Browser/(\\d+[.\\d]+))",
  pat! "(?i)(?:^|[^A-Z0-9\\-_]|[^A-Z0-9\\-]_|sprd-|MZ-)(?:Torrent/(\\d+[.\\d]+))",
  pat! "(?i)(?:^|[^A-Z0-9\\-_]|[^A-Z0-9\\-]_|sprd-|MZ-)(?:Helio/(\\d+[.\\d]+))",
  pat! "(?i)(?:^|[^A-Z0-9\\-_]|[^A-Z0-9\\-]_|sprd-|MZ-)(?:7654Browser/(\\d+[.\\d]+))",
  pat! "(?i)(?:^|[^A-Z0-9\\-_]|[^A-Z0-9\\-]_|sprd-|MZ-)(?:Qazweb/(\\d+[.\\d]+))",
  pat! "(?i)(?:^|[^A-Z0-9\\-_]|[^A-Z0-9\\-]_|sprd-|MZ-)(?:Degdegan/(\\d+[.\\d]+))",
  pat! "(?i)(?:^|[^A-Z0-9\\-_]|[^A-Z0-9\\-]_|sprd-|MZ-)(?:JavaFX/(\\d+[.\\d]+))",
  pat! "(?i)(?:^|[^A-Z0-9\\-_]|[^A-Z0-9\\-]_|sprd-|MZ-)(?:Chedot/(\\d+[.\\d]+))",
  pat! "(?i)(?:^|[^A-Z0-9\\-_]|[^A-Z0-9\\-]_|sprd-|MZ-)(?:Chrome/(\\d+\\.[.\\d]+) .*\\(Chromium GOST\\))",
  pat! "(?i)(?:^|[^A-Z0-9\\-_]|[^A-Z0-9\\-]_|sprd-|MZ-)(?:(?:DeledaoPersonal|DeledaoFamily)/(\\d+[.\\d]+))",
  pat! "(?i)(?:^|[^A-Z0-9\\-_]|[^A-Z0-9\\-]_|sprd-|MZ-)(?:HasBrowser/(\\d+[.\\d]+))",
  pat! "(?i)(?:^|[^A-Z0-9\\-_]|[^A-Z0-9\\-]_|sprd-|MZ-)(?:Byffox/(\\d+[.\\d]+))",
  pat! "(?i)(?:^|[^A-Z0-9\\-_]|[^A-Z0-9\\-]_|sprd-|MZ-)(?:Chrome/(\\d+\\.[.\\d]+) .*AgentWeb.+UCBrowser)",
  pat! "(?i)(?:^|[^A-Z0-9\\-_]|[^A-Z0-9\\-]_|sprd-|MZ-)(?:DotBrowser/(\\d+[.\\d]+))",
  pat! "(?i)(?:^|[^A-Z0-9\\-_]|[^A-Z0-9\\-]_|sprd-|MZ-)(?:CravingExplorer/(\\d+[.\\d]+))",
  pat! "(?i)(?:^|[^A-Z0-9\\-_]|[^A-Z0-9\\-]_|sprd-|MZ-)(?:DeskBrowse/(\\d+[.\\d]+))",
  pat! "(?i)(?:^|[^A-Z0-9\\-_]|[^A-Z0-9\\-]_|sprd-|MZ-)(?:Lolifox/(\\d+[.\\d]+))",
  pat! "(?i)(?:^|[^A-Z0-9\\-_]|[^A-Z0-9\\-]_|sprd-|MZ-)(?:PiBrowser/(\\d+[.\\d]+))",
  pat! "(?i)(?:^|[^A-Z0-9\\-_]|[^A-Z0-9\\-]_|sprd-|MZ-)(?:qutebrowser/(\\d+\\.[.\\d]+) .*Chrome)",
  pat! "(?i)(?:^|[^A-Z0-9\\-_]|[^A-Z0-9\\-]_|sprd-|MZ-)(?:qutebrowser(?:/(\\d+[.\\d]+))?)",
  pat! "(?i)(?:^|[^A-Z0-9\\-_]|[^A-Z0-9\\-]_|sprd-|MZ-)(?:flast/(\\d+[.\\d]+))",
  pat! "(?i)(?:^|[^A-Z0-9\\-_]|[^A-Z0-9\\-]_|sprd-|MZ-)(?:PolyBrowser/(\\d+[.\\d]+))",
  pat! "(?i)(?:^|[^A-Z0-9\\-_]|[^A-Z0-9\\-]_|sprd-|MZ-)(?:Chrome.+BriskBard/(\\d+[.\\d]+))",
  pat! "(?i)(?:^|[^A-Z0-9\\-_]|[^A-Z0-9\\-]_|sprd-|MZ-)(?:BriskBard(?:/(\\d+[.\\d]+))?)",
  pat! "(?i)(?:^|[^A-Z0-9\\-_]|[^A-Z0-9\\-]_|sprd-|MZ-)(?:GinxDroid(?:Browser)?/(\\d+[.\\d]+))",
  pat! "(?i)(?:^|[^A-Z0-9\\-_]|[^A-Z0-9\\-]_|sprd-|MZ-)(?:Avira(?:Scout)?/(\\d+[.\\d]+))",
  pat! "(?i)(?:^|[^A-Z0-9\\-_]|[^A-Z0-9\\-]_|sprd-|MZ-)(?:VenusBrowser/(\\d+[.\\d]+))",
  pat! "(?i)(?:^|[^A-Z0-9\\-_]|[^A-Z0-9\\-]_|sprd-|MZ-)(?:Chrome.+Otter(?:[ /](\\d+[.\\d]+))?)",
  pat! "(?i)(?:^|[^A-Z0-9\\-_]|[^A-Z0-9\\-]_|sprd-|MZ-)(?:Otter(?:[ /](\\d+[.\\d]+))?)",
  pat! "(?i)(?:^|[^A-Z0-9\\-_]|[^A-Z0-9\\-]_|sprd-|MZ-)(?:Chrome.+Smooz/(\\d+[.\\d]+))",
  pat! "(?i)(?:^|[^A-Z0-9\\-_]|[^A-Z0-9\\-]_|sprd-|MZ-)(?:Smooz/(\\d+[.\\d]+))",
  pat! "(?i)(?:^|[^A-Z0-9\\-_]|[^A-Z0-9\\-]_|sprd-|MZ-)(?:BanglaBrowser/(\\d+\\.[.\\d]+))",
  pat! "(?i)(?:^|[^A-Z0-9\\-_]|[^A-Z0-9\\-]_|sprd-|MZ-)(?:Cornowser/(\\d+[.\\d]+))",
  pat! "(?i)(?:^|[^A-Z0-9\\-_]|[^A-Z0-9\\-]_|sprd-|MZ-)(?:Orca/(\\d+[.\\d]+))",
  pat! "(?i)(?:^|[^A-Z0-9\\-_]|[^A-Z0-9\\-]_|sprd-|MZ-)(?:Android (?:[\\d.]+;) ?(?:[^;]+;)? Flow\\) AppleWebKit/537.+Chrome/\\d{3})",
  pat! "(?i)(?:^|[^A-Z0-9\\-_]|[^A-Z0-9\\-]_|sprd-|MZ-)(?:Flow/(?:(\\d+[.\\d]+)))",
  pat! "(?i)(?:^|[^A-Z0-9\\-_]|[^A-Z0-9\\-]_|sprd-|MZ-)(?:Ekioh/(?:(\\d+[.\\d]+)))",
  pat! "(?i)(?:^|[^A-Z0-9\\-_]|[^A-Z0-9\\-]_|sprd-|MZ-)(?:xStand/(\\d+[.\\d]+))",
  pat! "(?i)(?:^|[^A-Z0-9\\-_]|[^A-Z0-9\\-]_|sprd-|MZ-)(?:Biyubi/(\\d+[.\\d]+))",
  pat! "(?i)(?:^|[^A-Z0-9\\-_]|[^A-Z0-9\\-]_|sprd-|MZ-)(?:(?:Perfect%20Browser(?:-iPad)?|Perfect(?:BrowserPro)?)/(\\d+[.\\d]+))",
  pat! "(?i)(?:^|[^A-Z0-9\\-_]|[^A-Z0-9\\-]_|sprd-|MZ-)(?:Browser/Phantom/V(\\d+[.\\d]+))",
  pat! "(?i)(?:^|[^A-Z0-9\\-_]|[^A-Z0-9\\-]_|sprd-|MZ-)(?:AwoX(?:/(\\d+[.\\d]+))? Browser)",
  pat! "(?i)(?:^|[^A-Z0-9\\-_]|[^A-Z0-9\\-]_|sprd-|MZ-)(?:Zetakey/(\\d+[.\\d]+))",
  pat! "(?i)(?:^|[^A-Z0-9\\-_]|[^A-Z0-9\\-]_|sprd-|MZ-)(?:PlayFreeBrowser/(?:(\\d+[.\\d]+))?)",
  pat! "(?i)(?:^|[^A-Z0-9\\-_]|[^A-Z0-9\\-]_|sprd-|MZ-)(?:(?:chimlac_browser|chimlac)/(?:(\\d+[.\\d]+)))",
  pat! "(?i)(?:^|[^A-Z0-9\\-_]|[^A-Z0-9\\-]_|sprd-|MZ-)(?:Odin/(?:(\\d+[.\\d]+)))",
  pat! "(?i)(?:^|[^A-Z0-9\\-_]|[^A-Z0-9\\-]_|sprd-|MZ-)(?:Tbrowser/(\\d+[.\\d]+))",
  pat! "(?i)(?:^|[^A-Z0-9\\-_]|[^A-Z0-9\\-]_|sprd-|MZ-)(?:com\\.tcl\\.browser)",
  pat! "(?i)(?:^|[^A-Z0-9\\-_]|[^A-Z0-9\\-]_|sprd-|MZ-)(?:WhaleBrowser/(\\d+[.\\d]+))",
  pat! "(?i)(?:^|[^A-Z0-9\\-_]|[^A-Z0-9\\-]_|sprd-|MZ-)(?:SFive(?:_Android)?/.+ Chrome/(\\d+[.\\d]+))",
  pat! "(?i)(?:^|[^A-Z0-9\\-_]|[^A-Z0-9\\-]_|sprd-|MZ-)(?:SFive_IOS/(\\d+[.\\d]+))",
  pat! "(?i)(?:^|[^A-Z0-9\\-_]|[^A-Z0-9\\-]_|sprd-|MZ-)(?:Navigateur web/(?:(\\d+[.\\d]+))?)",
  pat! "(?i)(?:^|[^A-Z0-9\\-_]|[^A-Z0-9\\-]_|sprd-|MZ-)(?:Sraf(?:[/ ](\\d+[.\\d]+))?)",
  pat! "(?i)(?:^|[^A-Z0-9\\-_]|[^A-Z0-9\\-]_|sprd-|MZ-)(?:SeewoBrowser/(?:(\\d+[.\\d]+))?)",
  pat! "(?i)(?:^|[^A-Z0-9\\-_]|[^A-Z0-9\\-]_|sprd-|MZ-)(?:(?:Kode(?:iOS)?/(?:(\\d+[.\\d]+))?|TansoDL))",
  pat! "(?i)(?:^|[^A-Z0-9\\-_]|[^A-Z0-9\\-]_|sprd-|MZ-)(?:UR/(?:(\\d+[.\\d]+)))",
  pat! "(?i)(?:^|[^A-Z0-9\\-_]|[^A-Z0-9\\-]_|sprd-|MZ-)(?:OceanHero/([.\\d]+))",
  pat! "(?i)(?:^|[^A-Z0-9\\-_]|[^A-Z0-9\\-]_|sprd-|MZ-)(?:Chrome/.+ SLBrowser/(?:(\\d+[.\\d]+))?)",
  pat! "(?i)(?:^|[^A-Z0-9\\-_]|[^A-Z0-9\\-]_|sprd-|MZ-)(?:SLBrowser/(?:(\\d+[.\\d]+))?)",
  pat! "(?i)(?:^|[^A-Z0-9\\-_]|[^A-Z0-9\\-]_|sprd-|MZ-)(?:Stargon/(?:(\\d+[.\\d]+))?)",
  pat! "(?i)(?:^|[^A-Z0-9\\-_]|[^A-Z0-9\\-]_|sprd-|MZ-)(?:NFSBrowser/(?:(\\d+[.\\d]+))?)",
  pat! "(?i)(?:^|[^A-Z0-9\\-_]|[^A-Z0-9\\-]_|sprd-|MZ-)(?:Borealis/(\\d+[.\\d]+))",
  pat! "(?i)(?:^|[^A-Z0-9\\-_]|[^A-Z0-9\\-]_|sprd-|MZ-)(?:YoloBrowser/(?:(\\d+[.\\d]+))?)",
  pat! "(?i)(?:^|[^A-Z0-9\\-_]|[^A-Z0-9\\-]_|sprd-|MZ-)(?:PHX/(?:(\\d+[.\\d]+))?)",
  pat! "(?i)(?:^|[^A-Z0-9\\-_]|[^A-Z0-9\\-]_|sprd-|MZ-)(?:PrivacyWall/(?:(\\d+[.\\d]+))?)",
  pat! "(?i)(?:^|[^A-Z0-9\\-_]|[^A-Z0-9\\-]_|sprd-|MZ-)(?:Ghostery:?(\\d+[.\\d]+)?)",
  pat! "(?i)(?:^|[^A-Z0-9\\-_]|[^A-Z0-9\\-]_|sprd-|MZ-)(?:Firefox/.*(?:Turkcell-)?YaaniBrowser(?:/(\\d+[.\\d]+))?)",
  pat! "(?i)(?:^|[^A-Z0-9\\-_]|[^A-Z0-9\\-]_|sprd-|MZ-)(?:(?:Turkcell-)?YaaniBrowser(?:/(\\d+[.\\d]+))?)",
  pat! "(?i)(?:^|[^A-Z0-9\\-_]|[^A-Z0-9\\-]_|sprd-|MZ-)(?:SEB/(?:(\\d+[.\\d]+))?)",
  pat! "(?i)(?:^|[^A-Z0-9\\-_]|[^A-Z0-9\\-]_|sprd-|MZ-)(?:Colibri/(?:(\\d+[.\\d]+))?)",
  pat! "(?i)(?:^|[^A-Z0-9\\-_]|[^A-Z0-9\\-]_|sprd-|MZ-)(?:Xvast/(?:(\\d+[.\\d]+))?)",
  pat! "(?i)(?:^|[^A-Z0-9\\-_]|[^A-Z0-9\\-]_|sprd-|MZ-)(?:TungstenBrowser/(?:(\\d+[.\\d]+))?)",
  pat! "(?i)(?:^|[^A-Z0-9\\-_]|[^A-Z0-9\\-]_|sprd-|MZ-)(?:Lulumi-browser/(?:(\\d+[.\\d]+))?)",
  pat! "(?i)(?:^|[^A-Z0-9\\-_]|[^A-Z0-9\\-]_|sprd-|MZ-)(?:ybrowser/(?:(\\d+[.\\d]+))?)",
  pat! "(?i)(?:^|[^A-Z0-9\\-_]|[^A-Z0-9\\-]_|sprd-|MZ-)(?:iLunascapeLite/(?:(\\d+\\.[.\\d]+))?)",
  pat! "(?i)(?:^|[^A-Z0-9\\-_]|[^A-Z0-9\\-]_|sprd-|MZ-)(?:Chrome/.+ i?Lunascape(?:[/ ](\\d+\\.[.\\d]+))?)",
  pat! "(?i)(?:^|[^A-Z0-9\\-_]|[^A-Z0-9\\-]_|sprd-|MZ-)(?:i?Lunascape(?:[/ ](\\d+\\.[.\\d]+))?)",
  pat! "(?i)(?:^|[^A-Z0-9\\-_]|[^A-Z0-9\\-]_|sprd-|MZ-)(?:Polypane/(?:(\\d+[.\\d]+))?)",
  pat! "(?i)(?:^|[^A-Z0-9\\-_]|[^A-Z0-9\\-]_|sprd-|MZ-)(?:OhHaiBrowser/(?:(\\d+[.\\d]+))?)",
  pat! "(?i)(?:^|[^A-Z0-9\\-_]|[^A-Z0-9\\-]_|sprd-|MZ-)(?:Sizzy/(?:(\\d+[.\\d]+))?)",
  pat! "(?i)(?:^|[^A-Z0-9\\-_]|[^A-Z0-9\\-]_|sprd-|MZ-)(?:GlassBrowser/(?:(\\d+[.\\d]+))?)",
  pat! "(?i)(?:^|[^A-Z0-9\\-_]|[^A-Z0-9\\-]_|sprd-|MZ-)(?:ToGate/(?:(\\d+[.\\d]+))?)",
  pat! "(?i)(?:^|[^A-Z0-9\\-_]|[^A-Z0-9\\-]_|sprd-|MZ-)(?:(?:AirWatch Browser v|AirWatchBrowser/)(?:(\\d+[.\\d]+))?)",
  pat! "(?i)(?:^|[^A-Z0-9\\-_]|[^A-Z0-9\\-]_|sprd-|MZ-)(?:AOL (\\d+[.\\d]+))",
  pat! "(?i)(?:^|[^A-Z0-9\\-_]|[^A-Z0-9\\-]_|sprd-|MZ-)(?:ADG/(?:(\\d+[.\\d]+))?)",
  pat! "(?i)(?:^|[^A-Z0-9\\-_]|[^A-Z0-9\\-]_|sprd-|MZ-)(?:Elements Browser/(?:(\\d+[.\\d]+))?)",
  pat! "(?i)(?:^|[^A-Z0-9\\-_]|[^A-Z0-9\\-]_|sprd-|MZ-)(?:Light/(\\d+[.\\d]+))",
  pat! "(?i)(?:^|[^A-Z0-9\\-_]|[^A-Z0-9\\-]_|sprd-|MZ-)(?:Valve Steam GameOverlay/(?:(\\d+[.\\d]+))?)",
  pat! "(?i)(?:^|[^A-Z0-9\\-_]|[^A-Z0-9\\-]_|sprd-|MZ-)(?:115Browser/(?:(\\d+[.\\d]+))?)",
  pat! "(?i)(?:^|[^A-Z0-9\\-_]|[^A-Z0-9\\-]_|sprd-|MZ-)(?:Atom/(?:(\\d+[.\\d]+))?)",
  pat! "(?i)(?:^|[^A-Z0-9\\-_]|[^A-Z0-9\\-]_|sprd-|MZ-)(?:Wolvic/(\\d+\\.[.\\d]+))",
  pat! "(?i)(?:^|[^A-Z0-9\\-_]|[^A-Z0-9\\-]_|sprd-|MZ-)(?:Mobile VR.+Firefox)",
  pat! "(?i)(?:^|[^A-Z0-9\\-_]|[^A-Z0-9\\-]_|sprd-|MZ-)(?:AVG/(\\d+[.\\d]+))",
  pat! "(?i)(?:^|[^A-Z0-9\\-_]|[^A-Z0-9\\-]_|sprd-|MZ-)(?:AT/(\\d+[.\\d]+))",
  pat! "(?i)(?:^|[^A-Z0-9\\-_]|[^A-Z0-9\\-]_|sprd-|MZ-)(?:Start/(?:(\\d+[.\\d]+))?)",
  pat! "(?i)(?:^|[^A-Z0-9\\-_]|[^A-Z0-9\\-]_|sprd-|MZ-)(?:Lovense(?:/(\\d+[.\\d]+))?)",
  pat! "(?i)(?:^|[^A-Z0-9\\-_]|[^A-Z0-9\\-]_|sprd-|MZ-)(?:(?:com\\.airfind\\.deltabrowser|AirSearch)(?:/(\\d+[.\\d]+))?)",
  pat! "(?i)(?:^|[^A-Z0-9\\-_]|[^A-Z0-9\\-]_|sprd-|MZ-)(?:(?:Ordissimo|webissimo3)(?:/(\\d+[.\\d]+))?)",
  pat! "(?i)(?:^|[^A-Z0-9\\-_]|[^A-Z0-9\\-]_|sprd-|MZ-)(?:CCleaner(?:/(\\d+[.\\d]+))?)",
  pat! "(?i)(?:^|[^A-Z0-9\\-_]|[^A-Z0-9\\-]_|sprd-|MZ-)(?:AlohaLite(?:/(\\d+[.\\d]+))?)",
  pat! "(?i)(?:^|[^A-Z0-9\\-_]|[^A-Z0-9\\-]_|sprd-|MZ-)(?:TaoBrowser(?:/(\\d+[.\\d]+))?)",
  pat! "(?i)(?:^|[^A-Z0-9\\-_]|[^A-Z0-9\\-]_|sprd-|MZ-)(?:Atlas/(\\d+[.\\d]+)$)",
  pat! "(?i)(?:^|[^A-Z0-9\\-_]|[^A-Z0-9\\-]_|sprd-|MZ-)(?:Falkon(?:/(\\d+[.\\d]+))?)",
  pat! "(?i)(?:^|[^A-Z0-9\\-_]|[^A-Z0-9\\-]_|sprd-|MZ-)(?:mCent(?:/(\\d+[.\\d]+))?)",
  pat! "(?i)(?:^|[^A-Z0-9\\-_]|[^A-Z0-9\\-]_|sprd-|MZ-)(?:SalamWeb(?:/(\\d+[.\\d]+))?)",
  pat! "(?i)(?:^|[^A-Z0-9\\-_]|[^A-Z0-9\\-]_|sprd-|MZ-)(?:BlackHawk(?:/(\\d+[.\\d]+))?)",
  pat! "(?i)(?:^|[^A-Z0-9\\-_]|[^A-Z0-9\\-]_|sprd-|MZ-)(?:Minimo(?:/(\\d+[.\\d]+))?)",
  pat! "(?i)(?:^|[^A-Z0-9\\-_]|[^A-Z0-9\\-]_|sprd-|MZ-)(?:WIB/(\\d+[.\\d]+))",
  pat! "(?i)(?:^|[^A-Z0-9\\-_]|[^A-Z0-9\\-]_|sprd-|MZ-)(?:Kinza(?:/(\\d+[.\\d]+))?)",
  pat! "(?i)(?:^|[^A-Z0-9\\-_]|[^A-Z0-9\\-]_|sprd-|MZ-)(?:Beamrise(?:/(\\d+[.\\d]+))?)",
  pat! "(?i)(?:^|[^A-Z0-9\\-_]|[^A-Z0-9\\-]_|sprd-|MZ-)(?:Faux(?:/(\\d+[.\\d]+))?)",
  pat! "(?i)(?:^|[^A-Z0-9\\-_]|[^A-Z0-9\\-]_|sprd-|MZ-)(?:splash Version(?:/(\\d+[.\\d]+))?)",
  pat! "(?i)(?:^|[^A-Z0-9\\-_]|[^A-Z0-9\\-]_|sprd-|MZ-)(?:MZBrowser(?:/(\\d+[.\\d]+))?)",
  pat! "(?i)(?:^|[^A-Z0-9\\-_]|[^A-Z0-9\\-]_|sprd-|MZ-)(?:COSBrowser(?:/(\\d+[.\\d]+))?)",
  pat! "(?i)(?:^|[^A-Z0-9\\-_]|[^A-Z0-9\\-]_|sprd-|MZ-)(?:Crusta(?:/(\\d+[.\\d]+))?)",
  pat! "(?i)(?:^|[^A-Z0-9\\-_]|[^A-Z0-9\\-]_|sprd-|MZ-)(?:Hawk/TurboBrowser(?:/v?(\\d+[.\\d]+))?)",
  pat! "(?i)(?:^|[^A-Z0-9\\-_]|[^A-Z0-9\\-]_|sprd-|MZ-)(?:Hawk/QuickBrowser(?:/v?(\\d+[.\\d]+))?)"]

/-- `__cr_re`, from item 250 on (client_repo.go:1751-2000). -/
def crRe_1 : List (List Chunk) := [
  pat! "(?i)(?:^|[^A-Z0-9\\-_]|[^A-Z0-9\\-]_|sprd-|MZ-)(?:FreeU(?:/(\\d+[.\\d]+))?)",
  pat! "(?i)(?:^|[^A-Z0-9\\-_]|[^A-Z0-9\\-]_|sprd-|MZ-)(?:NoxBrowser(?:/(\\d+[.\\d]+))?)",
  pat! "(?i)(?:^|[^A-Z0-9\\-_]|[^A-Z0-9\\-]_|sprd-|MZ-)(?:Basilisk(?:/(\\d+[.\\d]+))?)",
  pat! "(?i)(?:^|[^A-Z0-9\\-_]|[^A-Z0-9\\-]_|sprd-|MZ-)(?:SputnikBrowser(?:/(\\d+[.\\d]+))?)",
  pat! "(?i)(?:^|[^A-Z0-9\\-_]|[^A-Z0-9\\-]_|sprd-|MZ-)(?:TNSBrowser(?:/(\\d+[.\\d]+))?)",
  pat! "(?i)(?:^|[^A-Z0-9\\-_]|[^A-Z0-9\\-]_|sprd-|MZ-)(?:OculusBrowser(?:/(\\d+[.\\d]+))?)",
  pat! "(?i)(?:^|[^A-Z0-9\\-_]|[^A-Z0-9\\-]_|sprd-|MZ-)(?:Jio(?:Browser|Pages|Sphere)(?:/(\\d+[.\\d]+))?)",
  pat! "(?i)(?:^|[^A-Z0-9\\-_]|[^A-Z0-9\\-]_|sprd-|MZ-)(?:SY/(\\d+[.\\d]+) Chrome/)",
  pat! "(?i)(?:^|[^A-Z0-9\\-_]|[^A-Z0-9\\-]_|sprd-|MZ-)(?:Chrome/.+ Hola(?:/(\\d+[.\\d]+))?)",
  pat! "(?i)(?:^|[^A-Z0-9\\-_]|[^A-Z0-9\\-]_|sprd-|MZ-)(?:SlimBoat/(?:(\\d+[.\\d]+)))",
  pat! "(?i)(?:^|[^A-Z0-9\\-_]|[^A-Z0-9\\-]_|sprd-|MZ-)(?:Slimjet/(?:(\\d+[.\\d]+)))",
  pat! "(?i)(?:^|[^A-Z0-9\\-_]|[^A-Z0-9\\-]_|sprd-|MZ-)(?:(?:7Star|Kuaiso)/(?:(\\d+[.\\d]+)))",
  pat! "(?i)(?:^|[^A-Z0-9\\-_]|[^A-Z0-9\\-]_|sprd-|MZ-)(?:MxNitro/(?:(\\d+[.\\d]+)))",
  pat! "(?i)(?:^|[^A-Z0-9\\-_]|[^A-Z0-9\\-]_|sprd-|MZ-)(?:HuaweiBrowser(?:/(\\d+[.\\d]+))?)",
  pat! "(?i)(?:^|[^A-Z0-9\\-_]|[^A-Z0-9\\-]_|sprd-|MZ-)(?:HBPC/(\\d+[.\\d]+))",
  pat! "(?i)(?:^|[^A-Z0-9\\-_]|[^A-Z0-9\\-]_|sprd-|MZ-)(?:ZTE ?Browser/)",
  pat! "(?i)(?:^|[^A-Z0-9\\-_]|[^A-Z0-9\\-]_|sprd-|MZ-)(?:VivoBrowser(?:/(\\d+[.\\d]+))?)",
  pat! "(?i)(?:^|[^A-Z0-9\\-_]|[^A-Z0-9\\-]_|sprd-|MZ-)(?:RealmeBrowser(?:/(\\d+[.\\d]+))?)",
  pat! "(?i)(?:^|[^A-Z0-9\\-_]|[^A-Z0-9\\-]_|sprd-|MZ-)(?:Beaker ?Browser(?:[/ ](\\d+[.\\d]+))?)",
  pat! "(?i)(?:^|[^A-Z0-9\\-_]|[^A-Z0-9\\-]_|sprd-|MZ-)(?:QwantiOS/(\\d+[.\\d]+))",
  pat! "(?i)(?:^|[^A-Z0-9\\-_]|[^A-Z0-9\\-]_|sprd-|MZ-)(?:Chrome/.*QwantMobile(?:/(\\d+[.\\d]+))?)",
  pat! "(?i)(?:^|[^A-Z0-9\\-_]|[^A-Z0-9\\-]_|sprd-|MZ-)(?:QwantMobile(?:/(\\d+[.\\d]+))?)",
  pat! "(?i)(?:^|[^A-Z0-9\\-_]|[^A-Z0-9\\-]_|sprd-|MZ-)(?:Qwant/(\\d+[.\\d]+))",
  pat! "(?i)(?:^|[^A-Z0-9\\-_]|[^A-Z0-9\\-]_|sprd-|MZ-)(?:TenFourFox(?:/(\\d+[.\\d]+))?)",
  pat! "(?i)(?:^|[^A-Z0-9\\-_]|[^A-Z0-9\\-]_|sprd-|MZ-)(?:Chrome/.+ AOLShield(?:/(\\d+[.\\d]+))?)",
  pat! "(?i)(?:^|[^A-Z0-9\\-_]|[^A-Z0-9\\-]_|sprd-|MZ-)(?:AOLShield(?:/(\\d+[.\\d]+))?)",
  pat! "(?i)(?:^|[^A-Z0-9\\-_]|[^A-Z0-9\\-]_|sprd-|MZ-)(?:Edge/(\\d+[.\\d]+) CFNetwork)",
  pat! "(?i)(?:^|[^A-Z0-9\\-_]|[^A-Z0-9\\-]_|sprd-|MZ-)(?:Edge[ /](\\d+[.\\d]+))",
  pat! "(?i)(?:^|[^A-Z0-9\\-_]|[^A-Z0-9\\-]_|sprd-|MZ-)(?:EdgiOS[ /](\\d+[.\\d]+))",
  pat! "(?i)(?:^|[^A-Z0-9\\-_]|[^A-Z0-9\\-]_|sprd-|MZ-)(?:EdgA[ /](\\d+[.\\d]+))",
  pat! "(?i)(?:^|[^A-Z0-9\\-_]|[^A-Z0-9\\-]_|sprd-|MZ-)(?:Edg[ /](\\d+[.\\d]+))",
  pat! "(?i)(?:^|[^A-Z0-9\\-_]|[^A-Z0-9\\-]_|sprd-|MZ-)(?:Browser/harmony360Browser/(\\d+[.\\d]+)$)",
  pat! "(?i)(?:^|[^A-Z0-9\\-_]|[^A-Z0-9\\-]_|sprd-|MZ-)(?:QIHU 360[ES]E|QihooBrowserHD/(\\d+[.\\d]+))",
  pat! "(?i)(?:^|[^A-Z0-9\\-_]|[^A-Z0-9\\-]_|sprd-|MZ-)(?:Chrome.+Safari/537\\.36/(\\d+[.\\d]+)$)",
  pat! "(?i)(?:^|[^A-Z0-9\\-_]|[^A-Z0-9\\-]_|sprd-|MZ-)(?:360 Aphone Browser(?:[ /]?\\(?(\\d+[.\\d]+)(?:beta)?\\)?)?)",
  pat! "(?i)(?:^|[^A-Z0-9\\-_]|[^A-Z0-9\\-]_|sprd-|MZ-)(?:SailfishBrowser(?:/(\\d+[.\\d]+))?)",
  pat! "(?i)(?:^|[^A-Z0-9\\-_]|[^A-Z0-9\\-]_|sprd-|MZ-)(?:IceCat(?:/(\\d+[.\\d]+))?)",
  pat! "(?i)(?:^|[^A-Z0-9\\-_]|[^A-Z0-9\\-]_|sprd-|MZ-)(?:Camino(?:/(\\d+[.\\d]+))?)",
  pat! "(?i)(?:^|[^A-Z0-9\\-_]|[^A-Z0-9\\-]_|sprd-|MZ-)(?:Waterfox(?:/(\\d+[.\\d]+))?)",
  pat! "(?i)(?:^|[^A-Z0-9\\-_]|[^A-Z0-9\\-]_|sprd-|MZ-)(?:VertexSurf/(\\d+\\.[.\\d]+))",
  pat! "(?i)(?:^|[^A-Z0-9\\-_]|[^A-Z0-9\\-]_|sprd-|MZ-)(?:Chrome/.+ AlohaBrowser(?:/(\\d+[.\\d]+))?)",
  pat! "(?i)(?:^|[^A-Z0-9\\-_]|[^A-Z0-9\\-]_|sprd-|MZ-)(?:AlohaBrowser(?:App)?(?:/(\\d+[.\\d]+))?)",
  pat! "(?i)(?:^|[^A-Z0-9\\-_]|[^A-Z0-9\\-]_|sprd-|MZ-)(?:Chrome/.+Tenta/(\\d+[.\\d]+))",
  pat! "(?i)(?:^|[^A-Z0-9\\-_]|[^A-Z0-9\\-]_|sprd-|MZ-)(?:Tenta/(\\d+[.\\d]+))",
  pat! "(?i)(?:^|[^A-Z0-9\\-_]|[^A-Z0-9\\-]_|sprd-|MZ-)(?:Chrome.+(?:Avast(?:SecureBrowser)?|ASW|Safer)(?:/(\\d+[.\\d]+))?)",
  pat! "(?i)(?:^|[^A-Z0-9\\-_]|[^A-Z0-9\\-]_|sprd-|MZ-)(?:(?:Avast(?:SecureBrowser)?|ASW|Safer)(?:/(\\d+[.\\d]+))?)",
  pat! "(?i)(?:^|[^A-Z0-9\\-_]|[^A-Z0-9\\-]_|sprd-|MZ-)(?:Android \\d+; [A-Za-z0-9]{10}; U; [^;]+\\) AppleWebKit/.+Chrome/)",
  pat! "(?i)(?:^|[^A-Z0-9\\-_]|[^A-Z0-9\\-]_|sprd-|MZ-)(?:Epic(?:/(\\d+[.\\d]+)))",
  pat! "(?i)(?:^|[^A-Z0-9\\-_]|[^A-Z0-9\\-]_|sprd-|MZ-)(?:Fennec(?:/(\\d+[.\\d]+))?)",
  pat! "(?i)(?:^|[^A-Z0-9\\-_]|[^A-Z0-9\\-]_|sprd-|MZ-)(?:Firefox.*Tablet browser (\\d+[.\\d]+))",
  pat! "(?i)(?:^|[^A-Z0-9\\-_]|[^A-Z0-9\\-]_|sprd-|MZ-)(?:Maemo Browser(?: (\\d+[.\\d]+))?)",
  pat! "(?i)(?:^|[^A-Z0-9\\-_]|[^A-Z0-9\\-]_|sprd-|MZ-)(?:Deepnet Explorer (\\d+[.\\d]+)?)",
  pat! "(?i)(?:^|[^A-Z0-9\\-_]|[^A-Z0-9\\-]_|sprd-|MZ-)(?:Avant ?Browser)",
  pat! "(?i)(?:^|[^A-Z0-9\\-_]|[^A-Z0-9\\-]_|sprd-|MZ-)(?:OppoBrowser(?:/(\\d+[.\\d]+))?)",
  pat! "(?i)(?:^|[^A-Z0-9\\-_]|[^A-Z0-9\\-]_|sprd-|MZ-)(?:Chrome/(\\d+\\.[.\\d]+) .*MRCHROME)",
  pat! "(?i)(?:^|[^A-Z0-9\\-_]|[^A-Z0-9\\-]_|sprd-|MZ-)(?:AtomicBrowser(?:/(\\d+[.\\d]+))?)",
  pat! "(?i)(?:^|[^A-Z0-9\\-_]|[^A-Z0-9\\-]_|sprd-|MZ-)(?:Bunjalloo(?:/(\\d+[.\\d]+))?)",
  pat! "(?i)(?:^|[^A-Z0-9\\-_]|[^A-Z0-9\\-]_|sprd-|MZ-)(?:Chrome/(\\d+\\.[.\\d]+).*Brave/)",
  pat! "(?i)(?:^|[^A-Z0-9\\-_]|[^A-Z0-9\\-]_|sprd-|MZ-)(?:Brave(?: Chrome)?(?:/(\\d+[.\\d]+))?)",
  pat! "(?i)(?:^|[^A-Z0-9\\-_]|[^A-Z0-9\\-]_|sprd-|MZ-)(?:Iridium(?:/(\\d+[.\\d]+))?)",
  pat! "(?i)(?:^|[^A-Z0-9\\-_]|[^A-Z0-9\\-]_|sprd-|MZ-)(?:Iceweasel(?:/(\\d+[.\\d]+))?)",
  pat! "(?i)(?:^|[^A-Z0-9\\-_]|[^A-Z0-9\\-]_|sprd-|MZ-)(?:.*Goanna.*PaleMoon(?:/(\\d+[.\\d]+))?)",
  pat! "(?i)(?:^|[^A-Z0-9\\-_]|[^A-Z0-9\\-]_|sprd-|MZ-)(?:PaleMoon(?:/(\\d+[.\\d]+))?)",
  pat! "(?i)(?:^|[^A-Z0-9\\-_]|[^A-Z0-9\\-]_|sprd-|MZ-)(?:CometBird(?:/(\\d+[.\\d]+))?)",
  pat! "(?i)(?:^|[^A-Z0-9\\-_]|[^A-Z0-9\\-]_|sprd-|MZ-)(?:IceDragon(?:/(\\d+[.\\d]+))?)",
  pat! "(?i)(?:^|[^A-Z0-9\\-_]|[^A-Z0-9\\-]_|sprd-|MZ-)(?:Flock(?:/(\\d+[.\\d]+))?)",
  pat! "(?i)(?:^|[^A-Z0-9\\-_]|[^A-Z0-9\\-]_|sprd-|MZ-)(?:JigBrowserPlus/(?:(\\d+[.\\d]+))?)",
  pat! "(?i)(?:^|[^A-Z0-9\\-_]|[^A-Z0-9\\-]_|sprd-|MZ-)(?:jig browser(?: web;|9i?)?(?:[/ ](\\d+[.\\d]+))?)",
  pat! "(?i)(?:^|[^A-Z0-9\\-_]|[^A-Z0-9\\-]_|sprd-|MZ-)(?:Kapiko(?:/(\\d+[.\\d]+))?)",
  pat! "(?i)(?:^|[^A-Z0-9\\-_]|[^A-Z0-9\\-]_|sprd-|MZ-)(?:Kylo(?:/(\\d+[.\\d]+))?)",
  pat! "(?i)(?:^|[^A-Z0-9\\-_]|[^A-Z0-9\\-]_|sprd-|MZ-)(?:Origin/(?:(\\d+[.\\d]+))?)",
  pat! "(?i)(?:^|[^A-Z0-9\\-_]|[^A-Z0-9\\-]_|sprd-|MZ-)(?:Cunaguaro(?:/(\\d+[.\\d]+))?)",
  pat! "(?i)(?:^|[^A-Z0-9\\-_]|[^A-Z0-9\\-]_|sprd-|MZ-)(?:(?:TO-Browser/TOB|DT-Browser/DTB)(\\d+[.\\d]+))",
  pat! "(?i)(?:^|[^A-Z0-9\\-_]|[^A-Z0-9\\-]_|sprd-|MZ-)(?:Kazehakase(?:/(\\d+[.\\d]+))?)",
  pat! "(?i)(?:^|[^A-Z0-9\\-_]|[^A-Z0-9\\-]_|sprd-|MZ-)(?:ArcticFox(?:/(\\d+[.\\d]+))?)",
  pat! "(?i)(?:^|[^A-Z0-9\\-_]|[^A-Z0-9\\-]_|sprd-|MZ-)(?:Mypal(?:/(\\d+[.\\d]+))?)",
  pat! "(?i)(?:^|[^A-Z0-9\\-_]|[^A-Z0-9\\-]_|sprd-|MZ-)(?:Centaury(?:/(\\d+[.\\d]+))?)",
  pat! "(?i)(?:^|[^A-Z0-9\\-_]|[^A-Z0-9\\-]_|sprd-|MZ-)(?:(?:Focus|Klar)(?:/(\\d+[.\\d]+)))",
  pat! "(?i)(?:^|[^A-Z0-9\\-_]|[^A-Z0-9\\-]_|sprd-|MZ-)(?:Cyberfox(?:/(\\d+[.\\d]+))?)",
  pat! "(?i)(?:^|[^A-Z0-9\\-_]|[^A-Z0-9\\-]_|sprd-|MZ-)(?:Firefox/(\\d+\\.[.\\d]+).*\\(Swiftfox\\))",
  pat! "(?i)(?:^|[^A-Z0-9\\-_]|[^A-Z0-9\\-]_|sprd-|MZ-)(?:UCBrowserHD/(\\d[\\d.]+))",
  pat! "(?i)(?:^|[^A-Z0-9\\-_]|[^A-Z0-9\\-]_|sprd-|MZ-)(?:UCMini(?:[ /]?(\\d+[.\\d]+))?)",
  pat! "(?i)(?:^|[^A-Z0-9\\-_]|[^A-Z0-9\\-]_|sprd-|MZ-)(?:UC[ ]?Browser.* \\(UCMini\\))",
  pat! "(?i)(?:^|[^A-Z0-9\\-_]|[^A-Z0-9\\-]_|sprd-|MZ-)(?:Chrome.+uc mini browser(\\d+[.\\d]+)?)",
  pat! "(?i)(?:^|[^A-Z0-9\\-_]|[^A-Z0-9\\-]_|sprd-|MZ-)(?:UCTurbo(?:[ /]?(\\d+[.\\d]+))?)",
  pat! "(?i)(?:^|[^A-Z0-9\\-_]|[^A-Z0-9\\-]_|sprd-|MZ-)(?:UC[ ]?Browser.* \\(UCTurbo\\))",
  pat! "(?i)(?:^|[^A-Z0-9\\-_]|[^A-Z0-9\\-]_|sprd-|MZ-)(?:ArkWeb/(?:\\d+[.\\d]+) (?:Mobile )?UC[ ]?Browser(?:[ /]?(\\d+[.\\d]+))?$)",
  pat! "(?i)(?:^|[^A-Z0-9\\-_]|[^A-Z0-9\\-]_|sprd-|MZ-)(?:UC[ ]?Browser(?:[ /]?(\\d+[.\\d]+))?)",
  pat! "(?i)(?:^|[^A-Z0-9\\-_]|[^A-Z0-9\\-]_|sprd-|MZ-)(?:UCWEB(?:[ /]?(\\d+[.\\d]+))?)",
  pat! "(?i)(?:^|[^A-Z0-9\\-_]|[^A-Z0-9\\-]_|sprd-|MZ-)(?:UC%20Browser/(\\d+[.\\d]+)? CFNetwork/.+Darwin/.+)",
  pat! "(?i)(?:^|[^A-Z0-9\\-_]|[^A-Z0-9\\-]_|sprd-|MZ-)(?:Chrome.+UC Browser(\\d+[.\\d]+))",
  pat! "(?i)(?:^|[^A-Z0-9\\-_]|[^A-Z0-9\\-]_|sprd-|MZ-)(?:Firefox.+UCKai/(\\d+[.\\d]+))",
  pat! "(?i)(?:^|[^A-Z0-9\\-_]|[^A-Z0-9\\-]_|sprd-|MZ-)(?:(?:Mobile|Tablet).*Servo.*Firefox(?:/(\\d+[.\\d]+))?)",
  pat! "(?i)(?:^|[^A-Z0-9\\-_]|[^A-Z0-9\\-]_|sprd-|MZ-)(?:(?:Mobile|Tablet).*Firefox(?:/(\\d+[.\\d]+))?)",
  pat! "(?i)(?:^|[^A-Z0-9\\-_]|[^A-Z0-9\\-]_|sprd-|MZ-)(?:FxiOS/(\\d+[.\\d]+))",
  pat! "(?i)(?:^|[^A-Z0-9\\-_]|[^A-Z0-9\\-]_|sprd-|MZ-)(?:.*Servo.*Firefox(?:/(\\d+[.\\d]+))?)",
  pat! "(?i)(?:^|[^A-Z0-9\\-_]|[^A-Z0-9\\-]_|sprd-|MZ-)(?:Firefox(?:[ /](\\d+[.\\d]+))?)",
  pat! "(?i)(?:^|[^A-Z0-9\\-_]|[^A-Z0-9\\-]_|sprd-|MZ-)(?:(?:BonEcho|GranParadiso|Lorentz|Minefield|Namoroka|Shiretoko)[ /](\\d+[.\\d]+))",
  pat! "(?i)(?:^|[^A-Z0-9\\-_]|[^A-Z0-9\\-]_|sprd-|MZ-)(?:ANTFresco(?:[/ ](\\d+[.\\d]+))?)",
  pat! "(?i)(?:^|[^A-Z0-9\\-_]|[^A-Z0-9\\-]_|sprd-|MZ-)(?:ANTGalio(?:/(\\d+[.\\d]+))?)",
  pat! "(?i)(?:^|[^A-Z0-9\\-_]|[^A-Z0-9\\-]_|sprd-|MZ-)(?:(?:Espial|Escape)(?:[/ ](\\d+[.\\d]+))?)",
  pat! "(?i)(?:^|[^A-Z0-9\\-_]|[^A-Z0-9\\-]_|sprd-|MZ-)(?:RockMelt(?:/(\\d+[.\\d]+))?)",
  pat! "(?i)(?:^|[^A-Z0-9\\-_]|[^A-Z0-9\\-]_|sprd-|MZ-)(?:Fireweb Navigator(?:/(\\d+[.\\d]+))?)",
  pat! "(?i)(?:^|[^A-Z0-9\\-_]|[^A-Z0-9\\-]_|sprd-|MZ-)(?:Fireweb(?:/(\\d+[.\\d]+))?)",
  pat! "(?i)(?:^|[^A-Z0-9\\-_]|[^A-Z0-9\\-]_|sprd-|MZ-)(?:(?:Navigator|Netscape6?)(?:/(\\d+[.\\d]+))?)",
  pat! "(?i)(?:^|[^A-Z0-9\\-_]|[^A-Z0-9\\-]_|sprd-|MZ-)(?:(?:Polarity)(?:[/ ](\\d+[.\\d]+))?)",
  pat! "(?i)(?:^|[^A-Z0-9\\-_]|[^A-Z0-9\\-]_|sprd-|MZ-)(?:(?:QupZilla)(?:[/ ](\\d+[.\\d]+))?)",
  pat! "(?i)(?:^|[^A-Z0-9\\-_]|[^A-Z0-9\\-]_|sprd-|MZ-)(?:(?:Dooble)(?:[/ ](\\d+[.\\d]+))?)",
  pat! "(?i)(?:^|[^A-Z0-9\\-_]|[^A-Z0-9\\-]_|sprd-|MZ-)(?:Whale/(\\d+[.\\d]+))",
  pat! "(?i)(?:^|[^A-Z0-9\\-_]|[^A-Z0-9\\-]_|sprd-|MZ-)(?:Obigo[ ]?(?:InternetBrowser|Browser)?(?:[ /]([a-z0-9]*))?)",
  pat! "(?i)(?:^|[^A-Z0-9\\-_]|[^A-Z0-9\\-]_|sprd-|MZ-)(?:Obigo|Teleca)",
  pat! "(?i)(?:^|[^A-Z0-9\\-_]|[^A-Z0-9\\-]_|sprd-|MZ-)(?:Chrome/.+ OP(?:RG)?X(?:/(\\d+[.\\d]+))?)",
  pat! "(?i)(?:^|[^A-Z0-9\\-_]|[^A-Z0-9\\-]_|sprd-|MZ-)(?:OP(?:RG)?X(?:/(\\d+[.\\d]+))?)",
  pat! "(?i)(?:^|[^A-Z0-9\\-_]|[^A-Z0-9\\-]_|sprd-|MZ-)(?:Opera(?:%20)?GX/.+CFNetwork/.+Darwin/)",
  pat! "(?i)(?:^|[^A-Z0-9\\-_]|[^A-Z0-9\\-]_|sprd-|MZ-)(?:(?:Opera Tablet.*Version|Opera/.+Opera Mobi.+Version|Mobile.+OPR)/(\\d+[.\\d]+))",
  pat! "(?i)(?:^|[^A-Z0-9\\-_]|[^A-Z0-9\\-]_|sprd-|MZ-)(?:MMS/(\\d+[.\\d]+))",
  pat! "(?i)(?:^|[^A-Z0-9\\-_]|[^A-Z0-9\\-]_|sprd-|MZ-)(?:OMI/(\\d+[.\\d]+))",
  pat! "(?i)(?:^|[^A-Z0-9\\-_]|[^A-Z0-9\\-]_|sprd-|MZ-)(?:Opera%20Touch/(\\d+[.\\d]+)?.+CFNetwork)",
  pat! "(?i)(?:^|[^A-Z0-9\\-_]|[^A-Z0-9\\-]_|sprd-|MZ-)(?:Opera%20Touch/.+CFNetwork)",
  pat! "(?i)(?:^|[^A-Z0-9\\-_]|[^A-Z0-9\\-]_|sprd-|MZ-)(?:Opera/.+CFNetwork)",
  pat! "(?i)(?:^|[^A-Z0-9\\-_]|[^A-Z0-9\\-]_|sprd-|MZ-)(?:OPT/(\\d+[.\\d]+))",
  pat! "(?i)(?:^|[^A-Z0-9\\-_]|[^A-Z0-9\\-]_|sprd-|MZ-)(?:Opera/(\\d+\\.[.\\d]+) .*Opera Mobi)",
  pat! "(?i)(?:^|[^A-Z0-9\\-_]|[^A-Z0-9\\-]_|sprd-|MZ-)(?:Opera ?Mini/(?:att/)?(\\d+[.\\d]+))",
  pat! "(?i)(?:^|[^A-Z0-9\\-_]|[^A-Z0-9\\-]_|sprd-|MZ-)(?:Opera ?Mini.+Version/(\\d+[.\\d]+))",
  pat! "(?i)(?:^|[^A-Z0-9\\-_]|[^A-Z0-9\\-]_|sprd-|MZ-)(?:OPiOS/(\\d+[.\\d]+))",
  pat! "(?i)(?:^|[^A-Z0-9\\-_]|[^A-Z0-9\\-]_|sprd-|MZ-)(?:Opera%20Mini/(\\d+[.\\d]+) CFNetwork)",
  pat! "(?i)(?:^|[^A-Z0-9\\-_]|[^A-Z0-9\\-]_|sprd-|MZ-)(?:Opera.+Edition Next.+Version/(\\d+[.\\d]+))",
  pat! "(?i)(?:^|[^A-Z0-9\\-_]|[^A-Z0-9\\-]_|sprd-|MZ-)(?:(?:Opera|OPR)[/ ](?:9\\.80.*Version/)?(\\d+\\.[.\\d]+) .*Edition Next)",
  pat! "(?i)(?:^|[^A-Z0-9\\-_]|[^A-Z0-9\\-]_|sprd-|MZ-)(?:(?:Opera[/ ]?|OPR[/ ])(?:9\\.80.*Version/)?(\\d+[.\\d]+))",
  pat! "(?i)(?:^|[^A-Z0-9\\-_]|[^A-Z0-9\\-]_|sprd-|MZ-)(?:Chrome.+Opera/)",
  pat! "(?i)(?:^|[^A-Z0-9\\-_]|[^A-Z0-9\\-]_|sprd-|MZ-)(?:rekonq(?:/(\\d+[.\\d]+))?)",
  pat! "(?i)(?:^|[^A-Z0-9\\-_]|[^A-Z0-9\\-]_|sprd-|MZ-)(?:CoolNovo(?:/(\\d+[.\\d]+))?)",
  pat! "(?i)(?:^|[^A-Z0-9\\-_]|[^A-Z0-9\\-]_|sprd-|MZ-)(?:(?:Comodo[ _])?Dragon/(\\d+[.\\d]+))",
  pat! "(?i)(?:^|[^A-Z0-9\\-_]|[^A-Z0-9\\-]_|sprd-|MZ-)(?:ChromePlus(?:/(\\d+[.\\d]+))?)",
  pat! "(?i)(?:^|[^A-Z0-9\\-_]|[^A-Z0-9\\-]_|sprd-|MZ-)(?:Conkeror(?:/(\\d+[.\\d]+))?)",
  pat! "(?i)(?:^|[^A-Z0-9\\-_]|[^A-Z0-9\\-]_|sprd-|MZ-)(?:Konqueror(?:/(\\d+[.\\d]+))?)",
  pat! "(?i)(?:^|[^A-Z0-9\\-_]|[^A-Z0-9\\-]_|sprd-|MZ-)(?:bdhonorbrowser/(\\d+[.\\d]+))",
  pat! "(?i)(?:^|[^A-Z0-9\\-_]|[^A-Z0-9\\-]_|sprd-|MZ-)(?:(?:baidubrowser|bdbrowser(?:(?:hd)?_i18n)?|FlyFlow|BaiduHD)(?:[/ ](\\d+[.\\d]*))?)",
  pat! "(?i)(?:^|[^A-Z0-9\\-_]|[^A-Z0-9\\-]_|sprd-|MZ-)(?:(?:(?:BD)?Spark(?:Safe)?|BIDUBrowser)[/ ](\\d+[.\\d]*))",
  pat! "(?i)(?:^|[^A-Z0-9\\-_]|[^A-Z0-9\\-]_|sprd-|MZ-)(?:YaBrowser(?:/(\\d+[.\\d]*)) YaApp_iOS)",
  pat! "(?i)(?:^|[^A-Z0-9\\-_]|[^A-Z0-9\\-]_|sprd-|MZ-)(?:iP(?:hone|ad).*YaBrowser(?:/(\\d+[.\\d]*)))",
  pat! "(?i)(?:^|[^A-Z0-9\\-_]|[^A-Z0-9\\-]_|sprd-|MZ-)(?:YaBrowser(?:/(\\d+[.\\d]*)) \\(lite\\)?)",
  pat! "(?i)(?:^|[^A-Z0-9\\-_]|[^A-Z0-9\\-]_|sprd-|MZ-)(?:YaBrowser/(\\d+[.\\d]*).*corp)",
  pat! "(?i)(?:^|[^A-Z0-9\\-_]|[^A-Z0-9\\-]_|sprd-|MZ-)(?:YaBrowser(?:/(\\d+[.\\d]*))(?: \\((alpha|beta)\\))?)",
  pat! "(?i)(?:^|[^A-Z0-9\\-_]|[^A-Z0-9\\-]_|sprd-|MZ-)(?:Ya(?:ndex)?SearchBrowser(?:/(\\d+[.\\d]*)))",
  pat! "(?i)(?:^|[^A-Z0-9\\-_]|[^A-Z0-9\\-]_|sprd-|MZ-)(?:Viv(?:aldi)?/(\\d+[.\\d]+))",
  pat! "(?i)(?:^|[^A-Z0-9\\-_]|[^A-Z0-9\\-]_|sprd-|MZ-)(?:TweakStyle(?:/(\\d+[.\\d]+))?)",
  pat! "(?i)(?:^|[^A-Z0-9\\-_]|[^A-Z0-9\\-]_|sprd-|MZ-)(?:Chrome.+Midori Browser/(\\d+[.\\d]+))",
  pat! "(?i)(?:^|[^A-Z0-9\\-_]|[^A-Z0-9\\-]_|sprd-|MZ-)(?:Midori(?:[ /](\\d+[.\\d]+))?)",
  pat! "(?i)(?:^|[^A-Z0-9\\-_]|[^A-Z0-9\\-]_|sprd-|MZ-)(?:Mercury/(?:(\\d+[.\\d]+))?)",
  pat! "(?i)(?:^|[^A-Z0-9\\-_]|[^A-Z0-9\\-]_|sprd-|MZ-)(?:Chrome.+Maxthon/\\d{4})",
  pat! "(?i)(?:^|[^A-Z0-9\\-_]|[^A-Z0-9\\-]_|sprd-|MZ-)(?:Chrome.+(?:MxBrowser|Maxthon)(?:.+\\(portable\\))?/(\\d+\\.[.\\d]+))",
  pat! "(?i)(?:^|[^A-Z0-9\\-_]|[^A-Z0-9\\-]_|sprd-|MZ-)(?:(?:Maxthon(?:%20Browser)?|MxBrowser(?:-inhouse|-iPhone)?|MXiOS)[ /](\\d+[.\\d]+)?)",
  pat! "(?i)(?:^|[^A-Z0-9\\-_]|[^A-Z0-9\\-]_|sprd-|MZ-)(?:(?:Maxthon|MyIE2))",
  pat! "(?i)(?:^|[^A-Z0-9\\-_]|[^A-Z0-9\\-]_|sprd-|MZ-)(?:Puffin/(\\d+[.\\d]+)FP)",
  pat! "(?i)(?:^|[^A-Z0-9\\-_]|[^A-Z0-9\\-]_|sprd-|MZ-)(?:Puffin/(\\d+[.\\d]+)(?:[LMW]D))",
  pat! "(?i)(?:^|[^A-Z0-9\\-_]|[^A-Z0-9\\-]_|sprd-|MZ-)(?:Puffin/(\\d+[.\\d]+)(?:[AILW][PT]|M)?)",
  pat! "(?i)(?:^|[^A-Z0-9\\-_]|[^A-Z0-9\\-]_|sprd-|MZ-)(?:MobileIron(?:/(\\d+[.\\d]+))?)",
  pat! "(?i)(?:^|[^A-Z0-9\\-_]|[^A-Z0-9\\-]_|sprd-|MZ-)(?:Chrome(?:/(\\d+\\.[.\\d]+) )?.*Iron)",
  pat! "(?i)(?:^|[^A-Z0-9\\-_]|[^A-Z0-9\\-]_|sprd-|MZ-)(?:Iron/(\\d+[.\\d]+))",
  pat! "(?i)(?:^|[^A-Z0-9\\-_]|[^A-Z0-9\\-]_|sprd-|MZ-)(?:Epiphany(?:/(\\d+[.\\d]+))?)",
  pat! "(?i)(?:^|[^A-Z0-9\\-_]|[^A-Z0-9\\-]_|sprd-|MZ-)(?:LieBaoFast(?:[ /](\\d+[.\\d]+))?)",
  pat! "(?i)(?:^|[^A-Z0-9\\-_]|[^A-Z0-9\\-]_|sprd-|MZ-)(?:LBBrowser(?:[ /](\\d+[.\\d]+))?)",
  pat! "(?i)(?:^|[^A-Z0-9\\-_]|[^A-Z0-9\\-]_|sprd-|MZ-)(?:SE (\\d+[.\\d]+))",
  pat! "(?i)(?:^|[^A-Z0-9\\-_]|[^A-Z0-9\\-]_|sprd-|MZ-)(?:QQBrowserLite/([\\d.]+))",
  pat! "(?i)(?:^|[^A-Z0-9\\-_]|[^A-Z0-9\\-]_|sprd-|MZ-)(?:M?QQBrowser/Mini([.\\d]+)?)",
  pat! "(?i)(?:^|[^A-Z0-9\\-_]|[^A-Z0-9\\-]_|sprd-|MZ-)(?:M?QQ(?:Browser|\xe6\xb5\x8f\xe8\xa7\x88\xe5\x99\xa8)(?:/([.\\d]+))?)",
  pat! "(?i)(?:^|[^A-Z0-9\\-_]|[^A-Z0-9\\-]_|sprd-|MZ-)(?:(?:MIUIBrowser|MiuiBrowser)(?:/(\\d+[.\\d]+))?)",
  pat! "(?i)(?:^|[^A-Z0-9\\-_]|[^A-Z0-9\\-]_|sprd-|MZ-)(?:(?:coc_coc_browser|coccocbrowser|CocCoc)(?:/(\\d+[.\\d]+))?)",
  pat! "(?i)(?:^|[^A-Z0-9\\-_]|[^A-Z0-9\\-]_|sprd-|MZ-)(?:(?:DuckDuckGo|Ddg)/(\\d+[.\\d]*))",
  pat! "(?i)(?:^|[^A-Z0-9\\-_]|[^A-Z0-9\\-]_|sprd-|MZ-)(?:(?:DDG-Android-|ddg_android/)(\\d+[.\\d]*))",
  pat! "(?i)(?:^|[^A-Z0-9\\-_]|[^A-Z0-9\\-]_|sprd-|MZ-)(?:Samsung ?Browser(?:[/ ](\\d+[.\\d]+))?)",
  pat! "(?i)(?:^|[^A-Z0-9\\-_]|[^A-Z0-9\\-]_|sprd-|MZ-)(?:(?:SFB(?:rowser)?)/(\\d+[.\\d]+))",
  pat! "(?i)(?:^|[^A-Z0-9\\-_]|[^A-Z0-9\\-]_|sprd-|MZ-)(?:com\\.browser\\.tssomas(?:/(\\d+[.\\d]+))?)",
  pat! "(?i)(?:^|[^A-Z0-9\\-_]|[^A-Z0-9\\-]_|sprd-|MZ-)(?:EUI Browser(?:/(\\d+[.\\d]+))?)",
  pat! "(?i)(?:^|[^A-Z0-9\\-_]|[^A-Z0-9\\-]_|sprd-|MZ-)(?:UBrowser(?:/(\\d+[.\\d]+))?)",
  pat! "(?i)(?:^|[^A-Z0-9\\-_]|[^A-Z0-9\\-]_|sprd-|MZ-)(?:Streamy(?:/(\\d+[.\\d]+))?)",
  pat! "(?i)(?:^|[^A-Z0-9\\-_]|[^A-Z0-9\\-]_|sprd-|MZ-)(?:Rocket/(\\d+[.\\d]+))",
  pat! "(?i)(?:^|[^A-Z0-9\\-_]|[^A-Z0-9\\-]_|sprd-|MZ-)(?:Web Explorer/(\\d+\\.[.\\d]+) .*Chrome)",
  pat! "(?i)(?:^|[^A-Z0-9\\-_]|[^A-Z0-9\\-]_|sprd-|MZ-)(?:webexplorer/(\\d+))",
  pat! "(?i)(?:^|[^A-Z0-9\\-_]|[^A-Z0-9\\-]_|sprd-|MZ-)(?:Chrome.+SznProhlizec/(\\d+[.\\d]+))",
  pat! "(?i)(?:^|[^A-Z0-9\\-_]|[^A-Z0-9\\-]_|sprd-|MZ-)(?:SznProhlizec/(\\d+[.\\d]+))",
  pat! "(?i)(?:^|[^A-Z0-9\\-_]|[^A-Z0-9\\-]_|sprd-|MZ-)(?:SogouMobileBrowser/(\\d+[.\\d]+))",
  pat! "(?i)(?:^|[^A-Z0-9\\-_]|[^A-Z0-9\\-]_|sprd-|MZ-)(?:Mint Browser/(\\d+[.\\d]+))",
  pat! "(?i)(?:^|[^A-Z0-9\\-_]|[^A-Z0-9\\-]_|sprd-|MZ-)(?:Ecosia (?:android|ios)@(\\d+[.\\d]+))",
  pat! "(?i)(?:^|[^A-Z0-9\\-_]|[^A-Z0-9\\-]_|sprd-|MZ-)(?:Chrome/.+ (?:LeBrowser|MobileLenovoBrowser)(?:/(\\d+[.\\d]+))?)",
  pat! "(?i)(?:^|[^A-Z0-9\\-_]|[^A-Z0-9\\-]_|sprd-|MZ-)(?:LeBrowser(?:/(\\d+[.\\d]+))?)",
  pat! "(?i)(?:^|[^A-Z0-9\\-_]|[^A-Z0-9\\-]_|sprd-|MZ-)(?:Mb2345Browser/(\\d+[.\\d]+))",
  pat! "(?i)(?:^|[^A-Z0-9\\-_]|[^A-Z0-9\\-]_|sprd-|MZ-)(?:Silk/(\\d+[.\\d]+) like Chrome)",
  pat! "(?i)(?:^|[^A-Z0-9\\-_]|[^A-Z0-9\\-]_|sprd-|MZ-)(?:Silk(?:/(\\d+[.\\d]+))?)",
  pat! "(?i)(?:^|[^A-Z0-9\\-_]|[^A-Z0-9\\-]_|sprd-|MZ-)(?:iBrowser/Mini(\\d+\\.\\d+))",
  pat! "(?i)(?:^|[^A-Z0-9\\-_]|[^A-Z0-9\\-]_|sprd-|MZ-)(?:iBrowser/(\\d+\\.[.\\d]+)?)",
  pat! "(?i)(?:^|[^A-Z0-9\\-_]|[^A-Z0-9\\-]_|sprd-|MZ-)(?:IBrowse(?:[ /](\\d+[.\\d]+))?)",
  pat! "(?i)(?:^|[^A-Z0-9\\-_]|[^A-Z0-9\\-]_|sprd-|MZ-)(?:UP\\.Browser(?:/(\\d+[.\\d]+))?)",
  pat! "(?i)(?:^|[^A-Z0-9\\-_]|[^A-Z0-9\\-]_|sprd-|MZ-)(?:Openwave(?:/(\\d+[.\\d]+))?)",
  pat! "(?i)(?:^|[^A-Z0-9\\-_]|[^A-Z0-9\\-]_|sprd-|MZ-)(?:OneBrowser(?:[ /](\\d+[.\\d]+))?)",
  pat! "(?i)(?:^|[^A-Z0-9\\-_]|[^A-Z0-9\\-]_|sprd-|MZ-)(?:GoBrowser(?:/(\\d+[.\\d]+))?)",
  pat! "(?i)(?:^|[^A-Z0-9\\-_]|[^A-Z0-9\\-]_|sprd-|MZ-)(?:(?:NokiaBrowser|BrowserNG|WicKed|Nokia-Communicator-WWW-Browser)(?:/(\\d+[.\\d]+))?)",
  pat! "(?i)(?:^|[^A-Z0-9\\-_]|[^A-Z0-9\\-]_|sprd-|MZ-)(?:Series60/5\\.0)",
  pat! "(?i)(?:^|[^A-Z0-9\\-_]|[^A-Z0-9\\-]_|sprd-|MZ-)(?:Series60/(\\d+[.\\d]+))",
  pat! "(?i)(?:^|[^A-Z0-9\\-_]|[^A-Z0-9\\-]_|sprd-|MZ-)(?:S40OviBrowser/(\\d+[.\\d]+))",
  pat! "(?i)(?:^|[^A-Z0-9\\-_]|[^A-Z0-9\\-]_|sprd-|MZ-)(?:^Nokia|Nokia[EN]?\\d+)",
  pat! "(?i)(?:^|[^A-Z0-9\\-_]|[^A-Z0-9\\-]_|sprd-|MZ-)(?:Sleipnir(?:(?:%20Browser)?[ /](\\d+[.\\d]+))?)",
  pat! "(?i)(?:^|[^A-Z0-9\\-_]|[^A-Z0-9\\-]_|sprd-|MZ-)(?:NTENTBrowser(?:/(\\d+[.\\d]+))?)",
  pat! "(?i)(?:^|[^A-Z0-9\\-_]|[^A-Z0-9\\-]_|sprd-|MZ-)(?:TV Bro/(\\d+[.\\d]+))",
  pat! "(?i)(?:^|[^A-Z0-9\\-_]|[^A-Z0-9\\-]_|sprd-|MZ-)(?:Quark(?:/(\\d+[.\\d]+))?)",
  pat! "(?i)(?:^|[^A-Z0-9\\-_]|[^A-Z0-9\\-]_|sprd-|MZ-)(?:MonumentBrowser(?:/(\\d+[.\\d]+))?)",
  pat! "(?i)(?:^|[^A-Z0-9\\-_]|[^A-Z0-9\\-]_|sprd-|MZ-)(?:BlueBrowser(?:/(\\d+[.\\d]+))?)",
  pat! "(?i)(?:^|[^A-Z0-9\\-_]|[^A-Z0-9\\-]_|sprd-|MZ-)(?:JAPAN Browser(?:/(\\d+[.\\d]+))?)",
  pat! "(?i)(?:^|[^A-Z0-9\\-_]|[^A-Z0-9\\-]_|sprd-|MZ-)(?:OpenFin/(?:(\\d+[.\\d]+)))",
  pat! "(?i)(?:^|[^A-Z0-9\\-_]|[^A-Z0-9\\-]_|sprd-|MZ-)(?:SuperBird(?:/(\\d+[.\\d]+))?)",
  pat! "(?i)(?:^|[^A-Z0-9\\-_]|[^A-Z0-9\\-]_|sprd-|MZ-)(?:Soul(?:Browser)?$|Soul/)",
  pat! "(?i)(?:^|[^A-Z0-9\\-_]|[^A-Z0-9\\-]_|sprd-|MZ-)(?:LG Browser(?:/(\\d+[.\\d]+)))",
  pat! "(?i)(?:^|[^A-Z0-9\\-_]|[^A-Z0-9\\-]_|sprd-|MZ-)(?:QtWebEngine/(\\d+[.\\d]+))",
  pat! "(?i)(?:^|[^A-Z0-9\\-_]|[^A-Z0-9\\-]_|sprd-|MZ-)(?:(?:iPad|iPhone);.* like Mac OS X.* Chrome(?:/(\\d+[.\\d]+))? Mobile/\\w{5,7} Safari/)",
  pat! "(?i)(?:^|[^A-Z0-9\\-_]|[^A-Z0-9\\-]_|sprd-|MZ-)(?:(?: wv\\)|Version/).* Chrome(?:/(\\d+[.\\d]+))?)",
  pat! "(?i)(?:^|[^A-Z0-9\\-_]|[^A-Z0-9\\-]_|sprd-|MZ-)(?:CrMo(?:/(\\d+[.\\d]+))?)",
  pat! "(?i)(?:^|[^A-Z0-9\\-_]|[^A-Z0-9\\-]_|sprd-|MZ-)(?:CriOS(?:/(\\d+[.\\d]+))?)",
  pat! "(?i)(?:^|[^A-Z0-9\\-_]|[^A-Z0-9\\-]_|sprd-|MZ-)(?:Chrome(?:/(\\d+[.\\d]+))? Mobile)",
  pat! "(?i)(?:^|[^A-Z0-9\\-_]|[^A-Z0-9\\-]_|sprd-|MZ-)(?:chromeframe(?:/(\\d+[.\\d]+))?)",
  pat! "(?i)(?:^|[^A-Z0-9\\-_]|[^A-Z0-9\\-]_|sprd-|MZ-)(?:Chromium(?:/(\\d+[.\\d]+))?)",
  pat! "(?i)(?:^|[^A-Z0-9\\-_]|[^A-Z0-9\\-]_|sprd-|MZ-)(?:.*Chromium(?:_(\\d+[.\\d]+))?)",
  pat! "(?i)(?:^|[^A-Z0-9\\-_]|[^A-Z0-9\\-]_|sprd-|MZ-)(?:HeadlessChrome(?:/(\\d+[.\\d]+))?)",
  pat! "(?i)(?:^|[^A-Z0-9\\-_]|[^A-Z0-9\\-]_|sprd-|MZ-)(?:Chrome(?:/(\\d+[.\\d]+))?)",
  pat! "(?i)(?:^|[^A-Z0-9\\-_]|[^A-Z0-9\\-]_|sprd-|MZ-)(?:(?:Tizen|SLP) ?Browser(?:/(\\d+[.\\d]+))?)",
  pat! "(?i)(?:^|[^A-Z0-9\\-_]|[^A-Z0-9\\-]_|sprd-|MZ-)(?:Tizen (?:\\d+\\.[.\\d]+)[^\\.\\d].* Version/(\\d+[.\\d]+) (?:TV|Mobile|like))",
  pat! "(?i)(?:^|[^A-Z0-9\\-_]|[^A-Z0-9\\-]_|sprd-|MZ-)(?:Blazer(?:/(\\d+[.\\d]+))?)",
  pat! "(?i)(?:^|[^A-Z0-9\\-_]|[^A-Z0-9\\-]_|sprd-|MZ-)(?:Pre/(\\d+[.\\d]+))",
  pat! "(?i)(?:^|[^A-Z0-9\\-_]|[^A-Z0-9\\-]_|sprd-|MZ-)(?:(?:hpw|web)OS/(\\d+[.\\d]+))",
  pat! "(?i)(?:^|[^A-Z0-9\\-_]|[^A-Z0-9\\-]_|sprd-|MZ-)(?:WebPro(?:[ /](\\d+[.\\d]+))?)",
  pat! "(?i)(?:^|[^A-Z0-9\\-_]|[^A-Z0-9\\-]_|sprd-|MZ-)(?:Palmscape(?:[ /](\\d+[.\\d]+))?)",
  pat! "(?i)(?:^|[^A-Z0-9\\-_]|[^A-Z0-9\\-]_|sprd-|MZ-)(?:Jasmine(?:[ /](\\d+[.\\d]+))?)",
  pat! "(?i)(?:^|[^A-Z0-9\\-_]|[^A-Z0-9\\-]_|sprd-|MZ-)(?:Lynx(?:/(\\d+[.\\d]+))?)",
  pat! "(?i)(?:^|[^A-Z0-9\\-_]|[^A-Z0-9\\-]_|sprd-|MZ-)(?:NCSA_Mosaic(?:/(\\d+[.\\d]+))?)",
  pat! "(?i)(?:^|[^A-Z0-9\\-_]|[^A-Z0-9\\-]_|sprd-|MZ-)(?:VMS_Mosaic(?:/(\\d+[.\\d]+))?)",
  pat! "(?i)(?:^|[^A-Z0-9\\-_]|[^A-Z0-9\\-]_|sprd-|MZ-)(?:ABrowse(?: (\\d+[.\\d]+))?)",
  pat! "(?i)(?:^|[^A-Z0-9\\-_]|[^A-Z0-9\\-]_|sprd-|MZ-)(?:amaya(?:/(\\d+[.\\d]+))?)",
  pat! "(?i)(?:^|[^A-Z0-9\\-_]|[^A-Z0-9\\-]_|sprd-|MZ-)(?:AmigaVoyager(?:/(\\d+[.\\d]+))?)",
  pat! "(?i)(?:^|[^A-Z0-9\\-_]|[^A-Z0-9\\-]_|sprd-|MZ-)(?:Amiga-Aweb(?:/(\\d+[.\\d]+))?)",
  pat! "(?i)(?:^|[^A-Z0-9\\-_]|[^A-Z0-9\\-]_|sprd-|MZ-)(?:Arora(?:/(\\d+[.\\d]+))?)",
  pat! "(?i)(?:^|[^A-Z0-9\\-_]|[^A-Z0-9\\-]_|sprd-|MZ-)(?:Beonex(?:/(\\d+[.\\d]+))?)",
  pat! "(?i)(?:^|[^A-Z0-9\\-_]|[^A-Z0-9\\-]_|sprd-|MZ-)(?:bline(?:/(\\d+[.\\d]+))?)",
  pat! "(?i)(?:^|[^A-Z0-9\\-_]|[^A-Z0-9\\-]_|sprd-|MZ-)(?:BrowseX \\((\\d+[.\\d]+))",
  pat! "(?i)(?:^|[^A-Z0-9\\-_]|[^A-Z0-9\\-]_|sprd-|MZ-)(?:Charon(?:[/ ](\\d+[.\\d]+))?)",
  pat! "(?i)(?:^|[^A-Z0-9\\-_]|[^A-Z0-9\\-]_|sprd-|MZ-)(?:Cheshire(?:/(\\d+[.\\d]+))?)",
  pat! "(?i)(?:^|[^A-Z0-9\\-_]|[^A-Z0-9\\-]_|sprd-|MZ-)(?:Dillo(?:/(\\d+[.\\d]+))?)",
  pat! "(?i)(?:^|[^A-Z0-9\\-_]|[^A-Z0-9\\-]_|sprd-|MZ-)(?:Dolfin(?:/(\\d+[.\\d]+))?|dolphin)",
  pat! "(?i)(?:^|[^A-Z0-9\\-_]|[^A-Z0-9\\-]_|sprd-|MZ-)(?:Elinks(?:[ /](\\d+[.\\d]+))?)",
  pat! "(?i)(?:^|[^A-Z0-9\\-_]|[^A-Z0-9\\-]_|sprd-|MZ-)(?:Element Browser(?:[ /](\\d+[.\\d]+))?)",
  pat! "(?i)(?:^|[^A-Z0-9\\-_]|[^A-Z0-9\\-]_|sprd-|MZ-)(?:eZBrowser(?:/(\\d+[.\\d]+))?)"]

/-- `__cr_re`, from item 500 on (client_repo.go:2001-2250). -/
def crRe_2 : List (List Chunk) := [
  pat! "(?i)(?:^|[^A-Z0-9\\-_]|[^A-Z0-9\\-]_|sprd-|MZ-)(?:Firebird(?:/(\\d+[.\\d]+))?)",
  pat! "(?i)(?:^|[^A-Z0-9\\-_]|[^A-Z0-9\\-]_|sprd-|MZ-)(?:Fluid(?:/(\\d+[.\\d]+))?)",
  pat! "(?i)(?:^|[^A-Z0-9\\-_]|[^A-Z0-9\\-]_|sprd-|MZ-)(?:Galeon(?:/(\\d+[.\\d]+))?)",
  pat! "(?i)(?:^|[^A-Z0-9\\-_]|[^A-Z0-9\\-]_|sprd-|MZ-)(?:(?:Google Earth Pro|Google%20Earth%20Pro)(?:/(\\d+[.\\d]+))?)",
  pat! "(?i)(?:^|[^A-Z0-9\\-_]|[^A-Z0-9\\-]_|sprd-|MZ-)(?:GoogleEarth/(\\d+\\.[.\\d]+)[^\\.\\d].*client:(?:Plus|Pro))",
  pat! "(?i)(?:^|[^A-Z0-9\\-_]|[^A-Z0-9\\-]_|sprd-|MZ-)(?:Google ?Earth(?:/v?(\\d+[.\\d]+))?)",
  pat! "(?i)(?:^|[^A-Z0-9\\-_]|[^A-Z0-9\\-]_|sprd-|MZ-)(?:HotJava(?:/(\\d+[.\\d]+))?)",
  pat! "(?i)(?:^|[^A-Z0-9\\-_]|[^A-Z0-9\\-]_|sprd-|MZ-)(?:iCabMobile(?:[ /](\\d+[.\\d]+))?)",
  pat! "(?i)(?:^|[^A-Z0-9\\-_]|[^A-Z0-9\\-]_|sprd-|MZ-)(?:iCab(?:[ /](\\d+[.\\d]+))?)",
  pat! "(?i)(?:^|[^A-Z0-9\\-_]|[^A-Z0-9\\-]_|sprd-|MZ-)(?:Crazy Browser (\\d+[.\\d]+))",
  pat! "(?i)(?:^|[^A-Z0-9\\-_]|[^A-Z0-9\\-]_|sprd-|MZ-)(?:IEMobile[ /](\\d+[.\\d]+))",
  pat! "(?i)(?:^|[^A-Z0-9\\-_]|[^A-Z0-9\\-]_|sprd-|MZ-)(?:MSIE (\\d+\\.[.\\d]+)[^\\.\\d].*XBLWP7)",
  pat! "(?i)(?:^|[^A-Z0-9\\-_]|[^A-Z0-9\\-]_|sprd-|MZ-)(?:MSIE.*Trident/4\\.0)",
  pat! "(?i)(?:^|[^A-Z0-9\\-_]|[^A-Z0-9\\-]_|sprd-|MZ-)(?:MSIE.*Trident/5\\.0)",
  pat! "(?i)(?:^|[^A-Z0-9\\-_]|[^A-Z0-9\\-]_|sprd-|MZ-)(?:MSIE.*Trident/6\\.0)",
  pat! "(?i)(?:^|[^A-Z0-9\\-_]|[^A-Z0-9\\-]_|sprd-|MZ-)(?:Trident/[78]\\.0)",
  pat! "(?i)(?:^|[^A-Z0-9\\-_]|[^A-Z0-9\\-]_|sprd-|MZ-)(?:MSIE (\\d+[.\\d]+))",
  pat! "(?i)(?:^|[^A-Z0-9\\-_]|[^A-Z0-9\\-]_|sprd-|MZ-)(?:IE[ /](\\d+[.\\d]+))",
  pat! "(?i)(?:^|[^A-Z0-9\\-_]|[^A-Z0-9\\-]_|sprd-|MZ-)(?:(?:MSPIE|Pocket Internet Explorer)[ /](\\d+[.\\d]+))",
  pat! "(?i)(?:^|[^A-Z0-9\\-_]|[^A-Z0-9\\-]_|sprd-|MZ-)(?:Kindle/(\\d+[.\\d]+))",
  pat! "(?i)(?:^|[^A-Z0-9\\-_]|[^A-Z0-9\\-]_|sprd-|MZ-)(?:K-meleon(?:/(\\d+[.\\d]+))?)",
  pat! "(?i)(?:^|[^A-Z0-9\\-_]|[^A-Z0-9\\-]_|sprd-|MZ-)(?:Links(?: \\((\\d+[.\\d]+))?)",
  pat! "(?i)(?:^|[^A-Z0-9\\-_]|[^A-Z0-9\\-]_|sprd-|MZ-)(?:LuaKit(?:/(\\d+[.\\d]+))?)",
  pat! "(?i)(?:^|[^A-Z0-9\\-_]|[^A-Z0-9\\-]_|sprd-|MZ-)(?:OmniWeb(?:/[v]?(\\d+[.\\d]+))?)",
  pat! "(?i)(?:^|[^A-Z0-9\\-_]|[^A-Z0-9\\-]_|sprd-|MZ-)(?:Phoenix(?:/(\\d+[.\\d]+))?)",
  pat! "(?i)(?:^|[^A-Z0-9\\-_]|[^A-Z0-9\\-]_|sprd-|MZ-)(?:NintendoBrowser(?:/(\\d+[.\\d]+))?)",
  pat! "(?i)(?:^|[^A-Z0-9\\-_]|[^A-Z0-9\\-]_|sprd-|MZ-)(?:NetFrontLifeBrowser(?:/(\\d+[.\\d]+))?)",
  pat! "(?i)(?:^|[^A-Z0-9\\-_]|[^A-Z0-9\\-]_|sprd-|MZ-)(?:Browser/(?:NetFont-|NF|NetFront)(\\d+[.\\d]+))",
  pat! "(?i)(?:^|[^A-Z0-9\\-_]|[^A-Z0-9\\-]_|sprd-|MZ-)(?:NetFront(?:/(\\d+[.\\d]+))?)",
  pat! "(?i)(?:^|[^A-Z0-9\\-_]|[^A-Z0-9\\-]_|sprd-|MZ-)(?:PLAYSTATION|NINTENDO 3|AppleWebKit.+ N[XF]/\\d+\\.\\d+\\.\\d+)",
  pat! "(?i)(?:^|[^A-Z0-9\\-_]|[^A-Z0-9\\-]_|sprd-|MZ-)(?:NetPositive(?:/(\\d+[.\\d]+))?)",
  pat! "(?i)(?:^|[^A-Z0-9\\-_]|[^A-Z0-9\\-]_|sprd-|MZ-)(?:Odyssey Web Browser(?:.*OWB/(\\d+[.\\d]+))?)",
  pat! "(?i)(?:^|[^A-Z0-9\\-_]|[^A-Z0-9\\-]_|sprd-|MZ-)(?:(?:Oregano|OreganMediaBrowser)(?:[ /](\\d+[.\\d]+))?)",
  pat! "(?i)(?:^|[^A-Z0-9\\-_]|[^A-Z0-9\\-]_|sprd-|MZ-)(?:(?:Polaris|Embider)(?:[/ ](\\d+[.\\d]+))?)",
  pat! "(?i)(?:^|[^A-Z0-9\\-_]|[^A-Z0-9\\-]_|sprd-|MZ-)(?:SEMC-Browser(?:[/ ](\\d+[.\\d]+))?)",
  pat! "(?i)(?:^|[^A-Z0-9\\-_]|[^A-Z0-9\\-]_|sprd-|MZ-)(?:Shiira(?:[/ ](\\d+[.\\d]+))?)",
  pat! "(?i)(?:^|[^A-Z0-9\\-_]|[^A-Z0-9\\-]_|sprd-|MZ-)(?:Skyfire(?:[/ ](\\d+[.\\d]+))?)",
  pat! "(?i)(?:^|[^A-Z0-9\\-_]|[^A-Z0-9\\-]_|sprd-|MZ-)(?:Snowshoe(?:/(\\d+[.\\d]+))?)",
  pat! "(?i)(?:^|[^A-Z0-9\\-_]|[^A-Z0-9\\-]_|sprd-|MZ-)(?:Sunrise(?:Browser)?(?:/(\\d+[.\\d]+))?)",
  pat! "(?i)(?:^|[^A-Z0-9\\-_]|[^A-Z0-9\\-]_|sprd-|MZ-)(?:Xiino(?:/(\\d+[.\\d]+))?)",
  pat! "(?i)(?:^|[^A-Z0-9\\-_]|[^A-Z0-9\\-]_|sprd-|MZ-)(?:BlackBerry|PlayBook|BB10)",
  pat! "(?i)(?:^|[^A-Z0-9\\-_]|[^A-Z0-9\\-]_|sprd-|MZ-)(?:Browlser/(\\d+[.\\d]+))",
  pat! "(?i)(?:^|[^A-Z0-9\\-_]|[^A-Z0-9\\-]_|sprd-|MZ-)(?:Android)",
  pat! "(?i)(?:^|[^A-Z0-9\\-_]|[^A-Z0-9\\-]_|sprd-|MZ-)(?:Coast(?:/(\\d+[.\\d]+))?)",
  pat! "(?i)(?:^|[^A-Z0-9\\-_]|[^A-Z0-9\\-]_|sprd-|MZ-)(?:Opera%20Coast/(\\d+[.\\d]+)? CFNetwork/.+Darwin/.+)",
  pat! "(?i)(?:^|[^A-Z0-9\\-_]|[^A-Z0-9\\-]_|sprd-|MZ-)(?:Surf(?:/(\\d+[.\\d]+))?)",
  pat! "(?i)(?:^|[^A-Z0-9\\-_]|[^A-Z0-9\\-]_|sprd-|MZ-)(?:Safari%20Technology%20Preview/(\\d+[.\\d]+))",
  pat! "(?i)(?:^|[^A-Z0-9\\-_]|[^A-Z0-9\\-]_|sprd-|MZ-)(?:(?:(?:iPod|iPad|iPhone).+Version|MobileSafari)/(\\d+[.\\d]+))",
  pat! "(?i)(?:^|[^A-Z0-9\\-_]|[^A-Z0-9\\-]_|sprd-|MZ-)(?:NetworkingExtension/.+ Network/.+ iOS/(\\d+[.\\d]+))",
  pat! "(?i)(?:^|[^A-Z0-9\\-_]|[^A-Z0-9\\-]_|sprd-|MZ-)(?:(?:Version/(\\d+\\.[.\\d]+) .*)?Mobile.*Safari/)",
  pat! "(?i)(?:^|[^A-Z0-9\\-_]|[^A-Z0-9\\-]_|sprd-|MZ-)(?:(?:iPod|iPhone|iPad))",
  pat! "(?i)(?:^|[^A-Z0-9\\-_]|[^A-Z0-9\\-]_|sprd-|MZ-)(?:Version/(\\d+\\.[.\\d]+) .*Safari/|(?:Safari|Safari(?:%20)?%E6%B5%8F%E8%A7%88%E5%99%A8)/?\\d+)",
  pat! "(?i)(?:^|[^A-Z0-9\\-_]|[^A-Z0-9\\-]_|sprd-|MZ-)(?:(?:com\\.apple\\.WebKit\\.Networking|NetworkingExtension)/(\\d+[.\\d]+).+ CFNetwork)",
  pat! "(?i)(?:^|[^A-Z0-9\\-_]|[^A-Z0-9\\-]_|sprd-|MZ-)(?:(?:\\w{1,5}[_ ])?Dorado(?: WAP-Browser)?(?:[/ ]?(\\d+[.\\d]+))?)",
  pat! "(?i)(?:^|[^A-Z0-9\\-_]|[^A-Z0-9\\-]_|sprd-|MZ-)(?:NetSurf(?:/(\\d+[.\\d]+))?)",
  pat! "(?i)(?:^|[^A-Z0-9\\-_]|[^A-Z0-9\\-]_|sprd-|MZ-)(?:Zvu(?:/(\\d+[.\\d]+))?)",
  pat! "(?i)(?:^|[^A-Z0-9\\-_]|[^A-Z0-9\\-]_|sprd-|MZ-)(?:GOGGalaxyClient/(\\d+[.\\d]+)?)",
  pat! "(?i)(?:^|[^A-Z0-9\\-_]|[^A-Z0-9\\-]_|sprd-|MZ-)(?:WAP Browser/MAUI|(?:\\w*)Maui Wap Browser|MAUI[- ]Browser)",
  pat! "(?i)(?:^|[^A-Z0-9\\-_]|[^A-Z0-9\\-]_|sprd-|MZ-)(?:SP%20Browser/(\\d+[.\\d]+))",
  pat! "(?i)(?:^|[^A-Z0-9\\-_]|[^A-Z0-9\\-]_|sprd-|MZ-)(?:Gecko)",
  pat! "(?i)(?:^|[^A-Z0-9\\-_]|[^A-Z0-9\\-]_|sprd-|MZ-)(?:Akregator(?:/(\\d+[.\\d]+))?)",
  pat! "(?i)(?:^|[^A-Z0-9\\-_]|[^A-Z0-9\\-]_|sprd-|MZ-)(?:Apple-PubSub(?:/(\\d+[.\\d]+))?)",
  pat! "(?i)(?:^|[^A-Z0-9\\-_]|[^A-Z0-9\\-]_|sprd-|MZ-)(?:Breaker/v?([\\d.]+))",
  pat! "(?i)(?:^|[^A-Z0-9\\-_]|[^A-Z0-9\\-]_|sprd-|MZ-)(?:FeedDemon(?:/(\\d+[.\\d]+))?)",
  pat! "(?i)(?:^|[^A-Z0-9\\-_]|[^A-Z0-9\\-]_|sprd-|MZ-)(?:Feeddler(?:RSS|PRO)(?:[/ ](\\d+[.\\d]+))?)",
  pat! "(?i)(?:^|[^A-Z0-9\\-_]|[^A-Z0-9\\-]_|sprd-|MZ-)(?:QuiteRSS(?:[/ ](\\d+[.\\d]+))?)",
  pat! "(?i)(?:^|[^A-Z0-9\\-_]|[^A-Z0-9\\-]_|sprd-|MZ-)(?:gPodder/([\\d.]+))",
  pat! "(?i)(?:^|[^A-Z0-9\\-_]|[^A-Z0-9\\-]_|sprd-|MZ-)(?:JetBrains Omea Reader(?:[/ ](\\d+[.\\d]+))?)",
  pat! "(?i)(?:^|[^A-Z0-9\\-_]|[^A-Z0-9\\-]_|sprd-|MZ-)(?:Liferea(?:[/ ](\\d+[.\\d]+))?)",
  pat! "(?i)(?:^|[^A-Z0-9\\-_]|[^A-Z0-9\\-]_|sprd-|MZ-)(?:(?:NetNewsWire|Evergreen.+MacOS)(?:[/ ](\\d+[.\\d]+))?)",
  pat! "(?i)(?:^|[^A-Z0-9\\-_]|[^A-Z0-9\\-]_|sprd-|MZ-)(?:NewsBlur (?:iPhone|iPad) App(?: v(\\d+[.\\d]+))?)",
  pat! "(?i)(?:^|[^A-Z0-9\\-_]|[^A-Z0-9\\-]_|sprd-|MZ-)(?:NewsBlur(?:/(\\d+[.\\d]+)))",
  pat! "(?i)(?:^|[^A-Z0-9\\-_]|[^A-Z0-9\\-]_|sprd-|MZ-)(?:newsbeuter(?:[/ ](\\d+[.\\d]+))?)",
  pat! "(?i)(?:^|[^A-Z0-9\\-_]|[^A-Z0-9\\-]_|sprd-|MZ-)(?:PritTorrent/([\\d.]+))",
  pat! "(?i)(?:^|[^A-Z0-9\\-_]|[^A-Z0-9\\-]_|sprd-|MZ-)(?:Pulp[/ ](\\d+[.\\d]+))",
  pat! "(?i)(?:^|[^A-Z0-9\\-_]|[^A-Z0-9\\-]_|sprd-|MZ-)(?:ReadKit(?:[/ ](\\d+[.\\d]+))?)",
  pat! "(?i)(?:^|[^A-Z0-9\\-_]|[^A-Z0-9\\-]_|sprd-|MZ-)(?:Reeder[/ ](\\d+[.\\d]+))",
  pat! "(?i)(?:^|[^A-Z0-9\\-_]|[^A-Z0-9\\-]_|sprd-|MZ-)(?:RSSBandit(?:[/ ](\\d+[.\\d]+))?)",
  pat! "(?i)(?:^|[^A-Z0-9\\-_]|[^A-Z0-9\\-]_|sprd-|MZ-)(?:RSS Junkie(?:[/ ](\\d+[.\\d]+))?)",
  pat! "(?i)(?:^|[^A-Z0-9\\-_]|[^A-Z0-9\\-]_|sprd-|MZ-)(?:RSSOwl(?:[/ ](\\d+[.\\d]+))?)",
  pat! "(?i)(?:^|[^A-Z0-9\\-_]|[^A-Z0-9\\-]_|sprd-|MZ-)(?:^castero (\\d+\\.[.\\d]+))",
  pat! "(?i)(?:^|[^A-Z0-9\\-_]|[^A-Z0-9\\-]_|sprd-|MZ-)(?:^castget (\\d+\\.[.\\d]+))",
  pat! "(?i)(?:^|[^A-Z0-9\\-_]|[^A-Z0-9\\-]_|sprd-|MZ-)(?:^Newsboat/([a-z\\d\\.]+))",
  pat! "(?i)(?:^|[^A-Z0-9\\-_]|[^A-Z0-9\\-]_|sprd-|MZ-)(?:^Playapod(?: Lite)?/(\\d+\\.[.\\d]+))",
  pat! "(?i)(?:^|[^A-Z0-9\\-_]|[^A-Z0-9\\-]_|sprd-|MZ-)(?:PodPuppy (\\d+\\.[.\\d]+))",
  pat! "(?i)(?:^|[^A-Z0-9\\-_]|[^A-Z0-9\\-]_|sprd-|MZ-)(?:^Reeder/([\\d.]+))",
  pat! "(?i)(?:^|[^A-Z0-9\\-_]|[^A-Z0-9\\-]_|sprd-|MZ-)(?:PhantomJS(?:/(\\d+[.\\d]+))?)",
  pat! "(?i)(?:^|[^A-Z0-9\\-_]|[^A-Z0-9\\-]_|sprd-|MZ-)(?:IPinfoClient/.*/(\\d+[.\\d]+))",
  pat! "(?i)(?:^|[^A-Z0-9\\-_]|[^A-Z0-9\\-]_|sprd-|MZ-)(?:kiwi-tcms/(\\d+[.\\d]+))",
  pat! "(?i)(?:^|[^A-Z0-9\\-_]|[^A-Z0-9\\-]_|sprd-|MZ-)(?:tcms-api/(\\d+[.\\d]+))",
  pat! "(?i)(?:^|[^A-Z0-9\\-_]|[^A-Z0-9\\-]_|sprd-|MZ-)(?:Fuzz Faster U Fool v(\\d+[.\\d]+))",
  pat! "(?i)(?:^|[^A-Z0-9\\-_]|[^A-Z0-9\\-]_|sprd-|MZ-)(?:HTMLParser(?:/(\\d+[.\\d]+))?)",
  pat! "(?i)(?:^|[^A-Z0-9\\-_]|[^A-Z0-9\\-]_|sprd-|MZ-)(?:^got(?:/(\\d+\\.[.\\d]+))? \\()",
  pat! "(?i)(?:^|[^A-Z0-9\\-_]|[^A-Z0-9\\-]_|sprd-|MZ-)(?:req/v([.\\d]+))",
  pat! "(?i)(?:^|[^A-Z0-9\\-_]|[^A-Z0-9\\-]_|sprd-|MZ-)(?:quic-go[ -]HTTP/3)",
  pat! "(?i)(?:^|[^A-Z0-9\\-_]|[^A-Z0-9\\-]_|sprd-|MZ-)(?:azure-data-factory(?:/(\\d+[.\\d]+))?)",
  pat! "(?i)(?:^|[^A-Z0-9\\-_]|[^A-Z0-9\\-]_|sprd-|MZ-)(?:Dart/(\\d+[.\\d]+))",
  pat! "(?i)(?:^|[^A-Z0-9\\-_]|[^A-Z0-9\\-]_|sprd-|MZ-)(?:r-curl(?:/(\\d+[.\\d]+))?)",
  pat! "(?i)(?:^|[^A-Z0-9\\-_]|[^A-Z0-9\\-]_|sprd-|MZ-)(?:python-httpx(?:/(\\d+[.\\d]+))?)",
  pat! "(?i)(?:^|[^A-Z0-9\\-_]|[^A-Z0-9\\-]_|sprd-|MZ-)(?:fasthttp(?:/(\\d+[.\\d]+))?)",
  pat! "(?i)(?:^|[^A-Z0-9\\-_]|[^A-Z0-9\\-]_|sprd-|MZ-)(?:geoipupdate(?:/(\\d+[.\\d]+))?)",
  pat! "(?i)(?:^|[^A-Z0-9\\-_]|[^A-Z0-9\\-]_|sprd-|MZ-)(?:PHP-Curl-Class(?:/(\\d+[.\\d]+))?)",
  pat! "(?i)(?:^|[^A-Z0-9\\-_]|[^A-Z0-9\\-]_|sprd-|MZ-)(?:Cpanel-HTTP-Client(?:/(\\d+[.\\d]+))?)",
  pat! "(?i)(?:^|[^A-Z0-9\\-_]|[^A-Z0-9\\-]_|sprd-|MZ-)(?:AnyEvent-HTTP(?:/(\\d+[.\\d]+))?)",
  pat! "(?i)(?:^|[^A-Z0-9\\-_]|[^A-Z0-9\\-]_|sprd-|MZ-)(?:SlimerJS/(\\d+[.\\d]+))",
  pat! "(?i)(?:^|[^A-Z0-9\\-_]|[^A-Z0-9\\-]_|sprd-|MZ-)(?:Jaunt/(\\d+[.\\d]+))",
  pat! "(?i)(?:^|[^A-Z0-9\\-_]|[^A-Z0-9\\-]_|sprd-|MZ-)(?:Cypress/(\\d+[.\\d]+))",
  pat! "(?i)(?:^|[^A-Z0-9\\-_]|[^A-Z0-9\\-]_|sprd-|MZ-)(?:Wget(?:/(\\d+[.\\d]+))?)",
  pat! "(?i)(?:^|[^A-Z0-9\\-_]|[^A-Z0-9\\-]_|sprd-|MZ-)(?:Guzzle(?:Http)?(?:/(\\d+[.\\d]+))?)",
  pat! "(?i)(?:^|[^A-Z0-9\\-_]|[^A-Z0-9\\-]_|sprd-|MZ-)(?:^Symfony HttpClient/)",
  pat! "(?i)(?:^|[^A-Z0-9\\-_]|[^A-Z0-9\\-]_|sprd-|MZ-)(?:(?:lib)?curl(?:/(\\d+[.\\d]+))?)",
  pat! "(?i)(?:^|[^A-Z0-9\\-_]|[^A-Z0-9\\-]_|sprd-|MZ-)(?:python-requests(?:/(\\d+[.\\d]+))?)",
  pat! "(?i)(?:^|[^A-Z0-9\\-_]|[^A-Z0-9\\-]_|sprd-|MZ-)(?:Python-httplib2(?:/(\\d+[.\\d]+))?)",
  pat! "(?i)(?:^|[^A-Z0-9\\-_]|[^A-Z0-9\\-]_|sprd-|MZ-)(?:Python-urllib3?(?:/?(\\d+[.\\d]+))?)",
  pat! "(?i)(?:^|[^A-Z0-9\\-_]|[^A-Z0-9\\-]_|sprd-|MZ-)(?:Apache-HttpClient(?:/?(\\d+[.\\d]+))?)",
  pat! "(?i)(?:^|[^A-Z0-9\\-_]|[^A-Z0-9\\-]_|sprd-|MZ-)(?:Java-http-client(?:/?(\\d+[.\\d]+))?)",
  pat! "(?i)(?:^|[^A-Z0-9\\-_]|[^A-Z0-9\\-]_|sprd-|MZ-)(?:Java/?(\\d+[.\\d]+))",
  pat! "(?i)(?:^|[^A-Z0-9\\-_]|[^A-Z0-9\\-]_|sprd-|MZ-)(?:(?:perlclient|libwww-perl)(?:/?(\\d+[.\\d]+))?)",
  pat! "(?i)(?:^|[^A-Z0-9\\-_]|[^A-Z0-9\\-]_|sprd-|MZ-)(?:grpc-java-okhttp/([\\d.]+))",
  pat! "(?i)(?:^|[^A-Z0-9\\-_]|[^A-Z0-9\\-]_|sprd-|MZ-)(?:(?:okhttp|network-okhttp3)/([\\d.]+))",
  pat! "(?i)(?:^|[^A-Z0-9\\-_]|[^A-Z0-9\\-]_|sprd-|MZ-)(?:okhttp3-([\\d.]+))",
  pat! "(?i)(?:^|[^A-Z0-9\\-_]|[^A-Z0-9\\-]_|sprd-|MZ-)(?:HTTP_Request2(?:/(\\d+[.\\d]+))?)",
  pat! "(?i)(?:^|[^A-Z0-9\\-_]|[^A-Z0-9\\-]_|sprd-|MZ-)(?:Mechanize(?:/(\\d+[.\\d]+))?)",
  pat! "(?i)(?:^|[^A-Z0-9\\-_]|[^A-Z0-9\\-]_|sprd-|MZ-)(?:aiohttp(?:/(\\d+[.\\d]+))?)",
  pat! "(?i)(?:^|[^A-Z0-9\\-_]|[^A-Z0-9\\-]_|sprd-|MZ-)(?:Google-HTTP-Java-Client(?:/(\\d+[\\.\\w-]+))?)",
  pat! "(?i)(?:^|[^A-Z0-9\\-_]|[^A-Z0-9\\-]_|sprd-|MZ-)(?:WWW-Mechanize(?:/(\\d+[.\\d]+))?)",
  pat! "(?i)(?:^|[^A-Z0-9\\-_]|[^A-Z0-9\\-]_|sprd-|MZ-)(?:Faraday(?: v(\\d+[.\\d]+))?)",
  pat! "(?i)(?:^|[^A-Z0-9\\-_]|[^A-Z0-9\\-]_|sprd-|MZ-)(?:(?:Go-http-client|^Go )/?(?:(\\d+[.\\d]+))?(?: package http)?)",
  pat! "(?i)(?:^|[^A-Z0-9\\-_]|[^A-Z0-9\\-]_|sprd-|MZ-)(?:urlgrabber(?:/(\\d+[.\\d]+))?)",
  pat! "(?i)(?:^|[^A-Z0-9\\-_]|[^A-Z0-9\\-]_|sprd-|MZ-)(?:libdnf(?:/(\\d+[.\\d]+))?)",
  pat! "(?i)(?:^|[^A-Z0-9\\-_]|[^A-Z0-9\\-]_|sprd-|MZ-)(?:HTTPie(?:/(\\d+[.\\d]+))?)",
  pat! "(?i)(?:^|[^A-Z0-9\\-_]|[^A-Z0-9\\-]_|sprd-|MZ-)(?:rest-client/(\\d+\\.[.\\d]+) .*ruby)",
  pat! "(?i)(?:^|[^A-Z0-9\\-_]|[^A-Z0-9\\-]_|sprd-|MZ-)(?:RestSharp/(\\d+[.\\d]+))",
  pat! "(?i)(?:^|[^A-Z0-9\\-_]|[^A-Z0-9\\-]_|sprd-|MZ-)(?:scalaj-http/(\\d+[.\\d]+))",
  pat! "(?i)(?:^|[^A-Z0-9\\-_]|[^A-Z0-9\\-]_|sprd-|MZ-)(?:REST::Client/(\\d+))",
  pat! "(?i)(?:^|[^A-Z0-9\\-_]|[^A-Z0-9\\-]_|sprd-|MZ-)(?:node-fetch/?(\\d+[.\\d]+)?)",
  pat! "(?i)(?:^|[^A-Z0-9\\-_]|[^A-Z0-9\\-]_|sprd-|MZ-)(?:electron-fetch/?(\\d+[.\\d]+)?)",
  pat! "(?i)(?:^|[^A-Z0-9\\-_]|[^A-Z0-9\\-]_|sprd-|MZ-)(?:ReactorNetty/(\\d+[.\\d]+))",
  pat! "(?i)(?:^|[^A-Z0-9\\-_]|[^A-Z0-9\\-]_|sprd-|MZ-)(?:PostmanRuntime(?:/(\\d+[.\\d]+))?)",
  pat! "(?i)(?:^|[^A-Z0-9\\-_]|[^A-Z0-9\\-]_|sprd-|MZ-)(?:insomnia(?:/(\\d+[.\\d]+))?)",
  pat! "(?i)(?:^|[^A-Z0-9\\-_]|[^A-Z0-9\\-]_|sprd-|MZ-)(?:Jakarta Commons-HttpClient/([.\\d]+))",
  pat! "(?i)(?:^|[^A-Z0-9\\-_]|[^A-Z0-9\\-]_|sprd-|MZ-)(?:WinHttp\\.WinHttpRequest.+([.\\d]+))",
  pat! "(?i)(?:^|[^A-Z0-9\\-_]|[^A-Z0-9\\-]_|sprd-|MZ-)(?:Embarcadero URI Client/([.\\d]+))",
  pat! "(?i)(?:^|[^A-Z0-9\\-_]|[^A-Z0-9\\-]_|sprd-|MZ-)(?:Mikrotik/([.\\d]+))",
  pat! "(?i)(?:^|[^A-Z0-9\\-_]|[^A-Z0-9\\-]_|sprd-|MZ-)(?:GRequests(?:/(\\d+[.\\d]+))?)",
  pat! "(?i)(?:^|[^A-Z0-9\\-_]|[^A-Z0-9\\-]_|sprd-|MZ-)(?:akka-http/([.\\d]+))",
  pat! "(?i)(?:^|[^A-Z0-9\\-_]|[^A-Z0-9\\-]_|sprd-|MZ-)(?:aria2(?:/(\\d+[.\\d]+))?)",
  pat! "(?i)(?:^|[^A-Z0-9\\-_]|[^A-Z0-9\\-]_|sprd-|MZ-)(?:(?:BTWebClient/|^uTorrent/))",
  pat! "(?i)(?:^|[^A-Z0-9\\-_]|[^A-Z0-9\\-]_|sprd-|MZ-)(?:gvfs/(?:(\\d+[.\\d]+))?)",
  pat! "(?i)(?:^|[^A-Z0-9\\-_]|[^A-Z0-9\\-]_|sprd-|MZ-)(?:cpprestsdk/([.\\d]+))",
  pat! "(?i)(?:^|[^A-Z0-9\\-_]|[^A-Z0-9\\-]_|sprd-|MZ-)(?:lua-resty-http/([.\\d]+).+ngx_)",
  pat! "(?i)(?:^|[^A-Z0-9\\-_]|[^A-Z0-9\\-]_|sprd-|MZ-)(?:unirest-java/([.\\d]+))",
  pat! "(?i)(?:^|[^A-Z0-9\\-_]|[^A-Z0-9\\-]_|sprd-|MZ-)(?:jsdom/([.\\d]+))",
  pat! "(?i)(?:^|[^A-Z0-9\\-_]|[^A-Z0-9\\-]_|sprd-|MZ-)(?:hackney/([.\\d]+))",
  pat! "(?i)(?:^|[^A-Z0-9\\-_]|[^A-Z0-9\\-]_|sprd-|MZ-)(?:go-resty/([.\\d]+))",
  pat! "(?i)(?:^|[^A-Z0-9\\-_]|[^A-Z0-9\\-]_|sprd-|MZ-)(?:pa11y/([.\\d]+))",
  pat! "(?i)(?:^|[^A-Z0-9\\-_]|[^A-Z0-9\\-]_|sprd-|MZ-)(?:ultimate_sitemap_parser/([.\\d]+))",
  pat! "(?i)(?:^|[^A-Z0-9\\-_]|[^A-Z0-9\\-]_|sprd-|MZ-)(?:Artifactory/([.\\d]+))",
  pat! "(?i)(?:^|[^A-Z0-9\\-_]|[^A-Z0-9\\-]_|sprd-|MZ-)(?:BSRPC ([.\\d]+))",
  pat! "(?i)(?:^|[^A-Z0-9\\-_]|[^A-Z0-9\\-]_|sprd-|MZ-)(?:Buildah/([.\\d]+))",
  pat! "(?i)(?:^|[^A-Z0-9\\-_]|[^A-Z0-9\\-]_|sprd-|MZ-)(?:buildkit/v?([.\\d]+))",
  pat! "(?i)(?:^|[^A-Z0-9\\-_]|[^A-Z0-9\\-]_|sprd-|MZ-)(?:containerd/v?([.\\d]+))",
  pat! "(?i)(?:^|[^A-Z0-9\\-_]|[^A-Z0-9\\-]_|sprd-|MZ-)(?:containers/([.\\d]+))",
  pat! "(?i)(?:^|[^A-Z0-9\\-_]|[^A-Z0-9\\-]_|sprd-|MZ-)(?:cri-o/([.\\d]+))",
  pat! "(?i)(?:^|[^A-Z0-9\\-_]|[^A-Z0-9\\-]_|sprd-|MZ-)(?:docker/([.\\d]+))",
  pat! "(?i)(?:^|[^A-Z0-9\\-_]|[^A-Z0-9\\-]_|sprd-|MZ-)(?:go-containerregistry/v([.\\d]+))",
  pat! "(?i)(?:^|[^A-Z0-9\\-_]|[^A-Z0-9\\-]_|sprd-|MZ-)(?:libpod/([.\\d]+))",
  pat! "(?i)(?:^|[^A-Z0-9\\-_]|[^A-Z0-9\\-]_|sprd-|MZ-)(?:skopeo/([.\\d]+))",
  pat! "(?i)(?:^|[^A-Z0-9\\-_]|[^A-Z0-9\\-]_|sprd-|MZ-)(?:Helm/([.\\d]+))",
  pat! "(?i)(?:^|[^A-Z0-9\\-_]|[^A-Z0-9\\-]_|sprd-|MZ-)(?:axios(?:/?(\\d+[.\\d]+))?)",
  pat! "(?i)(?:^|[^A-Z0-9\\-_]|[^A-Z0-9\\-]_|sprd-|MZ-)(?:^CarrierWave/(\\d+\\.[.\\d]+))",
  pat! "(?i)(?:^|[^A-Z0-9\\-_]|[^A-Z0-9\\-]_|sprd-|MZ-)(?:^Deno/(\\d+\\.[.\\d]+))",
  pat! "(?i)(?:^|[^A-Z0-9\\-_]|[^A-Z0-9\\-]_|sprd-|MZ-)(?:^Down/(\\d+\\.[.\\d]+))",
  pat! "(?i)(?:^|[^A-Z0-9\\-_]|[^A-Z0-9\\-]_|sprd-|MZ-)(?:^Lavf/)",
  pat! "(?i)(?:^|[^A-Z0-9\\-_]|[^A-Z0-9\\-]_|sprd-|MZ-)(?:^FileDownloader/(\\d+\\.[.\\d]+))",
  pat! "(?i)(?:^|[^A-Z0-9\\-_]|[^A-Z0-9\\-]_|sprd-|MZ-)(?:^git-annex/(\\d+\\.[.\\d]+))",
  pat! "(?i)(?:^|[^A-Z0-9\\-_]|[^A-Z0-9\\-]_|sprd-|MZ-)(?:^GStreamer(?: souphttpsrc)[ /](\\d+\\.[.\\d]+)?)",
  pat! "(?i)(?:^|[^A-Z0-9\\-_]|[^A-Z0-9\\-]_|sprd-|MZ-)(?:^HTTP-Tiny/(\\d+\\.[.\\d]+))",
  pat! "(?i)(?:^|[^A-Z0-9\\-_]|[^A-Z0-9\\-]_|sprd-|MZ-)(?:^libsoup/(\\d+\\.[.\\d]+))",
  pat! "(?i)(?:^|[^A-Z0-9\\-_]|[^A-Z0-9\\-]_|sprd-|MZ-)(?:^Android\\.LVLDM$)",
  pat! "(?i)(?:^|[^A-Z0-9\\-_]|[^A-Z0-9\\-]_|sprd-|MZ-)(?:^PRDownloader$)",
  pat! "(?i)(?:^|[^A-Z0-9\\-_]|[^A-Z0-9\\-]_|sprd-|MZ-)(?:^reqwest/(\\d+\\.[.\\d]+))",
  pat! "(?i)(?:^|[^A-Z0-9\\-_]|[^A-Z0-9\\-]_|sprd-|MZ-)(?:^resty-requests)",
  pat! "(?i)(?:^|[^A-Z0-9\\-_]|[^A-Z0-9\\-]_|sprd-|MZ-)(?:^Ruby)",
  pat! "(?i)(?:^|[^A-Z0-9\\-_]|[^A-Z0-9\\-]_|sprd-|MZ-)(?:^SafariViewService/(\\d+\\.[.\\d]+))",
  pat! "(?i)(?:^|[^A-Z0-9\\-_]|[^A-Z0-9\\-]_|sprd-|MZ-)(?:^undici$)",
  pat! "(?i)(?:^|[^A-Z0-9\\-_]|[^A-Z0-9\\-]_|sprd-|MZ-)(?:^URL/Emacs Emacs/(\\d+\\.[.\\d]+))",
  pat! "(?i)(?:^|[^A-Z0-9\\-_]|[^A-Z0-9\\-]_|sprd-|MZ-)(?:^FDM[ /]([\\d.]+))",
  pat! "(?i)(?:^|[^A-Z0-9\\-_]|[^A-Z0-9\\-]_|sprd-|MZ-)(?:OkDownload/([\\d.]+))",
  pat! "(?i)(?:^|[^A-Z0-9\\-_]|[^A-Z0-9\\-]_|sprd-|MZ-)(?:^Libsyn4-?(?:peek|download)$)",
  pat! "(?i)(?:^|[^A-Z0-9\\-_]|[^A-Z0-9\\-]_|sprd-|MZ-)(?:AppleCoreMedia/1\\.0\\.0)",
  pat! "(?i)(?:^|[^A-Z0-9\\-_]|[^A-Z0-9\\-]_|sprd-|MZ-)(?:cpp-httplib(?:/(\\d+[.\\d]+))?)",
  pat! "(?i)(?:^|[^A-Z0-9\\-_]|[^A-Z0-9\\-]_|sprd-|MZ-)(?:Stealer ([\\d.]+))",
  pat! "(?i)(?:^|[^A-Z0-9\\-_]|[^A-Z0-9\\-]_|sprd-|MZ-)(?:Mandrill-PHP(?:/(\\d+[.\\d]+))?)",
  pat! "(?i)(?:^|[^A-Z0-9\\-_]|[^A-Z0-9\\-]_|sprd-|MZ-)(?:^Podgrab)",
  pat! "(?i)(?:^|[^A-Z0-9\\-_]|[^A-Z0-9\\-]_|sprd-|MZ-)(?:^Podcast Provider.*?Radio Downloader ([\\d.]+))",
  pat! "(?i)(?:^|[^A-Z0-9\\-_]|[^A-Z0-9\\-]_|sprd-|MZ-)(?:^ESP32 HTTP Client/([\\d.]+))",
  pat! "(?i)(?:^|[^A-Z0-9\\-_]|[^A-Z0-9\\-]_|sprd-|MZ-)(?:babashka\\.http-client(?:/(\\d+[.\\d]+))?)",
  pat! "(?i)(?:^|[^A-Z0-9\\-_]|[^A-Z0-9\\-]_|sprd-|MZ-)(?:http\\.rb(?:/(\\d+[.\\d]+))?)",
  pat! "(?i)(?:^|[^A-Z0-9\\-_]|[^A-Z0-9\\-]_|sprd-|MZ-)(?:node-superagent(?:/(\\d+[.\\d]+))?)",
  pat! "(?i)(?:^|[^A-Z0-9\\-_]|[^A-Z0-9\\-]_|sprd-|MZ-)(?:request\\.js)",
  pat! "(?i)(?:^|[^A-Z0-9\\-_]|[^A-Z0-9\\-]_|sprd-|MZ-)(?:qbhttp(?:/(\\d+[.\\d]+))?)",
  pat! "(?i)(?:^|[^A-Z0-9\\-_]|[^A-Z0-9\\-]_|sprd-|MZ-)(?:httprs(?:/(\\d+[.\\d]+))?)",
  pat! "(?i)(?:^|[^A-Z0-9\\-_]|[^A-Z0-9\\-]_|sprd-|MZ-)(?:Boto3(?:/(\\d+[.\\d]+))?)",
  pat! "(?i)(?:^|[^A-Z0-9\\-_]|[^A-Z0-9\\-]_|sprd-|MZ-)(?:Python-xmlrpc(?:/(\\d+[.\\d]+))?)",
  pat! "(?i)(?:^|[^A-Z0-9\\-_]|[^A-Z0-9\\-]_|sprd-|MZ-)(?:ICAP-Client-Library(?:/(\\d+[.\\d]+))?)",
  pat! "(?i)(?:^|[^A-Z0-9\\-_]|[^A-Z0-9\\-]_|sprd-|MZ-)(?:Cygwin-Setup(?:/(\\d+[.\\d]+))?)",
  pat! "(?i)(?:^|[^A-Z0-9\\-_]|[^A-Z0-9\\-]_|sprd-|MZ-)(?:azsdk-python-storage-blob(?:/(\\d+[.\\d]+))?)",
  pat! "(?i)(?:^|[^A-Z0-9\\-_]|[^A-Z0-9\\-]_|sprd-|MZ-)(?:trafilatura(?:/(\\d+[.\\d]+))?)",
  pat! "(?i)(?:^|[^A-Z0-9\\-_]|[^A-Z0-9\\-]_|sprd-|MZ-)(?:sqlmap(?:/(\\d+[.\\d]+))?)",
  pat! "(?i)(?:^|[^A-Z0-9\\-_]|[^A-Z0-9\\-]_|sprd-|MZ-)(?:vimeo\\.php(?: (\\d+[.\\d]+))?)",
  pat! "(?i)(?:^|[^A-Z0-9\\-_]|[^A-Z0-9\\-]_|sprd-|MZ-)(?:^PHP/?(\\d+[.\\d]+))",
  pat! "(?i)(?:^|[^A-Z0-9\\-_]|[^A-Z0-9\\-]_|sprd-|MZ-)(?:go-network-v(\\d+[.\\d]+))",
  pat! "(?i)(?:^|[^A-Z0-9\\-_]|[^A-Z0-9\\-]_|sprd-|MZ-)(?:Bun/(\\d+\\.[.\\d]+))",
  pat! "(?i)(?:^|[^A-Z0-9\\-_]|[^A-Z0-9\\-]_|sprd-|MZ-)(?:Apidog/(\\d+\\.[.\\d]+))",
  pat! "(?i)(?:^|[^A-Z0-9\\-_]|[^A-Z0-9\\-]_|sprd-|MZ-)(?:webchk v(\\d+\\.[.\\d]+))",
  pat! "(?i)(?:^|[^A-Z0-9\\-_]|[^A-Z0-9\\-]_|sprd-|MZ-)(?:MatomoTrackerSDK/(\\d+[.\\d]+))",
  pat! "(?i)(?:^|[^A-Z0-9\\-_]|[^A-Z0-9\\-]_|sprd-|MZ-)(?:libHTTP/(\\d+[.\\d]+))",
  pat! "(?i)(?:^|[^A-Z0-9\\-_]|[^A-Z0-9\\-]_|sprd-|MZ-)(?:^Hubot/(\\d+[.\\d]+))",
  pat! "(?i)(?:^|[^A-Z0-9\\-_]|[^A-Z0-9\\-]_|sprd-|MZ-)(?:Audacious(?:[ /]([\\d.]+))?)",
  pat! "(?i)(?:^|[^A-Z0-9\\-_]|[^A-Z0-9\\-]_|sprd-|MZ-)(?:(?:AlexaMediaPlayer/|^AlexaMediaPlayer/|^Echo/|Amazon;Echo(?:_|;)|^AlexaService/|^Alexa Mobile Voice/)([a-z\\d]+\\.[a-z.\\d]+)?)",
  pat! "(?i)(?:^|[^A-Z0-9\\-_]|[^A-Z0-9\\-]_|sprd-|MZ-)(?:Banshee(?:[ /]([\\d.]+))?)",
  pat! "(?i)(?:^|[^A-Z0-9\\-_]|[^A-Z0-9\\-]_|sprd-|MZ-)(?:Boxee(?:[ /]([\\d.]+))?)",
  pat! "(?i)(?:^|[^A-Z0-9\\-_]|[^A-Z0-9\\-]_|sprd-|MZ-)(?:Clementine(?:[ /]([\\d.]+))?)",
  pat! "(?i)(?:^|[^A-Z0-9\\-_]|[^A-Z0-9\\-]_|sprd-|MZ-)(?:Deezer(?:/([\\d.]+))?)",
  pat! "(?i)(?:^|[^A-Z0-9\\-_]|[^A-Z0-9\\-]_|sprd-|MZ-)(?:iTunes(?:-iPhone|-iPad)?(?:/([\\d.]+))?)",
  pat! "(?i)(?:^|[^A-Z0-9\\-_]|[^A-Z0-9\\-]_|sprd-|MZ-)(?:FlyCast(?:/([\\d.]+))?)",
  pat! "(?i)(?:^|[^A-Z0-9\\-_]|[^A-Z0-9\\-]_|sprd-|MZ-)(?:foobar2000(?:/([\\d.]+))?)",
  pat! "(?i)(?:^|[^A-Z0-9\\-_]|[^A-Z0-9\\-]_|sprd-|MZ-)(?:MediaMonkey(?:[ /](\\d+[.\\d]+))?)",
  pat! "(?i)(?:^|[^A-Z0-9\\-_]|[^A-Z0-9\\-]_|sprd-|MZ-)(?:Miro(?:/(\\d+[.\\d]+))?)",
  pat! "(?i)(?:^|[^A-Z0-9\\-_]|[^A-Z0-9\\-]_|sprd-|MZ-)(?:NexPlayer(?:/(\\d+[.\\d]+))?)",
  pat! "(?i)(?:^|[^A-Z0-9\\-_]|[^A-Z0-9\\-]_|sprd-|MZ-)(?:Nightingale(?:/([\\d.]+))?)",
  pat! "(?i)(?:^|[^A-Z0-9\\-_]|[^A-Z0-9\\-]_|sprd-|MZ-)(?:QuickTime(?:(?:(?:.+qtver=)|(?:(?: E-)?[\\./]))([\\d.]+))?)",
  pat! "(?i)(?:^|[^A-Z0-9\\-_]|[^A-Z0-9\\-]_|sprd-|MZ-)(?:Songbird(?:/([\\d.]+))?)",
  pat! "(?i)(?:^|[^A-Z0-9\\-_]|[^A-Z0-9\\-]_|sprd-|MZ-)(?:SubStream(?:/([\\d.]+))?)",
  pat! "(?i)(?:^|[^A-Z0-9\\-_]|[^A-Z0-9\\-]_|sprd-|MZ-)(?:Sonos/([\\d.]+)?)",
  pat! "(?i)(?:^|[^A-Z0-9\\-_]|[^A-Z0-9\\-]_|sprd-|MZ-)(?:(?:Lib)?VLC(?:/([\\d.]+))?)",
  pat! "(?i)(?:^|[^A-Z0-9\\-_]|[^A-Z0-9\\-]_|sprd-|MZ-)(?:Winamp(?:MPEG)?(?:/(\\d+[.\\d]+))?)",
  pat! "(?i)(?:^|[^A-Z0-9\\-_]|[^A-Z0-9\\-]_|sprd-|MZ-)(?:J\\. River Internet Reader/(\\d+\\.[.\\d]+))",
  pat! "(?i)(?:^|[^A-Z0-9\\-_]|[^A-Z0-9\\-]_|sprd-|MZ-)(?:(?:Windows-Media-Player|NSPlayer)(?:/(\\d+[.\\d]+))?)",
  pat! "(?i)(?:^|[^A-Z0-9\\-_]|[^A-Z0-9\\-]_|sprd-|MZ-)(?:XBMC(?:/([\\d.]+))?)",
  pat! "(?i)(?:^|[^A-Z0-9\\-_]|[^A-Z0-9\\-]_|sprd-|MZ-)(?:Kodi(?:/([\\d.]+))?)",
  pat! "(?i)(?:^|[^A-Z0-9\\-_]|[^A-Z0-9\\-]_|sprd-|MZ-)(?:stagefright(?:/([\\d.]+))?)",
  pat! "(?i)(?:^|[^A-Z0-9\\-_]|[^A-Z0-9\\-]_|sprd-|MZ-)(?:GoogleChirp(?:/(\\d+[.\\d]+))?)",
  pat! "(?i)(?:^|[^A-Z0-9\\-_]|[^A-Z0-9\\-]_|sprd-|MZ-)(?:Music Player Daemon (?:(\\d+[.\\d]+))?)",
  pat! "(?i)(?:^|[^A-Z0-9\\-_]|[^A-Z0-9\\-]_|sprd-|MZ-)(?:mpv (?:(\\d+[.\\d]+))?)",
  pat! "(?i)(?:^|[^A-Z0-9\\-_]|[^A-Z0-9\\-]_|sprd-|MZ-)(?:MediaGo(?:/([\\w\\.]+))?)",
  pat! "(?i)(?:^|[^A-Z0-9\\-_]|[^A-Z0-9\\-]_|sprd-|MZ-)(?:MPlayer[ /](\\d+\\.[\\d.]))",
  pat! "(?i)(?:^|[^A-Z0-9\\-_]|[^A-Z0-9\\-]_|sprd-|MZ-)(?:Downcast/(\\d+\\.[\\d.]+)?)",
  pat! "(?i)(?:^|[^A-Z0-9\\-_]|[^A-Z0-9\\-]_|sprd-|MZ-)(?:^Juice/([\\d.]+))"]

/-- `__cr_re`, from item 750 on (client_repo.go:2251-2500). -/
def crRe_3 : List (List Chunk) := [
  pat! "(?i)(?:^|[^A-Z0-9\\-_]|[^A-Z0-9\\-]_|sprd-|MZ-)(?:just_audio/(\\d+\\.[.\\d]+))",
  pat! "(?i)(?:^|[^A-Z0-9\\-_]|[^A-Z0-9\\-]_|sprd-|MZ-)(?:^Kasts/(\\d+\\.[.\\d]+))",
  pat! "(?i)(?:^|[^A-Z0-9\\-_]|[^A-Z0-9\\-]_|sprd-|MZ-)(?:MixerBox(?:%20Pro)?/([.\\d]+))",
  pat! "(?i)(?:^|[^A-Z0-9\\-_]|[^A-Z0-9\\-]_|sprd-|MZ-)(?:^MusicBee(?:/(\\d+\\.[.\\d]+))?)",
  pat! "(?i)(?:^|[^A-Z0-9\\-_]|[^A-Z0-9\\-]_|sprd-|MZ-)(?:^amarok/(\\d+\\.[.\\d]+))",
  pat! "(?i)(?:^|[^A-Z0-9\\-_]|[^A-Z0-9\\-]_|sprd-|MZ-)(?:Hubhopper/([\\d.]+))",
  pat! "(?i)(?:^|[^A-Z0-9\\-_]|[^A-Z0-9\\-]_|sprd-|MZ-)(?:StudioDisplay/(\\d+\\.[\\d.]+))",
  pat! "(?i)(?:^|[^A-Z0-9\\-_]|[^A-Z0-9\\-]_|sprd-|MZ-)(?:JHV/SWHV-([.\\d+]+))",
  pat! "(?i)(?:^|[^A-Z0-9\\-_]|[^A-Z0-9\\-]_|sprd-|MZ-)(?:com\\.devcoder\\.iptvxtreamplayer)",
  pat! "(?i)(?:^|[^A-Z0-9\\-_]|[^A-Z0-9\\-]_|sprd-|MZ-)(?:DIGA(?:Plus/(\\d+\\.[.\\d]+))?)",
  pat! "(?i)(?:^|[^A-Z0-9\\-_]|[^A-Z0-9\\-]_|sprd-|MZ-)(?:YouView(?:HTML/(\\d+\\.[.\\d]+))?)",
  pat! "(?i)(?:^|[^A-Z0-9\\-_]|[^A-Z0-9\\-]_|sprd-|MZ-)(?:jpameblo;(\\d+\\.[.\\d]+))",
  pat! "(?i)(?:^|[^A-Z0-9\\-_]|[^A-Z0-9\\-]_|sprd-|MZ-)(?:CSDNApp/(\\d+\\.[.\\d]+))",
  pat! "(?i)(?:^|[^A-Z0-9\\-_]|[^A-Z0-9\\-]_|sprd-|MZ-)(?:binu(?:/(\\d+[.\\d]+))?)",
  pat! "(?i)(?:^|[^A-Z0-9\\-_]|[^A-Z0-9\\-]_|sprd-|MZ-)(?:KPN_Veilig[ /](\\d+\\.[.\\d]+))",
  pat! "(?i)(?:^|[^A-Z0-9\\-_]|[^A-Z0-9\\-]_|sprd-|MZ-)(?:NAVER/(\\d+[.\\d]+) CFNetwork)",
  pat! "(?i)(?:^|[^A-Z0-9\\-_]|[^A-Z0-9\\-]_|sprd-|MZ-)(?:NAVER\\(inapp; search; .+; (\\d+[.\\d]+);.+\\))",
  pat! "(?i)(?:^|[^A-Z0-9\\-_]|[^A-Z0-9\\-]_|sprd-|MZ-)(?:NAVER\\(inapp; search; .+; (\\d+[.\\d]+)\\))",
  pat! "(?i)(?:^|[^A-Z0-9\\-_]|[^A-Z0-9\\-]_|sprd-|MZ-)(?:NAVER\\(inapp; naverdicapp; .+; (\\d+[.\\d]+)\\))",
  pat! "(?i)(?:^|[^A-Z0-9\\-_]|[^A-Z0-9\\-]_|sprd-|MZ-)(?:Chrome/Soldier_([\\d.]+))",
  pat! "(?i)(?:^|[^A-Z0-9\\-_]|[^A-Z0-9\\-]_|sprd-|MZ-)(?:AndroidDownloadManager(?:[ /]([\\d.]+))?)",
  pat! "(?i)(?:^|[^A-Z0-9\\-_]|[^A-Z0-9\\-]_|sprd-|MZ-)(?:(?:Apple)?News(?:[ /][\\d.]+)? Version(?:[ /]([\\d.]+))?)",
  pat! "(?i)(?:^|[^A-Z0-9\\-_]|[^A-Z0-9\\-]_|sprd-|MZ-)(?:appletv\\.client)",
  pat! "(?i)(?:^|[^A-Z0-9\\-_]|[^A-Z0-9\\-]_|sprd-|MZ-)(?:AudienceNetworkForAndroid.+(?:FBAV)(?:[ /]([\\d.]+))?)",
  pat! "(?i)(?:^|[^A-Z0-9\\-_]|[^A-Z0-9\\-]_|sprd-|MZ-)(?:(?:mLite|MessengerLite(?:ForiOS)?).*(?:FBAV)(?:[ /]([\\d.]+))?)",
  pat! "(?i)(?:^|[^A-Z0-9\\-_]|[^A-Z0-9\\-]_|sprd-|MZ-)(?:(?:MessengerForiOS|MESSENGER|(?:FB_IAB|FBAN)/Orca-Android).*(?:FBAV)(?:[ /]([\\d.]+))?)",
  pat! "(?i)(?:^|[^A-Z0-9\\-_]|[^A-Z0-9\\-]_|sprd-|MZ-)(?:(?:MessengerForiOS|(?:FB_IAB|FBAN)/Orca-Android))",
  pat! "(?i)(?:^|[^A-Z0-9\\-_]|[^A-Z0-9\\-]_|sprd-|MZ-)(?:(?:GroupsForiOS).*(?:FBAV)(?:[ /]([\\d.]+))?)",
  pat! "(?i)(?:^|[^A-Z0-9\\-_]|[^A-Z0-9\\-]_|sprd-|MZ-)(?:FBAN/EMA.+FBAV(?:[ /]([\\d.]+))?)",
  pat! "(?i)(?:^|[^A-Z0-9\\-_]|[^A-Z0-9\\-]_|sprd-|MZ-)(?:FBAN/FBPageAdmin.+FBAV(?:[ /]([\\d.]+))?)",
  pat! "(?i)(?:^|[^A-Z0-9\\-_]|[^A-Z0-9\\-]_|sprd-|MZ-)(?:(?:FBAV|com\\.facebook\\.katana|facebook-mobile/1\\.0|facebook-mobile/|Facebook/)(?:[ /]([\\d.]+))?)",
  pat! "(?i)(?:^|[^A-Z0-9\\-_]|[^A-Z0-9\\-]_|sprd-|MZ-)(?:(?:FBAN|FBSV|FBID|FBBV)/)",
  pat! "(?i)(?:^|[^A-Z0-9\\-_]|[^A-Z0-9\\-]_|sprd-|MZ-)(?:Instagram[ /]([\\d.]+)?)",
  pat! "(?i)(?:^|[^A-Z0-9\\-_]|[^A-Z0-9\\-]_|sprd-|MZ-)(?:Barcelona[ /]([\\d.]+)?)",
  pat! "(?i)(?:^|[^A-Z0-9\\-_]|[^A-Z0-9\\-]_|sprd-|MZ-)(?:FeedR(?:/([\\d.]+))?)",
  pat! "(?i)(?:^|[^A-Z0-9\\-_]|[^A-Z0-9\\-]_|sprd-|MZ-)(?:com\\.google\\.android\\.apps\\.searchlite)",
  pat! "(?i)(?:^|[^A-Z0-9\\-_]|[^A-Z0-9\\-]_|sprd-|MZ-)(?:NSTNWV(?:/([\\d.]+))?)",
  pat! "(?i)(?:^|[^A-Z0-9\\-_]|[^A-Z0-9\\-]_|sprd-|MZ-)(?:com\\.google\\.android\\.apps\\.photos)",
  pat! "(?i)(?:^|[^A-Z0-9\\-_]|[^A-Z0-9\\-]_|sprd-|MZ-)(?:com\\.google\\.android\\.apps\\.magazines)",
  pat! "(?i)(?:^|[^A-Z0-9\\-_]|[^A-Z0-9\\-]_|sprd-|MZ-)(?:com\\.google\\.GooglePlus)",
  pat! "(?i)(?:^|[^A-Z0-9\\-_]|[^A-Z0-9\\-]_|sprd-|MZ-)(?:Google\\.DriveExtension(?:/([\\d.]+))?)",
  pat! "(?i)(?:^|[^A-Z0-9\\-_]|[^A-Z0-9\\-]_|sprd-|MZ-)(?:OPA/([\\d.]+))",
  pat! "(?i)(?:^|[^A-Z0-9\\-_]|[^A-Z0-9\\-]_|sprd-|MZ-)(?:com\\.google\\.Maps/([\\d.]+))",
  pat! "(?i)(?:^|[^A-Z0-9\\-_]|[^A-Z0-9\\-]_|sprd-|MZ-)(?:com\\.google\\.android\\.googlequicksearchbox)",
  pat! "(?i)(?:^|[^A-Z0-9\\-_]|[^A-Z0-9\\-]_|sprd-|MZ-)(?:wxwork/(\\d+[.\\d]+))",
  pat! "(?i)(?:^|[^A-Z0-9\\-_]|[^A-Z0-9\\-]_|sprd-|MZ-)(?:MicroMessenger/([\\d.]+))",
  pat! "(?i)(?:^|[^A-Z0-9\\-_]|[^A-Z0-9\\-]_|sprd-|MZ-)(?:WeChat/([\\d.]+))",
  pat! "(?i)(?:^|[^A-Z0-9\\-_]|[^A-Z0-9\\-]_|sprd-|MZ-)(?:WeChatShareExtensionNew/([\\d.]+))",
  pat! "(?i)(?:^|[^A-Z0-9\\-_]|[^A-Z0-9\\-]_|sprd-|MZ-)(?:DingTalk/([0-9.]+))",
  pat! "(?i)(?:^|[^A-Z0-9\\-_]|[^A-Z0-9\\-]_|sprd-|MZ-)(?:.*__weibo__([0-9.]+)__)",
  pat! "(?i)(?:^|[^A-Z0-9\\-_]|[^A-Z0-9\\-]_|sprd-|MZ-)(?:Pinterest(?: for (?:Android(?: Tablet)?|iOS))?(?:/([\\d.]+))?)",
  pat! "(?i)(?:^|[^A-Z0-9\\-_]|[^A-Z0-9\\-]_|sprd-|MZ-)(?:com\\.google\\.(?:android|ios)\\.youtube(?:/([\\d.]+))?)",
  pat! "(?i)(?:^|[^A-Z0-9\\-_]|[^A-Z0-9\\-]_|sprd-|MZ-)(?:YouTube/([\\d.]+)[JK])",
  pat! "(?i)(?:^|[^A-Z0-9\\-_]|[^A-Z0-9\\-]_|sprd-|MZ-)(?:Rutube(?:TV)?BlackAndroid)",
  pat! "(?i)(?:^|[^A-Z0-9\\-_]|[^A-Z0-9\\-]_|sprd-|MZ-)(?:com\\.netflix\\.mediaclient(?:/(\\d+\\.[\\d.]+))?)",
  pat! "(?i)(?:^|[^A-Z0-9\\-_]|[^A-Z0-9\\-]_|sprd-|MZ-)(?:Downcast/(\\d+\\.[\\d.]+)?(?:.+(?:!Mac)|$))",
  pat! "(?i)(?:^|[^A-Z0-9\\-_]|[^A-Z0-9\\-]_|sprd-|MZ-)(?:Flipp-iOS/.+CFNetwork)",
  pat! "(?i)(?:^|[^A-Z0-9\\-_]|[^A-Z0-9\\-]_|sprd-|MZ-)(?:Flipp-iOS/(\\d+[.\\d]+))",
  pat! "(?i)(?:^|[^A-Z0-9\\-_]|[^A-Z0-9\\-]_|sprd-|MZ-)(?:WhatsApp(?:/2)?$)",
  pat! "(?i)(?:^|[^A-Z0-9\\-_]|[^A-Z0-9\\-]_|sprd-|MZ-)(?:WhatsApp/([\\d.]+).+CloudAPI)",
  pat! "(?i)(?:^|[^A-Z0-9\\-_]|[^A-Z0-9\\-]_|sprd-|MZ-)(?:WhatsApp(?:Electron|\\-app|\\-linux-app)?(?:[ /]([\\d.]+))?)",
  pat! "(?i)(?:^|[^A-Z0-9\\-_]|[^A-Z0-9\\-]_|sprd-|MZ-)(?:YoWhatsApp2Plus(?:/(\\d+[.\\d]+))?)",
  pat! "(?i)(?:^|[^A-Z0-9\\-_]|[^A-Z0-9\\-]_|sprd-|MZ-)(?:YoFMWhatsApp(?:/(\\d+[.\\d]+))?)",
  pat! "(?i)(?:^|[^A-Z0-9\\-_]|[^A-Z0-9\\-]_|sprd-|MZ-)(?:(?:Yo)?GBWhatsApp(?:/(\\d+[.\\d]+))?)",
  pat! "(?i)(?:^|[^A-Z0-9\\-_]|[^A-Z0-9\\-]_|sprd-|MZ-)(?:YoYoWhatsApp(?:/(\\d+[.\\d]+))?)",
  pat! "(?i)(?:^|[^A-Z0-9\\-_]|[^A-Z0-9\\-]_|sprd-|MZ-)(?:ANWhatsApp(?:/(\\d+[.\\d]+))?)",
  pat! "(?i)(?:^|[^A-Z0-9\\-_]|[^A-Z0-9\\-]_|sprd-|MZ-)(?:Telegram/(\\d+[.\\d]+) CFNetwork)",
  pat! "(?i)(?:^|[^A-Z0-9\\-_]|[^A-Z0-9\\-]_|sprd-|MZ-)(?:(?:^com\\.google\\.android\\.apps\\.youtube\\.music/|^YouTubeMusic(?:Dev)?/)([\\d.]+)?)",
  pat! "(?i)(?:^|[^A-Z0-9\\-_]|[^A-Z0-9\\-]_|sprd-|MZ-)(?:Line(?:[ /]([\\d.]+)))",
  pat! "(?i)(?:^|[^A-Z0-9\\-_]|[^A-Z0-9\\-]_|sprd-|MZ-)(?:Instacast(?:HD)?/([\\d\\.abc]+) CFNetwork/([\\d.]+) Darwin/([\\d.]+))",
  pat! "(?i)(?:^|[^A-Z0-9\\-_]|[^A-Z0-9\\-]_|sprd-|MZ-)(?:Pocket Casts(?:, (?:Android|iOS) v([\\d.]+))?)",
  pat! "(?i)(?:^|[^A-Z0-9\\-_]|[^A-Z0-9\\-]_|sprd-|MZ-)(?:Podcat/([\\d.]+))",
  pat! "(?i)(?:^|[^A-Z0-9\\-_]|[^A-Z0-9\\-]_|sprd-|MZ-)(?:(?:^Overcast/([\\d.]+)|^Overcast.*Apple Watch))",
  pat! "(?i)(?:^|[^A-Z0-9\\-_]|[^A-Z0-9\\-]_|sprd-|MZ-)(?:(?:CastBox|fm\\.castbox\\.audiobook\\.radio\\.podcast)/?([\\d.]+)?)",
  pat! "(?i)(?:^|[^A-Z0-9\\-_]|[^A-Z0-9\\-]_|sprd-|MZ-)(?:Podkicker( (?:Pro|Classic))?/([\\d.]+))",
  pat! "(?i)(?:^|[^A-Z0-9\\-_]|[^A-Z0-9\\-]_|sprd-|MZ-)(?:PodcastRepublic/([\\d.]+))",
  pat! "(?i)(?:^|[^A-Z0-9\\-_]|[^A-Z0-9\\-]_|sprd-|MZ-)(?:Castro/(\\d+))",
  pat! "(?i)(?:^|[^A-Z0-9\\-_]|[^A-Z0-9\\-]_|sprd-|MZ-)(?:Castro 2 ([\\d.]+)/[\\d]+ Like iTunes)",
  pat! "(?i)(?:^|[^A-Z0-9\\-_]|[^A-Z0-9\\-]_|sprd-|MZ-)(?:(?:PodcastAddict/v([\\d]+)|^Podcast Addict))",
  pat! "(?i)(?:^|[^A-Z0-9\\-_]|[^A-Z0-9\\-]_|sprd-|MZ-)(?:Podcat(?:%202)?/([\\d]+) CFNetwork)",
  pat! "(?i)(?:^|[^A-Z0-9\\-_]|[^A-Z0-9\\-]_|sprd-|MZ-)(?:iCatcher[^\\d]+([\\d.]+))",
  pat! "(?i)(?:^|[^A-Z0-9\\-_]|[^A-Z0-9\\-]_|sprd-|MZ-)(?:YelpApp/([\\d.]+))",
  pat! "(?i)(?:^|[^A-Z0-9\\-_]|[^A-Z0-9\\-]_|sprd-|MZ-)(?:jp\\.co\\.yahoo\\.(?:android\\.yjtop|ipn\\.appli)/([\\d.]+))",
  pat! "(?i)(?:^|[^A-Z0-9\\-_]|[^A-Z0-9\\-]_|sprd-|MZ-)(?:RSSRadio/([\\d]+)?)",
  pat! "(?i)(?:^|[^A-Z0-9\\-_]|[^A-Z0-9\\-]_|sprd-|MZ-)(?:SogouSearch Android[\\d.]+ version([\\d.]+)?)",
  pat! "(?i)(?:^|[^A-Z0-9\\-_]|[^A-Z0-9\\-]_|sprd-|MZ-)(?:NewsArticle/([\\d.]+)?)",
  pat! "(?i)(?:^|[^A-Z0-9\\-_]|[^A-Z0-9\\-]_|sprd-|MZ-)(?:tieba/([\\d.]+)?)",
  pat! "(?i)(?:^|[^A-Z0-9\\-_]|[^A-Z0-9\\-]_|sprd-|MZ-)(?:com\\.douban\\.group/([\\d.]+)?)",
  pat! "(?i)(?:^|[^A-Z0-9\\-_]|[^A-Z0-9\\-]_|sprd-|MZ-)(?:(?:com\\.google\\.GoogleMobile|GSA|GoogleApp)/([\\d.]+)?)",
  pat! "(?i)(?:^|[^A-Z0-9\\-_]|[^A-Z0-9\\-]_|sprd-|MZ-)(?:Google/(\\d+[.\\d]+)? CFNetwork)",
  pat! "(?i)(?:^|[^A-Z0-9\\-_]|[^A-Z0-9\\-]_|sprd-|MZ-)(?:(?:Google|SearchWith)Lens/(\\d+[.\\d]+)?)",
  pat! "(?i)(?:^|[^A-Z0-9\\-_]|[^A-Z0-9\\-]_|sprd-|MZ-)(?:Flipboard/([\\d.]+)?)",
  pat! "(?i)(?:^|[^A-Z0-9\\-_]|[^A-Z0-9\\-]_|sprd-|MZ-)(?:lite baiduboxapp/([\\d.]+)?)",
  pat! "(?i)(?:^|[^A-Z0-9\\-_]|[^A-Z0-9\\-]_|sprd-|MZ-)(?:baiduboxapp/([\\d.]+)?)",
  pat! "(?i)(?:^|[^A-Z0-9\\-_]|[^A-Z0-9\\-]_|sprd-|MZ-)(?:baiduinput/([\\d.]+)?)",
  pat! "(?i)(?:^|[^A-Z0-9\\-_]|[^A-Z0-9\\-]_|sprd-|MZ-)(?:PetalSearch/([\\d.]+)?)",
  pat! "(?i)(?:^|[^A-Z0-9\\-_]|[^A-Z0-9\\-]_|sprd-|MZ-)(?:Crosswalk/([\\d.]+)?)",
  pat! "(?i)(?:^|[^A-Z0-9\\-_]|[^A-Z0-9\\-]_|sprd-|MZ-)(?:Twitter for iPhone[/]?([\\d.]+)?)",
  pat! "(?i)(?:^|[^A-Z0-9\\-_]|[^A-Z0-9\\-]_|sprd-|MZ-)(?:Twitter/([\\d.]+))",
  pat! "(?i)(?:^|[^A-Z0-9\\-_]|[^A-Z0-9\\-]_|sprd-|MZ-)(?:TwitterAndroid[/]?([\\d.]+)?)",
  pat! "(?i)(?:^|[^A-Z0-9\\-_]|[^A-Z0-9\\-]_|sprd-|MZ-)(?:^Pocket Casts)",
  pat! "(?i)(?:^|[^A-Z0-9\\-_]|[^A-Z0-9\\-]_|sprd-|MZ-)(?:(?:^GaanaAndroid-|^Gaana-iOS|^Gaana/)([\\d.]+)?)",
  pat! "(?i)(?:^|[^A-Z0-9\\-_]|[^A-Z0-9\\-]_|sprd-|MZ-)(?:TopBuzz/([\\d.]+))",
  pat! "(?i)(?:^|[^A-Z0-9\\-_]|[^A-Z0-9\\-]_|sprd-|MZ-)(?:(?:Safari/[\\d.]+)?Snapchat/?([\\d.]+))",
  pat! "(?i)(?:^|[^A-Z0-9\\-_]|[^A-Z0-9\\-]_|sprd-|MZ-)(?:AhaRadio2/([\\d.]+))",
  pat! "(?i)(?:^|[^A-Z0-9\\-_]|[^A-Z0-9\\-]_|sprd-|MZ-)(?:Unibox/([\\d.]+))",
  pat! "(?i)(?:^|[^A-Z0-9\\-_]|[^A-Z0-9\\-]_|sprd-|MZ-)(?:strimio(?:-desktop)/(\\d+\\.(?:[.\\d]+))?)",
  pat! "(?i)(?:^|[^A-Z0-9\\-_]|[^A-Z0-9\\-]_|sprd-|MZ-)(?:UnityPlayer/([\\d.]+))",
  pat! "(?i)(?:^|[^A-Z0-9\\-_]|[^A-Z0-9\\-]_|sprd-|MZ-)(?:UCURSOS/v([\\d.]+))",
  pat! "(?i)(?:^|[^A-Z0-9\\-_]|[^A-Z0-9\\-]_|sprd-|MZ-)(?:RobloxApp/([\\d.]+))",
  pat! "(?i)(?:^|[^A-Z0-9\\-_]|[^A-Z0-9\\-]_|sprd-|MZ-)(?:Viber(?:/(\\d+[.\\d]+))?)",
  pat! "(?i)(?:^|[^A-Z0-9\\-_]|[^A-Z0-9\\-]_|sprd-|MZ-)(?:LinkedIn(?:App)?(?:\\]?/([\\d.]+))?)",
  pat! "(?i)(?:^|[^A-Z0-9\\-_]|[^A-Z0-9\\-]_|sprd-|MZ-)(?:Instapaper/([\\d.]+))",
  pat! "(?i)(?:^|[^A-Z0-9\\-_]|[^A-Z0-9\\-]_|sprd-|MZ-)(?:Keeper/([\\d.]+))",
  pat! "(?i)(?:^|[^A-Z0-9\\-_]|[^A-Z0-9\\-]_|sprd-|MZ-)(?:Skyeng Teachers/([\\d.]+))",
  pat! "(?i)(?:^|[^A-Z0-9\\-_]|[^A-Z0-9\\-]_|sprd-|MZ-)(?:Kik/([\\d.]+) \\(Android)",
  pat! "(?i)(?:^|[^A-Z0-9\\-_]|[^A-Z0-9\\-]_|sprd-|MZ-)(?:Procast/?([\\d.]+)?)",
  pat! "(?i)(?:^|[^A-Z0-9\\-_]|[^A-Z0-9\\-]_|sprd-|MZ-)(?:DeviantArt/([\\d.]+))",
  pat! "(?i)(?:^|[^A-Z0-9\\-_]|[^A-Z0-9\\-]_|sprd-|MZ-)(?:discord/([\\d.]+).+Electron)",
  pat! "(?i)(?:^|[^A-Z0-9\\-_]|[^A-Z0-9\\-]_|sprd-|MZ-)(?:discord(?:-Updater)?/([\\d.]+))",
  pat! "(?i)(?:^|[^A-Z0-9\\-_]|[^A-Z0-9\\-]_|sprd-|MZ-)(?:Covenant%20Eyes/([\\d.]+))",
  pat! "(?i)(?:^|[^A-Z0-9\\-_]|[^A-Z0-9\\-]_|sprd-|MZ-)(?:HP%20Smart/([\\d.]+))",
  pat! "(?i)(?:^|[^A-Z0-9\\-_]|[^A-Z0-9\\-]_|sprd-|MZ-)(?:Bitsboard/([\\d.]+))",
  pat! "(?i)(?:^|[^A-Z0-9\\-_]|[^A-Z0-9\\-]_|sprd-|MZ-)(?:Betbull/([\\d.]+))",
  pat! "(?i)(?:^|[^A-Z0-9\\-_]|[^A-Z0-9\\-]_|sprd-|MZ-)(?:U-Cursos/([\\d.]+))",
  pat! "(?i)(?:^|[^A-Z0-9\\-_]|[^A-Z0-9\\-]_|sprd-|MZ-)(?:1PasswordThumbs/([\\d.]+))",
  pat! "(?i)(?:^|[^A-Z0-9\\-_]|[^A-Z0-9\\-]_|sprd-|MZ-)(?:(?:Microsoft Office )?(Access|Excel|OneDrive for Business|OneNote|PowerPoint|Project|Publisher|Visio|Word)(?: 20\\d{2})?[ /]\\(?(\\d+\\.[\\d.]*))",
  pat! "(?i)(?:^|[^A-Z0-9\\-_]|[^A-Z0-9\\-]_|sprd-|MZ-)(?:^Mozilla/4\\.0 \\(compatible; ms-office; MSOffice[ /]([\\d.]+))",
  pat! "(?i)(?:^|[^A-Z0-9\\-_]|[^A-Z0-9\\-]_|sprd-|MZ-)(?:Microsoft Office SyncProc ([\\d.]+))",
  pat! "(?i)(?:^|[^A-Z0-9\\-_]|[^A-Z0-9\\-]_|sprd-|MZ-)(?:Microsoft Lync ([\\d.]+))",
  pat! "(?i)(?:^|[^A-Z0-9\\-_]|[^A-Z0-9\\-]_|sprd-|MZ-)(?:Microsoft\\.Data\\.Mashup)",
  pat! "(?i)(?:^|[^A-Z0-9\\-_]|[^A-Z0-9\\-]_|sprd-|MZ-)(?:WpsM?office/([\\d.]+))",
  pat! "(?i)(?:^|[^A-Z0-9\\-_]|[^A-Z0-9\\-]_|sprd-|MZ-)(?:OneDriveiOSApp/([\\d.]+))",
  pat! "(?i)(?:^|[^A-Z0-9\\-_]|[^A-Z0-9\\-]_|sprd-|MZ-)(?:(?:Microsoft Office Mobile|officemobile)[ /]([\\d.]+))",
  pat! "(?i)(?:^|[^A-Z0-9\\-_]|[^A-Z0-9\\-]_|sprd-|MZ-)(?:Skype/([\\d.]+))",
  pat! "(?i)(?:^|[^A-Z0-9\\-_]|[^A-Z0-9\\-]_|sprd-|MZ-)(?:OC/([\\d.]+) \\(Skype for Business\\))",
  pat! "(?i)(?:^|[^A-Z0-9\\-_]|[^A-Z0-9\\-]_|sprd-|MZ-)(?:iPhoneLync/([\\d.]+))",
  pat! "(?i)(?:^|[^A-Z0-9\\-_]|[^A-Z0-9\\-]_|sprd-|MZ-)(?:GroupMe/([\\d.]+))",
  pat! "(?i)(?:^|[^A-Z0-9\\-_]|[^A-Z0-9\\-]_|sprd-|MZ-)(?:AppName/(?:musical_ly|trill) app_version/([\\d.]+))",
  pat! "(?i)(?:^|[^A-Z0-9\\-_]|[^A-Z0-9\\-]_|sprd-|MZ-)(?:(?:TikTok[/ ]|com\\.zhiliaoapp\\.musically|musical_ly_|trill_)(\\d+\\.(?:[.\\d]+))?)",
  pat! "(?i)(?:^|[^A-Z0-9\\-_]|[^A-Z0-9\\-]_|sprd-|MZ-)(?:(?:musically_go|ultralite) app_version/([\\d.]+))",
  pat! "(?i)(?:^|[^A-Z0-9\\-_]|[^A-Z0-9\\-]_|sprd-|MZ-)(?:aweme(?: app_version)?/([\\d.]+))",
  pat! "(?i)(?:^|[^A-Z0-9\\-_]|[^A-Z0-9\\-]_|sprd-|MZ-)(?:Copied/(\\d+[.\\d]+) CFNetwork)",
  pat! "(?i)(?:^|[^A-Z0-9\\-_]|[^A-Z0-9\\-]_|sprd-|MZ-)(?:Pic%20Collage/(\\d+[.\\d]+) CFNetwork)",
  pat! "(?i)(?:^|[^A-Z0-9\\-_]|[^A-Z0-9\\-]_|sprd-|MZ-)(?:Papers/(\\d+[.\\d]+) CFNetwork)",
  pat! "(?i)(?:^|[^A-Z0-9\\-_]|[^A-Z0-9\\-]_|sprd-|MZ-)(?:RoboForm/(\\d+[.\\d]+) CFNetwork)",
  pat! "(?i)(?:^|[^A-Z0-9\\-_]|[^A-Z0-9\\-]_|sprd-|MZ-)(?:Slack/(\\d+[.\\d]+) CFNetwork)",
  pat! "(?i)(?:^|[^A-Z0-9\\-_]|[^A-Z0-9\\-]_|sprd-|MZ-)(?:com\\.tinyspeck\\.chatlyio/(\\d+[.\\d]+))",
  pat! "(?i)(?:^|[^A-Z0-9\\-_]|[^A-Z0-9\\-]_|sprd-|MZ-)(?:KAKAOTALK (\\d+\\.(?:[.\\d]+))?)",
  pat! "(?i)(?:^|[^A-Z0-9\\-_]|[^A-Z0-9\\-]_|sprd-|MZ-)(?:ShopeeVN/([\\d.]+))",
  pat! "(?i)(?:^|[^A-Z0-9\\-_]|[^A-Z0-9\\-]_|sprd-|MZ-)(?:SPORT1/([\\d.]+))",
  pat! "(?i)(?:^|[^A-Z0-9\\-_]|[^A-Z0-9\\-]_|sprd-|MZ-)(?:Clovia/([\\d.]+))",
  pat! "(?i)(?:^|[^A-Z0-9\\-_]|[^A-Z0-9\\-]_|sprd-|MZ-)(?:ShowMe/([\\d.]+))",
  pat! "(?i)(?:^|[^A-Z0-9\\-_]|[^A-Z0-9\\-]_|sprd-|MZ-)(?:Wattpad/([\\d.]+))",
  pat! "(?i)(?:^|[^A-Z0-9\\-_]|[^A-Z0-9\\-]_|sprd-|MZ-)(?:WSJ/([\\d.]+))",
  pat! "(?i)(?:^|[^A-Z0-9\\-_]|[^A-Z0-9\\-]_|sprd-|MZ-)(?:WH%20Questions/([\\d.]+))",
  pat! "(?i)(?:^|[^A-Z0-9\\-_]|[^A-Z0-9\\-]_|sprd-|MZ-)(?:whisper/([\\d.]+))",
  pat! "(?i)(?:^|[^A-Z0-9\\-_]|[^A-Z0-9\\-]_|sprd-|MZ-)(?:Opal/([\\d.]+))",
  pat! "(?i)(?:^|[^A-Z0-9\\-_]|[^A-Z0-9\\-]_|sprd-|MZ-)(?:Zalo/([\\d.]+)|Zalo (?:android|iOS))",
  pat! "(?i)(?:^|[^A-Z0-9\\-_]|[^A-Z0-9\\-]_|sprd-|MZ-)(?:Yandex/([\\d.]+))",
  pat! "(?i)(?:^|[^A-Z0-9\\-_]|[^A-Z0-9\\-]_|sprd-|MZ-)(?:ZenKit/([\\d.]+))",
  pat! "(?i)(?:^|[^A-Z0-9\\-_]|[^A-Z0-9\\-]_|sprd-|MZ-)(?:Zoho%20Chat/([\\d.]+))",
  pat! "(?i)(?:^|[^A-Z0-9\\-_]|[^A-Z0-9\\-]_|sprd-|MZ-)(?:Thunder/(\\d+[.\\d]+))",
  pat! "(?i)(?:^|[^A-Z0-9\\-_]|[^A-Z0-9\\-]_|sprd-|MZ-)(?:CGNBrowser/(\\d+[.\\d]+))",
  pat! "(?i)(?:^|[^A-Z0-9\\-_]|[^A-Z0-9\\-]_|sprd-|MZ-)(?:(?:Podbean/.+App |Podbean/Android generic |Podbean/iOS \\([^)]+\\) )(\\d+[.\\d]+))",
  pat! "(?i)(?:^|[^A-Z0-9\\-_]|[^A-Z0-9\\-]_|sprd-|MZ-)(?:TuneIn Radio Pro(?:[^/]*)/(\\d+[.\\d]+))",
  pat! "(?i)(?:^|[^A-Z0-9\\-_]|[^A-Z0-9\\-]_|sprd-|MZ-)(?:TuneIn(?:(?: |%20)Radio(?:[^/]*))?/?(\\d+[.\\d]+)?)",
  pat! "(?i)(?:^|[^A-Z0-9\\-_]|[^A-Z0-9\\-]_|sprd-|MZ-)(?:devcasts/(\\d+[.\\d]+))",
  pat! "(?i)(?:^|[^A-Z0-9\\-_]|[^A-Z0-9\\-]_|sprd-|MZ-)(?:Swoot/(\\d+[.\\d]+))",
  pat! "(?i)(?:^|[^A-Z0-9\\-_]|[^A-Z0-9\\-]_|sprd-|MZ-)(?:(?:^RadioPublic[/ ](?:Android|iOS)[- ])(\\d+\\.[.\\d]+))",
  pat! "(?i)(?:^|[^A-Z0-9\\-_]|[^A-Z0-9\\-]_|sprd-|MZ-)(?:Podimo/(\\d+[.\\d]+))",
  pat! "(?i)(?:^|[^A-Z0-9\\-_]|[^A-Z0-9\\-]_|sprd-|MZ-)(?:com\\.evolve\\.podcast/(\\d+[.\\d]+))",
  pat! "(?i)(?:^|[^A-Z0-9\\-_]|[^A-Z0-9\\-]_|sprd-|MZ-)(?:Rocket\\.Chat\\+?/(\\d+[.\\d]+))",
  pat! "(?i)(?:^|[^A-Z0-9\\-_]|[^A-Z0-9\\-]_|sprd-|MZ-)(?:^Pandora Audio.+Android)",
  pat! "(?i)(?:^|[^A-Z0-9\\-_]|[^A-Z0-9\\-]_|sprd-|MZ-)(?:^WirtschaftsWoche-iOS-(\\d+[.\\d]+))",
  pat! "(?i)(?:^|[^A-Z0-9\\-_]|[^A-Z0-9\\-]_|sprd-|MZ-)(?:^TVirl/(\\d+[.\\d]+))",
  pat! "(?i)(?:^|[^A-Z0-9\\-_]|[^A-Z0-9\\-]_|sprd-|MZ-)(?:2?chMate/(\\d+[.\\d]+))",
  pat! "(?i)(?:^|[^A-Z0-9\\-_]|[^A-Z0-9\\-]_|sprd-|MZ-)(?:2tch/(\\d+[.\\d]+))",
  pat! "(?i)(?:^|[^A-Z0-9\\-_]|[^A-Z0-9\\-]_|sprd-|MZ-)(?:Ciisaa/(\\d+[.\\d]+))",
  pat! "(?i)(?:^|[^A-Z0-9\\-_]|[^A-Z0-9\\-]_|sprd-|MZ-)(?:BB2C (\\d+[.\\d]+))",
  pat! "(?i)(?:^|[^A-Z0-9\\-_]|[^A-Z0-9\\-]_|sprd-|MZ-)(?:twinkle/(\\d+[.\\d]+))",
  pat! "(?i)(?:^|[^A-Z0-9\\-_]|[^A-Z0-9\\-]_|sprd-|MZ-)(?:JaneStyle_iOS/(\\d+[.\\d]+))",
  pat! "(?i)(?:^|[^A-Z0-9\\-_]|[^A-Z0-9\\-]_|sprd-|MZ-)(?:BNC/.+\\(Android (\\d+[.\\d]+)\\))",
  pat! "(?i)(?:^|[^A-Z0-9\\-_]|[^A-Z0-9\\-]_|sprd-|MZ-)(?:Binance/(\\d+[.\\d]+))",
  pat! "(?i)(?:^|[^A-Z0-9\\-_]|[^A-Z0-9\\-]_|sprd-|MZ-)(?:ru\\.mail\\.my/(\\d+[.\\d]+))",
  pat! "(?i)(?:^|[^A-Z0-9\\-_]|[^A-Z0-9\\-]_|sprd-|MZ-)(?:OK(?:Android|iOS)/([\\d.]+))",
  pat! "(?i)(?:^|[^A-Z0-9\\-_]|[^A-Z0-9\\-]_|sprd-|MZ-)(?:yakyak/(\\d+[.\\d]+))",
  pat! "(?i)(?:^|[^A-Z0-9\\-_]|[^A-Z0-9\\-]_|sprd-|MZ-)(?:(?:maglev|Teams)/(\\d+[.\\d]+))",
  pat! "(?i)(?:^|[^A-Z0-9\\-_]|[^A-Z0-9\\-]_|sprd-|MZ-)(?:TeamsMobile-(?:Android|iOS))",
  pat! "(?i)(?:^|[^A-Z0-9\\-_]|[^A-Z0-9\\-]_|sprd-|MZ-)(?:SohuNews/(\\d+\\.[.\\d]+))",
  pat! "(?i)(?:^|[^A-Z0-9\\-_]|[^A-Z0-9\\-]_|sprd-|MZ-)(?:StreamlabsOBS/(\\d+[.\\d]+))",
  pat! "(?i)(?:^|[^A-Z0-9\\-_]|[^A-Z0-9\\-]_|sprd-|MZ-)(?:Blitz/([\\d.]+))",
  pat! "(?i)(?:^|[^A-Z0-9\\-_]|[^A-Z0-9\\-]_|sprd-|MZ-)(?:OfferUp/([\\d.]+))",
  pat! "(?i)(?:^|[^A-Z0-9\\-_]|[^A-Z0-9\\-]_|sprd-|MZ-)(?:Vuhuv/([\\d.]+))",
  pat! "(?i)(?:^|[^A-Z0-9\\-_]|[^A-Z0-9\\-]_|sprd-|MZ-)(?:.+/(?:gfibertv|gftv200)-([\\d]+)-)",
  pat! "(?i)(?:^|[^A-Z0-9\\-_]|[^A-Z0-9\\-]_|sprd-|MZ-)(?:QuickCast$)",
  pat! "(?i)(?:^|[^A-Z0-9\\-_]|[^A-Z0-9\\-]_|sprd-|MZ-)(?:Aliexpress(?:Android)?/([\\d.]+))",
  pat! "(?i)(?:^|[^A-Z0-9\\-_]|[^A-Z0-9\\-]_|sprd-|MZ-)(?:(?:lazada_android|AliApp\\(LA)[/ _](\\d+\\.[\\d.]+))",
  pat! "(?i)(?:^|[^A-Z0-9\\-_]|[^A-Z0-9\\-]_|sprd-|MZ-)(?:(?:taobao_android|AliApp\\(TB)[/ _](\\d+\\.[\\d.]+))",
  pat! "(?i)(?:^|[^A-Z0-9\\-_]|[^A-Z0-9\\-]_|sprd-|MZ-)(?:(?:AlipayClient|AliApp\\(AP)[/ _](\\d+\\.[\\d.]+))",
  pat! "(?i)(?:^|[^A-Z0-9\\-_]|[^A-Z0-9\\-]_|sprd-|MZ-)(?:Blue Proxy/([\\d.]+))",
  pat! "(?i)(?:^|[^A-Z0-9\\-_]|[^A-Z0-9\\-]_|sprd-|MZ-)(?:GitHub ?Desktop/([\\d.]+))",
  pat! "(?i)(?:^|[^A-Z0-9\\-_]|[^A-Z0-9\\-]_|sprd-|MZ-)(?:logioptionsplus/([\\d.]+))",
  pat! "(?i)(?:^|[^A-Z0-9\\-_]|[^A-Z0-9\\-]_|sprd-|MZ-)(?:EmbyTheater/([\\d.]+))",
  pat! "(?i)(?:^|[^A-Z0-9\\-_]|[^A-Z0-9\\-]_|sprd-|MZ-)(?:y8-browser/([\\d.]+))",
  pat! "(?i)(?:^|[^A-Z0-9\\-_]|[^A-Z0-9\\-]_|sprd-|MZ-)(?:NuMuKiBrowser/([\\d.]+))",
  pat! "(?i)(?:^|[^A-Z0-9\\-_]|[^A-Z0-9\\-]_|sprd-|MZ-)(?:LandisGyrAIMbrowser/(\\d+[.\\d]+))",
  pat! "(?i)(?:^|[^A-Z0-9\\-_]|[^A-Z0-9\\-]_|sprd-|MZ-)(?:(?:Code/|VSCode )(\\d+[.\\d]+))",
  pat! "(?i)(?:^|[^A-Z0-9\\-_]|[^A-Z0-9\\-]_|sprd-|MZ-)(?:Wireshark/(\\d+[.\\d]+))",
  pat! "(?i)(?:^|[^A-Z0-9\\-_]|[^A-Z0-9\\-]_|sprd-|MZ-)(?:git/(\\d+[.\\d]+))",
  pat! "(?i)(?:^|[^A-Z0-9\\-_]|[^A-Z0-9\\-]_|sprd-|MZ-)(?:^GooglePodcasts/(\\d+\\.[.\\d]+))",
  pat! "(?i)(?:^|[^A-Z0-9\\-_]|[^A-Z0-9\\-]_|sprd-|MZ-)(?:Microsoft-CryptoAPI/(\\d+[.\\d]+))",
  pat! "(?i)(?:^|[^A-Z0-9\\-_]|[^A-Z0-9\\-]_|sprd-|MZ-)(?:^MSDW)",
  pat! "(?i)(?:^|[^A-Z0-9\\-_]|[^A-Z0-9\\-]_|sprd-|MZ-)(?:qBittorrent/(\\d+[.\\d]+))",
  pat! "(?i)(?:^|[^A-Z0-9\\-_]|[^A-Z0-9\\-]_|sprd-|MZ-)(?:^CPUID)",
  pat! "(?i)(?:^|[^A-Z0-9\\-_]|[^A-Z0-9\\-]_|sprd-|MZ-)(?:HandBrake Win Upd (\\d+[.\\d]+))",
  pat! "(?i)(?:^|[^A-Z0-9\\-_]|[^A-Z0-9\\-]_|sprd-|MZ-)(?:CCleaner, (\\d+[.\\d]+))",
  pat! "(?i)(?:^|[^A-Z0-9\\-_]|[^A-Z0-9\\-]_|sprd-|MZ-)(?:Microsoft Edge Update/(\\d+[.\\d]+))",
  pat! "(?i)(?:^|[^A-Z0-9\\-_]|[^A-Z0-9\\-]_|sprd-|MZ-)(?:Google(?:Software| )Update/(\\d+[.\\d]+))",
  pat! "(?i)(?:^|[^A-Z0-9\\-_]|[^A-Z0-9\\-]_|sprd-|MZ-)(?:Cortana (\\d+[.\\d]+))",
  pat! "(?i)(?:^|[^A-Z0-9\\-_]|[^A-Z0-9\\-]_|sprd-|MZ-)(?:Opera News/(\\d+[.\\d]+))",
  pat! "(?i)(?:^|[^A-Z0-9\\-_]|[^A-Z0-9\\-]_|sprd-|MZ-)(?:(?:Acrobat|ReaderServices)/(\\d+[.\\d]+))",
  pat! "(?i)(?:^|[^A-Z0-9\\-_]|[^A-Z0-9\\-]_|sprd-|MZ-)(?:CreativeCloud/(\\d+[.\\d]+))",
  pat! "(?i)(?:^|[^A-Z0-9\\-_]|[^A-Z0-9\\-]_|sprd-|MZ-)(?:rekordbox/(\\d+[.\\d]+))",
  pat! "(?i)(?:^|[^A-Z0-9\\-_]|[^A-Z0-9\\-]_|sprd-|MZ-)(?:Microsoft-WNS/(\\d+[.\\d]+))",
  pat! "(?i)(?:^|[^A-Z0-9\\-_]|[^A-Z0-9\\-]_|sprd-|MZ-)(?:Microsoft BITS/(\\d+[.\\d]+))",
  pat! "(?i)(?:^|[^A-Z0-9\\-_]|[^A-Z0-9\\-]_|sprd-|MZ-)(?:EpicGamesLauncher/(\\d+[.\\d]+))",
  pat! "(?i)(?:^|[^A-Z0-9\\-_]|[^A-Z0-9\\-]_|sprd-|MZ-)(?:Battle\\.net/(\\d+[.\\d]+))",
  pat! "(?i)(?:^|[^A-Z0-9\\-_]|[^A-Z0-9\\-]_|sprd-|MZ-)(?:Bookshelf-Android/(\\d+[.\\d]+))",
  pat! "(?i)(?:^|[^A-Z0-9\\-_]|[^A-Z0-9\\-]_|sprd-|MZ-)(?:RaveSocial/(\\d+[.\\d]+))",
  pat! "(?i)(?:^|[^A-Z0-9\\-_]|[^A-Z0-9\\-]_|sprd-|MZ-)(?:wordcookies/(\\d+[.\\d]+))",
  pat! "(?i)(?:^|[^A-Z0-9\\-_]|[^A-Z0-9\\-]_|sprd-|MZ-)(?:com\\.meevii\\.bibleKJV/(\\d+[.\\d]+))",
  pat! "(?i)(?:^|[^A-Z0-9\\-_]|[^A-Z0-9\\-]_|sprd-|MZ-)(?:MetaTrader 5 Terminal/(\\d+[.\\d]+))",
  pat! "(?i)(?:^|[^A-Z0-9\\-_]|[^A-Z0-9\\-]_|sprd-|MZ-)(?:com\\.paint\\.bynumber/(\\d+[.\\d]+))",
  pat! "(?i)(?:^|[^A-Z0-9\\-_]|[^A-Z0-9\\-]_|sprd-|MZ-)(?:zepeto_global/(\\d+[.\\d]+))",
  pat! "(?i)(?:^|[^A-Z0-9\\-_]|[^A-Z0-9\\-]_|sprd-|MZ-)(?:(?:mirall|Nextcloud-android)/(\\d+[.\\d]+))",
  pat! "(?i)(?:^|[^A-Z0-9\\-_]|[^A-Z0-9\\-]_|sprd-|MZ-)(?:GoNativeIOS/(\\d+[.\\d]+))",
  pat! "(?i)(?:^|[^A-Z0-9\\-_]|[^A-Z0-9\\-]_|sprd-|MZ-)(?:Pandora/(\\d+[.\\d]+))",
  pat! "(?i)(?:^|[^A-Z0-9\\-_]|[^A-Z0-9\\-]_|sprd-|MZ-)(?:Blackboard/(\\d+[.\\d]+)?)",
  pat! "(?i)(?:^|[^A-Z0-9\\-_]|[^A-Z0-9\\-]_|sprd-|MZ-)(?:TIM/(\\d+[.\\d]+))",
  pat! "(?i)(?:^|[^A-Z0-9\\-_]|[^A-Z0-9\\-]_|sprd-|MZ-)(?:TencentDocs/(\\d+[.\\d]+))",
  pat! "(?i)(?:^|[^A-Z0-9\\-_]|[^A-Z0-9\\-]_|sprd-|MZ-)(?:QQ/(\\d+[.\\d]+) V1_IPH_SQ_)",
  pat! "(?i)(?:^|[^A-Z0-9\\-_]|[^A-Z0-9\\-]_|sprd-|MZ-)(?:QQMusic/(\\d+[.\\d]+))",
  pat! "(?i)(?:^|[^A-Z0-9\\-_]|[^A-Z0-9\\-]_|sprd-|MZ-)(?:Avid Link Desktop App/(\\d+[.\\d]+))",
  pat! "(?i)(?:^|[^A-Z0-9\\-_]|[^A-Z0-9\\-]_|sprd-|MZ-)(?:Netflix/(\\d+[.\\d]+))",
  pat! "(?i)(?:^|[^A-Z0-9\\-_]|[^A-Z0-9\\-]_|sprd-|MZ-)(?:GoogleTagManager/(\\d+[.\\d]+))",
  pat! "(?i)(?:^|[^A-Z0-9\\-_]|[^A-Z0-9\\-]_|sprd-|MZ-)(?:Adobe Synchronizer (\\d+[.\\d]+))",
  pat! "(?i)(?:^|[^A-Z0-9\\-_]|[^A-Z0-9\\-]_|sprd-|MZ-)(?:BlueStacks(?: 5)?/(\\d+[.\\d]+))",
  pat! "(?i)(?:^|[^A-Z0-9\\-_]|[^A-Z0-9\\-]_|sprd-|MZ-)(?:WindowsPowerShell/(\\d+[.\\d]+))",
  pat! "(?i)(?:^|[^A-Z0-9\\-_]|[^A-Z0-9\\-]_|sprd-|MZ-)(?:PAN GlobalProtect/(\\d+[.\\d]+))"]

/-- `__cr_re`, from item 1000 on (client_repo.go:2501-2750). -/
def crRe_4 : List (List Chunk) := [
  pat! "(?i)(?:^|[^A-Z0-9\\-_]|[^A-Z0-9\\-]_|sprd-|MZ-)(?:Theyub v(\\d+[.\\d]+))",
  pat! "(?i)(?:^|[^A-Z0-9\\-_]|[^A-Z0-9\\-]_|sprd-|MZ-)(?:BBCNewsUKWatchApp/(\\d+[.\\d]+))",
  pat! "(?i)(?:^|[^A-Z0-9\\-_]|[^A-Z0-9\\-]_|sprd-|MZ-)(?:TradingView/(\\d+[.\\d]+))",
  pat! "(?i)(?:^|[^A-Z0-9\\-_]|[^A-Z0-9\\-]_|sprd-|MZ-)(?:Instabridge(?:/([\\d.]+))?)",
  pat! "(?i)(?:^|[^A-Z0-9\\-_]|[^A-Z0-9\\-]_|sprd-|MZ-)(?:Be Focused/(\\d+\\.[.\\d]+)?)",
  pat! "(?i)(?:^|[^A-Z0-9\\-_]|[^A-Z0-9\\-]_|sprd-|MZ-)(?:Focus Matrix/(\\d+\\.[.\\d]+)?)",
  pat! "(?i)(?:^|[^A-Z0-9\\-_]|[^A-Z0-9\\-]_|sprd-|MZ-)(?:Focuskeeper/(\\d+\\.[.\\d]+)?)",
  pat! "(?i)(?:^|[^A-Z0-9\\-_]|[^A-Z0-9\\-]_|sprd-|MZ-)(?:Asus Update/(\\d+\\.[.\\d]+))",
  pat! "(?i)(?:^|[^A-Z0-9\\-_]|[^A-Z0-9\\-]_|sprd-|MZ-)(?:imoAndroid/(20\\d{2}\\.[.\\d]+))",
  pat! "(?i)(?:^|[^A-Z0-9\\-_]|[^A-Z0-9\\-]_|sprd-|MZ-)(?:imoAndroid/(\\d+\\.[.\\d]+))",
  pat! "(?i)(?:^|[^A-Z0-9\\-_]|[^A-Z0-9\\-]_|sprd-|MZ-)(?:(?:Bing)?Sapphire/(\\d+\\.[.\\d]+))",
  pat! "(?i)(?:^|[^A-Z0-9\\-_]|[^A-Z0-9\\-]_|sprd-|MZ-)(?:BingWeb(?:/([\\d.]+))?|bingipadclient)",
  pat! "(?i)(?:^|[^A-Z0-9\\-_]|[^A-Z0-9\\-]_|sprd-|MZ-)(?:NewsSapphire/(\\d+\\.[.\\d]+))",
  pat! "(?i)(?:^|[^A-Z0-9\\-_]|[^A-Z0-9\\-]_|sprd-|MZ-)(?:CopilotSapphire/(\\d+\\.[.\\d]+))",
  pat! "(?i)(?:^|[^A-Z0-9\\-_]|[^A-Z0-9\\-]_|sprd-|MZ-)(?:.+HiSearch/(\\d+\\.[.\\d]+))",
  pat! "(?i)(?:^|[^A-Z0-9\\-_]|[^A-Z0-9\\-]_|sprd-|MZ-)(?:RDDocuments/(\\d+\\.[.\\d]+))",
  pat! "(?i)(?:^|[^A-Z0-9\\-_]|[^A-Z0-9\\-]_|sprd-|MZ-)(?:FSCDCSafe[ /](\\d+\\.[.\\d]+))",
  pat! "(?i)(?:^|[^A-Z0-9\\-_]|[^A-Z0-9\\-]_|sprd-|MZ-)(?:com\\.Nanoteq\\.QmunicateH10p.+/(\\d+\\.[.\\d]+) \\()",
  pat! "(?i)(?:^|[^A-Z0-9\\-_]|[^A-Z0-9\\-]_|sprd-|MZ-)(?:NET\\.mede)",
  pat! "(?i)(?:^|[^A-Z0-9\\-_]|[^A-Z0-9\\-]_|sprd-|MZ-)(?:(Millennium/|Millennium%20Corp))",
  pat! "(?i)(?:^|[^A-Z0-9\\-_]|[^A-Z0-9\\-]_|sprd-|MZ-)(?:(MEmpresas|Millennium%20Empresas))",
  pat! "(?i)(?:^|[^A-Z0-9\\-_]|[^A-Z0-9\\-]_|sprd-|MZ-)(?:OrangeRadio/(\\d+\\.[.\\d]+))",
  pat! "(?i)(?:^|[^A-Z0-9\\-_]|[^A-Z0-9\\-]_|sprd-|MZ-)(?:Radio%20Italiane/(\\d+\\.[.\\d]+))",
  pat! "(?i)(?:^|[^A-Z0-9\\-_]|[^A-Z0-9\\-]_|sprd-|MZ-)(?:com\\.apple\\.Safari\\.SearchHelper/(\\d+\\.[.\\d]+))",
  pat! "(?i)(?:^|[^A-Z0-9\\-_]|[^A-Z0-9\\-]_|sprd-|MZ-)(?:com\\.mercbank\\.s1mobileipad)",
  pat! "(?i)(?:^|[^A-Z0-9\\-_]|[^A-Z0-9\\-]_|sprd-|MZ-)(?:Windows Antivirus (\\d+\\.[.\\d]+))",
  pat! "(?i)(?:^|[^A-Z0-9\\-_]|[^A-Z0-9\\-]_|sprd-|MZ-)(?:^Reflect)",
  pat! "(?i)(?:^|[^A-Z0-9\\-_]|[^A-Z0-9\\-]_|sprd-|MZ-)(?:Ballz/(\\d+\\.[.\\d]+))",
  pat! "(?i)(?:^|[^A-Z0-9\\-_]|[^A-Z0-9\\-]_|sprd-|MZ-)(?:rnps-action-cards/(\\d+\\.[.\\d]+))",
  pat! "(?i)(?:^|[^A-Z0-9\\-_]|[^A-Z0-9\\-]_|sprd-|MZ-)(?:PlexMediaServer/(\\d+\\.[.\\d]+))",
  pat! "(?i)(?:^|[^A-Z0-9\\-_]|[^A-Z0-9\\-]_|sprd-|MZ-)(?:Surfshark(?:Android)?/([\\d.]+))",
  pat! "(?i)(?:^|[^A-Z0-9\\-_]|[^A-Z0-9\\-]_|sprd-|MZ-)(?:APP/yym-hago-and(\\d+\\.[.\\d]+))",
  pat! "(?i)(?:^|[^A-Z0-9\\-_]|[^A-Z0-9\\-]_|sprd-|MZ-)(?:Azureus (\\d+\\.[.\\d]+))",
  pat! "(?i)(?:^|[^A-Z0-9\\-_]|[^A-Z0-9\\-]_|sprd-|MZ-)(?:Adobe NGL|NGL Client/(\\d+\\.[.\\d]+))",
  pat! "(?i)(?:^|[^A-Z0-9\\-_]|[^A-Z0-9\\-]_|sprd-|MZ-)(?:/Satoshi:(\\d+\\.[.\\d]+)/)",
  pat! "(?i)(?:^|[^A-Z0-9\\-_]|[^A-Z0-9\\-]_|sprd-|MZ-)(?:/Shibetoshi:(\\d+\\.[.\\d]+)/)",
  pat! "(?i)(?:^|[^A-Z0-9\\-_]|[^A-Z0-9\\-]_|sprd-|MZ-)(?:Amazon\\.com/(\\d+\\.[.\\d]+))",
  pat! "(?i)(?:^|[^A-Z0-9\\-_]|[^A-Z0-9\\-]_|sprd-|MZ-)(?:de\\.mobile\\.android\\.app/(\\d+\\.[.\\d]+))",
  pat! "(?i)(?:^|[^A-Z0-9\\-_]|[^A-Z0-9\\-]_|sprd-|MZ-)(?:de\\.mobile\\.android\\.app/(.*) \\((\\d+\\.[.\\d]+)\\))",
  pat! "(?i)(?:^|[^A-Z0-9\\-_]|[^A-Z0-9\\-]_|sprd-|MZ-)(?:Waste My Time! Extension/(\\d+\\.[.\\d]+))",
  pat! "(?i)(?:^|[^A-Z0-9\\-_]|[^A-Z0-9\\-]_|sprd-|MZ-)(?:1Password/(\\d+\\.[.\\d]+))",
  pat! "(?i)(?:^|[^A-Z0-9\\-_]|[^A-Z0-9\\-]_|sprd-|MZ-)(?:OneSearch/(\\d+\\.[.\\d]+))",
  pat! "(?i)(?:^|[^A-Z0-9\\-_]|[^A-Z0-9\\-]_|sprd-|MZ-)(?:Anonymisiert durch AlMiSoft)",
  pat! "(?i)(?:^|[^A-Z0-9\\-_]|[^A-Z0-9\\-]_|sprd-|MZ-)(?:DaumApps/(\\d+\\.[.\\d]+)?)",
  pat! "(?i)(?:^|[^A-Z0-9\\-_]|[^A-Z0-9\\-]_|sprd-|MZ-)(?:Reddit/Version (\\d+\\.[.\\d]+)/)",
  pat! "(?i)(?:^|[^A-Z0-9\\-_]|[^A-Z0-9\\-]_|sprd-|MZ-)(?:TuyaSmart/(\\d+\\.[.\\d]+))",
  pat! "(?i)(?:^|[^A-Z0-9\\-_]|[^A-Z0-9\\-]_|sprd-|MZ-)(?:(?:Spotify(?:-Lite)?/(\\d+\\.[.\\d]+|12\\d+)|^spotify_))",
  pat! "(?i)(?:^|[^A-Z0-9\\-_]|[^A-Z0-9\\-]_|sprd-|MZ-)(?:(?:AmazonMusic|^Harley)(?:(?:%2F|/)(\\d+\\.[.\\d]+))?)",
  pat! "(?i)(?:^|[^A-Z0-9\\-_]|[^A-Z0-9\\-]_|sprd-|MZ-)(?:Klarna/(\\d+\\.[.\\d]+)?)",
  pat! "(?i)(?:^|[^A-Z0-9\\-_]|[^A-Z0-9\\-]_|sprd-|MZ-)(?:^R/(\\d+[.\\d]+))",
  pat! "(?i)(?:^|[^A-Z0-9\\-_]|[^A-Z0-9\\-]_|sprd-|MZ-)(?:^(?:Audible, Android, |com\\.audible\\.playersdk\\.player/|Audible/)(\\d+\\.[.\\d]+)?)",
  pat! "(?i)(?:^|[^A-Z0-9\\-_]|[^A-Z0-9\\-]_|sprd-|MZ-)(?:Overcast/?(\\d+\\.[.\\d]+)? \\(\\+http://overcast\\.fm/; (?:Apple Watch|iOS) podcast)",
  pat! "(?i)(?:^|[^A-Z0-9\\-_]|[^A-Z0-9\\-]_|sprd-|MZ-)(?:^HTTPrequestmaker)",
  pat! "(?i)(?:^|[^A-Z0-9\\-_]|[^A-Z0-9\\-]_|sprd-|MZ-)(?:^bonprix mobile App (\\d+\\.[.\\d]+))",
  pat! "(?i)(?:^|[^A-Z0-9\\-_]|[^A-Z0-9\\-]_|sprd-|MZ-)(?:Safari Quora (\\d+\\.[.\\d]+))",
  pat! "(?i)(?:^|[^A-Z0-9\\-_]|[^A-Z0-9\\-]_|sprd-|MZ-)(?:RelesysApp/(\\d+\\.[.\\d]+) \\(\\d{1,2}\\) net\\.relesysapp\\.jj2go)",
  pat! "(?i)(?:^|[^A-Z0-9\\-_]|[^A-Z0-9\\-]_|sprd-|MZ-)(?:MyWatchParty/(\\d+\\.[.\\d]+))",
  pat! "(?i)(?:^|[^A-Z0-9\\-_]|[^A-Z0-9\\-]_|sprd-|MZ-)(?:LoseIt!/(\\d+\\.[.\\d]+))",
  pat! "(?i)(?:^|[^A-Z0-9\\-_]|[^A-Z0-9\\-]_|sprd-|MZ-)(?:ActionExtension/([\\d.]+))",
  pat! "(?i)(?:^|[^A-Z0-9\\-_]|[^A-Z0-9\\-]_|sprd-|MZ-)(?:^Adori(?:-Dev|-Listen)?/([\\d.]+))",
  pat! "(?i)(?:^|[^A-Z0-9\\-_]|[^A-Z0-9\\-]_|sprd-|MZ-)(?:^Agora/([\\d.]+))",
  pat! "(?i)(?:^|[^A-Z0-9\\-_]|[^A-Z0-9\\-]_|sprd-|MZ-)(?:^Airr(?:%20Beta)?/([\\d.]+)|^Airr \\()",
  pat! "(?i)(?:^|[^A-Z0-9\\-_]|[^A-Z0-9\\-]_|sprd-|MZ-)(?:^Airsonic/(\\d+\\.[.\\d]+))",
  pat! "(?i)(?:^|[^A-Z0-9\\-_]|[^A-Z0-9\\-]_|sprd-|MZ-)(?:(?:AllYouCanBooksApp|^AllYouCanBooks/([\\d.]+)))",
  pat! "(?i)(?:^|[^A-Z0-9\\-_]|[^A-Z0-9\\-]_|sprd-|MZ-)(?:^AllHitMusicRadio/([\\d.]+))",
  pat! "(?i)(?:^|[^A-Z0-9\\-_]|[^A-Z0-9\\-]_|sprd-|MZ-)(?:^Amazon;AF)",
  pat! "(?i)(?:^|[^A-Z0-9\\-_]|[^A-Z0-9\\-]_|sprd-|MZ-)(?:^Anchor/([\\d.]+))",
  pat! "(?i)(?:^|[^A-Z0-9\\-_]|[^A-Z0-9\\-]_|sprd-|MZ-)(?:^AnchorFM/(\\d+\\.[.\\d]+))",
  pat! "(?i)(?:^|[^A-Z0-9\\-_]|[^A-Z0-9\\-]_|sprd-|MZ-)(?:(?:^Anghami Android |^Anghami/|^\xd8\xa3\xd9\x86\xd8\xba\xd8\xa7\xd9\x85\xd9\x8a/)([\\d.]+))",
  pat! "(?i)(?:^|[^A-Z0-9\\-_]|[^A-Z0-9\\-]_|sprd-|MZ-)(?:(?:^AntennaPod/|^de\\.danoeh\\.antennapod/|antenna/)([\\d.]+)?)",
  pat! "(?i)(?:^|[^A-Z0-9\\-_]|[^A-Z0-9\\-]_|sprd-|MZ-)(?:^Anybox/([\\d.]+))",
  pat! "(?i)(?:^|[^A-Z0-9\\-_]|[^A-Z0-9\\-]_|sprd-|MZ-)(?:^Anytime/(\\d+\\.[.\\d]+).*amugofjava)",
  pat! "(?i)(?:^|[^A-Z0-9\\-_]|[^A-Z0-9\\-]_|sprd-|MZ-)(?:^APKXDL)",
  pat! "(?i)(?:^|[^A-Z0-9\\-_]|[^A-Z0-9\\-]_|sprd-|MZ-)(?:^Apollo/([\\d.]+))",
  pat! "(?i)(?:^|[^A-Z0-9\\-_]|[^A-Z0-9\\-]_|sprd-|MZ-)(?:(?:^MessagesViewService/|^Messages/|^Messages Share Extension/|^MessagesNotificationExtension/)([\\d.]+))",
  pat! "(?i)(?:^|[^A-Z0-9\\-_]|[^A-Z0-9\\-]_|sprd-|MZ-)(?:(?:^Podcasts/|^Balados/|^Podcasti/|^Podcastit/|^Podcasturi/|^Podcasty/|^Podcast\xe2\x80\x99ler/|^Podkaster/|^Podcaster/|^Podcastok/|^\xd0\x9f\xd0\xbe\xd0\xb4\xd0\xba\xd0\xb0\xd1\x81\xd1\x82\xd0\xb8/|^\xd0\x9f\xd0\xbe\xd0\xb4\xd0\xba\xd0\xb0\xd1\x81\xd1\x82\xd1\x8b/|^\xd7\xa4\xd7\x95\xd7\x93\xd7\xa7\xd7\x90\xd7\xa1\xd7\x98\xd7\x99\xd7\x9d/|^\xd8\xa7\xd9\x84\xd8\xa8\xd9\x88\xd8\xaf\xd9\x83\xd8\xa7\xd8\xb3\xd8\xaa/|^\xe0\xa4\xaa\xe0\xa5\x89\xe0\xa4\xa1\xe0\xa4\x95\xe0\xa4\xbe\xe0\xa4\xb8\xe0\xa5\x8d\xe0\xa4\x9f/|^\xe0\xb8\x9e\xe0\xb9\x87\xe0\xb8\xad\xe0\xb8\x94\xe0\xb8\x84\xe0\xb8\xb2\xe0\xb8\xaa\xe0\xb8\x97\xe0\xb9\x8c/|^\xe6\x92\xad\xe5\xae\xa2/|^\xed\x8c\x9f\xec\xba\x90\xec\x8a\xa4\xed\x8a\xb8/|^\xe3\x83\x9d\xe3\x83\x83\xe3\x83\x89\xe3\x82\xad\xe3\x83\xa3\xe3\x82\xb9\xe3\x83\x88/|^\xd8\xa5\xd8\xb3\xd9\x85\xd8\xb9\xd9\x84\xd9\x8a/|^\xd0\x9f\xd0\xbe\xd0\xb4\xd0\xba\xd0\xb0\xd1\x81\xd1\x82\xd1\x82\xd0\xb0\xd1\x80/|^Podcast/|AirPodcasts/)([\\d.]+)?)",
  pat! "(?i)(?:^|[^A-Z0-9\\-_]|[^A-Z0-9\\-]_|sprd-|MZ-)(?:^Recordatorios/([\\d.]+))",
  pat! "(?i)(?:^|[^A-Z0-9\\-_]|[^A-Z0-9\\-]_|sprd-|MZ-)(?:^Arvocast/([\\d.]+))",
  pat! "(?i)(?:^|[^A-Z0-9\\-_]|[^A-Z0-9\\-]_|sprd-|MZ-)(?:^Radio\\.com/(\\d+\\.[.\\d]+))",
  pat! "(?i)(?:^|[^A-Z0-9\\-_]|[^A-Z0-9\\-]_|sprd-|MZ-)(?:^Audio/([\\d.]+))",
  pat! "(?i)(?:^|[^A-Z0-9\\-_]|[^A-Z0-9\\-]_|sprd-|MZ-)(?:^Android_AudioNow)",
  pat! "(?i)(?:^|[^A-Z0-9\\-_]|[^A-Z0-9\\-]_|sprd-|MZ-)(?:^Awasu/(\\d+\\.[.\\d]+))",
  pat! "(?i)(?:^|[^A-Z0-9\\-_]|[^A-Z0-9\\-]_|sprd-|MZ-)(?:^Bear/([\\d.]+))",
  pat! "(?i)(?:^|[^A-Z0-9\\-_]|[^A-Z0-9\\-]_|sprd-|MZ-)(?:^Bible/([\\d.]+))",
  pat! "(?i)(?:^|[^A-Z0-9\\-_]|[^A-Z0-9\\-]_|sprd-|MZ-)(?:^Bolt/([\\d.]+))",
  pat! "(?i)(?:^|[^A-Z0-9\\-_]|[^A-Z0-9\\-]_|sprd-|MZ-)(?:^Bookmobile/([\\d.]+))",
  pat! "(?i)(?:^|[^A-Z0-9\\-_]|[^A-Z0-9\\-]_|sprd-|MZ-)(?:^Boom/([\\d.]+))",
  pat! "(?i)(?:^|[^A-Z0-9\\-_]|[^A-Z0-9\\-]_|sprd-|MZ-)(?:^Boomplay/(\\d+\\.[.\\d]+))",
  pat! "(?i)(?:^|[^A-Z0-9\\-_]|[^A-Z0-9\\-]_|sprd-|MZ-)(?:^Bose/(\\d+\\.[.\\d]+))",
  pat! "(?i)(?:^|[^A-Z0-9\\-_]|[^A-Z0-9\\-]_|sprd-|MZ-)(?:^bPod$)",
  pat! "(?i)(?:^|[^A-Z0-9\\-_]|[^A-Z0-9\\-]_|sprd-|MZ-)(?:^breez/(\\d+\\.[.\\d]+))",
  pat! "(?i)(?:^|[^A-Z0-9\\-_]|[^A-Z0-9\\-]_|sprd-|MZ-)(?:^Broadcast/(\\d+\\.[.\\d]+))",
  pat! "(?i)(?:^|[^A-Z0-9\\-_]|[^A-Z0-9\\-]_|sprd-|MZ-)(?:^(?:Browser|browser_iso)/([\\d.]+))",
  pat! "(?i)(?:^|[^A-Z0-9\\-_]|[^A-Z0-9\\-]_|sprd-|MZ-)(?:^BrowserPlus/([\\d.]+))",
  pat! "(?i)(?:^|[^A-Z0-9\\-_]|[^A-Z0-9\\-]_|sprd-|MZ-)(?:^Bullhorn(?:/([\\d.]+))?)",
  pat! "(?i)(?:^|[^A-Z0-9\\-_]|[^A-Z0-9\\-]_|sprd-|MZ-)(?:^Capital/([\\d.]+))",
  pat! "(?i)(?:^|[^A-Z0-9\\-_]|[^A-Z0-9\\-]_|sprd-|MZ-)(?:^capsule\\.fm/([\\d.]+)|^capsule-android)",
  pat! "(?i)(?:^|[^A-Z0-9\\-_]|[^A-Z0-9\\-]_|sprd-|MZ-)(?:^Castamatic/([\\d.]+))",
  pat! "(?i)(?:^|[^A-Z0-9\\-_]|[^A-Z0-9\\-]_|sprd-|MZ-)(?:^Castaway/([\\d.]+))",
  pat! "(?i)(?:^|[^A-Z0-9\\-_]|[^A-Z0-9\\-]_|sprd-|MZ-)(?:^CastBox/(\\d+\\.[.\\d]+))",
  pat! "(?i)(?:^|[^A-Z0-9\\-_]|[^A-Z0-9\\-]_|sprd-|MZ-)(?:^Classic FM/([\\d.]+))",
  pat! "(?i)(?:^|[^A-Z0-9\\-_]|[^A-Z0-9\\-]_|sprd-|MZ-)(?:^Client/([\\d.]+))",
  pat! "(?i)(?:^|[^A-Z0-9\\-_]|[^A-Z0-9\\-]_|sprd-|MZ-)(?:^Cosmicast/([\\d.]+))",
  pat! "(?i)(?:^|[^A-Z0-9\\-_]|[^A-Z0-9\\-]_|sprd-|MZ-)(?:CPod/(\\d+\\.[.\\d]+))",
  pat! "(?i)(?:^|[^A-Z0-9\\-_]|[^A-Z0-9\\-]_|sprd-|MZ-)(?:^damus/([\\d.]+))",
  pat! "(?i)(?:^|[^A-Z0-9\\-_]|[^A-Z0-9\\-]_|sprd-|MZ-)(?:(?:be\\.standaard\\.audio|^DS podcast/|DS%20Podcast/)([\\d.]+)?)",
  pat! "(?i)(?:^|[^A-Z0-9\\-_]|[^A-Z0-9\\-]_|sprd-|MZ-)(?:^DManager/([\\d.]+))",
  pat! "(?i)(?:^|[^A-Z0-9\\-_]|[^A-Z0-9\\-]_|sprd-|MZ-)(?:^doubleTwist CloudPlayer)",
  pat! "(?i)(?:^|[^A-Z0-9\\-_]|[^A-Z0-9\\-]_|sprd-|MZ-)(?:^Doughnut/([\\d.]+))",
  pat! "(?i)(?:^|[^A-Z0-9\\-_]|[^A-Z0-9\\-]_|sprd-|MZ-)(?:^Downie/([\\d.]+))",
  pat! "(?i)(?:^|[^A-Z0-9\\-_]|[^A-Z0-9\\-]_|sprd-|MZ-)(?:^Downloader/([\\d.]+))",
  pat! "(?i)(?:^|[^A-Z0-9\\-_]|[^A-Z0-9\\-]_|sprd-|MZ-)(?:^EMAudioPlayer (\\d+\\.[.\\d]+))",
  pat! "(?i)(?:^|[^A-Z0-9\\-_]|[^A-Z0-9\\-]_|sprd-|MZ-)(?:^Expo/(\\d+\\.[.\\d]+))",
  pat! "(?i)(?:^|[^A-Z0-9\\-_]|[^A-Z0-9\\-]_|sprd-|MZ-)(?:^CFR%20Plus/([\\d.]+))",
  pat! "(?i)(?:^|[^A-Z0-9\\-_]|[^A-Z0-9\\-]_|sprd-|MZ-)(?:^Fathom/([\\d.]+))",
  pat! "(?i)(?:^|[^A-Z0-9\\-_]|[^A-Z0-9\\-]_|sprd-|MZ-)(?:^FeedStation/(\\d+\\.[.\\d]+))",
  pat! "(?i)(?:^|[^A-Z0-9\\-_]|[^A-Z0-9\\-]_|sprd-|MZ-)(?:^Files/([\\d.]+))",
  pat! "(?i)(?:^|[^A-Z0-9\\-_]|[^A-Z0-9\\-]_|sprd-|MZ-)(?:^Fountain(?:app)?/([\\d.]+))",
  pat! "(?i)(?:^|[^A-Z0-9\\-_]|[^A-Z0-9\\-]_|sprd-|MZ-)(?:^Garmin fenix 5X Plus/(\\d+\\.[.\\d]+))",
  pat! "(?i)(?:^|[^A-Z0-9\\-_]|[^A-Z0-9\\-]_|sprd-|MZ-)(?:^Garmin Forerunner (?:\\d+)(?: Music| Solar)?/(\\d+\\.[.\\d]+))",
  pat! "(?i)(?:^|[^A-Z0-9\\-_]|[^A-Z0-9\\-]_|sprd-|MZ-)(?:^Gold/([\\d.]+))",
  pat! "(?i)(?:^|[^A-Z0-9\\-_]|[^A-Z0-9\\-]_|sprd-|MZ-)(?:^GoldenPod/(\\d+\\.[.\\d]+))",
  pat! "(?i)(?:^|[^A-Z0-9\\-_]|[^A-Z0-9\\-]_|sprd-|MZ-)(?:^GoLoud/([\\d.]+))",
  pat! "(?i)(?:^|[^A-Z0-9\\-_]|[^A-Z0-9\\-]_|sprd-|MZ-)(?:Goodpods(?:\\.Android|\\.iOS)? ?/ ?([\\d.]+))",
  pat! "(?i)(?:^|[^A-Z0-9\\-_]|[^A-Z0-9\\-]_|sprd-|MZ-)(?:^GoodReader(?:4|IPad)?/([\\d.]+))",
  pat! "(?i)(?:^|[^A-Z0-9\\-_]|[^A-Z0-9\\-]_|sprd-|MZ-)(?:\\(Fuchsia\\).* CrKey/(:?\\d+\\.[.\\d]+))",
  pat! "(?i)(?:^|[^A-Z0-9\\-_]|[^A-Z0-9\\-]_|sprd-|MZ-)(?:^Guacamole/([\\d.]+))",
  pat! "(?i)(?:^|[^A-Z0-9\\-_]|[^A-Z0-9\\-]_|sprd-|MZ-)(?:^Hammel/([\\d.]+))",
  pat! "(?i)(?:^|[^A-Z0-9\\-_]|[^A-Z0-9\\-]_|sprd-|MZ-)(?:^HardCast/([\\d.]+))",
  pat! "(?i)(?:^|[^A-Z0-9\\-_]|[^A-Z0-9\\-]_|sprd-|MZ-)(?:^Hark/([\\d.]+))",
  pat! "(?i)(?:^|[^A-Z0-9\\-_]|[^A-Z0-9\\-]_|sprd-|MZ-)(?:^Heart/([\\d.]+))",
  pat! "(?i)(?:^|[^A-Z0-9\\-_]|[^A-Z0-9\\-]_|sprd-|MZ-)(?:hermespod\\.com/v?([\\d.]+))",
  pat! "(?i)(?:^|[^A-Z0-9\\-_]|[^A-Z0-9\\-]_|sprd-|MZ-)(?:^HiCast/([\\d.]+))",
  pat! "(?i)(?:^|[^A-Z0-9\\-_]|[^A-Z0-9\\-]_|sprd-|MZ-)(?:^Himalaya(?:_test)?/([\\d.]+))",
  pat! "(?i)(?:^|[^A-Z0-9\\-_]|[^A-Z0-9\\-]_|sprd-|MZ-)(?:^HyperCatcher/([\\d.]+))",
  pat! "(?i)(?:^|[^A-Z0-9\\-_]|[^A-Z0-9\\-]_|sprd-|MZ-)(?:^(?:iHeartRadio|iHeartPodcasts)/([\\d.]+))",
  pat! "(?i)(?:^|[^A-Z0-9\\-_]|[^A-Z0-9\\-]_|sprd-|MZ-)(?:^IOSAudiobooks/([\\d.]+))",
  pat! "(?i)(?:^|[^A-Z0-9\\-_]|[^A-Z0-9\\-]_|sprd-|MZ-)(?:^iVoox(?:App|New)?[ /]?([\\d.]+)?)",
  pat! "(?i)(?:^|[^A-Z0-9\\-_]|[^A-Z0-9\\-]_|sprd-|MZ-)(?:^Jam/(\\d+\\.[.\\d]+))",
  pat! "(?i)(?:^|[^A-Z0-9\\-_]|[^A-Z0-9\\-]_|sprd-|MZ-)(?:^(?:com\\.jio\\.media\\.jiobeats/(\\d+\\.[.\\d]+)|com\\.saavn\\.android|^[sS]aavn))",
  pat! "(?i)(?:^|[^A-Z0-9\\-_]|[^A-Z0-9\\-]_|sprd-|MZ-)(?:KajabiMobileApp|KajabiPodcast)",
  pat! "(?i)(?:^|[^A-Z0-9\\-_]|[^A-Z0-9\\-]_|sprd-|MZ-)(?:^KakaoTalk/(\\d+\\.[.\\d]+))",
  pat! "(?i)(?:^|[^A-Z0-9\\-_]|[^A-Z0-9\\-]_|sprd-|MZ-)(?:^Kids(?:%20| )Listen/([\\d.]+))",
  pat! "(?i)(?:^|[^A-Z0-9\\-_]|[^A-Z0-9\\-]_|sprd-|MZ-)(?:^KidspodMobileClient/([\\d.]+))",
  pat! "(?i)(?:^|[^A-Z0-9\\-_]|[^A-Z0-9\\-]_|sprd-|MZ-)(?:^KKBOX/(\\d+\\.[.\\d]+))",
  pat! "(?i)(?:^|[^A-Z0-9\\-_]|[^A-Z0-9\\-]_|sprd-|MZ-)(?:^(?:Laughable.+iOS|Laughable)/(\\d+\\.[.\\d]+))",
  pat! "(?i)(?:^|[^A-Z0-9\\-_]|[^A-Z0-9\\-]_|sprd-|MZ-)(?:^LBC/([\\d.]+))",
  pat! "(?i)(?:^|[^A-Z0-9\\-_]|[^A-Z0-9\\-]_|sprd-|MZ-)(?:LG Player (\\d+\\.[.\\d]+))",
  pat! "(?i)(?:^|[^A-Z0-9\\-_]|[^A-Z0-9\\-]_|sprd-|MZ-)(?:^Listen(?:(?: |%20)App)?/([\\d.]+))",
  pat! "(?i)(?:^|[^A-Z0-9\\-_]|[^A-Z0-9\\-]_|sprd-|MZ-)(?:^Liulo/([\\d.]+))",
  pat! "(?i)(?:^|[^A-Z0-9\\-_]|[^A-Z0-9\\-]_|sprd-|MZ-)(?:Listen5[ /]([\\d.]+))",
  pat! "(?i)(?:^|[^A-Z0-9\\-_]|[^A-Z0-9\\-]_|sprd-|MZ-)(?:^(?:Luminary(?:Preprod)?|luminary\\.next)/([\\d.]+))",
  pat! "(?i)(?:^|[^A-Z0-9\\-_]|[^A-Z0-9\\-]_|sprd-|MZ-)(?:^Megaphone\\.fm)",
  pat! "(?i)(?:^|[^A-Z0-9\\-_]|[^A-Z0-9\\-]_|sprd-|MZ-)(?:^Menucast/(\\d+\\.[.\\d]+))",
  pat! "(?i)(?:^|[^A-Z0-9\\-_]|[^A-Z0-9\\-]_|sprd-|MZ-)(?:^Messenger/([\\d.]+))",
  pat! "(?i)(?:^|[^A-Z0-9\\-_]|[^A-Z0-9\\-]_|sprd-|MZ-)(?:^Mimir(?:-macOS)?/([\\d.]+))",
  pat! "(?i)(?:^|[^A-Z0-9\\-_]|[^A-Z0-9\\-]_|sprd-|MZ-)(?:^MobileSMS/([\\d.]+))",
  pat! "(?i)(?:^|[^A-Z0-9\\-_]|[^A-Z0-9\\-]_|sprd-|MZ-)(?:^Moon ?FM/([\\d.]+))",
  pat! "(?i)(?:^|[^A-Z0-9\\-_]|[^A-Z0-9\\-]_|sprd-|MZ-)(?:^myTuner(?:(?:%20Radio%20app|iOS%20Free|_podcasts_androidplayer)/ ?([\\d.]+)?)?)",
  pat! "(?i)(?:^|[^A-Z0-9\\-_]|[^A-Z0-9\\-]_|sprd-|MZ-)(?:^Newsly$)",
  pat! "(?i)(?:^|[^A-Z0-9\\-_]|[^A-Z0-9\\-]_|sprd-|MZ-)(?:^NRC(?: |%20)Audio/([\\d.]+))",
  pat! "(?i)(?:^|[^A-Z0-9\\-_]|[^A-Z0-9\\-]_|sprd-|MZ-)(?:(?:NRC-Nieuws/|nl\\.nrc\\.nrcapp |com\\.twipemobile\\.nrc )([\\d.]+))",
  pat! "(?i)(?:^|[^A-Z0-9\\-_]|[^A-Z0-9\\-]_|sprd-|MZ-)(?:^Outcast[/ ]?([\\d.]+)?)",
  pat! "(?i)(?:^|[^A-Z0-9\\-_]|[^A-Z0-9\\-]_|sprd-|MZ-)(?:^Podcast Overhaul/(\\d+\\.[.\\d]+))",
  pat! "(?i)(?:^|[^A-Z0-9\\-_]|[^A-Z0-9\\-]_|sprd-|MZ-)(?:^Palco MP3/(\\d+\\.[.\\d]+))",
  pat! "(?i)(?:^|[^A-Z0-9\\-_]|[^A-Z0-9\\-]_|sprd-|MZ-)(?:^PeaCast/(\\d+\\.[.\\d]+))",
  pat! "(?i)(?:^|[^A-Z0-9\\-_]|[^A-Z0-9\\-]_|sprd-|MZ-)(?:^Player FM|^Player%20FM|^Alpha%20PlayerFM/)",
  pat! "(?i)(?:^|[^A-Z0-9\\-_]|[^A-Z0-9\\-]_|sprd-|MZ-)(?:^Podbay/([\\d.]+))",
  pat! "(?i)(?:^|[^A-Z0-9\\-_]|[^A-Z0-9\\-]_|sprd-|MZ-)(?:^PodcastGuru[ /]([\\d.]+))",
  pat! "(?i)(?:^|[^A-Z0-9\\-_]|[^A-Z0-9\\-]_|sprd-|MZ-)(?:^Podcast Player/(\\d+\\.[.\\d]+))",
  pat! "(?i)(?:^|[^A-Z0-9\\-_]|[^A-Z0-9\\-]_|sprd-|MZ-)(?:^PodcastRepublic/(\\d+\\.[.\\d]+))",
  pat! "(?i)(?:^|[^A-Z0-9\\-_]|[^A-Z0-9\\-]_|sprd-|MZ-)(?:^Podcastly[/ ]?(\\d+\\.[.\\d]+)?)",
  pat! "(?i)(?:^|[^A-Z0-9\\-_]|[^A-Z0-9\\-]_|sprd-|MZ-)(?:^Podchaser |^Podchaser-Parser)",
  pat! "(?i)(?:^|[^A-Z0-9\\-_]|[^A-Z0-9\\-]_|sprd-|MZ-)(?:^Podclipper/([\\d.]+))",
  pat! "(?i)(?:^|[^A-Z0-9\\-_]|[^A-Z0-9\\-]_|sprd-|MZ-)(?:^PodCruncher/(\\d+\\.[.\\d]+))",
  pat! "(?i)(?:^|[^A-Z0-9\\-_]|[^A-Z0-9\\-]_|sprd-|MZ-)(?:^Podeo/([\\d.]+))",
  pat! "(?i)(?:^|[^A-Z0-9\\-_]|[^A-Z0-9\\-]_|sprd-|MZ-)(?:^Podfriend[ /](\\d+\\.[.\\d]+))",
  pat! "(?i)(?:^|[^A-Z0-9\\-_]|[^A-Z0-9\\-]_|sprd-|MZ-)(?:(?:^Podhero(?:%20Alpha)?/|^Swoot[/ ](?:Agent[/ ])?)([\\d.]+))",
  pat! "(?i)(?:^|[^A-Z0-9\\-_]|[^A-Z0-9\\-]_|sprd-|MZ-)(?:^Podimo/(\\d+\\.[.\\d]+))",
  pat! "(?i)(?:^|[^A-Z0-9\\-_]|[^A-Z0-9\\-]_|sprd-|MZ-)(?:PodKast$)",
  pat! "(?i)(?:^|[^A-Z0-9\\-_]|[^A-Z0-9\\-]_|sprd-|MZ-)(?:^Podkicker(?: Pro)/(\\d+\\.[.\\d]+))",
  pat! "(?i)(?:^|[^A-Z0-9\\-_]|[^A-Z0-9\\-]_|sprd-|MZ-)(?:PodLP/(\\d+\\.[.\\d]+))",
  pat! "(?i)(?:^|[^A-Z0-9\\-_]|[^A-Z0-9\\-]_|sprd-|MZ-)(?:^(?:Podme android app|PodMe)/(\\d+\\.[.\\d]+)?)",
  pat! "(?i)(?:^|[^A-Z0-9\\-_]|[^A-Z0-9\\-]_|sprd-|MZ-)(?:^PodMN/(?:iOS|Android) (\\d+\\.[.\\d]+))",
  pat! "(?i)(?:^|[^A-Z0-9\\-_]|[^A-Z0-9\\-]_|sprd-|MZ-)(?:^PodNL/([\\d.]+))",
  pat! "(?i)(?:^|[^A-Z0-9\\-_]|[^A-Z0-9\\-]_|sprd-|MZ-)(?:^(?:Podopolo|podopolo)/?([\\d.]+))",
  pat! "(?i)(?:^|[^A-Z0-9\\-_]|[^A-Z0-9\\-]_|sprd-|MZ-)(?:^Podplay/(\\d+\\.[.\\d]+))",
  pat! "(?i)(?:^|[^A-Z0-9\\-_]|[^A-Z0-9\\-]_|sprd-|MZ-)(?:^Pods/)",
  pat! "(?i)(?:^|[^A-Z0-9\\-_]|[^A-Z0-9\\-]_|sprd-|MZ-)(?:^Podurama/(\\d+\\.[.\\d]+))",
  pat! "(?i)(?:^|[^A-Z0-9\\-_]|[^A-Z0-9\\-]_|sprd-|MZ-)(?:^PodTrapper$)",
  pat! "(?i)(?:^|[^A-Z0-9\\-_]|[^A-Z0-9\\-]_|sprd-|MZ-)(?:^Podvine/(\\d+\\.[.\\d]+))",
  pat! "(?i)(?:^|[^A-Z0-9\\-_]|[^A-Z0-9\\-]_|sprd-|MZ-)(?:^Podverse/)",
  pat! "(?i)(?:^|[^A-Z0-9\\-_]|[^A-Z0-9\\-]_|sprd-|MZ-)(?:(?:Podyssey App|com\\.toysinboxes\\.Echo|fm\\.podyssey\\.podcasts|^Podyssey)/?([\\d.]+)?)",
  pat! "(?i)(?:^|[^A-Z0-9\\-_]|[^A-Z0-9\\-]_|sprd-|MZ-)(?:^PugpigBolt (\\d+\\.[.\\d]+))",
  pat! "(?i)(?:^|[^A-Z0-9\\-_]|[^A-Z0-9\\-]_|sprd-|MZ-)(?:^radio\\.([a-z]{2}|net)[ /]([\\d.]+))",
  pat! "(?i)(?:^|[^A-Z0-9\\-_]|[^A-Z0-9\\-]_|sprd-|MZ-)(?:^GetPodcast[ /]([\\d.]+))",
  pat! "(?i)(?:^|[^A-Z0-9\\-_]|[^A-Z0-9\\-]_|sprd-|MZ-)(?:^radio\\.next[ /]([\\d.]+))",
  pat! "(?i)(?:^|[^A-Z0-9\\-_]|[^A-Z0-9\\-]_|sprd-|MZ-)(?:(?:^Radioline%202/(\\d+\\.[.\\d]+)|^Radioline$))",
  pat! "(?i)(?:^|[^A-Z0-9\\-_]|[^A-Z0-9\\-]_|sprd-|MZ-)(?:^Repod/(\\d+\\.[.\\d]+))",
  pat! "(?i)(?:^|[^A-Z0-9\\-_]|[^A-Z0-9\\-]_|sprd-|MZ-)(?:^rhythmbox/(\\d+\\.[.\\d]+))",
  pat! "(?i)(?:^|[^A-Z0-9\\-_]|[^A-Z0-9\\-]_|sprd-|MZ-)(?:^SachNoi\\.?app/([\\d.]+))",
  pat! "(?i)(?:^|[^A-Z0-9\\-_]|[^A-Z0-9\\-]_|sprd-|MZ-)(?:^sp-agent)",
  pat! "(?i)(?:^|[^A-Z0-9\\-_]|[^A-Z0-9\\-]_|sprd-|MZ-)(?:^(?:ServeStream(?: Dynamo)?/?(\\d+\\.[.\\d]+)?))",
  pat! "(?i)(?:^|[^A-Z0-9\\-_]|[^A-Z0-9\\-]_|sprd-|MZ-)(?:^Shadow/([\\d.]+))",
  pat! "(?i)(?:^|[^A-Z0-9\\-_]|[^A-Z0-9\\-]_|sprd-|MZ-)(?:^Shadowrocket/([\\d.]+))",
  pat! "(?i)(?:^|[^A-Z0-9\\-_]|[^A-Z0-9\\-]_|sprd-|MZ-)(?:^(?:SiriusXM|sxm-android|sxm-apple)/([\\d.]+))",
  pat! "(?i)(?:^|[^A-Z0-9\\-_]|[^A-Z0-9\\-]_|sprd-|MZ-)(?:^Snipd/([\\d.]+))",
  pat! "(?i)(?:^|[^A-Z0-9\\-_]|[^A-Z0-9\\-]_|sprd-|MZ-)(?:^Sodes/([\\d.]+))",
  pat! "(?i)(?:^|[^A-Z0-9\\-_]|[^A-Z0-9\\-]_|sprd-|MZ-)(?:(?:Sonnet/(?:Android|iOS)|^Simple Podcast Player/(\\d+\\.[.\\d]+)))",
  pat! "(?i)(?:^|[^A-Z0-9\\-_]|[^A-Z0-9\\-]_|sprd-|MZ-)(?:^sony_tv;ps5;)",
  pat! "(?i)(?:^|[^A-Z0-9\\-_]|[^A-Z0-9\\-]_|sprd-|MZ-)(?:^SoundOn/([\\d.]+))",
  pat! "(?i)(?:^|[^A-Z0-9\\-_]|[^A-Z0-9\\-]_|sprd-|MZ-)(?:^SoundWaves-(\\d+\\.[.\\d]+))",
  pat! "(?i)(?:^|[^A-Z0-9\\-_]|[^A-Z0-9\\-]_|sprd-|MZ-)(?:Spreaker/([\\d.]+))",
  pat! "(?i)(?:^|[^A-Z0-9\\-_]|[^A-Z0-9\\-]_|sprd-|MZ-)(?:^Stitcher/|^Stitcher Demo/|^AlexaMediaPlayer/Stitcher)",
  pat! "(?i)(?:^|[^A-Z0-9\\-_]|[^A-Z0-9\\-]_|sprd-|MZ-)(?:^StoryShots/(\\d+\\.[.\\d]+))",
  pat! "(?i)(?:^|[^A-Z0-9\\-_]|[^A-Z0-9\\-]_|sprd-|MZ-)(?:^Swinsian/([\\d.]+))",
  pat! "(?i)(?:^|[^A-Z0-9\\-_]|[^A-Z0-9\\-]_|sprd-|MZ-)(?:^ThePodcastApp/(\\d+\\.[.\\d]+))",
  pat! "(?i)(?:^|[^A-Z0-9\\-_]|[^A-Z0-9\\-]_|sprd-|MZ-)(?:^TREBLE/([\\d.]+))",
  pat! "(?i)(?:^|[^A-Z0-9\\-_]|[^A-Z0-9\\-]_|sprd-|MZ-)(?:^Turtlecast/(\\d+\\.[.\\d]+))",
  pat! "(?i)(?:^|[^A-Z0-9\\-_]|[^A-Z0-9\\-]_|sprd-|MZ-)(?:^Ubook Player$)",
  pat! "(?i)(?:^|[^A-Z0-9\\-_]|[^A-Z0-9\\-]_|sprd-|MZ-)(?:^VictorReader Stream Trek)",
  pat! "(?i)(?:^|[^A-Z0-9\\-_]|[^A-Z0-9\\-]_|sprd-|MZ-)(?:^VictorReader Stream V3)",
  pat! "(?i)(?:^|[^A-Z0-9\\-_]|[^A-Z0-9\\-]_|sprd-|MZ-)(?:^(?:VictorReader Stream 503|VictorReader_))",
  pat! "(?i)(?:^|[^A-Z0-9\\-_]|[^A-Z0-9\\-]_|sprd-|MZ-)(?:^Vodacast/([\\d.]+))",
  pat! "(?i)(?:^|[^A-Z0-9\\-_]|[^A-Z0-9\\-]_|sprd-|MZ-)(?:^WynkMusic/(\\d+\\.[.\\d]+))",
  pat! "(?i)(?:^|[^A-Z0-9\\-_]|[^A-Z0-9\\-]_|sprd-|MZ-)(?:^Xiaoyuzhou/(\\d+\\.[.\\d]+))",
  pat! "(?i)(?:^|[^A-Z0-9\\-_]|[^A-Z0-9\\-]_|sprd-|MZ-)(?:^Ya(ndex)?\\.Music/)",
  pat! "(?i)(?:^|[^A-Z0-9\\-_]|[^A-Z0-9\\-]_|sprd-|MZ-)(?:^yapa/([\\d.]+))",
  pat! "(?i)(?:^|[^A-Z0-9\\-_]|[^A-Z0-9\\-]_|sprd-|MZ-)(?:Zune/(\\d+\\.[.\\d]+))",
  pat! "(?i)(?:^|[^A-Z0-9\\-_]|[^A-Z0-9\\-]_|sprd-|MZ-)(?:UCast/([\\d.]+))",
  pat! "(?i)(?:^|[^A-Z0-9\\-_]|[^A-Z0-9\\-]_|sprd-|MZ-)(?:(?:^NPROneAndroid$|(?:^NPR%20One|nprone_android)/([\\d.]+)))",
  pat! "(?i)(?:^|[^A-Z0-9\\-_]|[^A-Z0-9\\-]_|sprd-|MZ-)(?:Uforia/([\\d.]+))",
  pat! "(?i)(?:^|[^A-Z0-9\\-_]|[^A-Z0-9\\-]_|sprd-|MZ-)(?:^LAT-Native-App)",
  pat! "(?i)(?:^|[^A-Z0-9\\-_]|[^A-Z0-9\\-]_|sprd-|MZ-)(?:(?:^NYT(?: |%20)?Audio(?:-iOS)?|nytios)/([\\d.]+))",
  pat! "(?i)(?:^|[^A-Z0-9\\-_]|[^A-Z0-9\\-]_|sprd-|MZ-)(?:^LiSTNR[.\\w]*/([\\d.]+))",
  pat! "(?i)(?:^|[^A-Z0-9\\-_]|[^A-Z0-9\\-]_|sprd-|MZ-)(?:^Podu_player$)",
  pat! "(?i)(?:^|[^A-Z0-9\\-_]|[^A-Z0-9\\-]_|sprd-|MZ-)(?:^TiviMate/([\\d.]+))",
  pat! "(?i)(?:^|[^A-Z0-9\\-_]|[^A-Z0-9\\-]_|sprd-|MZ-)(?:IPTV/([\\d.]+))",
  pat! "(?i)(?:^|[^A-Z0-9\\-_]|[^A-Z0-9\\-]_|sprd-|MZ-)(?:IPTV Pro/([\\d.]+))",
  pat! "(?i)(?:^|[^A-Z0-9\\-_]|[^A-Z0-9\\-]_|sprd-|MZ-)(?:^com\\.audials(?:\\.paid)?/([\\d.]+))",
  pat! "(?i)(?:^|[^A-Z0-9\\-_]|[^A-Z0-9\\-]_|sprd-|MZ-)(?:^CoolerFM/([\\d.]+))",
  pat! "(?i)(?:^|[^A-Z0-9\\-_]|[^A-Z0-9\\-]_|sprd-|MZ-)(?:^Metacast/([\\d.]+))",
  pat! "(?i)(?:^|[^A-Z0-9\\-_]|[^A-Z0-9\\-]_|sprd-|MZ-)(?:^mowPod/([\\d.]+))",
  pat! "(?i)(?:^|[^A-Z0-9\\-_]|[^A-Z0-9\\-]_|sprd-|MZ-)(?:com\\.meecel\\.feedreader\\.RssDemonAd)",
  pat! "(?i)(?:^|[^A-Z0-9\\-_]|[^A-Z0-9\\-]_|sprd-|MZ-)(?:^Virgin(?:%20|\\s)Radio/([\\d.]+))",
  pat! "(?i)(?:^|[^A-Z0-9\\-_]|[^A-Z0-9\\-]_|sprd-|MZ-)(?:MetaMask(?:Mobile)?)",
  pat! "(?i)(?:^|[^A-Z0-9\\-_]|[^A-Z0-9\\-]_|sprd-|MZ-)(?:\\+Simple Browser)",
  pat! "(?i)(?:^|[^A-Z0-9\\-_]|[^A-Z0-9\\-]_|sprd-|MZ-)(?:Bitwarden_Mobile/([\\d.]+))",
  pat! "(?i)(?:^|[^A-Z0-9\\-_]|[^A-Z0-9\\-]_|sprd-|MZ-)(?:MXPlayer/([\\d.]+))",
  pat! "(?i)(?:^|[^A-Z0-9\\-_]|[^A-Z0-9\\-]_|sprd-|MZ-)(?:HistoryHound/([\\d.]+))"]

/-- `__cr_re`, from item 1250 on (client_repo.go:2751-2850). -/
def crRe_5 : List (List Chunk) := [
  pat! "(?i)(?:^|[^A-Z0-9\\-_]|[^A-Z0-9\\-]_|sprd-|MZ-)(?:CamScanner/([\\d.]+))",
  pat! "(?i)(?:^|[^A-Z0-9\\-_]|[^A-Z0-9\\-]_|sprd-|MZ-)(?:OBS/(\\d+[.\\d]+))",
  pat! "(?i)(?:^|[^A-Z0-9\\-_]|[^A-Z0-9\\-]_|sprd-|MZ-)(?:XSplitBroadcaster/(\\d+[.\\d]+))",
  pat! "(?i)(?:^|[^A-Z0-9\\-_]|[^A-Z0-9\\-]_|sprd-|MZ-)(?:twitch-desktop-electron-platform.*spotlight/(\\d+[.\\d]+))",
  pat! "(?i)(?:^|[^A-Z0-9\\-_]|[^A-Z0-9\\-]_|sprd-|MZ-)(?:Stream Master$)",
  pat! "(?i)(?:^|[^A-Z0-9\\-_]|[^A-Z0-9\\-]_|sprd-|MZ-)(?:Freespoke/(\\d+\\.[.\\d]+))",
  pat! "(?i)(?:^|[^A-Z0-9\\-_]|[^A-Z0-9\\-]_|sprd-|MZ-)(?:Lark/(\\d+[.\\d]+))",
  pat! "(?i)(?:^|[^A-Z0-9\\-_]|[^A-Z0-9\\-]_|sprd-|MZ-)(?:SearchCraft/(\\d+[.\\d]+))",
  pat! "(?i)(?:^|[^A-Z0-9\\-_]|[^A-Z0-9\\-]_|sprd-|MZ-)(?:DeFiWallet/(\\d+[.\\d]+))",
  pat! "(?i)(?:^|[^A-Z0-9\\-_]|[^A-Z0-9\\-]_|sprd-|MZ-)(?:Clipbox\\+/(\\d+[.\\d]+))",
  pat! "(?i)(?:^|[^A-Z0-9\\-_]|[^A-Z0-9\\-]_|sprd-|MZ-)(?:HMSCore(?:[ /]([\\d.]+))?)",
  pat! "(?i)(?:^|[^A-Z0-9\\-_]|[^A-Z0-9\\-]_|sprd-|MZ-)(?:Autopliuslt(?:/([\\d.]+))?)",
  pat! "(?i)(?:^|[^A-Z0-9\\-_]|[^A-Z0-9\\-]_|sprd-|MZ-)(?:HCom(?:/([\\d.]+))?)",
  pat! "(?i)(?:^|[^A-Z0-9\\-_]|[^A-Z0-9\\-]_|sprd-|MZ-)(?:CoinbaseRetail(?:/([\\d.]+))?)",
  pat! "(?i)(?:^|[^A-Z0-9\\-_]|[^A-Z0-9\\-]_|sprd-|MZ-)(?:De Telegraaf(?:/([\\d.]+))?)",
  pat! "(?i)(?:^|[^A-Z0-9\\-_]|[^A-Z0-9\\-]_|sprd-|MZ-)(?:waipu/([\\d.]+))",
  pat! "(?i)(?:^|[^A-Z0-9\\-_]|[^A-Z0-9\\-]_|sprd-|MZ-)(?:com\\.topbuzz\\.videoen/([\\d.]+))",
  pat! "(?i)(?:^|[^A-Z0-9\\-_]|[^A-Z0-9\\-]_|sprd-|MZ-)(?:Trade Me(?:/([\\d.]+))?)",
  pat! "(?i)(?:^|[^A-Z0-9\\-_]|[^A-Z0-9\\-]_|sprd-|MZ-)(?:XING(?:-iPhone)?/([\\d.]+))",
  pat! "(?i)(?:^|[^A-Z0-9\\-_]|[^A-Z0-9\\-]_|sprd-|MZ-)(?:Bridge/([\\d.]+))",
  pat! "(?i)(?:^|[^A-Z0-9\\-_]|[^A-Z0-9\\-]_|sprd-|MZ-)(?:iPlayTV/([\\d.]+))",
  pat! "(?i)(?:^|[^A-Z0-9\\-_]|[^A-Z0-9\\-]_|sprd-|MZ-)(?:momoWebView/([\\d.]+))",
  pat! "(?i)(?:^|[^A-Z0-9\\-_]|[^A-Z0-9\\-]_|sprd-|MZ-)(?:nate_app;appver:([\\d.]+))",
  pat! "(?i)(?:^|[^A-Z0-9\\-_]|[^A-Z0-9\\-]_|sprd-|MZ-)(?:SOFI_APP_VERSION=([\\d.]+))",
  pat! "(?i)(?:^|[^A-Z0-9\\-_]|[^A-Z0-9\\-]_|sprd-|MZ-)(?:WNYC(?: App)?[/ ]?([\\d.]+)?)",
  pat! "(?i)(?:^|[^A-Z0-9\\-_]|[^A-Z0-9\\-]_|sprd-|MZ-)(?:com\\.theepochtimes\\.mobile/([\\d.]+))",
  pat! "(?i)(?:^|[^A-Z0-9\\-_]|[^A-Z0-9\\-]_|sprd-|MZ-)(?:ReutersNews(?: App)?[/ ]?([\\d.]+)?)",
  pat! "(?i)(?:^|[^A-Z0-9\\-_]|[^A-Z0-9\\-]_|sprd-|MZ-)(?:WatchFree/([\\d.]+))",
  pat! "(?i)(?:^|[^A-Z0-9\\-_]|[^A-Z0-9\\-]_|sprd-|MZ-)(?:obsidian/([\\d.]+))",
  pat! "(?i)(?:^|[^A-Z0-9\\-_]|[^A-Z0-9\\-]_|sprd-|MZ-)(?:VISHAAPP ([\\d.]+))",
  pat! "(?i)(?:^|[^A-Z0-9\\-_]|[^A-Z0-9\\-]_|sprd-|MZ-)(?:nyt_android/([\\d.]+))",
  pat! "(?i)(?:^|[^A-Z0-9\\-_]|[^A-Z0-9\\-]_|sprd-|MZ-)(?:Fiddler/(\\d+[.\\d]+))",
  pat! "(?i)(?:^|[^A-Z0-9\\-_]|[^A-Z0-9\\-]_|sprd-|MZ-)(?:ZONApp/(?:iOS|Android)/([\\d.]+))",
  pat! "(?i)(?:^|[^A-Z0-9\\-_]|[^A-Z0-9\\-]_|sprd-|MZ-)(?:tracepal(?:\\.app)?/([\\d.]+))",
  pat! "(?i)(?:^|[^A-Z0-9\\-_]|[^A-Z0-9\\-]_|sprd-|MZ-)(?:topsecret\\.chat/([\\d.]+))",
  pat! "(?i)(?:^|[^A-Z0-9\\-_]|[^A-Z0-9\\-]_|sprd-|MZ-)(?:Kwai/([\\d.]+))",
  pat! "(?i)(?:^|[^A-Z0-9\\-_]|[^A-Z0-9\\-]_|sprd-|MZ-)(?:Kwai_Pro/([\\d.]+))",
  pat! "(?i)(?:^|[^A-Z0-9\\-_]|[^A-Z0-9\\-]_|sprd-|MZ-)(?:Sooplive Webview/([\\d.]+))",
  pat! "(?i)(?:^|[^A-Z0-9\\-_]|[^A-Z0-9\\-]_|sprd-|MZ-)(?:GoEuro(?:Android|IOS )/([\\d.]+))",
  pat! "(?i)(?:^|[^A-Z0-9\\-_]|[^A-Z0-9\\-]_|sprd-|MZ-)(?:BOOM v([\\d.]+))",
  pat! "(?i)(?:^|[^A-Z0-9\\-_]|[^A-Z0-9\\-]_|sprd-|MZ-)(?:WallaNews/([\\d.]+))",
  pat! "(?i)(?:^|[^A-Z0-9\\-_]|[^A-Z0-9\\-]_|sprd-|MZ-)(?:TRP_iPhone_App/([\\d.]+))",
  pat! "(?i)(?:^|[^A-Z0-9\\-_]|[^A-Z0-9\\-]_|sprd-|MZ-)(?:Townnews-Now/([\\d.]+))",
  pat! "(?i)(?:^|[^A-Z0-9\\-_]|[^A-Z0-9\\-]_|sprd-|MZ-)(?:^Klara/)",
  pat! "(?i)(?:^|[^A-Z0-9\\-_]|[^A-Z0-9\\-]_|sprd-|MZ-)(?:EdmodoAndroid/([\\d.]+))",
  pat! "(?i)(?:^|[^A-Z0-9\\-_]|[^A-Z0-9\\-]_|sprd-|MZ-)(?:HFEducationIOS/([\\d.]+))",
  pat! "(?i)(?:^|[^A-Z0-9\\-_]|[^A-Z0-9\\-]_|sprd-|MZ-)(?:HFIOS/([\\d.]+))",
  pat! "(?i)(?:^|[^A-Z0-9\\-_]|[^A-Z0-9\\-]_|sprd-|MZ-)(?:OpenVAS-VT ([\\d.]+))",
  pat! "(?i)(?:^|[^A-Z0-9\\-_]|[^A-Z0-9\\-]_|sprd-|MZ-)(?:appdb/([\\d.]+))",
  pat! "(?i)(?:^|[^A-Z0-9\\-_]|[^A-Z0-9\\-]_|sprd-|MZ-)(?:smzdm ([\\d.]+))",
  pat! "(?i)(?:^|[^A-Z0-9\\-_]|[^A-Z0-9\\-]_|sprd-|MZ-)(?:Zite/([\\d.]+))",
  pat! "(?i)(?:^|[^A-Z0-9\\-_]|[^A-Z0-9\\-]_|sprd-|MZ-)(?:anythingllm-desktop/([\\d.]+))",
  pat! "(?i)(?:^|[^A-Z0-9\\-_]|[^A-Z0-9\\-]_|sprd-|MZ-)(?:opgg-electron-app/([\\d.]+))",
  pat! "(?i)(?:^|[^A-Z0-9\\-_]|[^A-Z0-9\\-]_|sprd-|MZ-)(?:VidJuiceUniTube/([\\d.]+))",
  pat! "(?i)(?:^|[^A-Z0-9\\-_]|[^A-Z0-9\\-]_|sprd-|MZ-)(?:^Seekr/([\\d\\.]+).*Android)",
  pat! "(?i)(?:^|[^A-Z0-9\\-_]|[^A-Z0-9\\-]_|sprd-|MZ-)(?:^Seekr/([\\d\\.]+).*CFNetwork)",
  pat! "(?i)(?:^|[^A-Z0-9\\-_]|[^A-Z0-9\\-]_|sprd-|MZ-)(?:^Superbalist/([\\d.]+))",
  pat! "(?i)(?:^|[^A-Z0-9\\-_]|[^A-Z0-9\\-]_|sprd-|MZ-)(?:KeplrWalletMobile/([\\d.]+))",
  pat! "(?i)(?:^|[^A-Z0-9\\-_]|[^A-Z0-9\\-]_|sprd-|MZ-)(?:lookr/([\\d.]+))",
  pat! "(?i)(?:^|[^A-Z0-9\\-_]|[^A-Z0-9\\-]_|sprd-|MZ-)(?:Kimi/([\\d.]+))",
  pat! "(?i)(?:^|[^A-Z0-9\\-_]|[^A-Z0-9\\-]_|sprd-|MZ-)(?:Hulu/([\\d.]+))",
  pat! "(?i)(?:^|[^A-Z0-9\\-_]|[^A-Z0-9\\-]_|sprd-|MZ-)(?:TeraBox/([\\d.]+))",
  pat! "(?i)(?:^|[^A-Z0-9\\-_]|[^A-Z0-9\\-]_|sprd-|MZ-)(?:dubox;([\\d.]+);)",
  pat! "(?i)(?:^|[^A-Z0-9\\-_]|[^A-Z0-9\\-]_|sprd-|MZ-)(?:DeepSeek Chat/([\\d.]+))",
  pat! "(?i)(?:^|[^A-Z0-9\\-_]|[^A-Z0-9\\-]_|sprd-|MZ-)(?:ChatGPT/([\\d.]+))",
  pat! "(?i)(?:^|[^A-Z0-9\\-_]|[^A-Z0-9\\-]_|sprd-|MZ-)(?:REDLINECLIENT.+V([\\d.]+))",
  pat! "(?i)(?:^|[^A-Z0-9\\-_]|[^A-Z0-9\\-]_|sprd-|MZ-)(?: ([a-z0-9]*)(?:-desktop|-electron-app)?/(\\d+\\.[\\d.]+).*Electron/)",
  pat! "(?i)(?:^|[^A-Z0-9\\-_]|[^A-Z0-9\\-]_|sprd-|MZ-)(?:AppVersion/([\\d.]+).+appname/([^/; ]*))",
  pat! "(?i)(?:^|[^A-Z0-9\\-_]|[^A-Z0-9\\-]_|sprd-|MZ-)(?:([^/;]*)/(\\d+\\.[\\d.]+) \\((?:iPhone|iPad); (?:iOS|iPadOS) [0-9.]+; Scale/[0-9.]+\\))",
  pat! "(?i)(?:^|[^A-Z0-9\\-_]|[^A-Z0-9\\-]_|sprd-|MZ-)(?:Outlook-Express(?:/(\\d+[.\\d]+))?)",
  pat! "(?i)(?:^|[^A-Z0-9\\-_]|[^A-Z0-9\\-]_|sprd-|MZ-)(?:^Outlook-iOS/(?:.+\\((\\d+[.\\d]+)\\)$)?)",
  pat! "(?i)(?:^|[^A-Z0-9\\-_]|[^A-Z0-9\\-]_|sprd-|MZ-)(?:(?:(?:Microsoft )?Outlook|MacOutlook)(?:[/ ](\\d+[.\\d]+))?)",
  pat! "(?i)(?:^|[^A-Z0-9\\-_]|[^A-Z0-9\\-]_|sprd-|MZ-)(?:WindowsMail(?:/(\\d+[.\\d]+)))",
  pat! "(?i)(?:^|[^A-Z0-9\\-_]|[^A-Z0-9\\-]_|sprd-|MZ-)(?:(?:Thunderbird|Icedove|Shredder)(?:/(\\d+[.\\d]+))?)",
  pat! "(?i)(?:^|[^A-Z0-9\\-_]|[^A-Z0-9\\-]_|sprd-|MZ-)(?:Spicebird/(\\d+\\.[.\\d]+))",
  pat! "(?i)(?:^|[^A-Z0-9\\-_]|[^A-Z0-9\\-]_|sprd-|MZ-)(?:Airmail(?: (\\d+[.\\d]+))?)",
  pat! "(?i)(?:^|[^A-Z0-9\\-_]|[^A-Z0-9\\-]_|sprd-|MZ-)(?:Lotus-Notes(?:/(\\d+[.\\d]+))?)",
  pat! "(?i)(?:^|[^A-Z0-9\\-_]|[^A-Z0-9\\-]_|sprd-|MZ-)(?:Barca(?:Pro)?(?:[/ ](\\d+[.\\d]+))?)",
  pat! "(?i)(?:^|[^A-Z0-9\\-_]|[^A-Z0-9\\-]_|sprd-|MZ-)(?:Postbox(?:[/ ](\\d+[.\\d]+))?)",
  pat! "(?i)(?:^|[^A-Z0-9\\-_]|[^A-Z0-9\\-]_|sprd-|MZ-)(?:MailBar(?:[/ ](\\d+[.\\d]+))?)",
  pat! "(?i)(?:^|[^A-Z0-9\\-_]|[^A-Z0-9\\-]_|sprd-|MZ-)(?:The Bat!(?: Voyager)?(?:[/ ](\\d+[.\\d]+))?)",
  pat! "(?i)(?:^|[^A-Z0-9\\-_]|[^A-Z0-9\\-]_|sprd-|MZ-)(?:DAVdroid(?:/(\\d+[.\\d]+))?)",
  pat! "(?i)(?:^|[^A-Z0-9\\-_]|[^A-Z0-9\\-]_|sprd-|MZ-)(?:(?:SeaMonkey|Iceape)(?:/(\\d+[.\\d]+))?)",
  pat! "(?i)(?:^|[^A-Z0-9\\-_]|[^A-Z0-9\\-]_|sprd-|MZ-)(?:Live5ch/(\\d+[.\\d]+))",
  pat! "(?i)(?:^|[^A-Z0-9\\-_]|[^A-Z0-9\\-]_|sprd-|MZ-)(?:Raindrop\\.io/(\\d+[.\\d]+))",
  pat! "(?i)(?:^|[^A-Z0-9\\-_]|[^A-Z0-9\\-]_|sprd-|MZ-)(?:Franz/(\\d+[.\\d]+))",
  pat! "(?i)(?:^|[^A-Z0-9\\-_]|[^A-Z0-9\\-]_|sprd-|MZ-)(?:Mailspring/(\\d+[.\\d]+))",
  pat! "(?i)(?:^|[^A-Z0-9\\-_]|[^A-Z0-9\\-]_|sprd-|MZ-)(?:Notion/(\\d+[.\\d]+))",
  pat! "(?i)(?:^|[^A-Z0-9\\-_]|[^A-Z0-9\\-]_|sprd-|MZ-)(?:Basecamp[0-9]/?(\\d+[.\\d]+))",
  pat! "(?i)(?:^|[^A-Z0-9\\-_]|[^A-Z0-9\\-]_|sprd-|MZ-)(?:Evernote/?(\\d+[.\\d]+))",
  pat! "(?i)(?:^|[^A-Z0-9\\-_]|[^A-Z0-9\\-]_|sprd-|MZ-)(?:ramboxpro/(\\d+\\.[.\\d]+)?)",
  pat! "(?i)(?:^|[^A-Z0-9\\-_]|[^A-Z0-9\\-]_|sprd-|MZ-)(?:Mailbird/(\\d+\\.[.\\d]+)/)",
  pat! "(?i)(?:^|[^A-Z0-9\\-_]|[^A-Z0-9\\-]_|sprd-|MZ-)(?:jp.co.yahoo.ymail/([\\d.]+))",
  pat! "(?i)(?:^|[^A-Z0-9\\-_]|[^A-Z0-9\\-]_|sprd-|MZ-)(?:eM ?Client/(\\d+\\.[.\\d]+))",
  pat! "(?i)(?:^|[^A-Z0-9\\-_]|[^A-Z0-9\\-]_|sprd-|MZ-)(?:NaverMailApp/(\\d+\\.[.\\d]+))",
  pat! "(?i)(?:^|[^A-Z0-9\\-_]|[^A-Z0-9\\-]_|sprd-|MZ-)(?:^Mail/([\\d.]+))",
  pat! "(?i)(?:^|[^A-Z0-9\\-_]|[^A-Z0-9\\-]_|sprd-|MZ-)(?:Foxmail/(\\d+[.\\d]+))",
  pat! "(?i)(?:^|[^A-Z0-9\\-_]|[^A-Z0-9\\-]_|sprd-|MZ-)(?:MailMaster(?:PC|_Android_Mobile)?/(\\d+[.\\d]+))",
  pat! "(?i)(?:^|[^A-Z0-9\\-_]|[^A-Z0-9\\-]_|sprd-|MZ-)(?:BlueMail/(\\d+[.\\d]+))",
  pat! "(?i)(?:^|[^A-Z0-9\\-_]|[^A-Z0-9\\-]_|sprd-|MZ-)(?:mailapp/(\\d+\\.[.\\d]+))"]

/-- `__cr_re` (client_repo.go). -/
def crRe : List (List Chunk) := crRe_0 ++ crRe_1 ++ crRe_2 ++ crRe_3 ++ crRe_4 ++ crRe_5

/-- `__cr_buf` (client_repo.go:3100-4206). -/
def crBuf : List Chunk := [
  chunk! "NetFrontEdge/EdgeTridentBlinkWebKitPrestoGoannaCleckoGeckoKHTMLNetSurfServoEkiohFlowxChaos_ArachneArachneLibWebArkWeb/ArkWebMapleFireSend BrowserSeekeeArtisBrowserDoubaoHeyTapBrowserQuarkPCAltiBrowserSingleboxRCATorExplorerRCA Tor ExplorerTQBrowserTQ BrowserXXXAndroidAppXnBrowseProxyFoxPrivacyBrowserPrivacy BrowserTUSKDezorOJR BrowserAppTec Secure BrowserVeeraNineskyPerkPresearchQtWebUPhone BrowserMotorola Internet BrowseriNet BrowserPrismAwesomiumRoccatSwiftweaselWukong BrowserKUNNaenara BrowserNook BrowserWeltweitimnetz BrowserLadybirdKittsppm_bizbrowserBizBrowserSkyLeapMaxBrowserYouBrowserMixerBox-BrowserMixerBox AIEudoraWebEoliew3mText-basedClassilla/ClassillaWebian ShellVonkerorWyzoLiri BrowserColumbus BrowserGreenBrowserK-NinjaPirateBrowserEast BrowserQiyuWebDiscoverLegan BrowserAcoo BrowserAplixMogok BrowserTrueLocation BrowserDiigo BrowserOnBrowser LiteBluefyVision Mobile BrowserSurfy Browser18+ Privacy BrowserGoKuAsk.comBangIntune Managed BrowserLotusJuziBrowserJUZI BrowserNinetailsWexondCatalystImpervious BrowserRakuten BrowserRakuten Web SearchVibeMateColom BrowsertarariaSberBrowserRaspbian ChromiumQuick Search TVSkyeVD BrowserSecureXHotBrowserProxy BrowserOnion BrowserfGet/fGetNuviuDoCoMoAirfind Secure BrowserArc SearchNuanti MetaRoku BrowserPICO BrowserALVANorton Private BrowserOdd BrowserAPN BrowserYAGIInspectBrowserInspect BrowserKeepsafe BrowserVast BrowserbloketBloketU BrowserTesla BrowserViasat BrowserLiloLexi BrowserFloorpSurf BrowserDecentryoucare-android-appYouCareyoucare-ios-appAdBlock BrowserBrowseHereHi BrowserCyBrowserSiteKioskReqwireless WebViewerT+BrowserSecure Private BrowserChanjetCloudSushi BrowserPeeps dBrowserLT BrowserLagatos BrowserPSI Secure BrowserHarman BrowserBonsaiSpectre BrowserFlash BrowserSecure BrowserArvinEdge WebViewMandarinMaelstromHelio7654 BrowserQazwebdeg-deganJavaFXChedotChromium GOSTDeledaoHasBrowserByffoxCoolBrowserDot BrowserCraving ExplorerDeskBrowseLolifoxPi BrowserQutebrowserFlastPolyBrowserBriskBardGinxDroid BrowserAvira Secure BrowserVenus BrowserOtter BrowserSmoozBangla BrowserCornowserOrcaFlow BrowserFlowxStandBiyubiPerfect BrowserPhantom BrowserAwoXZetakeyPlayFree BrowserChim LacOdinT-BrowserWhale TV BrowserSFiveNavigateur WebSeraphic SrafSeewo BrowserKode BrowserUR BrowserOceanHeroSmart Lenovo BrowserBrowzarStargonNFS BrowserBorealis NavigatorYolo BrowserPhoenix BrowserPrivacyWallGhostery Privacy BrowserCliqzYaani BrowserSafe Exam BrowserColibriXvastTungstenLulumiYahoo! Japan BrowserLunascape LiteLunascapePolypaneOhHai BrowserSizzyGlass BrowserToGateVMware AirWatchAOL ExplorerAOL DesktopElements BrowserLightSteam In-Game Overlay115 BrowserAtomWolvicFirefox RealityAVG Secure BrowserSTART Internet BrowserLovense BrowserDelta BrowserOrdissimoCCleanerAloha Browser LiteTao BrowserChatGPT AtlasFalkonmCentSalamWebBlackHawkMinimoWear Internet BrowserOrigyn Web BrowserKinzaBeamriseFaux BrowserSplashMeizu BrowserCOS BrowserCrustaHawk Turbo BrowserHawk Quick BrowserFreeUNox BrowserBasiliskSputnik BrowserK.BrowserOculus BrowserJioSphereStampy Browserhola! BrowserSlimBoatSlimjet7StarMxNitroHuawei Browser MobileHuawei BrowserZTE Browservivo BrowserRealme BrowserBeaker BrowserQwant MobileTenFourFoxAOL Shield ProAOL ShieldMicrosoft EdgeHarmony 360 Browser360 Secure Browser360 Phone BrowserSailfish BrowserIceCatMobicipCaminoWaterfoxVertex SurfAloha BrowserAloha/Tenta BrowserAvast Secure BrowserEpicFennecMicroBDeepnet ExplorerAvant BrowserOppo BrowserAmigoAtomic Web BrowserBunjallooBraveIridiumIceweaselWebPositivePale MoonCometBirdIceDragonFlockJig Browser PlusJig BrowserKapikoKyloOrigin In-Game OverlayCunaguarot-online.de BrowserKazehakaseArctic FoxMypalCentauryFirefox FocusCyberfoxSwiftfoxUC Browser HDUC Browser MiniUC Browser TurboUC BrowserUC AppleWebKitFirefox MobileFirefox Mobile iOSFirefoxANT FrescoANTGalioEspial TV BrowserRockMeltFireweb NavigatorFirewebNetscapePolarityQupZillaDoobleWhale BrowserObigoOpera GXOpera MobileOpera NeonOpera DevicesOpera TouchOperaOpera MiniOpera Mini iOSOpera NextElektraRekonqCoolNovoComodo DragonChromePlusConkerorKonquerorHONOR BrowserBaidu",
  chunk! " BrowserBaidu SparkYandex BrowserYandex Browser LiteYandex Browser CorpVivaldiTweakStyleMidoriMercuryMaxthonPuffin Cloud BrowserPuffin Secure BrowserPuffin Web BrowserIron MobileIronGNOME WebLieBaoFastCheetah BrowserSogou ExplorerQQ Browser LiteQQ Browser MiniQQ BrowserMi BrowserCoc CocDuckDuckGo Privacy BrowserSamsung BrowserSuper Fast BrowserEUI BrowserUBrowserStreamyisiviooIsiviooFirefox RocketWeb ExplorerSeznam BrowserSogou Mobile BrowserMint BrowserEcosiaACHEETAHICM BrowserLenovo BrowserKiwi ChromeKiwi2345 BrowserMobile SilkiBrowser MiniiBrowserIBrowseOpenwave Mobile BrowserONE BrowserGoBrowserNokia Browser7.0Nokia OSS BrowserNokia Ovi BrowserSleipnirNTENT BrowserTV BroQuarkMonument BrowserBlue BrowserJapan BrowserOpenFinSuperBirdSoul BrowserLG BrowserQtWebEngineChrome Mobile iOSChrome WebviewChrome MobileChrome FrameChromiumHeadless ChromeChromePocketBook/PocketBook BrowserTizen BrowserPalm BlazerPalm PrewOSBrowserPalm WebProPalmscapeJasmineLynxNCSA MosaicVMS MosaicABrowseAmayaAmiga VoyagerAmiga AwebAroraBeonexB-LineBrowseXCharonCheshiredbrowserDilloDolphinElinksElement BrowsereZ BrowserFirebirdFluidGaleonGoogle Earth ProGoogle EarthHotJavaiCab MobileiCabCrazy BrowserIE MobileInternet Explorer8.09.010.011.0Pocket Internet ExplorerKindle BrowserK-meleonLinksLuaKitOmniWebPhoenixNintendo BrowserNetFront LifeNetPositiveOdyssey Web BrowserOffByOneOff By OneOreganoPolarisSEMC-BrowserShiiraSkyfireSnowshoeSunriseWeTab-BrowserWeTab BrowserXiinoBlackBerry BrowserBrowlserAndroid BrowserCoastsurfSafari Technology PreviewMobile SafariSafariMacintoshDoradoUzblSimpleBrowserZvuGOG GalaxyMAUI WAP BrowserSP BrowserAkregatorhttp://userbase.kde.org/AkregatorApple PubSubhttps://developer.apple.com/library/mac/documentation/Darwin/Reference/ManPages/man1/pubsub.1.htmlBashPodderhttp://lincgeek.org/bashpodder/Breakerhttps://www.breaker.audio/FeedDemonhttp://www.feeddemon.com/Feeddler RSS Readerhttp://www.chebinliu.com/projects/iphone/feeddler-rss-reader/QuiteRSShttps://quiterss.orggPodderhttp://gpodder.org/JetBrains Omea Readerhttp://www.jetbrains.com/omea/reader/Lifereahttp://liferea.sf.net/NetNewsWirehttp://netnewswireapp.com/NewsBlur Mobile Apphttp://www.newsblur.comNewsBlurNewsbeuterhttp://www.newsbeuter.org/PritTorrenthttp://bitlove.orgPulphttp://www.acrylicapps.com/pulp/ReadKithttp://readkitapp.com/Reederhttp://reederapp.com/RSS Bandithttp://www.rssbandit.org)RSS Junkiehttps://play.google.com/store/apps/details?id=com.bitpowder.rssjunkieRSSOwlhttps://www.rssowl.org/Stringerhttps://github.com/swanson/stringercasterohttps://github.com/xgi/casterocastgethttps://castget.johndal.com/Newsboathttps://newsboat.org/index.htmlPlayapodhttps://playapod.com/PodPuppyhttps://github.com/felixwatts/PodPuppyhttps://reederapp.com/PhantomJShttps://phantomjs.org/IPinfohttps://github.com/ipinfoKiwi TCMShttps://kiwitcms.orgKiwi TCMS APIFFUFhttps://github.com/ffuf/ffufSlim Frameworkhttps://www.slimframework.com/msray-plusMsray-Plushttps://github.com/super-l/msrayHTML Parserhttps://htmlparser.sourceforge.net/gothttps://github.com/sindresorhus/gotTyphoeushttps://github.com/typhoeus/typhoeusreqhttps://github.com/imroc/reqquic-gohttps://github.com/lucas-clemente/quic-goAzure Data Factoryhttps://azure.microsoft.com/en-us/products/data-factory/Darthttps://dart.dev/r-curlhttps://github.com/jeroen/curlHTTPXhttps://www.python-httpx.org/fasthttphttps://github.com/valyala/fasthttpGeoIP Updatehttps://github.com/maxmind/geoipupdatePHP cURL Classhttps://github.com/php-curl-class/php-curl-classcPanel HTTP Clienthttps://www.cpanel.net/AnyEvent HTTPhttp://software.schmorp.de/pkg/AnyEventSlimerJShttps://www.slimerjs.org/Jaunthttps://jaunt-api.com/Cypresshttps://github.com/cypress-io/cypressWgetGuzzle (PHP HTTP Client)SymfonycurlPython Requestshttplib2https://pypi.org/project/httplib2/Python urllibApache HTTP ClientJava HTTP ClientJavaPerlgRPC-Javahttps://github.com/grpc/grpc-javaOkHttpHTTP_Request2https://pear.php.net/package/http_request2Mechanizehttps://github.com/sparklemotion/mechanizeaiohttpGoogle HTTP Java ClientWWW-MechanizeFaradayhttps://github.com/lostisland/farada",
  chunk! "yGo-http-clienturlgrabber (yum)libdnfHTTPieREST Client for RubyRestSharphttps://github.com/restsharp/RestSharpScalaJ HTTPhttps://github.com/scalaj/scalaj-httpPerl REST::Clienthttps://metacpan.org/pod/REST::ClientNode Fetchhttps://github.com/node-fetch/node-fetchElectron Fetchhttps://github.com/arantes555/electron-fetchReactorNettyhttps://github.com/reactor/reactor-nettyPostman Desktophttps://github.com/postmanlabs/postman-runtimeInsomnia REST Clienthttps://insomnia.restJakarta Commons HttpClienthttps://hc.apache.org/httpclient-3.xWinHttp WinHttpRequestWinHTTPWindows HTTPEmbarcadero URI ClientMikrotik FetchGRequestsAkka HTTPAria2uTorrentgvfsuclient-fetchC++ REST SDKLUA OpenResty NGINXUnirest for JavajsdomhackneyRestyPa11yUltimate Sitemap ParserArtifactoryOpen Build ServiceBuildahBuildKitContainerdcontainerscri-odockergo-container registrylibpodSkopeoHelmharbor-registry-clientHarbor registry clientAxiosCarrierWaveDenoDownffmpegFileDownloadergit-annexGStreamerHTTP:TinyKaiOS DownloaderlibsoupAndroid License Verification LibraryPRDownloaderreqwestresty-requestsrubySafari View ServiceundiciEmacsFree Download ManagerOKDownload LibraryLibsyniOS Applicationcpp-httplibhttps://github.com/yhirose/cpp-httplibDefinitely-Not-RequestsRequestshttps://github.com/psf/requestsStealerhttps://github.com/hotrush/stealer/Mandrill PHPhttps://bitbucket.org/mailchimp/mandrill-api-php/src/master/Podgrabhttps://github.com/akhilrex/podgrabRadio Downloaderhttps://nerdoftheherd.com/tools/radiodld/ESP32 HTTP Clienthttps://github.com/espressif/arduino-esp32Babashka HTTP Clienthttps://github.com/babashka/http-clienthttp.rbhttps://github.com/httprb/httpsuperagenthttps://github.com/ladjs/superagentCakePHPhttps://www.cakephp.org/requesthttps://github.com/request/requestQbHttphttps://github.com/OpenQb/QbHttphttprshttps://github.com/http-server-rs/http-serverBoto3https://github.com/boto/boto3XML-RPChttps://docs.python.org/3/library/xmlrpc.htmlICAP Clienthttps://github.com/Peoplecantfly/icapserverCygwinhttps://www.cygwin.com/Azure Blob Storagehttps://learn.microsoft.com/en-us/azure/storage/blobs/storage-quickstart-blobs-pythontrafilaturahttps://github.com/adbar/trafilaturasqlmaphttps://sqlmap.org/vimeo.phphttps://github.com/vimeo/vimeo.phpPHPgo-networkBunhttps://bun.sh/Apidoghttps://apidog.com/webchkhttps://github.com/amgedr/webchkMatomoTrackerhttps://github.com/matomo-org/matomo-sdk-iosLibHTTPhttps://www.libhttp.org/BIC Trackerhttps://github.com/Simbiat/BIC-TrackerLodestone PHP Parserhttps://github.com/Simbiat/lodestone-parserHubothttps://github.com/hubotio/hubotAudaciousAlexaBansheeBoxeeClementineDeezeriTunesFlyCastFoobar2000MediaMonkeyMiroNexPlayerNightingaleQuickTimeSongbirdSubStreamSONOSVLCWinampJRiver Media CenterWindows Media PlayerXBMCKodiStagefrightGoogle PodcastsMusic Player DaemonmpvHTC Streaming PlayerSony Media GoMPlayerDowncastJuiceJust AudioKastsMixerBoxMusicBeeAmarokHubhopperStudioDisplayJHelioviewerXtream PlayerDIGAYouViewAmebaCSDNMoyaKPN VeiligNaverNAVER DictionarySoldierAndroidDownloadManagerApple NewsApple TVFacebook Audience NetworkFacebook Messenger LiteFacebook MessengerFacebook GroupsFacebook LiteMeta Business SuiteFacebookInstagramThreadsFeedRGoogle GoGoogle PhotosGoogle Play NewsstandGoogle PlusGoogle DriveGoogle AssistantGoogle MapsGoogleWeComWeChatWeChat Share ExtensionDingTalkSina WeiboPinterestPodcatcher DeluxeYouTubeRutubeNetflixFlippSignalWhatsApp BusinessWhatsAppWhatsApp+2FM WhatsAppGBWhatsAppYo WhatsAppAN WhatsAppTelegramYoutube MusicLineInstacastPocket CastsPodcatBeyondPodOvercastCastBoxPodkicker$1Podcast RepublicCastroCastro 2DoggCatcherPodcast & Radio AddictiCatcherYelp MobileYahoo! JapanRSSRadioSogouSearch AppNewsArticle Apptiebadouban AppGoogle Search AppGoogle LensFlipboard AppBaidu Box App LiteBaidu Box AppBaidu InputPetal SearchCrosswalkAppTwitterGaanaTopBuzzSnapchatCronetSnapDevSheldonAha Radio 2UniboxStrimioUnityPlayerU-CursosRobloxViberSiri/1Siri1.0LinkedInInstapaperKeeper Password ManagerSkyeng TeachersKikProcastDeviantArtDiscordCovenant EyesHP SmartBitsboardBetBull1PasswordMicrosoft Office $1Microsoft OfficeMicroso",
  chunk! "ft LyncMicrosoft Power QueryWPS OfficeMicrosoft OneDriveMicrosoft Office Existence DiscoveryMicrosoft Office MobileSkypeSkype for BusinessWebexTeamsWebex TeamsGroupMeTikTokTikTok LiteDouyinCopiedPic CollagePapersRoboFormSlackKakaoTalkShopeeSPORT1CloviaShowMeWattpadThe Wall Street JournalWH QuestionsWhisperOpal TravelZaloYandexZenZoho ChatThunderCGNPodbeanTuneIn Radio ProTuneIn RadioDevCastsSwootRadioPublicPodimoEvolve PodcastRocket ChatPandoraWirtschafts WocheTVirlChMate2tchCiisaaBB2CtwinkleJaneStyleBinanceMy WorldOdnoklassnikiYakYakTeamsSohuNewsStreamlabs OBSBlitzOfferUpVuhuvGoogle Fiber TVQuickCastAliExpressLazadaTaobaoAlipayBlue Proxyntvmobil/NTV MobilCOAF%20SMART%20Citizen/COAF SMART CitizenGitHub DesktopLogi Options+Emby TheaterY8 BrowserNuMuKi BrowserLandis+Gyr AIM BrowserVisual Studio CodeWiresharkMagicianSamsung MagicianRazer Central PCRazer SynapseGitWindows CryptoAPIMicrosoft-Delivery-OptimizationWindows Delivery OptimizationWindows-Update-AgentWindows Update AgentDr. WatsonqBittorrentCPU-ZAIDA64HandBrakeEdge UpdateChrome UpdateBose MusicHikConnectHik-ConnectCortanaOpera NewsAdobe Acrobat ReaderAdobe Creative CloudrekordboxWindows Push Notification ServicesBackground Intelligent Transfer ServiceERA Agent UpdateESET Remote AdministratorEpic Games LauncherMicrosoft-WebDAV-MiniRedirWebDAVBattle.netBookshelfRave SocialWord Cookies!Bible KJVMetaTraderPaint by NumberZEPETOJungle Disk Workgroup HTTPJungle DiskNextcloudGoNativeBlackboardTIMTencent DocsQQQQMusicetoro-cordova-appeToroAvid LinkGoogle Tag ManagerAdobe SynchronizerBlueStacksPowerShellGlobalProtectTheyubBBC NewsTradingViewInstabridgeBe FocusedFocus MatrixFocus KeeperWindowsStoreSDKMicrosoft StoreASUS UpdaterIMO HD Video Calls & ChatIMO International Calls & ChatMicrosoft BingMSNMicrosoft CopilotHiSearchRDDocumentsF-Secure SAFETwitterrificUconnectLiveUconnect LIVEWayback%20Machine%20ExtensionWayback MachineQ-municateNET.medeMy%20BentleyMy BentleySkyeng%20AppSkyengSkyeng%20TeachersBank MilleniumMBolsaMEmpresasOrange RadioRadio ItalianeSafari Search HelperCitrix%20ViewerCitrix WorkspaceMercantile Bank of MichiganD-Stream%20AirDStream AirExpediaBookingsExpediaWindows AntivirusMacrium ReflectOpera autoupdate agentOpera UpdaterBallzRNPS Action CardsPlex Media ServerFreeSafeIPSafeIPSurfsharkHagoVuzeIPMAdobe IPMAdobe NGLBitcoin CoreDogecoin CoreAmazon Shoppingmobile.dejitsi-meet/Jitsi MeetDon't Waste My Time!iOSStartsidenAppStartsidenHisThumbnailYahoo OneSearchanonymized by AbelssoftAntiBrowserSpyBrowser-AnonymizerDaumAT&T TVDIRECTVRedditTuya Smart LifeSpotifyAmazon MusicKlarnaRRadioAppFree/RadioAppAudibleHTTP request makerBonPrixQuoraJJ2GOMy Watch PartyLoseIt!ActionExtensionAdoriAgoraAirrAirsonicAll You Can BooksAllHitMusicRadioAmazon FireAnchorAnchorFMAnghamiAntennaPodAnyboxAnytime Podcast PlayerAPK DownloaderApolloApple iMessageApple PodcastsApple RemindersArvocastAudacyAudioAudio NowAwasuBearBibleBoltBookmobileBoomBoomplayBose SoundTouchbPodBreezBroadcastBroadwayPodcastNetwork/iOSBroadway Podcast NetworkBrowser appBrowserPlusBullhornCapitalcapsule.fmCastamaticCastawayClassic FMClientCosmicastCPodDamusDe StandaardDManagerDoubleTwist CloudPlayerDoughnutDownieDownloaderEMAudioPlayerExpofaidrFathomFeedStationFilesFountainGarmin fenix 5XGarmin ForerunnerGoldGoldenPodGoLoudGoodpodsGoodReaderGoogle Nest HubGuacamoleHammelHardCastHark AudioHeartHermesPodHiCastHimalayaHyperCatcheriHeartRadioAudiobooksiVooxJamJioSaavnKajabiKids ListenKidsPodKKBOXLaughableLBCLG PlayerListenLiuloJust ListenLuminaryMegaphoneMenucastMessengerXMimirMobileSMSMoonFMMyTunerNewslyNRC AudioNRCOutcastOverhaul FMPalco MP3PeaCastPlayer FMPodbayPodcast GuruPodcast PlayerPodcastlyPodchaserPodclipperPodCruncherPodeoPodfriendPodheroPodKastPodkicker ProPodLPPodMePodMNPodNLPodopoloPodplayPodsPoduramaPodTrapperPodvinePodversePodysseyPugPig Boltradio.$1GetPodcastRadio NextRadiolineRepodRhythmboxSachNoiSamsung PodcastsServeStreamShadowShadowrocketSiriusXMSnipd'sodesSonnetSony PlayStation 5SoundOnSoundWavesSpreakerStitcherStoryShotsSwinsianPodcast AppTreble.fmTurtlecastUbook PlayerVictor Reader Stream TrekVicto",
  chunk! "r Reader Stream 3Victor Reader Stream New GenerationVodacastWynk MusicXiao Yu ZhouYandex MusicYapaZuneUCastNPRUforiaL.A. TimesThe New York TimesLiSTNRpodUTiviMateIPTVIPTV ProAudialsCoolerMetacastmowPodRSSDemonVirgin RadioMetaMask+SimpleBitwardenMX PlayerHistoryHoundQuicksilverCamScannerOBS StudioXSplit BroadcasterTwitch StudioStream MasterFreespokeWhatplayLarkSearchCraftCrypto.com DeFi WalletClipbox+appname/HideXHideXHuawei Mobile Servicesappname/PLAYitPLAYitAutoplius.ltHotels.comCoinbaseDe Telegraafwaipu.tvRedditorBuzzVideoTrade MeXINGBridgeiPlayTVMOMOnateSoFiWNYCThe Epoch TimesReuters NewsWatchFree+ObsidianPerplexityXShareVishaThe Crosswordmojeek-appMojeekFiddler ClassicZEIT ONLINETracePalTopSecret ChatKwaiKwai ProSOOPGoEuroBoom360Walla NewsTRP Retail LocatorTownNews NowKlaraEdmodoHeartFocus EducationHeartFocusOpenVASappdbsmzdmZiteDeepL/DeepLAnything LLMOP.GGVidJuice UniTubeSeekrSuperbalistKeplrLookrKimigensparkGensparkHuluTeraBoxDeepSeekChatGPTRedline$1$2Outlook ExpressMicrosoft OutlookWindows MailThunderbirdSpicebirdAirmailLotus NotesBarcaPostboxMailBarThe Bat!DAVdroidSeaMonkeyLive5chJaneView/JaneViewBathyScaphe/BathyScapheRaindrop.ioFranzMailspringNotionBasecampEvernoteRambox ProMailbirdYahoo%20MailYahoo MailYahoo! MaileM ClientNAVER MailApple MailFoxmailMail MasterBlueMailMailAppAndroid-GmailGmail"]

end Verif.Data
