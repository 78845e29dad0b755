import Verif.Data.Bytes
/-
Generated by tools/gen_tables.py from device_repo.go. Do not edit.
-/
set_option maxRecDepth 10000
namespace Verif.Data

/-- `__dr_dm`, from item 0 on (device_repo.go:2272-2771). -/
def drDm_0 : List ModelTuple := [
  dm 0 no 0 0xb00000018,
  dm 0x2700000027 no 0x1f00000027 0x2700000030,
  dm 0x2700000027 no 0x3000000038 0x3800000045,
  dm 0x2700000027 no 0x450000004d 0x4d00000064,
  dm 0x2700000027 no 0x640000006c 0x6c0000007b,
  dm 0x2700000027 1 0 0x7b0000008b,
  dm 0x2700000027 3 0 0x99000000a3,
  dm 0x2700000027 5 0 0xa7000000af,
  dm 0x2700000027 no 0xc6000000ca 0xca000000cf,
  dm 0x2700000027 no 0xd4000000e0 0xe0000000e7,
  dm 0x2700000027 7 0 0x2700000027,
  dm 0x2700000027 no 0xed000000fd 0xfd00000100,
  dm 0 no 0 0x10d00000117,
  dm 0 no 0 0x1260000012f,
  dm 0x2700000027 no 0x13c00000149 0x13c00000149,
  dm 0x2700000027 no 0x14900000153 0x14900000153,
  dm 0x2700000027 no 0x1530000015b 0x1530000015b,
  dm 0x2700000027 no 0x15b00000166 0x16600000170,
  dm 0x2700000027 no 0x1380000013c 0x17000000178,
  dm 0 no 0 0x18000000182,
  dm 0 no 0 0x18200000186,
  dm 0x2700000027 0xa 0 0x1940000019b,
  dm 0x2700000027 no 0x19b000001a7 0x1a7000001ac,
  dm 0x2700000027 0xb 0 0x18000000182,
  dm 0 no 0 0x1bc000001c3,
  dm 0x2700000027 no 0x1c7000001d0 0x1c7000001d0,
  dm 0x2700000027 no 0x1d0000001e0 0x1e0000001e6,
  dm 0x2700000027 0xe 0 0x1ea000001f7,
  dm 0x2700000027 no 0x1f700000208 0x20800000219,
  dm 0x2700000027 0xf 0 0x21900000226,
  dm 0x2700000027 0x10 0 0x22600000234,
  dm 0 no 0 0x18000000182,
  dm 0x2700000027 0x13 0 0x24900000255,
  dm 0x2700000027 0x14 0 0x25500000260,
  dm 0x2700000027 0x15 0 0x18000000182,
  dm 0x2700000027 0x16 0 0x18000000182,
  dm 0x2700000027 0x18 0 0x26300000265,
  dm 0x2700000027 0x19 0 0x2650000026c,
  dm 0x2700000027 0x1a 0 0x26c00000272,
  dm 0x2700000027 0x1b 0 0x27200000279,
  dm 0x2700000027 0x1c 0 0x2790000027b,
  dm 0x2700000027 0x1d 0 0x27b00000281,
  dm 0x2700000027 0x1e 0 0x28100000288,
  dm 0x2700000027 0x1f 0 0x2880000028a,
  dm 0x2700000027 0x20 0 0x28a0000028c,
  dm 0x2700000027 0x21 0 0x28c0000028f,
  dm 0x2700000027 0x22 0 0x28f00000292,
  dm 0x2700000027 0x23 0 0x29200000295,
  dm 0x2700000027 0x25 0 0x18000000182,
  dm 0x2700000027 0x26 0 0x29a0000029e,
  dm 0x2a1000002a7 0x28 0 0x2a7000002af,
  dm 0x2700000027 0x2a 0 0x2b1000002bb,
  dm 0x2700000027 0x2b 0 0x2bb000002c5,
  dm 0x2700000027 0x2c 0 0x2c5000002ce,
  dm 0x2700000027 no 0x2ce000002d5 0x2d5000002e1,
  dm 0x2700000027 0x2d 0 0x2e1000002ea,
  dm 0x2700000027 0x2e 0 0x2ea000002f3,
  dm 0x2700000027 0x2f 0 0x2f3000002fe,
  dm 0x2700000027 0x30 0 0x2fe00000308,
  dm 0x2a1000002a7 0x32 0 0x30d00000312,
  dm 0x2a1000002a7 0x33 0 0x3120000031a,
  dm 0x2a1000002a7 0x34 0 0x31a00000323,
  dm 0x2700000027 0x35 0 0x32300000329,
  dm 0x2700000027 0x36 0 0x18000000182,
  dm 0x2700000027 no 0x32900000331 0x33100000339,
  dm 0x2700000027 0x37 0 0x18000000182,
  dm 0 no 0 0x18000000182,
  dm 0 no 0 0x3410000034a,
  dm 0x2700000027 no 0x35200000358 0x35200000358,
  dm 0x2700000027 no 0x3580000035d 0x35d00000362,
  dm 0x2700000027 no 0x36200000369 0x36900000370,
  dm 0x2700000027 no 0x37000000375 0x37000000375,
  dm 0 no 0 0x38700000393,
  dm 0 no 0 0x18000000182,
  dm 0 no 0 0x18000000182,
  dm 0x2700000027 0x3e 0 0x3a9000003b6,
  dm 0x2700000027 no 0x3b6000003be 0x3b6000003be,
  dm 0x2700000027 no 0x3be000003c6 0x3be000003c6,
  dm 0x2700000027 no 0x3c6000003cf 0x3c6000003cf,
  dm 0x2700000027 no 0x3cf000003d7 0x3d7000003dc,
  dm 0x2700000027 no 0x3e0000003e9 0x3e9000003ed,
  dm 0x2700000027 no 0x3ed000003f9 0x3f900000400,
  dm 0x2700000027 0x3f 0 0x40000000404,
  dm 0x2700000027 no 0x40400000411 0x4110000041a,
  dm 0x2700000027 no 0x41a00000422 0x42200000425,
  dm 0x2700000027 no 0x4250000042d 0x42d00000430,
  dm 0x2700000027 no 0x4300000043b 0x43b00000441,
  dm 0x2700000027 0x40 0 0x44100000448,
  dm 0x2700000027 0x41 0 0x18000000182,
  dm 0 no 0 0x44c0000044f,
  dm 0 no 0 0x45d00000464,
  dm 0 no 0 0x18000000182,
  dm 0x2700000027 no 0x46e0000047c 0x47c0000048a,
  dm 0 no 0 0x18000000182,
  dm 0x2a1000002a7 0x47 0 0x496000004a5,
  dm 0x2700000027 0x48 0 0x18000000182,
  dm 0x2700000027 0x49 0 0x4a5000004a7,
  dm 0x2700000027 no 0x4a7000004b0 0x4b0000004b5,
  dm 0x2700000027 0x4a 0 0x4b5000004b7,
  dm 0x2700000027 0x4b 0 0x4b7000004bd,
  dm 0x2a1000002a7 0x4c 0 0x4bd000004c3,
  dm 0x2700000027 0x4d 0 0x18000000182,
  dm 0 no 0 0x18000000182,
  dm 0x2700000027 0x50 0 0x4cc000004d4,
  dm 0x2700000027 no 0x4d4000004dc 0x4dc000004e5,
  dm 0x2700000027 no 0x4e5000004ec 0x4e5000004ec,
  dm 0 no 0 0x4f1000004ff,
  dm 0x2700000027 no 0x50200000509 0x50900000515,
  dm 0x2700000027 no 0x51500000522 0x52200000535,
  dm 0 no 0 0x55200000557,
  dm 0 no 0 0x18000000182,
  dm 0 no 0 0x18000000182,
  dm 0x2700000027 no 0x56300000568 0x56800000570,
  dm 0x2700000027 0x59 0 0x57000000574,
  dm 0x2700000027 no 0x57400000579 0x5790000057f,
  dm 0x2700000027 no 0x57f00000584 0x58400000589,
  dm 0x2700000027 no 0x5890000058e 0x58e00000593,
  dm 0x2700000027 no 0x59300000598 0x5980000059d,
  dm 0x2700000027 no 0x59d000005a2 0x5a2000005a5,
  dm 0x2700000027 no 0x5a5000005aa 0x5aa000005ac,
  dm 0x2700000027 no 0x5ac000005b1 0x5b1000005b3,
  dm 0x2700000027 no 0x5b3000005b8 0x42d00000430,
  dm 0x2700000027 no 0x5b8000005bd 0x3e9000003ed,
  dm 0x2700000027 no 0x5bd000005c2 0x5c2000005c5,
  dm 0x2700000027 no 0x5c5000005ca 0x3a7000003a9,
  dm 0x2700000027 no 0x5ca000005cf 0x5cf000005d1,
  dm 0x2700000027 0x5a 0 0x5d1000005d5,
  dm 0x2700000027 no 0x5dd000005e3 0x5e3000005ea,
  dm 0x2700000027 0x5c 0 0x5ea000005ee,
  dm 0x2700000027 0x5d 0 0x18000000182,
  dm 0x2700000027 no 0x5f6000005fa 0x5f6000005fa,
  dm 0x2700000027 no 0x5fa00000601 0x60100000604,
  dm 0x2700000027 no 0x6040000060b 0x60b00000610,
  dm 0 no 0 0x18000000182,
  dm 0x2a1000002a7 0x61 0 0x18000000182,
  dm 0x2700000027 0x62 0 0x18000000182,
  dm 0 no 0 0x6330000063b,
  dm 0x2700000027 0x65 0 0x18000000182,
  dm 0x2700000027 0x66 0 0x18000000182,
  dm 0x2700000027 0x67 0 0x18000000182,
  dm 0 no 0 0x18000000182,
  dm 0x39a000003a7 0x6a 0 0x64800000655,
  dm 0x39a000003a7 0x6b 0 0x65500000664,
  dm 0x39a000003a7 0x6c 0 0x66400000674,
  dm 0x2700000027 no 0x6740000067c 0x67c00000685,
  dm 0x2700000027 no 0x6850000068b 0x68b00000697,
  dm 0x2700000027 no 0x6970000069d 0x69d000006a8,
  dm 0x2700000027 no 0x6a8000006b0 0x6b0000006be,
  dm 0x2700000027 no 0x6be000006c5 0x6c5000006c9,
  dm 0x2700000027 no 0x6c9000006cf 0x6cf000006d4,
  dm 0x2700000027 no 0x6d4000006da 0x6da000006e1,
  dm 0x2700000027 no 0x6e1000006e7 0x6e7000006f0,
  dm 0x2700000027 no 0x6f0000006f6 0x6f6000006ff,
  dm 0x2700000027 no 0x6ff00000705 0x7050000070e,
  dm 0x2700000027 no 0x70e00000714 0x7140000071b,
  dm 0x2700000027 no 0x71b00000721 0x7210000072c,
  dm 0x2700000027 no 0x72c00000731 0x7310000073d,
  dm 0x2700000027 no 0x73d00000743 0x7430000074c,
  dm 0x2700000027 no 0x74c00000754 0x7540000075e,
  dm 0x2700000027 no 0x75e00000768 0x76800000772,
  dm 0x2700000027 no 0x77200000778 0x77800000782,
  dm 0x2700000027 no 0x78200000788 0x78800000794,
  dm 0x2700000027 no 0x7940000079c 0x79c000007a1,
  dm 0x2700000027 no 0x7a1000007a8 0x7a8000007b1,
  dm 0x2700000027 0x6d 0 0x7b1000007b9,
  dm 0 no 0 0x18000000182,
  dm 0x2700000027 0x70 0 0x7c3000007c8,
  dm 0x2700000027 no 0x7d6000007e1 0x7e1000007ec,
  dm 0x2700000027 no 0x7ec000007fb 0x7fb0000080a,
  dm 0x2700000027 0x72 0 0x18000000182,
  dm 0x2700000027 0x74 0 0x80e00000819,
  dm 0 no 0 0x18000000182,
  dm 0 no 0 0x18000000182,
  dm 0x2700000027 0x78 0 0x8240000082f,
  dm 0x2700000027 0x79 0 0x82f00000837,
  dm 0x2700000027 0x7a 0 0x83700000843,
  dm 0x2700000027 0x7b 0 0x8430000084a,
  dm 0x2700000027 0x7d 0 0x18000000182,
  dm 0x2700000027 0x7e 0 0x18000000182,
  dm 0 no 0 0x18000000182,
  dm 0x2700000027 0x81 0 0x1940000019b,
  dm 0x2700000027 0x82 0 0x18000000182,
  dm 0x2700000027 0x84 0 0x18000000182,
  dm 0x2700000027 no 0x85a00000861 0x86100000869,
  dm 0x2700000027 no 0x86d00000874 0x86d00000874,
  dm 0x2700000027 0x87 0 0x87a0000087e,
  dm 0x2700000027 0x88 0 0x87e00000886,
  dm 0x2700000027 0x89 0 0x88600000897,
  dm 0x2700000027 0x8a 0 0x8970000089f,
  dm 0x2700000027 0x8b 0 0x89f000008ac,
  dm 0x2700000027 0x8c 0 0x8ac000008b7,
  dm 0x2700000027 0x8d 0 0x8b7000008c4,
  dm 0x2700000027 0x8e 0 0x8c4000008d1,
  dm 0x2700000027 0x8f 0 0x8d1000008da,
  dm 0x2700000027 0x90 0 0x8da000008e2,
  dm 0x2a1000002a7 0x91 0 0x8e2000008ea,
  dm 0x2a1000002a7 0x92 0 0x8ea000008f3,
  dm 0x2a1000002a7 0x93 0 0x8f3000008fb,
  dm 0 no 0 0x18000000182,
  dm 0x2700000027 0x96 0 0x90800000915,
  dm 0x2700000027 0x97 0 0x91500000921,
  dm 0x2700000027 0x98 0 0x9210000092e,
  dm 0x2700000027 no 0x92e0000093d 0x93d00000948,
  dm 0x2700000027 0x99 0 0x94800000953,
  dm 0x2700000027 0x9a 0 0x9530000095f,
  dm 0x2700000027 0x9b 0 0x95f0000096b,
  dm 0x2700000027 no 0x96b00000972 0x97200000979,
  dm 0x2700000027 0x9c 0 0x97900000980,
  dm 0x2700000027 0x9d 0 0x98000000989,
  dm 0x2700000027 no 0x98900000994 0x9940000099f,
  dm 0x2700000027 0x9e 0 0x99f000009a7,
  dm 0 no 0 0x18000000182,
  dm 0x2700000027 0xa1 0 0x9b4000009bd,
  dm 0x62600000633 0xa3 0 0x9c1000009c9,
  dm 0x62600000633 0xa4 0 0x9c9000009d0,
  dm 0x62600000633 0xa5 0 0x18000000182,
  dm 0x2a1000002a7 no 0x9d0000009d7 0x9d7000009de,
  dm 0x2a1000002a7 0xa6 0 0x9de000009ec,
  dm 0x2a1000002a7 0xa7 0 0x9ec000009f4,
  dm 0x2a1000002a7 0xa8 0 0x9f4000009fb,
  dm 0x2a1000002a7 0xa9 0 0x9fb00000a04,
  dm 0x2a1000002a7 0xaa 0 0xa0400000a0b,
  dm 0x2a1000002a7 no 0xa0b00000a15 0xa1500000a1e,
  dm 0x2a1000002a7 no 0xa1e00000a24 0xa1e00000a24,
  dm 0x2a1000002a7 0xab 0 0xa2400000a30,
  dm 0x2a1000002a7 0xac 0 0xa3000000a3c,
  dm 0x2a1000002a7 no 0xa3c00000a42 0xa4200000a4b,
  dm 0x2a1000002a7 0xad 0 0xa4b00000a58,
  dm 0x2a1000002a7 no 0xa5800000a61 0xa6100000a6e,
  dm 0x2a1000002a7 0xae 0 0xa6e00000a7b,
  dm 0x2a1000002a7 0xaf 0 0xa7b00000a84,
  dm 0x2a1000002a7 0xb0 0 0xa8400000a91,
  dm 0x2a1000002a7 0xb1 0 0xa9100000a9d,
  dm 0x2a1000002a7 0xb2 0 0xa9d00000aa6,
  dm 0x2a1000002a7 0xb3 0 0xaa600000ab3,
  dm 0x2a1000002a7 0xb4 0 0xab300000abf,
  dm 0x2a1000002a7 0xb5 0 0xabf00000acc,
  dm 0x2a1000002a7 no 0xacc00000ad0 0xad000000ad7,
  dm 0x2a1000002a7 no 0xad700000adb 0xadb00000ae4,
  dm 0x2a1000002a7 0xb6 0 0xae400000aeb,
  dm 0x2a1000002a7 no 0xaeb00000af8 0xaf800000b00,
  dm 0x2a1000002a7 no 0xb0000000b0a 0xb0a00000b0f,
  dm 0x2a1000002a7 no 0xb0f00000b15 0xb1500000b1f,
  dm 0x2a1000002a7 0xb7 0 0x18000000182,
  dm 0x2a1000002a7 no 0xb1f00000b2c 0xb2c00000b34,
  dm 0x2a1000002a7 no 0xb3400000b40 0xb3400000b40,
  dm 0x2a1000002a7 0xb8 0 0xb4000000b50,
  dm 0x2700000027 0xb9 0 0xb5000000b5b,
  dm 0x2700000027 0xba 0 0xb5b00000b66,
  dm 0x2700000027 0xbb 0 0xb6600000b74,
  dm 0x2700000027 0xbc 0 0xb7400000b81,
  dm 0x2700000027 0xbd 0 0xb8100000b8e,
  dm 0x2700000027 0xbe 0 0xb8e00000b97,
  dm 0x2700000027 0xbf 0 0xb9700000ba0,
  dm 0x2700000027 0xc0 0 0xba000000ba9,
  dm 0x2700000027 0xc1 0 0xba900000bb6,
  dm 0x2700000027 0xc2 0 0xbb600000bc3,
  dm 0x2700000027 0xc3 0 0xbc300000bd0,
  dm 0x2700000027 0xc4 0 0xbd000000bdc,
  dm 0x2700000027 0xc5 0 0xbdc00000be6,
  dm 0x2700000027 0xc6 0 0xbe600000bf1,
  dm 0x2700000027 0xc7 0 0xbf100000bfe,
  dm 0x2700000027 0xc8 0 0xbfe00000c0b,
  dm 0x2700000027 0xc9 0 0xbdc00000be6,
  dm 0x2700000027 0xca 0 0xc0b00000c18,
  dm 0x2700000027 0xcb 0 0xc1800000c23,
  dm 0x2700000027 0xcc 0 0xc2300000c2e,
  dm 0x2700000027 0xcd 0 0xc2e00000c3a,
  dm 0x2700000027 0xce 0 0xc3a00000c45,
  dm 0x2700000027 0xcf 0 0xc4500000c53,
  dm 0x2700000027 0xd0 0 0xc5300000c63,
  dm 0x2700000027 0xd1 0 0xc6300000c6e,
  dm 0x2700000027 0xd2 0 0xc6e00000c79,
  dm 0x2700000027 no 0xc7900000c82 0xc8200000c87,
  dm 0x2700000027 0xd3 0 0xc8700000c92,
  dm 0x2700000027 0xd4 0 0xc9200000c9b,
  dm 0xc9b00000ca2 0xd5 0 0x18000000182,
  dm 0xc9b00000ca2 0xd6 0 0xca200000cb4,
  dm 0xc9b00000ca2 0xd7 0 0xcb400000cc1,
  dm 0xc9b00000ca2 0xd8 0 0x18000000182,
  dm 0xc9b00000ca2 0xd9 0 0xcc100000cca,
  dm 0xc9b00000ca2 0xda 0 0x18000000182,
  dm 0x2a1000002a7 0xdb 0 0xcca00000cd8,
  dm 0x2700000027 0xdc 0 0x18000000182,
  dm 0x2700000027 0xdd 0 0x18000000182,
  dm 0x2700000027 0xde 0 0x18000000182,
  dm 0x2700000027 no 0xcde00000ce4 0xce400000cf0,
  dm 0x2700000027 no 0xcf000000cf5 0xcf500000cfa,
  dm 0x2700000027 0xe1 0 0xd0200000d0b,
  dm 0x2700000027 0xe2 0 0xd0b00000d14,
  dm 0x2700000027 0xe4 0 0xd1b00000d28,
  dm 0x2700000027 0xe5 0 0x18000000182,
  dm 0x2700000027 no 0xd2d00000d35 0xd3500000d37,
  dm 0x2700000027 no 0xd3700000d40 0xd4000000d43,
  dm 0x2700000027 no 0xd4300000d46 0xd4600000d50,
  dm 0x2700000027 0xe7 0 0xd5000000d57,
  dm 0x2700000027 0xe8 0 0xd5700000d5a,
  dm 0x2700000027 no 0xd5a00000d5d 0xd5d00000d60,
  dm 0x2700000027 0xe9 0 0xd6000000d69,
  dm 0x2700000027 0xea 0 0xd6900000d71,
  dm 0x2700000027 0xeb 0 0xd7100000d75,
  dm 0x2700000027 0xec 0 0xd7500000d77,
  dm 0x2700000027 0xed 0 0xd7700000d7f,
  dm 0x2700000027 0xee 0 0xd7f00000d85,
  dm 0x2700000027 0xef 0 0xd8500000d8b,
  dm 0x2700000027 0xf0 0 0xd8b00000d91,
  dm 0x2700000027 0xf1 0 0x18000000182,
  dm 0x2a1000002a7 0xf2 0 0xd9100000d97,
  dm 0x2a1000002a7 no 0xd9700000d9e 0xd9700000d9e,
  dm 0x2a1000002a7 0xf3 0 0x18000000182,
  dm 0x2a1000002a7 0xf4 0 0xd9e00000da6,
  dm 0x2a1000002a7 0xf6 0 0xdad00000db2,
  dm 0x2a1000002a7 no 0xdb200000db8 0xdb200000db8,
  dm 0x2a1000002a7 0xf7 0 0xdb800000dc5,
  dm 0x2a1000002a7 0xf8 0 0xdc500000dcf,
  dm 0x2700000027 0xf9 0 0xdcf00000ddd,
  dm 0x2700000027 0xfa 0 0xddd00000de9,
  dm 0 no 0 0x18000000182,
  dm 0x2700000027 0xfd 0 0xe0400000e0c,
  dm 0x2700000027 0xfe 0 0xe0c00000e12,
  dm 0x23f00000249 0xff 0 0xe1200000e1c,
  dm 0x23f00000249 0x100 0 0xe1c00000e28,
  dm 0 no 0 0xe3400000e3c,
  dm 0x2700000027 no 0xe4100000e4c 0xe4c00000e5e,
  dm 0x2700000027 0x102 0 0xe5e00000e6b,
  dm 0x2700000027 no 0xe6b00000e77 0xe7700000e84,
  dm 0x2700000027 no 0xe8400000e8b 0xe8b00000e98,
  dm 0x2700000027 no 0xe9800000ea3 0xea300000eb1,
  dm 0x2700000027 no 0xeb100000ebc 0xebc00000ec9,
  dm 0x2700000027 no 0xec900000ed4 0xed400000ee3,
  dm 0x2700000027 0x103 0 0xee300000eee,
  dm 0x2700000027 0x104 0 0xeee00000efa,
  dm 0x2700000027 0x105 0 0x18000000182,
  dm 0x2700000027 no 0xefa00000f06 0xf0600000f15,
  dm 0x2700000027 no 0xf1500000f1f 0xf1f00000f2b,
  dm 0x2700000027 no 0xf2b00000f34 0xf3400000f44,
  dm 0x2700000027 no 0xf4400000f4d 0xf4d00000f58,
  dm 0x2700000027 0x106 0 0xf5800000f64,
  dm 0x2700000027 0x107 0 0xf6400000f6e,
  dm 0x2700000027 0x108 0 0xf6e00000f74,
  dm 0x2700000027 0x109 0 0xf7400000f7b,
  dm 0x2700000027 0x10a 0 0xf7b00000f85,
  dm 0x2700000027 no 0xfa100000fb0 0xfb000000fbf,
  dm 0x2700000027 0x10c 0 0xfc400000fca,
  dm 0x2a1000002a7 no 0xfca00000fd6 0xfca00000fd6,
  dm 0 no 0 0x18000000182,
  dm 0x2700000027 0x10f 0 0xfe300000fed,
  dm 0x2a1000002a7 no 0xff300000ffd 0xffd00001006,
  dm 0x2700000027 0x111 0 0x10060000100d,
  dm 0x2700000027 no 0x100d00001016 0x10160000101f,
  dm 0 no 0 0x18000000182,
  dm 0x2700000027 0x114 0 0x10280000102d,
  dm 0x2700000027 no 0x102d00001034 0x10340000103b,
  dm 0x2700000027 0x115 0 0x103b00001040,
  dm 0x2700000027 0x116 0 0x104000001045,
  dm 0x2700000027 0x117 0 0x18000000182,
  dm 0xdfd00000e04 0x118 0 0x104500001049,
  dm 0x23b0000023d 0x119 0 0x18000000182,
  dm 0x2700000027 no 0x104900001056 0x105600001063,
  dm 0x2700000027 no 0x106c00001073 0x107300001075,
  dm 0x2700000027 no 0x10750000107c 0x107c0000107e,
  dm 0x2700000027 no 0x107e00001086 0x108600001089,
  dm 0x2a1000002a7 0x11b 0 0x108d00001093,
  dm 0x2a1000002a7 no 0x10930000109d 0x10930000109d,
  dm 0x2a1000002a7 0x11c 0 0x18000000182,
  dm 0x2700000027 0x11d 0 0x109d000010ac,
  dm 0x2700000027 0x11e 0 0x10ac000010bd,
  dm 0x2700000027 no 0x10bd000010c3 0x10c3000010cf,
  dm 0x2700000027 no 0x10cf000010db 0x10cf000010db,
  dm 0x2700000027 0x11f 0 0x10db000010e3,
  dm 0x2700000027 0x120 0 0x10e3000010e9,
  dm 0x23b0000023d 0x121 0 0x10e9000010f6,
  dm 0x2700000027 0x122 0 0x18000000182,
  dm 0x23b0000023d 0x123 0 0x18000000182,
  dm 0x23b0000023d 0x124 0 0x18000000182,
  dm 0x23b0000023d no 0x10f600001100 0x2700000027,
  dm 0x2700000027 no 0x11040000110b 0x110b0000110e,
  dm 0x2700000027 0x126 0 0x18000000182,
  dm 0x2a1000002a7 no 0x110e00001117 0x111700001120,
  dm 0x2a1000002a7 0x127 0 0x18000000182,
  dm 0x39a000003a7 no 0x11270000112c 0x112c00001130,
  dm 0x39a000003a7 0x129 0 0x113000001139,
  dm 0x39a000003a7 0x12a 0 0x113900001142,
  dm 0x39a000003a7 0x12b 0 0x11420000114b,
  dm 0x39a000003a7 0x12c 0 0x114b00001154,
  dm 0x39a000003a7 no 0x11540000115a 0x115a00001160,
  dm 0x39a000003a7 no 0x116000001166 0x11660000116e,
  dm 0x39a000003a7 0x12d 0 0x116e00001178,
  dm 0x39a000003a7 0x12e 0 0x117800001188,
  dm 0x2700000027 no 0x11880000118d 0x118d00001196,
  dm 0x2700000027 0x12f 0 0x1196000011a8,
  dm 0x2700000027 no 0x11a8000011ad 0x11ad000011bd,
  dm 0x2700000027 0x130 0 0x11bd000011cd,
  dm 0x2700000027 0x131 0 0x11cd000011e6,
  dm 0x2700000027 0x132 0 0x11e6000011f6,
  dm 0x2700000027 0x133 0 0x11f60000120f,
  dm 0x2700000027 no 0x120f00001214 0x12140000122d,
  dm 0x2700000027 0x134 0 0x122d0000123d,
  dm 0x2700000027 0x135 0 0x123d00001256,
  dm 0x2700000027 0x136 0 0x125600001266,
  dm 0x2700000027 0x137 0 0x126600001276,
  dm 0x2700000027 0x138 0 0x127600001286,
  dm 0x2700000027 0x139 0 0x128600001298,
  dm 0x2700000027 0x13a 0 0x1298000012b3,
  dm 0x2700000027 0x13b 0 0x12b3000012c7,
  dm 0x2700000027 0x13c 0 0x12c7000012e4,
  dm 0x2700000027 0x13d 0 0x12e4000012f6,
  dm 0x2700000027 0x13e 0 0x12f600001311,
  dm 0x2700000027 0x13f 0 0x131100001320,
  dm 0x2700000027 0x140 0 0x132000001332,
  dm 0x2700000027 0x141 0 0x133200001346,
  dm 0x2700000027 no 0x13460000134b 0x134b00001363,
  dm 0x2700000027 0x142 0 0x136300001372,
  dm 0x2700000027 no 0x137200001377 0x13770000138f,
  dm 0x2700000027 0x143 0 0x138f0000139f,
  dm 0x2700000027 0x144 0 0x139f000013af,
  dm 0x2700000027 no 0x13af000013b4 0x13b4000013c6,
  dm 0x2700000027 no 0x13c6000013cb 0x13cb000013df,
  dm 0x2700000027 0x145 0 0x13df000013ef,
  dm 0x2700000027 no 0x13ef000013f4 0x13f400001404,
  dm 0x2700000027 0x146 0 0x140400001414,
  dm 0x2700000027 no 0x141400001419 0x141900001428,
  dm 0x2700000027 no 0x142800001432 0x143200001442,
  dm 0x2700000027 no 0x144200001447 0x144700001455,
  dm 0x2700000027 0x147 0 0x14550000145a,
  dm 0x2700000027 0x148 0 0x145a00001463,
  dm 0x2700000027 0x149 0 0x14630000146c,
  dm 0x2700000027 0x14a 0 0x146c00001470,
  dm 0x2700000027 0x14b 0 0x147000001475,
  dm 0x2700000027 no 0x14750000147a 0x147a0000147c,
  dm 0x2700000027 no 0x147c00001481 0x14810000148a,
  dm 0x2700000027 no 0x148a0000148f 0x148f00001496,
  dm 0x2700000027 no 0x14960000149b 0x149b000014a1,
  dm 0x2700000027 0x14c 0 0x14a1000014a3,
  dm 0x2700000027 no 0x14a3000014a9 0x14a9000014b4,
  dm 0x2700000027 0x14d 0 0x14b4000014c6,
  dm 0x2700000027 0x14e 0 0x14c6000014d8,
  dm 0x2700000027 no 0x14d8000014dd 0x14dd000014f0,
  dm 0x2700000027 no 0x14f0000014f5 0x14f500001504,
  dm 0x2700000027 0x14f 0 0x150400001519,
  dm 0x2700000027 0x150 0 0x151900001537,
  dm 0x2700000027 0x151 0 0x15370000154e,
  dm 0x2700000027 0x152 0 0x154e0000155f,
  dm 0x2700000027 0x153 0 0x155f0000156f,
  dm 0x2700000027 0x154 0 0x156f00001584,
  dm 0x2700000027 0x155 0 0x158400001594,
  dm 0x2700000027 no 0x159400001599 0x1599000015aa,
  dm 0x2700000027 0x156 0 0x15aa000015ba,
  dm 0x2700000027 0x157 0 0x15ba000015cb,
  dm 0x2700000027 0x158 0 0x15aa000015ba,
  dm 0x2700000027 0x159 0 0x15cb000015dc,
  dm 0x2700000027 no 0x15dc000015e1 0x15e1000015f1,
  dm 0x2700000027 no 0x15f1000015f6 0x15f600001607,
  dm 0x2700000027 no 0x16070000160c 0x160c00001618,
  dm 0x2700000027 no 0x16180000161d 0x161d00001620,
  dm 0x2700000027 no 0x162000001626 0x16260000162b,
  dm 0x2700000027 no 0x162b00001631 0x163100001634,
  dm 0x2700000027 no 0x16340000163a 0x163a00001644,
  dm 0x2700000027 no 0x164400001649 0x164900001660,
  dm 0x2700000027 no 0x166000001666 0x16660000167e,
  dm 0x2700000027 no 0x167e00001684 0x16840000169f,
  dm 0x2700000027 0x15a 0 0x169f000016b3,
  dm 0x2700000027 no 0x16b3000016b9 0x16b9000016cd,
  dm 0x2700000027 no 0x16cd000016d3 0x16d3000016e7,
  dm 0x2700000027 no 0x16e7000016ec 0x16ec000016fc,
  dm 0x2700000027 0x15b 0 0x16fc00001711,
  dm 0x2700000027 0x15c 0 0x17110000172f,
  dm 0x2700000027 0x15d 0 0x172f00001742,
  dm 0x2700000027 0x15e 0 0x174200001757,
  dm 0x2700000027 0x15f 0 0x17570000176f,
  dm 0xdfd00000e04 no 0x176f00001774 0x177400001787,
  dm 0x2a1000002a7 no 0x17870000178c 0x177400001787,
  dm 0x2a1000002a7 0x160 0 0x178c000017a2,
  dm 0x2a1000002a7 0x161 0 0x17a2000017a4,
  dm 0x2a1000002a7 0x162 0 0x17a4000017a9,
  dm 0x2a1000002a7 0x163 0 0x17a9000017b4,
  dm 0x2a1000002a7 0x164 0 0x17b4000017be,
  dm 0x2a1000002a7 0x165 0 0x17be000017c7,
  dm 0x2a1000002a7 0x166 0 0x17c7000017d8,
  dm 0x2a1000002a7 0x167 0 0x17d8000017f0,
  dm 0x2a1000002a7 no 0x17f0000017f5 0x17f5000017f9,
  dm 0x2a1000002a7 no 0x17f9000017fe 0x17fe00001806,
  dm 0x2a1000002a7 no 0x18060000180b 0x180b00001817,
  dm 0x2a1000002a7 0x168 0 0x18170000181e,
  dm 0xdfd00000e04 no 0x181e00001823 0x182300001836,
  dm 0x2a1000002a7 no 0x18360000183b 0x183b0000184f,
  dm 0x2700000027 0x169 0 0x184f00001864,
  dm 0x2700000027 0x16a 0 0x186400001877,
  dm 0x2700000027 0x16b 0 0x18770000188c,
  dm 0x2700000027 0x16c 0 0x188c000018a7,
  dm 0x2700000027 0x16d 0 0x18a7000018bd,
  dm 0x2700000027 no 0x18bd000018c2 0x18c2000018d7,
  dm 0x2700000027 0x16e 0 0x18d7000018ef,
  dm 0x2700000027 0x16f 0 0x18ef00001905,
  dm 0x2700000027 no 0x19050000190a 0x190a00001920,
  dm 0x2700000027 no 0x192000001926 0x3a7000003a9,
  dm 0x2700000027 no 0x19260000192c 0x192c0000192f,
  dm 0x2700000027 0x170 0 0x192f00001933,
  dm 0x2700000027 0x171 0 0x193300001935,
  dm 0x2700000027 0x172 0 0x19350000193c]

/-- `__dr_dm`, from item 500 on (device_repo.go:2772-3271). -/
def drDm_1 : List ModelTuple := [
  dm 0x2700000027 0x173 0 0x193c00001941,
  dm 0x2a1000002a7 no 0x194100001946 0x19460000194e,
  dm 0x2a1000002a7 0x174 0 0x194e00001955,
  dm 0x2a1000002a7 no 0x19550000195a 0x195a00001960,
  dm 0x2700000027 0x175 0 0x196000001962,
  dm 0x2700000027 0x176 0 0x196200001968,
  dm 0x2700000027 no 0x19680000196d 0x196d00001977,
  dm 0x2700000027 0x177 0 0x197700001979,
  dm 0x2700000027 0x178 0 0x19790000197c,
  dm 0x2700000027 no 0x197c00001981 0x198100001989,
  dm 0x2700000027 no 0x19890000198e 0x198e00001998,
  dm 0x2700000027 0x179 0 0x19980000199b,
  dm 0x2700000027 0x17a 0 0x199b000019a4,
  dm 0x2700000027 no 0x19a4000019a9 0x19a9000019ae,
  dm 0x2a1000002a7 no 0x19ae000019b3 0x19b3000019c9,
  dm 0x2700000027 0x17b 0 0x19c9000019df,
  dm 0x2700000027 0x17c 0 0x19df000019fe,
  dm 0x2700000027 0x17d 0 0x19fe00001a14,
  dm 0x2a1000002a7 0x17e 0 0x1a1400001a2a,
  dm 0x2a1000002a7 no 0x1a2a00001a2f 0x1a2f00001a45,
  dm 0x2a1000002a7 no 0x1a4500001a49 0x1a4900001a61,
  dm 0x2a1000002a7 0x17f 0 0x1a6100001a71,
  dm 0x2a1000002a7 0x180 0 0x1a7100001a81,
  dm 0x2a1000002a7 no 0x1a8100001a85 0x1a7100001a81,
  dm 0x2a1000002a7 no 0x1a8500001a8a 0x1a8a00001a9a,
  dm 0x2a1000002a7 no 0x1a9a00001a9f 0x1a9f00001ab4,
  dm 0x2a1000002a7 no 0x1ab400001ab9 0x1ab900001ac8,
  dm 0x2a1000002a7 no 0x1ac800001acd 0x1acd00001adc,
  dm 0x2a1000002a7 no 0x1adc00001ae1 0x1ae100001af1,
  dm 0x2a1000002a7 no 0x1af100001af6 0x1af600001b07,
  dm 0x2700000027 0x181 0 0x1b0700001b18,
  dm 0x2700000027 0x182 0 0x1b1800001b1c,
  dm 0x2700000027 no 0x1b1c00001b32 0x1b3200001b38,
  dm 0x2700000027 0x183 0 0x1b3800001b47,
  dm 0x2700000027 no 0x1b4700001b5c 0x1b5c00001b69,
  dm 0x2700000027 no 0x1b6900001b7e 0x1b7e00001b8b,
  dm 0x2700000027 no 0x1b8b00001ba1 0x1ba100001baf,
  dm 0x2700000027 no 0x1baf00001bc4 0x1bc400001bd1,
  dm 0x2700000027 no 0x1bd100001bd7 0x1bd700001be5,
  dm 0x2700000027 no 0x1be500001bea 0x1bea00001bfa,
  dm 0x2a1000002a7 0x184 0 0x1bfa00001c06,
  dm 0x2700000027 0x185 0 0x1c0600001c11,
  dm 0x2700000027 0x186 0 0x1c0600001c11,
  dm 0x2700000027 0x187 0 0x1c1100001c1b,
  dm 0x2700000027 no 0x1c1b00001c20 0x1c2000001c26,
  dm 0x2700000027 no 0x1c2600001c2b 0x1c2b00001c33,
  dm 0x2700000027 0x188 0 0x1c3300001c35,
  dm 0x2700000027 0x189 0 0x1c3500001c37,
  dm 0x2700000027 0x18a 0 0x1c3700001c3c,
  dm 0x2700000027 0x18b 0 0x1c3c00001c41,
  dm 0x2700000027 no 0x1c4100001c46 0x1c4600001c4d,
  dm 0x2700000027 no 0x1c4d00001c52 0x1c5200001c59,
  dm 0x2700000027 0x18c 0 0x116e00001178,
  dm 0x2700000027 no 0x1c5900001c5e 0x1c5e00001c6d,
  dm 0x2700000027 0x18d 0 0x1c6d00001c74,
  dm 0x2700000027 0x18e 0 0x1c7400001c77,
  dm 0x2700000027 0x18f 0 0x1c7700001c7f,
  dm 0x2700000027 0x190 0 0x1c7f00001c86,
  dm 0x2700000027 0x191 0 0x1c8600001c87,
  dm 0x2700000027 0x192 0 0x1c8700001c89,
  dm 0x2700000027 0x193 0 0x1c8900001c92,
  dm 0x2700000027 0x194 0 0x1c9200001c9b,
  dm 0x2700000027 0x195 0 0x1c9b00001ca4,
  dm 0x2700000027 0x196 0 0x1ca400001cad,
  dm 0x2700000027 no 0x1cad00001cb2 0x1cb200001cbb,
  dm 0x2700000027 0x197 0 0x1cbb00001cc4,
  dm 0x2700000027 0x198 0 0x1cc400001cc6,
  dm 0x2700000027 0x199 0 0x1cc600001ccf,
  dm 0x2700000027 no 0x1ccf00001cd4 0x1cd400001cde,
  dm 0x2700000027 0x19a 0 0x1cde00001ce8,
  dm 0x2700000027 0x19b 0 0x1ce800001cea,
  dm 0x2700000027 0x19c 0 0x1cea00001cec,
  dm 0x2700000027 no 0x1cec00001cf1 0x1cf100001cf9,
  dm 0xdfd00000e04 0x19d 0 0x1cf900001cfb,
  dm 0x2700000027 0x19e 0 0x1cfb00001cfc,
  dm 0x2700000027 no 0x1cfc00001d01 0x1d0100001d09,
  dm 0x2700000027 0x19f 0 0x1d0900001d12,
  dm 0x2700000027 0x1a0 0 0x1d1200001d14,
  dm 0x2700000027 0x1a1 0 0x1d1400001d16,
  dm 0x2700000027 no 0x1d1600001d1b 0x1d1b00001d22,
  dm 0xdfd00000e04 0x1a2 0 0x14a1000014a3,
  dm 0x2700000027 0x1a3 0 0x1d2200001d24,
  dm 0x2700000027 0x1a4 0 0x1d2400001d2d,
  dm 0x2700000027 0x1a5 0 0x1d2d00001d2e,
  dm 0x2700000027 no 0x1d2e00001d33 0x1d3300001d3a,
  dm 0x2700000027 no 0x1d3a00001d3f 0x1d3f00001d40,
  dm 0x2a1000002a7 0x1a6 0 0x1d4000001d46,
  dm 0x2a1000002a7 0x1a7 0 0x1d4600001d4e,
  dm 0x2a1000002a7 0x1a8 0 0x1d4e00001d55,
  dm 0x2a1000002a7 0x1a9 0 0x1d5500001d5e,
  dm 0x2700000027 no 0x1d5e00001d68 0x2700000027,
  dm 0x2700000027 0x1aa 0 0x1d6800001d75,
  dm 0x2700000027 no 0x1d7500001d7a 0x1d7a00001d7f,
  dm 0x2700000027 0x1ab 0 0x18000000182,
  dm 0x2700000027 0x1ac 0 0x18000000182,
  dm 0x2700000027 0x1ad 0 0x18000000182,
  dm 0x2700000027 0x1ae 0 0x18000000182,
  dm 0 no 0 0x18000000182,
  dm 0x2700000027 0x1b1 0 0x18000000182,
  dm 0x2700000027 0x1b2 0 0x1d8c00001d93,
  dm 0x2700000027 0x1b3 0 0x18000000182,
  dm 0x2700000027 no 0x1d9b00001da0 0x1da000001dad,
  dm 0x2700000027 0x1b5 0 0x18000000182,
  dm 0 no 0 0x18000000182,
  dm 0x2700000027 no 0x1dbc00001dc5 0x1dc500001dce,
  dm 0x2700000027 no 0x1dce00001dda 0x1dda00001de6,
  dm 0x2700000027 no 0x1de600001dee 0x1dee00001df6,
  dm 0x2700000027 no 0x1df600001e01 0x1e0100001e0c,
  dm 0x2700000027 no 0x1e0c00001e13 0x1e1300001e1a,
  dm 0x2700000027 0x1b8 0 0x18000000182,
  dm 0x2700000027 no 0x1e1a00001e26 0x1e2600001e2a,
  dm 0x2700000027 no 0x1e2a00001e34 0x1e3400001e36,
  dm 0x2700000027 no 0x1e3600001e43 0x1e4300001e48,
  dm 0x2700000027 no 0x1e4800001e57 0x1e5700001e5e,
  dm 0x2700000027 no 0x1e5e00001e69 0x1e6900001e6c,
  dm 0x2700000027 0x1b9 0 0x1e6c00001e73,
  dm 0x2700000027 0x1ba 0 0x1e7300001e78,
  dm 0x2700000027 0x1bb 0 0x18000000182,
  dm 0x2700000027 0x1bc 0 0x1e7800001e7e,
  dm 0x2700000027 0x1be 0 0x1e8700001e8e,
  dm 0x2700000027 0x1bf 0 0x1e8e00001e9a,
  dm 0x2700000027 0x1c0 0 0x1e9a00001e9e,
  dm 0x2700000027 0x1c1 0 0x1e9e00001ea2,
  dm 0x2700000027 0x1c2 0 0x1ea200001ea5,
  dm 0x2700000027 0x1c3 0 0x1ea500001ea7,
  dm 0x2700000027 0x1c4 0 0x1ea700001eaa,
  dm 0x2700000027 0x1c5 0 0x1eaa00001eb2,
  dm 0x2700000027 0x1c6 0 0x1eb200001eba,
  dm 0x2700000027 0x1c7 0 0x1eba00001ecc,
  dm 0x2700000027 0x1c8 0 0x1ecc00001ecd,
  dm 0x2700000027 0x1c9 0 0x1ecd00001ed8,
  dm 0x2700000027 no 0x1ed800001edd 0x1edd00001ee9,
  dm 0x2700000027 no 0x1ee900001efb 0x1efb00001f0e,
  dm 0x2700000027 0x1ca 0 0x1f0e00001f1b,
  dm 0x2700000027 0x1cb 0 0x1f1b00001f2c,
  dm 0x2700000027 0x1cc 0 0x1f2c00001f38,
  dm 0x2700000027 no 0x1f3800001f44 0x1f4400001f51,
  dm 0x2700000027 0x1cd 0 0x1f5100001f59,
  dm 0x2700000027 0x1ce 0 0x1f5900001f5f,
  dm 0x2700000027 0x1cf 0 0x1eaa00001eb2,
  dm 0x2700000027 no 0x1f6600001f6b 0x1f6b00001f71,
  dm 0x2a1000002a7 no 0x1f7100001f7b 0x1f7b00001f85,
  dm 0x2a1000002a7 no 0x1f8500001f8d 0x1f8d00001f97,
  dm 0x2700000027 no 0x1f9700001f9d 0x1f9d00001fa3,
  dm 0x2700000027 0x1d1 0 0x1fa300001fad,
  dm 0x2700000027 0x1d2 0 0x1fad00001fb5,
  dm 0x2700000027 no 0x1fb500001fbc 0x1fbc00001fc3,
  dm 0x2700000027 no 0x1fc300001fca 0x1fca00001fd1,
  dm 0x2700000027 no 0x1fd100001fdb 0x1fdb00001fe5,
  dm 0x2700000027 no 0x1fe500001fed 0x1fed00001ff5,
  dm 0x2700000027 0x1d3 0 0x1ff500001fff,
  dm 0x2700000027 0x1d4 0 0x1fff00002007,
  dm 0x2700000027 no 0x20070000200e 0x200e00002015,
  dm 0x2700000027 no 0x20150000201c 0x201c00002023,
  dm 0x2700000027 0x1d5 0 0x20230000202a,
  dm 0x2700000027 no 0x202a00002031 0x203100002038,
  dm 0x2700000027 no 0x20380000204b 0x204b00002060,
  dm 0x2700000027 no 0x20600000206b 0x206b00002076,
  dm 0x2700000027 0x1d6 0 0x207600002085,
  dm 0x2700000027 no 0x208500002092 0x20920000209f,
  dm 0x2700000027 0x1d7 0 0x209f000020ae,
  dm 0x2700000027 0x1d8 0 0x20ae000020b8,
  dm 0x2700000027 no 0x20b8000020bf 0x20bf000020c6,
  dm 0x2700000027 no 0x20c6000020cf 0x20cf000020d8,
  dm 0x2700000027 0x1d9 0 0x20d8000020e0,
  dm 0x2700000027 no 0x20e0000020e8 0x20e8000020f0,
  dm 0x2700000027 no 0x20f0000020f7 0x20f7000020fe,
  dm 0x2700000027 no 0x20fe00002107 0x210700002110,
  dm 0x2700000027 0x1da 0 0x21100000211e,
  dm 0x2700000027 no 0x211e00002128 0x212800002132,
  dm 0x2700000027 no 0x21320000213e 0x213e0000214a,
  dm 0x2700000027 no 0x214a00002159 0x215900002168,
  dm 0x2700000027 0x1db 0 0x216800002173,
  dm 0x2700000027 no 0x217300002181 0x21810000218f,
  dm 0x2700000027 no 0x218f0000219c 0x219c000021a9,
  dm 0x2700000027 no 0x21a9000021b4 0x21b4000021bf,
  dm 0x2700000027 0x1dc 0 0x21bf000021ce,
  dm 0x2700000027 0x1dd 0 0x21ce000021e1,
  dm 0x2700000027 0x1de 0 0x21e1000021f6,
  dm 0x2700000027 0x1df 0 0x21f600002203,
  dm 0x2700000027 0x1e0 0 0x220300002211,
  dm 0x2700000027 0x1e1 0 0x22110000221e,
  dm 0x2700000027 no 0x221e0000222a 0x222a00002236,
  dm 0x2700000027 0x1e2 0 0x223600002242,
  dm 0x2700000027 no 0x224200002254 0x225400002266,
  dm 0x2700000027 0x1e3 0 0x226600002274,
  dm 0x2700000027 0x1e4 0 0x22740000227c,
  dm 0x2700000027 0x1e5 0 0x227c00002285,
  dm 0x2700000027 no 0x22850000228c 0x228c00002293,
  dm 0x2700000027 0x1e6 0 0x22930000229a,
  dm 0x2700000027 0x1e7 0 0x229a000022a2,
  dm 0x2700000027 0x1e8 0 0x22a2000022aa,
  dm 0x2700000027 no 0x22aa000022b2 0x22b2000022bb,
  dm 0x2700000027 no 0x22bb000022ca 0x22ca000022d6,
  dm 0x2700000027 no 0x22d6000022dd 0x22dd000022e4,
  dm 0x2700000027 no 0x22e4000022ea 0x22ea000022f0,
  dm 0x2700000027 no 0x22f0000022fd 0x22fd0000230c,
  dm 0x2700000027 no 0x230c00002318 0x231800002320,
  dm 0x2700000027 0x1e9 0 0x232000002328,
  dm 0x2700000027 no 0x23280000232f 0x232f00002336,
  dm 0x2700000027 no 0x23360000233e 0x23360000233e,
  dm 0x2700000027 no 0x233e00002349 0x234900002352,
  dm 0x2700000027 no 0x23520000235c 0x235c00002362,
  dm 0x2a1000002a7 0x1ea 0 0x236200002369,
  dm 0x23b0000023d no 0x236900002372 0x23720000237b,
  dm 0x2a1000002a7 no 0x237b0000238a 0x238a00002393,
  dm 0x2a1000002a7 no 0x23930000239e 0x239e000023a2,
  dm 0x2a1000002a7 no 0x23a2000023b2 0x1f7b00001f85,
  dm 0x2a1000002a7 no 0x23b2000023c2 0x23c2000023d4,
  dm 0x2a1000002a7 no 0x23d4000023e5 0x23e5000023f8,
  dm 0x2a1000002a7 0x1eb 0 0x23f80000240d,
  dm 0x2a1000002a7 no 0x240d0000241a 0x241a0000242c,
  dm 0x2a1000002a7 no 0x242c0000243b 0x243b0000244a,
  dm 0x2a1000002a7 no 0x244a00002453 0x245300002461,
  dm 0x2a1000002a7 0x1ec 0 0x24610000246d,
  dm 0x2a1000002a7 0x1ed 0 0x236200002369,
  dm 0x2a1000002a7 0x1ee 0 0x246d00002474,
  dm 0x2a1000002a7 0x1ef 0 0x247400002479,
  dm 0x2a1000002a7 no 0x247900002485 0x247400002479,
  dm 0x2a1000002a7 0x1f0 0 0x248500002492,
  dm 0x2a1000002a7 no 0x249200002499 0x2499000024a1,
  dm 0x2a1000002a7 no 0x24a1000024b3 0x24b3000024bd,
  dm 0x2a1000002a7 0x1f1 0 0x24bd000024c1,
  dm 0x2700000027 0x1f2 0 0x18000000182,
  dm 0x2700000027 0x1f3 0 0x18000000182,
  dm 0x2700000027 no 0x24ca000024da 0x24da000024ea,
  dm 0x2700000027 no 0x24ea000024fa 0x24fa0000250a,
  dm 0x2700000027 no 0x250a00002510 0x250a00002510,
  dm 0x8e00000099 no 0x25100000251c 0x251c00002529,
  dm 0x8e00000099 no 0x25290000253c 0x253c0000254f,
  dm 0x8e00000099 0x1f5 0 0x254f0000255f,
  dm 0x8e00000099 0x1f6 0 0x255f0000256f,
  dm 0x8e00000099 no 0x256f0000257b 0x256f0000257b,
  dm 0x8e00000099 no 0x257b0000258a 0x257b0000258a,
  dm 0x8e00000099 no 0x258a00002596 0x2596000025a3,
  dm 0x8e00000099 0x1f8 0 0x18000000182,
  dm 0x8e00000099 0x1f9 0 0x18000000182,
  dm 0 no 0 0xe3400000e3c,
  dm 0x2700000027 0x1fb 0 0x18000000182,
  dm 0x2700000027 0x1fc 0 0x18000000182,
  dm 0x23b0000023d 0x1ff 0 0x25bf000025d3,
  dm 0x23b0000023d 0x200 0 0x25d3000025e7,
  dm 0x23b0000023d 0x201 0 0x25e7000025fb,
  dm 0x23b0000023d 0x202 0 0x25fb0000260a,
  dm 0x23b0000023d 0x203 0 0x260a00002621,
  dm 0x23b0000023d 0x204 0 0x262100002638,
  dm 0x23b0000023d 0x205 0 0x26380000264f,
  dm 0x23b0000023d 0x206 0 0x264f00002662,
  dm 0x23b0000023d 0x207 0 0x266200002673,
  dm 0x23b0000023d 0x208 0 0x267300002689,
  dm 0x23b0000023d 0x209 0 0x26890000269a,
  dm 0x23b0000023d 0x20a 0 0x269a000026a9,
  dm 0x23b0000023d 0x20b 0 0x26a9000026be,
  dm 0x23b0000023d 0x20c 0 0x26be000026d8,
  dm 0x23b0000023d 0x20d 0 0x26d8000026f0,
  dm 0x23b0000023d 0x20e 0 0x26f000002708,
  dm 0x23b0000023d 0x20f 0 0x270800002715,
  dm 0x23b0000023d 0x210 0 0x271500002725,
  dm 0x23b0000023d 0x211 0 0x27250000273c,
  dm 0x23b0000023d 0x212 0 0x273c00002750,
  dm 0x23b0000023d 0x213 0 0x27500000276b,
  dm 0x2700000027 0x214 0 0x276b00002772,
  dm 0x2700000027 0x215 0 0x277200002780,
  dm 0x2700000027 0x216 0 0x27800000278e,
  dm 0x2700000027 0x217 0 0x278e000027a6,
  dm 0x2700000027 0x218 0 0x27a6000027bc,
  dm 0x2700000027 0x219 0 0x27bc000027d2,
  dm 0x2700000027 0x21a 0 0x27d2000027e9,
  dm 0x2700000027 0x21b 0 0x27e9000027fe,
  dm 0x2700000027 0x21c 0 0x27fe00002817,
  dm 0x2700000027 0x21d 0 0x28170000282e,
  dm 0x2700000027 0x21e 0 0x282e00002839,
  dm 0x2700000027 0x21f 0 0x283900002842,
  dm 0x2700000027 0x220 0 0x28420000284b,
  dm 0x2700000027 0x221 0 0x284b00002858,
  dm 0x2700000027 0x222 0 0x285800002868,
  dm 0x2700000027 0x223 0 0x286800002878,
  dm 0x2700000027 0x224 0 0x287800002888,
  dm 0x2700000027 0x225 0 0x288800002898,
  dm 0x2700000027 0x226 0 0x2898000028a8,
  dm 0x2700000027 0x227 0 0x28a8000028b8,
  dm 0x2700000027 0x228 0 0x28b8000028c8,
  dm 0x2700000027 0x229 0 0x28c8000028d4,
  dm 0x2700000027 0x22a 0 0x28d4000028e3,
  dm 0x2700000027 0x22b 0 0x28e3000028ed,
  dm 0x2700000027 0x22c 0 0x28ed000028fe,
  dm 0x2700000027 0x22d 0 0x28fe0000290f,
  dm 0x2700000027 0x22e 0 0x290f00002920,
  dm 0x2700000027 0x22f 0 0x292000002931,
  dm 0x2700000027 0x230 0 0x293100002947,
  dm 0x23f00000249 no 0x29470000294f 0x294f00002959,
  dm 0x2700000027 0x231 0 0x295900002964,
  dm 0x2700000027 no 0x29640000296a 0x29640000296a,
  dm 0x296a00002977 0x232 0 0x29770000297b,
  dm 0x296a00002977 0x233 0 0x29770000297b,
  dm 0x296a00002977 0x234 0 0x297b00002983,
  dm 0x2700000027 0x235 0 0x29830000298f,
  dm 0x296a00002977 0x236 0 0x298f000029a0,
  dm 0x296a00002977 0x237 0 0x29a0000029ab,
  dm 0x296a00002977 0x238 0 0x29ab000029b6,
  dm 0x296a00002977 0x239 0 0x29b6000029c9,
  dm 0x296a00002977 no 0x29c9000029d9 0x29d9000029de,
  dm 0x23b0000023d 0x23a 0 0x2700000027,
  dm 0x2700000027 0x23c 0 0x29eb000029f9,
  dm 0x2700000027 0x23d 0 0x29f900002a0a,
  dm 0 no 0 0x18000000182,
  dm 0x2700000027 no 0x2a1500002a1c 0x2a1c00002a24,
  dm 0x2700000027 no 0x2a2400002a2a 0x2a2a00002a31,
  dm 0x2700000027 no 0x2a3500002a42 0x2a3500002a42,
  dm 0x2700000027 no 0x2a4200002a47 0x2a4200002a47,
  dm 0x2700000027 no 0x2a4700002a55 0x2a5500002a63,
  dm 0x2700000027 0x241 0 0x98000000989,
  dm 0x39a000003a7 0x242 0 0x18000000182,
  dm 0x2700000027 0x243 0 0x18000000182,
  dm 0x2700000027 0x244 0 0x18000000182,
  dm 0 no 0 0x18000000182,
  dm 0 no 0 0x2a7200002a75,
  dm 0x2700000027 0x248 0 0x2a7e00002a85,
  dm 0x2700000027 0x249 0 0x18000000182,
  dm 0x2700000027 0x24b 0 0x2a8a00002a99,
  dm 0x2700000027 0x24c 0 0x2a9900002aa6,
  dm 0x2700000027 0x24d 0 0x2aa600002ab7,
  dm 0 no 0 0x18000000182,
  dm 0 no 0 0x18000000182,
  dm 0x2700000027 0x251 0 0x2ac600002ac9,
  dm 0 no 0 0x18000000182,
  dm 0x2700000027 0x254 0 0x2ad200002add,
  dm 0x2700000027 0x255 0 0x2add00002ae8,
  dm 0x2700000027 0x256 0 0x2ae800002aef,
  dm 0x2700000027 0x257 0 0x2aef00002afa,
  dm 0x2700000027 0x258 0 0x18000000182,
  dm 0 no 0 0x18000000182,
  dm 0x296a00002977 0x25b 0 0x2b0800002b0f,
  dm 0x296a00002977 no 0x2b0f00002b16 0x2700000027,
  dm 0x2b1e00002b26 no 0x2b1600002b1e 0x2b2600002b30,
  dm 0x2b1e00002b26 no 0x2b3000002b38 0x2b3800002b42,
  dm 0x2b1e00002b26 no 0x2b4200002b4a 0x2b4a00002b5d,
  dm 0x2b1e00002b26 no 0x2b5d00002b65 0x2b6500002b78,
  dm 0x2b1e00002b26 no 0x2b7800002b80 0x2b8000002b93,
  dm 0x2b1e00002b26 no 0x2b9300002b9b 0x2b9b00002bae,
  dm 0x2b1e00002b26 0x25c 0 0x2bae00002bc1,
  dm 0x2b1e00002b26 0x25d 0 0x2bc100002bd4,
  dm 0x2b1e00002b26 0x25e 0 0x2bd400002be1,
  dm 0x2b1e00002b26 0x25f 0 0x2be100002bee,
  dm 0x2b1e00002b26 0x260 0 0x2bee00002c03,
  dm 0x2b1e00002b26 0x261 0 0x2c0300002c18,
  dm 0x2b1e00002b26 0x262 0 0x2c1800002c2b,
  dm 0x2b1e00002b26 0x263 0 0x2c2b00002c3e,
  dm 0x2b1e00002b26 no 0x2c3e00002c47 0x2c4700002c52,
  dm 0x2b1e00002b26 no 0x2c5200002c5a 0x2c5a00002c67,
  dm 0x2b1e00002b26 0x264 0 0x2c6700002c7b,
  dm 0x2b1e00002b26 0x265 0 0x2c7b00002c8f,
  dm 0x2b1e00002b26 0x266 0 0x2c8f00002ca2,
  dm 0x2b1e00002b26 0x267 0 0x2ca200002cb5,
  dm 0x2b1e00002b26 no 0x2cb500002cbd 0x2cbd00002cd1,
  dm 0x2b1e00002b26 no 0x2cd100002cd9 0x2cd900002ced,
  dm 0x2b1e00002b26 no 0x2ced00002cf6 0x2cbd00002cd1,
  dm 0x2b1e00002b26 no 0x2cf600002cff 0x2cd900002ced,
  dm 0x2b1e00002b26 no 0x2cff00002d07 0x2d0700002d1a,
  dm 0x2b1e00002b26 no 0x2d1a00002d22 0x2d0700002d1a,
  dm 0x2b1e00002b26 no 0x2d2200002d2a 0x2d2a00002d3d,
  dm 0x2b1e00002b26 no 0x2d3d00002d45 0x2d2a00002d3d,
  dm 0x2b1e00002b26 0x268 0 0x2d4500002d4a,
  dm 0xc9b00000ca2 0x269 0 0x2d4a00002d58,
  dm 0xc9b00000ca2 0x26a 0 0x2d5800002d66,
  dm 0xc9b00000ca2 0x26b 0 0x2d6600002d74,
  dm 0xc9b00000ca2 0x26c 0 0x2d7400002d82,
  dm 0xc9b00000ca2 0x26d 0 0x2d8200002d95,
  dm 0xc9b00000ca2 0x26e 0 0x2d9500002da3,
  dm 0xc9b00000ca2 0x26f 0 0x2da300002dae,
  dm 0xc9b00000ca2 0x270 0 0x2dae00002dbd,
  dm 0xc9b00000ca2 0x271 0 0x2dbd00002dcc,
  dm 0xc9b00000ca2 0x272 0 0x2dcc00002dd7,
  dm 0xc9b00000ca2 0x273 0 0x2dd700002de2,
  dm 0xc9b00000ca2 0x274 0 0x2de200002ded,
  dm 0xc9b00000ca2 0x275 0 0x2de200002ded,
  dm 0xc9b00000ca2 0x276 0 0x2ded00002dfc,
  dm 0xc9b00000ca2 0x277 0 0x2dfc00002e0d,
  dm 0xc9b00000ca2 0x278 0 0x2e0d00002e1c,
  dm 0xc9b00000ca2 0x279 0 0x2e1c00002e2d,
  dm 0xc9b00000ca2 0x27a 0 0x2e2d00002e3c,
  dm 0xc9b00000ca2 0x27b 0 0x2e3c00002e52,
  dm 0xc9b00000ca2 0x27c 0 0x2e5200002e61,
  dm 0xc9b00000ca2 0x27d 0 0x2e6100002e72,
  dm 0xc9b00000ca2 0x27e 0 0x2e7200002e81,
  dm 0xc9b00000ca2 0x27f 0 0x2e8100002e92,
  dm 0xc9b00000ca2 0x280 0 0x2e9200002ea1,
  dm 0xc9b00000ca2 0x281 0 0x2ea100002eb2,
  dm 0xc9b00000ca2 0x282 0 0x2eb200002ec1,
  dm 0xc9b00000ca2 0x283 0 0x2ec100002ed0,
  dm 0xc9b00000ca2 0x284 0 0x2ed000002ee1,
  dm 0xc9b00000ca2 0x285 0 0x2ee100002ef0,
  dm 0xc9b00000ca2 0x286 0 0x2ef000002eff,
  dm 0xc9b00000ca2 0x287 0 0x2eff00002f0e,
  dm 0xc9b00000ca2 0x288 0 0x2f0e00002f21,
  dm 0xc9b00000ca2 0x289 0 0x2f2100002f33,
  dm 0xc9b00000ca2 0x28a 0 0x2f3300002f4a,
  dm 0xc9b00000ca2 0x28b 0 0x2f4a00002f5c,
  dm 0xc9b00000ca2 0x28c 0 0x2f5c00002f6e,
  dm 0xc9b00000ca2 0x28d 0 0x2f6e00002f80,
  dm 0xc9b00000ca2 0x28e 0 0x2f6e00002f80,
  dm 0xc9b00000ca2 0x28f 0 0x2f8000002f92,
  dm 0xc9b00000ca2 0x290 0 0x2f9200002fa4,
  dm 0xc9b00000ca2 0x291 0 0x2fa400002fb6,
  dm 0xc9b00000ca2 0x292 0 0x2fb600002fcc,
  dm 0xc9b00000ca2 0x293 0 0x2fcc00002fde,
  dm 0xc9b00000ca2 0x294 0 0x2fde00002ff4,
  dm 0xc9b00000ca2 0x295 0 0x2ff40000300a,
  dm 0xc9b00000ca2 0x296 0 0x300a00003020,
  dm 0xc9b00000ca2 0x297 0 0x302000003036,
  dm 0xc9b00000ca2 0x298 0 0x30360000304c,
  dm 0xc9b00000ca2 0x299 0 0x304c00003062,
  dm 0xc9b00000ca2 0x29a 0 0x30620000307d,
  dm 0xc9b00000ca2 0x29b 0 0x307d00003098,
  dm 0xc9b00000ca2 0x29c 0 0x3098000030ae,
  dm 0xc9b00000ca2 0x29d 0 0x30ae000030c9,
  dm 0xc9b00000ca2 0x29e 0 0x30c9000030df,
  dm 0xc9b00000ca2 0x29f 0 0x30df000030f5,
  dm 0xc9b00000ca2 0x2a0 0 0x30f50000310b,
  dm 0xc9b00000ca2 0x2a1 0 0x30f50000310b,
  dm 0xc9b00000ca2 0x2a2 0 0x310b00003121,
  dm 0xc9b00000ca2 0x2a3 0 0x312100003137,
  dm 0xc9b00000ca2 0x2a4 0 0x31370000314d,
  dm 0xc9b00000ca2 0x2a5 0 0x314d00003163,
  dm 0xc9b00000ca2 0x2a6 0 0x316300003179,
  dm 0xc9b00000ca2 0x2a7 0 0x31790000318f,
  dm 0xc9b00000ca2 0x2a8 0 0x318f000031a5,
  dm 0xc9b00000ca2 0x2a9 0 0x31a5000031b7,
  dm 0xc9b00000ca2 0x2aa 0 0x31b7000031cd,
  dm 0xc9b00000ca2 0x2ab 0 0x31cd000031e3,
  dm 0xc9b00000ca2 0x2ac 0 0x31e3000031f9,
  dm 0xc9b00000ca2 0x2ad 0 0x31f90000320f,
  dm 0xc9b00000ca2 0x2ae 0 0x320f00003225,
  dm 0xc9b00000ca2 0x2af 0 0x32250000323b,
  dm 0xc9b00000ca2 0x2b0 0 0x323b00003251,
  dm 0xc9b00000ca2 0x2b1 0 0x325100003267,
  dm 0xc9b00000ca2 0x2b2 0 0x32670000327d,
  dm 0xc9b00000ca2 0x2b3 0 0x327d00003293,
  dm 0xc9b00000ca2 0x2b4 0 0x3293000032a9,
  dm 0xc9b00000ca2 0x2b5 0 0x32a9000032bf,
  dm 0xc9b00000ca2 0x2b6 0 0x32bf000032da,
  dm 0xc9b00000ca2 0x2b7 0 0x32da000032f5,
  dm 0xc9b00000ca2 0x2b8 0 0x32f500003310,
  dm 0xc9b00000ca2 0x2b9 0 0x33100000332b,
  dm 0xc9b00000ca2 0x2ba 0 0x332b00003341,
  dm 0xc9b00000ca2 0x2bb 0 0x334100003357,
  dm 0xc9b00000ca2 0x2bc 0 0x33570000336d,
  dm 0xc9b00000ca2 0x2bd 0 0x336d00003383,
  dm 0xc9b00000ca2 0x2be 0 0x338300003399,
  dm 0xc9b00000ca2 0x2bf 0 0x3399000033af,
  dm 0xc9b00000ca2 0x2c0 0 0x33af000033ca,
  dm 0xc9b00000ca2 0x2c1 0 0x33ca000033e5,
  dm 0xc9b00000ca2 0x2c2 0 0x33e5000033fb,
  dm 0xc9b00000ca2 0x2c3 0 0x33fb00003411,
  dm 0xc9b00000ca2 0x2c4 0 0x341100003427,
  dm 0xc9b00000ca2 0x2c5 0 0x34270000343d,
  dm 0xc9b00000ca2 0x2c6 0 0x34270000343d,
  dm 0xc9b00000ca2 0x2c7 0 0x343d00003453,
  dm 0xc9b00000ca2 0x2c8 0 0x345300003469,
  dm 0xc9b00000ca2 0x2c9 0 0x34690000347f,
  dm 0xc9b00000ca2 0x2ca 0 0x347f0000349a,
  dm 0xc9b00000ca2 0x2cb 0 0x349a000034b0,
  dm 0xc9b00000ca2 0x2cc 0 0x34b0000034c6,
  dm 0xc9b00000ca2 0x2cd 0 0x34c6000034e1,
  dm 0xc9b00000ca2 0x2ce 0 0x34e1000034f0,
  dm 0xc9b00000ca2 0x2cf 0 0x34f0000034ff,
  dm 0xc9b00000ca2 0x2d0 0 0x34ff0000350e,
  dm 0xc9b00000ca2 0x2d1 0 0x350e0000351d,
  dm 0xc9b00000ca2 0x2d2 0 0x351d0000352c,
  dm 0xc9b00000ca2 0x2d3 0 0x352c0000353b,
  dm 0xc9b00000ca2 0x2d4 0 0x353b0000354a,
  dm 0xc9b00000ca2 0x2d5 0 0x354a00003559,
  dm 0xc9b00000ca2 0x2d6 0 0x355900003568,
  dm 0xc9b00000ca2 0x2d7 0 0x356800003577,
  dm 0xc9b00000ca2 0x2d8 0 0x357700003590,
  dm 0xc9b00000ca2 0x2d9 0 0x3590000035ae,
  dm 0xc9b00000ca2 0x2da 0 0x35ae000035bc,
  dm 0xc9b00000ca2 0x2db 0 0x35bc000035ce,
  dm 0xc9b00000ca2 0x2dc 0 0x35ae000035bc,
  dm 0xc9b00000ca2 0x2dd 0 0x35ce000035e1,
  dm 0xc9b00000ca2 0x2de 0 0x35e1000035f0,
  dm 0xc9b00000ca2 0x2df 0 0x35f000003601,
  dm 0xc9b00000ca2 0x2e0 0 0x360100003612,
  dm 0xc9b00000ca2 no 0x36120000361e 0x2700000027,
  dm 0x23f00000249 0x2e1 0 0x361e00003624,
  dm 0x23f00000249 0x2e2 0 0x36240000362d,
  dm 0x23f00000249 0x2e3 0 0x362d00003637,
  dm 0x23f00000249 0x2e4 0 0x36370000363f,
  dm 0x23f00000249 0x2e5 0 0x363f00003648,
  dm 0x23f00000249 0x2e6 0 0x364800003650,
  dm 0x23f00000249 0x2e7 0 0x365000003659,
  dm 0x23f00000249 0x2e8 0 0x365900003662,
  dm 0xdfd00000e04 0x2e9 0 0x36620000366f,
  dm 0x23f00000249 0x2ea 0 0x366f00003677,
  dm 0x23f00000249 0x2eb 0 0x367700003680,
  dm 0xdfd00000e04 0x2ec 0 0x36800000368e,
  dm 0x23f00000249 0x2ed 0 0x368e00003697,
  dm 0xdfd00000e04 0x2ee 0 0x3697000036a4,
  dm 0x23f00000249 0x2ef 0 0x36a4000036ac,
  dm 0xdfd00000e04 0x2f0 0 0x36ac000036b9]

/-- `__dr_dm`, from item 1000 on (device_repo.go:3272-3771). -/
def drDm_2 : List ModelTuple := [
  dm 0x23f00000249 0x2f1 0 0x36b9000036c1,
  dm 0xdfd00000e04 0x2f2 0 0x36c1000036ce,
  dm 0x23f00000249 0x2f3 0 0x36ce000036d7,
  dm 0x23f00000249 0x2f4 0 0x36d7000036e0,
  dm 0xdfd00000e04 0x2f5 0 0x36e0000036e8,
  dm 0xdfd00000e04 0x2f6 0 0x36e8000036f9,
  dm 0xdfd00000e04 0x2f7 0 0x36f900003706,
  dm 0x23f00000249 0x2f8 0 0x37060000370f,
  dm 0xdfd00000e04 0x2f9 0 0x370f0000371f,
  dm 0x23f00000249 0x2fa 0 0x371f0000372d,
  dm 0xdfd00000e04 0x2fb 0 0x372d0000373e,
  dm 0xdfd00000e04 0x2fc 0 0x373e0000374b,
  dm 0xdfd00000e04 0x2fd 0 0x374b00003754,
  dm 0xdfd00000e04 0x2fe 0 0x375400003765,
  dm 0xdfd00000e04 0x2ff 0 0x376500003772,
  dm 0x23f00000249 0x300 0 0x377200003780,
  dm 0xdfd00000e04 0x301 0 0x378000003789,
  dm 0xdfd00000e04 0x302 0 0x378900003799,
  dm 0xdfd00000e04 0x303 0 0x3799000037aa,
  dm 0xdfd00000e04 0x304 0 0x37aa000037b7,
  dm 0xdfd00000e04 0x305 0 0x37b7000037c5,
  dm 0xdfd00000e04 0x306 0 0x37c5000037ce,
  dm 0xdfd00000e04 0x307 0 0x37ce000037df,
  dm 0xdfd00000e04 0x308 0 0x37df000037ec,
  dm 0xdfd00000e04 0x309 0 0x37ec000037fa,
  dm 0xdfd00000e04 0x30a 0 0x37fa00003803,
  dm 0xdfd00000e04 0x30b 0 0x380300003814,
  dm 0xdfd00000e04 0x30c 0 0x381400003821,
  dm 0xdfd00000e04 0x30d 0 0x38210000382f,
  dm 0xdfd00000e04 0x30e 0 0x382f00003839,
  dm 0xdfd00000e04 0x30f 0 0x383900003842,
  dm 0xdfd00000e04 0x310 0 0x384200003853,
  dm 0xdfd00000e04 0x311 0 0x385300003860,
  dm 0xdfd00000e04 0x312 0 0x386000003869,
  dm 0xdfd00000e04 0x313 0 0x386900003873,
  dm 0x2a1000002a7 0x314 0 0x387300003877,
  dm 0x2a1000002a7 0x315 0 0x38770000387d,
  dm 0x2a1000002a7 0x316 0 0x387d00003886,
  dm 0x2a1000002a7 0x317 0 0x38860000388c,
  dm 0x2a1000002a7 0x318 0 0x388c00003892,
  dm 0x2a1000002a7 0x319 0 0x38920000389a,
  dm 0x2a1000002a7 0x31a 0 0x389a000038a5,
  dm 0x2a1000002a7 0x31b 0 0x38a5000038b0,
  dm 0x2a1000002a7 0x31c 0 0x38b0000038bb,
  dm 0x2a1000002a7 0x31d 0 0x38bb000038c5,
  dm 0x2a1000002a7 0x31e 0 0x38c5000038d1,
  dm 0x2a1000002a7 0x31f 0 0x38d1000038de,
  dm 0x2a1000002a7 0x320 0 0x38de000038e8,
  dm 0x2a1000002a7 0x321 0 0x38e8000038f7,
  dm 0x2a1000002a7 0x322 0 0x38f700003904,
  dm 0x2a1000002a7 0x323 0 0x39040000390e,
  dm 0x2a1000002a7 0x324 0 0x390e00003919,
  dm 0x2a1000002a7 0x325 0 0x391900003927,
  dm 0x2a1000002a7 0x326 0 0x392700003937,
  dm 0x2a1000002a7 0x327 0 0x393700003948,
  dm 0x2a1000002a7 0x328 0 0x394800003954,
  dm 0x2a1000002a7 0x329 0 0x395400003963,
  dm 0x2a1000002a7 0x32a 0 0x39630000396e,
  dm 0x2a1000002a7 0x32b 0 0x396e00003978,
  dm 0x2a1000002a7 0x32c 0 0x397800003984,
  dm 0x2a1000002a7 0x32d 0 0x398400003995,
  dm 0x2a1000002a7 0x32e 0 0x3995000039a1,
  dm 0x2a1000002a7 0x32f 0 0x39a1000039b4,
  dm 0x2a1000002a7 0x330 0 0x39b4000039c2,
  dm 0x2a1000002a7 0x331 0 0x39c2000039d7,
  dm 0x2a1000002a7 0x332 0 0x39d7000039e7,
  dm 0x2a1000002a7 0x333 0 0x39e7000039f6,
  dm 0x2a1000002a7 0x334 0 0x39f600003a00,
  dm 0x2a1000002a7 0x335 0 0x3a0000003a12,
  dm 0x2a1000002a7 0x336 0 0x3a1200003a1f,
  dm 0x2a1000002a7 0x337 0 0x3a1f00003a2e,
  dm 0x2a1000002a7 0x338 0 0x3a2e00003a38,
  dm 0x2a1000002a7 0x339 0 0x3a3800003a4b,
  dm 0x2a1000002a7 0x33a 0 0x3a4b00003a59,
  dm 0x2a1000002a7 0x33b 0 0x3a5900003a69,
  dm 0x2a1000002a7 0x33c 0 0x3a6900003a74,
  dm 0x2a1000002a7 0x33d 0 0x3a7400003a87,
  dm 0x2a1000002a7 0x33e 0 0x3a8700003a95,
  dm 0x2a1000002a7 0x33f 0 0x3a9500003aaa,
  dm 0x2a1000002a7 0x340 0 0x3aaa00003aba,
  dm 0x2a1000002a7 0x341 0 0x3aba00003acd,
  dm 0x2a1000002a7 0x342 0 0x3acd00003adb,
  dm 0x2a1000002a7 0x343 0 0x3adb00003aee,
  dm 0x2a1000002a7 0x344 0 0x3aee00003afc,
  dm 0x2a1000002a7 0x345 0 0x3a3800003a4b,
  dm 0x2a1000002a7 0x346 0 0x3a4b00003a59,
  dm 0x2a1000002a7 0x347 0 0x3afc00003b0e,
  dm 0x2a1000002a7 0x348 0 0x3b0e00003b1b,
  dm 0x2a1000002a7 0x349 0 0x3b1b00003b2b,
  dm 0x2a1000002a7 0x34a 0 0x3b2b00003b36,
  dm 0x2a1000002a7 0x34b 0 0x3b3600003b49,
  dm 0x2a1000002a7 0x34c 0 0x3b4900003b57,
  dm 0x2a1000002a7 0x34d 0 0x3b5700003b6a,
  dm 0x2a1000002a7 0x34e 0 0x3b6a00003b78,
  dm 0x2a1000002a7 0x34f 0 0x3b7800003b8c,
  dm 0x2a1000002a7 0x350 0 0x3b8c00003b9b,
  dm 0x2a1000002a7 0x351 0 0x3b9b00003baf,
  dm 0x2a1000002a7 0x352 0 0x3baf00003bbe,
  dm 0x23b0000023d 0x353 0 0x3bbe00003bc8,
  dm 0x23b0000023d 0x354 0 0x3bc800003bd2,
  dm 0x23b0000023d 0x355 0 0x3bd200003bdc,
  dm 0x23b0000023d 0x356 0 0x3bdc00003be7,
  dm 0x23b0000023d 0x357 0 0x3be700003bf9,
  dm 0x23b0000023d 0x358 0 0x3bf900003c01,
  dm 0x2a1000002a7 0x359 0 0x3c0100003c08,
  dm 0x2a1000002a7 0x35a 0 0x387300003877,
  dm 0x23f00000249 0x35b 0 0x3c0800003c11,
  dm 0x23f00000249 0x35c 0 0x3c0800003c11,
  dm 0xc9b00000ca2 no 0x3c1900003c36 0x3c3600003c4a,
  dm 0x2700000027 0x35e 0 0x3c4a00003c50,
  dm 0x2700000027 0x35f 0 0x3c4a00003c50,
  dm 0x2700000027 0x360 0 0x18000000182,
  dm 0x2700000027 0x362 0 0x18000000182,
  dm 0x2700000027 no 0x3c5000003c68 0x3c6800003c79,
  dm 0x2700000027 0x363 0 0x3c7900003c87,
  dm 0x2700000027 no 0x3c8700003c8f 0x3c8f00003c9e,
  dm 0x2700000027 no 0x3c9e00003caa 0x3caa00003cb6,
  dm 0x2700000027 no 0x3cb600003cbd 0x3cbd00003cc7,
  dm 0x2700000027 0x364 0 0x3cc700003cce,
  dm 0x2700000027 0x365 0 0x3cce00003cd4,
  dm 0x2a1000002a7 0x366 0 0x1d2d00001d2e,
  dm 0x2a1000002a7 0x367 0 0x3cd400003ce2,
  dm 0x2a1000002a7 no 0x3ce200003cea 0x3cea00003cf2,
  dm 0x2700000027 0x368 0 0x3cf200003cff,
  dm 0x2a1000002a7 0x369 0 0x3cff00003d08,
  dm 0x2a1000002a7 0x36a 0 0x3d0800003d15,
  dm 0x2a1000002a7 0x36b 0 0x3d1500003d21,
  dm 0x2a1000002a7 no 0x3d2100003d38 0x3d3800003d48,
  dm 0x2a1000002a7 no 0x3d4800003d53 0x3d5300003d65,
  dm 0x2a1000002a7 0x36c 0 0x3d6500003d77,
  dm 0x2a1000002a7 0x36d 0 0x3d7700003d82,
  dm 0x2a1000002a7 0x36e 0 0x3d8200003d88,
  dm 0x2a1000002a7 0x36f 0 0x3d8800003d98,
  dm 0x2a1000002a7 no 0x3d9800003da9 0x3da900003db7,
  dm 0x2a1000002a7 0x370 0 0x3db700003dc1,
  dm 0x2a1000002a7 0x371 0 0x3dc100003dc8,
  dm 0x2a1000002a7 0x372 0 0x3dc800003dd0,
  dm 0x2a1000002a7 0x373 0 0x3dd000003ddb,
  dm 0x2a1000002a7 0x374 0 0x3ddb00003de6,
  dm 0x2a1000002a7 0x375 0 0x3de600003df0,
  dm 0x2a1000002a7 0x376 0 0x3df000003dfd,
  dm 0x2a1000002a7 0x377 0 0x18000000182,
  dm 0x2a1000002a7 0x378 0 0x18000000182,
  dm 0x2700000027 0x379 0 0x18000000182,
  dm 0x2700000027 no 0x3e0800003e14 0x3e1400003e17,
  dm 0x2700000027 no 0x3e1700003e22 0x3e2200003e24,
  dm 0x2700000027 no 0x3e2400003e2f 0x3e2f00003e31,
  dm 0x2700000027 no 0x3e3100003e3c 0x3e3c00003e3e,
  dm 0 no 0 0x3e4400003e4f,
  dm 0x2700000027 0x37c 0 0x3e5200003e5c,
  dm 0x2700000027 0x37d 0 0x3e5c00003e6b,
  dm 0x2700000027 0x37e 0 0x3e6b00003e75,
  dm 0x2700000027 0x37f 0 0x3e7500003e7c,
  dm 0x2700000027 0x380 0 0x3e7c00003e83,
  dm 0x2700000027 0x381 0 0x3e8300003e8c,
  dm 0x2700000027 0x382 0 0x3e8c00003e92,
  dm 0x2700000027 0x383 0 0x3e9200003e9b,
  dm 0x2700000027 0x384 0 0x3e9b00003ea6,
  dm 0 no 0 0x18000000182,
  dm 0x2700000027 no 0x3eb400003ebc 0x3ebc00003ec0,
  dm 0x2700000027 no 0x3ec000003ec6 0x3ec600003ecb,
  dm 0x2700000027 0x387 0 0x3ecb00003ecf,
  dm 0x2700000027 no 0x3ecf00003ed4 0x3ed400003ed8,
  dm 0x2700000027 no 0x3ed800003ede 0x3ede00003ee3,
  dm 0x2700000027 no 0x3ee300003ee9 0x3ee900003eee,
  dm 0x2700000027 no 0x3eee00003ef4 0x3ef400003ef9,
  dm 0x2700000027 no 0x3ef900003f02 0x3f0200003f0a,
  dm 0x2700000027 no 0x3f0a00003f10 0x3f1000003f15,
  dm 0x2700000027 no 0x3f1500003f1b 0x3f1b00003f20,
  dm 0x2700000027 no 0x3f2000003f26 0x3f2600003f2b,
  dm 0x2700000027 no 0x3f2b00003f31 0x3f3100003f32,
  dm 0x2700000027 no 0x3f3200003f37 0x3f3700003f3b,
  dm 0x2700000027 no 0x3f3b00003f40 0x3f4000003f44,
  dm 0x2700000027 no 0x3f4400003f4a 0x3f4a00003f4f,
  dm 0x2700000027 no 0x3f4f00003f55 0x3f5500003f5a,
  dm 0x2700000027 no 0x3f5a00003f60 0x3f6000003f65,
  dm 0x2700000027 no 0x3f6500003f6a 0x3f6a00003f6e,
  dm 0x2700000027 no 0x3f6e00003f73 0x3f7300003f77,
  dm 0x2700000027 0x388 0 0x3f7700003f7c,
  dm 0x2700000027 no 0x3f7c00003f81 0x3f8100003f83,
  dm 0x2700000027 0x389 0 0x3f8300003f89,
  dm 0x2700000027 0x38a 0 0x3f8900003f8f,
  dm 0x2700000027 no 0x3f8f00003f96 0x3f9600003f9c,
  dm 0x2700000027 no 0x3f9c00003fa3 0x3fa300003fa9,
  dm 0x2700000027 no 0x3fa900003fb4 0x3fb400003fb9,
  dm 0x2700000027 no 0x3fb900003fc5 0x3fc500003fca,
  dm 0x2700000027 no 0x3fca00003fd5 0x3fd500003fda,
  dm 0x2700000027 no 0x3fda00003fe7 0x3fe700003fed,
  dm 0x2700000027 0x38b 0 0x18000000182,
  dm 0 no 0 0x18000000182,
  dm 0x23b0000023d 0x38e 0 0x3ff900003fff,
  dm 0x2700000027 0x38f 0 0x3fff00004007,
  dm 0x2700000027 0x390 0 0x40070000400e,
  dm 0x2700000027 0x391 0 0x400e00004013,
  dm 0x2700000027 0x392 0 0x401300004016,
  dm 0x2700000027 0x393 0 0x40160000401a,
  dm 0x2700000027 0x394 0 0x18000000182,
  dm 0x2700000027 0x395 0 0x401a00004020,
  dm 0x2700000027 0x396 0 0x402000004027,
  dm 0x2700000027 0x397 0 0x40270000402a,
  dm 0x2a1000002a7 0x398 0 0x18000000182,
  dm 0x39a000003a7 0x399 0 0x18000000182,
  dm 0x2700000027 0x39b 0 0x40320000403d,
  dm 0x2700000027 0x39c 0 0x18000000182,
  dm 0x23f00000249 0x39d 0 0x403d0000403f,
  dm 0x2700000027 0x39f 0 0x40530000405d,
  dm 0x2700000027 0x3a1 0 0x40630000406a,
  dm 0x2700000027 0x3a2 0 0x18000000182,
  dm 0x2a1000002a7 0x3a4 0 0x406d00004075,
  dm 0x2700000027 0x3a5 0 0x18000000182,
  dm 0x2700000027 0x3a7 0 0x18000000182,
  dm 0x2700000027 0x3a8 0 0x407b0000407f,
  dm 0x2700000027 0x3a9 0 0x407f00004085,
  dm 0x2700000027 0x3ab 0 0x408e00004093,
  dm 0x2700000027 0x3ac 0 0x409300004097,
  dm 0x2700000027 0x3ad 0 0x40970000409b,
  dm 0x2700000027 0x3ae 0 0x409b000040a2,
  dm 0x2700000027 0x3af 0 0x40a2000040a8,
  dm 0x2700000027 0x3b0 0 0x40a8000040b2,
  dm 0x2700000027 0x3b1 0 0x40b2000040b6,
  dm 0x2700000027 0x3b2 0 0x40b6000040bb,
  dm 0x2700000027 0x3b3 0 0x40bb000040c0,
  dm 0x2700000027 0x3b4 0 0x40c0000040c4,
  dm 0x2700000027 0x3b5 0 0x40c4000040ca,
  dm 0x2700000027 0x3b6 0 0x40ca000040cf,
  dm 0x2700000027 0x3b7 0 0x40cf000040d3,
  dm 0x2700000027 0x3b8 0 0x40d3000040d8,
  dm 0x2700000027 0x3b9 0 0x40d8000040e0,
  dm 0x2700000027 0x3ba 0 0x40e0000040eb,
  dm 0x2a1000002a7 0x3bb 0 0x40eb000040f8,
  dm 0x2a1000002a7 0x3bc 0 0x40f8000040fe,
  dm 0x2a1000002a7 0x3bd 0 0x40fe00004103,
  dm 0x2a1000002a7 0x3be 0 0x41030000410f,
  dm 0x2a1000002a7 0x3bf 0 0x18000000182,
  dm 0x2700000027 0x3c0 0 0x18000000182,
  dm 0 no 0 0x18000000182,
  dm 0x2a1000002a7 0x3c3 0 0x411d00004128,
  dm 0x2a1000002a7 0x3c4 0 0x412800004138,
  dm 0x2a1000002a7 0x3c5 0 0x413800004142,
  dm 0x2a1000002a7 no 0x414200004148 0x414800004150,
  dm 0x2a1000002a7 0x3c6 0 0x41500000415f,
  dm 0x2a1000002a7 0x3c7 0 0x415f00004172,
  dm 0x2a1000002a7 0x3c8 0 0x417200004183,
  dm 0x2a1000002a7 0x3c9 0 0x41830000418d,
  dm 0x2a1000002a7 0x3ca 0 0x418d00004191,
  dm 0x2a1000002a7 0x3cb 0 0x41910000419d,
  dm 0x2a1000002a7 0x3cc 0 0x419d000041a7,
  dm 0x2a1000002a7 0x3cd 0 0x41a7000041b9,
  dm 0x2a1000002a7 0x3ce 0 0x41b9000041c6,
  dm 0x2a1000002a7 0x3cf 0 0x41c6000041d0,
  dm 0x2a1000002a7 0x3d0 0 0x41d0000041dc,
  dm 0x2a1000002a7 0x3d1 0 0x41dc000041f2,
  dm 0x2a1000002a7 0x3d2 0 0x41f2000041fd,
  dm 0x2a1000002a7 0x3d3 0 0x41fd00004213,
  dm 0x2a1000002a7 0x3d4 0 0x421300004229,
  dm 0x2a1000002a7 0x3d5 0 0x422900004240,
  dm 0x2a1000002a7 0x3d6 0 0x424000004256,
  dm 0x2a1000002a7 0x3d7 0 0x42560000426c,
  dm 0x2a1000002a7 0x3d8 0 0x426c00004281,
  dm 0x2a1000002a7 no 0x42810000428d 0x428d000042a1,
  dm 0x2a1000002a7 0x3d9 0 0x42a1000042ad,
  dm 0x2a1000002a7 no 0x42ad000042b7 0x42b7000042c0,
  dm 0x2a1000002a7 no 0x42c0000042c4 0x42c4000042ce,
  dm 0x2a1000002a7 0x3da 0 0x42ce000042d8,
  dm 0x2a1000002a7 0x3db 0 0x42d8000042e2,
  dm 0x2a1000002a7 0x3dc 0 0x42e2000042ec,
  dm 0x2a1000002a7 0x3dd 0 0x42ec000042f8,
  dm 0x2a1000002a7 0x3de 0 0x18000000182,
  dm 0x2a1000002a7 no 0x42f8000042fc 0x42fc00004308,
  dm 0x2a1000002a7 0x3df 0 0x430800004318,
  dm 0x2a1000002a7 0x3e0 0 0x431800004324,
  dm 0x2a1000002a7 0x3e1 0 0x43240000432d,
  dm 0x2a1000002a7 no 0x432d00004340 0x43400000435b,
  dm 0x2a1000002a7 no 0x435b00004366 0x43660000436c,
  dm 0xdfd00000e04 0x3e2 0 0x436c00004373,
  dm 0xdfd00000e04 0x3e3 0 0x437300004381,
  dm 0xdfd00000e04 0x3e4 0 0x43810000438a,
  dm 0xdfd00000e04 0x3e5 0 0x438a0000439c,
  dm 0xdfd00000e04 0x3e6 0 0x439c000043a5,
  dm 0x2700000027 0x3e7 0 0x43a5000043b5,
  dm 0x2700000027 0x3e8 0 0x43b5000043be,
  dm 0x2700000027 0x3e9 0 0x43be000043ca,
  dm 0x2700000027 0x3ea 0 0x43ca000043d8,
  dm 0x2700000027 no 0x43d8000043e4 0x43e4000043ed,
  dm 0x2700000027 no 0x43ed000043f9 0x43f900004409,
  dm 0x2700000027 0x3eb 0 0x440900004413,
  dm 0x2700000027 0x3ec 0 0x441300004423,
  dm 0x2700000027 0x3ed 0 0x442300004433,
  dm 0x2700000027 0x3ee 0 0x44330000443c,
  dm 0x2700000027 0x3ef 0 0x443c0000444a,
  dm 0x2700000027 0x3f0 0 0x444a00004453,
  dm 0x2700000027 0x3f1 0 0x44530000445d,
  dm 0x2700000027 0x3f2 0 0x445d00004466,
  dm 0x2700000027 0x3f3 0 0x446600004474,
  dm 0x2700000027 0x3f4 0 0x44740000447d,
  dm 0x2700000027 0x3f5 0 0x447d0000448b,
  dm 0x2700000027 0x3f6 0 0x448b0000449d,
  dm 0x2700000027 0x3f7 0 0x449d000044ab,
  dm 0x2700000027 0x3f8 0 0x44ab000044b4,
  dm 0x2700000027 0x3f9 0 0x44b4000044be,
  dm 0x2700000027 0x3fa 0 0x44be000044ca,
  dm 0x2700000027 0x3fb 0 0x44ca000044d9,
  dm 0x2700000027 no 0x44d9000044df 0x44df000044ee,
  dm 0x2700000027 0x3fc 0 0x44ee000044fd,
  dm 0x2700000027 0x3fd 0 0x44fd00004506,
  dm 0x2700000027 0x3fe 0 0x450600004513,
  dm 0x2700000027 0x3ff 0 0x451300004521,
  dm 0x2700000027 0x400 0 0x45210000452b,
  dm 0x2700000027 0x401 0 0x452b00004534,
  dm 0x2700000027 0x402 0 0x45340000453d,
  dm 0x2700000027 0x403 0 0x453d0000454a,
  dm 0x2700000027 0x404 0 0x454a00004553,
  dm 0x2700000027 0x405 0 0x45530000455e,
  dm 0x2700000027 0x406 0 0x455e00004571,
  dm 0x2700000027 0x407 0 0x448b0000449d,
  dm 0x2700000027 0x408 0 0x457100004583,
  dm 0x2700000027 0x409 0 0x458300004592,
  dm 0x2700000027 0x40a 0 0x45920000459c,
  dm 0x2700000027 0x40b 0 0x459c000045a9,
  dm 0x2700000027 0x40c 0 0x45a9000045b8,
  dm 0x2700000027 0x40d 0 0x45920000459c,
  dm 0x2700000027 0x40e 0 0x45b8000045c7,
  dm 0x2700000027 0x40f 0 0x45c7000045db,
  dm 0x2700000027 0x410 0 0x45db000045f1,
  dm 0x2700000027 0x411 0 0x45f100004607,
  dm 0x2700000027 0x412 0 0x460700004614,
  dm 0x2700000027 0x413 0 0x461400004625,
  dm 0x2700000027 0x414 0 0x462500004633,
  dm 0x2700000027 0x415 0 0x463300004643,
  dm 0x2700000027 0x416 0 0x464300004651,
  dm 0x2700000027 0x417 0 0x463300004643,
  dm 0x2700000027 0x418 0 0x46510000465a,
  dm 0x2700000027 0x419 0 0x465a00004669,
  dm 0x2700000027 0x41a 0 0x466900004678,
  dm 0x2700000027 0x41b 0 0x46780000468c,
  dm 0x2700000027 0x41c 0 0x468c0000469c,
  dm 0x2700000027 0x41d 0 0x44fd00004506,
  dm 0x2700000027 0x41e 0 0x469c000046a9,
  dm 0x2700000027 0x41f 0 0x46a9000046bb,
  dm 0x2700000027 0x420 0 0x46bb000046c8,
  dm 0x2700000027 0x421 0 0x46c8000046d4,
  dm 0x2700000027 0x422 0 0x46d4000046dd,
  dm 0x2700000027 0x423 0 0x46dd000046e8,
  dm 0x2700000027 0x424 0 0x46e8000046f3,
  dm 0x2700000027 0x425 0 0x46f3000046fe,
  dm 0x2700000027 0x426 0 0x46fe00004709,
  dm 0x2700000027 0x427 0 0x470900004715,
  dm 0x2700000027 0x428 0 0x471500004720,
  dm 0x2700000027 0x429 0 0x47200000472e,
  dm 0x2700000027 0x42a 0 0x472e0000473d,
  dm 0x2700000027 0x42b 0 0x473d00004748,
  dm 0x2700000027 0x42c 0 0x474800004753,
  dm 0x2700000027 0x42d 0 0x475300004762,
  dm 0x2700000027 0x42e 0 0x476200004784,
  dm 0xc9b00000ca2 no 0x47840000478b 0x478b0000479a,
  dm 0xc9b00000ca2 0x42f 0 0x18000000182,
  dm 0x7cc000007d6 0x430 0 0x479a000047a8,
  dm 0x23b0000023d no 0x47a8000047b8 0x47b8000047bc,
  dm 0x2b1e00002b26 0x431 0 0x47bc000047c6,
  dm 0x2700000027 0x432 0 0x18000000182,
  dm 0x2700000027 0x433 0 0x18000000182,
  dm 0x2700000027 0x434 0 0x18000000182,
  dm 0x2a1000002a7 0x435 0 0x47c6000047d4,
  dm 0xc9b00000ca2 0x436 0 0x47d4000047e6,
  dm 0x2700000027 0x438 0 0x18000000182,
  dm 0 no 0 0x18000000182,
  dm 0x2700000027 0x43b 0 0x18000000182,
  dm 0x2700000027 0x43c 0 0x480e00004815,
  dm 0x2700000027 no 0x481b00004824 0x48240000482d,
  dm 0x2700000027 no 0x482d00004836 0x48360000483f,
  dm 0x2700000027 no 0x483f00004849 0x484900004853,
  dm 0x2700000027 0x43e 0 0x18000000182,
  dm 0 no 0 0x18000000182,
  dm 0 no 0 0x18000000182,
  dm 0x2700000027 0x442 0 0x18000000182,
  dm 0x2700000027 0x443 0 0x48660000486c,
  dm 0x2700000027 0x444 0 0x48660000486c,
  dm 0x2700000027 0x445 0 0x48660000486c,
  dm 0x2700000027 0x447 0 0x18000000182,
  dm 0 no 0 0x487600004882,
  dm 0x2700000027 0x44a 0 0x488800004890,
  dm 0x2700000027 0x44b 0 0x48900000489c,
  dm 0x2700000027 no 0x48a1000048aa 0x48aa000048b3,
  dm 0x2700000027 no 0x48b3000048bc 0x48bc000048c5,
  dm 0x2700000027 no 0x48c5000048d2 0x48d2000048e1,
  dm 0x2a1000002a7 0x44d 0 0x48e1000048e4,
  dm 0x2700000027 0x44e 0 0x18000000182,
  dm 0x2700000027 0x450 0 0x18000000182,
  dm 0x2700000027 0x452 0 0x18000000182,
  dm 0x2700000027 0x453 0 0x48ed000048f9,
  dm 0x2700000027 no 0x48f900004905 0x490500004913,
  dm 0x2a1000002a7 0x454 0 0x491300004920,
  dm 0x2700000027 0x456 0 0x49260000492d,
  dm 0 no 0 0x18000000182,
  dm 0x2700000027 0x459 0 0x493f00004944,
  dm 0x2700000027 0x45a 0 0x49440000494b,
  dm 0x2700000027 0x45b 0 0x18000000182,
  dm 0x2700000027 0x45c 0 0x18000000182,
  dm 0x2700000027 no 0x494b00004952 0x49520000495c,
  dm 0x2700000027 no 0x495c0000496a 0x496a00004978,
  dm 0x2700000027 no 0x497800004981 0x497800004981,
  dm 0x2700000027 0x45d 0 0x49810000498a,
  dm 0x2700000027 no 0x498a00004998 0x4998000049a6,
  dm 0x2700000027 0x45e 0 0x49a6000049b2,
  dm 0x2700000027 0x460 0 0x49bc000049c3,
  dm 0x2700000027 0x461 0 0x49c3000049c9,
  dm 0x2700000027 0x462 0 0x49d5000049de,
  dm 0x2700000027 0x464 0 0x18000000182,
  dm 0x2700000027 0x466 0 0x49ec00004a0a,
  dm 0x2700000027 0x467 0 0x4a0a00004a21,
  dm 0x2700000027 0x468 0 0x4a2100004a3e,
  dm 0x2700000027 0x469 0 0x4a3e00004a59,
  dm 0x2700000027 0x46a 0 0x4a5900004a71,
  dm 0x2700000027 0x46b 0 0x4a7100004a88,
  dm 0x2700000027 0x46c 0 0x4a8800004aa0,
  dm 0x2700000027 0x46d 0 0x4aa000004abd,
  dm 0x2700000027 0x46e 0 0x18000000182,
  dm 0x2700000027 0x46f 0 0x4abd00004aca,
  dm 0x23f00000249 0x470 0 0x4aca00004ae0,
  dm 0x2700000027 0x472 0 0x4ae300004aee,
  dm 0x2700000027 0x473 0 0x4aee00004afb,
  dm 0x2700000027 0x474 0 0x4afb00004b03,
  dm 0x2700000027 0x476 0 0x18000000182,
  dm 0x2700000027 0x477 0 0x4b0600004b0a,
  dm 0x2700000027 no 0x4b0a00004b0e 0x4b0a00004b0e,
  dm 0x2700000027 0x478 0 0x4b0e00004b19,
  dm 0x2700000027 no 0x4b1c00004b25 0x4b2500004b2e,
  dm 0x2a1000002a7 no 0x4b2e00004b35 0x4b2e00004b35,
  dm 0 no 0 0x4b3e00004b47,
  dm 0x2a1000002a7 0x47b 0 0x4b4a00004b4d,
  dm 0x2a1000002a7 0x47c 0 0x18000000182,
  dm 0x2a1000002a7 no 0x4b4d00004b56 0x4b5600004b5f,
  dm 0x2700000027 no 0x4b5f00004b65 0x4b6500004b6b,
  dm 0x2700000027 0x47d 0 0x18000000182,
  dm 0x2700000027 0x47f 0 0x18000000182,
  dm 0x2700000027 no 0x4b7500004b7d 0x4b7d00004b7f,
  dm 0x2700000027 0x481 0 0x18000000182,
  dm 0x2700000027 0x483 0 0x4b8300004b90,
  dm 0x2700000027 0x484 0 0x4b9000004b9a,
  dm 0x2700000027 0x485 0 0x4b9a00004ba9,
  dm 0x2700000027 0x487 0 0x18000000182,
  dm 0x2700000027 0x488 0 0x18000000182,
  dm 0 no 0 0x4bb100004bbd,
  dm 0 no 0 0x18000000182,
  dm 0 no 0 0x18000000182,
  dm 0x2700000027 0x48d 0 0x4bcf00004bd6,
  dm 0 no 0 0x4be500004beb,
  dm 0x2700000027 0x48f 0 0x18000000182,
  dm 0x2700000027 0x491 0 0x4bf700004c02,
  dm 0 no 0 0x18000000182,
  dm 0x2700000027 0x494 0 0x4c1800004c1f,
  dm 0x2700000027 0x495 0 0x4c1800004c1f,
  dm 0x2700000027 0x496 0 0x4c1800004c1f,
  dm 0x2a1000002a7 0x498 0 0x4c2500004c30,
  dm 0x2700000027 0x499 0 0x18000000182,
  dm 0 no 0 0x18000000182,
  dm 0x2700000027 0x49c 0 0x4c3d00004c43,
  dm 0x2a1000002a7 0x49d 0 0x4c4300004c49,
  dm 0x2a1000002a7 0x49e 0 0x4c4300004c49,
  dm 0x2a1000002a7 no 0x4c4900004c4c 0x4c4900004c4c,
  dm 0x2700000027 0x49f 0 0x4c4c00004c4f,
  dm 0x2700000027 0x4a0 0 0x4c4f00004c57,
  dm 0x2700000027 no 0x4c5700004c61 0x4c5700004c61,
  dm 0x2700000027 0x4a1 0 0x4c6100004c67,
  dm 0x2700000027 0x4a2 0 0x4c6700004c6b,
  dm 0x2700000027 0x4a3 0 0x4c6b00004c78,
  dm 0x23b0000023d 0x4a4 0 0x18000000182,
  dm 0x23b0000023d 0x4a5 0 0x4c7800004c81,
  dm 0x2700000027 0x4a7 0 0x18000000182,
  dm 0x2700000027 0x4a8 0 0x4c8800004c8b,
  dm 0x2700000027 0x4a9 0 0x4c8b00004c93,
  dm 0x2700000027 0x4aa 0 0x4c9300004c9d,
  dm 0x2700000027 0x4ab 0 0x4c9d00004ca8,
  dm 0x2700000027 0x4ac 0 0x4ca800004cb2,
  dm 0x2700000027 0x4ad 0 0x4cb200004cb9,
  dm 0x2700000027 0x4ae 0 0x4cb900004cbf,
  dm 0 no 0 0x18000000182,
  dm 0 no 0 0x18000000182,
  dm 0x2700000027 no 0x4cd300004cd9 0x4cd300004cd9,
  dm 0x2700000027 no 0x4cd900004ce1 0x4cd900004ce1,
  dm 0 no 0 0x4cea00004cf7,
  dm 0x2700000027 0x4b5 0 0x18000000182,
  dm 0x2700000027 0x4b6 0 0x18000000182,
  dm 0x23b0000023d no 0x4cfb00004cff 0x4cfb00004cff,
  dm 0 no 0 0x18000000182,
  dm 0x2700000027 0x4b9 0 0x4d1100004d17,
  dm 0x2700000027 0x4ba 0 0x18000000182,
  dm 0x2700000027 no 0x4d1c00004d22 0x4d2200004d25,
  dm 0x2700000027 no 0x4d2500004d2b 0x4d2b00004d2e,
  dm 0x2700000027 no 0x4d2e00004d34 0x4d3400004d37,
  dm 0x2700000027 no 0x4d3700004d3d 0x4d3d00004d40,
  dm 0x2700000027 no 0x4d4000004d46 0x4d4600004d49,
  dm 0x2700000027 no 0x4d4900004d4f 0x4d4f00004d52,
  dm 0x2700000027 no 0x4d5200004d59 0x4d5900004d61,
  dm 0x2700000027 no 0x4d6100004d67 0x4d6700004d6a,
  dm 0x2700000027 no 0x4d6a00004d70 0x1e3400001e36,
  dm 0x2700000027 no 0x4d7000004d77 0x4d7700004d7e,
  dm 0x2700000027 no 0x4d7e00004d84 0x4d8400004d8a,
  dm 0x2700000027 no 0x4d8a00004d90 0x4d9000004d93,
  dm 0 no 0 0x18000000182]

/-- `__dr_dm`, from item 1500 on (device_repo.go:3772-4271). -/
def drDm_3 : List ModelTuple := [
  dm 0x2a1000002a7 no 0x4d9f00004da8 0x4da800004db1,
  dm 0x2700000027 0x4be 0 0x18000000182,
  dm 0x2700000027 0x4c0 0 0x4db700004dc3,
  dm 0x2700000027 0x4c1 0 0x4dc300004dcb,
  dm 0x2700000027 no 0x4dcb00004dd0 0x4dd000004dd6,
  dm 0 no 0 0x18000000182,
  dm 0 no 0 0x4de300004de6,
  dm 0x2700000027 no 0x4dec00004df7 0x4df700004e02,
  dm 0x2700000027 no 0x4e0200004e0b 0x4e0b00004e14,
  dm 0 no 0 0x4e1d00004e2b,
  dm 0 no 0 0x4e3200004e3e,
  dm 0 no 0 0x18000000182,
  dm 0x2700000027 0x4c9 0 0x4e4d00004e5a,
  dm 0x2700000027 no 0x4e5a00004e68 0x4e5a00004e68,
  dm 0x2700000027 0x4cb 0 0x18000000182,
  dm 0x2700000027 0x4cc 0 0x18000000182,
  dm 0x2700000027 0x4cd 0 0x18000000182,
  dm 0x2700000027 0x4cf 0 0x18000000182,
  dm 0x2700000027 0x4d0 0 0x4e7100004e76,
  dm 0x2700000027 0x4d1 0 0x18000000182,
  dm 0x2700000027 0x4d3 0 0x4e7d00004e86,
  dm 0x2700000027 0x4d4 0 0x4e8600004e91,
  dm 0x2700000027 0x4d5 0 0x4e9100004e9c,
  dm 0x2700000027 0x4d6 0 0x4ea300004eb1,
  dm 0 no 0 0x4eb500004ebe,
  dm 0 no 0 0x18000000182,
  dm 0x2700000027 0x4d9 0 0x4ed100004ed7,
  dm 0x2700000027 no 0x4ee000004ee7 0x4ee700004eee,
  dm 0x2700000027 0x4db 0 0x4eee00004ef4,
  dm 0x2700000027 0x4dc 0 0x4ef400004efb,
  dm 0x2700000027 no 0x4efb00004f02 0x4f0200004f05,
  dm 0x2700000027 no 0x4f0500004f0c 0x4f0c00004f0e,
  dm 0x2700000027 no 0x4f0e00004f15 0x4f1500004f17,
  dm 0x2700000027 no 0x4f1700004f1e 0x4f1e00004f20,
  dm 0x2700000027 no 0x4f2000004f27 0x4f2700004f2a,
  dm 0x2700000027 0x4dd 0 0x4f2a00004f2c,
  dm 0x2700000027 no 0x4f2c00004f33 0x4f3300004f3a,
  dm 0x2700000027 no 0x4f3a00004f41 0x4f4100004f4c,
  dm 0x2700000027 no 0x4f4c00004f53 0x4f5300004f61,
  dm 0x2700000027 no 0x4f6100004f68 0x4f6800004f6b,
  dm 0x2700000027 no 0x4f6b00004f72 0x4f7200004f74,
  dm 0x2700000027 no 0x4f7400004f7b 0x4f7b00004f82,
  dm 0x2700000027 no 0x4f8200004f8b 0x4f8b00004f93,
  dm 0x2700000027 0x4de 0 0x4f9300004f99,
  dm 0 no 0 0x4fa100004fa6,
  dm 0 no 0 0x4fb000004fb4,
  dm 0 no 0 0x4fbc00004fc1,
  dm 0x2700000027 0x4e3 0 0x4fca00004fd1,
  dm 0x2700000027 0x4e4 0 0x4fd100004fd4,
  dm 0x2700000027 0x4e5 0 0x4fd400004fda,
  dm 0x2700000027 0x4e6 0 0x4fda00004fde,
  dm 0x2700000027 no 0x4fde00004fe4 0x19790000197c,
  dm 0x2700000027 0x4e7 0 0x1940000019b,
  dm 0x2700000027 0x4e8 0 0x4fe400004feb,
  dm 0x2700000027 no 0x4feb00004ff6 0x4ff600005000,
  dm 0x2700000027 0x4e9 0 0x500000005006,
  dm 0x2700000027 no 0x50060000500e 0x50060000500e,
  dm 0x2700000027 no 0x500e00005017 0x500e00005017,
  dm 0x2700000027 0x4ea 0 0x18000000182,
  dm 0x2700000027 0x4eb 0 0x50170000501a,
  dm 0x2700000027 0x4ec 0 0x18000000182,
  dm 0x2700000027 0x4ed 0 0x501a00005022,
  dm 0x2700000027 0x4ee 0 0x50220000502b,
  dm 0x2700000027 0x4ef 0 0x502b00005032,
  dm 0x2700000027 0x4f0 0 0x50320000503a,
  dm 0x2700000027 0x4f1 0 0x503a00005042,
  dm 0x2700000027 no 0x504200005048 0x50480000504e,
  dm 0x2700000027 no 0x504e00005055 0x50550000505c,
  dm 0x2700000027 no 0x505c00005065 0x50650000506f,
  dm 0x2700000027 no 0x506f00005079 0x507900005083,
  dm 0xdfd00000e04 0x4f2 0 0x18000000182,
  dm 0x2700000027 0x4f3 0 0x1940000019b,
  dm 0x2700000027 0x4f4 0 0x500000005006,
  dm 0x2700000027 0x4f5 0 0x18000000182,
  dm 0x2a1000002a7 0x4f6 0 0x508300005090,
  dm 0x2a1000002a7 no 0x509000005098 0x509000005098,
  dm 0x2a1000002a7 0x4f7 0 0x50980000509f,
  dm 0x2a1000002a7 0x4f8 0 0x509f000050a9,
  dm 0x2a1000002a7 0x4f9 0 0x4c4300004c49,
  dm 0x2a1000002a7 0x4fa 0 0x50a9000050b4,
  dm 0x2a1000002a7 0x4fb 0 0x50b4000050bd,
  dm 0x2a1000002a7 0x4fc 0 0x4c4300004c49,
  dm 0x2700000027 0x4fd 0 0x50bd000050c6,
  dm 0x2700000027 0x4fe 0 0x18000000182,
  dm 0x2700000027 0x500 0 0x50cf000050dc,
  dm 0x2700000027 0x501 0 0x50dc000050ed,
  dm 0x2700000027 0x502 0 0x50ed000050fc,
  dm 0x2700000027 0x503 0 0x50fc0000510a,
  dm 0x2700000027 no 0x510a00005117 0x510a00005117,
  dm 0x2700000027 0x504 0 0x511700005123,
  dm 0x2700000027 0x505 0 0x51230000512d,
  dm 0x2700000027 no 0x512d0000513e 0x513e0000514f,
  dm 0x2700000027 0x506 0 0x514f0000515a,
  dm 0x2700000027 no 0x515a00005162 0x51620000516c,
  dm 0x2700000027 0x507 0 0x516c00005171,
  dm 0x23f00000249 0x508 0 0x18000000182,
  dm 0x23f00000249 0x509 0 0x18000000182,
  dm 0x23f00000249 no 0x51710000517b 0x517b00005187,
  dm 0x23b0000023d 0x50a 0 0x18000000182,
  dm 0x23b0000023d no 0x51870000518f 0x518f00005199,
  dm 0x23b0000023d no 0x5199000051a2 0x5199000051a2,
  dm 0x2700000027 0x50c 0 0x51a2000051a7,
  dm 0x2a1000002a7 no 0x51a7000051b0 0x51b0000051be,
  dm 0 no 0 0x18000000182,
  dm 0x2700000027 no 0x51c7000051d1 0x51d1000051dd,
  dm 0x2700000027 no 0x51dd000051ed 0x51ed000051ff,
  dm 0x2700000027 no 0x51ff0000520e 0x520e0000521f,
  dm 0x2700000027 no 0x521f0000522f 0x522f00005242,
  dm 0x2700000027 0x50f 0 0x524200005257,
  dm 0x2700000027 no 0x525700005266 0x526600005275,
  dm 0x2700000027 no 0x52750000527e 0x527e0000528a,
  dm 0x2700000027 no 0x528d00005295 0x528d00005295,
  dm 0x2700000027 no 0x5295000052a4 0x52a4000052b7,
  dm 0x2700000027 no 0x52b7000052c5 0x52b7000052c5,
  dm 0x2700000027 0x511 0 0x52c5000052cf,
  dm 0x2700000027 0x512 0 0x52cf000052d8,
  dm 0x2700000027 no 0x52d8000052e5 0x52e5000052f2,
  dm 0x2700000027 no 0x52f200005301 0x530100005312,
  dm 0x2700000027 no 0x531200005322 0x532200005334,
  dm 0x2700000027 no 0x533400005341 0x53410000534e,
  dm 0x2700000027 no 0x534e0000535a 0x535a00005366,
  dm 0x2700000027 0x513 0 0x53660000536f,
  dm 0x2700000027 0x514 0 0x536f0000537b,
  dm 0x2700000027 no 0x537b0000538c 0x538c0000539d,
  dm 0x2700000027 no 0x539d000053a7 0x53a7000053b1,
  dm 0x2700000027 no 0x53b1000053be 0x53be000053cb,
  dm 0x2700000027 0x515 0 0x53660000536f,
  dm 0x2700000027 0x516 0 0x53cb000053db,
  dm 0x2700000027 no 0x53db000053e8 0x53e8000053f5,
  dm 0x2700000027 0x517 0 0x53f500005404,
  dm 0x2700000027 0x518 0 0x540400005417,
  dm 0x2700000027 no 0x541700005425 0x542500005433,
  dm 0x2700000027 no 0x54330000543c 0x543c00005445,
  dm 0x2700000027 no 0x544500005451 0x544500005451,
  dm 0x2700000027 no 0x54510000545a 0x545a00005463,
  dm 0x2700000027 no 0x54630000546d 0x54630000546d,
  dm 0x2700000027 no 0x546d0000547c 0x547c0000548b,
  dm 0x2700000027 no 0x548b00005498 0x5498000054a5,
  dm 0x2700000027 no 0x54a5000054aa 0x54aa000054ae,
  dm 0x2700000027 no 0x54ae000054b5 0x54b5000054bc,
  dm 0x2700000027 0x519 0 0x54bc000054cb,
  dm 0x2700000027 no 0x54cb000054d6 0x54d6000054e1,
  dm 0x2700000027 0x51a 0 0x54e1000054e9,
  dm 0x2700000027 no 0x54e9000054f0 0x54e9000054f0,
  dm 0x2700000027 0x51b 0 0x54f0000054f7,
  dm 0x2700000027 no 0x54f700005500 0x550000005509,
  dm 0x2700000027 0x51c 0 0x550900005510,
  dm 0x2700000027 no 0x551000005520 0x551000005520,
  dm 0x2700000027 0x51d 0 0x55200000552b,
  dm 0x2700000027 no 0x552b00005533 0x55330000553b,
  dm 0x2700000027 no 0x553b00005545 0x55450000554f,
  dm 0x2700000027 no 0x554f00005556 0x55560000555d,
  dm 0x2700000027 no 0x555d00005566 0x55660000556f,
  dm 0x2700000027 no 0x556f00005579 0x557900005583,
  dm 0x2700000027 0x51e 0 0x558300005589,
  dm 0x2700000027 no 0x558900005591 0x558900005591,
  dm 0x2700000027 0x51f 0 0x559100005599,
  dm 0x2700000027 0x520 0 0x5599000055a0,
  dm 0x2700000027 0x521 0 0x18000000182,
  dm 0x2700000027 0x522 0 0x18000000182,
  dm 0x2700000027 0x523 0 0x55a0000055ac,
  dm 0x2700000027 no 0x55ac000055b7 0x55ac000055b7,
  dm 0x2700000027 no 0x55b7000055c3 0x55b7000055c3,
  dm 0x2700000027 no 0x55c3000055cf 0x55c3000055cf,
  dm 0x2700000027 0x524 0 0x55cf000055d7,
  dm 0x2700000027 no 0x55d7000055e0 0x55d7000055e0,
  dm 0x2700000027 no 0x55e0000055ea 0x55e0000055ea,
  dm 0x2700000027 no 0x55ea000055f2 0x55ea000055f2,
  dm 0x2700000027 no 0x55f2000055f8 0x55f800005601,
  dm 0x2700000027 no 0x560100005608 0x560800005615,
  dm 0x2700000027 0x525 0 0x56150000561b,
  dm 0x2700000027 no 0x561b00005621 0x562100005627,
  dm 0x2700000027 no 0x56270000562c 0x562c00005632,
  dm 0x2700000027 no 0x563200005638 0x56380000563e,
  dm 0x2700000027 no 0x563e00005644 0x56440000564a,
  dm 0x2700000027 no 0x564a0000564f 0x564a0000564f,
  dm 0x2700000027 no 0x564f00005655 0x564f00005655,
  dm 0x2700000027 0x526 0 0x56550000565d,
  dm 0x2700000027 0x527 0 0x565d00005667,
  dm 0x2700000027 0x528 0 0x566700005670,
  dm 0x2700000027 0x529 0 0x567000005681,
  dm 0x2700000027 no 0x568100005690 0x568100005690,
  dm 0x2700000027 no 0x56900000569b 0x56900000569b,
  dm 0x2700000027 no 0x569b000056a7 0x56a7000056b3,
  dm 0x2700000027 no 0x56b3000056bf 0x56b3000056bf,
  dm 0x2700000027 0x52a 0 0x56bf000056c4,
  dm 0x2700000027 no 0x56c4000056cb 0x56c4000056cb,
  dm 0x2700000027 0x52b 0 0x56cb000056d6,
  dm 0x2700000027 no 0x56d6000056de 0x56d6000056de,
  dm 0x2700000027 no 0x56de000056e5 0x56de000056e5,
  dm 0x2700000027 0x52c 0 0x56e5000056e9,
  dm 0x2700000027 0x52d 0 0x56e9000056f4,
  dm 0x2700000027 0x52e 0 0x56f4000056ff,
  dm 0x2700000027 no 0x56ff00005711 0x571100005725,
  dm 0x2700000027 0x52f 0 0x572500005731,
  dm 0x2700000027 0x530 0 0x573100005738,
  dm 0x2700000027 0x531 0 0x57380000573f,
  dm 0x2700000027 0x532 0 0x573f00005749,
  dm 0x2700000027 0x533 0 0x18000000182,
  dm 0x2a1000002a7 no 0x574900005759 0x574900005759,
  dm 0x2a1000002a7 0x534 0 0x575900005762,
  dm 0x2a1000002a7 0x535 0 0x57620000576a,
  dm 0x2a1000002a7 0x536 0 0x576a00005772,
  dm 0x2a1000002a7 0x537 0 0x577200005780,
  dm 0x2a1000002a7 no 0x57800000578a 0x57800000578a,
  dm 0x2700000027 0x538 0 0x578a00005791,
  dm 0x2700000027 0x539 0 0x578a00005791,
  dm 0x2700000027 0x53a 0 0x18000000182,
  dm 0 no 0 0x5799000057ae,
  dm 0x2700000027 no 0x57b4000057be 0x57be000057c2,
  dm 0x2700000027 no 0x57c2000057c8 0x57c8000057cf,
  dm 0x2700000027 0x53d 0 0x57cf000057d9,
  dm 0x2700000027 no 0x57d9000057de 0x57d9000057de,
  dm 0x2700000027 no 0x57de000057e5 0x57de000057e5,
  dm 0x2700000027 no 0x57e5000057ee 0x57ee000057f5,
  dm 0x2700000027 no 0x57f5000057f8 0x57f5000057f8,
  dm 0x2700000027 0x53e 0 0x57f8000057ff,
  dm 0x2700000027 0x53f 0 0x57ee000057f5,
  dm 0x2700000027 0x540 0 0x57ff00005801,
  dm 0x2700000027 0x541 0 0x18000000182,
  dm 0x2700000027 0x542 0 0x18000000182,
  dm 0 no 0 0x58080000580d,
  dm 0 no 0 0x18000000182,
  dm 0x23f00000249 0x546 0 0x18000000182,
  dm 0x2700000027 0x547 0 0x18000000182,
  dm 0x2700000027 no 0x582c0000582e 0x582c0000582e,
  dm 0x2700000027 no 0x58360000583d 0x583d00005847,
  dm 0x2700000027 no 0x58470000584d 0x584d00005863,
  dm 0x2700000027 no 0x586300005868 0x50480000504e,
  dm 0x2700000027 no 0x58680000586d 0x583d00005847,
  dm 0x2700000027 0x549 0 0x586d0000587e,
  dm 0x2700000027 0x54b 0 0x24bd000024c1,
  dm 0x2700000027 no 0x58850000588a 0x588a0000588f,
  dm 0x2700000027 no 0x588f00005899 0x5899000058a5,
  dm 0x2700000027 0x54c 0 0x58a5000058ac,
  dm 0x2700000027 0x54d 0 0x58ac000058b0,
  dm 0x2700000027 0x54e 0 0x58b0000058b4,
  dm 0x2700000027 0x54f 0 0x58b4000058bc,
  dm 0x2700000027 0x550 0 0x58bc000058c0,
  dm 0x2700000027 no 0x58c0000058ca 0x58ca000058cf,
  dm 0x2700000027 no 0x58cf000058d5 0x58d5000058dc,
  dm 0x2700000027 0x551 0 0x58dc000058e4,
  dm 0x2700000027 0x552 0 0x58e4000058e8,
  dm 0x2700000027 0x553 0 0x58e8000058ec,
  dm 0x2700000027 0x554 0 0x58ec000058f0,
  dm 0x2700000027 0x555 0 0x58f0000058f8,
  dm 0x2700000027 0x556 0 0x58f8000058fd,
  dm 0x2700000027 0x557 0 0x18000000182,
  dm 0x2700000027 0x558 0 0x18000000182,
  dm 0 no 0 0x59040000590a,
  dm 0 no 0 0x590f00005918,
  dm 0 no 0 0x18000000182,
  dm 0x2700000027 0x55d 0 0x18000000182,
  dm 0x2a1000002a7 0x55e 0 0x18000000182,
  dm 0x2a1000002a7 no 0x59240000592e 0x592e00005939,
  dm 0x2700000027 no 0x593f00005948 0x593f00005948,
  dm 0x2700000027 no 0x59480000594d 0x594d00005952,
  dm 0x2700000027 0x561 0 0x18000000182,
  dm 0x2700000027 0x562 0 0x18000000182,
  dm 0x2700000027 0x563 0 0x18000000182,
  dm 0 no 0 0x59690000596f,
  dm 0x2700000027 no 0x597800005981 0x598100005989,
  dm 0x2700000027 no 0x598900005996 0x599600005999,
  dm 0x23b0000023d 0x566 0 0x599f000059a4,
  dm 0x2700000027 0x567 0 0x18000000182,
  dm 0x2700000027 no 0x59aa000059b5 0x59b5000059c0,
  dm 0x2700000027 0x569 0 0x59c0000059c9,
  dm 0x2700000027 0x56a 0 0x59c9000059d0,
  dm 0x2700000027 0x56b 0 0x59d0000059d9,
  dm 0x2700000027 0x56c 0 0x59d9000059dc,
  dm 0x2700000027 0x56d 0 0x59dc000059e1,
  dm 0x2700000027 0x56e 0 0x59e1000059e6,
  dm 0x2700000027 no 0x59e6000059ea 0x59ea000059ee,
  dm 0x2700000027 no 0x59ee000059f4 0x59f4000059f9,
  dm 0x2700000027 0x56f 0 0x59f900005a03,
  dm 0x2700000027 0x570 0 0x5a0300005a0f,
  dm 0x2700000027 no 0x5a0f00005a1c 0x5a1c00005a29,
  dm 0x2700000027 no 0x5a2900005a35 0x5a3500005a41,
  dm 0x2700000027 no 0x5a4100005a4b 0x5a4b00005a55,
  dm 0x2700000027 no 0x5a5500005a5d 0x5a5500005a5d,
  dm 0x2700000027 no 0x5a5d00005a67 0x5a5d00005a67,
  dm 0x2700000027 no 0x5a6700005a77 0x5a6700005a77,
  dm 0x2700000027 no 0x5a7700005a83 0x5a7700005a83,
  dm 0x2700000027 no 0x5a8300005a90 0x5a9000005a9d,
  dm 0x2700000027 no 0x5a9d00005aa7 0x5aa700005ab1,
  dm 0x2700000027 no 0x5ab100005abb 0x5abb00005ac3,
  dm 0x2700000027 no 0x5ac300005ad1 0x5ad100005adf,
  dm 0x2700000027 no 0x5adf00005aeb 0x5aeb00005af7,
  dm 0x2700000027 no 0x5af700005b03 0x5b0300005b08,
  dm 0x2700000027 no 0x5b0800005b12 0x5b1200005b15,
  dm 0x2700000027 no 0x5b1500005b21 0x5b2100005b26,
  dm 0x2700000027 0x571 0 0x5b2600005b2b,
  dm 0x2a1000002a7 0x572 0 0x5b2b00005b32,
  dm 0x2a1000002a7 no 0x5b3200005b3b 0x5b3b00005b43,
  dm 0x2a1000002a7 no 0x5b4300005b50 0x5b5000005b55,
  dm 0x2a1000002a7 no 0x5b5500005b65 0x5b6500005b6d,
  dm 0x2a1000002a7 no 0x5b6d00005b7a 0x5b7a00005b7f,
  dm 0x2700000027 0x573 0 0x18000000182,
  dm 0x2a1000002a7 0x574 0 0x18000000182,
  dm 0x2700000027 0x575 0 0x18000000182,
  dm 0x2a1000002a7 no 0x5b9600005ba6 0x5b9600005ba6,
  dm 0x2700000027 0x577 0 0x18000000182,
  dm 0x2700000027 0x578 0 0x5bac00005bb8,
  dm 0x2700000027 0x579 0 0x5bb800005bc4,
  dm 0x2700000027 0x57a 0 0x5bc400005bcc,
  dm 0x2700000027 0x57b 0 0x5bcc00005bd5,
  dm 0x2700000027 0x57c 0 0x5bd500005be1,
  dm 0x2700000027 0x57d 0 0x5be100005bed,
  dm 0x2700000027 0x57e 0 0x5bed00005bf7,
  dm 0x2700000027 no 0x5bf700005c0a 0x5c0a00005c1d,
  dm 0x2700000027 0x57f 0 0x5c1d00005c30,
  dm 0x2a1000002a7 0x580 0 0x5c3000005c3e,
  dm 0x2a1000002a7 0x581 0 0x5c3000005c3e,
  dm 0 no 0 0x18000000182,
  dm 0x2700000027 0x584 0 0x5c4c00005c5f,
  dm 0x2700000027 0x585 0 0x5c5f00005c6c,
  dm 0x2a1000002a7 no 0x5c6c00005c78 0x5c7800005c86,
  dm 0x2a1000002a7 no 0x5c8a00005c93 0x5c9300005c98,
  dm 0x2a1000002a7 0x587 0 0x5c9800005ca4,
  dm 0x2a1000002a7 0x588 0 0x5ca400005cac,
  dm 0x2700000027 no 0x5cac00005cc6 0x5cc600005cd1,
  dm 0x2700000027 0x589 0 0x18000000182,
  dm 0x2700000027 0x58a 0 0x18000000182,
  dm 0x23b0000023d 0x58b 0 0x10e9000010f6,
  dm 0x23b0000023d 0x58c 0 0x2700000027,
  dm 0 no 0 0x18000000182,
  dm 0x2700000027 0x58f 0 0x18000000182,
  dm 0x2700000027 0x590 0 0x5cdd00005ce8,
  dm 0x2700000027 no 0x5cf100005cfc 0x5cfc00005d07,
  dm 0x2700000027 no 0x5d0700005d0d 0x5d0d00005d13,
  dm 0x2700000027 no 0x5d1300005d1c 0x5d1c00005d27,
  dm 0x2a1000002a7 no 0x5d2700005d2d 0x5d2d00005d34,
  dm 0x2700000027 0x593 0 0x4c3d00004c43,
  dm 0x2700000027 no 0x5d4300005d4d 0x5b0300005b08,
  dm 0x2700000027 0x594 0 0x18000000182,
  dm 0x2700000027 no 0x5d5200005d5f 0x5d5f00005d6c,
  dm 0x2700000027 no 0x5d6c00005d73 0x5d7300005d7a,
  dm 0x2700000027 no 0x5d7a00005d80 0x5d7a00005d80,
  dm 0x2700000027 0x596 0 0x5d8000005d87,
  dm 0x2700000027 no 0x5d8700005d8f 0x5d8f00005d97,
  dm 0x2700000027 no 0x5d9700005d9e 0x5d9e00005da5,
  dm 0x2700000027 no 0x5da500005dad 0x5da500005dad,
  dm 0x2700000027 no 0x5dad00005db5 0x5db500005dbd,
  dm 0x2700000027 no 0x5dbd00005dc7 0x5dbd00005dc7,
  dm 0x2700000027 no 0x5dc700005dce 0x5dce00005dd5,
  dm 0x2700000027 no 0x5dd500005ddd 0x5ddd00005de5,
  dm 0x2700000027 no 0x5de500005ded 0x5de500005ded,
  dm 0x2700000027 no 0x5ded00005df5 0x5ded00005df5,
  dm 0x23f00000249 0x598 0 0x5df900005e02,
  dm 0x23f00000249 0x599 0 0x5e0200005e0b,
  dm 0x2700000027 0x59a 0 0x5e0b00005e13,
  dm 0x2700000027 0x59b 0 0x18000000182,
  dm 0 no 0 0x5e1900005e1e,
  dm 0 no 0 0x18000000182,
  dm 0x2700000027 0x59f 0 0x5e2d00005e35,
  dm 0x2700000027 0x5a0 0 0x5e3500005e3c,
  dm 0x2700000027 0x5a1 0 0x5e3c00005e49,
  dm 0x2700000027 0x5a2 0 0x5e4900005e57,
  dm 0x2700000027 0x5a3 0 0x5e5700005e5f,
  dm 0 no 0 0x18000000182,
  dm 0x7cc000007d6 0x5a6 0 0x18000000182,
  dm 0x2700000027 0x5a8 0 0x5e7200005e79,
  dm 0x2700000027 0x5a9 0 0x5e7900005e7f,
  dm 0x2700000027 0x5aa 0 0x18000000182,
  dm 0x2700000027 no 0x5e8200005e86 0x5e8600005e91,
  dm 0x2700000027 no 0x5e9100005e95 0x5e9500005e9c,
  dm 0 no 0 0x18000000182,
  dm 0x2700000027 no 0x5ead00005eb4 0x5eb400005ebc,
  dm 0 no 0 0x18000000182,
  dm 0x2700000027 0x5af 0 0x5ec900005ed2,
  dm 0x2700000027 0x5b1 0 0x18000000182,
  dm 0x2700000027 no 0x5ed600005ee3 0x5ee300005ef1,
  dm 0x2700000027 no 0x5ef100005f00 0x5f0000005f10,
  dm 0x2700000027 0x5b2 0 0x5f1000005f1a,
  dm 0x2700000027 0x5b3 0 0x5f1a00005f20,
  dm 0x2700000027 0x5b4 0 0x5f2000005f24,
  dm 0x2700000027 0x5b5 0 0x5f2400005f2d,
  dm 0x2700000027 0x5b6 0 0x5f2d00005f30,
  dm 0x2700000027 0x5b7 0 0x2ac600002ac9,
  dm 0x2700000027 no 0x5f3600005f4a 0x5f3600005f4a,
  dm 0 no 0 0x5f5200005f5f,
  dm 0x2a1000002a7 no 0x5f6400005f72 0x5f7200005f81,
  dm 0x2a1000002a7 no 0x5f8100005f8d 0x5f8d00005f9a,
  dm 0x2700000027 0x5bb 0 0x5f9a00005fa3,
  dm 0x2700000027 no 0x5fa300005fa9 0x5fa300005fa9,
  dm 0x2700000027 0x5bc 0 0x5fa900005fb2,
  dm 0x2700000027 no 0x5fb200005fbb 0x5fbb00005fc4,
  dm 0x2700000027 no 0x5fc400005fcb 0x5fcb00005fd2,
  dm 0x2700000027 no 0x5fd200005fda 0x5fda00005fe2,
  dm 0x2700000027 no 0x5fe200005ff0 0x5ff000005fff,
  dm 0x2700000027 0x5bd 0 0x5fff00006011,
  dm 0x2700000027 0x5be 0 0x601100006020,
  dm 0x2700000027 0x5bf 0 0x60200000602c,
  dm 0x2700000027 0x5c0 0 0x602c0000603c,
  dm 0x2700000027 0x5c1 0 0x603c0000604c,
  dm 0x2700000027 0x5c2 0 0x604c0000605a,
  dm 0x2700000027 no 0x605a0000606c 0x606c00006080,
  dm 0x2700000027 0x5c3 0 0x608000006091,
  dm 0x2700000027 no 0x60910000609e 0x609e000060ac,
  dm 0x2700000027 no 0x60ac000060ba 0x60ba000060c9,
  dm 0x2700000027 0x5c4 0 0x60c9000060d5,
  dm 0x2700000027 no 0x60d5000060e1 0x60e1000060ed,
  dm 0x2700000027 no 0x60ed000060f6 0x60f6000060ff,
  dm 0x2700000027 no 0x60ff00006109 0x610900006113,
  dm 0x2700000027 no 0x611300006118 0x61180000611d,
  dm 0x2700000027 no 0x611d00006124 0x61240000612b,
  dm 0x2700000027 no 0x612b00006134 0x61340000613d,
  dm 0x2700000027 0x5c5 0 0x29770000297b,
  dm 0x2700000027 0x5c6 0 0x613d00006143,
  dm 0x2700000027 0x5c7 0 0x614300006148,
  dm 0x2700000027 0x5c8 0 0x61480000614e,
  dm 0x2700000027 0x5c9 0 0x42200000425,
  dm 0x2700000027 no 0x614e00006157 0x615700006160,
  dm 0x2700000027 no 0x61600000616b 0x616b00006176,
  dm 0x2700000027 0x5ca 0 0x500000005006,
  dm 0x2700000027 0x5cb 0 0x61760000617d,
  dm 0x2700000027 0x5cc 0 0x617d00006183,
  dm 0x2700000027 no 0x61830000618d 0x618d00006191,
  dm 0x2700000027 no 0x61910000619c 0x5b2100005b26,
  dm 0x2700000027 no 0x619c000061aa 0x61aa000061b2,
  dm 0x2700000027 0x5cd 0 0x61b2000061bb,
  dm 0x2700000027 0x5ce 0 0x18000000182,
  dm 0x2700000027 0x5cf 0 0x18000000182,
  dm 0x2700000027 0x5d0 0 0x18000000182,
  dm 0x2700000027 0x5d1 0 0x18000000182,
  dm 0 no 0 0x61be000061c5,
  dm 0 no 0 0x18000000182,
  dm 0x2a1000002a7 no 0x61cb000061d1 0x61cb000061d1,
  dm 0x2700000027 no 0x61d7000061e7 0xe3400000e3c,
  dm 0x2700000027 0x5d7 0 0x18000000182,
  dm 0x2700000027 no 0x61ee000061fb 0x61ee000061fb,
  dm 0x2700000027 0x5d8 0 0x18000000182,
  dm 0x2700000027 0x5da 0 0x18000000182,
  dm 0 no 0 0x620f00006217,
  dm 0x2700000027 0x5dc 0 0x62270000622d,
  dm 0 no 0 0x18000000182,
  dm 0 no 0 0x18000000182,
  dm 0 no 0 0x4bd000004c3,
  dm 0 no 0 0x625f0000626a,
  dm 0x2700000027 no 0x627300006278 0x627800006289,
  dm 0x2700000027 0x5e1 0 0x62890000628d,
  dm 0x2700000027 0x5e2 0 0x62890000628d,
  dm 0x2700000027 0x5e4 0 0x62920000629f,
  dm 0x2700000027 0x5e5 0 0x629f000062ae,
  dm 0x2700000027 0x5e6 0 0x62ae000062c4,
  dm 0x2700000027 0x5e8 0 0x62ca000062d5,
  dm 0x2700000027 0x5e9 0 0x62d5000062db,
  dm 0x2700000027 no 0x62db000062e9 0x62e9000062f0,
  dm 0x2a1000002a7 0x5ea 0 0x62f0000062f8,
  dm 0x2a1000002a7 no 0x62f800006303 0x63030000630e,
  dm 0x2a1000002a7 0x5eb 0 0x18000000182,
  dm 0x2a1000002a7 0x5ec 0 0x630e00006317,
  dm 0x2a1000002a7 0x5ed 0 0x62d5000062db,
  dm 0x23f00000249 no 0x631a0000631e 0x631a0000631e,
  dm 0x23f00000249 no 0x631e00006325 0x632500006328,
  dm 0x23f00000249 0x5ef 0 0x63280000632b,
  dm 0x23f00000249 no 0x632b00006332 0x632b00006332,
  dm 0x23f00000249 no 0x63320000633a 0x633a00006342,
  dm 0x23f00000249 0x5f0 0 0x18000000182,
  dm 0x2700000027 0x5f1 0 0x18000000182,
  dm 0x2700000027 0x5f2 0 0x618d00006191,
  dm 0x39a000003a7 0x5f3 0 0x18000000182,
  dm 0x39a000003a7 0x5f4 0 0x18000000182,
  dm 0x2700000027 0x5f6 0 0x634800006352,
  dm 0x2700000027 0x5f7 0 0x63520000635b,
  dm 0x2a1000002a7 no 0x635b00006369 0x636900006379,
  dm 0x2a1000002a7 0x5f8 0 0x637900006387,
  dm 0x2a1000002a7 0x5f9 0 0x638700006395,
  dm 0x2a1000002a7 no 0x6395000063a3 0x63a3000063aa,
  dm 0x2a1000002a7 no 0x63aa000063bc 0x63bc000063ca,
  dm 0x2a1000002a7 no 0x63ca000063dc 0x63dc000063ea,
  dm 0x2a1000002a7 0x5fa 0 0x63ea000063fe,
  dm 0x2a1000002a7 0x5fb 0 0x18000000182,
  dm 0x2700000027 no 0x640400006409 0x64090000640f,
  dm 0x2700000027 no 0x640f00006418 0x641800006421,
  dm 0x2700000027 no 0x64210000642b 0x642b00006435,
  dm 0x2700000027 no 0x64350000643b 0x643b00006441,
  dm 0x2700000027 no 0x64410000644b 0x644b00006454,
  dm 0x2700000027 0x5fd 0 0x18000000182,
  dm 0x23f00000249 0x5fe 0 0x645400006462,
  dm 0x2a1000002a7 0x601 0 0x18000000182,
  dm 0x2a1000002a7 0x602 0 0x646e00006476,
  dm 0x2700000027 no 0x647600006484 0x647600006484,
  dm 0x2700000027 no 0x64840000648b 0x648b00006493,
  dm 0x2700000027 no 0x64930000649c 0x649c000064a6,
  dm 0x2700000027 0x603 0 0x64a6000064ac,
  dm 0x2700000027 0x604 0 0x64ac000064b4,
  dm 0x2700000027 0x605 0 0x64b4000064b8,
  dm 0x2700000027 0x606 0 0x18000000182,
  dm 0x2a1000002a7 0x607 0 0x18000000182,
  dm 0x2700000027 0x608 0 0x18000000182,
  dm 0x2700000027 0x609 0 0x18000000182,
  dm 0x2700000027 0x60b 0 0x18000000182,
  dm 0x2700000027 0x60c 0 0x64be000064c4,
  dm 0x2700000027 0x60d 0 0x64c4000064cb,
  dm 0x2a1000002a7 no 0x64cb000064d7 0x64d7000064dd,
  dm 0x2700000027 0x60f 0 0x18000000182,
  dm 0x2700000027 no 0x64e7000064f3 0x64f300006501,
  dm 0x2700000027 no 0x650100006508 0x65080000650f,
  dm 0x2700000027 0x611 0 0x65170000651a]

/-- `__dr_dm`, from item 2000 on (device_repo.go:4272-4771). -/
def drDm_4 : List ModelTuple := [
  dm 0x2700000027 0x612 0 0x651a00006522,
  dm 0x2700000027 0x613 0 0x65220000652c,
  dm 0x2700000027 0x615 0 0x65350000653e,
  dm 0x2700000027 no 0x653e00006544 0x653e00006544,
  dm 0x2700000027 no 0x654400006549 0x65490000654e,
  dm 0x2700000027 0x617 0 0x3a7000003a9,
  dm 0x2700000027 0x618 0 0x65550000655c,
  dm 0x2700000027 0x619 0 0x5cf000005d1,
  dm 0x2700000027 0x61a 0 0x655c0000655e,
  dm 0x2700000027 0x61b 0 0x655e00006560,
  dm 0x2700000027 0x61c 0 0x107c0000107e,
  dm 0x2700000027 0x61e 0 0x18000000182,
  dm 0x2700000027 0x620 0 0x18000000182,
  dm 0x2700000027 no 0x657100006578 0x657800006584,
  dm 0x2700000027 no 0x65840000658c 0x658c0000658f,
  dm 0x23b0000023d 0x621 0 0x2700000027,
  dm 0x23b0000023d 0x622 0 0x18000000182,
  dm 0x23b0000023d 0x623 0 0x18000000182,
  dm 0x2700000027 0x625 0 0x18000000182,
  dm 0x2700000027 0x626 0 0x659c000065a7,
  dm 0x2700000027 no 0x65a7000065b3 0x65b3000065bf,
  dm 0x2700000027 no 0x65bf000065c9 0x65c9000065d3,
  dm 0x2700000027 0x627 0 0x65d3000065df,
  dm 0x2700000027 0x628 0 0x65df000065e7,
  dm 0x2700000027 0x629 0 0x65e7000065f1,
  dm 0x2700000027 0x62a 0 0x65f1000065ff,
  dm 0x2700000027 0x62b 0 0x65ff0000660e,
  dm 0x2700000027 0x62c 0 0x660e0000661c,
  dm 0x2700000027 0x62d 0 0x661c00006628,
  dm 0x2700000027 0x62e 0 0x662800006635,
  dm 0x2700000027 0x62f 0 0x663500006642,
  dm 0x2700000027 no 0x66420000664f 0x66420000664f,
  dm 0x2700000027 0x630 0 0x664f0000665c,
  dm 0x2700000027 no 0x665c00006668 0x665c00006668,
  dm 0x2700000027 0x631 0 0x666800006670,
  dm 0x2700000027 0x632 0 0x66700000667b,
  dm 0x2700000027 0x633 0 0x667b00006685,
  dm 0x2700000027 0x634 0 0x668500006692,
  dm 0x2700000027 no 0x66920000669f 0x669f000066ae,
  dm 0x2700000027 no 0x66ae000066be 0x66ae000066be,
  dm 0x2700000027 0x635 0 0x66be000066ca,
  dm 0x2700000027 no 0x66ca000066d8 0x66d8000066e9,
  dm 0x2700000027 0x636 0 0x66e9000066f5,
  dm 0x2700000027 0x637 0 0x66f500006703,
  dm 0x2700000027 0x638 0 0x670300006710,
  dm 0x2700000027 0x639 0 0x65df000065e7,
  dm 0x2700000027 no 0x67100000671a 0x67100000671a,
  dm 0x2700000027 0x63a 0 0x671a00006725,
  dm 0x2700000027 no 0x672500006731 0x67310000673d,
  dm 0x2700000027 no 0x673d0000674e 0x673d0000674e,
  dm 0x2700000027 no 0x674e0000675a 0x674e0000675a,
  dm 0x2700000027 0x63b 0 0x675a00006767,
  dm 0x2700000027 0x63c 0 0x67670000676e,
  dm 0x2700000027 no 0x676e00006778 0x676e00006778,
  dm 0x2700000027 no 0x677800006782 0x67820000678c,
  dm 0x2700000027 0x63d 0 0x678c0000679b,
  dm 0x2700000027 no 0x679b000067a9 0x67a9000067b7,
  dm 0x2700000027 no 0x67b7000067c0 0x67b7000067c0,
  dm 0x2700000027 0x63e 0 0x67c0000067cf,
  dm 0x2700000027 0x63f 0 0x67cf000067d9,
  dm 0x2700000027 no 0x67d9000067e3 0x67d9000067e3,
  dm 0x2700000027 no 0x67e3000067ef 0x67ef000067f7,
  dm 0x2700000027 no 0x67f700006803 0x68030000680f,
  dm 0x2700000027 no 0x680f00006817 0x680f00006817,
  dm 0x2a1000002a7 no 0x681700006825 0x68250000683c,
  dm 0x2a1000002a7 no 0x683c0000684c 0x684c0000685c,
  dm 0x2a1000002a7 no 0x685c00006870 0x685c00006870,
  dm 0x2a1000002a7 no 0x687000006880 0x687000006880,
  dm 0x2a1000002a7 0x640 0 0x688000006891,
  dm 0x2a1000002a7 no 0x68910000689f 0x689f000068ad,
  dm 0x2a1000002a7 no 0x68ad000068ba 0x68ba000068c7,
  dm 0x2a1000002a7 0x641 0 0x18000000182,
  dm 0x2700000027 0x642 0 0x18000000182,
  dm 0x2700000027 no 0x68c7000068ce 0x68ce000068da,
  dm 0x2700000027 no 0x68e6000068f0 0x68f0000068fa,
  dm 0x2700000027 no 0x68fa00006906 0x690600006912,
  dm 0x2700000027 no 0x691200006920 0x69200000692e,
  dm 0x2700000027 no 0x692e0000693b 0x693b00006948,
  dm 0x2700000027 no 0x694800006952 0x69520000695c,
  dm 0x2700000027 no 0x695c00006966 0x696600006970,
  dm 0x2700000027 0x644 0 0x697000006977,
  dm 0x2700000027 0x645 0 0x69770000697e,
  dm 0x2700000027 no 0x697e00006987 0x698700006990,
  dm 0x2700000027 no 0x69900000699b 0x699b000069a6,
  dm 0x2700000027 no 0x69a6000069ae 0x69ae000069b6,
  dm 0x2700000027 no 0x69b6000069bf 0x69bf000069c8,
  dm 0x2700000027 no 0x69c8000069d2 0x69d2000069dc,
  dm 0x2700000027 no 0x69dc000069e5 0x69e5000069ee,
  dm 0x2700000027 no 0x69ee000069f8 0x69f800006a02,
  dm 0x2700000027 no 0x6a0200006a0f 0x6a0f00006a1c,
  dm 0x2700000027 no 0x6a1c00006a24 0x6a2400006a2c,
  dm 0x2a1000002a7 no 0x6a2c00006a35 0x6a3500006a3e,
  dm 0x2700000027 0x647 0 0x6a4800006a52,
  dm 0x2700000027 no 0x6a5e00006a64 0x193300001935,
  dm 0x2700000027 no 0x6a6400006a6d 0x6a6d00006a73,
  dm 0x2700000027 no 0x6a7300006a77 0x6a7700006a7a,
  dm 0x2700000027 no 0x6a7a00006a7f 0x28a0000028c,
  dm 0x2700000027 0x649 0 0x18000000182,
  dm 0x2700000027 no 0x6a8c00006a93 0x6a9300006aa0,
  dm 0x2700000027 no 0x6aa000006aa7 0x6aa700006ab7,
  dm 0x2700000027 no 0x6ab700006abe 0x6abe00006acb,
  dm 0x2700000027 no 0x6acb00006ad2 0x6ad200006ae0,
  dm 0x2700000027 no 0x6ae000006ae7 0x6ae700006af4,
  dm 0x2700000027 no 0x6af400006afb 0x6afb00006b08,
  dm 0x2700000027 no 0x6b0800006b0f 0x6b0f00006b20,
  dm 0x2700000027 no 0x6b2000006b27 0x6b2700006b31,
  dm 0x2700000027 no 0x6b3100006b3b 0x6b3b00006b48,
  dm 0x2700000027 0x64c 0 0x6b4d00006b50,
  dm 0x2700000027 0x64d 0 0x6b5000006b5a,
  dm 0x2700000027 0x64e 0 0x6b5a00006b5f,
  dm 0x2700000027 0x64f 0 0x1940000019b,
  dm 0x2700000027 0x650 0 0x6b5f00006b66,
  dm 0x2700000027 0x651 0 0x6b6600006b6d,
  dm 0x2700000027 0x652 0 0x6b6d00006b72,
  dm 0x2700000027 0x653 0 0x500000005006,
  dm 0x2700000027 0x654 0 0x6b7200006b7c,
  dm 0x2700000027 0x655 0 0x6b7c00006b82,
  dm 0x2700000027 0x656 0 0x6b8200006b89,
  dm 0x2700000027 0x657 0 0x6b8900006b92,
  dm 0x2700000027 0x658 0 0x6b9200006b9d,
  dm 0x2700000027 0x659 0 0x6b9d00006ba6,
  dm 0x2700000027 0x65a 0 0x6ba600006bb0,
  dm 0x2700000027 0x65b 0 0x6bb000006bb9,
  dm 0x2700000027 0x65c 0 0x6bb900006bc1,
  dm 0x2700000027 0x65d 0 0x6bc100006bc7,
  dm 0x2700000027 no 0x6bc700006bd4 0x6bd400006be1,
  dm 0x2700000027 0x65e 0 0x6be100006bea,
  dm 0x2700000027 0x65f 0 0x6bea00006bf2,
  dm 0x2700000027 0x660 0 0x6bf200006bfb,
  dm 0x2700000027 0x661 0 0x6bfb00006c03,
  dm 0x2700000027 0x662 0 0x6c0300006c07,
  dm 0x2700000027 0x663 0 0x6c0700006c0d,
  dm 0xc9b00000ca2 0x664 0 0x6c0d00006c17,
  dm 0x2700000027 0x665 0 0x18000000182,
  dm 0 no 0 0x18000000182,
  dm 0 no 0 0x18000000182,
  dm 0x2700000027 0x669 0 0x6c3000006c3b,
  dm 0x2700000027 0x66a 0 0x500000005006,
  dm 0x2700000027 0x66b 0 0x18000000182,
  dm 0x2700000027 no 0x6c4200006c48 0x6c4800006c4f,
  dm 0x2700000027 no 0x6c4f00006c55 0x6c5500006c5c,
  dm 0x2700000027 no 0x6c5c00006c61 0x6c6100006c67,
  dm 0x2700000027 0x66d 0 0x18000000182,
  dm 0x2700000027 0x66e 0 0x18000000182,
  dm 0x2700000027 0x670 0 0x6c7b00006c87,
  dm 0x2700000027 no 0x6c8700006c8f 0x6c8f00006c9d,
  dm 0x2700000027 no 0x6c9d00006ca2 0x6ca200006cab,
  dm 0x2700000027 no 0x6cab00006cb6 0x6cb600006cc0,
  dm 0x2700000027 0x671 0 0x6cc000006cca,
  dm 0x23f00000249 0x672 0 0x6cca00006cd6,
  dm 0x2700000027 no 0x6ce200006cf2 0x6cf200006d02,
  dm 0x2700000027 0x674 0 0x18000000182,
  dm 0x2a1000002a7 0x675 0 0x18000000182,
  dm 0x2700000027 0x677 0 0x6d0b00006d1e,
  dm 0x2700000027 0x678 0 0x6d1e00006d2d,
  dm 0x2700000027 0x679 0 0x6d2d00006d39,
  dm 0x2700000027 0x67a 0 0x6d3900006d44,
  dm 0x2700000027 0x67b 0 0x6d4400006d54,
  dm 0x2700000027 0x67c 0 0x6d5400006d60,
  dm 0x2700000027 0x67d 0 0x6d6000006d6d,
  dm 0x2700000027 0x67e 0 0x6d6d00006d78,
  dm 0x2700000027 0x67f 0 0x6d7800006d81,
  dm 0x2700000027 no 0x6d8100006d93 0x6d8100006d93,
  dm 0x2700000027 no 0x6d9300006da1 0x6d9300006da1,
  dm 0x2700000027 no 0x6da100006dad 0x6da100006dad,
  dm 0x2700000027 no 0x6dad00006db4 0x6db400006dbc,
  dm 0x2700000027 0x680 0 0x6dbc00006dc7,
  dm 0x2700000027 0x681 0 0x18000000182,
  dm 0x2700000027 0x682 0 0x6dc700006dd0,
  dm 0x2700000027 0x683 0 0x6dd000006dd4,
  dm 0x2a1000002a7 0x684 0 0x6dd400006de4,
  dm 0x2a1000002a7 0x685 0 0x6de400006df5,
  dm 0x2700000027 0x687 0 0x6dfa00006e02,
  dm 0x2700000027 0x688 0 0x6e0200006e0c,
  dm 0x2700000027 0x689 0 0x6e0c00006e15,
  dm 0x2700000027 0x68a 0 0x6e1500006e1e,
  dm 0x2700000027 0x68b 0 0x6e1e00006e29,
  dm 0x2700000027 0x68c 0 0x6e2900006e34,
  dm 0x2700000027 0x68d 0 0x6e3400006e3f,
  dm 0 no 0 0x18000000182,
  dm 0x2700000027 0x68f 0 0x6e4f00006e5a,
  dm 0x2700000027 0x691 0 0x6e6000006e64,
  dm 0x2a1000002a7 0x692 0 0x6e6400006e6a,
  dm 0x2a1000002a7 0x693 0 0x6e6a00006e72,
  dm 0 no 0 0x18000000182,
  dm 0x2700000027 no 0x6e8200006e8a 0x6e8a00006e9c,
  dm 0x2700000027 0x697 0 0x6ea200006eaa,
  dm 0x2700000027 0x698 0 0x6eaa00006eb2,
  dm 0x2700000027 0x699 0 0x6eb200006eba,
  dm 0x2700000027 0x69a 0 0x6eba00006ec2,
  dm 0x2700000027 0x69b 0 0x6ec200006eca,
  dm 0x2700000027 0x69c 0 0x6eca00006ed2,
  dm 0x2700000027 0x69d 0 0x18000000182,
  dm 0x2700000027 0x69f 0 0x18000000182,
  dm 0x2700000027 0x6a0 0 0x6ee000006ee7,
  dm 0x2a1000002a7 0x6a1 0 0x18000000182,
  dm 0x2a1000002a7 0x6a2 0 0x18000000182,
  dm 0x2a1000002a7 0x6a3 0 0x6ee700006ef9,
  dm 0x2700000027 0x6a4 0 0x6ef900006f0b,
  dm 0x2700000027 0x6a5 0 0x6f0b00006f19,
  dm 0x2700000027 0x6a6 0 0x6f1900006f2e,
  dm 0x2700000027 0x6a7 0 0x6f2e00006f3e,
  dm 0x2700000027 0x6a8 0 0x6f3e00006f4b,
  dm 0x2700000027 0x6a9 0 0x6f3e00006f4b,
  dm 0x2700000027 0x6aa 0 0x6f3e00006f4b,
  dm 0x2a1000002a7 no 0x6f4b00006f5b 0x6f5b00006f60,
  dm 0x2a1000002a7 no 0x6f6000006f64 0x6f6400006f66,
  dm 0x2a1000002a7 no 0x6f6600006f70 0x6f7000006f72,
  dm 0x2a1000002a7 no 0x6f7200006f84 0x6f8400006f89,
  dm 0x2a1000002a7 0x6ab 0 0x18000000182,
  dm 0x2a1000002a7 no 0x6f8900006f90 0x6f9000006f97,
  dm 0x2a1000002a7 0x6ac 0 0x18000000182,
  dm 0x2a1000002a7 0x6ad 0 0x18000000182,
  dm 0x2a1000002a7 no 0x6f9700006fa1 0x6fa100006fa3,
  dm 0x2a1000002a7 0x6ae 0 0x18000000182,
  dm 0x2a1000002a7 no 0x6fa300006fb2 0x6fb200006fb4,
  dm 0x2a1000002a7 no 0x6fb400006fc3 0x6fc300006fc5,
  dm 0x23b0000023d no 0x6fc500006fd0 0x6fd000006fde,
  dm 0x23b0000023d 0x6af 0 0x2700000027,
  dm 0x2a1000002a7 no 0x6fe300006fe8 0x6fe300006fe8,
  dm 0x2a1000002a7 no 0x6fe800006fee 0x6fe800006fee,
  dm 0x2a1000002a7 no 0x6fee00006ff9 0x6ff900007004,
  dm 0x2700000027 0x6b1 0 0x18000000182,
  dm 0 no 0 0x700d00007014,
  dm 0 no 0 0x18000000182,
  dm 0x2700000027 0x6b5 0 0x18000000182,
  dm 0x2700000027 0x6b6 0 0x18000000182,
  dm 0xc9b00000ca2 no 0x702000007038 0x702000007038,
  dm 0x2700000027 0x6b8 0 0x18000000182,
  dm 0x2a1000002a7 0x6b9 0 0x4c4300004c49,
  dm 0x2a1000002a7 0x6ba 0 0x70400000704a,
  dm 0x2700000027 0x6bb 0 0x18000000182,
  dm 0 no 0 0x18000000182,
  dm 0x2700000027 0x6be 0 0x18000000182,
  dm 0x2700000027 no 0x705a00007062 0x705a00007062,
  dm 0x2a1000002a7 no 0x706200007067 0x70670000706f,
  dm 0x2a1000002a7 0x6bf 0 0x706f00007079,
  dm 0x2a1000002a7 no 0x70790000708c 0x708c0000709f,
  dm 0x2a1000002a7 no 0x709f000070af 0x70af000070b7,
  dm 0x2a1000002a7 0x6c1 0 0x70bd000070c4,
  dm 0x2a1000002a7 0x6c2 0 0x6b6d00006b72,
  dm 0x2a1000002a7 0x6c3 0 0x18000000182,
  dm 0x2a1000002a7 0x6c4 0 0x6b6d00006b72,
  dm 0x39a000003a7 0x6c5 0 0x18000000182,
  dm 0x2700000027 no 0x70c4000070cd 0x70cd000070d7,
  dm 0x2700000027 no 0x70d7000070df 0x70df000070e7,
  dm 0x2700000027 0x6c6 0 0x70e7000070ee,
  dm 0x2700000027 no 0x70ee000070f5 0x70f5000070f7,
  dm 0x2700000027 no 0x70f7000070ff 0x70ff00007107,
  dm 0x2700000027 0x6c7 0 0x71070000710f,
  dm 0x2700000027 0x6c8 0 0x710f00007116,
  dm 0x2700000027 0x6c9 0 0x71160000711e,
  dm 0x2700000027 0x6ca 0 0x711e00007120,
  dm 0x2700000027 0x6cb 0 0x712000007122,
  dm 0x2700000027 0x6cc 0 0x712200007125,
  dm 0x2700000027 0x6cd 0 0x712500007127,
  dm 0x2700000027 0x6ce 0 0x1940000019b,
  dm 0x2700000027 0x6cf 0 0x500000005006,
  dm 0x2700000027 0x6d0 0 0x4fe400004feb,
  dm 0x2700000027 0x6d1 0 0x18000000182,
  dm 0x2700000027 0x6d2 0 0x712700007130,
  dm 0x2700000027 0x6d3 0 0x713000007133,
  dm 0x2700000027 0x6d4 0 0x713300007139,
  dm 0x2700000027 0x6d5 0 0x713900007147,
  dm 0x2700000027 0x6d6 0 0x71470000714a,
  dm 0x2700000027 0x6d7 0 0x714a00007153,
  dm 0x2700000027 no 0x715300007158 0x715800007161,
  dm 0x2700000027 no 0x716100007167 0x716700007170,
  dm 0x2700000027 no 0x717000007176 0x717600007180,
  dm 0x2700000027 no 0x718000007186 0x71860000718f,
  dm 0x2700000027 no 0x718f00007195 0x7195000071a3,
  dm 0x2700000027 no 0x71a3000071a9 0x71a9000071b2,
  dm 0x2700000027 no 0x71b2000071b8 0x71b8000071c5,
  dm 0x2700000027 0x6d8 0 0x71c5000071cd,
  dm 0x2700000027 0x6d9 0 0x71cd000071d9,
  dm 0x2700000027 0x6da 0 0x71d9000071e1,
  dm 0x2700000027 0x6db 0 0x71e1000071e9,
  dm 0x2700000027 no 0x71e9000071f4 0x71f4000071ff,
  dm 0x2700000027 no 0x71ff0000720e 0x720e0000721d,
  dm 0x2700000027 no 0x721d00007228 0x721d00007228,
  dm 0x2700000027 0x6dc 0 0x722800007234,
  dm 0x2700000027 0x6dd 0 0x723400007242,
  dm 0x2700000027 0x6de 0 0x72420000724f,
  dm 0x2700000027 0x6df 0 0x724f0000725e,
  dm 0x2700000027 0x6e0 0 0x725e00007268,
  dm 0x2700000027 0x6e1 0 0x200e00002015,
  dm 0x2700000027 0x6e2 0 0x72680000726f,
  dm 0x2700000027 0x6e3 0 0x726f0000727c,
  dm 0x2700000027 0x6e4 0 0x727c0000728c,
  dm 0x2700000027 0x6e5 0 0x728c00007294,
  dm 0x2700000027 0x6e6 0 0x72940000729e,
  dm 0x2700000027 0x6e7 0 0x729e000072a9,
  dm 0x2700000027 0x6e8 0 0x72a9000072b8,
  dm 0x2700000027 0x6e9 0 0x72b8000072c8,
  dm 0x2700000027 0x6ea 0 0x72c8000072d5,
  dm 0x2700000027 0x6eb 0 0x72d5000072de,
  dm 0x2700000027 0x6ec 0 0x72de000072ec,
  dm 0x2700000027 0x6ed 0 0x72ec000072fb,
  dm 0x2700000027 no 0x72fb00007303 0x72fb00007303,
  dm 0x2700000027 0x6ee 0 0x730300007310,
  dm 0x2700000027 0x6ef 0 0x73100000731e,
  dm 0x2700000027 no 0x731e0000732c 0x731e0000732c,
  dm 0x2700000027 0x6f0 0 0x732c00007335,
  dm 0x2700000027 no 0x733500007341 0x733500007341,
  dm 0x2700000027 0x6f1 0 0x734100007347,
  dm 0 no 0 0x73500000735e,
  dm 0x2700000027 0x6f4 0 0x18000000182,
  dm 0x2700000027 no 0x736400007370 0x737000007383,
  dm 0x2700000027 0x6f6 0 0x738b0000738e,
  dm 0x2700000027 no 0x738e00007399 0x73990000739b,
  dm 0x2700000027 0x6f8 0 0x73a2000073ac,
  dm 0x2700000027 0x6f9 0 0x73ac000073b6,
  dm 0x2700000027 0x6fa 0 0x73b6000073c6,
  dm 0x2700000027 0x6fb 0 0x73c6000073d5,
  dm 0x2700000027 0x6fc 0 0x73d5000073e2,
  dm 0x2700000027 0x6fd 0 0x73e2000073ef,
  dm 0x2700000027 0x6fe 0 0x73ef000073fd,
  dm 0x2700000027 0x6ff 0 0x73fd0000740b,
  dm 0x2700000027 0x700 0 0x740b00007418,
  dm 0x2700000027 0x701 0 0x741800007426,
  dm 0x2700000027 0x702 0 0x74260000742e,
  dm 0x2700000027 no 0x74350000743c 0x743c00007442,
  dm 0x2700000027 0x704 0 0x74420000744d,
  dm 0x2700000027 0x705 0 0x744d00007459,
  dm 0x2700000027 0x706 0 0x745900007464,
  dm 0x2700000027 0x707 0 0x74640000746b,
  dm 0xdfd00000e04 no 0x746b0000747b 0x747b00007485,
  dm 0x2a1000002a7 no 0x74850000748d 0x748d00007493,
  dm 0x2700000027 0x708 0 0x749300007498,
  dm 0x2700000027 0x709 0 0x28a0000028c,
  dm 0x2700000027 no 0x74980000749f 0x749f000074a6,
  dm 0x2700000027 0x70a 0 0x74a6000074a9,
  dm 0x2700000027 0x70b 0 0x74a9000074b0,
  dm 0x2700000027 0x70c 0 0x74b0000074b6,
  dm 0x2700000027 0x70d 0 0x74b6000074bc,
  dm 0x2700000027 0x70e 0 0x74bc000074c4,
  dm 0x2700000027 0x70f 0 0x74c4000074cf,
  dm 0x2700000027 0x710 0 0x74cf000074db,
  dm 0x2700000027 0x711 0 0x74db000074df,
  dm 0x2700000027 0x712 0 0x74df000074e2,
  dm 0x2700000027 0x713 0 0x74e2000074e8,
  dm 0x2700000027 0x714 0 0x74e8000074ee,
  dm 0x2700000027 0x715 0 0x1c8700001c89,
  dm 0x2700000027 0x716 0 0x74ee000074f5,
  dm 0x2700000027 0x717 0 0x74f5000074fb,
  dm 0x2700000027 0x718 0 0x74fb00007506,
  dm 0x2700000027 0x719 0 0x75060000750c,
  dm 0x2700000027 0x71a 0 0x750c00007512,
  dm 0x2700000027 0x71b 0 0x751200007519,
  dm 0x2700000027 0x71c 0 0x751900007520,
  dm 0x2700000027 0x71d 0 0x75200000752b,
  dm 0x2700000027 0x71e 0 0x752b00007536,
  dm 0x2700000027 0x71f 0 0x75360000753e,
  dm 0x2700000027 0x720 0 0x18000000182,
  dm 0x2700000027 0x721 0 0x753e00007543,
  dm 0x2700000027 0x722 0 0x754300007548,
  dm 0x2700000027 0x723 0 0x75480000754a,
  dm 0x2700000027 0x724 0 0x754a0000754f,
  dm 0x2700000027 0x725 0 0x18000000182,
  dm 0x2700000027 0x726 0 0x754f00007552,
  dm 0x2700000027 no 0x755200007556 0x75560000755c,
  dm 0x2700000027 no 0x755c00007560 0x756000007568,
  dm 0x2700000027 0x727 0 0x75680000756e,
  dm 0x2700000027 0x728 0 0x756e00007574,
  dm 0x2700000027 0x729 0 0x75740000757f,
  dm 0x2700000027 0x72a 0 0x757f0000758a,
  dm 0x2700000027 0x72b 0 0x18000000182,
  dm 0x2700000027 0x72c 0 0x18000000182,
  dm 0x2700000027 0x72d 0 0x18000000182,
  dm 0x2700000027 0x72e 0 0x18000000182,
  dm 0x2700000027 no 0x758a0000758c 0x758c00007594,
  dm 0 no 0 0x18000000182,
  dm 0x2a1000002a7 no 0x75a2000075b5 0x75b5000075c0,
  dm 0x2700000027 0x730 0 0x18000000182,
  dm 0 no 0 0x18000000182,
  dm 0x2700000027 no 0x75cd000075d3 0x75d3000075d9,
  dm 0x2700000027 no 0x75d9000075de 0x75de000075e4,
  dm 0x2700000027 0x733 0 0x75e4000075ec,
  dm 0x39a000003a7 0x735 0 0x75fb00007605,
  dm 0x39a000003a7 0x736 0 0x76050000760f,
  dm 0x2700000027 no 0x760f00007616 0x761600007621,
  dm 0x2700000027 no 0x762100007627 0x76270000762f,
  dm 0x2700000027 no 0x762f00007636 0x76360000763e,
  dm 0x2700000027 no 0x763e00007644 0x76440000764e,
  dm 0x2700000027 no 0x764e00007654 0x76540000765c,
  dm 0x2700000027 no 0x765c00007662 0x766200007669,
  dm 0x2700000027 no 0x76690000766f 0x766f00007679,
  dm 0x2700000027 no 0x767900007681 0x768100007689,
  dm 0x2700000027 no 0x76890000768f 0x768f00007693,
  dm 0x2700000027 no 0x769300007699 0x76990000769f,
  dm 0x2700000027 no 0x769f000076a7 0x76a7000076ad,
  dm 0x2700000027 no 0x76ad000076b4 0x76b4000076ba,
  dm 0x2700000027 no 0x76ba000076c0 0x76c0000076c6,
  dm 0x2700000027 no 0x76c6000076cc 0x76cc000076d2,
  dm 0x2700000027 no 0x76d2000076d7 0x76d7000076e0,
  dm 0x2700000027 no 0x76e0000076e8 0x76e8000076f3,
  dm 0x2700000027 no 0x76f3000076fa 0x76fa00007707,
  dm 0x2700000027 no 0x77070000770d 0x770d00007714,
  dm 0x2700000027 no 0x77140000771a 0x771a00007723,
  dm 0x2700000027 no 0x772300007729 0x772900007732,
  dm 0x2700000027 no 0x77320000773a 0x773a00007742,
  dm 0x2700000027 no 0x774200007749 0x774900007754,
  dm 0x39a000003a7 0x737 0 0x18000000182,
  dm 0 no 0 0x77590000775d,
  dm 0x2700000027 0x73a 0 0x776600007773,
  dm 0x2700000027 0x73b 0 0x77730000777d,
  dm 0x39a000003a7 0x73c 0 0x777d00007784,
  dm 0x2700000027 0x73d 0 0x77840000778e,
  dm 0x2700000027 0x73e 0 0x778e00007795,
  dm 0x2700000027 0x73f 0 0x18000000182,
  dm 0x2700000027 no 0x7795000077a1 0x77a1000077a9,
  dm 0x2700000027 no 0x77a9000077b3 0x77b3000077bd,
  dm 0x2700000027 0x740 0 0x77bd000077cc,
  dm 0x2700000027 0x741 0 0x77cc000077d6,
  dm 0x2700000027 0x742 0 0x77d6000077e0,
  dm 0x2a1000002a7 0x743 0 0x77e0000077e8,
  dm 0x23b0000023d 0x745 0 0x2700000027,
  dm 0x2700000027 no 0x77ed000077f8 0x77f800007804,
  dm 0x2700000027 no 0x780b00007814 0x78140000781d,
  dm 0x2700000027 0x748 0 0x781d00007824,
  dm 0x2700000027 0x749 0 0x782400007829,
  dm 0x2700000027 0x74a 0 0x78290000782f,
  dm 0x2700000027 no 0x782f00007834 0x78340000783a,
  dm 0x2700000027 no 0x783a00007842 0x784200007849,
  dm 0x2700000027 0x74b 0 0x784900007850,
  dm 0x2700000027 no 0x785000007855 0x78550000785c,
  dm 0x2700000027 0x74c 0 0x785c00007867,
  dm 0x2700000027 no 0x78670000786c 0x784200007849,
  dm 0x2700000027 no 0x786c00007874 0x78740000787c,
  dm 0x2700000027 no 0x787c00007881 0x788100007888,
  dm 0x2700000027 0x74d 0 0x788800007893,
  dm 0x2700000027 0x74e 0 0x78930000789d,
  dm 0x2700000027 0x74f 0 0x789d000078ad,
  dm 0x2700000027 0x750 0 0x78ad000078be,
  dm 0x2700000027 0x751 0 0x78be000078c6,
  dm 0x2700000027 0x752 0 0x78c6000078d2,
  dm 0x2700000027 0x753 0 0x78d2000078e3,
  dm 0x2700000027 0x754 0 0x78e3000078ea,
  dm 0x2700000027 0x755 0 0x18000000182,
  dm 0x2700000027 0x756 0 0x18000000182,
  dm 0x2700000027 0x757 0 0x18000000182,
  dm 0x2700000027 no 0x78f4000078fc 0x78fc000078fe,
  dm 0x2700000027 no 0x78fe00007907 0x79070000790a,
  dm 0x2700000027 0x759 0 0x18000000182,
  dm 0x2700000027 0x75b 0 0x79170000791d,
  dm 0x2700000027 0x75c 0 0x791d00007924,
  dm 0x2700000027 0x75d 0 0x18000000182,
  dm 0x2700000027 0x75e 0 0x18000000182,
  dm 0 no 0 0x18000000182,
  dm 0x2a1000002a7 no 0x79300000793a 0x793a00007945,
  dm 0x2a1000002a7 0x761 0 0x18000000182,
  dm 0x2700000027 0x762 0 0x18000000182,
  dm 0 no 0 0x18000000182,
  dm 0 no 0 0x18000000182,
  dm 0 no 0 0x79530000795c,
  dm 0x2700000027 0x767 0 0x796000007968,
  dm 0x2700000027 0x768 0 0x796800007978,
  dm 0x2700000027 0x769 0 0x797800007985,
  dm 0x2700000027 no 0x798500007990 0x79900000799c,
  dm 0x2700000027 0x76a 0 0x796000007968,
  dm 0x2700000027 0x76b 0 0x799c000079ac,
  dm 0x2700000027 0x76c 0 0x79ac000079bd,
  dm 0x2700000027 0x76d 0 0x79bd000079c7,
  dm 0x2700000027 0x76e 0 0x79c7000079d1,
  dm 0x2700000027 0x76f 0 0x79d1000079dc,
  dm 0xdfd00000e04 0x770 0 0x79dc000079e7,
  dm 0xdfd00000e04 0x771 0 0x79e7000079f2,
  dm 0x2a1000002a7 no 0x79f200007a03 0x7a0300007a14,
  dm 0x2a1000002a7 0x772 0 0x7a1400007a1c,
  dm 0x2a1000002a7 0x773 0 0x18000000182,
  dm 0x2a1000002a7 0x774 0 0x7a1400007a1c,
  dm 0x2a1000002a7 0x775 0 0x7a1400007a1c,
  dm 0x2700000027 0x776 0 0x61be000061c5,
  dm 0x2700000027 0x777 0 0x18000000182,
  dm 0x2700000027 0x778 0 0x7a1c00007a22,
  dm 0x39a000003a7 no 0x7a2200007a2b 0x7a2200007a2b,
  dm 0x1060000010d 0x779 0 0x7a2b00007a30,
  dm 0x23b0000023d 0x77a 0 0x18000000182,
  dm 0xc9b00000ca2 0x77b 0 0x7a3000007a35,
  dm 0x2700000027 0x77c 0 0x18000000182,
  dm 0x2700000027 0x77d 0 0x18000000182,
  dm 0x2700000027 0x77e 0 0x18000000182,
  dm 0 no 0 0x18000000182,
  dm 0x2700000027 no 0x7a3b00007a44 0x7a4400007a4d,
  dm 0x2700000027 0x781 0 0x7a4d00007a56,
  dm 0x2700000027 no 0x7a5600007a5e 0x7a5e00007a66,
  dm 0x2700000027 no 0x7a6600007a6d 0x7a6d00007a74,
  dm 0x2a1000002a7 0x783 0 0x7a7900007a83,
  dm 0x2a1000002a7 0x784 0 0x7a8300007a8c,
  dm 0 no 0 0x7a9100007a99,
  dm 0x2700000027 0x787 0 0x18000000182,
  dm 0x23f00000249 0x788 0 0x7aa000007aa4,
  dm 0 no 0 0x4c4f00004c57,
  dm 0x2700000027 no 0x7ab300007ab9 0x7ab300007ab9,
  dm 0x2700000027 0x78b 0 0x7ab900007ac3,
  dm 0x23b0000023d 0x78c 0 0x18000000182,
  dm 0 no 0 0x18000000182,
  dm 0 no 0 0x18000000182,
  dm 0x2700000027 0x790 0 0x7ad400007ade,
  dm 0x2700000027 no 0x7ade00007ae4 0x7ae400007af0]

/-- `__dr_dm`, from item 2500 on (device_repo.go:4772-5271). -/
def drDm_5 : List ModelTuple := [
  dm 0x2700000027 0x791 0 0x7af000007afc,
  dm 0x2700000027 no 0x7afc00007b06 0x7b0600007b11,
  dm 0x2700000027 0x792 0 0x7b1100007b1a,
  dm 0x2700000027 0x794 0 0x18000000182,
  dm 0x2700000027 no 0x7b1f00007b27 0x7b2700007b2c,
  dm 0x2700000027 no 0x7b2c00007b32 0x7b3200007b38,
  dm 0x2a1000002a7 0x795 0 0x7b3800007b3f,
  dm 0x2a1000002a7 no 0x7b3f00007b47 0x7b4700007b4f,
  dm 0x39a000003a7 0x796 0 0x7b4f00007b55,
  dm 0x2700000027 0x798 0 0x7b5700007b5f,
  dm 0x2700000027 0x799 0 0x7b5f00007b69,
  dm 0x2700000027 no 0x7b6900007b7a 0x7b7a00007b88,
  dm 0x2a1000002a7 no 0x7b8800007b96 0x7b9600007ba2,
  dm 0x2a1000002a7 0x79a 0 0x18000000182,
  dm 0x2700000027 0x79c 0 0x18000000182,
  dm 0x2700000027 0x79e 0 0x7baa00007bbb,
  dm 0x2700000027 0x79f 0 0x18000000182,
  dm 0x2700000027 0x7a0 0 0x7bbb00007bc0,
  dm 0x2a1000002a7 0x7a1 0 0x7bc000007bc9,
  dm 0x2700000027 0x7a2 0 0x18000000182,
  dm 0 no 0 0x18000000182,
  dm 0x2700000027 no 0x7bd300007bdb 0x7bdb00007bdf,
  dm 0x2700000027 0x7a5 0 0x18000000182,
  dm 0 no 0 0x18000000182,
  dm 0 no 0 0x18000000182,
  dm 0 no 0 0x18000000182,
  dm 0 no 0 0x7bfb00007c01,
  dm 0x2700000027 0x7ab 0 0x18000000182,
  dm 0x2a1000002a7 0x7ac 0 0x18000000182,
  dm 0x2700000027 0x7ae 0 0x7c1300007c1d,
  dm 0x23b0000023d 0x7af 0 0x18000000182,
  dm 0x23b0000023d 0x7b0 0 0x18000000182,
  dm 0x2700000027 0x7b2 0 0x7c2200007c2c,
  dm 0x2a1000002a7 no 0x7c2c00007c37 0x7c3700007c42,
  dm 0x2a1000002a7 0x7b3 0 0x7c4200007c4a,
  dm 0x2a1000002a7 0x7b4 0 0x7c4a00007c53,
  dm 0x2700000027 no 0x7c5c00007c62 0x7c5c00007c62,
  dm 0x2700000027 0x7b6 0 0x18000000182,
  dm 0x2700000027 no 0x7c6600007c72 0x7c7200007c7c,
  dm 0x23b0000023d no 0x7c7c00007c8f 0x7c8f00007ca2,
  dm 0 no 0 0x18000000182,
  dm 0 no 0 0x7cb000007cb8,
  dm 0 no 0 0x18000000182,
  dm 0x2700000027 0x7ba 0 0x18000000182,
  dm 0x2700000027 0x7bb 0 0x18000000182,
  dm 0x2700000027 0x7bd 0 0x7cd400007ce5,
  dm 0x2a1000002a7 no 0x7ce500007ced 0x7ced00007cf8,
  dm 0x2700000027 no 0x7d0400007d10 0x7d1000007d15,
  dm 0x2700000027 no 0x7d1500007d21 0x7d2100007d26,
  dm 0x2700000027 no 0x7d2e00007d39 0x7d3900007d44,
  dm 0 no 0 0x7d5200007d5a,
  dm 0 no 0 0x18000000182,
  dm 0x2700000027 no 0x7d6400007d6a 0x7d6a00007d70,
  dm 0x2700000027 0x7c1 0 0x7d7000007d7d,
  dm 0x2700000027 0x7c2 0 0x7d7d00007d8b,
  dm 0x2700000027 0x7c3 0 0x7d8b00007d94,
  dm 0x2700000027 no 0x7d9400007d9a 0x7d9a00007d9e,
  dm 0x2700000027 no 0x7d9e00007da4 0x7da400007daa,
  dm 0x2700000027 no 0x7daa00007db4 0x7db400007dbe,
  dm 0x2700000027 0x7c4 0 0x550900005510,
  dm 0x2700000027 0x7c5 0 0x18000000182,
  dm 0 no 0 0x18000000182,
  dm 0x2700000027 no 0x7dc800007dcd 0x7dc800007dcd,
  dm 0x2a1000002a7 0x7c8 0 0x7dcd00007dd5,
  dm 0x2700000027 0x7c9 0 0x7dd500007dda,
  dm 0x2700000027 0x7ca 0 0x7dda00007de3,
  dm 0xc9b00000ca2 0x7cb 0 0x18000000182,
  dm 0xc9b00000ca2 0x7cc 0 0x7de300007dec,
  dm 0xc9b00000ca2 0x7cd 0 0x7dec00007df9,
  dm 0x2a1000002a7 0x7ce 0 0x7df900007e03,
  dm 0x2a1000002a7 0x7cf 0 0x6b6d00006b72,
  dm 0xc9b00000ca2 0x7d0 0 0x18000000182,
  dm 0x2a1000002a7 0x7d1 0 0x18000000182,
  dm 0x2700000027 0x7d2 0 0x18000000182,
  dm 0x2700000027 0x7d3 0 0x18000000182,
  dm 0 no 0 0x7e0900007e11,
  dm 0 no 0 0xe3400000e3c,
  dm 0x2700000027 0x7d6 0 0x7e2400007e2a,
  dm 0x2700000027 0x7d7 0 0x7e2400007e2a,
  dm 0x2700000027 0x7d8 0 0x18000000182,
  dm 0x23f00000249 0x7d9 0 0x7e2a00007e30,
  dm 0x2700000027 0x7da 0 0x18000000182,
  dm 0x2700000027 0x7db 0 0x18000000182,
  dm 0x2700000027 0x7dd 0 0x18000000182,
  dm 0x2700000027 0x7de 0 0x18000000182,
  dm 0 no 0 0x18000000182,
  dm 0 no 0 0x18000000182,
  dm 0x2700000027 no 0x7e4b00007e55 0x7e5500007e61,
  dm 0x2700000027 0x7e2 0 0x7e6100007e64,
  dm 0x2700000027 0x7e3 0 0x7e6400007e68,
  dm 0x2700000027 no 0x7e6800007e6d 0x7e6800007e6d,
  dm 0x2700000027 no 0x7e6d00007e7b 0x7e7b00007e83,
  dm 0x2700000027 0x7e4 0 0x18000000182,
  dm 0x2700000027 0x7e6 0 0x18000000182,
  dm 0x23f00000249 0x7e9 0 0x18000000182,
  dm 0x2700000027 no 0x7e9d00007ea4 0x7e9d00007ea4,
  dm 0x2700000027 0x7ea 0 0x7e6400007e68,
  dm 0x2700000027 0x7eb 0 0x18000000182,
  dm 0x2700000027 0x7ed 0 0x7ea900007eb6,
  dm 0x2700000027 0x7ee 0 0x7eb600007ec8,
  dm 0x2700000027 0x7ef 0 0x7ec800007ed6,
  dm 0x2700000027 0x7f0 0 0x7ed600007eea,
  dm 0x2700000027 0x7f1 0 0x7eea00007efa,
  dm 0x2700000027 0x7f2 0 0x7efa00007f0c,
  dm 0x2700000027 0x7f3 0 0x7f0c00007f16,
  dm 0x2700000027 0x7f4 0 0x7f1600007f22,
  dm 0x2700000027 0x7f5 0 0x7f2200007f33,
  dm 0x2700000027 0x7f6 0 0x7f3300007f42,
  dm 0x2700000027 0x7f7 0 0x7f0c00007f16,
  dm 0x2a1000002a7 0x7f9 0 0x7f4700007f4d,
  dm 0x2a1000002a7 no 0x7f4d00007f55 0x7f5500007f60,
  dm 0x2a1000002a7 0x7fa 0 0x7f6000007f66,
  dm 0x2a1000002a7 0x7fb 0 0x7f6600007f75,
  dm 0x2a1000002a7 0x7fc 0 0x7f7500007f80,
  dm 0x2a1000002a7 0x7fd 0 0x7f8000007f8e,
  dm 0x2a1000002a7 0x7fe 0 0x7f8e00007f9b,
  dm 0x2a1000002a7 0x7ff 0 0x7f9b00007fa7,
  dm 0x2a1000002a7 0x800 0 0x7fa700007fb2,
  dm 0x2a1000002a7 0x801 0 0x7fb200007fbe,
  dm 0x2a1000002a7 0x802 0 0x7fbe00007fc9,
  dm 0x2a1000002a7 0x803 0 0x7fc900007fd7,
  dm 0x2a1000002a7 0x804 0 0x7fd700007fe4,
  dm 0x2a1000002a7 0x805 0 0x7fe400007ff3,
  dm 0x2700000027 no 0x7ff300007ff7 0x7ff300007ff7,
  dm 0x2700000027 no 0x7ff700007fff 0x7fff0000800a,
  dm 0x2700000027 no 0x800a00008012 0x80120000801d,
  dm 0x2700000027 no 0x801d00008025 0x802500008030,
  dm 0x2700000027 0x806 0 0x18000000182,
  dm 0x2700000027 no 0x803000008036 0x80360000803e,
  dm 0x2700000027 no 0x803e00008046 0x804600008052,
  dm 0x2700000027 no 0x80520000805a 0x805a00008065,
  dm 0x2700000027 no 0x80650000806d 0x806d00008079,
  dm 0x2700000027 no 0x807900008081 0x80810000808d,
  dm 0x2700000027 no 0x808d00008095 0x80950000809f,
  dm 0x2700000027 no 0x809f000080a7 0x80a7000080b5,
  dm 0x2700000027 no 0x80b5000080bd 0x80bd000080c9,
  dm 0x2700000027 no 0x80c9000080d1 0x80d1000080dd,
  dm 0x2700000027 no 0x80dd000080e5 0x80e5000080f1,
  dm 0x2700000027 no 0x80f1000080f9 0x80f900008104,
  dm 0x2700000027 0x807 0 0x81040000810e,
  dm 0x2700000027 0x808 0 0x18000000182,
  dm 0x2700000027 no 0x810e00008114 0x81140000811c,
  dm 0x2700000027 no 0x811c00008130 0x81300000813b,
  dm 0x2700000027 0x809 0 0x18000000182,
  dm 0x2700000027 0x80a 0 0x18000000182,
  dm 0x2a1000002a7 0x80b 0 0x813b0000814e,
  dm 0x2a1000002a7 0x80c 0 0x814e0000815f,
  dm 0x2a1000002a7 no 0x815f00008167 0x816700008178,
  dm 0x2a1000002a7 no 0x817800008180 0x818000008191,
  dm 0x2a1000002a7 0x80d 0 0x81910000819c,
  dm 0x2a1000002a7 no 0x819c000081a3 0x81a3000081b0,
  dm 0x2a1000002a7 no 0x81b0000081b8 0x81b8000081c4,
  dm 0x2a1000002a7 no 0x81c4000081cc 0x81cc000081dc,
  dm 0x2a1000002a7 no 0x81dc000081e4 0x818000008191,
  dm 0x2a1000002a7 0x80e 0 0x81e4000081f0,
  dm 0x2a1000002a7 no 0x81f0000081f8 0x81f80000820a,
  dm 0x2a1000002a7 no 0x820a00008212 0x821200008222,
  dm 0x2a1000002a7 no 0x82220000822a 0x818000008191,
  dm 0x2a1000002a7 no 0x822a00008232 0x823200008240,
  dm 0x2a1000002a7 no 0x82400000824a 0x824a00008258,
  dm 0x2a1000002a7 0x80f 0 0x82580000825c,
  dm 0x2a1000002a7 no 0x825c00008265 0x826500008269,
  dm 0x2a1000002a7 0x810 0 0x18000000182,
  dm 0x2700000027 0x811 0 0x18000000182,
  dm 0x2700000027 0x812 0 0x18000000182,
  dm 0x2a1000002a7 no 0x826900008278 0x82780000827e,
  dm 0x2a1000002a7 0x813 0 0x4c3d00004c43,
  dm 0x2a1000002a7 0x814 0 0x827e00008288,
  dm 0x2a1000002a7 0x815 0 0x82880000828f,
  dm 0x2a1000002a7 no 0x828f00008297 0x8297000082a1,
  dm 0x2a1000002a7 no 0x82a1000082a9 0x82a9000082b3,
  dm 0x2a1000002a7 0x816 0 0x82b3000082bd,
  dm 0x2a1000002a7 0x817 0 0x18000000182,
  dm 0x2a1000002a7 no 0x82bd000082c5 0x82c5000082cf,
  dm 0x2a1000002a7 0x818 0 0x18000000182,
  dm 0x2a1000002a7 no 0x82cf000082d7 0x82d7000082e5,
  dm 0x2a1000002a7 no 0x82e5000082ed 0x82ed000082fb,
  dm 0x2a1000002a7 no 0x82fb00008303 0x830300008312,
  dm 0x2a1000002a7 no 0x83120000831a 0x831a0000832b,
  dm 0x2a1000002a7 no 0x832b00008333 0x833300008341,
  dm 0x2a1000002a7 no 0x834100008349 0x834900008357,
  dm 0x2a1000002a7 no 0x83570000835f 0x835f0000836d,
  dm 0x2a1000002a7 no 0x836d00008375 0x837500008383,
  dm 0x2a1000002a7 0x819 0 0x838300008390,
  dm 0x2a1000002a7 no 0x839000008398 0x8398000083a7,
  dm 0x2a1000002a7 0x81a 0 0x83a7000083b3,
  dm 0x2a1000002a7 0x81b 0 0x83b3000083bd,
  dm 0x2a1000002a7 0x81c 0 0x83bd000083c4,
  dm 0x2a1000002a7 no 0x83c4000083cc 0x83cc000083d9,
  dm 0x2a1000002a7 no 0x83d9000083e1 0x83e1000083f0,
  dm 0x2a1000002a7 no 0x83f0000083f8 0x83f0000083f8,
  dm 0x2a1000002a7 no 0x83f800008409 0x840900008411,
  dm 0x2a1000002a7 no 0x841100008419 0x841900008423,
  dm 0x2a1000002a7 no 0x84230000842b 0x842b00008437,
  dm 0x2a1000002a7 0x81d 0 0x18000000182,
  dm 0x2a1000002a7 0x81e 0 0x18000000182,
  dm 0x7cc000007d6 0x81f 0 0x843700008446,
  dm 0x2b1e00002b26 0x820 0 0x84460000844c,
  dm 0x23b0000023d 0x821 0 0x844c00008454,
  dm 0x2700000027 0x822 0 0x62270000622d,
  dm 0 no 0 0x846900008471,
  dm 0x2700000027 no 0x847700008480 0x848000008489,
  dm 0x2700000027 0x825 0 0x18000000182,
  dm 0 no 0 0x18000000182,
  dm 0 no 0 0x18000000182,
  dm 0x2700000027 0x828 0 0x849c000084a6,
  dm 0x2700000027 no 0x84ad000084b6 0x84b6000084bf,
  dm 0x2700000027 0x82a 0 0x18000000182,
  dm 0x2700000027 0x82b 0 0x84bf000084c6,
  dm 0x2700000027 0x82c 0 0x84c6000084d1,
  dm 0x2700000027 0x82e 0 0x18000000182,
  dm 0x2700000027 0x82f 0 0x18000000182,
  dm 0x2700000027 0x830 0 0x18000000182,
  dm 0x2700000027 0x831 0 0x18000000182,
  dm 0 no 0 0x18000000182,
  dm 0 no 0 0x18000000182,
  dm 0 no 0 0x18000000182,
  dm 0x2a1000002a7 0x836 0 0x84f1000084f8,
  dm 0x2a1000002a7 no 0x84f8000084ff 0x84f8000084ff,
  dm 0x2a1000002a7 0x837 0 0x84ff00008502,
  dm 0x2a1000002a7 0x838 0 0x850200008506,
  dm 0x2a1000002a7 0x839 0 0x85060000850a,
  dm 0x2a1000002a7 0x83a 0 0x78740000787c,
  dm 0x2a1000002a7 0x83b 0 0x850a00008516,
  dm 0x2a1000002a7 0x83c 0 0x85160000851f,
  dm 0x2a1000002a7 0x83d 0 0x851f0000852b,
  dm 0x2a1000002a7 no 0x852b00008532 0x85320000853a,
  dm 0x2a1000002a7 no 0x853a00008541 0x853a00008541,
  dm 0x2700000027 no 0x85410000854f 0x85410000854f,
  dm 0x2700000027 no 0x854f0000855b 0x854f0000855b,
  dm 0x2700000027 no 0x855b00008568 0x855b00008568,
  dm 0x2700000027 no 0x856800008570 0x856800008570,
  dm 0x2700000027 no 0x85700000857d 0x857d0000858b,
  dm 0x2700000027 no 0x858b00008599 0x8599000085a8,
  dm 0x2700000027 0x83e 0 0x85a8000085b6,
  dm 0x2700000027 0x83f 0 0x85b6000085c2,
  dm 0x2700000027 no 0x85c2000085cd 0x85cd000085d9,
  dm 0x2700000027 no 0x85d9000085e6 0x85e6000085f4,
  dm 0x2700000027 no 0x85f4000085ff 0x85ff0000860b,
  dm 0x2700000027 no 0x860b00008617 0x861700008624,
  dm 0x2700000027 0x840 0 0x86240000862c,
  dm 0x2700000027 0x841 0 0x862c00008637,
  dm 0x2700000027 no 0x863700008643 0x863700008643,
  dm 0x2700000027 no 0x86430000864f 0x86430000864f,
  dm 0x2700000027 0x842 0 0x864f0000865a,
  dm 0x2700000027 0x843 0 0x865a00008661,
  dm 0x2700000027 no 0x86610000866b 0x86610000866b,
  dm 0x2700000027 no 0x866b00008675 0x866b00008675,
  dm 0x2700000027 no 0x86750000867e 0x86750000867e,
  dm 0x2700000027 no 0x867e00008685 0x867e00008685,
  dm 0x2700000027 no 0x86850000868a 0x86850000868a,
  dm 0x2700000027 no 0x868a00008694 0x868a00008694,
  dm 0x2700000027 no 0x86940000869a 0x869a000086a0,
  dm 0x2700000027 no 0x86a0000086ab 0x86ab000086b6,
  dm 0x2700000027 no 0x86b6000086bd 0x86bd000086c4,
  dm 0x2700000027 no 0x86c4000086cb 0x86c4000086cb,
  dm 0x2700000027 0x844 0 0x86cb000086de,
  dm 0x2700000027 0x845 0 0x86de000086f0,
  dm 0x2700000027 0x846 0 0x86f0000086fe,
  dm 0x2700000027 0x847 0 0x86fe00008704,
  dm 0x2700000027 0x848 0 0x870400008710,
  dm 0x2700000027 0x849 0 0x18000000182,
  dm 0x2700000027 0x84a 0 0x871000008717,
  dm 0x2700000027 0x84b 0 0x87170000871e,
  dm 0x2700000027 0x84c 0 0x871e00008725,
  dm 0x2700000027 no 0x87250000872d 0x87250000872d,
  dm 0x2700000027 0x84d 0 0x872d00008739,
  dm 0x2700000027 no 0x873900008743 0x87430000874e,
  dm 0x2700000027 no 0x874e00008759 0x875900008765,
  dm 0x2700000027 0x84e 0 0x61760000617d,
  dm 0x2700000027 0x84f 0 0x876500008769,
  dm 0x2700000027 no 0x876900008774 0x87740000877f,
  dm 0x2700000027 no 0x877f00008786 0x877f00008786,
  dm 0x2700000027 0x850 0 0x878600008791,
  dm 0x2700000027 no 0x879100008798 0x879100008798,
  dm 0x2700000027 no 0x87980000879e 0x879e000087a5,
  dm 0x2700000027 no 0x87a5000087ac 0x87a5000087ac,
  dm 0x2700000027 0x851 0 0x87ac000087b3,
  dm 0x2700000027 0x852 0 0x87b3000087bb,
  dm 0x2700000027 0x853 0 0x87bb000087c3,
  dm 0x2700000027 no 0x87c3000087c8 0x87c8000087ce,
  dm 0x2700000027 no 0x87ce000087da 0x87da000087e6,
  dm 0x2700000027 no 0x87e6000087f2 0x87f2000087fe,
  dm 0x2700000027 no 0x87fe00008805 0x87fe00008805,
  dm 0x2700000027 no 0x88050000880a 0x880a00008810,
  dm 0x2700000027 no 0x881000008819 0x88190000881b,
  dm 0x2700000027 no 0x881b00008822 0x882200008829,
  dm 0x2700000027 0x854 0 0x882900008833,
  dm 0x2700000027 no 0x88330000883a 0x883a00008842,
  dm 0x2700000027 0x855 0 0x88420000884a,
  dm 0x2700000027 no 0x884a00008852 0x88520000885a,
  dm 0x2700000027 no 0x885a00008868 0x886800008876,
  dm 0x2700000027 no 0x88760000887e 0x887e00008886,
  dm 0x2700000027 no 0x88860000888f 0x88860000888f,
  dm 0x2700000027 no 0x888f00008895 0x888f00008895,
  dm 0x2700000027 no 0x88950000889b 0x889b000088a2,
  dm 0x2700000027 0x856 0 0x871000008717,
  dm 0x2700000027 no 0x88a2000088a7 0x88a7000088ad,
  dm 0x2700000027 no 0x88ad000088b2 0x88b2000088be,
  dm 0x2700000027 no 0x88be000088c3 0x88c3000088cd,
  dm 0x2700000027 no 0x88cd000088da 0x88da000088e7,
  dm 0x2700000027 0x857 0 0x88e7000088ef,
  dm 0x2700000027 0x858 0 0x18000000182,
  dm 0x2700000027 0x859 0 0x18000000182,
  dm 0x2700000027 0x85a 0 0x6b6d00006b72,
  dm 0x2700000027 0x85b 0 0x18000000182,
  dm 0x2700000027 0x85c 0 0x18000000182,
  dm 0x2700000027 0x85d 0 0x88ef000088f4,
  dm 0 no 0 0x88fa000088fc,
  dm 0x2700000027 0x860 0 0x89000000890b,
  dm 0x2700000027 0x861 0 0x890b00008912,
  dm 0x2700000027 0x862 0 0x18000000182,
  dm 0x2700000027 0x863 0 0x18000000182,
  dm 0 no 0 0x18000000182,
  dm 0x2700000027 0x866 0 0x891d00008922,
  dm 0x2700000027 0x867 0 0x892200008928,
  dm 0x2700000027 0x868 0 0x18000000182,
  dm 0 no 0 0x18000000182,
  dm 0x2700000027 0x86b 0 0x893000008934,
  dm 0x2700000027 0x86c 0 0x893400008939,
  dm 0x2700000027 0x86d 0 0x89390000893d,
  dm 0x2700000027 0x86e 0 0x18000000182,
  dm 0x2700000027 0x86f 0 0x18000000182,
  dm 0x2700000027 no 0x89490000894f 0x894f00008955,
  dm 0x2700000027 no 0x895500008959 0x895500008959,
  dm 0x2700000027 no 0x895900008963 0x89630000896c,
  dm 0x2700000027 0x871 0 0x896c00008976,
  dm 0x2700000027 0x872 0 0x18000000182,
  dm 0x2700000027 0x874 0 0x899100008997,
  dm 0 no 0 0x18000000182,
  dm 0 no 0 0x18000000182,
  dm 0 no 0 0x89ab000089b3,
  dm 0x2700000027 0x879 0 0x89ba000089c1,
  dm 0x2700000027 0x87a 0 0x18000000182,
  dm 0x2700000027 0x87b 0 0x18000000182,
  dm 0 no 0 0xe3400000e3c,
  dm 0 no 0 0x18000000182,
  dm 0 no 0 0x18000000182,
  dm 0 no 0 0x89e1000089f1,
  dm 0x2700000027 no 0x89f500008a01 0x8a0100008a0c,
  dm 0x2a1000002a7 0x881 0 0x18000000182,
  dm 0x2a1000002a7 no 0x8a1200008a1e 0x8a1200008a1e,
  dm 0x2700000027 0x882 0 0x8a1e00008a28,
  dm 0x2700000027 0x883 0 0x18000000182,
  dm 0x2700000027 0x885 0 0x8a2f00008a39,
  dm 0x2700000027 0x886 0 0x8a3900008a46,
  dm 0 no 0 0x8a4d00008a54,
  dm 0x2700000027 0x889 0 0x8a5900008a5c,
  dm 0x2700000027 0x88a 0 0x8a5c00008a5f,
  dm 0x2700000027 0x88b 0 0x8a5f00008a6b,
  dm 0x2a1000002a7 0x88c 0 0x8a6b00008a6d,
  dm 0 no 0 0x18000000182,
  dm 0x2700000027 0x88e 0 0x18000000182,
  dm 0x2700000027 0x88f 0 0x18000000182,
  dm 0 no 0 0x18000000182,
  dm 0x2700000027 0x892 0 0x8a7e00008a89,
  dm 0x2700000027 0x893 0 0x8a8900008a8f,
  dm 0x2700000027 0x894 0 0x18000000182,
  dm 0x2700000027 0x896 0 0x8a9200008a99,
  dm 0x2700000027 0x897 0 0x18000000182,
  dm 0x2700000027 0x898 0 0x8a9900008a9f,
  dm 0x2700000027 0x899 0 0x8a9f00008aa4,
  dm 0x2a1000002a7 0x89b 0 0x18000000182,
  dm 0x2700000027 0x89c 0 0x8aa600008aaa,
  dm 0x2700000027 0x89d 0 0x18000000182,
  dm 0 no 0 0x18000000182,
  dm 0x2a1000002a7 no 0x8ab000008ab8 0x8ab800008abd,
  dm 0 no 0 0x18000000182,
  dm 0x23b0000023d 0x8a1 0 0x18000000182,
  dm 0x23b0000023d no 0x8ac600008ad7 0x8ad700008ae4,
  dm 0x2700000027 0x8a2 0 0x8ae400008aee,
  dm 0x2700000027 0x8a3 0 0x18000000182,
  dm 0x2700000027 0x8a4 0 0x18000000182,
  dm 0x2700000027 0x8a6 0 0x8af100008af6,
  dm 0x23f00000249 0x8a7 0 0x8af100008af6,
  dm 0x2700000027 no 0x8afb00008b08 0x8b0800008b0f,
  dm 0x2700000027 no 0x8b0f00008b19 0x8b1900008b24,
  dm 0 no 0 0x62270000622d,
  dm 0 no 0 0x18000000182,
  dm 0x2700000027 no 0x8b3600008b3b 0x8b3b00008b41,
  dm 0x2700000027 0x8ac 0 0x18000000182,
  dm 0 no 0 0x8b4e00008b56,
  dm 0 no 0 0x8b5a00008b5f,
  dm 0x2700000027 0x8b0 0 0x18000000182,
  dm 0x2700000027 0x8b2 0 0x8b6b00008b75,
  dm 0x2700000027 0x8b3 0 0x18000000182,
  dm 0x2700000027 no 0x8b7500008b82 0x8b8200008b8f,
  dm 0x2700000027 no 0x8b9300008b9d 0x8b9d00008ba7,
  dm 0x2700000027 no 0x8ba700008bb4 0x8bb400008bc1,
  dm 0 no 0 0x18000000182,
  dm 0x2700000027 0x8b7 0 0x8bca00008bd8,
  dm 0x2700000027 0x8b8 0 0x18000000182,
  dm 0 no 0 0x18000000182,
  dm 0 no 0 0x18000000182,
  dm 0 no 0 0x18000000182,
  dm 0x2700000027 0x8bd 0 0x18000000182,
  dm 0x2a1000002a7 0x8be 0 0x8bf000008bfa,
  dm 0x2700000027 no 0x8c0600008c17 0x8c1700008c23,
  dm 0x2700000027 0x8c0 0 0x18000000182,
  dm 0x2700000027 0x8c1 0 0x8c2300008c2e,
  dm 0x2700000027 no 0x8c2e00008c3b 0x8c3b00008c43,
  dm 0x2700000027 0x8c2 0 0x18000000182,
  dm 0 no 0 0xe3400000e3c,
  dm 0 no 0 0x18000000182,
  dm 0x2700000027 0x8c6 0 0x10e9000010f6,
  dm 0x2700000027 0x8c7 0 0xe3400000e3c,
  dm 0x2700000027 no 0x8c5d00008c69 0x8c6900008c75,
  dm 0 no 0 0x18000000182,
  dm 0x2700000027 0x8cb 0 0x18000000182,
  dm 0x2700000027 no 0x8c8900008c90 0x8c9000008c98,
  dm 0 no 0 0x8c9f00008caa,
  dm 0 no 0 0x18000000182,
  dm 0x2700000027 0x8cf 0 0x8cbb00008ccf,
  dm 0x2700000027 0x8d0 0 0x8ccf00008cea,
  dm 0x2700000027 0x8d1 0 0x8cea00008cfe,
  dm 0x2700000027 0x8d2 0 0x8cfe00008d11,
  dm 0 no 0 0x8d1800008d29,
  dm 0x23b0000023d 0x8d5 0 0x18000000182,
  dm 0x2700000027 0x8d6 0 0x18000000182,
  dm 0x2700000027 0x8d8 0 0x8d3900008d3e,
  dm 0x2700000027 0x8d9 0 0x8d3e00008d49,
  dm 0x2700000027 0x8da 0 0x8d4900008d4f,
  dm 0x2700000027 0x8db 0 0x8d4f00008d59,
  dm 0x2700000027 0x8dc 0 0x8d5900008d61,
  dm 0x2700000027 0x8dd 0 0x8d6100008d69,
  dm 0x2700000027 0x8de 0 0x8d6900008d72,
  dm 0x2700000027 0x8df 0 0x1fff00002007,
  dm 0x2700000027 0x8e0 0 0x8d7200008d79,
  dm 0x2700000027 0x8e1 0 0x8d7900008d80,
  dm 0x2700000027 0x8e2 0 0x8d8000008d87,
  dm 0x2700000027 0x8e3 0 0x500000005006,
  dm 0x2700000027 0x8e4 0 0x8d8700008d8a,
  dm 0x2700000027 0x8e5 0 0x8d8a00008d90,
  dm 0x2700000027 0x8e6 0 0x8d9000008d92,
  dm 0x2700000027 0x8e7 0 0x18000000182,
  dm 0x2700000027 0x8e8 0 0x18000000182,
  dm 0x2700000027 0x8e9 0 0x18000000182,
  dm 0x2700000027 0x8eb 0 0x8d9900008da0,
  dm 0x2700000027 0x8ec 0 0x8da000008dac,
  dm 0x2700000027 0x8ed 0 0x8d9900008da0,
  dm 0 no 0 0x18000000182,
  dm 0 no 0 0x18000000182,
  dm 0x2700000027 0x8f1 0 0x8dc300008dcc,
  dm 0x2700000027 0x8f2 0 0x8dcc00008dd1,
  dm 0x2700000027 0x8f3 0 0x8dd100008dd9,
  dm 0 no 0 0x18000000182,
  dm 0x2700000027 no 0x8de600008dec 0x8dec00008df3,
  dm 0x2700000027 no 0x8df300008df9 0x8df900008e00,
  dm 0x2700000027 0x8f6 0 0x18000000182,
  dm 0x2700000027 0x8f8 0 0x8e0900008e15,
  dm 0x2700000027 0x8f9 0 0x8e1500008e22,
  dm 0x2700000027 0x8fa 0 0x8e2200008e2d,
  dm 0x2700000027 no 0x8e2d00008e36 0x8e3600008e40,
  dm 0x2700000027 0x8fb 0 0x8e4000008e4a,
  dm 0x2700000027 0x8fc 0 0x8e4a00008e53,
  dm 0x2700000027 0x8fd 0 0x8e5300008e5f,
  dm 0x2700000027 no 0x8e5f00008e6b 0x8e5f00008e6b,
  dm 0x2700000027 0x8fe 0 0x18000000182,
  dm 0x2700000027 0x900 0 0x8e7800008e87,
  dm 0x2a1000002a7 0x901 0 0x8e8700008e97,
  dm 0x2a1000002a7 no 0x8e9700008ea6 0x8ea600008eae,
  dm 0x2a1000002a7 0x902 0 0x18000000182,
  dm 0 no 0 0x1940000019b,
  dm 0 no 0 0x18000000182,
  dm 0 no 0 0x8ebd00008ec6,
  dm 0 no 0 0x8ecd00008edb,
  dm 0x2700000027 no 0x8ee100008eea 0x8eea00008ef3,
  dm 0x2700000027 no 0x8ef300008ef7 0x8ef300008ef7,
  dm 0 no 0 0x18000000182,
  dm 0x2700000027 no 0x8f0300008f0c 0x8f0c00008f14,
  dm 0x2700000027 no 0x8f1400008f19 0x8f1400008f19,
  dm 0x2700000027 no 0x8f1900008f1d 0x8f1d00008f20,
  dm 0x2700000027 no 0x8f2000008f24 0x8f2400008f2e,
  dm 0x2700000027 no 0x8f2e00008f32 0x5b0300005b08,
  dm 0x2700000027 no 0x8f3200008f37 0x8f3700008f40,
  dm 0x2700000027 no 0x8f4000008f45 0x8f4500008f4c,
  dm 0x2700000027 no 0x8f4c00008f52 0x8f5200008f58,
  dm 0x2700000027 no 0x8f5800008f5c 0x8f5c00008f63,
  dm 0x2700000027 no 0x8f6300008f67 0x8f6700008f6f,
  dm 0x2700000027 no 0x8f6f00008f74 0x8f7400008f7c,
  dm 0x2700000027 no 0x8f7c00008f80 0x8f8000008f84,
  dm 0x2700000027 no 0x8f8400008f88 0x8f8800008f90,
  dm 0x2700000027 no 0x8f9000008f94 0x8f9400008f98,
  dm 0x2700000027 no 0x8f9800008f9c 0x8f9c00008fa6,
  dm 0x2700000027 no 0x8fa600008faa 0x8faa00008fb0,
  dm 0x2700000027 no 0x8fb000008fb4 0x8fb400008fb9,
  dm 0x2700000027 no 0x8fb900008fbd 0x8fbd00008fc6,
  dm 0x2700000027 no 0x8fc600008fca 0x8fca00008fd5,
  dm 0x2700000027 no 0x8fd500008fd9 0x8fd900008fe0,
  dm 0x2700000027 no 0x8fe000008fe4 0x8fe400008feb,
  dm 0x2700000027 no 0x8feb00008fef 0x8fef00008ffa,
  dm 0x2700000027 no 0x8ffa00008ffe 0x8ffe00009009,
  dm 0x2700000027 no 0x90090000900d 0x900d00009016,
  dm 0x2a1000002a7 no 0x90160000901a 0x901a00009021,
  dm 0 no 0 0x18000000182,
  dm 0x2700000027 no 0x902d00009036 0x903600009049,
  dm 0x2700000027 no 0x904900009050 0x905000009056,
  dm 0 no 0 0x905d00009061,
  dm 0x2700000027 no 0x90650000906f 0x906f00009079,
  dm 0x2700000027 no 0x907900009083 0x907900009083]

/-- `__dr_dm`, from item 3000 on (device_repo.go:5272-5771). -/
def drDm_6 : List ModelTuple := [
  dm 0x2700000027 no 0x90830000908e 0x908e00009099,
  dm 0x2700000027 0x90e 0 0x9099000090a3,
  dm 0x2700000027 0x90f 0 0x90a3000090ae,
  dm 0x2700000027 0x910 0 0x90ae000090b7,
  dm 0x2700000027 no 0x90b7000090c3 0x90c3000090cf,
  dm 0x2700000027 0x911 0 0x90cf000090d8,
  dm 0x2700000027 no 0x90d8000090e2 0x90e2000090ec,
  dm 0x2700000027 no 0x90ec000090f8 0x90f800009104,
  dm 0x2700000027 no 0x91040000910d 0x910d0000911a,
  dm 0x2700000027 0x912 0 0x911a00009123,
  dm 0x2700000027 0x913 0 0x91230000912c,
  dm 0x2700000027 no 0x912c00009136 0x912c00009136,
  dm 0x2700000027 0x914 0 0x913600009140,
  dm 0x2700000027 0x915 0 0x908e00009099,
  dm 0x2700000027 no 0x91400000914b 0x91400000914b,
  dm 0x2700000027 no 0x914b00009155 0x914b00009155,
  dm 0x2700000027 no 0x915500009162 0x915500009162,
  dm 0x2700000027 0x916 0 0x916200009166,
  dm 0x2700000027 0x917 0 0x91660000916a,
  dm 0x2700000027 0x918 0 0x916a0000916e,
  dm 0x2700000027 no 0x916e00009178 0x916e00009178,
  dm 0x2700000027 no 0x917800009182 0x917800009182,
  dm 0x2a1000002a7 no 0x91820000918c 0x91820000918c,
  dm 0x2a1000002a7 no 0x918c00009196 0x9196000091a0,
  dm 0x2a1000002a7 0x919 0 0x91a0000091b0,
  dm 0x2a1000002a7 0x91a 0 0x91b0000091bb,
  dm 0x2a1000002a7 0x91b 0 0x4c4300004c49,
  dm 0x23b0000023d no 0x91bb000091cb 0x91cb000091d6,
  dm 0x23b0000023d 0x91c 0 0x18000000182,
  dm 0x23b0000023d no 0x91d6000091dc 0x91dc000091e1,
  dm 0x2700000027 0x91e 0 0x18000000182,
  dm 0x2700000027 0x91f 0 0x91e9000091ed,
  dm 0x2700000027 0x920 0 0x18000000182,
  dm 0 no 0 0x18000000182,
  dm 0x2700000027 no 0x91fd00009201 0x91fd00009201,
  dm 0x2700000027 0x924 0 0x920b00009218,
  dm 0x2700000027 0x925 0 0x921800009220,
  dm 0x2700000027 0x926 0 0x922000009228,
  dm 0x23b0000023d 0x927 0 0x18000000182,
  dm 0x2700000027 0x928 0 0x18000000182,
  dm 0x2700000027 0x929 0 0x18000000182,
  dm 0x2700000027 0x92b 0 0x18000000182,
  dm 0x2a1000002a7 0x92c 0 0x18000000182,
  dm 0 no 0 0x923900009240,
  dm 0x2700000027 no 0x924800009261 0x926100009275,
  dm 0x2700000027 0x930 0 0x927d00009284,
  dm 0x2a1000002a7 no 0x92840000928f 0x928f00009296,
  dm 0x2a1000002a7 0x931 0 0x18000000182,
  dm 0x23b0000023d 0x932 0 0x18000000182,
  dm 0x2700000027 0x934 0 0x929e000092a7,
  dm 0x2700000027 0x935 0 0x92a7000092ad,
  dm 0x2700000027 0x936 0 0x92ad000092b6,
  dm 0x2700000027 0x937 0 0x92b6000092be,
  dm 0x2700000027 0x938 0 0x92be000092c5,
  dm 0x2700000027 no 0x92c5000092cd 0x92cd000092d5,
  dm 0x2700000027 0x939 0 0x18000000182,
  dm 0x2a1000002a7 0x93a 0 0x18000000182,
  dm 0x2700000027 0x93b 0 0x18000000182,
  dm 0x2700000027 0x93d 0 0x92dc000092e9,
  dm 0 no 0 0x92ef000092f6,
  dm 0 no 0 0x18000000182,
  dm 0 no 0 0x18000000182,
  dm 0x2a1000002a7 0x942 0 0x930b00009315,
  dm 0x2700000027 0x943 0 0x93150000931c,
  dm 0x2700000027 0x944 0 0x931c00009323,
  dm 0x2700000027 no 0x932300009333 0x932300009333,
  dm 0x2700000027 0x945 0 0x93330000933a,
  dm 0x2700000027 0x946 0 0x933a00009347,
  dm 0x2700000027 0x947 0 0x934700009350,
  dm 0x2700000027 0x948 0 0x18000000182,
  dm 0x2700000027 no 0x93560000935d 0x935d00009365,
  dm 0x2700000027 no 0x936500009371 0x937100009377,
  dm 0x2700000027 0x94a 0 0x18000000182,
  dm 0x23b0000023d no 0x937e00009397 0x9397000093a8,
  dm 0x23b0000023d 0x94c 0 0x93a8000093b6,
  dm 0x23b0000023d 0x94d 0 0x93b6000093c1,
  dm 0x23b0000023d no 0x93c1000093d1 0x93d1000093d9,
  dm 0x2700000027 no 0x93d9000093ec 0x93d9000093ec,
  dm 0x2700000027 0x94e 0 0x93ec000093fb,
  dm 0x2700000027 0x94f 0 0x93fb0000940c,
  dm 0x2700000027 0x950 0 0x18000000182,
  dm 0 no 0 0x18000000182,
  dm 0x2700000027 no 0x941900009427 0x942700009436,
  dm 0x2700000027 no 0x943600009446 0x943600009446,
  dm 0x2700000027 no 0x944600009452 0x94520000945e,
  dm 0x2700000027 no 0x945e0000946d 0x946d0000947c,
  dm 0x2700000027 no 0x947c0000948c 0x948c0000949e,
  dm 0x2700000027 no 0x949e000094a8 0x94a8000094bb,
  dm 0x2700000027 0x954 0 0x94c3000094ce,
  dm 0x2700000027 0x955 0 0x94ce000094d4,
  dm 0 no 0 0x94db000094e2,
  dm 0 no 0 0x18000000182,
  dm 0x2700000027 0x959 0 0x94ee000094fc,
  dm 0x2700000027 no 0x94fc00009505 0x94fc00009505,
  dm 0x2700000027 no 0x95050000950e 0x95050000950e,
  dm 0x2700000027 0x95a 0 0x950e0000951c,
  dm 0x2700000027 0x95b 0 0x951c0000952a,
  dm 0x2700000027 0x95c 0 0x952a00009535,
  dm 0x2700000027 no 0x95350000953f 0x953f0000954a,
  dm 0x2700000027 0x95d 0 0x954a00009555,
  dm 0x2700000027 0x95e 0 0x95550000955e,
  dm 0x2700000027 0x95f 0 0x955e0000956a,
  dm 0x2700000027 0x960 0 0x956a00009572,
  dm 0x2700000027 0x961 0 0x95720000957c,
  dm 0x2700000027 0x962 0 0x957c00009585,
  dm 0x2700000027 0x963 0 0x59d0000059d9,
  dm 0x23f00000249 0x964 0 0x95850000958b,
  dm 0x23f00000249 0x965 0 0x958b00009591,
  dm 0x23f00000249 0x966 0 0x959100009597,
  dm 0x23f00000249 0x967 0 0x9597000095a1,
  dm 0x23f00000249 0x968 0 0x146c00001470,
  dm 0x23f00000249 0x969 0 0x95a1000095a6,
  dm 0x23f00000249 0x96a 0 0x95a6000095ab,
  dm 0x39a000003a7 0x96b 0 0x95ab000095ae,
  dm 0x2700000027 0x96c 0 0x95ae000095b4,
  dm 0x23f00000249 0x96d 0 0x95b4000095ba,
  dm 0x2700000027 0x96e 0 0x95ba000095bf,
  dm 0x2700000027 0x96f 0 0x18000000182,
  dm 0x23f00000249 0x970 0 0x95bf000095c7,
  dm 0x2700000027 no 0x95c7000095cd 0x95c7000095cd,
  dm 0 no 0 0x95d6000095e8,
  dm 0x2700000027 0x973 0 0x95ee000095f7,
  dm 0x2700000027 no 0x95f7000095ff 0x95ff00009607,
  dm 0 no 0 0x961900009626,
  dm 0 no 0 0x18000000182,
  dm 0x2700000027 0x976 0 0x18000000182,
  dm 0x2700000027 0x977 0 0x962e00009632,
  dm 0x2700000027 no 0x96340000963c 0x963c00009640,
  dm 0x2700000027 0x979 0 0x964000009644,
  dm 0x2700000027 0x97a 0 0x18000000182,
  dm 0x2700000027 0x97b 0 0x18000000182,
  dm 0x2a1000002a7 no 0x96440000964f 0x964f0000965c,
  dm 0x2700000027 no 0x966000009668 0x966000009668,
  dm 0x2700000027 no 0x966800009671 0x966800009671,
  dm 0x2700000027 no 0x96710000967b 0x96710000967b,
  dm 0x2700000027 no 0x967b00009681 0x967b00009681,
  dm 0x2700000027 0x97d 0 0x96810000968e,
  dm 0x2700000027 0x97e 0 0x18000000182,
  dm 0x2700000027 0x97f 0 0x968e00009693,
  dm 0x2700000027 0x980 0 0x18000000182,
  dm 0x2700000027 no 0x969c000096a2 0x96a2000096a9,
  dm 0x2700000027 no 0x96a9000096b0 0x96b0000096b7,
  dm 0x2700000027 no 0x96b7000096bf 0x96bf000096c8,
  dm 0x2700000027 no 0x96c8000096d1 0x96d1000096da,
  dm 0x2700000027 no 0x96da000096e6 0x96e6000096f2,
  dm 0x2700000027 0x982 0 0x18000000182,
  dm 0x2700000027 no 0x96f2000096fa 0x96fa00009703,
  dm 0 no 0 0x18000000182,
  dm 0 no 0 0x97160000971e,
  dm 0 no 0 0x972300009731,
  dm 0x39a000003a7 0x986 0 0x973a00009743,
  dm 0x2700000027 0x987 0 0x974900009753,
  dm 0x2a1000002a7 0x988 0 0x97530000975c,
  dm 0 no 0 0x18000000182,
  dm 0x2700000027 no 0x976600009772 0x977200009781,
  dm 0x2700000027 no 0x97810000978c 0x97810000978c,
  dm 0x2700000027 no 0x978c00009799 0x97990000979e,
  dm 0x2700000027 no 0x979e000097aa 0x97aa000097b0,
  dm 0x2700000027 no 0x97b0000097bc 0x97bc000097bf,
  dm 0x2700000027 no 0x97bf000097cb 0x8bdb00008be0,
  dm 0x2700000027 no 0x97cb000097d7 0x97d7000097dd,
  dm 0x2700000027 no 0x97dd000097e9 0x97e9000097ee,
  dm 0x2a1000002a7 0x98b 0 0x18000000182,
  dm 0x2a1000002a7 no 0x97ee000097f9 0x97f900009805,
  dm 0x2700000027 no 0x98080000980f 0x98080000980f,
  dm 0x2700000027 no 0x980f00009819 0x980f00009819,
  dm 0x2700000027 no 0x981900009823 0x981900009823,
  dm 0x2700000027 no 0x98230000982d 0x98230000982d,
  dm 0x2700000027 no 0x982d00009837 0x982d00009837,
  dm 0x2700000027 0x98e 0 0x983a00009847,
  dm 0x2700000027 0x98f 0 0x98470000984f,
  dm 0x2700000027 no 0x984f00009859 0x985900009865,
  dm 0x2700000027 0x990 0 0x98650000986e,
  dm 0x2700000027 no 0x986e00009879 0x987900009884,
  dm 0 no 0 0x18000000182,
  dm 0 no 0 0x18000000182,
  dm 0x2700000027 0x994 0 0x98940000989b,
  dm 0x2700000027 0x995 0 0x18000000182,
  dm 0x2a1000002a7 no 0x98a3000098ab 0x98a3000098ab,
  dm 0x2a1000002a7 0x997 0 0x18000000182,
  dm 0x2700000027 no 0x98ab000098b1 0x98ab000098b1,
  dm 0x2700000027 no 0x98b1000098b7 0x98b1000098b7,
  dm 0x2700000027 0x998 0 0x98b7000098be,
  dm 0x2700000027 no 0x98be000098c4 0x98be000098c4,
  dm 0x2700000027 0x999 0 0x98c4000098c7,
  dm 0 no 0 0x18000000182,
  dm 0 no 0 0xe3400000e3c,
  dm 0 no 0 0x18000000182,
  dm 0 no 0 0x98f6000098ff,
  dm 0x2700000027 0x99d 0 0x990600009908,
  dm 0x2700000027 0x99e 0 0x99080000990b,
  dm 0x2700000027 0x99f 0 0x990b00009911,
  dm 0 no 0 0x99170000991e,
  dm 0 no 0 0x18000000182,
  dm 0 no 0 0x18000000182,
  dm 0x2700000027 0x9a4 0 0x99330000993d,
  dm 0x2700000027 no 0x993d0000994e 0x993d0000994e,
  dm 0x2700000027 no 0x994e00009953 0x995300009959,
  dm 0x2700000027 no 0x995900009961 0x1d2d00001d2e,
  dm 0x2a1000002a7 0x9a5 0 0x996100009967,
  dm 0 no 0 0x996d00009972,
  dm 0 no 0 0x4c4f00004c57,
  dm 0 no 0 0x18000000182,
  dm 0 no 0 0x18000000182,
  dm 0x2700000027 0x9ab 0 0x18000000182,
  dm 0x2700000027 no 0x99970000999e 0x999e000099a0,
  dm 0x2700000027 no 0x99a0000099ae 0x99a0000099ae,
  dm 0x2700000027 0x9ad 0 0x99ae000099b7,
  dm 0x2700000027 no 0x99b7000099c0 0x99c0000099c4,
  dm 0x2700000027 no 0x99c4000099d3 0x99d3000099e4,
  dm 0x2700000027 no 0x99e4000099ee 0x99e4000099ee,
  dm 0x2700000027 0x9ae 0 0x18000000182,
  dm 0x2700000027 no 0x99f200009a01 0x9a0100009a0a,
  dm 0x2700000027 0x9b0 0 0x18000000182,
  dm 0x2700000027 no 0x9a0a00009a14 0x9a1400009a1e,
  dm 0x2700000027 no 0x9a1e00009a27 0x9a2700009a30,
  dm 0x2700000027 0x9b1 0 0x18000000182,
  dm 0x2700000027 no 0x9a3000009a3a 0x9a3a00009a3f,
  dm 0x2700000027 no 0x9a3f00009a48 0x9a4800009a55,
  dm 0x2700000027 no 0x9a5500009a5a 0x9a5a00009a63,
  dm 0x2700000027 no 0x9a6300009a6a 0x9a6a00009a74,
  dm 0x2700000027 no 0x9a7400009a80 0x9a8000009a8c,
  dm 0x2700000027 no 0x9a8c00009a93 0x9a9300009a9b,
  dm 0x2700000027 no 0x9a9b00009aa3 0x9aa300009aab,
  dm 0x2700000027 no 0x9aab00009ab0 0x9ab000009ac0,
  dm 0x2700000027 no 0x9ac400009ac9 0x9ac400009ac9,
  dm 0x2700000027 0x9b3 0 0x9ac900009ad0,
  dm 0x2700000027 0x9b4 0 0x9ad000009ad3,
  dm 0x2700000027 no 0x9ad300009ad7 0x9ad300009ad7,
  dm 0x2700000027 0x9b5 0 0x9ad700009adc,
  dm 0x2700000027 0x9b6 0 0x18000000182,
  dm 0x2700000027 0x9b7 0 0x9adc00009ade,
  dm 0x2700000027 no 0x9ade00009ae5 0x9ae500009aec,
  dm 0x2700000027 no 0x9aec00009af2 0x9af200009af8,
  dm 0xdfd00000e04 0x9b8 0 0x9af800009b03,
  dm 0xdfd00000e04 0x9b9 0 0x9b0300009b0f,
  dm 0x2700000027 0x9ba 0 0x18000000182,
  dm 0x2700000027 0x9bb 0 0x9b1c00009b22,
  dm 0x2a1000002a7 0x9bd 0 0x18000000182,
  dm 0x2700000027 0x9be 0 0x18000000182,
  dm 0x2700000027 0x9bf 0 0x18000000182,
  dm 0x2700000027 0x9c1 0 0x9b4500009b50,
  dm 0x2700000027 0x9c2 0 0x9b5000009b5b,
  dm 0x2700000027 0x9c3 0 0x9b5b00009b68,
  dm 0x2700000027 0x9c4 0 0x9b6800009b73,
  dm 0x2700000027 0x9c5 0 0x9b7300009b83,
  dm 0x2700000027 0x9c6 0 0x9b8300009b90,
  dm 0x2700000027 0x9c7 0 0x9b9000009ba0,
  dm 0x2700000027 0x9c8 0 0x9ba000009baa,
  dm 0x2700000027 0x9c9 0 0x9baa00009bb8,
  dm 0x2700000027 0x9ca 0 0x9bb800009bc9,
  dm 0x2700000027 0x9cb 0 0x9bc900009bd8,
  dm 0x2700000027 0x9cc 0 0x9bd800009be3,
  dm 0x2700000027 0x9cd 0 0x9be300009bf1,
  dm 0x2700000027 0x9ce 0 0x9bf100009bfd,
  dm 0x2700000027 0x9cf 0 0x9bfd00009c09,
  dm 0x2700000027 0x9d0 0 0x9c0900009c18,
  dm 0x2700000027 0x9d1 0 0x9c1800009c2b,
  dm 0x2700000027 0x9d2 0 0x9c2b00009c36,
  dm 0x2700000027 0x9d3 0 0x9c3600009c45,
  dm 0x2700000027 0x9d4 0 0x9c4500009c4d,
  dm 0x2700000027 0x9d5 0 0x9c4d00009c5a,
  dm 0x2700000027 0x9d6 0 0x9c5a00009c64,
  dm 0x2700000027 0x9d7 0 0x9c6400009c74,
  dm 0x2700000027 0x9d8 0 0x9c7400009c83,
  dm 0x2700000027 0x9d9 0 0x9c8300009c8e,
  dm 0x2700000027 0x9da 0 0x9c8e00009c98,
  dm 0x2700000027 no 0x9c9800009ca2 0x9ca200009cac,
  dm 0x2700000027 0x9db 0 0x9cac00009cb6,
  dm 0x2700000027 0x9dc 0 0x18000000182,
  dm 0 no 0 0x9cbc00009cbf,
  dm 0x2700000027 no 0x9cc300009cca 0x9cca00009ccb,
  dm 0x2700000027 no 0x9ccb00009cd1 0x9cd100009cd7,
  dm 0x2a1000002a7 0x9e0 0 0x9cda00009ce2,
  dm 0x2700000027 0x9e1 0 0x9ce200009ce9,
  dm 0x2700000027 0x9e2 0 0x9ce900009cf1,
  dm 0x2700000027 0x9e3 0 0x9cf100009cf9,
  dm 0x2700000027 0x9e4 0 0x9cf900009d08,
  dm 0x2700000027 0x9e5 0 0x9d0800009d11,
  dm 0x2700000027 0x9e6 0 0x9d1100009d19,
  dm 0x2700000027 0x9e7 0 0x9d1900009d21,
  dm 0x2700000027 0x9e8 0 0x9d2100009d29,
  dm 0x2700000027 0x9e9 0 0x9d2900009d31,
  dm 0x2700000027 0x9ea 0 0x9d3100009d39,
  dm 0x2700000027 0x9eb 0 0x9d3900009d42,
  dm 0x2700000027 0x9ec 0 0x9d4200009d4b,
  dm 0x2700000027 0x9ed 0 0x9d4b00009d5a,
  dm 0x2700000027 no 0x9d5a00009d5f 0x9d5f00009d67,
  dm 0x2700000027 no 0x9d6700009d6c 0x9d6c00009d75,
  dm 0x2700000027 0x9ee 0 0x9d7500009d7d,
  dm 0x2700000027 no 0x9d7d00009d82 0x9d8200009d8a,
  dm 0x2700000027 no 0x9d8a00009d8f 0x9d8f00009d97,
  dm 0x2700000027 no 0x9d9700009d9c 0x9d9c00009da5,
  dm 0x2700000027 no 0x9da500009daa 0x9daa00009db3,
  dm 0x2700000027 0x9ef 0 0x9db300009dbb,
  dm 0x2700000027 no 0x9dbb00009dc0 0x9dc000009dc9,
  dm 0x2700000027 no 0x9dc900009dce 0x9dce00009dd7,
  dm 0x2700000027 no 0x9dd700009ddc 0x9ddc00009de5,
  dm 0x2700000027 no 0x9de500009dea 0x9dea00009df2,
  dm 0x2700000027 no 0x9df200009df7 0x9df700009dff,
  dm 0x2700000027 no 0x9dff00009e04 0x9e0400009e0c,
  dm 0x2700000027 no 0x9e0c00009e11 0x9e1100009e19,
  dm 0x2700000027 no 0x9e1900009e1e 0x9e1e00009e26,
  dm 0x2700000027 no 0x9e2600009e2b 0x9e2b00009e33,
  dm 0x2700000027 no 0x9e3300009e38 0x9e3800009e40,
  dm 0x2700000027 no 0x9e4000009e45 0x9e4500009e53,
  dm 0x2700000027 no 0x9e5300009e5f 0x9e5300009e5f,
  dm 0x2700000027 no 0x9e5f00009e64 0x9e6400009e6d,
  dm 0x2700000027 no 0x9e6d00009e72 0x9e7200009e7b,
  dm 0x2700000027 0x9f0 0 0x9e7b00009e84,
  dm 0x2700000027 no 0x9e8400009e89 0x9e8900009e91,
  dm 0x2700000027 no 0x9e9100009e96 0x9e9600009ea2,
  dm 0x2700000027 no 0x9ea200009ea7 0x9ea700009eb0,
  dm 0x2700000027 no 0x9eb000009eb5 0x9eb500009ebe,
  dm 0x2700000027 no 0x9ebe00009ec3 0x9ec300009ecb,
  dm 0x2700000027 no 0x9ecb00009ed0 0x9ed000009edc,
  dm 0x2700000027 no 0x9edc00009ee1 0x9ee100009eea,
  dm 0x2700000027 no 0x9eea00009eef 0x9eef00009efa,
  dm 0x2700000027 no 0x9efa00009eff 0x9eff00009f04,
  dm 0x2700000027 no 0x9f0400009f09 0x9f0900009f17,
  dm 0x2700000027 no 0x9f1700009f1c 0x9f1c00009f24,
  dm 0x2700000027 no 0x9f2400009f29 0x9f2900009f31,
  dm 0x2700000027 no 0x9f3100009f36 0x9f3600009f3f,
  dm 0x2700000027 no 0x9f3f00009f44 0x9f4400009f4d,
  dm 0x2700000027 no 0x9f4d00009f52 0x9f5200009f5a,
  dm 0x2700000027 no 0x9f5a00009f5f 0x9f5f00009f68,
  dm 0x2700000027 no 0x9f6800009f6d 0x9f6d00009f76,
  dm 0x2700000027 no 0x9f7600009f7b 0x9f7b00009f84,
  dm 0x2700000027 no 0x9f8400009f89 0x9f8900009f92,
  dm 0x2700000027 no 0x9f9200009f97 0x9f9700009fa0,
  dm 0x2700000027 no 0x9fa000009fa5 0x9fa500009fae,
  dm 0x2700000027 no 0x9fae00009fb3 0x9fb300009fbc,
  dm 0x2700000027 no 0x9fbc00009fc1 0x9fc100009fca,
  dm 0x2700000027 0x9f1 0 0x9fca00009fd1,
  dm 0x2700000027 0x9f2 0 0x9fd100009fd5,
  dm 0x2700000027 0x9f3 0 0x9fd500009fda,
  dm 0x2700000027 0x9f4 0 0x9fda00009fdf,
  dm 0x2700000027 0x9f5 0 0x9fdf00009fe7,
  dm 0x2700000027 0x9f6 0 0x9fe700009fef,
  dm 0x2700000027 0x9f7 0 0x9fef00009ff4,
  dm 0x2700000027 0x9f8 0 0x9ff400009ff9,
  dm 0x2700000027 0x9f9 0 0x9ff900009ffe,
  dm 0x2700000027 0x9fa 0 0x9ffe0000a008,
  dm 0x2700000027 0x9fb 0 0xa0080000a012,
  dm 0x2700000027 0x9fc 0 0xa0120000a01c,
  dm 0x2700000027 0x9fd 0 0xa01c0000a026,
  dm 0x2700000027 0x9fe 0 0xa0260000a030,
  dm 0x2700000027 0x9ff 0 0xa0300000a03a,
  dm 0x2700000027 0xa00 0 0xa03a0000a045,
  dm 0x2700000027 0xa01 0 0xa0450000a04b,
  dm 0x2700000027 0xa02 0 0xa04b0000a057,
  dm 0x2700000027 0xa03 0 0xa0570000a05f,
  dm 0x2700000027 0xa04 0 0xa05f0000a068,
  dm 0x2700000027 0xa05 0 0xa0680000a06f,
  dm 0x2700000027 0xa06 0 0x59e1000059e6,
  dm 0x2700000027 0xa07 0 0xa06f0000a078,
  dm 0x2700000027 0xa08 0 0xa0780000a07e,
  dm 0x2700000027 0xa09 0 0x614300006148,
  dm 0x2700000027 0xa0a 0 0xa07e0000a088,
  dm 0x2700000027 0xa0b 0 0xa0880000a092,
  dm 0x2700000027 0xa0c 0 0xa0920000a09c,
  dm 0x2700000027 0xa0d 0 0xa09c0000a0a0,
  dm 0x2700000027 0xa0e 0 0x5790000057f,
  dm 0x2700000027 0xa0f 0 0xa0a00000a0a7,
  dm 0x2700000027 0xa10 0 0xa0a70000a0b0,
  dm 0x2700000027 0xa11 0 0x79c000007a1,
  dm 0x2700000027 0xa12 0 0xa0b00000a0bc,
  dm 0x2700000027 0xa13 0 0xa0bc0000a0c6,
  dm 0x2700000027 0xa14 0 0xa0c60000a0ce,
  dm 0x2700000027 0xa15 0 0x5b2600005b2b,
  dm 0x2700000027 0xa16 0 0xa0ce0000a0d5,
  dm 0x2700000027 0xa17 0 0xa0d50000a0de,
  dm 0x2700000027 0xa18 0 0xa0de0000a0e6,
  dm 0x2700000027 0xa19 0 0xa0e60000a0eb,
  dm 0x2700000027 0xa1a 0 0xa0eb0000a0f5,
  dm 0x2700000027 0xa1b 0 0xa0f50000a0ff,
  dm 0x2700000027 0xa1c 0 0xa0ff0000a10a,
  dm 0x2700000027 0xa1d 0 0xa10a0000a115,
  dm 0x2700000027 0xa1e 0 0xa1150000a121,
  dm 0x2700000027 0xa1f 0 0xa1210000a12d,
  dm 0x2700000027 0xa20 0 0xa12d0000a131,
  dm 0x39a000003a7 0xa21 0 0x18000000182,
  dm 0x2a1000002a7 0xa22 0 0xa1310000a13b,
  dm 0x2700000027 0xa23 0 0x18000000182,
  dm 0x2700000027 0xa24 0 0x18000000182,
  dm 0x2700000027 0xa25 0 0x7d3900007d44,
  dm 0x2700000027 0xa27 0 0x18000000182,
  dm 0x2a1000002a7 0xa28 0 0x18000000182,
  dm 0x2700000027 0xa29 0 0x18000000182,
  dm 0x2700000027 0xa2b 0 0x18000000182,
  dm 0x2700000027 0xa2c 0 0xa1500000a152,
  dm 0x2700000027 0xa2d 0 0xa15a0000a15f,
  dm 0x2700000027 0xa2f 0 0x18000000182,
  dm 0x2700000027 0xa30 0 0xa1670000a172,
  dm 0x2700000027 0xa32 0 0xa1790000a183,
  dm 0 no 0 0x18000000182,
  dm 0 no 0 0xa1940000a19b,
  dm 0x2700000027 0xa36 0 0x18000000182,
  dm 0x2700000027 0xa37 0 0xa1a60000a1b0,
  dm 0x2700000027 no 0xa1b00000a1ba 0xa1ba0000a1c4,
  dm 0x2700000027 0xa38 0 0xa1c40000a1cd,
  dm 0x2700000027 no 0xa1cd0000a1d6 0xa1d60000a1df,
  dm 0x2700000027 no 0xa1df0000a1e8 0xa1df0000a1e8,
  dm 0x2700000027 0xa3a 0 0xa1ee0000a1fc,
  dm 0x2700000027 0xa3c 0 0xa2030000a20e,
  dm 0x2700000027 0xa3e 0 0x18000000182,
  dm 0x2700000027 no 0xa21b0000a223 0xa2230000a226,
  dm 0x2700000027 no 0xa2260000a22e 0xa22e0000a230,
  dm 0x2700000027 no 0xa2300000a238 0x1ea500001ea7,
  dm 0x2700000027 no 0xa2380000a240 0xa2400000a243,
  dm 0x2700000027 0xa41 0 0xa24a0000a24f,
  dm 0x2700000027 no 0xa24f0000a256 0xa2560000a264,
  dm 0x2700000027 0xa42 0 0xa2640000a26e,
  dm 0x2700000027 0xa43 0 0xa26e0000a276,
  dm 0x2700000027 0xa44 0 0xa2760000a282,
  dm 0x2700000027 no 0xa2820000a289 0xa2890000a290,
  dm 0x2700000027 no 0xa2900000a297 0xa2970000a29c,
  dm 0x2700000027 0xa45 0 0xa29c0000a2a1,
  dm 0x2700000027 no 0xa2a10000a2a8 0xa2a80000a2b2,
  dm 0x2700000027 no 0xa2b20000a2b9 0xa2b90000a2bf,
  dm 0x2700000027 no 0xa2bf0000a2c5 0xa2c50000a2c9,
  dm 0x2700000027 0xa46 0 0xa2c90000a2cb,
  dm 0x2700000027 0xa47 0 0xa2cb0000a2d3,
  dm 0x2700000027 no 0xa2d30000a2da 0xa2da0000a2e2,
  dm 0x2700000027 0xa48 0 0xa2e20000a2ea,
  dm 0x2700000027 no 0xa2ea0000a2f1 0xa2f10000a2fe,
  dm 0x2700000027 no 0xa2fe0000a305 0xa3050000a313,
  dm 0x2700000027 no 0xa3130000a31a 0xa31a0000a32a,
  dm 0x2700000027 no 0xa32a0000a331 0xa3310000a33c,
  dm 0x2700000027 no 0xa33c0000a343 0xa3430000a34b,
  dm 0x2700000027 no 0xa34b0000a356 0xa3560000a361,
  dm 0x2700000027 no 0xa3610000a369 0xa3690000a371,
  dm 0 no 0 0x18000000182,
  dm 0x2700000027 no 0xa3770000a382 0x8a0100008a0c,
  dm 0x2700000027 0xa4c 0 0xa3890000a398,
  dm 0x2700000027 0xa4d 0 0xa3980000a3a7,
  dm 0x2700000027 0xa4e 0 0xa3a70000a3b4,
  dm 0x2700000027 0xa4f 0 0xa3b40000a3c6,
  dm 0x2700000027 0xa50 0 0xa3c60000a3d5,
  dm 0x2700000027 0xa51 0 0xa3d50000a3e4,
  dm 0x2700000027 0xa52 0 0xa3e40000a3f4,
  dm 0x2700000027 0xa53 0 0xa3f40000a402,
  dm 0x2700000027 0xa54 0 0xa4020000a411,
  dm 0x2700000027 0xa55 0 0xa4110000a420,
  dm 0x2700000027 0xa56 0 0xa4200000a42e,
  dm 0x2700000027 0xa57 0 0xa42e0000a43d,
  dm 0x2700000027 0xa58 0 0xa43d0000a44d,
  dm 0x2700000027 0xa59 0 0xa44d0000a45e,
  dm 0x2700000027 0xa5a 0 0xa45e0000a46f,
  dm 0x2700000027 0xa5b 0 0xa46f0000a482,
  dm 0x2700000027 0xa5c 0 0xa4820000a491,
  dm 0x2700000027 0xa5d 0 0xa4910000a49f,
  dm 0x2700000027 0xa5e 0 0xa49f0000a4ad,
  dm 0x2700000027 0xa5f 0 0xa4ad0000a4bc,
  dm 0x2700000027 0xa60 0 0xa4bc0000a4ce,
  dm 0x2700000027 0xa61 0 0xa4ce0000a4dd,
  dm 0x2700000027 0xa62 0 0xa4dd0000a4ec,
  dm 0x2700000027 0xa63 0 0xa4ec0000a4f8,
  dm 0x2700000027 0xa64 0 0xa4f80000a507,
  dm 0x2700000027 0xa65 0 0xa5070000a518,
  dm 0x2700000027 0xa66 0 0xa5180000a529,
  dm 0x2700000027 0xa67 0 0xa5290000a53f,
  dm 0x2700000027 0xa68 0 0xa53f0000a54e,
  dm 0x2700000027 0xa69 0 0xa54e0000a55c,
  dm 0x2700000027 0xa6a 0 0xa55c0000a56b,
  dm 0x2700000027 0xa6b 0 0xa56b0000a574,
  dm 0x2700000027 0xa6c 0 0xa5740000a585,
  dm 0x2700000027 0xa6d 0 0xa5850000a593,
  dm 0x2700000027 0xa6e 0 0xa5930000a5a6,
  dm 0x2700000027 0xa6f 0 0xa5a60000a5b9,
  dm 0x2700000027 0xa70 0 0xa5b90000a5c8,
  dm 0x2700000027 0xa71 0 0xa5c80000a5ea,
  dm 0x2700000027 0xa72 0 0xa5ea0000a603,
  dm 0x2700000027 0xa73 0 0xa6030000a611,
  dm 0x2700000027 0xa74 0 0xa6110000a620,
  dm 0x2700000027 0xa75 0 0xa6200000a625,
  dm 0x2700000027 0xa76 0 0x18000000182,
  dm 0x2700000027 0xa77 0 0xa6250000a62f,
  dm 0x2700000027 0xa78 0 0xa62f0000a63a,
  dm 0x2700000027 0xa79 0 0xa63a0000a645,
  dm 0x2700000027 0xa7a 0 0xa6450000a64e,
  dm 0x2700000027 0xa7b 0 0xa64e0000a660,
  dm 0x2700000027 0xa7c 0 0xa6600000a66a,
  dm 0x2a1000002a7 0xa7d 0 0xa66a0000a677,
  dm 0x2a1000002a7 no 0xa6770000a681 0xa6810000a694,
  dm 0x2a1000002a7 0xa7e 0 0xa6940000a69d,
  dm 0xc9b00000ca2 no 0xa69d0000a6ab 0xa6ab0000a6b9,
  dm 0x2700000027 0xa80 0 0xa6be0000a6cf,
  dm 0x2700000027 0xa81 0 0x18000000182,
  dm 0x2700000027 0xa83 0 0xa6d60000a6de,
  dm 0x2700000027 0xa84 0 0xa6de0000a6e2,
  dm 0x2700000027 0xa85 0 0xa6e20000a6ee,
  dm 0x2700000027 0xa86 0 0xa6ee0000a6f6,
  dm 0x2700000027 0xa87 0 0x18000000182,
  dm 0 no 0 0x18000000182,
  dm 0 no 0 0xa7130000a719,
  dm 0x2700000027 no 0xa7270000a72f 0xe3400000e3c,
  dm 0x2700000027 no 0xa7350000a73e 0x193300001935,
  dm 0 no 0 0xa7430000a74d,
  dm 0x2700000027 no 0xa7530000a75b 0xa75b0000a764]

/-- `__dr_dm`, from item 3500 on (device_repo.go:5772-6271). -/
def drDm_7 : List ModelTuple := [
  dm 0x2700000027 0xa8d 0 0x18000000182,
  dm 0x2700000027 no 0xa7640000a76d 0x582c0000582e,
  dm 0x2700000027 no 0xa76d0000a777 0xa7770000a781,
  dm 0x2700000027 no 0xa7810000a785 0xa7810000a785,
  dm 0x2700000027 0xa8e 0 0x18000000182,
  dm 0x2a1000002a7 0xa8f 0 0x18000000182,
  dm 0x2700000027 0xa91 0 0xa78c0000a795,
  dm 0x2700000027 0xa92 0 0xa7950000a79b,
  dm 0 no 0 0x18000000182,
  dm 0 no 0 0x18000000182,
  dm 0 no 0 0xa7aa0000a7af,
  dm 0 no 0 0x18000000182,
  dm 0x2700000027 0xa98 0 0xa7ba0000a7cb,
  dm 0x2700000027 no 0xa7cb0000a7dd 0xa7dd0000a7ef,
  dm 0x2700000027 0xa99 0 0xa7ef0000a801,
  dm 0x2700000027 0xa9a 0 0xa8010000a80d,
  dm 0x2700000027 0xa9b 0 0xa80d0000a821,
  dm 0x2700000027 no 0xa8210000a832 0xa8210000a832,
  dm 0x2700000027 no 0xa8320000a847 0xa8320000a847,
  dm 0x2700000027 0xa9c 0 0xa8470000a854,
  dm 0x2700000027 0xa9d 0 0xa8540000a866,
  dm 0x2700000027 0xa9e 0 0xa8660000a878,
  dm 0x2700000027 no 0xa8780000a87d 0xa8780000a87d,
  dm 0x2700000027 no 0xa87d0000a885 0xa8850000a88d,
  dm 0x2700000027 no 0xa88d0000a899 0xa88d0000a899,
  dm 0x2700000027 no 0xa8990000a8a1 0xa8990000a8a1,
  dm 0x2700000027 no 0xa8a10000a8a8 0xa8a10000a8a8,
  dm 0x2a1000002a7 0xa9f 0 0xa8a80000a8ae,
  dm 0 no 0 0xa8b60000a8ba,
  dm 0 no 0 0xa8c00000a8c9,
  dm 0x2700000027 no 0xa8cc0000a8d3 0xa8d30000a8d6,
  dm 0x2700000027 no 0xa8d60000a8e0 0xa8e00000a8ea,
  dm 0x2700000027 no 0xa8ea0000a8f3 0xa8ea0000a8f3,
  dm 0x2700000027 0xaa3 0 0xa8f30000a8fc,
  dm 0x2700000027 no 0xa8fc0000a900 0xa8fc0000a900,
  dm 0x2700000027 0xaa4 0 0x18000000182,
  dm 0x2a1000002a7 0xaa5 0 0x18000000182,
  dm 0x2a1000002a7 0xaa7 0 0xa9080000a912,
  dm 0x2a1000002a7 0xaa8 0 0xa9120000a91d,
  dm 0x2a1000002a7 0xaa9 0 0x6b6d00006b72,
  dm 0x2a1000002a7 no 0xa91d0000a923 0xa9230000a92f,
  dm 0x2a1000002a7 no 0xa92f0000a937 0xa9370000a940,
  dm 0x2a1000002a7 0xaaa 0 0xa9400000a94b,
  dm 0x2a1000002a7 no 0xa94b0000a95c 0xa95c0000a96d,
  dm 0x2a1000002a7 0xaab 0 0xa96d0000a980,
  dm 0x2700000027 0xaac 0 0xa9800000a994,
  dm 0x2700000027 0xaad 0 0xa9940000a9a9,
  dm 0x2700000027 0xaae 0 0xa9a90000a9bb,
  dm 0x2700000027 no 0xa9bb0000a9cb 0xa9cb0000a9da,
  dm 0x2700000027 0xaaf 0 0xa9da0000a9e9,
  dm 0x2700000027 0xab0 0 0xa9e90000a9f6,
  dm 0x2700000027 0xab1 0 0x18000000182,
  dm 0xc9b00000ca2 no 0xa9f60000aa02 0xaa020000aa0e,
  dm 0x2a1000002a7 0xab2 0 0xaa0e0000aa16,
  dm 0x2a1000002a7 0xab3 0 0x108d00001093,
  dm 0x2700000027 0xab4 0 0x18000000182,
  dm 0x2a1000002a7 0xab5 0 0x108d00001093,
  dm 0x2700000027 0xab6 0 0x18000000182,
  dm 0x2a1000002a7 0xab7 0 0x108d00001093,
  dm 0x2700000027 0xab8 0 0x18000000182,
  dm 0x2a1000002a7 0xab9 0 0xaa160000aa1e,
  dm 0x2700000027 no 0xaa260000aa2d 0xaa2d0000aa34,
  dm 0x2700000027 0xabc 0 0xaa3b0000aa3e,
  dm 0x23f00000249 no 0xaa3e0000aa46 0xaa3e0000aa46,
  dm 0 no 0 0x18000000182,
  dm 0 no 0 0x18000000182,
  dm 0 no 0 0xaa540000aa5e,
  dm 0x2700000027 0xac1 0 0x18000000182,
  dm 0x2700000027 0xac2 0 0x18000000182,
  dm 0 no 0 0x18000000182,
  dm 0 no 0 0x18000000182,
  dm 0x2700000027 no 0xaa860000aa8f 0xaa8f0000aa95,
  dm 0x2700000027 no 0xaa950000aa9f 0xaa9f0000aaa7,
  dm 0x2700000027 no 0xaaa70000aaae 0xaaae0000aab3,
  dm 0x2700000027 no 0xaab30000aabc 0xaabc0000aac2,
  dm 0 no 0 0x18000000182,
  dm 0x2700000027 0xac8 0 0xaad20000aadf,
  dm 0x2700000027 0xac9 0 0x18000000182,
  dm 0x2700000027 0xaca 0 0x18000000182,
  dm 0x2700000027 0xacc 0 0xaae60000aaf0,
  dm 0x2700000027 no 0xaaf50000ab01 0xab010000ab08,
  dm 0x2700000027 no 0xab080000ab11 0x3e1400003e17,
  dm 0x2700000027 0xace 0 0x18000000182,
  dm 0 no 0 0xe3400000e3c,
  dm 0 no 0 0x18000000182,
  dm 0 no 0 0x18000000182,
  dm 0 no 0 0x18000000182,
  dm 0 no 0 0x18000000182,
  dm 0x2700000027 no 0xab480000ab51 0xab480000ab51,
  dm 0x2700000027 no 0xab510000ab55 0xab550000ab5e,
  dm 0x2700000027 no 0xab5e0000ab62 0xab620000ab6b,
  dm 0x2700000027 no 0xab6b0000ab6f 0xab6f0000ab74,
  dm 0x2700000027 no 0xab740000ab78 0xab780000ab7d,
  dm 0x2700000027 no 0xab7d0000ab81 0xab810000ab8b,
  dm 0x2700000027 no 0xab8b0000ab8f 0xab8f0000ab94,
  dm 0x2700000027 no 0xab940000ab98 0xab980000ab9d,
  dm 0x2700000027 no 0xab9d0000aba1 0xaba10000aba9,
  dm 0x2700000027 no 0xaba90000abad 0xabad0000abb7,
  dm 0x2700000027 no 0xabb70000abbb 0xabbb0000abc4,
  dm 0x2700000027 no 0xabc40000abc8 0xabc80000abd1,
  dm 0x2700000027 no 0xabd10000abd5 0xabd50000abda,
  dm 0x2700000027 no 0xabda0000abde 0xabde0000abe7,
  dm 0x2700000027 no 0xabe70000abeb 0xabeb0000abf4,
  dm 0x2700000027 0xad4 0 0xabf40000abfa,
  dm 0x2700000027 0xad5 0 0xabfa0000abfe,
  dm 0x2700000027 0xad6 0 0xabfe0000ac03,
  dm 0x2700000027 no 0xac030000ac09 0xac090000ac10,
  dm 0x2700000027 no 0xac100000ac14 0xac140000ac1b,
  dm 0x2700000027 no 0xac1b0000ac23 0xac1b0000ac23,
  dm 0x2700000027 no 0xac230000ac27 0xac270000ac34,
  dm 0x2700000027 no 0xac340000ac3d 0xac340000ac3d,
  dm 0x2700000027 no 0xac3d0000ac41 0xac410000ac48,
  dm 0x2700000027 0xad7 0 0xac480000ac54,
  dm 0x2700000027 no 0xac540000ac65 0xac540000ac65,
  dm 0x2700000027 no 0xac650000ac74 0xac650000ac74,
  dm 0x2a1000002a7 no 0xac740000ac86 0xac860000ac95,
  dm 0x2700000027 0xad8 0 0x59d0000059d9,
  dm 0x2700000027 0xad9 0 0xac950000ac9c,
  dm 0x2700000027 no 0xac9c0000acad 0xacad0000acaf,
  dm 0x2a1000002a7 0xada 0 0x7e0900007e11,
  dm 0 no 0 0x18000000182,
  dm 0 no 0 0x18000000182,
  dm 0x2700000027 0xade 0 0x18000000182,
  dm 0x2700000027 0xadf 0 0xaccd0000acd1,
  dm 0x2700000027 no 0x655e00006560 0x655e00006560,
  dm 0x2700000027 0xae1 0 0xacd70000acdb,
  dm 0x2700000027 0xae2 0 0xacdb0000ace0,
  dm 0 no 0 0x18000000182,
  dm 0 no 0 0x18000000182,
  dm 0 no 0 0x18000000182,
  dm 0x23f00000249 0xae7 0 0xacf60000ad00,
  dm 0x23f00000249 no 0xad000000ad05 0xad000000ad05,
  dm 0x23f00000249 no 0xad050000ad11 0xad110000ad18,
  dm 0x23f00000249 0xae8 0 0x18000000182,
  dm 0x2700000027 no 0xad180000ad23 0xad230000ad2e,
  dm 0x2700000027 no 0xad2e0000ad39 0xad390000ad40,
  dm 0x2700000027 no 0xad400000ad4a 0xad4a0000ad55,
  dm 0x2700000027 no 0xad550000ad5e 0xad5e0000ad68,
  dm 0x2700000027 no 0xad680000ad75 0xad750000ad7e,
  dm 0x2700000027 no 0xad7e0000ad88 0xad880000ad8e,
  dm 0x2700000027 no 0xad8e0000ad93 0xad930000ad9a,
  dm 0x2700000027 0xae9 0 0xad9a0000ada6,
  dm 0x2700000027 no 0xada60000adac 0xadac0000adb3,
  dm 0x2700000027 no 0xadb30000adbb 0xadbb0000adc2,
  dm 0x2700000027 no 0xadc20000adcc 0xadcc0000add6,
  dm 0x2700000027 0xaea 0 0xadd60000addf,
  dm 0x2700000027 no 0xaddf0000ade6 0xade60000adf7,
  dm 0x2700000027 no 0xadf70000adfe 0xadfe0000ae08,
  dm 0x2700000027 no 0xae080000ae0e 0xae0e0000ae15,
  dm 0x2700000027 no 0xae150000ae1d 0xae1d0000ae27,
  dm 0x2700000027 0xaeb 0 0x18000000182,
  dm 0x2700000027 0xaec 0 0x18000000182,
  dm 0 no 0 0x18000000182,
  dm 0x2700000027 0xaef 0 0xae310000ae34,
  dm 0x2700000027 no 0xae3c0000ae43 0xae430000ae51,
  dm 0x2700000027 0xaf1 0 0x18000000182,
  dm 0x2700000027 0xaf2 0 0x18000000182,
  dm 0x2700000027 0xaf3 0 0x18000000182,
  dm 0x2700000027 no 0xae510000ae5a 0xae5a0000ae6a,
  dm 0x2a1000002a7 0xaf5 0 0xae710000ae7d,
  dm 0x2700000027 0xaf6 0 0x559100005599,
  dm 0x2700000027 0xaf7 0 0xae7d0000ae81,
  dm 0x2700000027 0xaf8 0 0x18000000182,
  dm 0x2700000027 no 0xae810000ae87 0xae870000ae8d,
  dm 0x2700000027 no 0xae8d0000ae93 0xae930000ae95,
  dm 0x2700000027 no 0xae950000aea1 0xaea10000aea4,
  dm 0x2700000027 no 0xaea40000aeb0 0xaeb00000aeb7,
  dm 0x2700000027 no 0xaeb70000aec3 0xaec30000aec6,
  dm 0x2700000027 no 0xaec60000aed2 0xaed20000aed5,
  dm 0x2700000027 no 0xaed50000aee1 0xaee10000aee4,
  dm 0x2700000027 no 0xaee40000aef0 0xaef00000aef7,
  dm 0x2700000027 no 0xaef70000af03 0xaf030000af06,
  dm 0x2700000027 no 0xaf060000af12 0xaf120000af1a,
  dm 0x2700000027 no 0xaf1a0000af20 0xaf200000af27,
  dm 0x2700000027 0xaf9 0 0x18000000182,
  dm 0x2700000027 0xafa 0 0x18000000182,
  dm 0x2700000027 0xafc 0 0xaf2b0000af2e,
  dm 0x2700000027 0xafd 0 0x8a5c00008a5f,
  dm 0x2700000027 0xafe 0 0xaf2e0000af34,
  dm 0x2700000027 no 0xaf340000af3b 0xaf3b0000af3d,
  dm 0x2a1000002a7 0xaff 0 0x4c4300004c49,
  dm 0x2700000027 0xb01 0 0x18000000182,
  dm 0x2a1000002a7 0xb02 0 0x18000000182,
  dm 0x2700000027 0xb03 0 0xaf430000af4e,
  dm 0x2700000027 0xb04 0 0x18000000182,
  dm 0x2a1000002a7 no 0xaf540000af5c 0xaf5c0000af67,
  dm 0xdfd00000e04 0xb06 0 0xaf670000af6c,
  dm 0x2700000027 no 0xaf6c0000af73 0xaf730000af76,
  dm 0x2700000027 no 0xaf760000af7d 0xaf7d0000af80,
  dm 0x2700000027 no 0xaf800000af87 0xaf870000af8e,
  dm 0x2700000027 0xb07 0 0xaf8e0000af95,
  dm 0x2700000027 no 0xaf950000af9e 0xaf9e0000afa4,
  dm 0x2700000027 no 0xafa40000afad 0xafad0000afaf,
  dm 0x2700000027 no 0xafaf0000afb5 0xa22e0000a230,
  dm 0x2700000027 no 0xafb50000afbc 0xafbc0000afc2,
  dm 0x2700000027 no 0xafc20000afca 0xafca0000afcd,
  dm 0x2700000027 0xb08 0 0xafcd0000afd1,
  dm 0x2700000027 0xb09 0 0x18000000182,
  dm 0x2700000027 0xb0a 0 0xafd10000afd9,
  dm 0x2700000027 no 0xafd90000afe0 0xafd90000afe0,
  dm 0x2700000027 0xb0b 0 0xafe00000afe8,
  dm 0x2700000027 0xb0c 0 0xafe80000afeb,
  dm 0x2700000027 no 0xafeb0000aff2 0xafeb0000aff2,
  dm 0x2700000027 no 0xaff20000affe 0xaffe0000b00a,
  dm 0x2700000027 no 0xb00a0000b010 0xb00a0000b010,
  dm 0x2700000027 no 0xb0100000b016 0xb0100000b016,
  dm 0x2700000027 0xb0d 0 0x4fe400004feb,
  dm 0x2700000027 0xb0e 0 0xb0160000b01f,
  dm 0x2700000027 no 0xb01f0000b026 0xb0260000b02d,
  dm 0x2700000027 0xb0f 0 0xb02d0000b034,
  dm 0x2700000027 0xb10 0 0xb0340000b03b,
  dm 0x2700000027 0xb11 0 0xb03b0000b041,
  dm 0x2700000027 0xb12 0 0x18000000182,
  dm 0x2700000027 0xb13 0 0xb0410000b049,
  dm 0x2700000027 0xb14 0 0x18000000182,
  dm 0x2700000027 0xb15 0 0x500000005006,
  dm 0x2700000027 0xb16 0 0x18000000182,
  dm 0x39a000003a7 0xb17 0 0x18000000182,
  dm 0 no 0 0xb0520000b059,
  dm 0x2700000027 0xb1a 0 0xb05f0000b061,
  dm 0x2700000027 0xb1b 0 0xb0610000b068,
  dm 0x2700000027 0xb1c 0 0x18000000182,
  dm 0 no 0 0x18000000182,
  dm 0 no 0 0xb0780000b07c,
  dm 0x2700000027 no 0xb0840000b08a 0xb08a0000b091,
  dm 0x2a1000002a7 no 0xb0910000b099 0xb0990000b0a2,
  dm 0x2700000027 no 0xb0ba0000b0c6 0xb0ba0000b0c6,
  dm 0x2700000027 no 0xb0c60000b0d2 0xb0d20000b0de,
  dm 0x2700000027 no 0xb0de0000b0e8 0xb0e80000b0f2,
  dm 0x2700000027 no 0xb0f20000b0f9 0xb0f90000b100,
  dm 0x2700000027 0xb21 0 0xb1000000b104,
  dm 0 no 0 0xb1170000b119,
  dm 0x2700000027 no 0xb1230000b12c 0xb12c0000b135,
  dm 0x2700000027 no 0xb1350000b13c 0xb13c0000b144,
  dm 0x2700000027 no 0xb1440000b14b 0xb02d0000b034,
  dm 0x2a1000002a7 no 0xb14b0000b154 0xb1540000b15f,
  dm 0x23b0000023d no 0xb1690000b174 0xb1690000b174,
  dm 0x23b0000023d 0xb24 0 0xb1740000b178,
  dm 0x23b0000023d 0xb25 0 0xb1780000b17f,
  dm 0x2700000027 no 0xb17f0000b187 0xb1870000b18f,
  dm 0x2700000027 no 0xb18f0000b198 0xb1980000b1a1,
  dm 0 no 0 0x18000000182,
  dm 0x2700000027 0xb28 0 0x18000000182,
  dm 0x2700000027 0xb29 0 0x18000000182,
  dm 0x2700000027 0xb2b 0 0xb1b10000b1b4,
  dm 0x2700000027 0xb2c 0 0x712500007127,
  dm 0x2700000027 0xb2d 0 0xb1b40000b1b7,
  dm 0x2700000027 0xb2e 0 0xb1b70000b1ba,
  dm 0x2700000027 0xb2f 0 0xb1ba0000b1bc,
  dm 0x2700000027 0xb30 0 0xb1bc0000b1be,
  dm 0x2700000027 0xb31 0 0xb1be0000b1c0,
  dm 0x2700000027 0xb32 0 0xb1c00000b1c7,
  dm 0x2700000027 0xb33 0 0xb1c70000b1c9,
  dm 0x2700000027 0xb34 0 0x18000000182,
  dm 0xdfd00000e04 0xb35 0 0x18000000182,
  dm 0x2b1e00002b26 no 0xb1cf0000b1d6 0xb1cf0000b1d6,
  dm 0x2700000027 no 0xb1d60000b1e2 0xb1d60000b1e2,
  dm 0x2700000027 no 0xb1e20000b1f4 0xb1f40000b1fb,
  dm 0x2700000027 0xb37 0 0x18000000182,
  dm 0xdfd00000e04 0xb38 0 0x18000000182,
  dm 0x2a1000002a7 0xb39 0 0x18000000182,
  dm 0x2a1000002a7 no 0xb1fb0000b208 0xb2080000b210,
  dm 0x2a1000002a7 no 0xb2100000b21b 0xb2100000b21b,
  dm 0x23b0000023d 0xb3a 0 0xb21b0000b223,
  dm 0x296a00002977 0xb3b 0 0xb2230000b22d,
  dm 0x23b0000023d 0xb3c 0 0xb2230000b22d,
  dm 0x23b0000023d no 0xb22d0000b23a 0xb23a0000b24e,
  dm 0x23b0000023d no 0xb2230000b22d 0xb24e0000b25f,
  dm 0x23b0000023d no 0xb25f0000b267 0xb25f0000b267,
  dm 0x2700000027 0xb3d 0 0xb2670000b26c,
  dm 0x2700000027 no 0xb26c0000b274 0xb26c0000b274,
  dm 0x2700000027 0xb3e 0 0xb2740000b27b,
  dm 0x2700000027 0xb3f 0 0xb27b0000b283,
  dm 0x2700000027 0xb40 0 0xb2830000b291,
  dm 0x2700000027 0xb41 0 0xb2910000b29b,
  dm 0x2700000027 0xb42 0 0xb29b0000b2a5,
  dm 0x2700000027 0xb43 0 0xb2a50000b2b0,
  dm 0x2700000027 0xb44 0 0xb2b00000b2ba,
  dm 0x2700000027 0xb45 0 0xb2ba0000b2c1,
  dm 0x2700000027 no 0xb2c10000b2c8 0xb2c80000b2d1,
  dm 0x2700000027 0xb46 0 0xb2d10000b2d9,
  dm 0x2700000027 0xb47 0 0xb2d90000b2e6,
  dm 0x2700000027 0xb48 0 0xb2e60000b2ef,
  dm 0x2700000027 0xb49 0 0xb2ef0000b2fa,
  dm 0x2700000027 no 0xb2fa0000b2ff 0xb2ff0000b306,
  dm 0x2700000027 0xb4a 0 0xb3060000b311,
  dm 0x2700000027 0xb4b 0 0xb3110000b318,
  dm 0x2700000027 0xb4c 0 0xb3180000b31f,
  dm 0x2700000027 0xb4d 0 0xb31f0000b32a,
  dm 0x2700000027 0xb4e 0 0xb32a0000b331,
  dm 0x2700000027 0xb4f 0 0xb3310000b339,
  dm 0x2700000027 no 0xb3390000b33e 0xb32a0000b331,
  dm 0x2700000027 0xb50 0 0xb33e0000b346,
  dm 0x2700000027 no 0xb3460000b34b 0xb34b0000b356,
  dm 0x2700000027 no 0xb3560000b35b 0xb35b0000b362,
  dm 0x2700000027 0xb51 0 0xb29b0000b2a5,
  dm 0x2700000027 no 0xb3620000b371 0xb3620000b371,
  dm 0x2700000027 0xb52 0 0xb3710000b378,
  dm 0x2700000027 0xb53 0 0xb3780000b383,
  dm 0xdfd00000e04 0xb54 0 0xb3830000b393,
  dm 0xdfd00000e04 no 0xb3930000b3a4 0xb3930000b3a4,
  dm 0x2700000027 0xb55 0 0xb3a40000b3b0,
  dm 0x2700000027 0xb56 0 0xb3b00000b3b8,
  dm 0xdfd00000e04 no 0xb3b80000b3bd 0xb3b80000b3bd,
  dm 0xdfd00000e04 0xb57 0 0xb3bd0000b3c7,
  dm 0x2a1000002a7 no 0xb3c70000b3ce 0xb3c70000b3ce,
  dm 0x2a1000002a7 no 0xb3ce0000b3dc 0xb3ce0000b3dc,
  dm 0x2a1000002a7 no 0xb3dc0000b3e8 0xb3dc0000b3e8,
  dm 0xc9b00000ca2 no 0xb3e80000b3f4 0xb3e80000b3f4,
  dm 0x2a1000002a7 no 0xb3f40000b3fd 0xb3f40000b3fd,
  dm 0x23b0000023d no 0xb3fd0000b402 0xb3fd0000b402,
  dm 0x23b0000023d no 0xb4020000b40e 0xb4020000b40e,
  dm 0x2700000027 0xb59 0 0xb4160000b41d,
  dm 0x2700000027 0xb5a 0 0xb41d0000b41f,
  dm 0x2700000027 0xb5b 0 0xb41f0000b422,
  dm 0x2700000027 0xb5c 0 0xb4220000b42a,
  dm 0x2700000027 0xb5d 0 0xb42a0000b42c,
  dm 0x2700000027 0xb5e 0 0xb42c0000b433,
  dm 0x2700000027 0xb5f 0 0xb4330000b43a,
  dm 0x2700000027 0xb60 0 0xd5700000d5a,
  dm 0x2700000027 0xb62 0 0x18000000182,
  dm 0x2700000027 no 0x937100009377 0x937100009377,
  dm 0x2700000027 no 0xb4460000b44f 0xb44f0000b452,
  dm 0x2700000027 no 0xb4520000b45a 0xb45a0000b45e,
  dm 0x2700000027 no 0xb45e0000b466 0xb4660000b469,
  dm 0x2700000027 0xb64 0 0x18000000182,
  dm 0x23b0000023d 0xb65 0 0x18000000182,
  dm 0x2700000027 0xb66 0 0x18000000182,
  dm 0x2700000027 0xb67 0 0x18000000182,
  dm 0 no 0 0xb4860000b48d,
  dm 0x2700000027 0xb6b 0 0xb4970000b49c,
  dm 0x2700000027 0xb6c 0 0x18000000182,
  dm 0x2700000027 no 0xb4a00000b4a6 0xb4a60000b4ae,
  dm 0x2700000027 no 0xb4ae0000b4b4 0xb4b40000b4bc,
  dm 0x2700000027 0xb6e 0 0x18000000182,
  dm 0x2700000027 0xb70 0 0xb4c60000b4d0,
  dm 0x2700000027 0xb71 0 0xb4d00000b4d8,
  dm 0x2700000027 no 0xb4e40000b4ec 0xb4ec0000b4f1,
  dm 0x2700000027 0xb74 0 0xb4f90000b505,
  dm 0x2700000027 no 0xb50b0000b513 0xb5130000b51b,
  dm 0x2700000027 0xb76 0 0xb51b0000b520,
  dm 0x2700000027 0xb78 0 0x18000000182,
  dm 0x2700000027 0xb79 0 0x18000000182,
  dm 0 no 0 0x18000000182,
  dm 0x2a1000002a7 0xb7c 0 0x18000000182,
  dm 0x2700000027 0xb7d 0 0xe3400000e3c,
  dm 0x2700000027 0xb7e 0 0x18000000182,
  dm 0x2700000027 0xb7f 0 0xaa3b0000aa3e,
  dm 0x2700000027 no 0xb5370000b53f 0xb53f0000b551,
  dm 0x2700000027 no 0xb5510000b55b 0xb55b0000b569,
  dm 0x2700000027 no 0xb5690000b571 0xb5710000b583,
  dm 0 no 0 0x18000000182,
  dm 0x2700000027 no 0xb5900000b5a1 0xb5a10000b5b2,
  dm 0x2700000027 0xb82 0 0xb5b20000b5bd,
  dm 0x2700000027 0xb83 0 0xb5bd0000b5c7,
  dm 0x2700000027 0xb84 0 0xb5c70000b5cf,
  dm 0x2700000027 0xb85 0 0xb5cf0000b5d7,
  dm 0x2700000027 0xb86 0 0x18000000182,
  dm 0 no 0 0x18000000182,
  dm 0x2700000027 0xb89 0 0xb5e20000b5ea,
  dm 0x2700000027 0xb8a 0 0xb5ea0000b5f0,
  dm 0x2700000027 0xb8b 0 0xb5f00000b5f7,
  dm 0x2700000027 0xb8c 0 0x42200000425,
  dm 0x2700000027 0xb8d 0 0xb5f70000b5fe,
  dm 0x2700000027 0xb8e 0 0x3e9000003ed,
  dm 0x2700000027 0xb8f 0 0xb5fe0000b602,
  dm 0 no 0 0x18000000182,
  dm 0 no 0 0x18000000182,
  dm 0x2700000027 no 0xb6120000b61b 0xb61b0000b624,
  dm 0x2700000027 no 0xb6270000b62e 0xb62e0000b635,
  dm 0 no 0 0xb6490000b652,
  dm 0x2700000027 0xb94 0 0xb6560000b65c,
  dm 0x2a1000002a7 0xb96 0 0xb6610000b667,
  dm 0x2700000027 no 0xb6670000b675 0xb6750000b683,
  dm 0x2700000027 0xb97 0 0xb6830000b68e,
  dm 0x2700000027 0xb98 0 0x18000000182,
  dm 0x2700000027 0xb99 0 0xb6950000b6a3,
  dm 0x2700000027 no 0xb6ab0000b6b5 0xb6b50000b6bb,
  dm 0x2700000027 no 0xb6bb0000b6c4 0xb6bb0000b6c4,
  dm 0x2700000027 no 0xb6c40000b6c9 0xb6c40000b6c9,
  dm 0x2700000027 no 0xb6c90000b6cf 0xb6c90000b6cf,
  dm 0x2700000027 no 0xb6cf0000b6d6 0xb6cf0000b6d6,
  dm 0x2700000027 no 0xb6d60000b6dd 0xb6d60000b6dd,
  dm 0x2700000027 0xb9c 0 0xb6dd0000b6e1,
  dm 0x2700000027 no 0xb6e10000b6e6 0xb6e60000b6eb,
  dm 0x2700000027 no 0xb6eb0000b6ef 0xb6eb0000b6ef,
  dm 0x2700000027 no 0xb6ef0000b6f6 0xb6f60000b6f9,
  dm 0 no 0 0xb7020000b70c,
  dm 0x2700000027 no 0xb7110000b719 0xb7190000b721,
  dm 0 no 0 0x18000000182,
  dm 0x2700000027 0xba0 0 0xb7310000b740,
  dm 0xdfd00000e04 no 0xb7420000b756 0xb7560000b766,
  dm 0x2a1000002a7 no 0xb7660000b770 0xb7700000b777,
  dm 0x2a1000002a7 0xba2 0 0xb7770000b77f,
  dm 0x2a1000002a7 no 0xb77f0000b78b 0xb77f0000b78b,
  dm 0x2a1000002a7 no 0xb78b0000b793 0xb78b0000b793,
  dm 0x2a1000002a7 no 0xb7930000b79e 0xb7930000b79e,
  dm 0x2a1000002a7 no 0xb79e0000b7ab 0xb7ab0000b7ba,
  dm 0xc9b00000ca2 no 0xb7ba0000b7d2 0xb7ba0000b7d2,
  dm 0x2a1000002a7 0xba3 0 0xb7d20000b7db,
  dm 0x2a1000002a7 no 0xb7db0000b7e9 0xb7e90000b7f4,
  dm 0x2a1000002a7 0xba4 0 0xb7770000b77f,
  dm 0x2a1000002a7 0xba5 0 0xb7770000b77f,
  dm 0x2a1000002a7 0xba6 0 0xb7f40000b7fc,
  dm 0x2700000027 0xba7 0 0x18000000182,
  dm 0x2700000027 0xba8 0 0xb7fc0000b803,
  dm 0x2700000027 0xba9 0 0xb8030000b807,
  dm 0xc9b00000ca2 0xbaa 0 0xb8070000b811,
  dm 0xc9b00000ca2 no 0xb8110000b823 0xb8110000b823,
  dm 0xc9b00000ca2 0xbab 0 0x7dec00007df9,
  dm 0xc9b00000ca2 0xbac 0 0xb8230000b82f,
  dm 0xc9b00000ca2 no 0xb82f0000b845 0xb82f0000b845,
  dm 0x2700000027 0xbae 0 0xb8480000b84e,
  dm 0x2700000027 0xbaf 0 0xb84e0000b855,
  dm 0x2700000027 0xbb0 0 0xb8550000b85d,
  dm 0x2700000027 0xbb1 0 0xb85d0000b865,
  dm 0x2700000027 0xbb2 0 0xb8650000b86d,
  dm 0x2700000027 0xbb3 0 0xb86d0000b875,
  dm 0x2700000027 0xbb4 0 0xb8750000b87d,
  dm 0x2700000027 0xbb5 0 0xb87d0000b883,
  dm 0x2700000027 0xbb6 0 0xb8830000b889,
  dm 0x2700000027 0xbb7 0 0xb8890000b88f,
  dm 0x2700000027 0xbb8 0 0xb88f0000b8a2,
  dm 0x2700000027 0xbb9 0 0xb8a20000b8a5,
  dm 0x2700000027 0xbba 0 0xb8a50000b8a8,
  dm 0x2700000027 0xbbb 0 0xb8a80000b8ad,
  dm 0x2700000027 0xbbc 0 0xb8ad0000b8b5,
  dm 0x2700000027 0xbbd 0 0xb8b50000b8bf,
  dm 0x2700000027 0xbbe 0 0xb8bf0000b8c5,
  dm 0x2700000027 0xbbf 0 0xb8c50000b8cc,
  dm 0x2700000027 0xbc0 0 0xb8cc0000b8cd,
  dm 0x2700000027 0xbc1 0 0xb8cd0000b8d2,
  dm 0x2700000027 0xbc2 0 0xb8d20000b8d9,
  dm 0x2700000027 0xbc3 0 0xb8d90000b8e4,
  dm 0x2700000027 0xbc4 0 0xb8e40000b8ef,
  dm 0x2700000027 no 0xb8ef0000b90a 0xb90a0000b925,
  dm 0x2700000027 0xbc5 0 0xb9250000b930,
  dm 0x2700000027 0xbc6 0 0xb9300000b936,
  dm 0x2700000027 0xbc7 0 0xb9360000b945,
  dm 0x2700000027 0xbc8 0 0xb9450000b957,
  dm 0x2700000027 0xbc9 0 0xb9570000b95d,
  dm 0x2700000027 0xbca 0 0xb95d0000b963,
  dm 0x2700000027 0xbcb 0 0xb9630000b96d,
  dm 0x2700000027 0xbcc 0 0xb96d0000b973,
  dm 0x2700000027 0xbcd 0 0xb9730000b979,
  dm 0x2700000027 0xbce 0 0xb9790000b984,
  dm 0x2700000027 0xbcf 0 0xb9840000b98a,
  dm 0x2700000027 0xbd0 0 0xb98a0000b993,
  dm 0x2700000027 0xbd1 0 0xb9930000b999,
  dm 0x2700000027 0xbd2 0 0xb9990000b99f,
  dm 0x2700000027 no 0xb99f0000b9a6 0xb9a60000b9b6,
  dm 0x2700000027 no 0xb9b60000b9c0 0xb9c00000b9c9,
  dm 0x2700000027 no 0xb9c90000b9d1 0xb9d10000b9dc,
  dm 0x2700000027 no 0xb9dc0000b9e6 0xb9e60000b9f8,
  dm 0x2700000027 no 0xb9f80000ba00 0x8fbd00008fc6,
  dm 0x2700000027 no 0xba000000ba08 0xba080000ba0b,
  dm 0x2700000027 no 0xba0b0000ba10 0x8f8000008f84,
  dm 0x2700000027 0xbd3 0 0x3f8100003f83,
  dm 0x2700000027 0xbd4 0 0xba100000ba19,
  dm 0x2700000027 0xbd5 0 0xba190000ba24,
  dm 0x2700000027 0xbd6 0 0xba240000ba2e,
  dm 0x2700000027 0xbd7 0 0xba2e0000ba38,
  dm 0x2700000027 0xbd8 0 0xba380000ba42,
  dm 0x2700000027 0xbd9 0 0xba420000ba4c,
  dm 0x2700000027 0xbda 0 0xba4c0000ba57,
  dm 0x2700000027 0xbdb 0 0xba570000ba61,
  dm 0x2700000027 0xbdc 0 0xba610000ba6b,
  dm 0x2700000027 0xbdd 0 0xba6b0000ba75,
  dm 0x2700000027 0xbde 0 0xba750000ba7f,
  dm 0x2700000027 0xbdf 0 0xba7f0000ba89,
  dm 0x2700000027 0xbe0 0 0xba890000ba93,
  dm 0x2700000027 0xbe1 0 0xba930000ba9d,
  dm 0x2700000027 0xbe2 0 0xba9d0000bab1,
  dm 0x2700000027 0xbe3 0 0xbab10000bab9,
  dm 0x2700000027 0xbe4 0 0xbab90000babd,
  dm 0x2700000027 0xbe5 0 0xbabd0000bace,
  dm 0x2700000027 0xbe6 0 0xbace0000badb,
  dm 0x2700000027 0xbe7 0 0xbadb0000bae1,
  dm 0x2700000027 0xbe8 0 0xbae10000baf1,
  dm 0x2700000027 0xbe9 0 0xbaf10000bafe,
  dm 0x2700000027 0xbea 0 0xbafe0000bb12,
  dm 0x2700000027 no 0xbb120000bb1a 0xbb1a0000bb1d,
  dm 0x2700000027 0xbeb 0 0xbb1d0000bb29,
  dm 0x2a1000002a7 0xbec 0 0xbb290000bb2e,
  dm 0x2a1000002a7 0xbed 0 0xbb2e0000bb33,
  dm 0x2a1000002a7 0xbee 0 0x1940000019b,
  dm 0x2a1000002a7 0xbef 0 0x18000000182,
  dm 0x2a1000002a7 0xbf0 0 0xbb330000bb3b,
  dm 0xdfd00000e04 0xbf1 0 0xbb3b0000bb42,
  dm 0x2700000027 0xbf2 0 0x18000000182,
  dm 0x2a1000002a7 0xbf3 0 0xbb420000bb4d,
  dm 0x2700000027 0xbf4 0 0xbb420000bb4d,
  dm 0x2700000027 0xbf5 0 0xbb4d0000bb5d,
  dm 0x2700000027 0xbf6 0 0xbb5d0000bb6d,
  dm 0x2700000027 0xbf7 0 0xbb6d0000bb7d,
  dm 0x2700000027 0xbf8 0 0x18000000182,
  dm 0x2700000027 0xbf9 0 0x18000000182,
  dm 0x2700000027 0xbfa 0 0x18000000182,
  dm 0x2700000027 0xbfb 0 0x18000000182,
  dm 0x2700000027 0xbfc 0 0x18000000182]

/-- `__dr_dm`, from item 4000 on (device_repo.go:6272-6771). -/
def drDm_8 : List ModelTuple := [
  dm 0x2700000027 0xbfd 0 0x6b6d00006b72,
  dm 0x2700000027 0xbfe 0 0x18000000182,
  dm 0x2700000027 0xbff 0 0x18000000182,
  dm 0x2700000027 0xc00 0 0x18000000182,
  dm 0x2700000027 0xc01 0 0x3f8100003f83,
  dm 0x2700000027 0xc03 0 0xbb830000bb87,
  dm 0x2700000027 0xc04 0 0x18000000182,
  dm 0x2700000027 no 0xbb8c0000bb97 0xbb970000bba8,
  dm 0x2700000027 no 0xbba80000bbaf 0xbbaf0000bbbc,
  dm 0x2700000027 no 0xbbbc0000bbc6 0xbbc60000bbc8,
  dm 0x2700000027 no 0xbbc80000bbcf 0xbbc80000bbcf,
  dm 0x2700000027 0xc06 0 0xbbcf0000bbdb,
  dm 0x2700000027 no 0xbbdb0000bbe5 0x6f7000006f72,
  dm 0x2700000027 no 0xbbe50000bbef 0x6fa100006fa3,
  dm 0x2700000027 no 0xbbef0000bbf9 0xbbf90000bbfc,
  dm 0x2700000027 no 0xbbfc0000bc06 0xbc060000bc0a,
  dm 0x2700000027 no 0xbc0a0000bc14 0xbc140000bc17,
  dm 0x2700000027 no 0xbc170000bc21 0xbc210000bc24,
  dm 0x2700000027 0xc07 0 0xbc240000bc26,
  dm 0x2700000027 no 0xbc260000bc35 0xbc350000bc40,
  dm 0x2700000027 0xc08 0 0x18000000182,
  dm 0x2700000027 0xc09 0 0x18000000182,
  dm 0x2700000027 0xc0a 0 0xaf2b0000af2e,
  dm 0x2a1000002a7 0xc0b 0 0xbc400000bc47,
  dm 0x2a1000002a7 0xc0c 0 0x18000000182,
  dm 0x2a1000002a7 0xc0d 0 0x18000000182,
  dm 0x23b0000023d 0xc0e 0 0xe3400000e3c,
  dm 0x23b0000023d no 0xbc470000bc56 0x8ad700008ae4,
  dm 0x23b0000023d no 0xbc560000bc5e 0xbc5e0000bc68,
  dm 0x23b0000023d no 0xbc680000bc72 0xbc680000bc72,
  dm 0x23b0000023d no 0xbc720000bc88 0xbc880000bc98,
  dm 0x23b0000023d no 0xbc980000bca9 0xbc980000bca9,
  dm 0x2700000027 0xc0f 0 0x18000000182,
  dm 0x2700000027 0xc10 0 0x18000000182,
  dm 0x2700000027 0xc11 0 0x18000000182,
  dm 0x39a000003a7 0xc12 0 0x18000000182,
  dm 0x2700000027 0xc13 0 0xbcaf0000bcb7,
  dm 0 no 0 0x18000000182,
  dm 0x2700000027 0xc16 0 0xbcc20000bcce,
  dm 0x2700000027 0xc18 0 0xbcd40000bced,
  dm 0x2700000027 0xc19 0 0xbced0000bcfe,
  dm 0x2700000027 0xc1a 0 0xbcfe0000bd0a,
  dm 0x2700000027 0xc1b 0 0xbd0a0000bd17,
  dm 0x2700000027 0xc1c 0 0xbd170000bd23,
  dm 0x2700000027 0xc1d 0 0xbd230000bd32,
  dm 0x2700000027 0xc1e 0 0x8e4a00008e53,
  dm 0x2700000027 0xc1f 0 0xa0450000a04b,
  dm 0x2700000027 no 0xbd320000bd40 0xbd400000bd47,
  dm 0x2700000027 0xc20 0 0xbd470000bd4c,
  dm 0x2700000027 0xc21 0 0xbd4c0000bd53,
  dm 0x2700000027 0xc22 0 0xbd530000bd57,
  dm 0x2700000027 0xc23 0 0xbd570000bd5f,
  dm 0x2700000027 0xc24 0 0xbd5f0000bd65,
  dm 0x2700000027 0xc25 0 0xbd650000bd6d,
  dm 0x2700000027 0xc26 0 0xbd6d0000bd79,
  dm 0x2700000027 no 0xbd790000bd83 0xbd790000bd83,
  dm 0x2700000027 no 0xbd830000bd92 0xbd920000bd9a,
  dm 0x2700000027 no 0xbd9a0000bdab 0xbdab0000bdb6,
  dm 0x2700000027 0xc27 0 0x86240000862c,
  dm 0x23f00000249 0xc29 0 0x18000000182,
  dm 0x2700000027 0xc2a 0 0x18000000182,
  dm 0x2700000027 0xc2c 0 0x18000000182,
  dm 0x2700000027 0xc2d 0 0xbdc70000bdd2,
  dm 0x2700000027 no 0xbdd20000bdd9 0xbdd20000bdd9,
  dm 0x2700000027 no 0xbdd90000bddf 0xbdd90000bddf,
  dm 0x2700000027 no 0xbddf0000bde7 0xbddf0000bde7,
  dm 0x2700000027 no 0xbde70000bdef 0xbde70000bdef,
  dm 0x2700000027 no 0xbdef0000bdf4 0xbdf40000bdfd,
  dm 0 no 0 0x18000000182,
  dm 0 no 0 0xbe0d0000be16,
  dm 0x2700000027 0xc31 0 0x18000000182,
  dm 0x2700000027 0xc32 0 0x18000000182,
  dm 0x2700000027 0xc34 0 0xbe230000be30,
  dm 0x2700000027 no 0xbe300000be3f 0xbe3f0000be4c,
  dm 0x2700000027 0xc35 0 0xbe4c0000be53,
  dm 0x2700000027 0xc36 0 0x18000000182,
  dm 0x2700000027 0xc37 0 0x18000000182,
  dm 0 no 0 0x18000000182,
  dm 0x2700000027 0xc3a 0 0xbe670000be6d,
  dm 0x2700000027 0xc3b 0 0xbe6d0000be73,
  dm 0x2700000027 0xc3c 0 0xbe730000be78,
  dm 0x2700000027 0xc3d 0 0xbe780000be7d,
  dm 0 no 0 0x18000000182,
  dm 0 no 0 0x18000000182,
  dm 0 no 0 0xbe900000be9c,
  dm 0 no 0 0xbea40000bea6,
  dm 0 no 0 0x18000000182,
  dm 0x2700000027 0xc44 0 0xbeae0000beb6,
  dm 0x2700000027 0xc45 0 0x591f00005924,
  dm 0x2700000027 0xc46 0 0xbeb60000bebe,
  dm 0x2700000027 0xc47 0 0x18000000182,
  dm 0x23b0000023d no 0xbebe0000becd 0xbecd0000bedb,
  dm 0x23b0000023d 0xc48 0 0xbedb0000bee0,
  dm 0x23b0000023d 0xc49 0 0xbee00000bee7,
  dm 0x23b0000023d 0xc4a 0 0x18000000182,
  dm 0x2700000027 no 0xbeee0000bef6 0xbef60000befa,
  dm 0x2700000027 no 0xbefa0000bf02 0xbf020000bf07,
  dm 0x2700000027 no 0xbf070000bf10 0xbf100000bf15,
  dm 0x2700000027 no 0xbf150000bf1e 0xbf1e0000bf1f,
  dm 0x2700000027 no 0xbf1f0000bf27 0x3f8100003f83,
  dm 0x2700000027 no 0xbf270000bf2f 0xbf2f0000bf35,
  dm 0x2700000027 no 0xbf350000bf3d 0xbf3d0000bf45,
  dm 0x2700000027 0xc4c 0 0xbf450000bf47,
  dm 0x2700000027 no 0xbf470000bf4f 0xbf4f0000bf54,
  dm 0 no 0 0xbf5c0000bf63,
  dm 0 no 0 0xbf7c0000bf86,
  dm 0 no 0 0x18000000182,
  dm 0x2700000027 0xc50 0 0xbf960000bfa1,
  dm 0x2700000027 0xc52 0 0x18000000182,
  dm 0x2700000027 0xc53 0 0x18000000182,
  dm 0x2700000027 no 0xbfa70000bfab 0xbfab0000bfb0,
  dm 0x2700000027 0xc55 0 0xbfb50000bfbe,
  dm 0x2700000027 0xc56 0 0xbfbe0000bfc5,
  dm 0x2700000027 no 0xbfc50000bfcd 0xbfcd0000bfd3,
  dm 0x2700000027 0xc58 0 0xbfd90000bfe0,
  dm 0x2700000027 0xc59 0 0xbfe00000bfe9,
  dm 0x2700000027 0xc5a 0 0xbfe90000bff0,
  dm 0x2700000027 0xc5b 0 0x18000000182,
  dm 0x2700000027 0xc5d 0 0x18000000182,
  dm 0x2700000027 0xc5e 0 0xbffa0000c008,
  dm 0x2700000027 0xc5f 0 0xc0080000c01b,
  dm 0x2700000027 0xc60 0 0xc01b0000c02b,
  dm 0x2700000027 0xc61 0 0xc02b0000c039,
  dm 0x2700000027 0xc62 0 0xc0390000c047,
  dm 0x2700000027 0xc63 0 0xc0470000c051,
  dm 0x2700000027 0xc64 0 0xc0510000c056,
  dm 0x2700000027 0xc65 0 0xc0560000c05d,
  dm 0x2700000027 0xc66 0 0xc05d0000c068,
  dm 0x2700000027 0xc67 0 0xc0680000c06f,
  dm 0x2700000027 0xc68 0 0xc06f0000c077,
  dm 0x2700000027 0xc69 0 0xc0770000c07b,
  dm 0x2700000027 0xc6a 0 0xc07b0000c07e,
  dm 0x2700000027 0xc6b 0 0xc07e0000c088,
  dm 0x2700000027 0xc6c 0 0xc0880000c092,
  dm 0x2700000027 0xc6d 0 0xc0920000c098,
  dm 0x2700000027 0xc6e 0 0xc0980000c0a1,
  dm 0x2700000027 0xc6f 0 0xc0a10000c0a6,
  dm 0x2700000027 0xc70 0 0xc0a60000c0b1,
  dm 0x2700000027 0xc71 0 0xc0b10000c0b8,
  dm 0x2700000027 0xc72 0 0xc0b80000c0c6,
  dm 0x2700000027 0xc73 0 0xc0c60000c0d0,
  dm 0x2700000027 no 0xc0d00000c0d9 0xc0d00000c0d9,
  dm 0x2700000027 0xc74 0 0xc0d90000c0e0,
  dm 0x2700000027 0xc75 0 0xc0e00000c0ea,
  dm 0x2700000027 0xc76 0 0xc0ea0000c0f4,
  dm 0x2700000027 0xc77 0 0xc0f40000c102,
  dm 0x2700000027 0xc78 0 0xc1020000c109,
  dm 0x2700000027 0xc79 0 0xc1090000c115,
  dm 0x2700000027 0xc7a 0 0xc1150000c11a,
  dm 0x2700000027 0xc7b 0 0xc11a0000c121,
  dm 0x2700000027 0xc7c 0 0xc1210000c127,
  dm 0x2700000027 0xc7d 0 0xc1270000c12e,
  dm 0x2700000027 0xc7e 0 0xc12e0000c136,
  dm 0x2700000027 no 0xc1360000c13d 0xc1360000c13d,
  dm 0x2700000027 0xc7f 0 0xc13d0000c147,
  dm 0x2700000027 0xc80 0 0xa29c0000a2a1,
  dm 0x2700000027 0xc81 0 0xc1470000c154,
  dm 0x2700000027 0xc82 0 0xc1540000c15c,
  dm 0x2700000027 no 0xc15c0000c165 0xc1650000c16e,
  dm 0x2700000027 no 0xc16e0000c175 0xc16e0000c175,
  dm 0x2700000027 0xc84 0 0xb6c40000b6c9,
  dm 0x2700000027 0xc85 0 0xa0ce0000a0d5,
  dm 0x2700000027 0xc86 0 0x18000000182,
  dm 0x2700000027 no 0xc1850000c18b 0xc18b0000c191,
  dm 0x2700000027 no 0xc1910000c197 0xc1910000c197,
  dm 0x2700000027 no 0xc1970000c1a6 0xc1970000c1a6,
  dm 0x2700000027 0xc88 0 0xc1a60000c1b1,
  dm 0x2700000027 no 0xc1b10000c1b8 0xc1b10000c1b8,
  dm 0x2700000027 0xc89 0 0xe3400000e3c,
  dm 0x2a1000002a7 no 0xc1bf0000c1c6 0xc1c60000c1cc,
  dm 0x2a1000002a7 0xc8b 0 0xc1cc0000c1cf,
  dm 0x2a1000002a7 0xc8c 0 0xc1cf0000c1d9,
  dm 0x2a1000002a7 no 0xc1d90000c1de 0xc1de0000c1e4,
  dm 0x2700000027 no 0xc1e40000c1ec 0x196000001962,
  dm 0x2700000027 no 0xc1ec0000c1f4 0xc1f40000c1fd,
  dm 0x2700000027 no 0xc1fd0000c205 0xc2050000c207,
  dm 0x2700000027 no 0xc2070000c20f 0xc20f0000c212,
  dm 0x2700000027 no 0xc2120000c219 0x197700001979,
  dm 0x2700000027 no 0xc2190000c221 0x4a5000004a7,
  dm 0x2700000027 no 0xc2210000c22e 0xc22e0000c23d,
  dm 0x2700000027 0xc8d 0 0xc23d0000c241,
  dm 0x2700000027 no 0xc2410000c24f 0xc24f0000c25d,
  dm 0x2700000027 0xc8e 0 0xc25d0000c262,
  dm 0x2700000027 no 0xc2620000c26a 0xc26a0000c270,
  dm 0x2700000027 no 0xc2700000c275 0xc2750000c277,
  dm 0x2700000027 no 0xc2770000c27f 0xc27f0000c282,
  dm 0x2700000027 no 0xc2820000c28a 0xc28a0000c28d,
  dm 0x2700000027 0xc8f 0 0xc28d0000c290,
  dm 0x2700000027 0xc90 0 0xc2900000c293,
  dm 0x2700000027 0xc91 0 0xc2930000c296,
  dm 0x2700000027 0xc92 0 0xc2960000c2a1,
  dm 0x2700000027 0xc93 0 0xc2a10000c2b0,
  dm 0x2700000027 0xc94 0 0xc2b00000c2bb,
  dm 0x2700000027 0xc95 0 0x60ba000060c9,
  dm 0x2700000027 0xc96 0 0xc2bb0000c2c6,
  dm 0x2700000027 0xc97 0 0xc2c60000c2cd,
  dm 0x2700000027 0xc98 0 0xc2cd0000c2d1,
  dm 0x2700000027 0xc99 0 0xc2d10000c2d4,
  dm 0x2700000027 0xc9a 0 0xc2d40000c2d7,
  dm 0x2700000027 0xc9b 0 0xc2d70000c2df,
  dm 0x2700000027 0xc9c 0 0xc2df0000c2e2,
  dm 0x2700000027 0xc9d 0 0xc2e20000c2e5,
  dm 0x2700000027 no 0xc2e50000c2ed 0xc2ed0000c2f0,
  dm 0x2700000027 no 0xc2f00000c300 0xc3000000c303,
  dm 0x2700000027 no 0xc3030000c317 0xc3170000c31f,
  dm 0x2700000027 no 0xc31f0000c327 0xc3270000c32d,
  dm 0x2700000027 0xc9e 0 0xc32d0000c330,
  dm 0x2700000027 0xc9f 0 0xc3300000c341,
  dm 0x2700000027 no 0xc3410000c349 0xc3490000c355,
  dm 0xdfd00000e04 0xca0 0 0xc28a0000c28d,
  dm 0x2700000027 0xca1 0 0xc3550000c35d,
  dm 0x2700000027 0xca2 0 0x18000000182,
  dm 0x2700000027 0xca3 0 0xc35d0000c35f,
  dm 0x2700000027 0xca4 0 0xc35f0000c363,
  dm 0x2700000027 0xca5 0 0x500000005006,
  dm 0x2700000027 0xca6 0 0xc3630000c374,
  dm 0x2700000027 0xca7 0 0xc3740000c383,
  dm 0x2700000027 0xca8 0 0x18000000182,
  dm 0x23b0000023d 0xca9 0 0x18000000182,
  dm 0x23b0000023d 0xcaa 0 0x18000000182,
  dm 0x23b0000023d 0xcab 0 0x18000000182,
  dm 0x23b0000023d 0xcac 0 0x10e9000010f6,
  dm 0x23b0000023d 0xcad 0 0x18000000182,
  dm 0xbf670000bf7c 0xcae 0 0xc3830000c388,
  dm 0x2700000027 0xcaf 0 0xc3880000c391,
  dm 0x2700000027 0xcb0 0 0xc3910000c39a,
  dm 0x2700000027 0xcb1 0 0x500000005006,
  dm 0x2700000027 0xcb2 0 0x1940000019b,
  dm 0x2700000027 0xcb3 0 0x18000000182,
  dm 0x2700000027 0xcb4 0 0x18000000182,
  dm 0x2700000027 0xcb6 0 0x18000000182,
  dm 0 no 0 0x18000000182,
  dm 0x2700000027 0xcb9 0 0x558300005589,
  dm 0x2700000027 0xcba 0 0xc3af0000c3b3,
  dm 0x2700000027 0xcbb 0 0xc3af0000c3b3,
  dm 0 no 0 0x18000000182,
  dm 0x2700000027 0xcbe 0 0x18000000182,
  dm 0x2700000027 0xcbf 0 0xc3c30000c3d0,
  dm 0x2700000027 0xcc0 0 0xc3d00000c3d7,
  dm 0x2700000027 no 0xc3d70000c3e4 0xc3e40000c3f1,
  dm 0x2700000027 0xcc1 0 0xc3f10000c402,
  dm 0x2700000027 0xcc2 0 0xc4020000c407,
  dm 0x2700000027 no 0xc40d0000c414 0xc40d0000c414,
  dm 0x2700000027 no 0xc4140000c417 0xc4140000c417,
  dm 0x2700000027 0xcc4 0 0xc4170000c41f,
  dm 0x2700000027 0xcc5 0 0xc41f0000c423,
  dm 0x2700000027 0xcc6 0 0x18000000182,
  dm 0x2700000027 0xcc8 0 0x18000000182,
  dm 0x2700000027 0xcc9 0 0xc42c0000c436,
  dm 0x2a1000002a7 no 0xc4360000c43b 0xc43b0000c448,
  dm 0x7cc000007d6 0xcca 0 0xc4480000c452,
  dm 0x7cc000007d6 no 0xc4590000c46a 0x902d00009036,
  dm 0x2700000027 no 0xc46a0000c475 0xe3400000e3c,
  dm 0xdfd00000e04 0xccc 0 0xc47a0000c482,
  dm 0x2700000027 0xccd 0 0xc4820000c489,
  dm 0x2700000027 0xcce 0 0xc4890000c494,
  dm 0x2700000027 no 0xc4940000c49c 0xc49c0000c4a8,
  dm 0x2700000027 no 0xc4a80000c4b0 0xc4b00000c4b7,
  dm 0x2700000027 no 0xc4b70000c4bf 0xc4bf0000c4c2,
  dm 0x2700000027 0xccf 0 0xc4c20000c4c5,
  dm 0x2700000027 0xcd0 0 0xc4c50000c4c8,
  dm 0x2700000027 no 0xc4c80000c4cf 0xc4cf0000c4d5,
  dm 0x2700000027 0xcd1 0 0x5b2100005b26,
  dm 0xdfd00000e04 0xcd2 0 0xc4d50000c4dd,
  dm 0x2700000027 0xcd3 0 0xc4dd0000c4e0,
  dm 0x2700000027 no 0xc4e00000c4e8 0xc4e80000c4ec,
  dm 0x2700000027 0xcd4 0 0xc4ec0000c4ef,
  dm 0x2700000027 no 0xc4ef0000c4f6 0xc4f60000c4fe,
  dm 0x2700000027 0xcd5 0 0xc4fe0000c501,
  dm 0x2700000027 0xcd6 0 0xc5010000c508,
  dm 0x2700000027 no 0xc5080000c510 0xc5100000c512,
  dm 0x2700000027 no 0xc5120000c51a 0xc51a0000c520,
  dm 0x2700000027 no 0xc5200000c528 0xc5280000c52b,
  dm 0x2700000027 no 0xc52b0000c533 0xc5330000c53a,
  dm 0x2700000027 no 0xc53a0000c542 0xc5420000c54b,
  dm 0x2700000027 no 0xc54b0000c554 0xc5540000c560,
  dm 0x2700000027 no 0xc5600000c568 0xc5680000c576,
  dm 0x2700000027 no 0xc5760000c57e 0xc57e0000c587,
  dm 0x2700000027 no 0xc5870000c58e 0xc58e0000c591,
  dm 0x2700000027 no 0xc5910000c598 0xc5980000c5a7,
  dm 0x2700000027 0xcd7 0 0xc5a70000c5b2,
  dm 0x2700000027 0xcd8 0 0xc5b20000c5bd,
  dm 0x2700000027 no 0xc5bd0000c5c5 0xc5c50000c5cc,
  dm 0x2700000027 0xcd9 0 0xc5cc0000c5d3,
  dm 0x2700000027 0xcda 0 0xc5d30000c5de,
  dm 0x2700000027 0xcdb 0 0xc5de0000c5e9,
  dm 0x2700000027 0xcdc 0 0xc5e90000c5f5,
  dm 0x2700000027 no 0xc5f50000c5fd 0xc5fd0000c607,
  dm 0x2700000027 no 0xc6070000c60f 0xc60f0000c61b,
  dm 0x2700000027 no 0xc61b0000c623 0xc6230000c62a,
  dm 0x2700000027 no 0xc62a0000c634 0xc6340000c63c,
  dm 0x2700000027 no 0xc63c0000c644 0xc6440000c64b,
  dm 0x2700000027 0xcdd 0 0xc64b0000c64e,
  dm 0x2700000027 0xcde 0 0xc64e0000c655,
  dm 0x2700000027 no 0xc6550000c65c 0xc65c0000c664,
  dm 0x2700000027 no 0xc4b70000c4bf 0xc4bf0000c4c2,
  dm 0x2700000027 0xcdf 0 0xc6640000c667,
  dm 0x2700000027 no 0xc6670000c66f 0xc66f0000c67b,
  dm 0x2700000027 no 0xc67b0000c682 0xc6820000c685,
  dm 0x2700000027 no 0xc6850000c68c 0xc68c0000c695,
  dm 0x2700000027 no 0xc6950000c69d 0xc69d0000c6a5,
  dm 0x2700000027 0xce0 0 0xc6a50000c6a8,
  dm 0x2700000027 no 0xc6a80000c6b0 0xc6b00000c6b8,
  dm 0x2700000027 no 0xc6b80000c6bf 0xc6bf0000c6c2,
  dm 0x2700000027 no 0xc6c20000c6ca 0xc6ca0000c6d2,
  dm 0x2700000027 no 0xc6d20000c6da 0xc6da0000c6e1,
  dm 0x2700000027 no 0xc6e10000c6e9 0xc6e90000c6ec,
  dm 0x2700000027 0xce1 0 0xc6ec0000c6f3,
  dm 0x2700000027 no 0xc6f30000c6fb 0xc6fb0000c701,
  dm 0x2700000027 0xce2 0 0xc7010000c708,
  dm 0x2700000027 0xce3 0 0xc7080000c70b,
  dm 0x2700000027 no 0xc70b0000c713 0xc7130000c71f,
  dm 0x2700000027 no 0xc71f0000c727 0xc7270000c731,
  dm 0x2700000027 no 0xc7310000c739 0xc7390000c740,
  dm 0x2700000027 0xce4 0 0xc7400000c743,
  dm 0x2700000027 0xce5 0 0xc7430000c746,
  dm 0x2700000027 no 0xc7460000c74e 0xc74e0000c755,
  dm 0x2700000027 0xce6 0 0xc7550000c758,
  dm 0x2700000027 no 0xc7580000c75f 0xc75f0000c765,
  dm 0x2700000027 0xce7 0 0xc7650000c768,
  dm 0x2700000027 0xce8 0 0xc7680000c76b,
  dm 0x2700000027 0xce9 0 0xc76b0000c76e,
  dm 0x2700000027 no 0xc76e0000c775 0xc7750000c77b,
  dm 0x2700000027 no 0xc77b0000c783 0xc7830000c78a,
  dm 0x2700000027 0xcea 0 0xc78a0000c791,
  dm 0x2700000027 0xceb 0 0xc7910000c799,
  dm 0x2700000027 0xcec 0 0xc7990000c79b,
  dm 0x2700000027 no 0xc79b0000c7a3 0xc7a30000c7a8,
  dm 0x2700000027 no 0xc7a80000c7b0 0xc7b00000c7b6,
  dm 0x2700000027 no 0xc7b60000c7be 0xc7be0000c7c5,
  dm 0x2700000027 no 0xc7c50000c7cd 0x3e1400003e17,
  dm 0x2700000027 0xced 0 0xc7cd0000c7d5,
  dm 0x2700000027 no 0xc7d50000c7dd 0xc7dd0000c7ec,
  dm 0x2700000027 no 0xc7ec0000c7f4 0xc7f40000c805,
  dm 0x2700000027 no 0xc8050000c80d 0xc80d0000c816,
  dm 0x2700000027 no 0xc8160000c81d 0xc81d0000c829,
  dm 0x2700000027 0xcee 0 0xc8290000c830,
  dm 0x2700000027 0xcef 0 0xc8300000c83b,
  dm 0x2700000027 no 0xc83b0000c843 0xc8430000c853,
  dm 0x2700000027 no 0xc8530000c85a 0xc85a0000c860,
  dm 0x2700000027 no 0xc8600000c867 0xc8670000c86a,
  dm 0x2700000027 no 0xc86a0000c872 0xc8720000c876,
  dm 0x2700000027 no 0xc8760000c87e 0xc87e0000c881,
  dm 0x2700000027 no 0xc8810000c889 0xc8890000c893,
  dm 0x2700000027 no 0xc8930000c89b 0xc89b0000c8a6,
  dm 0x2700000027 no 0xc8a60000c8ae 0xc8ae0000c8b2,
  dm 0x2700000027 no 0xc8b20000c8ba 0xc8ba0000c8c0,
  dm 0x2700000027 no 0xc8c00000c8c8 0xc8c80000c8cb,
  dm 0x2700000027 no 0xc8cb0000c8d3 0xc8d30000c8df,
  dm 0x2700000027 no 0xc8df0000c8e7 0xc8e70000c8ee,
  dm 0x2700000027 0xcf0 0 0xbea40000bea6,
  dm 0x2700000027 0xcf1 0 0xb05f0000b061,
  dm 0x2700000027 no 0xc8ee0000c8f5 0xc8f50000c8fa,
  dm 0x2700000027 no 0xc8fa0000c902 0x3e3c00003e3e,
  dm 0x2700000027 no 0xc9020000c909 0xc9090000c90e,
  dm 0x2700000027 no 0xc90e0000c916 0xc9160000c91c,
  dm 0x2700000027 no 0xc91c0000c923 0xc9230000c92a,
  dm 0x2700000027 no 0xc92a0000c932 0xc9320000c938,
  dm 0x2700000027 no 0xc9380000c940 0xc9400000c945,
  dm 0x2700000027 no 0xc9450000c94d 0xc94d0000c958,
  dm 0x2700000027 no 0xc9580000c960 0xc9600000c965,
  dm 0x2700000027 no 0xc9650000c96d 0xc96d0000c972,
  dm 0x2700000027 no 0xc9720000c97a 0xc97a0000c981,
  dm 0x2700000027 no 0xc9810000c988 0xc9880000c990,
  dm 0x2700000027 no 0xc9900000c998 0xc9980000c9a3,
  dm 0x2700000027 0xcf2 0 0xc9a30000c9ae,
  dm 0x2700000027 no 0xc9ae0000c9b6 0xc9b60000c9bd,
  dm 0x2700000027 no 0xc9bd0000c9c5 0xc9c50000c9d1,
  dm 0x2700000027 no 0xc9d10000c9d8 0xc9d80000c9e4,
  dm 0x2700000027 no 0xc9e40000c9ec 0xc9ec0000c9f3,
  dm 0x2700000027 0xcf3 0 0xc9f30000c9f8,
  dm 0x2700000027 0xcf4 0 0xc9f80000c9fa,
  dm 0x2700000027 0xcf5 0 0x88190000881b,
  dm 0x2700000027 no 0xc9fa0000ca02 0xca020000ca04,
  dm 0x2700000027 no 0xca040000ca0c 0xb44f0000b452,
  dm 0x2700000027 0xcf6 0 0xca0c0000ca0e,
  dm 0x2700000027 0xcf7 0 0xca0e0000ca13,
  dm 0x2700000027 no 0xca130000ca1b 0xca1b0000ca20,
  dm 0x2700000027 0xcf8 0 0xca200000ca27,
  dm 0x2700000027 0xcf9 0 0xca270000ca30,
  dm 0x2700000027 no 0xca300000ca38 0xca380000ca3a,
  dm 0x2700000027 no 0xca3a0000ca42 0xca420000ca4a,
  dm 0x2700000027 no 0xca4a0000ca52 0xca520000ca58,
  dm 0x2700000027 no 0xca580000ca60 0xca600000ca67,
  dm 0x2700000027 no 0xca670000ca6f 0xca6f0000ca7a,
  dm 0x2700000027 no 0xca7a0000ca82 0xca820000ca8e,
  dm 0x2700000027 no 0xca8e0000ca96 0xca960000caa5,
  dm 0x2700000027 no 0xcaa50000caad 0xcaad0000cab8,
  dm 0x2700000027 no 0xcab80000cac0 0xcac00000cac6,
  dm 0x2700000027 no 0xcac60000cace 0xcace0000cad4,
  dm 0x2700000027 no 0xcad40000cadc 0xcadc0000cae3,
  dm 0x2700000027 no 0xcae30000caea 0xcaea0000caf5,
  dm 0x2700000027 0xcfa 0 0xcaf50000cafc,
  dm 0x2a1000002a7 no 0xcafc0000cb03 0xcb030000cb13,
  dm 0x2a1000002a7 no 0xcb130000cb1b 0xcb1b0000cb2a,
  dm 0x2a1000002a7 no 0xcb2a0000cb31 0xcb310000cb46,
  dm 0x2a1000002a7 no 0xcb460000cb4d 0xcb4d0000cb74,
  dm 0x2a1000002a7 no 0xcb740000cb7b 0xcb7b0000cb8c,
  dm 0x2a1000002a7 no 0xcb8c0000cb93 0xcb930000cba4,
  dm 0x2a1000002a7 no 0xcba40000cbac 0xcbac0000cbc1,
  dm 0x2a1000002a7 no 0xcbc10000cbc9 0xcbc90000cbda,
  dm 0x2a1000002a7 no 0xcbda0000cbe3 0xcbe30000cbf2,
  dm 0x2a1000002a7 no 0xcbf20000cbf9 0xcbf90000cc0c,
  dm 0x2a1000002a7 no 0xcc0c0000cc14 0xcc140000cc25,
  dm 0x2a1000002a7 no 0xcc250000cc2f 0xcc2f0000cc3d,
  dm 0x2a1000002a7 no 0xcc3d0000cc48 0xcc480000cc55,
  dm 0x2a1000002a7 no 0xcc550000cc5e 0xcc5e0000cc64,
  dm 0x2a1000002a7 no 0xcc640000cc6d 0xcc6d0000cc7d,
  dm 0x2a1000002a7 no 0xcc7d0000cc84 0xcc840000cc90,
  dm 0x2a1000002a7 no 0xcc900000cc97 0xcc970000cca2,
  dm 0x2a1000002a7 no 0xcca20000ccac 0xccac0000ccb7,
  dm 0x2a1000002a7 no 0xccb70000ccbe 0xccbe0000cccf,
  dm 0x2a1000002a7 0xcfb 0 0xcccf0000ccdf,
  dm 0x2a1000002a7 no 0xccdf0000cce7 0xcce70000ccf8,
  dm 0x2a1000002a7 no 0xccf80000cd00 0xcd000000cd12,
  dm 0x2a1000002a7 no 0xcd120000cd1a 0xcd1a0000cd2b,
  dm 0x2a1000002a7 no 0xcd2b0000cd33 0xcd330000cd3f,
  dm 0x2a1000002a7 no 0xcd3f0000cd46 0xcd460000cd56,
  dm 0x2a1000002a7 no 0xcd560000cd5e 0xcd5e0000cd6e,
  dm 0x2a1000002a7 no 0xcd6e0000cd76 0xcd760000cd84,
  dm 0x2a1000002a7 no 0xcd840000cd8e 0xcd8e0000cd9e,
  dm 0x2a1000002a7 no 0xcd9e0000cda9 0xcda90000cdb4,
  dm 0x2700000027 0xcfd 0 0x18000000182,
  dm 0x2700000027 0xcfe 0 0x18000000182,
  dm 0x2700000027 0xcff 0 0xcdb90000cdbc,
  dm 0x23f00000249 0xd00 0 0x18000000182,
  dm 0x2700000027 0xd02 0 0xcdc40000cdc8,
  dm 0 no 0 0x18000000182,
  dm 0 no 0 0x18000000182,
  dm 0x2700000027 0xd06 0 0x18000000182,
  dm 0x2700000027 0xd07 0 0x18000000182,
  dm 0x2700000027 no 0xcde50000cdec 0xae2c0000ae31,
  dm 0x2700000027 no 0xcdec0000cdf3 0xcdf30000cdfa,
  dm 0x2700000027 no 0xcdfa0000ce01 0xce010000ce06,
  dm 0x2700000027 no 0xce060000ce0a 0xce0a0000ce11,
  dm 0x2a1000002a7 no 0xce110000ce15 0xce110000ce15,
  dm 0x2700000027 no 0xce150000ce1d 0xce1d0000ce24,
  dm 0x2700000027 0xd0a 0 0xce2a0000ce38,
  dm 0x2700000027 0xd0b 0 0xce380000ce3d,
  dm 0x2700000027 no 0xce3d0000ce4a 0xce4a0000ce57,
  dm 0x2700000027 0xd0c 0 0xce570000ce60,
  dm 0x2700000027 0xd0d 0 0x75e4000075ec,
  dm 0x2700000027 0xd0e 0 0xce600000ce6c,
  dm 0x2700000027 no 0xce6c0000ce73 0xce6c0000ce73,
  dm 0x2700000027 0xd0f 0 0xce730000ce7b,
  dm 0x2700000027 no 0xce7b0000ce86 0xce7b0000ce86,
  dm 0x2700000027 no 0xce860000ce8e 0xce860000ce8e,
  dm 0x2700000027 no 0xce8e0000ce95 0xce8e0000ce95,
  dm 0x2700000027 no 0xce950000ce9b 0xce950000ce9b,
  dm 0x2700000027 0xd10 0 0xce9b0000cea4,
  dm 0x2700000027 0xd11 0 0x500000005006,
  dm 0x2700000027 0xd12 0 0xcea40000cea7,
  dm 0x2700000027 0xd13 0 0x18000000182,
  dm 0x2700000027 0xd14 0 0xcea70000ceaa,
  dm 0x2700000027 0xd15 0 0xceaa0000cead,
  dm 0x2700000027 0xd16 0 0xcead0000cebb,
  dm 0xdfd00000e04 no 0xcebb0000cec5 0xcebb0000cec5,
  dm 0xdfd00000e04 no 0xcec50000cecf 0xcec50000cecf,
  dm 0xdfd00000e04 no 0xcecf0000ced9 0xcecf0000ced9,
  dm 0x2a1000002a7 0xd17 0 0xced90000cee4,
  dm 0x2a1000002a7 0xd18 0 0xcee40000cef0,
  dm 0x2a1000002a7 no 0xcef00000cefc 0xcefc0000cf08,
  dm 0x2a1000002a7 0xd19 0 0xcf080000cf0f,
  dm 0x2700000027 0xd1a 0 0x18000000182,
  dm 0x2700000027 no 0xcf0f0000cf19 0xcf0f0000cf19,
  dm 0x2700000027 no 0xcf190000cf1f 0xcf190000cf1f,
  dm 0x2700000027 0xd1c 0 0x18000000182,
  dm 0x2700000027 0xd1d 0 0xcf220000cf32,
  dm 0x2700000027 0xd1e 0 0xcf320000cf37,
  dm 0x2700000027 0xd20 0 0x18000000182,
  dm 0x2700000027 0xd21 0 0xcf3d0000cf41,
  dm 0x2700000027 0xd23 0 0x18000000182,
  dm 0x2700000027 0xd25 0 0xcf4c0000cf5c,
  dm 0x2700000027 0xd26 0 0xcf5c0000cf6b,
  dm 0x2700000027 0xd28 0 0xcf710000cf78,
  dm 0x2700000027 0xd29 0 0xcf780000cf85,
  dm 0x2700000027 0xd2a 0 0xcf850000cf90,
  dm 0x2700000027 0xd2b 0 0xcf900000cf9c,
  dm 0x2700000027 no 0xcf9c0000cfa3 0xcfa30000cfb0,
  dm 0x2700000027 no 0xcfb00000cfb7 0xcfb70000cfbe,
  dm 0x2700000027 no 0xcfbe0000cfc6 0xcfc60000cfdc,
  dm 0x2700000027 0xd2c 0 0xcfdc0000cfe7,
  dm 0x2700000027 0xd2d 0 0xcfe70000cff1,
  dm 0x2700000027 no 0xcff10000cff9 0xcff90000d008,
  dm 0x2700000027 no 0xd0080000d010 0xd0100000d019,
  dm 0x2700000027 0xd2e 0 0xd0190000d01b,
  dm 0x2700000027 0xd2f 0 0xd01b0000d024,
  dm 0x2700000027 0xd30 0 0xd0240000d02d,
  dm 0x2700000027 0xd31 0 0xd02d0000d038,
  dm 0x2700000027 0xd32 0 0xd0380000d043,
  dm 0x2700000027 0xd33 0 0xd0430000d04e,
  dm 0x2700000027 0xd34 0 0xd04e0000d058,
  dm 0x2700000027 0xd35 0 0xd0580000d063,
  dm 0x2700000027 0xd36 0 0xd0630000d06e,
  dm 0x2700000027 0xd37 0 0xd06e0000d07a,
  dm 0x2700000027 0xd38 0 0xd07a0000d085,
  dm 0x2700000027 0xd39 0 0xd0850000d08e,
  dm 0x2700000027 0xd3a 0 0xd08e0000d097,
  dm 0x2700000027 0xd3b 0 0xd0970000d0a0,
  dm 0x2700000027 0xd3c 0 0xd0a00000d0ab]

/-- `__dr_dm`, from item 4500 on (device_repo.go:6772-7271). -/
def drDm_9 : List ModelTuple := [
  dm 0x2700000027 0xd3d 0 0xd0ab0000d0b4,
  dm 0x2700000027 0xd3e 0 0xd0b40000d0be,
  dm 0x2700000027 0xd3f 0 0xd0be0000d0c9,
  dm 0x2700000027 0xd40 0 0xd0c90000d0d4,
  dm 0x2700000027 0xd41 0 0xd0d40000d0df,
  dm 0x2700000027 0xd42 0 0xd0df0000d0ea,
  dm 0x2700000027 0xd43 0 0xd0ea0000d0f2,
  dm 0x2700000027 0xd44 0 0xd0f20000d0ff,
  dm 0x2700000027 0xd45 0 0xd0ff0000d108,
  dm 0x2700000027 0xd46 0 0xd1080000d111,
  dm 0x2700000027 0xd47 0 0xd1110000d119,
  dm 0x2700000027 no 0xd1190000d121 0xd1210000d129,
  dm 0x2700000027 no 0xd1290000d131 0xd1310000d13a,
  dm 0x2700000027 no 0xd13a0000d142 0xd1420000d14a,
  dm 0x2700000027 no 0xd14a0000d152 0xd1520000d161,
  dm 0x2700000027 no 0xd1610000d169 0xd1690000d175,
  dm 0x2700000027 no 0xd1750000d17d 0xd17d0000d186,
  dm 0x2700000027 no 0xd1860000d18e 0xd18e0000d19a,
  dm 0x2700000027 no 0xd19a0000d1a2 0xd1a20000d1aa,
  dm 0x2700000027 0xd48 0 0xd1aa0000d1ad,
  dm 0x2700000027 0xd49 0 0xd1ad0000d1b4,
  dm 0x2700000027 0xd4a 0 0xd1b40000d1bc,
  dm 0x2700000027 0xd4b 0 0xd1bc0000d1c3,
  dm 0x2700000027 0xd4c 0 0xd1c30000d1cb,
  dm 0x2700000027 0xd4d 0 0xd1cb0000d1d7,
  dm 0x2700000027 0xd4e 0 0xd1d70000d1de,
  dm 0x2700000027 0xd4f 0 0xd1de0000d1ea,
  dm 0x2700000027 0xd50 0 0xd1ea0000d1f2,
  dm 0x2700000027 0xd51 0 0xd1f20000d1fa,
  dm 0x2700000027 0xd52 0 0xd1fa0000d209,
  dm 0x2700000027 0xd53 0 0xd2090000d213,
  dm 0x2700000027 0xd54 0 0xd2130000d21e,
  dm 0x2700000027 0xd55 0 0xd21e0000d22e,
  dm 0x2700000027 0xd56 0 0xd22e0000d237,
  dm 0x2700000027 0xd57 0 0xd2370000d23f,
  dm 0x2700000027 0xd58 0 0xd23f0000d242,
  dm 0x2700000027 0xd59 0 0xd2420000d248,
  dm 0x2700000027 0xd5a 0 0xd2480000d253,
  dm 0x2700000027 0xd5b 0 0xd2530000d257,
  dm 0x2700000027 0xd5c 0 0xd2570000d261,
  dm 0x2700000027 0xd5d 0 0xd2610000d264,
  dm 0x2700000027 0xd5e 0 0xd2640000d26e,
  dm 0x2700000027 no 0xd26e0000d275 0xd2750000d278,
  dm 0x2700000027 0xd5f 0 0xd2780000d27a,
  dm 0x2700000027 0xd60 0 0xd27a0000d281,
  dm 0x2700000027 0xd61 0 0xd2810000d288,
  dm 0x2700000027 0xd62 0 0xd2880000d28b,
  dm 0x2700000027 0xd63 0 0xd28b0000d292,
  dm 0x2700000027 0xd64 0 0xd2920000d295,
  dm 0x2700000027 0xd65 0 0xd2950000d299,
  dm 0x2700000027 0xd66 0 0xd2990000d2a3,
  dm 0x2700000027 no 0xd2a30000d2ab 0xd2ab0000d2b3,
  dm 0x2700000027 no 0xd2b30000d2bb 0xd2bb0000d2c3,
  dm 0x2700000027 0xd67 0 0xc4750000c47a,
  dm 0x2700000027 0xd68 0 0xd2c30000d2ca,
  dm 0x2700000027 0xd69 0 0xd2ca0000d2d2,
  dm 0x2700000027 0xd6a 0 0xd2d20000d2df,
  dm 0x2700000027 0xd6b 0 0xd2df0000d2e7,
  dm 0x2700000027 no 0xd2e70000d2ee 0xd2ee0000d2f5,
  dm 0x2700000027 no 0xd2f50000d2fd 0xd2fd0000d306,
  dm 0x2700000027 no 0xd3060000d30e 0xd30e0000d31c,
  dm 0x2700000027 no 0xd31c0000d324 0xd3240000d331,
  dm 0x2700000027 no 0xd3310000d339 0xd3390000d342,
  dm 0x2700000027 no 0xd3420000d34a 0xd34a0000d354,
  dm 0x2a1000002a7 no 0xd3540000d35f 0xd35f0000d370,
  dm 0x2a1000002a7 no 0xd3700000d37a 0xd37a0000d390,
  dm 0x2a1000002a7 0xd6c 0 0xd3900000d3a5,
  dm 0x2a1000002a7 0xd6d 0 0xd3a50000d3bc,
  dm 0x2700000027 0xd6e 0 0xd3bc0000d3c8,
  dm 0x2700000027 0xd6f 0 0xd3c80000d3d9,
  dm 0x2700000027 0xd70 0 0xd3d90000d3e2,
  dm 0x2700000027 0xd71 0 0xd3e20000d3eb,
  dm 0x2700000027 0xd72 0 0xd3eb0000d3f8,
  dm 0x2700000027 0xd73 0 0xd3f80000d400,
  dm 0x2700000027 no 0xd4000000d409 0xd4090000d415,
  dm 0x2700000027 0xd74 0 0xd4150000d425,
  dm 0x2700000027 0xd75 0 0xd4250000d432,
  dm 0x2700000027 0xd76 0 0xd4320000d43e,
  dm 0x2700000027 0xd77 0 0xd43e0000d446,
  dm 0x2700000027 0xd78 0 0xd4460000d44e,
  dm 0x2700000027 no 0xd44e0000d45b 0xd45b0000d468,
  dm 0x2700000027 no 0xd4680000d470 0xd4700000d47d,
  dm 0x2700000027 no 0xd47d0000d485 0xd4850000d496,
  dm 0xdfd00000e04 0xd79 0 0xd4960000d4a3,
  dm 0x2700000027 0xd7a 0 0xd4a30000d4b1,
  dm 0x2700000027 0xd7b 0 0xd4b10000d4bd,
  dm 0x2700000027 no 0xd4bd0000d4c4 0xd4c40000d4d1,
  dm 0x2700000027 0xd7c 0 0xd4d10000d4de,
  dm 0x2700000027 0xd7d 0 0xd4de0000d4eb,
  dm 0x2700000027 0xd7e 0 0xd4eb0000d4f4,
  dm 0x2700000027 0xd7f 0 0xd4f40000d501,
  dm 0x2700000027 0xd80 0 0xd5010000d50a,
  dm 0x2700000027 0xd81 0 0xd50a0000d516,
  dm 0x2700000027 0xd82 0 0xd5160000d51f,
  dm 0x2700000027 0xd83 0 0xd51f0000d527,
  dm 0x2700000027 0xd84 0 0xd5270000d534,
  dm 0x2700000027 0xd85 0 0xd5340000d540,
  dm 0x2700000027 0xd86 0 0xd5400000d54d,
  dm 0x2700000027 0xd87 0 0xd54d0000d555,
  dm 0x2700000027 0xd88 0 0xd5550000d55d,
  dm 0x2700000027 0xd89 0 0xd55d0000d565,
  dm 0x2700000027 0xd8a 0 0xd5650000d571,
  dm 0x2700000027 0xd8b 0 0xd5710000d579,
  dm 0x2700000027 0xd8c 0 0xd5790000d585,
  dm 0x2700000027 0xd8d 0 0xd5850000d592,
  dm 0x2700000027 no 0xd5920000d59e 0xd5920000d59e,
  dm 0x2700000027 0xd8e 0 0xd59e0000d5a6,
  dm 0x2700000027 0xd8f 0 0xd5a60000d5ae,
  dm 0x2700000027 0xd90 0 0xd5ae0000d5b6,
  dm 0x2700000027 0xd91 0 0xd5b60000d5c2,
  dm 0x2700000027 0xd92 0 0xd5c20000d5cf,
  dm 0x2700000027 no 0xd5cf0000d5df 0xd5cf0000d5df,
  dm 0x2700000027 0xd93 0 0xd5df0000d5e8,
  dm 0x2700000027 0xd94 0 0xd5e80000d5f5,
  dm 0x2700000027 0xd95 0 0xd5f50000d601,
  dm 0x2700000027 no 0xd6010000d609 0xd6090000d615,
  dm 0x2700000027 0xd96 0 0xd6150000d61d,
  dm 0x2700000027 0xd97 0 0xd61d0000d629,
  dm 0x2700000027 0xd98 0 0xd6290000d631,
  dm 0x2700000027 0xd99 0 0xd6310000d639,
  dm 0x2700000027 0xd9a 0 0xd6390000d645,
  dm 0x2700000027 no 0xd6450000d64d 0xd64d0000d65a,
  dm 0x2700000027 0xd9b 0 0xd65a0000d664,
  dm 0x2700000027 0xd9c 0 0xd6640000d66b,
  dm 0x2700000027 0xd9d 0 0xd66b0000d677,
  dm 0x2700000027 0xd9e 0 0xd6770000d67f,
  dm 0x2700000027 0xd9f 0 0xd67f0000d68c,
  dm 0x2700000027 0xda0 0 0xd68c0000d695,
  dm 0x2700000027 0xda1 0 0xd6950000d69d,
  dm 0x2700000027 0xda2 0 0xd69d0000d6a5,
  dm 0x2700000027 no 0xd6a50000d6ae 0xd6ae0000d6b6,
  dm 0x2700000027 0xda3 0 0xd6b60000d6c2,
  dm 0x2700000027 0xda4 0 0xd6c20000d6cd,
  dm 0x2700000027 no 0xd6cd0000d6d5 0xd6d50000d6e1,
  dm 0x2700000027 no 0xd6e10000d6e9 0xd6e90000d6f6,
  dm 0x2700000027 no 0xd6f60000d6fe 0xd6fe0000d709,
  dm 0x2700000027 no 0xd7090000d711 0xd7110000d719,
  dm 0x2700000027 0xda5 0 0xd7190000d726,
  dm 0x2700000027 0xda6 0 0xd7260000d732,
  dm 0x2700000027 0xda7 0 0xd7320000d743,
  dm 0x2700000027 0xda8 0 0xd7430000d74b,
  dm 0x2700000027 0xda9 0 0xd74b0000d753,
  dm 0x2700000027 0xdaa 0 0xd7530000d764,
  dm 0x2700000027 0xdab 0 0xd7640000d76c,
  dm 0x2700000027 0xdac 0 0xd76c0000d778,
  dm 0x2700000027 0xdad 0 0xd7780000d77f,
  dm 0x2700000027 no 0xd77f0000d786 0xd7860000d793,
  dm 0x2700000027 0xdae 0 0xd7930000d79b,
  dm 0x2700000027 0xdaf 0 0xd79b0000d7a3,
  dm 0x2700000027 0xdb0 0 0xd7a30000d7ab,
  dm 0x2700000027 0xdb1 0 0xd7ab0000d7b3,
  dm 0x2700000027 0xdb2 0 0xd7b30000d7ba,
  dm 0x2700000027 0xdb3 0 0xd7ba0000d7c2,
  dm 0x2700000027 no 0xd7c20000d7cb 0xd7cb0000d7d6,
  dm 0x2700000027 0xdb4 0 0xd7d60000d7de,
  dm 0x2700000027 0xdb5 0 0xd7de0000d7e5,
  dm 0x2700000027 0xdb6 0 0xd7e50000d7f1,
  dm 0x2a1000002a7 0xdb7 0 0xd7f10000d7fc,
  dm 0x2a1000002a7 0xdb8 0 0xd7fc0000d811,
  dm 0x2a1000002a7 0xdb9 0 0xd8110000d825,
  dm 0x2a1000002a7 0xdba 0 0xd8250000d830,
  dm 0x2700000027 no 0xd8300000d838 0xd8380000d840,
  dm 0x2700000027 0xdbb 0 0xc40d0000c414,
  dm 0x2700000027 0xdbc 0 0xd8400000d846,
  dm 0x2700000027 0xdbd 0 0x9ad000009ad3,
  dm 0x2700000027 no 0xd8460000d84d 0xd84d0000d855,
  dm 0x2700000027 0xdbe 0 0xd8550000d85d,
  dm 0x2700000027 0xdbf 0 0xd85d0000d865,
  dm 0x2700000027 0xdc0 0 0xd8650000d86d,
  dm 0x2700000027 0xdc1 0 0xd86d0000d879,
  dm 0x2700000027 0xdc2 0 0xd8790000d882,
  dm 0x2700000027 no 0xd8820000d88a 0xd88a0000d893,
  dm 0x2700000027 0xdc3 0 0xd8930000d89c,
  dm 0x2700000027 0xdc4 0 0xd89c0000d8a5,
  dm 0x2700000027 no 0xd8a50000d8ac 0xd8ac0000d8b8,
  dm 0x2700000027 0xdc5 0 0xd8b80000d8c2,
  dm 0x2700000027 0xdc6 0 0xd8c20000d8c9,
  dm 0x2700000027 0xdc7 0 0xd8c90000d8d2,
  dm 0x2700000027 no 0xd8d20000d8da 0xd8da0000d8e0,
  dm 0x2700000027 0xdc8 0 0xd8e00000d8e7,
  dm 0x2700000027 no 0xd8e70000d8ef 0xd8ef0000d8f6,
  dm 0x2700000027 0xdc9 0 0xd8f60000d8fd,
  dm 0x2700000027 0xdca 0 0xd8fd0000d904,
  dm 0x2700000027 no 0xd9040000d90c 0xd90c0000d916,
  dm 0x2700000027 0xdcb 0 0xd9160000d91d,
  dm 0x2700000027 0xdcc 0 0xd91d0000d929,
  dm 0x2700000027 0xdcd 0 0xd9290000d934,
  dm 0x2700000027 0xdce 0 0xd9340000d93b,
  dm 0x2700000027 0xdcf 0 0xd93b0000d947,
  dm 0x2700000027 0xdd0 0 0xd9470000d952,
  dm 0x2700000027 0xdd1 0 0xd9520000d95c,
  dm 0x2700000027 0xdd2 0 0xd95c0000d965,
  dm 0x2700000027 0xdd3 0 0xd9650000d96c,
  dm 0x2700000027 no 0xd96c0000d974 0xd9740000d97e,
  dm 0x2700000027 0xdd4 0 0xd97e0000d997,
  dm 0x2700000027 0xdd5 0 0xd9970000d9a3,
  dm 0x2700000027 0xdd6 0 0xd9a30000d9ae,
  dm 0x2700000027 0xdd7 0 0xd9ae0000d9bc,
  dm 0x2700000027 0xdd8 0 0xd9bc0000d9cb,
  dm 0x2700000027 0xdd9 0 0xd9cb0000d9d6,
  dm 0x2700000027 no 0xd9d60000d9de 0xd9de0000d9ed,
  dm 0x2700000027 0xdda 0 0xd9ed0000d9f9,
  dm 0x2700000027 0xddb 0 0xd9f90000da03,
  dm 0x2700000027 0xddc 0 0xda030000da0a,
  dm 0x2700000027 0xddd 0 0xda0a0000da12,
  dm 0x2700000027 0xdde 0 0xda120000da1d,
  dm 0x2700000027 0xddf 0 0xda1d0000da24,
  dm 0x2700000027 no 0xda240000da2c 0xda2c0000da34,
  dm 0x2700000027 0xde0 0 0xda340000da3f,
  dm 0x2700000027 no 0xda3f0000da47 0xda470000da53,
  dm 0x2700000027 no 0xda530000da5b 0xda5b0000da62,
  dm 0x2700000027 0xde1 0 0xda620000da68,
  dm 0x2700000027 0xde2 0 0xda680000da6e,
  dm 0x2700000027 0xde3 0 0xda6e0000da79,
  dm 0x2700000027 0xde4 0 0xda790000da83,
  dm 0x2700000027 0xde5 0 0xda830000da8a,
  dm 0x2700000027 0xde6 0 0xda8a0000daa0,
  dm 0x2700000027 0xde7 0 0xdaa00000daa6,
  dm 0x2700000027 0xde8 0 0xdaa60000daad,
  dm 0x2700000027 0xde9 0 0x618d00006191,
  dm 0x2700000027 0xdea 0 0xdaad0000dab6,
  dm 0x2700000027 0xdeb 0 0xdab60000dabf,
  dm 0x2700000027 0xdec 0 0xdabf0000dacb,
  dm 0x2700000027 0xded 0 0xdacb0000dad1,
  dm 0x2700000027 0xdee 0 0xdad10000dadc,
  dm 0x2700000027 0xdef 0 0xdadc0000dae7,
  dm 0x2700000027 0xdf0 0 0xdae70000dafb,
  dm 0x2700000027 0xdf1 0 0xdafb0000db02,
  dm 0x2700000027 0xdf2 0 0xdb020000db09,
  dm 0x2700000027 0xdf3 0 0xdb090000db0f,
  dm 0x2700000027 0xdf4 0 0xdb0f0000db16,
  dm 0x2700000027 0xdf5 0 0xdb160000db1d,
  dm 0x2700000027 0xdf6 0 0xdb1d0000db23,
  dm 0x2700000027 0xdf7 0 0xdb230000db2a,
  dm 0x2700000027 0xdf8 0 0xdb2a0000db30,
  dm 0x2700000027 0xdf9 0 0xdb300000db3a,
  dm 0x2700000027 0xdfa 0 0xdb3a0000db41,
  dm 0x2700000027 0xdfb 0 0xdb410000db48,
  dm 0x2700000027 no 0xdb480000db53 0xdb530000db5e,
  dm 0x2700000027 0xdfc 0 0xdb5e0000db69,
  dm 0x2700000027 0xdfd 0 0xdb690000db72,
  dm 0x2700000027 0xdfe 0 0xdb720000db7b,
  dm 0x2700000027 0xdff 0 0xdb7b0000db81,
  dm 0x2700000027 0xe00 0 0xdb810000db8a,
  dm 0x2700000027 0xe01 0 0xdb8a0000db97,
  dm 0x2700000027 0xe02 0 0xdb970000dba3,
  dm 0x2700000027 no 0xdba30000dbaa 0xdbaa0000dbb2,
  dm 0x2700000027 no 0xdbb20000dbbb 0xdbbb0000dbc8,
  dm 0x2700000027 0xe03 0 0xdbc80000dbd3,
  dm 0x2700000027 0xe04 0 0xdbd30000dbda,
  dm 0x2700000027 0xe05 0 0xdbda0000dbe6,
  dm 0x2700000027 no 0xdbe60000dbee 0xdbee0000dbf8,
  dm 0x2700000027 no 0xdbf80000dc01 0xdc010000dc0e,
  dm 0x2700000027 no 0xdc0e0000dc17 0xdc170000dc1e,
  dm 0x2700000027 no 0xdc1e0000dc25 0xdc250000dc2d,
  dm 0x2700000027 no 0xdc2d0000dc34 0xdc340000dc3c,
  dm 0x2700000027 no 0xdc3c0000dc43 0xdc430000dc4e,
  dm 0x2700000027 no 0xdc4e0000dc56 0xdc560000dc61,
  dm 0x2700000027 no 0xdc610000dc69 0xdc170000dc1e,
  dm 0x2700000027 0xe06 0 0xdc690000dc70,
  dm 0x2700000027 no 0xdc700000dc78 0xdc780000dc7f,
  dm 0x2700000027 0xe07 0 0xdc7f0000dc86,
  dm 0x2700000027 0xe08 0 0xdc860000dc8d,
  dm 0x2700000027 0xe09 0 0xdc8d0000dc96,
  dm 0x2700000027 no 0xdc960000dc9e 0xdc9e0000dcaa,
  dm 0x2700000027 0xe0a 0 0xdcaa0000dcb6,
  dm 0x2700000027 no 0xdcb60000dcbe 0xdcbe0000dcd0,
  dm 0x2700000027 0xe0b 0 0xdcd00000dcdd,
  dm 0x2700000027 0xe0c 0 0xdcdd0000dcea,
  dm 0x2700000027 0xe0d 0 0xdcea0000dcf0,
  dm 0x2700000027 0xe0e 0 0xdcf00000dcf6,
  dm 0x2700000027 0xe0f 0 0xdcf60000dd00,
  dm 0x2700000027 0xe10 0 0xdd000000dd09,
  dm 0x2700000027 0xe11 0 0xdd090000dd14,
  dm 0x2700000027 0xe12 0 0xdd140000dd1e,
  dm 0x2700000027 0xe13 0 0xdd1e0000dd28,
  dm 0x2700000027 no 0xdd280000dd30 0xdd300000dd38,
  dm 0x2700000027 no 0xdd380000dd40 0xdbaa0000dbb2,
  dm 0x2700000027 0xe14 0 0xdd400000dd4a,
  dm 0x2700000027 0xe15 0 0xdd4a0000dd54,
  dm 0x2700000027 0xe16 0 0xdd540000dd5f,
  dm 0x2700000027 0xe17 0 0xdd5f0000dd67,
  dm 0x2700000027 0xe18 0 0xdd670000dd6f,
  dm 0x2700000027 0xe19 0 0xdd6f0000dd77,
  dm 0x2700000027 no 0xdd770000dd7e 0xdd7e0000dd87,
  dm 0x2700000027 0xe1a 0 0xdd870000dd8f,
  dm 0x2700000027 0xe1b 0 0xdd8f0000dd97,
  dm 0x2700000027 0xe1c 0 0xdd970000dd9e,
  dm 0x2700000027 0xe1d 0 0xdd9e0000ddac,
  dm 0x2700000027 0xe1e 0 0xddac0000ddba,
  dm 0x2700000027 0xe1f 0 0xddba0000ddc8,
  dm 0x2700000027 0xe20 0 0xddc80000ddd1,
  dm 0x2700000027 0xe21 0 0xddd10000ddda,
  dm 0x2700000027 0xe22 0 0xddda0000dddd,
  dm 0x2700000027 0xe23 0 0xdddd0000dde5,
  dm 0x2700000027 0xe24 0 0xd8380000d840,
  dm 0x2700000027 0xe25 0 0xdde50000ddef,
  dm 0x2700000027 0xe26 0 0xddef0000ddf2,
  dm 0x2700000027 0xe27 0 0xddf20000ddfa,
  dm 0x2700000027 0xe28 0 0xddfa0000de01,
  dm 0x2700000027 0xe29 0 0xde010000de04,
  dm 0x2700000027 0xe2a 0 0xde040000de0c,
  dm 0x2700000027 no 0xde0c0000de17 0xde170000de22,
  dm 0x2700000027 0xe2b 0 0xc40d0000c414,
  dm 0x2700000027 0xe2c 0 0x9ad000009ad3,
  dm 0x2700000027 0xe2d 0 0xde220000de2a,
  dm 0x2700000027 0xe2e 0 0xde2a0000de34,
  dm 0x2700000027 0xe2f 0 0xde340000de42,
  dm 0x2700000027 0xe30 0 0xde420000de49,
  dm 0x2700000027 0xe31 0 0xde490000de55,
  dm 0x2700000027 0xe32 0 0xde550000de57,
  dm 0x2700000027 0xe33 0 0xb0100000b016,
  dm 0x2700000027 0xe34 0 0xde570000de61,
  dm 0x2700000027 0xe35 0 0xde610000de6f,
  dm 0x2700000027 0xe36 0 0xde6f0000de7d,
  dm 0x2700000027 0xe37 0 0xde7d0000de7f,
  dm 0x2700000027 0xe38 0 0xde7f0000de86,
  dm 0x2700000027 0xe39 0 0xde860000de95,
  dm 0x2700000027 0xe3a 0 0xde950000dea1,
  dm 0x2700000027 0xe3b 0 0xdea10000deae,
  dm 0x2700000027 0xe3c 0 0xdeae0000deb5,
  dm 0x2700000027 0xe3d 0 0xdeb50000debc,
  dm 0x2700000027 0xe3e 0 0xdebc0000dec3,
  dm 0x2700000027 0xe3f 0 0xdec30000dec8,
  dm 0x2700000027 0xe40 0 0x401300004016,
  dm 0x2700000027 0xe41 0 0xdec80000decd,
  dm 0x2700000027 0xe42 0 0xdecd0000ded6,
  dm 0x2700000027 0xe43 0 0xded60000dedf,
  dm 0x2700000027 0xe44 0 0xdedf0000dee3,
  dm 0x2700000027 0xe45 0 0xdee30000deec,
  dm 0x2700000027 0xe46 0 0xdeec0000def5,
  dm 0x2700000027 0xe47 0 0xdef50000defe,
  dm 0x2700000027 0xe48 0 0xdefe0000df05,
  dm 0x2700000027 0xe49 0 0xdf050000df08,
  dm 0x2700000027 0xe4a 0 0xdf080000df16,
  dm 0x2700000027 0xe4b 0 0xdf160000df24,
  dm 0x2700000027 0xe4c 0 0xdf240000df33,
  dm 0x2700000027 0xe4d 0 0xdf330000df40,
  dm 0x2700000027 0xe4e 0 0xdf400000df44,
  dm 0x2700000027 0xe4f 0 0xdf440000df46,
  dm 0x2700000027 0xe50 0 0xdf460000df53,
  dm 0x2700000027 0xe51 0 0xdf530000df5b,
  dm 0x2700000027 0xe52 0 0xdf5b0000df64,
  dm 0x2700000027 0xe53 0 0xdf640000df6d,
  dm 0x2700000027 0xe54 0 0xdf6d0000df76,
  dm 0x2700000027 0xe55 0 0xdf760000df7f,
  dm 0x2700000027 0xe56 0 0xdf7f0000df8e,
  dm 0x2700000027 0xe57 0 0xdf8e0000df94,
  dm 0x2700000027 0xe58 0 0xdf940000dfa1,
  dm 0x2700000027 0xe59 0 0xdfa10000dfa5,
  dm 0x2700000027 0xe5a 0 0xdfa50000dfa9,
  dm 0x2700000027 0xe5b 0 0xdfa90000dfb6,
  dm 0x2700000027 0xe5c 0 0xdfb60000dfba,
  dm 0x2700000027 0xe5d 0 0xdfba0000dfc3,
  dm 0x2700000027 0xe5e 0 0xdfc30000dfcc,
  dm 0x2700000027 0xe5f 0 0xdfcc0000dfd5,
  dm 0x2700000027 0xe60 0 0xdfd50000dfdd,
  dm 0x2700000027 0xe61 0 0xdfdd0000dfec,
  dm 0x2700000027 0xe62 0 0xdfec0000dff9,
  dm 0x2700000027 0xe63 0 0xdff90000e000,
  dm 0x2700000027 0xe64 0 0xdfec0000dff9,
  dm 0x2700000027 0xe65 0 0xe0000000e003,
  dm 0x2700000027 0xe66 0 0xe0030000e006,
  dm 0x2700000027 0xe67 0 0xe0060000e009,
  dm 0x2700000027 0xe68 0 0xe0090000e012,
  dm 0x2700000027 0xe69 0 0xe0120000e01b,
  dm 0x2700000027 0xe6a 0 0xe01b0000e02a,
  dm 0x2700000027 0xe6b 0 0xe02a0000e02d,
  dm 0x2700000027 0xe6c 0 0xe02d0000e035,
  dm 0x2700000027 0xe6d 0 0xe0350000e038,
  dm 0x2700000027 0xe6e 0 0xe0380000e043,
  dm 0x2700000027 0xe6f 0 0xe0430000e04a,
  dm 0x2700000027 0xe70 0 0xe04a0000e053,
  dm 0xdfd00000e04 0xe71 0 0xe0530000e05b,
  dm 0xdfd00000e04 0xe72 0 0xe05b0000e072,
  dm 0x2a1000002a7 no 0xe0720000e07b 0xe07b0000e08c,
  dm 0x2a1000002a7 no 0xe08c0000e093 0xe0930000e0a8,
  dm 0x2a1000002a7 0xe73 0 0xe0a80000e0b8,
  dm 0x2a1000002a7 0xe74 0 0xe0b80000e0cc,
  dm 0x2a1000002a7 0xe75 0 0xe0cc0000e0e5,
  dm 0x2a1000002a7 0xe76 0 0xe0e50000e0f2,
  dm 0x2a1000002a7 no 0xe0f20000e0fa 0xe0fa0000e10c,
  dm 0x2a1000002a7 no 0xe10c0000e115 0xe1150000e125,
  dm 0x2a1000002a7 no 0xe1250000e12c 0xe12c0000e13b,
  dm 0x2a1000002a7 no 0xe13b0000e143 0xe1430000e155,
  dm 0x2a1000002a7 no 0xe1550000e15d 0xe15d0000e16a,
  dm 0x2a1000002a7 no 0xe16a0000e171 0xe1710000e182,
  dm 0x2a1000002a7 0xe77 0 0xe1820000e198,
  dm 0x2a1000002a7 0xe78 0 0xe1980000e1a6,
  dm 0x2a1000002a7 0xe79 0 0xe1a60000e1b9,
  dm 0x2a1000002a7 no 0xe1b90000e1c1 0xe1c10000e1db,
  dm 0x2a1000002a7 0xe7a 0 0xe1db0000e1ed,
  dm 0x2a1000002a7 0xe7b 0 0xe1ed0000e1fa,
  dm 0x2a1000002a7 0xe7c 0 0xe1fa0000e206,
  dm 0x2a1000002a7 0xe7d 0 0xe2060000e217,
  dm 0x2a1000002a7 0xe7e 0 0xe2170000e227,
  dm 0x2a1000002a7 0xe7f 0 0xe2270000e23d,
  dm 0x2a1000002a7 no 0xe23d0000e245 0xe2450000e256,
  dm 0x2a1000002a7 no 0xe2560000e25e 0xe25e0000e26f,
  dm 0x2a1000002a7 no 0xe26f0000e276 0xe2760000e288,
  dm 0x2a1000002a7 no 0xe2880000e290 0xe2900000e2a9,
  dm 0x2a1000002a7 0xe80 0 0xe2a90000e2bd,
  dm 0x2a1000002a7 0xe81 0 0xe2bd0000e2d2,
  dm 0x2a1000002a7 0xe82 0 0xe2d20000e2ea,
  dm 0x2a1000002a7 0xe83 0 0xe2ea0000e2f6,
  dm 0x2a1000002a7 0xe84 0 0xe2f60000e302,
  dm 0x2a1000002a7 0xe85 0 0xe3020000e309,
  dm 0x2a1000002a7 0xe86 0 0xe3090000e317,
  dm 0x2a1000002a7 0xe87 0 0xe3170000e32a,
  dm 0x2a1000002a7 0xe88 0 0xe32a0000e333,
  dm 0x2a1000002a7 0xe89 0 0xe3330000e340,
  dm 0x2a1000002a7 0xe8a 0 0xe3400000e350,
  dm 0x2a1000002a7 0xe8b 0 0xe3500000e361,
  dm 0x2a1000002a7 0xe8c 0 0xe3610000e376,
  dm 0x2a1000002a7 0xe8d 0 0xe3760000e387,
  dm 0x2a1000002a7 0xe8e 0 0xe3870000e39d,
  dm 0x2a1000002a7 0xe8f 0 0xe39d0000e3ba,
  dm 0x2a1000002a7 no 0xe3ba0000e3c1 0xe3c10000e3de,
  dm 0x2a1000002a7 0xe90 0 0xe3de0000e3f2,
  dm 0x2a1000002a7 0xe91 0 0xe3f20000e408,
  dm 0x2a1000002a7 no 0xe4080000e410 0xe4100000e421,
  dm 0x2a1000002a7 0xe92 0 0xe4210000e437,
  dm 0x2a1000002a7 0xe93 0 0xe4370000e454,
  dm 0x2a1000002a7 0xe94 0 0xe4540000e464,
  dm 0x2a1000002a7 0xe95 0 0xe4640000e478,
  dm 0x2a1000002a7 0xe96 0 0xe4780000e489,
  dm 0x2a1000002a7 0xe97 0 0xe4890000e494,
  dm 0x2a1000002a7 0xe98 0 0xe4940000e4a4,
  dm 0x2a1000002a7 0xe99 0 0xe4a40000e4b3,
  dm 0x2a1000002a7 0xe9a 0 0xe4b30000e4c2,
  dm 0x2a1000002a7 0xe9b 0 0xe4c20000e4d8,
  dm 0x2a1000002a7 0xe9c 0 0xe4d80000e4e5,
  dm 0x2a1000002a7 0xe9d 0 0xe4e50000e4f5,
  dm 0x2a1000002a7 0xe9e 0 0xe4f50000e508,
  dm 0x2a1000002a7 no 0xe5080000e510 0xe5100000e51b,
  dm 0x2a1000002a7 0xe9f 0 0xe51b0000e529,
  dm 0x2a1000002a7 0xea0 0 0xe5290000e538,
  dm 0x2a1000002a7 0xea1 0 0xe5380000e545,
  dm 0x2a1000002a7 0xea2 0 0xe5450000e553,
  dm 0x2a1000002a7 0xea3 0 0xe5530000e560,
  dm 0x2a1000002a7 0xea4 0 0xe5600000e56d,
  dm 0x2a1000002a7 0xea5 0 0xe56d0000e57c,
  dm 0x2a1000002a7 0xea6 0 0xe57c0000e58f,
  dm 0x2a1000002a7 0xea7 0 0xe58f0000e5a2,
  dm 0x2a1000002a7 0xea8 0 0xe5a20000e5b7,
  dm 0x2a1000002a7 0xea9 0 0xe5b70000e5c5,
  dm 0x2a1000002a7 0xeaa 0 0xe5c50000e5d2,
  dm 0x2a1000002a7 0xeab 0 0xe5d20000e5df,
  dm 0x2a1000002a7 no 0xe5df0000e5e8 0xe5e80000e5fe,
  dm 0x2a1000002a7 no 0xe5fe0000e607 0xe6070000e61f,
  dm 0x2a1000002a7 no 0xe61f0000e628 0xe6280000e63f,
  dm 0x2a1000002a7 no 0xe63f0000e648 0xe6480000e65e,
  dm 0x2a1000002a7 no 0xe65e0000e666 0xe6660000e67c,
  dm 0x2a1000002a7 no 0xe67c0000e684 0xe6840000e699,
  dm 0x2a1000002a7 0xeac 0 0xe6990000e6aa,
  dm 0x2a1000002a7 0xead 0 0xe6aa0000e6c3,
  dm 0x2a1000002a7 0xeae 0 0xe6c30000e6d3,
  dm 0x2a1000002a7 no 0xe6d30000e6da 0xe6da0000e6f0,
  dm 0x2a1000002a7 no 0xe6f00000e6f9 0xe6f90000e707,
  dm 0x2a1000002a7 0xeaf 0 0xe7070000e718,
  dm 0x2a1000002a7 0xeb0 0 0xe7180000e72e,
  dm 0x2a1000002a7 no 0xe72e0000e736 0xe3330000e340,
  dm 0x2a1000002a7 no 0xe7360000e73f 0xe73f0000e747,
  dm 0x2a1000002a7 no 0xe7470000e74e 0xe74e0000e763,
  dm 0x2a1000002a7 no 0xe7630000e76b 0xe76b0000e77b,
  dm 0x2a1000002a7 0xeb1 0 0xe77b0000e788,
  dm 0x2a1000002a7 0xeb2 0 0xe7880000e78f,
  dm 0x2b1e00002b26 0xeb3 0 0xe78f0000e79c,
  dm 0x2b1e00002b26 0xeb4 0 0xe79c0000e7af,
  dm 0x2b1e00002b26 no 0xe7af0000e7b7 0xe7b70000e7c8,
  dm 0x2b1e00002b26 no 0xe7c80000e7d0 0xe7d00000e7d7,
  dm 0x62600000633 0xeb5 0 0xe7d70000e7e9,
  dm 0x23b0000023d 0xeb6 0 0xe7e90000e7f2,
  dm 0x23b0000023d no 0xe7f20000e7fa 0xe7fa0000e806,
  dm 0x23b0000023d no 0xe8060000e80e 0xe80e0000e81a,
  dm 0x23b0000023d 0xeb7 0 0xe81a0000e82c,
  dm 0x23b0000023d no 0xe82c0000e835 0xe8350000e84b,
  dm 0x23b0000023d no 0xe84b0000e854 0xe8540000e86a,
  dm 0x23b0000023d no 0xe86a0000e872 0xe8720000e884,
  dm 0x23b0000023d no 0xe8840000e88d 0xe88d0000e8a3,
  dm 0x23b0000023d no 0xe8a30000e8ab 0xe8ab0000e8bd,
  dm 0x2a1000002a7 0xeb8 0 0x18000000182,
  dm 0x2700000027 0xeb9 0 0xe8bd0000e8c4,
  dm 0xdfd00000e04 0xeba 0 0xe8c40000e8d2,
  dm 0x2700000027 0xebb 0 0x18000000182,
  dm 0x2700000027 0xebc 0 0x18000000182,
  dm 0x2700000027 0xebd 0 0x18000000182,
  dm 0x2700000027 0xebf 0 0x18000000182,
  dm 0x2700000027 no 0xe8da0000e8e3 0xe8e30000e8ee,
  dm 0x2700000027 0xec0 0 0xe9020000e918,
  dm 0x2700000027 0xec1 0 0xe9180000e929,
  dm 0x2700000027 0xec3 0 0x18000000182,
  dm 0x2700000027 0xec4 0 0x18000000182,
  dm 0x8e00000099 0xec5 0 0x18000000182,
  dm 0x2700000027 0xec7 0 0xe9370000e93d,
  dm 0x2700000027 0xec8 0 0x8f8000008f84,
  dm 0x2700000027 0xec9 0 0xe93d0000e943,
  dm 0x2700000027 0xeca 0 0xe9430000e947,
  dm 0x2700000027 no 0xe9470000e94c 0xe9470000e94c,
  dm 0x2700000027 no 0xe94c0000e951 0xe94c0000e951]

/-- `__dr_dm`, from item 5000 on (device_repo.go:7272-7771). -/
def drDm_10 : List ModelTuple := [
  dm 0x2700000027 no 0xe9510000e956 0xe9560000e95b,
  dm 0x2700000027 no 0xe95b0000e95f 0xe95f0000e963,
  dm 0x2700000027 no 0xe9630000e967 0xe9630000e967,
  dm 0x2700000027 no 0xe9670000e96b 0xe9670000e96b,
  dm 0x2700000027 no 0x8ef700008efb 0x8ef700008efb,
  dm 0x2700000027 no 0xe96b0000e971 0xe96b0000e971,
  dm 0x2700000027 no 0xe9710000e97b 0xe97b0000e985,
  dm 0x2700000027 no 0xe9850000e98f 0xe9850000e98f,
  dm 0x2700000027 no 0xe98f0000e998 0xe98f0000e998,
  dm 0x2700000027 no 0xe9980000e9a6 0xe9a60000e9b6,
  dm 0x2700000027 no 0xe9b60000e9c0 0xe9c00000e9cb,
  dm 0x2700000027 no 0xe9cb0000e9d1 0xe9cb0000e9d1,
  dm 0x2700000027 no 0xe9d10000e9d6 0xe9d10000e9d6,
  dm 0x2700000027 no 0x8fd900008fe0 0x8fd900008fe0,
  dm 0x2700000027 no 0xe9dc0000e9e3 0xe9e30000e9ea,
  dm 0x2a1000002a7 0xecc 0 0x18000000182,
  dm 0 no 0 0xe9f00000e9f8,
  dm 0 no 0 0xea0c0000ea13,
  dm 0x7cc000007d6 0xecf 0 0x18000000182,
  dm 0x2700000027 0xed1 0 0xea200000ea31,
  dm 0x2700000027 0xed2 0 0xea310000ea39,
  dm 0x2700000027 no 0xea390000ea41 0xea390000ea41,
  dm 0x2700000027 no 0xea410000ea4a 0xea4a0000ea53,
  dm 0x2700000027 no 0xea530000ea5c 0xea5c0000ea65,
  dm 0x2700000027 no 0xea650000ea71 0xea650000ea71,
  dm 0x2700000027 0xed3 0 0xea710000ea79,
  dm 0x2700000027 no 0xea790000ea80 0xea800000ea8c,
  dm 0x2700000027 0xed4 0 0xea8c0000ea97,
  dm 0x2700000027 no 0xea970000ea9e 0xea9e0000eaaa,
  dm 0x2700000027 no 0xeaaa0000eab1 0xeab10000eabd,
  dm 0x2700000027 no 0xeabd0000eac4 0xeac40000ead0,
  dm 0x2700000027 no 0xead00000ead6 0xead00000ead6,
  dm 0x2700000027 no 0xead60000eae0 0xead60000eae0,
  dm 0x2700000027 no 0xeae00000eaec 0xeaec0000eaf8,
  dm 0x2700000027 no 0xeaf80000eafe 0xeafe0000eb05,
  dm 0x2700000027 no 0xeb050000eb0f 0xeb0f0000eb19,
  dm 0x2700000027 0xed5 0 0x4c4c00004c4f,
  dm 0x2700000027 0xed6 0 0xeb190000eb1c,
  dm 0x2700000027 0xed7 0 0x18000000182,
  dm 0x23b0000023d 0xed8 0 0x18000000182,
  dm 0x23b0000023d 0xed9 0 0x18000000182,
  dm 0x23b0000023d 0xeda 0 0x18000000182,
  dm 0x2a1000002a7 0xedb 0 0xeb1c0000eb25,
  dm 0x2a1000002a7 no 0xeb250000eb2e 0xeb2e0000eb37,
  dm 0x2a1000002a7 no 0xeb370000eb40 0xeb400000eb4a,
  dm 0x2a1000002a7 no 0xeb4a0000eb53 0xeb530000eb5c,
  dm 0x2a1000002a7 no 0xeb5c0000eb61 0xeb610000eb6c,
  dm 0x2a1000002a7 no 0xeb6c0000eb76 0xeb760000eb80,
  dm 0x2a1000002a7 no 0xeb800000eb89 0xeb890000eb92,
  dm 0x2a1000002a7 no 0xeb920000eb9b 0xeb760000eb80,
  dm 0x2a1000002a7 no 0xeb9b0000eba4 0xeba40000ebad,
  dm 0x2a1000002a7 no 0xebad0000ebb6 0xebb60000ebbf,
  dm 0x2a1000002a7 no 0xebbf0000ebc8 0xebc80000ebd2,
  dm 0x2a1000002a7 no 0xebd20000ebdb 0xebdb0000ebe4,
  dm 0x2a1000002a7 no 0xebe40000ebe9 0xebe90000ebf4,
  dm 0x2a1000002a7 no 0xebf40000ebf9 0xebf90000ec09,
  dm 0x2a1000002a7 no 0xec090000ec0e 0xec0e0000ec1d,
  dm 0x2a1000002a7 no 0xec1d0000ec26 0xec260000ec35,
  dm 0x2a1000002a7 0xedc 0 0xec350000ec3f,
  dm 0x2a1000002a7 0xedd 0 0xec3f0000ec4e,
  dm 0x2a1000002a7 0xede 0 0x18000000182,
  dm 0x2a1000002a7 0xedf 0 0x18000000182,
  dm 0x2700000027 no 0xec520000ec5a 0xec520000ec5a,
  dm 0x2700000027 no 0xec5a0000ec5e 0xec5e0000ec68,
  dm 0 no 0 0xec780000ec8c,
  dm 0x2700000027 no 0xec920000ec9a 0x88fa000088fc,
  dm 0x2700000027 0xee3 0 0x18000000182,
  dm 0 no 0 0xec9d0000eca5,
  dm 0x2700000027 no 0xecaf0000ecb5 0xecb50000ecbc,
  dm 0x2700000027 0xee6 0 0xecbc0000ecc3,
  dm 0x2700000027 no 0xecc30000eccd 0xeccd0000ecda,
  dm 0x2700000027 no 0xecda0000ece3 0xece30000eced,
  dm 0x2700000027 0xee7 0 0x18000000182,
  dm 0x2700000027 0xee9 0 0x18000000182,
  dm 0x2700000027 0xeea 0 0x18000000182,
  dm 0x2a1000002a7 0xeeb 0 0x18000000182,
  dm 0x2a1000002a7 0xeec 0 0xecf70000ecfc,
  dm 0x2700000027 0xeee 0 0xed060000ed0e,
  dm 0x2700000027 0xeef 0 0xed0e0000ed15,
  dm 0x2700000027 0xef0 0 0xed150000ed17,
  dm 0x2700000027 0xef1 0 0xed170000ed19,
  dm 0x2700000027 0xef2 0 0xed190000ed20,
  dm 0x2700000027 0xef3 0 0xed200000ed29,
  dm 0x2700000027 0xef4 0 0xed290000ed31,
  dm 0x2700000027 0xef5 0 0xed310000ed3c,
  dm 0x2700000027 0xef6 0 0xed3c0000ed49,
  dm 0x2700000027 0xef7 0 0xed490000ed52,
  dm 0x2700000027 0xef8 0 0xed520000ed5e,
  dm 0x2700000027 0xef9 0 0xed5e0000ed68,
  dm 0x2700000027 0xefa 0 0xed680000ed71,
  dm 0x2700000027 0xefb 0 0xed710000ed7a,
  dm 0x2700000027 0xefc 0 0xed7a0000ed84,
  dm 0x2700000027 0xefd 0 0xed840000ed90,
  dm 0x2700000027 0xefe 0 0xed900000ed91,
  dm 0x2700000027 0xeff 0 0xed910000ed94,
  dm 0x2a1000002a7 0xf00 0 0x4c4300004c49,
  dm 0x2a1000002a7 0xf01 0 0xed940000ed9a,
  dm 0 no 0 0x18000000182,
  dm 0x2700000027 0xf04 0 0x18000000182,
  dm 0x23f00000249 0xf05 0 0x18000000182,
  dm 0x2700000027 no 0xeda70000edaf 0xeda70000edaf,
  dm 0x2700000027 no 0xedaf0000edb7 0xedb70000edbf,
  dm 0x2700000027 no 0xedbf0000edc7 0xedc70000edd2,
  dm 0x2a1000002a7 0xf07 0 0x18000000182,
  dm 0 no 0 0xedd70000edde,
  dm 0x2700000027 0xf0a 0 0xae400000aeb,
  dm 0x2700000027 0xf0b 0 0xede10000ede8,
  dm 0x2700000027 0xf0c 0 0xede80000edee,
  dm 0x2700000027 0xf0e 0 0x18000000182,
  dm 0x2700000027 no 0xedf10000edf8 0xedf80000ee02,
  dm 0x2700000027 no 0xee040000ee10 0xee100000ee19,
  dm 0x2700000027 0xf10 0 0x18000000182,
  dm 0x2700000027 0xf12 0 0x18000000182,
  dm 0x23f00000249 no 0xee240000ee2c 0xee2c0000ee43,
  dm 0x2700000027 no 0xee430000ee4b 0xee4b0000ee58,
  dm 0x2700000027 no 0xee580000ee60 0xee600000ee6e,
  dm 0x2700000027 no 0xee6e0000ee76 0xee760000ee89,
  dm 0x2700000027 0xf14 0 0xee890000ee97,
  dm 0x2700000027 no 0xee970000ee9f 0xee9f0000eeb2,
  dm 0x2700000027 no 0xeeb20000eec0 0xeec00000eed0,
  dm 0x2700000027 no 0xeed00000eed8 0xeed80000eeed,
  dm 0x2700000027 no 0xeeed0000eef5 0xeef50000ef05,
  dm 0x2700000027 no 0xef050000ef0d 0xef0d0000ef20,
  dm 0x2700000027 no 0xef200000ef28 0xef280000ef39,
  dm 0x2700000027 no 0xef390000ef41 0xef410000ef52,
  dm 0x2700000027 no 0xef520000ef5a 0xef5a0000ef68,
  dm 0x2700000027 no 0xef680000ef70 0xef700000ef7e,
  dm 0x2700000027 no 0xef7e0000ef86 0xef860000ef9a,
  dm 0x2700000027 no 0xef9a0000efa9 0xefa90000efb8,
  dm 0x2700000027 no 0xefb80000efc0 0xefc00000efd4,
  dm 0x2700000027 no 0xefd40000efdc 0xefdc0000efed,
  dm 0x2700000027 no 0xefed0000eff9 0xeff90000f00c,
  dm 0x2b1e00002b26 no 0xf00c0000f014 0xf0140000f020,
  dm 0x23b0000023d no 0xf0200000f027 0xf0270000f031,
  dm 0x23b0000023d no 0xf0310000f03f 0xf03f0000f04d,
  dm 0x23b0000023d no 0xf04d0000f061 0xf0610000f075,
  dm 0x23b0000023d no 0xf0750000f084 0xf0840000f093,
  dm 0x23b0000023d 0xf15 0 0x18000000182,
  dm 0 no 0 0x18000000182,
  dm 0x2700000027 0xf17 0 0xf0a50000f0aa,
  dm 0 no 0 0xf0af0000f0b5,
  dm 0x23f00000249 0xf19 0 0x18000000182,
  dm 0x23f00000249 0xf1a 0 0xf0bf0000f0c9,
  dm 0x2700000027 0xf1b 0 0xf0c90000f0d1,
  dm 0x23f00000249 0xf1c 0 0x18000000182,
  dm 0x2700000027 0xf1d 0 0x18000000182,
  dm 0x2700000027 no 0xf0d80000f0de 0xf0de0000f0e5,
  dm 0x2700000027 0xf1f 0 0x18000000182,
  dm 0x2700000027 no 0xf0e50000f0eb 0x193300001935,
  dm 0x2700000027 no 0xf0eb0000f0f1 0xf0f10000f0fd,
  dm 0x2700000027 no 0xf0fd0000f103 0xf1030000f105,
  dm 0x2700000027 no 0xf1050000f10b 0xf10b0000f10e,
  dm 0x2700000027 no 0xf10e0000f114 0xf1140000f117,
  dm 0x2700000027 no 0xf1170000f11d 0xf11d0000f125,
  dm 0x2700000027 no 0xf1250000f12b 0xf12b0000f137,
  dm 0x2a1000002a7 0xf20 0 0xf1370000f144,
  dm 0x2700000027 0xf21 0 0xf1440000f147,
  dm 0x2700000027 no 0xf14d0000f15b 0xf15b0000f169,
  dm 0x2700000027 no 0xf1690000f172 0xf1720000f17b,
  dm 0x2700000027 0xf23 0 0x18000000182,
  dm 0x2700000027 0xf25 0 0xf17f0000f182,
  dm 0x2700000027 0xf26 0 0x18000000182,
  dm 0x2700000027 0xf28 0 0xf1860000f18d,
  dm 0x2700000027 0xf29 0 0x18000000182,
  dm 0x2700000027 no 0xf18d0000f195 0xf1950000f19d,
  dm 0x2700000027 no 0xf19d0000f1a3 0xf1a30000f1a9,
  dm 0x2700000027 no 0xf1a90000f1ae 0xf1ae0000f1b3,
  dm 0x2700000027 0xf2a 0 0xf1b30000f1ba,
  dm 0x2a1000002a7 0xf2b 0 0xf1ba0000f1c2,
  dm 0 no 0 0xe3400000e3c,
  dm 0x2700000027 0xf2d 0 0xf1db0000f1dd,
  dm 0x2a1000002a7 0xf2e 0 0xf1dd0000f1e8,
  dm 0x2a1000002a7 no 0xf1e80000f1ef 0xf1ef0000f1fd,
  dm 0 no 0 0xe3400000e3c,
  dm 0x2700000027 0xf2f 0 0xf21c0000f225,
  dm 0x2700000027 0xf30 0 0xf2250000f22e,
  dm 0x2700000027 0xf31 0 0xf22e0000f237,
  dm 0x2700000027 0xf32 0 0xf2370000f23b,
  dm 0x2700000027 0xf33 0 0xf23b0000f247,
  dm 0x2700000027 0xf34 0 0x3d7000003dc,
  dm 0x2700000027 0xf35 0 0xf2470000f251,
  dm 0x2700000027 0xf36 0 0xf2510000f25e,
  dm 0x2700000027 0xf37 0 0xf25e0000f26a,
  dm 0x2700000027 0xf38 0 0xf26a0000f274,
  dm 0x2700000027 0xf39 0 0xf2740000f27e,
  dm 0x2700000027 0xf3a 0 0xf27e0000f287,
  dm 0x2700000027 0xf3b 0 0xf2870000f28b,
  dm 0x2700000027 0xf3c 0 0xf28b0000f294,
  dm 0x2700000027 0xf3d 0 0xf2940000f29d,
  dm 0x2700000027 0xf3e 0 0xf29d0000f2a8,
  dm 0x2700000027 0xf3f 0 0xf2a80000f2b3,
  dm 0x2700000027 0xf40 0 0xf2b30000f2bd,
  dm 0x2700000027 0xf41 0 0xf2bd0000f2c5,
  dm 0x2700000027 0xf42 0 0xf2c50000f2c9,
  dm 0x2700000027 0xf43 0 0xf2c90000f2d2,
  dm 0x2700000027 0xf44 0 0xf2d20000f2d9,
  dm 0x2700000027 0xf45 0 0xf2d90000f2e3,
  dm 0x2700000027 0xf46 0 0xf2e30000f2e9,
  dm 0x2700000027 0xf47 0 0xf2e90000f2f0,
  dm 0x2700000027 0xf48 0 0xf2f00000f2f6,
  dm 0x2700000027 0xf49 0 0xf2f60000f300,
  dm 0x2700000027 0xf4a 0 0xf3000000f307,
  dm 0x2700000027 0xf4b 0 0xf3070000f312,
  dm 0x2700000027 0xf4c 0 0xf3120000f318,
  dm 0x2700000027 0xf4d 0 0xf3180000f31e,
  dm 0x2700000027 0xf4e 0 0xf31e0000f328,
  dm 0x2700000027 0xf4f 0 0xf3280000f32e,
  dm 0x2700000027 0xf50 0 0xf32e0000f338,
  dm 0xdfd00000e04 0xf51 0 0xf3380000f33f,
  dm 0xdfd00000e04 no 0xf33f0000f34c 0xf34c0000f357,
  dm 0xdfd00000e04 0xf52 0 0xf3570000f35d,
  dm 0xdfd00000e04 0xf53 0 0xf35d0000f364,
  dm 0xdfd00000e04 0xf54 0 0xf3640000f36a,
  dm 0xdfd00000e04 0xf55 0 0xf35d0000f364,
  dm 0xdfd00000e04 0xf56 0 0xf36a0000f374,
  dm 0xdfd00000e04 0xf57 0 0xf3740000f37e,
  dm 0xdfd00000e04 0xf58 0 0xf37e0000f388,
  dm 0x2700000027 0xf59 0 0xf3880000f38b,
  dm 0x2700000027 0xf5a 0 0xf38b0000f390,
  dm 0x2700000027 0xf5b 0 0xf3900000f395,
  dm 0x2700000027 0xf5c 0 0xf3950000f39c,
  dm 0x2700000027 0xf5d 0 0xf39c0000f3a2,
  dm 0x2700000027 0xf5e 0 0xf3a20000f3ad,
  dm 0x2700000027 0xf5f 0 0xf3ad0000f3b6,
  dm 0x2700000027 0xf60 0 0xf3b60000f3bd,
  dm 0x2700000027 0xf61 0 0xf3bd0000f3c3,
  dm 0x2700000027 0xf62 0 0xf3c30000f3cd,
  dm 0x2700000027 0xf63 0 0xf3cd0000f3d4,
  dm 0x2700000027 0xf64 0 0xf3d40000f3d9,
  dm 0x2700000027 0xf65 0 0xf3d90000f3df,
  dm 0x2700000027 0xf66 0 0xf3df0000f3e4,
  dm 0x2700000027 0xf67 0 0xf3e40000f3ed,
  dm 0x2700000027 0xf68 0 0xf3ed0000f3f2,
  dm 0x2700000027 0xf69 0 0xf3f20000f3f8,
  dm 0x2700000027 0xf6a 0 0xf3f80000f3ff,
  dm 0x2700000027 0xf6b 0 0xf3ff0000f408,
  dm 0x2700000027 0xf6c 0 0xf4080000f412,
  dm 0x2700000027 0xf6d 0 0xf4120000f41d,
  dm 0x2700000027 0xf6e 0 0xf41d0000f427,
  dm 0x2700000027 0xf6f 0 0xce380000ce3d,
  dm 0x2700000027 0xf70 0 0xf4270000f431,
  dm 0x2700000027 0xf71 0 0xf4310000f43c,
  dm 0x2700000027 0xf72 0 0xf43c0000f445,
  dm 0x2700000027 0xf73 0 0xf4450000f44c,
  dm 0x2700000027 0xf74 0 0xf44c0000f456,
  dm 0x2700000027 0xf75 0 0xf4560000f45c,
  dm 0x2700000027 0xf76 0 0xf45c0000f465,
  dm 0x2700000027 0xf77 0 0xf4650000f46a,
  dm 0x2700000027 0xf78 0 0xf46a0000f473,
  dm 0x2700000027 0xf79 0 0xf4730000f478,
  dm 0x2700000027 0xf7a 0 0xf4780000f481,
  dm 0x2700000027 0xf7b 0 0xf4810000f486,
  dm 0x2700000027 0xf7c 0 0xf4860000f490,
  dm 0x2700000027 0xf7d 0 0xf4900000f49c,
  dm 0x2700000027 0xf7e 0 0xf49c0000f4a3,
  dm 0x2700000027 0xf7f 0 0xf4a30000f4ae,
  dm 0x2700000027 0xf80 0 0xf4ae0000f4b4,
  dm 0x2700000027 0xf81 0 0xf4b40000f4bb,
  dm 0x2700000027 0xf82 0 0xf4bb0000f4c1,
  dm 0x2700000027 no 0xf4c10000f4ce 0xf4ce0000f4d9,
  dm 0x2700000027 no 0xf4d90000f4e5 0xf4e50000f4ec,
  dm 0x2700000027 0xf83 0 0xf4ec0000f4f3,
  dm 0x2700000027 0xf84 0 0xf4f30000f4f9,
  dm 0x2700000027 0xf85 0 0xf4f90000f500,
  dm 0x2700000027 0xf86 0 0xf5000000f50d,
  dm 0x2700000027 0xf87 0 0xf4bb0000f4c1,
  dm 0x2700000027 0xf88 0 0xf50d0000f51c,
  dm 0x2700000027 0xf89 0 0xf51c0000f527,
  dm 0x2700000027 0xf8a 0 0xf5270000f531,
  dm 0x2700000027 0xf8b 0 0xf5310000f538,
  dm 0x2700000027 0xf8c 0 0xf5380000f53e,
  dm 0x2700000027 0xf8d 0 0xf53e0000f547,
  dm 0x2700000027 0xf8e 0 0xf5470000f552,
  dm 0x2700000027 0xf8f 0 0xf5520000f559,
  dm 0x2700000027 0xf90 0 0xf5590000f560,
  dm 0x2700000027 0xf91 0 0xf5600000f566,
  dm 0x2700000027 0xf92 0 0xf5660000f575,
  dm 0x2700000027 0xf93 0 0xf5750000f57a,
  dm 0x2700000027 0xf94 0 0xf57a0000f581,
  dm 0x2700000027 0xf95 0 0xf5810000f58b,
  dm 0x2700000027 0xf96 0 0xf58b0000f592,
  dm 0x2700000027 0xf97 0 0xf5920000f59e,
  dm 0x2700000027 0xf98 0 0xf59e0000f5a9,
  dm 0x2700000027 0xf99 0 0xf5a90000f5b3,
  dm 0x2700000027 0xf9a 0 0xf5b30000f5ba,
  dm 0x2700000027 0xf9b 0 0xf49c0000f4a3,
  dm 0x2700000027 0xf9c 0 0xf5ba0000f5c1,
  dm 0x2700000027 0xf9d 0 0xf5c10000f5cd,
  dm 0x2700000027 0xf9e 0 0xf5cd0000f5d4,
  dm 0x2700000027 0xf9f 0 0xf5d40000f5de,
  dm 0x2700000027 0xfa0 0 0xf5de0000f5ea,
  dm 0x2700000027 0xfa1 0 0xf5ea0000f5f1,
  dm 0x2700000027 0xfa2 0 0xf5f10000f5fb,
  dm 0x2700000027 0xfa3 0 0xf5fb0000f606,
  dm 0x2700000027 0xfa4 0 0xf6060000f612,
  dm 0x2700000027 0xfa5 0 0xf6120000f619,
  dm 0x2700000027 0xfa6 0 0xf6190000f620,
  dm 0x2700000027 0xfa7 0 0xf6200000f622,
  dm 0x2700000027 0xfa8 0 0xf6190000f620,
  dm 0x2700000027 0xfa9 0 0xaf3b0000af3d,
  dm 0x2700000027 0xfaa 0 0xaf2e0000af34,
  dm 0x2700000027 0xfab 0 0xf6220000f62f,
  dm 0xdfd00000e04 0xfac 0 0xf62f0000f63a,
  dm 0xdfd00000e04 0xfad 0 0xf63a0000f642,
  dm 0xdfd00000e04 0xfae 0 0xf6420000f648,
  dm 0xdfd00000e04 0xfaf 0 0x75680000756e,
  dm 0xdfd00000e04 0xfb0 0 0xf6480000f64e,
  dm 0xdfd00000e04 0xfb1 0 0xf64e0000f658,
  dm 0xdfd00000e04 0xfb2 0 0x9af200009af8,
  dm 0xdfd00000e04 0xfb3 0 0xf6580000f665,
  dm 0xdfd00000e04 0xfb4 0 0x756e00007574,
  dm 0xdfd00000e04 0xfb5 0 0xf6650000f66b,
  dm 0xdfd00000e04 0xfb6 0 0xf66b0000f676,
  dm 0xdfd00000e04 0xfb7 0 0xf6760000f67c,
  dm 0xdfd00000e04 0xfb8 0 0xf67c0000f683,
  dm 0xdfd00000e04 0xfb9 0 0xf6830000f68e,
  dm 0xdfd00000e04 0xfba 0 0xf68e0000f695,
  dm 0xdfd00000e04 0xfbb 0 0xf6950000f69c,
  dm 0xdfd00000e04 0xfbc 0 0xf69c0000f6ab,
  dm 0xdfd00000e04 0xfbd 0 0xf6ab0000f6b3,
  dm 0xdfd00000e04 0xfbe 0 0xf6b30000f6be,
  dm 0xdfd00000e04 0xfbf 0 0xf6be0000f6cc,
  dm 0xdfd00000e04 0xfc0 0 0xf6cc0000f6d7,
  dm 0xdfd00000e04 0xfc1 0 0xf6d70000f6e2,
  dm 0xdfd00000e04 0xfc2 0 0xf6e20000f6e9,
  dm 0xdfd00000e04 0xfc3 0 0xf6e90000f6f4,
  dm 0xdfd00000e04 0xfc4 0 0xf6f40000f6fc,
  dm 0xdfd00000e04 0xfc5 0 0xf6950000f69c,
  dm 0xdfd00000e04 0xfc6 0 0xf6fc0000f706,
  dm 0xdfd00000e04 0xfc7 0 0xf7060000f714,
  dm 0xdfd00000e04 0xfc8 0 0xf7140000f71b,
  dm 0xdfd00000e04 0xfc9 0 0xf71b0000f723,
  dm 0xdfd00000e04 0xfca 0 0xf7230000f72e,
  dm 0xdfd00000e04 0xfcb 0 0xf72e0000f739,
  dm 0xdfd00000e04 0xfcc 0 0xf7390000f743,
  dm 0xdfd00000e04 0xfcd 0 0xf7430000f74e,
  dm 0xdfd00000e04 0xfce 0 0xf74e0000f75d,
  dm 0xdfd00000e04 0xfcf 0 0xf75d0000f768,
  dm 0xdfd00000e04 0xfd0 0 0xf7680000f76f,
  dm 0xdfd00000e04 0xfd1 0 0xf76f0000f777,
  dm 0xdfd00000e04 0xfd2 0 0xf7770000f782,
  dm 0xdfd00000e04 0xfd3 0 0xf7820000f791,
  dm 0xdfd00000e04 0xfd4 0 0xf7910000f79f,
  dm 0xdfd00000e04 0xfd5 0 0xf79f0000f7a9,
  dm 0xdfd00000e04 0xfd6 0 0xf7a90000f7b0,
  dm 0x2a1000002a7 0xfd7 0 0xf7b00000f7b4,
  dm 0x2700000027 0xfd8 0 0xf7b40000f7bc,
  dm 0x2a1000002a7 0xfd9 0 0x18000000182,
  dm 0x2700000027 0xfda 0 0x18000000182,
  dm 0x2700000027 0xfdb 0 0x18000000182,
  dm 0x2700000027 0xfdc 0 0x18000000182,
  dm 0 no 0 0x18000000182,
  dm 0 no 0 0x18000000182,
  dm 0 no 0 0x18000000182,
  dm 0 no 0 0xf7d30000f7db,
  dm 0 no 0 0x18000000182,
  dm 0x2a1000002a7 no 0xf7e60000f7f0 0xf7f00000f7fa,
  dm 0x2700000027 0xfe3 0 0xf7fa0000f7fc,
  dm 0x2700000027 0xfe4 0 0xf7fc0000f806,
  dm 0x2700000027 0xfe5 0 0x1ecc00001ecd,
  dm 0x2700000027 0xfe6 0 0xf8060000f80f,
  dm 0x2700000027 0xfe7 0 0xf80f0000f81e,
  dm 0x2700000027 0xfe8 0 0xf81e0000f824,
  dm 0x2700000027 0xfe9 0 0xf8240000f82e,
  dm 0x2700000027 0xfea 0 0xf82e0000f838,
  dm 0x2700000027 0xfeb 0 0xf8380000f83d,
  dm 0x2700000027 0xfec 0 0xf83d0000f843,
  dm 0x2700000027 0xfed 0 0xf8430000f848,
  dm 0x2700000027 0xfee 0 0x18000000182,
  dm 0x2700000027 no 0xf8480000f856 0xf8560000f865,
  dm 0x2700000027 no 0xf8650000f872 0xf8720000f87f,
  dm 0x2700000027 no 0xf87f0000f88c 0xf88c0000f89a,
  dm 0x2700000027 no 0xf89a0000f8a7 0xf8a70000f8b5,
  dm 0x2700000027 no 0xf8b50000f8be 0xf8be0000f8c8,
  dm 0x2700000027 no 0xf8c80000f8d2 0xf8d20000f8dd,
  dm 0x2700000027 no 0xf8dd0000f8e7 0xf8dd0000f8e7,
  dm 0x2700000027 no 0xf8e70000f8f2 0xf8e70000f8f2,
  dm 0x2700000027 no 0xf8f20000f8f8 0xf8f20000f8f8,
  dm 0x2700000027 no 0xf8f80000f903 0xf9030000f90e,
  dm 0x2700000027 no 0xf90e0000f914 0xf9140000f91a,
  dm 0x2700000027 no 0xf91a0000f924 0xf9240000f92e,
  dm 0 no 0 0x18000000182,
  dm 0 no 0 0xf93d0000f943,
  dm 0x2a1000002a7 0xff2 0 0xf9470000f954,
  dm 0x2a1000002a7 0xff3 0 0xf9540000f95c,
  dm 0x2a1000002a7 0xff4 0 0xf95c0000f965,
  dm 0x2a1000002a7 0xff5 0 0xf9650000f977,
  dm 0x2a1000002a7 no 0xf9770000f982 0xf9820000f989,
  dm 0x2a1000002a7 0xff6 0 0xf9890000f994,
  dm 0x2700000027 no 0xf9940000f9a2 0xf9a20000f9ac,
  dm 0x2700000027 0xff7 0 0xf9ac0000f9b8,
  dm 0x2700000027 0xff8 0 0x4fe400004feb,
  dm 0x2700000027 0xff9 0 0x18000000182,
  dm 0x2700000027 0xffa 0 0xf9b80000f9bb,
  dm 0x2700000027 no 0xf9bb0000f9c4 0xf9c40000f9cd,
  dm 0x2700000027 0xffb 0 0x4fd100004fd4,
  dm 0x2700000027 no 0xf9cd0000f9d1 0xf6950000f69c,
  dm 0x2700000027 0xffc 0 0xf9d10000f9d4,
  dm 0x2700000027 0xffd 0 0x61be000061c5,
  dm 0x2700000027 0xffe 0 0x18000000182,
  dm 0x2700000027 no 0xf9dc0000f9e7 0xf9e70000f9ec,
  dm 0x2700000027 0x1000 0 0xf9ec0000f9f6,
  dm 0x2700000027 no 0xf9f60000fa00 0xfa000000fa07,
  dm 0x2700000027 no 0xfa070000fa12 0xfa120000fa14,
  dm 0x2700000027 0x1001 0 0xfa140000fa19,
  dm 0x2700000027 no 0xfa190000fa26 0xfa260000fa36,
  dm 0x23b0000023d no 0xfa360000fa40 0xfa400000fa49,
  dm 0x23b0000023d no 0xfa490000fa52 0xfa520000fa5b,
  dm 0x2700000027 no 0xfa600000fa6a 0xfa6a0000fa70,
  dm 0x2700000027 no 0xfa750000fa7d 0xfa7d0000fa89,
  dm 0x2700000027 0x1003 0 0xfa890000fa9b,
  dm 0x2700000027 0x1004 0 0xfa9b0000faa8,
  dm 0x2700000027 0x1005 0 0xfaa80000fab4,
  dm 0x2700000027 0x1006 0 0xfab40000fabb,
  dm 0x2700000027 0x1007 0 0xfabb0000facd,
  dm 0x2700000027 0x1008 0 0xfacd0000fade,
  dm 0x2700000027 0x1009 0 0xfade0000faeb,
  dm 0x2700000027 0x100a 0 0xfaeb0000faf7,
  dm 0x2700000027 0x100b 0 0xfaf70000fb04,
  dm 0x2700000027 0x100c 0 0xfb040000fb0f,
  dm 0x2700000027 0x100d 0 0xfb0f0000fb1b,
  dm 0x2700000027 0x100e 0 0xfb1b0000fb28,
  dm 0x2700000027 0x100f 0 0xfb280000fb35,
  dm 0x2700000027 0x1010 0 0xfb350000fb40,
  dm 0x2700000027 0x1011 0 0xfb400000fb4d,
  dm 0x2700000027 0x1012 0 0xfb4d0000fb5a,
  dm 0x2700000027 0x1013 0 0xfb5a0000fb69,
  dm 0x2700000027 0x1014 0 0xfb690000fb78,
  dm 0x2700000027 0x1015 0 0xfb780000fb89,
  dm 0x2700000027 0x1016 0 0xfb890000fb96,
  dm 0x2700000027 0x1017 0 0xfb960000fbaa,
  dm 0x2700000027 0x1018 0 0xfbaa0000fbb6,
  dm 0x2700000027 0x1019 0 0xfbb60000fbc4,
  dm 0x2700000027 0x101a 0 0xfbc40000fbcd,
  dm 0x2700000027 0x101b 0 0xfbcd0000fbd4,
  dm 0x2700000027 no 0xfbd40000fbdc 0xfbdc0000fbe4,
  dm 0x2700000027 0x101c 0 0xfbe40000fbeb,
  dm 0x2700000027 0x101d 0 0xfbeb0000fbf3,
  dm 0x2700000027 0x101e 0 0x18000000182,
  dm 0x2700000027 0x101f 0 0xfbf30000fbfe,
  dm 0x2700000027 0x1020 0 0x18000000182,
  dm 0x2700000027 0x1021 0 0x6b6d00006b72,
  dm 0x2700000027 0x1022 0 0x18000000182,
  dm 0x2700000027 0x1024 0 0x61480000614e,
  dm 0x2700000027 0x1025 0 0x18000000182,
  dm 0x2700000027 0x1027 0 0x18000000182,
  dm 0x2700000027 no 0xfc090000fc0f 0xfc0f0000fc16,
  dm 0x2700000027 0x1028 0 0x18000000182,
  dm 0x2700000027 0x102a 0 0x18000000182,
  dm 0x23f00000249 0x102b 0 0x18000000182,
  dm 0x23b0000023d 0x102c 0 0x18000000182,
  dm 0x2700000027 0x102e 0 0xfc1f0000fc26,
  dm 0x2700000027 0x102f 0 0xfc260000fc29,
  dm 0x2700000027 0x1030 0 0xfc290000fc33,
  dm 0x2700000027 0x1031 0 0xfc330000fc3b,
  dm 0x2700000027 no 0xfc3b0000fc49 0xfc490000fc57,
  dm 0x2700000027 no 0xfc570000fc65 0xfc650000fc73,
  dm 0x2700000027 no 0xfc730000fc7c 0xfc7c0000fc85,
  dm 0x2700000027 no 0xfc850000fc8f 0xfc8f0000fc99,
  dm 0x2700000027 no 0xfc990000fca5 0xfca50000fcb1,
  dm 0x2700000027 no 0xfcb10000fcbc 0xfcbc0000fcc7,
  dm 0x2700000027 no 0xfcc70000fcd1 0xfcd10000fcdb,
  dm 0x2700000027 0x1032 0 0xfcdb0000fce2,
  dm 0x2700000027 0x1033 0 0xfce20000fceb,
  dm 0x2700000027 no 0xfceb0000fcf4 0xfcf40000fcf8,
  dm 0x2700000027 no 0xfcf80000fcfc 0xfcf80000fcfc,
  dm 0x2700000027 no 0xfcfc0000fd03 0xfd030000fd0a,
  dm 0x2a1000002a7 0x1034 0 0x18000000182,
  dm 0x2700000027 0x1036 0 0xfd120000fd23,
  dm 0x2700000027 0x1037 0 0xfd230000fd2f,
  dm 0x2700000027 no 0xfd2f0000fd3b 0xfd3b0000fd51,
  dm 0x2700000027 0x1038 0 0xfd230000fd2f,
  dm 0x2700000027 0x1039 0 0x18000000182,
  dm 0 no 0 0x18000000182,
  dm 0 no 0 0x18000000182,
  dm 0 no 0 0x18000000182,
  dm 0 no 0 0x18000000182,
  dm 0 no 0 0x18000000182,
  dm 0x2700000027 0x1040 0 0x18000000182,
  dm 0x2700000027 0x1041 0 0xfd6a0000fd7b,
  dm 0x2700000027 0x1042 0 0xfd7b0000fd8c,
  dm 0x2700000027 0x1043 0 0xfd8c0000fd9d,
  dm 0x2700000027 0x1044 0 0x18000000182,
  dm 0x23b0000023d 0x1045 0 0x2700000027,
  dm 0x23b0000023d 0x1046 0 0xe3400000e3c,
  dm 0x2a1000002a7 0x1047 0 0x18000000182,
  dm 0x2700000027 no 0xfda20000fda5 0xfda50000fdaf,
  dm 0x2700000027 no 0xfdaf0000fdb2 0xfdb20000fdbe,
  dm 0 no 0 0xfdc60000fdcd,
  dm 0x2700000027 0x104b 0 0xfdd10000fdd9,
  dm 0x2700000027 0x104c 0 0xfdd90000fdde,
  dm 0x2700000027 no 0xfde20000fde9 0xfde90000fdf0,
  dm 0x2700000027 0x104e 0 0x18000000182,
  dm 0 no 0 0xfdf50000fdfa,
  dm 0x2700000027 0x1051 0 0xfdff0000fe04,
  dm 0x2700000027 0x1052 0 0x18000000182,
  dm 0x2700000027 0x1053 0 0xfe040000fe09,
  dm 0x2a1000002a7 no 0xfe0d0000fe16 0xfe0d0000fe16,
  dm 0x2700000027 no 0xfe160000fe20 0xfe160000fe20,
  dm 0 no 0 0x18000000182]

/-- `__dr_dm`, from item 5500 on (device_repo.go:7772-8271). -/
def drDm_11 : List ModelTuple := [
  dm 0x2700000027 0x1057 0 0xfe2b0000fe33,
  dm 0x2700000027 0x1058 0 0xfe330000fe3b,
  dm 0x2700000027 0x1059 0 0xfe3b0000fe42,
  dm 0x2700000027 0x105a 0 0xfe420000fe48,
  dm 0x2700000027 0x105b 0 0xfe480000fe51,
  dm 0x2700000027 0x105c 0 0xfe510000fe58,
  dm 0x2700000027 0x105d 0 0xfe580000fe61,
  dm 0x2700000027 0x105e 0 0x500000005006,
  dm 0x2700000027 0x105f 0 0xfe610000fe69,
  dm 0x2700000027 0x1060 0 0xfe690000fe71,
  dm 0x2700000027 0x1061 0 0xfe710000fe7a,
  dm 0x2700000027 0x1062 0 0xfe7a0000fe7f,
  dm 0x2700000027 0x1063 0 0xfe7f0000fe8b,
  dm 0x2700000027 0x1064 0 0xbd530000bd57,
  dm 0x2700000027 0x1065 0 0x95a1000095a6,
  dm 0x2700000027 0x1066 0 0xfe8b0000fe91,
  dm 0x2700000027 0x1067 0 0xfe910000fe9a,
  dm 0x2700000027 0x1068 0 0xfe9a0000fea7,
  dm 0x2700000027 0x1069 0 0xfea70000feaf,
  dm 0x2700000027 0x106a 0 0xfeaf0000febd,
  dm 0x2700000027 0x106b 0 0xfebd0000fec3,
  dm 0x2700000027 0x106c 0 0xfec30000fec9,
  dm 0x2700000027 0x106d 0 0x18000000182,
  dm 0x2700000027 0x106f 0 0xfecc0000fed9,
  dm 0x2700000027 0x1070 0 0x18000000182,
  dm 0x2700000027 0x1072 0 0xfedd0000feea,
  dm 0x2700000027 no 0xfeea0000fef1 0xfeea0000fef1,
  dm 0x2700000027 no 0xfef10000fef7 0xfef70000fefe,
  dm 0x2700000027 0x1073 0 0xfefe0000ff0d,
  dm 0x2700000027 0x1074 0 0xc1540000c15c,
  dm 0x2700000027 0x1075 0 0xff0d0000ff24,
  dm 0x2700000027 0x1076 0 0xff240000ff32,
  dm 0x2700000027 0x1077 0 0xff320000ff3b,
  dm 0x2700000027 0x1079 0 0x18000000182,
  dm 0 no 0 0xff4a0000ff4e,
  dm 0 no 0 0xff540000ff5c,
  dm 0x2a1000002a7 no 0xff740000ff7d 0xff7d0000ff80,
  dm 0x2700000027 0x107d 0 0xff850000ff8d,
  dm 0x2700000027 0x107e 0 0xff8d0000ff97,
  dm 0x2700000027 no 0xff970000ff9e 0xff970000ff9e,
  dm 0x2700000027 0x107f 0 0xff9e0000ffa7,
  dm 0x2700000027 0x1080 0 0xffa70000ffaf,
  dm 0x2700000027 no 0xffaf0000ffba 0xffba0000ffc0,
  dm 0x2700000027 no 0xffc00000ffc9 0xffc90000ffd2,
  dm 0x2700000027 no 0xffd20000ffd9 0xffd90000ffe0,
  dm 0x2700000027 no 0xffe60000ffee 0xffee0000fff2,
  dm 0x2700000027 no 0xfff200010003 0x1000300010014,
  dm 0x2700000027 no 0x1001b00010025 0xd2810000d288,
  dm 0x2700000027 no 0x100250001002f 0x1002f0001003a,
  dm 0x2700000027 no 0x1003a00010043 0x100430001004e,
  dm 0x2700000027 no 0x1004e00010057 0x100570001005e,
  dm 0x2700000027 no 0x1005e00010067 0x100670001006b,
  dm 0x2700000027 no 0x1006b00010074 0x100740001007c,
  dm 0x2700000027 no 0x1007c00010085 0x1008500010089,
  dm 0x2700000027 no 0x1008900010094 0x1008900010094,
  dm 0x2700000027 0x1083 0 0x18000000182,
  dm 0x2700000027 0x1084 0 0x18000000182,
  dm 0 no 0 0x100970001009e,
  dm 0 no 0 0x500000005006,
  dm 0x2700000027 0x1088 0 0x18000000182,
  dm 0x23f00000249 0x1089 0 0x100a7000100b6,
  dm 0x23f00000249 0x108a 0 0x100b6000100c1,
  dm 0x23f00000249 0x108b 0 0xb8d90000b8e4,
  dm 0x23f00000249 no 0x100c7000100d4 0x100c7000100d4,
  dm 0x23f00000249 0x108d 0 0x100d4000100dc,
  dm 0x2700000027 0x108e 0 0x18000000182,
  dm 0x2700000027 0x108f 0 0x100dc000100e7,
  dm 0x2700000027 0x1090 0 0x100e7000100f1,
  dm 0x2700000027 0x1091 0 0x18000000182,
  dm 0 no 0 0x18000000182,
  dm 0 no 0 0x18000000182,
  dm 0x2700000027 0x1095 0 0x18000000182,
  dm 0x2700000027 0x1096 0 0x101050001010d,
  dm 0 no 0 0x18000000182,
  dm 0 no 0 0x18000000182,
  dm 0x2700000027 0x109a 0 0x18000000182,
  dm 0x2700000027 0x109b 0 0x18000000182,
  dm 0x2700000027 0x109d 0 0x18000000182,
  dm 0x2a1000002a7 0x109e 0 0x30d00000312,
  dm 0x2700000027 0x10a0 0 0x1012500010128,
  dm 0x2700000027 no 0x1012d00010134 0x101340001013c,
  dm 0x2700000027 0x10a2 0 0x1013c00010142,
  dm 0x2a1000002a7 no 0x101420001014c 0x1014c00010156,
  dm 0x2a1000002a7 no 0x101560001015d 0x1015d00010164,
  dm 0x2a1000002a7 0x10a3 0 0x101640001016a,
  dm 0x2a1000002a7 no 0x1016a00010171 0x1017100010178,
  dm 0 no 0 0x18000000182,
  dm 0 no 0 0x18000000182,
  dm 0x2700000027 no 0x1018f00010197 0x1019700010198,
  dm 0 no 0 0x18000000182,
  dm 0 no 0 0x18000000182,
  dm 0 no 0 0x101a5000101b0,
  dm 0x2700000027 no 0x101b6000101bf 0x101bf000101c8,
  dm 0x2700000027 0x10aa 0 0x101c8000101d4,
  dm 0x2700000027 0x10ab 0 0x101d4000101dc,
  dm 0x2700000027 no 0x101dc000101e5 0x101e5000101ee,
  dm 0x2700000027 no 0x101ee000101fc 0x101ee000101fc,
  dm 0x2700000027 0x10ac 0 0x101fc00010205,
  dm 0x2700000027 no 0x1020500010210 0x102100001021b,
  dm 0x2700000027 0x10ad 0 0x1021b0001022b,
  dm 0x2700000027 0x10ae 0 0x1022b00010238,
  dm 0x2700000027 no 0x1023800010242 0x102420001024c,
  dm 0x2700000027 no 0x1024c00010258 0x1025800010264,
  dm 0x2700000027 no 0x102640001026d 0x1026d00010276,
  dm 0x2700000027 no 0x1027600010283 0x1028300010290,
  dm 0x2700000027 no 0x1029000010298 0x10298000102a0,
  dm 0x2a1000002a7 0x10af 0 0x102a0000102a8,
  dm 0x23b0000023d 0x10b0 0 0x102a8000102b5,
  dm 0x23b0000023d 0x10b1 0 0x18000000182,
  dm 0x2700000027 0x10b3 0 0x102ba000102c0,
  dm 0x2700000027 no 0x102c0000102c8 0x102c8000102cd,
  dm 0x2700000027 0x10b4 0 0x102cd000102d5,
  dm 0x2700000027 0x10b5 0 0x102d5000102dc,
  dm 0x2700000027 0x10b6 0 0x102dc000102e0,
  dm 0x2700000027 0x10b7 0 0x102e0000102e5,
  dm 0x23b0000023d no 0x102e5000102ef 0x102ef000102f7,
  dm 0 no 0 0x18000000182,
  dm 0x2700000027 no 0x1030400010310 0x1030400010310,
  dm 0x2700000027 no 0x103100001031b 0x103100001031b,
  dm 0x2700000027 no 0x1031b0001032c 0x1031b0001032c,
  dm 0x2700000027 no 0x1032c00010338 0x1032c00010338,
  dm 0x2700000027 no 0x1033800010343 0x1033800010343,
  dm 0x2700000027 no 0x1034300010352 0x1034300010352,
  dm 0x2700000027 no 0x1035200010360 0x1035200010360,
  dm 0x2700000027 no 0x103600001036d 0x103600001036d,
  dm 0x2700000027 0x10ba 0 0x1036d0001037a,
  dm 0x2700000027 0x10bb 0 0x1037a00010382,
  dm 0x2700000027 no 0x1038200010391 0x1038200010391,
  dm 0x2700000027 0x10bc 0 0x103910001039b,
  dm 0x2700000027 0x10bd 0 0x1039b000103a9,
  dm 0x2700000027 no 0x103a9000103b8 0x103a9000103b8,
  dm 0x2700000027 no 0x103b8000103ca 0x103b8000103ca,
  dm 0x2700000027 no 0x103ca000103d8 0x103ca000103d8,
  dm 0x2700000027 no 0x103d8000103e3 0x103d8000103e3,
  dm 0x2700000027 no 0x103e3000103ed 0x103e3000103ed,
  dm 0x2700000027 no 0x103ed000103f7 0x103ed000103f7,
  dm 0x2700000027 no 0x103f700010404 0x103f700010404,
  dm 0x2700000027 no 0x104040001040e 0x1040e00010418,
  dm 0x2700000027 no 0x1041800010426 0x1041800010426,
  dm 0x2700000027 0x10be 0 0x1042600010432,
  dm 0x2700000027 no 0x104320001043a 0x1043a00010443,
  dm 0x2700000027 no 0x104430001044e 0x1044e00010464,
  dm 0x2700000027 no 0x104640001046b 0x1046b0001047c,
  dm 0x2700000027 no 0x1047c00010487 0x104870001049b,
  dm 0x2700000027 0x10bf 0 0x1049b000104ac,
  dm 0x2700000027 0x10c0 0 0x104ac000104b8,
  dm 0x2700000027 0x10c1 0 0x104b8000104c9,
  dm 0x2700000027 no 0x104c9000104d9 0x104c9000104d9,
  dm 0x2700000027 no 0x104d9000104e7 0x104d9000104e7,
  dm 0x2700000027 0x10c2 0 0x104e7000104f6,
  dm 0x2700000027 no 0x104f600010508 0x104f600010508,
  dm 0x2700000027 no 0x105080001051c 0x105080001051c,
  dm 0x2700000027 0x10c3 0 0x1051c0001052c,
  dm 0x2700000027 no 0x1052c00010533 0x1053300010544,
  dm 0x2700000027 no 0x105440001054d 0x1054d00010556,
  dm 0x2700000027 no 0x105560001055f 0x105560001055f,
  dm 0x2700000027 no 0x1055f00010568 0x1055f00010568,
  dm 0x2700000027 0x10c4 0 0x1056800010576,
  dm 0x2700000027 0x10c5 0 0x1057600010585,
  dm 0x2700000027 0x10c6 0 0x1058500010593,
  dm 0x39a000003a7 0x10c7 0 0x18000000182,
  dm 0x39a000003a7 0x10c8 0 0x18000000182,
  dm 0x2700000027 0x10c9 0 0x18000000182,
  dm 0x2700000027 0x10ca 0 0x18000000182,
  dm 0x2700000027 0x10cb 0 0x18000000182,
  dm 0x2700000027 0x10cd 0 0x18000000182,
  dm 0x2700000027 0x10ce 0 0x1059700010599,
  dm 0x2a1000002a7 0x10cf 0 0x18000000182,
  dm 0x2a1000002a7 0x10d0 0 0x10599000105a1,
  dm 0x23b0000023d 0x10d1 0 0x105a1000105a6,
  dm 0x2700000027 no 0x105ab000105b6 0x105ab000105b6,
  dm 0x2700000027 no 0x105b6000105c2 0x105b6000105c2,
  dm 0x2700000027 0x10d3 0 0x105c2000105ce,
  dm 0x2700000027 0x10d4 0 0x105ce000105dc,
  dm 0x2700000027 0x10d5 0 0x18000000182,
  dm 0x2700000027 no 0x105e2000105e9 0x105e9000105f5,
  dm 0x2700000027 0x10d7 0 0x106060001060f,
  dm 0x2700000027 0x10d8 0 0x1060f0001061d,
  dm 0x2700000027 no 0x1061d00010625 0x106250001062e,
  dm 0x2700000027 0x10d9 0 0x1062e00010631,
  dm 0x2700000027 0x10da 0 0x106310001063b,
  dm 0x2700000027 no 0x1063b00010645 0x1064500010647,
  dm 0x2700000027 no 0x1064700010650 0x1ecc00001ecd,
  dm 0x2700000027 no 0x106500001065e 0x1065e00010664,
  dm 0x2700000027 no 0x106640001066d 0xbf1e0000bf1f,
  dm 0x2a1000002a7 no 0x1066d0001067a 0x1067a00010687,
  dm 0x2a1000002a7 no 0x1068700010693 0x106930001069f,
  dm 0x2700000027 no 0x106a4000106aa 0x106aa000106b1,
  dm 0x2700000027 no 0x106b1000106b9 0x106b1000106b9,
  dm 0x2700000027 0x10dc 0 0x18000000182,
  dm 0x2700000027 0x10de 0 0x18000000182,
  dm 0x2700000027 0x10df 0 0x106c0000106c7,
  dm 0x2700000027 0x10e0 0 0x97990000979e,
  dm 0x2700000027 0x10e1 0 0x106c7000106ca,
  dm 0x2700000027 0x10e2 0 0x7bdb00007bdf,
  dm 0x2700000027 0x10e3 0 0x106ca000106cf,
  dm 0x2700000027 0x10e4 0 0x18000000182,
  dm 0 no 0 0x106d7000106ea,
  dm 0 no 0 0x18000000182,
  dm 0x2a1000002a7 0x10e8 0 0x106f500010700,
  dm 0x2a1000002a7 0x10e9 0 0x1070000010711,
  dm 0x2700000027 0x10ea 0 0x1071100010724,
  dm 0x2700000027 0x10eb 0 0x1072400010736,
  dm 0x2700000027 no 0x1073600010740 0x1074000010750,
  dm 0x2700000027 0x10ec 0 0x107500001075f,
  dm 0x2a1000002a7 0x10ed 0 0x1075f00010764,
  dm 0x2700000027 0x10ee 0 0x18000000182,
  dm 0x2700000027 no 0x1077300010778 0x1077300010778,
  dm 0x2700000027 0x10f0 0 0x8a5c00008a5f,
  dm 0x2700000027 0x10f1 0 0x18000000182,
  dm 0x2700000027 0x10f3 0 0x18000000182,
  dm 0x2700000027 0x10f4 0 0x18000000182,
  dm 0 no 0 0x18000000182,
  dm 0x2700000027 0x10f7 0 0x107940001079e,
  dm 0x2700000027 no 0x1079e000107a6 0x107a6000107ae,
  dm 0x2700000027 0x10f9 0 0x107b2000107b8,
  dm 0x2700000027 0x10fa 0 0x18000000182,
  dm 0x2700000027 0x10fb 0 0x18000000182,
  dm 0x2700000027 0x10fd 0 0x18000000182,
  dm 0x2a1000002a7 0x10fe 0 0x18000000182,
  dm 0x2a1000002a7 no 0x107be000107c6 0x107c6000107cd,
  dm 0x2a1000002a7 0x10ff 0 0x107cd000107d7,
  dm 0x2700000027 0x1101 0 0x107dd000107e6,
  dm 0x2700000027 0x1102 0 0x107e6000107eb,
  dm 0x2700000027 0x1103 0 0x107eb000107ef,
  dm 0x2700000027 0x1104 0 0xf1440000f147,
  dm 0x2700000027 0x1105 0 0xf1440000f147,
  dm 0x2700000027 0x1106 0 0x107ef000107f4,
  dm 0x2700000027 0x1107 0 0xf1440000f147,
  dm 0x2700000027 0x1108 0 0xf1440000f147,
  dm 0x2700000027 0x1109 0 0x107f4000107f8,
  dm 0x2700000027 0x110a 0 0x107f8000107fe,
  dm 0x2700000027 0x110b 0 0xf1440000f147,
  dm 0x2700000027 0x110c 0 0x107fe00010803,
  dm 0x2700000027 0x110d 0 0x1080300010808,
  dm 0x2700000027 0x110e 0 0x18000000182,
  dm 0x2700000027 0x110f 0 0x18000000182,
  dm 0x2700000027 no 0x1080d00010810 0x1080d00010810,
  dm 0x2700000027 0x1111 0 0x1081000010818,
  dm 0x2700000027 0x1112 0 0x108180001081d,
  dm 0x2700000027 0x1113 0 0x1081d0001082c,
  dm 0x2700000027 0x1114 0 0x1082c00010837,
  dm 0x2a1000002a7 0x1115 0 0x1083700010840,
  dm 0x23b0000023d no 0x108400001084a 0x1084a0001084f,
  dm 0x23b0000023d 0x1117 0 0x18000000182,
  dm 0x2700000027 0x1118 0 0x1085400010861,
  dm 0x2700000027 no 0x1086100010869 0x1086900010871,
  dm 0x2700000027 no 0x1087100010879 0x1087100010879,
  dm 0x2700000027 no 0x1087900010885 0x1087900010885,
  dm 0x2700000027 no 0x108850001088f 0x108850001088f,
  dm 0x2700000027 0x1119 0 0x18000000182,
  dm 0x2700000027 0x111a 0 0x18000000182,
  dm 0x2700000027 0x111c 0 0x18000000182,
  dm 0x2700000027 0x111d 0 0x18000000182,
  dm 0x2700000027 no 0x10898000108a1 0x108a1000108ac,
  dm 0x2700000027 no 0x108ac000108b1 0xa0ce0000a0d5,
  dm 0x2700000027 no 0x108b1000108b7 0x108b7000108c1,
  dm 0x2700000027 no 0x108c1000108c5 0x108c5000108ce,
  dm 0x2700000027 0x111f 0 0x108ce000108d7,
  dm 0x2700000027 no 0x108d7000108db 0x108db000108e5,
  dm 0x2700000027 0x1120 0 0x18000000182,
  dm 0x23b0000023d no 0x8ad700008ae4 0x8a0100008a0c,
  dm 0x23b0000023d 0x1121 0 0x18000000182,
  dm 0x39a000003a7 0x1122 0 0x18000000182,
  dm 0x2700000027 0x1124 0 0x108eb000108f2,
  dm 0x2700000027 0x1125 0 0x108f2000108f8,
  dm 0x2700000027 0x1126 0 0x108f8000108fe,
  dm 0x2700000027 0x1127 0 0x108fe00010905,
  dm 0x2700000027 0x1128 0 0x109050001090b,
  dm 0x2700000027 0x1129 0 0x1090b00010912,
  dm 0x2700000027 0x112a 0 0x109120001091b,
  dm 0x2700000027 0x112b 0 0x1091b00010921,
  dm 0x2700000027 0x112c 0 0x1092100010927,
  dm 0x2700000027 0x112d 0 0xc0b10000c0b8,
  dm 0x2700000027 0x112e 0 0x109270001092d,
  dm 0x2700000027 0x112f 0 0x1092d00010934,
  dm 0x2700000027 0x1130 0 0x109340001093a,
  dm 0x2700000027 0x1131 0 0x1093a00010942,
  dm 0x2a1000002a7 0x1132 0 0x18000000182,
  dm 0x2a1000002a7 0x1133 0 0x109420001094c,
  dm 0x2700000027 no 0x1095200010958 0x109580001095c,
  dm 0x2700000027 0x1135 0 0x1095c00010963,
  dm 0x2700000027 0x1136 0 0x18000000182,
  dm 0x2700000027 0x1137 0 0x18000000182,
  dm 0x2700000027 0x1138 0 0x18000000182,
  dm 0 no 0 0x18000000182,
  dm 0 no 0 0x109700001097b,
  dm 0x2700000027 no 0x1098000010989 0x1098000010989,
  dm 0x2700000027 0x113c 0 0x18000000182,
  dm 0 no 0 0x18000000182,
  dm 0 no 0 0x18000000182,
  dm 0 no 0 0x1099a000109a0,
  dm 0x2700000027 no 0x109ac000109b5 0x109b5000109c0,
  dm 0x2700000027 no 0x109c0000109cb 0x109cb000109d6,
  dm 0x2700000027 0x1141 0 0x109d6000109dd,
  dm 0x2700000027 no 0x109dd000109ed 0x109dd000109ed,
  dm 0x2700000027 0x1142 0 0x109ed000109f5,
  dm 0x2700000027 0x1143 0 0x109f500010a01,
  dm 0x2700000027 0x1144 0 0x10a0100010a0c,
  dm 0x2700000027 0x1145 0 0x10a0c00010a13,
  dm 0x2700000027 0x1146 0 0x10a1300010a1c,
  dm 0x2700000027 0x1147 0 0x10a1c00010a22,
  dm 0x2700000027 0x1148 0 0x10a2200010a2b,
  dm 0x2700000027 0x1149 0 0x10a2b00010a36,
  dm 0x2700000027 0x114a 0 0x10a3600010a41,
  dm 0x2700000027 0x114b 0 0x10a4100010a49,
  dm 0x2700000027 0x114c 0 0x10a4900010a50,
  dm 0x2700000027 0x114d 0 0x10a5000010a56,
  dm 0x2a1000002a7 0x114e 0 0x10a5600010a64,
  dm 0x2a1000002a7 0x114f 0 0x10a6400010a72,
  dm 0x2a1000002a7 0x1150 0 0x10a7200010a80,
  dm 0x2a1000002a7 0x1151 0 0x10a8000010a8e,
  dm 0x2a1000002a7 0x1152 0 0x10a6400010a72,
  dm 0x2a1000002a7 0x1153 0 0x10a8e00010a96,
  dm 0x2a1000002a7 0x1154 0 0x10a9600010aa4,
  dm 0x2a1000002a7 0x1155 0 0x10a5600010a64,
  dm 0x2a1000002a7 0x1156 0 0x10aa400010ab1,
  dm 0x2a1000002a7 0x1157 0 0x10ab100010abe,
  dm 0x2a1000002a7 0x1158 0 0x10abe00010acb,
  dm 0x23b0000023d 0x1159 0 0x18000000182,
  dm 0 no 0 0x18000000182,
  dm 0 no 0 0x18000000182,
  dm 0x2700000027 0x115d 0 0x18000000182,
  dm 0x2700000027 0x115e 0 0x18000000182,
  dm 0x2700000027 0x1160 0 0x10adf00010ae4,
  dm 0x2700000027 0x1161 0 0x18000000182,
  dm 0x23f00000249 0x1162 0 0x10ae400010af0,
  dm 0x2700000027 0x1164 0 0x10af700010afd,
  dm 0x2700000027 0x1165 0 0x10afd00010b07,
  dm 0x2700000027 0x1166 0 0x10b0700010b0e,
  dm 0x2700000027 0x1167 0 0x10b0e00010b12,
  dm 0x2700000027 0x1168 0 0x10b1200010b19,
  dm 0x2700000027 0x1169 0 0x10b1900010b20,
  dm 0x2700000027 0x116a 0 0x10b2000010b27,
  dm 0x2700000027 0x116b 0 0x10b2700010b2e,
  dm 0x2700000027 0x116c 0 0x10b2e00010b35,
  dm 0x2700000027 0x116d 0 0x10b3500010b3e,
  dm 0x2700000027 0x116e 0 0x10b3e00010b43,
  dm 0x2700000027 0x116f 0 0x10b4300010b4f,
  dm 0x2700000027 0x1170 0 0x10b4f00010b5a,
  dm 0x2700000027 0x1171 0 0x10b5a00010b62,
  dm 0x2700000027 0x1172 0 0x10b6200010b6c,
  dm 0x2700000027 0x1173 0 0x10b6c00010b7a,
  dm 0x2700000027 0x1174 0 0x10b7a00010b82,
  dm 0x2700000027 0x1175 0 0x10b8200010b8c,
  dm 0x2700000027 0x1176 0 0x10b8c00010b91,
  dm 0x2700000027 0x1177 0 0x10b9100010b9b,
  dm 0x2700000027 0x1178 0 0x10b9b00010ba5,
  dm 0x2700000027 no 0x10ba500010baa 0x10baa00010bb4,
  dm 0x2700000027 no 0x10bb400010bb9 0x10bb900010bc4,
  dm 0x2700000027 no 0x10bc400010bca 0x10bca00010bd4,
  dm 0x2700000027 0x1179 0 0x10bd400010bde,
  dm 0x2700000027 no 0x10bde00010be3 0x10be300010bee,
  dm 0x2700000027 0x117a 0 0x10bee00010bf7,
  dm 0x2700000027 0x117b 0 0x10bf700010c04,
  dm 0x2700000027 0x117c 0 0x10c0400010c13,
  dm 0x2700000027 0x117d 0 0x10c1300010c22,
  dm 0x2700000027 no 0x10c2200010c27 0x10c2700010c39,
  dm 0x2700000027 no 0x10c3900010c3e 0x10c3e00010c4a,
  dm 0x2700000027 no 0x10c4a00010c51 0x10c5100010c57,
  dm 0x2700000027 no 0x10c5700010c5c 0x10c5c00010c65,
  dm 0x2700000027 0x117e 0 0x10c6500010c6c,
  dm 0x2700000027 0x117f 0 0x10c6c00010c72,
  dm 0x2700000027 0x1180 0 0x10c7200010c7c,
  dm 0x2700000027 0x1181 0 0x10c7c00010c86,
  dm 0x2700000027 0x1182 0 0x10c8600010c9a,
  dm 0x2700000027 0x1183 0 0x10c9a00010ca1,
  dm 0x2700000027 0x1184 0 0x10ca100010cab,
  dm 0x2700000027 0x1185 0 0x10cab00010cb5,
  dm 0x2700000027 0x1186 0 0x10cb500010cbf,
  dm 0x2700000027 0x1187 0 0x10cbf00010cc9,
  dm 0x2700000027 0x1188 0 0x10cc900010cd2,
  dm 0x2700000027 0x1189 0 0x10cd200010cdc,
  dm 0x2700000027 0x118a 0 0x10cdc00010ce6,
  dm 0x2700000027 0x118b 0 0x10ce600010cf0,
  dm 0x2700000027 0x118c 0 0x10cf000010cf5,
  dm 0x2700000027 0x118d 0 0x10cf500010cfc,
  dm 0x2700000027 0x118e 0 0x10cfc00010d03,
  dm 0x2700000027 0x118f 0 0x10d0300010d10,
  dm 0x2700000027 0x1190 0 0x10d1000010d19,
  dm 0x2700000027 0x1191 0 0x10d1900010d25,
  dm 0x2700000027 0x1192 0 0x10d2500010d31,
  dm 0x2a1000002a7 0x1193 0 0x10d3100010d3d,
  dm 0x2a1000002a7 0x1194 0 0x10d3d00010d48,
  dm 0x2a1000002a7 0x1195 0 0x10d4800010d52,
  dm 0x2700000027 0x1196 0 0x10d5200010d57,
  dm 0x2700000027 0x1197 0 0x10d5700010d62,
  dm 0x2700000027 0x1198 0 0x10d6200010d6c,
  dm 0x2700000027 0x1199 0 0x10d6c00010d76,
  dm 0x2700000027 0x119a 0 0x10d7600010d80,
  dm 0x2700000027 0x119b 0 0x10d8000010d8a,
  dm 0x2700000027 0x119c 0 0x10d8a00010d94,
  dm 0x2700000027 0x119d 0 0x10d9400010d9e,
  dm 0x2700000027 0x119e 0 0x10d9e00010daa,
  dm 0x2700000027 0x119f 0 0x10daa00010db6,
  dm 0x2700000027 0x11a0 0 0x10db600010dbc,
  dm 0x2700000027 0x11a1 0 0x10dbc00010dc5,
  dm 0x2700000027 0x11a2 0 0x10dc500010dce,
  dm 0x2700000027 0x11a3 0 0x10dce00010dd2,
  dm 0x2700000027 0x11a4 0 0x18000000182,
  dm 0x2a1000002a7 0x11a5 0 0x18000000182,
  dm 0x2700000027 0x11a6 0 0x10dd200010de0,
  dm 0x2700000027 0x11a7 0 0x10de000010def,
  dm 0x2700000027 0x11a8 0 0x10def00010dfd,
  dm 0x2700000027 0x11a9 0 0x10dfd00010e0d,
  dm 0x2700000027 0x11aa 0 0x10e0d00010e1a,
  dm 0x39a000003a7 no 0x10e1a00010e1f 0x10e1f00010e24,
  dm 0x2700000027 0x11ab 0 0x10e2400010e29,
  dm 0x2700000027 0x11ac 0 0x18000000182,
  dm 0x2700000027 0x11ad 0 0x7c3000007c8,
  dm 0 no 0 0x18000000182,
  dm 0x2700000027 no 0x10e3300010e3b 0x10e3b00010e43,
  dm 0x2700000027 no 0x10e4300010e4a 0x10e4a00010e51,
  dm 0x2700000027 no 0x10e5100010e5a 0x10e5100010e5a,
  dm 0x2700000027 no 0x10e5a00010e60 0x10e6000010e66,
  dm 0x2700000027 no 0x10e6600010e6f 0x10e6600010e6f,
  dm 0x2700000027 0x11b0 0 0x10e6f00010e79,
  dm 0x2a1000002a7 no 0x10e7900010e82 0x10e8200010e8b,
  dm 0x2700000027 0x11b2 0 0x10e9000010e9c,
  dm 0x2700000027 0x11b3 0 0x10e9c00010ea7,
  dm 0 no 0 0x10eae00010ebb,
  dm 0x2700000027 0x11b6 0 0x18000000182,
  dm 0 no 0 0x18000000182,
  dm 0x2700000027 0x11b9 0 0x500000005006,
  dm 0x2700000027 0x11ba 0 0x18000000182,
  dm 0x2700000027 0x11bc 0 0x10ec900010edc,
  dm 0x2700000027 0x11bd 0 0x10edc00010edf,
  dm 0x2700000027 0x11be 0 0x10edf00010ee2,
  dm 0x2700000027 0x11bf 0 0x10ee200010ee5,
  dm 0x2700000027 0x11c0 0 0x10ee500010ee8,
  dm 0x2700000027 no 0x10ee800010ef1 0x10ef100010ef8,
  dm 0x2700000027 0x11c1 0 0x10ef800010efb,
  dm 0x2700000027 no 0x10efb00010f02 0x10f0200010f05,
  dm 0x2700000027 0x11c2 0 0x10f0500010f08,
  dm 0x2700000027 0x11c3 0 0x10f0800010f0b,
  dm 0x2700000027 0x11c4 0 0x10f0b00010f0e,
  dm 0x2700000027 0x11c5 0 0x10f0e00010f11,
  dm 0x2700000027 0x11c6 0 0x10f1100010f15,
  dm 0x2700000027 0x11c7 0 0x10f1500010f18,
  dm 0x2700000027 no 0x10f1800010f22 0x10f2200010f2b,
  dm 0x2700000027 no 0x10f2b00010f33 0xa0ce0000a0d5,
  dm 0x2700000027 no 0x10f3300010f3d 0x10f3d00010f43,
  dm 0x2700000027 no 0x10f4300010f4c 0x10f4c00010f5a,
  dm 0x2700000027 no 0x10f5a00010f62 0x10f6200010f71,
  dm 0x2700000027 0x11c8 0 0x10f7100010f7a,
  dm 0x2700000027 0x11c9 0 0x10f7a00010f83,
  dm 0x2700000027 no 0x10f8300010f8a 0x10f8a00010f93,
  dm 0x2700000027 no 0x10f9300010f9b 0x10f9b00010fa9,
  dm 0x2700000027 0x11ca 0 0x10fa900010fab,
  dm 0x2700000027 0x11cb 0 0x10fab00010fb2,
  dm 0x2700000027 0x11cc 0 0x10fb200010fb4,
  dm 0x2700000027 0x11cd 0 0x10fb400010fbc,
  dm 0x2700000027 no 0x10fbc00010fc4 0x10fc400010fc8,
  dm 0x2700000027 0x11ce 0 0x10fc800010fcb,
  dm 0x2700000027 0x11cf 0 0x10fcb00010fd2,
  dm 0x2700000027 0x11d0 0 0x10fd200010fdb,
  dm 0x2700000027 no 0x10fdb00010fe2 0x10fe200010feb,
  dm 0x2700000027 no 0x10feb00010ff2 0x10ff200010ff5,
  dm 0x2700000027 0x11d1 0 0x10ff500010ff7,
  dm 0x2700000027 0x11d2 0 0x10ff700010ffa,
  dm 0x2700000027 0x11d3 0 0xff400000ff43,
  dm 0x2700000027 0x11d4 0 0x10ffa00011003,
  dm 0x2700000027 0x11d5 0 0x1100300011006,
  dm 0x2700000027 no 0x110060001100d 0x1100d00011014,
  dm 0x2700000027 no 0x110140001101b 0x1101b00011023,
  dm 0x2700000027 0x11d6 0 0xd7500000d77,
  dm 0x2700000027 0x11d7 0 0x1102300011028,
  dm 0x2700000027 0x11d8 0 0x110280001102a,
  dm 0x2700000027 no 0x1102a00011031 0x1103100011037,
  dm 0x2700000027 no 0x110370001103e 0x1103e00011044,
  dm 0x2700000027 0x11d9 0 0x110440001104a,
  dm 0x2700000027 0x11da 0 0x1104a00011052,
  dm 0x2700000027 0x11db 0 0x110520001105c,
  dm 0x2700000027 0x11dc 0 0xd2780000d27a,
  dm 0x2700000027 no 0x1105c00011064 0x1106400011067,
  dm 0x2700000027 0x11dd 0 0x1106700011069,
  dm 0x2700000027 no 0x1106900011070 0x1107000011079,
  dm 0x2700000027 no 0x1107900011080 0x1108000011089,
  dm 0x2700000027 0x11de 0 0x1107000011079,
  dm 0x2700000027 0x11df 0 0x1108900011098,
  dm 0x2700000027 0x11e0 0 0x11098000110a2,
  dm 0x2700000027 0x11e1 0 0x110a2000110af,
  dm 0x2700000027 0x11e2 0 0x110af000110be,
  dm 0x2700000027 0x11e3 0 0x110be000110c1,
  dm 0x2700000027 0x11e4 0 0x110c1000110c4,
  dm 0x2700000027 0x11e5 0 0x110c4000110c7,
  dm 0x2700000027 no 0x110c7000110cd 0x110cd000110d7,
  dm 0x2700000027 no 0x110d7000110de 0x110de000110e5,
  dm 0x2700000027 0x11e6 0 0x110e5000110ea,
  dm 0x2700000027 no 0x110ea000110f1 0x110f1000110f7,
  dm 0x2700000027 0x11e7 0 0x110f7000110ff,
  dm 0x2700000027 0x11e8 0 0x110ff00011106,
  dm 0x2700000027 0x11e9 0 0x111060001110d,
  dm 0x2700000027 0x11ea 0 0x1110d00011113,
  dm 0x2700000027 0x11eb 0 0x1111300011118,
  dm 0x2700000027 0x11ec 0 0xf2c50000f2c9,
  dm 0x2700000027 0x11ed 0 0x111180001111f,
  dm 0x2700000027 0x11ee 0 0x1111f00011123,
  dm 0x2700000027 0x11ef 0 0x1112300011128,
  dm 0x2700000027 no 0x1112800011131 0x8fc600008fca]

/-- `__dr_dm`, from item 6000 on (device_repo.go:8272-8771). -/
def drDm_12 : List ModelTuple := [
  dm 0x2700000027 0x11f0 0 0x1113100011135,
  dm 0x2700000027 no 0x111350001113e 0x1113e00011150,
  dm 0x2700000027 0x11f1 0 0x1115000011155,
  dm 0x2700000027 0x11f2 0 0x111550001115c,
  dm 0x2700000027 0x11f3 0 0x1115c00011167,
  dm 0x2700000027 0x11f4 0 0x1116700011177,
  dm 0x2700000027 0x11f5 0 0x1117700011180,
  dm 0x2700000027 no 0x1118000011188 0x1118800011192,
  dm 0x2700000027 0x11f6 0 0x11192000111a4,
  dm 0x2700000027 0x11f7 0 0x111a4000111b1,
  dm 0x2700000027 0x11f8 0 0x111b1000111be,
  dm 0x2700000027 0x11f9 0 0x111be000111cb,
  dm 0x2700000027 0x11fa 0 0x111cb000111dd,
  dm 0x2700000027 0x11fb 0 0x111dd000111e8,
  dm 0x2700000027 0x11fc 0 0x111e8000111f5,
  dm 0x2700000027 0x11fd 0 0x111f5000111ff,
  dm 0x2700000027 0x11fe 0 0x111ff0001120c,
  dm 0x2700000027 0x11ff 0 0x1120c00011219,
  dm 0x2700000027 no 0x1121900011220 0x112200001122a,
  dm 0x2700000027 0x1200 0 0x1122a00011234,
  dm 0x2700000027 0x1201 0 0x112340001123e,
  dm 0x2700000027 no 0x1123e00011246 0x1124600011250,
  dm 0x2700000027 0x1202 0 0x112500001125d,
  dm 0x2700000027 0x1203 0 0x1125d0001126a,
  dm 0x2700000027 no 0x1126a00011272 0x112720001127f,
  dm 0x2700000027 no 0x1127f00011286 0x1128600011295,
  dm 0x2700000027 no 0x112950001129c 0x1129c000112a6,
  dm 0x2700000027 0x1204 0 0x112a6000112b3,
  dm 0x2700000027 0x1205 0 0x112b3000112c5,
  dm 0x2700000027 0x1206 0 0x112c5000112d0,
  dm 0x2700000027 0x1207 0 0x112d0000112e1,
  dm 0x2700000027 0x1208 0 0x112e1000112f2,
  dm 0x2700000027 no 0x112f2000112f7 0x112f70001130b,
  dm 0x2700000027 0x1209 0 0x1130b0001130e,
  dm 0x2700000027 0x120a 0 0x1130e0001131b,
  dm 0x2700000027 0x120b 0 0x1131b00011325,
  dm 0x2700000027 no 0x113250001132d 0x1132d00011339,
  dm 0x2700000027 no 0x113390001133e 0x1133e00011346,
  dm 0x2700000027 no 0x113460001134d 0x1134d00011355,
  dm 0x2700000027 0x120c 0 0x113550001135d,
  dm 0x2700000027 0x120d 0 0x1135d0001136a,
  dm 0x2700000027 0x120e 0 0x1136a0001136c,
  dm 0x2700000027 0x120f 0 0x1136c0001136f,
  dm 0x2700000027 0x1210 0 0x1136f00011372,
  dm 0x2700000027 0x1211 0 0x1137200011374,
  dm 0x2700000027 0x1212 0 0x1137400011376,
  dm 0x2700000027 0x1213 0 0x1137600011379,
  dm 0x2700000027 0x1214 0 0x113790001137c,
  dm 0x2700000027 0x1215 0 0x1137c00011388,
  dm 0x2700000027 no 0x1138800011390 0x1139000011399,
  dm 0x2700000027 0x1216 0 0x113990001139e,
  dm 0x2700000027 0x1217 0 0x1139e000113a5,
  dm 0x2700000027 0x1218 0 0x113a5000113ac,
  dm 0x2700000027 0x1219 0 0x113ac000113b5,
  dm 0x2700000027 0x121a 0 0x113b5000113c1,
  dm 0x2700000027 0x121b 0 0x113c1000113c8,
  dm 0x2700000027 0x121c 0 0x113c8000113cf,
  dm 0x2700000027 0x121d 0 0x113cf000113d6,
  dm 0x2700000027 0x121e 0 0x113d6000113e2,
  dm 0x2700000027 0x121f 0 0x113e2000113e9,
  dm 0x2700000027 0x1220 0 0x113e9000113f0,
  dm 0x2700000027 0x1221 0 0x113f0000113f7,
  dm 0x2700000027 0x1222 0 0x113f7000113ff,
  dm 0x2700000027 no 0x113ff00011408 0x1140800011410,
  dm 0x2700000027 no 0x1141000011417 0x114170001141e,
  dm 0x2700000027 no 0x1141e00011427 0x1142700011430,
  dm 0x2700000027 0x1223 0 0x1143000011438,
  dm 0x2700000027 0x1224 0 0x1143800011443,
  dm 0x2700000027 0x1225 0 0x1144300011453,
  dm 0x2700000027 0x1226 0 0x1145300011462,
  dm 0x2700000027 0x1227 0 0x1146200011469,
  dm 0x2700000027 0x1228 0 0x1146900011471,
  dm 0x2700000027 no 0x1147100011478 0x114780001147b,
  dm 0x2700000027 no 0x1147b00011484 0x1148400011487,
  dm 0x2700000027 0x1229 0 0x114870001148a,
  dm 0x2700000027 no 0x1148a00011492 0x114920001149a,
  dm 0x2700000027 no 0x1149a000114a2 0x114a2000114a3,
  dm 0x2700000027 0x122a 0 0x114a3000114a5,
  dm 0x2700000027 0x122b 0 0x114a5000114aa,
  dm 0x2700000027 0x122c 0 0x114aa000114b0,
  dm 0x2700000027 0x122d 0 0x114b0000114b8,
  dm 0x2700000027 0x122e 0 0x114b8000114bf,
  dm 0x2700000027 no 0x114bf000114c7 0x114c7000114cd,
  dm 0x2700000027 0x122f 0 0x114cd000114d5,
  dm 0x2700000027 0x1230 0 0x114d5000114de,
  dm 0x2700000027 no 0x114de000114e7 0x114e7000114f0,
  dm 0x2700000027 0x1231 0 0x114f0000114f2,
  dm 0x2700000027 0x1232 0 0x114f2000114f5,
  dm 0x2700000027 0x1233 0 0x114f5000114f8,
  dm 0x2700000027 0x1234 0 0x114f8000114fb,
  dm 0x2700000027 no 0x114fb00011503 0xcea40000cea7,
  dm 0x2700000027 no 0x115030001150c 0xceaa0000cead,
  dm 0x2700000027 no 0x1150c00011515 0x115150001151c,
  dm 0x2700000027 no 0x1151c00011526 0x1152600011529,
  dm 0x2700000027 no 0x1152900011532 0x1153200011535,
  dm 0x2700000027 no 0x115350001153c 0x1153c00011549,
  dm 0x2700000027 no 0x1154900011550 0x1155000011557,
  dm 0x2700000027 no 0x115570001155e 0x1155e00011561,
  dm 0x2700000027 0x1235 0 0x1156100011565,
  dm 0x2700000027 0x1236 0 0x115650001156c,
  dm 0x2700000027 no 0x1156c00011573 0x1156c00011573,
  dm 0x2700000027 no 0x115730001157b 0x8fc600008fca,
  dm 0x2700000027 no 0x1157b00011584 0x1158400011588,
  dm 0x2700000027 no 0x1158800011590 0x1159000011599,
  dm 0x2700000027 0x1237 0 0x115990001159b,
  dm 0x2700000027 0x1238 0 0x1159b000115a1,
  dm 0x2700000027 0x1239 0 0x115a1000115aa,
  dm 0x2700000027 no 0x115aa000115b1 0x115b1000115b4,
  dm 0x2700000027 0x123a 0 0x115b4000115b8,
  dm 0x2700000027 no 0x115b8000115bf 0x115bf000115c3,
  dm 0x2700000027 no 0x115c3000115ca 0x115ca000115cc,
  dm 0x2700000027 no 0x115cc000115d3 0x115d3000115d7,
  dm 0x2700000027 0x123b 0 0x115d7000115da,
  dm 0x2700000027 no 0x115da000115df 0x115df000115e4,
  dm 0x2700000027 no 0x115e4000115e9 0x115e9000115ed,
  dm 0x2700000027 0x123c 0 0x88190000881b,
  dm 0x2700000027 no 0x115ed000115f6 0xca0c0000ca0e,
  dm 0x2700000027 no 0x115f6000115fe 0x115fe00011607,
  dm 0x2700000027 0x123d 0 0x116070001160d,
  dm 0x2700000027 0x123e 0 0x1160d00011615,
  dm 0x2700000027 0x123f 0 0x116150001161d,
  dm 0x2700000027 0x1240 0 0x1161d00011626,
  dm 0x2700000027 0x1241 0 0x116260001162f,
  dm 0x2700000027 0x1242 0 0x1162f00011638,
  dm 0x2700000027 no 0x1163800011640 0x116400001164a,
  dm 0x2700000027 no 0x1164a00011652 0x1165200011655,
  dm 0x2700000027 no 0x116550001165d 0x1165d00011663,
  dm 0x2700000027 0x1243 0 0x1166300011666,
  dm 0x2700000027 0x1244 0 0x116660001166f,
  dm 0x2700000027 no 0x1166f00011679 0x116790001167c,
  dm 0x2700000027 0x1245 0 0x1167c00011681,
  dm 0x2700000027 0x1246 0 0x1168100011685,
  dm 0x2700000027 0x1247 0 0x116850001168e,
  dm 0x2700000027 0x1248 0 0x1130b0001130e,
  dm 0x2700000027 0x1249 0 0x1168e00011691,
  dm 0x2700000027 0x124a 0 0x879e000087a5,
  dm 0x2700000027 0x124b 0 0x1169100011699,
  dm 0x2700000027 0x124c 0 0x4d2200004d25,
  dm 0x2700000027 0x124d 0 0x11699000116a2,
  dm 0x2700000027 0x124e 0 0x116a2000116ae,
  dm 0x2700000027 no 0x116ae000116b5 0x116b5000116be,
  dm 0x2700000027 0x124f 0 0x116be000116ca,
  dm 0x2700000027 0x1250 0 0x116ca000116d6,
  dm 0x2700000027 0x1251 0 0x116d6000116d9,
  dm 0x2700000027 0x1252 0 0x116d9000116e7,
  dm 0x2700000027 0x1253 0 0x116e7000116f5,
  dm 0x2700000027 0x1254 0 0x116f5000116f7,
  dm 0x2700000027 0x1255 0 0x116f700011700,
  dm 0x2700000027 0x1256 0 0x1170000011702,
  dm 0x2700000027 0x1257 0 0x1170200011704,
  dm 0x2700000027 no 0x117040001170b 0x1168100011685,
  dm 0x2700000027 0x1258 0 0x1170b0001170e,
  dm 0x2700000027 0x1259 0 0x1170e00011718,
  dm 0x2700000027 0x125a 0 0x110be000110c1,
  dm 0x2700000027 0x125b 0 0x1171800011720,
  dm 0x2700000027 0x125c 0 0x1172000011728,
  dm 0x2700000027 0x125d 0 0x117280001172b,
  dm 0x2700000027 0x125e 0 0x1172b0001172e,
  dm 0x2700000027 0x125f 0 0x114870001148a,
  dm 0x2700000027 0x1260 0 0x1172e00011731,
  dm 0x2700000027 0x1261 0 0x1173100011734,
  dm 0x2700000027 0x1262 0 0x1173400011737,
  dm 0x2700000027 0x1263 0 0x117370001173b,
  dm 0x2700000027 0x1264 0 0x1173b0001173e,
  dm 0x2700000027 0x1265 0 0x1173e00011741,
  dm 0x2700000027 0x1266 0 0x1174100011749,
  dm 0x2700000027 0x1267 0 0x117490001174c,
  dm 0x2700000027 0x1268 0 0x1174c0001174f,
  dm 0x2700000027 0x1269 0 0x1174f00011752,
  dm 0x2700000027 0x126a 0 0x1175200011754,
  dm 0x2700000027 no 0x117540001175b 0x1152600011529,
  dm 0x2700000027 0x126b 0 0x1175b0001175d,
  dm 0x2700000027 0x126c 0 0x1175d00011764,
  dm 0x2700000027 0x126d 0 0x117640001176d,
  dm 0x2700000027 0x126e 0 0x1176d00011774,
  dm 0x2700000027 0x126f 0 0x117740001177d,
  dm 0x2700000027 0x1270 0 0xa0d50000a0de,
  dm 0x2700000027 0x1271 0 0x1177d00011786,
  dm 0x2700000027 0x1272 0 0x1178600011790,
  dm 0x2700000027 0x1273 0 0x117900001179d,
  dm 0x2700000027 0x1274 0 0x1179d000117a6,
  dm 0x2700000027 0x1275 0 0x117a6000117b3,
  dm 0x2700000027 0x1276 0 0x117b3000117b7,
  dm 0x2700000027 0x1277 0 0x117b7000117c2,
  dm 0x2700000027 0x1278 0 0x117c2000117c8,
  dm 0x2700000027 0x1279 0 0x117c8000117d3,
  dm 0x2700000027 no 0x117d3000117db 0x117db000117e2,
  dm 0x2700000027 0x127a 0 0x117e2000117e9,
  dm 0x2700000027 0x127b 0 0x117e9000117ee,
  dm 0x2700000027 no 0x117ee000117f3 0x117f3000117fa,
  dm 0x2700000027 0x127c 0 0x117fa00011801,
  dm 0x2700000027 no 0x1180100011808 0x1180800011811,
  dm 0x2700000027 no 0x1181100011816 0x118160001181c,
  dm 0x2700000027 no 0x1181c00011824 0x118240001182b,
  dm 0x2700000027 no 0x1182b00011832 0x118320001183b,
  dm 0x2700000027 no 0x1183b00011843 0x1184300011849,
  dm 0x2700000027 0x127d 0 0x1184900011850,
  dm 0x2700000027 0x127e 0 0x1185000011854,
  dm 0x2700000027 no 0x118540001185c 0x1185c00011865,
  dm 0x2700000027 no 0x118650001186d 0x1186d0001187c,
  dm 0x2700000027 0x127f 0 0x1187c00011884,
  dm 0x2700000027 no 0x118840001188b 0x1188b00011895,
  dm 0x2700000027 0x1280 0 0x1189500011898,
  dm 0xdfd00000e04 0x1281 0 0x118980001189c,
  dm 0x2a1000002a7 no 0x1189c000118a2 0x118a2000118ab,
  dm 0x2a1000002a7 0x1282 0 0x118ab000118bc,
  dm 0x2a1000002a7 0x1283 0 0x118bc000118ca,
  dm 0x2a1000002a7 no 0x118ca000118d1 0x118d1000118de,
  dm 0x2a1000002a7 0x1284 0 0x118de000118ea,
  dm 0x2a1000002a7 no 0x118ea000118f1 0x118de000118ea,
  dm 0x2a1000002a7 0x1285 0 0x118f1000118fd,
  dm 0x2a1000002a7 no 0x118fd00011905 0x1190500011912,
  dm 0x2a1000002a7 0x1286 0 0x119120001191b,
  dm 0x2a1000002a7 0x1287 0 0x1191b00011929,
  dm 0x2a1000002a7 0x1288 0 0x1192900011932,
  dm 0x2a1000002a7 no 0x1193200011939 0x1193900011943,
  dm 0x2a1000002a7 no 0x119430001194a 0x1194a00011957,
  dm 0x2a1000002a7 0x1289 0 0x1195700011964,
  dm 0x2a1000002a7 no 0x119640001196b 0x1196b0001197c,
  dm 0x2a1000002a7 0x128a 0 0x1197c00011989,
  dm 0x2a1000002a7 0x128b 0 0x119890001199b,
  dm 0x2a1000002a7 0x128c 0 0x1199b000119b2,
  dm 0x2a1000002a7 no 0x119b2000119ba 0x119ba000119cf,
  dm 0x2a1000002a7 no 0x119cf000119d4 0x119d4000119e1,
  dm 0x2a1000002a7 no 0x119e1000119e6 0x119e6000119f1,
  dm 0x2a1000002a7 0x128d 0 0x119f1000119fd,
  dm 0x2a1000002a7 no 0x119fd00011a04 0x11a0400011a11,
  dm 0x2a1000002a7 no 0x11a1100011a18 0x11a1800011a2a,
  dm 0x2a1000002a7 0x128e 0 0x11a2a00011a38,
  dm 0x2a1000002a7 no 0x11a3800011a3d 0x11a3d00011a47,
  dm 0x2a1000002a7 no 0x11a4700011a4c 0x11a4c00011a56,
  dm 0x7cc000007d6 no 0x11a5600011a5f 0x11a5600011a5f,
  dm 0x7cc000007d6 no 0x11a5f00011a6a 0x11a6a00011a73,
  dm 0x23b0000023d no 0x11a7300011a7e 0x11a7300011a7e,
  dm 0x23b0000023d 0x128f 0 0x11a7e00011a86,
  dm 0x23b0000023d 0x1290 0 0x18000000182,
  dm 0x23b0000023d 0x1291 0 0x18000000182,
  dm 0x23b0000023d 0x1292 0 0x18000000182,
  dm 0x23b0000023d 0x1293 0 0x18000000182,
  dm 0x23b0000023d no 0x11a8600011a91 0x11a8600011a91,
  dm 0x23b0000023d 0x1294 0 0x11a7e00011a86,
  dm 0x23b0000023d 0x1295 0 0x11a9100011a98,
  dm 0x2b1e00002b26 no 0x11a9800011aa7 0x11aa700011ab3,
  dm 0x2b1e00002b26 0x1296 0 0x11ab300011abc,
  dm 0x2700000027 0x1297 0 0x18000000182,
  dm 0x2700000027 0x1298 0 0x18000000182,
  dm 0x2700000027 0x1299 0 0x18000000182,
  dm 0x2700000027 0x129a 0 0x18000000182,
  dm 0x2a1000002a7 0x129b 0 0x18000000182,
  dm 0x2700000027 0x129c 0 0x18000000182,
  dm 0x2700000027 0x129d 0 0x18000000182,
  dm 0x2700000027 0x129e 0 0x18000000182,
  dm 0x2700000027 0x129f 0 0x18000000182,
  dm 0x2700000027 0x12a0 0 0x18000000182,
  dm 0x2700000027 0x12a1 0 0x18000000182,
  dm 0x23b0000023d 0x12a2 0 0x2700000027,
  dm 0 no 0 0x18000000182,
  dm 0 no 0 0x18000000182,
  dm 0 no 0 0x18000000182,
  dm 0x2700000027 0x12a7 0 0x61760000617d,
  dm 0x2700000027 no 0x11ad600011ae0 0x11ae000011ae7,
  dm 0x2700000027 0x12a8 0 0xde7d0000de7f,
  dm 0x2700000027 0x12a9 0 0xddda0000dddd,
  dm 0x2700000027 0x12aa 0 0x9ad000009ad3,
  dm 0x2700000027 0x12ab 0 0x11ae700011aea,
  dm 0x2700000027 0x12ac 0 0xd8380000d840,
  dm 0x2700000027 0x12ad 0 0xddef0000ddf2,
  dm 0x2700000027 0x12ae 0 0xde010000de04,
  dm 0x2700000027 0x12af 0 0x18000000182,
  dm 0x2700000027 0x12b0 0 0x11aea00011af2,
  dm 0x2700000027 0x12b1 0 0x11af200011af5,
  dm 0x2700000027 0x12b2 0 0x11af500011af7,
  dm 0x2700000027 0x12b3 0 0x11af700011afb,
  dm 0x2700000027 0x12b4 0 0x44c0000044f,
  dm 0x2700000027 0x12b5 0 0x11afb00011afe,
  dm 0x2700000027 0x12b6 0 0x11afe00011b01,
  dm 0x2700000027 0x12b7 0 0x11b0100011b04,
  dm 0x2700000027 0x12b8 0 0x11b0400011b0d,
  dm 0x2700000027 0x12b9 0 0x11b0d00011b10,
  dm 0x2700000027 0x12ba 0 0x1062e00010631,
  dm 0x2700000027 0x12bb 0 0x4c4c00004c4f,
  dm 0x2700000027 0x12bc 0 0x5f2d00005f30,
  dm 0x2700000027 0x12bd 0 0x11b1000011b18,
  dm 0x2700000027 0x12be 0 0xf1440000f147,
  dm 0x2700000027 0x12c0 0 0x11b1e00011b27,
  dm 0x2700000027 no 0x11b2700011b31 0x11b3100011b3a,
  dm 0x2700000027 no 0x11b3a00011b43 0x11b4300011b4d,
  dm 0 no 0 0x18000000182,
  dm 0 no 0 0x18000000182,
  dm 0x2700000027 no 0x11b5500011b5c 0x11b5c00011b63,
  dm 0x2700000027 no 0x11b6300011b6a 0x11b6a00011b71,
  dm 0x2700000027 no 0x11b7100011b78 0x11b7800011b7f,
  dm 0x2700000027 no 0x11b7f00011b86 0x11b8600011b8e,
  dm 0x2700000027 no 0x11b8e00011b95 0x11b9500011ba2,
  dm 0x2700000027 no 0x11ba200011ba9 0x11ba900011bb0,
  dm 0x2700000027 no 0x11bb000011bb7 0x11bb700011bbe,
  dm 0x2700000027 no 0x11bbe00011bc5 0x11bc500011bcc,
  dm 0x2700000027 no 0x11bcc00011bd3 0x11bd300011bda,
  dm 0x2700000027 0x12c4 0 0x11bda00011be1,
  dm 0x2700000027 no 0x11be100011be8 0x11be800011bf0,
  dm 0x2700000027 0x12c5 0 0x11bf000011bf7,
  dm 0x2700000027 no 0x11bf700011bfe 0x11bfe00011c05,
  dm 0x2700000027 no 0x11c0500011c0c 0x11c0c00011c13,
  dm 0x2700000027 no 0x11c1300011c1a 0x11c1a00011c21,
  dm 0x2700000027 no 0x11c2100011c28 0x11c2800011c2f,
  dm 0x2700000027 no 0x11c2f00011c36 0x11c3600011c3c,
  dm 0x2700000027 no 0x11c3c00011c43 0x11c4300011c49,
  dm 0x2700000027 no 0x11c4900011c50 0x11c5000011c56,
  dm 0x2700000027 no 0x11c5600011c5d 0x11c5d00011c63,
  dm 0x2700000027 no 0x11c6300011c6a 0x11c6a00011c71,
  dm 0x2700000027 no 0x11c7100011c78 0x11c7800011c7e,
  dm 0x2700000027 no 0x11c7e00011c85 0x11c8500011c8c,
  dm 0x2700000027 no 0x11c8c00011c93 0x11c9300011c9b,
  dm 0x2700000027 no 0x11c9b00011ca2 0x11ca200011caa,
  dm 0x2700000027 no 0x11caa00011cb1 0x11cb100011cb8,
  dm 0x2700000027 no 0x11cb800011cbf 0x11cbf00011cc7,
  dm 0x2700000027 no 0x11cc700011cce 0x11cce00011cd7,
  dm 0x2700000027 no 0x11cd700011cde 0x11cde00011ce4,
  dm 0x2700000027 no 0x11ce400011ceb 0x11ceb00011cf2,
  dm 0x2700000027 no 0x11cf200011cf9 0x11cf900011d00,
  dm 0x2700000027 no 0x11d0000011d07 0x11d0700011d0d,
  dm 0x2700000027 0x12c6 0 0x18000000182,
  dm 0 no 0 0x11d1900011d20,
  dm 0x2700000027 0x12c9 0 0x18000000182,
  dm 0x2700000027 0x12ca 0 0x11d2a00011d33,
  dm 0x2700000027 no 0x11d3300011d39 0x11d3900011d3f,
  dm 0x2700000027 no 0x11d3f00011d45 0x11d4500011d55,
  dm 0x2a1000002a7 0x12cb 0 0x18000000182,
  dm 0x2700000027 no 0x11d5b00011d63 0x11d6300011d65,
  dm 0x2700000027 0x12cd 0 0x11d6500011d6d,
  dm 0 no 0 0x18000000182,
  dm 0x2a1000002a7 no 0x11d7700011d87 0x11d8700011d98,
  dm 0x2a1000002a7 no 0x11d9800011da4 0x11da400011db0,
  dm 0x2a1000002a7 0x12d0 0 0x11db000011dbc,
  dm 0x2700000027 no 0x11dbc00011dc1 0x11dc100011dcc,
  dm 0x2700000027 0x12d1 0 0x11dcc00011dd4,
  dm 0x2700000027 0x12d2 0 0x11dcc00011dd4,
  dm 0x2700000027 0x12d3 0 0x11dd400011de2,
  dm 0x2700000027 0x12d4 0 0x11de200011deb,
  dm 0x2700000027 0x12d5 0 0x11deb00011df4,
  dm 0x2700000027 0x12d6 0 0x18000000182,
  dm 0x39a000003a7 0x12d7 0 0x18000000182,
  dm 0x23f00000249 0x12d9 0 0x11df800011e05,
  dm 0x2700000027 0x12da 0 0x11e0500011e1c,
  dm 0x2700000027 no 0x11e1c00011e2d 0x11e2d00011e3d,
  dm 0x2700000027 0x12db 0 0x11e3d00011e49,
  dm 0x2700000027 0x12dc 0 0x11e4900011e56,
  dm 0x2700000027 0x12dd 0 0x11e5600011e61,
  dm 0x2700000027 no 0x11e6100011e6c 0x11e6100011e6c,
  dm 0x2700000027 no 0x11e6c00011e7a 0x11e7a00011e89,
  dm 0x2700000027 0x12de 0 0x11e8900011e95,
  dm 0x2700000027 0x12df 0 0x11e9500011ea0,
  dm 0x2700000027 no 0x11ea000011ea9 0x11ea900011eb2,
  dm 0x23f00000249 0x12e0 0 0x11eb200011ebd,
  dm 0x23f00000249 0x12e1 0 0x11ebd00011ec9,
  dm 0x23f00000249 0x12e2 0 0x11ec900011ed2,
  dm 0x23f00000249 0x12e3 0 0x18000000182,
  dm 0x23f00000249 no 0x11ed200011ede 0x11ede00011eea,
  dm 0x2700000027 0x12e5 0 0x11eef00011efe,
  dm 0x2700000027 0x12e7 0 0x11f0200011f09,
  dm 0x2700000027 0x12e8 0 0x11f0900011f15,
  dm 0x2700000027 0x12e9 0 0x11f1500011f1e,
  dm 0x2700000027 0x12ea 0 0x11f1e00011f23,
  dm 0x2700000027 0x12eb 0 0x11f2300011f2c,
  dm 0x2700000027 0x12ec 0 0x11f2c00011f34,
  dm 0x2700000027 0x12ed 0 0x11f3400011f3e,
  dm 0x2700000027 no 0x11f3e00011f44 0x11f4400011f4f,
  dm 0x2700000027 0x12ee 0 0x11f4f00011f57,
  dm 0x2700000027 0x12ef 0 0x11f5700011f60,
  dm 0x2700000027 0x12f0 0 0x11f6000011f69,
  dm 0x2700000027 0x12f1 0 0x11f6900011f72,
  dm 0x2700000027 0x12f2 0 0x11f7200011f79,
  dm 0x2700000027 0x12f3 0 0x11f7900011f82,
  dm 0x2700000027 0x12f4 0 0x11f8200011f89,
  dm 0x2700000027 0x12f5 0 0x11f8900011f90,
  dm 0x2700000027 0x12f6 0 0x11f9000011f98,
  dm 0x2700000027 0x12f7 0 0x11f9800011fa4,
  dm 0x2700000027 0x12f8 0 0x11fa400011fac,
  dm 0x2700000027 0x12f9 0 0x11fac00011fb3,
  dm 0x2700000027 0x12fa 0 0x11fb300011fc0,
  dm 0x2700000027 0x12fb 0 0x11fc000011fc9,
  dm 0x2700000027 0x12fc 0 0x11fc900011fd2,
  dm 0x2700000027 0x12fd 0 0x11fd200011fe0,
  dm 0x2700000027 0x12fe 0 0x11fe000011fe8,
  dm 0x2700000027 0x12ff 0 0x4fd100004fd4,
  dm 0x2700000027 0x1300 0 0x84ff00008502,
  dm 0x2700000027 no 0x11fe800011ff2 0x11ff200011ff4,
  dm 0x2700000027 no 0x11ff400011ffa 0x11ffa00011ffd,
  dm 0x2700000027 0x1301 0 0x11ffd00012000,
  dm 0x2700000027 0x1302 0 0x1200000012007,
  dm 0x2700000027 0x1303 0 0x1200700012009,
  dm 0x2700000027 0x1304 0 0x120090001200b,
  dm 0x2700000027 no 0x1200b00012014 0x1201400012017,
  dm 0x2700000027 0x1305 0 0x114a3000114a5,
  dm 0x2700000027 0x1306 0 0x120090001200b,
  dm 0x2700000027 0x1307 0 0x120170001201d,
  dm 0x2700000027 0x1308 0 0x11ff200011ff4,
  dm 0x2700000027 0x1309 0 0x1200700012009,
  dm 0x2700000027 0x130a 0 0x1201d00012021,
  dm 0x2700000027 0x130b 0 0x1202100012023,
  dm 0x2700000027 0x130c 0 0x1202300012025,
  dm 0x2700000027 0x130d 0 0x120250001202d,
  dm 0x2700000027 no 0x1202d00012035 0x120350001203e,
  dm 0x2700000027 0x130e 0 0x1203e00012041,
  dm 0x2700000027 0x130f 0 0x1204100012044,
  dm 0x2700000027 0x1310 0 0x1204400012047,
  dm 0x2700000027 0x1311 0 0x120470001204a,
  dm 0x2700000027 0x1312 0 0x1204a0001204d,
  dm 0x2700000027 0x1313 0 0x1204d00012054,
  dm 0x2700000027 0x1314 0 0x120540001205b,
  dm 0x2700000027 0x1315 0 0x1205b00012062,
  dm 0x2700000027 0x1316 0 0x1206200012069,
  dm 0x2700000027 0x1317 0 0x1206900012070,
  dm 0x2700000027 0x1318 0 0x1207000012078,
  dm 0x2700000027 0x1319 0 0x120780001207f,
  dm 0x2700000027 0x131a 0 0x1207f0001208b,
  dm 0x2700000027 0x131b 0 0x1208b00012096,
  dm 0x2700000027 0x131c 0 0x1209600012099,
  dm 0x2700000027 0x131d 0 0x120990001209b,
  dm 0x2700000027 0x131e 0 0x1209b0001209e,
  dm 0x2700000027 no 0x1209e000120a5 0x120a5000120ad,
  dm 0x2700000027 no 0x120ad000120b4 0x120b4000120bb,
  dm 0x2700000027 no 0x120bb000120c1 0x120c1000120c3,
  dm 0x2700000027 no 0x120c3000120c9 0x120c9000120d0,
  dm 0x2700000027 no 0x120d0000120d6 0x72680000726f,
  dm 0x2700000027 no 0x120d6000120dc 0x120dc000120e2,
  dm 0x2700000027 no 0x120e2000120e8 0x120e8000120f2,
  dm 0x2700000027 no 0x120f2000120f8 0x120f800012102,
  dm 0x2700000027 no 0x1210200012108 0x1210800012110,
  dm 0x2700000027 no 0x1211000012116 0x121160001211f,
  dm 0x2700000027 no 0x1211f00012125 0x121250001212d,
  dm 0x2700000027 0x131f 0 0x1940000019b,
  dm 0x2700000027 0x1320 0 0x18000000182,
  dm 0x2700000027 0x1321 0 0x1212d00012137,
  dm 0x2700000027 no 0x1213700012143 0x1214300012154,
  dm 0x39a000003a7 no 0x121540001215f 0x1215f0001216b,
  dm 0x39a000003a7 no 0x1216b00012175 0x121750001217f,
  dm 0x39a000003a7 0x1322 0 0x1217f0001218f,
  dm 0x2a1000002a7 0x1323 0 0x1218f00012197,
  dm 0x2a1000002a7 0x1324 0 0x121970001219e,
  dm 0x2a1000002a7 0x1325 0 0x1219e000121a2,
  dm 0x2a1000002a7 0x1326 0 0x121a2000121a5,
  dm 0x2700000027 0x1327 0 0x121a5000121b1,
  dm 0x2700000027 0x1328 0 0x121b1000121b8,
  dm 0x2700000027 0x1329 0 0x18000000182,
  dm 0x39a000003a7 0x132a 0 0x18000000182,
  dm 0x2700000027 no 0x121be000121c4 0x121c4000121cf,
  dm 0x2700000027 0x132c 0 0x121cf000121d7,
  dm 0x2700000027 0x132d 0 0x121d7000121e0,
  dm 0x2700000027 0x132e 0 0x18000000182,
  dm 0x2700000027 no 0x121e6000121ed 0x121ed000121f4,
  dm 0x2700000027 0x1330 0 0x18000000182,
  dm 0x2700000027 0x1332 0 0x121f900012201,
  dm 0x2700000027 0x1333 0 0x122010001220a,
  dm 0x2700000027 0x1334 0 0x1220a0001220f,
  dm 0x2700000027 0x1335 0 0x1220f00012217,
  dm 0x2700000027 0x1336 0 0x18000000182,
  dm 0x2700000027 no 0x1221700012221 0x1222100012228,
  dm 0x2700000027 0x1337 0 0x1222800012230,
  dm 0x2700000027 0x1338 0 0x122300001223b,
  dm 0x2700000027 0x1339 0 0x1223b00012242,
  dm 0x2700000027 0x133a 0 0x1224200012246,
  dm 0x2700000027 no 0x1224600012252 0x74e2000074e8,
  dm 0x2700000027 0x133b 0 0x122520001225a,
  dm 0x2700000027 0x133c 0 0x1225a00012260,
  dm 0x2700000027 0x133d 0 0x1225a00012260,
  dm 0x2700000027 0x133e 0 0x1226000012265,
  dm 0x2700000027 0x133f 0 0x122650001226d,
  dm 0x2700000027 0x1340 0 0x122650001226d,
  dm 0x2700000027 0x1341 0 0x18000000182,
  dm 0x2700000027 no 0x1227900012283 0x122830001228d,
  dm 0x2700000027 no 0x1228d00012296 0x122960001229f,
  dm 0x2700000027 no 0x1229f000122a7 0x122a7000122ac,
  dm 0x2700000027 no 0x122ac000122b5 0x122b5000122bb,
  dm 0x2700000027 no 0x122bb000122c3 0x122c3000122c8,
  dm 0x2700000027 no 0x122c8000122cf 0x122cf000122d2,
  dm 0x2700000027 no 0x122d2000122e0 0x122e0000122eb,
  dm 0x2700000027 no 0x122eb000122f9 0x122f900012307,
  dm 0x2700000027 0x1343 0 0x1230700012314,
  dm 0x2700000027 no 0x123140001231f 0x1231f00012327,
  dm 0x2700000027 no 0x1232700012335 0x1233500012340,
  dm 0x2a1000002a7 no 0x123400001234b 0x1234b00012353,
  dm 0x2a1000002a7 no 0x1235300012359 0x123590001235c,
  dm 0x2700000027 0x1344 0 0x18000000182,
  dm 0x2700000027 0x1346 0 0x1236200012369,
  dm 0x2700000027 0x1347 0 0x18000000182,
  dm 0x2700000027 no 0x1236900012370 0x1237000012377,
  dm 0x2700000027 0x1348 0 0x123770001237e,
  dm 0x2700000027 no 0x1237e0001238a 0x1238a00012396,
  dm 0x2700000027 no 0x12396000123a0 0x123a0000123aa,
  dm 0x2700000027 0x1349 0 0x123aa000123b2,
  dm 0x2700000027 0x134a 0 0x50320000503a,
  dm 0x2700000027 0x134b 0 0x123b2000123bd,
  dm 0x2700000027 0x134c 0 0x123bd000123c5,
  dm 0x2700000027 0x134d 0 0x123c5000123ce,
  dm 0x2700000027 0x134e 0 0x123ce000123d5,
  dm 0x2700000027 0x134f 0 0x123d5000123dd,
  dm 0x2700000027 0x1350 0 0x18000000182,
  dm 0x2700000027 0x1351 0 0x18000000182,
  dm 0x2a1000002a7 no 0x123dd000123e8 0x123e8000123f4]

/-- `__dr_dm`, from item 6500 on (device_repo.go:8772-9271). -/
def drDm_13 : List ModelTuple := [
  dm 0x2a1000002a7 no 0x123f400012404 0x124040001240c,
  dm 0x2a1000002a7 0x1352 0 0x1240c00012415,
  dm 0 no 0 0x1241c00012426,
  dm 0x2700000027 0x1355 0 0x1242d00012437,
  dm 0x2700000027 0x1356 0 0x1243700012449,
  dm 0x2700000027 0x1358 0 0x2700000027,
  dm 0 no 0 0x18000000182,
  dm 0 no 0 0x7c3000007c8,
  dm 0 no 0 0x1245e00012464,
  dm 0 no 0 0x18000000182,
  dm 0x2700000027 0x135d 0 0x18000000182,
  dm 0xbf670000bf7c no 0x1247500012486 0x1248600012491,
  dm 0x2700000027 no 0x1249100012497 0x1249100012497,
  dm 0x2700000027 0x135f 0 0x18000000182,
  dm 0xc9b00000ca2 0x1361 0 0x1249d000124a1,
  dm 0x2a1000002a7 no 0x124a1000124ac 0x124ac000124c1,
  dm 0x2a1000002a7 0x1362 0 0x124c1000124ce,
  dm 0x2a1000002a7 no 0x124ce000124d7 0x124d7000124e4,
  dm 0x2a1000002a7 no 0x124e4000124eb 0x124eb00012503,
  dm 0x2a1000002a7 0x1363 0 0x1250300012510,
  dm 0x2a1000002a7 0x1364 0 0x125100001251d,
  dm 0x2a1000002a7 0x1365 0 0x1251d0001252b,
  dm 0x2a1000002a7 no 0x1252b00012533 0x1253300012538,
  dm 0x2a1000002a7 no 0x125380001253e 0x1253e0001254c,
  dm 0x2a1000002a7 0x1366 0 0x1254c00012558,
  dm 0x2a1000002a7 0x1367 0 0x125580001255f,
  dm 0x2a1000002a7 0x1368 0 0x1255f0001256e,
  dm 0x2a1000002a7 0x1369 0 0x1256e00012578,
  dm 0x2a1000002a7 0x136a 0 0x1257800012583,
  dm 0x2a1000002a7 no 0x125830001258b 0x1258b00012597,
  dm 0x2a1000002a7 no 0x125970001259f 0x1259f000125a5,
  dm 0x2a1000002a7 0x136b 0 0x125a5000125b5,
  dm 0x2a1000002a7 no 0x125b5000125bd 0x125bd000125c8,
  dm 0x2a1000002a7 no 0x125c8000125d0 0x125d0000125dc,
  dm 0x2a1000002a7 no 0x125dc000125e4 0x125e4000125f4,
  dm 0x2a1000002a7 0x136c 0 0x125f4000125ff,
  dm 0x2a1000002a7 no 0x125ff00012607 0x1260700012611,
  dm 0x2a1000002a7 no 0x126110001261e 0x1261e0001262a,
  dm 0x2a1000002a7 0x136d 0 0x1262a00012633,
  dm 0x2a1000002a7 0x136e 0 0x126330001263c,
  dm 0x2a1000002a7 0x136f 0 0x1263c00012642,
  dm 0x2a1000002a7 0x1370 0 0x126420001264d,
  dm 0x2a1000002a7 0x1371 0 0x1264d00012654,
  dm 0x2a1000002a7 0x1372 0 0x126540001265a,
  dm 0x2a1000002a7 no 0x1265a00012662 0x126620001266d,
  dm 0x2a1000002a7 0x1373 0 0x1266d00012679,
  dm 0x2a1000002a7 0x1374 0 0x1267900012683,
  dm 0x2a1000002a7 0x1375 0 0x126830001268e,
  dm 0x2a1000002a7 0x1376 0 0x1268e00012696,
  dm 0x2a1000002a7 0x1377 0 0x126960001269d,
  dm 0x2a1000002a7 0x1378 0 0x1269d000126a4,
  dm 0x2a1000002a7 0x1379 0 0x126a4000126aa,
  dm 0x2a1000002a7 0x137a 0 0x126aa000126b1,
  dm 0x2a1000002a7 0x137b 0 0x126b1000126b8,
  dm 0x2a1000002a7 0x137c 0 0x126b8000126c3,
  dm 0x2a1000002a7 no 0x126c3000126ca 0x126ca000126d1,
  dm 0x2a1000002a7 no 0x126d1000126d8 0x126d8000126e0,
  dm 0x2a1000002a7 0x137d 0 0x126e0000126e7,
  dm 0x2a1000002a7 0x137e 0 0x126e7000126fa,
  dm 0x2a1000002a7 0x137f 0 0x126fa00012709,
  dm 0x2a1000002a7 0x1380 0 0x1270900012715,
  dm 0x2a1000002a7 0x1381 0 0x1271500012720,
  dm 0x2a1000002a7 0x1382 0 0x1272000012733,
  dm 0x2a1000002a7 0x1383 0 0x1273300012742,
  dm 0x2a1000002a7 0x1384 0 0x1274200012750,
  dm 0x2a1000002a7 0x1385 0 0x1275000012756,
  dm 0x2a1000002a7 0x1386 0 0x127560001275c,
  dm 0x2a1000002a7 no 0x1275c00012763 0x1276300012772,
  dm 0x2a1000002a7 0x1387 0 0x1277200012777,
  dm 0x2a1000002a7 no 0x127770001277d 0x1277d00012785,
  dm 0x2a1000002a7 no 0x127850001278c 0x1278c00012792,
  dm 0x2a1000002a7 no 0x1279200012798 0x127980001279d,
  dm 0x2a1000002a7 0x1388 0 0x1279d000127ad,
  dm 0x2a1000002a7 0x1389 0 0x127ad000127bc,
  dm 0x2a1000002a7 no 0x127bc000127c3 0x127c3000127ce,
  dm 0x2a1000002a7 no 0x127ce000127d5 0x127d5000127df,
  dm 0x2a1000002a7 0x138a 0 0x127df000127e9,
  dm 0x2a1000002a7 0x138b 0 0x127e9000127fd,
  dm 0x2a1000002a7 0x138c 0 0x127fd0001280c,
  dm 0x2a1000002a7 0x138d 0 0x126960001269d,
  dm 0x2a1000002a7 0x138e 0 0x1280c00012812,
  dm 0x2a1000002a7 0x138f 0 0x1281200012820,
  dm 0x2a1000002a7 0x1390 0 0x128200001282e,
  dm 0x2a1000002a7 0x1391 0 0x1282e0001283f,
  dm 0x2a1000002a7 0x1392 0 0x1283f00012856,
  dm 0x2a1000002a7 0x1393 0 0x1285600012869,
  dm 0x2a1000002a7 0x1394 0 0x128690001287b,
  dm 0x2a1000002a7 0x1395 0 0x1287b00012888,
  dm 0x2a1000002a7 0x1396 0 0x1288800012892,
  dm 0x2a1000002a7 0x1397 0 0x128920001289e,
  dm 0x2a1000002a7 no 0x1289e000128a6 0x128a6000128b3,
  dm 0x2a1000002a7 0x1398 0 0x128b3000128c2,
  dm 0x2a1000002a7 0x1399 0 0x128c2000128d0,
  dm 0x2a1000002a7 0x139a 0 0x128d0000128d9,
  dm 0x2a1000002a7 no 0x128d9000128e1 0x128e1000128fd,
  dm 0x2a1000002a7 no 0x128fd00012904 0x129040001291e,
  dm 0x2a1000002a7 no 0x1291e00012925 0x129250001293b,
  dm 0x2a1000002a7 no 0x1293b00012944 0x1294400012956,
  dm 0x2a1000002a7 0x139b 0 0x129560001296b,
  dm 0x2a1000002a7 no 0x1296b0001297b 0x1297b00012997,
  dm 0x2a1000002a7 0x139c 0 0x12997000129a4,
  dm 0x2a1000002a7 0x139d 0 0x129a4000129ae,
  dm 0x2a1000002a7 0x139e 0 0x129ae000129c0,
  dm 0x2a1000002a7 0x139f 0 0x129c0000129d1,
  dm 0x2a1000002a7 0x13a0 0 0x129d1000129dc,
  dm 0x2a1000002a7 0x13a1 0 0x129dc000129e4,
  dm 0x2a1000002a7 no 0x129e4000129ec 0x129ec000129f3,
  dm 0x2a1000002a7 0x13a2 0 0x129f300012a00,
  dm 0x2a1000002a7 no 0x12a0000012a08 0x12a0800012a13,
  dm 0x2a1000002a7 no 0x12a1300012a1b 0x1264d00012654,
  dm 0x2a1000002a7 0x13a3 0 0x12a1b00012a1e,
  dm 0x2a1000002a7 0x13a4 0 0x12a1e00012a21,
  dm 0x2a1000002a7 0x13a5 0 0x12a2100012a2a,
  dm 0x2a1000002a7 0x13a6 0 0x129a4000129ae,
  dm 0x2a1000002a7 no 0x12a2a00012a32 0x12a3200012a3a,
  dm 0x2a1000002a7 no 0x12a3a00012a42 0x128c2000128d0,
  dm 0x2a1000002a7 0x13a7 0 0x12a4200012a4f,
  dm 0x2a1000002a7 0x13a8 0 0x12a4f00012a5b,
  dm 0x2a1000002a7 0x13a9 0 0x12a5b00012a61,
  dm 0x2a1000002a7 0x13aa 0 0x12a6100012a6f,
  dm 0x2a1000002a7 0x13ab 0 0x12a6f00012a7d,
  dm 0x2a1000002a7 0x13ac 0 0x12a7d00012a92,
  dm 0x2a1000002a7 0x13ad 0 0x12a9200012a9c,
  dm 0x2a1000002a7 0x13ae 0 0x12a9c00012aa7,
  dm 0x2a1000002a7 0x13af 0 0x18000000182,
  dm 0x2700000027 no 0x12aa700012aad 0x12aad00012ab7,
  dm 0x2700000027 no 0x12ab700012abd 0x12abd00012ac7,
  dm 0x2700000027 0x13b0 0 0x738b0000738e,
  dm 0x2700000027 0x13b1 0 0x116f5000116f7,
  dm 0x2700000027 0x13b2 0 0x196000001962,
  dm 0x2700000027 0x13b3 0 0x12ac700012aca,
  dm 0x2700000027 0x13b4 0 0x197700001979,
  dm 0x2700000027 0x13b5 0 0x12aca00012acc,
  dm 0x2700000027 0x13b6 0 0x1200700012009,
  dm 0x2700000027 no 0x44100000448 0x44100000448,
  dm 0x2700000027 no 0x12acc00012ad1 0x12ad100012ad9,
  dm 0x2700000027 0x13b7 0 0x12ad900012adf,
  dm 0x2700000027 no 0x12adf00012ae4 0x12ae400012aee,
  dm 0x2700000027 0x13b8 0 0x12aee00012af4,
  dm 0x2700000027 0x13b9 0 0x711e00007120,
  dm 0x2700000027 0x13ba 0 0x12af400012afb,
  dm 0x2700000027 0x13bb 0 0x12afb00012b03,
  dm 0x2700000027 0x13bc 0 0x12b0300012b0a,
  dm 0x2700000027 0x13bd 0 0x115ca000115cc,
  dm 0x2700000027 0x13be 0 0x12b0a00012b11,
  dm 0x2700000027 0x13bf 0 0x12b1100012b17,
  dm 0x2700000027 0x13c0 0 0x12b1700012b1f,
  dm 0x2700000027 0x13c1 0 0x12b1f00012b26,
  dm 0x2700000027 0x13c2 0 0x12b2600012b2d,
  dm 0x2700000027 0x13c3 0 0x114870001148a,
  dm 0x2700000027 0x13c4 0 0x12b2d00012b36,
  dm 0x2700000027 0x13c5 0 0x12b3600012b42,
  dm 0x2700000027 0x13c6 0 0x12b4200012b49,
  dm 0x2700000027 0x13c7 0 0x12b4900012b50,
  dm 0x2700000027 0x13c8 0 0x12b5000012b56,
  dm 0x2700000027 0x13c9 0 0x12b5600012b5d,
  dm 0x2700000027 0x13ca 0 0x12b5d00012b64,
  dm 0x2700000027 0x13cb 0 0x12b6400012b70,
  dm 0x2700000027 0x13cc 0 0x12b7000012b77,
  dm 0x2700000027 0x13cd 0 0x12b7700012b84,
  dm 0x2700000027 0x13ce 0 0x12b8400012b8d,
  dm 0x2700000027 0x13cf 0 0x12b8d00012b97,
  dm 0x2700000027 0x13d0 0 0x12b9700012ba3,
  dm 0x2700000027 0x13d1 0 0xafad0000afaf,
  dm 0x2700000027 0x13d2 0 0x12ba300012ba5,
  dm 0x2700000027 0x13d3 0 0x114f5000114f8,
  dm 0x2700000027 0x13d4 0 0xbc240000bc26,
  dm 0x2700000027 0x13d5 0 0x12ba500012ba8,
  dm 0x2700000027 0x13d6 0 0x12ba800012baf,
  dm 0x2700000027 0x13d7 0 0x12baf00012bb7,
  dm 0x2700000027 0x13d8 0 0x12bb700012bbf,
  dm 0x2700000027 0x13d9 0 0x12bbf00012bcc,
  dm 0x2700000027 0x13da 0 0x12bcc00012bd3,
  dm 0x2700000027 0x13db 0 0x12bd300012bd9,
  dm 0x2700000027 0x13dc 0 0x12bd900012bdf,
  dm 0x2700000027 0x13dd 0 0x12bdf00012be8,
  dm 0x2700000027 0x13de 0 0x12be800012bef,
  dm 0x2700000027 0x13df 0 0x12bef00012bfb,
  dm 0x2700000027 0x13e0 0 0x12bfb00012bfe,
  dm 0x2700000027 0x13e1 0 0x12bfe00012c00,
  dm 0x2700000027 0x13e2 0 0x12c0000012c06,
  dm 0x2700000027 0x13e3 0 0x12c0600012c0f,
  dm 0x2700000027 0x13e4 0 0x12c0f00012c15,
  dm 0x2700000027 0x13e5 0 0x12c1500012c1e,
  dm 0x2700000027 0x13e6 0 0x12c1e00012c26,
  dm 0x2700000027 0x13e7 0 0xaf2e0000af34,
  dm 0x2700000027 0x13e8 0 0x12c2600012c2f,
  dm 0x2700000027 0x13e9 0 0x193300001935,
  dm 0x2700000027 0x13ea 0 0x12c2f00012c35,
  dm 0x2700000027 0x13eb 0 0x12c3500012c39,
  dm 0x2700000027 0x13ec 0 0x12c3900012c42,
  dm 0x2700000027 0x13ed 0 0x18000000182,
  dm 0x2a1000002a7 0x13ee 0 0x12c4200012c4c,
  dm 0x2a1000002a7 0x13ef 0 0x12c4c00012c5c,
  dm 0x2700000027 no 0x12c5c00012c64 0x12c6400012c67,
  dm 0x2700000027 no 0x12c6700012c6f 0x12c6f00012c74,
  dm 0x2700000027 0x13f0 0 0x12c7400012c7b,
  dm 0x2700000027 0x13f1 0 0x114a3000114a5,
  dm 0x2700000027 no 0x12c7b00012c83 0x12c8300012c8a,
  dm 0x2b1e00002b26 no 0x12c8a00012c92 0x12c9200012c9d,
  dm 0x7cc000007d6 no 0x12c9d00012ca4 0x12ca400012caf,
  dm 0x7cc000007d6 no 0x12caf00012cbb 0x12cbb00012cc8,
  dm 0xc9b00000ca2 0x13f2 0 0x12cc800012cda,
  dm 0xc9b00000ca2 0x13f3 0 0x12cda00012cec,
  dm 0xc9b00000ca2 0x13f4 0 0x12cec00012cfb,
  dm 0xc9b00000ca2 0x13f5 0 0x12cfb00012d10,
  dm 0xc9b00000ca2 0x13f6 0 0x12d1000012d21,
  dm 0x2a1000002a7 0x13f7 0 0x108d00001093,
  dm 0x2700000027 0x13f8 0 0x18000000182,
  dm 0x2700000027 0x13f9 0 0x18000000182,
  dm 0x2700000027 no 0x12d2700012d30 0x12d3000012d3a,
  dm 0x2700000027 no 0x12d3a00012d44 0x12d4400012d4f,
  dm 0x2700000027 no 0x12d4f00012d58 0x12d5800012d64,
  dm 0x2700000027 no 0x12d6400012d71 0x12d6400012d71,
  dm 0x2a1000002a7 0x13fb 0 0x12d7100012d7d,
  dm 0x2a1000002a7 0x13fc 0 0x12d7d00012d86,
  dm 0x2a1000002a7 no 0x12d8600012d8e 0x12d8e00012d9a,
  dm 0x39a000003a7 0x13fe 0 0x18000000182,
  dm 0x2700000027 no 0x12da100012da6 0x12da100012da6,
  dm 0x2700000027 0x13ff 0 0x12da600012dad,
  dm 0x2700000027 0x1400 0 0x18000000182,
  dm 0 no 0 0x12db200012dba,
  dm 0x2a1000002a7 0x1403 0 0x4fd100004fd4,
  dm 0x2700000027 no 0x12dc000012dc4 0x12dc400012dc8,
  dm 0x2700000027 no 0x12dc800012dcc 0x12dcc00012dd1,
  dm 0x2700000027 no 0x12dd100012dd5 0x12dd500012ddc,
  dm 0x2700000027 no 0x12ddc00012de0 0x12de000012de6,
  dm 0x2700000027 no 0x12de600012def 0x12def00012df8,
  dm 0x2700000027 no 0x12df800012dfc 0x12dfc00012e04,
  dm 0x2700000027 no 0x12e0400012e08 0x12e0800012e0e,
  dm 0x2700000027 no 0x12e0e00012e12 0x12e1200012e19,
  dm 0x2700000027 no 0x12e1900012e1d 0x12e1d00012e22,
  dm 0x2700000027 no 0x12e2200012e26 0x12e2600012e2d,
  dm 0x2a1000002a7 0x1404 0 0x12e2d00012e36,
  dm 0x2a1000002a7 0x1405 0 0x12e3600012e3b,
  dm 0x2700000027 no 0x12e3b00012e46 0x12e4600012e51,
  dm 0x2700000027 0x1406 0 0x18000000182,
  dm 0x2700000027 no 0x12e5900012e61 0x12e6100012e72,
  dm 0x2700000027 no 0x12e7200012e7a 0x12e7a00012e80,
  dm 0x2700000027 no 0x12e8000012e88 0x12e8800012e97,
  dm 0x2700000027 no 0x12e9700012e9f 0x12e9f00012eaa,
  dm 0x2700000027 no 0x12eaa00012eb2 0x12eb200012ebf,
  dm 0x2700000027 no 0x12ebf00012ec7 0x12ec700012ee0,
  dm 0x2700000027 no 0x12ee000012ee8 0x12ee800012ef7,
  dm 0x2700000027 no 0x12ef700012eff 0x12eff00012f09,
  dm 0x2700000027 no 0x12f0900012f11 0x12f1100012f1e,
  dm 0x2700000027 no 0x12f1e00012f26 0x12f2600012f35,
  dm 0x2700000027 0x1408 0 0x12f3500012f41,
  dm 0x2700000027 no 0x12f4100012f49 0x12f4900012f57,
  dm 0x2700000027 no 0x12f5700012f5f 0x12f5f00012f6b,
  dm 0x2700000027 no 0x12f6b00012f73 0x12f7300012f82,
  dm 0x2700000027 no 0x12f8200012f8a 0x12f8a00012f9b,
  dm 0x2700000027 no 0x12f9b00012fa3 0x12fa300012fac,
  dm 0x2700000027 no 0x12fac00012fb6 0x12fb600012fc3,
  dm 0x2700000027 no 0x12fc300012fcd 0x12fcd00012fe2,
  dm 0x2700000027 no 0x12fe200012fec 0x12fec00012ff8,
  dm 0x2700000027 no 0x12ff800013002 0x130020001301c,
  dm 0x2700000027 no 0x1301c00013024 0x130240001302a,
  dm 0x2700000027 no 0x1302a00013032 0x130320001303a,
  dm 0x2700000027 0x1409 0 0x18000000182,
  dm 0 no 0 0x18000000182,
  dm 0x2700000027 no 0x1304e00013058 0x1305800013062,
  dm 0x2700000027 0x140d 0 0x18000000182,
  dm 0x2a1000002a7 0x140f 0 0x1306800013074,
  dm 0x2a1000002a7 no 0x130740001307b 0x130740001307b,
  dm 0x2700000027 no 0x1307b00013084 0x1307b00013084,
  dm 0x2700000027 no 0x130840001308f 0x130840001308f,
  dm 0x2700000027 0x1410 0 0x1308f00013097,
  dm 0x2700000027 0x1412 0 0x18000000182,
  dm 0x2700000027 0x1413 0 0x18000000182,
  dm 0 no 0 0x130a4000130a9,
  dm 0x2700000027 0x1416 0 0x18000000182,
  dm 0x2700000027 0x1417 0 0x18000000182,
  dm 0 no 0 0x130b4000130bd,
  dm 0x2700000027 no 0x130c2000130cb 0x130c2000130cb,
  dm 0x2700000027 0x141b 0 0x130d0000130d8,
  dm 0x2700000027 no 0x130d8000130e1 0x130e1000130ea,
  dm 0x2700000027 0x141c 0 0x4fe400004feb,
  dm 0x2700000027 0x141d 0 0x18000000182,
  dm 0x2700000027 0x141e 0 0x130ea000130f3,
  dm 0x2700000027 0x141f 0 0x18000000182,
  dm 0x2700000027 0x1420 0 0x18000000182,
  dm 0x2700000027 0x1422 0 0x131030001310f,
  dm 0x2700000027 no 0x1310f0001311c 0x1310f0001311c,
  dm 0x2a1000002a7 no 0x1311c0001312a 0x1311c0001312a,
  dm 0x2a1000002a7 no 0x1312a00013138 0x1312a00013138,
  dm 0x2700000027 no 0x1313f0001314c 0x1314c0001315c,
  dm 0x2700000027 0x1424 0 0x1315c00013165,
  dm 0x2700000027 0x1425 0 0x1316500013171,
  dm 0x2700000027 0x1426 0 0x131710001317a,
  dm 0x2700000027 0x1427 0 0x1317a0001318c,
  dm 0x2700000027 0x1428 0 0x1318c0001319a,
  dm 0x2700000027 no 0x1319a000131a3 0x131a3000131ad,
  dm 0x2700000027 0x1429 0 0x131ad000131be,
  dm 0x2700000027 no 0x131be000131cf 0x131cf000131e1,
  dm 0x2700000027 no 0x131e1000131ea 0x131ea000131f9,
  dm 0x2700000027 0x142a 0 0x131f900013206,
  dm 0x23f00000249 0x142b 0 0x132060001320e,
  dm 0x2700000027 0x142c 0 0x1320e0001321a,
  dm 0x23f00000249 0x142d 0 0x1321a00013224,
  dm 0x2700000027 0x142e 0 0x1322400013232,
  dm 0x2700000027 0x142f 0 0x1322400013232,
  dm 0x2700000027 0x1430 0 0x18000000182,
  dm 0x2700000027 no 0x132320001323b 0x132320001323b,
  dm 0x23f00000249 0x1431 0 0x1323b00013243,
  dm 0x23f00000249 0x1432 0 0x1324300013251,
  dm 0x23f00000249 0x1433 0 0x132510001325a,
  dm 0x2700000027 0x1434 0 0x1325a00013267,
  dm 0x2700000027 0x1435 0 0x1326700013270,
  dm 0x23f00000249 no 0x1327000013274 0x1327000013274,
  dm 0x23f00000249 no 0x1327400013278 0x1327400013278,
  dm 0x23f00000249 no 0x1327800013283 0x1327800013283,
  dm 0x23f00000249 no 0x132830001328b 0x132830001328b,
  dm 0x23f00000249 no 0x1328b00013294 0x1328b00013294,
  dm 0x23f00000249 no 0x1329400013299 0x132990001329e,
  dm 0x23f00000249 no 0x1329e000132a7 0x1329e000132a7,
  dm 0x23f00000249 no 0x132a7000132ac 0x132ac000132b1,
  dm 0x23f00000249 no 0x132b1000132b8 0x132b1000132b8,
  dm 0x23f00000249 no 0x132b8000132bf 0x132b8000132bf,
  dm 0x23f00000249 no 0x132bf000132c6 0x132bf000132c6,
  dm 0x23f00000249 no 0x132c6000132ce 0x132c6000132ce,
  dm 0x23f00000249 no 0x132ce000132d6 0x132ce000132d6,
  dm 0x23f00000249 0x1436 0 0x132d6000132e0,
  dm 0x23f00000249 0x1437 0 0x132e0000132e8,
  dm 0x23f00000249 0x1438 0 0x132e8000132f0,
  dm 0x23f00000249 0x1439 0 0x132f0000132fa,
  dm 0x23f00000249 0x143a 0 0x132fa00013301,
  dm 0x23f00000249 0x143b 0 0x133010001330a,
  dm 0x23f00000249 0x143c 0 0x1330a00013311,
  dm 0x23f00000249 0x143d 0 0x133110001331a,
  dm 0x23f00000249 0x143e 0 0x1331a00013320,
  dm 0x23f00000249 no 0x1332000013327 0x1332000013327,
  dm 0x23f00000249 0x143f 0 0x133270001332d,
  dm 0x23f00000249 0x1440 0 0x1332d00013335,
  dm 0x23f00000249 0x1441 0 0x1333500013341,
  dm 0x23f00000249 0x1442 0 0x133410001334a,
  dm 0x23f00000249 0x1443 0 0x1334a00013353,
  dm 0x23f00000249 0x1444 0 0x133530001335a,
  dm 0x23f00000249 0x1445 0 0x1335a00013366,
  dm 0x23f00000249 0x1446 0 0x133660001336e,
  dm 0x23f00000249 0x1447 0 0x132e8000132f0,
  dm 0x23f00000249 no 0x1336e0001337a 0x1337a00013387,
  dm 0x23f00000249 no 0x1338700013391 0x133910001339c,
  dm 0x23f00000249 0x1448 0 0x1339c000133a1,
  dm 0 no 0 0x133ae000133b5,
  dm 0x2700000027 0x144b 0 0x133bb000133c0,
  dm 0 no 0 0x18000000182,
  dm 0 no 0 0x18000000182,
  dm 0 no 0 0x18000000182,
  dm 0x2700000027 0x1450 0 0x558300005589,
  dm 0x2700000027 0x1451 0 0x133d8000133df,
  dm 0x2700000027 0x1452 0 0x133df000133e2,
  dm 0x2700000027 0x1453 0 0x133e2000133e9,
  dm 0x2700000027 0x1455 0 0x18000000182,
  dm 0x2700000027 0x1456 0 0x18000000182,
  dm 0 no 0 0x18000000182,
  dm 0x2700000027 0x145a 0 0x54f0000054f7,
  dm 0x2700000027 no 0x133ff00013405 0x134050001340c,
  dm 0x2700000027 0x145b 0 0x1340c00013412,
  dm 0x2700000027 no 0x134120001341b 0x1341b00013425,
  dm 0x2700000027 0x145c 0 0x18000000182,
  dm 0x2700000027 0x145d 0 0x18000000182,
  dm 0x2700000027 no 0x1343100013438 0x134380001343f,
  dm 0x2700000027 0x145f 0 0x1343f00013448,
  dm 0x2700000027 0x1460 0 0x1344800013452,
  dm 0x2700000027 0x1461 0 0x134520001345b,
  dm 0x2700000027 0x1462 0 0x1345b00013465,
  dm 0x2700000027 no 0x1346500013469 0x134690001346e,
  dm 0x2700000027 no 0x1346e00013474 0x1346e00013474,
  dm 0x2700000027 no 0x134740001347a 0x134740001347a,
  dm 0x2700000027 no 0x1347a0001347f 0x1347f00013485,
  dm 0x2700000027 0x1463 0 0x134850001348e,
  dm 0x2700000027 no 0x134940001349d 0x1349d000134a2,
  dm 0x2a1000002a7 0x1465 0 0x134a2000134aa,
  dm 0x2700000027 0x1466 0 0x18000000182,
  dm 0x2700000027 no 0x134b3000134ba 0x134ba000134bf,
  dm 0x2700000027 no 0x134bf000134c5 0x134c5000134c9,
  dm 0x2700000027 no 0x134c9000134d0 0x134d0000134d5,
  dm 0x2700000027 no 0x134da000134e0 0xff400000ff43,
  dm 0x2700000027 no 0x134e0000134e6 0x134e6000134ea,
  dm 0x2700000027 no 0x134ea000134f0 0x134f0000134f5,
  dm 0x2700000027 no 0x134f5000134fb 0x134fb00013502,
  dm 0x2700000027 no 0x1350200013508 0x1350800013511,
  dm 0x2700000027 no 0x1351100013517 0x135170001351b,
  dm 0x2700000027 no 0x1351b00013521 0x1352100013529,
  dm 0x2700000027 no 0x135290001352f 0x113990001139e,
  dm 0x2700000027 no 0x1352f00013535 0x135350001353e,
  dm 0x2700000027 no 0x1353e00013544 0x1354400013548,
  dm 0x2700000027 no 0x135480001354e 0x1354e0001355a,
  dm 0x2700000027 no 0x1355a00013560 0x1356000013565,
  dm 0x2700000027 no 0x135650001356b 0x1356b00013572,
  dm 0x2700000027 no 0x1357200013578 0x135780001357d,
  dm 0x2700000027 no 0x1357d00013585 0x135850001358c,
  dm 0x2700000027 no 0x1358c00013593 0x135930001359a,
  dm 0x2700000027 no 0x1359a000135a0 0x135a0000135ab,
  dm 0x2700000027 no 0x135ab000135b1 0xe9cb0000e9d1,
  dm 0x2700000027 no 0x135b1000135b7 0x135b7000135c0,
  dm 0x2700000027 no 0x135c0000135c8 0x135c8000135cc,
  dm 0x2700000027 no 0x135cc000135d2 0x135d2000135da,
  dm 0x2700000027 0x1469 0 0x135da000135e3,
  dm 0x2700000027 no 0x135e3000135e9 0x135e9000135f1,
  dm 0x2700000027 0x146a 0 0x4de300004de6,
  dm 0x2700000027 0x146b 0 0x84ff00008502,
  dm 0 no 0 0x18000000182,
  dm 0 no 0 0x18000000182,
  dm 0x2700000027 0x146f 0 0x18000000182,
  dm 0x2700000027 no 0x135fe00013603 0x136030001360d,
  dm 0x2700000027 0x1470 0 0x1360d00013618,
  dm 0x39a000003a7 0x1471 0 0x18000000182,
  dm 0 no 0 0x18000000182,
  dm 0 no 0 0x18000000182,
  dm 0 no 0 0x18000000182,
  dm 0x2700000027 0x1477 0 0x1362f00013636,
  dm 0x2700000027 no 0x136360001363e 0x136360001363e,
  dm 0x2700000027 no 0x1363e00013647 0x1363e00013647,
  dm 0x2700000027 0x1478 0 0x136470001364c,
  dm 0x2700000027 0x1479 0 0x1ea500001ea7,
  dm 0x2700000027 0x147b 0 0x18000000182,
  dm 0x2700000027 0x147c 0 0x18000000182,
  dm 0 no 0 0x18000000182,
  dm 0 no 0 0x5ec900005ed2,
  dm 0 no 0 0x18000000182,
  dm 0 no 0 0x18000000182,
  dm 0x2700000027 0x1482 0 0x18000000182,
  dm 0x2700000027 0x1483 0 0x1366700013675,
  dm 0 no 0 0x18000000182,
  dm 0x2700000027 0x1486 0 0x18000000182,
  dm 0x2700000027 0x1487 0 0x18000000182,
  dm 0x2700000027 0x1489 0 0x18000000182,
  dm 0x2700000027 0x148a 0 0x18000000182,
  dm 0x2700000027 0x148c 0 0x1368700013693,
  dm 0x2700000027 0x148d 0 0x136930001369d,
  dm 0x2700000027 0x148e 0 0x1369d000136a8,
  dm 0x2a1000002a7 0x148f 0 0x136a8000136b0,
  dm 0x2a1000002a7 0x1490 0 0x136b0000136be,
  dm 0x2a1000002a7 0x1491 0 0x136be000136cd,
  dm 0x2a1000002a7 0x1492 0 0x136cd000136d7,
  dm 0x2a1000002a7 0x1493 0 0x136d7000136e8,
  dm 0x2a1000002a7 0x1494 0 0x136e8000136f8,
  dm 0x2a1000002a7 0x1495 0 0x136f800013707,
  dm 0x2700000027 0x1496 0 0x137070001370f,
  dm 0x2700000027 0x1497 0 0x1370f0001371e,
  dm 0x2700000027 0x1498 0 0x1371e0001372b,
  dm 0x2700000027 0x1499 0 0x1372b00013733,
  dm 0x2700000027 0x149a 0 0x137330001373b,
  dm 0x2700000027 0x149b 0 0x1373b00013746,
  dm 0x2700000027 0x149c 0 0x1374600013752,
  dm 0x2700000027 0x149d 0 0x137520001375e,
  dm 0x2700000027 0x149e 0 0x1375e0001376d,
  dm 0x2700000027 0x149f 0 0x1376d00013777,
  dm 0x2700000027 0x14a0 0 0x137770001377f,
  dm 0x2700000027 0x14a1 0 0x1377f00013792,
  dm 0x2a1000002a7 0x14a2 0 0x137920001379c,
  dm 0x2a1000002a7 0x14a3 0 0x1379c000137a8,
  dm 0x2a1000002a7 0x14a4 0 0x137a8000137b6,
  dm 0x2a1000002a7 0x14a5 0 0x137b6000137bc,
  dm 0x2a1000002a7 0x14a6 0 0x137bc000137c5,
  dm 0x2700000027 0x14a7 0 0x137c5000137d3,
  dm 0x2700000027 0x14a8 0 0x137d3000137de,
  dm 0x2700000027 0x14a9 0 0x137de000137e6,
  dm 0x2a1000002a7 0x14aa 0 0x137e6000137ee,
  dm 0x2a1000002a7 0x14ab 0 0x137ee000137fd,
  dm 0x2a1000002a7 0x14ac 0 0x137fd00013805,
  dm 0x2700000027 0x14ad 0 0x138050001380d,
  dm 0x2700000027 0x14ae 0 0x1380d0001380f,
  dm 0x2700000027 0x14af 0 0x1380f00013818,
  dm 0x2700000027 0x14b0 0 0x138180001381d,
  dm 0x2700000027 0x14b1 0 0x1381d00013826,
  dm 0x2700000027 0x14b2 0 0x138260001382c,
  dm 0x2700000027 0x14b3 0 0x1382c00013835,
  dm 0x2700000027 0x14b4 0 0x138350001383c,
  dm 0x2700000027 0x14b5 0 0x1383c00013843,
  dm 0x2a1000002a7 0x14b6 0 0x1384300013850,
  dm 0x2a1000002a7 0x14b7 0 0x1385000013858,
  dm 0x2700000027 0x14b8 0 0x9ca200009cac,
  dm 0x2700000027 0x14b9 0 0x138580001385f,
  dm 0x2700000027 0x14ba 0 0x1385f00013864,
  dm 0x2a1000002a7 0x14bb 0 0x138640001386c,
  dm 0x2a1000002a7 0x14bc 0 0x1386c00013876,
  dm 0x2700000027 0x14bd 0 0x138760001387b,
  dm 0x2700000027 0x14be 0 0xb51b0000b520,
  dm 0xdfd00000e04 0x14bf 0 0x1387b00013884,
  dm 0x2700000027 0x14c0 0 0x1388400013889,
  dm 0x2700000027 0x14c1 0 0x1388900013890,
  dm 0x2700000027 0x14c2 0 0x1389000013898,
  dm 0x2700000027 0x14c3 0 0x138980001389e,
  dm 0x2700000027 0x14c4 0 0x1389e000138ad,
  dm 0x2700000027 0x14c5 0 0x138ad000138c1,
  dm 0x2a1000002a7 0x14c6 0 0x138c1000138d2,
  dm 0x2700000027 0x14c7 0 0x138d2000138d8,
  dm 0 no 0 0x18000000182,
  dm 0 no 0 0x18000000182,
  dm 0x2700000027 0x14cb 0 0x138e8000138f0,
  dm 0x2700000027 no 0xd1cb0000d1d7 0xd1cb0000d1d7,
  dm 0xc9b00000ca2 0x14cc 0 0x18000000182,
  dm 0x2700000027 no 0x138f800013903 0x138f800013903,
  dm 0x2700000027 0x14cf 0 0x18000000182,
  dm 0x2a1000002a7 0x14d0 0 0x18000000182,
  dm 0x2700000027 0x14d1 0 0x1390300013910,
  dm 0x2700000027 0x14d2 0 0x139100001391f]

/-- `__dr_dm`, from item 7000 on (device_repo.go:9272-9771). -/
def drDm_14 : List ModelTuple := [
  dm 0x2700000027 0x14d3 0 0x1391f0001392e,
  dm 0x2700000027 0x14d4 0 0x1392e0001393c,
  dm 0x2700000027 no 0x1393c00013946 0x1394600013950,
  dm 0x2700000027 no 0x139500001395b 0x1395b00013966,
  dm 0x2700000027 no 0x139660001396f 0x139660001396f,
  dm 0x2700000027 0x14d5 0 0x1396f0001397b,
  dm 0x2700000027 0x14d6 0 0x1397b0001398a,
  dm 0x2700000027 0x14d7 0 0x1398a00013997,
  dm 0x2700000027 0x14d8 0 0x13997000139a5,
  dm 0x23b0000023d 0x14d9 0 0x139a5000139b2,
  dm 0x23b0000023d 0x14da 0 0x139b2000139b7,
  dm 0x23b0000023d no 0x139b7000139bf 0x139bf000139d1,
  dm 0x23b0000023d 0x14db 0 0x18000000182,
  dm 0x2700000027 0x14dd 0 0x139d4000139dc,
  dm 0x2700000027 0x14de 0 0x139dc000139e8,
  dm 0x2700000027 no 0x139e8000139f2 0x139f2000139fc,
  dm 0x2700000027 0x14df 0 0x139fc00013a09,
  dm 0x2700000027 no 0x13a0900013a0f 0x13a0f00013a16,
  dm 0x2700000027 no 0x13a1600013a1c 0x13a1c00013a23,
  dm 0x2700000027 no 0x13a2300013a29 0x13a2900013a36,
  dm 0x2a1000002a7 no 0x13a3600013a3f 0x13a3f00013a45,
  dm 0x2700000027 0x14e0 0 0x13a4500013a4b,
  dm 0 no 0 0xe3400000e3c,
  dm 0 no 0 0x13a6b00013a74,
  dm 0 no 0 0x13a7a00013a84,
  dm 0x2700000027 no 0x13a8800013a91 0x13a9100013a9b,
  dm 0x2700000027 0x14e3 0 0x18000000182,
  dm 0x2700000027 0x14e4 0 0x13aab00013ab9,
  dm 0x2700000027 no 0x13ab900013ac6 0x13ac600013acc,
  dm 0x2700000027 no 0x13acc00013ad9 0x62270000622d,
  dm 0x2700000027 no 0x13ae100013ae7 0x13ae700013aee,
  dm 0x2700000027 0x14e6 0 0x13aee00013af3,
  dm 0x2700000027 no 0x13af300013afb 0x13afb00013b04,
  dm 0x2700000027 0x14e8 0 0x13b0a00013b12,
  dm 0x2700000027 0x14e9 0 0x13b1200013b1d,
  dm 0x2700000027 0x14eb 0 0x13b2500013b29,
  dm 0x2700000027 0x14ec 0 0x13b2900013b2c,
  dm 0x2700000027 0x14ed 0 0x13b2c00013b38,
  dm 0x2700000027 0x14ee 0 0x13b3800013b40,
  dm 0x2700000027 0x14ef 0 0x13b4000013b48,
  dm 0x2a1000002a7 0x14f0 0 0x13b4800013b56,
  dm 0x2a1000002a7 0x14f1 0 0x13b5600013b60,
  dm 0x2a1000002a7 no 0x13b6000013b67 0x13b6700013b73,
  dm 0x2a1000002a7 no 0x13b7300013b7a 0x13b7a00013b81,
  dm 0x2a1000002a7 0x14f2 0 0x13b8100013b86,
  dm 0x2a1000002a7 0x14f3 0 0x13b8100013b86,
  dm 0x2700000027 0x14f4 0 0x18000000182,
  dm 0x2700000027 0x14f5 0 0x18000000182,
  dm 0x2700000027 0x14f6 0 0x13b8600013b8e,
  dm 0x2700000027 0x14f7 0 0x13b8600013b8e,
  dm 0 no 0 0x18000000182,
  dm 0x39a000003a7 no 0x13b9900013ba9 0x13ba900013bb3,
  dm 0x2700000027 0x14fa 0 0x18000000182,
  dm 0x2700000027 0x14fc 0 0x18000000182,
  dm 0x2700000027 0x14fd 0 0x18000000182,
  dm 0x2a1000002a7 0x14ff 0 0x18000000182,
  dm 0x2700000027 no 0x13bc700013bcf 0x13bcf00013bd7,
  dm 0x2700000027 no 0x13bd700013bdf 0x13bdf00013be7,
  dm 0x2700000027 no 0x13be700013bef 0x13bef00013bf5,
  dm 0x2700000027 no 0x13bf500013bfd 0x13bfd00013c04,
  dm 0x2700000027 no 0x13c0400013c0c 0x13c0c00013c17,
  dm 0x2700000027 no 0x13c1700013c1f 0x13c1f00013c26,
  dm 0x2700000027 no 0x13c2600013c2e 0x13c2e00013c35,
  dm 0x2700000027 no 0x13c3500013c3d 0x13c3d00013c48,
  dm 0x2700000027 0x1500 0 0x18000000182,
  dm 0x23b0000023d 0x1501 0 0x18000000182,
  dm 0 no 0 0x18000000182,
  dm 0 no 0 0x18000000182,
  dm 0x2a1000002a7 0x1505 0 0x13c5900013c5e,
  dm 0x2700000027 0x1506 0 0x13c5900013c5e,
  dm 0 no 0 0x18000000182,
  dm 0x2700000027 0x1509 0 0x13c6a00013c6f,
  dm 0x2700000027 0x150a 0 0x18000000182,
  dm 0x2700000027 0x150c 0 0x13c7600013c82,
  dm 0x2700000027 0x150d 0 0x13c8200013c89,
  dm 0x2700000027 0x150e 0 0x13c8900013c8e,
  dm 0x2700000027 0x150f 0 0x18000000182,
  dm 0x2a1000002a7 0x1510 0 0x13c8e00013c97,
  dm 0x2a1000002a7 0x1511 0 0x13c9700013ca2,
  dm 0x2a1000002a7 0x1512 0 0x13ca200013cab,
  dm 0x2a1000002a7 no 0x13cab00013cb5 0x13cb500013cc1,
  dm 0x2a1000002a7 0x1513 0 0x13cc100013ccc,
  dm 0x2a1000002a7 0x1514 0 0x4c4300004c49,
  dm 0x2700000027 0x1515 0 0x18000000182,
  dm 0x2700000027 no 0x13cd400013cdb 0x13cdb00013ce9,
  dm 0x23b0000023d 0x1517 0 0x18000000182,
  dm 0x2700000027 0x1519 0 0x18000000182,
  dm 0x2a1000002a7 0x151a 0 0x18000000182,
  dm 0 no 0 0x18000000182,
  dm 0x23f00000249 no 0x13cfe00013d0c 0x13d0c00013d13,
  dm 0x2700000027 0x151d 0 0x18000000182,
  dm 0x2700000027 0x151e 0 0x13d1300013d1a,
  dm 0 no 0 0x18000000182,
  dm 0x2700000027 0x1521 0 0x1940000019b,
  dm 0x2700000027 0x1522 0 0x13d2800013d31,
  dm 0x2700000027 0x1523 0 0x13d3100013d35,
  dm 0x2700000027 0x1524 0 0x18000000182,
  dm 0x2700000027 0x1525 0 0x13d3500013d3b,
  dm 0x2700000027 no 0x13d3b00013d47 0x13d3b00013d47,
  dm 0 no 0 0x18000000182,
  dm 0x2700000027 0x1528 0 0x18000000182,
  dm 0x2700000027 0x1529 0 0x13d5500013d5c,
  dm 0x2700000027 no 0x13d5c00013d64 0x13d5c00013d64,
  dm 0x2a1000002a7 0x152a 0 0x18000000182,
  dm 0x2700000027 0x152c 0 0x13d6b00013d70,
  dm 0x2700000027 0x152d 0 0x18000000182,
  dm 0x2a1000002a7 0x152e 0 0x18000000182,
  dm 0x2700000027 0x1531 0 0x13d7e00013d86,
  dm 0x2700000027 0x1532 0 0x13d8600013d93,
  dm 0x2700000027 0x1533 0 0x13d9300013da0,
  dm 0x2700000027 no 0x13da000013dae 0x13dae00013dbc,
  dm 0x2700000027 no 0x13dbc00013dc7 0x13dc700013dd2,
  dm 0x2700000027 0x1534 0 0x13d7e00013d86,
  dm 0x2700000027 0x1535 0 0x13dd200013ddb,
  dm 0x2700000027 no 0x13ddb00013de4 0x13ddb00013de4,
  dm 0x2700000027 0x1536 0 0x13de400013dec,
  dm 0x2700000027 0x1537 0 0x13dec00013df7,
  dm 0x2700000027 no 0x13df700013e03 0x13df700013e03,
  dm 0x2700000027 0x1538 0 0x13e0300013e0b,
  dm 0x2700000027 0x1539 0 0x13e0b00013e13,
  dm 0x2700000027 0x153a 0 0x13e1300013e20,
  dm 0x2700000027 no 0x13e2000013e2a 0x13e2a00013e34,
  dm 0x2700000027 0x153b 0 0x13e3400013e43,
  dm 0xdfd00000e04 no 0x13e4300013e49 0x13e4900013e50,
  dm 0x2a1000002a7 0x153c 0 0x13e5000013e60,
  dm 0x2a1000002a7 no 0x13e6000013e6f 0x13e6f00013e7e,
  dm 0x2700000027 0x153e 0 0x13e8200013e89,
  dm 0x2700000027 0x153f 0 0x3d7000003dc,
  dm 0x2700000027 0x1540 0 0x18000000182,
  dm 0x2700000027 no 0x13e9300013e9d 0x13e9d00013ea7,
  dm 0x2700000027 0x1542 0 0x18000000182,
  dm 0x2700000027 0x1543 0 0x13ea700013ead,
  dm 0 no 0 0xe3400000e3c,
  dm 0 no 0 0x13ebb00013ec3,
  dm 0x2700000027 0x1547 0 0x13ec800013edd,
  dm 0x2700000027 0x1548 0 0x13edd00013ee2,
  dm 0x2700000027 0x1549 0 0x13ee200013ef0,
  dm 0x2700000027 0x154a 0 0x13ef000013efb,
  dm 0x2700000027 no 0x13efb00013f02 0x13f0200013f1a,
  dm 0x2700000027 no 0x13f1a00013f21 0x13f2100013f39,
  dm 0x2700000027 no 0x13f3900013f40 0x13f4000013f58,
  dm 0x2700000027 0x154b 0 0x13f5800013f70,
  dm 0x2700000027 0x154c 0 0x13f7000013f8a,
  dm 0x2700000027 no 0x13f8a00013f8f 0x13f8f00013fa4,
  dm 0x2700000027 0x154e 0 0x13faa00013fb1,
  dm 0x2700000027 0x154f 0 0x13fb100013fbb,
  dm 0x2700000027 0x1550 0 0x13fbb00013fc2,
  dm 0x2700000027 0x1551 0 0x500000005006,
  dm 0x2700000027 0x1552 0 0x13fc200013fc9,
  dm 0x2700000027 0x1553 0 0x13fc900013fd2,
  dm 0x2700000027 0x1554 0 0x13fd200013fde,
  dm 0x2700000027 0x1555 0 0x13fde00013fe9,
  dm 0x2700000027 0x1556 0 0x13fe900013ff3,
  dm 0x2700000027 0x1557 0 0x13ff300013fff,
  dm 0x2700000027 0x1558 0 0x13fff00014006,
  dm 0x2700000027 0x1559 0 0x140060001400d,
  dm 0x2700000027 0x155a 0 0x1400d0001400e,
  dm 0x2700000027 0x155b 0 0x1012500010128,
  dm 0x2700000027 0x155c 0 0x18000000182,
  dm 0x2700000027 0x155e 0 0x1401600014025,
  dm 0x2700000027 0x155f 0 0x1402500014037,
  dm 0x2700000027 0x1560 0 0x1403700014046,
  dm 0x2700000027 0x1561 0 0x140460001405a,
  dm 0x2700000027 0x1562 0 0x1405a0001406e,
  dm 0x2700000027 0x1563 0 0x1406e0001407f,
  dm 0x2700000027 0x1564 0 0x1407f0001408f,
  dm 0x2700000027 0x1565 0 0x1408f0001409f,
  dm 0x2700000027 0x1566 0 0x1409f000140af,
  dm 0x2700000027 0x1567 0 0x140af000140c2,
  dm 0x2700000027 0x1568 0 0x140c2000140d2,
  dm 0x2700000027 0x1569 0 0x140d2000140e2,
  dm 0x2700000027 0x156a 0 0x140e2000140f5,
  dm 0x2700000027 0x156b 0 0x140f500014103,
  dm 0x2700000027 0x156c 0 0x1410300014115,
  dm 0x2700000027 no 0x141150001411f 0x1411f00014130,
  dm 0x2700000027 no 0x141300001413a 0x1413a00014150,
  dm 0x2700000027 no 0x1415000014154 0x1415400014167,
  dm 0x2700000027 0x156d 0 0x1416700014179,
  dm 0x2700000027 0x156e 0 0x141790001418a,
  dm 0x2700000027 0x156f 0 0x1418a0001419e,
  dm 0x2700000027 0x1570 0 0x1419e000141ae,
  dm 0x2700000027 0x1571 0 0x141ae000141c1,
  dm 0x2700000027 0x1572 0 0x141c1000141d4,
  dm 0x2700000027 0x1573 0 0x141d4000141e5,
  dm 0x2700000027 0x1574 0 0x141e5000141f8,
  dm 0x2700000027 0x1575 0 0x141f80001420f,
  dm 0x2700000027 0x1576 0 0x1420f00014223,
  dm 0x2700000027 0x1577 0 0x1422300014237,
  dm 0x2700000027 0x1578 0 0x1423700014248,
  dm 0x2700000027 0x1579 0 0x142480001425e,
  dm 0x2700000027 0x157a 0 0x1425e00014275,
  dm 0x2700000027 0x157b 0 0x142750001428a,
  dm 0x2700000027 0x157c 0 0x1428a000142a2,
  dm 0x2700000027 0x157d 0 0x142a2000142bc,
  dm 0x2700000027 0x157e 0 0x142bc000142d3,
  dm 0x2700000027 0x157f 0 0x142d3000142ef,
  dm 0x2700000027 0x1580 0 0x142ef0001430a,
  dm 0x2700000027 0x1581 0 0x1430a00014321,
  dm 0x2700000027 0x1582 0 0x1432100014338,
  dm 0x2700000027 0x1583 0 0x1433800014347,
  dm 0x2700000027 0x1584 0 0x1434700014357,
  dm 0x2700000027 0x1585 0 0x1435700014363,
  dm 0x2700000027 0x1586 0 0x143630001436e,
  dm 0x2700000027 0x1587 0 0x18000000182,
  dm 0xdfd00000e04 0x1588 0 0x1436e00014382,
  dm 0xdfd00000e04 0x1589 0 0x1438200014395,
  dm 0xdfd00000e04 0x158a 0 0x14395000143a9,
  dm 0xdfd00000e04 0x158b 0 0x143a9000143ba,
  dm 0xdfd00000e04 0x158c 0 0x143ba000143cb,
  dm 0xdfd00000e04 0x158d 0 0x143cb000143dc,
  dm 0xdfd00000e04 0x158e 0 0x143dc000143ed,
  dm 0xdfd00000e04 0x158f 0 0x143ed000143fe,
  dm 0xdfd00000e04 0x1590 0 0x143fe0001440f,
  dm 0xdfd00000e04 0x1591 0 0x1440f00014420,
  dm 0xdfd00000e04 0x1592 0 0x1442000014431,
  dm 0xdfd00000e04 0x1593 0 0x1443100014443,
  dm 0x23f00000249 0x1594 0 0x1444300014452,
  dm 0x23f00000249 0x1595 0 0x1445200014463,
  dm 0x23f00000249 0x1596 0 0x1446300014474,
  dm 0x23f00000249 0x1597 0 0x1447400014483,
  dm 0x23f00000249 0x1598 0 0x1448300014494,
  dm 0x23f00000249 0x1599 0 0x14494000144a4,
  dm 0x23f00000249 0x159a 0 0x144a4000144b4,
  dm 0x23f00000249 0x159b 0 0x14494000144a4,
  dm 0x23f00000249 0x159c 0 0x1447400014483,
  dm 0xdfd00000e04 0x159d 0 0x1447400014483,
  dm 0x2700000027 0x159e 0 0x4bf700004c02,
  dm 0x2a1000002a7 0x15a0 0 0x144ba000144c4,
  dm 0x2700000027 0x15a1 0 0x144c4000144cb,
  dm 0x2700000027 0x15a2 0 0x18000000182,
  dm 0x2a1000002a7 0x15a3 0 0x18000000182,
  dm 0x2a1000002a7 0x15a4 0 0x144ba000144c4,
  dm 0x2700000027 0x15a5 0 0x18000000182,
  dm 0x23b0000023d 0x15a6 0 0x2700000027,
  dm 0x2700000027 0x15a8 0 0x144d2000144d8,
  dm 0x2700000027 no 0x144d8000144e0 0x144e0000144eb,
  dm 0x2a1000002a7 0x15a9 0 0x144eb000144f2,
  dm 0x2700000027 0x15aa 0 0x144f2000144f8,
  dm 0x2700000027 no 0x144f8000144ff 0x144ff00014503,
  dm 0x2700000027 0x15ab 0 0x18000000182,
  dm 0x2a1000002a7 0x15ac 0 0x145030001450a,
  dm 0x23b0000023d 0x15ad 0 0x18000000182,
  dm 0x2700000027 no 0x1451300014520 0x1452000014526,
  dm 0x2700000027 0x15b0 0 0xa22e0000a230,
  dm 0x2700000027 0x15b1 0 0xf1140000f117,
  dm 0x2700000027 0x15b2 0 0x1452b0001452d,
  dm 0x2700000027 0x15b3 0 0x582c0000582e,
  dm 0x2700000027 0x15b4 0 0x1202300012025,
  dm 0x2700000027 0x15b5 0 0x1452d00014530,
  dm 0x2700000027 0x15b6 0 0x1453000014532,
  dm 0x2700000027 0x15b7 0 0x6fc300006fc5,
  dm 0x2700000027 0x15b8 0 0x1453200014535,
  dm 0x2700000027 0x15b9 0 0x1453500014536,
  dm 0x2700000027 0x15ba 0 0x18000000182,
  dm 0xdfd00000e04 0x15bc 0 0x1453b00014542,
  dm 0xdfd00000e04 0x15bd 0 0x145420001454a,
  dm 0x2700000027 no 0x1454a00014550 0x145500001455b,
  dm 0x2700000027 no 0x1455b00014566 0x1455b00014566,
  dm 0x2700000027 0x15be 0 0x145660001456d,
  dm 0x2700000027 no 0x1456d00014575 0x1456d00014575,
  dm 0x2700000027 0x15bf 0 0x1457500014578,
  dm 0x2700000027 0x15c0 0 0x145780001457b,
  dm 0x2700000027 0x15c1 0 0x1457b0001457d,
  dm 0xdfd00000e04 0x15c2 0 0x1457d00014584,
  dm 0xdfd00000e04 0x15c3 0 0x145840001458b,
  dm 0x2700000027 0x15c4 0 0xa22e0000a230,
  dm 0xdfd00000e04 0x15c5 0 0x1458b00014592,
  dm 0x2700000027 0x15c6 0 0x18000000182,
  dm 0x2700000027 0x15c7 0 0x1459200014595,
  dm 0x2700000027 0x15c8 0 0x145950001459b,
  dm 0x2700000027 0x15c9 0 0x1ea200001ea5,
  dm 0x2700000027 0x15ca 0 0x1459b0001459e,
  dm 0x2700000027 0x15cb 0 0x1459e000145a1,
  dm 0x2700000027 0x15cc 0 0x145a1000145a4,
  dm 0x2700000027 0x15cd 0 0x145a4000145ab,
  dm 0x2700000027 0x15ce 0 0x145ab000145ae,
  dm 0x2700000027 0x15cf 0 0x145ae000145b1,
  dm 0x2700000027 no 0x145b1000145b9 0x145b9000145c1,
  dm 0x2700000027 0x15d0 0 0x6fc300006fc5,
  dm 0x2700000027 0x15d1 0 0x145c1000145c8,
  dm 0x2700000027 0x15d2 0 0x145c8000145cf,
  dm 0x2700000027 0x15d3 0 0x145cf000145d4,
  dm 0x2700000027 0x15d4 0 0x145d4000145df,
  dm 0x2700000027 0x15d5 0 0x145df000145e5,
  dm 0x2700000027 0x15d6 0 0x145e5000145f1,
  dm 0x2700000027 0x15d7 0 0xb05f0000b061,
  dm 0x2700000027 0x15d8 0 0xf6760000f67c,
  dm 0x2700000027 0x15d9 0 0x145f1000145f4,
  dm 0x2700000027 0x15da 0 0x145f4000145fd,
  dm 0x2700000027 0x15db 0 0x145fd00014604,
  dm 0x2700000027 0x15dc 0 0x146040001460b,
  dm 0x2700000027 0x15dd 0 0x1460b0001460f,
  dm 0x2700000027 0x15de 0 0x1460f00014612,
  dm 0x2700000027 0x15df 0 0x1461200014614,
  dm 0x2700000027 0x15e0 0 0x146140001461b,
  dm 0x2700000027 0x15e1 0 0x500000005006,
  dm 0x2700000027 0x15e2 0 0x1461b0001461d,
  dm 0xdfd00000e04 0x15e3 0 0x61760000617d,
  dm 0x2700000027 0x15e4 0 0x18000000182,
  dm 0x2700000027 0x15e5 0 0x18000000182,
  dm 0x2700000027 0x15e6 0 0x18000000182,
  dm 0x2700000027 0x15e8 0 0x146240001462b,
  dm 0x2700000027 0x15e9 0 0x18000000182,
  dm 0x2700000027 0x15ea 0 0x1462b0001463f,
  dm 0x2700000027 0x15ec 0 0x146440001464f,
  dm 0x2700000027 0x15ed 0 0x1464f0001465c,
  dm 0x2700000027 0x15ee 0 0x1465c0001466c,
  dm 0x2700000027 0x15ef 0 0x1466c0001467a,
  dm 0x2700000027 no 0x1467e00014685 0x1468500014687,
  dm 0x62600000633 no 0x146870001468f 0x1468f00014698,
  dm 0x2700000027 no 0x14698000146a0 0x14698000146a0,
  dm 0x2700000027 no 0x146a0000146a7 0x146a0000146a7,
  dm 0x2700000027 0x15f1 0 0x146a7000146ae,
  dm 0x2700000027 no 0x146ae000146b7 0x146ae000146b7,
  dm 0x2700000027 no 0x61180000611d 0x61180000611d,
  dm 0 no 0 0x8a0100008a0c,
  dm 0x2700000027 0x15f3 0 0x146ca000146d2,
  dm 0x2700000027 0x15f4 0 0x146d2000146db,
  dm 0x2700000027 0x15f5 0 0x146db000146e2,
  dm 0x2700000027 0x15f6 0 0x146e2000146eb,
  dm 0x2700000027 no 0x146f300014706 0x1470600014712,
  dm 0x2700000027 no 0x1471200014718 0x1471800014726,
  dm 0x2700000027 0x15f8 0 0x1472600014735,
  dm 0x2700000027 0x15f9 0 0x1473500014742,
  dm 0x2700000027 0x15fa 0 0x1474200014750,
  dm 0x2700000027 0x15fb 0 0x147500001475c,
  dm 0x2700000027 0x15fc 0 0x1475c00014763,
  dm 0x2700000027 0x15fd 0 0x1476300014768,
  dm 0x2700000027 0x15fe 0 0x147680001476d,
  dm 0x2700000027 0x15ff 0 0x1476d00014772,
  dm 0x2700000027 0x1600 0 0x147720001477b,
  dm 0x2700000027 0x1601 0 0x1477b0001478b,
  dm 0x2700000027 0x1602 0 0x1478b00014793,
  dm 0x2700000027 0x1603 0 0x14793000147a0,
  dm 0x2a1000002a7 0x1604 0 0x147a0000147aa,
  dm 0x2700000027 0x1605 0 0x147aa000147b2,
  dm 0x2700000027 no 0x147b2000147b6 0x147b6000147c1,
  dm 0x2700000027 no 0x147c1000147c6 0x147c6000147da,
  dm 0x2700000027 no 0x147da000147de 0x147de000147ec,
  dm 0x2700000027 no 0x147ec000147f0 0x147f0000147fc,
  dm 0x2700000027 no 0x147fc00014800 0x1480000014812,
  dm 0x2700000027 no 0x1481200014816 0x1481600014829,
  dm 0x2700000027 no 0x148290001482d 0x1482d0001483c,
  dm 0x2700000027 0x1606 0 0x1483c00014845,
  dm 0x2700000027 no 0x1484500014849 0x1484900014858,
  dm 0x2700000027 no 0x148580001485c 0x1485c00014867,
  dm 0x2700000027 no 0x148670001486b 0x1486b00014873,
  dm 0x2700000027 0x1607 0 0x1487300014883,
  dm 0x2700000027 0x1608 0 0x1488300014891,
  dm 0x2700000027 0x1609 0 0x14891000148a3,
  dm 0x2700000027 no 0x148a3000148a7 0x148a7000148b2,
  dm 0x2700000027 no 0x148b2000148b7 0x148b7000148ca,
  dm 0x2700000027 no 0x148ca000148ce 0x148ce000148dc,
  dm 0x2700000027 0x160a 0 0x148dc000148e3,
  dm 0x2700000027 no 0x148e3000148e7 0x148e7000148f4,
  dm 0x2700000027 0x160b 0 0x148f400014901,
  dm 0x2700000027 no 0x1490100014905 0x1490500014912,
  dm 0x2700000027 no 0x1491200014917 0x1491700014923,
  dm 0x2700000027 no 0x1492300014928 0x1492800014934,
  dm 0x2700000027 0x160c 0 0x1493400014947,
  dm 0x2700000027 0x160d 0 0x1494700014956,
  dm 0x2700000027 0x160e 0 0x149560001496a,
  dm 0x2700000027 0x160f 0 0x1496a00014973,
  dm 0x2700000027 0x1610 0 0x149730001497c,
  dm 0x2700000027 0x1611 0 0x1497c0001498a,
  dm 0x2700000027 0x1612 0 0x1498a00014997,
  dm 0x2700000027 0x1613 0 0x14997000149a7,
  dm 0x2700000027 0x1614 0 0x149a7000149b6,
  dm 0x2700000027 0x1615 0 0x149b6000149c3,
  dm 0x2700000027 0x1616 0 0x149c3000149c9,
  dm 0x2700000027 0x1617 0 0x149c9000149d8,
  dm 0x2700000027 0x1618 0 0x149d8000149e5,
  dm 0x2700000027 0x1619 0 0x149e5000149f2,
  dm 0x2700000027 0x161a 0 0x149f200014a00,
  dm 0x2700000027 0x161b 0 0x14a0000014a09,
  dm 0x2700000027 0x161c 0 0x14a0900014a12,
  dm 0x2700000027 0x161d 0 0x14a1200014a1b,
  dm 0x2700000027 0x161e 0 0x14a1b00014a24,
  dm 0x2700000027 0x161f 0 0x14a2400014a29,
  dm 0x2700000027 0x1620 0 0x6c6100006c67,
  dm 0x2a1000002a7 0x1621 0 0x14a2900014a36,
  dm 0x39a000003a7 0x1622 0 0x18000000182,
  dm 0x2a1000002a7 0x1623 0 0x18000000182,
  dm 0x2700000027 0x1624 0 0x18000000182,
  dm 0x2700000027 0x1626 0 0x14a3e00014a46,
  dm 0x39a000003a7 0x1628 0 0x14a4600014a4c,
  dm 0x2700000027 0x1629 0 0x14a4c00014a55,
  dm 0x2700000027 0x162a 0 0x14a5500014a5e,
  dm 0x2700000027 0x162b 0 0x14a5e00014a67,
  dm 0x2700000027 no 0x14a6700014a79 0x14a6700014a79,
  dm 0x2700000027 0x162c 0 0x14a7900014a82,
  dm 0x2700000027 0x162d 0 0x14a8200014a8b,
  dm 0x2700000027 0x162e 0 0x14a8b00014a94,
  dm 0x2700000027 no 0x14a9400014a9b 0x14a9b00014aa4,
  dm 0xdfd00000e04 no 0x14aa400014ab4 0x14aa400014ab4,
  dm 0xdfd00000e04 0x162f 0 0x14ab400014ac0,
  dm 0x2700000027 no 0x14ac000014ad6 0x14ac000014ad6,
  dm 0x2700000027 no 0x14ad600014ae3 0x14ad600014ae3,
  dm 0x2700000027 no 0x14ae300014af5 0x14ae300014af5,
  dm 0x2700000027 0x1630 0 0x14af500014afe,
  dm 0x2700000027 0x1631 0 0x14afe00014b07,
  dm 0x2700000027 no 0x14b0700014b0e 0x14b0e00014b1a,
  dm 0x2700000027 no 0x14b1a00014b23 0x14b1a00014b23,
  dm 0xdfd00000e04 no 0x14b2300014b38 0x14b2300014b38,
  dm 0xdfd00000e04 no 0x14b3800014b44 0x14b3800014b44,
  dm 0x2700000027 no 0x14b4400014b56 0x14b4400014b56,
  dm 0x2700000027 0x1632 0 0x14b5600014b5f,
  dm 0x2700000027 0x1633 0 0x14b5f00014b69,
  dm 0x2700000027 no 0x14b6900014b73 0x14b6900014b73,
  dm 0xc9b00000ca2 no 0x14b7300014b81 0x14b7300014b81,
  dm 0xc9b00000ca2 0x1634 0 0x14b8100014b8e,
  dm 0x2a1000002a7 no 0x14b8e00014b9b 0x14b8e00014b9b,
  dm 0x2a1000002a7 no 0x14b9b00014ba6 0x14b9b00014ba6,
  dm 0x2a1000002a7 no 0x14ba600014baf 0x14ba600014baf,
  dm 0x2700000027 0x1635 0 0x14baf00014bb7,
  dm 0x2700000027 no 0x14bc000014bc8 0x14bc800014bd2,
  dm 0x2700000027 0x1637 0 0x14bd200014bdb,
  dm 0 no 0 0x18000000182,
  dm 0x2700000027 no 0x14be800014bf0 0x14bf000014bf7,
  dm 0x2700000027 no 0x14bf700014c01 0x14c0100014c08,
  dm 0x2700000027 0x163a 0 0x14c0800014c14,
  dm 0x2700000027 0x163b 0 0x14c1400014c1f,
  dm 0x2700000027 0x163c 0 0x14c1f00014c27,
  dm 0x2700000027 no 0x14c2700014c32 0x14c3200014c38,
  dm 0x2700000027 no 0x14c3800014c43 0x14c4300014c49,
  dm 0x2700000027 0x163d 0 0x14c4900014c50,
  dm 0x2700000027 no 0x14c5000014c56 0x14c5600014c5c,
  dm 0x2700000027 no 0x14c5c00014c63 0x14c6300014c6a,
  dm 0x2700000027 no 0x14c6a00014c72 0x14c7200014c79,
  dm 0x2700000027 0x163e 0 0x18000000182,
  dm 0x2700000027 0x1640 0 0x14c7900014c81,
  dm 0x2700000027 0x1641 0 0x14c8100014c88,
  dm 0x2700000027 no 0x14c8800014c8c 0x14c8c00014c92,
  dm 0x2700000027 0x1642 0 0x14c9200014c97,
  dm 0x2700000027 0x1643 0 0x14c9700014c9c,
  dm 0x2700000027 0x1645 0 0x18000000182,
  dm 0x2700000027 0x1646 0 0x14ca100014cad,
  dm 0x2700000027 0x1647 0 0x14cad00014cba,
  dm 0x2a1000002a7 0x1648 0 0x14cad00014cba,
  dm 0x2a1000002a7 0x1649 0 0x14cba00014cc7,
  dm 0x2700000027 0x164b 0 0x14cca00014cd2,
  dm 0x2700000027 0x164c 0 0x18000000182,
  dm 0x2a1000002a7 no 0x14cd200014cea 0x14cea00014cfe,
  dm 0x2700000027 0x164e 0 0x14d0300014d0a,
  dm 0x2700000027 no 0x14d0a00014d13 0x14d1300014d19,
  dm 0x2700000027 0x164f 0 0x14d1900014d1c,
  dm 0x2700000027 no 0x14d1c00014d28 0x14d2800014d2e,
  dm 0x2700000027 no 0x14d2e00014d3a 0x14d3a00014d40,
  dm 0x2700000027 0x1650 0 0xb1bc0000b1be,
  dm 0x2700000027 0x1651 0 0x42d00000430,
  dm 0x2700000027 0x1652 0 0xb5fe0000b602,
  dm 0x2700000027 0x1653 0 0x14d4000014d47,
  dm 0x2700000027 0x1654 0 0x14d4700014d49,
  dm 0x2700000027 0x1655 0 0x14d4900014d4c,
  dm 0x2a1000002a7 no 0x14d5100014d5a 0x14d5a00014d63,
  dm 0x2a1000002a7 0x1657 0 0x14d6300014d6a,
  dm 0x2700000027 0x1658 0 0x14d6a00014d70,
  dm 0x23b0000023d 0x1659 0 0x18000000182,
  dm 0x23b0000023d 0x165c 0 0x14d8400014d88,
  dm 0x2700000027 0x165d 0 0x14d8800014d93,
  dm 0x2700000027 0x165e 0 0x18000000182,
  dm 0x2a1000002a7 0x165f 0 0x18000000182,
  dm 0x2700000027 0x1661 0 0x18000000182,
  dm 0x2700000027 0x1662 0 0x18000000182,
  dm 0x2700000027 0x1663 0 0x18000000182,
  dm 0 no 0 0x18000000182,
  dm 0x2700000027 0x1666 0 0x18000000182,
  dm 0x2700000027 no 0x14da900014db0 0x14db000014db7,
  dm 0x2700000027 0x1668 0 0x14dbe00014dc6,
  dm 0x2700000027 0x1669 0 0x14dc600014dd6,
  dm 0x2700000027 no 0x14dde00014de4 0x14de400014dea,
  dm 0x2700000027 no 0x14dea00014df1 0x14df100014df8,
  dm 0x2700000027 no 0x14df800014e00 0x14e0000014e09,
  dm 0x2700000027 no 0x14e0900014e12 0x14e0900014e12,
  dm 0x2700000027 0x166b 0 0x4c4f00004c57,
  dm 0x2700000027 0x166c 0 0x18000000182,
  dm 0x2700000027 0x166e 0 0x14e1900014e24,
  dm 0x2700000027 no 0x14e2400014e2a 0x14e2a00014e30,
  dm 0x2700000027 no 0x14e3000014e36 0x14e3600014e3c,
  dm 0x2700000027 no 0x14e3c00014e40 0x14e3c00014e40,
  dm 0x2700000027 0x166f 0 0x14e4000014e42,
  dm 0x2700000027 no 0xc1910000c197 0xc1910000c197,
  dm 0x2700000027 no 0x14e4200014e4c 0x14e4c00014e56,
  dm 0x2700000027 no 0x14e5600014e62 0x14e6200014e6e,
  dm 0x2700000027 no 0x14e6e00014e7c 0x14e6e00014e7c,
  dm 0x2700000027 no 0x14e7c00014e81 0x14e8100014e86,
  dm 0x2700000027 no 0x14e8600014e8b 0xbd470000bd4c,
  dm 0x2700000027 0x1670 0 0x14e8b00014e92,
  dm 0x2700000027 no 0x14e9200014e98 0x14e9800014e9f,
  dm 0x2700000027 no 0x14e9f00014ea8 0x14ea800014eb1,
  dm 0x2700000027 no 0x14eb100014eb8 0x14eb800014ebf,
  dm 0x2700000027 no 0x14ebf00014ec7 0x14ec700014ecf,
  dm 0x2700000027 0x1671 0 0x14ecf00014ed9,
  dm 0x2700000027 no 0x14ed900014ede 0x14ede00014ee3,
  dm 0x2700000027 no 0x14ee300014eee 0x14eee00014ef9,
  dm 0x2700000027 no 0x14ef900014f04 0x14f0400014f0f,
  dm 0x2700000027 no 0x14f0f00014f15 0x14f0f00014f15,
  dm 0x2700000027 no 0x14f1500014f1b 0x14f1b00014f21,
  dm 0x2700000027 no 0x14f2100014f25 0x14f2500014f29,
  dm 0x2700000027 no 0x14f2900014f32 0x14f3200014f3b]

/-- `__dr_dm`, from item 7500 on (device_repo.go:9772-10271). -/
def drDm_15 : List ModelTuple := [
  dm 0x2700000027 no 0x14f3b00014f40 0x14f4000014f45,
  dm 0x2700000027 no 0x14f4500014f4b 0x14f4b00014f52,
  dm 0x2700000027 no 0x14f5200014f57 0x14f5700014f5c,
  dm 0x2700000027 no 0x14f5c00014f63 0x14f6300014f6b,
  dm 0x2700000027 no 0x14f6b00014f75 0x14f7500014f7f,
  dm 0x2700000027 no 0x14f7f00014f87 0x14f8700014f8f,
  dm 0x2700000027 no 0x14f8f00014f94 0x117e9000117ee,
  dm 0x2700000027 no 0x14f9400014f98 0x14f9800014f9c,
  dm 0x2700000027 0x1672 0 0x14f9c00014f9e,
  dm 0x2700000027 no 0x14f9e00014fa2 0x14fa200014fa6,
  dm 0x2700000027 0x1673 0 0x14fa600014fa9,
  dm 0x2700000027 no 0x14fa900014fb0 0x14fb000014fb7,
  dm 0x2700000027 no 0x14fb700014fbd 0x14fbd00014fc3,
  dm 0x2700000027 no 0x14fc300014fca 0x14fca00014fd1,
  dm 0x2700000027 no 0x14fd100014fd8 0x14fd800014fdf,
  dm 0x2700000027 no 0x14fdf00014fe3 0x14fe300014fe7,
  dm 0x2700000027 no 0x14fe700014feb 0xe9630000e967,
  dm 0x2700000027 no 0x14feb00014ff0 0x14ff000014ff5,
  dm 0x2700000027 no 0x14ff500014ffe 0x14ff500014ffe,
  dm 0x2700000027 0x1674 0 0x14ffe00015005,
  dm 0x2700000027 no 0x150050001500a 0x1500a0001500d,
  dm 0x2700000027 no 0x1500d00015015 0x150150001501d,
  dm 0x2700000027 0x1675 0 0x1501d00015023,
  dm 0x2700000027 no 0x150230001502e 0x1502e00015039,
  dm 0x2700000027 0x1676 0 0x1503900015042,
  dm 0x2700000027 no 0x1504200015049 0x150490001504f,
  dm 0x2700000027 no 0x1504f00015057 0x150570001505e,
  dm 0x2700000027 no 0x1505e00015067 0x1506700015070,
  dm 0x2700000027 no 0x1507000015074 0x1507400015078,
  dm 0x2700000027 0x1677 0 0x1507800015080,
  dm 0x2700000027 0x1678 0 0x1508000015084,
  dm 0x2700000027 no 0x150840001508b 0x1508b00015092,
  dm 0x2700000027 no 0x150920001509b 0x1509b000150a4,
  dm 0x2700000027 no 0x150a4000150ae 0x150ae000150b8,
  dm 0x2700000027 0x1679 0 0x18000000182,
  dm 0x2a1000002a7 no 0x150b8000150be 0x150be000150c4,
  dm 0x2a1000002a7 no 0x150c4000150c8 0x150c8000150cc,
  dm 0x2a1000002a7 0x167a 0 0x150cc000150d9,
  dm 0x2a1000002a7 no 0x150d9000150e3 0x150e3000150ed,
  dm 0x2700000027 0x167c 0 0x150f6000150fb,
  dm 0x2700000027 0x167d 0 0x150fb00015104,
  dm 0x2700000027 0x167e 0 0x151040001510b,
  dm 0x2700000027 0x167f 0 0x1510b00015110,
  dm 0x2700000027 0x1680 0 0x1511000015127,
  dm 0x2700000027 0x1681 0 0x1512700015139,
  dm 0x2700000027 0x1682 0 0x1513900015141,
  dm 0x2700000027 0x1683 0 0x1514100015153,
  dm 0x2700000027 0x1684 0 0x151530001515e,
  dm 0x2700000027 0x1685 0 0x1515e0001516a,
  dm 0x2700000027 0x1686 0 0x1513900015141,
  dm 0x2700000027 no 0x1516a0001517f 0x1517f0001518a,
  dm 0x2700000027 0x1687 0 0x1518a00015195,
  dm 0x2700000027 no 0x15195000151a7 0x151a7000151af,
  dm 0x2700000027 0x1688 0 0x151af000151ba,
  dm 0x2700000027 0x1689 0 0x151ba000151c2,
  dm 0x2700000027 0x168a 0 0x151c2000151c9,
  dm 0x2700000027 no 0x151c9000151da 0x151da000151e1,
  dm 0x2700000027 no 0x151e1000151f8 0x151f800015205,
  dm 0x2700000027 0x168b 0 0x152050001520e,
  dm 0x2700000027 no 0x1520e0001521d 0x1521d00015222,
  dm 0x2700000027 no 0x1522200015238 0x152380001523f,
  dm 0x2700000027 no 0x1523f00015246 0x1523f00015246,
  dm 0x2700000027 0x168c 0 0xc1540000c15c,
  dm 0x2700000027 no 0x1524600015256 0x1525600015261,
  dm 0x2700000027 0x168d 0 0x1526100015267,
  dm 0x2700000027 no 0x152670001527e 0x1527e00015285,
  dm 0x2700000027 no 0x152850001529e 0x1529e000152a7,
  dm 0x2700000027 0x168e 0 0x18000000182,
  dm 0 no 0 0x152b5000152c1,
  dm 0x2700000027 no 0x152c8000152ce 0x152ce000152d6,
  dm 0x2700000027 0x1691 0 0x152d6000152e2,
  dm 0x2700000027 no 0x152e2000152e8 0x152e8000152f4,
  dm 0x2700000027 no 0x152f4000152fa 0x152fa00015303,
  dm 0x2700000027 no 0x1530300015309 0x153090001530d,
  dm 0x2700000027 no 0x1530d00015313 0x1531300015317,
  dm 0x2700000027 no 0x1531700015326 0x1532600015335,
  dm 0x2700000027 no 0x153350001533e 0x153350001533e,
  dm 0x2700000027 no 0x1533e00015347 0x153470001534d,
  dm 0x2700000027 no 0x1534d00015356 0x153560001535c,
  dm 0x2700000027 no 0x1535c00015365 0x1536500015374,
  dm 0x2700000027 no 0x153740001537d 0x1537d0001538a,
  dm 0x2700000027 no 0x1538a00015393 0x15393000153a1,
  dm 0x2700000027 no 0x153a1000153ab 0x153a1000153ab,
  dm 0x2700000027 no 0x153ab000153b0 0x153b0000153b6,
  dm 0 no 0 0x18000000182,
  dm 0x2700000027 0x1694 0 0x18000000182,
  dm 0 no 0 0x153c8000153d3,
  dm 0x2700000027 0x1697 0 0x153d9000153db,
  dm 0x2700000027 0x1698 0 0x153db000153dd,
  dm 0x23f00000249 0x1699 0 0x153dd000153e3,
  dm 0x2700000027 no 0x153ee000153f7 0x153f700015400,
  dm 0x23f00000249 0x169c 0 0x1540700015413,
  dm 0x2700000027 no 0x154130001541d 0x1541d00015427,
  dm 0x2700000027 0x169d 0 0x1542700015431,
  dm 0x2700000027 0x169e 0 0x1542700015431,
  dm 0x2700000027 0x169f 0 0x154310001543f,
  dm 0x2700000027 0x16a0 0 0x154310001543f,
  dm 0x2700000027 0x16a1 0 0x18000000182,
  dm 0x2700000027 0x16a2 0 0x18000000182,
  dm 0 no 0 0x1544c00015452,
  dm 0x2700000027 no 0x1545a00015460 0x1546000015466,
  dm 0 no 0 0x18000000182,
  dm 0x39a000003a7 no 0x154730001547b 0x1547b0001547f,
  dm 0x2a1000002a7 no 0x1547f0001548b 0x1548b00015497,
  dm 0x2a1000002a7 no 0x154970001549f 0x1549f000154ab,
  dm 0x2700000027 no 0x154ab000154b5 0x154b5000154c3,
  dm 0x2700000027 0x16a7 0 0x154c3000154c8,
  dm 0x2700000027 no 0x154c8000154d5 0x154c8000154d5,
  dm 0x2700000027 no 0x154d5000154df 0x154d5000154df,
  dm 0x2700000027 no 0x154df000154eb 0x154eb000154f3,
  dm 0x2700000027 no 0x154f3000154ff 0x154ff00015507,
  dm 0x2700000027 0x16a8 0 0x1550700015519,
  dm 0x2700000027 0x16a9 0 0x155190001552b,
  dm 0x2700000027 no 0x1552b00015533 0x155330001553f,
  dm 0x2700000027 0x16aa 0 0x1553f0001554b,
  dm 0x2700000027 no 0x1554b00015562 0x1556200015573,
  dm 0x2700000027 no 0x1557300015585 0x1558500015595,
  dm 0x2700000027 no 0x155950001559d 0x1559d000155ad,
  dm 0x2700000027 no 0x155ad000155bc 0x155bc000155d2,
  dm 0x2700000027 0x16ab 0 0x155d2000155de,
  dm 0x2700000027 0x16ac 0 0x155de000155e2,
  dm 0x2700000027 0x16ad 0 0x155e2000155e8,
  dm 0x2700000027 0x16ae 0 0x155e8000155f1,
  dm 0x2700000027 0x16af 0 0x155f1000155fc,
  dm 0x2700000027 0x16b0 0 0x155fc00015604,
  dm 0x2700000027 no 0x156040001561a 0x1561a00015627,
  dm 0x2700000027 0x16b1 0 0x1562700015632,
  dm 0x2700000027 no 0x156320001563a 0x1563a00015645,
  dm 0x2700000027 0x16b2 0 0x156450001564c,
  dm 0x2700000027 0x16b3 0 0x1564c00015656,
  dm 0x2700000027 0x16b4 0 0x156560001565f,
  dm 0x2700000027 0x16b5 0 0x1565f00015668,
  dm 0x2700000027 0x16b6 0 0x156680001566e,
  dm 0x2700000027 0x16b7 0 0x1566e00015675,
  dm 0x2700000027 0x16b8 0 0x1567500015679,
  dm 0x2700000027 0x16b9 0 0x1567900015684,
  dm 0x2700000027 0x16ba 0 0x156840001568b,
  dm 0x2700000027 0x16bb 0 0x1568b00015692,
  dm 0x2700000027 0x16bc 0 0x156920001569b,
  dm 0x2700000027 0x16bd 0 0x1569b000156a3,
  dm 0x2700000027 0x16be 0 0x156a3000156a9,
  dm 0x2700000027 0x16bf 0 0x156a9000156b1,
  dm 0x2700000027 0x16c0 0 0x156b1000156b6,
  dm 0x2700000027 0x16c1 0 0x156b6000156c7,
  dm 0x2700000027 0x16c2 0 0x156c7000156cf,
  dm 0x2700000027 0x16c3 0 0x156cf000156d7,
  dm 0x2700000027 0x16c4 0 0x156d7000156e0,
  dm 0x2700000027 0x16c5 0 0x156e0000156e4,
  dm 0x2700000027 0x16c6 0 0x156e4000156ef,
  dm 0x2700000027 0x16c7 0 0x156ef000156fa,
  dm 0x2700000027 0x16c8 0 0x156fa00015704,
  dm 0x2700000027 0x16c9 0 0x1570400015710,
  dm 0x2700000027 0x16ca 0 0x157100001571c,
  dm 0x2700000027 0x16cb 0 0x1571c00015723,
  dm 0x2700000027 0x16cc 0 0x157230001572b,
  dm 0x2700000027 0x16cd 0 0x1572b00015736,
  dm 0x2700000027 0x16ce 0 0x1573600015742,
  dm 0x2700000027 0x16cf 0 0x157420001574c,
  dm 0x2700000027 0x16d0 0 0x1574c00015759,
  dm 0x2700000027 0x16d1 0 0x1575900015766,
  dm 0x2700000027 0x16d2 0 0x1576600015773,
  dm 0x2700000027 0x16d3 0 0x1577300015782,
  dm 0x2700000027 no 0x157820001578a 0x1578a00015797,
  dm 0x2700000027 no 0x15797000157a3 0x157a3000157af,
  dm 0x2700000027 0x16d4 0 0x157af000157b7,
  dm 0x2700000027 no 0x157b7000157c3 0x157c3000157cf,
  dm 0x2700000027 0x16d5 0 0x157cf000157d7,
  dm 0x2700000027 0x16d6 0 0x157d7000157e2,
  dm 0x2700000027 0x16d7 0 0x157e2000157ed,
  dm 0x2700000027 no 0x157ed000157f5 0x157f500015800,
  dm 0x2700000027 0x16d8 0 0x158000001580e,
  dm 0x2700000027 no 0x1580e00015816 0x158160001581e,
  dm 0x2700000027 no 0x1581e00015827 0x1582700015830,
  dm 0x2700000027 no 0x158300001583d 0x158300001583d,
  dm 0x2700000027 0x16d9 0 0x1583d0001584f,
  dm 0x2700000027 no 0x1584f00015857 0x1585700015863,
  dm 0x2700000027 no 0x158630001586b 0x1586b00015877,
  dm 0x2700000027 0x16da 0 0x158770001587d,
  dm 0x2700000027 0x16db 0 0x1587d0001588a,
  dm 0x2700000027 0x16dc 0 0x1588a00015897,
  dm 0x2700000027 0x16dd 0 0x158970001589f,
  dm 0x2700000027 0x16de 0 0x1589f000158af,
  dm 0x2700000027 0x16df 0 0x158af000158bb,
  dm 0x2700000027 0x16e0 0 0x158bb000158c8,
  dm 0x2700000027 0x16e1 0 0x158c8000158d5,
  dm 0x2700000027 0x16e2 0 0x158c8000158d5,
  dm 0x2700000027 0x16e3 0 0x158d5000158e7,
  dm 0x2700000027 0x16e4 0 0x158e7000158f5,
  dm 0x2700000027 0x16e5 0 0x158f500015902,
  dm 0x2700000027 0x16e6 0 0x159020001590c,
  dm 0x2700000027 0x16e7 0 0x1590c0001591a,
  dm 0x2700000027 0x16e8 0 0x1591a00015922,
  dm 0x2700000027 0x16e9 0 0x159220001592b,
  dm 0x2700000027 0x16ea 0 0x159220001592b,
  dm 0x2700000027 0x16eb 0 0x158770001587d,
  dm 0x2700000027 no 0x1592b00015933 0x159330001593f,
  dm 0x2700000027 0x16ec 0 0x1593f00015949,
  dm 0x2700000027 0x16ed 0 0x1594900015955,
  dm 0x2700000027 0x16ee 0 0x159550001595c,
  dm 0x2700000027 0x16ef 0 0x1595c00015962,
  dm 0x2700000027 0x16f0 0 0x159620001596d,
  dm 0x2700000027 no 0x1596d00015979 0x1596d00015979,
  dm 0x2700000027 0x16f1 0 0x1597900015984,
  dm 0x2700000027 0x16f2 0 0x159840001598a,
  dm 0x2700000027 0x16f3 0 0x1598a00015991,
  dm 0x2700000027 0x16f4 0 0x159910001599c,
  dm 0x2700000027 0x16f5 0 0x1599c000159a8,
  dm 0x2700000027 0x16f6 0 0x159a8000159b5,
  dm 0x2700000027 0x16f7 0 0x159b5000159bd,
  dm 0x2700000027 0x16f8 0 0x159bd000159c9,
  dm 0x2700000027 0x16f9 0 0x159c9000159d0,
  dm 0x2700000027 0x16fa 0 0x159d0000159d7,
  dm 0x2700000027 0x16fb 0 0x159d7000159e3,
  dm 0x2700000027 0x16fc 0 0x159e3000159eb,
  dm 0x2700000027 no 0x159eb000159f3 0x159f3000159fb,
  dm 0x2700000027 no 0x159fb00015a03 0x15a0300015a0e,
  dm 0x2700000027 0x16fd 0 0x15a0e00015a16,
  dm 0x2700000027 no 0x15a1600015a1e 0x15a1e00015a26,
  dm 0x2700000027 no 0x15a2600015a2e 0x15a2e00015a39,
  dm 0x2700000027 no 0x15a3900015a41 0x15a4100015a4c,
  dm 0x2700000027 no 0x15a4c00015a54 0x15a5400015a5c,
  dm 0x2700000027 no 0x15a5c00015a64 0x15a6400015a6f,
  dm 0x2700000027 0x16fe 0 0x15a6f00015a75,
  dm 0x2700000027 0x16ff 0 0x15a7500015a80,
  dm 0x2700000027 0x1700 0 0x15a8000015a8c,
  dm 0x2700000027 0x1701 0 0x15a8c00015a9f,
  dm 0x2700000027 0x1702 0 0x15a9f00015aab,
  dm 0x2700000027 0x1703 0 0x15aab00015ab9,
  dm 0x2700000027 0x1704 0 0x15ab900015ac4,
  dm 0x2700000027 0x1705 0 0x15ac400015ad1,
  dm 0x2700000027 0x1706 0 0x15ad100015ad7,
  dm 0x2700000027 0x1707 0 0x15ad700015ade,
  dm 0x2700000027 0x1708 0 0x15ade00015aea,
  dm 0x2700000027 0x1709 0 0x15aea00015af5,
  dm 0x2700000027 0x170a 0 0x15af500015b01,
  dm 0x2700000027 0x170b 0 0x15b0100015b0e,
  dm 0x2700000027 0x170c 0 0x15b0e00015b15,
  dm 0x2700000027 0x170d 0 0x15b1500015b1b,
  dm 0x2700000027 0x170e 0 0x15b1b00015b27,
  dm 0x2700000027 0x170f 0 0x15b2700015b33,
  dm 0x2700000027 0x1710 0 0x154ff00015507,
  dm 0x2700000027 0x1711 0 0x15b3300015b3b,
  dm 0x2700000027 0x1712 0 0x15b3b00015b4b,
  dm 0x2700000027 0x1713 0 0x15b4b00015b5b,
  dm 0x2700000027 0x1714 0 0x15b5b00015b67,
  dm 0x2700000027 0x1715 0 0x15b6700015b6f,
  dm 0x2700000027 0x1716 0 0xde010000de04,
  dm 0x2700000027 0x1717 0 0x15b6f00015b77,
  dm 0x2700000027 0x1718 0 0x15b7700015b7f,
  dm 0x2700000027 0x1719 0 0x15b7f00015b95,
  dm 0x2700000027 0x171a 0 0x15b9500015ba3,
  dm 0x2700000027 0x171b 0 0x15ba300015bac,
  dm 0x2700000027 0x171c 0 0x15bac00015bba,
  dm 0x2700000027 0x171d 0 0x15bba00015bc6,
  dm 0x2700000027 0x171e 0 0x15bac00015bba,
  dm 0x2700000027 0x171f 0 0x15bc600015bd3,
  dm 0x2700000027 0x1720 0 0x15bd300015bde,
  dm 0x2700000027 0x1721 0 0x15bde00015be9,
  dm 0x2700000027 0x1722 0 0x15be900015bfa,
  dm 0x2700000027 0x1723 0 0x3e7500003e7c,
  dm 0x2700000027 0x1724 0 0x15bfa00015c05,
  dm 0x2700000027 no 0x15c0500015c0d 0x15c0d00015c14,
  dm 0x2700000027 0x1725 0 0x15c1400015c22,
  dm 0x2700000027 0x1726 0 0x15c2200015c26,
  dm 0x2700000027 0x1727 0 0x15c2600015c35,
  dm 0x2700000027 0x1728 0 0x15c3500015c3f,
  dm 0x2700000027 0x1729 0 0x15c3f00015c48,
  dm 0x2700000027 0x172a 0 0x15c4800015c51,
  dm 0x2700000027 0x172b 0 0x15c5100015c59,
  dm 0x2700000027 0x172c 0 0x15c5900015c68,
  dm 0x2700000027 0x172d 0 0x15c6800015c72,
  dm 0x2700000027 0x172e 0 0x15c7200015c7c,
  dm 0x2700000027 no 0x15c7c00015c8e 0x15c8e00015c97,
  dm 0x2700000027 no 0x15c9700015cad 0x15cad00015cba,
  dm 0x2700000027 no 0x15cba00015ccc 0x15ccc00015cd5,
  dm 0x2700000027 0x172f 0 0x15cd500015cdf,
  dm 0x2700000027 no 0x15cdf00015cf2 0x15c3500015c3f,
  dm 0x2700000027 0x1730 0 0x15cf200015d0a,
  dm 0x2700000027 0x1731 0 0x15d0a00015d1c,
  dm 0x2700000027 0x1732 0 0x15d1c00015d31,
  dm 0x2700000027 0x1733 0 0x15d3100015d48,
  dm 0x2700000027 no 0x15d4800015d50 0x15d5000015d67,
  dm 0x2700000027 no 0x15d6700015d6f 0x15d6f00015d83,
  dm 0x2700000027 0x1734 0 0x15d8300015d93,
  dm 0x2700000027 no 0x15d9300015da0 0x15da000015dad,
  dm 0x2700000027 0x1735 0 0x15dad00015dbf,
  dm 0x2700000027 0x1736 0 0x15dbf00015dd1,
  dm 0x2700000027 0x1737 0 0x15dd100015ddd,
  dm 0x2700000027 0x1738 0 0x15ddd00015df0,
  dm 0x2700000027 0x1739 0 0x15df000015e03,
  dm 0x2700000027 no 0x15e0300015e0f 0x15dd100015ddd,
  dm 0x2700000027 no 0x15e0f00015e19 0x15e1900015e23,
  dm 0x2700000027 0x173a 0 0x15e2300015e2e,
  dm 0x2700000027 0x173b 0 0x15e2e00015e39,
  dm 0x2700000027 no 0x15e3900015e47 0x15e4700015e55,
  dm 0x2700000027 0x173c 0 0x15e5500015e65,
  dm 0x2700000027 no 0x15e6500015e6e 0x15e6e00015e77,
  dm 0x2700000027 0x173d 0 0x15e7700015e86,
  dm 0x2700000027 no 0x15e8600015e8e 0x15e8e00015e96,
  dm 0x2700000027 0x173e 0 0x15e9600015e9e,
  dm 0x2700000027 0x173f 0 0x15e9e00015ea7,
  dm 0x2700000027 0x1740 0 0x15ea700015eb1,
  dm 0x2700000027 no 0x15eb100015ebf 0x15ebf00015ecd,
  dm 0x2700000027 no 0x15ecd00015ed5 0x15ed500015edd,
  dm 0x2700000027 no 0x15edd00015ee5 0x15ee500015eed,
  dm 0x2700000027 0x1741 0 0x15eed00015f00,
  dm 0x2700000027 0x1742 0 0x15f0000015f0e,
  dm 0x2700000027 0x1743 0 0x15f0e00015f28,
  dm 0x2700000027 0x1744 0 0x15f2800015f47,
  dm 0x2700000027 0x1745 0 0x15f4700015f5a,
  dm 0x2700000027 0x1746 0 0x15f5a00015f68,
  dm 0x2700000027 0x1747 0 0x15f6800015f76,
  dm 0x2700000027 0x1748 0 0x15f7600015f83,
  dm 0x2700000027 0x1749 0 0x15f8300015f90,
  dm 0x2700000027 0x174a 0 0x15f9000015f98,
  dm 0x2700000027 0x174b 0 0x15f9000015f98,
  dm 0x2700000027 no 0x15f9800015fa1 0x15fa100015faa,
  dm 0x2700000027 0x174c 0 0x1591a00015922,
  dm 0x2700000027 0x174d 0 0x15faa00015fb2,
  dm 0x2700000027 0x174e 0 0x15fb200015fb8,
  dm 0x2700000027 0x174f 0 0x15fb800015fc1,
  dm 0x2700000027 0x1750 0 0x15fc100015fcc,
  dm 0x2700000027 0x1751 0 0x15fc100015fcc,
  dm 0x2700000027 0x1752 0 0x15fcc00015fd5,
  dm 0x2700000027 no 0x15fd500015fdd 0x15fd500015fdd,
  dm 0x2b1e00002b26 no 0x15fdd00015fe5 0x15fdd00015fe5,
  dm 0x2b1e00002b26 0x1753 0 0x15fe500015fee,
  dm 0x2700000027 no 0x15fee00015ff6 0x15ff600015ffd,
  dm 0x2700000027 0x1754 0 0x15ffd00016006,
  dm 0x2700000027 0x1755 0 0x160060001600d,
  dm 0x2700000027 0x1756 0 0x1600d00016014,
  dm 0x2700000027 0x1757 0 0x1601400016021,
  dm 0x2700000027 0x1758 0 0x160060001600d,
  dm 0x2700000027 0x1759 0 0x18000000182,
  dm 0x2700000027 0x175a 0 0x18000000182,
  dm 0x2700000027 0x175b 0 0x18000000182,
  dm 0x2700000027 0x175c 0 0x1602100016029,
  dm 0x2700000027 0x175d 0 0x1602100016029,
  dm 0x2700000027 0x175e 0 0x18000000182,
  dm 0x2a1000002a7 0x175f 0 0x18000000182,
  dm 0x2a1000002a7 0x1760 0 0x18000000182,
  dm 0x2700000027 0x1761 0 0x18000000182,
  dm 0 no 0 0x18000000182,
  dm 0x2700000027 0x1764 0 0x1012500010128,
  dm 0x2700000027 0x1765 0 0xaf2b0000af2e,
  dm 0x2700000027 0x1766 0 0x18000000182,
  dm 0x2700000027 0x1768 0 0xf1440000f147,
  dm 0x2700000027 no 0x1604c00016054 0x1605400016058,
  dm 0x2a1000002a7 0x176a 0 0x160580001605f,
  dm 0x2700000027 0x176c 0 0x18000000182,
  dm 0x2700000027 0x176d 0 0x160640001606f,
  dm 0x2700000027 0x176e 0 0x1606f00016079,
  dm 0x2700000027 0x176f 0 0x18000000182,
  dm 0x23f00000249 0x1770 0 0x18000000182,
  dm 0 no 0 0x18000000182,
  dm 0x2700000027 0x1773 0 0x500000005006,
  dm 0x2700000027 0x1774 0 0x1608b00016092,
  dm 0x2700000027 0x1775 0 0x1609200016099,
  dm 0x2700000027 0x1776 0 0x160990001609e,
  dm 0x2700000027 0x1777 0 0x1609e000160a5,
  dm 0x2700000027 0x1778 0 0x160a5000160af,
  dm 0x2700000027 0x1779 0 0x160af000160b0,
  dm 0x2700000027 0x177a 0 0x10fa900010fab,
  dm 0x2700000027 0x177b 0 0x160b0000160b6,
  dm 0x2700000027 0x177c 0 0x160b6000160bb,
  dm 0x2700000027 0x177d 0 0x18000000182,
  dm 0x2700000027 0x177e 0 0x160bb000160bf,
  dm 0x2700000027 0x177f 0 0x160bf000160c6,
  dm 0x2700000027 0x1780 0 0x160c6000160d0,
  dm 0x2700000027 no 0x160d0000160df 0x160df000160ee,
  dm 0x2700000027 no 0x160ee000160fb 0x160fb00016108,
  dm 0x2700000027 0x1781 0 0x18000000182,
  dm 0x2a1000002a7 0x1782 0 0x1610800016112,
  dm 0x2a1000002a7 no 0x161120001611a 0x1611a00016122,
  dm 0x2a1000002a7 0x1783 0 0x161220001612a,
  dm 0x2a1000002a7 0x1784 0 0x1612a00016134,
  dm 0x2a1000002a7 0x1785 0 0x1613400016139,
  dm 0x2a1000002a7 0x1786 0 0x1613900016143,
  dm 0x2a1000002a7 0x1787 0 0x1614300016154,
  dm 0x2a1000002a7 0x1788 0 0x1615400016163,
  dm 0x2a1000002a7 0x1789 0 0x1616300016175,
  dm 0x2a1000002a7 0x178a 0 0x161750001617d,
  dm 0x2a1000002a7 0x178b 0 0x1617d00016187,
  dm 0x2a1000002a7 0x178c 0 0x1618700016190,
  dm 0x2a1000002a7 0x178d 0 0x1619000016195,
  dm 0x2a1000002a7 0x178e 0 0x161950001619e,
  dm 0x2a1000002a7 0x178f 0 0x1619e000161a3,
  dm 0x2a1000002a7 0x1790 0 0x161a3000161a9,
  dm 0x2a1000002a7 0x1791 0 0x161a9000161b4,
  dm 0x2700000027 0x1792 0 0x18000000182,
  dm 0 no 0 0x18000000182,
  dm 0x2700000027 0x1795 0 0x161c5000161cf,
  dm 0x2700000027 no 0x161cf000161e5 0x161e5000161fb,
  dm 0x2700000027 0x1796 0 0x161fb00016200,
  dm 0 no 0 0x18000000182,
  dm 0x2a1000002a7 0x1799 0 0x162140001621d,
  dm 0x2700000027 0x179a 0 0x1621d00016226,
  dm 0x2700000027 no 0x162260001622e 0x1622e00016236,
  dm 0x2700000027 no 0x1623600016241 0x1624100016245,
  dm 0x2700000027 no 0x162450001624a 0x1624a0001624e,
  dm 0x2700000027 0x179b 0 0x1624e00016258,
  dm 0x2700000027 0x179c 0 0x1625800016261,
  dm 0x2700000027 0x179d 0 0x1626100016267,
  dm 0x2700000027 0x179e 0 0x162670001626b,
  dm 0x2700000027 0x179f 0 0x1626b00016275,
  dm 0x2700000027 0x17a0 0 0x162750001627c,
  dm 0x2700000027 0x17a1 0 0x1627c00016283,
  dm 0x2700000027 0x17a2 0 0x18000000182,
  dm 0x2a1000002a7 0x17a3 0 0x162830001628b,
  dm 0x2700000027 0x17a5 0 0x16290000162a0,
  dm 0x2700000027 0x17a6 0 0x78670000786c,
  dm 0x2700000027 0x17a7 0 0x147000001475,
  dm 0x2700000027 no 0x162ad000162b2 0x162b2000162b8,
  dm 0x2700000027 no 0x162b8000162c3 0x162c3000162cc,
  dm 0x2700000027 0x17a8 0 0x18000000182,
  dm 0 no 0 0x18000000182,
  dm 0 no 0 0x18000000182,
  dm 0x2700000027 no 0x162dd000162e7 0x162e7000162eb,
  dm 0x2700000027 0x17ac 0 0x18000000182,
  dm 0x2700000027 no 0x162eb000162f9 0x162f900016301,
  dm 0x2700000027 no 0x163010001630e 0x1630e00016315,
  dm 0x2700000027 no 0x1631500016321 0x1632100016327,
  dm 0x2a1000002a7 0x17ad 0 0x18000000182,
  dm 0x2700000027 0x17ae 0 0x18000000182,
  dm 0 no 0 0x18000000182,
  dm 0x2700000027 0x17b1 0 0x1633300016339,
  dm 0x23b0000023d 0x17b2 0 0x18000000182,
  dm 0x2700000027 no 0x1633e00016344 0x163440001634d,
  dm 0x2700000027 0x17b4 0 0x1634d00016356,
  dm 0x2700000027 0x17b5 0 0x163560001635e,
  dm 0x2700000027 0x17b6 0 0x1635e00016366,
  dm 0x2700000027 no 0x163660001636b 0x1636b00016371,
  dm 0x2700000027 no 0x1637100016376 0x163760001637c,
  dm 0x2700000027 0x17b7 0 0x1637c00016383,
  dm 0x2700000027 no 0x163880001638f 0x1638f00016396,
  dm 0x23f00000249 no 0x163960001639e 0x1639e000163a6,
  dm 0x2700000027 0x17ba 0 0x163a9000163b7,
  dm 0x2700000027 0x17bb 0 0x163b7000163bf,
  dm 0x2700000027 0x17bc 0 0x18000000182,
  dm 0x2700000027 0x17bd 0 0x18000000182,
  dm 0x2700000027 0x17be 0 0x18000000182,
  dm 0x2a1000002a7 0x17bf 0 0x163bf000163cd,
  dm 0x2a1000002a7 0x17c0 0 0x163cd000163e6,
  dm 0x2a1000002a7 0x17c1 0 0x163e6000163f7,
  dm 0x2a1000002a7 0x17c2 0 0x163f700016407,
  dm 0x2a1000002a7 0x17c3 0 0x1640700016416,
  dm 0x2a1000002a7 0x17c4 0 0x1641600016425,
  dm 0x2a1000002a7 0x17c5 0 0x1642500016435,
  dm 0x2a1000002a7 0x17c6 0 0x1643500016445,
  dm 0x2a1000002a7 0x17c7 0 0x1644500016451,
  dm 0x2700000027 0x17c9 0 0x164550001645a,
  dm 0 no 0 0x18000000182,
  dm 0 no 0 0x18000000182,
  dm 0x2700000027 no 0x1646b00016479 0x1647900016480,
  dm 0x2700000027 no 0x164800001648a 0x1648a0001648d,
  dm 0x2700000027 0x17cd 0 0x18000000182,
  dm 0 no 0 0x18000000182,
  dm 0 no 0 0x18000000182,
  dm 0 no 0 0x18000000182,
  dm 0x2700000027 no 0x164a2000164b0 0x164b0000164bc,
  dm 0x2700000027 0x17d2 0 0x164bc000164c9,
  dm 0x2700000027 no 0x164c9000164d6 0x164d6000164e4,
  dm 0x2700000027 0x17d3 0 0x6b6d00006b72,
  dm 0x2700000027 0x17d4 0 0x6b6d00006b72,
  dm 0x2700000027 0x17d5 0 0x18000000182,
  dm 0x2700000027 0x17d6 0 0x18000000182,
  dm 0 no 0 0x18000000182,
  dm 0x2700000027 no 0x164f0000164ff 0x164f0000164ff,
  dm 0x2700000027 no 0x164ff0001650d 0x164ff0001650d,
  dm 0 no 0 0x18000000182,
  dm 0x2700000027 0x17da 0 0x1651a00016524,
  dm 0x2700000027 no 0x165240001652c 0x1652c00016535,
  dm 0x2700000027 no 0x1653500016542 0x1654200016551,
  dm 0x2700000027 0x17db 0 0x165510001655c,
  dm 0x2700000027 0x17dc 0 0x1655c00016562,
  dm 0x2700000027 0x17dd 0 0x1656200016569,
  dm 0x2700000027 no 0x165690001656f 0x1656f00016576,
  dm 0x2700000027 0x17de 0 0x6dd000006dd4,
  dm 0x2700000027 0x17df 0 0x1657600016581,
  dm 0x2700000027 0x17e0 0 0x165810001658a,
  dm 0x2700000027 0x17e1 0 0x1658a0001658e,
  dm 0x2700000027 0x17e2 0 0x1658e00016592,
  dm 0x2700000027 0x17e3 0 0x1659200016596,
  dm 0x2700000027 0x17e4 0 0x165960001659b,
  dm 0x2700000027 0x17e5 0 0x1659b000165a0,
  dm 0x2700000027 no 0x165a0000165a8 0x1139000011399,
  dm 0x2700000027 no 0x165a8000165af 0x165af000165b7,
  dm 0x2a1000002a7 0x17e6 0 0x18000000182,
  dm 0x2700000027 0x17e7 0 0x165b7000165be,
  dm 0x2700000027 0x17e8 0 0x18000000182,
  dm 0 no 0 0x165c3000165d1,
  dm 0x2700000027 0x17eb 0 0x165d5000165df,
  dm 0x2700000027 0x17ec 0 0x165df000165f0,
  dm 0x2700000027 no 0x165f0000165fc 0x165f0000165fc,
  dm 0x23b0000023d 0x17ed 0 0x165fc00016602,
  dm 0x23b0000023d 0x17ee 0 0x1660200016609,
  dm 0x23b0000023d 0x17ef 0 0x1660900016611,
  dm 0 no 0 0x18000000182,
  dm 0 no 0 0x18000000182,
  dm 0 no 0 0x166220001662f]

/-- `__dr_dm`, from item 8000 on (device_repo.go:10272-10771). -/
def drDm_16 : List ModelTuple := [
  dm 0x2a1000002a7 0x17f4 0 0x166390001663e,
  dm 0x2700000027 0x17f5 0 0x4fd100004fd4,
  dm 0x2700000027 0x17f6 0 0xf1440000f147,
  dm 0x2700000027 0x17f7 0 0x88190000881b,
  dm 0x2700000027 no 0x1663e00016644 0x166440001664b,
  dm 0x2700000027 no 0x1664b00016651 0x655e00006560,
  dm 0x2700000027 no 0x1665100016657 0x166570001665a,
  dm 0x2700000027 no 0x1665a00016660 0x10fa900010fab,
  dm 0x2700000027 no 0x1666000016666 0x1666600016669,
  dm 0x2700000027 no 0x166690001666f 0x10fb200010fb4,
  dm 0x2700000027 no 0x1666f00016675 0xd7500000d77,
  dm 0x2700000027 no 0x166750001667b 0x1667b0001667e,
  dm 0x2700000027 no 0x1667e00016684 0x1668400016687,
  dm 0x2700000027 no 0x166870001668d 0x1668d00016690,
  dm 0x2700000027 no 0x1669000016696 0x166960001669a,
  dm 0x2700000027 no 0x1669a000166a0 0x166a0000166a3,
  dm 0x2700000027 no 0x166a3000166a9 0x166a9000166b0,
  dm 0x2700000027 no 0x166b0000166b6 0x166b6000166bd,
  dm 0x2700000027 0x17f8 0 0x18000000182,
  dm 0x2700000027 no 0x166c7000166cd 0x3a7000003a9,
  dm 0x2700000027 0x17fa 0 0x166cd000166d2,
  dm 0x2700000027 no 0x166d2000166db 0x14e8100014e86,
  dm 0x2700000027 no 0x166db000166e2 0x166e2000166e5,
  dm 0x2700000027 no 0x166e5000166ee 0x166ee000166f3,
  dm 0x2700000027 no 0x166f3000166fd 0x166fd00016703,
  dm 0x2700000027 no 0x167030001670f 0x1670f00016717,
  dm 0x2700000027 no 0x167170001671e 0x9cd700009cda,
  dm 0x2700000027 no 0x1671e00016725 0x1672500016728,
  dm 0x2700000027 no 0x167280001672f 0x1672f00016732,
  dm 0x2700000027 no 0x167320001673a 0x1673a0001673e,
  dm 0x2700000027 no 0x1673e00016749 0x1674900016750,
  dm 0x2700000027 no 0x1675000016758 0x167580001675c,
  dm 0x2700000027 no 0x1675c00016765 0x167650001676a,
  dm 0x2700000027 0x17fb 0 0x1676a0001676d,
  dm 0x2700000027 no 0x1676d00016776 0x167760001677b,
  dm 0x2700000027 no 0x1677b00016782 0x1678200016785,
  dm 0x2700000027 no 0x167850001678e 0x5b2600005b2b,
  dm 0x2700000027 no 0x1678e00016795 0xba080000ba0b,
  dm 0x2700000027 no 0x16795000167a0 0x167a0000167a7,
  dm 0x2700000027 no 0x167a7000167ab 0x156e0000156e4,
  dm 0x2700000027 no 0x167ab000167b0 0x12e1d00012e22,
  dm 0x2700000027 0x17fc 0 0x18000000182,
  dm 0x2700000027 no 0x167b0000167b5 0x167650001676a,
  dm 0x2700000027 0x17fe 0 0x167b9000167ca,
  dm 0x2700000027 0x17ff 0 0x167ca000167da,
  dm 0x2700000027 no 0x167da000167e4 0x167e4000167f3,
  dm 0x2700000027 no 0x167f3000167fd 0x167fd0001681b,
  dm 0x2700000027 no 0x1681b00016825 0x168250001682b,
  dm 0x2700000027 no 0x1682b00016835 0x168350001683a,
  dm 0x2700000027 0x1801 0 0x1683f00016843,
  dm 0x2700000027 0x1803 0 0x1684e00016853,
  dm 0x2700000027 0x1804 0 0x1685300016859,
  dm 0 no 0 0x18000000182,
  dm 0x2700000027 no 0x1686800016873 0x1686800016873,
  dm 0x2700000027 no 0x168730001687d 0x1687d00016887,
  dm 0x2a1000002a7 no 0x1688700016895 0x16895000168a3,
  dm 0x2a1000002a7 no 0x168a3000168ab 0x168ab000168b3,
  dm 0x2a1000002a7 no 0x168b3000168ba 0x168ba000168c1,
  dm 0x2700000027 no 0x168c8000168d0 0x168d0000168d9,
  dm 0 no 0 0x6b6d00006b72,
  dm 0x2700000027 0x180a 0 0x30d00000312,
  dm 0x2700000027 0x180b 0 0x168e8000168ee,
  dm 0x2700000027 0x180c 0 0x18000000182,
  dm 0x2700000027 0x180d 0 0x84f1000084f8,
  dm 0x2700000027 0x180e 0 0x168ee000168fb,
  dm 0x2700000027 0x1810 0 0x169000001690d,
  dm 0x2700000027 0x1811 0 0x1690d00016914,
  dm 0x2700000027 0x1812 0 0x169140001691f,
  dm 0x2700000027 0x1813 0 0x1691f00016930,
  dm 0x2700000027 0x1814 0 0x1693000016942,
  dm 0x2700000027 0x1815 0 0x1694200016953,
  dm 0x2700000027 0x1816 0 0x169530001695f,
  dm 0x2700000027 0x1817 0 0x1695f0001696c,
  dm 0x2700000027 0x1818 0 0x1696c0001697d,
  dm 0x2700000027 0x1819 0 0x1697d00016989,
  dm 0x2700000027 0x181a 0 0x1698900016994,
  dm 0x2700000027 0x181b 0 0x169940001699e,
  dm 0x2700000027 0x181c 0 0x1699e000169a9,
  dm 0x2700000027 no 0x169a9000169b5 0x169b5000169c3,
  dm 0x2700000027 0x181d 0 0x1231f00012327,
  dm 0x2700000027 0x181e 0 0x18000000182,
  dm 0x2a1000002a7 0x181f 0 0x169c3000169d6,
  dm 0x2a1000002a7 0x1820 0 0x169d6000169ee,
  dm 0x2a1000002a7 0x1821 0 0x169ee000169f8,
  dm 0x2a1000002a7 0x1822 0 0x169f800016a03,
  dm 0x2a1000002a7 0x1823 0 0x16a0300016a10,
  dm 0x2a1000002a7 0x1824 0 0x16a1000016a1d,
  dm 0 no 0 0x18000000182,
  dm 0 no 0 0x18000000182,
  dm 0x2700000027 0x1828 0 0x16a3200016a35,
  dm 0x2700000027 0x1829 0 0x16a3500016a38,
  dm 0x2700000027 no 0x16a3800016a46 0x61240000612b,
  dm 0x2700000027 no 0x16a4600016a50 0xb44f0000b452,
  dm 0x2700000027 0x182a 0 0x18000000182,
  dm 0x2700000027 0x182c 0 0x16a5600016a58,
  dm 0x2700000027 0x182d 0 0x1c8700001c89,
  dm 0x2700000027 0x182e 0 0x18000000182,
  dm 0 no 0 0x558300005589,
  dm 0x2700000027 0x1831 0 0x18000000182,
  dm 0x2700000027 0x1832 0 0x16a6400016a71,
  dm 0x2700000027 0x1833 0 0x16a7100016a7b,
  dm 0x2700000027 no 0x16a7b00016a81 0x16a8100016a8c,
  dm 0 no 0 0x16a9500016a9b,
  dm 0 no 0 0x18000000182,
  dm 0x2700000027 0x1836 0 0x9a3a00009a3f,
  dm 0x2700000027 0x1837 0 0x16aad00016ab4,
  dm 0x2700000027 no 0x16abb00016ac1 0x16ac100016acc,
  dm 0 no 0 0x16ad200016ada,
  dm 0x2700000027 0x1839 0 0x18000000182,
  dm 0x2700000027 0x183b 0 0xb1ba0000b1bc,
  dm 0 no 0 0x18000000182,
  dm 0 no 0 0x18000000182,
  dm 0 no 0 0x18000000182,
  dm 0 no 0 0x18000000182,
  dm 0x2700000027 no 0x16b1300016b1b 0x16b1b00016b24,
  dm 0x7cc000007d6 no 0x16b2400016b2c 0x16b2c00016b3a,
  dm 0x2700000027 no 0x16b3a00016b43 0x16b4300016b52,
  dm 0x2700000027 0x1842 0 0x18000000182,
  dm 0x2a1000002a7 no 0x16b5800016b60 0x16b6000016b68,
  dm 0 no 0 0x18000000182,
  dm 0 no 0 0x18000000182,
  dm 0x2700000027 0x1846 0 0x18000000182,
  dm 0x2a1000002a7 0x1847 0 0x18000000182,
  dm 0 no 0 0x16b7e00016b84,
  dm 0x2700000027 0x184a 0 0x18000000182,
  dm 0x2700000027 0x184b 0 0x18000000182,
  dm 0x2700000027 no 0x16b9900016ba2 0x16b9900016ba2,
  dm 0x2700000027 no 0x16ba200016bad 0x16ba200016bad,
  dm 0x2700000027 no 0x16bad00016bb9 0x16bb900016bc5,
  dm 0x2700000027 no 0x16bc500016bcc 0x16bcc00016bd3,
  dm 0x2700000027 no 0x16bd300016bda 0x16bda00016bdc,
  dm 0x2700000027 no 0x16bdc00016be0 0x16bdc00016be0,
  dm 0x2700000027 no 0x16be000016bec 0x16be000016bec,
  dm 0x2700000027 no 0x16bec00016bf7 0x16bec00016bf7,
  dm 0x2700000027 0x184d 0 0x16bf700016bfc,
  dm 0x2700000027 0x184e 0 0x16bfc00016c01,
  dm 0x2700000027 0x184f 0 0x18000000182,
  dm 0x2700000027 0x1851 0 0x18000000182,
  dm 0x2700000027 no 0x16c0900016c12 0x16c1200016c1e,
  dm 0x2700000027 no 0x16c1e00016c27 0x16c2700016c2d,
  dm 0x2700000027 no 0x16c2d00016c37 0x16c3700016c3e,
  dm 0x2700000027 no 0x16c3e00016c48 0x16c4800016c4f,
  dm 0x2700000027 no 0x16c4f00016c5a 0x16c5a00016c62,
  dm 0x2700000027 no 0x16c6200016c6c 0x16c6c00016c74,
  dm 0x2700000027 no 0x16c7400016c7f 0x16c7f00016c86,
  dm 0x2700000027 no 0x16c8600016c92 0x16c9200016c9a,
  dm 0x2700000027 no 0x16c9a00016ca5 0x16ca500016cac,
  dm 0x2700000027 no 0x16cac00016cb4 0x16cb400016cbd,
  dm 0x2700000027 no 0x16cbd00016cc6 0x16cc600016cd3,
  dm 0x2700000027 no 0x16cd300016cdc 0x3f3100003f32,
  dm 0x2700000027 no 0x16cdc00016ce4 0x16ce400016ce8,
  dm 0x2700000027 no 0x16ce800016cee 0x16cee00016cf7,
  dm 0x2700000027 0x1852 0 0xfcdb0000fce2,
  dm 0 no 0 0x18000000182,
  dm 0x2700000027 0x1855 0 0x18000000182,
  dm 0x2700000027 0x1856 0 0x18000000182,
  dm 0x2700000027 0x1857 0 0x18000000182,
  dm 0 no 0 0x18000000182,
  dm 0x2700000027 0x185a 0 0x18000000182,
  dm 0x2700000027 0x185b 0 0x18000000182,
  dm 0x2700000027 0x185c 0 0x18000000182,
  dm 0x2a1000002a7 0x185d 0 0x18000000182,
  dm 0x2700000027 0x185f 0 0x1453500014536,
  dm 0x2700000027 0x1860 0 0x1cfb00001cfc,
  dm 0x2700000027 0x1861 0 0x1d2d00001d2e,
  dm 0x2700000027 0x1862 0 0x16d1f00016d20,
  dm 0x2700000027 no 0x16d2000016d27 0x1d3f00001d40,
  dm 0x2700000027 0x1863 0 0x3f3100003f32,
  dm 0x2700000027 no 0x16d2700016d36 0x16d3600016d3f,
  dm 0x2700000027 no 0x16d3f00016d4b 0x16d4b00016d51,
  dm 0x2700000027 0x1864 0 0x16d5100016d59,
  dm 0x2700000027 0x1865 0 0x16d5900016d61,
  dm 0x2700000027 0x1866 0 0x16d6100016d69,
  dm 0x2700000027 no 0x16d6900016d75 0x16d7500016d7b,
  dm 0x2700000027 0x1867 0 0x16d7b00016d84,
  dm 0x2700000027 no 0x16d8400016d93 0x16d9300016d9b,
  dm 0x2700000027 0x1868 0 0x16d9b00016d9d,
  dm 0x2700000027 no 0x16d9d00016da3 0x16da300016da7,
  dm 0x2700000027 no 0x16da700016dad 0x16dad00016db1,
  dm 0x2700000027 no 0x16db100016db7 0x16db700016dbb,
  dm 0x2700000027 no 0x16dbb00016dc1 0xac3d0000ac41,
  dm 0x2700000027 no 0x16dc100016dc8 0x16dc800016dcf,
  dm 0x2700000027 no 0x16dcf00016dd5 0xab6b0000ab6f,
  dm 0x2700000027 no 0x16dd500016ddc 0x16ddc00016de3,
  dm 0x2700000027 0x1869 0 0x16de300016dea,
  dm 0x2700000027 no 0x16dea00016df4 0x16df400016df8,
  dm 0x2700000027 0x186a 0 0x16df800016e00,
  dm 0x2700000027 0x186b 0 0x16e0000016e10,
  dm 0x2700000027 no 0x16e1000016e19 0x16e1900016e1e,
  dm 0x2700000027 no 0x16e1e00016e27 0x16e2700016e2b,
  dm 0x2700000027 no 0x16e2b00016e37 0x16e3700016e47,
  dm 0x2700000027 no 0x16e4700016e59 0x16e5900016e62,
  dm 0x2700000027 0x186c 0 0x16e6200016e6f,
  dm 0x2700000027 no 0x16e6f00016e7a 0x16e7a00016e7e,
  dm 0x2700000027 no 0x16e7e00016e89 0x16e8900016e8d,
  dm 0x2700000027 no 0x16e8d00016e98 0x16e9800016e9c,
  dm 0x2700000027 no 0x16e9c00016ea7 0x16ea700016eab,
  dm 0x2700000027 no 0x16eab00016eb6 0x16eb600016eba,
  dm 0x2700000027 0x186d 0 0x16eba00016ec6,
  dm 0x2700000027 0x186e 0 0x16ec600016ed0,
  dm 0x2700000027 0x186f 0 0x16ed000016ed8,
  dm 0x2700000027 0x1870 0 0x16ed800016edf,
  dm 0x2700000027 0x1871 0 0x16edf00016ee8,
  dm 0x2700000027 0x1872 0 0x18000000182,
  dm 0x2700000027 0x1873 0 0x16ee800016eef,
  dm 0x2700000027 0x1874 0 0x18000000182,
  dm 0x2700000027 0x1875 0 0x16eef00016ef9,
  dm 0x2700000027 0x1876 0 0x16ef900016f02,
  dm 0x2700000027 0x1877 0 0x16f0200016f0b,
  dm 0x2700000027 no 0x16f0b00016f11 0x16f1100016f1a,
  dm 0x2700000027 0x1878 0 0x16f1a00016f23,
  dm 0x2700000027 0x1879 0 0x16f2300016f2c,
  dm 0x2700000027 no 0x16f2c00016f33 0x16f3300016f3c,
  dm 0x2700000027 0x187a 0 0x16f3c00016f45,
  dm 0x2700000027 0x187b 0 0x16f4500016f4f,
  dm 0x2700000027 no 0x16f4f00016f55 0x16f5500016f5e,
  dm 0x2700000027 no 0x16f5e00016f67 0x16f5e00016f67,
  dm 0x2700000027 0x187c 0 0x16f6700016f70,
  dm 0x2700000027 0x187d 0 0x16f7000016f7a,
  dm 0x2700000027 0x187e 0 0x16f7a00016f83,
  dm 0x2700000027 no 0x16f8300016f8c 0x16f8c00016f95,
  dm 0x2700000027 no 0x16f9500016f9b 0x16f9b00016fa4,
  dm 0x2700000027 0x187f 0 0x16fa400016fad,
  dm 0x2700000027 0x1880 0 0x16fad00016fb6,
  dm 0x2700000027 0x1881 0 0x16fb600016fbf,
  dm 0x2700000027 no 0x16fbf00016fc8 0x16fc800016fd2,
  dm 0x2700000027 no 0x16fd200016fd9 0x16fd900016fe2,
  dm 0x2700000027 0x1882 0 0x16fe200016fec,
  dm 0x2700000027 0x1883 0 0x16fec00016ff8,
  dm 0x2a1000002a7 0x1884 0 0x16ff800016ffb,
  dm 0x23b0000023d 0x1885 0 0x16ffb00017007,
  dm 0x2700000027 0x1886 0 0x18000000182,
  dm 0x2700000027 0x1887 0 0x18000000182,
  dm 0x2700000027 0x1888 0 0x8a5c00008a5f,
  dm 0x2700000027 0x1889 0 0x18000000182,
  dm 0x2700000027 0x188a 0 0x18000000182,
  dm 0x2700000027 0x188b 0 0x18000000182,
  dm 0xdfd00000e04 0x188c 0 0x18000000182,
  dm 0x2700000027 0x188d 0 0x18000000182,
  dm 0x2700000027 0x188e 0 0x18000000182,
  dm 0x2700000027 no 0x1700700017012 0x1701200017016,
  dm 0x2700000027 0x188f 0 0x2700000027,
  dm 0x2700000027 0x1890 0 0x18000000182,
  dm 0x2700000027 0x1891 0 0x18000000182,
  dm 0x39a000003a7 0x1892 0 0x18000000182,
  dm 0x2700000027 0x1894 0 0x1701a00017020,
  dm 0x2700000027 0x1895 0 0x1702000017025,
  dm 0x2700000027 0x1896 0 0x170250001702b,
  dm 0x2700000027 0x1897 0 0x1702b00017031,
  dm 0x2700000027 0x1898 0 0x170310001703b,
  dm 0x2700000027 0x1899 0 0x1703b00017049,
  dm 0x2700000027 0x189a 0 0x170490001704f,
  dm 0x2700000027 0x189b 0 0x1704f00017055,
  dm 0x2700000027 0x189c 0 0x170550001705c,
  dm 0x2700000027 0x189d 0 0x1705c00017062,
  dm 0x2700000027 0x189e 0 0x1706200017068,
  dm 0x2700000027 0x189f 0 0x170680001706e,
  dm 0x2700000027 0x18a0 0 0x1706e00017073,
  dm 0x2700000027 0x18a1 0 0x1707300017079,
  dm 0x2700000027 0x18a2 0 0x170790001707e,
  dm 0x2700000027 0x18a3 0 0x1707e00017084,
  dm 0x2700000027 0x18a4 0 0x170840001708b,
  dm 0x2700000027 0x18a5 0 0x1708b00017093,
  dm 0x2700000027 0x18a6 0 0x170930001709a,
  dm 0x2700000027 0x18a7 0 0x1709a000170a1,
  dm 0x2700000027 0x18a8 0 0x170a1000170a9,
  dm 0x2700000027 0x18a9 0 0x170a9000170b4,
  dm 0x2700000027 0x18aa 0 0xa0450000a04b,
  dm 0x2700000027 0x18ab 0 0x8a5900008a5c,
  dm 0x2700000027 0x18ac 0 0x5b2600005b2b,
  dm 0x2700000027 0x18ad 0 0x170b4000170b8,
  dm 0x2700000027 0x18ae 0 0x135780001357d,
  dm 0x2700000027 0x18af 0 0x1940000019b,
  dm 0x23b0000023d 0x18b0 0 0x18000000182,
  dm 0x2a1000002a7 no 0x170b8000170c6 0x170c6000170cd,
  dm 0x2a1000002a7 0x18b1 0 0x170cd000170d8,
  dm 0x2a1000002a7 0x18b2 0 0x170d8000170e3,
  dm 0x2a1000002a7 0x18b3 0 0x170e3000170ed,
  dm 0x2a1000002a7 0x18b4 0 0x170ed000170f7,
  dm 0x2a1000002a7 0x18b5 0 0x170f700017102,
  dm 0x2a1000002a7 0x18b6 0 0x1710200017111,
  dm 0x2a1000002a7 0x18b7 0 0x1711100017116,
  dm 0x2a1000002a7 0x18b8 0 0x171160001711f,
  dm 0x2a1000002a7 0x18b9 0 0x1711f00017126,
  dm 0x2a1000002a7 0x18ba 0 0x1712600017131,
  dm 0x2a1000002a7 0x18bb 0 0x171310001713b,
  dm 0x2a1000002a7 0x18bc 0 0x1713b0001714b,
  dm 0x2a1000002a7 0x18bd 0 0x1714b00017156,
  dm 0x2a1000002a7 0x18be 0 0x1715600017165,
  dm 0x2a1000002a7 0x18bf 0 0x171650001716f,
  dm 0x2a1000002a7 0x18c0 0 0x1716f00017179,
  dm 0x2a1000002a7 0x18c1 0 0x1717900017184,
  dm 0x2a1000002a7 0x18c2 0 0x171840001718e,
  dm 0x2a1000002a7 0x18c3 0 0x106ca000106cf,
  dm 0x2a1000002a7 0x18c4 0 0x1718e00017199,
  dm 0x2a1000002a7 0x18c5 0 0x18000000182,
  dm 0x2700000027 0x18c6 0 0x18000000182,
  dm 0x2700000027 0x18c7 0 0x18000000182,
  dm 0x2700000027 0x18c9 0 0x1719d000171a0,
  dm 0x2700000027 0x18ca 0 0x11af200011af5,
  dm 0x2700000027 0x18cb 0 0x171a0000171a8,
  dm 0x2700000027 0x18cc 0 0x171a8000171ab,
  dm 0x2700000027 0x18cd 0 0x87ac000087b3,
  dm 0x2700000027 0x18ce 0 0x18000000182,
  dm 0x2700000027 0x18cf 0 0x18000000182,
  dm 0 no 0 0x18000000182,
  dm 0x2700000027 0x18d2 0 0x18000000182,
  dm 0 no 0 0x171d5000171e3,
  dm 0x2700000027 0x18d5 0 0x162e7000162eb,
  dm 0x2700000027 0x18d6 0 0x171e6000171ee,
  dm 0x2700000027 0x18d7 0 0x171ee000171f5,
  dm 0x2700000027 0x18d8 0 0x171f5000171f9,
  dm 0x2700000027 0x18d9 0 0x171f900017200,
  dm 0x2700000027 0x18da 0 0x1720000017204,
  dm 0x2700000027 0x18dc 0 0x5e9500005e9c,
  dm 0x2700000027 0x18dd 0 0x1720b00017212,
  dm 0x2700000027 no 0x1721200017217 0x1721700017224,
  dm 0x2700000027 0x18de 0 0x172240001722c,
  dm 0x2700000027 no 0x1722c00017231 0x172310001723d,
  dm 0x2700000027 no 0x1723d00017241 0x1724100017249,
  dm 0x2700000027 0x18e0 0 0x1724d00017253,
  dm 0x2700000027 0x18e1 0 0x18000000182,
  dm 0x2700000027 0x18e2 0 0x1726300017273,
  dm 0x2700000027 0x18e3 0 0x172730001727e,
  dm 0 no 0 0x18000000182,
  dm 0x2700000027 0x18e6 0 0x1728800017290,
  dm 0x2700000027 0x18e7 0 0x1729000017299,
  dm 0x2700000027 no 0x17299000172a0 0x17299000172a0,
  dm 0x2700000027 0x18e8 0 0x18000000182,
  dm 0 no 0 0x18000000182,
  dm 0 no 0 0x172ac000172b8,
  dm 0 no 0 0x18000000182,
  dm 0x2a1000002a7 0x18ed 0 0x172c5000172d9,
  dm 0x2a1000002a7 no 0x172d9000172de 0x172de000172ed,
  dm 0x2a1000002a7 0x18ee 0 0x172ed000172ff,
  dm 0x2700000027 no 0x172ff00017306 0x173060001730f,
  dm 0x2700000027 no 0x1730f00017315 0x173150001731c,
  dm 0x2700000027 0x18ef 0 0x1731c00017327,
  dm 0x2700000027 no 0x173270001732c 0x1732c00017332,
  dm 0x2700000027 no 0x1733200017338 0x1733800017340,
  dm 0x2700000027 no 0x1734000017345 0x173450001734a,
  dm 0x2700000027 no 0x1734a0001734f 0x1734f00017356,
  dm 0x2700000027 no 0x173560001735c 0x1735c00017368,
  dm 0x2700000027 no 0x173680001736e 0x1736e00017376,
  dm 0x2700000027 no 0x173760001737c 0x1737c0001737f,
  dm 0x2700000027 no 0x1737f00017385 0x173850001738e,
  dm 0x2700000027 no 0x1738e00017394 0x173940001739c,
  dm 0x2700000027 no 0x1739c000173a2 0x173a2000173ab,
  dm 0x2700000027 no 0x173ab000173b1 0x173b1000173b8,
  dm 0x2700000027 no 0x173b8000173be 0x173be000173c5,
  dm 0x2700000027 no 0x173c5000173cb 0x173cb000173d3,
  dm 0x2700000027 no 0x173d3000173d9 0x173d9000173e2,
  dm 0x2700000027 no 0x173e2000173e8 0x173e8000173f2,
  dm 0x2700000027 no 0x173f2000173f8 0x173f80001740e,
  dm 0x2700000027 no 0x1740e00017414 0x1741400017423,
  dm 0x2700000027 no 0x1742300017429 0x1742900017438,
  dm 0x2700000027 no 0x174380001743e 0x1743e0001744d,
  dm 0x2700000027 no 0x1744d00017453 0x1745300017463,
  dm 0x2700000027 no 0x1746300017469 0x1746900017479,
  dm 0x2700000027 no 0x174790001747f 0x1747f0001748f,
  dm 0x2700000027 0x18f0 0 0x1748f0001749a,
  dm 0x2700000027 no 0x1749a000174a0 0x174a0000174ab,
  dm 0x2700000027 no 0x174ab000174b1 0x174b1000174bd,
  dm 0x2700000027 no 0x174bd000174c3 0x174c3000174d1,
  dm 0x2700000027 no 0x174d1000174d7 0x174d7000174e2,
  dm 0x2700000027 0x18f1 0 0x174e2000174e9,
  dm 0x2700000027 0x18f2 0 0x174e9000174f1,
  dm 0x2700000027 no 0x174f1000174f7 0x174f7000174fa,
  dm 0x2700000027 no 0x174fa00017500 0x1750000017502,
  dm 0x2700000027 no 0x1750200017508 0x175080001750f,
  dm 0x2700000027 no 0x1750f00017515 0x175150001751b,
  dm 0x2700000027 no 0x1751b00017521 0x1752100017523,
  dm 0x2700000027 0x18f3 0 0x175230001752a,
  dm 0x2700000027 0x18f4 0 0x1752a00017530,
  dm 0x2700000027 no 0x1753000017536 0x1753600017541,
  dm 0x2700000027 no 0x1754100017547 0x175470001754a,
  dm 0x2700000027 no 0x1754a00017553 0x175530001755a,
  dm 0x2700000027 0x18f5 0 0x1755a00017564,
  dm 0x2700000027 0x18f6 0 0x175640001756c,
  dm 0x2700000027 no 0x1756c00017572 0x1757200017575,
  dm 0x2700000027 no 0x175750001757b 0x1757b0001757f,
  dm 0x2700000027 no 0x1757f00017585 0x175850001758d,
  dm 0x2700000027 no 0x1758d00017593 0x1457b0001457d,
  dm 0x2700000027 no 0x1759300017599 0x175990001759c,
  dm 0x2700000027 0x18f7 0 0x1759c000175a4,
  dm 0x2700000027 no 0x175a4000175aa 0x175aa000175b4,
  dm 0x2700000027 no 0x175b4000175ba 0x175ba000175c2,
  dm 0x2700000027 no 0x175c2000175c8 0x175c8000175cc,
  dm 0x2700000027 no 0x175cc000175d2 0x175d2000175d5,
  dm 0x2700000027 no 0x175d5000175db 0x175db000175de,
  dm 0x2700000027 no 0x175de000175e4 0x175e4000175ec,
  dm 0x2700000027 no 0x175ec000175f2 0x175f2000175fb,
  dm 0x2700000027 no 0x175fb00017601 0xca0c0000ca0e,
  dm 0x2700000027 no 0x1760100017607 0x1760700017610,
  dm 0x2700000027 no 0x1761000017616 0x1761600017622,
  dm 0x2700000027 no 0x1762200017628 0x135170001351b,
  dm 0x2700000027 no 0x176280001762e 0x1762e00017635,
  dm 0x2700000027 no 0x176350001763b 0x1763b00017642,
  dm 0x2700000027 no 0x1764200017648 0x176480001764a,
  dm 0x2700000027 no 0x1764a00017650 0x1765000017657,
  dm 0x2700000027 no 0x176570001765d 0x1765d0001765f,
  dm 0x2700000027 0x18f8 0 0x1765f00017661,
  dm 0x2700000027 no 0x176610001766b 0x1766b0001766e,
  dm 0x2700000027 0x18f9 0 0x18000000182,
  dm 0x2700000027 0x18fb 0 0x18000000182,
  dm 0x2700000027 0x18fc 0 0x18000000182,
  dm 0x2700000027 0x18fd 0 0x1767200017676,
  dm 0x2700000027 no 0x1767c0001768b 0x1768b0001769b,
  dm 0x2700000027 0x18ff 0 0x1769b000176a8,
  dm 0x2700000027 0x1900 0 0x18000000182,
  dm 0x23b0000023d 0x1901 0 0x176a8000176b9,
  dm 0x23b0000023d no 0x176b9000176cf 0x176cf000176dc,
  dm 0x23b0000023d no 0x176dc000176e9 0x176e9000176f2,
  dm 0x1060000010d no 0x176f2000176f8 0x176f800017707,
  dm 0x2700000027 0x1903 0 0x18000000182,
  dm 0x2700000027 0x1904 0 0x177090001770c,
  dm 0x2700000027 0x1905 0 0x1770c00017716,
  dm 0x2700000027 0x1906 0 0x177160001771c,
  dm 0x2700000027 0x1907 0 0x1771c0001772e,
  dm 0x2700000027 0x1908 0 0x1772e0001773c,
  dm 0x2700000027 0x1909 0 0x1773c00017745,
  dm 0x2700000027 0x190a 0 0x26000000263,
  dm 0x2a1000002a7 0x190b 0 0x1774500017750,
  dm 0x2a1000002a7 0x190c 0 0x1775000017756,
  dm 0x23b0000023d 0x190e 0 0x62270000622d,
  dm 0x2700000027 0x190f 0 0x18000000182,
  dm 0x2700000027 0x1910 0 0x18000000182,
  dm 0x39a000003a7 0x1911 0 0x18000000182,
  dm 0x2700000027 0x1912 0 0x18000000182,
  dm 0x2700000027 0x1913 0 0x18000000182,
  dm 0 no 0 0x18000000182,
  dm 0 no 0 0x18000000182,
  dm 0 no 0 0x18000000182,
  dm 0x2700000027 no 0x1776a0001776f 0x106ca000106cf,
  dm 0x2700000027 0x1918 0 0x1776f00017776,
  dm 0x2700000027 0x191a 0 0x18000000182,
  dm 0x2700000027 no 0x1777e00017786 0x1777e00017786,
  dm 0x2700000027 no 0x177860001778c 0x177860001778c,
  dm 0x2700000027 no 0x1778c00017793 0x1778c00017793,
  dm 0x2700000027 0x191c 0 0x2ac600002ac9,
  dm 0x2700000027 0x191e 0 0x18000000182,
  dm 0x23b0000023d 0x191f 0 0x18000000182,
  dm 0x23b0000023d no 0x17796000177a1 0x177a1000177ac,
  dm 0x2700000027 0x1921 0 0x18000000182,
  dm 0x2700000027 0x1922 0 0x18000000182,
  dm 0x2700000027 0x1923 0 0x177b0000177be,
  dm 0x2700000027 no 0xa7270000a72f 0xe3400000e3c,
  dm 0x2700000027 0x1925 0 0x177c7000177cf,
  dm 0x2700000027 no 0x177cf000177d7 0x177d7000177e1,
  dm 0x2700000027 no 0x177e1000177eb 0x136360001363e,
  dm 0x2700000027 no 0x177eb000177f4 0x177f400017803,
  dm 0x2700000027 no 0x178030001780b 0x1780b00017815,
  dm 0x2700000027 no 0x178150001781f 0x1781f0001782b,
  dm 0x2700000027 no 0x1782b00017835 0x1783500017841,
  dm 0x2700000027 no 0x1784100017846 0x178460001784c,
  dm 0x2700000027 no 0x1784c00017851 0x1785100017857,
  dm 0x2700000027 0x1926 0 0x1785700017862,
  dm 0x2700000027 0x1927 0 0x178620001786e,
  dm 0x2700000027 no 0x1786e00017877 0x1786e00017877,
  dm 0x2700000027 0x1928 0 0x178770001787f,
  dm 0x2700000027 0x1929 0 0x1787f00017888,
  dm 0x2700000027 no 0x1788800017890 0x1789000017896,
  dm 0x2700000027 no 0x178960001789d 0x1789d000178a4,
  dm 0x2700000027 no 0x178a4000178ac 0x178ac000178b6,
  dm 0x2700000027 no 0x178b6000178c0 0x178c0000178ce,
  dm 0x2700000027 0x192a 0 0x178ce000178dd,
  dm 0x2700000027 0x192b 0 0x178dd000178e9,
  dm 0x2700000027 no 0x178e9000178f5 0x178f500017904,
  dm 0x2700000027 0x192d 0 0x179080001790b,
  dm 0x2700000027 0x192e 0 0x1790b00017911,
  dm 0x2700000027 no 0x179110001791a 0x1791a00017920,
  dm 0x2700000027 0x192f 0 0x1792000017926,
  dm 0x2700000027 0x1930 0 0x179260001792c,
  dm 0x2700000027 no 0x1792c00017933 0x1793300017936,
  dm 0x2700000027 no 0x179360001793d 0x1793d00017940,
  dm 0x2700000027 no 0x1794000017946 0x179460001794c,
  dm 0x2700000027 no 0x1794c00017952 0x1795200017957,
  dm 0x2700000027 no 0x179570001795d 0x1795d00017966,
  dm 0x2700000027 0x1931 0 0x179660001796b,
  dm 0x2700000027 no 0x1796b00017971 0x1797100017977,
  dm 0x2700000027 0x1932 0 0x1797700017980,
  dm 0x2700000027 no 0x1798000017987 0x179870001798d,
  dm 0x2700000027 0x1933 0 0x1798d00017996,
  dm 0x2700000027 no 0x179960001799c 0x1799c000179a5,
  dm 0x2700000027 0x1934 0 0x179a5000179a9,
  dm 0x2700000027 0x1935 0 0x179a9000179ac,
  dm 0x2700000027 0x1936 0 0x179ac000179b0,
  dm 0x2700000027 0x1937 0 0x179b0000179b4,
  dm 0x2700000027 no 0x179b4000179bb 0x179bb000179bf,
  dm 0x2700000027 0x1938 0 0x179bf000179c3,
  dm 0x2700000027 no 0x179c3000179ca 0x179ca000179cd,
  dm 0x2700000027 no 0x179cd000179d4 0x179d4000179d8,
  dm 0x2700000027 no 0x179d8000179df 0x166570001665a,
  dm 0x2700000027 no 0x179df000179e5 0x179a5000179a9,
  dm 0x2700000027 no 0x179e5000179ec 0x179ec000179ef,
  dm 0x2700000027 no 0x179ef000179f6 0x179f6000179fa,
  dm 0x2700000027 no 0x179fa00017a01 0x17a0100017a04,
  dm 0x2700000027 0x1939 0 0x17a0400017a07,
  dm 0x2700000027 no 0x17a0700017a0e 0x17a0e00017a11,
  dm 0x2700000027 0x193a 0 0x193300001935]

/-- `__dr_dm`, from item 8500 on (device_repo.go:10772-11271). -/
def drDm_17 : List ModelTuple := [
  dm 0x2700000027 0x193b 0 0x17a1100017a17,
  dm 0x2700000027 0x193c 0 0x17a1700017a1b,
  dm 0x2700000027 0x193d 0 0x17a1b00017a1e,
  dm 0x2700000027 0x193e 0 0x17a1e00017a21,
  dm 0x2700000027 0x193f 0 0x17a2100017a24,
  dm 0x2700000027 0x1940 0 0x17a2400017a27,
  dm 0x2700000027 0x1941 0 0x17a2700017a2a,
  dm 0x2700000027 0x1942 0 0x6a7700006a7a,
  dm 0x2700000027 0x1943 0 0x196000001962,
  dm 0x2700000027 no 0x17a2a00017a30 0x17a3000017a39,
  dm 0x2700000027 no 0x17a3900017a3f 0x17a3f00017a44,
  dm 0x2700000027 no 0x17a4400017a4b 0x17a4b00017a54,
  dm 0x2700000027 0x1944 0 0x17a5400017a5d,
  dm 0x2700000027 0x1945 0 0x17a5d00017a63,
  dm 0x2700000027 0x1946 0 0x17a6300017a66,
  dm 0x2700000027 0x1947 0 0x17a6600017a69,
  dm 0x2700000027 0x1948 0 0x17a6900017a6c,
  dm 0x2700000027 0x1949 0 0x17a6c00017a6f,
  dm 0x2700000027 0x194a 0 0x17a6f00017a73,
  dm 0x2700000027 0x194b 0 0x17a7300017a7a,
  dm 0x2700000027 0x194c 0 0x17a7a00017a80,
  dm 0x2700000027 0x194d 0 0x17a8000017a83,
  dm 0x2700000027 0x194e 0 0x17a8300017a87,
  dm 0x2700000027 0x194f 0 0x17a8700017a8d,
  dm 0x2700000027 no 0x17a8d00017a94 0x17a9400017a97,
  dm 0x2700000027 0x1950 0 0x17a9700017a9a,
  dm 0x2700000027 no 0x17a9a00017aa1 0x17aa100017aa7,
  dm 0x2700000027 0x1951 0 0x17aa700017aae,
  dm 0x2700000027 no 0x17aae00017ab4 0x17ab400017aba,
  dm 0x2700000027 0x1952 0 0x17aba00017abd,
  dm 0x2700000027 0x1953 0 0x17abd00017ac7,
  dm 0x2700000027 no 0x17ac700017acd 0x1791a00017920,
  dm 0x2700000027 no 0x17acd00017ad4 0x17ad400017ad7,
  dm 0x2700000027 no 0x17ad700017add 0x17add00017ae0,
  dm 0x2700000027 no 0x17ae000017ae6 0x17ae600017ae9,
  dm 0x2700000027 0x1954 0 0x17ae900017aec,
  dm 0x2700000027 no 0x17aec00017af3 0x17af300017af6,
  dm 0x2700000027 no 0x17af600017afd 0x17afd00017b04,
  dm 0x2700000027 0x1955 0 0x197700001979,
  dm 0x2700000027 0x1956 0 0x17b0400017b07,
  dm 0x2700000027 0x1957 0 0x17b0700017b11,
  dm 0x2700000027 0x1958 0 0xf9b80000f9bb,
  dm 0x2700000027 0x1959 0 0x17b1100017b17,
  dm 0x2700000027 0x195a 0 0x17b1700017b1a,
  dm 0x2700000027 0x195b 0 0x17b1a00017b20,
  dm 0x2700000027 0x195c 0 0x17b2000017b27,
  dm 0x2700000027 no 0x17b2700017b2e 0x17b2e00017b31,
  dm 0x2700000027 0x195d 0 0x17b3100017b34,
  dm 0x2700000027 0x195e 0 0x17b3400017b3a,
  dm 0x2700000027 0x195f 0 0x17b3a00017b40,
  dm 0x2700000027 0x1960 0 0x17b4000017b43,
  dm 0x2700000027 0x1961 0 0x17b4300017b46,
  dm 0x2700000027 0x1962 0 0x17b4600017b4c,
  dm 0x2700000027 0x1963 0 0x17b4c00017b50,
  dm 0x2700000027 0x1964 0 0x17b5000017b53,
  dm 0x2700000027 0x1965 0 0x17b5300017b56,
  dm 0x2700000027 0x1966 0 0x12aca00012acc,
  dm 0x2700000027 0x1967 0 0x17b5600017b59,
  dm 0x2700000027 0x1968 0 0x17b5900017b63,
  dm 0x2700000027 0x1969 0 0x4a5000004a7,
  dm 0x2700000027 0x196a 0 0x17b6300017b6c,
  dm 0x2700000027 0x196b 0 0x79070000790a,
  dm 0x2700000027 0x196c 0 0x17b6c00017b6f,
  dm 0x2700000027 0x196d 0 0x17b6f00017b73,
  dm 0x2700000027 0x196e 0 0x17b7300017b76,
  dm 0x2700000027 0x196f 0 0x17b7600017b7a,
  dm 0x2700000027 no 0x17b7a00017b80 0x17b8000017b86,
  dm 0x2700000027 no 0x17b8600017b8d 0x17b8d00017b93,
  dm 0x2700000027 0x1970 0 0x17b9300017b96,
  dm 0x2700000027 0x1971 0 0x17ae600017ae9,
  dm 0x2700000027 0x1972 0 0x17b1a00017b20,
  dm 0x2700000027 no 0x17b9600017b9c 0x17b9c00017ba2,
  dm 0x2700000027 0x1973 0 0x17ba200017ba8,
  dm 0x2700000027 0x1974 0 0x17ba800017bab,
  dm 0x2700000027 0x1975 0 0x17bab00017bae,
  dm 0x2700000027 0x1976 0 0x17bae00017bb2,
  dm 0x2700000027 0x1977 0 0x17bb200017bb5,
  dm 0x2700000027 no 0x17bb500017bbc 0x17bbc00017bc3,
  dm 0x2700000027 0x1978 0 0x17bc300017bcb,
  dm 0x2700000027 0x1979 0 0x17bcb00017bd2,
  dm 0x2700000027 no 0x17bd200017bd9 0x17bd900017bdf,
  dm 0x2700000027 no 0x17bdf00017be6 0x17be600017bef,
  dm 0x2700000027 no 0x17bef00017bf6 0x17bf600017c01,
  dm 0x2700000027 0x197a 0 0x17c0100017c04,
  dm 0x2700000027 0x197b 0 0x17c0400017c0b,
  dm 0x2700000027 0x197c 0 0x17c0b00017c0e,
  dm 0x2700000027 0x197d 0 0x17c0e00017c15,
  dm 0x2700000027 0x197e 0 0x17c1500017c18,
  dm 0x2700000027 0x197f 0 0x17c1800017c1a,
  dm 0x2700000027 0x1980 0 0x17c1a00017c21,
  dm 0x2700000027 0x1981 0 0x1380d0001380f,
  dm 0x2700000027 0x1982 0 0x17c2100017c29,
  dm 0x2700000027 0x1983 0 0x78fc000078fe,
  dm 0x2700000027 no 0x17c2900017c31 0x17c2900017c31,
  dm 0x2700000027 0x1984 0 0x17c3100017c33,
  dm 0x2700000027 0x1985 0 0x17c3300017c39,
  dm 0x2700000027 0x1986 0 0x17c3900017c3d,
  dm 0x2700000027 0x1987 0 0x17c3d00017c44,
  dm 0x2700000027 0x1988 0 0x17c4400017c50,
  dm 0x2700000027 0x1989 0 0x17c5000017c56,
  dm 0x2700000027 0x198a 0 0x17c5600017c61,
  dm 0x2700000027 0x198b 0 0x17c6100017c67,
  dm 0x2700000027 0x198c 0 0x17c6700017c6e,
  dm 0x2700000027 0x198d 0 0x17c6e00017c77,
  dm 0x2700000027 0x198e 0 0x17c7700017c7d,
  dm 0x2700000027 0x198f 0 0x17c7d00017c84,
  dm 0x2700000027 0x1990 0 0x17c8400017c90,
  dm 0x2700000027 0x1991 0 0x17c9000017c9c,
  dm 0x2700000027 0x1992 0 0x17c9c00017ca3,
  dm 0x2700000027 0x1993 0 0x17ca300017caa,
  dm 0x2700000027 0x1994 0 0x17caa00017cb5,
  dm 0x2700000027 0x1995 0 0x17cb500017cc0,
  dm 0x2700000027 0x1996 0 0x17cc000017ccb,
  dm 0x2700000027 0x1997 0 0x17ccb00017cd4,
  dm 0x2700000027 0x1998 0 0x17cd400017cde,
  dm 0x2700000027 0x1999 0 0x17cde00017ce5,
  dm 0x2700000027 0x199a 0 0x17ce500017ceb,
  dm 0x2700000027 0x199b 0 0x17ceb00017cfd,
  dm 0x2700000027 0x199c 0 0x17cfd00017d04,
  dm 0x2700000027 0x199d 0 0x17d0400017d10,
  dm 0x2700000027 0x199e 0 0x17d1000017d1b,
  dm 0x2700000027 0x199f 0 0x17d1b00017d22,
  dm 0x2700000027 0x19a0 0 0x17d2200017d2d,
  dm 0x2700000027 0x19a1 0 0x17d2d00017d38,
  dm 0x2700000027 0x19a2 0 0x17d3800017d44,
  dm 0x2700000027 0x19a3 0 0x17d4400017d4b,
  dm 0x2700000027 0x19a4 0 0x17d4b00017d56,
  dm 0x2700000027 no 0x17d5600017d5c 0x17d5c00017d67,
  dm 0x2700000027 no 0x17d6700017d6d 0x17d6d00017d74,
  dm 0x2700000027 no 0x17d7400017d7a 0x17d7a00017d81,
  dm 0x2700000027 no 0x17d8100017d87 0x17d8700017d94,
  dm 0x2700000027 no 0x17d9400017d9a 0x17d9a00017daa,
  dm 0x2700000027 0x19a5 0 0x17daa00017db5,
  dm 0x2700000027 0x19a6 0 0x17db500017dc2,
  dm 0x2700000027 0x19a7 0 0x17dc200017dc9,
  dm 0x2700000027 no 0x17dc900017dcf 0x17dcf00017dd7,
  dm 0x2700000027 no 0x17dd700017ddd 0x17ddd00017de6,
  dm 0x2700000027 0x19a8 0 0x17de600017dee,
  dm 0x2700000027 0x19a9 0 0xb1ba0000b1bc,
  dm 0x2700000027 0x19aa 0 0x5b1000005b3,
  dm 0x2700000027 0x19ab 0 0x116f5000116f7,
  dm 0x2700000027 0x19ac 0 0x115ca000115cc,
  dm 0x2700000027 0x19ad 0 0x17dee00017dfa,
  dm 0x2700000027 0x19ae 0 0x17dfa00017dfd,
  dm 0x2700000027 0x19af 0 0x17dfd00017e00,
  dm 0x2700000027 0x19b0 0 0x17e0000017e04,
  dm 0x2700000027 0x19b1 0 0x1170b0001170e,
  dm 0x2700000027 0x19b2 0 0x17e0400017e0a,
  dm 0x2700000027 0x19b3 0 0x17e0a00017e0d,
  dm 0x2700000027 0x19b4 0 0x17e0d00017e17,
  dm 0x2700000027 0x19b5 0 0x17e1700017e1d,
  dm 0x2700000027 0x19b6 0 0x17e1d00017e24,
  dm 0x2700000027 0x19b7 0 0x17e2400017e29,
  dm 0x2700000027 0x19b8 0 0x17e2900017e32,
  dm 0x2700000027 0x19b9 0 0x17e3200017e39,
  dm 0x2700000027 0x19ba 0 0x17e3900017e3f,
  dm 0x2700000027 0x19bb 0 0x17e3f00017e47,
  dm 0x2700000027 0x19bc 0 0x17e4700017e4e,
  dm 0x2700000027 no 0x17e4e00017e55 0x17e5500017e5b,
  dm 0x2700000027 no 0x17e5b00017e61 0x17e6100017e71,
  dm 0x2700000027 no 0x17e7100017e77 0x17e7700017e83,
  dm 0x2700000027 0x19bd 0 0x17e8300017e8a,
  dm 0x2700000027 0x19be 0 0x1765f00017661,
  dm 0x2700000027 0x19bf 0 0x1500a0001500d,
  dm 0x2700000027 0x19c0 0 0x17e8a00017e8f,
  dm 0x2700000027 0x19c1 0 0x17e8f00017e94,
  dm 0x2700000027 0x19c2 0 0x17e9400017e99,
  dm 0x2700000027 0x19c3 0 0x17e9900017e9f,
  dm 0x2700000027 0x19c4 0 0x17e9f00017ea4,
  dm 0x2700000027 0x19c5 0 0x17ea400017ea7,
  dm 0x2700000027 0x19c6 0 0x17ea700017eaf,
  dm 0x2700000027 0x19c7 0 0x17eaf00017eb2,
  dm 0x2700000027 0x19c8 0 0x17eb200017eb5,
  dm 0x2700000027 0x19c9 0 0x17eb500017ebe,
  dm 0x2700000027 0x19ca 0 0x17ebe00017ec2,
  dm 0x2700000027 0x19cb 0 0x17ec200017ec5,
  dm 0x2700000027 0x19cc 0 0x17ec500017ecc,
  dm 0x2700000027 0x19cd 0 0x17ecc00017ed0,
  dm 0x2700000027 0x19ce 0 0x17ed000017ed3,
  dm 0x2700000027 no 0x17ed300017eda 0x17eda00017ee2,
  dm 0x2700000027 no 0x17ee200017ef2 0x17ee200017ef2,
  dm 0x2700000027 no 0x17ef200017ef9 0x17ef200017ef9,
  dm 0x2700000027 0x19cf 0 0x17ef900017f00,
  dm 0x2700000027 0x19d0 0 0x17f0000017f07,
  dm 0x2700000027 0x19d1 0 0x17f0700017f0a,
  dm 0x2700000027 0x19d2 0 0x17f0a00017f0d,
  dm 0x2700000027 0x19d3 0 0x120c1000120c3,
  dm 0x2700000027 0x19d4 0 0x17f0d00017f14,
  dm 0x2700000027 0x19d5 0 0x17f1400017f1c,
  dm 0x2700000027 0x19d6 0 0x17f1c00017f1f,
  dm 0x2700000027 0x19d7 0 0x14f9c00014f9e,
  dm 0x2700000027 0x19d8 0 0x17f1f00017f26,
  dm 0x2700000027 0x19d9 0 0x17f2600017f2f,
  dm 0x2700000027 0x19da 0 0x17f2f00017f36,
  dm 0x2700000027 0x19db 0 0x17f3600017f39,
  dm 0x2700000027 0x19dc 0 0x17f3900017f41,
  dm 0x2700000027 0x19dd 0 0x17f4100017f45,
  dm 0x2700000027 0x19de 0 0x17f4500017f4b,
  dm 0x2700000027 0x19df 0 0x17f4b00017f58,
  dm 0x2700000027 no 0x17f5800017f5e 0x17f5e00017f66,
  dm 0x2700000027 no 0x17f6600017f6c 0x17f6c00017f73,
  dm 0x2700000027 no 0x17f7300017f7a 0x17f7a00017f84,
  dm 0x2700000027 0x19e0 0 0x17f8400017f92,
  dm 0x2700000027 0x19e1 0 0x17f9200017fa1,
  dm 0x2700000027 0x19e2 0 0x17fa100017fac,
  dm 0x2700000027 no 0x17be600017bef 0x17fac00017fb8,
  dm 0x2700000027 0x19e3 0 0x17fb800017fbf,
  dm 0x2700000027 0x19e4 0 0x17fbf00017fc6,
  dm 0x2700000027 no 0x17fc600017fcd 0x17fcd00017fd7,
  dm 0x2700000027 no 0x17fd700017fde 0x17fde00017fea,
  dm 0x2700000027 no 0x17fea00017ff1 0x17ff100017ffd,
  dm 0x2700000027 0x19e5 0 0x17ffd0001800b,
  dm 0x2700000027 no 0x1800b00018012 0x180120001801b,
  dm 0x2700000027 no 0x1801b00018021 0x1802100018028,
  dm 0x2700000027 no 0x180280001802f 0x1802f0001803b,
  dm 0x2700000027 no 0x1803b00018042 0x180420001804c,
  dm 0x2700000027 no 0x1804c00018053 0x1805300018061,
  dm 0x2700000027 no 0x1806100018067 0x1806700018072,
  dm 0x2700000027 no 0x1807200018078 0x1807800018083,
  dm 0x2700000027 no 0x180830001808a 0x1808a00018098,
  dm 0x2700000027 no 0x180980001809e 0x1809e000180a5,
  dm 0x2700000027 no 0x180a5000180ac 0x180ac000180b6,
  dm 0x2700000027 0x19e6 0 0x180b6000180bc,
  dm 0x2700000027 0x19e7 0 0x180bc000180c3,
  dm 0x2700000027 0x19e8 0 0x180c3000180ca,
  dm 0x2700000027 0x19e9 0 0x180ca000180d0,
  dm 0x2700000027 0x19ea 0 0x180d0000180d7,
  dm 0x2700000027 0x19eb 0 0x180d7000180e0,
  dm 0x2700000027 0x19ec 0 0x180e0000180ea,
  dm 0x2700000027 0x19ed 0 0x180ea000180f5,
  dm 0x2700000027 0x19ee 0 0x180f5000180fe,
  dm 0x2700000027 0x19ef 0 0x180fe00018109,
  dm 0x2700000027 0x19f0 0 0x1810900018116,
  dm 0x2700000027 0x19f1 0 0x181160001811f,
  dm 0x2700000027 0x19f2 0 0x1811f0001812c,
  dm 0x2700000027 0x19f3 0 0x1812c00018139,
  dm 0x2700000027 0x19f4 0 0x1813900018143,
  dm 0x2700000027 0x19f5 0 0x181430001814a,
  dm 0x2700000027 0x19f6 0 0x1814a00018151,
  dm 0x2700000027 0x19f7 0 0x181510001815c,
  dm 0x2700000027 0x19f8 0 0x1815c00018165,
  dm 0x2700000027 0x19f9 0 0x181650001816c,
  dm 0x2700000027 no 0x1816c00018176 0x1817600018180,
  dm 0x2700000027 0x19fa 0 0x1818000018187,
  dm 0x2700000027 0x19fb 0 0x181870001818e,
  dm 0x2700000027 0x19fc 0 0x1818e0001819b,
  dm 0x2700000027 0x19fd 0 0x1819b000181ad,
  dm 0x2700000027 0x19fe 0 0x181ad000181b4,
  dm 0x2700000027 0x19ff 0 0x181b4000181ba,
  dm 0x2700000027 0x1a00 0 0x181ba000181c5,
  dm 0x2700000027 0x1a01 0 0x181c5000181cf,
  dm 0x2700000027 0x1a02 0 0x181cf000181dc,
  dm 0x2700000027 0x1a03 0 0x181dc000181eb,
  dm 0x2700000027 0x1a04 0 0x181eb000181f1,
  dm 0x2700000027 0x1a05 0 0x181f1000181f7,
  dm 0x2700000027 no 0x181f7000181fe 0x181fe00018205,
  dm 0x2700000027 0x1a06 0 0x182050001820c,
  dm 0x2700000027 0x1a07 0 0x1820c00018215,
  dm 0x2700000027 0x1a08 0 0x182150001821f,
  dm 0x2700000027 0x1a09 0 0x1821f0001822c,
  dm 0x2700000027 no 0x1822c00018232 0x182320001823d,
  dm 0x2700000027 no 0x1823d00018244 0x182440001824c,
  dm 0x2700000027 0x1a0a 0 0x1824c00018255,
  dm 0x2700000027 0x1a0b 0 0x182550001825c,
  dm 0x2700000027 no 0x1825c00018262 0x1826200018268,
  dm 0x2700000027 no 0x182680001826e 0x1826e00018279,
  dm 0x2700000027 no 0x182790001827f 0x1827f00018289,
  dm 0x2700000027 0x1a0c 0 0x1828900018291,
  dm 0x2700000027 0x1a0d 0 0x182910001829a,
  dm 0x2700000027 0x1a0e 0 0x1829a0001829f,
  dm 0x2700000027 no 0x1829f000182ad 0x1829f000182ad,
  dm 0x2700000027 0x1a0f 0 0x182ad000182b5,
  dm 0x2700000027 0x1a10 0 0x182b5000182bf,
  dm 0x2700000027 0x1a11 0 0x182bf000182c6,
  dm 0x2700000027 0x1a12 0 0x182c6000182cc,
  dm 0x2700000027 0x1a13 0 0x182cc000182d0,
  dm 0x2700000027 no 0x182d0000182d7 0x182d7000182dd,
  dm 0x23b0000023d 0x1a14 0 0x18000000182,
  dm 0x2a1000002a7 0x1a15 0 0x182dd000182e4,
  dm 0x2a1000002a7 no 0x182e4000182eb 0x182eb000182f4,
  dm 0x2a1000002a7 no 0x182f4000182fb 0x182fb00018304,
  dm 0x2a1000002a7 no 0x183040001830b 0x1830b00018314,
  dm 0x2a1000002a7 0x1a16 0 0x183140001831b,
  dm 0x2a1000002a7 0x1a17 0 0x1831b00018320,
  dm 0x2a1000002a7 no 0x1832000018327 0x183270001832f,
  dm 0x2b1e00002b26 0x1a18 0 0x1832f00018339,
  dm 0x2b1e00002b26 no 0x183390001833f 0x1833f00018349,
  dm 0x2b1e00002b26 no 0x183490001834f 0x1834f0001835b,
  dm 0xdfd00000e04 0x1a19 0 0x1835b0001835e,
  dm 0x2700000027 0x1a1a 0 0x84ff00008502,
  dm 0x2700000027 0x1a1b 0 0x18000000182,
  dm 0x2700000027 0x1a1c 0 0x18000000182,
  dm 0x2700000027 no 0x183630001836b 0x1836b00018373,
  dm 0x2700000027 0x1a1e 0 0x183730001837c,
  dm 0x2700000027 0x1a1f 0 0x1837c00018384,
  dm 0x2700000027 no 0x183840001838b 0x183840001838b,
  dm 0x2700000027 0x1a20 0 0x1838b00018393,
  dm 0x2700000027 0x1a21 0 0x183930001839a,
  dm 0x2700000027 no 0x1839a000183a0 0x183a0000183a7,
  dm 0x2700000027 0x1a22 0 0x183a7000183af,
  dm 0x2700000027 0x1a23 0 0x18000000182,
  dm 0x2a1000002a7 0x1a24 0 0x183af000183ba,
  dm 0x2a1000002a7 0x1a25 0 0x4bd000004c3,
  dm 0x2a1000002a7 no 0x183ba000183c2 0x183ba000183c2,
  dm 0x2700000027 no 0x183c5000183c9 0x183c5000183c9,
  dm 0x2700000027 no 0x183c9000183d6 0x183c9000183d6,
  dm 0 no 0 0x18000000182,
  dm 0x2700000027 no 0x183df000183ea 0x183ea000183f1,
  dm 0x2700000027 0x1a28 0 0x183f1000183f4,
  dm 0x2700000027 no 0x183f4000183fc 0x183fc00018404,
  dm 0x2700000027 0x1a29 0 0x18000000182,
  dm 0x2700000027 0x1a2b 0 0x1840a00018413,
  dm 0 no 0 0x18000000182,
  dm 0x2700000027 0x1a2e 0 0x500000005006,
  dm 0x2700000027 0x1a2f 0 0x1841c00018423,
  dm 0x2700000027 0x1a31 0 0x4c4300004c49,
  dm 0x2700000027 0x1a32 0 0x4c4300004c49,
  dm 0x2700000027 no 0x1842f00018439 0xf58b0000f592,
  dm 0x2700000027 0x1a34 0 0x18000000182,
  dm 0 no 0 0x18000000182,
  dm 0x2700000027 0x1a37 0 0x1844000018447,
  dm 0x2700000027 0x1a38 0 0x184470001844e,
  dm 0x2700000027 0x1a39 0 0x1844e00018454,
  dm 0x2700000027 0x1a3a 0 0x184540001845a,
  dm 0x2700000027 0x1a3b 0 0x1845a0001845d,
  dm 0x2700000027 0x1a3c 0 0x18000000182,
  dm 0x2700000027 0x1a3d 0 0x1845d00018466,
  dm 0x2700000027 0x1a3e 0 0x184660001846d,
  dm 0x2700000027 0x1a3f 0 0x1846d00018475,
  dm 0x2700000027 0x1a40 0 0x1847500018478,
  dm 0x2700000027 0x1a41 0 0x184780001847f,
  dm 0x2700000027 0x1a42 0 0x1847f00018486,
  dm 0x2700000027 0x1a43 0 0x184860001848b,
  dm 0x2700000027 0x1a44 0 0x1848b00018493,
  dm 0x2700000027 0x1a45 0 0x184930001849c,
  dm 0x2700000027 0x1a46 0 0x18000000182,
  dm 0x2700000027 0x1a47 0 0x18000000182,
  dm 0x2700000027 0x1a49 0 0x184a3000184b8,
  dm 0x2700000027 0x1a4a 0 0x184b8000184c3,
  dm 0x2700000027 0x1a4c 0 0x184c7000184d5,
  dm 0x2700000027 0x1a4d 0 0x184d5000184dd,
  dm 0x2700000027 no 0x184dd000184eb 0x184eb000184fb,
  dm 0x2700000027 no 0x184fb00018504 0x185040001850d,
  dm 0x2700000027 no 0x1850d00018522 0x1852200018537,
  dm 0x2700000027 no 0x185370001854a 0x1854a0001855d,
  dm 0x2700000027 no 0x1855d0001856b 0x1856b0001857a,
  dm 0x2700000027 no 0x1857a00018589 0x1858900018599,
  dm 0x2700000027 no 0x18599000185ab 0x185ab000185be,
  dm 0x2700000027 no 0x185be000185c9 0x185c9000185d4,
  dm 0x2700000027 no 0x185d4000185e4 0x185e4000185f4,
  dm 0x2700000027 no 0x185f400018605 0x1860500018617,
  dm 0x2700000027 no 0x1861700018623 0x1862300018631,
  dm 0x2700000027 no 0x186310001863c 0x1863c00018649,
  dm 0x2700000027 no 0x1864900018659 0x1865900018669,
  dm 0x2700000027 no 0x1866900018676 0x1867600018683,
  dm 0x2700000027 no 0x186830001868f 0x1868f0001869b,
  dm 0x2700000027 0x1a4e 0 0x1869b000186af,
  dm 0x2700000027 0x1a4f 0 0x186af000186bc,
  dm 0x2700000027 0x1a50 0 0x186bc000186c8,
  dm 0x2700000027 0x1a51 0 0x186c8000186d3,
  dm 0x2700000027 no 0x186d3000186df 0x186df000186eb,
  dm 0x2700000027 0x1a52 0 0x186eb000186f6,
  dm 0x2700000027 0x1a53 0 0x186f600018702,
  dm 0x2700000027 no 0x1870200018709 0x1870900018710,
  dm 0x2700000027 no 0x187100001871f 0x1871f0001872f,
  dm 0x2700000027 no 0x1872f0001873d 0x1873d0001874c,
  dm 0x2700000027 no 0x1874c00018757 0x1875700018763,
  dm 0x2700000027 no 0x1876300018771 0x1877100018780,
  dm 0x2700000027 0x1a54 0 0x1878000018787,
  dm 0x2700000027 no 0x1878700018792 0x187920001879f,
  dm 0x2700000027 no 0x1879f000187ab 0x187ab000187b7,
  dm 0x2700000027 no 0x187b7000187bf 0x187bf000187c4,
  dm 0x2700000027 no 0x187c4000187c9 0x187c9000187cf,
  dm 0x2700000027 no 0x187cf000187dd 0x187dd000187eb,
  dm 0x2700000027 0x1a55 0 0x187eb000187f2,
  dm 0x2700000027 no 0x187f2000187f6 0x187f6000187fa,
  dm 0x2700000027 no 0x187fa0001880b 0x1880b0001881c,
  dm 0x2700000027 no 0x1881c00018822 0x188220001882a,
  dm 0x2700000027 0x1a56 0 0x1882a00018831,
  dm 0x2700000027 no 0x188310001883a 0x1883a0001883f,
  dm 0x2700000027 no 0x1883f0001884b 0x1884b00018857,
  dm 0x2700000027 no 0x1885700018865 0x1886500018873,
  dm 0x2700000027 no 0x1887300018882 0x1888200018891,
  dm 0x2700000027 no 0x188910001889d 0x1889d000188a4,
  dm 0x2700000027 0x1a57 0 0x188a4000188b3,
  dm 0x2700000027 no 0x188b3000188be 0x188be000188cb,
  dm 0x2700000027 no 0x188cb000188d4 0x188d4000188dd,
  dm 0x2700000027 no 0x188dd000188e8 0x188e8000188f3,
  dm 0x2700000027 no 0x188f3000188fe 0x188fe00018909,
  dm 0x2700000027 no 0x1890900018918 0x1891800018927,
  dm 0x2700000027 0x1a58 0 0x1892700018932,
  dm 0x2700000027 0x1a59 0 0x189320001893e,
  dm 0x2700000027 0x1a5a 0 0x1893e0001894b,
  dm 0x2700000027 no 0x1894b00018950 0x1895000018955,
  dm 0x23f00000249 0x1a5b 0 0x189550001895e,
  dm 0x23f00000249 no 0x1895e00018967 0x1896700018970,
  dm 0x2700000027 0x1a5c 0 0x1897000018977,
  dm 0x2700000027 0x1a5d 0 0x189770001897b,
  dm 0x2700000027 0x1a5e 0 0x1897b00018983,
  dm 0x2700000027 0x1a5f 0 0x18000000182,
  dm 0x2700000027 0x1a61 0 0x1898800018990,
  dm 0x2700000027 no 0x189900001899e 0x1899e000189a7,
  dm 0x2700000027 0x1a63 0 0x189ad000189b9,
  dm 0x2700000027 0x1a64 0 0x107300001075,
  dm 0x2700000027 0x1a65 0 0x189b9000189bf,
  dm 0x2700000027 0x1a66 0 0x189bf000189c5,
  dm 0x2700000027 0x1a67 0 0x614300006148,
  dm 0x2700000027 no 0x189ca000189d4 0x189d4000189dc,
  dm 0x2700000027 0x1a69 0 0x18000000182,
  dm 0x2a1000002a7 0x1a6b 0 0x189e0000189ec,
  dm 0x2a1000002a7 0x1a6c 0 0x189ec000189f4,
  dm 0x2700000027 0x1a6d 0 0x189f4000189fc,
  dm 0 no 0 0x18000000182,
  dm 0 no 0 0x18a0600018a0e,
  dm 0x2700000027 0x1a71 0 0x18a1500018a19,
  dm 0x2700000027 0x1a73 0 0x18a1d00018a21,
  dm 0x2a1000002a7 0x1a74 0 0x18a2100018a24,
  dm 0x2a1000002a7 0x1a75 0 0x18a2400018a31,
  dm 0x2a1000002a7 0x1a76 0 0x18a3100018a3e,
  dm 0x2a1000002a7 0x1a77 0 0x18a3e00018a4a,
  dm 0x2a1000002a7 0x1a78 0 0x18a4a00018a5d,
  dm 0x2a1000002a7 no 0x18a5d00018a69 0x18a6900018a79,
  dm 0x2a1000002a7 0x1a79 0 0x18a7900018a89,
  dm 0x2a1000002a7 no 0x18a8900018a9b 0x18a9b00018aae,
  dm 0x2a1000002a7 no 0x18aae00018abf 0x18abf00018ad1,
  dm 0x2a1000002a7 no 0x18ad100018adb 0x18adb00018ae6,
  dm 0x2a1000002a7 no 0x18ae600018af4 0x18af400018b03,
  dm 0x2a1000002a7 no 0x18b0300018b0c 0x18b0c00018b17,
  dm 0x2a1000002a7 0x1a7a 0 0x18b1700018b2c,
  dm 0x2a1000002a7 0x1a7b 0 0x18b2c00018b39,
  dm 0x2a1000002a7 0x1a7c 0 0x18b3900018b45,
  dm 0x2a1000002a7 0x1a7d 0 0x18b4500018b4b,
  dm 0x2a1000002a7 0x1a7e 0 0x18b4b00018b5b,
  dm 0x2a1000002a7 0x1a7f 0 0x18b5b00018b66,
  dm 0x2a1000002a7 0x1a80 0 0x18b6600018b71,
  dm 0x2a1000002a7 0x1a81 0 0x18b7100018b77,
  dm 0x2700000027 0x1a82 0 0x18000000182,
  dm 0x2700000027 0x1a83 0 0x18000000182,
  dm 0x2700000027 no 0x18b7f00018b8d 0x18b8d00018b9b,
  dm 0x2700000027 0x1a85 0 0x18b9b00018ba6,
  dm 0x2700000027 0x1a86 0 0x18ba600018bb0,
  dm 0 no 0 0x18000000182,
  dm 0x2700000027 0x1a89 0 0x18bbe00018bc0,
  dm 0x2700000027 0x1a8a 0 0x18bc000018bc3,
  dm 0x2700000027 no 0x18bc300018bc9 0x18bc900018bcc,
  dm 0x2700000027 0x1a8b 0 0x18bcc00018bcf,
  dm 0x2700000027 0x1a8c 0 0x18bcf00018bd1,
  dm 0x2700000027 0x1a8d 0 0xbf450000bf47,
  dm 0x2700000027 no 0x18bd100018bd8 0x18bd800018bde,
  dm 0x2700000027 no 0x18bde00018be5 0x18be500018be9,
  dm 0x2700000027 no 0x18bde00018be5 0x18be500018be9,
  dm 0x2700000027 no 0x18be900018bef 0x18bef00018bf4,
  dm 0x2700000027 no 0x18bf400018bfa 0x18bfa00018c04,
  dm 0x2700000027 no 0x18c0400018c0a 0x18c0a00018c15,
  dm 0x2700000027 no 0x18c1500018c1b 0x18c1b00018c24,
  dm 0x2700000027 no 0x18c2400018c2a 0x18c2a00018c36,
  dm 0x2700000027 no 0x18c3600018c3c 0x18c3c00018c42,
  dm 0x2700000027 no 0x18c4200018c48 0x18c4800018c4d,
  dm 0x2700000027 0x1a8e 0 0x18c4d00018c52,
  dm 0x2700000027 0x1a8f 0 0x18c5200018c5b,
  dm 0x2700000027 0x1a90 0 0x90500000908,
  dm 0x2700000027 0x1a91 0 0x18c5b00018c61,
  dm 0x2700000027 0x1a92 0 0x18c6100018c68,
  dm 0x2700000027 0x1a93 0 0x18c6800018c7a,
  dm 0x2700000027 0x1a94 0 0x18c7a00018c81,
  dm 0x2700000027 0x1a95 0 0x18c8100018c88,
  dm 0x2700000027 0x1a96 0 0x18c8800018c92,
  dm 0x2700000027 no 0x18c9200018c99 0x18c9900018ca2,
  dm 0x2700000027 0x1a97 0 0x18ca200018cab,
  dm 0x2700000027 0x1a98 0 0x18cab00018cb1,
  dm 0x2700000027 no 0x18cb100018cb8 0x18cb800018cbe,
  dm 0x2700000027 0x1a99 0 0x18cbe00018ccf,
  dm 0x2700000027 0x1a9a 0 0x18ccf00018cdd,
  dm 0x2700000027 0x1a9b 0 0x18cdd00018ceb,
  dm 0x2700000027 0x1a9c 0 0x18ceb00018cf7,
  dm 0x2700000027 0x1a9d 0 0x18cf700018d00,
  dm 0x2700000027 0x1a9e 0 0x14c8c00014c92,
  dm 0x2700000027 0x1a9f 0 0x18d0000018d09,
  dm 0x2700000027 0x1aa0 0 0x18d0900018d15,
  dm 0x2700000027 no 0x18d1500018d1c 0x18d1c00018d28,
  dm 0x2700000027 0x1aa1 0 0x18d2800018d33,
  dm 0x2700000027 0x1aa2 0 0x18d3300018d3e,
  dm 0x2700000027 0x1aa3 0 0x18d3e00018d4c,
  dm 0x2700000027 0x1aa4 0 0x18d4c00018d57,
  dm 0x2700000027 0x1aa5 0 0x18d5700018d5f,
  dm 0x2700000027 0x1aa6 0 0x18d5f00018d6a,
  dm 0x2700000027 0x1aa7 0 0x18d6a00018d77,
  dm 0x2700000027 0x1aa8 0 0x18d7700018d80,
  dm 0x2700000027 0x1aa9 0 0x18d8000018d89,
  dm 0x2700000027 0x1aaa 0 0x18d8900018d8e,
  dm 0x2700000027 0x1aab 0 0x18d8e00018d90,
  dm 0x2700000027 0x1aac 0 0x18d9000018d96,
  dm 0x2700000027 0x1aad 0 0x3f3100003f32,
  dm 0x2700000027 0x1aae 0 0x18d9600018d9d,
  dm 0x2700000027 0x1aaf 0 0xbf1e0000bf1f,
  dm 0x2700000027 0x1ab0 0 0x18d9d00018da3,
  dm 0x2700000027 0x1ab1 0 0x18da300018da5,
  dm 0x2700000027 0x1ab2 0 0x18da500018da8,
  dm 0x2700000027 0x1ab3 0 0x18da800018dae,
  dm 0x2700000027 0x1ab4 0 0x18dae00018db4]

/-- `__dr_dm`, from item 9000 on (device_repo.go:11272-11771). -/
def drDm_18 : List ModelTuple := [
  dm 0x2700000027 0x1ab5 0 0xbf100000bf15,
  dm 0x2700000027 0x1ab6 0 0x18db400018dca,
  dm 0x2700000027 0x1ab7 0 0xbf2f0000bf35,
  dm 0x2700000027 0x1ab8 0 0x18dca00018dcf,
  dm 0x2700000027 0x1ab9 0 0x1d3f00001d40,
  dm 0x2700000027 0x1aba 0 0x18dcf00018dd1,
  dm 0x2700000027 0x1abb 0 0x18dd100018dd7,
  dm 0x2700000027 0x1abc 0 0x18dd700018de0,
  dm 0x2700000027 0x1abd 0 0x18d8e00018d90,
  dm 0x2700000027 0x1abe 0 0x18de000018de6,
  dm 0x2700000027 0x1abf 0 0xb8a50000b8a8,
  dm 0x2700000027 0x1ac0 0 0x1453500014536,
  dm 0x2700000027 0x1ac1 0 0x1ecc00001ecd,
  dm 0x2700000027 0x1ac2 0 0x18de600018de8,
  dm 0x2700000027 0x1ac3 0 0x1cfb00001cfc,
  dm 0x2700000027 0x1ac4 0 0x18de800018dea,
  dm 0x2700000027 0x1ac5 0 0x1d2d00001d2e,
  dm 0x2700000027 0x1ac6 0 0x16d1f00016d20,
  dm 0x2700000027 0x1ac7 0 0x18dea00018dec,
  dm 0x2b1e00002b26 no 0x18dec00018df4 0x18df400018dfb,
  dm 0x2a1000002a7 no 0x18dfb00018e02 0x18e0200018e11,
  dm 0x2a1000002a7 0x1ac8 0 0x18e1100018e1f,
  dm 0x2a1000002a7 no 0x18e1f00018e26 0x18e2600018e33,
  dm 0x2a1000002a7 no 0x18e3300018e3a 0x18e3a00018e4a,
  dm 0x2a1000002a7 no 0x18e4a00018e51 0x18e5100018e61,
  dm 0x2a1000002a7 no 0x18e6100018e68 0x18e6800018e74,
  dm 0x2a1000002a7 no 0x18e7400018e7b 0x18e7b00018e88,
  dm 0x2700000027 0x1ac9 0 0x18000000182,
  dm 0x2700000027 0x1acb 0 0x18000000182,
  dm 0x23b0000023d 0x1acc 0 0x18e8d00018e9b,
  dm 0x23b0000023d 0x1acd 0 0x29eb000029f9,
  dm 0x2700000027 0x1acf 0 0x18000000182,
  dm 0x2700000027 0x1ad0 0 0x18e9f00018eab,
  dm 0x23f00000249 0x1ad1 0 0x18000000182,
  dm 0x2a1000002a7 0x1ad3 0 0x18000000182,
  dm 0x2700000027 0x1ad4 0 0x18000000182,
  dm 0 no 0 0xb8a50000b8a8,
  dm 0x2700000027 0x1ad6 0 0x62270000622d,
  dm 0x2a1000002a7 0x1ad7 0 0x18ec400018ed0,
  dm 0x2700000027 no 0x18eda00018ee6 0x18ee600018ef2,
  dm 0x2700000027 no 0x18ef200018efb 0x18efb00018f05,
  dm 0x2700000027 no 0x18f0500018f17 0x18f1700018f1e,
  dm 0x2700000027 no 0x18f1e00018f30 0x18f3000018f3a,
  dm 0x2700000027 no 0x18f3a00018f4d 0x18f4d00018f54,
  dm 0x2700000027 0x1ada 0 0x18000000182,
  dm 0x2700000027 no 0x18f5b00018f6c 0x18f6c00018f7d,
  dm 0x2700000027 no 0x18f7d00018f8a 0x18f8a00018f97,
  dm 0x2700000027 0x1adb 0 0x18f9700018fa3,
  dm 0x2700000027 0x1adc 0 0x18fa300018fab,
  dm 0x2700000027 0x1add 0 0x18fab00018fb5,
  dm 0x2700000027 no 0x18fb500018fbb 0x18fbb00018fc1,
  dm 0x2700000027 0x1ade 0 0x18fc100018fc6,
  dm 0x2700000027 no 0x18fc600018fd2 0x18fd200018fd6,
  dm 0x2700000027 no 0x18fdc00018fe5 0x18fe500018fee,
  dm 0x2700000027 no 0x18fee00018ff7 0x18ff700019000,
  dm 0x2700000027 0x1ae0 0 0x190000001900a,
  dm 0x2700000027 0x1ae2 0 0x1901000019018,
  dm 0x2700000027 0x1ae3 0 0x1901000019018,
  dm 0x2700000027 0x1ae4 0 0x18000000182,
  dm 0x2700000027 0x1ae5 0 0x18000000182,
  dm 0x2700000027 no 0x1901e00019028 0x190280001902d,
  dm 0x23b0000023d no 0x190330001903b 0x1903b00019047,
  dm 0x23b0000023d 0x1ae8 0 0x62270000622d,
  dm 0x2700000027 0x1ae9 0 0x1904700019050,
  dm 0x2700000027 0x1aea 0 0x1905000019059,
  dm 0x2700000027 no 0x1905900019062 0x190620001906b,
  dm 0x2700000027 no 0x1906b00019073 0x190730001907b,
  dm 0x2700000027 no 0x1907b00019083 0x190830001908b,
  dm 0x2700000027 no 0x1908b00019095 0x190950001909f,
  dm 0x2700000027 no 0x1909f000190a5 0x1909f000190a5,
  dm 0x2700000027 0x1aeb 0 0x190a5000190aa,
  dm 0x2a1000002a7 no 0x190aa000190ae 0x190aa000190ae,
  dm 0x2a1000002a7 0x1aec 0 0x190ae000190b7,
  dm 0x2a1000002a7 no 0x190b7000190c5 0x190c5000190d1,
  dm 0x2a1000002a7 no 0x190d1000190de 0x190de000190ee,
  dm 0x2a1000002a7 no 0x190ee000190fd 0x190fd00019105,
  dm 0x2700000027 0x1aed 0 0x6b6d00006b72,
  dm 0x2700000027 0x1aee 0 0x1910500019111,
  dm 0x2700000027 0x1aef 0 0x1911100019118,
  dm 0x2700000027 0x1af0 0 0x18000000182,
  dm 0x2700000027 0x1af1 0 0x191180001911e,
  dm 0 no 0 0x18000000182,
  dm 0x2700000027 no 0x1912c00019132 0x76360000763e,
  dm 0x2700000027 no 0x1913200019138 0x191380001913c,
  dm 0x2700000027 no 0x1913c00019142 0x1914200019146,
  dm 0x2700000027 no 0x191460001914c 0x1914c00019152,
  dm 0x2700000027 no 0x1915200019159 0x1915900019162,
  dm 0x2700000027 no 0x1916200019168 0xff400000ff43,
  dm 0x2700000027 no 0x191680001916e 0x99080000990b,
  dm 0x2a1000002a7 no 0x1916e00019173 0x191730001917a,
  dm 0 no 0 0x18000000182,
  dm 0x2700000027 0x1af6 0 0x18000000182,
  dm 0 no 0 0x18000000182,
  dm 0x2700000027 0x1af9 0 0x2700000027,
  dm 0x2a1000002a7 0x1afa 0 0x191910001919a,
  dm 0x2700000027 no 0x1919e000191a6 0x1919e000191a6,
  dm 0x2700000027 0x1afc 0 0x18000000182,
  dm 0x2700000027 0x1afd 0 0x18000000182,
  dm 0x2700000027 0x1afe 0 0x18000000182,
  dm 0x2700000027 0x1aff 0 0x18000000182,
  dm 0x2700000027 0x1b01 0 0x191ad000191b7,
  dm 0x2700000027 0x1b02 0 0x191b7000191bb,
  dm 0x2700000027 no 0x191bb000191c6 0x191c6000191d1,
  dm 0x2700000027 0x1b03 0 0x191d1000191d4,
  dm 0x2700000027 0x1b04 0 0x500000005006,
  dm 0x2700000027 0x1b05 0 0x191d4000191dc,
  dm 0x2700000027 0x1b06 0 0x92a7000092ad,
  dm 0x2700000027 0x1b07 0 0x1940000019b,
  dm 0x2700000027 0x1b08 0 0x4fe400004feb,
  dm 0x2700000027 0x1b09 0 0x191dc000191e2,
  dm 0x2700000027 0x1b0a 0 0x191e2000191f1,
  dm 0x2700000027 0x1b0b 0 0x18000000182,
  dm 0x2700000027 0x1b0c 0 0x1012500010128,
  dm 0x2a1000002a7 no 0x191f1000191fd 0x191fd00019209,
  dm 0x2a1000002a7 no 0x1920900019211 0x1920900019211,
  dm 0x2a1000002a7 no 0x192110001921a 0x1921a00019223,
  dm 0x2a1000002a7 no 0x192230001922a 0x192230001922a,
  dm 0x2a1000002a7 no 0x1922a00019232 0x1922a00019232,
  dm 0x2a1000002a7 0x1b0d 0 0x18000000182,
  dm 0x2700000027 0x1b0e 0 0x18000000182,
  dm 0x2700000027 0x1b0f 0 0x18000000182,
  dm 0x23f00000249 no 0x192390001923f 0x1923f0001924a,
  dm 0x23f00000249 no 0x1924a00019259 0x1924a00019259,
  dm 0x23f00000249 no 0x1925900019268 0x1925900019268,
  dm 0x23f00000249 0x1b11 0 0x1926800019271,
  dm 0x2700000027 no 0x192710001927d 0x1927d0001928a,
  dm 0x2700000027 no 0x1928a00019297 0x1928a00019297,
  dm 0x2700000027 0x1b12 0 0x19297000192a6,
  dm 0x2700000027 0x1b13 0 0x19297000192a6,
  dm 0x2700000027 0x1b14 0 0x18000000182,
  dm 0 no 0 0x192aa000192b2,
  dm 0x2700000027 0x1b16 0 0x18000000182,
  dm 0x2700000027 0x1b17 0 0x192b6000192c1,
  dm 0x23f00000249 0x1b19 0 0x192c8000192d4,
  dm 0x23f00000249 no 0x192d4000192dc 0x192dc000192e5,
  dm 0x23f00000249 no 0x192e5000192ec 0x192ec000192f4,
  dm 0x23f00000249 0x1b1a 0 0x192f4000192fe,
  dm 0x23f00000249 0x1b1b 0 0x192fe00019309,
  dm 0x23f00000249 0x1b1c 0 0x1930900019312,
  dm 0x23f00000249 0x1b1d 0 0x193120001931d,
  dm 0x23f00000249 0x1b1e 0 0x1931d00019324,
  dm 0x23f00000249 0x1b1f 0 0x1932400019335,
  dm 0x23f00000249 0x1b20 0 0x18000000182,
  dm 0x2700000027 0x1b21 0 0x18000000182,
  dm 0x2700000027 0x1b22 0 0x6b6d00006b72,
  dm 0x2700000027 no 0x193350001933e 0x1933e00019347,
  dm 0x2700000027 0x1b23 0 0x18000000182,
  dm 0x2700000027 0x1b24 0 0x18000000182,
  dm 0 no 0 0x1934b00019351,
  dm 0 no 0 0x18000000182,
  dm 0x2700000027 no 0x1935f00019366 0x193660001936d,
  dm 0x2700000027 0x1b28 0 0x18000000182,
  dm 0x2700000027 0x1b2a 0 0x193730001937b,
  dm 0 no 0 0x193900001939d,
  dm 0x2700000027 no 0x193a2000193ae 0x193ae000193b1,
  dm 0x2700000027 no 0x193b1000193bd 0x193bd000193c0,
  dm 0x2700000027 no 0x193c0000193cd 0x193cd000193d1,
  dm 0x2a1000002a7 no 0x193d1000193d9 0x193d9000193e2,
  dm 0x2a1000002a7 no 0x193e2000193ea 0x97990000979e,
  dm 0x2a1000002a7 0x1b2c 0 0x16ff800016ffb,
  dm 0x2a1000002a7 0x1b2d 0 0x193ea000193f3,
  dm 0x2a1000002a7 no 0x193f300019405 0x1940500019413,
  dm 0x2700000027 no 0x194160001941d 0x1941d0001942a,
  dm 0x2700000027 0x1b2f 0 0x18000000182,
  dm 0x2700000027 0x1b31 0 0x18000000182,
  dm 0x2700000027 0x1b32 0 0x18000000182,
  dm 0x2700000027 0x1b34 0 0x1943b00019441,
  dm 0x23b0000023d 0x1b35 0 0x18000000182,
  dm 0 no 0 0x18000000182,
  dm 0x2700000027 0x1b38 0 0x1944e00019454,
  dm 0x2700000027 0x1b39 0 0x194540001945b,
  dm 0x2700000027 no 0x1945b0001946c 0x1946c00019473,
  dm 0x2700000027 no 0x194730001947e 0x1947e00019482,
  dm 0x2700000027 no 0x194880001948e 0x194880001948e,
  dm 0x7cc000007d6 0x1b3c 0 0x194920001949c,
  dm 0x2700000027 0x1b3e 0 0x114a3000114a5,
  dm 0x2700000027 0x1b3f 0 0x194a0000194a6,
  dm 0x2700000027 0x1b40 0 0x194a6000194a8,
  dm 0x2700000027 0x1b41 0 0x194a8000194b1,
  dm 0x2700000027 0x1b42 0 0x194b1000194b6,
  dm 0x2700000027 0x1b43 0 0x194b6000194bc,
  dm 0x2700000027 0x1b44 0 0x194bc000194c2,
  dm 0x2700000027 0x1b45 0 0xbea40000bea6,
  dm 0x2700000027 0x1b46 0 0x17c1800017c1a,
  dm 0x2700000027 0x1b47 0 0x194c2000194c8,
  dm 0x2700000027 0x1b48 0 0x1380d0001380f,
  dm 0x2700000027 0x1b49 0 0x1457b0001457d,
  dm 0x2700000027 0x1b4a 0 0x194c8000194d1,
  dm 0x2700000027 0x1b4b 0 0x1236200012369,
  dm 0x2700000027 0x1b4c 0 0x194d1000194da,
  dm 0x2700000027 0x1b4d 0 0x194da000194df,
  dm 0x2700000027 0x1b4e 0 0x1ea500001ea7,
  dm 0x2700000027 0x1b4f 0 0xf10b0000f10e,
  dm 0x2700000027 no 0x194df000194e9 0x194e9000194ee,
  dm 0x2700000027 0x1b50 0 0xa22e0000a230,
  dm 0x2700000027 0x1b51 0 0x194ee000194f7,
  dm 0x2700000027 no 0x194f700019501 0x1950100019506,
  dm 0x2700000027 0x1b52 0 0x6fb200006fb4,
  dm 0x2700000027 no 0x1950600019510 0x1951000019519,
  dm 0x2700000027 no 0x1951900019523 0x195230001952d,
  dm 0x2700000027 0x1b53 0 0x1952d00019533,
  dm 0x2700000027 0x1b54 0 0x1953300019539,
  dm 0x2700000027 0x1b55 0 0x1461b0001461d,
  dm 0x2700000027 no 0x1953900019543 0x1954300019548,
  dm 0x2700000027 0x1b56 0 0x195480001954e,
  dm 0x2700000027 0x1b57 0 0x1954e00019554,
  dm 0x2700000027 0x1b58 0 0x1955400019559,
  dm 0x2700000027 0x1b59 0 0xf7fa0000f7fc,
  dm 0x2700000027 0x1b5a 0 0x195590001955e,
  dm 0x2700000027 0x1b5b 0 0x1955e00019567,
  dm 0x2700000027 0x1b5c 0 0x195670001956c,
  dm 0x2700000027 0x1b5d 0 0x1956c00019575,
  dm 0x2700000027 0x1b5e 0 0x195750001957e,
  dm 0x2700000027 0x1b5f 0 0x1957e00019583,
  dm 0x2700000027 0x1b60 0 0x1958300019588,
  dm 0x2700000027 0x1b61 0 0x195880001958a,
  dm 0x2700000027 0x1b62 0 0x1958a00019590,
  dm 0x2700000027 0x1b63 0 0x1959000019598,
  dm 0x2700000027 0x1b64 0 0x78fc000078fe,
  dm 0x2700000027 0x1b65 0 0x195980001959a,
  dm 0x2700000027 0x1b66 0 0x1959a0001959d,
  dm 0x2700000027 0x1b67 0 0x1959d000195a0,
  dm 0x2700000027 0x1b68 0 0xb1b70000b1ba,
  dm 0x2700000027 0x1b69 0 0x195a0000195a3,
  dm 0x2700000027 no 0x195a3000195ad 0x195ad000195b0,
  dm 0x2700000027 0x1b6a 0 0x195b0000195b3,
  dm 0x2700000027 0x1b6b 0 0x195b3000195b6,
  dm 0x2700000027 0x1b6c 0 0x195b6000195b9,
  dm 0x2700000027 0x1b6d 0 0xb1b40000b1b7,
  dm 0x2700000027 0x1b6e 0 0x195b9000195bc,
  dm 0x2700000027 0x1b6f 0 0x195bc000195c2,
  dm 0x2700000027 0x1b70 0 0x195c2000195cb,
  dm 0x2a1000002a7 no 0x195cb000195d5 0x195d5000195de,
  dm 0x2700000027 0x1b72 0 0x195e4000195ed,
  dm 0x2700000027 0x1b73 0 0xb1ba0000b1bc,
  dm 0 no 0 0x18000000182,
  dm 0 no 0 0x18000000182,
  dm 0x2700000027 0x1b76 0 0x1960500019615,
  dm 0x2700000027 0x1b79 0 0x98c4000098c7,
  dm 0x2700000027 0x1b7a 0 0x18000000182,
  dm 0x2700000027 0x1b7b 0 0x18000000182,
  dm 0 no 0 0x1963200019638,
  dm 0 no 0 0x1965100019660,
  dm 0x23f00000249 no 0x1966c00019677 0x1967700019682,
  dm 0x2700000027 no 0x196820001968a 0x1968a00019692,
  dm 0x2700000027 0x1b7d 0 0x19692000196a0,
  dm 0x2700000027 0x1b7e 0 0x18000000182,
  dm 0xc9b00000ca2 no 0x196a0000196af 0x196a0000196af,
  dm 0 no 0 0x62270000622d,
  dm 0x2700000027 0x1b80 0 0x6b6d00006b72,
  dm 0x2700000027 0x1b81 0 0x18000000182,
  dm 0x2700000027 0x1b82 0 0x196c4000196cb,
  dm 0x2700000027 no 0x196cb000196d3 0x196cb000196d3,
  dm 0x2700000027 no 0x196d3000196d9 0x196d9000196df,
  dm 0x2700000027 0x1b83 0 0x2700000027,
  dm 0 no 0 0x196e6000196ed,
  dm 0x2700000027 0x1b85 0 0x196f600019704,
  dm 0x2700000027 0x1b86 0 0x1970400019710,
  dm 0x2700000027 0x1b87 0 0x1971000019717,
  dm 0x2700000027 0x1b88 0 0x197170001971e,
  dm 0x2700000027 0x1b89 0 0x1971e00019726,
  dm 0x2700000027 0x1b8a 0 0x197260001972e,
  dm 0x2700000027 0x1b8b 0 0x197260001972e,
  dm 0x50000000b 0x1b8c 0 0x1972e00019736,
  dm 0x2700000027 0x1b8d 0 0x1973600019747,
  dm 0x2700000027 0x1b8e 0 0x1974700019752,
  dm 0x2a1000002a7 0x1b8f 0 0x1975200019760,
  dm 0x2700000027 0x1b90 0 0x197600001976b,
  dm 0x2700000027 no 0x1976b00019772 0x1976b00019772,
  dm 0x2700000027 0x1b91 0 0x1977200019779,
  dm 0x39a000003a7 0x1b92 0 0x197790001977e,
  dm 0x2700000027 no 0x1977e00019791 0xe3400000e3c,
  dm 0x23b0000023d 0x1b93 0 0x10e9000010f6,
  dm 0x23b0000023d 0x1b94 0 0x10e9000010f6,
  dm 0x23b0000023d no 0x19791000197a3 0x197a3000197ad,
  dm 0x23b0000023d 0x1b95 0 0xe3400000e3c,
  dm 0x23b0000023d 0x1b96 0 0x18000000182,
  dm 0x23b0000023d 0x1b97 0 0x2700000027,
  dm 0x23b0000023d 0x1b98 0 0x18000000182,
  dm 0x2700000027 0x1b99 0 0x18000000182,
  dm 0x2700000027 0x1b9a 0 0x18000000182,
  dm 0x2a1000002a7 0x1b9b 0 0x197ad000197bd,
  dm 0x2700000027 0x1b9c 0 0xe3400000e3c,
  dm 0 no 0 0x18000000182,
  dm 0 no 0 0x62270000622d,
  dm 0 no 0 0x18000000182,
  dm 0x2700000027 no 0x197df000197e6 0x197e6000197ec,
  dm 0x2700000027 no 0x197ec000197f3 0x197f3000197fc,
  dm 0x2700000027 no 0x197fc00019803 0x198030001980a,
  dm 0x2700000027 no 0x1980a00019812 0x198120001981b,
  dm 0x2a1000002a7 0x1ba1 0 0x18000000182,
  dm 0x2700000027 0x1ba2 0 0x18000000182,
  dm 0x2700000027 0x1ba3 0 0x18000000182,
  dm 0x2700000027 0x1ba4 0 0x18000000182,
  dm 0x2700000027 0x1ba5 0 0x500000005006,
  dm 0x2700000027 0x1ba6 0 0x18000000182,
  dm 0x2700000027 0x1ba7 0 0x18000000182,
  dm 0 no 0 0x18000000182,
  dm 0x2700000027 0x1baa 0 0x135b7000135c0,
  dm 0x2700000027 no 0x198360001983d 0x1983d00019844,
  dm 0x2700000027 no 0x1984a00019857 0x198570001985d,
  dm 0x2700000027 no 0x1985d0001986b 0x1986b00019872,
  dm 0x2700000027 0x1bad 0 0x1940000019b,
  dm 0x2700000027 0x1bae 0 0x198780001987f,
  dm 0x2700000027 0x1baf 0 0x18000000182,
  dm 0x2700000027 no 0x1987f0001988a 0x1988a0001988e,
  dm 0x2700000027 no 0x1988e00019895 0x890b00008912,
  dm 0x2700000027 0x1bb0 0 0x198950001989c,
  dm 0x2a1000002a7 0x1bb1 0 0x18000000182,
  dm 0x2700000027 no 0x198a1000198a6 0x198a6000198b1,
  dm 0x2700000027 no 0x198b1000198b8 0x198b8000198c5,
  dm 0x2700000027 0x1bb4 0 0x198ce000198d6,
  dm 0x2700000027 0x1bb5 0 0x198d6000198e8,
  dm 0x23f00000249 0x1bb6 0 0x198e8000198f2,
  dm 0x2700000027 0x1bb7 0 0x198f2000198fb,
  dm 0x2700000027 0x1bb8 0 0x4c4300004c49,
  dm 0x23f00000249 0x1bb9 0 0x18000000182,
  dm 0x2700000027 no 0x1990100019910 0x1991000019916,
  dm 0x2700000027 no 0x1991600019925 0x1992500019929,
  dm 0x2700000027 no 0x1992900019938 0x199380001993e,
  dm 0x2700000027 0x1bbb 0 0x199450001994b,
  dm 0x2700000027 0x1bbc 0 0x1994b00019953,
  dm 0x2700000027 0x1bbd 0 0x199530001995c,
  dm 0x2700000027 0x1bbe 0 0x1995c00019965,
  dm 0x2700000027 0x1bbf 0 0x199650001996c,
  dm 0x2700000027 0x1bc0 0 0x1996c00019973,
  dm 0x2700000027 no 0x1997900019981 0x1998100019989,
  dm 0x2700000027 0x1bc2 0 0x199890001998f,
  dm 0x2700000027 0x1bc3 0 0x18000000182,
  dm 0x2a1000002a7 0x1bc4 0 0x18000000182,
  dm 0x23b0000023d 0x1bc5 0 0x2700000027,
  dm 0x23b0000023d 0x1bc6 0 0x1998f0001999d,
  dm 0x2a1000002a7 0x1bc7 0 0x1999d000199a3,
  dm 0x62600000633 0x1bc9 0 0x18000000182,
  dm 0x2700000027 0x1bca 0 0x199aa000199b3,
  dm 0x2700000027 0x1bcb 0 0x199aa000199b3,
  dm 0x2700000027 0x1bcc 0 0x18000000182,
  dm 0x23b0000023d 0x1bcd 0 0xbc5e0000bc68,
  dm 0x2a1000002a7 0x1bce 0 0x18000000182,
  dm 0x23b0000023d 0x1bcf 0 0x18000000182,
  dm 0x23b0000023d 0x1bd0 0 0x2700000027,
  dm 0x23b0000023d 0x1bd1 0 0x18000000182,
  dm 0x23b0000023d 0x1bd2 0 0x199b3000199bf,
  dm 0x23b0000023d 0x1bd3 0 0x199bf000199d5,
  dm 0x2a1000002a7 0x1bd4 0 0x199d5000199de,
  dm 0x2a1000002a7 0x1bd5 0 0x18000000182,
  dm 0x2a1000002a7 0x1bd6 0 0x199de000199e4,
  dm 0x23b0000023d 0x1bd7 0 0x199e4000199fa,
  dm 0x23b0000023d 0x1bd8 0 0x18000000182,
  dm 0x23b0000023d 0x1bd9 0 0x199fa00019a06,
  dm 0x23b0000023d no 0x19a0600019a14 0x19a1400019a20,
  dm 0x2700000027 0x1bda 0 0x19a2000019a28,
  dm 0x7cc000007d6 no 0x19a2800019a31 0x19a2800019a31,
  dm 0x7cc000007d6 no 0x19a3100019a37 0x19a3700019a42,
  dm 0x2700000027 0x1bdb 0 0x18000000182,
  dm 0x2700000027 0x1bdd 0 0x19a4a00019a52,
  dm 0x2700000027 0x1bde 0 0x1e0000001e6,
  dm 0x2700000027 0x1bdf 0 0x19a5200019a56,
  dm 0x2700000027 0x1be0 0 0x19a5600019a5d,
  dm 0x2700000027 0x1be1 0 0x13bfd00013c04,
  dm 0x2700000027 0x1be3 0 0x18000000182,
  dm 0x2700000027 no 0x19a6100019a6a 0x199de000199e4,
  dm 0x23b0000023d 0x1be4 0 0x18000000182,
  dm 0x2700000027 no 0x19a6e00019a77 0x19a7700019a81,
  dm 0x2700000027 0x1be6 0 0x18000000182,
  dm 0x2700000027 0x1be7 0 0x18000000182,
  dm 0x2a1000002a7 0x1be9 0 0x19a8800019a8a,
  dm 0x2a1000002a7 no 0x19a8a00019a92 0x19a9200019a9f,
  dm 0xbf670000bf7c 0x1bea 0 0x18000000182,
  dm 0x8e00000099 0x1beb 0 0x18000000182,
  dm 0x23b0000023d no 0x19a9f00019aa6 0x19a9f00019aa6,
  dm 0x23b0000023d 0x1bec 0 0x18000000182,
  dm 0x2700000027 0x1bed 0 0x18000000182,
  dm 0x2700000027 0x1bee 0 0x18000000182,
  dm 0 no 0 0x18000000182,
  dm 0 no 0 0x19abd00019ac8,
  dm 0 no 0 0x1e3400001e36,
  dm 0x2700000027 0x1bf3 0 0x19ad700019adf,
  dm 0x2700000027 0x1bf4 0 0x19adf00019aed,
  dm 0x2700000027 no 0x19aed00019af5 0x19aed00019af5,
  dm 0x2700000027 no 0x19af500019afe 0x19af500019afe,
  dm 0x2700000027 no 0x19afe00019b05 0x19afe00019b05,
  dm 0x2700000027 0x1bf5 0 0x55200000557,
  dm 0x2700000027 0x1bf6 0 0x19b0500019b09,
  dm 0x2700000027 0x1bf7 0 0x19b0900019b0f,
  dm 0x2700000027 0x1bf8 0 0x19b0f00019b14,
  dm 0x2700000027 0x1bf9 0 0x19b1400019b18,
  dm 0x2700000027 0x1bfa 0 0x19b1800019b1c,
  dm 0x2700000027 0x1bfb 0 0x1883a0001883f,
  dm 0x2700000027 0x1bfc 0 0x19b1c00019b21,
  dm 0x2700000027 0x1bfd 0 0x19b2100019b2b,
  dm 0x2700000027 0x1bfe 0 0x19b2b00019b35,
  dm 0x2700000027 0x1bff 0 0x19b3500019b40,
  dm 0x2700000027 0x1c00 0 0x19b4000019b4b,
  dm 0x2700000027 0x1c01 0 0x19b4b00019b59,
  dm 0x2700000027 0x1c02 0 0xbcce0000bcd4,
  dm 0x23f00000249 no 0x19b5900019b5d 0x19b5900019b5d,
  dm 0x23f00000249 no 0x19b5d00019b66 0x19b6600019b69,
  dm 0x23f00000249 no 0x19b6900019b74 0x19b7400019b79,
  dm 0x2700000027 0x1c04 0 0x18000000182,
  dm 0x2700000027 0x1c05 0 0x19b8900019b92,
  dm 0 no 0 0x18000000182,
  dm 0x2700000027 0x1c07 0 0x19baa00019bb2,
  dm 0x2700000027 no 0x19bb800019bc1 0x19bc100019bcc,
  dm 0x2700000027 no 0x19bcc00019bd9 0x19bd900019be6,
  dm 0x2700000027 0x1c09 0 0x19be600019bed,
  dm 0x2700000027 no 0x19bf100019bf5 0x19bf500019bfc,
  dm 0x2700000027 no 0x19bfc00019c00 0x19c0000019c05,
  dm 0x2700000027 no 0x19c0500019c09 0x19c0900019c10,
  dm 0x2700000027 no 0x19c1000019c14 0x19c1400019c1d,
  dm 0x2700000027 no 0x19c1d00019c21 0x19c2100019c28,
  dm 0x2a1000002a7 no 0x19c2800019c2c 0x19c2c00019c36,
  dm 0x2a1000002a7 no 0x19c3600019c3a 0x19c3a00019c43,
  dm 0x2a1000002a7 no 0x19c4300019c47 0x19c4700019c51,
  dm 0 no 0 0x4c4300004c49,
  dm 0 no 0 0x18000000182,
  dm 0x2700000027 0x1c0e 0 0x197700001979,
  dm 0x2700000027 0x1c0f 0 0x19c6900019c6f,
  dm 0x2700000027 0x1c10 0 0x19c6f00019c72,
  dm 0x2700000027 0x1c11 0 0x19c7200019c7b,
  dm 0x2700000027 0x1c12 0 0x19c7b00019c8b,
  dm 0x2700000027 0x1c13 0 0x19c8b00019c97,
  dm 0x2700000027 0x1c14 0 0x18000000182,
  dm 0x2700000027 no 0x19ca300019ca7 0x19ca300019ca7,
  dm 0x23b0000023d no 0x19cb400019cc5 0x19cc500019cd9,
  dm 0x23b0000023d no 0x19cd900019cea 0x19cea00019cfd,
  dm 0x23f00000249 no 0x19cfd00019d05 0x19d0500019d15,
  dm 0x2700000027 no 0x19d1500019d21 0x19d2100019d2e,
  dm 0x2700000027 0x1c16 0 0x19d2e00019d3b,
  dm 0x2700000027 no 0x19d3b00019d48 0x19d4800019d51,
  dm 0x2700000027 no 0x19d5100019d5d 0x19d5d00019d6a,
  dm 0x2700000027 no 0x19d6a00019d7a 0x19d7a00019d8b,
  dm 0x2700000027 0x1c17 0 0x19d8b00019d97,
  dm 0x2700000027 no 0x19d9700019da5 0x19da500019daf,
  dm 0x2700000027 no 0x19daf00019dbc 0x19dbc00019dc9,
  dm 0x2700000027 0x1c18 0 0x19dc900019dd2,
  dm 0x2700000027 0x1c19 0 0x19dd200019dda,
  dm 0x2700000027 0x1c1b 0 0x18000000182,
  dm 0 no 0 0x18000000182,
  dm 0x2700000027 no 0x19df000019df6 0x19df600019dfe,
  dm 0x2700000027 no 0x19dfe00019e04 0x19e0400019e0c,
  dm 0x2700000027 no 0x19e0c00019e12 0x19e1200019e1a,
  dm 0x2700000027 no 0x19e1a00019e23 0x19e2300019e30,
  dm 0x2700000027 no 0x19e3000019e36 0x19e3600019e3d,
  dm 0x2700000027 0x1c1e 0 0xff850000ff8d,
  dm 0x2700000027 no 0x19e3d00019e46 0x19e4600019e4e,
  dm 0x2700000027 no 0x19e4e00019e54 0x19e5400019e5b,
  dm 0x2700000027 no 0x19e5b00019e61 0x19e6100019e6d,
  dm 0x2700000027 no 0x19e6d00019e76 0x19e7600019e7e,
  dm 0x2700000027 no 0x19e7e00019e87 0x19e8700019e94,
  dm 0x2700000027 no 0x19e9400019e9a 0x19e9a00019ea1,
  dm 0x2700000027 no 0x19ea100019eaa 0x19eaa00019eb2,
  dm 0x2700000027 no 0x19eb200019ebb 0x19ebb00019ec3,
  dm 0x2700000027 no 0x19ec300019ec9 0x19ec900019ed2,
  dm 0x2700000027 no 0x19ed200019ed8 0x19ed800019ee1,
  dm 0x2700000027 no 0x19ee100019ee7 0x19ee700019eee,
  dm 0x2700000027 no 0x19eee00019ef7 0x19ef700019eff,
  dm 0x2700000027 no 0x19eff00019f05 0x19f0500019f08,
  dm 0x2700000027 0x1c1f 0 0x19f0800019f0f,
  dm 0x2700000027 no 0x19f0f00019f16 0x19f1600019f1f,
  dm 0x2700000027 no 0x19f1f00019f26 0x19f2600019f2b,
  dm 0x2700000027 no 0x19f2b00019f32 0x19f3200019f39,
  dm 0x2700000027 0x1c20 0 0x19f3900019f40,
  dm 0x2700000027 0x1c21 0 0x19f4000019f45,
  dm 0x2700000027 no 0x19f4500019f4c 0x19f4c00019f5a,
  dm 0x2700000027 no 0x19f5a00019f62 0x19f6200019f66,
  dm 0x23b0000023d no 0x19f6600019f6b 0x19f6b00019f75,
  dm 0x23b0000023d 0x1c22 0 0x2700000027,
  dm 0x2a1000002a7 0x1c23 0 0x19f7500019f7f,
  dm 0x2a1000002a7 no 0x19f7f00019f89 0x19f8900019f9a,
  dm 0x2a1000002a7 0x1c24 0 0x18000000182,
  dm 0x2a1000002a7 0x1c25 0 0x18000000182,
  dm 0x2a1000002a7 0x1c26 0 0x18000000182,
  dm 0x2a1000002a7 no 0x19de800019df0 0x2700000027,
  dm 0x23f00000249 no 0x19fa200019fb0 0x19fb000019fb5,
  dm 0x2700000027 0x1c29 0 0x18000000182,
  dm 0x2700000027 0x1c2a 0 0x18000000182,
  dm 0x2700000027 no 0x19fc400019fc9 0x8faa00008fb0,
  dm 0x2700000027 0x1c2c 0 0x19fc900019fd6,
  dm 0x2700000027 no 0x19fd600019fdb 0x19fdb00019fe4,
  dm 0x2700000027 0x1c2d 0 0x19fe400019ff0,
  dm 0x2700000027 0x1c2e 0 0x19ff000019ff9,
  dm 0x2700000027 0x1c2f 0 0x19ff90001a002,
  dm 0x2700000027 0x1c30 0 0x1a0020001a00b,
  dm 0x2700000027 0x1c31 0 0x1a00b0001a014,
  dm 0x2700000027 0x1c32 0 0x1a0140001a01d,
  dm 0x2700000027 0x1c33 0 0x1a01d0001a026,
  dm 0x2700000027 0x1c34 0 0x1a0260001a02f,
  dm 0x2700000027 0x1c35 0 0x1a02f0001a03b,
  dm 0x2700000027 0x1c36 0 0x1a03b0001a044,
  dm 0x2700000027 0x1c37 0 0x1a0440001a04d,
  dm 0x2700000027 0x1c38 0 0x1a04d0001a056,
  dm 0x2700000027 0x1c39 0 0x1a0560001a061,
  dm 0x2700000027 0x1c3a 0 0x1a0610001a070,
  dm 0x2700000027 no 0x1a0700001a075 0x1a0750001a07a,
  dm 0x2700000027 no 0x1a07a0001a07f 0x1a07f0001a08c,
  dm 0x2700000027 no 0x1a08c0001a091 0x1a0910001a09a,
  dm 0x2700000027 no 0x1a09a0001a09f 0x1a09f0001a0a8,
  dm 0x2700000027 no 0x1a0a80001a0ad 0x1a0ad0001a0b6,
  dm 0x2700000027 0x1c3b 0 0x1a0b60001a0c1]

/-- `__dr_dm`, from item 9500 on (device_repo.go:11772-12271). -/
def drDm_19 : List ModelTuple := [
  dm 0x2700000027 0x1c3c 0 0x1a0c10001a0c9,
  dm 0x2700000027 0x1c3d 0 0x1a0c90001a0d4,
  dm 0x2700000027 no 0x1a0d40001a0d9 0x1a0d90001a0e3,
  dm 0x2700000027 no 0x1a0e30001a0e8 0x1a0e80001a0f7,
  dm 0x2700000027 no 0x1a0f70001a0fc 0x1a0fc0001a104,
  dm 0x2700000027 no 0x1a1040001a109 0x1a1090001a11a,
  dm 0x2700000027 0x1c3e 0 0x1a11a0001a124,
  dm 0x2700000027 0x1c3f 0 0x1a1240001a12f,
  dm 0x2700000027 0x1c40 0 0x1a12f0001a139,
  dm 0x2700000027 0x1c41 0 0x1a1390001a143,
  dm 0x2700000027 0x1c42 0 0x1a1430001a152,
  dm 0x2700000027 no 0x1a1520001a159 0x1a1520001a159,
  dm 0x2700000027 no 0x1a1590001a15e 0x1a1590001a15e,
  dm 0x2700000027 no 0x1a15e0001a163 0x1a1630001a16b,
  dm 0x2a1000002a7 0x1c43 0 0x1a16b0001a178,
  dm 0x2a1000002a7 0x1c44 0 0x1a1780001a182,
  dm 0x2700000027 0x1c46 0 0x18000000182,
  dm 0x2700000027 0x1c47 0 0x18000000182,
  dm 0 no 0 0x88fa000088fc,
  dm 0 no 0 0x18000000182,
  dm 0x2700000027 no 0x1a1cc0001a1d4 0x1a1d40001a1dc,
  dm 0x2700000027 0x1c4a 0 0x8fc600008fca,
  dm 0x2700000027 0x1c4b 0 0x18000000182,
  dm 0x2700000027 no 0x1a1dc0001a1e8 0x1a1dc0001a1e8,
  dm 0x2700000027 no 0x1a1e80001a1f3 0x1a1e80001a1f3,
  dm 0x2700000027 0x1c4c 0 0x1a1f30001a1fd,
  dm 0x2700000027 no 0x1a1fd0001a201 0x1a2010001a20c,
  dm 0x2700000027 no 0x1a20c0001a211 0x1a2110001a21c,
  dm 0x2700000027 no 0x1a21c0001a224 0x1a21c0001a224,
  dm 0x2700000027 no 0x1a2240001a22b 0x1a2240001a22b,
  dm 0x2a1000002a7 no 0x1a22b0001a230 0x1a22b0001a230,
  dm 0x2a1000002a7 no 0x1a2300001a23c 0x1a23c0001a248,
  dm 0x2700000027 0x1c4e 0 0x1a2540001a25a,
  dm 0x2700000027 0x1c4f 0 0x1a25a0001a266,
  dm 0x2700000027 0x1c50 0 0x1a2660001a276,
  dm 0x2700000027 0x1c51 0 0x1a2760001a281,
  dm 0x2700000027 0x1c52 0 0x1a2810001a28a,
  dm 0x2700000027 0x1c53 0 0x1a28a0001a294,
  dm 0x2700000027 0x1c54 0 0x1a2940001a29f,
  dm 0x2700000027 0x1c55 0 0x1a29f0001a2a9,
  dm 0x2700000027 0x1c56 0 0x1a2a90001a2b4,
  dm 0x2700000027 0x1c57 0 0x1a2b40001a2bc,
  dm 0x2700000027 0x1c58 0 0x1a2bc0001a2c4,
  dm 0x2700000027 0x1c59 0 0x1a2c40001a2cc,
  dm 0x2700000027 0x1c5a 0 0x1a2cc0001a2d2,
  dm 0x2a1000002a7 0x1c5b 0 0x18000000182,
  dm 0x2a1000002a7 0x1c5c 0 0x1a2d20001a2d8,
  dm 0x2a1000002a7 0x1c5d 0 0x1a2d80001a2e1,
  dm 0 no 0 0x1a2e90001a2f4,
  dm 0x2700000027 no 0x1a3000001a307 0x1a3070001a30e,
  dm 0x2700000027 no 0x1a30e0001a319 0xd2920000d295,
  dm 0x2700000027 no 0x1a31f0001a32b 0x107300001075,
  dm 0x2700000027 no 0x1a32b0001a331 0x1a3310001a337,
  dm 0x2700000027 no 0x1a3370001a33a 0x1a3370001a33a,
  dm 0x2700000027 no 0x1a33a0001a346 0x1a3460001a34a,
  dm 0x2700000027 no 0x1a34a0001a356 0x1a3560001a35a,
  dm 0x2700000027 no 0x1a35a0001a366 0x1a3660001a36a,
  dm 0x2700000027 no 0x1a36a0001a376 0x1a3760001a37a,
  dm 0x2700000027 0x1c61 0 0x1a37a0001a384,
  dm 0x2700000027 0x1c62 0 0x18000000182,
  dm 0x23f00000249 no 0x1a38d0001a39f 0x1a39f0001a3b2,
  dm 0x23f00000249 0x1c64 0 0x1a3b20001a3c3,
  dm 0x23f00000249 0x1c65 0 0x1a3c30001a3d0,
  dm 0x23f00000249 no 0x1a3d00001a3da 0x1a3da0001a3e2,
  dm 0x23f00000249 no 0x1a3e20001a3ec 0x1a3ec0001a3f8,
  dm 0x23f00000249 no 0x1a3f80001a402 0x1a4020001a40e,
  dm 0x23f00000249 no 0x1a40e0001a418 0x1a4180001a420,
  dm 0x23f00000249 no 0x1a4200001a42a 0x1a42a0001a432,
  dm 0x23f00000249 no 0x1a4320001a43c 0x1a43c0001a444,
  dm 0x23f00000249 no 0x1a4440001a44e 0x1a44e0001a456,
  dm 0x23f00000249 no 0x1a4560001a460 0x1a4600001a46c,
  dm 0x23f00000249 no 0x1a46c0001a476 0x1a4760001a47e,
  dm 0x23f00000249 no 0x1a47e0001a488 0x1a4880001a494,
  dm 0x23f00000249 no 0x1a4940001a49e 0x1a49e0001a4a6,
  dm 0x23f00000249 no 0x1a4a60001a4b0 0x1a4b00001a4bc,
  dm 0x23f00000249 no 0x1a4bc0001a4c6 0x1a4c60001a4ce,
  dm 0x23f00000249 no 0x1a4ce0001a4d8 0x1a4d80001a4df,
  dm 0x23f00000249 no 0x1a4df0001a4e9 0x1a4e90001a4f4,
  dm 0x23f00000249 no 0x1a4f40001a4fe 0x1a4fe0001a509,
  dm 0x23f00000249 no 0x1a5090001a513 0x1a5130001a51e,
  dm 0x23f00000249 no 0x1a51e0001a528 0x1a5280001a533,
  dm 0x23f00000249 no 0x1a5330001a53d 0x1a53d0001a548,
  dm 0x23f00000249 no 0x1a5480001a552 0x1a5520001a559,
  dm 0x23f00000249 no 0x1a5590001a563 0x1a5630001a56e,
  dm 0x23f00000249 no 0x1a56e0001a578 0x1a5780001a583,
  dm 0x23f00000249 no 0x1a5830001a58d 0x1a58d0001a594,
  dm 0x23f00000249 no 0x1a5940001a59e 0x1a59e0001a5a9,
  dm 0x23f00000249 no 0x1a5a90001a5b3 0x1a5b30001a5be,
  dm 0x23f00000249 no 0x1a5be0001a5c8 0x1a5c80001a5d3,
  dm 0x23f00000249 no 0x1a5d30001a5dd 0x1a5dd0001a5e8,
  dm 0x23f00000249 no 0x1a5e80001a5f2 0x1a5f20001a5fd,
  dm 0x23f00000249 no 0x1a5fd0001a607 0x1a6070001a612,
  dm 0x23f00000249 0x1c66 0 0x1a6120001a619,
  dm 0x23f00000249 no 0x1a6190001a623 0x1a6230001a62a,
  dm 0x23f00000249 no 0x1a62a0001a634 0x1a6340001a63b,
  dm 0x23f00000249 no 0x1a63b0001a645 0x1a6450001a64c,
  dm 0x23f00000249 no 0x1a64c0001a656 0x1a6560001a65d,
  dm 0x23f00000249 no 0x1a65d0001a667 0x1a6670001a66e,
  dm 0x23f00000249 no 0x1a66e0001a678 0x1a6780001a67f,
  dm 0x23f00000249 no 0x1a67f0001a689 0x1a6890001a690,
  dm 0x23f00000249 no 0x1a6900001a69a 0x1a69a0001a6a2,
  dm 0x23f00000249 no 0x1a6a20001a6ac 0x1a6ac0001a6b3,
  dm 0x23f00000249 no 0x1a6b30001a6bd 0x1a6bd0001a6c4,
  dm 0x23f00000249 no 0x1a6c40001a6ce 0x1a6ce0001a6d9,
  dm 0x23f00000249 no 0x1a6d90001a6e3 0x1a6e30001a6ea,
  dm 0x23f00000249 no 0x1a6ea0001a6f4 0x1a6f40001a6fc,
  dm 0x23f00000249 no 0x1a6fc0001a706 0x1a7060001a70e,
  dm 0x23f00000249 no 0x1a70e0001a718 0x1a7180001a720,
  dm 0x23f00000249 no 0x1a7200001a72a 0x1a72a0001a732,
  dm 0x2700000027 no 0x1a7320001a73c 0x1a73c0001a746,
  dm 0x2700000027 no 0x1a7460001a750 0x1a7500001a767,
  dm 0x2700000027 no 0x1a7670001a771 0x1a7710001a77b,
  dm 0x2700000027 no 0x1a77b0001a786 0x1a7860001a78f,
  dm 0x2700000027 no 0x1a78f0001a798 0x1a7980001a7a5,
  dm 0x2700000027 no 0x1a7a50001a7b1 0x1a7b10001a7bd,
  dm 0x2700000027 no 0x1a7bd0001a7c7 0x1a7c70001a7d4,
  dm 0x2700000027 no 0x1a7d40001a7db 0x1a7db0001a7e5,
  dm 0x2700000027 no 0x1a7e50001a7ec 0x1a7ec0001a7f7,
  dm 0x2700000027 no 0x1a7f70001a801 0x1a8010001a81b,
  dm 0x2700000027 0x1c67 0 0x1a81b0001a82c,
  dm 0x2700000027 0x1c68 0 0x1a82c0001a83b,
  dm 0x2700000027 0x1c69 0 0x1a83b0001a84c,
  dm 0x2700000027 0x1c6a 0 0x1a84c0001a858,
  dm 0x2700000027 no 0x1a8580001a862 0x1a8620001a878,
  dm 0x2700000027 no 0x1a8780001a882 0x1a8820001a887,
  dm 0x2700000027 0x1c6b 0 0x1a8870001a89b,
  dm 0x2700000027 0x1c6c 0 0x1a89b0001a8a6,
  dm 0x2700000027 0x1c6d 0 0x1a8a60001a8b1,
  dm 0x2700000027 0x1c6e 0 0x1a8b10001a8b6,
  dm 0x2700000027 0x1c6f 0 0x1a8b60001a8bb,
  dm 0x23b0000023d 0x1c70 0 0x1a8bb0001a8c5,
  dm 0x23b0000023d 0x1c71 0 0x1a8c50001a8d3,
  dm 0x23b0000023d 0x1c72 0 0x18000000182,
  dm 0x2700000027 0x1c73 0 0x18000000182,
  dm 0x23f00000249 0x1c74 0 0x18000000182,
  dm 0x2700000027 0x1c76 0 0x1a8db0001a8e4,
  dm 0x2700000027 0x1c77 0 0x1a8e40001a8eb,
  dm 0x2700000027 0x1c79 0 0x1a8f10001a8fa,
  dm 0x2700000027 0x1c7a 0 0x1a8fa0001a901,
  dm 0x2700000027 0x1c7b 0 0x1a9010001a909,
  dm 0x2700000027 0x1c7c 0 0x1a9090001a90e,
  dm 0x2700000027 0x1c7d 0 0x1a90e0001a914,
  dm 0x2700000027 0x1c7e 0 0x5e2d00005e35,
  dm 0x2700000027 0x1c7f 0 0x1a9140001a91e,
  dm 0x2a1000002a7 0x1c80 0 0x1a91e0001a920,
  dm 0x2a1000002a7 0x1c81 0 0x1a9200001a927,
  dm 0x2a1000002a7 0x1c82 0 0x1a9270001a92f,
  dm 0x2a1000002a7 0x1c83 0 0x1a92f0001a937,
  dm 0x2700000027 no 0x1a93d0001a945 0x1a9450001a94d,
  dm 0x2700000027 0x1c85 0 0x1a94d0001a955,
  dm 0x2700000027 no 0x1a9550001a95c 0x1a95c0001a963,
  dm 0x2700000027 no 0x1a9630001a96a 0x1a96a0001a971,
  dm 0x2700000027 no 0x1a9710001a978 0x1a9780001a97f,
  dm 0x2700000027 no 0x1a97f0001a987 0x1a9870001a98f,
  dm 0x2700000027 0x1c86 0 0x1a98f0001a996,
  dm 0x2700000027 0x1c87 0 0x12a1b00012a1e,
  dm 0x2700000027 no 0x1a9960001a99c 0x1a99c0001a99e,
  dm 0x2700000027 no 0x1a99e0001a9a3 0x1a9a30001a9b1,
  dm 0x23f00000249 0x1c89 0 0x18000000182,
  dm 0x2700000027 0x1c8a 0 0x18000000182,
  dm 0x2700000027 0x1c8c 0 0x1a9bf0001a9c4,
  dm 0x2700000027 0x1c8d 0 0x1a9c40001a9ca,
  dm 0 no 0 0x18000000182,
  dm 0x23f00000249 0x1c90 0 0x1a9da0001a9e3,
  dm 0x23f00000249 no 0x1a9e30001a9e7 0x1a9e70001a9ef,
  dm 0x2700000027 0x1c91 0 0x18000000182,
  dm 0 no 0 0x18000000182,
  dm 0 no 0 0x18000000182,
  dm 0 no 0 0x18000000182,
  dm 0x2700000027 no 0x1aa090001aa11 0x1aa090001aa11,
  dm 0x2700000027 0x1c97 0 0x18000000182,
  dm 0x2700000027 0x1c99 0 0x18000000182,
  dm 0x2a1000002a7 no 0x1aa230001aa2b 0x1aa230001aa2b,
  dm 0 no 0 0x18000000182,
  dm 0x2700000027 0x1c9c 0 0x98b7000098be,
  dm 0x2700000027 0x1c9d 0 0x98c4000098c7,
  dm 0x2700000027 0x1c9f 0 0x1aa360001aa3f,
  dm 0x2700000027 no 0x1aa460001aa53 0x1aa530001aa61,
  dm 0x2700000027 0x1ca1 0 0x1aa610001aa6c,
  dm 0x2700000027 no 0x1aa6c0001aa78 0x1aa780001aa84,
  dm 0x2700000027 0x1ca2 0 0x1aa840001aa8b,
  dm 0x2700000027 no 0x10340000103b 0x10340000103b,
  dm 0x2700000027 0x1ca3 0 0x1aa8b0001aa94,
  dm 0x2700000027 no 0x1aa940001aa9b 0x1aa9b0001aaa7,
  dm 0x2700000027 0x1ca4 0 0x1aa840001aa8b,
  dm 0x2700000027 no 0x1aaa70001aaae 0x1aaa70001aaae,
  dm 0x2700000027 no 0x1aaae0001aab7 0x1aaae0001aab7,
  dm 0x2700000027 0x1ca5 0 0x500000005006,
  dm 0x2700000027 no 0xf3ed0000f3f2 0xf3ed0000f3f2,
  dm 0x2700000027 0x1ca6 0 0x1aab70001aac4,
  dm 0x2700000027 no 0x1aac40001aad0 0x1aac40001aad0,
  dm 0x2700000027 no 0x1aad00001aadb 0x1aadb0001aae6,
  dm 0x2700000027 no 0x1aae60001aaf3 0x1aaf30001ab00,
  dm 0x2700000027 no 0x1ab000001ab08 0x1ab080001ab10,
  dm 0x2700000027 no 0x1ab100001ab18 0x1ab100001ab18,
  dm 0x2700000027 no 0x1ab180001ab20 0x1ab200001ab28,
  dm 0x2700000027 no 0x1ab280001ab2e 0x1ab2e0001ab34,
  dm 0x2700000027 no 0x1ab340001ab3a 0x1ab3a0001ab40,
  dm 0x2700000027 0x1ca7 0 0x1ab400001ab49,
  dm 0x2700000027 0x1ca8 0 0x1ab490001ab54,
  dm 0x2700000027 0x1ca9 0 0x1ab540001ab5e,
  dm 0x2700000027 no 0x1ab5e0001ab66 0x1ab660001ab70,
  dm 0x2700000027 no 0x1ab700001ab77 0x1ab770001ab7e,
  dm 0x2700000027 no 0x1ab7e0001ab86 0x1ab7e0001ab86,
  dm 0x2700000027 no 0x1ab860001ab91 0x1ab910001ab94,
  dm 0x2700000027 no 0x1ab940001aba0 0x1aba00001abac,
  dm 0x2700000027 no 0x1abac0001abb7 0x1abac0001abb7,
  dm 0x2700000027 0x1caa 0 0x1abb70001abc4,
  dm 0x2700000027 no 0x1abc40001abd0 0x1abc40001abd0,
  dm 0x2700000027 no 0x1abd00001abda 0x1abd00001abda,
  dm 0x2700000027 no 0x1abda0001abe5 0x1abda0001abe5,
  dm 0x2700000027 0x1cab 0 0x1abe50001abec,
  dm 0x2700000027 0x1cac 0 0x18000000182,
  dm 0x2700000027 no 0x1abec0001abfd 0x1abec0001abfd,
  dm 0x2700000027 no 0x1abfd0001ac0d 0x1abfd0001ac0d,
  dm 0x2700000027 no 0x1ac0d0001ac1c 0x1ac1c0001ac2b,
  dm 0x2700000027 no 0x1ac2b0001ac3a 0x1ac3a0001ac49,
  dm 0x2700000027 no 0x1ac490001ac57 0x1ac570001ac65,
  dm 0x2700000027 no 0x1ac650001ac76 0x1ac650001ac76,
  dm 0x2700000027 0x1cad 0 0x1ac760001ac83,
  dm 0x2700000027 0x1cae 0 0x18000000182,
  dm 0x2700000027 0x1caf 0 0x1ac830001ac8a,
  dm 0x2700000027 0x1cb0 0 0x1ac8a0001ac92,
  dm 0x2700000027 0x1cb1 0 0x1ac920001ac95,
  dm 0x2700000027 0x1cb2 0 0x1ac950001ac9e,
  dm 0x2700000027 0x1cb3 0 0x8e4a00008e53,
  dm 0x2a1000002a7 0x1cb4 0 0x1ac9e0001aca4,
  dm 0x2a1000002a7 0x1cb5 0 0x1ac9e0001aca4,
  dm 0x2700000027 0x1cb6 0 0x1940000019b,
  dm 0x2700000027 0x1cb7 0 0x500000005006,
  dm 0x2700000027 0x1cb8 0 0x18000000182,
  dm 0x2700000027 no 0x1aca40001acae 0x1aca40001acae,
  dm 0x2700000027 0x1cba 0 0x1acb30001acb9,
  dm 0 no 0 0x18000000182,
  dm 0x2700000027 no 0x1acc40001accc 0x1accc0001acd6,
  dm 0x2700000027 no 0x1acd60001acdf 0x1acdf0001ace9,
  dm 0x2700000027 no 0x1ace90001acf3 0x1acf30001acfd,
  dm 0x2700000027 no 0x1acfd0001ad05 0x1ad050001ad0f,
  dm 0x2700000027 no 0x1ad0f0001ad18 0x1ad180001ad22,
  dm 0x2700000027 no 0x1ad220001ad2a 0x1ad2a0001ad34,
  dm 0x2700000027 no 0x1ad340001ad3d 0x1ad3d0001ad47,
  dm 0x2700000027 no 0x1ad470001ad51 0x1ad510001ad5c,
  dm 0x2700000027 no 0x1ad5c0001ad66 0x1ad660001ad71,
  dm 0x2700000027 0x1cbd 0 0x1ad710001ad7c,
  dm 0x2700000027 no 0x1ad7c0001ad85 0x1ad850001ad90,
  dm 0x2a1000002a7 no 0x1ad900001ad96 0x1175200011754,
  dm 0x2a1000002a7 no 0x1ad960001ad9e 0x1ad9e0001ada6,
  dm 0x2a1000002a7 no 0x1ada60001adad 0x1adad0001adb5,
  dm 0x2a1000002a7 no 0x1adb50001adbd 0x1adbd0001adc7,
  dm 0x2a1000002a7 no 0x1adc70001adcd 0x1adcd0001add4,
  dm 0x2a1000002a7 no 0x1add40001addd 0x1addd0001ade8,
  dm 0x2a1000002a7 0x1cbe 0 0x18000000182,
  dm 0x2a1000002a7 no 0x1ade80001adef 0x1adef0001adf4,
  dm 0x2a1000002a7 no 0x1adf40001adfc 0x1adfc0001ae01,
  dm 0x2a1000002a7 0x1cbf 0 0x18000000182,
  dm 0x2700000027 0x1cc0 0 0x18000000182,
  dm 0x2700000027 0x1cc1 0 0x18000000182,
  dm 0x2a1000002a7 no 0x1ae010001ae06 0x1ae060001ae0a,
  dm 0x2a1000002a7 0x1cc2 0 0x18000000182,
  dm 0x23b0000023d 0x1cc3 0 0xe3400000e3c,
  dm 0x2700000027 0x1cc5 0 0x18000000182,
  dm 0x2700000027 0x1cc7 0 0x1ae1c0001ae26,
  dm 0x2700000027 0x1cc8 0 0x1ae260001ae32,
  dm 0x2700000027 no 0x1ae320001ae3a 0x1ae320001ae3a,
  dm 0x2700000027 0x1cc9 0 0x1ae3a0001ae47,
  dm 0x2700000027 0x1cca 0 0x1ae470001ae4f,
  dm 0x2700000027 0x1ccb 0 0x1ae4f0001ae57,
  dm 0x2700000027 0x1ccc 0 0x1ae570001ae65,
  dm 0 no 0 0x18000000182,
  dm 0 no 0 0x1ae780001ae83,
  dm 0x2700000027 0x1cd0 0 0x1ae8a0001ae92,
  dm 0x2700000027 0x1cd1 0 0x1ae920001ae96,
  dm 0x2700000027 0x1cd2 0 0x1ae960001ae9b,
  dm 0x2700000027 0x1cd3 0 0x18000000182,
  dm 0x2700000027 0x1cd4 0 0x1ae9b0001aea2,
  dm 0x2700000027 0x1cd5 0 0x1aea20001aea8,
  dm 0x2700000027 0x1cd6 0 0x1aea80001aeaa,
  dm 0x2700000027 0x1cd7 0 0x1aeaa0001aeb5,
  dm 0x2a1000002a7 0x1cd8 0 0x1aeb50001aec0,
  dm 0x2a1000002a7 0x1cd9 0 0x1aec00001aec9,
  dm 0 no 0 0x18000000182,
  dm 0x2700000027 0x1cdc 0 0x1aed30001aeda,
  dm 0x2700000027 no 0x1aeda0001aee3 0x1aee30001aee7,
  dm 0x2700000027 0x1cdd 0 0x18000000182,
  dm 0x2a1000002a7 0x1cde 0 0x1aee70001aeeb,
  dm 0 no 0 0x1aef20001af01,
  dm 0x2700000027 no 0x1af010001af07 0x967b00009681,
  dm 0x2700000027 0x1ce1 0 0x1af0d0001af12,
  dm 0x2700000027 0x1ce3 0 0x1af160001af1d,
  dm 0x2700000027 0x1ce4 0 0x1af1d0001af22,
  dm 0x2700000027 0x1ce5 0 0x1af220001af2b,
  dm 0x2700000027 0x1ce6 0 0x18000000182,
  dm 0x23f00000249 0x1ce7 0 0x1af2b0001af33,
  dm 0x2700000027 no 0x1af3e0001af4b 0x1af4b0001af53,
  dm 0x2700000027 no 0x1af580001af60 0x1af600001af65,
  dm 0x2700000027 no 0x1af650001af6d 0x1af6d0001af72,
  dm 0x2700000027 no 0x1af720001af7a 0x1af7a0001af7f,
  dm 0x2700000027 no 0x1af7f0001af87 0x1af870001af8c,
  dm 0x2700000027 0x1ce9 0 0x18000000182,
  dm 0 no 0 0x1af900001af96,
  dm 0 no 0 0x1af9a0001af9f,
  dm 0 no 0 0x18000000182,
  dm 0x2700000027 no 0x1afae0001afbc 0x17f4100017f45,
  dm 0x2700000027 0x1cee 0 0x18000000182,
  dm 0x2a1000002a7 no 0x1afbc0001afc6 0x1afc60001afd7,
  dm 0x2a1000002a7 0x1cef 0 0x1afd70001afe3,
  dm 0x2a1000002a7 0x1cf0 0 0x1afe30001aff3,
  dm 0x2a1000002a7 no 0x1aff30001affe 0x1affe0001b00d,
  dm 0x2a1000002a7 0x1cf1 0 0x1b00d0001b018,
  dm 0x2a1000002a7 no 0x1b0180001b023 0x1b0230001b034,
  dm 0x2a1000002a7 no 0x1b0340001b03e 0x1b03e0001b04f,
  dm 0x2a1000002a7 0x1cf2 0 0x1b04f0001b05f,
  dm 0x2a1000002a7 no 0x1b05f0001b06b 0x1b06b0001b07a,
  dm 0x2a1000002a7 no 0x1b07a0001b085 0x1b0850001b094,
  dm 0xbf670000bf7c 0x1cf3 0 0x18000000182,
  dm 0x23b0000023d 0x1cf4 0 0x18000000182,
  dm 0x2a1000002a7 0x1cf5 0 0x1b0940001b099,
  dm 0x2a1000002a7 0x1cf6 0 0x1b0990001b09d,
  dm 0 no 0 0x18000000182,
  dm 0 no 0 0x1b0a30001b0af,
  dm 0x2700000027 0x1cf9 0 0x1b0ba0001b0c0,
  dm 0x2700000027 0x1cfb 0 0x18000000182,
  dm 0x23b0000023d 0x1cfc 0 0xe3400000e3c,
  dm 0x23b0000023d 0x1cfd 0 0x2700000027,
  dm 0x2700000027 0x1cff 0 0x1b0ca0001b0d1,
  dm 0x2700000027 0x1d01 0 0x1b0d40001b0e5,
  dm 0x2700000027 0x1d02 0 0x1b0e50001b0eb,
  dm 0x2700000027 no 0x1b0eb0001b0f3 0x8a8900008a8f,
  dm 0x2700000027 0x1d03 0 0x1b0f30001b0f9,
  dm 0x2700000027 0x1d04 0 0x1b0f90001b100,
  dm 0x2700000027 0x1d05 0 0x1b1000001b104,
  dm 0x2700000027 no 0x1b1040001b10c 0x1b10c0001b117,
  dm 0x2700000027 no 0x1b1170001b11f 0x1b11f0001b129,
  dm 0x2700000027 no 0x1b1290001b131 0x64d7000064dd,
  dm 0x2700000027 0x1d06 0 0x1b1310001b139,
  dm 0x2700000027 0x1d07 0 0x550900005510,
  dm 0x2700000027 0x1d08 0 0x1b1390001b148,
  dm 0x2700000027 0x1d09 0 0x1b1480001b159,
  dm 0x2700000027 0x1d0a 0 0x1b1590001b166,
  dm 0x2a1000002a7 0x1d0b 0 0x1b1660001b179,
  dm 0x2700000027 0x1d0c 0 0x1b1590001b166,
  dm 0x2700000027 0x1d0d 0 0x1b1590001b166,
  dm 0x2700000027 no 0x1b1790001b17d 0x1b17d0001b18a,
  dm 0x2700000027 0x1d0e 0 0x1b18a0001b192,
  dm 0x2700000027 no 0x1b1920001b196 0x1b1960001b19f,
  dm 0x2700000027 no 0x1b19f0001b1a3 0x1b19f0001b1a3,
  dm 0x2700000027 0x1d0f 0 0x1b1a30001b1ab,
  dm 0x2700000027 no 0x1b1ab0001b1b5 0x1b1ab0001b1b5,
  dm 0x2700000027 no 0x1b1bc0001b1ca 0x1b1bc0001b1ca,
  dm 0 no 0 0x18000000182,
  dm 0x2700000027 0x1d13 0 0x1b1d80001b1e0,
  dm 0x2700000027 no 0x1b1e00001b1e7 0x1b1e70001b1ef,
  dm 0 no 0 0x1b1f20001b1f9,
  dm 0x2700000027 no 0x1b2000001b204 0x1b2040001b207,
  dm 0x2700000027 no 0x1b2070001b20d 0x1b20d0001b212,
  dm 0x2700000027 no 0x1b2120001b216 0x1b2160001b21a,
  dm 0x2700000027 no 0x1b21a0001b21e 0x1b21e0001b227,
  dm 0x2700000027 no 0x1b2270001b22b 0x1b22b0001b232,
  dm 0x2700000027 0x1d17 0 0x18000000182,
  dm 0x2700000027 0x1d18 0 0x18000000182,
  dm 0x2700000027 no 0x1b2370001b23e 0x1b23e0001b246,
  dm 0x2a1000002a7 no 0x1b2460001b24f 0x1b24f0001b259,
  dm 0x2a1000002a7 0x1d19 0 0x18000000182,
  dm 0 no 0 0x18000000182,
  dm 0 no 0 0x18000000182,
  dm 0x2700000027 no 0x1b26f0001b27b 0x1b27b0001b287,
  dm 0x1060000010d no 0x1b28c0001b299 0x1b2990001b2a0,
  dm 0x2700000027 no 0x1720b00017212 0x1720b00017212,
  dm 0 no 0 0x18000000182,
  dm 0x2700000027 0x1d20 0 0x1b2ac0001b2b3,
  dm 0x2700000027 0x1d21 0 0x1b2b30001b2ba,
  dm 0x2700000027 0x1d22 0 0x18000000182,
  dm 0 no 0 0x18000000182,
  dm 0x2700000027 no 0x1b2c60001b2cd 0x1b2cd0001b2d6,
  dm 0x2700000027 no 0x1b2d60001b2dd 0x1b2dd0001b2e8,
  dm 0x2700000027 no 0x1b2e80001b2ef 0x1b2ef0001b2f4,
  dm 0x2700000027 no 0x1b2f40001b2fb 0x1b2fb0001b304,
  dm 0x2700000027 0x1d25 0 0x1b3040001b30f,
  dm 0x2700000027 no 0x1b30f0001b316 0x1b3160001b31b,
  dm 0x2700000027 no 0x1b31b0001b322 0x1b3220001b328,
  dm 0x2700000027 no 0x1b3280001b32f 0x1b32f0001b338,
  dm 0x2700000027 no 0x1b3380001b33f 0x1b33f0001b346,
  dm 0x2700000027 no 0x1b3460001b34d 0x1b34d0001b356,
  dm 0x2700000027 no 0x1b3560001b35d 0x1b35d0001b362,
  dm 0x2700000027 no 0x1b3620001b369 0xf7680000f76f,
  dm 0x2700000027 0x1d26 0 0x1b3690001b371,
  dm 0x2700000027 no 0x1b3710001b378 0x1b3780001b380,
  dm 0x2700000027 0x1d27 0 0x1b3800001b384,
  dm 0x2700000027 no 0x1b3840001b38b 0x1b38b0001b390,
  dm 0x2700000027 0x1d28 0 0x1b3900001b398,
  dm 0x2700000027 0x1d29 0 0x1b3980001b39c,
  dm 0x2700000027 no 0x1b39c0001b3a3 0x1b3a30001b3a8,
  dm 0x2700000027 0x1d2a 0 0x1b3a80001b3b0,
  dm 0x2700000027 no 0x1b3b00001b3b7 0x1b3b70001b3bb,
  dm 0x2700000027 no 0x1b3bb0001b3c2 0x1b3c20001b3cd,
  dm 0x2700000027 no 0x1b3cd0001b3d4 0x1b3d40001b3df,
  dm 0x2700000027 no 0x1b3df0001b3e6 0x17e9400017e99,
  dm 0x2700000027 no 0x1b3e60001b3ed 0x1b3ed0001b3f8,
  dm 0x2700000027 no 0x1b3f80001b3ff 0x1b3ff0001b405,
  dm 0x2700000027 no 0x1b4050001b40c 0x1b40c0001b414,
  dm 0x2700000027 0x1d2b 0 0x1b4140001b41f,
  dm 0x2700000027 0x1d2c 0 0x1c8600001c87,
  dm 0x2700000027 no 0x1b41f0001b426 0xbf2f0000bf35,
  dm 0x2700000027 0x1d2d 0 0x1453500014536,
  dm 0x2700000027 0x1d2e 0 0x1b4260001b42b,
  dm 0x2700000027 0x1d2f 0 0x1cfb00001cfc,
  dm 0x2700000027 no 0x1b42b0001b432 0x1b4320001b434,
  dm 0x2700000027 0x1d30 0 0x1b4340001b439,
  dm 0x2700000027 0x1d31 0 0x1ecc00001ecd,
  dm 0x2700000027 0x1d32 0 0x114a3000114a5,
  dm 0x2700000027 no 0x1b4390001b440 0x16de300016dea,
  dm 0x2700000027 0x1d33 0 0x1b4400001b446,
  dm 0x2700000027 no 0x1b4460001b44d 0x1b44d0001b452,
  dm 0x2700000027 no 0x1b4520001b459 0x1b4590001b45f,
  dm 0x2700000027 no 0x1b45f0001b466 0x1b4660001b46f,
  dm 0x2700000027 no 0x1b46f0001b476 0x1b4760001b47b,
  dm 0x2700000027 no 0x1b47b0001b482 0x1b4820001b485,
  dm 0x2700000027 no 0x1b4850001b48c 0x1b48c0001b492,
  dm 0x2700000027 no 0x1b4920001b499 0x1b4990001b49b,
  dm 0x2700000027 no 0x1b49b0001b4a2 0x1b4a20001b4a5,
  dm 0x2700000027 0x1d34 0 0x1b4a50001b4aa,
  dm 0x2700000027 0x1d35 0 0x1b4aa0001b4b3,
  dm 0x2700000027 0x1d36 0 0x1b4b30001b4b5,
  dm 0x2700000027 0x1d37 0 0x1d2d00001d2e,
  dm 0x2700000027 0x1d38 0 0x1b4b50001b4ba,
  dm 0x2700000027 0x1d39 0 0x1b4ba0001b4bc,
  dm 0x2700000027 no 0x1b4bc0001b4c3 0x1b4c30001b4c5,
  dm 0x2700000027 0x1d3a 0 0x16d1f00016d20,
  dm 0x2700000027 0x1d3b 0 0x1b4c50001b4c7,
  dm 0x2700000027 no 0x1b4c70001b4ce 0x1b4ce0001b4d0,
  dm 0x2700000027 0x1d3c 0 0x1b4d00001b4d5,
  dm 0x2700000027 0x1d3d 0 0x1d3f00001d40,
  dm 0x2700000027 no 0x1b4d50001b4dc 0x1b4dc0001b4de,
  dm 0x2700000027 no 0x1b4de0001b4e5 0x18dca00018dcf,
  dm 0x2700000027 no 0x1b4e50001b4ec 0x1b4ec0001b502,
  dm 0x2700000027 no 0x1b5020001b509 0x18d8900018d8e,
  dm 0x2700000027 0x1d3e 0 0x3f3100003f32,
  dm 0x2700000027 0x1d3f 0 0x1b5090001b50b,
  dm 0x2700000027 no 0x1b50b0001b512 0x1b5120001b514,
  dm 0x2700000027 no 0x1b5140001b51b 0x1b51b0001b51f,
  dm 0x2700000027 0x1d40 0 0x1b51f0001b521,
  dm 0x2700000027 no 0x1b5210001b528 0x1b5280001b52d,
  dm 0x2700000027 no 0x1b52d0001b534 0xbf1e0000bf1f,
  dm 0x2700000027 0x1d41 0 0x1b5340001b538,
  dm 0x2700000027 0x1d42 0 0x1b5380001b541,
  dm 0x2700000027 0x1d43 0 0x1b5410001b549,
  dm 0x2700000027 0x1d44 0 0x3f8100003f83,
  dm 0x2700000027 no 0x1b5490001b550 0x1b5500001b553,
  dm 0x2700000027 0x1d45 0 0x1b5530001b55c,
  dm 0x2700000027 0x1d46 0 0x1b55c0001b566,
  dm 0x2700000027 no 0x1b5660001b56d 0x1b56d0001b577,
  dm 0x2700000027 no 0x1b5770001b57e 0x1b57e0001b585,
  dm 0x2700000027 no 0x1b5850001b58c 0x1b58c0001b595,
  dm 0x2700000027 no 0x1b5950001b59c 0x1b59c0001b5a2,
  dm 0x2700000027 no 0x1b5a20001b5a9 0x1b5a90001b5af,
  dm 0x2700000027 0x1d47 0 0xbf450000bf47,
  dm 0x2700000027 no 0x1b5af0001b5b6 0x1b5b60001b5bb,
  dm 0x2700000027 no 0x1b5bb0001b5c2 0x1b5c20001b5cb,
  dm 0x2700000027 no 0x1b5cb0001b5d2 0x1b5d20001b5d8,
  dm 0x2700000027 no 0x1b5d80001b5df 0x1b5df0001b5e6,
  dm 0x2700000027 no 0x1b5e60001b5ed 0x1b5ed0001b5f7,
  dm 0x2700000027 no 0x1b5f70001b5fe 0x1b5fe0001b604,
  dm 0x2700000027 0x1d48 0 0x1b6040001b609,
  dm 0x2700000027 no 0x1b6090001b610 0x18bcf00018bd1,
  dm 0x2700000027 no 0x1b6100001b617 0x1b6170001b61d,
  dm 0x2700000027 no 0x1b61d0001b624 0x1b6240001b627,
  dm 0x2700000027 no 0x1b6270001b62e 0x1b62e0001b634,
  dm 0x2700000027 0x1d49 0 0x1b6340001b63d,
  dm 0x2700000027 0x1d4a 0 0x1b63d0001b647,
  dm 0x2700000027 no 0x1b6470001b64e 0x1b64e0001b654,
  dm 0x2700000027 no 0x1b6540001b65b 0x1b65b0001b660,
  dm 0x2700000027 no 0x1b6600001b667 0x18bbe00018bc0,
  dm 0x2700000027 0x1d4b 0 0x1b6670001b66d,
  dm 0x2700000027 no 0x1b66d0001b674 0x1b6740001b679,
  dm 0x2700000027 no 0x1b6790001b680 0x1b6800001b686,
  dm 0x2700000027 0x1d4c 0 0x1b6860001b690,
  dm 0x2700000027 no 0x1b6900001b697 0x1b6970001b69e,
  dm 0x2700000027 no 0x1b69e0001b6a5 0x1b6a50001b6ae,
  dm 0x2700000027 no 0x1b6ae0001b6b5 0x1b6b50001b6bb,
  dm 0x2700000027 no 0x1b6bb0001b6c2 0x1b6c20001b6c7,
  dm 0x2700000027 no 0x1b6c70001b6ce 0x1b6ce0001b6d7,
  dm 0x2700000027 no 0x1b6d70001b6de 0x1b6de0001b6e4,
  dm 0x2700000027 no 0x1b6e40001b6eb 0x1b6eb0001b6ee,
  dm 0x2700000027 no 0x1b6ee0001b6f5 0x1b6f50001b6fb,
  dm 0x2700000027 no 0x1b6fb0001b702 0x1b7020001b704,
  dm 0x2700000027 no 0x1b7040001b70b 0x5b1000005b3,
  dm 0x2700000027 0x1d4d 0 0x711e00007120,
  dm 0x2700000027 0x1d4e 0 0x195980001959a,
  dm 0x2700000027 no 0x1b70b0001b712 0x1b7120001b715,
  dm 0x2700000027 no 0x1b7150001b71c 0x1b71c0001b71f,
  dm 0x2700000027 0x1d4f 0 0x1b71f0001b722,
  dm 0x2700000027 0x1d50 0 0x1b7220001b736,
  dm 0x2700000027 0x1d51 0 0x1b7360001b739,
  dm 0x2700000027 0x1d52 0 0x1b7390001b73c,
  dm 0x2700000027 0x1d53 0 0x1b73c0001b73f,
  dm 0x2700000027 0x1d54 0 0x1b73f0001b743,
  dm 0x2700000027 0x1d55 0 0x1b7430001b746,
  dm 0x2700000027 0x1d56 0 0x1b7460001b74a,
  dm 0x2700000027 0x1d57 0 0x1b74a0001b74e,
  dm 0x2700000027 0x1d58 0 0x1959a0001959d]

/-- `__dr_dm`, from item 10000 on (device_repo.go:12272-12771). -/
def drDm_20 : List ModelTuple := [
  dm 0x2700000027 0x1d59 0 0x1b74e0001b751,
  dm 0x2700000027 no 0x1b7510001b758 0x1b7580001b75c,
  dm 0x2700000027 0x1d5a 0 0x1b75c0001b75f,
  dm 0x2700000027 0x1d5b 0 0x1b75f0001b762,
  dm 0x2700000027 no 0x1b7620001b769 0x195ad000195b0,
  dm 0x2700000027 no 0x1b7690001b770 0xb1b70000b1ba,
  dm 0x2700000027 no 0x1b7700001b777 0x1b7770001b77b,
  dm 0x2700000027 0x1d5c 0 0x1b77b0001b77e,
  dm 0x2700000027 0x1d5d 0 0x195b0000195b3,
  dm 0x2700000027 no 0x1b77e0001b785 0x1b7850001b78b,
  dm 0x2700000027 no 0x1b78b0001b792 0x195b3000195b6,
  dm 0x2700000027 no 0x1b7920001b799 0x1b7990001b79c,
  dm 0x2700000027 no 0x1b79c0001b7a3 0x1b7a30001b7ac,
  dm 0x2700000027 no 0x1b7ac0001b7b3 0x1b7b30001b7b9,
  dm 0x2700000027 no 0x1b7b90001b7c0 0x195b6000195b9,
  dm 0x2700000027 no 0x1b7c00001b7c7 0xb1b40000b1b7,
  dm 0x2700000027 no 0x1b7c70001b7ce 0x1b7ce0001b7d4,
  dm 0x2700000027 no 0x1b7d40001b7db 0x1b7db0001b7df,
  dm 0x2700000027 no 0x1b7df0001b7e6 0x1b7e60001b7f0,
  dm 0x2700000027 no 0x1b7f00001b7f7 0x1b3900001b398,
  dm 0x2700000027 0x1d5e 0 0x1b7f70001b7fb,
  dm 0x2700000027 no 0x1b7fb0001b802 0x1b8020001b80a,
  dm 0x2700000027 no 0x1b80a0001b811 0x1b8110001b815,
  dm 0x2700000027 0x1d5f 0 0x1b8150001b81d,
  dm 0x2700000027 0x1d60 0 0x1b81d0001b821,
  dm 0x2700000027 no 0x1b8210001b828 0x1b8280001b83c,
  dm 0x2700000027 no 0x1b83c0001b843 0x1b8430001b849,
  dm 0x2700000027 no 0x1b8490001b850 0x1b8500001b858,
  dm 0x2700000027 0x1d61 0 0x1b8580001b860,
  dm 0x2700000027 no 0x1b8600001b867 0x1b8670001b874,
  dm 0x2700000027 0x1d62 0 0x1b8740001b87d,
  dm 0x2700000027 0x1d63 0 0x1b87d0001b886,
  dm 0x2700000027 no 0x1b8860001b88d 0x1b3d40001b3df,
  dm 0x2700000027 0x1d64 0 0x1b88d0001b89e,
  dm 0x2700000027 0x1d65 0 0x1b89e0001b8aa,
  dm 0x2700000027 0x1d66 0 0x1b8aa0001b8b6,
  dm 0x2700000027 no 0x1b8b60001b8bd 0x1b8bd0001b8c5,
  dm 0x2700000027 no 0x1b8c50001b8cc 0x1b8cc0001b8d5,
  dm 0x2700000027 no 0x1b8d50001b8dc 0x1b8dc0001b8e5,
  dm 0x2700000027 no 0x1b8e50001b8ec 0x1b8ec0001b8f4,
  dm 0x2700000027 no 0x1b8f40001b8fb 0x1b8fb0001b906,
  dm 0x2700000027 no 0x1b9060001b90d 0x1b90d0001b916,
  dm 0x2700000027 no 0x1b9160001b91d 0x1b91d0001b925,
  dm 0x2700000027 no 0x1b9250001b92c 0x1b92c0001b937,
  dm 0x2700000027 no 0x1b9370001b93e 0x1b93e0001b94a,
  dm 0x2700000027 no 0x1b94a0001b951 0x1b9510001b960,
  dm 0x2700000027 0x1d67 0 0x1b9600001b96f,
  dm 0x2700000027 no 0x1b96f0001b976 0x1b9760001b97f,
  dm 0x2700000027 no 0x1b97f0001b986 0x1b9860001b995,
  dm 0x2700000027 no 0x1b9950001b99c 0x1b99c0001b9a7,
  dm 0x2700000027 no 0x1b9a70001b9ae 0x1b9ae0001b9b9,
  dm 0x2700000027 no 0x1b9b90001b9c0 0x1b9c00001b9d1,
  dm 0x2700000027 no 0x1b9d10001b9d8 0x1b9d80001b9e7,
  dm 0x2700000027 no 0x1b9e70001b9ee 0x1b9ee0001b9fd,
  dm 0x2700000027 no 0x1b9fd0001ba04 0x1ba040001ba0d,
  dm 0x2700000027 no 0x1ba0d0001ba14 0x1ba140001ba1b,
  dm 0x2700000027 0x1d68 0 0xb1bc0000b1be,
  dm 0x2700000027 0x1d69 0 0x1ba1b0001ba21,
  dm 0x2700000027 0x1d6a 0 0x1ba210001ba28,
  dm 0x2700000027 0x1d6b 0 0x1ba280001ba2f,
  dm 0x2700000027 0x1d6c 0 0xc8890000c893,
  dm 0x2700000027 0x1d6d 0 0x1ba2f0001ba3d,
  dm 0x2700000027 0x1d6e 0 0xf7fa0000f7fc,
  dm 0x2700000027 0x1d6f 0 0x1ba3d0001ba4a,
  dm 0x2700000027 no 0x1ba4a0001ba51 0xf7fa0000f7fc,
  dm 0x2700000027 no 0x1ba510001ba61 0x1ba610001ba6a,
  dm 0x2700000027 0x1d70 0 0x1ba6a0001ba6d,
  dm 0x2700000027 0x1d71 0 0x1ba6d0001ba72,
  dm 0x2700000027 0x1d72 0 0x1ba720001ba77,
  dm 0x2700000027 no 0x1ba770001ba7e 0x1168e00011691,
  dm 0x2700000027 0x1d73 0 0x1ba7e0001ba84,
  dm 0x2700000027 no 0x1ba840001ba8b 0x1ba8b0001ba92,
  dm 0x2700000027 0x1d74 0 0x1ba920001ba98,
  dm 0x2700000027 0x1d75 0 0x1ba980001ba9e,
  dm 0x2700000027 0x1d76 0 0x1130b0001130e,
  dm 0x2700000027 no 0x1ba9e0001baa5 0x1baa50001baa8,
  dm 0x2700000027 no 0x1baa80001baaf 0x1baaf0001bab3,
  dm 0x2700000027 no 0x1bab30001baba 0x1baba0001babd,
  dm 0x2700000027 no 0x1babd0001bac4 0x1168e00011691,
  dm 0x2700000027 no 0x1bac40001bacb 0x1bacb0001bacf,
  dm 0x2700000027 no 0x1bacf0001bad6 0x1bacb0001bacf,
  dm 0x2700000027 no 0x1bad60001badd 0x4d2200004d25,
  dm 0x2700000027 no 0x1badd0001bae4 0x1bae40001bae8,
  dm 0x2700000027 no 0x1bae80001baef 0x4d3400004d37,
  dm 0x2700000027 no 0x1baef0001baf6 0x1baf60001bafb,
  dm 0x2700000027 no 0x1bafb0001bb02 0x1bb020001bb0a,
  dm 0x2700000027 no 0x1bb0a0001bb11 0x1bb110001bb19,
  dm 0x2700000027 0x1d77 0 0x500000005006,
  dm 0x2a1000002a7 0x1d78 0 0x1bb190001bb1c,
  dm 0x2a1000002a7 0x1d79 0 0x1831b00018320,
  dm 0x2a1000002a7 0x1d7a 0 0x1bb1c0001bb21,
  dm 0x2a1000002a7 0x1d7b 0 0x1bb210001bb29,
  dm 0x23b0000023d no 0x1bb290001bb3b 0x1bb290001bb3b,
  dm 0x2a1000002a7 0x1d7d 0 0x18000000182,
  dm 0x2700000027 no 0x1bb420001bb4f 0x1bb420001bb4f,
  dm 0x2700000027 0x1d7e 0 0x1bb4f0001bb56,
  dm 0x2700000027 0x1d7f 0 0x1bb560001bb5f,
  dm 0 no 0 0x18000000182,
  dm 0x2700000027 0x1d82 0 0x1bb6c0001bb7c,
  dm 0x2700000027 no 0x1bb820001bb8f 0x1bb8f0001bb96,
  dm 0x2700000027 no 0x1bb960001bba1 0x18dca00018dcf,
  dm 0x2700000027 no 0x1bba10001bba9 0x1d3f00001d40,
  dm 0x2700000027 no 0x1bbaf0001bbb5 0x1bbb50001bbbb,
  dm 0x2700000027 no 0x1bbbb0001bbc4 0x1bbc40001bbcd,
  dm 0x2700000027 0x1d85 0 0x18000000182,
  dm 0x2700000027 no 0x1bbcd0001bbd5 0x1bbd50001bbde,
  dm 0x2700000027 no 0x1bbde0001bbe4 0x1bbe40001bbeb,
  dm 0x2700000027 0x1d86 0 0x1bbeb0001bbf0,
  dm 0x2700000027 no 0x1bbf00001bbf8 0x1bbf80001bc04,
  dm 0x2700000027 0x1d87 0 0x1bc040001bc09,
  dm 0x2700000027 no 0x1bc090001bc15 0x1bc090001bc15,
  dm 0x2700000027 no 0x1bc150001bc20 0x1bc150001bc20,
  dm 0x23f00000249 no 0x1bc200001bc28 0x1bc280001bc31,
  dm 0x23f00000249 no 0x1bc310001bc40 0x1bc400001bc51,
  dm 0x23f00000249 no 0x1bc510001bc5e 0x1bc5e0001bc6b,
  dm 0x23f00000249 no 0x1bc6b0001bc7d 0x1bc7d0001bc91,
  dm 0x23f00000249 no 0x1bc910001bc9e 0x1bc9e0001bcab,
  dm 0x23f00000249 no 0x1bcab0001bcc0 0x1bcc00001bcd7,
  dm 0x23f00000249 no 0x1bcd70001bce8 0x1bcd70001bce8,
  dm 0x23f00000249 no 0x1bce80001bcf8 0x1bce80001bcf8,
  dm 0x23f00000249 0x1d88 0 0x1bcf80001bd08,
  dm 0x23f00000249 0x1d89 0 0x1bd080001bd1c,
  dm 0x23f00000249 0x1d8a 0 0x1bd1c0001bd28,
  dm 0x23f00000249 no 0x1bd280001bd30 0x1bd300001bd38,
  dm 0x23f00000249 0x1d8b 0 0x1bd380001bd3f,
  dm 0x23f00000249 no 0x1bd3f0001bd4d 0x1bd4d0001bd56,
  dm 0x23f00000249 no 0x1bd560001bd68 0x1bd560001bd68,
  dm 0x23f00000249 no 0x1bd680001bd7a 0x1bd680001bd7a,
  dm 0x23f00000249 no 0x1bd7a0001bd87 0x1bd7a0001bd87,
  dm 0x23f00000249 no 0x1bd870001bd92 0x1bd870001bd92,
  dm 0x23f00000249 no 0x1bd380001bd3f 0x1bd380001bd3f,
  dm 0x23f00000249 no 0x1bd920001bd9d 0x1bd920001bd9d,
  dm 0x23b0000023d no 0x1bd9d0001bda6 0xe3400000e3c,
  dm 0 no 0 0x18000000182,
  dm 0 no 0 0x18000000182,
  dm 0x2700000027 0x1d8f 0 0x1bdb90001bdbd,
  dm 0 no 0 0x18000000182,
  dm 0x2700000027 0x1d91 0 0x1940000019b,
  dm 0x2700000027 no 0x19b000001a7 0x1a7000001ac,
  dm 0x2700000027 0x1d92 0 0x18000000182,
  dm 0x2700000027 no 0x1bdc70001bdd3 0x1bdd30001bddb,
  dm 0x2700000027 0x1d94 0 0x18000000182,
  dm 0x2700000027 no 0x1bde40001bde9 0x1bde90001bdec,
  dm 0 no 0 0x1bdf10001bdf8,
  dm 0x2700000027 no 0x1be030001be10 0x1be100001be13,
  dm 0 no 0 0x1be1c0001be20,
  dm 0x2700000027 no 0x1be3a0001be43 0x1be430001be4f,
  dm 0 no 0 0x18000000182,
  dm 0x2700000027 0x1d9a 0 0x1be5a0001be60,
  dm 0x23f00000249 0x1d9b 0 0x1be600001be66,
  dm 0 no 0 0x1be6e0001be73,
  dm 0x2700000027 0x1d9e 0 0x18000000182,
  dm 0x2700000027 no 0x1be7e0001be8a 0x1be8a0001be97,
  dm 0x2700000027 no 0x1be970001be9f 0x1be9f0001bea7,
  dm 0x2700000027 0x1da0 0 0x1bea70001beb3,
  dm 0x2700000027 0x1da1 0 0x1beb30001bebf,
  dm 0x2700000027 0x1da2 0 0x1bebf0001beca,
  dm 0 no 0 0x18000000182,
  dm 0 no 0 0x1beec0001bef5,
  dm 0 no 0 0x18000000182,
  dm 0 no 0 0x18000000182,
  dm 0x2700000027 no 0x1bf020001bf07 0x1bf020001bf07,
  dm 0x2700000027 no 0x1bf070001bf0d 0x1bf070001bf0d,
  dm 0x2700000027 no 0x1bf0d0001bf15 0x1bf0d0001bf15,
  dm 0x2700000027 no 0x1bf150001bf1a 0x1bf150001bf1a,
  dm 0x2700000027 no 0x1bf1e0001bf23 0x1bf230001bf2a,
  dm 0x2700000027 no 0x1bf2a0001bf33 0x1bf330001bf38,
  dm 0x2700000027 no 0x2700000027 0x1bf380001bf4c,
  dm 0x23f00000249 no 0x1bf530001bf5e 0x1bf530001bf5e,
  dm 0x2700000027 0x1da9 0 0x1bf5e0001bf6c,
  dm 0x2700000027 no 0x1bf6c0001bf79 0x1bf790001bf86,
  dm 0x2700000027 no 0x1bf860001bf8f 0x1bf8f0001bf98,
  dm 0x2700000027 0x1daa 0 0x1bf980001bfa5,
  dm 0x2700000027 0x1dab 0 0x18000000182,
  dm 0 no 0 0x18000000182,
  dm 0 no 0 0x1bfb40001bfbb,
  dm 0 no 0 0x18000000182,
  dm 0x23f00000249 0x1db0 0 0x2700000027,
  dm 0x2700000027 0x1db1 0 0x1bfcf0001bfda,
  dm 0x2700000027 0x1db2 0 0x1bfda0001bfe6,
  dm 0x2700000027 0x1db3 0 0x1bfe60001bff1,
  dm 0x2700000027 0x1db4 0 0x18000000182,
  dm 0x2700000027 0x1db6 0 0x18000000182,
  dm 0x2700000027 no 0x1bff90001c005 0x1c0050001c00b,
  dm 0x2a1000002a7 0x1db7 0 0x18000000182,
  dm 0x2700000027 no 0x1c0110001c01a 0x1c0110001c01a,
  dm 0x2700000027 no 0x1c01a0001c021 0x1c01a0001c021,
  dm 0x2700000027 0x1db9 0 0x18000000182,
  dm 0x2700000027 no 0x1c0280001c02d 0x1c0280001c02d,
  dm 0x2700000027 0x1dbb 0 0x18000000182,
  dm 0x2700000027 0x1dbd 0 0x1c03c0001c047,
  dm 0x2700000027 0x1dbf 0 0x18000000182,
  dm 0x2700000027 0x1dc0 0 0x1940000019b,
  dm 0x2700000027 no 0x1c04b0001c051 0x1c0510001c058,
  dm 0x2700000027 0x1dc1 0 0x18000000182,
  dm 0 no 0 0xc9f80000c9fa,
  dm 0x2700000027 0x1dc3 0 0x18000000182,
  dm 0x2700000027 no 0x1c06c0001c071 0x1c06c0001c071,
  dm 0x2a1000002a7 no 0x1c0710001c078 0xbc240000bc26,
  dm 0x2700000027 no 0x1c07c0001c087 0x1c07c0001c087,
  dm 0x2700000027 0x1dc5 0 0xe3400000e3c,
  dm 0x2700000027 0x1dc7 0 0x18000000182,
  dm 0x2a1000002a7 0x1dc8 0 0x18000000182,
  dm 0 no 0 0x18000000182,
  dm 0x2700000027 0x1dcb 0 0x18000000182,
  dm 0x2700000027 0x1dcc 0 0xf1440000f147,
  dm 0x2a1000002a7 0x1dce 0 0x18000000182,
  dm 0 no 0 0x1c0a20001c0a9,
  dm 0x2700000027 no 0x1c0b40001c0bf 0x1c0bf0001c0c5,
  dm 0x2700000027 no 0x1c0ad0001c0b4 0x120990001209b,
  dm 0 no 0 0x18000000182,
  dm 0 no 0 0x18000000182,
  dm 0x2700000027 0x1dd4 0 0x1c0da0001c0e1,
  dm 0x2700000027 0x1dd5 0 0x1c0e10001c0ec,
  dm 0x2700000027 0x1dd6 0 0x1c0ec0001c0f2,
  dm 0x2700000027 0x1dd7 0 0x18000000182,
  dm 0 no 0 0x18000000182,
  dm 0 no 0 0x1c0fc0001c102,
  dm 0x2700000027 0x1ddb 0 0x1c1050001c110,
  dm 0x2700000027 0x1ddc 0 0x1c1100001c11c,
  dm 0x2700000027 0x1ddd 0 0x1c11c0001c125,
  dm 0x2700000027 0x1dde 0 0x1c1250001c130,
  dm 0x2700000027 0x1ddf 0 0x1c1300001c13b,
  dm 0x2700000027 0x1de0 0 0x1c13b0001c14b,
  dm 0x2700000027 0x1de1 0 0x1c14b0001c157,
  dm 0x2700000027 0x1de2 0 0x1c1570001c160,
  dm 0x2700000027 0x1de3 0 0x1c1600001c169,
  dm 0x2700000027 0x1de4 0 0x1c1690001c173,
  dm 0x2700000027 0x1de5 0 0x1c1730001c177,
  dm 0x2700000027 0x1de6 0 0x1c1770001c182,
  dm 0x2700000027 0x1de7 0 0x1c1820001c18d,
  dm 0x2700000027 0x1de8 0 0x1c18d0001c196,
  dm 0x2700000027 0x1de9 0 0x1c1960001c1a2,
  dm 0x2700000027 0x1dea 0 0x1c1a20001c1ae,
  dm 0x2700000027 0x1deb 0 0x1c1ae0001c1ba,
  dm 0x2700000027 0x1dec 0 0x1c1ba0001c1cb,
  dm 0x2700000027 0x1ded 0 0x1c1cb0001c1d7,
  dm 0x2700000027 0x1dee 0 0x1c1d70001c1e1,
  dm 0x2700000027 0x1def 0 0x1c1e10001c1eb,
  dm 0x2700000027 0x1df0 0 0x1c1eb0001c1f3,
  dm 0x2700000027 0x1df1 0 0x1c1f30001c1fe,
  dm 0x2700000027 0x1df2 0 0x1c1fe0001c20a,
  dm 0x2700000027 0x1df3 0 0x1c20a0001c213,
  dm 0x2a1000002a7 no 0x1c2130001c21a 0x1c2130001c21a,
  dm 0x2700000027 0x1df4 0 0x18000000182,
  dm 0x2700000027 no 0x1c21e0001c227 0x1c2270001c22b,
  dm 0x2700000027 no 0x1c22b0001c233 0x1c2330001c236,
  dm 0x2700000027 no 0x1c23c0001c248 0x7d3900007d44,
  dm 0x2700000027 no 0x1c2480001c259 0xe3400000e3c,
  dm 0x2700000027 0x1df7 0 0x1c2650001c26e,
  dm 0x2700000027 0x1df8 0 0x1c26e0001c281,
  dm 0 no 0 0x18000000182,
  dm 0x2700000027 no 0x1c28e0001c297 0x1c2970001c2a0,
  dm 0x2700000027 no 0x1c2a00001c2ae 0x1c2a00001c2ae,
  dm 0x2700000027 no 0x1c2ae0001c2be 0x1c2be0001c2ce,
  dm 0x2700000027 no 0x1c2ce0001c2db 0x1c2db0001c2e8,
  dm 0x2700000027 0x1dfc 0 0x18000000182,
  dm 0x2a1000002a7 no 0x1c2ef0001c2f8 0x1c2f80001c302,
  dm 0x2700000027 no 0x1c30d0001c317 0x1c3170001c321,
  dm 0x2700000027 no 0x1c3210001c32b 0x1c32b0001c335,
  dm 0 no 0 0x3a7000003a9,
  dm 0 no 0 0x18000000182,
  dm 0 no 0 0x1c3420001c349,
  dm 0x2700000027 0x1e02 0 0x18000000182,
  dm 0x2700000027 no 0x1c34d0001c35c 0x1c35c0001c36b,
  dm 0x2700000027 no 0x1c36b0001c375 0x1c3750001c37f,
  dm 0x2700000027 0x1e04 0 0x18000000182,
  dm 0x2700000027 0x1e05 0 0xe9630000e967,
  dm 0x2700000027 no 0x1c3840001c389 0x1c3890001c38e,
  dm 0x2700000027 0x1e06 0 0x1c38e0001c392,
  dm 0x2700000027 0x1e07 0 0x1c3920001c39b,
  dm 0x2700000027 0x1e08 0 0x1c39b0001c39f,
  dm 0x2700000027 0x1e09 0 0x1c39f0001c3a6,
  dm 0x2700000027 0x1e0a 0 0xb8a50000b8a8,
  dm 0x2700000027 0x1e0b 0 0x1c3a60001c3ab,
  dm 0x2700000027 0x1e0c 0 0x1c3ab0001c3ae,
  dm 0 no 0 0x1c3b20001c3bb,
  dm 0 no 0 0x18000000182,
  dm 0x2700000027 no 0x1c3c30001c3d3 0x1c3d30001c3e3,
  dm 0x2700000027 0x1e0f 0 0x1c3e30001c3f5,
  dm 0x2700000027 0x1e10 0 0x1c3f50001c400,
  dm 0x2700000027 no 0x1c4000001c40b 0x1c4000001c40b,
  dm 0x2700000027 no 0x1c40b0001c416 0x1c4160001c421,
  dm 0x2700000027 no 0x1c4210001c42b 0x1c42b0001c435,
  dm 0x2700000027 no 0x1c4350001c442 0x1c4420001c44f,
  dm 0x2700000027 0x1e11 0 0x1c44f0001c458,
  dm 0x2700000027 no 0x1c4580001c46a 0x1c46a0001c47c,
  dm 0x2700000027 no 0x1c47c0001c48a 0x1c48a0001c498,
  dm 0x2700000027 no 0x1c4980001c4a4 0x1c4a40001c4b0,
  dm 0x2700000027 0x1e12 0 0x1c4b00001c4ba,
  dm 0x2700000027 0x1e13 0 0x1c4ba0001c4c3,
  dm 0x2700000027 no 0x1c4c30001c4cc 0x1c4c30001c4cc,
  dm 0x2700000027 no 0x1c4cc0001c4d4 0x1c4d40001c4dc,
  dm 0x2700000027 no 0x1c4dc0001c4e2 0x1c4e20001c4e8,
  dm 0x2700000027 no 0x1c4e80001c4ed 0x1c4e80001c4ed,
  dm 0x23f00000249 no 0x1c4ed0001c4f8 0x1c4f80001c503,
  dm 0x23f00000249 no 0x1c5030001c50a 0x1c50a0001c511,
  dm 0x23f00000249 0x1e14 0 0x1c5110001c51f,
  dm 0x23f00000249 no 0x1c51f0001c52d 0x1c52d0001c537,
  dm 0x23f00000249 no 0x1c5370001c545 0x1c5450001c54f,
  dm 0x23f00000249 no 0x1c54f0001c55c 0x1c55c0001c565,
  dm 0x23f00000249 no 0x1c5650001c56e 0xf5750000f57a,
  dm 0x23f00000249 no 0x1c56e0001c579 0x1c5790001c580,
  dm 0x23f00000249 no 0x1c5800001c58c 0x1c58c0001c594,
  dm 0x23f00000249 no 0x1c5940001c5a0 0x1c5a00001c5a8,
  dm 0x23f00000249 no 0x1c5a80001c5af 0x1c5af0001c5b2,
  dm 0x23f00000249 no 0x1c5b20001c5c0 0x1c5c00001c5ce,
  dm 0x23f00000249 0x1e15 0 0x18000000182,
  dm 0x23b0000023d no 0x1c5ce0001c5dd 0x1c5dd0001c5e8,
  dm 0x23b0000023d no 0x1c5e80001c5f1 0x1c5f10001c5f6,
  dm 0x2700000027 0x1e17 0 0x1012500010128,
  dm 0 no 0 0x1c6000001c603,
  dm 0 no 0 0x18000000182,
  dm 0x2700000027 no 0x1c6110001c618 0x1c6110001c618,
  dm 0x2700000027 no 0x1c6180001c623 0x1c6180001c623,
  dm 0x2700000027 no 0x1c6230001c62e 0x1c62e0001c639,
  dm 0x2700000027 no 0x1c6390001c63f 0x1c63f0001c645,
  dm 0x2700000027 no 0x1c6450001c64f 0x1c64f0001c659,
  dm 0x2700000027 no 0x1c6590001c665 0x1c6650001c671,
  dm 0x2700000027 no 0x1c6710001c678 0x1c6780001c67f,
  dm 0x2700000027 no 0x1c67f0001c687 0x1c6870001c68f,
  dm 0x2700000027 no 0x1c68f0001c696 0x1c6960001c69d,
  dm 0x2700000027 no 0x1c69d0001c6a4 0x1c69d0001c6a4,
  dm 0 no 0 0x18000000182,
  dm 0x2700000027 no 0x1c6b20001c6b8 0x1c6b20001c6b8,
  dm 0x2700000027 no 0x1c6b80001c6bf 0x1c6b80001c6bf,
  dm 0x2700000027 no 0x1c6bf0001c6cc 0x1c6cc0001c6d9,
  dm 0x2700000027 no 0x1c6d90001c6e5 0x1c6d90001c6e5,
  dm 0x2700000027 0x1e1d 0 0x1c6e50001c6f2,
  dm 0x2700000027 0x1e1e 0 0x18000000182,
  dm 0x2700000027 0x1e1f 0 0x18000000182,
  dm 0x2700000027 no 0x1c6f80001c6ff 0x1c6f80001c6ff,
  dm 0x2700000027 0x1e21 0 0x7c3000007c8,
  dm 0 no 0 0x1c7040001c706,
  dm 0x2700000027 0x1e24 0 0x1c70d0001c719,
  dm 0x2700000027 no 0x1c7190001c724 0x1c7240001c72f,
  dm 0x2700000027 0x1e25 0 0x1c72f0001c739,
  dm 0x23b0000023d 0x1e26 0 0x1c7390001c742,
  dm 0x2700000027 0x1e28 0 0x1c74f0001c757,
  dm 0x2700000027 0x1e29 0 0x1c7570001c75c,
  dm 0xdfd00000e04 no 0x1c75c0001c763 0x1c7630001c769,
  dm 0x2a1000002a7 0x1e2a 0 0x1c7690001c76e,
  dm 0x2700000027 0x1e2c 0 0x1c7730001c77b,
  dm 0 no 0 0x1c77e0001c786,
  dm 0 no 0 0x18000000182,
  dm 0x2700000027 0x1e30 0 0x18000000182,
  dm 0x2700000027 0x1e31 0 0xe3400000e3c,
  dm 0x2700000027 0x1e33 0 0x1c7990001c7a1,
  dm 0x2700000027 0x1e34 0 0x1c7a10001c7b0,
  dm 0x2700000027 no 0x1c7b00001c7bc 0x1c7bc0001c7c8,
  dm 0x2700000027 no 0x1c7c80001c7d8 0x1c7c80001c7d8,
  dm 0x2700000027 no 0x1c7d80001c7e6 0x1c7d80001c7e6,
  dm 0x2700000027 no 0x1c7e60001c7ee 0x1c7ee0001c7f6,
  dm 0x2700000027 no 0x1c7f60001c800 0x1c8000001c80a,
  dm 0x2700000027 no 0x1c80a0001c813 0x1c8130001c81c,
  dm 0x2700000027 no 0x1c81c0001c825 0x1c8250001c82e,
  dm 0x2700000027 no 0x1c82e0001c837 0x1c8370001c840,
  dm 0x2700000027 no 0x1c8400001c84a 0x1c8400001c84a,
  dm 0x23b0000023d no 0x1c84a0001c855 0x1c8550001c85e,
  dm 0x39a000003a7 0x1e36 0 0x18000000182,
  dm 0x2700000027 0x1e37 0 0x18000000182,
  dm 0x2700000027 0x1e38 0 0x18000000182,
  dm 0x2700000027 0x1e39 0 0x18000000182,
  dm 0x2700000027 no 0x1c86b0001c878 0x1c8780001c885,
  dm 0x2700000027 0x1e3b 0 0x18000000182,
  dm 0x2700000027 0x1e3c 0 0x18000000182,
  dm 0x2700000027 0x1e3d 0 0x18000000182,
  dm 0x2700000027 0x1e3e 0 0x18000000182,
  dm 0x2700000027 0x1e40 0 0x1c88a0001c899,
  dm 0x2700000027 0x1e41 0 0x18000000182,
  dm 0x2700000027 0x1e43 0 0x10e9000010f6,
  dm 0x2700000027 0x1e44 0 0xe3400000e3c,
  dm 0x2700000027 no 0x1c8a50001c8b5 0x1c8b50001c8bd,
  dm 0x2700000027 0x1e46 0 0x1c8bd0001c8c1,
  dm 0x23b0000023d no 0x1c8c10001c8c9 0x1c8c90001c8d2,
  dm 0x23b0000023d 0x1e48 0 0x1c8d20001c8db,
  dm 0x23b0000023d no 0x1c8db0001c8e1 0x2700000027,
  dm 0x23b0000023d 0x1e49 0 0x18000000182,
  dm 0x23b0000023d 0x1e4a 0 0x10e9000010f6,
  dm 0x23b0000023d no 0x1c8e10001c8ea 0x1c8ea0001c8f9,
  dm 0x2a1000002a7 0x1e4b 0 0x1c8f90001c909,
  dm 0x2a1000002a7 0x1e4c 0 0x1c9090001c91e,
  dm 0x2a1000002a7 0x1e4d 0 0x1c91e0001c934,
  dm 0x2a1000002a7 0x1e4e 0 0x1c9340001c949,
  dm 0x2a1000002a7 0x1e4f 0 0x1c9490001c95d,
  dm 0x2a1000002a7 0x1e50 0 0x1c95d0001c96e,
  dm 0x2a1000002a7 0x1e51 0 0x1c96e0001c984,
  dm 0x2a1000002a7 0x1e52 0 0x1c9840001c999,
  dm 0x2a1000002a7 0x1e53 0 0x1c9990001c9a3,
  dm 0x2a1000002a7 0x1e54 0 0x1c9a30001c9b2,
  dm 0x2a1000002a7 0x1e55 0 0x1c9b20001c9c6,
  dm 0x2a1000002a7 0x1e56 0 0x1c9c60001c9d8,
  dm 0x2a1000002a7 0x1e57 0 0x1c9d80001c9ef,
  dm 0x2a1000002a7 0x1e58 0 0x1c9ef0001ca03,
  dm 0x2a1000002a7 0x1e59 0 0x1ca030001ca15,
  dm 0x2a1000002a7 0x1e5a 0 0x1ca150001ca2c,
  dm 0x2a1000002a7 0x1e5b 0 0x1ca2c0001ca42,
  dm 0x2a1000002a7 0x1e5c 0 0x1ca420001ca54,
  dm 0x2a1000002a7 0x1e5d 0 0x1ca540001ca68,
  dm 0x2a1000002a7 0x1e5e 0 0x1ca680001ca77,
  dm 0x2a1000002a7 no 0x1ca770001ca7d 0x1ca7d0001ca91,
  dm 0x2a1000002a7 0x1e5f 0 0x1ca910001caa1,
  dm 0x2a1000002a7 0x1e60 0 0x1caa10001cab1,
  dm 0x2a1000002a7 0x1e61 0 0x1cab10001cac7,
  dm 0x2a1000002a7 0x1e62 0 0x1cac70001cadf,
  dm 0x2a1000002a7 0x1e63 0 0x1cadf0001cb02,
  dm 0x2a1000002a7 0x1e64 0 0x1cb020001cb20,
  dm 0x2a1000002a7 0x1e65 0 0x1cb200001cb42,
  dm 0x2a1000002a7 0x1e66 0 0x1cb420001cb5b,
  dm 0x2a1000002a7 0x1e67 0 0x1cb5b0001cb6f,
  dm 0x2a1000002a7 0x1e68 0 0x1cb6f0001cb87,
  dm 0x2a1000002a7 0x1e69 0 0x1cb870001cbaf,
  dm 0x2a1000002a7 0x1e6a 0 0x1cbaf0001cbd8,
  dm 0x2a1000002a7 0x1e6b 0 0x1cbd80001cbff,
  dm 0x2a1000002a7 0x1e6c 0 0x1cbff0001cc27,
  dm 0x2a1000002a7 0x1e6d 0 0x1cc270001cc43,
  dm 0x2a1000002a7 0x1e6e 0 0x1cc430001cc5f,
  dm 0x2a1000002a7 0x1e6f 0 0x1cc5f0001cc7d,
  dm 0x2a1000002a7 0x1e70 0 0x1cc7d0001cc9c,
  dm 0x2a1000002a7 0x1e71 0 0x1cc9c0001ccbb,
  dm 0x2a1000002a7 0x1e72 0 0x1ccbb0001ccdd,
  dm 0x2a1000002a7 0x1e73 0 0x1ccdd0001cd00,
  dm 0x2a1000002a7 0x1e74 0 0x1cd000001cd17,
  dm 0x2a1000002a7 0x1e75 0 0x1cd000001cd17,
  dm 0x2a1000002a7 0x1e76 0 0x1cd170001cd30,
  dm 0x2a1000002a7 0x1e77 0 0x1cd300001cd48,
  dm 0x2a1000002a7 0x1e78 0 0x1cd480001cd5a,
  dm 0x2a1000002a7 0x1e79 0 0x1cd5a0001cd71,
  dm 0x2a1000002a7 0x1e7a 0 0x1cd710001cd88,
  dm 0x2a1000002a7 0x1e7b 0 0x1cd880001cda3,
  dm 0x2a1000002a7 0x1e7c 0 0x1cda30001cdba,
  dm 0x2a1000002a7 0x1e7d 0 0x1cdba0001cdd2,
  dm 0x2a1000002a7 0x1e7e 0 0x1cdd20001cdea,
  dm 0x2a1000002a7 0x1e7f 0 0x1cdea0001ce08,
  dm 0x2a1000002a7 0x1e80 0 0x1ce080001ce1b,
  dm 0x2a1000002a7 0x1e81 0 0x1ce1b0001ce2f,
  dm 0x2a1000002a7 0x1e82 0 0x1ce2f0001ce48,
  dm 0x2a1000002a7 0x1e83 0 0x1ce480001ce5b,
  dm 0x2a1000002a7 0x1e84 0 0x1ce5b0001ce72,
  dm 0x2a1000002a7 0x1e85 0 0x1ce720001ce8a,
  dm 0x2a1000002a7 0x1e86 0 0x1ce8a0001cea9,
  dm 0x2a1000002a7 0x1e87 0 0x1cea90001cecd,
  dm 0x2a1000002a7 0x1e88 0 0x1cecd0001ceea,
  dm 0x2a1000002a7 0x1e89 0 0x1ceea0001cf02,
  dm 0x2a1000002a7 0x1e8a 0 0x1cf020001cf18,
  dm 0x2a1000002a7 0x1e8b 0 0x1cf180001cf30,
  dm 0x2a1000002a7 0x1e8c 0 0x1cf300001cf4e,
  dm 0x2a1000002a7 0x1e8d 0 0x1cf4e0001cf6c,
  dm 0x2a1000002a7 0x1e8e 0 0x1cf6c0001cf88,
  dm 0x2a1000002a7 0x1e8f 0 0x1cf880001cf9c,
  dm 0x2a1000002a7 0x1e90 0 0x1cf9c0001cfb3,
  dm 0x2a1000002a7 0x1e91 0 0x1cfb30001cfc9,
  dm 0x2a1000002a7 0x1e92 0 0x1cfc90001cfe3,
  dm 0x2a1000002a7 0x1e93 0 0x1cfe30001cffc,
  dm 0x2a1000002a7 0x1e94 0 0x1cffc0001d018,
  dm 0x2a1000002a7 0x1e95 0 0x1d0180001d02e,
  dm 0x2a1000002a7 0x1e96 0 0x1d02e0001d044,
  dm 0x2a1000002a7 0x1e97 0 0x1d0440001d063,
  dm 0x2a1000002a7 0x1e98 0 0x1d0630001d080,
  dm 0x2a1000002a7 0x1e99 0 0x1d0800001d098,
  dm 0x2a1000002a7 0x1e9a 0 0x1d0980001d0b3,
  dm 0x2a1000002a7 0x1e9b 0 0x1d0b30001d0ce,
  dm 0x2a1000002a7 0x1e9c 0 0x1d0ce0001d0ea,
  dm 0x2a1000002a7 0x1e9d 0 0x1d0ea0001d104,
  dm 0x2a1000002a7 0x1e9e 0 0x1d1040001d11e,
  dm 0x2a1000002a7 0x1e9f 0 0x1d11e0001d136,
  dm 0x2a1000002a7 0x1ea0 0 0x1d1360001d14e,
  dm 0x2a1000002a7 0x1ea1 0 0x1d14e0001d164,
  dm 0x2a1000002a7 0x1ea2 0 0x1d1640001d172,
  dm 0x2a1000002a7 0x1ea3 0 0x1d1720001d188,
  dm 0x2a1000002a7 0x1ea4 0 0x1d1880001d19e,
  dm 0x2a1000002a7 0x1ea5 0 0x1d19e0001d1af,
  dm 0x2a1000002a7 0x1ea6 0 0x1d1af0001d1c5,
  dm 0x2a1000002a7 0x1ea7 0 0x1d1c50001d1d9,
  dm 0x2a1000002a7 0x1ea8 0 0x1d1d90001d1ee,
  dm 0x2a1000002a7 0x1ea9 0 0x1d1ee0001d209,
  dm 0x2a1000002a7 0x1eaa 0 0x1d2090001d21f,
  dm 0x2a1000002a7 0x1eab 0 0x1d21f0001d233,
  dm 0x2a1000002a7 0x1eac 0 0x1d2330001d244,
  dm 0x2a1000002a7 0x1ead 0 0x1d2440001d259,
  dm 0x2a1000002a7 0x1eae 0 0x1d2590001d26f,
  dm 0x2a1000002a7 0x1eaf 0 0x1d26f0001d284,
  dm 0x2a1000002a7 0x1eb0 0 0x1d2840001d29c,
  dm 0x2a1000002a7 0x1eb1 0 0x1d29c0001d2b2,
  dm 0x2a1000002a7 0x1eb2 0 0x1d2b20001d2cd,
  dm 0x2a1000002a7 0x1eb3 0 0x1d2cd0001d2df,
  dm 0x2a1000002a7 0x1eb4 0 0x1d2df0001d2f6,
  dm 0x2a1000002a7 0x1eb5 0 0x1d2f60001d30c,
  dm 0x2a1000002a7 0x1eb6 0 0x1d30c0001d323,
  dm 0x2a1000002a7 0x1eb7 0 0x1d3230001d33a,
  dm 0x2a1000002a7 0x1eb8 0 0x1d33a0001d350,
  dm 0x2a1000002a7 0x1eb9 0 0x1d3500001d365,
  dm 0x2a1000002a7 0x1eba 0 0x1d3650001d37c,
  dm 0x2a1000002a7 0x1ebb 0 0x1d37c0001d392,
  dm 0x2a1000002a7 0x1ebc 0 0x1d3920001d3a9,
  dm 0x2a1000002a7 0x1ebd 0 0x1d3a90001d3bf,
  dm 0x2a1000002a7 0x1ebe 0 0x1d3bf0001d3d6,
  dm 0x2a1000002a7 0x1ebf 0 0x1d3d60001d3ec,
  dm 0x2a1000002a7 0x1ec0 0 0x1d3ec0001d403,
  dm 0x2a1000002a7 0x1ec1 0 0x1d4030001d419]

/-- `__dr_dm`, from item 10500 on (device_repo.go:12772-13271). -/
def drDm_21 : List ModelTuple := [
  dm 0x2a1000002a7 0x1ec2 0 0x1d4190001d431,
  dm 0x2a1000002a7 0x1ec3 0 0x1d4310001d44a,
  dm 0x2a1000002a7 0x1ec4 0 0x1d44a0001d461,
  dm 0x2a1000002a7 0x1ec5 0 0x1d4610001d479,
  dm 0x2a1000002a7 0x1ec6 0 0x1d4790001d490,
  dm 0x2a1000002a7 0x1ec7 0 0x1d4900001d4a6,
  dm 0x2a1000002a7 0x1ec8 0 0x1d4a60001d4c0,
  dm 0x2a1000002a7 0x1ec9 0 0x1d4c00001d4d9,
  dm 0x2a1000002a7 0x1eca 0 0x1d4d90001d4f4,
  dm 0x2a1000002a7 0x1ecb 0 0x1d4f40001d510,
  dm 0x2a1000002a7 0x1ecc 0 0x1d5100001d527,
  dm 0x2a1000002a7 0x1ecd 0 0x1d5270001d540,
  dm 0x2a1000002a7 0x1ece 0 0x1d5400001d556,
  dm 0x2a1000002a7 0x1ecf 0 0x1d5560001d569,
  dm 0x2a1000002a7 0x1ed0 0 0x1d5690001d581,
  dm 0x2a1000002a7 0x1ed1 0 0x1d5810001d597,
  dm 0x2a1000002a7 0x1ed2 0 0x1d5970001d5ac,
  dm 0x2a1000002a7 0x1ed3 0 0x1d5ac0001d5c2,
  dm 0x2a1000002a7 0x1ed4 0 0x1d5c20001d5d7,
  dm 0x2a1000002a7 0x1ed5 0 0x1d5d70001d5f3,
  dm 0x2a1000002a7 0x1ed6 0 0x1cc430001cc5f,
  dm 0x2a1000002a7 0x1ed7 0 0x1d5f30001d610,
  dm 0x2a1000002a7 0x1ed8 0 0x1d6100001d626,
  dm 0x2a1000002a7 0x1ed9 0 0x1d6260001d63b,
  dm 0x2a1000002a7 0x1eda 0 0x1d63b0001d659,
  dm 0x2a1000002a7 0x1edb 0 0x1d6590001d676,
  dm 0x2a1000002a7 0x1edc 0 0x1d6760001d693,
  dm 0x2a1000002a7 0x1edd 0 0x1d6930001d6ac,
  dm 0x2a1000002a7 0x1ede 0 0x1d6ac0001d6bd,
  dm 0x2a1000002a7 0x1edf 0 0x1d6bd0001d6d3,
  dm 0x2a1000002a7 0x1ee0 0 0x1d6d30001d6e7,
  dm 0x2a1000002a7 0x1ee1 0 0x1d6e70001d6fb,
  dm 0x2a1000002a7 0x1ee2 0 0x1d6fb0001d716,
  dm 0x2a1000002a7 0x1ee3 0 0x1d7160001d738,
  dm 0x2a1000002a7 0x1ee4 0 0x1d7380001d758,
  dm 0x2a1000002a7 0x1ee5 0 0x1d7580001d76e,
  dm 0x2a1000002a7 0x1ee6 0 0x1d76e0001d789,
  dm 0x2a1000002a7 0x1ee7 0 0x1d7890001d7a1,
  dm 0x2a1000002a7 0x1ee8 0 0x1d7a10001d7be,
  dm 0x2a1000002a7 0x1ee9 0 0x1d7be0001d7d6,
  dm 0x2a1000002a7 0x1eea 0 0x1d7d60001d7f3,
  dm 0x2a1000002a7 0x1eeb 0 0x1d7f30001d80e,
  dm 0x2a1000002a7 0x1eec 0 0x1d80e0001d82e,
  dm 0x2a1000002a7 0x1eed 0 0x1d82e0001d843,
  dm 0x2a1000002a7 0x1eee 0 0x1d8430001d84f,
  dm 0x2b1e00002b26 no 0x1d84f0001d856 0x1d8560001d870,
  dm 0x2b1e00002b26 no 0x1d8700001d878 0x1d8780001d883,
  dm 0x2b1e00002b26 no 0x1d8830001d88b 0x1d88b0001d89a,
  dm 0x2b1e00002b26 no 0x1d89a0001d8a2 0x1d8a20001d8af,
  dm 0x2b1e00002b26 no 0x1d8af0001d8b8 0x1d8b80001d8c9,
  dm 0x2b1e00002b26 no 0x1d8c90001d8d0 0x1d8d00001d8ee,
  dm 0x2b1e00002b26 no 0x1d8ee0001d8f5 0x1d8f50001d90f,
  dm 0x2b1e00002b26 no 0x1d90f0001d916 0x1d9160001d934,
  dm 0x2b1e00002b26 no 0x1d9340001d93b 0x1d93b0001d94c,
  dm 0x2b1e00002b26 no 0x1d94c0001d953 0x1d9530001d966,
  dm 0x2b1e00002b26 0x1eef 0 0x1d9660001d979,
  dm 0x2b1e00002b26 0x1ef0 0 0x1d9790001d98c,
  dm 0x2b1e00002b26 0x1ef1 0 0x1d98c0001d99f,
  dm 0x2b1e00002b26 no 0x1d99f0001d9a6 0x1d9a60001d9bd,
  dm 0x2b1e00002b26 no 0x1d9bd0001d9c4 0x1d9c40001d9db,
  dm 0x2b1e00002b26 no 0x1d9db0001d9e2 0x1d9e20001d9fd,
  dm 0x2b1e00002b26 no 0x1d9fd0001da04 0x1da040001da1f,
  dm 0x2b1e00002b26 no 0x1da1f0001da26 0x1da260001da3b,
  dm 0x2b1e00002b26 no 0x1da3b0001da42 0x1da420001da55,
  dm 0x2b1e00002b26 no 0x1da550001da5c 0x1da5c0001da6d,
  dm 0x2b1e00002b26 no 0x1da6d0001da74 0x1da740001da89,
  dm 0x2b1e00002b26 no 0x1da890001da90 0x1da900001daab,
  dm 0x2b1e00002b26 no 0x1daab0001dab2 0x1dab20001dac5,
  dm 0x2b1e00002b26 no 0x1dac50001dacc 0x1dacc0001dae2,
  dm 0x2b1e00002b26 no 0x1dae20001dae9 0x1dae90001db05,
  dm 0x2b1e00002b26 no 0x1db050001db0c 0x1db0c0001db1f,
  dm 0x2b1e00002b26 no 0x1db1f0001db26 0x1db260001db39,
  dm 0x2b1e00002b26 no 0x1db390001db40 0x1db400001db4b,
  dm 0x2b1e00002b26 no 0x1db4b0001db52 0x1db520001db5e,
  dm 0x2b1e00002b26 no 0x1db5e0001db65 0x1db650001db81,
  dm 0x2b1e00002b26 no 0x1db810001db88 0x1db880001dba3,
  dm 0x2b1e00002b26 no 0x1dba30001dbaa 0x1dbaa0001dbc1,
  dm 0x2b1e00002b26 no 0x1dbc10001dbc8 0x1dbc80001dbdb,
  dm 0x2b1e00002b26 no 0x1dbdb0001dbe2 0x1dbe20001dbf5,
  dm 0x2b1e00002b26 no 0x1dbf50001dbfc 0x1dbfc0001dc12,
  dm 0x2b1e00002b26 no 0x1dc120001dc1b 0x1dc120001dc1b,
  dm 0x7cc000007d6 0x1ef2 0 0x1dc1b0001dc25,
  dm 0x2700000027 0x1ef3 0 0x1dc250001dc2f,
  dm 0x2700000027 0x1ef4 0 0x1dc2f0001dc3c,
  dm 0x2700000027 0x1ef5 0 0x1dc3c0001dc48,
  dm 0x2700000027 0x1ef6 0 0x1dc480001dc53,
  dm 0x2700000027 0x1ef7 0 0x1dc530001dc5e,
  dm 0x2700000027 0x1ef8 0 0x1dc5e0001dc6b,
  dm 0x2700000027 0x1ef9 0 0x1dc6b0001dc77,
  dm 0x2700000027 0x1efa 0 0x1dc770001dc88,
  dm 0x2700000027 0x1efb 0 0x1dc880001dc92,
  dm 0x2700000027 0x1efc 0 0x1dc920001dc9e,
  dm 0x2700000027 0x1efd 0 0x1dc9e0001dcab,
  dm 0x2700000027 0x1efe 0 0x1dcab0001dcb3,
  dm 0x2700000027 0x1eff 0 0x1dcb30001dcbb,
  dm 0x2700000027 0x1f00 0 0x1dcbb0001dcc2,
  dm 0x2700000027 0x1f01 0 0x1dcc20001dcc9,
  dm 0x2700000027 0x1f02 0 0x1dcc90001dcd0,
  dm 0x2700000027 0x1f03 0 0x1dcd00001dcdb,
  dm 0x2700000027 0x1f04 0 0x1dcdb0001dce0,
  dm 0x2700000027 0x1f05 0 0x1dce00001dce7,
  dm 0x2700000027 0x1f06 0 0x1dce70001dcef,
  dm 0x2700000027 0x1f07 0 0x1dcef0001dd00,
  dm 0x2700000027 0x1f08 0 0x1dd000001dd0a,
  dm 0x2700000027 0x1f09 0 0x1dd0a0001dd1a,
  dm 0x2700000027 0x1f0a 0 0x1dd1a0001dd26,
  dm 0x2700000027 0x1f0b 0 0x1dd260001dd32,
  dm 0x2700000027 0x1f0c 0 0x1dd320001dd43,
  dm 0x2700000027 0x1f0d 0 0x1dd430001dd54,
  dm 0x2700000027 0x1f0e 0 0x1dd540001dd64,
  dm 0x2700000027 0x1f0f 0 0x1dd640001dd6f,
  dm 0x2700000027 0x1f10 0 0x1dd6f0001dd81,
  dm 0x2700000027 0x1f11 0 0x1dd810001dd92,
  dm 0x2700000027 0x1f12 0 0x1dd920001ddb1,
  dm 0x2700000027 0x1f13 0 0x1ddb10001ddbc,
  dm 0x2700000027 0x1f14 0 0x1ddbc0001ddcf,
  dm 0x2700000027 0x1f15 0 0x1ddcf0001ddde,
  dm 0x2700000027 0x1f16 0 0x1ddde0001ddf2,
  dm 0x2700000027 0x1f17 0 0x1ddf20001ddf4,
  dm 0x2700000027 0x1f18 0 0x1ddf40001ddff,
  dm 0x2700000027 0x1f19 0 0x1ddff0001de0c,
  dm 0x2700000027 0x1f1a 0 0x1de0c0001de17,
  dm 0x2700000027 0x1f1b 0 0x1de170001de24,
  dm 0x2700000027 0x1f1c 0 0x1de240001de31,
  dm 0x2700000027 0x1f1d 0 0x1de310001de3e,
  dm 0x2700000027 0x1f1e 0 0x1de3e0001de48,
  dm 0x2700000027 0x1f1f 0 0x1de480001de56,
  dm 0x2700000027 0x1f20 0 0x1ddbc0001ddcf,
  dm 0x2700000027 0x1f21 0 0x1de560001de64,
  dm 0x2700000027 0x1f22 0 0x1de640001de6d,
  dm 0x2700000027 0x1f23 0 0x1de6d0001de76,
  dm 0x2700000027 0x1f24 0 0x1de760001de7e,
  dm 0x2700000027 0x1f25 0 0x1de7e0001de8b,
  dm 0x2700000027 0x1f26 0 0x1de8b0001de94,
  dm 0x2700000027 0x1f27 0 0x1de940001deab,
  dm 0x2700000027 0x1f28 0 0x1deab0001debb,
  dm 0x2700000027 0x1f29 0 0x1dd640001dd6f,
  dm 0x2700000027 0x1f2a 0 0x1debb0001decc,
  dm 0x2700000027 0x1f2b 0 0x1decc0001ded4,
  dm 0x2700000027 0x1f2c 0 0x1ded40001dee4,
  dm 0x2700000027 0x1f2d 0 0x1dee40001def2,
  dm 0x2700000027 0x1f2e 0 0x1def20001df00,
  dm 0x2700000027 0x1f2f 0 0x1df000001df17,
  dm 0x2700000027 0x1f30 0 0x1df170001df27,
  dm 0x2700000027 0x1f31 0 0x1df270001df33,
  dm 0x2700000027 0x1f32 0 0x1df330001df43,
  dm 0x2700000027 0x1f33 0 0x1df430001df4c,
  dm 0x2700000027 0x1f34 0 0x1df4c0001df5f,
  dm 0x2700000027 0x1f35 0 0x1df5f0001df6c,
  dm 0x2700000027 0x1f36 0 0x1df6c0001df77,
  dm 0x2700000027 0x1f37 0 0x1df770001df89,
  dm 0x2700000027 0x1f38 0 0x1df890001df9a,
  dm 0x2700000027 0x1f39 0 0x1df9a0001dfa9,
  dm 0x2700000027 0x1f3a 0 0x1dfa90001dfbd,
  dm 0x2700000027 0x1f3b 0 0x1dfbd0001dfc9,
  dm 0x2700000027 0x1f3c 0 0x1dfc90001dfda,
  dm 0x2700000027 0x1f3d 0 0x1dfda0001dfe8,
  dm 0x2700000027 0x1f3e 0 0x1dfe80001dffa,
  dm 0x2700000027 0x1f3f 0 0x1dffa0001e013,
  dm 0x2700000027 0x1f40 0 0x1e0130001e01e,
  dm 0x2700000027 0x1f41 0 0x1e01e0001e02e,
  dm 0x2700000027 0x1f42 0 0x1e02e0001e039,
  dm 0x2700000027 0x1f43 0 0x1e0390001e046,
  dm 0x2700000027 0x1f44 0 0x1e0460001e052,
  dm 0x2700000027 0x1f45 0 0x1e0520001e061,
  dm 0x2700000027 0x1f46 0 0x1e0610001e06d,
  dm 0x2700000027 0x1f47 0 0x1e06d0001e07e,
  dm 0x2700000027 0x1f48 0 0x1e07e0001e08f,
  dm 0x2700000027 0x1f49 0 0x1e08f0001e09d,
  dm 0x2700000027 0x1f4a 0 0x1e09d0001e0aa,
  dm 0x2700000027 0x1f4b 0 0x1e0aa0001e0b9,
  dm 0x2700000027 0x1f4c 0 0x1e0b90001e0c8,
  dm 0x2700000027 0x1f4d 0 0x1e0c80001e0d7,
  dm 0x2700000027 0x1f4e 0 0x1e0d70001e0e6,
  dm 0x2700000027 0x1f4f 0 0x1e0e60001e0f8,
  dm 0x2700000027 0x1f50 0 0x1e0f80001e107,
  dm 0x2700000027 0x1f51 0 0x1e1070001e117,
  dm 0x2700000027 0x1f52 0 0x1e1170001e128,
  dm 0x2700000027 0x1f53 0 0x1e1280001e13e,
  dm 0x2700000027 0x1f54 0 0x1e13e0001e14d,
  dm 0x2700000027 0x1f55 0 0x1e14d0001e160,
  dm 0x2700000027 0x1f56 0 0x1e1600001e16f,
  dm 0x2700000027 0x1f57 0 0x1b1800001b1c,
  dm 0x2700000027 0x1f58 0 0x1e16f0001e176,
  dm 0x2700000027 0x1f59 0 0x1e1760001e17c,
  dm 0x2700000027 0x1f5a 0 0x1e17c0001e182,
  dm 0x2700000027 0x1f5b 0 0x1e1820001e188,
  dm 0x2700000027 0x1f5c 0 0x1e1880001e190,
  dm 0x2700000027 0x1f5d 0 0x1e1900001e198,
  dm 0x2700000027 0x1f5e 0 0x1e1980001e1a0,
  dm 0x2700000027 0x1f5f 0 0x1e1a00001e1a8,
  dm 0x2700000027 0x1f60 0 0x1e1a80001e1b6,
  dm 0x2700000027 0x1f61 0 0x1e1b60001e1c3,
  dm 0x2700000027 0x1f62 0 0x1e1c30001e1d0,
  dm 0x2700000027 0x1f63 0 0x1e1d00001e1dd,
  dm 0x2700000027 0x1f64 0 0x1e1dd0001e1ed,
  dm 0x2700000027 0x1f65 0 0x1e1ed0001e1fe,
  dm 0x2700000027 0x1f66 0 0x1e1fe0001e21d,
  dm 0x2700000027 0x1f67 0 0x1ddcf0001ddde,
  dm 0x2700000027 0x1f68 0 0x1e21d0001e230,
  dm 0x2700000027 0x1f69 0 0x1e2300001e23f,
  dm 0x2700000027 0x1f6a 0 0x1e23f0001e250,
  dm 0x2700000027 0x1f6b 0 0x1e2500001e25e,
  dm 0x2700000027 0x1f6c 0 0x1e25e0001e270,
  dm 0x2700000027 0x1f6d 0 0x1e2700001e27e,
  dm 0x2700000027 0x1f6e 0 0x1e27e0001e287,
  dm 0x2700000027 0x1f6f 0 0x1e2870001e295,
  dm 0x2700000027 0x1f70 0 0x1e2950001e2a5,
  dm 0x2700000027 0x1f71 0 0x1e2a50001e2b2,
  dm 0x2700000027 0x1f72 0 0x1e2b20001e2c3,
  dm 0x2700000027 0x1f73 0 0x1e2c30001e2cc,
  dm 0x2700000027 0x1f74 0 0x1e2950001e2a5,
  dm 0x2700000027 0x1f75 0 0x1e2cc0001e2da,
  dm 0x2700000027 0x1f76 0 0x1e2da0001e2e9,
  dm 0x2700000027 0x1f77 0 0x1e2e90001e2f2,
  dm 0x2700000027 0x1f78 0 0x1e2f20001e300,
  dm 0x2700000027 0x1f79 0 0x1e3000001e310,
  dm 0x2700000027 0x1f7a 0 0x1e3100001e319,
  dm 0x2700000027 0x1f7b 0 0x1e3190001e327,
  dm 0x2700000027 0x1f7c 0 0x1e3270001e337,
  dm 0x2700000027 0x1f7d 0 0x1e3370001e341,
  dm 0x2700000027 0x1f7e 0 0x1e3410001e34a,
  dm 0x2700000027 0x1f7f 0 0x1e34a0001e354,
  dm 0x2700000027 0x1f80 0 0x1e3540001e35e,
  dm 0x2700000027 0x1f81 0 0x1e35e0001e36d,
  dm 0x2700000027 0x1f82 0 0x1e36d0001e378,
  dm 0x2700000027 no 0x1e3780001e37e 0x1e37e0001e39f,
  dm 0x2700000027 0x1f83 0 0x1e39f0001e3aa,
  dm 0x2700000027 0x1f84 0 0x1e3aa0001e3b4,
  dm 0x2700000027 0x1f85 0 0x1e3b40001e3c1,
  dm 0x2700000027 0x1f86 0 0x1e3c10001e3ce,
  dm 0x2700000027 0x1f87 0 0x1e3ce0001e3de,
  dm 0x2700000027 0x1f88 0 0x1e3de0001e3f1,
  dm 0x2700000027 0x1f89 0 0x1e3f10001e3fc,
  dm 0x2700000027 0x1f8a 0 0x1e3fc0001e40a,
  dm 0x2700000027 0x1f8b 0 0x1e40a0001e41a,
  dm 0x2700000027 0x1f8c 0 0x1e41a0001e427,
  dm 0x2700000027 0x1f8d 0 0x1e4270001e437,
  dm 0x2700000027 0x1f8e 0 0x1e4370001e45a,
  dm 0x2700000027 0x1f8f 0 0x1e45a0001e46d,
  dm 0x2700000027 0x1f90 0 0x1e46d0001e47b,
  dm 0x2700000027 0x1f91 0 0x1e47b0001e485,
  dm 0x2700000027 0x1f92 0 0x1e4850001e495,
  dm 0x2700000027 0x1f93 0 0x1e4950001e4a0,
  dm 0x2700000027 0x1f94 0 0x1e4a00001e4aa,
  dm 0x2700000027 0x1f95 0 0x1e4aa0001e4b5,
  dm 0x2700000027 0x1f96 0 0x1e4b50001e4c5,
  dm 0x2700000027 0x1f97 0 0x1e4c50001e4d2,
  dm 0x2700000027 0x1f98 0 0x1e4d20001e4dc,
  dm 0x2700000027 0x1f99 0 0x1e4dc0001e4e7,
  dm 0x2700000027 0x1f9a 0 0x1e4e70001e4f4,
  dm 0x2700000027 0x1f9b 0 0x1e4f40001e504,
  dm 0x2700000027 0x1f9c 0 0x1e5040001e50f,
  dm 0x2700000027 0x1f9d 0 0x1e50f0001e519,
  dm 0x2700000027 0x1f9e 0 0x1e5190001e528,
  dm 0x2700000027 0x1f9f 0 0x1e5280001e538,
  dm 0x2700000027 0x1fa0 0 0x1e5380001e545,
  dm 0x2700000027 0x1fa1 0 0x1e5450001e555,
  dm 0x2700000027 0x1fa2 0 0x1e5550001e563,
  dm 0x2700000027 0x1fa3 0 0x1e5630001e574,
  dm 0x2700000027 0x1fa4 0 0x1e5740001e583,
  dm 0x2700000027 0x1fa5 0 0x1e5830001e591,
  dm 0x2700000027 0x1fa6 0 0x1e5910001e59b,
  dm 0x2700000027 0x1fa7 0 0x1e59b0001e5a7,
  dm 0x2700000027 0x1fa8 0 0x1e5a70001e5b7,
  dm 0x2700000027 0x1fa9 0 0x1e5b70001e5c1,
  dm 0x2700000027 0x1faa 0 0x1e5c10001e5d0,
  dm 0x2700000027 0x1fab 0 0x1e5d00001e5db,
  dm 0x2700000027 0x1fac 0 0x1e5db0001e5e6,
  dm 0x2700000027 0x1fad 0 0x1e5e60001e5f0,
  dm 0x2700000027 0x1fae 0 0x1e5f00001e5fb,
  dm 0x2700000027 0x1faf 0 0x1e5fb0001e606,
  dm 0x2700000027 0x1fb0 0 0x1e6060001e610,
  dm 0x2700000027 0x1fb1 0 0x1e6100001e61f,
  dm 0x2700000027 0x1fb2 0 0x1e61f0001e629,
  dm 0x2700000027 0x1fb3 0 0x1e6290001e633,
  dm 0x2700000027 0x1fb4 0 0x1e6330001e63e,
  dm 0x2700000027 0x1fb5 0 0x1e63e0001e64b,
  dm 0x2700000027 0x1fb6 0 0x1e64b0001e655,
  dm 0x2700000027 0x1fb7 0 0x1e6550001e663,
  dm 0x2700000027 0x1fb8 0 0x1e6630001e66d,
  dm 0x2700000027 0x1fb9 0 0x1e66d0001e67a,
  dm 0x2700000027 0x1fba 0 0x1e67a0001e684,
  dm 0x2700000027 0x1fbb 0 0x1e6840001e691,
  dm 0x2700000027 0x1fbc 0 0x1e6910001e69b,
  dm 0x2700000027 0x1fbd 0 0x1e69b0001e6a5,
  dm 0x2700000027 0x1fbe 0 0x1e6a50001e6b2,
  dm 0x2700000027 0x1fbf 0 0x1e6b20001e6bc,
  dm 0x2700000027 0x1fc0 0 0x1e6bc0001e6c8,
  dm 0x2700000027 0x1fc1 0 0x1e6c80001e6d6,
  dm 0x2700000027 0x1fc2 0 0x1e6d60001e6e3,
  dm 0x2700000027 0x1fc3 0 0x1e6e30001e6f3,
  dm 0x2700000027 0x1fc4 0 0x1e6f30001e703,
  dm 0x2700000027 0x1fc5 0 0x1e7030001e713,
  dm 0x2700000027 0x1fc6 0 0x1e7130001e720,
  dm 0x2700000027 0x1fc7 0 0x1e7200001e72d,
  dm 0x2700000027 0x1fc8 0 0x1e72d0001e73a,
  dm 0x2700000027 0x1fc9 0 0x1e73a0001e743,
  dm 0x2700000027 0x1fca 0 0x1e7430001e74c,
  dm 0x2700000027 0x1fcb 0 0x1e74c0001e75a,
  dm 0x2700000027 0x1fcc 0 0x1e75a0001e76a,
  dm 0x2700000027 0x1fcd 0 0x1e76a0001e77a,
  dm 0x2700000027 0x1fce 0 0x1e77a0001e78a,
  dm 0x2700000027 0x1fcf 0 0x1e78a0001e794,
  dm 0x2700000027 0x1fd0 0 0x1e7940001e7a1,
  dm 0x2700000027 0x1fd1 0 0x1e7a10001e7af,
  dm 0x2700000027 0x1fd2 0 0x1e7af0001e7b8,
  dm 0x2700000027 0x1fd3 0 0x1e7b80001e7c2,
  dm 0x2700000027 0x1fd4 0 0x1e7c20001e7d3,
  dm 0x2700000027 0x1fd5 0 0x1e7d30001e7dd,
  dm 0x2700000027 0x1fd6 0 0x1e7dd0001e7e6,
  dm 0x2700000027 0x1fd7 0 0x1e7e60001e7f6,
  dm 0x2700000027 0x1fd8 0 0x1e7f60001e806,
  dm 0x2700000027 0x1fd9 0 0x1e8060001e816,
  dm 0x2700000027 0x1fda 0 0x1e8160001e820,
  dm 0x2700000027 0x1fdb 0 0x1e8200001e82a,
  dm 0x2700000027 0x1fdc 0 0x1e82a0001e837,
  dm 0x2700000027 0x1fdd 0 0x1e8370001e844,
  dm 0x2700000027 0x1fde 0 0x1e8440001e84d,
  dm 0x2700000027 0x1fdf 0 0x1e84d0001e85b,
  dm 0x2700000027 0x1fe0 0 0x1e85b0001e86b,
  dm 0x2700000027 0x1fe1 0 0x1e86b0001e875,
  dm 0x2700000027 0x1fe2 0 0x1e8750001e885,
  dm 0x2700000027 0x1fe3 0 0x1e8850001e896,
  dm 0x2700000027 0x1fe4 0 0x1e8960001e89f,
  dm 0x2700000027 0x1fe5 0 0x1e89f0001e8aa,
  dm 0x2700000027 0x1fe6 0 0x1e8aa0001e8ba,
  dm 0x2700000027 0x1fe7 0 0x1e8ba0001e8c8,
  dm 0x2700000027 0x1fe8 0 0x1e8c80001e8d5,
  dm 0x2700000027 0x1fe9 0 0x1e8d50001e8df,
  dm 0x2700000027 0x1fea 0 0x1e8df0001e8ea,
  dm 0x2700000027 0x1feb 0 0x1e8ea0001e8f5,
  dm 0x2700000027 0x1fec 0 0x1e6630001e66d,
  dm 0x2700000027 0x1fed 0 0x1e8f50001e8ff,
  dm 0x2700000027 0x1fee 0 0x1e8ff0001e90c,
  dm 0x2700000027 0x1fef 0 0x1e90c0001e916,
  dm 0x2700000027 0x1ff0 0 0x1e9160001e920,
  dm 0x2700000027 0x1ff1 0 0x1e9200001e92a,
  dm 0x2700000027 0x1ff2 0 0x1e92a0001e935,
  dm 0x2700000027 0x1ff3 0 0x1e9350001e940,
  dm 0x2700000027 0x1ff4 0 0x1e9400001e94b,
  dm 0x2700000027 0x1ff5 0 0x1e94b0001e955,
  dm 0x2700000027 0x1ff6 0 0x1e9550001e962,
  dm 0x2700000027 0x1ff7 0 0x1e9620001e96c,
  dm 0x2700000027 0x1ff8 0 0x1e96c0001e977,
  dm 0x2700000027 0x1ff9 0 0x1e9770001e981,
  dm 0x2700000027 0x1ffa 0 0x1e9810001e98b,
  dm 0x2700000027 0x1ffb 0 0x1e98b0001e998,
  dm 0x2700000027 0x1ffc 0 0x1e9980001e9a5,
  dm 0x2700000027 0x1ffd 0 0x1e9a50001e9af,
  dm 0x2700000027 0x1ffe 0 0x1e9af0001e9ba,
  dm 0x2700000027 0x1fff 0 0x1e9ba0001e9c4,
  dm 0x2700000027 0x2000 0 0x1e9c40001e9d1,
  dm 0x2700000027 0x2001 0 0x1e9d10001e9db,
  dm 0x2700000027 0x2002 0 0x1e9db0001e9e6,
  dm 0x2700000027 0x2003 0 0x1e9db0001e9e6,
  dm 0x2700000027 0x2004 0 0x1e9e60001e9f0,
  dm 0x2700000027 0x2005 0 0x1e9f00001e9fd,
  dm 0x2700000027 0x2006 0 0x1e9fd0001ea0d,
  dm 0x2700000027 0x2007 0 0x1ea0d0001ea1a,
  dm 0x2700000027 0x2008 0 0x1ea1a0001ea2a,
  dm 0x2700000027 0x2009 0 0x1ea2a0001ea3a,
  dm 0x2700000027 0x200a 0 0x1ea3a0001ea47,
  dm 0x2700000027 0x200b 0 0x1ea470001ea54,
  dm 0x2700000027 0x200c 0 0x1ea540001ea61,
  dm 0x2700000027 0x200d 0 0x1ea610001ea6b,
  dm 0x2700000027 0x200e 0 0x1ea6b0001ea76,
  dm 0x2700000027 0x200f 0 0x1ea760001ea80,
  dm 0x2700000027 0x2010 0 0x1ea800001ea8a,
  dm 0x2700000027 0x2011 0 0x1ea8a0001ea97,
  dm 0x2700000027 0x2012 0 0x1ea970001eaa2,
  dm 0x2700000027 0x2013 0 0x1eaa20001eaac,
  dm 0x2700000027 0x2014 0 0x1eaac0001eab6,
  dm 0x2700000027 0x2015 0 0x1eab60001eac3,
  dm 0x2700000027 0x2016 0 0x1eac30001eacd,
  dm 0x2700000027 0x2017 0 0x1eacd0001ead7,
  dm 0x2700000027 0x2018 0 0x1ead70001eae4,
  dm 0x2700000027 0x2019 0 0x1eae40001eaee,
  dm 0x2700000027 0x201a 0 0x1eaee0001eafb,
  dm 0x2700000027 0x201b 0 0x1eafb0001eb08,
  dm 0x2700000027 0x201c 0 0x1eb080001eb12,
  dm 0x2700000027 0x201d 0 0x1eb120001eb1f,
  dm 0x2700000027 0x201e 0 0x1eb1f0001eb2c,
  dm 0x2700000027 0x201f 0 0x1eb2c0001eb36,
  dm 0x2700000027 0x2020 0 0x1eb360001eb43,
  dm 0x2700000027 0x2021 0 0x1eb430001eb50,
  dm 0x2700000027 0x2022 0 0x1eb500001eb5d,
  dm 0x2700000027 0x2023 0 0x1eb5d0001eb67,
  dm 0x2700000027 0x2024 0 0x1eb670001eb77,
  dm 0x2700000027 0x2025 0 0x1eb770001eb82,
  dm 0x2700000027 0x2026 0 0x1eb820001eb8e,
  dm 0x2700000027 0x2027 0 0x1eb8e0001eb97,
  dm 0x2700000027 0x2028 0 0x1eb970001eba5,
  dm 0x2700000027 0x2029 0 0x1eba50001ebb9,
  dm 0x2700000027 0x202a 0 0x1ebb90001ebc9,
  dm 0x2700000027 0x202b 0 0x1ebc90001ebd6,
  dm 0x2700000027 0x202c 0 0x1ebd60001ebdf,
  dm 0x2700000027 0x202d 0 0x1ebdf0001ebed,
  dm 0x2700000027 0x202e 0 0x1ebed0001ebfb,
  dm 0x2700000027 0x202f 0 0x1ebfb0001ec09,
  dm 0x2700000027 0x2030 0 0x1ec090001ec16,
  dm 0x2700000027 0x2031 0 0x1ec160001ec25,
  dm 0x2700000027 0x2032 0 0x1ec250001ec32,
  dm 0x2700000027 0x2033 0 0x1ec320001ec3f,
  dm 0x2700000027 0x2034 0 0x1ec3f0001ec51,
  dm 0x2700000027 0x2035 0 0x1ec510001ec60,
  dm 0x2700000027 0x2036 0 0x1ec600001ec70,
  dm 0x2700000027 0x2037 0 0x1ec700001ec7e,
  dm 0x2700000027 0x2038 0 0x1ec7e0001ec8c,
  dm 0x2700000027 0x2039 0 0x1ec8c0001ec9d,
  dm 0x2700000027 0x203a 0 0x1ec9d0001ecae,
  dm 0x2700000027 0x203b 0 0x1ec3f0001ec51,
  dm 0x2700000027 0x203c 0 0x1ecae0001ecbe,
  dm 0x2700000027 0x203d 0 0x1ecbe0001ecce,
  dm 0x2700000027 0x203e 0 0x1ecce0001ecde,
  dm 0x2700000027 0x203f 0 0x1ecde0001ecee,
  dm 0x2700000027 0x2040 0 0x1ecee0001ecf7,
  dm 0x2700000027 0x2041 0 0x1ecf70001ed07,
  dm 0x2700000027 0x2042 0 0x1ed070001ed17,
  dm 0x2700000027 0x2043 0 0x1ed170001ed2b,
  dm 0x2700000027 0x2044 0 0x1ed2b0001ed3b,
  dm 0x2700000027 0x2045 0 0x1ed3b0001ed4a,
  dm 0x2700000027 0x2046 0 0x1ed4a0001ed53,
  dm 0x2700000027 0x2047 0 0x1ed530001ed5d,
  dm 0x2700000027 0x2048 0 0x1ed5d0001ed6b,
  dm 0x2700000027 0x2049 0 0x1ed6b0001ed75,
  dm 0x2700000027 0x204a 0 0x1ed750001ed7f,
  dm 0x2700000027 0x204b 0 0x1ed7f0001ed88,
  dm 0x2700000027 0x204c 0 0x1ed880001ed98,
  dm 0x2700000027 0x204d 0 0x1ed980001eda8,
  dm 0x2700000027 0x204e 0 0x1eda80001edb8,
  dm 0x2700000027 0x204f 0 0x1edb80001edc8,
  dm 0x2700000027 0x2050 0 0x1edc80001edd7,
  dm 0x2700000027 0x2051 0 0x1edd70001ede6,
  dm 0x2700000027 0x2052 0 0x1ede60001edf7,
  dm 0x2700000027 0x2053 0 0x1edf70001ee04,
  dm 0x2700000027 0x2054 0 0x1ee040001ee15,
  dm 0x2700000027 0x2055 0 0x1ee150001ee22,
  dm 0x2700000027 0x2056 0 0x1ee220001ee30,
  dm 0x2700000027 0x2057 0 0x1ee300001ee3d,
  dm 0x2700000027 0x2058 0 0x1ee3d0001ee4c,
  dm 0x2700000027 0x2059 0 0x1ee4c0001ee57,
  dm 0x2700000027 0x205a 0 0x1ee570001ee62,
  dm 0x2700000027 no 0x1ee620001ee6c 0x1ee6c0001ee7a,
  dm 0x2700000027 no 0x1ee7a0001ee83 0x1ee830001ee90,
  dm 0x2700000027 0x205b 0 0x1ee900001ee99,
  dm 0x2700000027 0x205c 0 0x1ee990001eeaa,
  dm 0x2700000027 0x205d 0 0x1eeaa0001eeb9,
  dm 0x2700000027 no 0x1eeb90001eec0 0x1eec00001eece,
  dm 0x2700000027 no 0x1eece0001eed6 0x1eed60001eee3,
  dm 0x2700000027 no 0x1eee30001eeeb 0x1eeeb0001eef8,
  dm 0x2700000027 no 0x1eef80001ef00 0x1ef000001ef0d,
  dm 0x2700000027 0x205e 0 0x1ef0d0001ef17,
  dm 0x2700000027 0x205f 0 0x1ef170001ef21,
  dm 0x2700000027 0x2060 0 0x1ef210001ef2b,
  dm 0x2700000027 0x2061 0 0x1ef2b0001ef3a,
  dm 0x2700000027 0x2062 0 0x1ef3a0001ef45,
  dm 0x2700000027 0x2063 0 0x1ef450001ef50,
  dm 0x2700000027 0x2064 0 0x1ef500001ef5a,
  dm 0x2700000027 0x2065 0 0x1ef5a0001ef64,
  dm 0x2700000027 0x2066 0 0x1ef640001ef6f,
  dm 0x2700000027 0x2067 0 0x1ef6f0001ef79,
  dm 0x2700000027 0x2068 0 0x1ef790001ef83,
  dm 0x2700000027 0x2069 0 0x1ef830001ef8d,
  dm 0x2700000027 0x206a 0 0x1ef8d0001ef9a,
  dm 0x2700000027 0x206b 0 0x1ef9a0001efa7,
  dm 0x2700000027 0x206c 0 0x1efa70001efb1,
  dm 0x2700000027 0x206d 0 0x1efb10001efbe,
  dm 0x2700000027 0x206e 0 0x1efbe0001efcb,
  dm 0x2700000027 0x206f 0 0x1efcb0001efd5,
  dm 0x2700000027 0x2070 0 0x1efd50001efdf,
  dm 0x2700000027 0x2071 0 0x1efdf0001eff0,
  dm 0x2700000027 0x2072 0 0x1eff00001effa,
  dm 0x2700000027 0x2073 0 0x1effa0001f008,
  dm 0x2700000027 0x2074 0 0x1f0080001f015,
  dm 0x2700000027 0x2075 0 0x1f0150001f020,
  dm 0x2700000027 0x2076 0 0x1f0200001f02a,
  dm 0x2700000027 0x2077 0 0x1f02a0001f034,
  dm 0x2700000027 0x2078 0 0x1f0340001f03e,
  dm 0x2700000027 0x2079 0 0x1f03e0001f04b,
  dm 0x2700000027 0x207a 0 0x1f04b0001f058,
  dm 0x2700000027 0x207b 0 0x1f0580001f063,
  dm 0x2700000027 0x207c 0 0x1f0630001f070,
  dm 0x2700000027 0x207d 0 0x1f0700001f07d,
  dm 0x2700000027 0x207e 0 0x1f07d0001f087,
  dm 0x2700000027 0x207f 0 0x1f0870001f094,
  dm 0x2700000027 0x2080 0 0x1f0940001f09e,
  dm 0x2700000027 0x2081 0 0x1f09e0001f0ab,
  dm 0x2700000027 0x2082 0 0x1f0ab0001f0bb,
  dm 0x2700000027 0x2083 0 0x1f0bb0001f0c8,
  dm 0x2700000027 0x2084 0 0x1f0c80001f0d5,
  dm 0x2700000027 0x2085 0 0x1f0d50001f0df,
  dm 0x2700000027 0x2086 0 0x1f0df0001f0ec,
  dm 0x2700000027 0x2087 0 0x1f0ec0001f0f9,
  dm 0x2700000027 0x2088 0 0x1f0f90001f103,
  dm 0x2700000027 0x2089 0 0x1f1030001f10d,
  dm 0x2700000027 0x208a 0 0x1f10d0001f117,
  dm 0x2700000027 0x208b 0 0x1f1170001f127,
  dm 0x2700000027 0x208c 0 0x1f1270001f136,
  dm 0x2700000027 0x208d 0 0x1f1360001f142]

/-- `__dr_dm`, from item 11000 on (device_repo.go:13272-13771). -/
def drDm_22 : List ModelTuple := [
  dm 0x2700000027 0x208e 0 0x1f1420001f14c,
  dm 0x2700000027 0x208f 0 0x1f14c0001f15d,
  dm 0x2700000027 0x2090 0 0x1f15d0001f167,
  dm 0x2700000027 0x2091 0 0x1f1670001f178,
  dm 0x2700000027 0x2092 0 0x1f1780001f188,
  dm 0x2700000027 0x2093 0 0x1f1880001f191,
  dm 0x2700000027 0x2094 0 0x1f1910001f19e,
  dm 0x2700000027 0x2095 0 0x1f19e0001f1ab,
  dm 0x2700000027 0x2096 0 0x1f1ab0001f1b4,
  dm 0x2700000027 0x2097 0 0x1f1b40001f1c1,
  dm 0x2700000027 0x2098 0 0x1f1c10001f1ca,
  dm 0x2700000027 0x2099 0 0x1f1ca0001f1d7,
  dm 0x2700000027 0x209a 0 0x1f1d70001f1e0,
  dm 0x2700000027 0x209b 0 0x1f1e00001f1e9,
  dm 0x2700000027 0x209c 0 0x1f1e90001f1f2,
  dm 0x2700000027 0x209d 0 0x1f1f20001f1fb,
  dm 0x2700000027 0x209e 0 0x1f1fb0001f208,
  dm 0x2700000027 0x209f 0 0x1f2080001f217,
  dm 0x2700000027 0x20a0 0 0x1f2170001f221,
  dm 0x2700000027 0x20a1 0 0x1f2210001f22d,
  dm 0x2700000027 0x20a2 0 0x1f22d0001f239,
  dm 0x2700000027 0x20a3 0 0x1f2390001f244,
  dm 0x2700000027 0x20a4 0 0x1f2440001f256,
  dm 0x2700000027 0x20a5 0 0x1f2560001f26f,
  dm 0xdfd00000e04 0x20a6 0 0x1f26f0001f27a,
  dm 0xdfd00000e04 0x20a7 0 0x1f27a0001f289,
  dm 0xdfd00000e04 0x20a8 0 0x1f2890001f293,
  dm 0xdfd00000e04 0x20a9 0 0x1f2930001f2a2,
  dm 0xdfd00000e04 0x20aa 0 0x1f2a20001f2b1,
  dm 0xdfd00000e04 0x20ab 0 0x1f2b10001f2c0,
  dm 0xdfd00000e04 0x20ac 0 0x1f2c00001f2cf,
  dm 0xdfd00000e04 0x20ad 0 0x1f2cf0001f2de,
  dm 0xdfd00000e04 0x20ae 0 0x1f2de0001f2ed,
  dm 0xdfd00000e04 0x20af 0 0x1f2ed0001f2fc,
  dm 0xdfd00000e04 0x20b0 0 0x1f2fc0001f30e,
  dm 0xdfd00000e04 0x20b1 0 0x1f30e0001f320,
  dm 0xdfd00000e04 0x20b2 0 0x1f3200001f32f,
  dm 0xdfd00000e04 0x20b3 0 0x1f32f0001f33e,
  dm 0xdfd00000e04 0x20b4 0 0x1f33e0001f34d,
  dm 0xdfd00000e04 0x20b5 0 0x1f34d0001f35d,
  dm 0xdfd00000e04 0x20b6 0 0x1f35d0001f372,
  dm 0xdfd00000e04 0x20b7 0 0x1f3720001f37e,
  dm 0xdfd00000e04 0x20b8 0 0x1f37e0001f38f,
  dm 0xdfd00000e04 0x20b9 0 0x1f38f0001f3a0,
  dm 0xdfd00000e04 0x20ba 0 0x1f3a00001f3ab,
  dm 0xdfd00000e04 0x20bb 0 0x1f3ab0001f3bb,
  dm 0xdfd00000e04 0x20bc 0 0x1f3bb0001f3d2,
  dm 0xdfd00000e04 0x20bd 0 0x1f3d20001f3e0,
  dm 0xdfd00000e04 0x20be 0 0x1f3e00001f3f2,
  dm 0xdfd00000e04 0x20bf 0 0x1f3f20001f400,
  dm 0x2700000027 0x20c0 0 0x1f4000001f410,
  dm 0xdfd00000e04 0x20c1 0 0x1f4100001f422,
  dm 0xdfd00000e04 0x20c2 0 0x1f4220001f43c,
  dm 0xdfd00000e04 0x20c3 0 0x1f43c0001f453,
  dm 0xdfd00000e04 0x20c4 0 0x1f4530001f467,
  dm 0xdfd00000e04 0x20c5 0 0x1f4670001f476,
  dm 0xdfd00000e04 0x20c6 0 0x1f4760001f48c,
  dm 0xdfd00000e04 0x20c7 0 0x1f48c0001f49d,
  dm 0xdfd00000e04 0x20c8 0 0x1f49d0001f4af,
  dm 0xdfd00000e04 0x20c9 0 0x1f4af0001f4c0,
  dm 0xdfd00000e04 0x20ca 0 0x1f4c00001f4cd,
  dm 0xdfd00000e04 0x20cb 0 0x1f4cd0001f4da,
  dm 0xdfd00000e04 0x20cc 0 0x1f4da0001f4eb,
  dm 0xdfd00000e04 0x20cd 0 0x1f4eb0001f4fd,
  dm 0xdfd00000e04 0x20ce 0 0x1f4fd0001f50a,
  dm 0xdfd00000e04 0x20cf 0 0x1f50a0001f51c,
  dm 0xdfd00000e04 0x20d0 0 0x1f51c0001f529,
  dm 0xdfd00000e04 0x20d1 0 0x1f5290001f538,
  dm 0xdfd00000e04 0x20d2 0 0x1f5380001f547,
  dm 0xdfd00000e04 0x20d3 0 0x1f5470001f554,
  dm 0xdfd00000e04 0x20d4 0 0x1f5540001f561,
  dm 0xdfd00000e04 0x20d5 0 0x1f5610001f56e,
  dm 0xdfd00000e04 0x20d6 0 0x1f56e0001f57d,
  dm 0xdfd00000e04 0x20d7 0 0x1f57d0001f58b,
  dm 0xdfd00000e04 0x20d8 0 0x1f58b0001f59e,
  dm 0xdfd00000e04 0x20d9 0 0x1f59e0001f5af,
  dm 0xdfd00000e04 0x20da 0 0x1f5af0001f5c3,
  dm 0xdfd00000e04 0x20db 0 0x1f5c30001f5d1,
  dm 0xdfd00000e04 0x20dc 0 0x1f5d10001f5e8,
  dm 0x2700000027 0x20dd 0 0x1f5e80001f5ef,
  dm 0x2700000027 0x20de 0 0x1f5ef0001f600,
  dm 0x39a000003a7 0x20df 0 0x1f6000001f605,
  dm 0xc9b00000ca2 no 0x1f6050001f611 0x1f6050001f611,
  dm 0xc9b00000ca2 no 0x1f6110001f620 0x1f6110001f620,
  dm 0x2a1000002a7 0x20e0 0 0x18000000182,
  dm 0x2700000027 no 0x1f6200001f626 0x1dd640001dd6f,
  dm 0x2a1000002a7 0x20e1 0 0x18000000182,
  dm 0x2700000027 0x20e2 0 0x18000000182,
  dm 0x23b0000023d no 0x1f6260001f62e 0xe3400000e3c,
  dm 0x2700000027 0x20e3 0 0x1f62e0001f637,
  dm 0x2700000027 0x20e4 0 0x1f62e0001f637,
  dm 0x2700000027 0x20e5 0 0x18000000182,
  dm 0x2700000027 0x20e6 0 0x18000000182,
  dm 0x2700000027 0x20e7 0 0x18000000182,
  dm 0x2700000027 0x20e8 0 0x18000000182,
  dm 0x2700000027 0x20e9 0 0x1f6370001f63c,
  dm 0x2700000027 0x20ea 0 0x18000000182,
  dm 0x2700000027 0x20eb 0 0x1f63c0001f642,
  dm 0x2700000027 0x20ec 0 0x18000000182,
  dm 0x2700000027 0x20ed 0 0x1f63c0001f642,
  dm 0 no 0 0x18000000182,
  dm 0 no 0 0x18000000182,
  dm 0x2700000027 no 0x1f6550001f658 0x1f6550001f658,
  dm 0x2700000027 no 0x1f6580001f65b 0x1f6580001f65b,
  dm 0x2700000027 no 0x1f65b0001f660 0x1f6600001f664,
  dm 0x2700000027 0x20f1 0 0xaa3b0000aa3e,
  dm 0 no 0 0x1f6730001f67d,
  dm 0x2700000027 no 0x1f6830001f68a 0xa0a70000a0b0,
  dm 0x2700000027 0x20f3 0 0x18000000182,
  dm 0x2700000027 0x20f5 0 0x1f6900001f69a,
  dm 0x2700000027 0x20f6 0 0x1f69a0001f6a3,
  dm 0x2700000027 0x20f7 0 0x1f6a30001f6a9,
  dm 0x2700000027 0x20f8 0 0x1f6a90001f6b3,
  dm 0x2700000027 0x20f9 0 0x1f6b30001f6bf,
  dm 0x2700000027 0x20fa 0 0x1f6bf0001f6cd,
  dm 0x2700000027 0x20fb 0 0xb4d80000b4e4,
  dm 0x2700000027 0x20fc 0 0x1f6cd0001f6d6,
  dm 0x2700000027 0x20fd 0 0x1f6d60001f6dc,
  dm 0x2700000027 0x20fe 0 0x1f6dc0001f6e6,
  dm 0x2700000027 0x20ff 0 0x1f6e60001f6ec,
  dm 0x2700000027 0x2100 0 0x1f6ec0001f6f6,
  dm 0x2700000027 0x2101 0 0x5b2100005b26,
  dm 0x2700000027 0x2102 0 0x1f6f60001f6fb,
  dm 0x2700000027 0x2103 0 0x1f6fb0001f701,
  dm 0x2700000027 0x2104 0 0x1f7010001f709,
  dm 0x2700000027 0x2105 0 0x1f7090001f714,
  dm 0x2a1000002a7 0x2106 0 0x1f7140001f71b,
  dm 0x2700000027 0x2107 0 0x18000000182,
  dm 0x2700000027 0x2108 0 0x18000000182,
  dm 0x2700000027 0x2109 0 0x18000000182,
  dm 0x2700000027 0x210b 0 0x1f71b0001f72b,
  dm 0x2700000027 0x210c 0 0x1f72b0001f734,
  dm 0x2700000027 0x210d 0 0x1f7340001f73c,
  dm 0x2700000027 0x210e 0 0x18000000182,
  dm 0x2700000027 0x210f 0 0x18000000182,
  dm 0 no 0 0x18000000182,
  dm 0 no 0 0x18000000182,
  dm 0x2700000027 no 0x1f7530001f762 0x1f7620001f76b,
  dm 0x2700000027 no 0x1f76b0001f779 0x1f7790001f789,
  dm 0 no 0 0x18000000182,
  dm 0 no 0 0x18000000182,
  dm 0x2700000027 0x2116 0 0x18000000182,
  dm 0x2700000027 0x2118 0 0x18000000182,
  dm 0x2a1000002a7 0x2119 0 0x18000000182,
  dm 0x2700000027 0x211b 0 0x18000000182,
  dm 0x2700000027 0x211c 0 0x3f8100003f83,
  dm 0x2700000027 0x211d 0 0x18000000182,
  dm 0x2700000027 no 0x1f7be0001f7cb 0x1f7cb0001f7d2,
  dm 0x2700000027 no 0x1f7d20001f7dd 0x1f7dd0001f7e8,
  dm 0x2700000027 no 0x1f7e80001f7fd 0x1f7fd0001f80b,
  dm 0x2700000027 no 0x1f80b0001f81a 0x1f81a0001f822,
  dm 0x2700000027 no 0x1f8220001f831 0x1f8310001f839,
  dm 0x2700000027 no 0x1f8390001f84b 0x1f84b0001f856,
  dm 0x2700000027 no 0x1f8560001f86e 0x1f86e0001f87f,
  dm 0x2700000027 0x211f 0 0x1f8850001f893,
  dm 0x2700000027 0x2120 0 0x1f8930001f89f,
  dm 0x2700000027 0x2121 0 0x1f89f0001f8b1,
  dm 0x2700000027 0x2122 0 0x1f8b10001f8bd,
  dm 0x2700000027 0x2123 0 0x1f8bd0001f8c9,
  dm 0x2700000027 0x2124 0 0x1f8c90001f8d5,
  dm 0x2700000027 0x2125 0 0x1f8d50001f8de,
  dm 0x2700000027 0x2126 0 0x1f8de0001f8ec,
  dm 0x2700000027 0x2127 0 0x1f8ec0001f8fa,
  dm 0x2700000027 0x2128 0 0x1f8fa0001f905,
  dm 0x2700000027 0x2129 0 0x1f9050001f911,
  dm 0x2700000027 0x212a 0 0x18000000182,
  dm 0x2700000027 0x212b 0 0x1f9110001f916,
  dm 0x23f00000249 0x212c 0 0x1f9160001f921,
  dm 0x2700000027 0x212d 0 0x18000000182,
  dm 0x2700000027 no 0x1f92f0001f93f 0x1f93f0001f950,
  dm 0 no 0 0x18000000182,
  dm 0x2700000027 no 0x1f95d0001f969 0x1f9690001f976,
  dm 0x2700000027 0x2130 0 0x18000000182,
  dm 0 no 0 0x18000000182,
  dm 0x2700000027 0x2133 0 0x9fd100009fd5,
  dm 0x2700000027 0x2134 0 0x239e000023a2,
  dm 0x2700000027 0x2135 0 0x1f9820001f986,
  dm 0x2700000027 0x2136 0 0x1f9820001f986,
  dm 0x2700000027 0x2137 0 0x1f9860001f98c,
  dm 0x2700000027 0x2138 0 0x1f98c0001f997,
  dm 0x2700000027 0x2139 0 0x1f9970001f9a1,
  dm 0x2700000027 0x213a 0 0x738b0000738e,
  dm 0x2700000027 0x213b 0 0x1f9a10001f9a6,
  dm 0x2700000027 0x213c 0 0x135b7000135c0,
  dm 0x2700000027 0x213d 0 0x1f9a60001f9ad,
  dm 0x2700000027 0x213e 0 0x1f9ad0001f9b1,
  dm 0x2700000027 0x213f 0 0x1f9b10001f9b8,
  dm 0x2700000027 0x2140 0 0x1f9b80001f9bf,
  dm 0x2700000027 0x2141 0 0x18000000182,
  dm 0x2700000027 0x2143 0 0x18000000182,
  dm 0x2700000027 0x2144 0 0x1f9c40001f9cd,
  dm 0 no 0 0x18000000182,
  dm 0x2700000027 0x2147 0 0x1f9d70001f9e0,
  dm 0x2700000027 no 0x1f9e00001f9ea 0x1f9ea0001f9f1,
  dm 0x2700000027 0x2148 0 0x1f9f10001f9ff,
  dm 0x2700000027 0x2149 0 0x1f9ff0001fa08,
  dm 0x2700000027 0x214a 0 0x1fa080001fa10,
  dm 0x2700000027 0x214b 0 0x1fa100001fa18,
  dm 0x2700000027 0x214c 0 0x1fa180001fa23,
  dm 0x2700000027 0x214d 0 0x1fa230001fa31,
  dm 0x2700000027 0x214e 0 0x1fa310001fa3f,
  dm 0x2700000027 0x214f 0 0x1fa3f0001fa4d,
  dm 0x2700000027 0x2150 0 0x1fa4d0001fa5b,
  dm 0x2700000027 0x2151 0 0x1fa5b0001fa65,
  dm 0x2700000027 0x2152 0 0x1fa650001fa71,
  dm 0x2700000027 0x2153 0 0x1fa710001fa7d,
  dm 0x2700000027 0x2154 0 0x1fa7d0001fa89,
  dm 0x2700000027 0x2155 0 0x1fa890001fa99,
  dm 0x2700000027 0x2156 0 0x1fa990001faa6,
  dm 0x2700000027 0x2157 0 0x1faa60001fab3,
  dm 0x2700000027 0x2158 0 0x1fab30001fac3,
  dm 0x2700000027 0x2159 0 0x1fac30001fad6,
  dm 0x2700000027 0x215a 0 0x1fad60001fae3,
  dm 0x2700000027 0x215b 0 0x1fae30001faf5,
  dm 0x2700000027 0x215c 0 0x1faf50001fb02,
  dm 0x2700000027 0x215d 0 0x1fb020001fb10,
  dm 0x2700000027 0x215e 0 0x1fb100001fb22,
  dm 0x2700000027 0x215f 0 0x1fb220001fb2f,
  dm 0x2700000027 0x2160 0 0x1fb2f0001fb3d,
  dm 0x2700000027 0x2161 0 0x1fb3d0001fb46,
  dm 0x2700000027 0x2162 0 0x1fb460001fb57,
  dm 0x2700000027 0x2163 0 0x1fb570001fb61,
  dm 0x2700000027 0x2164 0 0x1fb610001fb6b,
  dm 0x2700000027 0x2165 0 0x1fb6b0001fb77,
  dm 0x2700000027 0x2166 0 0x1fb770001fb83,
  dm 0x2700000027 0x2167 0 0x1fb830001fb96,
  dm 0x2700000027 0x2168 0 0x1fb960001fba4,
  dm 0x2700000027 0x2169 0 0x1fba40001fbb4,
  dm 0x2700000027 0x216a 0 0x1fbb40001fbc0,
  dm 0x2700000027 0x216b 0 0x1fbc00001fbd2,
  dm 0x2700000027 0x216c 0 0x1fbd20001fbe0,
  dm 0x2700000027 0x216d 0 0x1fbe00001fbf1,
  dm 0x2700000027 0x216e 0 0x1fbf10001fbf9,
  dm 0x2700000027 0x216f 0 0x1fbf90001fc00,
  dm 0x2700000027 0x2170 0 0x1fc000001fc0f,
  dm 0x2700000027 0x2171 0 0x1fc0f0001fc17,
  dm 0x2700000027 0x2172 0 0x1fc170001fc27,
  dm 0x2700000027 0x2173 0 0x1fc270001fc30,
  dm 0x2700000027 0x2174 0 0x1fc300001fc3d,
  dm 0x2700000027 0x2175 0 0x1fc3d0001fc49,
  dm 0x2700000027 0x2176 0 0x1fc490001fc50,
  dm 0x2700000027 0x2177 0 0x1fc500001fc59,
  dm 0x2700000027 0x2178 0 0x1fc590001fc61,
  dm 0x2700000027 0x2179 0 0x1fc610001fc6c,
  dm 0x2700000027 0x217a 0 0x1fc6c0001fc75,
  dm 0x2700000027 0x217b 0 0x1fc750001fc7f,
  dm 0x2700000027 0x217c 0 0x1fc7f0001fc92,
  dm 0x2700000027 0x217d 0 0x1fc920001fca5,
  dm 0x2700000027 0x217e 0 0x1fca50001fcaf,
  dm 0x2700000027 0x217f 0 0x1fcaf0001fcbc,
  dm 0x2700000027 0x2180 0 0x1fcbc0001fcc9,
  dm 0x2700000027 0x2181 0 0x1fcc90001fcd8,
  dm 0x2700000027 0x2182 0 0x1fcd80001fce7,
  dm 0x2700000027 0x2183 0 0x1fce70001fcee,
  dm 0x2700000027 0x2184 0 0x1fcee0001fcf5,
  dm 0x2700000027 0x2185 0 0x1fcf50001fcfc,
  dm 0x2700000027 0x2186 0 0x1fcfc0001fd09,
  dm 0x2700000027 0x2187 0 0x1fd090001fd11,
  dm 0x2700000027 0x2188 0 0x1fd110001fd1d,
  dm 0x2700000027 0x2189 0 0x1fd1d0001fd25,
  dm 0x2700000027 0x218a 0 0x1fd250001fd32,
  dm 0x2700000027 0x218b 0 0x1fd320001fd3f,
  dm 0x2700000027 0x218c 0 0x1fd3f0001fd47,
  dm 0x2700000027 0x218d 0 0x1fd470001fd4f,
  dm 0x2700000027 0x218e 0 0x1fd4f0001fd5c,
  dm 0x2700000027 0x218f 0 0x1fd5c0001fd6a,
  dm 0x2700000027 0x2190 0 0x1fd6a0001fd77,
  dm 0x2700000027 0x2191 0 0x1fd770001fd84,
  dm 0x2700000027 0x2192 0 0x1fc270001fc30,
  dm 0x2700000027 0x2193 0 0x1fd840001fd8c,
  dm 0x2700000027 0x2194 0 0x1fd8c0001fd94,
  dm 0x2700000027 0x2195 0 0x1fd940001fda0,
  dm 0x2700000027 0x2196 0 0x1fda00001fdab,
  dm 0x2700000027 0x2197 0 0x1fdab0001fdb3,
  dm 0x2700000027 0x2198 0 0x1fdb30001fdba,
  dm 0x2700000027 0x2199 0 0x1fdba0001fdc0,
  dm 0x2700000027 0x219a 0 0x1fdc00001fdc3,
  dm 0x2700000027 0x219b 0 0x1fdc30001fdca,
  dm 0x2700000027 0x219c 0 0xf1030000f105,
  dm 0x2700000027 0x219d 0 0x120090001200b,
  dm 0x2700000027 0x219e 0 0x11ff200011ff4,
  dm 0x2700000027 0x219f 0 0x19a8800019a8a,
  dm 0x2700000027 0x21a0 0 0x17f0a00017f0d,
  dm 0x2700000027 0x21a1 0 0x1fdca0001fdd1,
  dm 0x2700000027 0x21a2 0 0x1fdd10001fddd,
  dm 0x2700000027 0x21a3 0 0x1fddd0001fde6,
  dm 0x2700000027 no 0x1fde60001fded 0x1fded0001fdfa,
  dm 0x2700000027 no 0x1fdfa0001fdff 0x1fdff0001fe0a,
  dm 0x2700000027 0x21a4 0 0x1fe0a0001fe1a,
  dm 0x2700000027 no 0x1fe1a0001fe20 0x1fe200001fe2f,
  dm 0x2700000027 0x21a5 0 0x1fe2f0001fe3d,
  dm 0x2700000027 no 0x1fe3d0001fe45 0x1fe450001fe53,
  dm 0x2700000027 no 0x1fe530001fe5a 0x1fe5a0001fe69,
  dm 0x2700000027 no 0x1fe690001fe70 0x1fe700001fe7c,
  dm 0x2700000027 0x21a6 0 0x1fe7c0001fe90,
  dm 0x2700000027 0x21a7 0 0x1fe900001fe9c,
  dm 0x2700000027 0x21a8 0 0x1fbd20001fbe0,
  dm 0x2700000027 0x21a9 0 0x1fe9c0001fea7,
  dm 0x2700000027 0x21aa 0 0x1fea70001feb0,
  dm 0x2a1000002a7 0x21ab 0 0x1feb00001febf,
  dm 0x2a1000002a7 0x21ac 0 0x1febf0001fece,
  dm 0x2a1000002a7 0x21ad 0 0xe7880000e78f,
  dm 0x2a1000002a7 0x21ae 0 0x18000000182,
  dm 0x23b0000023d 0x21af 0 0x18000000182,
  dm 0x23b0000023d no 0x1fece0001fedd 0x1fedd0001fee9,
  dm 0x23b0000023d 0x21b0 0 0x1fee90001fef7,
  dm 0x2700000027 0x21b1 0 0x18000000182,
  dm 0x23b0000023d 0x21b2 0 0x1fef70001ff01,
  dm 0x2700000027 0x21b3 0 0x18000000182,
  dm 0x2700000027 0x21b4 0 0x18000000182,
  dm 0 no 0 0x18000000182,
  dm 0 no 0 0x1ff140001ff1a,
  dm 0 no 0 0x1ff230001ff2e,
  dm 0 no 0 0x18000000182,
  dm 0x2700000027 0x21ba 0 0x1ff390001ff3f,
  dm 0x2700000027 no 0x1ff3f0001ff45 0x1ff450001ff4b,
  dm 0x2700000027 no 0x1ff4b0001ff53 0x1ff530001ff59,
  dm 0x2700000027 0x21bb 0 0x3e9000003ed,
  dm 0x2700000027 0x21bc 0 0x1ff590001ff5e,
  dm 0x2700000027 no 0x1ff5e0001ff66 0x1ff660001ff70,
  dm 0x2700000027 no 0x1ff700001ff75 0x1ff750001ff7b,
  dm 0x2700000027 no 0x1ff7b0001ff81 0x1ff7b0001ff81,
  dm 0x2700000027 no 0x1ff810001ff8d 0x1af7a0001af7f,
  dm 0x2700000027 no 0x1ff8d0001ff99 0x1f9b80001f9bf,
  dm 0x2700000027 no 0xa06f0000a078 0xa06f0000a078,
  dm 0x2700000027 no 0x1ff990001ffa5 0x1ff990001ffa5,
  dm 0x2a1000002a7 0x21bd 0 0x1ffa50001ffaa,
  dm 0x2a1000002a7 no 0x1ffaa0001ffb6 0x1ffb60001ffc3,
  dm 0x2a1000002a7 no 0x1ffc30001ffcb 0x1ffcb0001ffd4,
  dm 0x39a000003a7 0x21bf 0 0x18000000182,
  dm 0x2700000027 0x21c0 0 0x18000000182,
  dm 0x2700000027 0x21c1 0 0x18000000182,
  dm 0x2700000027 0x21c2 0 0x18000000182,
  dm 0x2700000027 0x21c3 0 0x18000000182,
  dm 0x2700000027 0x21c5 0 0x1ffdb0001ffe2,
  dm 0x2700000027 0x21c6 0 0x1ffe20001fff2,
  dm 0x2700000027 0x21c7 0 0x1fff20001fffe,
  dm 0x2a1000002a7 0x21c8 0 0x1fffe0002000d,
  dm 0x2a1000002a7 no 0x2000d0002001e 0x2001e0002002f,
  dm 0x2a1000002a7 0x21c9 0 0x4c4300004c49,
  dm 0x2a1000002a7 0x21ca 0 0x2002f0002003c,
  dm 0x2700000027 0x21cb 0 0x2003c00020047,
  dm 0 no 0 0x18000000182,
  dm 0 no 0 0x2005b00020067,
  dm 0x2700000027 0x21ce 0 0x2006e00020079,
  dm 0x2700000027 no 0x2007900020081 0x2007900020081,
  dm 0x2700000027 no 0x2008100020088 0x2008100020088,
  dm 0x2700000027 no 0x200880002008f 0x200880002008f,
  dm 0x2700000027 0x21cf 0 0x2008f0002009d,
  dm 0x2700000027 no 0x2009d000200a3 0x2009d000200a3,
  dm 0x2700000027 no 0x200a3000200a8 0x200a3000200a8,
  dm 0x2700000027 no 0x200a8000200ac 0x200a8000200ac,
  dm 0 no 0 0x18000000182,
  dm 0x2700000027 0x21d2 0 0x10e9c00010ea7,
  dm 0x2700000027 0x21d3 0 0x18000000182,
  dm 0x2700000027 0x21d4 0 0x200ba000200c5,
  dm 0x2700000027 0x21d5 0 0x200c5000200d3,
  dm 0x2700000027 0x21d7 0 0x200da000200df,
  dm 0x2700000027 0x21d9 0 0x200e9000200f2,
  dm 0x2700000027 0x21da 0 0x200f2000200f9,
  dm 0 no 0 0x200ff00020108,
  dm 0x2700000027 0x21dd 0 0x2010800020115,
  dm 0x2700000027 0x21de 0 0x2011500020122,
  dm 0x2700000027 0x21df 0 0x2012200020135,
  dm 0x2700000027 no 0x2013500020145 0x2014500020156,
  dm 0x2700000027 0x21e0 0 0x2015600020162,
  dm 0x2700000027 0x21e1 0 0x2016200020171,
  dm 0x2700000027 0x21e2 0 0x201710002017c,
  dm 0x2700000027 0x21e3 0 0x2017c00020187,
  dm 0x2a1000002a7 0x21e4 0 0x2018700020196,
  dm 0x2a1000002a7 0x21e5 0 0x20196000201a0,
  dm 0x2a1000002a7 0x21e6 0 0x201a0000201a9,
  dm 0x2a1000002a7 0x21e7 0 0x4bd000004c3,
  dm 0x2a1000002a7 no 0x201a9000201b2 0x201b2000201b8,
  dm 0x2a1000002a7 no 0x201b8000201c3 0x201c3000201cb,
  dm 0x2a1000002a7 0x21e8 0 0x201cb000201d9,
  dm 0x2a1000002a7 0x21e9 0 0x201d9000201e6,
  dm 0x2a1000002a7 0x21ea 0 0x201e6000201f3,
  dm 0x2a1000002a7 0x21eb 0 0x201f3000201ff,
  dm 0x2a1000002a7 0x21ec 0 0x201ff00020209,
  dm 0x2a1000002a7 0x21ed 0 0x2020900020216,
  dm 0x2700000027 no 0x2021600020224 0x2022400020232,
  dm 0x2700000027 no 0x2023200020240 0x202400002024f,
  dm 0x2700000027 no 0x2024f0002025b 0x2025b00020268,
  dm 0x2700000027 0x21ee 0 0x2026800020276,
  dm 0x2700000027 no 0x2027600020282 0x202820002028f,
  dm 0x2700000027 no 0x2028f00020296 0x202960002029f,
  dm 0x2700000027 0x21ef 0 0x123aa000123b2,
  dm 0x2a1000002a7 0x21f0 0 0x2029f000202ab,
  dm 0x2a1000002a7 0x21f1 0 0x123aa000123b2,
  dm 0x2700000027 0x21f2 0 0x202ab000202b6,
  dm 0x2700000027 0x21f3 0 0x202b6000202be,
  dm 0x2700000027 0x21f4 0 0x101d4000101dc,
  dm 0x2700000027 no 0x202be000202c9 0x202c9000202d0,
  dm 0x2700000027 no 0x202d0000202da 0x202da000202e4,
  dm 0x2700000027 0x21f5 0 0x1944e00019454,
  dm 0x2700000027 no 0x202e4000202eb 0x202eb000202ee,
  dm 0x2700000027 no 0x202ee000202f6 0x202f6000202ff,
  dm 0x2700000027 0x21f6 0 0x202ff00020309,
  dm 0x2700000027 0x21f7 0 0x2030900020311,
  dm 0x2700000027 0x21f8 0 0x18000000182,
  dm 0x23b0000023d no 0x2031100020316 0x203160002031c,
  dm 0x23b0000023d no 0x2031c00020321 0x2032100020326,
  dm 0x23b0000023d no 0x203260002032b 0x2032b00020330,
  dm 0x23b0000023d no 0x2033000020335 0x2032b00020330,
  dm 0x23b0000023d no 0x203350002033a 0x2033a00020342,
  dm 0x23b0000023d 0x21f9 0 0x18000000182,
  dm 0x2700000027 0x21fb 0 0x2034b00020353,
  dm 0x2700000027 0x21fc 0 0xb8a50000b8a8,
  dm 0 no 0 0x18000000182,
  dm 0x2700000027 0x21ff 0 0x18000000182,
  dm 0x2700000027 0x2200 0 0x18000000182,
  dm 0x2700000027 no 0x203620002036c 0x203620002036c,
  dm 0x2700000027 no 0x2036c00020371 0x2037100020380,
  dm 0x2700000027 no 0x203800002038a 0x2038a00020396,
  dm 0x2700000027 0x2202 0 0x18000000182,
  dm 0x2700000027 0x2203 0 0x18000000182,
  dm 0x2700000027 0x2205 0 0x2039b000203a1,
  dm 0x2700000027 0x2206 0 0x203a1000203a9,
  dm 0 no 0 0x18000000182,
  dm 0x2700000027 no 0x203af000203bd 0x203bd000203c5,
  dm 0x2700000027 0x2209 0 0x18000000182,
  dm 0x2700000027 0x220b 0 0x203d1000203d7,
  dm 0x2700000027 0x220e 0 0x203ea000203ee,
  dm 0x2700000027 0x220f 0 0x18000000182,
  dm 0 no 0 0x18000000182,
  dm 0x2700000027 0x2212 0 0x18000000182,
  dm 0x2a1000002a7 no 0x204050002040d 0x2040d0002041d,
  dm 0x2700000027 no 0x2041d00020423 0x204230002042f,
  dm 0x2700000027 no 0x2042f00020435 0x204350002043f,
  dm 0x2700000027 no 0x2043f00020445 0x2044500020450,
  dm 0x2700000027 no 0x2045000020456 0x2045600020461,
  dm 0x2700000027 no 0x2046100020467 0x2046700020473,
  dm 0x2700000027 no 0x2047300020479 0x2047900020488,
  dm 0x2700000027 no 0x204880002048e 0x2048e00020499,
  dm 0x2700000027 no 0x204990002049f 0x2049f000204a9,
  dm 0x2700000027 no 0x204a9000204af 0x204af000204b9,
  dm 0x2700000027 no 0x204b9000204c7 0x204c7000204d5,
  dm 0x2700000027 no 0x204d5000204db 0x204db000204e5,
  dm 0x2700000027 no 0x204e5000204ea 0x204ea000204f4,
  dm 0x2700000027 no 0x204f4000204f8 0x204f800020503,
  dm 0x2700000027 0x2214 0 0x205030002050e,
  dm 0x2700000027 0x2215 0 0x205030002050e,
  dm 0x2700000027 0x2216 0 0x18000000182,
  dm 0x2a1000002a7 0x2217 0 0x18000000182,
  dm 0x2700000027 0x2219 0 0x2051700020519,
  dm 0x2700000027 no 0x205190002051e 0x2051e00020520,
  dm 0x2700000027 no 0x2052000020525 0x2052500020527,
  dm 0x2700000027 no 0x205270002052c 0x2052c0002052f,
  dm 0x2700000027 0x221a 0 0xb1bc0000b1be,
  dm 0x2700000027 0x221b 0 0x42d00000430,
  dm 0x2700000027 0x221c 0 0xf8380000f83d,
  dm 0x2700000027 0x221d 0 0x19a8800019a8a,
  dm 0x2700000027 0x221e 0 0x2052f00020539,
  dm 0x2700000027 0x221f 0 0x205390002053e,
  dm 0x2700000027 0x2220 0 0x2053e00020543,
  dm 0x2700000027 0x2221 0 0x205430002054c,
  dm 0x2700000027 0x2222 0 0x2054c00020559,
  dm 0x2700000027 no 0x2055900020569 0x205690002056f,
  dm 0x2700000027 0x2224 0 0x205750002057c,
  dm 0x2700000027 no 0x2057c00020584 0x2057c00020584,
  dm 0x2700000027 no 0x205910002059b 0x205910002059b,
  dm 0x2700000027 0x2226 0 0x2059b000205aa,
  dm 0x2700000027 0x2227 0 0x205aa000205b3,
  dm 0x2700000027 0x2228 0 0x205b3000205be,
  dm 0x2700000027 0x2229 0 0x205be000205cc,
  dm 0x2700000027 0x222a 0 0x205cc000205db,
  dm 0x2a1000002a7 0x222b 0 0x205aa000205b3,
  dm 0 no 0 0x18000000182,
  dm 0x2700000027 no 0x205ee000205fb 0x205fb00020611,
  dm 0x2700000027 no 0x206150002061e 0x155de000155e2,
  dm 0x2700000027 0x222e 0 0x18000000182,
  dm 0x2700000027 0x2230 0 0x18000000182,
  dm 0x2700000027 0x2231 0 0x18000000182,
  dm 0x2700000027 0x2232 0 0x18000000182,
  dm 0 no 0 0x18000000182,
  dm 0x2700000027 no 0x206360002063b 0x2063b0002064b,
  dm 0x2700000027 no 0x2064b00020650 0x2065000020661,
  dm 0x2700000027 no 0x2066100020666 0x2066600020674,
  dm 0x2700000027 no 0x206740002067e 0x2067e00020684,
  dm 0x2700000027 no 0x206840002068d 0x2068d00020696,
  dm 0x2700000027 0x2235 0 0x20696000206a1,
  dm 0x2700000027 0x2236 0 0x206a1000206ab,
  dm 0x2700000027 0x2237 0 0x18000000182,
  dm 0x39a000003a7 0x2239 0 0x206b0000206b6,
  dm 0x2700000027 0x223a 0 0x206b6000206b9,
  dm 0x2700000027 0x223b 0 0x206b9000206c1,
  dm 0x2700000027 0x223c 0 0x206c1000206c5,
  dm 0x2700000027 0x223d 0 0x206c5000206c8,
  dm 0x2700000027 0x223e 0 0x206c8000206cb,
  dm 0x2700000027 0x223f 0 0x206cb000206ce,
  dm 0x2700000027 0x2240 0 0x206ce000206d1,
  dm 0x2700000027 0x2241 0 0x206d1000206d5,
  dm 0x2700000027 0x2243 0 0x206d5000206e4,
  dm 0x2700000027 0x2244 0 0x206e4000206f7,
  dm 0x2700000027 0x2245 0 0x206f700020700,
  dm 0x2700000027 0x2246 0 0x207000002070a,
  dm 0x2700000027 0x2247 0 0x2070a00020716,
  dm 0x2700000027 0x2248 0 0x2071600020722,
  dm 0x2700000027 0x2249 0 0x207220002072c]

/-- `__dr_dm`, from item 11500 on (device_repo.go:13772-14271). -/
def drDm_23 : List ModelTuple := [
  dm 0x2700000027 0x224a 0 0x2072c00020737,
  dm 0x2700000027 0x224b 0 0x2073700020741,
  dm 0x2700000027 0x224c 0 0x207410002074c,
  dm 0x2700000027 0x224d 0 0x2074c00020759,
  dm 0x2700000027 0x224e 0 0x2075900020763,
  dm 0x2700000027 0x224f 0 0x207630002076d,
  dm 0x2700000027 0x2250 0 0x2076d0002077c,
  dm 0x2700000027 0x2251 0 0x2077c00020786,
  dm 0x2700000027 0x2252 0 0x207860002078b,
  dm 0x2700000027 0x2253 0 0x2078b00020796,
  dm 0x2700000027 no 0x20796000207a3 0x20796000207a3,
  dm 0x2700000027 0x2254 0 0x207a3000207b4,
  dm 0x39a000003a7 0x2255 0 0x207b4000207b7,
  dm 0x39a000003a7 0x2256 0 0x207b7000207be,
  dm 0x39a000003a7 0x2257 0 0x207be000207c3,
  dm 0x39a000003a7 0x2258 0 0x207c3000207c8,
  dm 0x39a000003a7 0x2259 0 0x207c8000207cd,
  dm 0x39a000003a7 0x225a 0 0x207cd000207d0,
  dm 0x39a000003a7 0x225b 0 0x207d0000207d5,
  dm 0x39a000003a7 0x225c 0 0x207d5000207d9,
  dm 0x39a000003a7 0x225d 0 0x207d9000207dd,
  dm 0x39a000003a7 0x225e 0 0x207dd000207e2,
  dm 0x39a000003a7 0x225f 0 0x207e2000207e7,
  dm 0x39a000003a7 0x2260 0 0x207e7000207f0,
  dm 0x39a000003a7 0x2261 0 0x207f0000207f4,
  dm 0x39a000003a7 0x2262 0 0x207f4000207f9,
  dm 0x39a000003a7 0x2263 0 0x207f9000207fe,
  dm 0x39a000003a7 0x2264 0 0x207fe00020802,
  dm 0x39a000003a7 0x2265 0 0x208020002080d,
  dm 0x2700000027 0x2266 0 0x2080d00020816,
  dm 0x2700000027 0x2267 0 0x2081600020822,
  dm 0x2700000027 0x2268 0 0x208220002082c,
  dm 0x2700000027 no 0x2082c00020832 0x208320002083b,
  dm 0x2700000027 no 0x2083b00020841 0x208410002084a,
  dm 0x2700000027 no 0x2084a0002084f 0x2084f0002085d,
  dm 0x2700000027 no 0x2085d00020863 0x208630002086c,
  dm 0x2700000027 0x2269 0 0x2086c00020875,
  dm 0x2700000027 0x226a 0 0x2075900020763,
  dm 0x2700000027 0x226b 0 0x2087500020882,
  dm 0x2700000027 0x226c 0 0x2088200020890,
  dm 0x2700000027 0x226d 0 0x208900002089c,
  dm 0x2700000027 0x226e 0 0x2089c000208a9,
  dm 0x2700000027 0x226f 0 0x208a9000208b4,
  dm 0x2700000027 0x2270 0 0x208b4000208c0,
  dm 0x2700000027 0x2271 0 0x208c0000208d2,
  dm 0x2700000027 0x2272 0 0x208d2000208de,
  dm 0x2700000027 0x2273 0 0x208de000208ec,
  dm 0x2700000027 0x2274 0 0x208ec000208fa,
  dm 0x2700000027 0x2275 0 0x208fa00020902,
  dm 0x2700000027 0x2276 0 0x209020002091f,
  dm 0x2700000027 0x2277 0 0x2091f0002092a,
  dm 0x2700000027 0x2278 0 0x2092a00020936,
  dm 0x2700000027 0x2279 0 0x2093600020941,
  dm 0x2700000027 0x227a 0 0x209410002094b,
  dm 0x2700000027 0x227b 0 0x2094b00020956,
  dm 0x2700000027 0x227c 0 0x2095600020962,
  dm 0x2700000027 0x227d 0 0x209620002096a,
  dm 0x2700000027 0x227e 0 0x2096a00020972,
  dm 0x2700000027 0x227f 0 0x209720002097f,
  dm 0x2700000027 0x2280 0 0x2097f00020987,
  dm 0x2700000027 0x2281 0 0x2098700020992,
  dm 0x2700000027 0x2282 0 0x209920002099c,
  dm 0x2700000027 0x2283 0 0x2099c000209a8,
  dm 0x2700000027 0x2284 0 0x209a8000209b3,
  dm 0x2700000027 0x2285 0 0x209b3000209bb,
  dm 0x2700000027 0x2286 0 0x209bb000209c8,
  dm 0x2700000027 0x2287 0 0x209c8000209d1,
  dm 0x2700000027 0x2288 0 0x209d1000209d9,
  dm 0x2700000027 0x2289 0 0x209d9000209e4,
  dm 0x2700000027 0x228a 0 0x209e4000209f2,
  dm 0x2700000027 0x228b 0 0x209f2000209ff,
  dm 0x2700000027 0x228c 0 0x209ff00020a09,
  dm 0x2700000027 0x228d 0 0x20a0900020a12,
  dm 0x2700000027 0x228e 0 0x20a1200020a1e,
  dm 0x2700000027 0x228f 0 0x20a1e00020a26,
  dm 0x2700000027 0x2290 0 0x20a2600020a36,
  dm 0x2700000027 0x2291 0 0x20a3600020a41,
  dm 0x2700000027 0x2292 0 0x20a4100020a4c,
  dm 0x2700000027 0x2293 0 0x20a4c00020a54,
  dm 0x2700000027 0x2294 0 0x20a5400020a5d,
  dm 0x2700000027 0x2295 0 0x20a5d00020a66,
  dm 0x2700000027 0x2296 0 0x20a6600020a6e,
  dm 0x2700000027 0x2297 0 0x20a6e00020a77,
  dm 0x2700000027 0x2298 0 0x20a7700020a7f,
  dm 0x2700000027 0x2299 0 0x20a7f00020a8c,
  dm 0x2700000027 0x229a 0 0x20a8c00020a95,
  dm 0x2700000027 0x229b 0 0x20a9500020a9f,
  dm 0x2700000027 0x229c 0 0x20a9f00020aa7,
  dm 0x2700000027 0x229d 0 0x20aa700020ab4,
  dm 0x2700000027 0x229e 0 0x20ab400020abc,
  dm 0x2700000027 0x229f 0 0x20abc00020ac4,
  dm 0x2700000027 0x22a0 0 0x20ac400020acd,
  dm 0x2700000027 0x22a1 0 0x20acd00020ad6,
  dm 0x2700000027 0x22a2 0 0x20ad600020adf,
  dm 0x2700000027 0x22a3 0 0x20adf00020ae9,
  dm 0x2700000027 0x22a4 0 0x20ae900020af1,
  dm 0xdfd00000e04 0x22a5 0 0x20af100020aff,
  dm 0x2700000027 0x22a6 0 0x20ae900020af1,
  dm 0x2700000027 0x22a7 0 0x20aff00020b08,
  dm 0x2700000027 0x22a8 0 0x20b0800020b16,
  dm 0x2700000027 0x22a9 0 0x20b1600020b1f,
  dm 0x2700000027 0x22aa 0 0x20b1f00020b2d,
  dm 0x2700000027 0x22ab 0 0x20b2d00020b3c,
  dm 0x2700000027 0x22ac 0 0x20b3c00020b45,
  dm 0x2700000027 0x22ad 0 0x20b4500020b53,
  dm 0x2700000027 no 0x20b5300020b58 0x20b5800020b61,
  dm 0x2700000027 0x22ae 0 0x20b6100020b6f,
  dm 0x2700000027 0x22af 0 0x20b6f00020b78,
  dm 0x2700000027 0x22b0 0 0x20b7800020b86,
  dm 0x2700000027 0x22b1 0 0x20b8600020b8f,
  dm 0x2700000027 0x22b2 0 0x20b8f00020b9d,
  dm 0x2700000027 0x22b3 0 0x20b9d00020bab,
  dm 0x2700000027 0x22b4 0 0x20bab00020bbe,
  dm 0x2700000027 0x22b5 0 0x20bbe00020bc7,
  dm 0x2700000027 0x22b6 0 0x20bc700020bd5,
  dm 0x2700000027 0x22b7 0 0x20bd500020be3,
  dm 0x2700000027 0x22b8 0 0x20be300020bec,
  dm 0x2700000027 0x22b9 0 0x20bec00020bf5,
  dm 0x2700000027 0x22ba 0 0x20bf500020c03,
  dm 0x2700000027 0x22bb 0 0x20c0300020c12,
  dm 0x2700000027 0x22bc 0 0x20c1200020c26,
  dm 0x2700000027 0x22bd 0 0x20c2600020c2f,
  dm 0xdfd00000e04 0x22be 0 0x20c2f00020c3e,
  dm 0xdfd00000e04 0x22bf 0 0x20c3e00020c52,
  dm 0x2700000027 0x22c0 0 0x20c5200020c63,
  dm 0x2700000027 0x22c1 0 0x20c6300020c6c,
  dm 0x2700000027 0x22c2 0 0x20c6c00020c7d,
  dm 0x2a1000002a7 no 0x20c7d00020c92 0x20c9200020ca7,
  dm 0x2a1000002a7 0x22c3 0 0x20ca700020cb7,
  dm 0x2700000027 0x22c4 0 0x20cb700020cc0,
  dm 0x2700000027 no 0x20cc000020cc5 0x20cc500020ccf,
  dm 0x2700000027 0x22c5 0 0x20ccf00020cd8,
  dm 0x2700000027 0x22c6 0 0x20cd800020ce6,
  dm 0x2700000027 0x22c7 0 0x20ce600020cf0,
  dm 0x2700000027 0x22c8 0 0x20cf000020cfa,
  dm 0x2700000027 0x22c9 0 0x20cfa00020d03,
  dm 0x2700000027 no 0x20d0300020d08 0x20d0800020d12,
  dm 0x2a1000002a7 0x22ca 0 0x20cfa00020d03,
  dm 0x2700000027 0x22cb 0 0x20d1200020d23,
  dm 0x2700000027 0x22cc 0 0x20d2300020d2c,
  dm 0x2700000027 0x22cd 0 0x20d2c00020d3a,
  dm 0x2700000027 0x22ce 0 0x20d3a00020d4b,
  dm 0x2700000027 0x22cf 0 0x20d4b00020d61,
  dm 0x2700000027 0x22d0 0 0x20d6100020d6a,
  dm 0x2700000027 0x22d1 0 0x20d6a00020d78,
  dm 0x2700000027 0x22d2 0 0x20d7800020d87,
  dm 0x2700000027 0x22d3 0 0x20d8700020d9b,
  dm 0x2700000027 0x22d4 0 0x20d9b00020da4,
  dm 0x2700000027 0x22d5 0 0x20da400020dae,
  dm 0x2700000027 0x22d6 0 0x20dae00020dc0,
  dm 0x2700000027 0x22d7 0 0x20dc000020dc9,
  dm 0x2700000027 0x22d8 0 0x20dc900020dd3,
  dm 0x2700000027 0x22d9 0 0x20dd300020de2,
  dm 0x2700000027 0x22da 0 0x20de200020df6,
  dm 0x2700000027 0x22db 0 0x20df600020e06,
  dm 0x2700000027 0x22dc 0 0x20e0600020e10,
  dm 0x2700000027 0x22dd 0 0x20e1000020e1f,
  dm 0x2700000027 0x22de 0 0x20e1f00020e2e,
  dm 0x2700000027 no 0x20e2e00020e33 0x20e2e00020e33,
  dm 0x2700000027 0x22df 0 0x20e3300020e43,
  dm 0x2700000027 0x22e0 0 0x20e4300020e4d,
  dm 0x2700000027 0x22e1 0 0x20e4d00020e5e,
  dm 0x2700000027 0x22e2 0 0x20e5e00020e68,
  dm 0x2700000027 no 0x20e6800020e6d 0x20e6d00020e7c,
  dm 0x2700000027 no 0x20e7c00020e82 0x20e8200020e94,
  dm 0x2700000027 0x22e3 0 0x20e9400020eab,
  dm 0x2700000027 0x22e4 0 0x20eab00020eb5,
  dm 0x2700000027 0x22e5 0 0x20eb500020ebe,
  dm 0x2700000027 0x22e6 0 0x20ebe00020ecc,
  dm 0x2700000027 0x22e7 0 0x20ecc00020ed4,
  dm 0x2700000027 0x22e8 0 0x20ed400020edd,
  dm 0x2700000027 0x22e9 0 0x20edd00020ee6,
  dm 0x2700000027 0x22ea 0 0x20ee600020eee,
  dm 0x2700000027 0x22eb 0 0x20eee00020efb,
  dm 0x2700000027 0x22ec 0 0x20efb00020f0b,
  dm 0x2700000027 0x22ed 0 0x20f0b00020f1f,
  dm 0x2700000027 0x22ee 0 0x20f1f00020f38,
  dm 0x2a1000002a7 0x22ef 0 0x20f3800020f47,
  dm 0x2a1000002a7 0x22f0 0 0x20f4700020f57,
  dm 0x2a1000002a7 0x22f1 0 0x20f5700020f67,
  dm 0x2a1000002a7 0x22f2 0 0x20f6700020f7f,
  dm 0x2a1000002a7 0x22f3 0 0x20f7f00020f8e,
  dm 0x2b1e00002b26 no 0x20f8e00020f9a 0x20f8e00020f9a,
  dm 0x23b0000023d 0x22f4 0 0x20f9a00020fa3,
  dm 0x23b0000023d 0x22f5 0 0x20fa300020fb3,
  dm 0x23b0000023d 0x22f6 0 0x18000000182,
  dm 0x23b0000023d 0x22f7 0 0x20fb300020fbd,
  dm 0xbf670000bf7c 0x22f8 0 0x20fbd00020fc7,
  dm 0x23b0000023d no 0x20fc700020fcc 0x20fc700020fcc,
  dm 0x23b0000023d no 0x20fcc00020fd4 0x20fd400020fdc,
  dm 0x23b0000023d no 0x20fdc00020fe4 0x20fe400020fec,
  dm 0x23b0000023d no 0x20fec00020ff5 0x20ff500020ffe,
  dm 0x23b0000023d 0x22f9 0 0x18000000182,
  dm 0x23b0000023d 0x22fa 0 0x20ffe00021011,
  dm 0x23b0000023d 0x22fb 0 0x210110002101f,
  dm 0x23b0000023d 0x22fc 0 0x18000000182,
  dm 0x23b0000023d 0x22fd 0 0x18000000182,
  dm 0x2700000027 0x22fe 0 0x18000000182,
  dm 0x2700000027 0x22ff 0 0x18000000182,
  dm 0x2700000027 0x2300 0 0x1012500010128,
  dm 0x2700000027 0x2301 0 0x2101f00021029,
  dm 0x2700000027 0x2302 0 0x18000000182,
  dm 0x39a000003a7 0x2303 0 0x18000000182,
  dm 0x2700000027 0x2304 0 0x18000000182,
  dm 0xc9b00000ca2 0x2305 0 0x18000000182,
  dm 0x2a1000002a7 0x2306 0 0x18000000182,
  dm 0x2a1000002a7 0x2307 0 0x18000000182,
  dm 0x2a1000002a7 0x2308 0 0x2102900021032,
  dm 0x2700000027 0x2309 0 0x2102900021032,
  dm 0x2700000027 0x230a 0 0x2102900021032,
  dm 0x2700000027 0x230b 0 0x18000000182,
  dm 0x2700000027 0x230c 0 0x18000000182,
  dm 0x2700000027 0x230d 0 0x18000000182,
  dm 0 no 0 0x18000000182,
  dm 0 no 0 0x18000000182,
  dm 0x2700000027 0x2311 0 0x18000000182,
  dm 0x2700000027 no 0x210470002104c 0x210470002104c,
  dm 0x2700000027 no 0x2104c00021054 0x210540002105c,
  dm 0x2700000027 no 0x1ff530001ff59 0x1ff530001ff59,
  dm 0x2700000027 no 0x2106900021074 0x2106900021074,
  dm 0x2700000027 no 0x156450001564c 0x156450001564c,
  dm 0x2700000027 0x2314 0 0x210740002107b,
  dm 0x2700000027 no 0x2107b00021086 0x2107b00021086,
  dm 0x2700000027 no 0x2108600021090 0x2108600021090,
  dm 0x2700000027 0x2315 0 0x210900002109a,
  dm 0x2700000027 0x2316 0 0x2109a000210a5,
  dm 0x2700000027 0x2317 0 0x558300005589,
  dm 0x2700000027 no 0x187bf000187c4 0x187bf000187c4,
  dm 0x2700000027 no 0x210a5000210ad 0x210a5000210ad,
  dm 0x2700000027 no 0x210ad000210b8 0x210ad000210b8,
  dm 0x2700000027 no 0x210b8000210bf 0x210b8000210bf,
  dm 0x2700000027 no 0x210bf000210c7 0x210c7000210c9,
  dm 0 no 0 0x18000000182,
  dm 0x2700000027 0x231a 0 0x210dc000210e8,
  dm 0x2700000027 0x231b 0 0x210e8000210f4,
  dm 0x2700000027 0x231c 0 0x210f4000210ff,
  dm 0x2700000027 0x231d 0 0x210ff0002110c,
  dm 0x2700000027 0x231f 0 0x2110c00021114,
  dm 0x2700000027 0x2320 0 0x211140002111e,
  dm 0x2700000027 no 0x2111e0002112a 0x2112a00021136,
  dm 0x2700000027 no 0x2113600021143 0x2114300021151,
  dm 0x2700000027 no 0x2115100021162 0x2116200021174,
  dm 0x2700000027 no 0x2117400021185 0x2118500021198,
  dm 0x2a1000002a7 0x2321 0 0x211980002119e,
  dm 0x2a1000002a7 0x2322 0 0x2119e000211a3,
  dm 0x2700000027 0x2323 0 0x211980002119e,
  dm 0x2700000027 0x2324 0 0x2119e000211a3,
  dm 0x2700000027 0x2325 0 0x18000000182,
  dm 0x2700000027 0x2326 0 0x18000000182,
  dm 0 no 0 0x211a9000211af,
  dm 0x2700000027 no 0x211b8000211c1 0x211c1000211ca,
  dm 0x2700000027 0x2329 0 0x211ca000211d5,
  dm 0x2700000027 no 0x211d5000211de 0x211de000211e7,
  dm 0x2700000027 no 0x211e7000211f1 0x211f1000211fb,
  dm 0x2700000027 no 0x211fb00021203 0x212030002120b,
  dm 0x2700000027 no 0x2120b00021215 0x212150002121f,
  dm 0x2700000027 no 0x2121f00021229 0x2122900021233,
  dm 0x2700000027 no 0x2123300021239 0x212390002123f,
  dm 0x2700000027 no 0x2123f00021249 0x2124900021253,
  dm 0x2700000027 no 0x212530002125e 0x2125e00021269,
  dm 0x2700000027 0x232a 0 0x2126900021273,
  dm 0x2700000027 no 0x212730002127d 0x2127d00021287,
  dm 0x2700000027 no 0x2128700021297 0x212970002129d,
  dm 0x2700000027 no 0x2129d000212ab 0x212ab000212b1,
  dm 0x2700000027 0x232c 0 0x212bb000212c2,
  dm 0x2700000027 0x232d 0 0x212c2000212c7,
  dm 0x2700000027 0x232e 0 0x212c7000212d1,
  dm 0x2700000027 0x232f 0 0x212d1000212d8,
  dm 0x2700000027 0x2330 0 0x212d8000212dd,
  dm 0x2a1000002a7 0x2331 0 0x212dd000212ea,
  dm 0 no 0 0x212f1000212fe,
  dm 0x2700000027 0x2334 0 0x213060002130e,
  dm 0x2700000027 no 0x2131500021320 0x2131500021320,
  dm 0x2700000027 0x2336 0 0xe3400000e3c,
  dm 0x2700000027 0x2338 0 0x213260002132c,
  dm 0x2700000027 0x2339 0 0x213260002132c,
  dm 0x2700000027 0x233b 0 0x213320002133c,
  dm 0x23b0000023d no 0x2133c0002134a 0x2134a00021351,
  dm 0x2700000027 0x233d 0 0x18000000182,
  dm 0x2700000027 0x233f 0 0x18000000182,
  dm 0x2700000027 0x2340 0 0x213670002136d,
  dm 0x23b0000023d 0x2341 0 0x18000000182,
  dm 0x2700000027 0x2343 0 0x18000000182,
  dm 0x2700000027 0x2344 0 0x2137200021377,
  dm 0x2700000027 no 0x213770002137e 0x2137e00021385,
  dm 0x2700000027 no 0x213850002138d 0x2138d00021395,
  dm 0x2700000027 no 0x21395000213a2 0x213a2000213af,
  dm 0x2700000027 no 0x213af000213b6 0x213b6000213bd,
  dm 0x2700000027 0x2345 0 0x18000000182,
  dm 0x2700000027 0x2346 0 0x213bd000213c5,
  dm 0x2700000027 0x2347 0 0x213c5000213d5,
  dm 0x2700000027 0x2348 0 0x213d5000213e4,
  dm 0x2700000027 no 0x213e4000213ec 0x213ec000213f4,
  dm 0x2700000027 no 0x213f4000213fd 0x213fd00021406,
  dm 0x2700000027 no 0x214060002140f 0x2140f00021418,
  dm 0x2700000027 no 0x2141800021420 0x2142000021428,
  dm 0x2700000027 no 0x214280002142d 0x2142d00021434,
  dm 0x2700000027 no 0x214340002143c 0x214340002143c,
  dm 0x2700000027 no 0x2143c00021445 0x214450002144e,
  dm 0x2700000027 no 0x2144e00021456 0x214560002145e,
  dm 0x2700000027 no 0x2145e00021466 0x214660002146e,
  dm 0x2700000027 no 0x2146e00021475 0x2146e00021475,
  dm 0x2700000027 no 0x214750002147b 0x2147b00021481,
  dm 0x2700000027 no 0x2148100021486 0xa0a00000a0a7,
  dm 0x2700000027 no 0x214860002148f 0x2148f00021498,
  dm 0x2700000027 no 0x21498000214a0 0x214a0000214a8,
  dm 0x2700000027 no 0x214a8000214ae 0x214ae000214b4,
  dm 0x2700000027 no 0x214b4000214ba 0x214ba000214c0,
  dm 0x2700000027 no 0x214c0000214c7 0x214c7000214ce,
  dm 0x2700000027 0x2349 0 0x214ce000214d7,
  dm 0x2700000027 0x234a 0 0x214d7000214df,
  dm 0x2700000027 0x234b 0 0x214df000214e6,
  dm 0x2700000027 no 0x214e6000214ef 0x214ef000214f8,
  dm 0x2700000027 no 0x133e9000133ed 0x133e9000133ed,
  dm 0x2700000027 no 0x214f8000214fd 0x8fe400008feb,
  dm 0x2700000027 no 0x214fd00021507 0x2150700021511,
  dm 0x2700000027 no 0x2151100021517 0x215170002151d,
  dm 0x2700000027 no 0x2151d00021527 0x2152700021531,
  dm 0x2700000027 no 0x215310002153a 0x2153a00021543,
  dm 0x2700000027 no 0x4bbd00004bc2 0x2154300021548,
  dm 0x2700000027 no 0x215480002154c 0x2154c00021550,
  dm 0x2700000027 no 0x2155000021556 0x1e0000001e6,
  dm 0x2700000027 no 0x2155600021563 0x2155600021563,
  dm 0x2700000027 0x234c 0 0x18000000182,
  dm 0x2700000027 0x234d 0 0x18000000182,
  dm 0x2a1000002a7 0x234e 0 0x215630002156f,
  dm 0x2a1000002a7 no 0x2156f00021574 0x215740002157f,
  dm 0x2a1000002a7 no 0x2157f00021591 0x2157f00021591,
  dm 0x2700000027 0x2350 0 0x18000000182,
  dm 0x2700000027 0x2351 0 0x12b1700012b1f,
  dm 0x2700000027 0x2353 0 0x2159b000215a2,
  dm 0x2700000027 0x2354 0 0x183a0000183a7,
  dm 0x2700000027 0x2355 0 0x215a2000215a9,
  dm 0x2700000027 0x2356 0 0x6b6600006b6d,
  dm 0x2700000027 0x2357 0 0x18000000182,
  dm 0x2700000027 0x2359 0 0x18000000182,
  dm 0x23b0000023d 0x235a 0 0x18000000182,
  dm 0x2700000027 0x235c 0 0x18000000182,
  dm 0x2700000027 0x235d 0 0x18000000182,
  dm 0x2700000027 no 0x215be000215cc 0x215cc000215da,
  dm 0x2700000027 0x235f 0 0x18000000182,
  dm 0x2700000027 0x2360 0 0x18000000182,
  dm 0x62600000633 0x2362 0 0x215df000215e7,
  dm 0x2700000027 0x2363 0 0x18000000182,
  dm 0x2700000027 no 0x215e7000215f0 0x215f0000215f9,
  dm 0x2700000027 0x2365 0 0x18000000182,
  dm 0x2700000027 0x2366 0 0x18000000182,
  dm 0x2a1000002a7 0x2367 0 0x18000000182,
  dm 0x23b0000023d 0x2368 0 0xe3400000e3c,
  dm 0x23b0000023d 0x2369 0 0x215fe0002160c,
  dm 0x23b0000023d 0x236a 0 0x18000000182,
  dm 0x23b0000023d 0x236b 0 0x18000000182,
  dm 0 no 0 0x18000000182,
  dm 0x2700000027 0x236e 0 0x2161b00021624,
  dm 0x2700000027 0x236f 0 0x500000005006,
  dm 0x2700000027 0x2370 0 0x216240002162c,
  dm 0x2700000027 0x2371 0 0x2162c00021632,
  dm 0 no 0 0x216470002164d,
  dm 0 no 0 0x18000000182,
  dm 0x2700000027 no 0x2165e00021665 0x216650002166c,
  dm 0x2700000027 no 0x2166c00021673 0x216730002167a,
  dm 0x2700000027 0x2377 0 0x18000000182,
  dm 0x2700000027 no 0x2168200021689 0x2168200021689,
  dm 0x2700000027 no 0x216910002169b 0x2169b000216a5,
  dm 0x2a1000002a7 0x2379 0 0x18000000182,
  dm 0x2a1000002a7 0x237a 0 0x18000000182,
  dm 0 no 0 0x18000000182,
  dm 0 no 0 0x216b6000216bd,
  dm 0x2700000027 0x237e 0 0x216c3000216cd,
  dm 0x2700000027 no 0x216cd000216d4 0x216d4000216dc,
  dm 0 no 0 0x18000000182,
  dm 0x2700000027 no 0x216e6000216f3 0x216e6000216f3,
  dm 0x2700000027 no 0x216f300021700 0x216f300021700,
  dm 0x2700000027 no 0x217000002170e 0x217000002170e,
  dm 0x2700000027 0x2381 0 0x123aa000123b2,
  dm 0x2a1000002a7 0x2382 0 0x2170e00021715,
  dm 0x2a1000002a7 0x2383 0 0x217150002171d,
  dm 0 no 0 0x18000000182,
  dm 0 no 0 0x2172c00021735,
  dm 0x2700000027 0x2387 0 0x217390002173e,
  dm 0x2700000027 0x2389 0 0x217460002174c,
  dm 0x2700000027 no 0x2174c00021751 0x2174c00021751,
  dm 0x2700000027 0x238a 0 0x217510002175a,
  dm 0x2700000027 no 0x2175a0002175e 0x2175a0002175e,
  dm 0x2700000027 no 0x2175e00021763 0x2176300021768,
  dm 0x2700000027 no 0x2176800021778 0x217780002177f,
  dm 0x2700000027 0x238b 0 0x2177f00021786,
  dm 0x2700000027 0x238c 0 0x500000005006,
  dm 0x2700000027 0x238d 0 0x1940000019b,
  dm 0x2700000027 0x238e 0 0x217860002178e,
  dm 0x2700000027 no 0x2178e00021796 0x2178e00021796,
  dm 0x2700000027 0x238f 0 0x18000000182,
  dm 0x2700000027 0x2390 0 0x18000000182,
  dm 0x2a1000002a7 0x2391 0 0x217960002179f,
  dm 0x2a1000002a7 no 0x2179f000217a9 0x217a9000217b3,
  dm 0 no 0 0x18000000182,
  dm 0x2700000027 0x2393 0 0x217c0000217ca,
  dm 0x2700000027 no 0x217d2000217d9 0x217d9000217e0,
  dm 0x2700000027 0x2395 0 0x217e0000217ec,
  dm 0x2700000027 0x2396 0 0x217ec000217f3,
  dm 0x2700000027 no 0x217f3000217fb 0x217fb00021806,
  dm 0x2700000027 no 0x218060002180f 0x2180f0002181e,
  dm 0x2700000027 0x2397 0 0x2181e00021826,
  dm 0x2700000027 no 0x2182600021832 0x218320002183e,
  dm 0x2700000027 0x2398 0 0x2183e00021849,
  dm 0x2700000027 no 0x2184900021850 0x747b00007485,
  dm 0x2700000027 0x2399 0 0x2185000021857,
  dm 0x2700000027 0x239a 0 0x2185700021861,
  dm 0x2700000027 0x239b 0 0x218610002186b,
  dm 0x2700000027 0x239c 0 0x2186b00021879,
  dm 0x2700000027 0x239d 0 0x2187900021887,
  dm 0x2700000027 0x239e 0 0x2188700021893,
  dm 0x2700000027 no 0x21893000218a0 0x21893000218a0,
  dm 0x2700000027 0x239f 0 0x218a0000218b0,
  dm 0x2700000027 0x23a0 0 0x218b0000218bc,
  dm 0x2700000027 0x23a1 0 0x218bc000218c7,
  dm 0x2700000027 0x23a2 0 0x218c7000218d1,
  dm 0x2700000027 0x23a3 0 0x218d1000218d8,
  dm 0x2a1000002a7 no 0x218d8000218e0 0x218e0000218ec,
  dm 0x2a1000002a7 0x23a4 0 0x218ec000218f4,
  dm 0x2700000027 0x23a5 0 0x18000000182,
  dm 0x2700000027 0x23a6 0 0x18000000182,
  dm 0 no 0 0x1988a0001988e,
  dm 0x2700000027 0x23a8 0 0x62270000622d,
  dm 0x2700000027 0x23aa 0 0x4c4300004c49,
  dm 0x23f00000249 no 0x2190500021916 0x2191600021924,
  dm 0x23f00000249 0x23ab 0 0x19fb000019fb5,
  dm 0x2700000027 0x23ae 0 0x2193100021939,
  dm 0x2700000027 0x23b0 0 0x2193c00021944,
  dm 0x2700000027 0x23b1 0 0x2194400021949,
  dm 0x2700000027 0x23b2 0 0x219490002194e,
  dm 0x2700000027 0x23b3 0 0x133df000133e2,
  dm 0x2700000027 0x23b4 0 0x2194e00021957,
  dm 0x2700000027 0x23b5 0 0x219570002195a,
  dm 0x2700000027 0x23b6 0 0x2195a0002195d,
  dm 0x2700000027 0x23b7 0 0x2195d00021960,
  dm 0x2700000027 0x23b8 0 0x2196000021963,
  dm 0x2700000027 0x23b9 0 0x2196300021966,
  dm 0x2700000027 0x23ba 0 0x2196600021969,
  dm 0x2700000027 0x23bb 0 0x219690002196d,
  dm 0x2700000027 0x23bc 0 0x2196d00021970,
  dm 0x2700000027 no 0x2197000021975 0x2196300021966,
  dm 0x2700000027 0x23bd 0 0x2197500021978,
  dm 0x2700000027 0x23be 0 0x219780002197b,
  dm 0x2700000027 no 0x2197b00021980 0x2198000021984,
  dm 0x2700000027 no 0x2198400021989 0x219890002198e,
  dm 0x2700000027 0x23bf 0 0x2198e00021991,
  dm 0x2700000027 0x23c0 0 0x2199100021994,
  dm 0x2700000027 no 0x2199400021999 0x219990002199c,
  dm 0x2700000027 no 0x2199c000219a1 0x219a1000219a6,
  dm 0x2700000027 0x23c1 0 0x219a6000219ab,
  dm 0x2700000027 0x23c2 0 0x219ab000219ae,
  dm 0x2700000027 0x23c3 0 0x219ae000219c6,
  dm 0x2700000027 0x23c4 0 0x219c6000219ce,
  dm 0x2700000027 0x23c5 0 0x219ce000219d1,
  dm 0x2700000027 0x23c6 0 0x219d1000219d4,
  dm 0x2700000027 0x23c7 0 0x219d4000219d7,
  dm 0x2700000027 0x23c8 0 0x219d7000219da,
  dm 0x2700000027 0x23c9 0 0x219da000219dc,
  dm 0x2700000027 0x23ca 0 0x193300001935,
  dm 0x2700000027 0x23cb 0 0x219dc000219df,
  dm 0x2700000027 0x23cc 0 0x19790000197c,
  dm 0x2700000027 0x23cd 0 0x712000007122,
  dm 0x2700000027 0x23ce 0 0x219df000219e1,
  dm 0x2700000027 0x23cf 0 0x6f7000006f72,
  dm 0x2700000027 0x23d0 0 0x219e1000219e3,
  dm 0x2700000027 0x23d1 0 0x1c0da0001c0e1,
  dm 0x2700000027 0x23d2 0 0x219e3000219e6,
  dm 0x2700000027 0x23d3 0 0x219e6000219e9,
  dm 0x2700000027 0x23d4 0 0x219e9000219ed,
  dm 0x2700000027 0x23d5 0 0x219ed000219f5,
  dm 0x2700000027 0x23d6 0 0x1453000014532,
  dm 0x2700000027 0x23d7 0 0x219f5000219fa,
  dm 0x2700000027 0x23d8 0 0x219fa000219fe,
  dm 0x2700000027 0x23d9 0 0xb7700000b777,
  dm 0x2700000027 0x23da 0 0x219fe00021a03,
  dm 0x2700000027 0x23db 0 0x21a0300021a0b,
  dm 0x2700000027 0x23dc 0 0x18000000182,
  dm 0x2700000027 0x23dd 0 0x18000000182,
  dm 0x2700000027 0x23de 0 0x18000000182,
  dm 0x2700000027 0x23df 0 0x21a0b00021a0d,
  dm 0x2700000027 0x23e0 0 0xf1030000f105,
  dm 0x2700000027 0x23e1 0 0x21a0d00021a10,
  dm 0x2700000027 0x23e2 0 0x21a1000021a15,
  dm 0x2700000027 0x23e3 0 0x21a1500021a1d,
  dm 0x2700000027 0x23e4 0 0x21a1d00021a25,
  dm 0x2700000027 0x23e5 0 0xca1b0000ca20,
  dm 0x2700000027 0x23e6 0 0x21a2500021a2d,
  dm 0x2700000027 0x23e7 0 0x21a2d00021a30,
  dm 0x2700000027 0x23e8 0 0x21a3000021a35,
  dm 0x2700000027 0x23e9 0 0x21a3500021a3a,
  dm 0x2700000027 0x23ea 0 0x21a3a00021a3e,
  dm 0x2700000027 0x23eb 0 0x21a3e00021a43,
  dm 0x2700000027 no 0x21a4300021a48 0x21a4800021a4d,
  dm 0x2700000027 0x23ec 0 0x21a4d00021a50,
  dm 0x2700000027 no 0x21a5000021a55 0x21a5500021a57,
  dm 0x2700000027 0x23ed 0 0x21a5700021a5b,
  dm 0x2700000027 0x23ee 0 0x21a5b00021a62,
  dm 0x2700000027 no 0x21a6200021a68 0x21a6800021a6c,
  dm 0x2700000027 0x23ef 0 0x21a6c00021a71]

/-- `__dr_dm`, from item 12000 on (device_repo.go:14272-14771). -/
def drDm_24 : List ModelTuple := [
  dm 0x2700000027 0x23f0 0 0x21a7100021a79,
  dm 0x2700000027 0x23f1 0 0x21a7900021a7e,
  dm 0x2700000027 0x23f2 0 0x21a7e00021a84,
  dm 0x2700000027 0x23f3 0 0x21a8400021a87,
  dm 0x2700000027 0x23f4 0 0x21a8700021a8c,
  dm 0x2700000027 0x23f5 0 0x21a8c00021a91,
  dm 0x2700000027 0x23f6 0 0x21a9100021a9a,
  dm 0x2700000027 0x23f7 0 0xbf2f0000bf35,
  dm 0x2700000027 0x23f8 0 0x21a9a00021aa0,
  dm 0x2700000027 0x23f9 0 0x21aa000021aa5,
  dm 0xdfd00000e04 0x23fa 0 0x21aa500021ab0,
  dm 0xdfd00000e04 0x23fb 0 0x21ab000021ac2,
  dm 0xdfd00000e04 0x23fc 0 0x21ac200021ad0,
  dm 0x2a1000002a7 no 0x21ad000021ad5 0x21ad500021ae4,
  dm 0x2a1000002a7 no 0x21ae400021ae9 0x21ae900021af7,
  dm 0x2a1000002a7 no 0x21af700021afc 0x21afc00021b07,
  dm 0x2a1000002a7 no 0x21b0700021b0d 0x21b0d00021b18,
  dm 0x2a1000002a7 0x23fd 0 0x21b1800021b20,
  dm 0x2a1000002a7 0x23fe 0 0x21b2000021b29,
  dm 0x2a1000002a7 no 0x21b2900021b2e 0x21b2e00021b34,
  dm 0x2a1000002a7 no 0x21b3400021b39 0x21b3900021b41,
  dm 0x2a1000002a7 no 0x21b4100021b46 0x21b4600021b52,
  dm 0x2a1000002a7 no 0x21b5200021b57 0x21b5700021b65,
  dm 0x2a1000002a7 no 0x21b6500021b6a 0x21b6a00021b73,
  dm 0x2a1000002a7 0x23ff 0 0x21b7300021b7d,
  dm 0x2a1000002a7 0x2400 0 0x996100009967,
  dm 0x2a1000002a7 0x2401 0 0x21b7d00021b86,
  dm 0x2a1000002a7 0x2402 0 0x21b8600021b8d,
  dm 0x2a1000002a7 0x2403 0 0x21b8d00021ba0,
  dm 0x2a1000002a7 0x2404 0 0x21ba000021bb2,
  dm 0x2a1000002a7 0x2405 0 0x21bb200021bbc,
  dm 0x2a1000002a7 0x2406 0 0x21bbc00021bc7,
  dm 0x2a1000002a7 0x2407 0 0x21bc700021bd3,
  dm 0x2a1000002a7 0x2408 0 0x21bd300021be0,
  dm 0x2a1000002a7 0x2409 0 0x21be000021bec,
  dm 0x2a1000002a7 no 0x21bec00021bf1 0x21bf100021bf9,
  dm 0x2a1000002a7 no 0x21bf900021bfe 0x21bfe00021c08,
  dm 0x2a1000002a7 no 0x21c0800021c0d 0x21c0d00021c14,
  dm 0x2a1000002a7 no 0x21c1400021c19 0x21c1900021c23,
  dm 0x23b0000023d 0x240a 0 0x18000000182,
  dm 0x23b0000023d 0x240b 0 0x21c2300021c2f,
  dm 0x23b0000023d 0x240c 0 0x18000000182,
  dm 0x2700000027 0x240d 0 0x21c2f00021c3e,
  dm 0x23b0000023d no 0x21c3e00021c56 0x21c5600021c5c,
  dm 0x23b0000023d 0x240e 0 0x21c5c00021c73,
  dm 0x23b0000023d 0x240f 0 0x21c7300021c85,
  dm 0x23b0000023d 0x2410 0 0x21c8500021c96,
  dm 0x23b0000023d 0x2411 0 0x21c9600021ca7,
  dm 0x23b0000023d 0x2412 0 0x18000000182,
  dm 0 no 0 0x18000000182,
  dm 0x2700000027 no 0x21cb800021cc0 0x21cc000021cc6,
  dm 0x2700000027 no 0x21cc600021cce 0xd2920000d295,
  dm 0x2700000027 no 0x21cce00021cd6 0x11afe00011b01,
  dm 0x2700000027 no 0x21cdf00021ce6 0x21ce600021cee,
  dm 0x2700000027 0x2416 0 0x18000000182,
  dm 0x2700000027 0x2417 0 0x18000000182,
  dm 0 no 0 0x18000000182,
  dm 0 no 0 0x18000000182,
  dm 0x2700000027 0x241a 0 0x18000000182,
  dm 0x2700000027 0x241b 0 0x18000000182,
  dm 0 no 0 0x62270000622d,
  dm 0 no 0 0x21d1000021d1f,
  dm 0 no 0 0x18000000182,
  dm 0x2700000027 0x2420 0 0x18000000182,
  dm 0 no 0 0x18000000182,
  dm 0 no 0 0x18000000182,
  dm 0x2700000027 0x2424 0 0x18000000182,
  dm 0x2700000027 0x2426 0 0x18000000182,
  dm 0x2700000027 0x2427 0 0x21d4300021d47,
  dm 0 no 0 0x1c8600001c87,
  dm 0 no 0 0x18000000182,
  dm 0 no 0 0x21d6300021d69,
  dm 0x2700000027 0x2429 0 0x21d6f00021d73,
  dm 0 no 0 0xe3400000e3c,
  dm 0 no 0 0x21d7600021d84,
  dm 0x2700000027 0x242d 0 0x21d8700021d92,
  dm 0x2700000027 0x242e 0 0x21d9200021d9c,
  dm 0x2a1000002a7 0x242f 0 0x21d9200021d9c,
  dm 0x2a1000002a7 0x2431 0 0x21dab00021db5,
  dm 0x2700000027 0x2432 0 0x18000000182,
  dm 0x2700000027 no 0x21db500021dba 0x21dba00021dbf,
  dm 0 no 0 0x18000000182,
  dm 0 no 0 0x21dce00021dda,
  dm 0 no 0 0x18000000182,
  dm 0 no 0 0x18000000182,
  dm 0 no 0 0x18000000182,
  dm 0x2700000027 0x2439 0 0x21df000021df5,
  dm 0x2700000027 0x243a 0 0x18000000182,
  dm 0x2700000027 0x243b 0 0x21df500021dfd,
  dm 0x2700000027 no 0x21dfd00021e04 0x21dfd00021e04,
  dm 0x2700000027 0x243c 0 0x21e0400021e0c,
  dm 0x2700000027 0x243e 0 0x18000000182,
  dm 0 no 0 0x21e1c00021e24,
  dm 0x2700000027 no 0x21e2b00021e30 0x21e2b00021e30,
  dm 0x2700000027 no 0x21e3000021e3b 0x21e3b00021e3f,
  dm 0x2700000027 no 0x21e3f00021e4b 0x21e4b00021e4f,
  dm 0x2700000027 0x2441 0 0x18000000182,
  dm 0x2700000027 0x2442 0 0x21e4f00021e52,
  dm 0x2700000027 no 0x21e5200021e57 0x21e5700021e5c,
  dm 0x2700000027 0x2443 0 0x18000000182,
  dm 0x2700000027 0x2444 0 0x21e5c00021e63,
  dm 0x2700000027 0x2445 0 0x21e5c00021e63,
  dm 0x23f00000249 0x2446 0 0x21e6300021e68,
  dm 0x23f00000249 no 0x21e6800021e6e 0x21e6e00021e75,
  dm 0x23f00000249 0x2447 0 0x21e7500021e7f,
  dm 0x39a000003a7 no 0x21e7f00021e94 0x21e9400021ea0,
  dm 0x23f00000249 0x2448 0 0x18000000182,
  dm 0x2700000027 0x244a 0 0x21ea800021eb4,
  dm 0 no 0 0x21ebd00021eca,
  dm 0x2700000027 0x244d 0 0x21ed200021edd,
  dm 0x2700000027 0x244e 0 0x21edd00021eec,
  dm 0 no 0 0x21ef500021efe,
  dm 0x2700000027 0x2451 0 0x21f0d00021f15,
  dm 0x2700000027 0x2452 0 0x21f1500021f18,
  dm 0x2700000027 0x2453 0 0x21f1800021f1b,
  dm 0x2700000027 0x2454 0 0x1c2330001c236,
  dm 0x2700000027 0x2455 0 0x21f1b00021f1d,
  dm 0x2700000027 0x2456 0 0x21f1d00021f21,
  dm 0x2700000027 0x2457 0 0x21f2100021f26,
  dm 0x2700000027 no 0x21f2600021f2b 0x21f2600021f2b,
  dm 0x2700000027 no 0x21f2b00021f2f 0x21f2b00021f2f,
  dm 0x2700000027 no 0x21f2f00021f36 0x21f3600021f3e,
  dm 0x2700000027 0x2458 0 0x21f3e00021f46,
  dm 0x2700000027 no 0x21f4600021f4d 0x21f4d00021f55,
  dm 0x2700000027 0x2459 0 0x21f5500021f5f,
  dm 0x2700000027 no 0x21f5f00021f69 0x21f6900021f78,
  dm 0x2700000027 0x245a 0 0x2a7200002a75,
  dm 0x2700000027 no 0x21f7800021f7c 0x21f7800021f7c,
  dm 0x2700000027 0x245b 0 0x1062e00010631,
  dm 0x2700000027 no 0x21f7c00021f81 0x21f7c00021f81,
  dm 0x2700000027 no 0x21f8100021f86 0x21f8100021f86,
  dm 0x2700000027 0x245c 0 0x1236200012369,
  dm 0x2700000027 no 0xb0260000b02d 0xb0260000b02d,
  dm 0x2700000027 no 0x21f8600021f8c 0x21f8c00021f92,
  dm 0x2700000027 no 0x21f9200021f99 0x21f9200021f99,
  dm 0x2700000027 no 0x21f9900021f9f 0x21f9f00021fa5,
  dm 0x2700000027 no 0x21fa500021fab 0x21fab00021fae,
  dm 0x2700000027 no 0x21fae00021fb4 0x21fb400021fbb,
  dm 0x2700000027 0x245d 0 0x11afe00011b01,
  dm 0x2700000027 no 0x21fbb00021fc0 0x21fc000021fc6,
  dm 0x2700000027 0x245e 0 0x21fc600021fcd,
  dm 0x2700000027 no 0x21fcd00021fd4 0x21fd400021fdc,
  dm 0x2700000027 0x245f 0 0x21fdc00021fe4,
  dm 0x2700000027 0x2460 0 0x21fe400021fe8,
  dm 0x2700000027 0x2461 0 0x21fe800021fef,
  dm 0x2700000027 no 0x21fef00021ff6 0x21fef00021ff6,
  dm 0x2700000027 no 0x21ff600021ffc 0x21ffc00021fff,
  dm 0x2700000027 0x2462 0 0x21fff00022007,
  dm 0x2700000027 0x2463 0 0x220070002200c,
  dm 0x2700000027 0x2464 0 0x2200c00022011,
  dm 0x2700000027 no 0x2201100022019 0x2201900022020,
  dm 0x2700000027 0x2465 0 0x2202000022024,
  dm 0x2700000027 no 0x220240002202d 0x2202d00022038,
  dm 0x2700000027 0x2466 0 0x18000000182,
  dm 0x2700000027 no 0x220380002203c 0x220380002203c,
  dm 0x2700000027 no 0x2203c00022042 0x2204200022049,
  dm 0x2700000027 0x2467 0 0x2204900022059,
  dm 0x2700000027 0x2468 0 0x2205900022062,
  dm 0x2700000027 0x2469 0 0x220620002206d,
  dm 0x2700000027 0x246a 0 0x2206d00022077,
  dm 0x2700000027 0x246b 0 0x18000000182,
  dm 0x2700000027 no 0x2208300022090 0x220900002209e,
  dm 0x2700000027 no 0x2209e000220a7 0x220a7000220b1,
  dm 0x2700000027 0x246d 0 0x220b1000220bb,
  dm 0x2700000027 0x246e 0 0x220bb000220c5,
  dm 0x2700000027 0x246f 0 0x220c5000220d3,
  dm 0x2700000027 0x2470 0 0x220d3000220dc,
  dm 0x2700000027 0x2471 0 0x220dc000220ea,
  dm 0x2700000027 0x2472 0 0x220ea000220fa,
  dm 0x2700000027 0x2473 0 0x220fa00022108,
  dm 0x2700000027 0x2474 0 0x2210800022117,
  dm 0x2700000027 0x2475 0 0x2211700022120,
  dm 0x2700000027 0x2476 0 0x2212000022129,
  dm 0x2700000027 no 0x2212900022135 0x221350002213c,
  dm 0x2700000027 no 0x2213c00022144 0x2214400022146,
  dm 0x2700000027 0x2477 0 0x221460002214c,
  dm 0x2700000027 0x2478 0 0x2214c00022153,
  dm 0x2700000027 0x2479 0 0x221530002215e,
  dm 0x2700000027 0x247a 0 0x2215e0002216b,
  dm 0x2700000027 0x247b 0 0x2216b00022177,
  dm 0x2700000027 0x247c 0 0x2217700022180,
  dm 0x2700000027 0x247d 0 0x2218000022188,
  dm 0x2700000027 0x247e 0 0x2218800022196,
  dm 0x2700000027 0x247f 0 0x22196000221a0,
  dm 0x2700000027 0x2480 0 0x221a0000221ac,
  dm 0x2700000027 0x2481 0 0x221ac000221b8,
  dm 0x2a1000002a7 0x2482 0 0x221b8000221c3,
  dm 0x2a1000002a7 0x2483 0 0x221c3000221ce,
  dm 0x2a1000002a7 0x2484 0 0x221ce000221dd,
  dm 0x2a1000002a7 0x2485 0 0x221dd000221e8,
  dm 0x2a1000002a7 0x2486 0 0x221e8000221f3,
  dm 0x2a1000002a7 0x2487 0 0x221f300022203,
  dm 0x2a1000002a7 0x2488 0 0x2220300022212,
  dm 0x2a1000002a7 0x2489 0 0x222120002221d,
  dm 0x2700000027 0x248a 0 0x2221d00022220,
  dm 0x2700000027 0x248b 0 0x2222000022228,
  dm 0x2700000027 0x248c 0 0x2222800022230,
  dm 0x2700000027 0x248d 0 0x2223000022238,
  dm 0x2700000027 0x248e 0 0x2223800022244,
  dm 0x2700000027 0x248f 0 0x222440002224c,
  dm 0x2700000027 0x2490 0 0x2224c00022258,
  dm 0x2700000027 0x2491 0 0x2225800022264,
  dm 0x2700000027 0x2492 0 0x222640002226c,
  dm 0x2700000027 0x2493 0 0x2226c00022278,
  dm 0x2700000027 0x2494 0 0x2227800022288,
  dm 0x2700000027 0x2495 0 0x2228800022294,
  dm 0x2700000027 0x2496 0 0x222940002229c,
  dm 0x2700000027 0x2497 0 0x2229c000222ac,
  dm 0x2700000027 0x2498 0 0x222ac000222b8,
  dm 0x2700000027 0x2499 0 0x222b8000222c2,
  dm 0x2700000027 0x249a 0 0x222c2000222cd,
  dm 0x2700000027 0x249b 0 0x222cd000222d5,
  dm 0x2700000027 0x249c 0 0x222d5000222e1,
  dm 0x2700000027 0x249d 0 0x222e1000222ea,
  dm 0x2700000027 0x249e 0 0x222ea000222fa,
  dm 0x2700000027 0x249f 0 0x222fa00022302,
  dm 0x2700000027 0x24a0 0 0x223020002230b,
  dm 0x2700000027 0x24a1 0 0x2230b00022313,
  dm 0x2700000027 0x24a2 0 0x223130002231f,
  dm 0x2700000027 0x24a3 0 0x2231f0002232b,
  dm 0x2700000027 0x24a4 0 0x2232b0002233a,
  dm 0x2700000027 0x24a5 0 0x2233a00022346,
  dm 0x2700000027 0x24a6 0 0x223460002234e,
  dm 0x2700000027 0x24a7 0 0x2234e0002235d,
  dm 0x2700000027 0x24a8 0 0x2235d0002236d,
  dm 0x2700000027 0x24a9 0 0x2236d00022380,
  dm 0x2700000027 0x24aa 0 0x2238000022388,
  dm 0x2700000027 0x24ab 0 0x223880002239b,
  dm 0x2700000027 0x24ac 0 0x2239b000223a6,
  dm 0x2700000027 0x24ad 0 0x223a6000223b5,
  dm 0x2700000027 0x24ae 0 0x223b5000223c2,
  dm 0x2700000027 0x24af 0 0x223c2000223cb,
  dm 0x2700000027 0x24b0 0 0x223cb000223d3,
  dm 0x2700000027 0x24b1 0 0x223d3000223df,
  dm 0x2700000027 0x24b2 0 0x223df000223f2,
  dm 0x2700000027 0x24b3 0 0x223f2000223fa,
  dm 0x2700000027 0x24b4 0 0x223fa00022401,
  dm 0x2700000027 0x24b5 0 0x224010002240c,
  dm 0x2700000027 0x24b6 0 0x2240c00022414,
  dm 0x2700000027 0x24b7 0 0x2241400022420,
  dm 0x2700000027 0x24b8 0 0x2242000022425,
  dm 0x2700000027 0x24b9 0 0x224250002242a,
  dm 0x2700000027 0x24ba 0 0x2242a00022434,
  dm 0x2700000027 0x24bb 0 0x224340002243a,
  dm 0x2700000027 0x24bc 0 0x2243a00022440,
  dm 0x2700000027 0x24bd 0 0x224400002244a,
  dm 0x2700000027 0x24be 0 0x2244a00022454,
  dm 0x2700000027 0x24bf 0 0x224540002245f,
  dm 0x2700000027 0x24c0 0 0x2245f0002246a,
  dm 0x2700000027 0x24c1 0 0x2246a00022474,
  dm 0x2700000027 0x24c2 0 0x224740002247a,
  dm 0x2700000027 0x24c3 0 0x224340002243a,
  dm 0x2700000027 0x24c4 0 0x2247a00022483,
  dm 0x2700000027 0x24c5 0 0x2248300022488,
  dm 0x2700000027 0x24c6 0 0x2248800022492,
  dm 0x2700000027 0x24c7 0 0x2249200022497,
  dm 0x2700000027 0x24c8 0 0x22497000224a0,
  dm 0x2700000027 0x24c9 0 0x224a0000224a9,
  dm 0x2700000027 0x24ca 0 0x224a9000224b2,
  dm 0x2700000027 0x24cb 0 0x224b2000224b7,
  dm 0x2700000027 0x24cc 0 0x224b7000224bd,
  dm 0x2700000027 0x24cd 0 0x224bd000224c5,
  dm 0x2700000027 0x24ce 0 0x224c5000224cb,
  dm 0x2700000027 0x24cf 0 0x224cb000224d4,
  dm 0x2700000027 0x24d0 0 0x224d4000224dd,
  dm 0x2700000027 0x24d1 0 0x224dd000224e3,
  dm 0x2700000027 0x24d2 0 0x224e3000224e8,
  dm 0x2700000027 0x24d3 0 0x224e8000224f0,
  dm 0x2700000027 0x24d4 0 0x224f0000224f9,
  dm 0x2700000027 0x24d5 0 0x224f9000224fe,
  dm 0x2700000027 0x24d6 0 0x224fe00022507,
  dm 0x2700000027 0x24d7 0 0x225070002250c,
  dm 0x2700000027 0x24d8 0 0x2250c00022511,
  dm 0x2700000027 0x24d9 0 0x2251100022519,
  dm 0x2700000027 0x24da 0 0x2251900022521,
  dm 0x2700000027 0x24db 0 0x2252100022530,
  dm 0x2700000027 0x24dc 0 0x225300002253f,
  dm 0x2700000027 0x24dd 0 0x2253f0002254e,
  dm 0x2700000027 0x24de 0 0x2254e00022556,
  dm 0x2700000027 0x24df 0 0x225560002255f,
  dm 0x2700000027 0x24e0 0 0x2255f0002256b,
  dm 0x2700000027 0x24e1 0 0x2256b0002257a,
  dm 0x2700000027 0x24e2 0 0x2257a00022587,
  dm 0x2700000027 0x24e3 0 0xc0560000c05d,
  dm 0x2700000027 0x24e4 0 0x2258700022594,
  dm 0x2700000027 0x24e5 0 0x225940002259b,
  dm 0x2700000027 0x24e6 0 0x2259b000225a6,
  dm 0x2700000027 0x24e7 0 0x225a6000225ad,
  dm 0x2700000027 0x24e8 0 0x225ad000225b8,
  dm 0x2700000027 0x24e9 0 0x225b8000225c4,
  dm 0x2700000027 0x24ea 0 0x225c4000225cf,
  dm 0x2700000027 0x24eb 0 0x225cf000225d6,
  dm 0x2700000027 0x24ec 0 0x225d6000225e1,
  dm 0x2700000027 0x24ed 0 0x225e1000225e8,
  dm 0x2700000027 0x24ee 0 0x225e8000225f3,
  dm 0x2700000027 0x24ef 0 0x225f3000225fd,
  dm 0x2700000027 0x24f0 0 0x225fd00022604,
  dm 0x2700000027 0x24f1 0 0x226040002260f,
  dm 0x2700000027 0x24f2 0 0x2260f00022617,
  dm 0x2700000027 0x24f3 0 0x226170002261f,
  dm 0x2700000027 0x24f4 0 0x2261f00022626,
  dm 0x2700000027 0x24f5 0 0x226260002262e,
  dm 0x2700000027 0x24f6 0 0x2262e00022636,
  dm 0x2700000027 0x24f7 0 0x226360002263e,
  dm 0x2700000027 0x24f8 0 0x2263e00022649,
  dm 0x2700000027 0x24f9 0 0x2264900022654,
  dm 0x2700000027 0x24fa 0 0x226540002265b,
  dm 0x2700000027 0x24fb 0 0x2265b00022663,
  dm 0x2700000027 0x24fc 0 0x226630002266c,
  dm 0x2700000027 0x24fd 0 0x2266c00022674,
  dm 0x2700000027 0x24fe 0 0x226740002267f,
  dm 0x2700000027 0x24ff 0 0x2267f0002268b,
  dm 0x2700000027 0x2500 0 0x2268b00022693,
  dm 0x2700000027 0x2501 0 0x22693000226a2,
  dm 0x2700000027 0x2502 0 0x2252100022530,
  dm 0x2700000027 0x2503 0 0x226a2000226ad,
  dm 0x2700000027 0x2504 0 0x226ad000226b6,
  dm 0x2700000027 0x2505 0 0x226b6000226be,
  dm 0x2700000027 0x2506 0 0x226be000226ca,
  dm 0x2700000027 0x2507 0 0x226ca000226d3,
  dm 0x2700000027 0x2508 0 0x226d3000226dd,
  dm 0x2700000027 0x2509 0 0x226dd000226e8,
  dm 0x2700000027 0x250a 0 0x226e8000226f0,
  dm 0x2a1000002a7 0x250b 0 0x222120002221d,
  dm 0x2a1000002a7 0x250c 0 0x226f0000226fb,
  dm 0x2700000027 0x250d 0 0x226fb00022708,
  dm 0x2700000027 0x250e 0 0x2270800022711,
  dm 0x2700000027 0x250f 0 0x227110002271a,
  dm 0x2700000027 0x2510 0 0x2271a00022723,
  dm 0x2700000027 0x2511 0 0x2272300022730,
  dm 0x2700000027 0x2512 0 0x227300002273e,
  dm 0x2700000027 0x2513 0 0x2273e00022747,
  dm 0x2700000027 0x2514 0 0x2274700022754,
  dm 0x2700000027 0x2515 0 0x227540002275b,
  dm 0x2700000027 0x2516 0 0x2275b00022760,
  dm 0x2700000027 0x2517 0 0x2276000022766,
  dm 0x2700000027 0x2518 0 0x227660002276d,
  dm 0xdfd00000e04 no 0x2276d00022775 0x403d0000403f,
  dm 0xdfd00000e04 0x2519 0 0x2277500022779,
  dm 0xdfd00000e04 0x251a 0 0x2277900022781,
  dm 0xdfd00000e04 0x251b 0 0x227810002278b,
  dm 0xdfd00000e04 0x251c 0 0x2278b00022795,
  dm 0xdfd00000e04 0x251d 0 0x22795000227a0,
  dm 0xdfd00000e04 0x251e 0 0x227a0000227a6,
  dm 0xdfd00000e04 0x251f 0 0x227a6000227ac,
  dm 0xdfd00000e04 0x2520 0 0x227ac000227b3,
  dm 0xdfd00000e04 0x2521 0 0x227b3000227b9,
  dm 0xdfd00000e04 0x2522 0 0x227b9000227c3,
  dm 0xdfd00000e04 0x2523 0 0x227c3000227c9,
  dm 0xdfd00000e04 0x2524 0 0x227c9000227d6,
  dm 0xdfd00000e04 0x2525 0 0x227d6000227e3,
  dm 0xdfd00000e04 0x2526 0 0x227e3000227e9,
  dm 0xdfd00000e04 0x2527 0 0x227e9000227f3,
  dm 0xdfd00000e04 0x2528 0 0x227f300022800,
  dm 0x2700000027 0x2529 0 0x168e8000168ee,
  dm 0x2700000027 0x252a 0 0x2280000022807,
  dm 0x39a000003a7 0x252b 0 0x18000000182,
  dm 0x2a1000002a7 0x252c 0 0x2280700022811,
  dm 0x2700000027 0x252d 0 0x18000000182,
  dm 0x2700000027 0x252e 0 0x18000000182,
  dm 0x2700000027 no 0x2281800022827 0x228270002282e,
  dm 0x2700000027 0x2530 0 0x2282e00022836,
  dm 0x2700000027 0x2532 0 0x582c0000582e,
  dm 0x2700000027 0x2533 0 0x2283b00022841,
  dm 0x2700000027 0x2534 0 0x2284100022849,
  dm 0x2700000027 0x2535 0 0x18000000182,
  dm 0x2700000027 0x2536 0 0x18000000182,
  dm 0x2700000027 no 0x228530002285f 0x2285f0002286c,
  dm 0x2700000027 0x2538 0 0x2286c00022872,
  dm 0x23f00000249 no 0x228720002287a 0x2287a00022883,
  dm 0x23f00000249 no 0x228830002288b 0x2288b00022893,
  dm 0x23f00000249 no 0x228930002289e 0x2289e000228a9,
  dm 0x23f00000249 no 0x228a9000228b1 0x228b1000228b9,
  dm 0x23f00000249 0x2539 0 0x18000000182,
  dm 0x2700000027 0x253a 0 0x18000000182,
  dm 0x23b0000023d 0x253b 0 0x18000000182,
  dm 0x23b0000023d 0x253c 0 0x2700000027,
  dm 0x2700000027 no 0x228bf000228ca 0x228ca000228ce,
  dm 0x2700000027 no 0x228ce000228d9 0x228d9000228de,
  dm 0x2700000027 no 0x228de000228e8 0x228e8000228f3,
  dm 0x2700000027 0x253e 0 0x18000000182,
  dm 0x2700000027 0x2540 0 0x18000000182,
  dm 0x2700000027 0x2541 0 0x13b1200013b1d,
  dm 0x2700000027 no 0x228ff00022905 0x2290500022912,
  dm 0x2700000027 no 0x229120002291b 0x62270000622d,
  dm 0x2700000027 0x2542 0 0x18000000182,
  dm 0x2700000027 0x2543 0 0x18000000182,
  dm 0 no 0 0x18000000182,
  dm 0x2700000027 no 0x2292b00022931 0x2293100022937,
  dm 0x2700000027 no 0x2293c0002294b 0x2294b00022954,
  dm 0x2700000027 0x2546 0 0x229540002295e,
  dm 0x2700000027 no 0x2295e00022963 0x2296300022969,
  dm 0x2700000027 no 0x2296900022972 0x135da000135e3,
  dm 0x2700000027 0x2547 0 0x2297200022976,
  dm 0x2700000027 0x2548 0 0x18000000182,
  dm 0x2700000027 0x2549 0 0x2297600022980,
  dm 0x2700000027 0x254a 0 0x229800002298a,
  dm 0x2700000027 no 0x2298a0002299c 0x2299c000229a6,
  dm 0x2700000027 0x254c 0 0x18000000182,
  dm 0x7cc000007d6 no 0x229b1000229b8 0x1ea500001ea7,
  dm 0x2700000027 0x254e 0 0x229bd000229c2,
  dm 0 no 0 0x229cc000229d1,
  dm 0x2700000027 0x2550 0 0x18000000182,
  dm 0 no 0 0x229de000229e6,
  dm 0x2700000027 0x2553 0 0x229eb000229f2,
  dm 0x2700000027 0x2554 0 0x229f2000229fb,
  dm 0 no 0 0x22a0300022a0d,
  dm 0x2700000027 no 0x22a1000022a18 0x22a1000022a18,
  dm 0x2700000027 0x2557 0 0x18000000182,
  dm 0x2700000027 0x2558 0 0x18000000182,
  dm 0x23b0000023d 0x2559 0 0x22a1800022a21,
  dm 0x23b0000023d 0x255a 0 0x22a2100022a26,
  dm 0x2700000027 0x255b 0 0x18000000182,
  dm 0x2700000027 0x255c 0 0x18000000182,
  dm 0x2700000027 0x255e 0 0x138e8000138f0,
  dm 0x2700000027 no 0x22a2d00022a34 0x22a2d00022a34,
  dm 0x2700000027 no 0x22a3400022a3c 0x22a3400022a3c,
  dm 0x2700000027 no 0x22a3c00022a44 0x22a3c00022a44,
  dm 0x2700000027 0x255f 0 0x22a4400022a51,
  dm 0x2700000027 0x2560 0 0x22a5100022a58,
  dm 0x2700000027 no 0x22a5800022a63 0x22a6300022a6c,
  dm 0x2700000027 no 0x22a6c00022a7e 0x22a7e00022a84,
  dm 0x2700000027 0x2561 0 0x22a8400022a89,
  dm 0x2700000027 no 0x22a8900022a91 0x22a9100022a9a,
  dm 0x23f00000249 0x2562 0 0x18000000182,
  dm 0x23f00000249 0x2563 0 0x22a9a00022aa1,
  dm 0x23f00000249 0x2564 0 0x22aa100022aaf,
  dm 0x23f00000249 0x2565 0 0x22aaf00022ab9,
  dm 0x23f00000249 0x2566 0 0x22ab900022ac0,
  dm 0x23f00000249 no 0x22ac000022acd 0x22ac000022acd,
  dm 0x23f00000249 no 0x22acd00022adb 0x22adb00022ae9,
  dm 0x23f00000249 0x2567 0 0x22ae900022af2,
  dm 0x23b0000023d 0x2568 0 0x18000000182,
  dm 0x23b0000023d 0x2569 0 0x18000000182,
  dm 0 no 0 0x18000000182,
  dm 0 no 0 0x18000000182,
  dm 0x2700000027 no 0x22b0400022b0d 0x22b0d00022b16,
  dm 0x2700000027 no 0x22b1600022b1f 0x22b1600022b1f,
  dm 0x2700000027 0x256d 0 0x18000000182,
  dm 0x2700000027 0x256e 0 0x22b1f00022b21,
  dm 0x2700000027 0x2570 0 0x22b2700022b33,
  dm 0x2700000027 0x2571 0 0x509f000050a9,
  dm 0x2700000027 0x2573 0 0x22b3900022b43,
  dm 0x2700000027 0x2574 0 0x22b4300022b4c,
  dm 0x2700000027 0x2575 0 0x22b4c00022b54,
  dm 0 no 0 0x22b5900022b61,
  dm 0x2700000027 0x2578 0 0x9a3a00009a3f,
  dm 0x2700000027 no 0x22b6700022b76 0x22b7600022b7f,
  dm 0x2700000027 no 0x22b7f00022b87 0x22b8700022b90,
  dm 0x2700000027 0x2579 0 0x22b9000022b9d,
  dm 0x2700000027 no 0x22b9d00022bab 0x22b9d00022bab,
  dm 0x2700000027 no 0x22bab00022bb5 0x22bab00022bb5,
  dm 0x2700000027 no 0x22bb500022bbe 0x22bb500022bbe,
  dm 0x2700000027 0x257a 0 0x22bbe00022bcc,
  dm 0x2700000027 no 0x22bcc00022bd6 0x22bd600022be0,
  dm 0x2700000027 no 0x22be000022bec 0x22bec00022bf8,
  dm 0x2700000027 no 0x22bf800022bfc 0x22bf800022bfc,
  dm 0x2700000027 no 0x22bfc00022c03 0x22c0300022c0a,
  dm 0x2a1000002a7 0x257b 0 0x22c0a00022c15,
  dm 0x2a1000002a7 0x257c 0 0x22c1500022c26,
  dm 0 no 0 0x18000000182,
  dm 0 no 0 0x18000000182,
  dm 0 no 0 0x18000000182,
  dm 0 no 0 0x22c3b00022c48,
  dm 0 no 0 0x18000000182,
  dm 0x2700000027 0x2582 0 0x18000000182,
  dm 0x2700000027 0x2583 0 0x22c5600022c5d,
  dm 0x2700000027 no 0x22c6600022c6f 0x22c6600022c6f,
  dm 0x2a1000002a7 no 0x22c6f00022c78 0x22c7800022c81,
  dm 0x2a1000002a7 no 0x22c8100022c86 0x22c8100022c86,
  dm 0x2700000027 no 0x22c8600022c91 0x22c9100022c97,
  dm 0x2700000027 0x2586 0 0x18000000182,
  dm 0x2a1000002a7 no 0x22ca000022caa 0x12aca00012acc,
  dm 0x2a1000002a7 no 0x22caa00022cb4 0x19c6f00019c72,
  dm 0x2a1000002a7 no 0x22cb400022cc0 0x1170200011704,
  dm 0x2a1000002a7 no 0x22cc000022ccc 0x1170000011702,
  dm 0x2a1000002a7 no 0x22ccc00022cd8 0x70f5000070f7,
  dm 0 no 0 0x22ce100022cf3,
  dm 0 no 0 0x18000000182,
  dm 0 no 0 0x22d0000022d04,
  dm 0x2700000027 0x258b 0 0x18000000182,
  dm 0x2700000027 no 0x22d0900022d12 0x22d1200022d1a,
  dm 0x2700000027 0x258c 0 0x4bd000004c3,
  dm 0x2700000027 0x258d 0 0x201a0000201a9,
  dm 0x23f00000249 0x258e 0 0x18000000182,
  dm 0x2a1000002a7 0x2590 0 0x22d1a00022d23,
  dm 0x2700000027 no 0x22d2300022d30 0x22d3000022d3d,
  dm 0x2700000027 no 0x22d3d00022d4a 0x22d4a00022d57,
  dm 0x2700000027 0x2591 0 0x22d1a00022d23,
  dm 0x2700000027 0x2592 0 0x22d5700022d5d,
  dm 0xdfd00000e04 no 0x22d5d00022d68 0x22d5d00022d68,
  dm 0x2700000027 no 0x22d6800022d73 0x22d6800022d73,
  dm 0x2700000027 no 0x22d7a00022d7f 0x22d7f00022d8a,
  dm 0x2700000027 no 0x22d8a00022d8f 0x22d8f00022d9a,
  dm 0x2700000027 no 0x22d9a00022d9f 0x22d9f00022daa,
  dm 0x2700000027 no 0x22daa00022dae 0x22dae00022db8,
  dm 0x2700000027 no 0x22db800022dbd 0x22dbd00022dc8,
  dm 0x2a1000002a7 no 0x22dc800022dcd 0xe9cb0000e9d1,
  dm 0x2a1000002a7 no 0x22dcd00022dd2 0x22dd200022ddd,
  dm 0x2a1000002a7 no 0x22ddd00022de4 0x22de400022df1]

/-- `__dr_dm`, from item 12500 on (device_repo.go:14772-15271). -/
def drDm_25 : List ModelTuple := [
  dm 0x2a1000002a7 no 0x22df100022df7 0x22df700022e03,
  dm 0x2a1000002a7 0x2594 0 0x22e0300022e0d,
  dm 0x2a1000002a7 0x2595 0 0x22e0d00022e1c,
  dm 0x2a1000002a7 no 0x22e1c00022e22 0x22e2200022e2f,
  dm 0xc9b00000ca2 no 0x22e2f00022e3e 0x22e3e00022e4c,
  dm 0xc9b00000ca2 0x2596 0 0x22e4c00022e58,
  dm 0x23b0000023d 0x2597 0 0x22e5800022e62,
  dm 0x23b0000023d 0x2598 0 0x22e6200022e6c,
  dm 0x23b0000023d no 0x22e6c00022e75 0x22e7500022e7f,
  dm 0x23b0000023d no 0x22e7f00022e87 0x22e8700022e94,
  dm 0x23b0000023d no 0x22e9400022e9e 0x22e9e00022ea8,
  dm 0x23b0000023d 0x2599 0 0x22ea800022eb9,
  dm 0x23b0000023d 0x259a 0 0xfd7b0000fd8c,
  dm 0x23b0000023d 0x259b 0 0xa6be0000a6cf,
  dm 0x23b0000023d 0x259c 0 0x18000000182,
  dm 0x23b0000023d 0x259d 0 0x2700000027,
  dm 0x23b0000023d no 0x22eb900022ec2 0x2700000027,
  dm 0x2700000027 0x259e 0 0x18000000182,
  dm 0x2700000027 0x259f 0 0x18000000182,
  dm 0x2700000027 0x25a0 0 0x18000000182,
  dm 0 no 0 0x18000000182,
  dm 0x2a1000002a7 0x25a3 0 0x18000000182,
  dm 0x2a1000002a7 no 0x22ed500022ee0 0x22ee000022eeb,
  dm 0x2a1000002a7 no 0x22eeb00022ef8 0x22ef800022f0c,
  dm 0x2700000027 0x25a4 0 0x18000000182,
  dm 0x2700000027 0x25a5 0 0x18000000182,
  dm 0x2700000027 0x25a7 0 0x22f1500022f23,
  dm 0x2700000027 0x25a8 0 0x18000000182,
  dm 0 no 0 0x22f2b00022f35,
  dm 0x2700000027 0x25ab 0 0x22f3d00022f49,
  dm 0x2700000027 no 0x22f4900022f52 0x22f5200022f67,
  dm 0x2700000027 no 0x22f6700022f7a 0x22f7a00022f8d,
  dm 0x2700000027 no 0x22f8d00022f99 0x22f8d00022f99,
  dm 0x2700000027 0x25ac 0 0x18000000182,
  dm 0x2700000027 0x25ad 0 0x22f9900022fa3,
  dm 0x2700000027 0x25ae 0 0x22f9900022fa3,
  dm 0x2700000027 no 0x22fa300022faf 0x22faf00022fba,
  dm 0x2700000027 0x25af 0 0x18000000182,
  dm 0x2700000027 0x25b0 0 0x22fba00022fd1,
  dm 0x2700000027 0x25b2 0 0x22fd600022fe2,
  dm 0x2700000027 0x25b3 0 0x22fe200022fed,
  dm 0x2700000027 0x25b4 0 0x22fed00022ff5,
  dm 0x2700000027 0x25b5 0 0x22ff500023002,
  dm 0x2700000027 no 0x230020002300d 0x2300d00023019,
  dm 0x23f00000249 0x25b6 0 0x2301900023024,
  dm 0x23f00000249 0x25b7 0 0x230240002302f,
  dm 0x23f00000249 0x25b8 0 0x2302f0002303b,
  dm 0x23f00000249 0x25b9 0 0x2303b00023046,
  dm 0xdfd00000e04 0x25ba 0 0x2304600023053,
  dm 0xdfd00000e04 0x25bb 0 0x2305300023068,
  dm 0xdfd00000e04 0x25bc 0 0x2306800023073,
  dm 0x2700000027 0x25bd 0 0x18000000182,
  dm 0 no 0 0x62270000622d,
  dm 0 no 0 0x18000000182,
  dm 0 no 0 0x18000000182,
  dm 0x2700000027 no 0x230910002309b 0x2309b000230a5,
  dm 0x2700000027 no 0x230a5000230b1 0x230b1000230bd,
  dm 0x2700000027 no 0x230bd000230c8 0x230c8000230d3,
  dm 0x2700000027 0x25c2 0 0x230e6000230f5,
  dm 0 no 0 0x230f9000230fe,
  dm 0 no 0 0x18000000182,
  dm 0x2700000027 0x25c6 0 0x2310b00023113,
  dm 0x2700000027 0x25c7 0 0x2311300023125,
  dm 0x2700000027 0x25c8 0 0x2312500023134,
  dm 0x2700000027 0x25c9 0 0x2313400023146,
  dm 0x2700000027 0x25ca 0 0x231460002315e,
  dm 0x2700000027 no 0x2315e00023174 0x231740002318a,
  dm 0x2700000027 no 0x2318a0002319c 0x2319c000231ae,
  dm 0x2700000027 0x25cb 0 0x231ae000231be,
  dm 0x2700000027 0x25cc 0 0x231be000231cf,
  dm 0x2700000027 0x25cd 0 0x231cf000231e0,
  dm 0x2700000027 0x25ce 0 0x231e0000231f1,
  dm 0x2700000027 0x25cf 0 0x231f1000231fc,
  dm 0x2700000027 0x25d0 0 0x231fc0002320c,
  dm 0x2700000027 no 0x2320c00023217 0x2321700023222,
  dm 0x2a1000002a7 no 0x2322200023231 0x2323100023240,
  dm 0x2a1000002a7 no 0x2324000023256 0x232560002326c,
  dm 0x2a1000002a7 no 0x2326c0002327e 0x2327e00023290,
  dm 0x2a1000002a7 no 0x23290000232a2 0x232a2000232af,
  dm 0x2a1000002a7 0x25d1 0 0x232af000232c5,
  dm 0x23b0000023d no 0x232c5000232ca 0x232ca000232d5,
  dm 0 no 0 0x18000000182,
  dm 0 no 0 0x18000000182,
  dm 0 no 0 0x232f200023301,
  dm 0x2700000027 0x25d6 0 0x2330100023309,
  dm 0x2700000027 0x25d7 0 0x2330900023310,
  dm 0x2700000027 0x25d8 0 0x2331000023315,
  dm 0x2700000027 0x25d9 0 0x233150002331d,
  dm 0x2700000027 0x25da 0 0x2331d00023323,
  dm 0x2700000027 0x25db 0 0x2332300023327,
  dm 0x2700000027 0x25dc 0 0xb05f0000b061,
  dm 0x2a1000002a7 0x25dd 0 0x2332700023334,
  dm 0x2700000027 no 0x135780001357d 0x135780001357d,
  dm 0x2700000027 no 0x2333b00023344 0x1c7040001c706,
  dm 0x2700000027 0x25df 0 0xf1030000f105,
  dm 0x2700000027 0x25e0 0 0x2334400023346,
  dm 0x2700000027 0x25e1 0 0x233460002334d,
  dm 0x2700000027 no 0x2334d0002335c 0x2335c00023363,
  dm 0x2700000027 no 0x2336300023370 0x2337000023375,
  dm 0x2700000027 0x25e2 0 0x233750002337a,
  dm 0x2700000027 no 0x2337a00023384 0x2338400023388,
  dm 0x2a1000002a7 0x25e3 0 0x233880002338b,
  dm 0x2a1000002a7 no 0x2338b0002339b 0x2339b000233a3,
  dm 0x2a1000002a7 0x25e4 0 0x233a3000233aa,
  dm 0x2a1000002a7 0x25e5 0 0x233aa000233b3,
  dm 0x2a1000002a7 no 0x233b3000233ba 0x233b3000233ba,
  dm 0x2a1000002a7 0x25e6 0 0x233ba000233c6,
  dm 0x2a1000002a7 0x25e7 0 0x233c6000233cf,
  dm 0x2a1000002a7 0x25e8 0 0x233cf000233da,
  dm 0x2a1000002a7 0x25e9 0 0x233da000233e8,
  dm 0x2a1000002a7 0x25ea 0 0x233e8000233f7,
  dm 0x2a1000002a7 0x25eb 0 0x233f700023405,
  dm 0x2a1000002a7 0x25ec 0 0x2340500023415,
  dm 0x2a1000002a7 no 0x2341500023421 0x234210002342e,
  dm 0x2a1000002a7 no 0x2342e0002343a 0x2343a00023444,
  dm 0x2a1000002a7 no 0x2344400023456 0x234560002345d,
  dm 0x23b0000023d 0x25ed 0 0x2700000027,
  dm 0x2a1000002a7 0x25ee 0 0x18000000182,
  dm 0x2700000027 0x25ef 0 0x18000000182,
  dm 0x2700000027 no 0x2346600023473 0x2347300023480,
  dm 0x2700000027 0x25f1 0 0x2348000023486,
  dm 0x2700000027 0x25f2 0 0x234860002348a,
  dm 0x2700000027 0x25f3 0 0x18000000182,
  dm 0 no 0 0x18000000182,
  dm 0x2700000027 0x25f6 0 0x2349a000234a3,
  dm 0x2700000027 0x25f7 0 0x234a3000234a7,
  dm 0x2700000027 0x25f8 0 0x234a7000234b6,
  dm 0x2700000027 0x25f9 0 0x234b6000234c4,
  dm 0x2a1000002a7 0x25fa 0 0x218ec000218f4,
  dm 0 no 0 0x18000000182,
  dm 0x2700000027 0x25fd 0 0x18000000182,
  dm 0x2700000027 0x25fe 0 0x18000000182,
  dm 0 no 0 0x18000000182,
  dm 0x2700000027 0x2600 0 0x234ee000234f3,
  dm 0 no 0 0x18000000182,
  dm 0x2700000027 0x2603 0 0xd21e0000d22e,
  dm 0x2700000027 0x2604 0 0xdd540000dd5f,
  dm 0x2700000027 0x2605 0 0x235020002350e,
  dm 0x2700000027 0x2606 0 0x2350e0002351b,
  dm 0x2700000027 no 0x2352d00023537 0x2353700023548,
  dm 0x2700000027 0x2607 0 0x18000000182,
  dm 0x2700000027 0x2609 0 0x2354a00023553,
  dm 0x2700000027 0x260a 0 0x235530002355d,
  dm 0x2700000027 0x260b 0 0x2355d00023566,
  dm 0x2700000027 0x260d 0 0x18000000182,
  dm 0x2a1000002a7 no 0x2357200023576 0x235760002357d,
  dm 0x2a1000002a7 no 0x2357d00023581 0x2358100023588,
  dm 0x2a1000002a7 no 0x235880002358c 0x2358c00023592,
  dm 0x2a1000002a7 0x260f 0 0x2359200023598,
  dm 0x2a1000002a7 no 0x235980002359c 0x2359c000235a2,
  dm 0x2a1000002a7 no 0x235a2000235a6 0x235a6000235ac,
  dm 0x2700000027 0x2610 0 0x500000005006,
  dm 0x2700000027 no 0x235ac000235b5 0x235b5000235b9,
  dm 0x2700000027 no 0x235b9000235c4 0x235b9000235c4,
  dm 0x2700000027 no 0x235c4000235c8 0x8d8a00008d90,
  dm 0x2700000027 no 0x235c8000235cc 0x235cc000235d3,
  dm 0x2700000027 no 0x235d3000235d7 0x5b1000005b3,
  dm 0x2700000027 no 0x235d7000235db 0x711e00007120,
  dm 0x2700000027 no 0x235db000235df 0x10fa900010fab,
  dm 0x2700000027 no 0x235df000235e3 0x17c1800017c1a,
  dm 0x2700000027 no 0x235e3000235e7 0x235e7000235f0,
  dm 0x2700000027 no 0x235f0000235f4 0x235f4000235f9,
  dm 0x2700000027 no 0x235f9000235fd 0x235fd00023603,
  dm 0x2700000027 0x2611 0 0x2360300023607,
  dm 0x2700000027 0x2612 0 0x236070002360b,
  dm 0x2700000027 0x2613 0 0x166570001665a,
  dm 0x2700000027 0x2614 0 0x2360b0002360f,
  dm 0x2700000027 0x2615 0 0x2360f00023617,
  dm 0x2700000027 0x2616 0 0xd7500000d77,
  dm 0x2700000027 no 0x2361700023620 0x2362000023625,
  dm 0x2700000027 0x2617 0 0x2362500023628,
  dm 0x2700000027 0x2618 0 0x10fb200010fb4,
  dm 0x2700000027 0x2619 0 0x236280002362e,
  dm 0x2700000027 0x261a 0 0x2362e00023635,
  dm 0x2700000027 no 0x2363500023640 0x2364000023647,
  dm 0x2700000027 no 0x2364700023650 0xc3830000c388,
  dm 0x2700000027 no 0x2365000023656 0x2365000023656,
  dm 0x2700000027 no 0x236560002365d 0x236560002365d,
  dm 0x2700000027 0x261b 0 0x212970002129d,
  dm 0x2700000027 no 0x2365d00023665 0x236650002366d,
  dm 0x2700000027 no 0x2366d00023676 0x236760002367f,
  dm 0x2700000027 0x261c 0 0x2367f00023689,
  dm 0x2700000027 no 0x2368900023691 0x2368900023691,
  dm 0x2700000027 0x261d 0 0x236910002369a,
  dm 0x2700000027 0x261e 0 0x2369a000236a6,
  dm 0x2700000027 0x261f 0 0x236a6000236af,
  dm 0x2700000027 0x2620 0 0x236af000236b6,
  dm 0x2700000027 no 0x236b6000236bf 0x236bf000236c8,
  dm 0x2700000027 no 0x236c8000236cd 0x236cd000236d2,
  dm 0x2700000027 no 0x236d2000236da 0x236da000236e2,
  dm 0x2700000027 no 0x236e2000236eb 0x236eb000236f4,
  dm 0x2700000027 no 0x236f4000236fc 0x236fc00023704,
  dm 0x2700000027 0x2621 0 0x2370400023709,
  dm 0x2700000027 0x2622 0 0xf2c50000f2c9,
  dm 0x2700000027 no 0x237090002370e 0x237090002370e,
  dm 0x2700000027 no 0x2370e00023715 0x237150002371c,
  dm 0x2700000027 no 0x2371c00023722 0x216470002164d,
  dm 0x2700000027 no 0x2372200023729 0x2372200023729,
  dm 0x2700000027 0x2623 0 0x2372900023731,
  dm 0x2700000027 0x2624 0 0x655e00006560,
  dm 0x2700000027 0x2625 0 0x237310002373b,
  dm 0x2700000027 0x2626 0 0x2373b00023749,
  dm 0x2700000027 0x2627 0 0x2374900023754,
  dm 0x2700000027 0x2628 0 0x18000000182,
  dm 0x2700000027 0x2629 0 0x18000000182,
  dm 0x2700000027 0x262a 0 0x18000000182,
  dm 0x2700000027 0x262c 0 0x18000000182,
  dm 0x2700000027 0x262d 0 0x18000000182,
  dm 0x2700000027 0x262f 0 0x18000000182,
  dm 0x2700000027 0x2630 0 0x18000000182,
  dm 0x2700000027 0x2632 0 0x18000000182,
  dm 0x2700000027 no 0x237670002376f 0x237670002376f,
  dm 0x2700000027 0x2633 0 0x2376f00023777,
  dm 0x2a1000002a7 no 0x237770002377f 0x237770002377f,
  dm 0 no 0 0x18000000182,
  dm 0 no 0 0x18000000182,
  dm 0 no 0 0x23796000237a0,
  dm 0x2700000027 0x2638 0 0x237a5000237ad,
  dm 0x2700000027 no 0x237ad000237b6 0x237b6000237bf,
  dm 0x2700000027 0x2639 0 0x18000000182,
  dm 0x2700000027 0x263a 0 0x18000000182,
  dm 0 no 0 0x18000000182,
  dm 0x2700000027 0x263d 0 0x237ca000237ce,
  dm 0x2700000027 no 0x237ce000237d3 0x237ce000237d3,
  dm 0x2700000027 no 0x237d3000237d8 0x237d3000237d8,
  dm 0x2700000027 no 0x237d8000237dc 0x237d8000237dc,
  dm 0x2700000027 0x263e 0 0x18000000182,
  dm 0x2700000027 0x263f 0 0x18000000182,
  dm 0x2700000027 0x2641 0 0x87ac000087b3,
  dm 0x2700000027 0x2642 0 0x237e3000237ed,
  dm 0x2700000027 0x2643 0 0x237ed000237f9,
  dm 0x2700000027 0x2644 0 0x237f900023800,
  dm 0x2700000027 0x2645 0 0x238000002380b,
  dm 0x2700000027 0x2646 0 0x2380b00023811,
  dm 0x2700000027 0x2647 0 0x2381100023815,
  dm 0x2700000027 0x2648 0 0x238150002381b,
  dm 0x2700000027 0x2649 0 0x2381b00023822,
  dm 0x2700000027 no 0x238220002382c 0x8d4f00008d59,
  dm 0x2700000027 no 0x2382c00023836 0x2383600023840,
  dm 0x2700000027 no 0x2384000023847 0x238470002384e,
  dm 0x2700000027 no 0x2384e0002385b 0x2384e0002385b,
  dm 0x2700000027 no 0x2385b00023862 0x2385b00023862,
  dm 0x2700000027 no 0x2386200023867 0x2386200023867,
  dm 0x2700000027 no 0x2386700023871 0x238710002387b,
  dm 0x2700000027 0x264a 0 0x2387b0002388d,
  dm 0x2700000027 no 0x2388d000238a0 0x2388d000238a0,
  dm 0x2700000027 0x264b 0 0x238a0000238ae,
  dm 0x2700000027 0x264c 0 0x238ae000238b6,
  dm 0x2700000027 0x264d 0 0x238b6000238c0,
  dm 0x2700000027 0x264e 0 0x238c0000238c9,
  dm 0x2700000027 0x264f 0 0x238c9000238d6,
  dm 0x2700000027 0x2650 0 0x238d6000238df,
  dm 0x2700000027 0x2651 0 0x238df000238e8,
  dm 0x2700000027 0x2652 0 0x238e8000238ef,
  dm 0x2700000027 0x2653 0 0x238ef000238f7,
  dm 0x2700000027 0x2654 0 0x238f700023900,
  dm 0x2700000027 0x2655 0 0x239000002390b,
  dm 0x2700000027 0x2656 0 0x2390b00023917,
  dm 0x2700000027 0x2657 0 0x100d4000100dc,
  dm 0x2a1000002a7 0x2658 0 0x2391700023922,
  dm 0x2700000027 0x2659 0 0x2392200023929,
  dm 0x2700000027 0x265a 0 0x2392900023933,
  dm 0x2700000027 no 0x2393300023939 0x2393300023939,
  dm 0x2700000027 0x265b 0 0x123bd000123c5,
  dm 0x2700000027 0x265c 0 0x61760000617d,
  dm 0x2700000027 0x265d 0 0x9af800009b03,
  dm 0xdfd00000e04 0x265e 0 0x2393900023941,
  dm 0x2a1000002a7 no 0x239410002394c 0x239410002394c,
  dm 0x2a1000002a7 0x265f 0 0x4c4300004c49,
  dm 0x2700000027 0x2660 0 0x18000000182,
  dm 0x2700000027 0x2661 0 0x18000000182,
  dm 0x2700000027 0x2662 0 0x18000000182,
  dm 0x2700000027 0x2664 0 0x18000000182,
  dm 0x2700000027 0x2665 0 0x239500002395d,
  dm 0x2700000027 0x2666 0 0x2395d0002396f,
  dm 0x2700000027 0x2667 0 0x2396f00023981,
  dm 0x2700000027 0x2668 0 0x2398100023993,
  dm 0x2700000027 no 0x239930002399b 0x2399b000239ae,
  dm 0x2700000027 0x2669 0 0x239ae000239c0,
  dm 0x2700000027 0x266a 0 0x239c0000239d2,
  dm 0x2700000027 0x266b 0 0x239d2000239e5,
  dm 0x23f00000249 0x266c 0 0x239e5000239fc,
  dm 0x23f00000249 0x266d 0 0x18000000182,
  dm 0x2700000027 no 0x23a0100023a0d 0x23a0d00023a19,
  dm 0x2700000027 no 0x23a2500023a2e 0x23a2e00023a39,
  dm 0x2700000027 no 0x23a3900023a41 0x23a4100023a49,
  dm 0 no 0 0x18000000182,
  dm 0x2700000027 0x2672 0 0x500000005006,
  dm 0x2700000027 0x2673 0 0x23a5700023a5e,
  dm 0x2700000027 no 0x23a5e00023a66 0x23a5e00023a66,
  dm 0x2700000027 no 0x23a6600023a70 0x23a6600023a70,
  dm 0x2700000027 no 0x23a7000023a79 0x23a7000023a79,
  dm 0x2700000027 no 0x23a7900023a85 0x23a8500023a91,
  dm 0x2700000027 no 0x23a9100023a9b 0x23a9100023a9b,
  dm 0x2700000027 no 0x23a9b00023aa5 0x23aa500023aaf,
  dm 0x2700000027 no 0x23aaf00023ab9 0x23ab900023ac3,
  dm 0x2700000027 no 0x23ac300023acb 0x23ac300023acb,
  dm 0x2700000027 no 0x23acb00023ad2 0x23ad200023ad9,
  dm 0x2700000027 0x2674 0 0x18000000182,
  dm 0x2700000027 no 0x23ad900023ae3 0x23ae300023aed,
  dm 0x2700000027 no 0x23aed00023af3 0x23af300023afd,
  dm 0x2700000027 no 0x23afd00023b08 0x23b0800023b13,
  dm 0x2700000027 0x2675 0 0x23b1300023b1f,
  dm 0x2a1000002a7 0x2676 0 0x23b1f00023b2a,
  dm 0 no 0 0x23b3e00023b45,
  dm 0 no 0 0x23b4b00023b52,
  dm 0x2700000027 0x267a 0 0x23b5a00023b5c,
  dm 0x2700000027 0x267b 0 0x18000000182,
  dm 0x2700000027 0x267c 0 0x18000000182,
  dm 0x2700000027 0x267d 0 0x18000000182,
  dm 0 no 0 0x18000000182,
  dm 0x2700000027 0x2680 0 0x23b7400023b7e,
  dm 0x2700000027 0x2681 0 0x18000000182,
  dm 0x2700000027 no 0x23b8a00023b93 0x23b9300023bac,
  dm 0x2700000027 no 0x23bac00023bb3 0x23bb300023bc7,
  dm 0x23b0000023d 0x2684 0 0x18000000182,
  dm 0x23b0000023d 0x2685 0 0x23bce00023bd4,
  dm 0xdfd00000e04 0x2686 0 0x23bd400023bdd,
  dm 0x23b0000023d 0x2687 0 0x18000000182,
  dm 0x23b0000023d 0x2688 0 0x2700000027,
  dm 0x23b0000023d 0x2689 0 0x23bdd00023be4,
  dm 0x23b0000023d 0x268a 0 0x23be400023bec,
  dm 0x23b0000023d 0x268b 0 0x2700000027,
  dm 0x2700000027 0x268c 0 0x23bec00023bf7,
  dm 0x8e00000099 0x268d 0 0x23bf700023bfe,
  dm 0xc9b00000ca2 no 0x23bfe00023c14 0x2700000027,
  dm 0xc9b00000ca2 0x268e 0 0x2700000027,
  dm 0x2700000027 no 0x23c1b00023c1f 0x23c1f00023c27,
  dm 0x2700000027 no 0x23c2700023c2c 0x8f8000008f84,
  dm 0x2700000027 no 0x23c2c00023c30 0x23c3000023c39,
  dm 0x2700000027 no 0x23c3900023c3d 0x23c3d00023c46,
  dm 0x2700000027 no 0x23c4600023c4a 0x23c4a00023c53,
  dm 0x2700000027 no 0x23c5300023c57 0x23c5300023c57,
  dm 0x2700000027 no 0x23c5700023c5b 0x23c5b00023c67,
  dm 0x2700000027 no 0x23c6700023c6b 0x23c6b00023c74,
  dm 0x2700000027 no 0x23c7400023c79 0x23c7900023c7d,
  dm 0x2700000027 no 0x23c7d00023c81 0x177090001770c,
  dm 0x2700000027 no 0x23c8100023c85 0x23c8500023c8c,
  dm 0x2700000027 0x2691 0 0x23c9f00023ca2,
  dm 0x2700000027 no 0x23caa00023cb5 0x23cb500023cc2,
  dm 0x2700000027 no 0x202ee000202f6 0x202f6000202ff,
  dm 0x2700000027 no 0x1143800011443 0x1143800011443,
  dm 0x2700000027 0x2694 0 0x18000000182,
  dm 0x2700000027 0x2695 0 0x18000000182,
  dm 0x2700000027 0x2696 0 0x18000000182,
  dm 0x2700000027 0x2698 0 0x23ccd00023cd5,
  dm 0x2700000027 no 0x23cd500023cd9 0x23cd500023cd9,
  dm 0x7cc000007d6 0x269a 0 0x18000000182,
  dm 0 no 0 0x18000000182,
  dm 0 no 0 0x18000000182,
  dm 0 no 0 0x18000000182,
  dm 0 no 0 0x18000000182,
  dm 0x2700000027 no 0x23cf300023cf9 0x23cf900023d00,
  dm 0x2700000027 0x26a0 0 0x18000000182,
  dm 0x2700000027 0x26a2 0 0x23d0400023d0c,
  dm 0 no 0 0x23d1a00023d23,
  dm 0 no 0 0x23d3500023d41,
  dm 0 no 0 0x18000000182,
  dm 0x2700000027 0x26a5 0 0x7c3000007c8,
  dm 0 no 0 0x18000000182,
  dm 0x2700000027 0x26a8 0 0x18000000182,
  dm 0x2700000027 no 0x23d5300023d5d 0x23d5d00023d67,
  dm 0x2700000027 0x26a9 0 0x23d6700023d6c,
  dm 0 no 0 0x18000000182,
  dm 0x2700000027 0x26ac 0 0x18000000182,
  dm 0x23b0000023d 0x26ad 0 0x7d3900007d44,
  dm 0x23b0000023d 0x26ae 0 0x18000000182,
  dm 0 no 0 0x18000000182,
  dm 0x2700000027 0x26b1 0 0x23d8000023d8b,
  dm 0x2700000027 0x26b2 0 0x189ec000189f4,
  dm 0x2700000027 0x26b3 0 0x23d8b00023d91,
  dm 0x2700000027 no 0x23d9100023d97 0x23d9100023d97,
  dm 0x2700000027 no 0x23d9700023d9e 0x23d9e00023da5,
  dm 0x2a1000002a7 no 0x23da500023dac 0x23dac00023db3,
  dm 0x2700000027 0x26b5 0 0x8a5900008a5c,
  dm 0x2700000027 0x26b6 0 0x18000000182,
  dm 0x2700000027 no 0x23dbd00023dc7 0x23dc700023dc9,
  dm 0x2700000027 0x26b9 0 0x1940000019b,
  dm 0x2700000027 0x26ba 0 0x18000000182,
  dm 0x2700000027 no 0x23dd700023ddd 0x23ddd00023de3,
  dm 0x2700000027 no 0x23de300023de8 0x23de800023deb,
  dm 0x2700000027 no 0x23deb00023df0 0x23df000023df4,
  dm 0x2700000027 no 0x23df400023df9 0x23df900023dff,
  dm 0x2700000027 0x26bc 0 0x18000000182,
  dm 0x2700000027 0x26bd 0 0x23e0400023e0c,
  dm 0x2700000027 0x26be 0 0x9ad000009ad3,
  dm 0x2700000027 0x26bf 0 0xf11d0000f125,
  dm 0 no 0 0x18000000182,
  dm 0 no 0 0x18000000182,
  dm 0x2700000027 no 0x23e2200023e2c 0x23e2c00023e36,
  dm 0x2700000027 no 0x23e3600023e40 0x23e4000023e4a,
  dm 0x2700000027 no 0x23e4a00023e53 0x23e5300023e5c,
  dm 0x2700000027 0x26c3 0 0x23e5c00023e69,
  dm 0x2700000027 no 0x23e6900023e71 0x23e7100023e79,
  dm 0 no 0 0x23e8200023e86,
  dm 0x2700000027 0x26c6 0 0x92a7000092ad,
  dm 0x2700000027 0x26c7 0 0x500000005006,
  dm 0x2700000027 0x26c8 0 0x23e8d00023e92,
  dm 0x2700000027 0x26c9 0 0x23e8200023e86,
  dm 0 no 0 0x23ea100023ea9,
  dm 0 no 0 0x18000000182,
  dm 0x2700000027 no 0x23eb200023ebc 0x23ebc00023ebd,
  dm 0 no 0 0x18000000182,
  dm 0 no 0 0x18000000182,
  dm 0 no 0 0x18000000182,
  dm 0x2700000027 0x26d0 0 0x18000000182,
  dm 0 no 0 0x23ee400023ee6,
  dm 0x2700000027 0x26d3 0 0x23eec00023ef9,
  dm 0x2700000027 0x26d4 0 0x23ef900023f05,
  dm 0x2700000027 0x26d5 0 0x23f0500023f0c,
  dm 0x2700000027 no 0x23f0c00023f13 0x23f1300023f20,
  dm 0x2700000027 0x26d7 0 0x18000000182,
  dm 0x2700000027 0x26d9 0 0x23f2d00023f3a,
  dm 0x2700000027 0x26da 0 0x18000000182,
  dm 0 no 0 0x18000000182,
  dm 0x2700000027 0x26dc 0 0x1940000019b,
  dm 0 no 0 0x18000000182,
  dm 0x2700000027 0x26df 0 0x23f5000023f5a,
  dm 0x2700000027 0x26e0 0 0x18000000182,
  dm 0 no 0 0x18000000182,
  dm 0x2700000027 0x26e3 0 0x23f6900023f7d,
  dm 0x2700000027 0x26e4 0 0x23f7d00023f8b,
  dm 0x2700000027 0x26e5 0 0x23f8b00023f90,
  dm 0x2700000027 0x26e7 0 0x23f9600023fa0,
  dm 0x2700000027 0x26e8 0 0x23fa000023fad,
  dm 0x2700000027 0x26ea 0 0x23fb400023fbf,
  dm 0x2700000027 no 0x23fbf00023fc6 0x23fc600023fd3,
  dm 0x2700000027 no 0x23fd300023fda 0x23fda00023fee,
  dm 0x2700000027 no 0x23fee00023ff7 0x23ff700024008,
  dm 0x2700000027 no 0x240080002400e 0x2400e00024018,
  dm 0x2700000027 0x26eb 0 0x2401800024022,
  dm 0x23f00000249 no 0x2402200024029 0x2402900024039,
  dm 0x2700000027 0x26ed 0 0x2403f0002404a,
  dm 0x2700000027 0x26ee 0 0x2404a00024052,
  dm 0x2700000027 no 0x2405200024058 0x2405200024058,
  dm 0x2700000027 no 0x2405800024060 0x2405800024060,
  dm 0x2700000027 no 0x2406000024066 0x2406000024066,
  dm 0x2700000027 no 0x240660002406f 0x240660002406f,
  dm 0x2700000027 no 0x2406f00024078 0x1ea500001ea7,
  dm 0x2700000027 no 0x240780002407e 0x6fb200006fb4,
  dm 0x2700000027 no 0x2407e00024085 0x114a3000114a5,
  dm 0x2700000027 0x26ef 0 0x500000005006,
  dm 0x2700000027 0x26f0 0 0x18000000182,
  dm 0x2700000027 0x26f1 0 0x18000000182,
  dm 0 no 0 0x2408c00024097,
  dm 0 no 0 0x18000000182,
  dm 0x2700000027 0x26f5 0 0x240a3000240b0,
  dm 0x2700000027 0x26f6 0 0x18000000182,
  dm 0x2700000027 0x26f7 0 0x240b0000240bb,
  dm 0x2700000027 0x26f8 0 0x240bb000240ca,
  dm 0x2700000027 0x26f9 0 0x240ca000240d4,
  dm 0x2700000027 0x26fa 0 0x240d4000240e7,
  dm 0x2700000027 0x26fb 0 0x240e7000240f6,
  dm 0x2700000027 0x26fc 0 0x240f6000240fc,
  dm 0x2700000027 0x26fd 0 0x18000000182,
  dm 0x2a1000002a7 0x26fe 0 0x18000000182,
  dm 0x2a1000002a7 0x26ff 0 0x240fc00024103,
  dm 0x2a1000002a7 0x2700 0 0x2410300024111,
  dm 0x23f00000249 0x2702 0 0x241160002411d,
  dm 0x23f00000249 no 0x2411d00024127 0x2412700024133,
  dm 0x23f00000249 no 0x241330002413d 0x2413d00024146,
  dm 0x23f00000249 no 0x2414600024150 0x241500002415c,
  dm 0x23f00000249 no 0x2415c00024166 0x2416600024174,
  dm 0x23f00000249 0x2703 0 0x2417400024183,
  dm 0x2700000027 0x2704 0 0x18000000182,
  dm 0x2700000027 0x2705 0 0x19b6600019b69,
  dm 0x2700000027 0x2706 0 0x2419300024198,
  dm 0x2700000027 0x2707 0 0x24198000241a0,
  dm 0x2700000027 0x2708 0 0x241a0000241aa,
  dm 0x2700000027 0x2709 0 0x241aa000241b2,
  dm 0x2700000027 0x270a 0 0x241b2000241bb,
  dm 0x2700000027 0x270b 0 0x1b1800001b1c,
  dm 0x2700000027 0x270c 0 0x241bb000241c3,
  dm 0x2700000027 0x270d 0 0x241c3000241cf,
  dm 0x2700000027 0x270e 0 0x241cf000241d6,
  dm 0x2700000027 0x270f 0 0x241d6000241dd,
  dm 0x2700000027 0x2710 0 0x241dd000241e5,
  dm 0x2700000027 0x2711 0 0x241e5000241ee,
  dm 0x2700000027 0x2712 0 0x3d7000003dc,
  dm 0x2700000027 0x2713 0 0x241ee000241f9,
  dm 0x2700000027 0x2714 0 0x241f900024205,
  dm 0x2700000027 0x2715 0 0x2420500024214,
  dm 0x2700000027 0x2716 0 0x242140002421f,
  dm 0x2700000027 0x2717 0 0x2421f0002422b,
  dm 0x2700000027 0x2718 0 0x2422b00024230,
  dm 0x2700000027 0x2719 0 0x2423000024238,
  dm 0x2700000027 0x271a 0 0x2423800024246,
  dm 0x2700000027 0x271b 0 0x2405200024058,
  dm 0x2700000027 no 0x2424600024253 0x2424600024253,
  dm 0x2700000027 0x271c 0 0x242530002425d,
  dm 0x2700000027 0x271d 0 0x2425d00024267,
  dm 0x2700000027 0x271e 0 0x242670002426d,
  dm 0x2700000027 0x271f 0 0x2426d00024273,
  dm 0x2700000027 0x2720 0 0x2427300024278,
  dm 0x2700000027 0x2721 0 0x242780002427e,
  dm 0x2700000027 0x2722 0 0x133e9000133ed,
  dm 0x2700000027 0x2723 0 0x14c9700014c9c,
  dm 0x2700000027 0x2724 0 0x2427e00024287,
  dm 0x2700000027 0x2725 0 0x242870002428f,
  dm 0x2700000027 0x2726 0 0x2428f00024294]

/-- `__dr_dm`, from item 13000 on (device_repo.go:15272-15771). -/
def drDm_26 : List ModelTuple := [
  dm 0x2700000027 0x2727 0 0x24294000242a2,
  dm 0x2700000027 0x2728 0 0x8f8800008f90,
  dm 0x2700000027 0x2729 0 0x8faa00008fb0,
  dm 0x2a1000002a7 0x272a 0 0x242a2000242ae,
  dm 0x2a1000002a7 0x272b 0 0x242ae000242b9,
  dm 0x2a1000002a7 0x272c 0 0x242b9000242c4,
  dm 0x2700000027 0x272d 0 0x18000000182,
  dm 0x2700000027 0x272e 0 0x18000000182,
  dm 0x2700000027 no 0x242c9000242d4 0x242d4000242e3,
  dm 0x2700000027 no 0x242e3000242f1 0x242f1000242f8,
  dm 0x2a1000002a7 no 0x242fe00024305 0x2430500024311,
  dm 0x2a1000002a7 no 0x2431100024315 0x2431500024321,
  dm 0x2a1000002a7 no 0x2432100024327 0x243270002432e,
  dm 0x2a1000002a7 no 0x2432e0002433d 0x2433d00024349,
  dm 0x2a1000002a7 no 0x2434900024359 0x2435900024366,
  dm 0x2a1000002a7 0x2731 0 0x243660002436d,
  dm 0x2a1000002a7 0x2732 0 0x243660002436d,
  dm 0x2700000027 no 0x2436d00024379 0x243790002438b,
  dm 0x2700000027 no 0x2438b00024392 0x243920002439b,
  dm 0x2700000027 no 0x2439b000243a2 0x243a2000243ac,
  dm 0x2700000027 no 0x243ac000243b3 0x243b3000243bd,
  dm 0x2700000027 no 0x243bd000243c4 0x243c4000243ce,
  dm 0x2700000027 no 0x243ce000243d5 0x243d5000243df,
  dm 0x2700000027 0x2733 0 0x243df000243ea,
  dm 0x2700000027 0x2734 0 0x243ea000243f3,
  dm 0x2700000027 0x2735 0 0x14f6300014f6b,
  dm 0x2700000027 no 0x243f300024405 0x243f300024405,
  dm 0x2700000027 0x2736 0 0x2440500024412,
  dm 0x2700000027 0x2737 0 0x244120002441b,
  dm 0x2700000027 no 0x2441b0002442b 0x2442b00024434,
  dm 0x2700000027 no 0x2443400024443 0x244430002444b,
  dm 0x2700000027 0x2738 0 0x2444b00024454,
  dm 0x2700000027 0x2739 0 0x18000000182,
  dm 0x23b0000023d 0x273a 0 0x10e9000010f6,
  dm 0x23b0000023d 0x273b 0 0x2700000027,
  dm 0x2700000027 no 0x2445900024469 0x2446900024478,
  dm 0x2700000027 0x273d 0 0x18000000182,
  dm 0 no 0 0x500000005006,
  dm 0 no 0 0x2448500024490,
  dm 0x39a000003a7 no 0x24498000244a6 0x244a6000244ab,
  dm 0x2700000027 0x2741 0 0x18000000182,
  dm 0x2a1000002a7 0x2742 0 0x244ab000244b0,
  dm 0x2700000027 0x2743 0 0x244b0000244b8,
  dm 0x2700000027 0x2744 0 0x244b8000244be,
  dm 0x2700000027 0x2745 0 0x244be000244cc,
  dm 0x2700000027 0x2746 0 0x244cc000244d5,
  dm 0x2700000027 0x2747 0 0x244d5000244de,
  dm 0x2700000027 0x2748 0 0x244de000244e9,
  dm 0x2700000027 0x2749 0 0x244e9000244f4,
  dm 0x2700000027 0x274a 0 0x244f4000244fd,
  dm 0x2700000027 0x274b 0 0x244fd00024505,
  dm 0x2700000027 0x274c 0 0x18000000182,
  dm 0x2700000027 0x274d 0 0x2450500024514,
  dm 0x2700000027 0x274e 0 0x2451400024526,
  dm 0x2700000027 0x274f 0 0x2452600024537,
  dm 0 no 0 0x18000000182,
  dm 0x23f00000249 0x2752 0 0x245460002454a,
  dm 0x23f00000249 0x2753 0 0x2454a00024551,
  dm 0x23f00000249 0x2754 0 0x245510002455d,
  dm 0x2a1000002a7 no 0x2455d00024564 0x245640002456f,
  dm 0x2a1000002a7 0x2755 0 0x2456f00024579,
  dm 0x2700000027 0x2756 0 0x18000000182,
  dm 0x2700000027 0x2757 0 0x2457900024593,
  dm 0x2700000027 0x2758 0 0x2459a000245a2,
  dm 0x2700000027 0x2759 0 0xb5c70000b5cf,
  dm 0x2700000027 0x275a 0 0x18000000182,
  dm 0x2700000027 no 0x245a7000245b1 0x245b1000245b4,
  dm 0x2700000027 no 0x245b4000245bf 0x245bf000245c2,
  dm 0x2700000027 no 0x245c2000245cd 0x245cd000245d0,
  dm 0x2700000027 no 0x245d0000245db 0x245db000245de,
  dm 0x2700000027 no 0x245de000245e9 0x245e9000245ec,
  dm 0x2700000027 no 0x245ec000245f6 0x245f6000245f9,
  dm 0x2700000027 no 0x245f900024604 0x2460400024607,
  dm 0x2700000027 0x275c 0 0x246070002460a,
  dm 0 no 0 0x18000000182,
  dm 0x2700000027 no 0x246140002461b 0x246140002461b,
  dm 0x2700000027 no 0x2461b00024627 0x246270002462c,
  dm 0x2a1000002a7 no 0x2462c00024631 0x2462c00024631,
  dm 0 no 0 0x18000000182,
  dm 0x2700000027 0x2761 0 0x183f1000183f4,
  dm 0x2700000027 0x2762 0 0x246360002463c,
  dm 0x2700000027 0x2763 0 0x2463c00024642,
  dm 0x2700000027 0x2764 0 0x4c3d00004c43,
  dm 0x2700000027 0x2766 0 0x246470002464b,
  dm 0x2a1000002a7 0x2767 0 0x18000000182,
  dm 0x2700000027 0x2769 0 0x2465c00024666,
  dm 0x2700000027 0x276a 0 0x18000000182,
  dm 0x2700000027 no 0x2467200024681 0x2468100024685,
  dm 0x2700000027 no 0x246850002468c 0x246850002468c,
  dm 0x2700000027 0x276d 0 0x24697000246aa,
  dm 0x2700000027 no 0x246aa000246b6 0x246b6000246cd,
  dm 0x2700000027 0x276e 0 0x246cd000246de,
  dm 0x2700000027 0x2770 0 0x18000000182,
  dm 0x2700000027 0x2771 0 0x18000000182,
  dm 0x2700000027 0x2772 0 0x18000000182,
  dm 0x2700000027 0x2774 0 0x246ec00024701,
  dm 0 no 0 0x18000000182,
  dm 0x2700000027 0x2777 0 0x500000005006,
  dm 0x2700000027 0x2778 0 0x2470d00024715,
  dm 0x2700000027 0x2779 0 0x247150002471c,
  dm 0x2700000027 no 0x2471c00024721 0x2471c00024721,
  dm 0x2700000027 0x277a 0 0x2472100024724,
  dm 0x2700000027 0x277b 0 0x4c4f00004c57,
  dm 0x2700000027 0x277d 0 0x2472900024733,
  dm 0x2700000027 0x277e 0 0x2473300024738,
  dm 0x2700000027 0x277f 0 0x2473800024746,
  dm 0x2700000027 0x2780 0 0x247460002474f,
  dm 0x2700000027 0x2781 0 0x2474f00024757,
  dm 0x2700000027 0x2782 0 0x247570002475e,
  dm 0x2700000027 0x2783 0 0x2475e00024764,
  dm 0x2700000027 0x2784 0 0x247640002476b,
  dm 0x2700000027 0x2785 0 0x18000000182,
  dm 0x2700000027 0x2786 0 0x2476b0002477c,
  dm 0x2700000027 0x2787 0 0x4c3d00004c43,
  dm 0x2a1000002a7 0x2788 0 0x2477c00024786,
  dm 0x2a1000002a7 0x2789 0 0x2477c00024786,
  dm 0x23b0000023d 0x278a 0 0x18000000182,
  dm 0x2a1000002a7 no 0x2478a00024790 0x1bb190001bb1c,
  dm 0x2a1000002a7 no 0x2479000024796 0x1831b00018320,
  dm 0x2a1000002a7 no 0x247960002479c 0x182fb00018304,
  dm 0x2a1000002a7 no 0x2479c000247a2 0x247a2000247a7,
  dm 0x2a1000002a7 no 0x247a7000247ad 0x182dd000182e4,
  dm 0x2a1000002a7 no 0x247ad000247b3 0x247b3000247b9,
  dm 0x2a1000002a7 no 0x247b9000247c0 0x247c0000247c8,
  dm 0x2a1000002a7 no 0x247c8000247cf 0x247cf000247db,
  dm 0x2a1000002a7 no 0x247db000247e2 0x247e2000247ef,
  dm 0x2a1000002a7 no 0x247ef000247f6 0x247f6000247ff,
  dm 0x2a1000002a7 no 0x247ff00024805 0x248050002480e,
  dm 0xdfd00000e04 0x278c 0 0x2480e00024814,
  dm 0xdfd00000e04 no 0x248140002481a 0x2481a00024820,
  dm 0xdfd00000e04 no 0x2482000024826 0x248260002482c,
  dm 0xdfd00000e04 no 0x2482c00024832 0x248320002483a,
  dm 0xdfd00000e04 0x278d 0 0x2483a00024842,
  dm 0xdfd00000e04 no 0x2484200024847 0x2484700024853,
  dm 0xdfd00000e04 no 0x2485300024859 0x2485900024860,
  dm 0x2700000027 0x278e 0 0x18000000182,
  dm 0x2700000027 no 0x2486000024866 0x10fa900010fab,
  dm 0x2700000027 no 0x248660002486c 0x2486c00024870,
  dm 0x2700000027 no 0x2487000024876 0x248760002487e,
  dm 0x2700000027 no 0x2487e00024883 0x248830002488a,
  dm 0x2700000027 no 0x2488a0002488f 0x2488f00024893,
  dm 0x2700000027 no 0x2489300024898 0x24898000248a3,
  dm 0x2700000027 0x278f 0 0x248a3000248ab,
  dm 0x2700000027 0x2790 0 0x248ab000248b5,
  dm 0x2700000027 0x2791 0 0x248b5000248b9,
  dm 0x2700000027 no 0x248b9000248bf 0x248bf000248c7,
  dm 0x2700000027 0x2792 0 0x248c7000248d1,
  dm 0x2700000027 no 0x248d1000248d6 0x248d6000248dd,
  dm 0x2700000027 0x2793 0 0x248dd000248e5,
  dm 0x2700000027 no 0x248e5000248eb 0x248eb000248f8,
  dm 0x2700000027 0x2794 0 0x248f8000248fc,
  dm 0x2700000027 no 0x248fc00024902 0x2490200024907,
  dm 0x2700000027 no 0x249070002490e 0x2490e00024917,
  dm 0x2700000027 no 0x249170002491d 0x2491d00024922,
  dm 0x2700000027 0x2795 0 0x2492200024929,
  dm 0x2700000027 no 0x2492900024930 0x2493000024937,
  dm 0x2700000027 no 0x249370002493d 0x2493d00024942,
  dm 0x2700000027 0x2796 0 0x249420002494a,
  dm 0x2700000027 no 0x2494a00024951 0x2495100024959,
  dm 0x2700000027 0x2797 0 0x249590002495d,
  dm 0x2700000027 0x2798 0 0x2495d00024963,
  dm 0x2700000027 0x2799 0 0x2496300024969,
  dm 0x2700000027 0x279a 0 0x2496900024972,
  dm 0x2700000027 0x279b 0 0x249720002497c,
  dm 0x2700000027 0x279c 0 0x2497c00024983,
  dm 0x2700000027 no 0x2498300024989 0x2498900024994,
  dm 0x2700000027 no 0x249940002499a 0x2499a000249a1,
  dm 0x2700000027 0x279d 0 0x249a1000249a8,
  dm 0x2700000027 no 0x249a8000249ae 0x249ae000249b6,
  dm 0x2700000027 no 0x249b6000249bc 0x249bc000249c7,
  dm 0x2700000027 0x279e 0 0x249c7000249ce,
  dm 0x2700000027 no 0x249ce000249d4 0x249d4000249df,
  dm 0x2700000027 0x279f 0 0x249df000249e6,
  dm 0x2700000027 no 0x249e6000249ec 0x249ec000249f3,
  dm 0x2700000027 0x27a0 0 0x249f3000249fc,
  dm 0x2700000027 0x27a1 0 0x249fc00024a03,
  dm 0x2700000027 no 0x24a0300024a0a 0x24a0a00024a12,
  dm 0x2700000027 no 0x24a1200024a1f 0x24a1200024a1f,
  dm 0x2700000027 no 0x24a1f00024a2b 0x24a1f00024a2b,
  dm 0x2700000027 0x27a2 0 0x24a2b00024a31,
  dm 0x2700000027 0x27a3 0 0x24a3100024a3c,
  dm 0x2700000027 no 0x24a3c00024a41 0x24a4100024a4d,
  dm 0x2700000027 no 0x24a4d00024a52 0x24a5200024a56,
  dm 0x2700000027 no 0x24a5600024a5c 0x24a5c00024a6b,
  dm 0x2700000027 no 0x24a6b00024a71 0x24a7100024a81,
  dm 0x2700000027 no 0x24a8100024a87 0x24a8700024a91,
  dm 0x2700000027 0x27a4 0 0x24a9100024a9b,
  dm 0x2700000027 no 0x24a9b00024aa1 0x24aa100024aba,
  dm 0x2700000027 no 0x24aba00024abf 0x24abf00024acd,
  dm 0x2700000027 no 0x24acd00024ad3 0x24ad300024ae0,
  dm 0x2700000027 no 0x24ae000024ae6 0x24ae600024af4,
  dm 0x2700000027 0x27a5 0 0x24af400024b02,
  dm 0x2700000027 no 0x24b0200024b08 0x24b0800024b12,
  dm 0x2700000027 no 0x24b1200024b19 0x24b1900024b28,
  dm 0x2700000027 no 0x24b2800024b2e 0x24b2e00024b3e,
  dm 0x2700000027 no 0x24b3e00024b44 0x24b4400024b51,
  dm 0x2700000027 0x27a6 0 0x24b5100024b5c,
  dm 0x2700000027 0x27a7 0 0x24b5c00024b65,
  dm 0x2700000027 0x27a8 0 0x24b6500024b6d,
  dm 0x2700000027 0x27a9 0 0x24b6d00024b78,
  dm 0x2700000027 0x27aa 0 0x24b7800024b80,
  dm 0x2700000027 0x27ab 0 0x24b8000024b8a,
  dm 0x2700000027 0x27ac 0 0x24b8a00024b96,
  dm 0x2700000027 no 0x24b9600024b9c 0x24b9c00024ba6,
  dm 0x2700000027 0x27ad 0 0x24ba600024bb5,
  dm 0x2700000027 0x27ae 0 0x24bb500024bbf,
  dm 0x2700000027 0x27af 0 0x24bbf00024bcc,
  dm 0x2700000027 0x27b0 0 0x24bcc00024bd3,
  dm 0x2700000027 0x27b1 0 0x24bd300024bdb,
  dm 0x2700000027 0x27b2 0 0x24bdb00024be6,
  dm 0x2700000027 no 0x24be600024bec 0x24bec00024bf5,
  dm 0x2700000027 no 0x24bf500024bfa 0x24bfa00024c06,
  dm 0x2700000027 0x27b3 0 0x24c0600024c12,
  dm 0x2700000027 no 0x24c1200024c17 0x24c1700024c22,
  dm 0x2700000027 no 0x24c2200024c28 0x24c2800024c36,
  dm 0x2700000027 no 0x24c3600024c3c 0x24c3c00024c4b,
  dm 0x2700000027 no 0x24c4b00024c50 0x24c5000024c5d,
  dm 0x2700000027 no 0x24c5d00024c62 0x24c6200024c72,
  dm 0x2700000027 no 0x24c7200024c78 0x24c7800024c8a,
  dm 0x2700000027 0x27b4 0 0x24c8a00024c91,
  dm 0x2700000027 no 0x24c9100024c98 0x24c9100024c98,
  dm 0x2700000027 0x27b5 0 0x24c9800024ca0,
  dm 0x2700000027 no 0x24ca000024ca6 0x24ca600024cb1,
  dm 0x2700000027 0x27b6 0 0x24cb100024cbb,
  dm 0x2700000027 0x27b7 0 0x24cbb00024cc2,
  dm 0x2700000027 0x27b8 0 0x24cc200024cc9,
  dm 0x2700000027 no 0x24cc900024cd0 0x24cd000024cd8,
  dm 0x2700000027 0x27b9 0 0x24cd800024ce3,
  dm 0x2700000027 0x27ba 0 0x24ce300024cef,
  dm 0x2700000027 no 0x24cef00024cf5 0x24cf500024cfc,
  dm 0x2700000027 no 0x24cfc00024d03 0x24d0300024d0b,
  dm 0x2700000027 0x27bb 0 0x24d0b00024d15,
  dm 0x2700000027 0x27bc 0 0x24d1500024d23,
  dm 0x2700000027 no 0x24d2300024d29 0x24d2900024d31,
  dm 0x2700000027 0x27bd 0 0x24d3100024d3c,
  dm 0x2700000027 0x27be 0 0x24d3c00024d47,
  dm 0x2700000027 no 0x24d4700024d4d 0x24d4d00024d54,
  dm 0x2700000027 no 0x24d5400024d5a 0x24d5a00024d62,
  dm 0x2700000027 no 0x24d6200024d68 0x24d6800024d6f,
  dm 0x2700000027 0x27bf 0 0x24d6f00024d79,
  dm 0x2700000027 no 0x24d7900024d80 0x24d8000024d97,
  dm 0x2700000027 no 0x24d9700024d9d 0x24d9d00024daa,
  dm 0x2700000027 no 0x24daa00024db0 0x24db000024dbe,
  dm 0x2700000027 0x27c0 0 0x24dbe00024dc9,
  dm 0x2700000027 no 0x24dc900024dce 0x24dce00024dd9,
  dm 0x2700000027 no 0x24dd900024dde 0x24dde00024ded,
  dm 0x2700000027 no 0x24ded00024df2 0x24df200024e01,
  dm 0x2700000027 0x27c1 0 0x24e0100024e08,
  dm 0x2700000027 0x27c2 0 0x24e0800024e10,
  dm 0x2700000027 0x27c3 0 0x24e1000024e17,
  dm 0x2700000027 no 0x24e1700024e1d 0x24e1d00024e25,
  dm 0x2700000027 0x27c4 0 0x24e2500024e30,
  dm 0x2700000027 0x27c5 0 0x24e3000024e3a,
  dm 0x2700000027 0x27c6 0 0x24e3a00024e40,
  dm 0x2700000027 0x27c7 0 0x24e4000024e4a,
  dm 0x2700000027 0x27c8 0 0x24e4a00024e50,
  dm 0x2700000027 0x27c9 0 0x24e5000024e54,
  dm 0x2700000027 0x27ca 0 0x24e5400024e5d,
  dm 0x2700000027 0x27cb 0 0x1130b0001130e,
  dm 0x2700000027 0x27cc 0 0x24e5d00024e60,
  dm 0x2700000027 0x27cd 0 0x24e6000024e66,
  dm 0x2700000027 0x27ce 0 0x24e6600024e6a,
  dm 0x2700000027 0x27cf 0 0x24e6a00024e71,
  dm 0x2700000027 0x27d0 0 0x24e7100024e7b,
  dm 0x2700000027 0x27d1 0 0x24e7b00024e7e,
  dm 0x2700000027 0x27d2 0 0x24e7e00024e81,
  dm 0x2700000027 0x27d3 0 0x24e8100024e84,
  dm 0x2700000027 0x27d4 0 0x24e8400024e89,
  dm 0x2700000027 0x27d5 0 0x24e8900024e91,
  dm 0x2700000027 0x27d6 0 0x24e9100024e97,
  dm 0x2700000027 0x27d7 0 0x24e9700024e9c,
  dm 0x2700000027 0x27d8 0 0x24e9c00024ea5,
  dm 0x2700000027 0x27d9 0 0x24ea500024eaa,
  dm 0x2700000027 0x27da 0 0x24e8100024e84,
  dm 0x2700000027 0x27db 0 0x24eaa00024eba,
  dm 0x2700000027 0x27dc 0 0xb8a50000b8a8,
  dm 0x2700000027 no 0x24eba00024ec0 0x24ec000024ec4,
  dm 0x2700000027 no 0x24ec400024ecb 0x24ecb00024ed3,
  dm 0x2700000027 0x27dd 0 0x24ed300024ed8,
  dm 0x2700000027 no 0x24ed800024edd 0x24edd00024ee6,
  dm 0x2700000027 no 0x24ee600024eeb 0x24eeb00024ef0,
  dm 0x2700000027 no 0x24ef000024ef5 0x24ef500024ef8,
  dm 0x2700000027 no 0x24ef800024efe 0x24efe00024f01,
  dm 0x2700000027 0x27de 0 0x24f0100024f07,
  dm 0x2700000027 0x27df 0 0x2051e00020520,
  dm 0x2700000027 no 0x24f0700024f0c 0x24f0c00024f11,
  dm 0x2700000027 no 0x24f1100024f16 0x24f1600024f1f,
  dm 0x2700000027 no 0x24f1f00024f24 0x24f0c00024f11,
  dm 0x2700000027 no 0x24f2400024f29 0x24f2900024f31,
  dm 0x2700000027 no 0x24f3100024f36 0x24f3600024f3f,
  dm 0x2700000027 no 0x24f3f00024f44 0x24f4400024f49,
  dm 0x2700000027 0x27e0 0 0x24f4900024f53,
  dm 0x2700000027 0x27e1 0 0x24f5300024f59,
  dm 0x2700000027 no 0x24f5900024f5e 0x24f5e00024f64,
  dm 0x2700000027 no 0x24f6400024f69 0x24f6900024f6f,
  dm 0x2700000027 no 0x24f6f00024f74 0x24f7400024f7a,
  dm 0x2700000027 no 0x24f7a00024f7f 0x24f7f00024f84,
  dm 0x2700000027 no 0x24f8400024f89 0x24f8900024f93,
  dm 0x2700000027 no 0x24f9300024f9a 0x24f9a00024f9f,
  dm 0x2700000027 0x27e2 0 0x24f9f00024fa2,
  dm 0x2700000027 no 0x24fa200024fa8 0x24fa800024faf,
  dm 0x2700000027 no 0x24faf00024fb5 0x24fb500024fbc,
  dm 0x2700000027 no 0x24fbc00024fc2 0x24fc200024fc5,
  dm 0x2700000027 no 0x24fc500024fcb 0x24fcb00024fce,
  dm 0x2700000027 0x27e3 0 0x1e3400001e36,
  dm 0x2700000027 0x27e4 0 0x4d8400004d8a,
  dm 0x2700000027 no 0x24fce00024fd4 0x11af200011af5,
  dm 0x2700000027 no 0x24fd400024fda 0x183f1000183f4,
  dm 0x2700000027 no 0x24fda00024fe0 0x24fe000024fe7,
  dm 0x2700000027 no 0x24fe700024fed 0x171a8000171ab,
  dm 0x2700000027 no 0x24fed00024ff3 0x24ff300024fff,
  dm 0x2700000027 0x27e5 0 0x24fff00025002,
  dm 0x2700000027 no 0x2500200025007 0x250070002500b,
  dm 0x2700000027 no 0x2500b00025011 0x2501100025018,
  dm 0x2700000027 0x27e6 0 0x250180002501c,
  dm 0x2700000027 no 0x2501c00025021 0x2502100025028,
  dm 0x2700000027 no 0x250280002502d 0x2502d00025033,
  dm 0x2700000027 no 0x2503300025039 0x250390002503d,
  dm 0x2700000027 no 0x2503d00025042 0x250420002504c,
  dm 0x2700000027 no 0x2504c00025051 0x2505100025057,
  dm 0x2700000027 0x27e7 0 0x250570002505b,
  dm 0x2700000027 no 0x2505b00025061 0x2506100025067,
  dm 0x2700000027 no 0x250670002506e 0x2506e00025072,
  dm 0x2700000027 0x27e8 0 0x2507200025078,
  dm 0x2700000027 no 0x250780002507d 0x2507d00025084,
  dm 0x2700000027 no 0x2508400025089 0x250890002508d,
  dm 0x2700000027 0x27e9 0 0x2508d00025090,
  dm 0x2700000027 no 0x2509000025095 0x2509500025098,
  dm 0x2700000027 no 0x250980002509d 0x2509d000250a4,
  dm 0x2700000027 no 0x250a4000250a9 0x250a9000250ad,
  dm 0x2700000027 no 0x250ad000250b3 0x250b3000250bd,
  dm 0x2700000027 no 0x250bd000250c2 0x250c2000250c9,
  dm 0x2700000027 no 0x250c9000250ce 0x250ce000250d4,
  dm 0x2700000027 no 0x250d4000250d9 0x250d9000250e0,
  dm 0x2700000027 no 0x250e0000250e5 0x250e5000250ec,
  dm 0x2700000027 0x27ea 0 0x250ec000250ef,
  dm 0x2700000027 0x27eb 0 0x250ef000250f2,
  dm 0x2700000027 no 0x250f2000250f7 0x250f7000250fd,
  dm 0x2700000027 no 0x250fd00025102 0x2510200025109,
  dm 0x2700000027 no 0x251090002510e 0x2510e00025115,
  dm 0x2700000027 0x27ec 0 0x2511500025120,
  dm 0x2700000027 0x27ed 0 0x1168e00011691,
  dm 0x2700000027 no 0x2512000025125 0x251250002512d,
  dm 0x2700000027 no 0x2512d00025133 0x2513300025137,
  dm 0x2700000027 0x27ee 0 0x251370002513d,
  dm 0x2700000027 0x27ef 0 0x2513d00025148,
  dm 0x2700000027 0x27f0 0 0x251480002514c,
  dm 0x2700000027 0x27f1 0 0x2514c00025154,
  dm 0x2700000027 no 0x2515400025159 0x23de800023deb,
  dm 0x2700000027 no 0x251590002515e 0x86c4000086cb,
  dm 0x2700000027 0x27f2 0 0x2515e00025162,
  dm 0x2700000027 0x27f3 0 0x2516200025165,
  dm 0x2700000027 no 0x251650002516a 0x2516a0002516e,
  dm 0x2700000027 0x27f4 0 0x2516e00025176,
  dm 0x2700000027 0x27f5 0 0x2517600025181,
  dm 0x2700000027 no 0x2518100025186 0x87170000871e,
  dm 0x2700000027 no 0x251860002518b 0x2518b0002518f,
  dm 0x2700000027 no 0x2518f00025194 0x4d2200004d25,
  dm 0x2700000027 no 0x2519400025199 0x25199000251a1,
  dm 0x2700000027 no 0x251a1000251a6 0x251a6000251b1,
  dm 0x2700000027 0x27f6 0 0xaf3b0000af3d,
  dm 0x2700000027 no 0x251b1000251b7 0x251b7000251be,
  dm 0x2700000027 0x27f7 0 0x251be000251c3,
  dm 0x2700000027 0x27f8 0 0x251c3000251c9,
  dm 0x2700000027 no 0x251c9000251cf 0x251cf000251d3,
  dm 0x2700000027 no 0x251d3000251d9 0x251d9000251dc,
  dm 0x2700000027 no 0x251dc000251e2 0x251e2000251e9,
  dm 0x2700000027 no 0x251e9000251ef 0x251ef000251f3,
  dm 0x2700000027 0x27f9 0 0x210c7000210c9,
  dm 0x2700000027 no 0x251f3000251f9 0xc4140000c417,
  dm 0x2700000027 no 0x251f9000251ff 0x251ff00025203,
  dm 0x2700000027 no 0x2520300025209 0x252090002520d,
  dm 0x2700000027 no 0x2520d00025213 0x252130002521a,
  dm 0x2700000027 0x27fa 0 0x2521a0002521d,
  dm 0x2700000027 0x27fb 0 0x2521d00025220,
  dm 0x2700000027 0x27fc 0 0x2522000025226,
  dm 0x2700000027 0x27fd 0 0x252260002522f,
  dm 0x2700000027 0x27fe 0 0x2522f00025232,
  dm 0x2700000027 0x27ff 0 0x1c3300001c35,
  dm 0x2700000027 0x2800 0 0x2523200025235,
  dm 0x2700000027 0x2801 0 0x252350002523c,
  dm 0x2700000027 0x2802 0 0x2523c00025240,
  dm 0x2700000027 0x2803 0 0x2524000025243,
  dm 0x2700000027 0x2804 0 0x252430002524a,
  dm 0x2700000027 0x2805 0 0x2524a00025251,
  dm 0x2700000027 0x2806 0 0x2525100025258,
  dm 0x2700000027 0x2807 0 0x252580002525b,
  dm 0x2700000027 0x2808 0 0x4d8400004d8a,
  dm 0x2700000027 0x2809 0 0x2525b0002525e,
  dm 0x2700000027 0x280a 0 0x23df900023dff,
  dm 0x2700000027 0x280b 0 0x879e000087a5,
  dm 0x2700000027 0x280c 0 0x2525e00025260,
  dm 0x2700000027 0x280d 0 0x2526000025267,
  dm 0x2700000027 0x280e 0 0x252670002526e,
  dm 0x2700000027 0x280f 0 0x2526e00025271,
  dm 0x2700000027 0x2810 0 0x1202300012025,
  dm 0x2700000027 0x2811 0 0x2527100025275,
  dm 0x2700000027 0x2812 0 0x252750002527c,
  dm 0x2700000027 0x2813 0 0x2527c0002527e,
  dm 0x2700000027 0x2814 0 0x2527e00025286,
  dm 0x2700000027 0x2815 0 0x252860002528c,
  dm 0x2700000027 0x2816 0 0x2528c00025292,
  dm 0x2700000027 0x2817 0 0x252920002529a,
  dm 0x2700000027 0x2818 0 0x2529a0002529d,
  dm 0x2700000027 0x2819 0 0x2529d000252a0,
  dm 0x2700000027 0x281a 0 0x252a0000252a7,
  dm 0x2700000027 no 0x252a7000252ae 0x252ae000252b2,
  dm 0x2700000027 0x281b 0 0x252b2000252b8,
  dm 0x2700000027 0x281c 0 0x252b8000252c3,
  dm 0x2700000027 0x281d 0 0xb44f0000b452,
  dm 0x2700000027 0x281e 0 0x252c3000252cb,
  dm 0x2700000027 0x281f 0 0x252cb000252cf,
  dm 0x2700000027 0x2820 0 0x252cf000252d5,
  dm 0x2700000027 0x2821 0 0x252d5000252d8,
  dm 0x2700000027 0x2822 0 0x252d8000252dc,
  dm 0x2700000027 0x2823 0 0x252dc000252df,
  dm 0x2700000027 0x2824 0 0x252dc000252df,
  dm 0x2700000027 0x2825 0 0x252df000252e2,
  dm 0x2700000027 0x2826 0 0x252e2000252e9,
  dm 0x2700000027 0x2827 0 0x252e9000252ec,
  dm 0x2700000027 0x2828 0 0x252ec000252f3,
  dm 0x2700000027 0x2829 0 0xc87e0000c881,
  dm 0x2700000027 0x282a 0 0x252f3000252f7,
  dm 0x2700000027 0x282b 0 0x1ba1b0001ba21,
  dm 0x2700000027 0x282c 0 0x252f7000252ff,
  dm 0x2700000027 0x282d 0 0x1ba280001ba2f,
  dm 0x2700000027 0x282e 0 0x252ff0002530b,
  dm 0x2700000027 0x282f 0 0xc6e90000c6ec,
  dm 0x2700000027 0x2830 0 0x2530b0002530f,
  dm 0x2700000027 0x2831 0 0xc6ec0000c6f3,
  dm 0x2700000027 0x2832 0 0x2530f0002531b,
  dm 0x2700000027 0x2833 0 0x2531b00025322,
  dm 0x2700000027 0x2834 0 0x253220002532a,
  dm 0x2700000027 0x2835 0 0xc4dd0000c4e0,
  dm 0x2700000027 0x2836 0 0x2532a00025330,
  dm 0x2700000027 0x2837 0 0x2533000025333,
  dm 0x2700000027 no 0x2533300025339 0x252a0000252a7,
  dm 0x2700000027 no 0x253390002533f 0x2533f00025347,
  dm 0x2700000027 0x2838 0 0x253470002534e,
  dm 0x2700000027 0x2839 0 0x2534e00025359,
  dm 0x2700000027 0x283a 0 0xb5c70000b5cf,
  dm 0x2700000027 0x283b 0 0x2535900025361,
  dm 0x2700000027 0x283c 0 0x2536100025364,
  dm 0x2700000027 0x283d 0 0x2536400025367,
  dm 0x2700000027 0x283e 0 0x253670002536b,
  dm 0x2700000027 0x283f 0 0x2536b0002536e,
  dm 0x2700000027 0x2840 0 0x2536e00025372,
  dm 0x2700000027 no 0x2537200025377 0x253770002537b,
  dm 0x2700000027 no 0x2537b00025380 0x2538000025384,
  dm 0x2700000027 no 0x2538400025389 0x253890002538d,
  dm 0x2700000027 0x2841 0 0x2538d00025390,
  dm 0x2700000027 0x2842 0 0x4d6700004d6a,
  dm 0x2700000027 no 0x2539000025396 0x2539600025399,
  dm 0x2700000027 no 0x253990002539f 0x2539f000253a5,
  dm 0x2700000027 no 0x253a5000253ab 0x253ab000253b2,
  dm 0x2700000027 0x2843 0 0x251480002514c,
  dm 0x2700000027 no 0x253b2000253b7 0x2051700020519,
  dm 0x2700000027 no 0x253b7000253bc 0x253bc000253bf,
  dm 0x2700000027 0x2844 0 0x253bf000253c3,
  dm 0x2700000027 0x2845 0 0x253c3000253c7,
  dm 0x2700000027 0x2846 0 0x253c7000253cb,
  dm 0x2700000027 0x2847 0 0x253cb000253ce,
  dm 0x2700000027 0x2848 0 0x253ce000253d2,
  dm 0x2700000027 0x2849 0 0x253d2000253d5,
  dm 0x2700000027 0x284a 0 0x253d5000253d9,
  dm 0x2700000027 0x284b 0 0x253d9000253dc,
  dm 0x2700000027 no 0x253dc000253e2 0x253e2000253e9,
  dm 0x2700000027 0x284c 0 0x253e9000253ed,
  dm 0x2700000027 0x284d 0 0x253ed000253f1,
  dm 0x2700000027 0x284e 0 0x253f1000253f4,
  dm 0x2700000027 no 0x253f4000253f9 0x253f9000253fd,
  dm 0x2700000027 0x284f 0 0x253fd00025401,
  dm 0x2700000027 0x2850 0 0x2540100025405,
  dm 0x2700000027 0x2851 0 0x2540500025408,
  dm 0x2700000027 no 0x254080002540d 0x2540d00025413,
  dm 0x2700000027 0x2852 0 0x2541300025417,
  dm 0x2700000027 0x2853 0 0x254170002541f,
  dm 0x2700000027 no 0x2541f00025424 0x2542400025428,
  dm 0x2700000027 0x2854 0 0x254280002542c,
  dm 0x2700000027 0x2855 0 0x2542c0002542f,
  dm 0x2700000027 0x2856 0 0x2542f00025432,
  dm 0x2700000027 no 0x2543200025437 0x254370002543a,
  dm 0x2700000027 no 0x2543a0002543f 0x2543f00025443,
  dm 0x2700000027 no 0x2544300025448 0x254480002544e,
  dm 0x2700000027 0x2857 0 0x2544e00025452,
  dm 0x2700000027 0x2858 0 0x1189500011898,
  dm 0x2700000027 0x2859 0 0x254520002545c,
  dm 0x2700000027 0x285a 0 0x2545c00025460,
  dm 0x2700000027 0x285b 0 0x2546000025464,
  dm 0x2700000027 0x285c 0 0x2546400025468,
  dm 0x2700000027 0x285d 0 0x2546800025473,
  dm 0x2700000027 0x285e 0 0x2547300025477,
  dm 0x2700000027 0x285f 0 0x254770002547b,
  dm 0x2700000027 0x2860 0 0x254520002545c,
  dm 0x2700000027 no 0x2547b00025481 0x2548100025486,
  dm 0x2700000027 no 0x254860002548c 0x2548c0002548f,
  dm 0x2700000027 no 0x2548f00025495 0x2549500025499,
  dm 0x2700000027 0x2861 0 0x254990002549f,
  dm 0x2700000027 no 0x2549f000254a5 0x254a5000254ac,
  dm 0x2700000027 no 0x254ac000254b2 0x254b2000254b9]

/-- `__dr_dm`, from item 13500 on (device_repo.go:15772-16271). -/
def drDm_27 : List ModelTuple := [
  dm 0x2700000027 no 0x254b9000254be 0x254be000254c1,
  dm 0x2700000027 no 0x254c1000254c7 0x254c7000254ca,
  dm 0x2700000027 no 0x254ca000254cf 0x254cf000254d5,
  dm 0x2700000027 0x2862 0 0x254280002542c,
  dm 0x2700000027 no 0x254d5000254da 0x254da000254de,
  dm 0x2700000027 no 0x254de000254e3 0x254e3000254e7,
  dm 0x2700000027 0x2863 0 0x254e7000254eb,
  dm 0x2700000027 0x2864 0 0x254eb000254ee,
  dm 0x2700000027 0x2865 0 0x254ee000254f2,
  dm 0x2700000027 0x2866 0 0x254f2000254f6,
  dm 0x2700000027 0x2867 0 0x254f6000254fa,
  dm 0x2700000027 0x2868 0 0x23df900023dff,
  dm 0x2700000027 0x2869 0 0x254fa000254fc,
  dm 0x2700000027 no 0x254fc00025501 0x2550100025504,
  dm 0x2700000027 no 0x255040002550a 0x2550a00025515,
  dm 0x2700000027 no 0x255150002551c 0x2551c00025521,
  dm 0x2700000027 no 0x2552100025527 0x255270002552b,
  dm 0x2700000027 no 0x2552b00025530 0x2553000025537,
  dm 0x2700000027 no 0x255370002553d 0x2553d00025548,
  dm 0x2700000027 no 0x255480002554e 0x2554e00025557,
  dm 0x2700000027 no 0x255570002555d 0x2555d00025562,
  dm 0x2700000027 no 0x2556200025567 0x2556700025573,
  dm 0x2700000027 0x286a 0 0x2557300025576,
  dm 0x2700000027 0x286b 0 0x255760002557c,
  dm 0x2700000027 0x286c 0 0x2557c00025586,
  dm 0x2700000027 0x286d 0 0x255860002558a,
  dm 0x2700000027 0x286e 0 0x2558a0002558d,
  dm 0x2700000027 no 0x2558d00025592 0x255920002559c,
  dm 0x2700000027 0x286f 0 0x2559c000255a0,
  dm 0x2700000027 no 0x255a0000255a5 0x255a5000255ab,
  dm 0x2700000027 no 0x2558d00025592 0x255920002559c,
  dm 0x2700000027 no 0x255ab000255b1 0x4d9000004d93,
  dm 0x2700000027 0x2870 0 0x1baba0001babd,
  dm 0x2700000027 no 0x255b1000255b6 0x255b6000255bd,
  dm 0x2700000027 no 0x255bd000255c3 0x255c3000255c7,
  dm 0x2700000027 0x2871 0 0x255c7000255ca,
  dm 0x2700000027 0x2872 0 0x255ca000255ce,
  dm 0x2700000027 0x2873 0 0x255ce000255d2,
  dm 0x2700000027 0x2874 0 0x255d2000255dd,
  dm 0x2700000027 0x2875 0 0x255dd000255e0,
  dm 0x2700000027 0x2876 0 0x255e0000255e3,
  dm 0x2700000027 0x2877 0 0x255e3000255e9,
  dm 0x2700000027 0x2878 0 0x255e9000255ef,
  dm 0x2700000027 0x2879 0 0x255ef000255f2,
  dm 0x2700000027 0x287a 0 0x16a3500016a38,
  dm 0x2700000027 0x287b 0 0x255f2000255f6,
  dm 0x2700000027 0x287c 0 0x255f6000255f9,
  dm 0x2700000027 0x287d 0 0x255f9000255ff,
  dm 0x2700000027 0x287e 0 0x255ff00025609,
  dm 0x2700000027 0x287f 0 0x256090002560d,
  dm 0x2700000027 0x2880 0 0x2560d00025611,
  dm 0x2700000027 0x2881 0 0x2559c000255a0,
  dm 0x2700000027 0x2882 0 0x2561100025615,
  dm 0x2700000027 0x2883 0 0x2561500025618,
  dm 0x2700000027 0x2884 0 0x256180002561c,
  dm 0x2700000027 0x2885 0 0x2561c0002561f,
  dm 0x2700000027 0x2886 0 0x2561f00025623,
  dm 0x2700000027 no 0x2562300025629 0x2562900025630,
  dm 0x2700000027 0x2887 0 0x2563000025634,
  dm 0x2700000027 0x2888 0 0x2563400025638,
  dm 0x2700000027 0x2889 0 0x2563800025643,
  dm 0x2700000027 no 0x256430002564a 0x2564a00025651,
  dm 0x2700000027 no 0x2565100025656 0x256560002565c,
  dm 0x2700000027 no 0x2565c00025661 0x2566100025664,
  dm 0x2700000027 no 0x256640002566a 0x2566a0002566e,
  dm 0x2700000027 0x288a 0 0x2566e00025674,
  dm 0x2700000027 no 0x2567400025679 0x256790002567f,
  dm 0x2700000027 0x288b 0 0x2567f00025682,
  dm 0x2700000027 0x288c 0 0x2568200025685,
  dm 0x2700000027 0x288d 0 0x2568500025689,
  dm 0x2700000027 0x288e 0 0x1ba280001ba2f,
  dm 0x2700000027 0x288f 0 0x256890002568c,
  dm 0x2700000027 0x2890 0 0x2568c00025690,
  dm 0x2700000027 0x2891 0 0x2569000025694,
  dm 0x2700000027 0x2892 0 0x2569400025697,
  dm 0x2700000027 0x2893 0 0x25697000256a1,
  dm 0x2700000027 0x2894 0 0x256a1000256a5,
  dm 0x2700000027 0x2895 0 0x256a5000256ab,
  dm 0x2700000027 0x2896 0 0x256ab000256af,
  dm 0x2700000027 0x2897 0 0x256af000256b2,
  dm 0x2700000027 0x2898 0 0x256b2000256b5,
  dm 0x2700000027 0x2899 0 0x256b5000256b9,
  dm 0x2700000027 0x289a 0 0x256b9000256bd,
  dm 0x2700000027 0x289b 0 0x256bd000256c0,
  dm 0x2700000027 0x289c 0 0x256c0000256c7,
  dm 0x2700000027 0x289d 0 0x256c7000256ca,
  dm 0x2700000027 0x289e 0 0x256ca000256cd,
  dm 0x2700000027 0x289f 0 0x256cd000256d0,
  dm 0x2700000027 0x28a0 0 0x256d0000256d4,
  dm 0x2700000027 0x28a1 0 0x256d4000256d7,
  dm 0x2700000027 0x28a2 0 0x256d7000256db,
  dm 0x2700000027 0x28a3 0 0x256db000256e6,
  dm 0x2700000027 0x28a4 0 0x256d0000256d4,
  dm 0x2700000027 0x28a5 0 0x256e6000256e9,
  dm 0x2700000027 0x28a6 0 0x256e9000256ed,
  dm 0x2700000027 0x28a7 0 0x256ed000256f0,
  dm 0x2700000027 0x28a8 0 0x256f0000256f3,
  dm 0x2700000027 0x28a9 0 0x256f3000256f5,
  dm 0x2700000027 0x28aa 0 0x256f5000256fb,
  dm 0x2700000027 0x28ab 0 0x256fb000256fe,
  dm 0x2700000027 0x28ac 0 0x256fe00025701,
  dm 0x2700000027 0x28ad 0 0x11ff200011ff4,
  dm 0x2700000027 0x28ae 0 0x2570100025704,
  dm 0x2700000027 0x28af 0 0x12bfe00012c00,
  dm 0x2700000027 0x28b0 0 0x2570400025707,
  dm 0x2700000027 0x28b1 0 0x2570700025711,
  dm 0x2700000027 0x28b2 0 0x1200700012009,
  dm 0x2700000027 0x28b3 0 0x2571100025717,
  dm 0x2700000027 0x28b4 0 0x257170002571b,
  dm 0x2700000027 0x28b5 0 0x2571b00025721,
  dm 0x2700000027 0x28b6 0 0x2572100025729,
  dm 0x2700000027 0x28b7 0 0x257290002572c,
  dm 0x2700000027 0x28b8 0 0x2ac600002ac9,
  dm 0x2700000027 0x28b9 0 0x252b2000252b8,
  dm 0x2700000027 0x28ba 0 0x2572c00025730,
  dm 0x2700000027 0x28bb 0 0x4b4a00004b4d,
  dm 0x2700000027 0x28bc 0 0x257300002573a,
  dm 0x2700000027 0x28bd 0 0x2573a00025743,
  dm 0x2700000027 0x28be 0 0x18000000182,
  dm 0x2700000027 0x28bf 0 0x18000000182,
  dm 0x2700000027 0x28c0 0 0x18000000182,
  dm 0x2700000027 no 0x257480002574e 0x257480002574e,
  dm 0x2700000027 no 0x2574e00025755 0x2574e00025755,
  dm 0x2700000027 no 0x257550002575c 0x257550002575c,
  dm 0x2700000027 0x28c2 0 0x18000000182,
  dm 0x2700000027 0x28c3 0 0x18000000182,
  dm 0x2700000027 0x28c4 0 0x18000000182,
  dm 0x2a1000002a7 0x28c5 0 0x18000000182,
  dm 0x2700000027 0x28c7 0 0x257610002576a,
  dm 0x2700000027 0x28c8 0 0x2576a00025776,
  dm 0x23f00000249 no 0x2577d0002578c 0x2577d0002578c,
  dm 0x2700000027 0x28ca 0 0x18000000182,
  dm 0x2700000027 no 0x257940002579b 0x2579b000257a5,
  dm 0x2700000027 no 0x257a5000257b4 0x257b4000257ba,
  dm 0x2700000027 no 0x257ba000257c0 0x257c0000257c8,
  dm 0x2700000027 no 0x257c8000257cd 0x257cd000257d8,
  dm 0x2700000027 no 0x257d8000257dd 0x257dd000257ea,
  dm 0x2700000027 no 0x257ea000257f1 0x257f1000257fe,
  dm 0x2700000027 no 0x257fe00025805 0x2580500025811,
  dm 0x2700000027 no 0x2581100025818 0x2581800025829,
  dm 0x2700000027 0x28cc 0 0x2582900025836,
  dm 0x2700000027 0x28cd 0 0x258360002583e,
  dm 0x2700000027 0x28ce 0 0x2583e00025846,
  dm 0x2700000027 no 0x258460002584d 0x2584d00025855,
  dm 0x2700000027 no 0x258550002585c 0x2585c00025869,
  dm 0x2700000027 no 0x258690002586f 0x2586f00025877,
  dm 0x2700000027 no 0x258770002587e 0x2584d00025855,
  dm 0x2700000027 no 0x2587e00025885 0x258850002588d,
  dm 0x2700000027 no 0x2588d00025894 0x258940002589d,
  dm 0x2700000027 no 0x2589d000258a4 0x258a4000258b1,
  dm 0x2700000027 no 0x258b1000258be 0x258be000258cb,
  dm 0x2700000027 no 0x258cb000258d2 0x258d2000258df,
  dm 0x2700000027 no 0x258df000258e6 0x258e6000258ee,
  dm 0x2700000027 no 0x258ee000258f5 0x257c0000257c8,
  dm 0x2700000027 no 0x258f5000258fc 0x258fc00025905,
  dm 0x2700000027 no 0x259050002590d 0x2590d00025916,
  dm 0x2700000027 no 0x259160002591d 0x2591d0002592d,
  dm 0x2700000027 0x28cf 0 0x2579b000257a5,
  dm 0x2700000027 0x28d0 0 0xf58b0000f592,
  dm 0x2700000027 0x28d1 0 0x2592d00025939,
  dm 0x2700000027 0x28d2 0 0x2593900025941,
  dm 0x2700000027 0x28d3 0 0x259410002594e,
  dm 0x2700000027 0x28d4 0 0x2594e0002595b,
  dm 0x2700000027 no 0x2595b0002596c 0x2596c00025976,
  dm 0x2700000027 no 0x259760002597c 0x2597c00025989,
  dm 0x2700000027 no 0x259890002598f 0x2598f0002599c,
  dm 0x2700000027 no 0x2599c000259a3 0x259a3000259b0,
  dm 0x2a1000002a7 no 0x259b0000259b7 0x259b7000259c2,
  dm 0x2a1000002a7 no 0x259c2000259c9 0x259c9000259d4,
  dm 0x2a1000002a7 no 0x259d4000259dc 0x259dc000259e6,
  dm 0x2a1000002a7 no 0x259e6000259ee 0x259ee000259fa,
  dm 0x2a1000002a7 no 0x259fa00025a02 0x25a0200025a0d,
  dm 0x2a1000002a7 0x28d5 0 0x25a0d00025a19,
  dm 0x2a1000002a7 0x28d6 0 0x25a1900025a25,
  dm 0x2a1000002a7 0x28d7 0 0x25a2500025a30,
  dm 0x2a1000002a7 0x28d8 0 0x21b0d00021b18,
  dm 0x2a1000002a7 0x28d9 0 0x25a3000025a3c,
  dm 0x2a1000002a7 0x28da 0 0x25a3c00025a4a,
  dm 0x2a1000002a7 0x28db 0 0x25a4a00025a59,
  dm 0x2a1000002a7 0x28dc 0 0x25a5900025a68,
  dm 0x2a1000002a7 0x28dd 0 0x25a6800025a78,
  dm 0x23b0000023d 0x28de 0 0x1064500010647,
  dm 0x23b0000023d no 0x25a7800025a7e 0x25a7e00025a85,
  dm 0x2700000027 0x28df 0 0x25a8500025a8b,
  dm 0x2700000027 0x28e0 0 0x18000000182,
  dm 0x2700000027 0x28e1 0 0x18000000182,
  dm 0x2700000027 0x28e2 0 0x89ab000089b3,
  dm 0 no 0 0x18000000182,
  dm 0x2700000027 0x28e5 0 0x25aa100025aa7,
  dm 0x2700000027 0x28e6 0 0x25aa700025aae,
  dm 0x2700000027 0x28e7 0 0x25aae00025ab7,
  dm 0x2700000027 0x28e8 0 0x25ab700025abd,
  dm 0x2700000027 0x28e9 0 0x25abd00025ac3,
  dm 0x2700000027 0x28ea 0 0x25ac300025aca,
  dm 0x2700000027 0x28eb 0 0x25aca00025ad1,
  dm 0x2700000027 0x28ec 0 0x25ad100025ad8,
  dm 0x2700000027 0x28ed 0 0x25ad800025ade,
  dm 0x2700000027 0x28ee 0 0x25ade00025ae6,
  dm 0x2700000027 0x28ef 0 0x25ae600025aec,
  dm 0x2700000027 0x28f0 0 0x25aec00025af4,
  dm 0x2a1000002a7 no 0x25af400025afd 0x25afd00025b06,
  dm 0x2a1000002a7 0x28f1 0 0x14e8b00014e92,
  dm 0x2a1000002a7 0x28f2 0 0x25b0600025b16,
  dm 0x2a1000002a7 0x28f3 0 0x25b1600025b1f,
  dm 0x2a1000002a7 0x28f4 0 0x25b1f00025b28,
  dm 0x2a1000002a7 0x28f5 0 0x25b2800025b30,
  dm 0x2a1000002a7 0x28f6 0 0x25b3000025b41,
  dm 0x2a1000002a7 0x28f7 0 0x25b4100025b4e,
  dm 0x2a1000002a7 0x28f8 0 0x25b4e00025b57,
  dm 0x2a1000002a7 0x28f9 0 0x25b5700025b5e,
  dm 0x2a1000002a7 0x28fa 0 0x927d00009284,
  dm 0x2a1000002a7 no 0x25b5e00025b65 0x25b6500025b6c,
  dm 0x2a1000002a7 no 0x25b6c00025b75 0x25b7500025b7e,
  dm 0x2a1000002a7 no 0x25b7e00025b87 0x25b7e00025b87,
  dm 0x2a1000002a7 0x28fb 0 0x25b8700025b8e,
  dm 0xbf670000bf7c 0x28fc 0 0x25b8e00025b99,
  dm 0x2700000027 0x28fe 0 0x25b9f00025ba3,
  dm 0x2700000027 0x28ff 0 0x18000000182,
  dm 0x2700000027 0x2900 0 0x25ba300025baa,
  dm 0x2700000027 0x2901 0 0x25baa00025bb0,
  dm 0x2700000027 0x2902 0 0x25bb000025bbd,
  dm 0x2700000027 0x2903 0 0x25bbd00025bc5,
  dm 0x2700000027 0x2904 0 0x25bc500025bcd,
  dm 0x2700000027 0x2905 0 0x25bcd00025bd4,
  dm 0x2700000027 no 0x25bda00025be2 0x25bda00025be2,
  dm 0x2a1000002a7 0x2907 0 0x18000000182,
  dm 0x2700000027 no 0x25be800025bf5 0x25bf500025c03,
  dm 0x2700000027 no 0x25c0300025c08 0x25c0800025c0e,
  dm 0x2700000027 no 0x25c0e00025c18 0x25c1800025c22,
  dm 0x2700000027 no 0x25c2200025c2c 0x25c2c00025c37,
  dm 0x2700000027 no 0x25c3700025c40 0x25c4000025c4a,
  dm 0x2700000027 no 0x25c4a00025c52 0x25c5200025c5b,
  dm 0 no 0 0x18000000182,
  dm 0 no 0 0x252b2000252b8,
  dm 0x2700000027 no 0x25c6600025c6e 0x25c6600025c6e,
  dm 0x2700000027 0x290c 0 0x25c6e00025c79,
  dm 0x2700000027 0x290d 0 0x25c7900025c83,
  dm 0x2700000027 0x290e 0 0x25c8300025c8e,
  dm 0x2700000027 0x290f 0 0x25c8e00025c97,
  dm 0x2700000027 0x2910 0 0x18000000182,
  dm 0x2a1000002a7 0x2911 0 0x18000000182,
  dm 0x2a1000002a7 no 0x25c9700025c9f 0x25c9f00025ca7,
  dm 0x2a1000002a7 no 0x25ca700025cad 0x25cad00025cb5,
  dm 0x2a1000002a7 no 0x25cb500025cbb 0x25cbb00025cc3,
  dm 0x23b0000023d 0x2912 0 0x18000000182,
  dm 0x2700000027 0x2914 0 0x18000000182,
  dm 0x2700000027 0x2915 0 0x18000000182,
  dm 0x2700000027 0x2916 0 0x18000000182,
  dm 0 no 0 0x18000000182,
  dm 0x2700000027 0x2919 0 0x25cd100025cd7,
  dm 0x2700000027 0x291a 0 0x136470001364c,
  dm 0x2700000027 0x291b 0 0x18000000182,
  dm 0x2700000027 0x291d 0 0x25cdd00025ce8,
  dm 0x2700000027 0x291e 0 0x25ce800025cee,
  dm 0x2700000027 0x291f 0 0x25cee00025cfb,
  dm 0x2700000027 0x2920 0 0x25cfb00025d00,
  dm 0x2700000027 no 0x25d0000025d08 0x25d0000025d08,
  dm 0x2700000027 0x2921 0 0x193bd000193c0,
  dm 0x2700000027 0x2922 0 0x25d0800025d0f,
  dm 0x2700000027 0x2923 0 0x25d0f00025d18,
  dm 0x2700000027 0x2924 0 0x25d1800025d1e,
  dm 0x2700000027 no 0x25d1e00025d26 0x25d1e00025d26,
  dm 0x2700000027 no 0x25d2600025d2a 0x25d2600025d2a,
  dm 0x2700000027 0x2926 0 0x25d2e00025d36,
  dm 0x2700000027 0x2927 0 0x25d3600025d40,
  dm 0x2700000027 no 0x25d4000025d4d 0x25d4d00025d5a,
  dm 0x2700000027 no 0x25d5a00025d63 0x25d6300025d6c,
  dm 0x2700000027 no 0x25d6c00025d76 0x25d7600025d80,
  dm 0x2700000027 no 0x25d8000025d8a 0x25d8000025d8a,
  dm 0x2700000027 0x2928 0 0x25d8a00025d97,
  dm 0x2700000027 0x2929 0 0xf2870000f28b,
  dm 0x2700000027 0x292a 0 0xc3830000c388,
  dm 0x2700000027 0x292b 0 0x18000000182,
  dm 0 no 0 0x18000000182,
  dm 0x2700000027 0x292e 0 0x18000000182,
  dm 0x2700000027 0x292f 0 0x25da000025da9,
  dm 0x2700000027 0x2930 0 0x25da900025db2,
  dm 0x2a1000002a7 0x2932 0 0x25db900025dc2,
  dm 0x2a1000002a7 no 0x25dc500025dcf 0x25dc500025dcf,
  dm 0x2a1000002a7 0x2934 0 0x25dcf00025dd8,
  dm 0x2a1000002a7 0x2935 0 0x25dd800025de2,
  dm 0x2a1000002a7 no 0x25de200025dec 0x25de200025dec,
  dm 0x2a1000002a7 0x2936 0 0x25dec00025df0,
  dm 0x2700000027 no 0x25df000025df8 0x25df800025e01,
  dm 0 no 0 0x18000000182,
  dm 0x2700000027 0x2939 0 0x18000000182,
  dm 0x2700000027 0x293a 0 0x18000000182,
  dm 0 no 0 0x18000000182,
  dm 0 no 0 0x25e0f00025e1e,
  dm 0 no 0 0xcea40000cea7,
  dm 0 no 0 0x18000000182,
  dm 0 no 0 0x18000000182,
  dm 0x2a1000002a7 0x2942 0 0x25e3a00025e49,
  dm 0x2700000027 no 0x25e4900025e5a 0x25e5a00025e6b,
  dm 0x2700000027 no 0x25e6b00025e78 0x25e7800025e85,
  dm 0x2700000027 0x2943 0 0x25e8500025e91,
  dm 0x2700000027 0x2944 0 0x25e9100025e9e,
  dm 0x2700000027 0x2945 0 0x25e9e00025eac,
  dm 0x2700000027 0x2946 0 0x25eac00025eb4,
  dm 0x2700000027 0x2947 0 0x25eb400025ebd,
  dm 0x2700000027 0x2948 0 0x25ebd00025ec6,
  dm 0x2700000027 no 0x25ec600025ecf 0x25ecf00025ed8,
  dm 0x2700000027 no 0x25ed800025ee1 0x25ee100025eea,
  dm 0x2700000027 no 0x25eea00025ef7 0x25ef700025f04,
  dm 0x2700000027 0x2949 0 0x25f0400025f0c,
  dm 0x2700000027 0x294a 0 0x18000000182,
  dm 0x23b0000023d no 0x25f0c00025f1e 0x8a0100008a0c,
  dm 0x2700000027 0x294b 0 0x25f1e00025f2b,
  dm 0x2700000027 0x294c 0 0x138e8000138f0,
  dm 0x2700000027 0x294d 0 0x18000000182,
  dm 0 no 0 0x25f3200025f3b,
  dm 0 no 0 0x1166300011666,
  dm 0 no 0 0x25f4900025f51,
  dm 0 no 0 0x18000000182,
  dm 0x2700000027 0x2953 0 0x18000000182,
  dm 0x2700000027 no 0x25f6600025f70 0x25f7000025f77,
  dm 0x2700000027 no 0x25f7d00025f85 0x25f8500025f8d,
  dm 0x2700000027 no 0x25f8d00025f99 0x25f9900025f9f,
  dm 0 no 0 0x18000000182,
  dm 0x2700000027 no 0x25fb500025fc1 0x25fc100025fd0,
  dm 0 no 0 0x18000000182,
  dm 0x2700000027 0x295a 0 0x18000000182,
  dm 0x23f00000249 0x295c 0 0x25fe500025fec,
  dm 0x23f00000249 0x295d 0 0x25fec00025ff3,
  dm 0x23f00000249 0x295e 0 0x25ff300025ff8,
  dm 0x23f00000249 0x295f 0 0x25ff800026002,
  dm 0x2700000027 0x2960 0 0x2600200026009,
  dm 0x2700000027 0x2961 0 0x2600900026014,
  dm 0x2700000027 0x2962 0 0x18000000182,
  dm 0x2700000027 0x2963 0 0x18000000182,
  dm 0x2700000027 0x2964 0 0x18000000182,
  dm 0 no 0 0x18000000182,
  dm 0 no 0 0x18000000182,
  dm 0x2700000027 0x2968 0 0x18000000182,
  dm 0x2700000027 0x2969 0 0x18000000182,
  dm 0x2700000027 no 0x2602800026030 0x2603000026042,
  dm 0x2700000027 no 0x260420002604a 0x2604a00026059,
  dm 0x2700000027 no 0x2605900026061 0x2606100026070,
  dm 0x2700000027 no 0x2607000026078 0x2607800026086,
  dm 0x2700000027 no 0x260860002608e 0x2608e000260a0,
  dm 0x2700000027 no 0x260a0000260a8 0x21f1800021f1b,
  dm 0x2700000027 no 0x260a8000260b0 0x260b0000260bf,
  dm 0x2700000027 0x296b 0 0x260bf000260c1,
  dm 0x2700000027 0x296c 0 0x3f8100003f83,
  dm 0x2700000027 0x296d 0 0x260c1000260c5,
  dm 0x2700000027 0x296e 0 0x260c5000260ce,
  dm 0x2700000027 0x296f 0 0x260ce000260d7,
  dm 0x2700000027 0x2970 0 0x260d7000260e0,
  dm 0x2700000027 0x2971 0 0x260e0000260eb,
  dm 0x2700000027 0x2972 0 0x260eb000260f1,
  dm 0x2700000027 0x2973 0 0x260f1000260f8,
  dm 0x2700000027 0x2974 0 0x260f800026104,
  dm 0x2700000027 0x2975 0 0x2610400026110,
  dm 0x2700000027 0x2976 0 0x2611000026119,
  dm 0x2700000027 0x2977 0 0x2611900026123,
  dm 0x2700000027 0x2978 0 0x2612300026127,
  dm 0x2700000027 0x2979 0 0x261270002612c,
  dm 0x2700000027 0x297a 0 0x2612c00026134,
  dm 0x2700000027 0x297b 0 0x2613400026140,
  dm 0x2700000027 0x297c 0 0x2614000026148,
  dm 0x2700000027 0x297d 0 0x261480002614d,
  dm 0x2700000027 no 0x2614d00026159 0x2615900026165,
  dm 0x2700000027 0x297e 0 0x261650002616f,
  dm 0x2700000027 0x297f 0 0x5fcb00005fd2,
  dm 0x2700000027 0x2980 0 0x2616f00026177,
  dm 0x2700000027 0x2981 0 0x261770002617f,
  dm 0x2700000027 0x2982 0 0x2617f00026187,
  dm 0x2700000027 0x2983 0 0x2618700026190,
  dm 0x2700000027 0x2984 0 0x2619000026196,
  dm 0x2700000027 0x2985 0 0x261960002619a,
  dm 0x2700000027 0x2986 0 0x2619a0002619f,
  dm 0x2700000027 0x2987 0 0x2619f000261a4,
  dm 0x2700000027 0x2988 0 0x261a4000261ab,
  dm 0x2700000027 0x2989 0 0x261ab000261b0,
  dm 0x2700000027 0x298a 0 0x261b0000261b5,
  dm 0x2700000027 no 0x261b5000261be 0x261be000261c7,
  dm 0x2700000027 no 0x261c7000261cd 0x261cd000261d4,
  dm 0x2700000027 no 0x261d4000261de 0x261de000261e5,
  dm 0x2700000027 0x298b 0 0x261e5000261ec,
  dm 0x2700000027 0x298c 0 0x261ec000261f1,
  dm 0x2700000027 0x298d 0 0x261f1000261f8,
  dm 0x2700000027 0x298e 0 0x261f8000261fd,
  dm 0x2700000027 0x298f 0 0x261fd00026200,
  dm 0x2700000027 0x2990 0 0x2620000026206,
  dm 0x2700000027 0x2991 0 0x262060002620a,
  dm 0x2700000027 no 0x2620a00026210 0x2621000026217,
  dm 0x2700000027 0x2992 0 0x2468100024685,
  dm 0x2700000027 0x2993 0 0x214ae000214b4,
  dm 0x2700000027 0x2994 0 0x262170002621d,
  dm 0x2700000027 0x2995 0 0x261f8000261fd,
  dm 0x2700000027 0x2996 0 0x2621d00026228,
  dm 0x2700000027 0x2997 0 0x2622800026234,
  dm 0x2700000027 0x2998 0 0x262340002623c,
  dm 0x2700000027 0x2999 0 0x2623c00026241,
  dm 0x2700000027 0x299a 0 0x2624100026248,
  dm 0x2700000027 0x299b 0 0x262480002624d,
  dm 0x2700000027 0x299c 0 0x2624d00026255,
  dm 0x2700000027 0x299d 0 0x262550002625b,
  dm 0x2700000027 0x299e 0 0x2625b00026267,
  dm 0x2700000027 0x299f 0 0x262670002626e,
  dm 0x2700000027 no 0x2626e00026274 0x2627400026280,
  dm 0x2700000027 0x29a0 0 0x262800002628c,
  dm 0x2700000027 0x29a1 0 0x2628c00026293,
  dm 0x2700000027 no 0x262930002629c 0x2629c000262a8,
  dm 0x2700000027 no 0x262a8000262b2 0x262b2000262b9,
  dm 0x2700000027 no 0x262b9000262c3 0x262c3000262ca,
  dm 0x2700000027 0x29a2 0 0x262ca000262d6,
  dm 0x2700000027 0x29a3 0 0x215f9000215fe,
  dm 0x2700000027 0x29a4 0 0x262d6000262dd,
  dm 0x2700000027 0x29a5 0 0x262dd000262e9,
  dm 0x2700000027 0x29a6 0 0x262e9000262f0,
  dm 0x2700000027 0x29a7 0 0x262f0000262f5,
  dm 0x2700000027 0x29a8 0 0x262f5000262f8,
  dm 0x2700000027 0x29a9 0 0x262f8000262fd,
  dm 0x2700000027 no 0x262fd00026303 0x263030002630a,
  dm 0x2700000027 0x29aa 0 0x2630a00026312,
  dm 0x2700000027 0x29ab 0 0x2631200026315,
  dm 0x2700000027 0x29ac 0 0x2631500026320,
  dm 0x2700000027 0x29ad 0 0x2632000026328,
  dm 0x2700000027 0x29ae 0 0x263280002632f,
  dm 0x2700000027 0x29af 0 0x2632f00026333,
  dm 0x2700000027 0x29b0 0 0x263330002633a,
  dm 0x2700000027 0x29b1 0 0x2633a00026346,
  dm 0x2700000027 0x29b2 0 0x263460002634d,
  dm 0x2700000027 0x29b3 0 0x2634d00026358,
  dm 0x2700000027 0x29b4 0 0x2635800026364,
  dm 0x2700000027 0x29b5 0 0x263640002636a,
  dm 0x2700000027 no 0x2636a00026371 0x263710002637b,
  dm 0x2700000027 0x29b6 0 0x2637b00026384,
  dm 0x2700000027 0x29b7 0 0x263840002638f,
  dm 0x2700000027 0x29b8 0 0x2638f00026396,
  dm 0x2700000027 0x29b9 0 0x26396000263a0,
  dm 0x2700000027 no 0x263a0000263a5 0x263a5000263ae,
  dm 0x2700000027 no 0x263ae000263b7 0x263b7000263bb,
  dm 0x2700000027 no 0x263bb000263c1 0x56150000561b,
  dm 0x2700000027 no 0x263c1000263c7 0x263c7000263d1,
  dm 0x2700000027 no 0x263d1000263d7 0x9ce900009cf1,
  dm 0x2700000027 0x29ba 0 0x263d7000263de,
  dm 0x2700000027 0x29bb 0 0x263de000263e9,
  dm 0x2700000027 no 0x263e9000263ef 0x562c00005632,
  dm 0x2700000027 no 0x263ef000263f9 0x263f900026404,
  dm 0x2700000027 0x29bc 0 0x16a3500016a38,
  dm 0x2700000027 no 0x264040002640e 0x16a3500016a38,
  dm 0x2700000027 no 0x2640e00026414 0x255f6000255f9,
  dm 0x2700000027 no 0x264140002641a 0x2561500025618,
  dm 0x2700000027 0x29bd 0 0x2641a0002641d,
  dm 0x2700000027 0x29be 0 0x2641d00026420,
  dm 0x2700000027 0x29bf 0 0x2642000026428,
  dm 0x2700000027 no 0x264280002642e 0x2642e00026431,
  dm 0x2700000027 0x29c0 0 0x2643100026434,
  dm 0x2700000027 no 0x264340002643a 0x256b2000256b5,
  dm 0x2700000027 no 0x2643a00026440 0x2644000026443,
  dm 0x2700000027 0x29c1 0 0x56380000563e,
  dm 0x2700000027 0x29c2 0 0x264430002644d,
  dm 0x2700000027 0x29c3 0 0x562100005627,
  dm 0x2700000027 0x29c4 0 0x2644d00026458,
  dm 0x2700000027 no 0x2645800026462 0x260c5000260ce,
  dm 0x2700000027 0x29c5 0 0x2646200026466,
  dm 0x2700000027 0x29c6 0 0x264660002646c,
  dm 0x2700000027 0x29c7 0 0x2646c00026472,
  dm 0x2700000027 0x29c8 0 0x2647200026478,
  dm 0x2700000027 0x29c9 0 0x18000000182,
  dm 0 no 0 0x18000000182,
  dm 0x2700000027 0x29cc 0 0x264870002648e,
  dm 0x2700000027 0x29cd 0 0x42d00000430,
  dm 0x2700000027 no 0x2648e0002649e 0x2649e000264a5,
  dm 0x2700000027 0x29ce 0 0x264a5000264af,
  dm 0x2700000027 0x29cf 0 0x264af000264b6,
  dm 0x2700000027 no 0x264b6000264bf 0x58e00000593,
  dm 0x2700000027 0x29d0 0 0x18000000182,
  dm 0x2700000027 0x29d1 0 0x18000000182,
  dm 0x2700000027 no 0x264c4000264d0 0x264d0000264dc,
  dm 0x23b0000023d no 0x264e0000264ec 0x264ec000264f8,
  dm 0x23b0000023d 0x29d4 0 0x1af900001af96,
  dm 0x23b0000023d no 0x264f800026504 0x265040002650c,
  dm 0x2700000027 0x29d5 0 0x18000000182,
  dm 0x2a1000002a7 0x29d6 0 0x18000000182,
  dm 0x2700000027 no 0x2651200026519 0x2651900026521,
  dm 0x2700000027 no 0x265210002652a 0x2652a00026533,
  dm 0x2700000027 0x29d8 0 0x18000000182,
  dm 0x2a1000002a7 0x29d9 0 0x18000000182,
  dm 0x39a000003a7 0x29da 0 0x18000000182,
  dm 0x2700000027 0x29dc 0 0x2653a00026541,
  dm 0x2700000027 0x29dd 0 0x2654100026544,
  dm 0x2700000027 0x29de 0 0x18000000182,
  dm 0x23f00000249 0x29df 0 0x18000000182,
  dm 0x23f00000249 0x29e0 0 0x18000000182,
  dm 0x2700000027 0x29e2 0 0xaf3b0000af3d,
  dm 0 no 0 0x2655300026557,
  dm 0 no 0 0x18000000182,
  dm 0 no 0 0x18000000182,
  dm 0x2700000027 0x29e6 0 0x2656c00026579,
  dm 0x2700000027 0x29e7 0 0x2657900026581,
  dm 0x2700000027 0x29e8 0 0x2657900026581,
  dm 0x2700000027 0x29e9 0 0x265810002658b,
  dm 0x2a1000002a7 0x29ea 0 0x2658b0002659c,
  dm 0x2a1000002a7 0x29eb 0 0x2659c000265a4,
  dm 0 no 0 0x265ac000265b3,
  dm 0x2700000027 no 0x265b8000265bd 0x265bd000265c6,
  dm 0x2700000027 no 0x265c6000265cb 0x265cb000265d2]

/-- `__dr_dm`, from item 14000 on (device_repo.go:16272-16771). -/
def drDm_28 : List ModelTuple := [
  dm 0x2700000027 no 0x265d2000265d7 0x265d7000265dc,
  dm 0x2700000027 no 0x265dc000265e5 0x265e5000265ef,
  dm 0x2700000027 no 0x265ef000265f4 0x265f4000265f9,
  dm 0x2700000027 no 0x265f9000265fe 0x265fe00026604,
  dm 0 no 0 0x18000000182,
  dm 0x2700000027 no 0x2660b0002661a 0x2661a00026621,
  dm 0x2700000027 no 0x2662100026630 0x266300002663b,
  dm 0x2700000027 0x29f1 0 0x266410002664a,
  dm 0x2700000027 0x29f2 0 0x2664a0002664f,
  dm 0x2700000027 0x29f3 0 0x6b6d00006b72,
  dm 0x23f00000249 0x29f4 0 0x2664f00026657,
  dm 0x2700000027 0x29f5 0 0x18000000182,
  dm 0 no 0 0x2665c00026663,
  dm 0 no 0 0x18000000182,
  dm 0x2700000027 0x29f9 0 0xbea40000bea6,
  dm 0x2700000027 no 0x2666f00026675 0x266750002667c,
  dm 0x2700000027 no 0x2667c00026682 0x266820002668c,
  dm 0x2a1000002a7 no 0x26692000266a2 0x266a2000266ac,
  dm 0x2a1000002a7 no 0x266ac000266b8 0x266b8000266be,
  dm 0x2a1000002a7 0x29fb 0 0x266be000266c6,
  dm 0x2a1000002a7 0x29fc 0 0x266c6000266d1,
  dm 0x2a1000002a7 0x29fd 0 0x266d1000266db,
  dm 0x2a1000002a7 0x29fe 0 0x266db000266e5,
  dm 0x2a1000002a7 0x29ff 0 0x266e5000266f0,
  dm 0x2a1000002a7 0x2a00 0 0x266f0000266fc,
  dm 0x2a1000002a7 no 0x266fc0002670b 0x2670b00026714,
  dm 0x2a1000002a7 no 0x267140002671d 0x2671d00026727,
  dm 0x2700000027 no 0x267270002672d 0x2672d00026734,
  dm 0x2700000027 0x2a01 0 0x267340002673b,
  dm 0x2700000027 0x2a02 0 0x2525b0002525e,
  dm 0x2700000027 no 0x2673b00026744 0x267440002674b,
  dm 0x2700000027 0x2a03 0 0x2674b00026752,
  dm 0x2700000027 0x2a04 0 0x267520002675b,
  dm 0x2700000027 no 0x2675b00026769 0x2676900026777,
  dm 0x2700000027 0x2a05 0 0x267770002677f,
  dm 0x2700000027 0x2a06 0 0x18000000182,
  dm 0x2700000027 0x2a08 0 0x267850002678c,
  dm 0x2a1000002a7 no 0x2678c00026796 0x26796000267a0,
  dm 0x2a1000002a7 no 0x267a0000267af 0x267af000267be,
  dm 0x2a1000002a7 no 0x267be000267c9 0x267c9000267d4,
  dm 0x2a1000002a7 no 0x267d4000267e5 0x267e5000267f6,
  dm 0x2a1000002a7 no 0x267f600026802 0x2700000027,
  dm 0x2a1000002a7 no 0x2680200026814 0x2681400026829,
  dm 0x2a1000002a7 0x2a09 0 0x18000000182,
  dm 0 no 0 0x268340002683a,
  dm 0x2700000027 0x2a0b 0 0x2683d00026843,
  dm 0x2700000027 no 0x2684300026854 0x2685400026862,
  dm 0x2700000027 0x2a0c 0 0x268620002686d,
  dm 0x2700000027 no 0x2686d00026878 0x2687800026880,
  dm 0x2700000027 no 0x2688000026888 0x268880002688b,
  dm 0x2700000027 no 0x2688b00026897 0x26897000268a0,
  dm 0x2700000027 no 0x268a0000268aa 0x268aa000268b1,
  dm 0 no 0 0x18000000182,
  dm 0x2700000027 0x2a10 0 0x18000000182,
  dm 0x2700000027 0x2a11 0 0x268bb000268c1,
  dm 0 no 0 0x18000000182,
  dm 0x2700000027 0x2a14 0 0x18000000182,
  dm 0x2700000027 no 0x268d3000268d8 0x268d8000268e3,
  dm 0x2700000027 no 0x268e3000268eb 0x268e3000268eb,
  dm 0 no 0 0x268f000026901,
  dm 0x2700000027 no 0x269060002690b 0x2690b00026913,
  dm 0 no 0 0x18000000182,
  dm 0 no 0 0x18000000182,
  dm 0 no 0 0x18000000182,
  dm 0x2700000027 0x2a1c 0 0x2536400025367,
  dm 0x2700000027 0x2a1d 0 0x2540500025408,
  dm 0x2a1000002a7 no 0x2692c00026933 0x2693300026936,
  dm 0x2a1000002a7 no 0x269360002693c 0x2693c00026943,
  dm 0x2a1000002a7 0x2a1e 0 0x2694300026946,
  dm 0x23b0000023d 0x2a1f 0 0x2683a0002683d,
  dm 0 no 0 0x18000000182,
  dm 0x2700000027 0x2a22 0 0x2695600026967,
  dm 0x2700000027 0x2a23 0 0x5f1a00005f20,
  dm 0x2700000027 0x2a24 0 0x18000000182,
  dm 0x2700000027 0x2a25 0 0x18000000182,
  dm 0x2700000027 0x2a26 0 0x2696700026976,
  dm 0x2700000027 0x2a27 0 0x269760002697e,
  dm 0x2700000027 0x2a28 0 0x2697e0002698f,
  dm 0x2700000027 0x2a29 0 0x2698f0002699c,
  dm 0x2700000027 0x2a2a 0 0x2699c000269a7,
  dm 0x2700000027 0x2a2c 0 0x269ad000269b8,
  dm 0x2700000027 no 0x269b8000269be 0x269be000269ce,
  dm 0x2700000027 0x2a2d 0 0x269ce000269db,
  dm 0x2700000027 0x2a2e 0 0x269db000269ec,
  dm 0x2700000027 0x2a2f 0 0x269ec000269f9,
  dm 0x2700000027 0x2a30 0 0x269f900026a0a,
  dm 0x2700000027 0x2a31 0 0x26a0a00026a1a,
  dm 0x2700000027 0x2a32 0 0x26a1a00026a2e,
  dm 0x2700000027 0x2a33 0 0x26a2e00026a3f,
  dm 0x2700000027 0x2a34 0 0x26a3f00026a4c,
  dm 0x2700000027 0x2a35 0 0x26a4c00026a59,
  dm 0x2700000027 0x2a36 0 0x26a5900026a6a,
  dm 0x2700000027 0x2a37 0 0x26a6a00026a78,
  dm 0x2700000027 0x2a38 0 0x26a7800026a81,
  dm 0x2700000027 0x2a39 0 0x26a8100026a8a,
  dm 0x2700000027 0x2a3a 0 0x26a8a00026a90,
  dm 0x2700000027 0x2a3b 0 0x26a9000026a9b,
  dm 0x2700000027 0x2a3c 0 0x26a9b00026aa3,
  dm 0x2700000027 0x2a3d 0 0x26aa300026aae,
  dm 0x2700000027 0x2a3e 0 0x26aae00026ab7,
  dm 0x2700000027 0x2a3f 0 0x26ab700026abe,
  dm 0x2700000027 0x2a40 0 0x26abe00026ac5,
  dm 0x2700000027 0x2a41 0 0x26ac500026ace,
  dm 0x2700000027 0x2a42 0 0x26ace00026ad2,
  dm 0x2700000027 0x2a43 0 0x26ad200026ada,
  dm 0x2700000027 no 0x26ada00026af4 0x26af400026b0f,
  dm 0x2700000027 0x2a44 0 0x26b0f00026b1a,
  dm 0x2700000027 0x2a45 0 0x26b1a00026b21,
  dm 0x2700000027 0x2a46 0 0x26b2100026b26,
  dm 0x2700000027 0x2a47 0 0x26b2600026b2f,
  dm 0x2700000027 0x2a48 0 0x26b2f00026b34,
  dm 0x2700000027 0x2a49 0 0x26b3400026b46,
  dm 0x2700000027 0x2a4a 0 0x26b4600026b4c,
  dm 0x2700000027 0x2a4b 0 0x26b4c00026b56,
  dm 0x2700000027 0x2a4c 0 0x26b5600026b63,
  dm 0x2700000027 0x2a4d 0 0x26b6300026b71,
  dm 0x2700000027 0x2a4e 0 0x26b7100026b7a,
  dm 0x2700000027 0x2a4f 0 0x26b7a00026b88,
  dm 0x2700000027 0x2a50 0 0x26b8800026b8e,
  dm 0x2700000027 0x2a51 0 0x26b8e00026b9b,
  dm 0x2700000027 0x2a52 0 0x26b9b00026ba1,
  dm 0x2700000027 0x2a53 0 0x26ba100026ba7,
  dm 0x2700000027 0x2a54 0 0x26ba700026bb1,
  dm 0x2700000027 0x2a55 0 0x26bb100026bb7,
  dm 0x2700000027 0x2a56 0 0x26bb700026bc7,
  dm 0x2700000027 0x2a57 0 0x26bc700026bd4,
  dm 0x2700000027 0x2a58 0 0x26bd400026bde,
  dm 0x2700000027 0x2a59 0 0x26bde00026be9,
  dm 0x2700000027 0x2a5a 0 0x26be900026bf2,
  dm 0x2700000027 0x2a5b 0 0x1b5d20001b5d8,
  dm 0x2700000027 0x2a5c 0 0x18bcf00018bd1,
  dm 0x2700000027 0x2a5d 0 0x26bf200026c06,
  dm 0x2700000027 0x2a5e 0 0x26c0600026c09,
  dm 0x2700000027 0x2a5f 0 0x26c0900026c19,
  dm 0x2700000027 0x2a60 0 0x26c1900026c20,
  dm 0x2700000027 0x2a61 0 0x26c2000026c27,
  dm 0x2700000027 0x2a62 0 0x26c2700026c2a,
  dm 0x2700000027 0x2a63 0 0x26c2a00026c33,
  dm 0x2700000027 0x2a64 0 0x26c3300026c3a,
  dm 0x2700000027 0x2a65 0 0x26c3a00026c3d,
  dm 0x2700000027 0x2a66 0 0x1b62e0001b634,
  dm 0x2700000027 0x2a67 0 0x26c3d00026c44,
  dm 0x2700000027 0x2a68 0 0x18bbe00018bc0,
  dm 0x2700000027 0x2a69 0 0x26c4400026c4c,
  dm 0x2700000027 0x2a6a 0 0x26c4c00026c53,
  dm 0x2700000027 0x2a6b 0 0x18bc900018bcc,
  dm 0x2700000027 0x2a6c 0 0x26c5300026c55,
  dm 0x2700000027 0x2a6d 0 0x26c5500026c5d,
  dm 0x2700000027 no 0x26c5d00026c6d 0x26c6d00026c76,
  dm 0x2700000027 0x2a6e 0 0x26c7600026c7d,
  dm 0x2700000027 0x2a6f 0 0x1b6b50001b6bb,
  dm 0x2700000027 0x2a70 0 0x26c7d00026c85,
  dm 0x2700000027 0x2a71 0 0x26c8500026c8c,
  dm 0x2700000027 0x2a72 0 0x26c8c00026c8f,
  dm 0x2700000027 0x2a73 0 0x1b6de0001b6e4,
  dm 0x2700000027 0x2a74 0 0x26c8f00026c91,
  dm 0x2700000027 no 0x26c9100026c9b 0x26c9b00026ca2,
  dm 0x2700000027 no 0x26ca200026cac 0x26cac00026cb3,
  dm 0x2700000027 no 0x26cb300026cbd 0x1b6eb0001b6ee,
  dm 0x2700000027 0x2a75 0 0x26cbd00026cc5,
  dm 0x2700000027 no 0x26cc500026ccf 0x26ccf00026cd5,
  dm 0x2700000027 no 0x26cd500026cdf 0x26cdf00026ce1,
  dm 0x2700000027 no 0x26ce100026ceb 0x22f2b00022f35,
  dm 0x2700000027 0x2a76 0 0x26ceb00026cf4,
  dm 0x2700000027 0x2a77 0 0x26cf400026d09,
  dm 0x2700000027 0x2a78 0 0x26d0900026d10,
  dm 0x2700000027 0x2a79 0 0x26d1000026d14,
  dm 0x2700000027 0x2a7a 0 0x26d1400026d1d,
  dm 0x2700000027 0x2a7b 0 0x26d1d00026d28,
  dm 0x2700000027 0x2a7c 0 0x26d2800026d40,
  dm 0x2700000027 0x2a7d 0 0x26d4000026d4a,
  dm 0x2700000027 0x2a7e 0 0x26d4a00026d54,
  dm 0x2700000027 0x2a7f 0 0x26d5400026d59,
  dm 0x2700000027 0x2a80 0 0x26d5900026d5d,
  dm 0x2700000027 0x2a81 0 0x26d5d00026d63,
  dm 0x2700000027 0x2a82 0 0x26d6300026d68,
  dm 0x2700000027 0x2a83 0 0x26d6800026d6d,
  dm 0x2700000027 0x2a84 0 0x26d6d00026d75,
  dm 0x2700000027 no 0x26d7500026d7f 0x26d7f00026d8b,
  dm 0x2700000027 0x2a85 0 0x26d8b00026d94,
  dm 0x2700000027 0x2a86 0 0x26d9400026d9a,
  dm 0x2700000027 0x2a87 0 0x26d9a00026da2,
  dm 0x2700000027 0x2a88 0 0x26da200026dac,
  dm 0x2700000027 0x2a89 0 0x26dac00026db1,
  dm 0x2700000027 0x2a8a 0 0x26db100026db9,
  dm 0x2700000027 0x2a8b 0 0x26db900026dc1,
  dm 0x2700000027 0x2a8c 0 0x26dc100026dca,
  dm 0x2700000027 0x2a8d 0 0x26dca00026dd5,
  dm 0x2700000027 0x2a8e 0 0x26dd500026dde,
  dm 0x2700000027 0x2a8f 0 0x26dde00026deb,
  dm 0x2700000027 0x2a90 0 0x26dc100026dca,
  dm 0x2700000027 0x2a91 0 0x26deb00026df1,
  dm 0x2700000027 0x2a92 0 0x26c7d00026c85,
  dm 0x2700000027 0x2a93 0 0x26df100026dfb,
  dm 0x2700000027 0x2a94 0 0x26dfb00026e04,
  dm 0x2700000027 0x2a95 0 0x26e0400026e10,
  dm 0x2700000027 0x2a96 0 0x26e1000026e18,
  dm 0x2700000027 0x2a97 0 0x26e1800026e25,
  dm 0x2700000027 no 0x26e2500026e2f 0x26e2f00026e3c,
  dm 0x2700000027 no 0x26e3c00026e46 0x26e4600026e57,
  dm 0x2700000027 no 0x26e5700026e63 0x26e5700026e63,
  dm 0x2700000027 0x2a98 0 0x26e6300026e6a,
  dm 0x2700000027 0x2a99 0 0x26e6a00026e71,
  dm 0x2700000027 0x2a9a 0 0x26e7100026e7c,
  dm 0x2700000027 0x2a9b 0 0x26e7c00026e84,
  dm 0x2700000027 0x2a9c 0 0x26e8400026e8c,
  dm 0x2700000027 0x2a9d 0 0x26e8c00026e93,
  dm 0x2700000027 0x2a9e 0 0x26e9300026e9b,
  dm 0x2700000027 0x2a9f 0 0x26e9b00026ea2,
  dm 0x2700000027 0x2aa0 0 0x26ea200026ead,
  dm 0x2700000027 0x2aa1 0 0x26ead00026eb6,
  dm 0x2700000027 0x2aa2 0 0x26eb600026ebf,
  dm 0x2700000027 0x2aa3 0 0x26ebf00026ec8,
  dm 0x2700000027 0x2aa4 0 0x26ec800026ed0,
  dm 0x2700000027 no 0x26ed000026eda 0x26eda00026ee5,
  dm 0x2700000027 0x2aa5 0 0x26ee500026ef1,
  dm 0x2700000027 0x2aa6 0 0x26ef100026efa,
  dm 0x2700000027 no 0x26efa00026f04 0x26f0400026f10,
  dm 0x2700000027 no 0x26f1000026f1a 0x26f1a00026f26,
  dm 0x2700000027 0x2aa7 0 0x26f2600026f2f,
  dm 0x2700000027 0x2aa8 0 0x26f2f00026f37,
  dm 0x2700000027 no 0x26f3700026f41 0x26f4100026f4d,
  dm 0x2700000027 0x2aa9 0 0x26f4d00026f54,
  dm 0x2700000027 0x2aaa 0 0x26f5400026f61,
  dm 0x2700000027 0x2aab 0 0x26f6100026f6e,
  dm 0x2700000027 0x2aac 0 0x26f6e00026f76,
  dm 0x2700000027 0x2aad 0 0x26f7600026f7e,
  dm 0x2700000027 0x2aae 0 0x26f7e00026f8c,
  dm 0x2700000027 0x2aaf 0 0x26f8c00026f94,
  dm 0x2700000027 0x2ab0 0 0x26f9400026f9d,
  dm 0x2700000027 0x2ab1 0 0x26f9d00026fa5,
  dm 0x2700000027 0x2ab2 0 0x26fa500026fb1,
  dm 0x2700000027 0x2ab3 0 0x26fb100026fbd,
  dm 0x2700000027 0x2ab4 0 0x26fbd00026fc8,
  dm 0x2700000027 0x2ab5 0 0x26fc800026fd0,
  dm 0x2700000027 0x2ab6 0 0x26fd000026fde,
  dm 0x2700000027 0x2ab7 0 0x26fde00026fe7,
  dm 0x2700000027 0x2ab8 0 0x26fe700026ff6,
  dm 0x2700000027 0x2ab9 0 0x26ff600027008,
  dm 0x2700000027 0x2aba 0 0x270080002701d,
  dm 0x2700000027 0x2abb 0 0x2701d0002702b,
  dm 0x2700000027 0x2abc 0 0x2702b00027038,
  dm 0x2700000027 no 0x2703800027042 0x270420002704b,
  dm 0x2700000027 0x2abd 0 0x2704b00027054,
  dm 0x2700000027 0x2abe 0 0x270540002705c,
  dm 0x2700000027 0x2abf 0 0x2705c00027067,
  dm 0x2700000027 0x2ac0 0 0x2706700027075,
  dm 0x2700000027 0x2ac1 0 0x2707500027092,
  dm 0x2700000027 0x2ac2 0 0x270920002709f,
  dm 0x2700000027 no 0x2709f000270a8 0x270a8000270b1,
  dm 0x2700000027 0x2ac3 0 0x270b1000270cb,
  dm 0x2700000027 0x2ac4 0 0x270cb000270dd,
  dm 0x2700000027 0x2ac5 0 0x270dd000270ed,
  dm 0x2700000027 0x2ac6 0 0x270ed000270fa,
  dm 0x2700000027 0x2ac7 0 0x270fa00027106,
  dm 0x2700000027 0x2ac8 0 0x2710600027112,
  dm 0x2700000027 0x2ac9 0 0x271120002711f,
  dm 0x2700000027 0x2aca 0 0x2711f00027128,
  dm 0x2700000027 0x2acb 0 0x2712800027132,
  dm 0x2700000027 0x2acc 0 0x2713200027142,
  dm 0x2700000027 0x2acd 0 0x2714200027150,
  dm 0x2700000027 0x2ace 0 0x271500002715d,
  dm 0x2700000027 0x2acf 0 0x2715d0002716c,
  dm 0x2700000027 no 0x2716c00027176 0x271760002717f,
  dm 0x2700000027 no 0x2717f0002719d 0x2717f0002719d,
  dm 0x2700000027 no 0x2719d000271a6 0x271a6000271b0,
  dm 0x2700000027 no 0x271b0000271b9 0x271b9000271c3,
  dm 0x2700000027 0x2ad0 0 0x271c3000271d0,
  dm 0x2700000027 no 0x271d0000271df 0x271d0000271df,
  dm 0x2700000027 no 0x271df000271e9 0x271e9000271f3,
  dm 0x2700000027 0x2ad1 0 0x271f300027200,
  dm 0x2700000027 0x2ad2 0 0x272000002720f,
  dm 0x2700000027 no 0x2720f00027219 0x2721900027226,
  dm 0x2700000027 no 0x2722600027230 0x272300002723a,
  dm 0x2700000027 no 0x2723a00027244 0x272440002724d,
  dm 0x2700000027 no 0x2724d00027257 0x2725700027266,
  dm 0x2700000027 0x2ad3 0 0x2726600027273,
  dm 0x2700000027 no 0x272730002727d 0x2727d0002728c,
  dm 0x2700000027 0x2ad4 0 0x2728c00027299,
  dm 0x2700000027 0x2ad5 0 0x27299000272a1,
  dm 0x2700000027 no 0x272a1000272b4 0x272a1000272b4,
  dm 0x2700000027 no 0x272b4000272c4 0x272c4000272cf,
  dm 0x2700000027 0x2ad6 0 0x272cf000272d6,
  dm 0x2700000027 0x2ad7 0 0x272d6000272de,
  dm 0x2700000027 0x2ad8 0 0x272de000272ea,
  dm 0x2700000027 0x2ad9 0 0x272ea000272f7,
  dm 0x2700000027 0x2ada 0 0x272f700027300,
  dm 0x2700000027 0x2adb 0 0x2730000027308,
  dm 0x2700000027 0x2adc 0 0x2730800027310,
  dm 0x2700000027 0x2add 0 0x2731000027319,
  dm 0x2700000027 0x2ade 0 0x2731900027320,
  dm 0x2700000027 0x2adf 0 0x2732000027329,
  dm 0x2700000027 no 0x2732900027333 0x273330002733b,
  dm 0x2700000027 no 0x2733b00027345 0x2734500027351,
  dm 0x2700000027 no 0x273510002735b 0x2735b00027366,
  dm 0x2700000027 0x2ae0 0 0x273660002736e,
  dm 0x2700000027 no 0x2736e00027377 0x2737700027382,
  dm 0x2700000027 0x2ae1 0 0x273820002738b,
  dm 0x2700000027 0x2ae2 0 0x2738b00027390,
  dm 0x2700000027 0x2ae3 0 0x2739000027394,
  dm 0x2700000027 0x2ae4 0 0x2739400027398,
  dm 0x2700000027 0x2ae5 0 0x273980002739e,
  dm 0x2700000027 no 0x2739e000273a8 0x273a8000273ae,
  dm 0x2700000027 no 0x273ae000273b8 0x273b8000273c2,
  dm 0x2700000027 no 0x273c2000273cc 0x273cc000273d6,
  dm 0x2700000027 0x2ae6 0 0x273d6000273dd,
  dm 0x2a1000002a7 0x2ae7 0 0x273dd000273e9,
  dm 0x2a1000002a7 0x2ae8 0 0x273e9000273f1,
  dm 0x2a1000002a7 0x2ae9 0 0x273f100027400,
  dm 0x2a1000002a7 0x2aea 0 0x2740000027409,
  dm 0x2a1000002a7 0x2aeb 0 0x2740900027412,
  dm 0x2a1000002a7 0x2aec 0 0x2741200027417,
  dm 0x2a1000002a7 0x2aed 0 0x274170002741c,
  dm 0x2a1000002a7 0x2aee 0 0x2741c00027428,
  dm 0x2a1000002a7 0x2aef 0 0x2742800027438,
  dm 0x2a1000002a7 0x2af0 0 0x2743800027445,
  dm 0x2a1000002a7 0x2af1 0 0x2744500027452,
  dm 0x2a1000002a7 0x2af2 0 0x274520002745a,
  dm 0x2a1000002a7 0x2af3 0 0x2745a00027462,
  dm 0x2a1000002a7 0x2af4 0 0x274620002746a,
  dm 0x2a1000002a7 0x2af5 0 0x2746a00027470,
  dm 0x2a1000002a7 0x2af6 0 0x2747000027479,
  dm 0x2a1000002a7 0x2af7 0 0x2747900027486,
  dm 0x2a1000002a7 0x2af8 0 0x2748600027497,
  dm 0x2a1000002a7 0x2af9 0 0x27497000274a3,
  dm 0x2a1000002a7 0x2afa 0 0x274a3000274b3,
  dm 0x2a1000002a7 0x2afb 0 0x274b3000274c1,
  dm 0x2a1000002a7 0x2afc 0 0x274c1000274cc,
  dm 0x2a1000002a7 no 0x274cc000274d6 0x274d6000274e5,
  dm 0x2a1000002a7 no 0x274e5000274ef 0x274ef00027501,
  dm 0x7cc000007d6 no 0x2750100027509 0x2750900027520,
  dm 0x7cc000007d6 no 0x2752000027529 0x2752900027543,
  dm 0x23b0000023d 0x2afd 0 0x2754300027556,
  dm 0x23b0000023d 0x2afe 0 0x2755600027562,
  dm 0x23b0000023d 0x2aff 0 0x275620002756b,
  dm 0x23b0000023d 0x2b00 0 0x2756b00027574,
  dm 0x23b0000023d 0x2b01 0 0x275740002757b,
  dm 0x23b0000023d 0x2b02 0 0x2757b00027582,
  dm 0x23b0000023d 0x2b03 0 0x275820002758c,
  dm 0x23b0000023d 0x2b04 0 0x2758c00027599,
  dm 0x23b0000023d 0x2b05 0 0x27599000275a0,
  dm 0x23b0000023d 0x2b06 0 0x275a0000275a7,
  dm 0x23b0000023d 0x2b07 0 0x2757b00027582,
  dm 0x23b0000023d 0x2b08 0 0x275a7000275b1,
  dm 0x23b0000023d 0x2b09 0 0x275b1000275b8,
  dm 0x23b0000023d 0x2b0a 0 0x275b8000275c3,
  dm 0x23b0000023d 0x2b0b 0 0x275c3000275ca,
  dm 0x23b0000023d 0x2b0c 0 0x275ca000275dc,
  dm 0x23b0000023d 0x2b0d 0 0x275dc000275f2,
  dm 0x23b0000023d 0x2b0e 0 0x275c3000275ca,
  dm 0xdfd00000e04 0x2b0f 0 0x275f2000275fd,
  dm 0xdfd00000e04 0x2b10 0 0x275fd00027607,
  dm 0xdfd00000e04 0x2b11 0 0x2760700027611,
  dm 0xdfd00000e04 0x2b12 0 0x276110002761b,
  dm 0xdfd00000e04 0x2b13 0 0x2761b0002762a,
  dm 0xdfd00000e04 0x2b14 0 0x2762a00027637,
  dm 0xdfd00000e04 0x2b15 0 0x2763700027643,
  dm 0xdfd00000e04 no 0x2764300027648 0x2764800027654,
  dm 0xdfd00000e04 no 0x2765400027667 0x2765400027667,
  dm 0xdfd00000e04 no 0x2766700027679 0x2766700027679,
  dm 0xdfd00000e04 0x2b16 0 0x2767900027685,
  dm 0xdfd00000e04 0x2b17 0 0x2768500027692,
  dm 0xdfd00000e04 0x2b18 0 0x27692000276a0,
  dm 0xdfd00000e04 0x2b19 0 0x276a0000276ae,
  dm 0xdfd00000e04 0x2b1a 0 0x276ae000276be,
  dm 0xdfd00000e04 0x2b1b 0 0x276be000276cd,
  dm 0xdfd00000e04 0x2b1c 0 0x276cd000276e0,
  dm 0xdfd00000e04 0x2b1d 0 0x276e0000276f0,
  dm 0xdfd00000e04 0x2b1e 0 0x276f000027702,
  dm 0xdfd00000e04 0x2b1f 0 0x2770200027716,
  dm 0xdfd00000e04 0x2b20 0 0x2771600027723,
  dm 0xdfd00000e04 0x2b21 0 0x2772300027731,
  dm 0xdfd00000e04 0x2b22 0 0x276a0000276ae,
  dm 0xdfd00000e04 0x2b23 0 0x2773100027741,
  dm 0xdfd00000e04 0x2b24 0 0x2774100027752,
  dm 0xdfd00000e04 0x2b25 0 0x2775200027762,
  dm 0xdfd00000e04 0x2b26 0 0x2776200027773,
  dm 0xdfd00000e04 0x2b27 0 0x277730002778a,
  dm 0xdfd00000e04 0x2b28 0 0x2778a0002779b,
  dm 0xdfd00000e04 0x2b29 0 0x2779b000277a8,
  dm 0xdfd00000e04 0x2b2a 0 0x277a8000277bf,
  dm 0xdfd00000e04 0x2b2b 0 0x277bf000277cd,
  dm 0xdfd00000e04 0x2b2c 0 0x2779b000277a8,
  dm 0xdfd00000e04 0x2b2d 0 0x277cd000277df,
  dm 0xdfd00000e04 0x2b2e 0 0x277df000277ed,
  dm 0xdfd00000e04 0x2b2f 0 0x277ed000277fb,
  dm 0xdfd00000e04 0x2b30 0 0x277fb0002780d,
  dm 0xdfd00000e04 0x2b31 0 0x2780d00027821,
  dm 0xdfd00000e04 0x2b32 0 0x2782100027836,
  dm 0xdfd00000e04 0x2b33 0 0x277730002778a,
  dm 0xdfd00000e04 0x2b34 0 0x2783600027848,
  dm 0xdfd00000e04 0x2b35 0 0x2779b000277a8,
  dm 0xdfd00000e04 0x2b36 0 0x2784800027859,
  dm 0xdfd00000e04 0x2b37 0 0x278590002786a,
  dm 0xdfd00000e04 no 0x2786a00027874 0x2787400027882,
  dm 0xdfd00000e04 0x2b38 0 0x2788200027894,
  dm 0xdfd00000e04 0x2b39 0 0x27894000278a8,
  dm 0xdfd00000e04 0x2b3a 0 0x278a8000278b5,
  dm 0xdfd00000e04 0x2b3b 0 0x278b5000278c7,
  dm 0xdfd00000e04 0x2b3c 0 0x278c7000278d9,
  dm 0xdfd00000e04 0x2b3d 0 0x278d9000278ea,
  dm 0xdfd00000e04 0x2b3e 0 0x278ea000278fe,
  dm 0xdfd00000e04 0x2b3f 0 0x278fe0002790e,
  dm 0xdfd00000e04 0x2b40 0 0x2790e0002791b,
  dm 0xdfd00000e04 no 0x2791b00027925 0x2792500027933,
  dm 0xdfd00000e04 no 0x279330002793d 0x2793d0002794f,
  dm 0xdfd00000e04 no 0x2794f00027959 0x279590002796a,
  dm 0xdfd00000e04 0x2b41 0 0x2796a0002797f,
  dm 0xdfd00000e04 0x2b42 0 0x2797f0002798f,
  dm 0xdfd00000e04 0x2b43 0 0x2798f000279a1,
  dm 0xdfd00000e04 0x2b44 0 0x279a1000279af,
  dm 0xdfd00000e04 0x2b45 0 0x279af000279c1,
  dm 0xdfd00000e04 0x2b46 0 0x279c1000279d4,
  dm 0xdfd00000e04 0x2b47 0 0x279d4000279e8,
  dm 0xdfd00000e04 0x2b48 0 0x279e8000279fd,
  dm 0xdfd00000e04 0x2b49 0 0x279fd00027a0f,
  dm 0xdfd00000e04 0x2b4a 0 0x27a0f00027a1f,
  dm 0xdfd00000e04 0x2b4b 0 0x27a1f00027a30,
  dm 0xdfd00000e04 0x2b4c 0 0x27a3000027a40,
  dm 0xdfd00000e04 0x2b4d 0 0x27a4000027a50,
  dm 0xdfd00000e04 0x2b4e 0 0x27a5000027a5e,
  dm 0xdfd00000e04 0x2b4f 0 0x27a5e00027a6f,
  dm 0xdfd00000e04 0x2b50 0 0x27a6f00027a80,
  dm 0xdfd00000e04 no 0x27a8000027a8a 0x27a8a00027a9e,
  dm 0xdfd00000e04 0x2b51 0 0x27a9e00027aaa,
  dm 0xdfd00000e04 0x2b52 0 0x27aaa00027abd,
  dm 0xdfd00000e04 0x2b53 0 0x27abd00027acd,
  dm 0xdfd00000e04 0x2b54 0 0x27acd00027ada,
  dm 0xdfd00000e04 0x2b55 0 0x27ada00027ae7,
  dm 0xdfd00000e04 0x2b56 0 0x27ae700027af7,
  dm 0xdfd00000e04 0x2b57 0 0x27af700027b03,
  dm 0xdfd00000e04 0x2b58 0 0x27b0300027b18,
  dm 0xdfd00000e04 0x2b59 0 0x27b1800027b29,
  dm 0xdfd00000e04 0x2b5a 0 0x27b2900027b36,
  dm 0x2700000027 0x2b5b 0 0x27b3600027b3e,
  dm 0xdfd00000e04 no 0x27b3e00027b49 0x27b4900027b54,
  dm 0xdfd00000e04 0x2b5c 0 0x27b5400027b62,
  dm 0xdfd00000e04 no 0x27b6200027b71 0x27b6200027b71,
  dm 0xdfd00000e04 0x2b5d 0 0x27b7100027b7b,
  dm 0xdfd00000e04 0x2b5e 0 0x27b7b00027b85,
  dm 0x2700000027 0x2b5f 0 0x27b8500027b8c,
  dm 0x2700000027 0x2b60 0 0x27b8c00027b97,
  dm 0x2700000027 0x2b61 0 0x27b9700027ba0,
  dm 0x2700000027 0x2b62 0 0x27ba000027ba5,
  dm 0x2700000027 0x2b63 0 0x27ba000027ba5,
  dm 0xdfd00000e04 0x2b64 0 0xacd70000acdb,
  dm 0x2700000027 0x2b65 0 0x27ba500027baa,
  dm 0x2700000027 0x2b66 0 0x18000000182,
  dm 0x2700000027 0x2b68 0 0x27bae00027bb2,
  dm 0x2700000027 0x2b6a 0 0x27bb600027bbe,
  dm 0x2700000027 0x2b6b 0 0x27bbe00027bc8,
  dm 0x2700000027 0x2b6c 0 0x27bc800027bcf,
  dm 0x2700000027 0x2b6d 0 0x27bcf00027bd9,
  dm 0x2700000027 0x2b6e 0 0x27bd900027bdf,
  dm 0x2700000027 0x2b6f 0 0x27bdf00027be5,
  dm 0x2700000027 0x2b70 0 0x27be500027bed,
  dm 0x2700000027 0x2b71 0 0x18000000182,
  dm 0x2700000027 0x2b72 0 0x18000000182,
  dm 0x2700000027 0x2b73 0 0x18000000182,
  dm 0x2700000027 0x2b75 0 0x27bf100027c01,
  dm 0x2700000027 0x2b76 0 0x27c0100027c0b,
  dm 0x2700000027 0x2b77 0 0x27c0b00027c1a,
  dm 0xbf670000bf7c 0x2b78 0 0x27c1a00027c20,
  dm 0x23b0000023d 0x2b79 0 0x27c2000027c27,
  dm 0 no 0 0x18000000182,
  dm 0x2700000027 no 0x27c3400027c3a 0x27c3a00027c40,
  dm 0x2700000027 0x2b7c 0 0x18000000182,
  dm 0x2700000027 0x2b7e 0 0x18000000182,
  dm 0x2700000027 0x2b7f 0 0xc9f80000c9fa,
  dm 0x2700000027 0x2b80 0 0x27c4600027c4d,
  dm 0x2a1000002a7 no 0x27c4d00027c56 0x27c5600027c5f,
  dm 0x2700000027 0x2b82 0 0x18000000182,
  dm 0x2a1000002a7 no 0x27c6700027c6c 0x27c6c00027c7b,
  dm 0x2a1000002a7 no 0x27c7b00027c82 0x27c7b00027c82,
  dm 0x2a1000002a7 no 0x27c8200027c89 0x27c8900027c98,
  dm 0 no 0 0x27c9d00027ca4,
  dm 0x2700000027 0x2b84 0 0x27caf00027cbd,
  dm 0x2700000027 0x2b85 0 0x8a0100008a0c,
  dm 0x2700000027 0x2b86 0 0x7d3900007d44,
  dm 0 no 0 0x18000000182,
  dm 0x2700000027 no 0x27ccb00027cd4 0x27cd400027cdf,
  dm 0 no 0 0x27ce500027cef,
  dm 0x2700000027 0x2b8b 0 0x18000000182,
  dm 0x2700000027 0x2b8c 0 0x18000000182,
  dm 0 no 0 0x18000000182,
  dm 0x2700000027 0x2b8f 0 0x500000005006,
  dm 0x2700000027 no 0x27cff00027d0d 0x27d0d00027d16,
  dm 0x2700000027 no 0x27d1600027d21 0x27d2100027d27,
  dm 0x2700000027 no 0x27d2700027d34 0x27d3400027d3d,
  dm 0x2700000027 no 0x27d3d00027d49 0x27d4900027d50,
  dm 0x2700000027 no 0x27d5000027d5c 0x27d5c00027d63,
  dm 0x2700000027 0x2b90 0 0x18000000182,
  dm 0x2700000027 0x2b92 0 0x18000000182,
  dm 0x2700000027 no 0x27d6900027d6d 0x27d6900027d6d,
  dm 0 no 0 0x18000000182,
  dm 0x23b0000023d no 0x27d7900027d8c 0x27d8c00027d92,
  dm 0x23b0000023d 0x2b95 0 0x27d9200027d99,
  dm 0x2700000027 0x2b96 0 0x27d9900027da3,
  dm 0x296a00002977 0x2b97 0 0x27da300027db5,
  dm 0x296a00002977 no 0x27db500027dc4 0x27dc400027dcd]

/-- `__dr_dm`, from item 14500 on (device_repo.go:16772-17271). -/
def drDm_29 : List ModelTuple := [
  dm 0x2700000027 no 0x27dd300027de2 0x27de200027de8,
  dm 0x2700000027 0x2b99 0 0x27de800027def,
  dm 0x2700000027 no 0x27def00027dfa 0x27de800027def,
  dm 0x2700000027 no 0x27dfa00027e05 0x27e0500027e0c,
  dm 0x2700000027 no 0x27e0c00027e1a 0x27e1a00027e22,
  dm 0x2700000027 no 0x27e2200027e2b 0x27e2b00027e34,
  dm 0x2700000027 no 0x27e3400027e3d 0x27e3d00027e47,
  dm 0x2700000027 no 0x27e4700027e50 0x27e5000027e5a,
  dm 0x2700000027 0x2b9a 0 0x27e5a00027e62,
  dm 0x2700000027 no 0x27e6200027e6b 0x27e6b00027e74,
  dm 0x2700000027 no 0x27e7400027e7d 0x27e7d00027e86,
  dm 0x2700000027 no 0x27e8600027e92 0x27e9200027e9a,
  dm 0x2700000027 no 0x27e9a00027ea2 0x27ea200027ead,
  dm 0x2700000027 no 0x27ead00027eb6 0x27eb600027ec2,
  dm 0x2700000027 0x2b9b 0 0x27ec200027ecc,
  dm 0x2700000027 no 0x27ecc00027ed5 0x27ed500027ede,
  dm 0x2700000027 no 0x27ee100027ee6 0x27ee600027eee,
  dm 0x2700000027 no 0x27eee00027ef6 0x27ef600027f00,
  dm 0x2700000027 no 0x27f0000027f06 0x27f0600027f10,
  dm 0x2700000027 0x2b9d 0 0x18000000182,
  dm 0x2700000027 0x2b9f 0 0xde010000de04,
  dm 0x2a1000002a7 0x2ba0 0 0x18000000182,
  dm 0x2700000027 0x2ba2 0 0x27f1a00027f21,
  dm 0x2700000027 no 0x27f2100027f2b 0x27f2b00027f33,
  dm 0x2700000027 no 0x27f3300027f3b 0x27f3b00027f44,
  dm 0x2700000027 no 0x27f4400027f48 0x27f4800027f4d,
  dm 0x2700000027 no 0x27f4d00027f54 0x27f5400027f5d,
  dm 0x2700000027 no 0x27f5d00027f63 0x27f6300027f69,
  dm 0x2700000027 no 0x27f6900027f6f 0x27f6f00027f75,
  dm 0x2700000027 0x2ba3 0 0x27f7500027f7a,
  dm 0x2700000027 no 0x27f7a00027f7e 0x27f7a00027f7e,
  dm 0x2700000027 no 0x27f7e00027f88 0x27f7e00027f88,
  dm 0x2700000027 0x2ba4 0 0x27f8800027f8f,
  dm 0x2700000027 no 0x27f8f00027f98 0x27f8f00027f98,
  dm 0x2700000027 0x2ba5 0 0x27f9800027fa0,
  dm 0x2700000027 no 0x27fa000027faa 0x27faa00027fb4,
  dm 0x2700000027 no 0x27fb400027fbd 0x27fbd00027fc7,
  dm 0x2700000027 0x2ba6 0 0x27fc700027fd1,
  dm 0x2700000027 0x2ba7 0 0x27fd100027fde,
  dm 0x2700000027 0x2ba8 0 0x27fc700027fd1,
  dm 0 no 0 0x27fe500027fec,
  dm 0 no 0 0x162830001628b,
  dm 0x2700000027 0x2bac 0 0x1720b00017212,
  dm 0x2700000027 0x2bad 0 0x27ff400028000,
  dm 0x2700000027 0x2baf 0 0x280050002800c,
  dm 0x2700000027 0x2bb1 0 0x2801200028019,
  dm 0x2700000027 no 0x2801900028023 0x2802300028029,
  dm 0x2700000027 0x2bb3 0 0x18000000182,
  dm 0x2700000027 0x2bb4 0 0x18000000182,
  dm 0x2700000027 0x2bb6 0 0x2803000028038,
  dm 0x2700000027 no 0x280380002803e 0x2803e00028047,
  dm 0x2700000027 no 0x280470002804d 0x2804d00028054,
  dm 0x2700000027 no 0x280540002805a 0x2805a00028060,
  dm 0x2700000027 no 0x2806000028066 0x280660002806e,
  dm 0x2700000027 no 0x2806e00028074 0x280740002807c,
  dm 0x2700000027 0x2bb7 0 0x2807c00028087,
  dm 0x2700000027 no 0x280870002808d 0x2808d00028094,
  dm 0x2700000027 no 0x280940002809a 0x90500000908,
  dm 0x2700000027 no 0x2809a000280a1 0x280a1000280ac,
  dm 0x2700000027 0x2bb8 0 0x18000000182,
  dm 0x2700000027 0x2bba 0 0x8a5c00008a5f,
  dm 0x2700000027 0x2bbc 0 0x280ba000280c2,
  dm 0x2700000027 0x2bbe 0 0x280c2000280cb,
  dm 0x2700000027 0x2bbf 0 0x280cb000280d1,
  dm 0x2700000027 no 0x280d6000280db 0x280d6000280db,
  dm 0x2700000027 0x2bc1 0 0x18000000182,
  dm 0x2700000027 0x2bc2 0 0x18000000182,
  dm 0 no 0 0x18000000182,
  dm 0 no 0 0x18000000182,
  dm 0 no 0 0x18000000182,
  dm 0x2700000027 0x2bc7 0 0x280ed000280fd,
  dm 0x2700000027 0x2bc8 0 0x280fd00028107,
  dm 0x2700000027 0x2bc9 0 0x2810700028113,
  dm 0x2700000027 0x2bca 0 0x281130002811e,
  dm 0x2700000027 0x2bcb 0 0x2811e0002812b,
  dm 0x2700000027 0x2bcc 0 0x2812b00028137,
  dm 0x2700000027 0x2bcd 0 0x2813700028144,
  dm 0x2700000027 0x2bce 0 0x2814400028151,
  dm 0x2700000027 0x2bcf 0 0x281510002815c,
  dm 0x2700000027 0x2bd0 0 0x2815c0002816b,
  dm 0x2700000027 0x2bd1 0 0x2816b00028178,
  dm 0x2700000027 0x2bd2 0 0x2817800028185,
  dm 0x2700000027 0x2bd3 0 0x2818500028191,
  dm 0x2700000027 0x2bd4 0 0x281910002819f,
  dm 0x2700000027 0x2bd5 0 0x2819f000281ab,
  dm 0x2700000027 0x2bd6 0 0x281ab000281b8,
  dm 0x2700000027 0x2bd7 0 0x281b8000281ca,
  dm 0x2700000027 0x2bd8 0 0x281ca000281d7,
  dm 0x2700000027 0x2bd9 0 0x281d7000281e3,
  dm 0x2700000027 0x2bda 0 0x281e3000281ef,
  dm 0x2700000027 0x2bdb 0 0x281ef000281fa,
  dm 0x2700000027 no 0x281fa00028206 0x2820600028212,
  dm 0x2700000027 no 0x282120002821e 0x2821e0002822a,
  dm 0x2700000027 no 0x2822a00028236 0x2823600028242,
  dm 0 no 0 0x18000000182,
  dm 0x2700000027 0x2bde 0 0x30d00000312,
  dm 0 no 0 0x18000000182,
  dm 0 no 0 0x18000000182,
  dm 0x2700000027 0x2be2 0 0x2825900028268,
  dm 0x2700000027 no 0x2826800028277 0x2826800028277,
  dm 0x2700000027 0x2be3 0 0x2827700028285,
  dm 0x2700000027 0x2be4 0 0x2828500028297,
  dm 0x2700000027 0x2be5 0 0x28297000282a0,
  dm 0x2700000027 0x2be6 0 0x282a0000282ad,
  dm 0x2700000027 0x2be7 0 0x282ad000282bb,
  dm 0x2700000027 0x2be8 0 0x282bb000282c5,
  dm 0x2700000027 0x2be9 0 0x282c5000282cf,
  dm 0x2700000027 0x2bea 0 0x282cf000282d7,
  dm 0x2700000027 0x2beb 0 0x282d7000282df,
  dm 0x2700000027 0x2bec 0 0x282df000282e8,
  dm 0x2700000027 0x2bed 0 0x282e8000282f4,
  dm 0x2700000027 0x2bee 0 0x282f400028301,
  dm 0x2700000027 0x2bef 0 0x283010002830d,
  dm 0x2700000027 0x2bf0 0 0x2830d00028317,
  dm 0x2700000027 0x2bf1 0 0x2831700028324,
  dm 0x2700000027 0x2bf2 0 0x3a7000003a9,
  dm 0x2700000027 0x2bf3 0 0x283240002832c,
  dm 0x2700000027 0x2bf4 0 0x2832c00028335,
  dm 0x2700000027 0x2bf5 0 0x283350002833d,
  dm 0x2700000027 0x2bf6 0 0x2833d0002834c,
  dm 0x2700000027 0x2bf7 0 0x2834c00028359,
  dm 0x2700000027 0x2bf8 0 0x2835900028367,
  dm 0x2700000027 0x2bf9 0 0x2836700028377,
  dm 0x2700000027 0x2bfa 0 0x2837700028386,
  dm 0x2700000027 0x2bfb 0 0x2838600028396,
  dm 0x2700000027 0x2bfc 0 0x283960002839f,
  dm 0x2700000027 no 0x2839f000283a7 0x283a7000283b0,
  dm 0x2700000027 no 0x283b0000283b5 0x283b5000283be,
  dm 0x2700000027 no 0x283be000283c4 0x283c4000283ce,
  dm 0x2700000027 0x2bfd 0 0x283ce000283d7,
  dm 0x2700000027 no 0x283d7000283dc 0x283dc000283e8,
  dm 0x2700000027 0x2bfe 0 0x283e8000283f5,
  dm 0x2700000027 0x2bff 0 0x283f5000283fd,
  dm 0x2700000027 0x2c00 0 0x283fd0002840a,
  dm 0x2700000027 0x2c01 0 0x2840a00028418,
  dm 0x2700000027 0x2c02 0 0x2841800028426,
  dm 0x2700000027 0x2c03 0 0x284260002842c,
  dm 0x2700000027 0x2c04 0 0x2842c00028436,
  dm 0x2700000027 0x2c05 0 0x2843600028444,
  dm 0x2700000027 0x2c06 0 0x2844400028453,
  dm 0x2700000027 0x2c07 0 0x284530002845d,
  dm 0x2700000027 0x2c08 0 0x2845d00028464,
  dm 0x2700000027 0x2c09 0 0x2846400028471,
  dm 0x2700000027 no 0x2847100028477 0x2847700028481,
  dm 0x2700000027 0x2c0a 0 0x2848100028488,
  dm 0x2700000027 no 0x284880002848e 0x2848e0002849c,
  dm 0x2700000027 no 0x2849c000284a3 0x284a3000284b0,
  dm 0x2700000027 no 0x284b0000284b6 0x284b6000284c4,
  dm 0x2700000027 no 0x284c4000284c9 0x284c9000284d4,
  dm 0x2700000027 no 0x284d4000284da 0x284da000284eb,
  dm 0x2700000027 no 0x284eb000284f1 0x284f1000284fe,
  dm 0x2700000027 0x2c0b 0 0x284fe00028509,
  dm 0x2700000027 0x2c0c 0 0x2850900028513,
  dm 0x2700000027 no 0x2851300028518 0x2851800028522,
  dm 0x2700000027 no 0x2852200028527 0x285270002852e,
  dm 0x2700000027 no 0x2852e00028534 0x2853400028544,
  dm 0x2700000027 no 0x2854400028549 0x2854900028555,
  dm 0x2700000027 no 0x285550002855b 0x2855b0002856b,
  dm 0x2700000027 0x2c0d 0 0x2856b00028573,
  dm 0x2700000027 0x2c0e 0 0x285730002857a,
  dm 0x2700000027 0x2c0f 0 0x2857a00028584,
  dm 0x2700000027 0x2c10 0 0x285840002858b,
  dm 0x2700000027 0x2c11 0 0x2858b00028593,
  dm 0x2700000027 0x2c12 0 0x2859300028596,
  dm 0x2700000027 0x2c13 0 0x2859600028599,
  dm 0x2700000027 0x2c14 0 0x285990002859f,
  dm 0x2700000027 0x2c15 0 0x2859f000285a7,
  dm 0x2700000027 0x2c16 0 0x285a7000285b3,
  dm 0x2700000027 0x2c17 0 0x285b3000285b7,
  dm 0x2700000027 0x2c18 0 0x285b7000285bf,
  dm 0x2700000027 0x2c19 0 0x285bf000285c7,
  dm 0x2700000027 0x2c1a 0 0x247400002479,
  dm 0x2700000027 0x2c1b 0 0x2030900020311,
  dm 0x2700000027 0x2c1c 0 0x285c7000285d1,
  dm 0x2700000027 0x2c1d 0 0x285d1000285d8,
  dm 0x2700000027 0x2c1e 0 0x2525e00025260,
  dm 0x2700000027 0x2c1f 0 0x285d8000285df,
  dm 0x2700000027 0x2c20 0 0x285df000285e9,
  dm 0x2700000027 0x2c21 0 0x285e9000285f4,
  dm 0x2700000027 0x2c22 0 0x285f4000285fc,
  dm 0x2700000027 0x2c23 0 0x285fc00028604,
  dm 0x2700000027 0x2c24 0 0x286040002860f,
  dm 0x2700000027 0x2c25 0 0x2860f00028618,
  dm 0x2700000027 0x2c26 0 0x2861800028621,
  dm 0x2700000027 0x2c27 0 0x2862100028627,
  dm 0x2700000027 0x2c28 0 0x2862700028630,
  dm 0x2700000027 0x2c29 0 0x286300002863a,
  dm 0x2700000027 0x2c2a 0 0x2863a00028640,
  dm 0x2700000027 0x2c2b 0 0x2864000028645,
  dm 0x2700000027 0x2c2c 0 0x2864500028650,
  dm 0x2700000027 0x2c2d 0 0x286500002865e,
  dm 0x2700000027 no 0x2865e00028663 0x286630002866e,
  dm 0x2700000027 no 0x2866e00028672 0x2867200028679,
  dm 0x2700000027 no 0x286790002867d 0x2867d00028685,
  dm 0x2700000027 0x2c2e 0 0x2868500028692,
  dm 0x2700000027 0x2c2f 0 0x286920002869b,
  dm 0x2700000027 no 0x2869b000286a7 0x2869b000286a7,
  dm 0x2700000027 no 0x286a7000286b4 0x286b4000286bd,
  dm 0x2700000027 0x2c30 0 0x286bd000286c8,
  dm 0x2700000027 no 0x286c8000286cc 0x286cc000286d0,
  dm 0x2700000027 no 0x286d0000286d5 0x286d5000286dd,
  dm 0x2700000027 0x2c31 0 0x286dd000286e4,
  dm 0x2700000027 0x2c32 0 0x286e4000286ec,
  dm 0x2700000027 0x2c33 0 0x286ec000286f0,
  dm 0x2700000027 no 0x286f0000286f5 0xdb1d0000db23,
  dm 0x2700000027 0x2c34 0 0x286f5000286fd,
  dm 0x2700000027 no 0x286fd00028701 0x287010002870d,
  dm 0x2700000027 0x2c35 0 0x2870d00028716,
  dm 0x2700000027 no 0x2871600028723 0x287230002872b,
  dm 0x2700000027 no 0x2872b00028730 0x2873000028738,
  dm 0x2700000027 0x2c36 0 0x287380002873c,
  dm 0x2700000027 0x2c37 0 0x2873c00028741,
  dm 0x2700000027 0x2c38 0 0x287410002874e,
  dm 0x2700000027 0x2c39 0 0x2874e0002875e,
  dm 0x2700000027 0x2c3a 0 0x2875e0002876d,
  dm 0x2700000027 0x2c3b 0 0x2876d00028779,
  dm 0x2700000027 0x2c3c 0 0x2877900028786,
  dm 0x2700000027 0x2c3d 0 0x2878600028790,
  dm 0x2700000027 0x2c3e 0 0x287900002879e,
  dm 0x2700000027 0x2c3f 0 0x2879e000287ab,
  dm 0x2700000027 0x2c40 0 0x287ab000287b3,
  dm 0x2700000027 0x2c41 0 0x287b3000287c0,
  dm 0x2700000027 0x2c42 0 0x287c0000287cd,
  dm 0x2700000027 0x2c43 0 0x287cd000287d5,
  dm 0x2700000027 0x2c44 0 0x287d5000287dd,
  dm 0x2700000027 0x2c45 0 0x287dd000287e9,
  dm 0x2700000027 0x2c46 0 0x287e9000287f6,
  dm 0x2700000027 0x2c47 0 0x287f6000287fe,
  dm 0x2700000027 0x2c48 0 0x287fe00028807,
  dm 0x2700000027 0x2c49 0 0x2880700028810,
  dm 0x2700000027 0x2c4a 0 0x288100002881e,
  dm 0x2700000027 0x2c4b 0 0x2881e00028826,
  dm 0x2700000027 0x2c4c 0 0x2882600028836,
  dm 0x2700000027 0x2c4d 0 0x288360002883e,
  dm 0x2700000027 0x2c4e 0 0x287900002879e,
  dm 0x2700000027 0x2c4f 0 0x2883e0002884b,
  dm 0x2700000027 0x2c50 0 0x2868500028692,
  dm 0x2700000027 0x2c51 0 0x2884b00028853,
  dm 0x2700000027 0x2c52 0 0x288530002885f,
  dm 0x2700000027 0x2c53 0 0x2885f0002886c,
  dm 0x2700000027 0x2c54 0 0x2886c00028879,
  dm 0x2700000027 0x2c55 0 0x2887900028881,
  dm 0x2700000027 0x2c56 0 0x288810002888d,
  dm 0x2700000027 0x2c57 0 0x2888d00028895,
  dm 0x2700000027 0x2c58 0 0x28895000288a0,
  dm 0x2700000027 0x2c59 0 0x2880700028810,
  dm 0x2700000027 0x2c5a 0 0x288a0000288a8,
  dm 0x2700000027 0x2c5b 0 0x288a8000288b5,
  dm 0x2700000027 0x2c5c 0 0x288b5000288c1,
  dm 0x2700000027 0x2c5d 0 0x288c1000288ce,
  dm 0x2700000027 0x2c5e 0 0x288ce000288db,
  dm 0x2700000027 0x2c5f 0 0x288db000288e3,
  dm 0x2700000027 0x2c60 0 0x288e3000288ec,
  dm 0x2700000027 0x2c61 0 0x288ec000288f5,
  dm 0x2700000027 0x2c62 0 0x288f500028905,
  dm 0x2700000027 0x2c63 0 0x2890500028918,
  dm 0x2700000027 0x2c64 0 0x2891800028926,
  dm 0x2700000027 no 0x289260002892b 0x2892b0002893b,
  dm 0x2700000027 no 0x2893b00028940 0x289400002894d,
  dm 0x2700000027 0x2c65 0 0x2894d00028955,
  dm 0x2700000027 0x2c66 0 0x289550002895e,
  dm 0x2700000027 0x2c67 0 0x2895e00028969,
  dm 0x2700000027 0x2c68 0 0x2896900028972,
  dm 0x2700000027 0x2c69 0 0x289720002897a,
  dm 0x2700000027 0x2c6a 0 0x2897a00028982,
  dm 0x2700000027 0x2c6b 0 0x289820002898b,
  dm 0x2700000027 0x2c6c 0 0x2898b00028996,
  dm 0x2700000027 0x2c6d 0 0x28996000289a3,
  dm 0x2700000027 0x2c6e 0 0x289a3000289b0,
  dm 0x2700000027 no 0x289b0000289b8 0x289b8000289c6,
  dm 0x2700000027 no 0x289c6000289ce 0x289ce000289dc,
  dm 0x2700000027 no 0x289dc000289e5 0x289e5000289ee,
  dm 0x2700000027 no 0x289ee000289f6 0x289f6000289ff,
  dm 0x2700000027 no 0x289ff00028a08 0x28a0800028a17,
  dm 0x2700000027 no 0x28a1700028a20 0x28a2000028a2a,
  dm 0x2700000027 no 0x28a2a00028a32 0x28a3200028a40,
  dm 0x2700000027 no 0x28a4000028a49 0x28a4900028a57,
  dm 0x2700000027 no 0x28a5700028a5f 0x28a5f00028a6c,
  dm 0x2700000027 no 0x28a6c00028a74 0x28a7400028a84,
  dm 0x2700000027 no 0x28a8400028a8c 0x28a8c00028a95,
  dm 0x2700000027 0x2c6f 0 0x28a9500028aa3,
  dm 0x2700000027 0x2c70 0 0x288e3000288ec,
  dm 0x2700000027 0x2c71 0 0x28aa300028ab0,
  dm 0x2700000027 0x2c72 0 0x86240000862c,
  dm 0x2700000027 0x2c73 0 0x28ab000028ab8,
  dm 0x2700000027 no 0x28ab800028abc 0x28abc00028ac4,
  dm 0x2700000027 no 0x28ac400028ac9 0x28ac900028ad4,
  dm 0x2700000027 no 0x28ad400028ada 0x28ada00028ae6,
  dm 0x2700000027 no 0x28ae600028aec 0x28aec00028afa,
  dm 0x2700000027 no 0x28afa00028afe 0x28afe00028b09,
  dm 0x2700000027 no 0x28b0900028b0d 0x28b0d00028b19,
  dm 0x2700000027 no 0x28b1900028b1d 0x28b1d00028b2a,
  dm 0x2700000027 no 0x28b2a00028b30 0x28b3000028b3f,
  dm 0x2700000027 no 0x28b3f00028b44 0x28b4400028b4d,
  dm 0x2700000027 no 0x28b4d00028b51 0x28b5100028b58,
  dm 0x2700000027 no 0x28b5800028b5e 0x28b5e00028b6a,
  dm 0x2700000027 no 0x28b6a00028b6e 0x28b6e00028b7d,
  dm 0x2700000027 no 0x28b7d00028b81 0x28b8100028b8c,
  dm 0x2700000027 no 0x28b8c00028b90 0x28b9000028b9b,
  dm 0x2700000027 0x2c74 0 0x28b9b00028ba6,
  dm 0x2700000027 0x2c75 0 0x28ba600028bb2,
  dm 0x2700000027 no 0x28bb200028bb7 0x28bb700028bc1,
  dm 0x2700000027 no 0x28bc100028bc7 0x28bc700028bd3,
  dm 0x2700000027 no 0x28bd300028bd9 0x28bd900028be5,
  dm 0x2700000027 no 0x28be500028beb 0x28beb00028bf5,
  dm 0x2700000027 no 0x28bf500028bff 0x28bff00028c09,
  dm 0x2700000027 no 0x28c0900028c0e 0x28c0900028c0e,
  dm 0x2700000027 0x2c76 0 0x28c0e00028c1d,
  dm 0x2700000027 no 0x28c1d00028c23 0x28c2300028c37,
  dm 0x2700000027 no 0x28c3700028c3d 0x28c3d00028c4d,
  dm 0x2700000027 0x2c77 0 0x28c4d00028c54,
  dm 0x2700000027 0x2c78 0 0x28c5400028c59,
  dm 0x2700000027 0x2c79 0 0x28c5900028c61,
  dm 0x2700000027 0x2c7a 0 0x28c6100028c68,
  dm 0x2700000027 no 0x28c6800028c6c 0x28c6c00028c75,
  dm 0x2700000027 no 0x28c7500028c79 0x28c7900028c80,
  dm 0x2700000027 no 0x28c8000028c84 0x28c8400028c8c,
  dm 0x2700000027 no 0x28c8c00028c90 0x28c9000028c97,
  dm 0x2700000027 0x2c7b 0 0x28c9700028ca3,
  dm 0x2700000027 no 0x28ca300028ca8 0x28ca800028cb2,
  dm 0x2700000027 no 0x28cb200028cb6 0x28cb600028cbf,
  dm 0x2700000027 no 0x28cbf00028cc3 0x28cc300028ccc,
  dm 0x2700000027 no 0x28ccc00028cd0 0x28cd000028cd6,
  dm 0x2700000027 no 0x28cd600028cda 0x28cda00028ce3,
  dm 0x2700000027 0x2c7c 0 0x28ce300028cee,
  dm 0x2700000027 no 0x28cee00028cf4 0x28cf400028cff,
  dm 0x2700000027 no 0x28cff00028d05 0x28d0500028d10,
  dm 0x2700000027 0x2c7d 0 0x28d1000028d1b,
  dm 0x2700000027 no 0x28d1b00028d21 0x28d2100028d2f,
  dm 0x2700000027 no 0x28d2f00028d35 0x28d3500028d43,
  dm 0x2700000027 0x2c7e 0 0x28d4300028d49,
  dm 0x2700000027 0x2c7f 0 0x28d4900028d4f,
  dm 0x2700000027 0x2c80 0 0x28d4f00028d56,
  dm 0x2700000027 no 0x28d5600028d5c 0x28d5c00028d67,
  dm 0x2700000027 no 0x28d6700028d6b 0x28d6b00028d74,
  dm 0x2700000027 no 0x28d7400028d7a 0x28d7a00028d86,
  dm 0x2700000027 0x2c81 0 0x28d8600028d8d,
  dm 0x2700000027 0x2c82 0 0x28d8d00028d93,
  dm 0x2700000027 0x2c83 0 0x28d9300028d9c,
  dm 0x2700000027 no 0x28d9c00028da1 0x28da100028dac,
  dm 0x2700000027 0x2c84 0 0x284260002842c,
  dm 0x2700000027 no 0x28dac00028db1 0x28db100028dbb,
  dm 0x2700000027 no 0x28dbb00028dc0 0x28dc000028dc7,
  dm 0x2700000027 no 0x28dc700028dcd 0x28dcd00028dd8,
  dm 0x2700000027 0x2c85 0 0x28dd800028de3,
  dm 0x2700000027 no 0x28de300028de8 0x28de800028dee,
  dm 0x2700000027 no 0x28dee00028df5 0x28dee00028df5,
  dm 0x2700000027 0x2c86 0 0x28df500028df9,
  dm 0x2700000027 no 0x28df900028dff 0x28b9b00028ba6,
  dm 0x2700000027 no 0x1113100011135 0x28dff00028e04,
  dm 0x2700000027 no 0x28e0400028e08 0x28e0800028e0e,
  dm 0x2700000027 0x2c87 0 0x1e6900001e6c,
  dm 0x2700000027 no 0x28e0e00028e13 0x28e1300028e1a,
  dm 0x2700000027 0x2c88 0 0x28e1a00028e1f,
  dm 0x2700000027 0x2c89 0 0x28e1f00028e23,
  dm 0x2700000027 0x2c8a 0 0x28e2300028e28,
  dm 0x2700000027 0x2c8b 0 0x28e2800028e35,
  dm 0x2700000027 0x2c8c 0 0x28e3500028e44,
  dm 0x2700000027 0x2c8d 0 0x28e4400028e4a,
  dm 0x2700000027 0x2c8e 0 0x28e4a00028e56,
  dm 0x2700000027 0x2c8f 0 0x28e5600028e67,
  dm 0x2700000027 0x2c90 0 0x28e6700028e6d,
  dm 0x2700000027 no 0x28e6d00028e76 0x28e7600028e84,
  dm 0x2700000027 no 0x28e8400028e8c 0x28e8c00028e97,
  dm 0x2700000027 no 0x28e9700028e9f 0x28e9f00028eaf,
  dm 0x2700000027 no 0x28eaf00028eb7 0x28eb700028ebf,
  dm 0x2700000027 0x2c91 0 0x28ebf00028ecc,
  dm 0x2700000027 0x2c92 0 0x28ebf00028ecc,
  dm 0x2700000027 0x2c93 0 0x28ecc00028ed3,
  dm 0x2700000027 no 0x28ed300028ed9 0x28ed900028ee5,
  dm 0xdfd00000e04 0x2c94 0 0x28ee500028eef,
  dm 0xdfd00000e04 no 0x28eef00028ef7 0x28ef700028f08,
  dm 0x23b0000023d 0x2c95 0 0x28f0800028f14,
  dm 0x2a1000002a7 0x2c96 0 0x28f1400028f22,
  dm 0x2a1000002a7 0x2c97 0 0x28f2200028f30,
  dm 0x2a1000002a7 0x2c98 0 0x28f3000028f40,
  dm 0x2a1000002a7 0x2c99 0 0x28f4000028f46,
  dm 0x2a1000002a7 0x2c9a 0 0x28f4600028f4f,
  dm 0x2a1000002a7 0x2c9b 0 0x28f4f00028f58,
  dm 0x2a1000002a7 0x2c9c 0 0x28f5800028f69,
  dm 0x2700000027 0x2c9d 0 0x28f6900028f75,
  dm 0x2700000027 0x2c9e 0 0x18000000182,
  dm 0x2a1000002a7 0x2c9f 0 0x18000000182,
  dm 0x2700000027 0x2ca0 0 0x86240000862c,
  dm 0x2700000027 no 0x28f7500028f82 0x28f8200028f8b,
  dm 0x2700000027 no 0x28f8b00028f90 0x28f9000028f99,
  dm 0x2700000027 0x2ca1 0 0x28f9900028fa3,
  dm 0x2700000027 no 0x28fa300028fb1 0x28fb100028fbb,
  dm 0x2700000027 no 0x28fbb00028fc0 0x28fc000028fc9,
  dm 0x2700000027 no 0x28fc900028fce 0x28fce00028fd8,
  dm 0x2700000027 no 0x28fd800028fdd 0x28fdd00028fe6,
  dm 0x2700000027 0x2ca2 0 0x288db000288e3,
  dm 0x2700000027 0x2ca3 0 0x2894d00028955,
  dm 0x2700000027 0x2ca4 0 0x289550002895e,
  dm 0x2700000027 0x2ca5 0 0x86240000862c,
  dm 0x2700000027 0x2ca6 0 0x86240000862c,
  dm 0x2700000027 0x2ca7 0 0x28fe600028ff0,
  dm 0x2700000027 0x2ca8 0 0x18000000182,
  dm 0x2700000027 0x2ca9 0 0x18000000182,
  dm 0x2700000027 0x2caa 0 0x18000000182,
  dm 0x2700000027 no 0x28ff300028ff7 0xb42a0000b42c,
  dm 0x2700000027 no 0x28ff700028ffc 0x28ffc00029004,
  dm 0x2700000027 no 0x2900400029009 0x2900900029010,
  dm 0x2700000027 no 0x2901000029015 0x290150002901c,
  dm 0x2700000027 no 0x2901c00029021 0x2901c00029021,
  dm 0x2700000027 no 0x2902100029026 0x2902100029026,
  dm 0x2700000027 no 0x290260002902b 0x2902b00029031,
  dm 0x2700000027 no 0x2903100029036 0x290360002903d,
  dm 0x2700000027 no 0x2903d00029042 0x2904200029049,
  dm 0x2700000027 no 0x290490002904e 0x290490002904e,
  dm 0x2700000027 no 0x2904e00029055 0x290550002905c,
  dm 0x2700000027 no 0x2905c00029060 0x2906000029068,
  dm 0x2700000027 no 0x290680002906c 0x2906c00029071,
  dm 0x2700000027 no 0x2907100029074 0x2907400029079,
  dm 0x2700000027 0x2cac 0 0x2907900029080,
  dm 0x2700000027 0x2cad 0 0x2908000029084,
  dm 0x2700000027 0x2cae 0 0x290840002908e,
  dm 0x2700000027 0x2caf 0 0x2908e00029097,
  dm 0x2700000027 0x2cb0 0 0x29097000290a0,
  dm 0x2700000027 0x2cb1 0 0x290a0000290a7,
  dm 0x2700000027 0x2cb2 0 0x290a7000290ab,
  dm 0x2700000027 0x2cb3 0 0x290ab000290b6,
  dm 0x2700000027 0x2cb4 0 0x290b6000290bb,
  dm 0x2700000027 0x2cb5 0 0x290bb000290ca,
  dm 0x2700000027 0x2cb6 0 0x290ca000290d5,
  dm 0x2700000027 0x2cb7 0 0x290d5000290d9,
  dm 0x2700000027 0x2cb8 0 0x290d9000290e3,
  dm 0x2700000027 0x2cb9 0 0x290e3000290ec,
  dm 0x2700000027 0x2cba 0 0x290ec000290f5,
  dm 0x2700000027 0x2cbb 0 0x290f5000290fd,
  dm 0x2700000027 0x2cbc 0 0x290fd00029102,
  dm 0x2a1000002a7 no 0x291020002910b 0x2910b00029114,
  dm 0x2a1000002a7 no 0x291140002911b 0x2911b0002911e,
  dm 0 no 0 0x18000000182,
  dm 0 no 0 0x18000000182,
  dm 0 no 0 0x18000000182,
  dm 0x2700000027 0x2cc1 0 0x13d0c00013d13,
  dm 0x2700000027 0x2cc2 0 0x2913200029136,
  dm 0x2700000027 no 0x2913600029141 0x291410002914d,
  dm 0x2700000027 no 0x2914d00029158 0x2915800029165,
  dm 0x2700000027 no 0x2916500029170 0x291700002917b,
  dm 0x2a1000002a7 no 0x2917b00029181 0x2918100029185,
  dm 0 no 0 0x62270000622d,
  dm 0x2700000027 0x2cc5 0 0x2919200029199,
  dm 0x2700000027 no 0x29199000291a1 0x291a1000291a9,
  dm 0x2700000027 0x2cc7 0 0x18000000182,
  dm 0x2a1000002a7 0x2cc8 0 0x18000000182,
  dm 0x7cc000007d6 0x2cc9 0 0x18000000182,
  dm 0x8e00000099 0x2cca 0 0x18000000182,
  dm 0x2700000027 0x2ccb 0 0x18000000182,
  dm 0x2700000027 0x2ccd 0 0x18000000182,
  dm 0x2700000027 0x2cce 0 0x18000000182,
  dm 0x2700000027 no 0x291c2000291cc 0x291cc000291d7,
  dm 0x2700000027 0x2cd0 0 0x291d7000291e4,
  dm 0x2700000027 0x2cd1 0 0x291e4000291f3,
  dm 0x2700000027 0x2cd2 0 0x291f300029203,
  dm 0x2700000027 0x2cd3 0 0x2920300029213,
  dm 0x2700000027 0x2cd4 0 0x2921300029220,
  dm 0x2700000027 0x2cd5 0 0x292200002922b,
  dm 0x2700000027 0x2cd6 0 0x2922b00029235,
  dm 0x2700000027 0x2cd7 0 0x2923500029241,
  dm 0x2700000027 0x2cd8 0 0x2924100029250,
  dm 0x2700000027 0x2cd9 0 0x292500002925c,
  dm 0x2700000027 0x2cda 0 0x2925c00029269,
  dm 0x2700000027 0x2cdb 0 0x2926900029276,
  dm 0x2700000027 0x2cdc 0 0x18000000182,
  dm 0x2700000027 0x2cdd 0 0x18000000182,
  dm 0x2700000027 no 0x2927b00029280 0x2928000029288,
  dm 0x2700000027 no 0x292880002928d 0x2928d00029295,
  dm 0x2700000027 no 0x292950002929a 0x2929a0002929d,
  dm 0x2700000027 no 0x2929d000292a2 0x292a2000292ab,
  dm 0x2700000027 no 0x292ab000292b0 0x291a9000291ae,
  dm 0x2700000027 0x2ce0 0 0x292b9000292c3,
  dm 0 no 0 0x292c9000292cd,
  dm 0xc9b00000ca2 0x2ce3 0 0x18000000182,
  dm 0 no 0 0x18000000182,
  dm 0x2700000027 no 0x292e5000292eb 0x292eb000292f2,
  dm 0x2700000027 no 0x292f700029307 0x293070002931a,
  dm 0x2700000027 no 0x2931a00029325 0x2932500029330,
  dm 0x2700000027 0x2ce8 0 0x17c3300017c39,
  dm 0x2700000027 0x2ce9 0 0x293340002933f,
  dm 0x2700000027 0x2cea 0 0x2933f00029347,
  dm 0x2700000027 0x2ceb 0 0x2934700029353,
  dm 0x2700000027 no 0x2935300029360 0x2935300029360,
  dm 0x2700000027 0x2cec 0 0x2936000029368,
  dm 0x23f00000249 no 0x2936d00029372 0x2937200029377,
  dm 0x2700000027 0x2cee 0 0x18000000182,
  dm 0x2700000027 0x2cf0 0 0x1012500010128,
  dm 0 no 0 0x18000000182,
  dm 0 no 0 0x18000000182,
  dm 0x2700000027 0x2cf4 0 0x293890002938e,
  dm 0x2700000027 0x2cf5 0 0x2938e00029396,
  dm 0x2700000027 0x2cf6 0 0x293960002939c,
  dm 0x2700000027 0x2cf7 0 0x2661a00026621,
  dm 0x2700000027 0x2cf8 0 0x2939c000293a8,
  dm 0x2700000027 0x2cf9 0 0x293a8000293ae,
  dm 0x2700000027 0x2cfa 0 0x293ae000293b5,
  dm 0x2700000027 0x2cfb 0 0x293b5000293bc,
  dm 0x2700000027 0x2cfc 0 0x293bc000293c6,
  dm 0x2700000027 0x2cfd 0 0x95c7000095cd]

/-- `__dr_dm`, from item 15000 on (device_repo.go:17272-17771). -/
def drDm_30 : List ModelTuple := [
  dm 0x2700000027 0x2cfe 0 0x293c6000293cf,
  dm 0x2700000027 0x2cff 0 0x293cf000293d5,
  dm 0x2700000027 0x2d00 0 0x293d5000293dc,
  dm 0x2700000027 0x2d01 0 0x293dc000293e3,
  dm 0x2700000027 0x2d02 0 0x293e3000293eb,
  dm 0x2700000027 0x2d03 0 0x293eb000293f6,
  dm 0x2700000027 0x2d04 0 0x293f600029401,
  dm 0x2700000027 0x2d05 0 0x2940100029408,
  dm 0x2700000027 0x2d06 0 0x2940800029411,
  dm 0x2700000027 0x2d07 0 0x2941100029416,
  dm 0x2700000027 0x2d08 0 0x294160002941d,
  dm 0x2700000027 0x2d09 0 0x2941d00029422,
  dm 0x2700000027 0x2d0a 0 0x294220002942a,
  dm 0x2700000027 0x2d0b 0 0x2942a00029437,
  dm 0x2700000027 0x2d0c 0 0x294370002943d,
  dm 0x2700000027 0x2d0d 0 0x18000000182,
  dm 0x2a1000002a7 no 0x294410002944a 0x2944a00029453,
  dm 0x2700000027 no 0x294530002945b 0x2945b00029463,
  dm 0x2700000027 0x2d0f 0 0x294630002946a,
  dm 0x2700000027 0x2d10 0 0x2946a00029470,
  dm 0x2700000027 no 0x294700002947e 0x2947e0002948c,
  dm 0x2700000027 no 0x2948c00029495 0x294950002949e,
  dm 0x2700000027 no 0x2949e000294a8 0x294a8000294b2,
  dm 0x2700000027 0x2d11 0 0x294b2000294b9,
  dm 0x2700000027 no 0x294b9000294c2 0x294b9000294c2,
  dm 0x2700000027 no 0x294c2000294cc 0x294cc000294d6,
  dm 0x2700000027 no 0x294d6000294e2 0x294d6000294e2,
  dm 0x2700000027 no 0x294e2000294e9 0x294e9000294f0,
  dm 0x2700000027 0x2d12 0 0x294f0000294f7,
  dm 0x2700000027 no 0x294f7000294fd 0x294fd00029503,
  dm 0x2700000027 no 0x2950300029507 0x18e9b00018e9f,
  dm 0x2700000027 0x2d13 0 0x295070002950e,
  dm 0x2700000027 no 0x2950e00029513 0x2951300029518,
  dm 0x2700000027 no 0x2951800029523 0x295230002952e,
  dm 0x2700000027 no 0x2952e0002953a 0x2953a00029546,
  dm 0x2700000027 0x2d14 0 0x2954600029550,
  dm 0x2700000027 no 0x295500002955c 0x2955c00029568,
  dm 0x2700000027 no 0x2956800029573 0x295730002957e,
  dm 0x2700000027 no 0x2957e00029585 0x295850002958c,
  dm 0x2700000027 0x2d15 0 0x1c4b00001c4ba,
  dm 0x2700000027 no 0x2958c00029598 0x2958c00029598,
  dm 0x2700000027 no 0x29598000295a2 0x295a2000295ac,
  dm 0x2700000027 no 0x295ac000295b9 0x295b9000295c7,
  dm 0x2700000027 no 0x295c7000295d3 0x295d3000295e0,
  dm 0x2700000027 no 0x295e0000295e8 0x295e8000295f0,
  dm 0x2700000027 0x2d16 0 0x295f0000295f7,
  dm 0x2700000027 no 0x295f7000295fb 0x295fb000295ff,
  dm 0x2700000027 no 0x295ff00029606 0x296060002960d,
  dm 0x2700000027 0x2d17 0 0x2960d00029616,
  dm 0x2700000027 0x2d18 0 0x296160002961a,
  dm 0x2700000027 0x2d19 0 0x2961a0002961f,
  dm 0x2700000027 no 0x2961f00029624 0x2962400029629,
  dm 0x2700000027 0x2d1a 0 0x18000000182,
  dm 0x2700000027 0x2d1b 0 0x18000000182,
  dm 0x2700000027 0x2d1d 0 0x18000000182,
  dm 0x2700000027 0x2d1e 0 0x18000000182,
  dm 0x2700000027 0x2d1f 0 0x2962d00029635,
  dm 0x2700000027 0x2d20 0 0x2962d00029635,
  dm 0x2700000027 0x2d21 0 0x18000000182,
  dm 0 no 0 0x2963a0002963f,
  dm 0x2700000027 0x2d22 0 0x18000000182,
  dm 0 no 0 0x2965a00029663,
  dm 0 no 0 0x18000000182,
  dm 0x2700000027 no 0x2967100029677 0x2967100029677,
  dm 0x2700000027 0x2d26 0 0x296770002967c,
  dm 0xdfd00000e04 no 0x2967c00029682 0x2967c00029682,
  dm 0 no 0 0x18000000182,
  dm 0 no 0 0x18000000182,
  dm 0 no 0 0x29698000296a1,
  dm 0x2700000027 no 0x296a5000296ad 0x296ad000296ba,
  dm 0x2700000027 no 0x296ba000296c4 0x296c4000296d1,
  dm 0x2700000027 no 0x296d1000296db 0x296db000296e8,
  dm 0x2700000027 no 0x296e8000296f5 0x296f500029702,
  dm 0x2700000027 0x2d2b 0 0x18000000182,
  dm 0x2700000027 0x2d2d 0 0x297040002970e,
  dm 0x2700000027 0x2d2e 0 0x2970e0002971e,
  dm 0x2700000027 0x2d2f 0 0x2971e0002972f,
  dm 0x2700000027 0x2d30 0 0xff400000ff43,
  dm 0x2700000027 0x2d31 0 0x614300006148,
  dm 0x2700000027 0x2d32 0 0x2972f00029736,
  dm 0x2700000027 0x2d33 0 0x297360002973d,
  dm 0x2700000027 0x2d34 0 0x2973d00029744,
  dm 0x2700000027 0x2d35 0 0x297440002974a,
  dm 0x2700000027 0x2d36 0 0x95a1000095a6,
  dm 0x2700000027 0x2d37 0 0x2974a0002974d,
  dm 0x2700000027 0x2d38 0 0x2974d00029756,
  dm 0x2700000027 0x2d39 0 0x8a8900008a8f,
  dm 0x2700000027 0x2d3a 0 0x297560002975d,
  dm 0x2a1000002a7 0x2d3b 0 0x201b2000201b8,
  dm 0x2700000027 0x2d3c 0 0x2975d0002976c,
  dm 0x2a1000002a7 no 0x2976c00029774 0x297740002977f,
  dm 0x2a1000002a7 no 0x2977f00029787 0x2977f00029787,
  dm 0x2a1000002a7 no 0x297870002978f 0x193ae000193b1,
  dm 0x2a1000002a7 no 0x2978f00029797 0x297970002979d,
  dm 0x2a1000002a7 no 0x2979d000297a5 0x297a5000297ab,
  dm 0x2a1000002a7 0x2d3d 0 0x297ab000297b0,
  dm 0x2a1000002a7 no 0x297b0000297b8 0x297b8000297bc,
  dm 0x2a1000002a7 no 0x297bc000297c4 0x297c4000297ca,
  dm 0x2a1000002a7 0x2d3e 0 0x297ca000297d0,
  dm 0x2a1000002a7 no 0x297d0000297da 0x297da000297e5,
  dm 0x2a1000002a7 no 0x297e5000297ed 0x1672500016728,
  dm 0x2a1000002a7 no 0x297ed000297f5 0x42200000425,
  dm 0x2a1000002a7 no 0x297f5000297fd 0x297fd00029802,
  dm 0x2a1000002a7 no 0x2980200029809 0x2980900029810,
  dm 0x2700000027 0x2d3f 0 0x8a8900008a8f,
  dm 0x2700000027 0x2d40 0 0x40b2000040b6,
  dm 0x2700000027 no 0x2981000029818 0x2981800029825,
  dm 0x2700000027 no 0x298250002982d 0x2982d00029837,
  dm 0x2700000027 no 0x298370002983f 0x1c1730001c177,
  dm 0x2700000027 0x2d41 0 0x2983f00029847,
  dm 0x2700000027 0x2d42 0 0x298470002984e,
  dm 0x2700000027 0x2d43 0 0x2984e00029853,
  dm 0x2700000027 0x2d44 0 0x298530002985d,
  dm 0x2700000027 0x2d45 0 0x2985d00029863,
  dm 0x2700000027 0x2d46 0 0x1709a000170a1,
  dm 0x2700000027 0x2d47 0 0x2986300029868,
  dm 0x2700000027 no 0x298680002986f 0x6dd000006dd4,
  dm 0x2700000027 0x2d48 0 0x2986f00029873,
  dm 0x2700000027 0x2d49 0 0x298730002987c,
  dm 0x2700000027 0x2d4a 0 0x2987c00029884,
  dm 0x2700000027 0x2d4b 0 0x298840002988c,
  dm 0x2700000027 0x2d4c 0 0x2988c00029890,
  dm 0x2700000027 0x2d4d 0 0x2989000029894,
  dm 0x2700000027 0x2d4e 0 0x4c6700004c6b,
  dm 0x2700000027 0x2d4f 0 0x29894000298a2,
  dm 0x2700000027 0x2d50 0 0x298a2000298a7,
  dm 0x2700000027 0x2d51 0 0x298a7000298b0,
  dm 0x2700000027 0x2d52 0 0x298b0000298c3,
  dm 0x2700000027 0x2d53 0 0x2970e0002971e,
  dm 0x2700000027 0x2d54 0 0x298c3000298cb,
  dm 0x2700000027 0x2d55 0 0x298cb000298d3,
  dm 0x2700000027 0x2d56 0 0x298d3000298e4,
  dm 0x2700000027 0x2d57 0 0x298e4000298ea,
  dm 0x2700000027 0x2d58 0 0x298ea000298ee,
  dm 0x2700000027 0x2d59 0 0x298ee000298f7,
  dm 0x2700000027 0x2d5a 0 0xbcce0000bcd4,
  dm 0x2700000027 0x2d5b 0 0x298f7000298ff,
  dm 0x2700000027 0x2d5c 0 0x298ff00029908,
  dm 0x2700000027 0x2d5d 0 0xda600000dad,
  dm 0x2700000027 0x2d5e 0 0x2990800029910,
  dm 0x2700000027 0x2d5f 0 0x299100002991b,
  dm 0x2700000027 0x2d60 0 0x2991b00029926,
  dm 0x2700000027 0x2d61 0 0x299260002992c,
  dm 0x2700000027 0x2d62 0 0x2992c00029933,
  dm 0x2700000027 0x2d63 0 0x2993300029940,
  dm 0x2700000027 0x2d64 0 0x201b2000201b8,
  dm 0x2700000027 0x2d65 0 0x299400002994a,
  dm 0x2700000027 0x2d66 0 0x59f4000059f9,
  dm 0x2700000027 0x2d67 0 0x2994a00029951,
  dm 0x2700000027 0x2d68 0 0x2995100029957,
  dm 0x2700000027 0x2d69 0 0x299570002995b,
  dm 0x2700000027 0x2d6a 0 0x2995b00029961,
  dm 0x2700000027 0x2d6b 0 0x2996100029967,
  dm 0x2700000027 0x2d6c 0 0x2996700029971,
  dm 0x2700000027 0x2d6d 0 0x299710002997d,
  dm 0x2700000027 0x2d6e 0 0x2997d0002998e,
  dm 0x2700000027 0x2d6f 0 0x2998e00029996,
  dm 0x2700000027 0x2d70 0 0x95a1000095a6,
  dm 0x2700000027 0x2d71 0 0x299960002999d,
  dm 0x2700000027 0x2d72 0 0x2999d000299a7,
  dm 0x2700000027 0x2d73 0 0x59c9000059d0,
  dm 0x2700000027 0x2d74 0 0x134f0000134f5,
  dm 0x2700000027 no 0x299a7000299af 0x299af000299b4,
  dm 0x2700000027 no 0x299b4000299bc 0x299bc000299c0,
  dm 0x2700000027 no 0x299c0000299c7 0x299c7000299cb,
  dm 0x2700000027 0x2d75 0 0x1354400013548,
  dm 0x2700000027 0x2d76 0 0x4c6700004c6b,
  dm 0x2700000027 0x2d77 0 0x299cb000299da,
  dm 0x2700000027 0x2d78 0 0x299da000299e0,
  dm 0x2700000027 0x2d79 0 0x299e0000299e5,
  dm 0x2700000027 0x2d7a 0 0x299e5000299ef,
  dm 0x2700000027 0x2d7b 0 0x8d1100008d18,
  dm 0x2700000027 0x2d7c 0 0x299ef000299f7,
  dm 0x2700000027 0x2d7d 0 0x299f7000299fb,
  dm 0x2700000027 0x2d7e 0 0x299fb00029a00,
  dm 0x2700000027 0x2d7f 0 0x2996100029967,
  dm 0x2700000027 0x2d80 0 0x29a0000029a04,
  dm 0x2700000027 0x2d81 0 0x29a0400029a0c,
  dm 0x2700000027 0x2d82 0 0x29a0c00029a17,
  dm 0x2700000027 0x2d83 0 0x29a1700029a1b,
  dm 0x2700000027 0x2d84 0 0x29a1b00029a26,
  dm 0x2700000027 0x2d85 0 0x29a2600029a2c,
  dm 0x2700000027 0x2d86 0 0x59e1000059e6,
  dm 0x2700000027 no 0x29a2c00029a34 0x29a3400029a40,
  dm 0x2700000027 no 0x29a4000029a48 0xc0770000c07b,
  dm 0x2700000027 0x2d87 0 0x29a4800029a4e,
  dm 0x2700000027 0x2d88 0 0x2154300021548,
  dm 0x2700000027 0x2d89 0 0xbd530000bd57,
  dm 0x2700000027 0x2d8a 0 0x29a4e00029a59,
  dm 0x2700000027 0x2d8b 0 0x29a5900029a60,
  dm 0x2700000027 0x2d8c 0 0x2386200023867,
  dm 0x2700000027 0x2d8d 0 0x29a6000029a69,
  dm 0x2700000027 0x2d8e 0 0x2974a0002974d,
  dm 0x2700000027 0x2d8f 0 0x29a6900029a70,
  dm 0x2700000027 0x2d90 0 0x29a7000029a7a,
  dm 0x2700000027 0x2d91 0 0x29a7a00029a81,
  dm 0x2700000027 0x2d92 0 0x29a8100029a86,
  dm 0x2700000027 0x2d93 0 0x29a8600029a8b,
  dm 0x2700000027 0x2d94 0 0x29a8b00029a90,
  dm 0x2700000027 0x2d95 0 0x29a9000029a98,
  dm 0x2700000027 0x2d96 0 0x29a9800029a9e,
  dm 0x2700000027 0x2d97 0 0x29a9e00029aa4,
  dm 0x2700000027 0x2d98 0 0x29aa400029aac,
  dm 0x2700000027 0x2d99 0 0x29aac00029ab5,
  dm 0x2700000027 0x2d9a 0 0x19b0f00019b14,
  dm 0x2700000027 0x2d9b 0 0x29ab500029ab9,
  dm 0x2700000027 0x2d9c 0 0x9fef00009ff4,
  dm 0x2700000027 0x2d9d 0 0x29ab900029ac1,
  dm 0x2700000027 0x2d9e 0 0x1845a0001845d,
  dm 0x2700000027 0x2d9f 0 0x2393300023939,
  dm 0x2700000027 0x2da0 0 0x29ac100029aca,
  dm 0x2700000027 0x2da1 0 0x214ba000214c0,
  dm 0x2700000027 0x2da2 0 0x29aca00029ad2,
  dm 0x2700000027 0x2da3 0 0x29ad200029ada,
  dm 0x2700000027 0x2da4 0 0x29ada00029adf,
  dm 0x2700000027 0x2da5 0 0x29adf00029ae7,
  dm 0x2700000027 no 0x29ae700029af7 0x29af700029afe,
  dm 0x2700000027 0x2da6 0 0x29afe00029b06,
  dm 0x2700000027 0x2da7 0 0x29b0600029b0d,
  dm 0x2700000027 0x2da8 0 0x29b0d00029b17,
  dm 0x2700000027 0x2da9 0 0x29b1700029b22,
  dm 0x2700000027 0x2daa 0 0x29b2200029b25,
  dm 0x2700000027 0x2dab 0 0x207860002078b,
  dm 0x2700000027 0x2dac 0 0x29b2500029b2c,
  dm 0x2700000027 0x2dad 0 0x29b2c00029b34,
  dm 0x2700000027 0x2dae 0 0x29b3400029b3c,
  dm 0x2700000027 0x2daf 0 0x29b3c00029b41,
  dm 0x2700000027 0x2db0 0 0x29b4100029b4b,
  dm 0x2700000027 0x2db1 0 0x29b4b00029b51,
  dm 0x2700000027 0x2db2 0 0x29b5100029b55,
  dm 0x2700000027 0x2db3 0 0x29b5500029b5b,
  dm 0x2700000027 0x2db4 0 0x29b5b00029b65,
  dm 0x2700000027 0x2db5 0 0x29b6500029b6b,
  dm 0x2a1000002a7 0x2db6 0 0x29b6b00029b79,
  dm 0x2a1000002a7 no 0x29b7900029b81 0x29b8100029b8d,
  dm 0x2a1000002a7 0x2db7 0 0x29b8d00029b97,
  dm 0x2a1000002a7 0x2db8 0 0x29b9700029ba5,
  dm 0x2a1000002a7 0x2db9 0 0x29ba500029bae,
  dm 0x2a1000002a7 0x2dba 0 0x29bae00029bbb,
  dm 0x2a1000002a7 0x2dbb 0 0x29bbb00029bc2,
  dm 0x2a1000002a7 0x2dbc 0 0x29bc200029bc9,
  dm 0x2a1000002a7 0x2dbd 0 0x29bc900029bcf,
  dm 0x2a1000002a7 0x2dbe 0 0x29bcf00029bd4,
  dm 0x2a1000002a7 0x2dbf 0 0x29bd400029bde,
  dm 0x2700000027 0x2dc0 0 0x29bde00029beb,
  dm 0x2700000027 0x2dc1 0 0x2985d00029863,
  dm 0x2700000027 0x2dc2 0 0x233460002334d,
  dm 0x2700000027 0x2dc3 0 0x191380001913c,
  dm 0x2a1000002a7 0x2dc4 0 0x18000000182,
  dm 0x2a1000002a7 0x2dc5 0 0x29beb00029bef,
  dm 0x2a1000002a7 no 0x29bef00029bf7 0x29bf700029c05,
  dm 0x2a1000002a7 no 0x29c0500029c0d 0x29c0d00029c17,
  dm 0x2a1000002a7 0x2dc6 0 0x29c1700029c1b,
  dm 0x2a1000002a7 0x2dc7 0 0x29c1b00029c23,
  dm 0x2a1000002a7 0x2dc8 0 0x29c2300029c28,
  dm 0x2a1000002a7 0x2dc9 0 0x29c2800029c2f,
  dm 0x2a1000002a7 0x2dca 0 0xb6c90000b6cf,
  dm 0x2a1000002a7 0x2dcb 0 0x29c2f00029c34,
  dm 0x2a1000002a7 0x2dcc 0 0x29c3400029c39,
  dm 0x2a1000002a7 0x2dcd 0 0x29c3900029c43,
  dm 0x2a1000002a7 0x2dce 0 0x23e4000023e4a,
  dm 0x2a1000002a7 0x2dcf 0 0x1914200019146,
  dm 0x2a1000002a7 0x2dd0 0 0x29c4300029c4e,
  dm 0x2a1000002a7 0x2dd1 0 0x29c4e00029c54,
  dm 0x2a1000002a7 0x2dd2 0 0x14c9700014c9c,
  dm 0x2a1000002a7 0x2dd3 0 0x29c5400029c5a,
  dm 0x2a1000002a7 0x2dd4 0 0x29c5a00029c5f,
  dm 0x2a1000002a7 0x2dd5 0 0x29c5f00029c69,
  dm 0x2a1000002a7 0x2dd6 0 0x29c6900029c6d,
  dm 0x2a1000002a7 0x2dd7 0 0x29c6d00029c72,
  dm 0x2a1000002a7 0x2dd8 0 0x29c7200029c80,
  dm 0x2a1000002a7 0x2dd9 0 0x29c8000029c89,
  dm 0x2a1000002a7 0x2dda 0 0x29c8900029c92,
  dm 0x2a1000002a7 0x2ddb 0 0x29c9200029c9b,
  dm 0x2a1000002a7 0x2ddc 0 0x29c3400029c39,
  dm 0x2a1000002a7 0x2ddd 0 0x29c9b00029ca3,
  dm 0x2700000027 0x2dde 0 0x29bd400029bde,
  dm 0x2700000027 0x2ddf 0 0x29ca300029caa,
  dm 0x23b0000023d no 0x29caa00029cb5 0x29cb500029cbd,
  dm 0x23b0000023d 0x2de0 0 0x18000000182,
  dm 0x23b0000023d no 0x29cbd00029cc8 0x2700000027,
  dm 0x2a1000002a7 0x2de1 0 0x18000000182,
  dm 0x2a1000002a7 no 0x29ccd00029cdd 0x29cdd00029ce8,
  dm 0x2a1000002a7 0x2de3 0 0x18000000182,
  dm 0x2700000027 0x2de5 0 0x29ced00029cff,
  dm 0x2700000027 0x2de6 0 0x18000000182,
  dm 0x2700000027 0x2de7 0 0x29cff00029d13,
  dm 0x2700000027 no 0x29d1300029d1e 0x29d1e00029d23,
  dm 0x2700000027 no 0x29d2300029d37 0x29d3700029d4b,
  dm 0x2700000027 no 0x29d4b00029d64 0x29d6400029d77,
  dm 0x2700000027 no 0x29d7700029d8e 0x29d8e00029da2,
  dm 0x2700000027 no 0x29da200029dbd 0x29dbd00029dd2,
  dm 0x2700000027 0x2de8 0 0x29dd200029dd9,
  dm 0x2700000027 0x2de9 0 0x18000000182,
  dm 0x23f00000249 no 0x29dd900029de0 0x29de000029de7,
  dm 0x23f00000249 no 0x29de700029df2 0x29df200029dfd,
  dm 0 no 0 0x18000000182,
  dm 0 no 0 0x18000000182,
  dm 0x2700000027 0x2ded 0 0x18000000182,
  dm 0x2700000027 no 0x29e1100029e24 0x29e1100029e24,
  dm 0x39a000003a7 no 0x29e2400029e34 0x29e3400029e3d,
  dm 0 no 0 0x18000000182,
  dm 0x2700000027 0x2df1 0 0x18000000182,
  dm 0x2a1000002a7 no 0x29e4900029e55 0x29e5500029e61,
  dm 0x2700000027 0x2df3 0 0x29e6600029e6f,
  dm 0x2700000027 0x2df4 0 0x29e6f00029e78,
  dm 0x2700000027 0x2df5 0 0x29e7800029e82,
  dm 0xdfd00000e04 0x2df6 0 0x29e8200029e8d,
  dm 0x2a1000002a7 0x2df7 0 0x29e8d00029e94,
  dm 0x2a1000002a7 0x2df8 0 0x29e9400029e9a,
  dm 0x2a1000002a7 0x2df9 0 0x29e9a00029e9e,
  dm 0x2700000027 0x2dfa 0 0x29e9e00029ea7,
  dm 0x2700000027 0x2dfb 0 0x18000000182,
  dm 0 no 0 0x18000000182,
  dm 0x2a1000002a7 0x2dfe 0 0x18000000182,
  dm 0x23f00000249 0x2dff 0 0x29eb500029ebf,
  dm 0x23f00000249 0x2e00 0 0x29ebf00029ec9,
  dm 0x23f00000249 0x2e01 0 0x29ec900029ed1,
  dm 0x23f00000249 0x2e02 0 0x29ed100029ed6,
  dm 0x23f00000249 no 0x29ed600029ede 0x29ede00029ee6,
  dm 0x23f00000249 no 0x29ee600029ef1 0x29ef100029efc,
  dm 0x23f00000249 0x2e03 0 0x18000000182,
  dm 0x2700000027 0x2e04 0 0x18000000182,
  dm 0x2700000027 0x2e05 0 0x18000000182,
  dm 0x23f00000249 no 0x29f0100029f0d 0x29f0100029f0d,
  dm 0x23f00000249 no 0x29f0d00029f1d 0x29f0d00029f1d,
  dm 0x2700000027 0x2e07 0 0x18000000182,
  dm 0x2700000027 0x2e08 0 0x262480002624d,
  dm 0x2700000027 0x2e09 0 0x29f1d00029f29,
  dm 0x2700000027 no 0x29f2900029f32 0x29f3200029f41,
  dm 0x2700000027 0x2e0a 0 0x29f4100029f52,
  dm 0x2700000027 0x2e0b 0 0x29f5200029f5a,
  dm 0x2700000027 no 0x29f5a00029f63 0x29f6300029f6c,
  dm 0x2700000027 no 0x29f6c00029f79 0x29f7900029f86,
  dm 0x2700000027 0x2e0c 0 0x29f8600029f8e,
  dm 0x2700000027 0x2e0d 0 0x29f8e00029f99,
  dm 0x2700000027 0x2e0e 0 0x29f9900029fa9,
  dm 0x2700000027 0x2e0f 0 0x29fa900029fb8,
  dm 0x2700000027 0x2e10 0 0x18000000182,
  dm 0x2a1000002a7 0x2e12 0 0x18000000182,
  dm 0x2700000027 0x2e13 0 0x18000000182,
  dm 0x2700000027 no 0x29fc300029fd2 0x29fc300029fd2,
  dm 0x2700000027 0x2e15 0 0xd5700000d5a,
  dm 0x2700000027 no 0x29fd200029fd8 0x29fd800029fdf,
  dm 0x2700000027 0x2e16 0 0x29fdf00029fe6,
  dm 0x2700000027 0x2e17 0 0x29fe600029fef,
  dm 0x2700000027 0x2e18 0 0x247400002479,
  dm 0x2700000027 0x2e19 0 0x29fef00029ff9,
  dm 0x2700000027 0x2e1a 0 0x29ff90002a000,
  dm 0x2700000027 no 0x2a0000002a006 0x2a0060002a00d,
  dm 0x2700000027 0x2e1b 0 0x2a00d0002a011,
  dm 0x2700000027 no 0x2a0160002a01c 0x2a01c0002a022,
  dm 0x2700000027 0x2e1d 0 0x18000000182,
  dm 0 no 0 0x2a0270002a031,
  dm 0x2700000027 no 0x2a0370002a040 0x2a0400002a049,
  dm 0x2700000027 no 0x2a0490002a051 0x2a0490002a051,
  dm 0x2700000027 0x2e20 0 0x2a0510002a058,
  dm 0 no 0 0x19c0900019c10,
  dm 0x2700000027 0x2e23 0 0x2a0600002a06a,
  dm 0x2700000027 0x2e24 0 0x4c4f00004c57,
  dm 0x23f00000249 no 0x2a06a0002a072 0x2a0720002a081,
  dm 0 no 0 0x2a08b0002a092,
  dm 0x2a1000002a7 0x2e27 0 0x2a0970002a0ab,
  dm 0x2a1000002a7 no 0x2a0ab0002a0bb 0x2a0bb0002a0cb,
  dm 0x2700000027 no 0x2a0cb0002a0d7 0x2a0d70002a0e3,
  dm 0x2700000027 no 0x2a0e30002a0f1 0x2a0f10002a101,
  dm 0x2700000027 0x2e28 0 0x2a1010002a110,
  dm 0x2700000027 no 0x2a1100002a121 0x2a1210002a134,
  dm 0x2700000027 no 0x2a1340002a13e 0x2a13e0002a146,
  dm 0x2700000027 0x2e29 0 0x2a1460002a150,
  dm 0x2700000027 0x2e2a 0 0x2a1500002a160,
  dm 0x2700000027 no 0x2a1600002a173 0x2a1730002a186,
  dm 0x2700000027 0x2e2b 0 0x2a1860002a19a,
  dm 0x2700000027 no 0x2a19a0002a1b2 0x2a19a0002a1b2,
  dm 0x2700000027 no 0x2a1b20002a1c1 0x2a1c10002a1d0,
  dm 0x2700000027 0x2e2c 0 0x2a1d00002a1db,
  dm 0x2700000027 no 0x2a1db0002a1e5 0x2a1e50002a1ef,
  dm 0x2700000027 no 0x2a1ef0002a1fa 0x2a1fa0002a205,
  dm 0x2700000027 no 0x2a2050002a20d 0x2a2050002a20d,
  dm 0x2700000027 0x2e2d 0 0x2a20d0002a214,
  dm 0x2700000027 no 0x2a2140002a21b 0x2a21b0002a222,
  dm 0x2700000027 no 0x2a2220002a22c 0x299570002995b,
  dm 0x2700000027 no 0x2a22c0002a236 0x2a22c0002a236,
  dm 0x2700000027 no 0x2a2360002a248 0x2a2480002a25c,
  dm 0x2700000027 no 0x2a25c0002a26e 0x2a25c0002a26e,
  dm 0x2700000027 no 0x2a26e0002a284 0x2a2840002a29c,
  dm 0x2700000027 no 0x2a29c0002a2aa 0x2a2aa0002a2bd,
  dm 0x2700000027 no 0x2a2bd0002a2cd 0x2a2cd0002a2dd,
  dm 0x2700000027 no 0x2a2dd0002a2e9 0x2a2dd0002a2e9,
  dm 0x2700000027 no 0x2a2e90002a2f9 0x2a2f90002a30b,
  dm 0x2700000027 no 0x2a30b0002a31c 0x2a31c0002a32f,
  dm 0x2700000027 no 0x2a32f0002a33b 0x2a33b0002a347,
  dm 0x2700000027 0x2e2e 0 0x2a3470002a34f,
  dm 0x2700000027 no 0x2a34f0002a356 0x2a3560002a35d,
  dm 0x2700000027 no 0x2a35d0002a36a 0x2a36a0002a379,
  dm 0x2700000027 0x2e2f 0 0x2a3790002a38e,
  dm 0x2700000027 no 0x2a38e0002a39f 0x2a39f0002a3b2,
  dm 0x2700000027 0x2e30 0 0x2a3b20002a3bb,
  dm 0x2700000027 0x2e31 0 0x87b3000087bb,
  dm 0x2700000027 no 0x2a3bb0002a3d1 0x2a3d10002a3e9,
  dm 0x2700000027 0x2e32 0 0x18000000182,
  dm 0 no 0 0x18000000182,
  dm 0 no 0 0x18000000182,
  dm 0 no 0 0x2a3f80002a403,
  dm 0x2700000027 0x2e37 0 0x4fe400004feb,
  dm 0x2700000027 0x2e38 0 0x18000000182,
  dm 0 no 0 0x18000000182,
  dm 0x2700000027 no 0x2a4100002a41a 0x2a41a0002a424,
  dm 0x2700000027 0x2e3b 0 0x2a4240002a42b,
  dm 0x2700000027 0x2e3c 0 0x18000000182,
  dm 0x2700000027 no 0x2a42b0002a435 0x2a42b0002a435,
  dm 0x23f00000249 0x2e3d 0 0x2a4350002a43e,
  dm 0x23f00000249 0x2e3e 0 0x2a43e0002a447,
  dm 0x2700000027 no 0x2a44a0002a450 0x2a4500002a457,
  dm 0x2700000027 no 0x2a4570002a460 0x2a4600002a46a,
  dm 0x2700000027 0x2e40 0 0x2a46a0002a470,
  dm 0x2700000027 0x2e41 0 0x2a4700002a478,
  dm 0 no 0 0x18000000182,
  dm 0x2700000027 no 0x2a4810002a48e 0x2a48e0002a495,
  dm 0x2700000027 no 0x2a4950002a49b 0x2a49b0002a4a1,
  dm 0x2700000027 no 0x2a4a10002a4ad 0x2a4ad0002a4b9,
  dm 0x2700000027 0x2e45 0 0x18000000182,
  dm 0x2700000027 0x2e46 0 0x2a4bd0002a4c5,
  dm 0 no 0 0x18000000182,
  dm 0x2700000027 no 0x2a4cf0002a4d8 0x2a4d80002a4df,
  dm 0x2700000027 0x2e4a 0 0x2a4e30002a4e6,
  dm 0x2700000027 0x2e4b 0 0x2a4e60002a4ea,
  dm 0x2700000027 0x2e4c 0 0x2a4ea0002a4f1,
  dm 0x2700000027 0x2e4d 0 0x2a4f10002a4f4,
  dm 0x2a1000002a7 0x2e4e 0 0x2a4f40002a4fe,
  dm 0x2700000027 0x2e4f 0 0x18000000182,
  dm 0x2700000027 no 0x2a5080002a513 0x2a5130002a51a,
  dm 0x2700000027 no 0x2a51a0002a520 0x16d1f00016d20,
  dm 0x2700000027 no 0x2a5200002a526 0x403d0000403f,
  dm 0x2700000027 no 0x2a52c0002a531 0x2a52c0002a531,
  dm 0x2700000027 no 0x2a5310002a53c 0x2a53c0002a547,
  dm 0x2700000027 no 0x2a5470002a54e 0x2a54e0002a555,
  dm 0x2700000027 0x2e52 0 0x2a5550002a55e,
  dm 0x2700000027 0x2e53 0 0x18000000182,
  dm 0x2700000027 0x2e54 0 0x18000000182,
  dm 0x2700000027 0x2e55 0 0x18000000182,
  dm 0 no 0 0x18000000182,
  dm 0x2700000027 0x2e57 0 0x18000000182,
  dm 0x2700000027 no 0x2a5780002a582 0x2a5820002a587,
  dm 0x2700000027 no 0x2a5870002a590 0x2a5900002a59a,
  dm 0x2700000027 0x2e59 0 0x2a59a0002a5a4,
  dm 0x2700000027 0x2e5a 0 0x2a5a40002a5ac,
  dm 0x2700000027 no 0x2a5ac0002a5b4 0x2a5b40002a5bd,
  dm 0x2700000027 no 0x2a5bd0002a5c4 0x2a5c40002a5cc,
  dm 0x2700000027 no 0x2a5cc0002a5d3 0x2a5cc0002a5d3,
  dm 0x2700000027 0x2e5b 0 0x2a5d30002a5db,
  dm 0x2700000027 no 0x2a5db0002a5e6 0x2a5e60002a5f2,
  dm 0x2700000027 no 0x2a5f20002a5f8 0x2a5f80002a5ff,
  dm 0x2700000027 no 0x2a5ff0002a606 0x2a6060002a60e,
  dm 0x2700000027 no 0x2a60e0002a619 0x2a6190002a625,
  dm 0x2700000027 no 0x2a6250002a62c 0x2a62c0002a634,
  dm 0x2700000027 no 0x2a6340002a63a 0x2a63a0002a641,
  dm 0x2700000027 no 0x2a6410002a648 0x2a6480002a650,
  dm 0x2700000027 no 0x2a6500002a65b 0x2a65b0002a667,
  dm 0x2700000027 no 0x2a6670002a66d 0x2a66d0002a674,
  dm 0x2700000027 no 0x2a6740002a67c 0x2a67c0002a685,
  dm 0x2700000027 no 0x2a6850002a68b 0x2a6850002a68b,
  dm 0x2700000027 0x2e5c 0 0x2a68b0002a696,
  dm 0x2700000027 0x2e5d 0 0x2a6960002a69e,
  dm 0x2700000027 0x2e5e 0 0x18000000182,
  dm 0x2a1000002a7 no 0x2a69e0002a6a3 0x2a6a30002a6a9,
  dm 0x2700000027 0x2e60 0 0x18000000182,
  dm 0x2700000027 0x2e61 0 0x18000000182,
  dm 0 no 0 0x2a6b50002a6bd,
  dm 0 no 0 0x18000000182,
  dm 0x2700000027 0x2e65 0 0x2a6c80002a6d1,
  dm 0x2700000027 0x2e66 0 0x18000000182,
  dm 0x2700000027 0x2e67 0 0x18000000182,
  dm 0x2700000027 0x2e69 0 0x18000000182,
  dm 0x23f00000249 0x2e6a 0 0x18000000182,
  dm 0x2700000027 0x2e6c 0 0x2a6db0002a6e0,
  dm 0x2700000027 0x2e6d 0 0x2a6e00002a6e6,
  dm 0x2700000027 0x2e6e 0 0x2a6e60002a6ea,
  dm 0x2700000027 0x2e6f 0 0x2a6ea0002a6ee,
  dm 0x2700000027 0x2e70 0 0x13c4800013c4e,
  dm 0x2700000027 0x2e71 0 0x2a6ee0002a6f5,
  dm 0x2700000027 0x2e72 0 0x1500a0001500d,
  dm 0x2700000027 0x2e73 0 0x97e9000097ee,
  dm 0x2700000027 0x2e75 0 0x18000000182,
  dm 0x2700000027 0x2e76 0 0x2a7010002a706,
  dm 0 no 0 0x18000000182,
  dm 0xdfd00000e04 no 0x2a70f0002a714 0x251d9000251dc,
  dm 0xdfd00000e04 no 0x2a7140002a719 0x251e2000251e9,
  dm 0x2700000027 no 0x2a7190002a71e 0x2a71e0002a726,
  dm 0x2700000027 no 0x2a7260002a72c 0x2a72c0002a72f,
  dm 0x2700000027 no 0x2a72f0002a735 0x2a7350002a738,
  dm 0x2700000027 no 0x2a7380002a73d 0x17a2100017a24,
  dm 0x2700000027 no 0x2a73d0002a743 0x2a7430002a74a,
  dm 0x2700000027 no 0x2a74a0002a74f 0x2a74f0002a752,
  dm 0x2700000027 no 0x2a7520002a757 0x2a7570002a75b,
  dm 0x2700000027 no 0x2a75b0002a761 0x2a7610002a764,
  dm 0x2700000027 0x2e79 0 0x2a7640002a767,
  dm 0x2700000027 no 0x2a7670002a76d 0x2a76d0002a771,
  dm 0x2700000027 no 0x2a7710002a777 0x2a7770002a77b,
  dm 0x2700000027 no 0x2a77b0002a780 0x17a9700017a9a]

/-- `__dr_dm`, from item 15500 on (device_repo.go:17772-18271). -/
def drDm_31 : List ModelTuple := [
  dm 0x2700000027 no 0x2a7800002a785 0x19980000199b,
  dm 0x2700000027 no 0x2a7850002a78a 0x2a78a0002a78d,
  dm 0x2700000027 no 0x2a78d0002a792 0x2a7920002a795,
  dm 0x2700000027 no 0x2a7950002a79a 0x3d7000003dc,
  dm 0x2700000027 no 0x2a79a0002a79f 0x17a6600017a69,
  dm 0x2700000027 no 0x2a79f0002a7a4 0x2a7a40002a7a7,
  dm 0x2700000027 no 0x2a7a70002a7ac 0x23e0400023e0c,
  dm 0x2700000027 no 0x2a7ac0002a7b2 0x2a7b20002a7b6,
  dm 0x2700000027 0x2e7a 0 0x24f9f00024fa2,
  dm 0x2700000027 0x2e7b 0 0x2a7b60002a7be,
  dm 0x2700000027 0x2e7c 0 0x2a7be0002a7cb,
  dm 0x2700000027 no 0x2a7cb0002a7d0 0x24fc200024fc5,
  dm 0x2700000027 no 0x2a7d00002a7d5 0xc4140000c417,
  dm 0x2700000027 no 0x2a7d50002a7da 0x252130002521a,
  dm 0x2700000027 0x2e7d 0 0x2a7da0002a7dd,
  dm 0x2700000027 no 0x2a7dd0002a7e2 0x2a7e20002a7e9,
  dm 0x2700000027 no 0x2a7e90002a7ee 0x2a7ee0002a7f1,
  dm 0x2700000027 no 0x2a7f10002a7f6 0x2a7f60002a7f9,
  dm 0x2700000027 no 0x2a7f90002a7fe 0x2a7fe0002a802,
  dm 0x2700000027 no 0x2a8020002a807 0x2a8070002a80b,
  dm 0x2700000027 no 0x2a80b0002a810 0x2a8100002a816,
  dm 0x2700000027 no 0x2a8160002a81b 0x2a81b0002a81e,
  dm 0x2700000027 no 0x2a81e0002a823 0x2a8230002a827,
  dm 0x2700000027 no 0x2a8270002a82c 0x2a82c0002a834,
  dm 0x2700000027 no 0x2a8340002a839 0x2a8390002a840,
  dm 0x2700000027 no 0x2a8400002a845 0x2a8450002a848,
  dm 0x2700000027 no 0x2a8480002a84e 0x179ca000179cd,
  dm 0x2700000027 no 0x2a84e0002a853 0x2a8530002a85b,
  dm 0x2700000027 no 0x2a85b0002a860 0x2a8600002a863,
  dm 0x2700000027 no 0x2a8630002a868 0x2a8680002a86b,
  dm 0x2700000027 no 0x2a86b0002a871 0x2a8710002a874,
  dm 0x2700000027 no 0x2a8740002a879 0x2a8790002a87c,
  dm 0x2700000027 0x2e7e 0 0x2a87c0002a884,
  dm 0x2700000027 no 0x2a8840002a889 0x2a8890002a890,
  dm 0x2700000027 no 0x2a8900002a895 0x2a8950002a898,
  dm 0x2700000027 no 0x2a8980002a89d 0x2a89d0002a8a0,
  dm 0x2700000027 no 0x2a8a00002a8a5 0x2a8a50002a8a8,
  dm 0x2700000027 no 0x2a8a80002a8ae 0x2a8ae0002a8b5,
  dm 0x2700000027 no 0x2a8b50002a8ba 0x17a0e00017a11,
  dm 0x2700000027 no 0x2a8ba0002a8bf 0x2a8bf0002a8c3,
  dm 0x2700000027 no 0x2a8c30002a8c9 0x2a8c90002a8d0,
  dm 0x2700000027 no 0x2a8d00002a8d6 0x251b7000251be,
  dm 0x2700000027 0x2e7f 0 0x251e2000251e9,
  dm 0x2700000027 no 0x2a8d60002a8dc 0x2a8dc0002a8e0,
  dm 0x2700000027 0x2e80 0 0x2a8e00002a8e7,
  dm 0x2700000027 no 0x2a8e70002a8ed 0x2a8ed0002a8f4,
  dm 0x2700000027 no 0x2a8f40002a8f9 0x2a8f90002a8fc,
  dm 0x2700000027 no 0x2a8fc0002a902 0x2a8a50002a8a8,
  dm 0x2700000027 no 0x2a9020002a907 0x2a9070002a90a,
  dm 0x2700000027 no 0x2a90a0002a90f 0x2a90f0002a912,
  dm 0x2700000027 no 0x2a9120002a918 0x2a9180002a91f,
  dm 0x2700000027 no 0x2a91f0002a925 0x2a9250002a92c,
  dm 0x2700000027 no 0x2a92c0002a931 0x17ad400017ad7,
  dm 0x2700000027 no 0x2a9310002a936 0x2a9360002a93e,
  dm 0x2700000027 no 0x2a93e0002a944 0x2a9440002a948,
  dm 0x2700000027 no 0x2a9480002a94e 0x2a94e0002a951,
  dm 0x2700000027 no 0x2a9510002a956 0x2a9560002a95a,
  dm 0x2700000027 no 0x2a95a0002a95f 0x2a95f0002a967,
  dm 0x2700000027 no 0x2a9670002a96c 0x2a96c0002a973,
  dm 0x2700000027 0x2e81 0 0x2a9730002a97a,
  dm 0x2700000027 no 0x2a97a0002a97f 0x2a97f0002a987,
  dm 0x2700000027 no 0x2a9870002a98d 0x17a2700017a2a,
  dm 0x2700000027 no 0x2a98d0002a992 0x17a9400017a97,
  dm 0x2700000027 no 0x2a9920002a997 0x17aba00017abd,
  dm 0x2700000027 0x2e82 0 0x166570001665a,
  dm 0x2700000027 0x2e83 0 0x9ad000009ad3,
  dm 0x2700000027 no 0x2a9970002a99c 0x2a99c0002a9a0,
  dm 0x2700000027 no 0x2a9a00002a9a5 0x2a9a50002a9ad,
  dm 0x2700000027 0x2e84 0 0x2a9ad0002a9ba,
  dm 0x2700000027 no 0x2a9ba0002a9bf 0x2a9bf0002a9c6,
  dm 0x2700000027 no 0x2a9c60002a9cb 0x2a9cb0002a9d4,
  dm 0x2700000027 no 0x2a9d40002a9d9 0x2a9d90002a9e6,
  dm 0x2700000027 no 0x2a9e60002a9eb 0x2a9eb0002a9f7,
  dm 0x2700000027 no 0x2a9f70002a9fc 0xf11d0000f125,
  dm 0x2700000027 no 0x2a9fc0002aa05 0x2a9fc0002aa05,
  dm 0x2700000027 0x2e85 0 0x2aa050002aa0d,
  dm 0x2700000027 0x2e86 0 0x2aa050002aa0d,
  dm 0x2700000027 0x2e87 0 0x2aa0d0002aa11,
  dm 0x2700000027 0x2e88 0 0x2aa110002aa1a,
  dm 0x2700000027 0x2e89 0 0x2aa1a0002aa22,
  dm 0x2700000027 0x2e8a 0 0x18000000182,
  dm 0x2a1000002a7 no 0x2aa220002aa2d 0x2aa2d0002aa38,
  dm 0x2a1000002a7 no 0x2aa380002aa44 0x2aa440002aa49,
  dm 0x2a1000002a7 no 0x2aa490002aa53 0x2aa530002aa5b,
  dm 0x2a1000002a7 no 0x2aa5b0002aa65 0x2aa650002aa6f,
  dm 0x2a1000002a7 no 0x2aa6f0002aa76 0x2aa760002aa82,
  dm 0x2a1000002a7 0x2e8b 0 0x2aa820002aa90,
  dm 0x2700000027 0x2e8c 0 0x232000002328,
  dm 0x2700000027 0x2e8d 0 0x18000000182,
  dm 0x2700000027 0x2e8e 0 0x18000000182,
  dm 0 no 0 0x2aa960002aa9d,
  dm 0x2700000027 0x2e91 0 0x2aaa00002aaa8,
  dm 0x2700000027 0x2e92 0 0x11d6300011d65,
  dm 0x2700000027 no 0x2aaad0002aab8 0x2aab80002aac3,
  dm 0x2700000027 0x2e94 0 0x18000000182,
  dm 0x2700000027 no 0x2aac90002aad1 0x2aad10002aad9,
  dm 0x2700000027 no 0x2aad90002aadf 0x2aadf0002aae3,
  dm 0x2700000027 no 0x2aae30002aaea 0x2aaea0002aaf1,
  dm 0x2700000027 0x2e96 0 0x2aaf10002aaf3,
  dm 0x2700000027 0x2e97 0 0x2aaf30002aaf8,
  dm 0x2700000027 0x2e98 0 0x2aaf80002aafd,
  dm 0x7cc000007d6 0x2e9a 0 0x18000000182,
  dm 0 no 0 0x18000000182,
  dm 0 no 0 0x18000000182,
  dm 0x2700000027 0x2e9e 0 0x2ab160002ab23,
  dm 0x2700000027 0x2e9f 0 0x2ab230002ab2f,
  dm 0 no 0 0x18000000182,
  dm 0x2700000027 0x2ea2 0 0x2ab3a0002ab48,
  dm 0x2700000027 no 0x2ab4c0002ab5d 0x2ab5d0002ab69,
  dm 0x2700000027 0x2ea4 0 0x7c3000007c8,
  dm 0x2700000027 0x2ea5 0 0x18000000182,
  dm 0 no 0 0x18000000182,
  dm 0x2700000027 no 0x2ab810002ab8e 0x88190000881b,
  dm 0x2700000027 0x2ea8 0 0x2ab8e0002ab95,
  dm 0x2700000027 0x2ea9 0 0x18000000182,
  dm 0x2a1000002a7 0x2eaa 0 0x18000000182,
  dm 0 no 0 0x18000000182,
  dm 0 no 0 0x18000000182,
  dm 0x2700000027 no 0x2abad0002abb8 0x2abb80002abc3,
  dm 0x2700000027 0x2eae 0 0x2abc30002abcb,
  dm 0x2700000027 0x2eaf 0 0x2abcb0002abd6,
  dm 0x2700000027 0x2eb0 0 0x2abd60002abe0,
  dm 0x2700000027 0x2eb1 0 0x2abe00002abe6,
  dm 0x2700000027 no 0x2abe60002abf4 0x2abf40002ac02,
  dm 0x2700000027 no 0x2ac020002ac10 0x2ac100002ac1d,
  dm 0x2700000027 0x2eb2 0 0x2ac1d0002ac2d,
  dm 0x2700000027 0x2eb3 0 0x13b1200013b1d,
  dm 0x2700000027 no 0x2ac2d0002ac34 0x2ac340002ac3b,
  dm 0x2700000027 0x2eb4 0 0xd2bb0000d2c3,
  dm 0x2700000027 0x2eb5 0 0x5fa300005fa9,
  dm 0x2700000027 0x2eb6 0 0x2ac3b0002ac45,
  dm 0x2700000027 no 0x2ac450002ac50 0x2ac500002ac5b,
  dm 0x2700000027 0x2eb7 0 0x2ac5b0002ac67,
  dm 0x2700000027 no 0x2ac670002ac73 0x2ac730002ac7f,
  dm 0x2700000027 0x2eb8 0 0x2ac7f0002ac8b,
  dm 0x2700000027 0x2eb9 0 0x2ac8b0002ac95,
  dm 0x2700000027 0x2eba 0 0x2ac950002aca1,
  dm 0x2700000027 no 0x2aca10002acb1 0x2acb10002acc1,
  dm 0x2a1000002a7 no 0x2acc10002acca 0x2acca0002acd5,
  dm 0x2a1000002a7 no 0x2acd50002ace0 0x2ace00002acec,
  dm 0x2a1000002a7 no 0x2acec0002acfa 0x2acfa0002ad09,
  dm 0x2a1000002a7 no 0x2ad090002ad18 0x2ad180002ad28,
  dm 0x2a1000002a7 0x2ebb 0 0x2ad280002ad39,
  dm 0x2700000027 0x2ebc 0 0x18000000182,
  dm 0x2a1000002a7 0x2ebd 0 0x2ad390002ad41,
  dm 0 no 0 0x18000000182,
  dm 0x2700000027 0x2ec0 0 0x2ad4c0002ad51,
  dm 0x2700000027 0x2ec1 0 0x2ad510002ad54,
  dm 0x2700000027 0x2ec2 0 0x2ad540002ad59,
  dm 0x2700000027 0x2ec3 0 0x2ad590002ad5b,
  dm 0x2700000027 0x2ec5 0 0x18000000182,
  dm 0x2700000027 no 0x2ad670002ad6f 0x2ad6f0002ad78,
  dm 0x2700000027 no 0x2ad780002ad84 0xe3400000e3c,
  dm 0 no 0 0x18000000182,
  dm 0x2700000027 no 0x2ad930002ada1 0x2ada10002adb0,
  dm 0 no 0 0x18000000182,
  dm 0x2700000027 no 0x2adbb0002adc2 0x2adc20002add3,
  dm 0x2700000027 no 0x2add30002adda 0x2adda0002ade9,
  dm 0x2700000027 no 0x2ade90002adf0 0x2adf00002ae01,
  dm 0x2700000027 no 0x2ae010002ae08 0x2ae080002ae15,
  dm 0x2700000027 no 0x2ae150002ae1c 0x2ae1c0002ae2c,
  dm 0x2700000027 0x2ecb 0 0x18000000182,
  dm 0x2700000027 no 0x2ae2c0002ae35 0x2ae350002ae3f,
  dm 0x2700000027 no 0x2ae3f0002ae46 0x2ae460002ae57,
  dm 0x2700000027 0x2ecc 0 0x2ae570002ae6a,
  dm 0x2700000027 no 0x2ae6a0002ae7a 0x2ae7a0002ae8d,
  dm 0x2700000027 no 0x2ae8d0002ae9c 0x2ae9c0002aeae,
  dm 0x2700000027 0x2ecd 0 0x2aeae0002aec0,
  dm 0x2700000027 no 0x2aec00002aed0 0x2aed00002aee3,
  dm 0x2700000027 no 0x2aee30002aeef 0x2aeef0002aefb,
  dm 0x2700000027 0x2ece 0 0x2aefb0002af09,
  dm 0x2700000027 no 0x2af090002af10 0x2af100002af24,
  dm 0x2700000027 0x2ecf 0 0x2af240002af38,
  dm 0x2700000027 0x2ed0 0 0x18000000182,
  dm 0x2700000027 0x2ed1 0 0x2af380002af4a,
  dm 0x2700000027 no 0x2af4a0002af51 0x2af510002af63,
  dm 0x2700000027 0x2ed2 0 0x2af630002af75,
  dm 0x2700000027 0x2ed3 0 0x2af750002af86,
  dm 0x2700000027 0x2ed4 0 0x2af860002af99,
  dm 0x2700000027 no 0x2af990002afa0 0x2afa00002afb2,
  dm 0x2700000027 no 0x2afb20002afb9 0x2afb90002afcb,
  dm 0x2700000027 no 0x2afcb0002afd2 0x2afd20002afe4,
  dm 0x2700000027 no 0x2afe40002afeb 0x2afeb0002affe,
  dm 0x2700000027 0x2ed5 0 0x18000000182,
  dm 0x23f00000249 no 0x2affe0002b005 0x2b0050002b00b,
  dm 0x23f00000249 0x2ed6 0 0x18000000182,
  dm 0x23f00000249 no 0x2b00b0002b012 0x2b0120002b018,
  dm 0x23f00000249 no 0x2b0180002b01f 0x2b01f0002b026,
  dm 0x23f00000249 no 0x2b0260002b02d 0x2b02d0002b034,
  dm 0x23f00000249 0x2ed7 0 0x2b0340002b03b,
  dm 0x23f00000249 0x2ed8 0 0x2b03b0002b047,
  dm 0x23f00000249 no 0x2b0470002b04e 0x2b04e0002b059,
  dm 0x23f00000249 no 0x2b0590002b060 0x2b0600002b06c,
  dm 0x23f00000249 no 0x2b06c0002b073 0x8aa600008aaa,
  dm 0x23f00000249 no 0x2b0730002b07a 0x1ffdb0001ffe2,
  dm 0x23f00000249 0x2ed9 0 0x2b07a0002b082,
  dm 0x23f00000249 no 0x2b0820002b089 0x2b0890002b090,
  dm 0x23f00000249 no 0x2b0900002b097 0x2b0970002b09e,
  dm 0x23f00000249 0x2eda 0 0x2b09e0002b0a5,
  dm 0x23f00000249 no 0x2b0a50002b0ac 0x2b0ac0002b0b4,
  dm 0x23f00000249 no 0x2b0b40002b0bc 0x2b0bc0002b0c9,
  dm 0x23f00000249 no 0x2b0c90002b0d0 0x2b0d00002b0d6,
  dm 0x23f00000249 no 0x2b0d60002b0dd 0x2b0dd0002b0e4,
  dm 0x23f00000249 0x2edb 0 0x2b0e40002b0eb,
  dm 0x23f00000249 0x2edc 0 0x2b0eb0002b0f1,
  dm 0x23f00000249 0x2edd 0 0x2b0f10002b0fe,
  dm 0x23f00000249 no 0x2b0fe0002b105 0x2b1050002b10c,
  dm 0x2700000027 0x2edf 0 0x18000000182,
  dm 0x2700000027 0x2ee0 0 0x2b1140002b11a,
  dm 0 no 0 0x2b1220002b12a,
  dm 0x2700000027 0x2ee3 0 0x2b12e0002b134,
  dm 0x2700000027 0x2ee4 0 0x2b1340002b13c,
  dm 0x2700000027 0x2ee5 0 0x18000000182,
  dm 0x2700000027 no 0x2b13c0002b144 0x2b13c0002b144,
  dm 0x2700000027 no 0xb8a50000b8a8 0xb8a50000b8a8,
  dm 0x2700000027 no 0x2b1440002b152 0x2b1440002b152,
  dm 0x2700000027 0x2ee6 0 0x2b1520002b15e,
  dm 0x2700000027 0x2ee7 0 0x4c4f00004c57,
  dm 0x2700000027 0x2ee8 0 0x2b15e0002b16c,
  dm 0x2700000027 0x2eea 0 0x2b16c0002b17a,
  dm 0x2700000027 0x2eeb 0 0x2b17a0002b187,
  dm 0x2700000027 0x2eec 0 0x2b1870002b18d,
  dm 0x2700000027 0x2eee 0 0x2b1960002b1a5,
  dm 0x2700000027 0x2eef 0 0x2b1a50002b1b4,
  dm 0x2700000027 0x2ef0 0 0x2b1b40002b1bc,
  dm 0x2700000027 0x2ef1 0 0x2b1bc0002b1c5,
  dm 0x2700000027 0x2ef3 0 0x2b1c50002b1ca,
  dm 0x2700000027 0x2ef4 0 0x2b1ca0002b1ce,
  dm 0x2700000027 0x2ef5 0 0x2b1ce0002b1de,
  dm 0x2700000027 0x2ef6 0 0x2b1de0002b1ee,
  dm 0x2700000027 0x2ef7 0 0x2b1ee0002b1fa,
  dm 0x2700000027 0x2ef8 0 0x2b1fa0002b200,
  dm 0x2700000027 0x2ef9 0 0x2b2000002b206,
  dm 0x2700000027 0x2efa 0 0x2b2060002b20c,
  dm 0x2700000027 0x2efb 0 0x2b20c0002b213,
  dm 0x2700000027 no 0x2b2130002b221 0x2b2130002b221,
  dm 0x2700000027 no 0x2b2210002b22e 0x2b2210002b22e,
  dm 0x2700000027 no 0x2b22e0002b239 0x2b22e0002b239,
  dm 0x2700000027 no 0x2b2390002b244 0x2b2390002b244,
  dm 0x2700000027 no 0x2b2440002b264 0x2b2640002b278,
  dm 0x2700000027 no 0x2b2780002b291 0x2b2910002b29c,
  dm 0x2700000027 no 0x2b29c0002b2ae 0x2b2ae0002b2ba,
  dm 0x2700000027 no 0x2b2ba0002b2db 0x2b2db0002b2f3,
  dm 0x2700000027 0x2efe 0 0xb8230000b82f,
  dm 0x2700000027 0x2eff 0 0xb8070000b811,
  dm 0x2700000027 no 0x2b2f30002b30e 0x2b30e0002b31a,
  dm 0x2700000027 no 0x2b31a0002b32e 0x2b32e0002b336,
  dm 0x2700000027 no 0x2b3360002b351 0x2b3510002b35d,
  dm 0xc9b00000ca2 no 0x2b35d0002b37b 0x2b37b0002b3a1,
  dm 0xc9b00000ca2 no 0x2b3a10002b3a8 0x2b3a80002b3d9,
  dm 0x2700000027 0x2f01 0 0x2b3d90002b3ec,
  dm 0x2700000027 0x2f02 0 0x2b3ec0002b3f2,
  dm 0x2700000027 0x2f03 0 0x2b3f20002b403,
  dm 0x2700000027 0x2f04 0 0x2b4030002b40e,
  dm 0 no 0 0x2b40e0002b427,
  dm 0 no 0 0x2b4270002b43f,
  dm 0x2700000027 0x2f07 0 0x22e4c00022e58,
  dm 0x2700000027 0x2f08 0 0x22e4c00022e58,
  dm 0x2700000027 0x2f0a 0 0x2b44e0002b45b,
  dm 0x2700000027 0x2f0b 0 0x2b45b0002b468,
  dm 0x2700000027 0x2f0c 0 0x2b4680002b474,
  dm 0x2700000027 0x2f0d 0 0x2b4740002b480,
  dm 0x2700000027 0x2f0e 0 0x2b4800002b48c,
  dm 0x2700000027 0x2f0f 0 0x2b48c0002b498,
  dm 0x2700000027 0x2f10 0 0x2b4980002b4a4,
  dm 0x2700000027 0x2f11 0 0x2b4a40002b4ae,
  dm 0 no 0 0x18000000182,
  dm 0 no 0 0x18000000182,
  dm 0x2700000027 0x2f14 0 0x18000000182,
  dm 0x2700000027 no 0x2b4c40002b4d0 0x2b4c40002b4d0,
  dm 0x2700000027 0x2f15 0 0xf1440000f147,
  dm 0 no 0 0x18000000182,
  dm 0x2700000027 0x2f17 0 0x500000005006,
  dm 0x2700000027 0x2f18 0 0x18000000182,
  dm 0 no 0 0x2b4eb0002b4f2,
  dm 0x2700000027 no 0x2b4f80002b500 0x2b5000002b508,
  dm 0x2700000027 0x2f1a 0 0x18000000182,
  dm 0 no 0 0x18000000182,
  dm 0x2700000027 0x2f1d 0 0x2b5080002b519,
  dm 0x2700000027 no 0x2b5190002b51f 0x2b51f0002b530,
  dm 0x2700000027 no 0x2b5300002b536 0x2b5360002b547,
  dm 0x2700000027 no 0x2b5470002b54d 0x2b54d0002b55e,
  dm 0x2700000027 no 0x2b55e0002b564 0x2b5640002b575,
  dm 0x2700000027 no 0x2b5750002b57b 0x2b57b0002b58b,
  dm 0x2700000027 no 0x2b58b0002b593 0x2b5930002b5a8,
  dm 0x2700000027 0x2f1e 0 0x18000000182,
  dm 0 no 0 0x18000000182,
  dm 0 no 0 0x18000000182,
  dm 0 no 0 0x18000000182,
  dm 0x2700000027 0x2f24 0 0x10e9000010f6,
  dm 0x2700000027 0x2f26 0 0x2700000027,
  dm 0x2700000027 0x2f27 0 0x10e9000010f6,
  dm 0x2700000027 0x2f28 0 0x18000000182,
  dm 0x2700000027 0x2f29 0 0x18000000182,
  dm 0x2700000027 no 0x2b6cc0002b6d6 0x2b6cc0002b6d6,
  dm 0x2700000027 0x2f2c 0 0x18000000182,
  dm 0x2700000027 0x2f2e 0 0x18000000182,
  dm 0x2700000027 0x2f30 0 0x10e9000010f6,
  dm 0x2700000027 0x2f31 0 0x18000000182,
  dm 0x2700000027 0x2f32 0 0x18000000182,
  dm 0x2700000027 0x2f34 0 0x18000000182,
  dm 0x2700000027 0x2f35 0 0x18000000182,
  dm 0x2700000027 0x2f39 0 0x18000000182,
  dm 0x2700000027 0x2f3b 0 0x10e9000010f6,
  dm 0x2700000027 no 0x2b7120002b719 0x2b7120002b719,
  dm 0 no 0 0x2b72f0002b738,
  dm 0x2700000027 no 0x2b7380002b745 0x2b7380002b745,
  dm 0x2700000027 0x2f3f 0 0x18000000182,
  dm 0x2700000027 0x2f40 0 0x18000000182,
  dm 0x2700000027 0x2f42 0 0x10e9000010f6,
  dm 0x2700000027 0x2f44 0 0x10e9000010f6,
  dm 0x2700000027 0x2f46 0 0x10e9000010f6,
  dm 0x2700000027 0x2f48 0 0x18000000182,
  dm 0x2700000027 0x2f4a 0 0x10e9000010f6,
  dm 0 no 0 0x2b76c0002b772,
  dm 0x2700000027 0x2f4c 0 0x10e9000010f6,
  dm 0x2700000027 0x2f4e 0 0x10e9000010f6,
  dm 0x2700000027 0x2f50 0 0x18000000182,
  dm 0x2700000027 0x2f52 0 0x10e9000010f6,
  dm 0x2700000027 0x2f54 0 0x10e9000010f6,
  dm 0x2700000027 0x2f56 0 0x10e9000010f6,
  dm 0x2700000027 0x2f58 0 0x10e9000010f6,
  dm 0 no 0 0x2b7990002b7a1,
  dm 0x2700000027 no 0x2b7a10002b7af 0x2b7af0002b7bd,
  dm 0x2700000027 0x2f5a 0 0x18000000182,
  dm 0x2700000027 0x2f5c 0 0x10e9000010f6,
  dm 0x2700000027 0x2f5e 0 0x10e9000010f6,
  dm 0x2700000027 0x2f60 0 0x10e9000010f6,
  dm 0x2700000027 0x2f62 0 0x10e9000010f6,
  dm 0x2700000027 0x2f64 0 0x10e9000010f6,
  dm 0x2700000027 0x2f66 0 0x10e9000010f6,
  dm 0x2700000027 0x2f68 0 0x10e9000010f6,
  dm 0x2700000027 0x2f6a 0 0x599f000059a4,
  dm 0x2700000027 0x2f6c 0 0x10e9000010f6,
  dm 0x2700000027 0x2f6e 0 0x10e9000010f6,
  dm 0x2700000027 0x2f71 0 0x18000000182,
  dm 0x2700000027 0x2f73 0 0x10e9000010f6,
  dm 0x2700000027 0x2f75 0 0x10e9000010f6,
  dm 0x2700000027 0x2f77 0 0x10e9000010f6,
  dm 0x2700000027 0x2f7a 0 0x10e9000010f6,
  dm 0x2700000027 0x2f7c 0 0x10e9000010f6,
  dm 0x2700000027 0x2f7e 0 0x10e9000010f6,
  dm 0x2700000027 no 0x2b81a0002b81c 0x2b81a0002b81c,
  dm 0x2700000027 0x2f80 0 0x18000000182,
  dm 0x2700000027 0x2f82 0 0x10e9000010f6,
  dm 0x2700000027 0x2f84 0 0x10e9000010f6,
  dm 0x2700000027 0x2f86 0 0x10e9000010f6,
  dm 0x2700000027 no 0x2b8360002b840 0x2b8360002b840,
  dm 0x2700000027 0x2f89 0 0x10e9000010f6,
  dm 0x2700000027 0x2f8b 0 0x10e9000010f6,
  dm 0x2700000027 no 0x2b8490002b852 0x2b8490002b852,
  dm 0x2700000027 no 0x2b8520002b85b 0x2b8520002b85b,
  dm 0x2700000027 no 0x2b85b0002b865 0x2b85b0002b865,
  dm 0x2700000027 no 0x2b8650002b86e 0x2b8650002b86e,
  dm 0x2700000027 no 0x2b86e0002b877 0x2b86e0002b877,
  dm 0x2700000027 no 0x2b8770002b881 0x2b8770002b881,
  dm 0x2700000027 no 0x2b8810002b88a 0x2b8810002b88a,
  dm 0x2700000027 no 0x2b88a0002b893 0x2b88a0002b893,
  dm 0x2700000027 no 0x2b8930002b89d 0x2b8930002b89d,
  dm 0x2700000027 no 0x2b89d0002b8a6 0x2b89d0002b8a6,
  dm 0x2700000027 no 0x2b8a60002b8af 0x2b8a60002b8af,
  dm 0x2700000027 no 0x2b8af0002b8b7 0x2b8af0002b8b7,
  dm 0x2700000027 no 0x2b8b70002b8c4 0x2b8b70002b8c4,
  dm 0x2700000027 0x2f8d 0 0x18000000182,
  dm 0x2700000027 0x2f8e 0 0x18000000182,
  dm 0x2700000027 0x2f8f 0 0x10e9000010f6,
  dm 0x2700000027 no 0x2b8c40002b8cb 0x2b8c40002b8cb,
  dm 0x2700000027 0x2f91 0 0x10e9000010f6,
  dm 0x2700000027 0x2f93 0 0x10e9000010f6,
  dm 0x2700000027 0x2f96 0 0x18000000182,
  dm 0x2700000027 no 0x2b8db0002b8e3 0x2b8e30002b8ec,
  dm 0x2700000027 no 0x2b8ec0002b8f4 0x2b8f40002b8fd,
  dm 0x2700000027 no 0x2b8fd0002b905 0x2b9050002b90e,
  dm 0x2700000027 no 0x2b90e0002b916 0x2b9160002b91f,
  dm 0x2700000027 no 0x2b91f0002b927 0x2b9270002b930,
  dm 0x2700000027 0x2f97 0 0x18000000182,
  dm 0x2700000027 0x2f99 0 0x18000000182,
  dm 0x2700000027 0x2f9a 0 0x10e9000010f6,
  dm 0x2700000027 0x2f9c 0 0x18000000182,
  dm 0x2700000027 0x2f9d 0 0x18000000182,
  dm 0x2700000027 0x2f9e 0 0x18000000182,
  dm 0x2700000027 0x2f9f 0 0x18000000182,
  dm 0x2700000027 no 0x2b9480002b950 0x2b9500002b959,
  dm 0x2700000027 0x2fa1 0 0x18000000182,
  dm 0x2700000027 0x2fa2 0 0x10e9000010f6,
  dm 0x2700000027 no 0x2b95d0002b964 0x2b95d0002b964,
  dm 0x2700000027 0x2fa6 0 0x10e9000010f6,
  dm 0x2700000027 0x2fa8 0 0x10e9000010f6,
  dm 0x2700000027 no 0x2b96e0002b978 0x2b96e0002b978,
  dm 0x2700000027 no 0x2b9780002b983 0x2b9780002b983,
  dm 0x2700000027 no 0x2b9830002b98e 0x2b9830002b98e,
  dm 0x2700000027 no 0x2b98e0002b999 0x2b98e0002b999,
  dm 0x2700000027 no 0x2b9990002b9a6 0x2b9990002b9a6,
  dm 0x2700000027 no 0x2b9a60002b9b1 0x2b9a60002b9b1,
  dm 0x2700000027 0x2faa 0 0x2b9b10002b9bc,
  dm 0x2700000027 0x2fab 0 0x18000000182,
  dm 0x2700000027 0x2fac 0 0x18000000182,
  dm 0x2700000027 0x2fad 0 0x18000000182,
  dm 0x2700000027 0x2fae 0 0x18000000182,
  dm 0x2700000027 0x2faf 0 0x18000000182,
  dm 0x2700000027 0x2fb0 0 0x18000000182,
  dm 0x2700000027 0x2fb1 0 0x18000000182,
  dm 0x2700000027 0x2fb2 0 0x18000000182,
  dm 0x2700000027 0x2fb3 0 0x18000000182,
  dm 0x2700000027 0x2fb4 0 0x18000000182,
  dm 0x2700000027 no 0x2b9bc0002b9c1 0x2b9bc0002b9c1,
  dm 0x2700000027 no 0x2b9c10002b9c5 0x2b9c10002b9c5,
  dm 0x2700000027 0x2fb6 0 0x10e9000010f6,
  dm 0x2700000027 0x2fb8 0 0x10e9000010f6,
  dm 0x2700000027 0x2fba 0 0x10e9000010f6,
  dm 0x2700000027 0x2fbc 0 0x10e9000010f6,
  dm 0x2700000027 no 0x2b8520002b85b 0x2b8520002b85b,
  dm 0x2700000027 no 0x2b8770002b881 0x2b8770002b881,
  dm 0x2700000027 0x2fbe 0 0x18000000182,
  dm 0x2700000027 0x2fc0 0 0x10e9000010f6,
  dm 0x2700000027 0x2fc2 0 0x10e9000010f6,
  dm 0x2700000027 0x2fc4 0 0x10e9000010f6,
  dm 0x2700000027 0x2fc6 0 0x18000000182,
  dm 0x2700000027 0x2fc8 0 0x2b9e00002b9e7,
  dm 0x2700000027 0x2fca 0 0x2b9e70002b9f5,
  dm 0x2700000027 no 0x260bf000260c1 0x260bf000260c1,
  dm 0x2700000027 0x2fcb 0 0x2700000027,
  dm 0x2700000027 0x2fcc 0 0x10e9000010f6,
  dm 0x2700000027 0x2fcd 0 0x18000000182,
  dm 0x2700000027 no 0x2ba030002ba0e 0x2ba030002ba0e,
  dm 0x2700000027 0x2fcf 0 0x10e9000010f6,
  dm 0x2700000027 0x2fd1 0 0x10e9000010f6,
  dm 0x2700000027 0x2fd3 0 0x10e9000010f6,
  dm 0x2700000027 0x2fd5 0 0x10e9000010f6,
  dm 0x2700000027 0x2fd7 0 0x10e9000010f6,
  dm 0x2700000027 0x2fd9 0 0x10e9000010f6,
  dm 0x2700000027 0x2fdb 0 0x10e9000010f6,
  dm 0x2700000027 0x2fde 0 0x18000000182,
  dm 0x2700000027 0x2fdf 0 0x10e9000010f6,
  dm 0x2700000027 0x2fe1 0 0x10e9000010f6,
  dm 0x2700000027 0x2fe3 0 0x10e9000010f6,
  dm 0x2700000027 0x2fe5 0 0x10e9000010f6,
  dm 0x2700000027 0x2fe7 0 0x18000000182,
  dm 0x2700000027 0x2fe9 0 0x10e9000010f6,
  dm 0x2700000027 0x2fea 0 0x18000000182,
  dm 0 no 0 0x18000000182,
  dm 0x2700000027 0x2fed 0 0x18000000182,
  dm 0x2700000027 0x2fef 0 0x18000000182,
  dm 0x2700000027 0x2ff0 0 0x10e9000010f6,
  dm 0x2700000027 0x2ff2 0 0x10e9000010f6,
  dm 0x2700000027 no 0x2ba3f0002ba4a 0x2ba3f0002ba4a,
  dm 0x2700000027 0x2ff3 0 0x2ba4a0002ba54,
  dm 0x2700000027 0x2ff4 0 0x18000000182,
  dm 0x2700000027 0x2ff5 0 0x2ba540002ba5b,
  dm 0x2700000027 0x2ff6 0 0x10e9000010f6,
  dm 0x2700000027 0x2ff7 0 0x10e9000010f6,
  dm 0x2700000027 0x2ff8 0 0x10e9000010f6,
  dm 0x2700000027 0x2ff9 0 0x10e9000010f6,
  dm 0x2700000027 0x2ffb 0 0x18000000182,
  dm 0x2700000027 0x2ffc 0 0x199fa00019a06,
  dm 0x2700000027 0x2fff 0 0x10e9000010f6,
  dm 0x2700000027 0x3001 0 0x18000000182,
  dm 0x2700000027 0x3003 0 0x10e9000010f6,
  dm 0x2700000027 0x3005 0 0x10e9000010f6,
  dm 0x2700000027 0x3007 0 0x10e9000010f6,
  dm 0x2700000027 0x3009 0 0x10e9000010f6,
  dm 0x2700000027 0x300b 0 0x10e9000010f6,
  dm 0x2700000027 0x300d 0 0x10e9000010f6,
  dm 0x2700000027 0x300f 0 0x18000000182,
  dm 0x2700000027 0x3011 0 0x10e9000010f6,
  dm 0x2700000027 0x3013 0 0x10e9000010f6,
  dm 0x2700000027 0x3015 0 0x22b1f00022b21,
  dm 0x2700000027 0x3016 0 0x10e9000010f6,
  dm 0x2700000027 no 0x2ba880002ba92 0x2ba920002baa1,
  dm 0x2700000027 0x3018 0 0x18000000182,
  dm 0x2700000027 0x3019 0 0x18000000182,
  dm 0x2700000027 0x301a 0 0x18000000182,
  dm 0x2700000027 0x301c 0 0x2700000027,
  dm 0x2700000027 0x301d 0 0x18000000182,
  dm 0x2700000027 0x301e 0 0x18000000182,
  dm 0x2700000027 0x301f 0 0x18000000182,
  dm 0x2700000027 0x3020 0 0x2baab0002bab0,
  dm 0x2700000027 no 0x2bab00002bab6 0x2bab00002bab6,
  dm 0x2700000027 no 0x2bab60002baca 0x8ad700008ae4,
  dm 0x2700000027 no 0x2baca0002badc 0xbc5e0000bc68,
  dm 0x2700000027 no 0x2badc0002baed 0x2baed0002baf6,
  dm 0x2700000027 0x3022 0 0x10e9000010f6,
  dm 0x2700000027 0x3024 0 0x18000000182,
  dm 0x2700000027 no 0x2bb050002bb0e 0x2bb050002bb0e,
  dm 0x2700000027 0x3026 0 0x18000000182,
  dm 0x2700000027 0x3027 0 0x10e9000010f6,
  dm 0x2700000027 0x3029 0 0x18000000182,
  dm 0x2700000027 0x302a 0 0x18000000182,
  dm 0x2700000027 0x302c 0 0x18000000182,
  dm 0x2700000027 0x302e 0 0x18000000182,
  dm 0x2700000027 0x302f 0 0x2bb230002bb2b,
  dm 0x2700000027 0x3030 0 0x2bb2b0002bb34,
  dm 0x2700000027 0x3031 0 0x18000000182,
  dm 0x2700000027 0x3032 0 0x18000000182,
  dm 0x2700000027 0x3033 0 0x18000000182,
  dm 0x2700000027 0x3035 0 0x18000000182,
  dm 0x2700000027 0x3038 0 0x18000000182,
  dm 0x2700000027 0x303a 0 0x18000000182,
  dm 0x2700000027 0x303b 0 0x18000000182,
  dm 0x2700000027 0x303c 0 0x10e9000010f6]

/-- `__dr_dm`, from item 16000 on (device_repo.go:18272-18333). -/
def drDm_32 : List ModelTuple := [
  dm 0x2700000027 0x303d 0 0xe3400000e3c,
  dm 0x2700000027 0x303f 0 0x10e9000010f6,
  dm 0x2700000027 0x3041 0 0x18000000182,
  dm 0x2700000027 0x3043 0 0x18000000182,
  dm 0x2700000027 0x3044 0 0x18000000182,
  dm 0x2700000027 0x3045 0 0x18000000182,
  dm 0x2700000027 no 0x2bb530002bb5a 0x2bb530002bb5a,
  dm 0x2700000027 no 0x2bb5a0002bb61 0x2bb5a0002bb61,
  dm 0x2700000027 0x3047 0 0x21c2f00021c3e,
  dm 0x2700000027 0x3049 0 0x10e9000010f6,
  dm 0x2700000027 no 0x2bb660002bb71 0x2bb660002bb71,
  dm 0x2700000027 0x304c 0 0x10e9000010f6,
  dm 0x2700000027 0x304d 0 0x18000000182,
  dm 0x2700000027 0x304e 0 0x10e9000010f6,
  dm 0x2700000027 no 0x2bb820002bb8c 0x2bb8c0002bb96,
  dm 0x2700000027 0x3050 0 0x10e9000010f6,
  dm 0x2700000027 0x3051 0 0x18000000182,
  dm 0x2700000027 0x3053 0 0x10e9000010f6,
  dm 0x2700000027 0x3055 0 0x2bba90002bbb0,
  dm 0x2700000027 0x3056 0 0x10e9000010f6,
  dm 0x2700000027 0x3058 0 0x2bbb00002bbb8,
  dm 0x2700000027 0x3059 0 0x2bbb80002bbc0,
  dm 0x2700000027 0x305a 0 0x2bbc00002bbc8,
  dm 0x2700000027 0x305b 0 0x2bbc80002bbd0,
  dm 0x2700000027 0x305c 0 0x2bbd00002bbd8,
  dm 0x2700000027 0x305d 0 0x2bbd80002bbe0,
  dm 0x2700000027 no 0x2bbe00002bbe8 0x2bbe00002bbe8,
  dm 0x2700000027 0x305f 0 0x10e9000010f6,
  dm 0x2700000027 no 0x2bbf00002bbf7 0x2bbf00002bbf7,
  dm 0x2700000027 0x3061 0 0x18000000182,
  dm 0x2700000027 0x3062 0 0x18000000182,
  dm 0x2700000027 0x3063 0 0x10e9000010f6,
  dm 0x2700000027 no 0x2bc080002bc10 0x2bc080002bc10,
  dm 0x2700000027 0x3066 0 0x10e9000010f6,
  dm 0x2700000027 0x3068 0 0x10e9000010f6,
  dm 0x2700000027 0x306a 0 0x18000000182,
  dm 0x2700000027 0x306b 0 0x10e9000010f6,
  dm 0x2700000027 0x306c 0 0x10e9000010f6,
  dm 0x2700000027 0x306e 0 0x10e9000010f6,
  dm 0x2700000027 0x3070 0 0x10e9000010f6,
  dm 0x2700000027 0x3072 0 0x10e9000010f6,
  dm 0x2700000027 0x3074 0 0x10e9000010f6,
  dm 0x2700000027 0x3076 0 0x18000000182,
  dm 0x2700000027 0x3077 0 0x2bc400002bc4b,
  dm 0x2700000027 0x3079 0 0x10e9000010f6,
  dm 0x2700000027 0x307b 0 0x10e9000010f6,
  dm 0x2700000027 0x307d 0 0x10e9000010f6,
  dm 0x2700000027 0x307f 0 0x10e9000010f6,
  dm 0x2700000027 0x3081 0 0x10e9000010f6,
  dm 0x2700000027 no 0x2b8520002b85b 0x2b8520002b85b,
  dm 0x2700000027 no 0x2bc770002bc80 0x2bc770002bc80,
  dm 0x2700000027 no 0x2b8770002b881 0x2b8770002b881,
  dm 0x2700000027 0x3084 0 0x18000000182,
  dm 0x2700000027 0x3087 0 0x18000000182,
  dm 0x2700000027 no 0x2bc880002bc90 0x2bc900002bc9c,
  dm 0x2700000027 0x3089 0 0x18000000182,
  dm 0x2700000027 0x308b 0 0x18000000182,
  dm 0x2700000027 0x308d 0 0x10e9000010f6,
  dm 0x2700000027 0x308f 0 0x18000000182,
  dm 0x2700000027 0x3091 0 0x10e9000010f6,
  dm 0x2700000027 0x3093 0 0x10e9000010f6,
  dm 0x2700000027 0x3095 0 0x18000000182]

/-- `__dr_dm` (device_repo.go). -/
def drDm : List ModelTuple := drDm_0 ++ drDm_1 ++ drDm_2 ++ drDm_3 ++ drDm_4 ++ drDm_5 ++ drDm_6 ++ drDm_7 ++ drDm_8 ++ drDm_9 ++ drDm_10 ++ drDm_11 ++ drDm_12 ++ drDm_13 ++ drDm_14 ++ drDm_15 ++ drDm_16 ++ drDm_17 ++ drDm_18 ++ drDm_19 ++ drDm_20 ++ drDm_21 ++ drDm_22 ++ drDm_23 ++ drDm_24 ++ drDm_25 ++ drDm_26 ++ drDm_27 ++ drDm_28 ++ drDm_29 ++ drDm_30 ++ drDm_31 ++ drDm_32

end Verif.Data
