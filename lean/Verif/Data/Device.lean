import Verif.Data.Bytes
/-
Generated by tools/gen_tables.py from device_repo.go. Do not edit.
-/
set_option maxRecDepth 10000
namespace Verif.Data

/-- `__dr_idx[0]`, from item 0 on (device_repo.go:13-14). -/
def drIdx0_0 : List DeviceTuple := [
  dr 0x50000000b 5 no 0xb00000018 0 0,
  dr 0x50000000b 0x180000001f 0 0 no 0x100000006]

/-- `__dr_idx[0]` (device_repo.go). -/
def drIdx0 : List DeviceTuple := drIdx0_0

/-- `__dr_idx[1]`, from item 0 on (device_repo.go:18-22). -/
def drIdx1_0 : List DeviceTuple := [
  dr 0x8e00000099 0x8b0000008e 2 0 no 0x600000007,
  dr 0x8e00000099 0xa3000000a7 4 0 no 0x700000008,
  dr 0x8e00000099 0xaf000000b8 no 0xb8000000c6 no 0x800000009,
  dr 0x8e00000099 0xcf000000d4 6 0 no 0x90000000b,
  dr 0x8e00000099 0xe7000000ed no 0xed000000fd no 0xb0000000c]

/-- `__dr_idx[1]` (device_repo.go). -/
def drIdx1 : List DeviceTuple := drIdx1_0

/-- `__dr_idx[2]`, from item 0 on (device_repo.go:26-34). -/
def drIdx2_0 : List DeviceTuple := [
  dr 0x1060000010d 0x10000000106 8 0 0xc 0,
  dr 0x1060000010d 0x1170000011a no 0x11a00000126 0xd 0,
  dr 0x1060000010d 0x12f00000138 no 0x1380000013c no 0xe00000013,
  dr 0x1060000010d 0x17800000180 9 0 0x13 0,
  dr 0x1060000010d 0x18200000186 no 0x18200000186 0x14 0,
  dr 0x1060000010d 0x18600000194 no 0x18600000194 no 0x1500000018,
  dr 0x1060000010d 0x1ac000001b1 no 0x1b1000001bc 0x18 0,
  dr 0x1060000010d 0x1c3000001c7 0xc 0 no 0x190000001b,
  dr 0x1060000010d 0x1e6000001ea 0xd 0 no 0x1b0000001f]

/-- `__dr_idx[2]` (device_repo.go). -/
def drIdx2 : List DeviceTuple := drIdx2_0

/-- `__dr_idx[3]`, from item 0 on (device_repo.go:38-537). -/
def drIdx3_0 : List DeviceTuple := [
  dr 0x23b0000023d 0x2340000023b 0x11 0 0x1f 0,
  dr 0x23f00000249 0x23d0000023f 0x12 0 no 0x2000000024,
  dr 0x23f00000249 0x26000000263 0x17 0 no 0x2400000030,
  dr 0x23f00000249 0x2950000029a 0x24 0 no 0x3000000032,
  dr 0x23f00000249 0x29e000002a1 0x27 0 no 0x3200000033,
  dr 0x2a1000002a7 0x2af000002b1 0x29 0 no 0x330000003b,
  dr 0x23f00000249 0x3080000030d 0x31 0 no 0x3b00000042,
  dr 0x23b0000023d 0x3390000033d 0x38 0 0x42 0,
  dr 0x23f00000249 0x33d00000341 0x39 0 0x43 0,
  dr 0x23f00000249 0x34a00000352 0x3a 0 no 0x4400000048,
  dr 0x2a1000002a7 0x3750000037d no 0x37d00000387 0x48 0,
  dr 0x23f00000249 0x39300000397 0x3b 0 0x49 0,
  dr 0x39a000003a7 0x3970000039a 0x3c 0 0x4a 0,
  dr 0x23f00000249 0x3a7000003a9 0x3d 0 no 0x4b00000050,
  dr 0x23b0000023d 0x3dc000003e0 no 0x3dc000003e0 no 0x5000000059,
  dr 0x2a1000002a7 0x4480000044c 0x42 0 0x59 0,
  dr 0x2a1000002a7 0x44f00000452 no 0x4520000045d 0x5a 0,
  dr 0x2a1000002a7 0x46400000469 0x43 0 0x5b 0,
  dr 0x23f00000249 0x4690000046e 0x44 0 no 0x5c0000005d,
  dr 0x23f00000249 0x48a00000493 0x45 0 0x5d 0,
  dr 0x23f00000249 0x49300000496 0x46 0 no 0x5e00000066,
  dr 0x23f00000249 0x4c3000004c6 0x4e 0 0x66 0,
  dr 0x2a1000002a7 0x4c6000004cc 0x4f 0 no 0x670000006a,
  dr 0x2a1000002a7 0x4ec000004f1 0x51 0 0x6a 0,
  dr 0x23f00000249 0x4ff00000502 0x52 0 no 0x6b0000006d,
  dr 0x23b0000023d 0x5350000053e 0x53 0 no 0,
  dr 0x23b0000023d 0x53e00000547 0x54 0 no 0,
  dr 0x23f00000249 0x54700000552 0x55 0 0x6d 0,
  dr 0x2a1000002a7 0x5570000055a 0x56 0 0x6e 0,
  dr 0x23b0000023d 0x55a0000055e 0x57 0 0x6f 0,
  dr 0x23f00000249 0x55e00000563 0x58 0 no 0x700000007f,
  dr 0x1060000010d 0x5d5000005dd 0x5b 0 no 0x7f00000081,
  dr 0x2a1000002a7 0x5ee000005f3 no 0x5ee000005f3 no 0x8100000082,
  dr 0x23f00000249 0x5f3000005f6 0x5e 0 no 0x8200000085,
  dr 0x2a1000002a7 0x61000000617 0x5f 0 0x85 0,
  dr 0x23b0000023d 0x6170000061a 0x60 0 no 0x8600000087,
  dr 0x2a1000002a7 0x61a00000621 no 0x61a00000621 no 0x8700000088,
  dr 0x62600000633 0x62100000626 0x63 0 0x88 0,
  dr 0x23b0000023d 0x63b00000640 0x64 0 no 0x890000008c,
  dr 0x23f00000249 0x64000000644 0x68 0 0x8c 0,
  dr 0x23f00000249 0x64400000648 0x69 0 no 0x8d000000a5,
  dr 0x23f00000249 0x7b9000007be 0x6e 0 0xa5 0,
  dr 0x2a1000002a7 0x7be000007c3 0x6f 0 no 0xa6000000a7,
  dr 0x7cc000007d6 0x7c8000007cc 0x71 0 no 0xa7000000aa,
  dr 0x2a1000002a7 0x80a0000080e 0x73 0 no 0xaa000000ab,
  dr 0x2a1000002a7 0x8190000081e 0x75 0 0xab 0,
  dr 0x23f00000249 0x81e00000821 0x76 0 0xac 0,
  dr 0x2a1000002a7 0x82100000824 0x77 0 no 0xad000000b1,
  dr 0x23b0000023d 0x84a0000084e 0x7c 0 no 0xb1000000b3,
  dr 0x23b0000023d 0x84e00000852 0x7f 0 0xb3 0,
  dr 0x23f00000249 0x85200000856 0x80 0 no 0xb4000000b6,
  dr 0x23f00000249 0x8560000085a 0x83 0 no 0xb6000000b8,
  dr 0x23f00000249 0x8690000086d 0x85 0 no 0xb8000000b9,
  dr 0x23f00000249 0x8740000087a 0x86 0 no 0xb9000000c6,
  dr 0x23b0000023d 0x8fb00000905 0x94 0 0xc6 0,
  dr 0x23f00000249 0x90500000908 0x95 0 no 0xc7000000d3,
  dr 0x23b0000023d 0x9a7000009ae 0x9f 0 0xd3 0,
  dr 0x2a1000002a7 0x9ae000009b4 0xa0 0 no 0xd4000000d5,
  dr 0x23f00000249 0x9bd000009c1 0xa2 0 no 0xd50000011e,
  dr 0x2a1000002a7 0xcd800000cde 0xdf 0 no 0x11e00000120,
  dr 0x2a1000002a7 0xcfa00000d02 0xe0 0 no 0x12000000122,
  dr 0x2a1000002a7 0xd1400000d1b 0xe3 0 no 0x12200000124,
  dr 0x23f00000249 0xd2800000d2d 0xe6 0 no 0x12400000137,
  dr 0x23f00000249 0xda600000dad 0xf5 0 no 0x1370000013d,
  dr 0x2a1000002a7 0xde900000df6 0xfb 0 0x13d 0,
  dr 0xdfd00000e04 0xdf600000dfd 0xfc 0 no 0x13e00000142,
  dr 0x23b0000023d 0xe2800000e2e no 0xe2e00000e34 0x142 0,
  dr 0x2a1000002a7 0xe3c00000e41 0x101 0 no 0x14300000156,
  dr 0x8e00000099 0xf8500000f8d no 0xf8d00000fa1 no 0x15600000157,
  dr 0x23f00000249 0xfbf00000fc4 0x10b 0 no 0x15700000159,
  dr 0x39a000003a7 0xfd600000fdd 0x10d 0 0x159 0,
  dr 0x23f00000249 0xfdd00000fe3 0x10e 0 no 0x15a0000015b,
  dr 0x23f00000249 0xfed00000ff3 0x110 0 no 0x15b0000015e,
  dr 0x2a1000002a7 0x101f00001024 0x112 0 0x15e 0,
  dr 0x23f00000249 0x102400001028 0x113 0 no 0x15f00000167,
  dr 0x23f00000249 0x106300001067 no 0x10670000106c no 0x1670000016a,
  dr 0x23f00000249 0x10890000108d 0x11a 0 no 0x16a00000178,
  dr 0x23f00000249 0x110000001104 0x125 0 no 0x1780000017c,
  dr 0x23f00000249 0x112000001127 0x128 0 no 0x17c00000255,
  dr 0x2a1000002a7 0x1d7f00001d84 0x1af 0 0x255 0,
  dr 0x23b0000023d 0x1d8400001d8c 0x1b0 0 no 0x25600000259,
  dr 0x23f00000249 0x1d9300001d9b 0x1b4 0 no 0x2590000025b,
  dr 0x23b0000023d 0x1dad00001db5 0x1b6 0 0x25b 0,
  dr 0x23f00000249 0x1db500001dbc 0x1b7 0 no 0x25c0000026b,
  dr 0x2a1000002a7 0x1e7e00001e87 0x1bd 0 no 0x26b00000280,
  dr 0x23f00000249 0x1f5f00001f66 0x1d0 0 no 0x280000002d5,
  dr 0x2a1000002a7 0x24c1000024ca 0x1f4 0 no 0x2d5000002df,
  dr 0x2a1000002a7 0x25a3000025a7 0x1f7 0 no 0x2df000002e1,
  dr 0x23b0000023d 0x25a7000025ae no 0x25a7000025ae 0x2e1 0,
  dr 0x23f00000249 0x25ae000025b4 0x1fa 0 no 0x2e2000002e4,
  dr 0x23b0000023d 0x25b4000025b9 0x1fd 0 no 0,
  dr 0x2a1000002a7 0x25b9000025bf 0x1fe 0 no 0x2e400000323,
  dr 0x23b0000023d 0x29de000029eb 0x23b 0 no 0x32300000325,
  dr 0x23f00000249 0x2a0a00002a10 0x23e 0 0x325 0,
  dr 0x23b0000023d 0x2a1000002a15 0x23f 0 no 0x32600000328,
  dr 0x23f00000249 0x2a3100002a35 0x240 0 no 0x3280000032f,
  dr 0x23b0000023d 0x2a6300002a69 0x245 0 0x32f 0,
  dr 0x2a1000002a7 0x2a6900002a72 0x246 0 0x330 0,
  dr 0x23f00000249 0x2a7500002a7e 0x247 0 no 0x33100000333,
  dr 0x23b0000023d 0x2a8500002a8a 0x24a 0 no 0x33300000336,
  dr 0x2a1000002a7 0x2ab700002abb 0x24e 0 0x336 0,
  dr 0x2a1000002a7 0x2abb00002ac0 0x24f 0 0x337 0,
  dr 0x2a1000002a7 0x2ac000002ac6 0x250 0 no 0x33800000339,
  dr 0x23f00000249 0x2ac900002acd 0x252 0 0x339 0,
  dr 0x2a1000002a7 0x2acd00002ad2 0x253 0 no 0x33a0000033f,
  dr 0x2a1000002a7 0x2afa00002b03 0x259 0 0x33f 0,
  dr 0x2700000027 0x2b0300002b08 0x25a 0 no 0x34000000454,
  dr 0x2a1000002a7 0x3c1100003c19 0x35d 0 no 0x45400000458,
  dr 0x23f00000249 0x10000000106 0x361 0 no 0x45800000478,
  dr 0x2a1000002a7 0x3dfd00003e08 no 0x3dfd00003e08 no 0x4780000047c,
  dr 0x2a1000002a7 0x3e3e00003e44 0x37a 0 0x47c 0,
  dr 0x23f00000249 0x3e4f00003e52 0x37b 0 no 0x47d00000486,
  dr 0x23f00000249 0x3ea600003eae 0x385 0 0x486 0,
  dr 0x2a1000002a7 0x3eae00003eb4 0x386 0 no 0x487000004a5,
  dr 0x23b0000023d 0x3fed00003ff4 0x38c 0 0x4a5 0,
  dr 0x23f00000249 0x3ff400003ff9 0x38d 0 no 0x4a6000004b2,
  dr 0x2a1000002a7 0x402a00004032 0x39a 0 no 0x4b2000004b5,
  dr 0x23b0000023d 0x403f00004047 no 0x40470000404e no 0,
  dr 0x23b0000023d 0x404e00004053 0x39e 0 no 0x4b5000004b6,
  dr 0x23f00000249 0x405d00004063 0x3a0 0 no 0x4b6000004b8,
  dr 0x23f00000249 0x406a0000406d 0x3a3 0 no 0x4b8000004ba,
  dr 0x23f00000249 0x40750000407b 0x3a6 0 no 0x4ba000004bd,
  dr 0x23f00000249 0x40850000408e 0x3aa 0 no 0x4bd000004d3,
  dr 0x23f00000249 0x410f00004119 0x3c1 0 0x4d3 0,
  dr 0x23f00000249 0x41190000411d 0x3c2 0 no 0x4d400000554,
  dr 0x23f00000249 0x47e6000047ec 0x437 0 no 0x55400000555,
  dr 0x23b0000023d 0x47ec000047fd no 0x47fd00004804 no 0,
  dr 0x23b0000023d 0x480400004808 0x439 0 0x555 0,
  dr 0x2a1000002a7 0x48080000480e 0x43a 0 no 0x55600000558,
  dr 0x2a1000002a7 0x48150000481b 0x43d 0 no 0x5580000055c,
  dr 0x23f00000249 0x485300004859 0x43f 0 0x55c 0,
  dr 0x2a1000002a7 0x48590000485e 0x440 0 0x55d 0,
  dr 0x23f00000249 0x485e00004866 0x441 0 no 0x55e00000562,
  dr 0x2b1e00002b26 0x486c00004871 0x446 0 no 0x56200000563,
  dr 0x7cc000007d6 0x487100004876 0x448 0 0x563 0,
  dr 0x23f00000249 0x488200004888 0x449 0 no 0x56400000566,
  dr 0x23f00000249 0x489c000048a1 0x44c 0 no 0x5660000056b,
  dr 0x2a1000002a7 0x48e4000048e8 0x44f 0 no 0x56b0000056c,
  dr 0x23f00000249 0x48e8000048ed 0x451 0 no 0x56c00000570,
  dr 0x2a1000002a7 0x492000004926 0x455 0 no 0x57000000571,
  dr 0x2a1000002a7 0x492d00004933 0x457 0 0x571 0,
  dr 0x23f00000249 0x49330000493f 0x458 0 no 0x5720000057c,
  dr 0x2a1000002a7 0x49b2000049b8 no 0x49b2000049b8 no 0,
  dr 0x23b0000023d 0x49b8000049bc 0x45f 0 no 0x57c0000057e,
  dr 0x23f00000249 0x49c9000049cf no 0x49cf000049d5 no 0x57e0000057f,
  dr 0x23b0000023d 0x49de000049e3 0x463 0 no 0x57f00000580,
  dr 0x2a1000002a7 0x49e3000049ec 0x465 0 no 0x5800000058b,
  dr 0x23b0000023d 0x4ae000004ae3 0x471 0 no 0x58b0000058e,
  dr 0x2a1000002a7 0x4b0300004b06 0x475 0 no 0x58e00000592,
  dr 0x23f00000249 0x4b1900004b1c 0x479 0 no 0x59200000594,
  dr 0x23f00000249 0x4b3500004b3e no 0x4b3e00004b47 0x594 0,
  dr 0x23f00000249 0x4b4700004b4a 0x47a 0 no 0x5950000059a,
  dr 0x23f00000249 0x4b6b00004b70 0x47e 0 no 0x59a0000059b,
  dr 0x2a1000002a7 0x4b7000004b75 0x480 0 no 0x59b0000059d,
  dr 0x2a1000002a7 0x4b7f00004b83 0x482 0 no 0x59d000005a0,
  dr 0x2a1000002a7 0x4ba900004bad 0x486 0 no 0x5a0000005a2,
  dr 0x2a1000002a7 0x4bad00004bb1 0x489 0 0x5a2 0,
  dr 0x2a1000002a7 0x4bbd00004bc2 0x48a 0 0x5a3 0,
  dr 0x23f00000249 0x4bc200004bc6 0x48b 0 0x5a4 0,
  dr 0x23f00000249 0x4bc600004bcf 0x48c 0 no 0x5a5000005a6,
  dr 0x8e00000099 0x4bd600004bd9 no 0x4bd900004be5 0x5a6 0,
  dr 0x2a1000002a7 0x4beb00004bf1 0x48e 0 no 0x5a7000005a8,
  dr 0x2a1000002a7 0x4bf100004bf7 0x490 0 no 0x5a8000005a9,
  dr 0x23f00000249 0x4c0200004c0a 0x492 0 0x5a9 0,
  dr 0x2a1000002a7 0x4c0a00004c18 0x493 0 no 0x5aa000005ad,
  dr 0x23f00000249 0x4c1f00004c25 0x497 0 no 0x5ad000005af,
  dr 0x39a000003a7 0x4c3000004c36 0x49a 0 0x5af 0,
  dr 0x23f00000249 0x4c3600004c3d 0x49b 0 no 0x5b0000005bc,
  dr 0x23b0000023d 0x4c8100004c88 0x4a6 0 no 0x5bc000005c4,
  dr 0x39a000003a7 0x4cbf00004cc5 0x4af 0 0x5c4 0,
  dr 0x2a1000002a7 0x4cc500004ccb 0x4b0 0 0x5c5 0,
  dr 0x23b0000023d 0x4ccb00004ccf 0x4b1 0 no 0,
  dr 0x23b0000023d 0x4ccf00004cd3 0x4b2 0 no 0x5c6000005c8,
  dr 0x23f00000249 0x4ce100004cea 0x4b3 0 0x5c8 0,
  dr 0x39a000003a7 0x4cf700004cfb 0x4b4 0 no 0x5c9000005cc,
  dr 0x39a000003a7 0x4cff00004d0b 0x4b7 0 0x5cc 0,
  dr 0x23f00000249 0x4d0b00004d11 0x4b8 0 no 0x5cd000005cf,
  dr 0x23f00000249 0x4d1700004d1c 0x4bb 0 no 0x5cf000005db,
  dr 0x2a1000002a7 0x4d9300004d9a 0x4bc 0 0x5db 0,
  dr 0x23f00000249 0x4d9a00004d9f 0x4bd 0 no 0x5dc000005de,
  dr 0x23f00000249 0x4db100004db7 0x4bf 0 no 0x5de000005e1,
  dr 0x23f00000249 0x4dd600004ddc 0x4c2 0 0x5e1 0,
  dr 0x2a1000002a7 0x4ddc00004de3 0x4c3 0 0x5e2 0,
  dr 0x2a1000002a7 0x4de600004dec 0x4c4 0 no 0x5e3000005e5,
  dr 0xc9b00000ca2 0x4e1400004e1d 0x4c5 0 0x5e5 0,
  dr 0x23f00000249 0x4e2b00004e32 0x4c6 0 0x5e6 0,
  dr 0x23b0000023d 0x4e3e00004e44 0x4c7 0 0x5e7 0,
  dr 0x2a1000002a7 0x4e4400004e4d 0x4c8 0 no 0x5e8000005ea,
  dr 0x39a000003a7 0x4e6800004e6c 0x4ca 0 no 0x5ea000005ed,
  dr 0x23f00000249 0x4e6c00004e71 0x4ce 0 no 0x5ed000005f0,
  dr 0x2a1000002a7 0x4e7600004e7d 0x4d2 0 no 0x5f0000005f3,
  dr 0x23f00000249 0x4e9c00004ea3 no 0x4e9c00004ea3 no 0x5f3000005f4,
  dr 0x23f00000249 0x4eb100004eb5 0x4d7 0 0x5f4 0,
  dr 0x23f00000249 0x4ebe00004ec8 0x4d8 0 0x5f5 0,
  dr 0x23b0000023d 0x4ec800004ed1 no 0x4ec800004ed1 no 0x5f6000005f7,
  dr 0x23f00000249 0x4ed700004ee0 0x4da 0 no 0x5f700000608,
  dr 0x23b0000023d 0x4f9900004fa1 0x4df 0 0x608 0,
  dr 0x39a000003a7 0x4fa600004fb0 0x4e0 0 0x609 0,
  dr 0x23b0000023d 0x4fb400004fbc 0x4e1 0 0x60a 0,
  dr 0x23f00000249 0x4fc100004fca 0x4e2 0 no 0x60b00000630,
  dr 0x2a1000002a7 0x50c6000050cf 0x4ff 0 no 0x63000000641,
  dr 0x23f00000249 0xcf500000cfa 0x50b 0 no 0x64100000643,
  dr 0x23f00000249 0x51be000051c3 0x50d 0 0x643 0,
  dr 0x2a1000002a7 0x51c3000051c7 0x50e 0 no 0x6440000064b,
  dr 0x23f00000249 0x528a0000528d 0x510 0 no 0x64b000006ac,
  dr 0x2a1000002a7 0x579100005799 0x53b 0 0x6ac 0,
  dr 0x23f00000249 0x57ae000057b4 0x53c 0 no 0x6ad000006b9,
  dr 0x23f00000249 0x580100005808 0x543 0 0x6b9 0,
  dr 0x23f00000249 0x580d00005815 0x544 0 0x6ba 0,
  dr 0x2a1000002a7 0x58150000581c 0x545 0 no 0x6bb000006bd,
  dr 0x23f00000249 0x581c00005824 no 0x58240000582c no 0x6bd000006be,
  dr 0x2a1000002a7 0x582e00005836 0x548 0 no 0x6be000006c3,
  dr 0x23f00000249 0x587e00005885 0x54a 0 no 0x6c3000006d5,
  dr 0x2a1000002a7 0x58fd00005904 0x559 0 0x6d5 0,
  dr 0x2a1000002a7 0x590a0000590f 0x55a 0 0x6d6 0,
  dr 0x2a1000002a7 0x59180000591f 0x55b 0 0x6d7 0,
  dr 0x23f00000249 0x591f00005924 0x55c 0 no 0x6d8000006db,
  dr 0x23b0000023d 0x59390000593f 0x55f 0 no 0x6db000006dd,
  dr 0x23f00000249 0x595200005957 0x560 0 no 0x6dd000006e0,
  dr 0x23b0000023d 0x59570000595c no 0x595c00005969 0x6e0 0,
  dr 0x23f00000249 0x596f00005978 0x564 0 no 0x6e1000006e3,
  dr 0x23f00000249 0x59990000599f 0x565 0 no 0x6e3000006e5,
  dr 0x23f00000249 0x59a4000059aa 0x568 0 no 0x6e500000707,
  dr 0x23b0000023d 0x5b7f00005b89 no 0x5b7f00005b89 no 0x70700000708,
  dr 0x23f00000249 0x5b8900005b91 no 0x5b9100005b96 no 0x70800000709,
  dr 0x23f00000249 0x5ba600005bac 0x576 0 no 0x70900000715,
  dr 0x2a1000002a7 0x5c3e00005c47 0x582 0 0x715 0,
  dr 0x23f00000249 0x5c4700005c4c 0x583 0 no 0x71600000719,
  dr 0x23f00000249 0x5c8600005c8a 0x586 0 no 0x71900000721,
  dr 0x23b0000023d 0x5cd100005cd7 0x58d 0 0x721 0,
  dr 0x2a1000002a7 0x5cd700005cdd 0x58e 0 no 0x72200000724,
  dr 0x23f00000249 0x5ce800005cf1 0x591 0 no 0x72400000728,
  dr 0x23b0000023d 0x5d3400005d3a 0x592 0 no 0x72800000729,
  dr 0x23f00000249 0x5d3a00005d3e no 0x5d3e00005d43 no 0x7290000072b,
  dr 0x23f00000249 0x5d4d00005d52 0x595 0 no 0x72b00000738,
  dr 0x2a1000002a7 0x5df500005df9 0x597 0 no 0x7380000073c,
  dr 0x23b0000023d 0x5e1300005e19 0x59c 0 0x73c 0,
  dr 0x2a1000002a7 0x5e1e00005e24 0x59d 0 0x73d 0,
  dr 0x23f00000249 0x5e2400005e2d 0x59e 0 no 0x73e00000743,
  dr 0x23f00000249 0x5e5f00005e62 0x5a4 0 0x743 0,
  dr 0x23f00000249 0x5e6200005e68 0x5a5 0 no 0x74400000745,
  dr 0x23f00000249 0x5e6800005e72 0x5a7 0 no 0x74500000748,
  dr 0x23f00000249 0x5e7f00005e82 0x5ab 0 no 0x7480000074a,
  dr 0x2a1000002a7 0x5e9c00005ea5 0x5ac 0 0x74a 0,
  dr 0x2a1000002a7 0x5ea500005ead 0x5ad 0 no 0x74b0000074c,
  dr 0x2a1000002a7 0x5ebc00005ec3 0x5ae 0 0x74c 0,
  dr 0x23b0000023d 0x5ec300005ec9 no 0x5ec300005ec9 no 0x74d0000074e,
  dr 0x23f00000249 0x5ed200005ed6 0x5b0 0 no 0x74e00000757,
  dr 0x2a1000002a7 0x5f3000005f36 0x5b8 0 no 0x75700000758,
  dr 0x8e00000099 0x5f4a00005f52 0x5b9 0 0x758 0,
  dr 0x23f00000249 0x5f5f00005f64 0x5ba 0 no 0x75900000785,
  dr 0x23f00000249 0x61bb000061be 0x5d2 0 0x785 0,
  dr 0x23b0000023d 0x61c5000061c9 0x5d3 0 0x786 0,
  dr 0x23f00000249 0x61c9000061cb 0x5d4 0 no 0x78700000788,
  dr 0x23b0000023d 0x61d1000061d7 0x5d5 0 no 0x78800000789,
  dr 0x23f00000249 0x61e7000061ee 0x5d6 0 no 0x7890000078c,
  dr 0x2a1000002a7 0x61fb00006202 0x5d9 0 no 0x78c0000078d,
  dr 0x23b0000023d 0x62020000620f 0x5db 0 0x78d 0,
  dr 0x23b0000023d 0x62170000621d no 0x621d00006227 no 0x78e0000078f,
  dr 0x2a1000002a7 0x622d00006234 0x5dd 0 0x78f 0,
  dr 0x39a000003a7 0x62340000623b 0x5de 0 0x790 0,
  dr 0x2a1000002a7 0x623b00006242 0x5df 0 0x791 0,
  dr 0x23f00000249 0x62420000624f no 0x624f0000625f 0x792 0,
  dr 0x2a1000002a7 0x626a00006273 0x5e0 0 no 0x79300000796,
  dr 0x23f00000249 0x628d00006292 0x5e3 0 no 0x79600000799,
  dr 0x23f00000249 0x62c4000062ca 0x5e7 0 no 0x799000007a1,
  dr 0x2a1000002a7 0x63170000631a 0x5ee 0 no 0x7a1000007ab,
  dr 0x23f00000249 0x634200006348 0x5f5 0 no 0x7ab000007b5,
  dr 0x2a1000002a7 0x63fe00006404 0x5fc 0 no 0x7b5000007bc,
  dr 0x23b0000023d 0x646200006468 0x5ff 0 no 0,
  dr 0x23f00000249 0x64680000646e 0x600 0 no 0x7bc000007c8,
  dr 0x23f00000249 0x64b8000064be 0x60a 0 no 0x7c8000007cc,
  dr 0x23f00000249 0x64dd000064e7 0x60e 0 no 0x7cc000007cf,
  dr 0x23f00000249 0x650f00006517 0x610 0 no 0x7cf000007d2,
  dr 0x23f00000249 0x652c00006535 0x614 0 no 0x7d2000007d5,
  dr 0x23f00000249 0x654e00006555 0x616 0 no 0x7d5000007db,
  dr 0x23f00000249 0x656000006568 0x61d 0 no 0x7db000007dc,
  dr 0x23f00000249 0x656800006571 0x61f 0 no 0x7dc000007e2,
  dr 0x23f00000249 0x658f0000659c 0x624 0 no 0x7e20000081a,
  dr 0x23f00000249 0x68da000068e6 0x643 0 no 0x81a0000082c,
  dr 0x2a1000002a7 0x6a3e00006a48 0x646 0 no 0x82c0000082d,
  dr 0x23f00000249 0x6a5200006a5e 0x648 0 no 0x82d00000832,
  dr 0x23f00000249 0x6a7f00006a8c 0x64a 0 no 0x8320000083b,
  dr 0x2a1000002a7 0x6b4800006b4d 0x64b 0 no 0x83b00000856,
  dr 0x23f00000249 0x6c1700006c20 0x666 0 0x856 0,
  dr 0x23f00000249 0x6c2000006c28 0x667 0 0x857 0,
  dr 0x23f00000249 0x6c2800006c30 0x668 0 no 0x8580000085b,
  dr 0x23f00000249 0x6c3b00006c42 0x66c 0 no 0x85b0000085f,
  dr 0x23f00000249 0x6c6700006c71 no 0x6c6700006c71 no 0x85f00000860,
  dr 0x2a1000002a7 0x6c7100006c7b 0x66f 0 no 0x86000000866,
  dr 0x23f00000249 0x6cd600006ce2 0x673 0 no 0x86600000869,
  dr 0x23f00000249 0x6d0200006d0b 0x676 0 no 0x8690000087c,
  dr 0x23f00000249 0x6df500006dfa 0x686 0 no 0x87c00000883,
  dr 0x2a1000002a7 0x6e3f00006e48 0x68e 0 0x883 0,
  dr 0x2a1000002a7 0x6e4800006e4b no 0x6e4b00006e4f no 0x88400000885,
  dr 0x23f00000249 0x6e5a00006e60 0x690 0 no 0x88500000888,
  dr 0x2a1000002a7 0x6e7200006e7c 0x694 0 0x888 0,
  dr 0x23b0000023d 0x6e7c00006e82 0x695 0 no 0x8890000088a,
  dr 0x23f00000249 0x6e9c00006ea2 0x696 0 no 0x88a00000891,
  dr 0x23f00000249 0x6ed200006ee0 0x69e 0 no 0x891000008ab,
  dr 0x23f00000249 0x6fde00006fe3 0x6b0 0 no 0x8ab000008af,
  dr 0x23b0000023d 0x70040000700d 0x6b2 0 0x8af 0,
  dr 0x39a000003a7 0x70140000701a 0x6b3 0 0x8b0 0,
  dr 0x2a1000002a7 0x701a00007020 0x6b4 0 no 0x8b1000008b4,
  dr 0x23f00000249 0x703800007040 0x6b7 0 no 0x8b4000008b8,
  dr 0x2a1000002a7 0x704a00007053 0x6bc 0 0x8b8 0,
  dr 0x23f00000249 0x70530000705a 0x6bd 0 no 0x8b9000008bf,
  dr 0x23f00000249 0x70b7000070bd 0x6c0 0 no 0x8bf00000901,
  dr 0x23f00000249 0x734700007350 0x6f2 0 0x901 0,
  dr 0x2a1000002a7 0x735e00007364 0x6f3 0 no 0x90200000904,
  dr 0x23f00000249 0x73830000738b 0x6f5 0 no 0x90400000906,
  dr 0x2a1000002a7 0x739b000073a2 0x6f7 0 no 0x90600000911,
  dr 0x23f00000249 0x742e00007435 0x703 0 no 0x91100000943,
  dr 0x2a1000002a7 0x75940000759b 0x72f 0 0x943 0,
  dr 0x23f00000249 0x759b000075a2 no 0x759b000075a2 no 0x94400000946,
  dr 0x23f00000249 0x75c0000075c5 0x731 0 0x946 0,
  dr 0x23f00000249 0x75c5000075cd 0x732 0 no 0x9470000094a,
  dr 0x62600000633 0x75ec000075f4 no 0x75ec000075f4 no 0,
  dr 0x23f00000249 0x75f4000075fb 0x734 0 no 0x94a00000963,
  dr 0x2a1000002a7 0x775400007759 0x738 0 0x963 0,
  dr 0x23f00000249 0x775d00007766 0x739 0 no 0x96400000970,
  dr 0x2a1000002a7 0x77e8000077ed 0x744 0 no 0x97000000972,
  dr 0x2a1000002a7 0x78040000780b 0x746 0 no 0x97200000973,
  dr 0x2a1000002a7 0x47b8000047bc 0x747 0 no 0x97300000989,
  dr 0x23f00000249 0x78ea000078ef no 0x78ef000078f4 no 0x9890000098b,
  dr 0x2a1000002a7 0x790a00007912 0x758 0 no 0x98b0000098c,
  dr 0x23f00000249 0x791200007917 0x75a 0 no 0x98c00000990,
  dr 0x2a1000002a7 0x79240000792a 0x75f 0 0x990 0,
  dr 0x23f00000249 0x792a00007930 0x760 0 no 0x99100000994,
  dr 0x23f00000249 0x794500007949 0x763 0 0x994 0,
  dr 0x23b0000023d 0x794900007950 0x764 0 0x995 0,
  dr 0xc9b00000ca2 0x795000007953 0x765 0 0x996 0,
  dr 0x23f00000249 0x795c00007960 0x766 0 no 0x997000009b2,
  dr 0x2a1000002a7 0x7a3500007a39 0x77f 0 0x9b2 0,
  dr 0x2a1000002a7 0x7a3900007a3b 0x780 0 no 0x9b3000009b7,
  dr 0x23f00000249 0x7a7400007a79 0x782 0 no 0x9b7000009b9,
  dr 0x2a1000002a7 0x7a8c00007a91 0x785 0 0x9b9 0,
  dr 0x2a1000002a7 0x7a9900007aa0 0x786 0 no 0x9ba000009bc,
  dr 0x23b0000023d 0x7aa400007aac 0x789 0 0x9bc 0,
  dr 0x23f00000249 0x7aac00007ab3 0x78a 0 no 0x9bd000009c0,
  dr 0x2a1000002a7 0x7ac300007ac7 0x78d 0 0x9c0 0,
  dr 0x23f00000249 0x7ac700007ad0 0x78e 0 0x9c1 0,
  dr 0x23f00000249 0x7ad000007ad4 0x78f 0 no 0x9c2000009c7,
  dr 0x23f00000249 0x7b1a00007b1f 0x793 0 no 0x9c7000009cd,
  dr 0x23f00000249 0x7b5500007b57 0x797 0 no 0x9cd000009d2,
  dr 0x2a1000002a7 0x7ba200007ba7 0x79b 0 no 0x9d2000009d3,
  dr 0x23f00000249 0x7ba700007baa 0x79d 0 no 0x9d3000009d8,
  dr 0x23f00000249 0x7bc900007bd0 0x7a3 0 0x9d8 0,
  dr 0x23f00000249 0x7bd000007bd3 0x7a4 0 no 0x9d9000009db,
  dr 0x23b0000023d 0x7bdf00007be5 0x7a6 0 0x9db 0,
  dr 0x23b0000023d 0x7be500007bee 0x7a7 0 0x9dc 0,
  dr 0x23f00000249 0x7bee00007bf2 0x7a8 0 0x9dd 0,
  dr 0x8e00000099 0x7bf200007bfb 0x7a9 0 0x9de 0,
  dr 0x23f00000249 0x7c0100007c0d 0x7aa 0 no 0x9df000009e1,
  dr 0x2a1000002a7 0x7c0d00007c13 0x7ad 0 no 0x9e1000009e4,
  dr 0x23f00000249 0x7c1d00007c22 0x7b1 0 no 0x9e4000009e8,
  dr 0x23b0000023d 0x7c5300007c5c no 0x7c5300007c5c no 0x9e8000009e9,
  dr 0x2a1000002a7 0x7c6200007c66 0x7b5 0 no 0x9e9000009ec,
  dr 0x23f00000249 0x7ca200007ca7 0x7b7 0 0x9ec 0,
  dr 0x23f00000249 0x7ca700007cb0 0x7b8 0 0x9ed 0,
  dr 0x2a1000002a7 0x7cb800007cc0 0x7b9 0 0x9ee 0,
  dr 0x23f00000249 0x7cc000007cc6 no 0x7cc600007ccc no 0x9ef000009f1,
  dr 0x23f00000249 0x7ccc00007cd4 0x7bc 0 no 0x9f1000009f3,
  dr 0x23f00000249 0x7cf800007cfe no 0x7cfe00007d04 no 0x9f3000009f5,
  dr 0x23b0000023d 0x7d2600007d2e 0x7be 0 no 0x9f5000009f6,
  dr 0x23f00000249 0x7d4400007d4b no 0x7d4b00007d52 0x9f6 0,
  dr 0x39a000003a7 0x7d5a00007d5f 0x7bf 0 0x9f7 0,
  dr 0x23f00000249 0x7d5f00007d64 0x7c0 0 no 0x9f800000a01,
  dr 0x23f00000249 0x7dbe00007dc4 0x7c6 0 0xa01 0,
  dr 0x23f00000249 0x7dc400007dc8 0x7c7 0 no 0xa0200000a0f,
  dr 0x2a1000002a7 0x7e0300007e09 0x7d4 0 0xa0f 0,
  dr 0x23b0000023d 0x7e1100007e16 no 0x7e1600007e1e 0xa10 0,
  dr 0x2a1000002a7 0x7e1e00007e24 0x7d5 0 no 0xa1100000a15,
  dr 0x23f00000249 0x7e3000007e35 no 0x7e3000007e35 no 0xa1500000a17,
  dr 0x23f00000249 0x7e3500007e3b 0x7dc 0 no 0xa1700000a19,
  dr 0x39a000003a7 0x7e3b00007e40 0x7df 0 0xa19 0,
  dr 0x23f00000249 0x7e4000007e44 0x7e0 0 0xa1a 0,
  dr 0x23f00000249 0x7e4400007e4b 0x7e1 0 no 0xa1b00000a21,
  dr 0x23f00000249 0x7e8300007e8d 0x7e5 0 no 0xa2100000a22,
  dr 0x23b0000023d 0x7e8d00007e95 0x7e7 0 no 0,
  dr 0x2a1000002a7 0x7e9500007e9d 0x7e8 0 no 0xa2200000a26,
  dr 0x23f00000249 0x7ea400007ea9 0x7ec 0 no 0xa2600000a31,
  dr 0x23f00000249 0x7f4200007f47 0x7f8 0 no 0xa3100000a8b,
  dr 0x23b0000023d 0x84540000845c no 0x845c00008464 no 0xa8b00000a8c,
  dr 0x2a1000002a7 0x846400008469 0x823 0 0xa8c 0,
  dr 0x2a1000002a7 0x847100008477 0x824 0 no 0xa8d00000a8f,
  dr 0x2a1000002a7 0x848900008490 0x826 0 0xa8f 0,
  dr 0x2a1000002a7 0x849000008494 0x827 0 0xa90 0,
  dr 0x23b0000023d 0x84940000849c no 0x84940000849c no 0xa9100000a92,
  dr 0x23b0000023d 0x84a6000084ad 0x829 0 no 0xa9200000a96,
  dr 0x39a000003a7 0x84d1000084d7 0x82d 0 no 0xa9600000a9a,
  dr 0x23b0000023d 0x84d7000084de 0x832 0 0xa9a 0,
  dr 0x23b0000023d 0x84de000084e5 0x833 0 0xa9b 0,
  dr 0x23b0000023d 0x84e5000084eb 0x834 0 0xa9c 0,
  dr 0x23f00000249 0x84eb000084f1 0x835 0 no 0xa9d00000af8,
  dr 0x23f00000249 0x88f4000088fa 0x85e 0 0xaf8 0,
  dr 0x23f00000249 0x88fc00008900 0x85f 0 no 0xaf900000afd,
  dr 0x39a000003a7 0x891200008917 0x864 0 0xafd 0,
  dr 0x23f00000249 0x89170000891d 0x865 0 no 0xafe00000b01,
  dr 0x23b0000023d 0x89280000892c 0x869 0 0xb01 0,
  dr 0x23f00000249 0x892c00008930 0x86a 0 no 0xb0200000b07,
  dr 0x2a1000002a7 0x893d00008949 0x870 0 no 0xb0700000b0b,
  dr 0x23b0000023d 0x89760000897f no 0x897f00008988 no 0xb0b00000b0c,
  dr 0x23f00000249 0x898800008991 0x873 0 no 0xb0c00000b0d,
  dr 0x23b0000023d 0x8997000089a1 0x875 0 0xb0d 0,
  dr 0x23f00000249 0x89a1000089a7 0x876 0 0xb0e 0,
  dr 0x23f00000249 0x89a7000089ab 0x877 0 0xb0f 0,
  dr 0x23b0000023d 0x89b3000089ba 0x878 0 no 0xb1000000b13,
  dr 0x23b0000023d 0x89c1000089c6 no 0x89c6000089cb 0xb13 0,
  dr 0x2a1000002a7 0x89cb000089d3 0x87c 0 0xb14 0,
  dr 0x23f00000249 0x89d3000089d9 0x87d 0 0xb15 0,
  dr 0x23b0000023d 0x89d9000089e1 0x87e 0 0xb16 0,
  dr 0x23b0000023d 0x89f1000089f5 0x87f 0 no 0xb1700000b18,
  dr 0x23f00000249 0x8a0c00008a12 0x880 0 no 0xb1800000b1c,
  dr 0x2a1000002a7 0x8a2800008a2f 0x884 0 no 0xb1c00000b1e,
  dr 0x23f00000249 0x8a4600008a4d 0x887 0 0xb1e 0,
  dr 0x23f00000249 0x8a5400008a59 0x888 0 no 0xb1f00000b23,
  dr 0x2a1000002a7 0x8a6d00008a71 0x88d 0 0xb23 0,
  dr 0x23f00000249 0x8a7100008a76 no 0x8a7100008a76 no 0xb2400000b26,
  dr 0x23b0000023d 0x8a7600008a7a 0x890 0 0xb26 0,
  dr 0x23f00000249 0x8a7a00008a7e 0x891 0 no 0xb2700000b2a,
  dr 0x2a1000002a7 0x8a8f00008a92 0x895 0 no 0xb2a00000b2e,
  dr 0x23f00000249 0x8aa400008aa6 0x89a 0 no 0xb2e00000b31,
  dr 0x7cc000007d6 0x8aaa00008aad 0x89e 0 0xb31 0,
  dr 0x23f00000249 0x8aad00008ab0 no 0x8ab000008ab8 no 0xb3200000b33,
  dr 0x2a1000002a7 0x8abd00008ac3 0x89f 0 0xb33 0,
  dr 0x23f00000249 0x8ac300008ac6 0x8a0 0 no 0xb3400000b39,
  dr 0x2a1000002a7 0x8aee00008af1 0x8a5 0 no 0xb3900000b3b,
  dr 0x2b1e00002b26 0x8af600008afb 0x8a8 0 no 0xb3b00000b3d,
  dr 0x23b0000023d 0x8b2400008b2c 0x8a9 0 0xb3d 0,
  dr 0x2a1000002a7 0x8b2c00008b32 0x8aa 0 0xb3e 0,
  dr 0x23f00000249 0x8b3200008b36 0x8ab 0 no 0xb3f00000b41,
  dr 0x2a1000002a7 0x8b4100008b4e 0x8ad 0 0xb41 0,
  dr 0x23b0000023d 0x8b5600008b5a 0x8ae 0 0xb42 0,
  dr 0x23b0000023d 0x8b5f00008b66 0x8af 0 no 0xb4300000b44,
  dr 0x23b0000023d 0x8b6600008b6b 0x8b1 0 no 0xb4400000b47,
  dr 0x2a1000002a7 0x8b8f00008b93 0x8b4 0 no 0xb4700000b49,
  dr 0x2a1000002a7 0x8bc100008bc7 0x8b5 0 0xb49 0,
  dr 0x2a1000002a7 0x8bc700008bca 0x8b6 0 no 0xb4a00000b4c,
  dr 0x23f00000249 0x8bd800008bdb 0x8b9 0 0xb4c 0,
  dr 0x23b0000023d 0x8bdb00008be0 0x8ba 0 0xb4d 0,
  dr 0x2a1000002a7 0x8be000008be9 0x8bb 0 0xb4e 0,
  dr 0x23f00000249 0x8be900008bf0 0x8bc 0 no 0xb4f00000b51,
  dr 0x23f00000249 0x8bfa00008c06 0x8bf 0 no 0xb5100000b56,
  dr 0x23b0000023d 0x8c4300008c4a 0x8c3 0 0xb56 0,
  dr 0x23f00000249 0x8c4a00008c50 0x8c4 0 0xb57 0,
  dr 0x23b0000023d 0x8c5000008c58 0x8c5 0 no 0xb5800000b5a,
  dr 0x23f00000249 0x8c5800008c5d 0x8c8 0 no 0xb5a00000b5b,
  dr 0x2a1000002a7 0x8c7500008c7d 0x8c9 0 0xb5b 0,
  dr 0x23f00000249 0x8c7d00008c89 0x8ca 0 no 0xb5c00000b5e,
  dr 0x23f00000249 0x8c9800008c9f 0x8cc 0 0xb5e 0,
  dr 0x23f00000249 0x8caa00008cb5 0x8cd 0 0xb5f 0,
  dr 0x23b0000023d 0x8cb500008cbb 0x8ce 0 no 0xb6000000b64,
  dr 0x23b0000023d 0x8d1100008d18 0x8d3 0 0xb64 0,
  dr 0x2a1000002a7 0x8d2900008d31 0x8d4 0 no 0xb6500000b67,
  dr 0x23f00000249 0x8d3100008d39 0x8d7 0 no 0xb6700000b79,
  dr 0x23f00000249 0x8d9200008d99 0x8ea 0 no 0xb7900000b7c,
  dr 0x23b0000023d 0x8dac00008db2 0x8ee 0 0xb7c 0,
  dr 0x23f00000249 0x8db200008dbe 0x8ef 0 0xb7d 0,
  dr 0x23b0000023d 0x8dbe00008dc3 0x8f0 0 no 0xb7e00000b81,
  dr 0x2a1000002a7 0x8dd900008ddf 0x8f4 0 0xb81 0,
  dr 0x23f00000249 0x8ddf00008de6 0x8f5 0 no 0xb8200000b85,
  dr 0x23f00000249 0x8e0000008e09 0x8f7 0 no 0xb8500000b8e,
  dr 0x23f00000249 0x8e6b00008e78 0x8ff 0 no 0xb8e00000b92,
  dr 0x23b0000023d 0x8eae00008eb3 0x903 0 0xb92 0,
  dr 0x2a1000002a7 0x8eb300008eb7 0x904 0 0xb93 0,
  dr 0x2a1000002a7 0x8eb700008ebd 0x905 0 0xb94 0,
  dr 0x2a1000002a7 0x8ec600008ecd 0x906 0 0xb95 0,
  dr 0x23f00000249 0x8edb00008ee1 0x907 0 no 0xb9600000b98,
  dr 0x2a1000002a7 0x8ef700008efb 0x908 0 0xb98 0,
  dr 0x23f00000249 0x8efb00008f03 0x909 0 no 0xb9900000bb2,
  dr 0x23b0000023d 0x902100009028 0x90a 0 0xbb2 0,
  dr 0x7cc000007d6 0x90280000902d 0x90b 0 no 0xbb300000bb5,
  dr 0x23f00000249 0x90560000905d 0x90c 0 0xbb5 0,
  dr 0x23f00000249 0x906100009065 0x90d 0 no 0xbb600000bd6,
  dr 0x39a000003a7 0x91e1000091e9 0x91d 0 no 0xbd600000bd9,
  dr 0x23b0000023d 0x91ed000091f4 0x921 0 0xbd9 0,
  dr 0x23f00000249 0x91f4000091fd 0x922 0 no 0xbda00000bdb,
  dr 0x23f00000249 0x92010000920b 0x923 0 no 0xbdb00000bdf,
  dr 0x23f00000249 0x92280000922c no 0x92280000922c no 0xbdf00000be1,
  dr 0x23f00000249 0x922c00009233 0x92a 0 no 0xbe100000be3,
  dr 0x23f00000249 0x923300009239 0x92d 0 0xbe3 0,
  dr 0x2a1000002a7 0x924000009248 0x92e 0 no 0xbe400000be5,
  dr 0x23f00000249 0x92750000927d 0x92f 0 no 0xbe500000be9,
  dr 0x23f00000249 0x92960000929e 0x933 0 no 0xbe900000bf2,
  dr 0x2a1000002a7 0x92d5000092dc 0x93c 0 no 0xbf200000bf3,
  dr 0x2a1000002a7 0x92e9000092ef 0x93e 0 0xbf3 0,
  dr 0x23b0000023d 0x92f6000092fe 0x93f 0 0xbf4 0,
  dr 0x2a1000002a7 0x92fe00009304 0x940 0 0xbf5 0,
  dr 0x23f00000249 0x93040000930b 0x941 0 no 0xbf600000bfe,
  dr 0x23f00000249 0x935000009356 0x949 0 no 0xbfe00000c01,
  dr 0x23f00000249 0x93770000937e 0x94b 0 no 0xc0100000c09,
  dr 0x23f00000249 0x940c00009410 0x951 0 0xc09 0,
  dr 0x2a1000002a7 0x941000009419 0x952 0 no 0xc0a00000c10,
  dr 0x23f00000249 0x94bb000094c3 0x953 0 no 0xc1000000c12,
  dr 0x2a1000002a7 0x94d4000094db 0x956 0 0xc12 0,
  dr 0x23f00000249 0x94e2000094e8 0x957 0 0xc13 0,
  dr 0x2a1000002a7 0x94e8000094ee 0x958 0 no 0xc1400000c30,
  dr 0x7cc000007d6 0x95cd000095d6 0x971 0 0xc30 0,
  dr 0x23f00000249 0x95e8000095ee 0x972 0 no 0xc3100000c33]

/-- `__dr_idx[3]`, from item 500 on (device_repo.go:538-1037). -/
def drIdx3_1 : List DeviceTuple := [
  dr 0x2a1000002a7 0x96070000960d no 0x960d00009619 0xc33 0,
  dr 0x39a000003a7 0x96260000962a 0x974 0 0xc34 0,
  dr 0x39a000003a7 0x962a0000962e 0x975 0 no 0xc3500000c37,
  dr 0x23f00000249 0x963200009634 0x978 0 no 0xc3700000c3c,
  dr 0x23f00000249 0x965c00009660 0x97c 0 no 0xc3c00000c44,
  dr 0x23f00000249 0x96930000969c 0x981 0 no 0xc4400000c4b,
  dr 0x2a1000002a7 0x970300009709 0x983 0 0xc4b 0,
  dr 0x2a1000002a7 0x970900009716 0x984 0 0xc4c 0,
  dr 0x23f00000249 0x971e00009723 0x985 0 0xc4d 0,
  dr 0x23f00000249 0x973100009735 no 0x97350000973a no 0xc4e00000c4f,
  dr 0x23f00000249 0x974300009749 no 0x974300009749 no 0xc4f00000c51,
  dr 0x2a1000002a7 0x975c00009763 0x989 0 0xc51 0,
  dr 0x23f00000249 0x976300009766 0x98a 0 no 0xc5200000c5c,
  dr 0x23f00000249 0x980500009808 0x98c 0 no 0xc5c00000c61,
  dr 0x2a1000002a7 0x98370000983a 0x98d 0 no 0xc6100000c66,
  dr 0x2a1000002a7 0x98840000988a 0x991 0 0xc66 0,
  dr 0x23f00000249 0x988a0000988f 0x992 0 0xc67 0,
  dr 0x23f00000249 0x988f00009894 0x993 0 no 0xc6800000c6a,
  dr 0x23f00000249 0x989b000098a3 0x996 0 no 0xc6a00000c71,
  dr 0x23f00000249 0x98c7000098ca 0x99a 0 0xc71 0,
  dr 0x2a1000002a7 0x98ca000098cf no 0x98cf000098dd 0xc72 0,
  dr 0x2a1000002a7 0x98dd000098e6 0x99b 0 0xc73 0,
  dr 0x23b0000023d 0x98e6000098ee no 0x98ee000098f6 0xc74 0,
  dr 0x2a1000002a7 0x98ff00009906 0x99c 0 no 0xc7500000c78,
  dr 0x2a1000002a7 0x991100009917 0x9a0 0 0xc78 0,
  dr 0x23f00000249 0x991e00009927 0x9a1 0 0xc79 0,
  dr 0x23f00000249 0x99270000992d 0x9a2 0 0xc7a 0,
  dr 0x23f00000249 0x992d00009933 0x9a3 0 no 0xc7b00000c80,
  dr 0x23f00000249 0x99670000996d 0x9a6 0 0xc80 0,
  dr 0x23f00000249 0x99720000997c 0x9a7 0 0xc81 0,
  dr 0x2a1000002a7 0x997c00009984 0x9a8 0 0xc82 0,
  dr 0x2a1000002a7 0x99840000998d 0x9a9 0 0xc83 0,
  dr 0x23b0000023d 0x998d00009993 0x9aa 0 no 0xc8400000c85,
  dr 0x23f00000249 0x999300009997 0x9ac 0 no 0xc8500000c8c,
  dr 0x23f00000249 0x99ee000099f2 0x9af 0 no 0xc8c00000c99,
  dr 0x23f00000249 0x9ac000009ac4 0x9b2 0 no 0xc9900000ca4,
  dr 0x23f00000249 0x9b0f00009b16 no 0x9b0f00009b16 no 0xca400000ca5,
  dr 0x23b0000023d 0x9b1600009b1c no 0x9b1600009b1c no 0xca500000ca6,
  dr 0x23f00000249 0x9b2200009b2b 0x9bc 0 no 0xca600000ca8,
  dr 0x23b0000023d 0x9b2b00009b31 no 0x9b3100009b37 no 0xca800000ca9,
  dr 0x23f00000249 0x9b3700009b45 0x9c0 0 no 0xca900000cc6,
  dr 0x23b0000023d 0x9cb600009cbc 0x9dd 0 0xcc6 0,
  dr 0x23f00000249 0x9cbf00009cc3 0x9de 0 no 0xcc700000cc9,
  dr 0x23f00000249 0x9cd700009cda 0x9df 0 no 0xcc900000d39,
  dr 0x23b0000023d 0xa13b0000a140 no 0xa1400000a146 no 0xd3900000d3a,
  dr 0x23f00000249 0xa1460000a14b 0xa26 0 no 0xd3a00000d3d,
  dr 0x23f00000249 0xa14b0000a150 0xa2a 0 no 0xd3d00000d3f,
  dr 0x7cc000007d6 0xa1520000a15a no 0xa15a0000a15f no 0xd3f00000d40,
  dr 0x23b0000023d 0xa15f0000a167 0xa2e 0 no 0xd4000000d42,
  dr 0x23f00000249 0xa1720000a179 0xa31 0 no 0xd4200000d43,
  dr 0x23f00000249 0xa1830000a189 0xa33 0 0xd43 0,
  dr 0x23f00000249 0xa1890000a194 0xa34 0 0xd44 0,
  dr 0x23f00000249 0xa19b0000a1a6 0xa35 0 no 0xd4500000d4b,
  dr 0x23f00000249 0xa1e80000a1ee 0xa39 0 no 0xd4b00000d4c,
  dr 0x23f00000249 0xa1fc0000a203 0xa3b 0 no 0xd4c00000d4d,
  dr 0x23f00000249 0xa20e0000a213 0xa3d 0 no 0xd4d00000d4e,
  dr 0x23f00000249 0xa2130000a21b 0xa3f 0 no 0xd4e00000d52,
  dr 0x23f00000249 0xa2430000a24a 0xa40 0 no 0xd5200000d68,
  dr 0x2a1000002a7 0xa3710000a377 0xa49 0 0xd68 0,
  dr 0x23b0000023d 0x5980000059d 0xa4a 0 no 0xd6900000d6a,
  dr 0x23f00000249 0xa3820000a389 0xa4b 0 no 0xd6a00000d9f,
  dr 0x23b0000023d 0xa6b90000a6be 0xa7f 0 no 0xd9f00000da1,
  dr 0x2a1000002a7 0xa6cf0000a6d6 0xa82 0 no 0xda100000da6,
  dr 0x23f00000249 0xa6f60000a70e 0xa88 0 0xda6 0,
  dr 0x23f00000249 0xa70e0000a713 0xa89 0 0xda7 0,
  dr 0x23b0000023d 0xa7190000a720 no 0xa7200000a727 no 0xda800000da9,
  dr 0x23f00000249 0xa72f0000a735 0xa8a 0 no 0xda900000daa,
  dr 0x2a1000002a7 0xa73e0000a743 0xa8b 0 0xdaa 0,
  dr 0x23f00000249 0xa74d0000a753 0xa8c 0 no 0xdab00000db2,
  dr 0x23f00000249 0xa7850000a78c 0xa90 0 no 0xdb200000db4,
  dr 0x2a1000002a7 0xa79b0000a7a1 0xa93 0 0xdb4 0,
  dr 0x23f00000249 0xa7a10000a7a4 0xa94 0 0xdb5 0,
  dr 0x2a1000002a7 0xa7a40000a7aa 0xa95 0 0xdb6 0,
  dr 0x2b1e00002b26 0xa7af0000a7b5 0xa96 0 0xdb7 0,
  dr 0x23f00000249 0xa7b50000a7ba 0xa97 0 no 0xdb800000dc8,
  dr 0x2a1000002a7 0xa8ae0000a8b6 0xaa0 0 0xdc8 0,
  dr 0x2a1000002a7 0xa8ba0000a8c0 0xaa1 0 0xdc9 0,
  dr 0x23f00000249 0xa8c90000a8cc 0xaa2 0 no 0xdca00000dd1,
  dr 0x23f00000249 0xa9000000a908 0xaa6 0 no 0xdd100000de9,
  dr 0x23f00000249 0xaa1e0000aa26 0xaba 0 no 0xde900000dea,
  dr 0x2a1000002a7 0xaa340000aa3b 0xabb 0 no 0xdea00000dec,
  dr 0x23b0000023d 0xaa460000aa4a 0xabd 0 0xdec 0,
  dr 0x23b0000023d 0xaa4a0000aa51 0xabe 0 0xded 0,
  dr 0x2a1000002a7 0xaa510000aa54 0xabf 0 0xdee 0,
  dr 0x23b0000023d 0xaa5e0000aa65 0xac0 0 no 0xdef00000df1,
  dr 0x23f00000249 0xaa650000aa6d 0xac3 0 0xdf1 0,
  dr 0x23b0000023d 0xaa6d0000aa74 0xac4 0 0xdf2 0,
  dr 0x23b0000023d 0xaa740000aa86 0xac5 0 no 0xdf300000df7,
  dr 0x2a1000002a7 0xaac20000aac7 0xac6 0 0xdf7 0,
  dr 0x23f00000249 0xaac70000aad2 0xac7 0 no 0xdf800000dfb,
  dr 0x2a1000002a7 0xaadf0000aae6 0xacb 0 no 0xdfb00000dfc,
  dr 0x23b0000023d 0xaaf00000aaf5 0xacd 0 no 0xdfc00000dff,
  dr 0x23b0000023d 0xab110000ab16 no 0xab160000ab1e 0xdff 0,
  dr 0x2a1000002a7 0xab1e0000ab24 0xacf 0 0xe00 0,
  dr 0x23f00000249 0xab240000ab29 0xad0 0 0xe01 0,
  dr 0x2a1000002a7 0xab290000ab34 0xad1 0 0xe02 0,
  dr 0x2a1000002a7 0xab340000ab3a 0xad2 0 0xe03 0,
  dr 0x23f00000249 0xab3a0000ab48 0xad3 0 no 0xe0400000e24,
  dr 0x2a1000002a7 0xacaf0000acb6 0xadb 0 0xe24 0,
  dr 0x23b0000023d 0xacb60000acc4 0xadc 0 0xe25 0,
  dr 0x39a000003a7 0xacc40000accd 0xadd 0 no 0xe2600000e28,
  dr 0x23f00000249 0xacd10000acd7 0xae0 0 no 0xe2800000e2b,
  dr 0x23b0000023d 0xace00000ace6 0xae3 0 0xe2b 0,
  dr 0x23f00000249 0xace60000aced 0xae4 0 0xe2c 0,
  dr 0x39a000003a7 0xaced0000acf2 0xae5 0 0xe2d 0,
  dr 0x2a1000002a7 0xacf20000acf6 0xae6 0 no 0xe2e00000e44,
  dr 0x23f00000249 0xae270000ae2c 0xaed 0 0xe44 0,
  dr 0x2a1000002a7 0xae2c0000ae31 0xaee 0 no 0xe4500000e46,
  dr 0x23f00000249 0xae340000ae3c 0xaf0 0 no 0xe4600000e4b,
  dr 0x23f00000249 0xae6a0000ae71 0xaf4 0 no 0xe4b00000e5c,
  dr 0x23f00000249 0xaf270000af2b 0xafb 0 no 0xe5c00000e61,
  dr 0x23f00000249 0xaf3d0000af43 0xb00 0 no 0xe6100000e65,
  dr 0x23f00000249 0xaf4e0000af54 0xb05 0 no 0xe6500000e86,
  dr 0x2a1000002a7 0xb0490000b052 0xb18 0 0xe86 0,
  dr 0x2a1000002a7 0xb0590000b05f 0xb19 0 no 0xe8700000e8a,
  dr 0x23b0000023d 0xb0680000b070 0xb1d 0 0xe8a 0,
  dr 0x23f00000249 0xb0700000b078 0xb1e 0 0xe8b 0,
  dr 0x23f00000249 0xb07c0000b084 0xb1f 0 no 0xe8c00000e8e,
  dr 0x2a1000002a7 0xb0a20000b0ac no 0xb0ac0000b0b2 no 0,
  dr 0x23f00000249 0xb0b20000b0ba 0xb20 0 no 0xe8e00000e93,
  dr 0x2b1e00002b26 0xb1040000b10b no 0xb10b0000b117 0xe93 0,
  dr 0x23f00000249 0xb1190000b123 0xb22 0 no 0xe9400000e98,
  dr 0x2a1000002a7 0xb15f0000b169 0xb23 0 no 0xe9800000e9d,
  dr 0x23b0000023d 0xb1a10000b1a9 0xb26 0 0xe9d 0,
  dr 0x23f00000249 0xb1a90000b1ad 0xb27 0 no 0xe9e00000ea0,
  dr 0x23f00000249 0xb1ad0000b1b1 0xb2a 0 no 0xea000000eab,
  dr 0x23f00000249 0xb1c90000b1cf 0xb36 0 no 0xeab00000ee4,
  dr 0x23f00000249 0xb40e0000b416 0xb58 0 no 0xee400000eec,
  dr 0x23f00000249 0xb43a0000b441 0xb61 0 no 0xeec00000eee,
  dr 0x23f00000249 0xb4410000b446 0xb63 0 no 0xeee00000ef3,
  dr 0x39a000003a7 0xb4690000b472 no 0xb4720000b47b no 0xef300000ef5,
  dr 0x23b0000023d 0xb47b0000b481 0xb68 0 no 0,
  dr 0x23f00000249 0xb4810000b486 0xb69 0 0xef5 0,
  dr 0x2a1000002a7 0xb48d0000b497 0xb6a 0 no 0xef600000ef8,
  dr 0x23f00000249 0xb49c0000b4a0 0xb6d 0 no 0xef800000efb,
  dr 0x2a1000002a7 0xb4bc0000b4c6 0xb6f 0 no 0xefb00000efd,
  dr 0x23f00000249 0xb4d80000b4e4 0xb72 0 no 0xefd00000efe,
  dr 0x23f00000249 0xb4f10000b4f9 0xb73 0 no 0xefe00000eff,
  dr 0x23f00000249 0xb5050000b50b 0xb75 0 no 0xeff00000f01,
  dr 0x23f00000249 0xb5200000b526 0xb77 0 no 0xf0100000f03,
  dr 0x2a1000002a7 0xb5260000b530 0xb7a 0 0xf03 0,
  dr 0x23b0000023d 0xb5300000b537 0xb7b 0 no 0xf0400000f0b,
  dr 0x23b0000023d 0xb5830000b58c 0xb80 0 0xf0b 0,
  dr 0x23f00000249 0xb58c0000b590 0xb81 0 no 0xf0c00000f12,
  dr 0x23f00000249 0xb5d70000b5df 0xb87 0 0xf12 0,
  dr 0x23b0000023d 0xb5df0000b5e2 0xb88 0 no 0xf1300000f1a,
  dr 0x2a1000002a7 0xb6020000b608 0xb90 0 0xf1a 0,
  dr 0x2a1000002a7 0xb6080000b60d 0xb91 0 0xf1b 0,
  dr 0x7cc000007d6 0xb60d0000b612 no 0xb60d0000b612 no 0xf1c00000f1d,
  dr 0x2a1000002a7 0xb6240000b627 0xb92 0 no 0xf1d00000f1e,
  dr 0x23b0000023d 0xb6350000b638 no 0xb6380000b649 0xf1e 0,
  dr 0x23f00000249 0xb6520000b656 0xb93 0 no 0xf1f00000f20,
  dr 0x23b0000023d 0xb65c0000b661 0xb95 0 no 0xf2000000f24,
  dr 0x23b0000023d 0xb68e0000b691 no 0xb6910000b695 no 0xf2400000f25,
  dr 0x23b0000023d 0xb6a30000b6a8 0xb9a 0 no 0,
  dr 0x23f00000249 0xb6a80000b6ab 0xb9b 0 no 0xf2500000f2f,
  dr 0x23b0000023d 0xb6f90000b702 0xb9d 0 0xf2f 0,
  dr 0x2a1000002a7 0xb70c0000b711 0xb9e 0 no 0xf3000000f31,
  dr 0x2a1000002a7 0xb7210000b729 0xb9f 0 0xf31 0,
  dr 0x2a1000002a7 0xb7290000b731 no 0xb7290000b731 no 0xf3200000f33,
  dr 0x23f00000249 0xb7400000b742 0xba1 0 no 0xf3300000f48,
  dr 0x23f00000249 0xb8450000b848 0xbad 0 no 0xf4800000fa5,
  dr 0x23f00000249 0xbb7d0000bb83 0xc02 0 no 0xfa500000fa7,
  dr 0x23f00000249 0xbb870000bb8c 0xc05 0 no 0xfa700000fc4,
  dr 0x23f00000249 0xbca90000bcaf no 0xbca90000bcaf no 0xfc400000fc5,
  dr 0x23f00000249 0xbcb70000bcbc 0xc14 0 0xfc5 0,
  dr 0x2a1000002a7 0xbcbc0000bcc2 0xc15 0 no 0xfc600000fc7,
  dr 0x23f00000249 0xbcce0000bcd4 0xc17 0 no 0xfc700000fdb,
  dr 0x2a1000002a7 0xbdb60000bdbe 0xc28 0 no 0xfdb00000fdd,
  dr 0x2a1000002a7 0xbdbe0000bdc7 0xc2b 0 no 0xfdd00000fe4,
  dr 0x2a1000002a7 0xbdfd0000be03 0xc2e 0 0xfe4 0,
  dr 0x7cc000007d6 0xbe030000be0d 0xc2f 0 0xfe5 0,
  dr 0x23b0000023d 0xbe160000be1c 0xc30 0 no 0xfe600000fe8,
  dr 0x23b0000023d 0xbe1c0000be23 0xc33 0 no 0xfe800000feb,
  dr 0x23f00000249 0xbe530000be58 no 0xbe530000be58 no 0xfeb00000fed,
  dr 0x23b0000023d 0xbe580000be5f 0xc38 0 0xfed 0,
  dr 0x2a1000002a7 0xbe5f0000be67 0xc39 0 no 0xfee00000ff2,
  dr 0x23b0000023d 0xbe7d0000be83 0xc3e 0 0xff2 0,
  dr 0x23f00000249 0xbe830000be88 0xc3f 0 0xff3 0,
  dr 0x2a1000002a7 0xbe880000be90 0xc40 0 0xff4 0,
  dr 0x23f00000249 0xbe9c0000bea4 0xc41 0 0xff5 0,
  dr 0x2a1000002a7 0xbea60000beac 0xc42 0 0xff6 0,
  dr 0x23f00000249 0xbeac0000beae 0xc43 0 no 0xff700000fff,
  dr 0x23f00000249 0xbee70000beee 0xc4b 0 no 0xfff00001008,
  dr 0x2a1000002a7 0xbf540000bf5c 0xc4d 0 0x1008 0,
  dr 0xbf670000bf7c 0xbf630000bf67 0xc4e 0 0x1009 0,
  dr 0x2a1000002a7 0xbf860000bf8d 0xc4f 0 0x100a 0,
  dr 0x2a1000002a7 0xbf8d0000bf91 no 0xbf910000bf96 no 0x100b0000100c,
  dr 0x23f00000249 0xbfa10000bfa7 0xc51 0 no 0x100c0000100f,
  dr 0x23f00000249 0xbfb00000bfb5 0xc54 0 no 0x100f00001012,
  dr 0x23b0000023d 0xbfd30000bfd9 0xc57 0 no 0x101200001016,
  dr 0x23f00000249 0xbff00000bffa 0xc5c 0 no 0x101600001040,
  dr 0x2a1000002a7 0xc1750000c17e 0xc83 0 no 0x104000001043,
  dr 0x23b0000023d 0xc17e0000c185 0xc87 0 no 0x104300001049,
  dr 0x23f00000249 0xc1b80000c1bf 0xc8a 0 no 0x104900001086,
  dr 0x23b0000023d 0xc39a0000c3a1 0xcb5 0 no 0x108600001087,
  dr 0x23f00000249 0xc3a10000c3a7 0xcb7 0 0x1087 0,
  dr 0x23f00000249 0xc3a70000c3af 0xcb8 0 no 0x10880000108b,
  dr 0x23b0000023d 0xc3b30000c3bb 0xcbc 0 0x108b 0,
  dr 0x2a1000002a7 0xc3bb0000c3c3 0xcbd 0 no 0x108c00001092,
  dr 0x23f00000249 0xc4070000c40d 0xcc3 0 no 0x109200001097,
  dr 0x23f00000249 0xc4230000c42c 0xcc7 0 no 0x10970000109b,
  dr 0x23b0000023d 0xc4520000c459 no 0xc4520000c459 no 0x109b0000109d,
  dr 0x23f00000249 0xc4750000c47a 0xccb 0 no 0x109d00001146,
  dr 0x2a1000002a7 0xcdb40000cdb9 0xcfc 0 no 0x11460000114a,
  dr 0x7cc000007d6 0xcdbc0000cdc4 0xd01 0 no 0x114a0000114b,
  dr 0x23b0000023d 0xcdc80000cdce 0xd03 0 0x114b 0,
  dr 0x23b0000023d 0xcdce0000cdd6 0xd04 0 0x114c 0,
  dr 0x23f00000249 0xcdd60000cddb 0xd05 0 no 0x114d0000114f,
  dr 0x23f00000249 0xcddb0000cde5 0xd08 0 no 0x114f00001155,
  dr 0x23f00000249 0xce240000ce2a 0xd09 0 no 0x115500001172,
  dr 0x2a1000002a7 0xcf1f0000cf22 0xd1b 0 no 0x117200001175,
  dr 0x23f00000249 0xcf370000cf3d 0xd1f 0 no 0x117500001177,
  dr 0x23f00000249 0xcf410000cf47 0xd22 0 no 0x117700001178,
  dr 0x23f00000249 0xcf470000cf4c 0xd24 0 no 0x11780000117a,
  dr 0x23f00000249 0xcf6b0000cf71 0xd27 0 no 0x117a0000137b,
  dr 0x2a1000002a7 0xe8d20000e8da 0xebe 0 no 0x137b0000137d,
  dr 0x2a1000002a7 0xe8ee0000e8f7 no 0xe8f70000e902 no 0x137d0000137f,
  dr 0x23b0000023d 0xe9290000e92e 0xec2 0 no 0x137f00001382,
  dr 0x23f00000249 0xe92e0000e937 0xec6 0 no 0x138200001396,
  dr 0x23f00000249 0xe9d60000e9dc 0xecb 0 no 0x139600001398,
  dr 0x23f00000249 0xe9ea0000e9f0 0xecd 0 0x1398 0,
  dr 0x2a1000002a7 0xe9f80000e9fe no 0xe9fe0000ea0c 0x1399 0,
  dr 0x23f00000249 0xea130000ea19 0xece 0 no 0x139a0000139b,
  dr 0x23f00000249 0xea190000ea20 0xed0 0 no 0x139b000013c6,
  dr 0x23f00000249 0xec4e0000ec52 0xee0 0 no 0x13c6000013c8,
  dr 0x23f00000249 0xec680000ec6e no 0xec6e0000ec73 no 0,
  dr 0x2a1000002a7 0xec730000ec78 0xee1 0 0x13c8 0,
  dr 0x23f00000249 0xec8c0000ec92 0xee2 0 no 0x13c9000013cb,
  dr 0x39a000003a7 0xec9a0000ec9d 0xee4 0 0x13cb 0,
  dr 0x23f00000249 0xeca50000ecaf 0xee5 0 no 0x13cc000013d1,
  dr 0x23f00000249 0xeced0000ecf7 0xee8 0 no 0x13d1000013d5,
  dr 0x23f00000249 0xecfc0000ed06 0xeed 0 no 0x13d5000013e9,
  dr 0x8e00000099 0xed9a0000ed9f 0xf02 0 0x13e9 0,
  dr 0x39a000003a7 0xed9f0000eda2 0xf03 0 no 0x13ea000013ec,
  dr 0x23f00000249 0xeda20000eda7 0xf06 0 no 0x13ec000013f0,
  dr 0x23b0000023d 0xedd20000edd7 0xf08 0 0x13f0 0,
  dr 0x23f00000249 0xedde0000ede1 0xf09 0 no 0x13f1000013f4,
  dr 0x2a1000002a7 0xedee0000edf1 0xf0d 0 no 0x13f4000013f6,
  dr 0x2a1000002a7 0xee020000ee04 0xf0f 0 no 0x13f6000013f8,
  dr 0x23f00000249 0xee190000ee1d 0xf11 0 no 0x13f8000013f9,
  dr 0x2a1000002a7 0xee1d0000ee24 0xf13 0 no 0x13f900001412,
  dr 0x23b0000023d 0xf0930000f09d 0xf16 0 0x1412 0,
  dr 0x23b0000023d 0xf09d0000f0a1 no 0xf0a10000f0a5 no 0x141300001414,
  dr 0x23f00000249 0xf0aa0000f0af no 0xf0af0000f0b5 0x1414 0,
  dr 0x2a1000002a7 0xf0b50000f0bf 0xf18 0 no 0x14150000141a,
  dr 0x23f00000249 0xf0d10000f0d8 0xf1e 0 no 0x141a00001425,
  dr 0x23f00000249 0xf1470000f14d 0xf22 0 no 0x142500001428,
  dr 0x2a1000002a7 0xf17b0000f17f 0xf24 0 no 0x14280000142a,
  dr 0x23f00000249 0xf1820000f186 0xf27 0 no 0x142a00001431,
  dr 0x23b0000023d 0xf1c20000f1ca no 0xf1ca0000f1d2 0x1431 0,
  dr 0x23f00000249 0xf1d20000f1db 0xf2c 0 no 0x143200001435,
  dr 0x23b0000023d 0xf1fd0000f208 no 0xf2080000f215 0x1435 0,
  dr 0x23f00000249 0xf2150000f21c no 0xf2150000f21c no 0x1436000014e7,
  dr 0x23b0000023d 0xf7bc0000f7c3 0xfdd 0 0x14e7 0,
  dr 0x23b0000023d 0xf7c30000f7ca 0xfde 0 0x14e8 0,
  dr 0x23f00000249 0xf7ca0000f7cf 0xfdf 0 0x14e9 0,
  dr 0x23b0000023d 0xf7cf0000f7d3 0xfe0 0 0x14ea 0,
  dr 0x23f00000249 0xf7db0000f7e0 0xfe1 0 0x14eb 0,
  dr 0x23f00000249 0xf7e00000f7e6 0xfe2 0 no 0x14ec00001505,
  dr 0x23f00000249 0xf92e0000f933 0xfef 0 0x1505 0,
  dr 0x39a000003a7 0xf9330000f93d 0xff0 0 0x1506 0,
  dr 0x23f00000249 0xf9430000f947 0xff1 0 no 0x150700001518,
  dr 0x2a1000002a7 0xf9d40000f9dc 0xfff 0 no 0x151800001520,
  dr 0xc9b00000ca2 0xfa5b0000fa60 no 0xfa600000fa6a no 0x152000001521,
  dr 0x23f00000249 0xfa700000fa75 0x1002 0 no 0x152100001543,
  dr 0x23f00000249 0xfbfe0000fc04 0x1023 0 no 0x154300001545,
  dr 0x23b0000023d 0xfc040000fc09 0x1026 0 no 0x154500001548,
  dr 0x2a1000002a7 0xfc160000fc1b 0x1029 0 no 0x15480000154b,
  dr 0x23f00000249 0xfc1b0000fc1f 0x102d 0 no 0x154b0000155c,
  dr 0x2a1000002a7 0xfd0a0000fd12 0x1035 0 no 0x155c00001561,
  dr 0x23f00000249 0xfd510000fd56 0x103a 0 0x1561 0,
  dr 0x23f00000249 0xfd560000fd59 0x103b 0 0x1562 0,
  dr 0x2a1000002a7 0xfd590000fd5d 0x103c 0 0x1563 0,
  dr 0x2a1000002a7 0xfd5d0000fd61 0x103d 0 0x1564 0,
  dr 0x2a1000002a7 0xfd610000fd67 0x103e 0 0x1565 0,
  dr 0x23b0000023d 0xfd670000fd6a 0x103f 0 no 0x15660000156e,
  dr 0x23f00000249 0xfd9d0000fda2 0x1048 0 no 0x156e00001570,
  dr 0x2a1000002a7 0xfdbe0000fdc6 0x1049 0 0x1570 0,
  dr 0x2a1000002a7 0xfdcd0000fdd1 0x104a 0 no 0x157100001573,
  dr 0x23f00000249 0xfdde0000fde2 0x104d 0 no 0x157300001575,
  dr 0x23f00000249 0xfdf00000fdf5 0x104f 0 0x1575 0,
  dr 0x23f00000249 0xfdfa0000fdff 0x1050 0 no 0x157600001579,
  dr 0xc9b00000ca2 0xfe090000fe0d 0x1054 0 no 0x15790000157b,
  dr 0x7cc000007d6 0xfe200000fe26 0x1055 0 0x157b 0,
  dr 0x23f00000249 0xfe260000fe2b 0x1056 0 no 0x157c00001593,
  dr 0x23f00000249 0xfec90000fecc 0x106e 0 no 0x159300001595,
  dr 0x23f00000249 0xfed90000fedd 0x1071 0 no 0x15950000159d,
  dr 0x23f00000249 0xff3b0000ff40 no 0xff3b0000ff40 no 0,
  dr 0x23f00000249 0xff400000ff43 0x1078 0 no 0x159d0000159e,
  dr 0x2a1000002a7 0xff430000ff4a 0x107a 0 0x159e 0,
  dr 0x2a1000002a7 0xff4e0000ff54 0x107b 0 0x159f 0,
  dr 0x23f00000249 0xff5c0000ff6b no 0xff6b0000ff74 no 0x15a0000015a1,
  dr 0x23f00000249 0xff800000ff85 0x107c 0 no 0x15a1000015a9,
  dr 0x23f00000249 0xffe00000ffe6 0x1081 0 no 0x15a9000015ab,
  dr 0x23f00000249 0x100140001001b 0x1082 0 no 0x15ab000015b5,
  dr 0x8e00000099 0x1009400010097 0x1085 0 0x15b5 0,
  dr 0x23b0000023d 0x1009e000100a3 0x1086 0 0x15b6 0,
  dr 0x39a000003a7 0x100a3000100a7 0x1087 0 no 0x15b7000015bb,
  dr 0x2a1000002a7 0x100c1000100c7 0x108c 0 no 0x15bb000015c1,
  dr 0x23f00000249 0x100f1000100f8 0x1092 0 0x15c1 0,
  dr 0x23f00000249 0x100f8000100fd 0x1093 0 0x15c2 0,
  dr 0x23f00000249 0x100fd00010105 0x1094 0 no 0x15c3000015c5,
  dr 0x23b0000023d 0x1010d00010110 0x1097 0 0x15c5 0,
  dr 0x23f00000249 0x1011000010119 0x1098 0 0x15c6 0,
  dr 0x23f00000249 0x101190001011d 0x1099 0 no 0x15c7000015c9,
  dr 0x23f00000249 0x1011d00010121 0x109c 0 no 0x15c9000015cb,
  dr 0x23f00000249 0x1012100010125 0x109f 0 no 0x15cb000015cc,
  dr 0x23f00000249 0x101280001012d 0x10a1 0 no 0x15cc000015d2,
  dr 0x23f00000249 0x101780001017f 0x10a4 0 0x15d2 0,
  dr 0x23b0000023d 0x1017f00010182 0x10a5 0 0x15d3 0,
  dr 0x2a1000002a7 0x1018200010188 no 0x101880001018f no 0x15d4000015d5,
  dr 0x23f00000249 0x101980001019b 0x10a6 0 0x15d5 0,
  dr 0x23f00000249 0x1019b0001019f 0x10a7 0 0x15d6 0,
  dr 0x2a1000002a7 0x1019f000101a5 0x10a8 0 0x15d7 0,
  dr 0x23f00000249 0x101b0000101b6 0x10a9 0 no 0x15d8000015e9,
  dr 0x2a1000002a7 0x102b5000102ba 0x10b2 0 no 0x15e9000015f0,
  dr 0x23f00000249 0x102f7000102fd 0x10b8 0 0x15f0 0,
  dr 0x23f00000249 0x102fd00010304 0x10b9 0 no 0x15f100001621,
  dr 0x23f00000249 0x1059300010597 0x10cc 0 no 0x162100001626,
  dr 0x23f00000249 0x105a6000105ab 0x10d2 0 no 0x16260000162b,
  dr 0x23f00000249 0x105dc000105e2 no 0x105e2000105e9 no 0x162b0000162c,
  dr 0x23f00000249 0x105f500010606 0x10d6 0 no 0x162c00001637,
  dr 0x23f00000249 0x1069f000106a4 0x10db 0 no 0x16370000163a,
  dr 0x23f00000249 0x106b9000106c0 0x10dd 0 no 0x163a00001641,
  dr 0x23f00000249 0x106cf000106d7 0x10e5 0 0x1641 0,
  dr 0x23b0000023d 0x106ea000106f0 0x10e6 0 0x1642 0,
  dr 0x23f00000249 0x106f0000106f5 0x10e7 0 no 0x16430000164b,
  dr 0x23b0000023d 0x107640001076b no 0x107640001076b no 0,
  dr 0x23f00000249 0x1076b00010773 0x10ef 0 no 0x164b0000164d,
  dr 0x23f00000249 0x1077800010780 no 0x1077800010780 no 0x164d0000164e,
  dr 0x23f00000249 0x1078000010787 0x10f2 0 no 0x164e00001650,
  dr 0x2a1000002a7 0x107870001078f 0x10f5 0 0x1650 0,
  dr 0x23f00000249 0x1078f00010794 0x10f6 0 no 0x165100001653,
  dr 0x23b0000023d 0x107ae000107b2 0x10f8 0 no 0x165300001656,
  dr 0x23f00000249 0x107b8000107be 0x10fc 0 no 0x16560000165a,
  dr 0x2a1000002a7 0x107d7000107dd 0x1100 0 no 0x165a00001669,
  dr 0x23f00000249 0x108080001080d 0x1110 0 no 0x166900001670,
  dr 0x23f00000249 0x1084f00010854 0x1116 0 no 0x167000001678,
  dr 0x23f00000249 0x1088f00010893 0x111b 0 no 0x16780000167a,
  dr 0x23f00000249 0x1089300010898 0x111e 0 no 0x167a00001684,
  dr 0x23f00000249 0x108e5000108eb 0x1123 0 no 0x168400001694,
  dr 0x23f00000249 0x1094c00010952 0x1134 0 no 0x169400001699,
  dr 0x23f00000249 0x109630001096a 0x1139 0 0x1699 0,
  dr 0x23f00000249 0x1096a00010970 0x113a 0 0x169a 0,
  dr 0x23b0000023d 0x1097b00010980 0x113b 0 no 0x169b0000169d,
  dr 0x23f00000249 0x109890001098f 0x113d 0 0x169d 0,
  dr 0x2a1000002a7 0x1098f00010995 0x113e 0 0x169e 0,
  dr 0x23b0000023d 0x109950001099a 0x113f 0 0x169f 0,
  dr 0x23f00000249 0x109a0000109ac 0x1140 0 no 0x16a0000016bc,
  dr 0x23f00000249 0x10acb00010ad1 0x115a 0 0x16bc 0,
  dr 0x23f00000249 0x10ad100010ad5 0x115b 0 0x16bd 0,
  dr 0x23f00000249 0x10ad500010ada 0x115c 0 no 0x16be000016c0,
  dr 0x2a1000002a7 0x10ada00010adf 0x115f 0 no 0x16c0000016c3,
  dr 0x23f00000249 0x10af000010af7 0x1163 0 no 0x16c300001716,
  dr 0x2a1000002a7 0x10e2900010e2f 0x11ae 0 0x1716 0,
  dr 0x23f00000249 0x10e2f00010e33 0x11af 0 no 0x17170000171e,
  dr 0x23f00000249 0x10e8b00010e90 0x11b1 0 no 0x171e00001720,
  dr 0x23f00000249 0x10ea700010eae 0x11b4 0 0x1720 0,
  dr 0x23f00000249 0x10ebb00010ebf 0x11b5 0 no 0x172100001722,
  dr 0x39a000003a7 0x10ebf00010ec2 0x11b7 0 0x1722 0,
  dr 0x2b1e00002b26 0x10ec200010ec7 0x11b8 0 no 0x172300001725,
  dr 0x23f00000249 0x10ec700010ec9 0x11bb 0 no 0x172500001870,
  dr 0x2a1000002a7 0x11abc00011ac2 0x12a3 0 0x1870 0,
  dr 0x39a000003a7 0x11ac200011ac7 0x12a4 0 0x1871 0,
  dr 0x2b1e00002b26 0x11ac700011acd 0x12a5 0 0x1872 0,
  dr 0x23f00000249 0x11acd00011ad6 0x12a6 0 no 0x18730000188c,
  dr 0x2a1000002a7 0x11b1800011b1e 0x12bf 0 no 0x188c0000188f,
  dr 0x23b0000023d 0x11b4d00011b50 0x12c1 0 0x188f 0,
  dr 0x2a1000002a7 0x11b5000011b52 0x12c2 0 0x1890 0,
  dr 0x23f00000249 0x11b5200011b55 0x12c3 0 no 0x1891000018b2,
  dr 0x23f00000249 0x11d0d00011d19 0x12c7 0 0x18b2 0,
  dr 0x23f00000249 0x11d2000011d2a 0x12c8 0 no 0x18b3000018b8,
  dr 0x23f00000249 0x11d5500011d5b 0x12cc 0 no 0x18b8000018ba,
  dr 0x23f00000249 0x11d6d00011d72 0x12ce 0 0x18ba 0,
  dr 0x23f00000249 0x11d7200011d77 0x12cf 0 no 0x18bb000018c6,
  dr 0x2a1000002a7 0x11df400011df8 0x12d8 0 no 0x18c6000018d6,
  dr 0x2a1000002a7 0x11eea00011eef 0x12e4 0 no 0x18d6000018d7,
  dr 0x23f00000249 0x11efe00011f02 0x12e6 0 no 0x18d70000192e,
  dr 0x2a1000002a7 0x121b8000121be 0x132b 0 no 0x192e00001932,
  dr 0x23f00000249 0x121e0000121e6 0x132f 0 no 0x193200001934,
  dr 0x23f00000249 0x121f4000121f9 0x1331 0 no 0x193400001946,
  dr 0x23f00000249 0x1226d00012279 0x1342 0 no 0x194600001954,
  dr 0x23f00000249 0x1235c00012362 0x1345 0 no 0x195400001966,
  dr 0x2a1000002a7 0x124150001241c 0x1353 0 0x1966 0,
  dr 0x23f00000249 0x124260001242d 0x1354 0 no 0x196700001969,
  dr 0x23b0000023d 0x1244900012450 0x1357 0 no 0x19690000196a,
  dr 0x23b0000023d 0x1245000012454 0x1359 0 0x196a 0,
  dr 0x23b0000023d 0x124540001245a 0x135a 0 0x196b 0,
  dr 0x2a1000002a7 0x1245a0001245e 0x135b 0 0x196c 0,
  dr 0x7cc000007d6 0x1246400012469 0x135c 0 0x196d 0,
  dr 0x23f00000249 0x1246900012470 no 0x1246900012470 no 0x196e0000196f,
  dr 0x2a1000002a7 0x1247000012475 0x135e 0 no 0x196f00001972,
  dr 0x23f00000249 0x124970001249d 0x1360 0 no 0x197200001a36,
  dr 0x23f00000249 0x12d2100012d27 0x13fa 0 no 0x1a3600001a3d,
  dr 0x23f00000249 0x12d9a00012da1 0x13fd 0 no 0x1a3d00001a41,
  dr 0x23f00000249 0x12dad00012db2 0x1401 0 0x1a41 0,
  dr 0x23f00000249 0x12dba00012dc0 0x1402 0 no 0x1a4200001a51,
  dr 0x2a1000002a7 0x12e5100012e59 0x1407 0 no 0x1a5100001a68,
  dr 0x23b0000023d 0x1303a00013042 0x140a 0 0x1a68 0,
  dr 0x23b0000023d 0x130420001304a 0x140b 0 no 0,
  dr 0x23b0000023d 0x1304a0001304e 0x140c 0 no 0x1a6900001a6b,
  dr 0x23f00000249 0x1306200013068 0x140e 0 no 0x1a6b00001a70,
  dr 0x23f00000249 0x130970001309e 0x1411 0 no 0x1a7000001a72,
  dr 0x23f00000249 0x1309e000130a4 0x1414 0 0x1a72 0,
  dr 0x2a1000002a7 0x130a9000130af 0x1415 0 no 0x1a7300001a75,
  dr 0x2a1000002a7 0x130af000130b4 0x1418 0 0x1a75 0,
  dr 0x23b0000023d 0x130bd000130c2 0x1419 0 no 0x1a7600001a77,
  dr 0x23f00000249 0x130cb000130d0 0x141a 0 no 0x1a7700001a7e,
  dr 0x23f00000249 0x130f300013103 0x1421 0 no 0x1a7e00001a82,
  dr 0x2a1000002a7 0x131380001313f 0x1423 0 no 0x1a8200001abc,
  dr 0x23b0000023d 0x133a1000133a6 0x1449 0 no 0,
  dr 0x1060000010d 0x133a6000133ae 0x144a 0 0x1abc 0,
  dr 0x23b0000023d 0x133b5000133bb no 0x133b5000133bb no 0x1abd00001abe,
  dr 0x23f00000249 0x133c0000133c5 0x144c 0 0x1abe 0,
  dr 0x23f00000249 0x133c5000133cc 0x144d 0 0x1abf 0,
  dr 0x23f00000249 0x133cc000133d3 0x144e 0 0x1ac0 0,
  dr 0x23f00000249 0x133d3000133d8 0x144f 0 no 0x1ac100001ac5,
  dr 0x23f00000249 0x133e9000133ed 0x1454 0 no 0x1ac500001ac7,
  dr 0x23b0000023d 0x133ed000133f2 0x1457 0 no 0,
  dr 0x2a1000002a7 0x133f2000133f8 0x1458 0 0x1ac7 0,
  dr 0x23f00000249 0x133f8000133ff 0x1459 0 no 0x1ac800001acd,
  dr 0x23f00000249 0x134250001342b no 0x134250001342b no 0x1acd00001ace,
  dr 0x23f00000249 0x1342b00013431 0x145e 0 no 0x1ace00001ad8,
  dr 0x23f00000249 0x1348e00013494 0x1464 0 no 0x1ad800001adb,
  dr 0x7cc000007d6 0x134aa000134b3 0x1467 0 no 0x1adb00001ade,
  dr 0x23f00000249 0x134d5000134da 0x1468 0 no 0x1ade00001af7,
  dr 0x23b0000023d 0x135f1000135f4 0x146c 0 0x1af7 0,
  dr 0x2a1000002a7 0x135f4000135f9 0x146d 0 0x1af8 0,
  dr 0x23f00000249 0x135f9000135fe 0x146e 0 no 0x1af900001afd,
  dr 0x2a1000002a7 0x136180001361c 0x1472 0 0x1afd 0,
  dr 0x23f00000249 0x1361c0001361f 0x1473 0 0x1afe 0,
  dr 0x2a1000002a7 0x1361f00013622 0x1474 0 0x1aff 0,
  dr 0x23b0000023d 0x1362200013626 0x1475 0 no 0,
  dr 0x23f00000249 0x136260001362f 0x1476 0 no 0x1b0000001b05,
  dr 0x23f00000249 0x1364c00013650 0x147a 0 no 0x1b0500001b07,
  dr 0x23b0000023d 0x1365000013657 0x147d 0 0x1b07 0,
  dr 0x23b0000023d 0x136570001365a 0x147e 0 0x1b08 0,
  dr 0x2a1000002a7 0x1365a00013660 0x147f 0 0x1b09 0,
  dr 0x23f00000249 0x1366000013663 0x1480 0 0x1b0a 0,
  dr 0x23f00000249 0x1366300013667 0x1481 0 no 0x1b0b00001b0d,
  dr 0x23f00000249 0x136750001367b 0x1484 0 0x1b0d 0,
  dr 0x23f00000249 0x1367b0001367f 0x1485 0 no 0x1b0e00001b10,
  dr 0x23f00000249 0x1367f00013684 0x1488 0 no 0x1b1000001b12,
  dr 0x23f00000249 0x1368400013687 0x148b 0 no 0x1b1200001b4e,
  dr 0x23b0000023d 0x138d8000138de 0x14c8 0 0x1b4e 0,
  dr 0x2a1000002a7 0x138de000138e5 0x14c9 0 0x1b4f 0,
  dr 0x2a1000002a7 0x138e5000138e8 0x14ca 0 no 0x1b5000001b53,
  dr 0x23b0000023d 0x138f0000138f5 0x14cd 0 no 0,
  dr 0x23f00000249 0x138f5000138f8 0x14ce 0 no 0x1b5300001b65,
  dr 0x23f00000249 0x139d1000139d4 0x14dc 0 no 0x1b6500001b6e,
  dr 0x23b0000023d 0x13a4b00013a53 no 0x13a5300013a5f 0x1b6e 0,
  dr 0x2a1000002a7 0x13a5f00013a64 no 0x13a6400013a6b 0x1b6f 0,
  dr 0x23f00000249 0x13a7400013a7a 0x14e1 0 0x1b70 0,
  dr 0x23f00000249 0x13a8400013a88 0x14e2 0 no 0x1b7100001b73,
  dr 0x23b0000023d 0x13a9b00013aa2 no 0x13aa200013aab no 0x1b7300001b76,
  dr 0x23b0000023d 0x13ad900013ae1 0x14e5 0 no 0x1b7600001b79,
  dr 0x23f00000249 0x13b0400013b0a 0x14e7 0 no 0x1b7900001b7b,
  dr 0x23f00000249 0x13b1d00013b25 0x14ea 0 no 0x1b7b00001b8a,
  dr 0x23f00000249 0x13b8e00013b94 0x14f8 0 0x1b8a 0,
  dr 0x23f00000249 0x13b9400013b99 0x14f9 0 no 0x1b8b00001b8d,
  dr 0x23f00000249 0x13bb300013bb7 0x14fb 0 no 0x1b8d00001b8f,
  dr 0x23f00000249 0x13bb700013bc7 0x14fe 0 no 0x1b8f00001b9a,
  dr 0x7cc000007d6 0x13c4800013c4e 0x1502 0 0x1b9a 0,
  dr 0x23f00000249 0x13c4e00013c52 0x1503 0 0x1b9b 0,
  dr 0x23f00000249 0x13c5200013c59 0x1504 0 no 0x1b9c00001b9e,
  dr 0x23f00000249 0x13c5e00013c64 0x1507 0 0x1b9e 0,
  dr 0x23f00000249 0x13c6400013c6a 0x1508 0 no 0x1b9f00001ba1,
  dr 0x23f00000249 0x13c6f00013c76 0x150b 0 no 0x1ba100001bac,
  dr 0x2a1000002a7 0x13ccc00013cd4 0x1516 0 no 0x1bac00001bae,
  dr 0x23b0000023d 0x13ce900013cf3 0x1518 0 no 0x1bae00001bb0,
  dr 0x2a1000002a7 0x13cf300013cfe 0x151b 0 0x1bb0 0,
  dr 0x2a1000002a7 0xc1910000c197 0x151c 0 no 0x1bb100001bb4,
  dr 0x23b0000023d 0x13d1a00013d22 0x151f 0 0x1bb4 0,
  dr 0x23f00000249 0x13d2200013d28 0x1520 0 no 0x1bb500001bbb,
  dr 0x23f00000249 0x13d4700013d4e 0x1526 0 0x1bbb 0,
  dr 0x23f00000249 0x13d4e00013d55 0x1527 0 no 0x1bbc00001bc0,
  dr 0x23f00000249 0x13d6400013d6b 0x152b 0 no 0x1bc000001bc3,
  dr 0x23b0000023d 0x13d7000013d77 0x152f 0 no 0,
  dr 0x23f00000249 0x13d7700013d7e 0x1530 0 no 0x1bc300001bd6,
  dr 0x23f00000249 0x13e7e00013e82 0x153d 0 no 0x1bd600001bd9,
  dr 0x23f00000249 0x13e8900013e93 0x1541 0 no 0x1bd900001bdc,
  dr 0x23b0000023d 0x13ead00013eb3 0x1544 0 0x1bdc 0,
  dr 0x23f00000249 0x13eb300013ebb 0x1545 0 0x1bdd 0,
  dr 0x2a1000002a7 0x13ec300013ec8 0x1546 0 no 0x1bde00001be8,
  dr 0x23b0000023d 0x13fa400013faa 0x154d 0 no 0x1be800001bf7,
  dr 0x2a1000002a7 0x1400e00014016 0x155d 0 no 0x1bf700001c3b,
  dr 0x23f00000249 0x144b4000144ba 0x159f 0 no 0x1c3b00001c42,
  dr 0x23f00000249 0x144cb000144d2 0x15a7 0 no 0x1c4200001c4a,
  dr 0x23b0000023d 0x1450a00014513 0x15ae 0 no 0x1c4a00001c4b,
  dr 0x23f00000249 0x145260001452b 0x15af 0 no 0x1c4b00001c56,
  dr 0x23f00000249 0x145360001453b 0x15bb 0 no 0x1c5600001c85,
  dr 0x23f00000249 0x1461d00014624 0x15e7 0 no 0x1c8500001c88,
  dr 0x2a1000002a7 0x1463f00014644 0x15eb 0 no 0x1c8800001c8c,
  dr 0x2b1e00002b26 0x1467a0001467e 0x15f0 0 no 0x1c8c00001c93,
  dr 0x23b0000023d 0x146b7000146bb no 0x146bb000146c5 0x1c93 0,
  dr 0x2a1000002a7 0x146c5000146ca 0x15f2 0 no 0x1c9400001c98,
  dr 0x23f00000249 0x146eb000146f3 0x15f7 0 no 0x1c9800001cd8,
  dr 0x2a1000002a7 0x14a3600014a3e 0x1625 0 no 0x1cd800001cd9,
  dr 0x23f00000249 0x12f00000138 0x1627 0 no 0x1cd900001cf7]

/-- `__dr_idx[3]`, from item 1000 on (device_repo.go:1038-1537). -/
def drIdx3_2 : List DeviceTuple := [
  dr 0x2a1000002a7 0x14bb700014bc0 0x1636 0 no 0x1cf700001cf9,
  dr 0x2a1000002a7 0x14bdb00014be3 0x1638 0 0x1cf9 0,
  dr 0x23b0000023d 0x14be300014be8 0x1639 0 no 0x1cfa00001d06,
  dr 0x23f00000249 0x144ff00014503 0x163f 0 no 0x1d0600001d0b,
  dr 0x23f00000249 0x14c9c00014ca1 0x1644 0 no 0x1d0b00001d10,
  dr 0x23f00000249 0x14cc700014cca 0x164a 0 no 0x1d1000001d13,
  dr 0x23f00000249 0x14cfe00014d03 0x164d 0 no 0x1d1300001d1e,
  dr 0x23f00000249 0x14d4c00014d51 0x1656 0 no 0x1d1e00001d22,
  dr 0x23b0000023d 0x14d7000014d80 0x165a 0 no 0,
  dr 0x23f00000249 0x14d8000014d84 0x165b 0 no 0x1d2200001d26,
  dr 0x39a000003a7 0x14d9300014d9d 0x1660 0 no 0x1d2600001d29,
  dr 0x23f00000249 0x14d9d00014da3 0x1664 0 0x1d29 0,
  dr 0x23f00000249 0x14da300014da9 0x1665 0 no 0x1d2a00001d2c,
  dr 0x7cc000007d6 0x14db700014dbe 0x1667 0 no 0x1d2c00001d2e,
  dr 0x23f00000249 0x14dd600014dde 0x166a 0 no 0x1d2e00001d34,
  dr 0x23f00000249 0x14e1200014e19 0x166d 0 no 0x1d3400001d73,
  dr 0x23f00000249 0x150ed000150f6 0x167b 0 no 0x1d7300001d90,
  dr 0x23f00000249 0x152a7000152b5 0x168f 0 0x1d90 0,
  dr 0x23f00000249 0x152c1000152c8 0x1690 0 no 0x1d9100001da0,
  dr 0x23f00000249 0x153b6000153be 0x1692 0 0x1da0 0,
  dr 0x2a1000002a7 0x153be000153c2 0x1693 0 no 0x1da100001da2,
  dr 0x2b1e00002b26 0x153c2000153c8 0x1695 0 0x1da2 0,
  dr 0xdfd00000e04 0x153d3000153d9 0x1696 0 no 0x1da300001da6,
  dr 0x23f00000249 0x153e3000153ee 0x169a 0 no 0x1da600001da7,
  dr 0x2a1000002a7 0x1540000015407 0x169b 0 no 0x1da700001dad,
  dr 0x23f00000249 0x1543f00015444 no 0x1543f00015444 no 0x1dad00001daf,
  dr 0x23f00000249 0x154440001544c 0x16a3 0 0x1daf 0,
  dr 0x23f00000249 0x154520001545a 0x16a4 0 no 0x1db000001db1,
  dr 0x23f00000249 0x154660001546b 0x16a5 0 0x1db1 0,
  dr 0x23f00000249 0x1546b00015473 0x16a6 0 no 0x1db200001ea2,
  dr 0x23f00000249 0x160290001603b 0x1762 0 0x1ea2 0,
  dr 0x23f00000249 0x1603b00016040 0x1763 0 no 0x1ea300001ea6,
  dr 0x23f00000249 0x1604000016047 0x1767 0 no 0x1ea600001ea7,
  dr 0x23f00000249 0x160470001604c 0x1769 0 no 0x1ea700001ea9,
  dr 0x2a1000002a7 0x1605f00016064 0x176b 0 no 0x1ea900001eae,
  dr 0x7cc000007d6 0x1607900016081 0x1771 0 0x1eae 0,
  dr 0x23f00000249 0x160810001608b 0x1772 0 no 0x1eaf00001ed2,
  dr 0x2a1000002a7 0x161b4000161bf 0x1793 0 0x1ed2 0,
  dr 0x23b0000023d 0x161bf000161c5 0x1794 0 no 0x1ed300001ed6,
  dr 0x2a1000002a7 0x1620000016208 0x1797 0 0x1ed6 0,
  dr 0x23f00000249 0x1620800016214 0x1798 0 no 0x1ed700001ee5,
  dr 0x2a1000002a7 0x1628b00016290 0x17a4 0 no 0x1ee500001ee8,
  dr 0x23f00000249 0x162a0000162a6 no 0x162a6000162ad no 0x1ee800001eeb,
  dr 0x2a1000002a7 0x162cc000162d2 0x17a9 0 0x1eeb 0,
  dr 0x2a1000002a7 0x162d2000162d8 0x17aa 0 0x1eec 0,
  dr 0x23f00000249 0x162d8000162dd 0x17ab 0 no 0x1eed00001ef4,
  dr 0x23f00000249 0x163270001632c 0x17af 0 0x1ef4 0,
  dr 0x2a1000002a7 0x1632c00016333 0x17b0 0 no 0x1ef500001ef7,
  dr 0x2a1000002a7 0x163390001633e 0x17b3 0 no 0x1ef700001efe,
  dr 0x2a1000002a7 0x1638300016388 0x17b8 0 no 0x1efe00001f00,
  dr 0x23f00000249 0x163a6000163a9 0x17b9 0 no 0x1f0000001f0e,
  dr 0x23b0000023d 0x1645100016455 0x17c8 0 no 0x1f0e00001f0f,
  dr 0x23b0000023d 0x1645a00016460 0x17ca 0 0x1f0f 0,
  dr 0x23b0000023d 0x1646000016465 0x17cb 0 0x1f10 0,
  dr 0x23b0000023d 0x164650001646b 0x17cc 0 no 0x1f1100001f14,
  dr 0x23b0000023d 0x1648d00016492 0x17ce 0 0x1f14 0,
  dr 0x23f00000249 0x1649200016496 0x17cf 0 0x1f15 0,
  dr 0x23b0000023d 0x164960001649f 0x17d0 0 0x1f16 0,
  dr 0x23f00000249 0x1649f000164a2 0x17d1 0 no 0x1f1700001f1e,
  dr 0x23b0000023d 0x164e4000164e9 0x17d7 0 0x1f1e 0,
  dr 0x2a1000002a7 0x164e9000164f0 no 0x164e9000164f0 no 0x1f1f00001f21,
  dr 0x23f00000249 0x1650d00016517 0x17d8 0 0x1f21 0,
  dr 0x23f00000249 0x165170001651a 0x17d9 0 no 0x1f2200001f36,
  dr 0x23f00000249 0x165be000165c3 0x17e9 0 0x1f36 0,
  dr 0x2a1000002a7 0x165d1000165d5 0x17ea 0 no 0x1f3700001f3d,
  dr 0x23b0000023d 0x1661100016616 0x17f0 0 0x1f3d 0,
  dr 0x23f00000249 0x166160001661a 0x17f1 0 0x1f3e 0,
  dr 0x23b0000023d 0x1661a00016622 0x17f2 0 0x1f3f 0,
  dr 0x23f00000249 0x1662f00016639 0x17f3 0 no 0x1f4000001f53,
  dr 0x23f00000249 0x166bd000166c7 0x17f9 0 no 0x1f5300001f6b,
  dr 0x2a1000002a7 0x167b5000167b9 0x17fd 0 no 0x1f6b00001f71,
  dr 0x23f00000249 0x1683a0001683f 0x1800 0 no 0x1f7100001f72,
  dr 0x23f00000249 0x168430001684e 0x1802 0 no 0x1f7200001f74,
  dr 0x23b0000023d 0x1685900016861 0x1805 0 0x1f74 0,
  dr 0x23f00000249 0x1686100016868 0x1806 0 no 0x1f7500001f7a,
  dr 0x23f00000249 0x168c1000168c8 0x1807 0 no 0x1f7a00001f7b,
  dr 0x2a1000002a7 0x168d9000168e1 0x1808 0 0x1f7b 0,
  dr 0x2a1000002a7 0x168e1000168e8 0x1809 0 no 0x1f7c00001f81,
  dr 0x23f00000249 0x168fb00016900 0x180f 0 no 0x1f8100001f97,
  dr 0x2a1000002a7 0x16a1d00016a23 0x1825 0 0x1f97 0,
  dr 0x23f00000249 0x16a2300016a2c 0x1826 0 0x1f98 0,
  dr 0x23f00000249 0x16a2c00016a32 0x1827 0 no 0x1f9900001f9e,
  dr 0x23f00000249 0x16a5000016a56 0x182b 0 no 0x1f9e00001fa1,
  dr 0x23f00000249 0x16a5800016a5d 0x182f 0 0x1fa1 0,
  dr 0x2a1000002a7 0x16a5d00016a64 0x1830 0 no 0x1fa200001fa6,
  dr 0x2a1000002a7 0x16a8c00016a95 0x1834 0 0x1fa6 0,
  dr 0x23b0000023d 0x16a9b00016aa1 0x1835 0 0x1fa7 0,
  dr 0x23b0000023d 0x16aa100016aa7 no 0x16aa700016aad no 0x1fa800001faa,
  dr 0x23b0000023d 0x16ab400016abb no 0x16abb00016ac1 no 0x1faa00001fab,
  dr 0x2a1000002a7 0x16acc00016ad2 0x1838 0 0x1fab 0,
  dr 0x23f00000249 0x16ada00016ae2 no 0x16ae200016ae6 no 0x1fac00001fad,
  dr 0x2a1000002a7 0x16ae600016aec 0x183a 0 no 0x1fad00001fae,
  dr 0x2b1e00002b26 0x16aec00016af7 0x183c 0 0x1fae 0,
  dr 0x2a1000002a7 0x16af700016b01 0x183d 0 0x1faf 0,
  dr 0x23b0000023d 0x16b0100016b06 0x183e 0 0x1fb0 0,
  dr 0x39a000003a7 0x16b0600016b0c 0x183f 0 0x1fb1 0,
  dr 0x23f00000249 0x16b0c00016b13 0x1840 0 no 0x1fb200001fb5,
  dr 0x23f00000249 0x16b5200016b58 0x1841 0 no 0x1fb500001fb7,
  dr 0x8e00000099 0x16b6800016b6e 0x1843 0 0x1fb7 0,
  dr 0x23f00000249 0x16b6e00016b75 0x1844 0 0x1fb8 0,
  dr 0x23f00000249 0x16b7500016b79 0x1845 0 no 0x1fb900001fbb,
  dr 0x23b0000023d 0x16b7900016b7e 0x1848 0 0x1fbb 0,
  dr 0x23f00000249 0x16b8400016b8a 0x1849 0 no 0x1fbc00001fbe,
  dr 0x23b0000023d 0x16b8a00016b99 0x184c 0 no 0x1fbe00001fc9,
  dr 0x2a1000002a7 0x16c0100016c09 0x1850 0 no 0x1fc900001fd9,
  dr 0x2a1000002a7 0x16cf700016cfe 0x1853 0 0x1fd9 0,
  dr 0x23f00000249 0x16cfe00016d05 0x1854 0 no 0x1fda00001fdb,
  dr 0x23f00000249 0x16d0500016d0a no 0x16d0a00016d0f no 0x1fdb00001fdd,
  dr 0x23f00000249 0x16d0f00016d14 0x1858 0 0x1fdd 0,
  dr 0x23f00000249 0x16d1400016d1a 0x1859 0 no 0x1fde00001fe2,
  dr 0x23f00000249 0x16d1a00016d1f 0x185e 0 no 0x1fe200002035,
  dr 0x23f00000249 0x170160001701a 0x1893 0 no 0x20350000206a,
  dr 0x23f00000249 0x171990001719d 0x18c8 0 no 0x206a00002071,
  dr 0x23b0000023d 0x171ab000171b2 no 0x171b2000171ba no 0,
  dr 0x23b0000023d 0x171ba000171c3 0x18d0 0 0x2071 0,
  dr 0x23b0000023d 0x171c3000171cc 0x18d1 0 no 0x207200002073,
  dr 0x2a1000002a7 0x171cc000171d5 0x18d3 0 0x2073 0,
  dr 0x23f00000249 0x171e3000171e6 0x18d4 0 no 0x20740000207a,
  dr 0x23f00000249 0x172040001720b 0x18db 0 no 0x207a00002080,
  dr 0x23f00000249 0x172490001724d 0x18df 0 no 0x208000002082,
  dr 0x23b0000023d 0x172530001725a no 0x1725a00017263 no 0x208200002084,
  dr 0x23b0000023d 0x1727e00017283 0x18e4 0 0x2084 0,
  dr 0x23f00000249 0x1728300017288 0x18e5 0 no 0x208500002089,
  dr 0x23f00000249 0x172a0000172a7 0x18e9 0 0x2089 0,
  dr 0x23f00000249 0x172a7000172ac 0x18ea 0 0x208a 0,
  dr 0x2a1000002a7 0x172b8000172c0 0x18eb 0 0x208b 0,
  dr 0x23f00000249 0x172c0000172c5 0x18ec 0 no 0x208c000020d4,
  dr 0x23f00000249 0x1766e00017672 0x18fa 0 no 0x20d4000020d7,
  dr 0x2a1000002a7 0x176760001767c 0x18fe 0 no 0x20d7000020de,
  dr 0x23f00000249 0x1770700017709 0x1902 0 no 0x20de000020e8,
  dr 0x23f00000249 0x1775600017758 0x190d 0 no 0x20e8000020ee,
  dr 0x7cc000007d6 0x177580001775d 0x1914 0 0x20ee 0,
  dr 0x23f00000249 0x1775d00017762 0x1915 0 0x20ef 0,
  dr 0x2a1000002a7 0x1776200017766 0x1916 0 0x20f0 0,
  dr 0x23f00000249 0x177660001776a 0x1917 0 no 0x20f1000020f3,
  dr 0x23b0000023d 0x177760001777a 0x1919 0 no 0x20f3000020f4,
  dr 0x23f00000249 0x1777a0001777e 0x191b 0 no 0x20f4000020f8,
  dr 0x2a1000002a7 0x1779300017796 0x191d 0 no 0x20f8000020fb,
  dr 0x23b0000023d 0x177ac000177b0 0x1920 0 no 0x20fb000020ff,
  dr 0x2a1000002a7 0x177be000177c7 0x1924 0 no 0x20ff00002114,
  dr 0x23f00000249 0x1790400017908 0x192c 0 no 0x211400002258,
  dr 0x23f00000249 0x1835e00018363 0x1a1d 0 no 0x225800002264,
  dr 0x23b0000023d 0x183c2000183c5 0x1a26 0 no 0x226400002266,
  dr 0x23f00000249 0x183d6000183da 0x1a27 0 0x2266 0,
  dr 0x23f00000249 0x183da000183df no 0x183da000183df no 0x22670000226b,
  dr 0x2a1000002a7 0x184040001840a 0x1a2a 0 no 0x226b0000226c,
  dr 0x23f00000249 0x1841300018418 0x1a2c 0 0x226c 0,
  dr 0x23f00000249 0x184180001841c 0x1a2d 0 no 0x226d0000226f,
  dr 0x2a1000002a7 0x1842300018429 0x1a30 0 no 0x226f00002271,
  dr 0x23f00000249 0x184290001842f 0x1a33 0 no 0x227100002273,
  dr 0x23f00000249 0x184390001843d 0x1a35 0 0x2273 0,
  dr 0x23f00000249 0x1843d00018440 0x1a36 0 no 0x227400002285,
  dr 0x2a1000002a7 0x1849c000184a3 0x1a48 0 no 0x228500002287,
  dr 0x2a1000002a7 0x184c3000184c7 0x1a4b 0 no 0x2287000022c4,
  dr 0x23f00000249 0x1898300018988 0x1a60 0 no 0x22c4000022c6,
  dr 0x23f00000249 0x189a7000189ad 0x1a62 0 no 0x22c6000022cb,
  dr 0x23f00000249 0x189c5000189ca 0x1a68 0 no 0x22cb000022cd,
  dr 0x23f00000249 0x189dc000189e0 0x1a6a 0 no 0x22cd000022d0,
  dr 0x2a1000002a7 0x189fc00018a01 0x1a6e 0 0x22d0 0,
  dr 0x2a1000002a7 0x18a0100018a06 0x1a6f 0 0x22d1 0,
  dr 0x23f00000249 0x18a0e00018a15 0x1a70 0 no 0x22d2000022d3,
  dr 0x23f00000249 0x18a1900018a1d 0x1a72 0 no 0x22d3000022ea,
  dr 0x23f00000249 0x18b7700018b7f 0x1a84 0 no 0x22ea000022ed,
  dr 0x2a1000002a7 0x18bb000018bb7 0x1a87 0 0x22ed 0,
  dr 0x23f00000249 0x18bb700018bbe 0x1a88 0 no 0x22ee00002344,
  dr 0x23f00000249 0x18e8800018e8d 0x1aca 0 no 0x234400002347,
  dr 0x2a1000002a7 0x18e9b00018e9f 0x1ace 0 no 0x23470000234a,
  dr 0x23f00000249 0x18eab00018eb0 0x1ad2 0 no 0x234a0000234c,
  dr 0x23f00000249 0x18eb000018eb5 no 0x18eb500018ebd 0x234c 0,
  dr 0x23b0000023d 0x18ebd00018ec4 0x1ad5 0 no 0x234d0000234f,
  dr 0x23f00000249 0x18ed000018eda 0x1ad8 0 no 0x234f00002354,
  dr 0x23b0000023d 0x18f5400018f5b 0x1ad9 0 no 0x23540000235d,
  dr 0x23f00000249 0x18fd600018fdc 0x1adf 0 no 0x235d00002360,
  dr 0x23f00000249 0x1900a00019010 0x1ae1 0 no 0x236000002364,
  dr 0x7cc000007d6 0x190180001901e 0x1ae6 0 no 0x236400002365,
  dr 0x23f00000249 0x1902d00019033 0x1ae7 0 no 0x236500002379,
  dr 0x7cc000007d6 0x1911e00019127 0x1af2 0 0x2379 0,
  dr 0x23f00000249 0x191270001912c 0x1af3 0 no 0x237a00002382,
  dr 0x23b0000023d 0x1917a00019180 0x1af4 0 0x2382 0,
  dr 0x23b0000023d 0x1918000019188 0x1af5 0 no 0x238300002384,
  dr 0x23f00000249 0x1918800019191 0x1af7 0 0x2384 0,
  dr 0x23b0000023d 0x14c9700014c9c 0x1af8 0 no 0x238500002387,
  dr 0x23f00000249 0x1919a0001919e 0x1afb 0 no 0x23870000238c,
  dr 0x23f00000249 0x191a6000191ad 0x1b00 0 no 0x238c000023a1,
  dr 0x2a1000002a7 0x1923200019239 0x1b10 0 no 0x23a1000023aa,
  dr 0x23f00000249 0x192a6000192aa no 0x192aa000192b2 0x23aa 0,
  dr 0x23f00000249 0x192b2000192b6 0x1b15 0 no 0x23ab000023ad,
  dr 0x2a1000002a7 0x192c1000192c8 0x1b18 0 no 0x23ad000023bc,
  dr 0x2a1000002a7 0x193470001934b 0x1b25 0 0x23bc 0,
  dr 0x23b0000023d 0x1935100019358 0x1b26 0 0x23bd 0,
  dr 0x23f00000249 0x193580001935f 0x1b27 0 no 0x23be000023c0,
  dr 0x2a1000002a7 0x1936d00019373 0x1b29 0 no 0x23c0000023c1,
  dr 0x2a1000002a7 0x1937b00019383 no 0x1938300019390 0x23c1 0,
  dr 0x23f00000249 0x1939d000193a2 0x1b2b 0 no 0x23c2000023ca,
  dr 0x23f00000249 0x1941300019416 0x1b2e 0 no 0x23ca000023cc,
  dr 0x23f00000249 0x1942a00019437 0x1b30 0 no 0x23cc000023ce,
  dr 0x2a1000002a7 0x194370001943b 0x1b33 0 no 0x23ce000023d0,
  dr 0x7cc000007d6 0x1944100019447 0x1b36 0 0x23d0 0,
  dr 0x2a1000002a7 0x194470001944e 0x1b37 0 no 0x23d1000023d5,
  dr 0x23f00000249 0x1948200019488 0x1b3a 0 no 0x23d5000023d6,
  dr 0x2a1000002a7 0x1948e00019492 0x1b3b 0 no 0x23d6000023d7,
  dr 0x23f00000249 0x1949c000194a0 0x1b3d 0 no 0x23d700002411,
  dr 0x23f00000249 0x195de000195e4 0x1b71 0 no 0x241100002413,
  dr 0x23f00000249 0x195ed000195f1 0x1b74 0 0x2413 0,
  dr 0x23f00000249 0x195f1000195f6 0x1b75 0 0x2414 0,
  dr 0x23b0000023d 0x195f6000195fc no 0x195fc00019605 no 0x241500002416,
  dr 0x23b0000023d 0x196150001961c 0x1b77 0 no 0,
  dr 0x23f00000249 0x1961c00019621 0x1b78 0 no 0x241600002419,
  dr 0x23b0000023d 0x1962100019626 no 0x1962600019632 0x2419 0,
  dr 0x23f00000249 0x1963800019651 no 0x1965100019660 0x241a 0,
  dr 0x2a1000002a7 0x196600001966c 0x1b7c 0 no 0x241b00002420,
  dr 0x23b0000023d 0x196af000196b6 no 0x196b6000196c0 0x2420 0,
  dr 0x23f00000249 0x196c0000196c4 0x1b7f 0 no 0x242100002427,
  dr 0x2a1000002a7 0x196df000196e6 no 0x196e6000196ed 0x2427 0,
  dr 0x23f00000249 0x196ed000196f6 0x1b84 0 no 0x242800002442,
  dr 0x23b0000023d 0x197bd000197c4 no 0x197bd000197c4 no 0x244200002443,
  dr 0x23f00000249 0x197c4000197c8 0x1b9d 0 0x2443 0,
  dr 0x23b0000023d 0x197c8000197cf 0x1b9e 0 0x2444 0,
  dr 0x2a1000002a7 0x197cf000197d8 0x1b9f 0 0x2445 0,
  dr 0x23f00000249 0x197d8000197df 0x1ba0 0 no 0x244600002451,
  dr 0x23f00000249 0x1981b00019828 0x1ba8 0 0x2451 0,
  dr 0x23f00000249 0x1982800019836 0x1ba9 0 no 0x245200002454,
  dr 0x23f00000249 0x198440001984a 0x1bab 0 no 0x245400002456,
  dr 0x23b0000023d 0x1987200019878 0x1bac 0 no 0x24560000245d,
  dr 0x2a1000002a7 0x1989c000198a1 0x1bb2 0 no 0x245d0000245f,
  dr 0x2a1000002a7 0x198c5000198ce 0x1bb3 0 no 0x245f00002465,
  dr 0x23b0000023d 0x198fb00019901 no 0x198fb00019901 no 0x246500002468,
  dr 0x23f00000249 0x1993e00019945 0x1bba 0 no 0x24680000246e,
  dr 0x23f00000249 0x1997300019979 0x1bc1 0 no 0x246e00002475,
  dr 0x23f00000249 0x199a3000199aa 0x1bc8 0 no 0x24750000248b,
  dr 0x23f00000249 0x19a4200019a4a 0x1bdc 0 no 0x248b00002490,
  dr 0x2a1000002a7 0x19a5d00019a61 0x1be2 0 no 0x249000002493,
  dr 0x2b1e00002b26 0x19a6a00019a6e 0x1be5 0 no 0x249300002496,
  dr 0x23f00000249 0x19a8100019a88 0x1be8 0 no 0x24960000249e,
  dr 0x2a1000002a7 0x19aa600019ab7 0x1bef 0 0x249e 0,
  dr 0x23f00000249 0x19ab700019abd 0x1bf0 0 0x249f 0,
  dr 0x23f00000249 0x19ac800019ad2 0x1bf1 0 0x24a0 0,
  dr 0x2a1000002a7 0x19ad200019ad7 0x1bf2 0 no 0x24a1000024b7,
  dr 0x2a1000002a7 0x19b7900019b89 0x1c03 0 no 0x24b7000024b9,
  dr 0x2a1000002a7 0x19b9200019b99 0x1c06 0 0x24b9 0,
  dr 0x23b0000023d 0x19b9900019ba1 no 0x19ba100019baa no 0x24ba000024bb,
  dr 0x2a1000002a7 0x19bb200019bb8 0x1c08 0 no 0x24bb000024be,
  dr 0x23f00000249 0x19bed00019bf1 0x1c0a 0 no 0x24be000024c6,
  dr 0x2a1000002a7 0x19c5100019c5a 0x1c0b 0 0x24c6 0,
  dr 0x23f00000249 0x19c5a00019c5f 0x1c0c 0 0x24c7 0,
  dr 0x2a1000002a7 0x19c5f00019c69 0x1c0d 0 no 0x24c8000024cf,
  dr 0x7cc000007d6 0x19c9700019ca3 no 0x19ca300019ca7 no 0x24cf000024d0,
  dr 0x2a1000002a7 0x19ca700019cb4 0x1c15 0 no 0x24d0000024dd,
  dr 0x23b0000023d 0x19dda00019ddf 0x1c1a 0 no 0x24dd000024de,
  dr 0x23b0000023d 0x19ddf00019de8 0x1c1c 0 0x24de 0,
  dr 0x23f00000249 0x19de800019df0 0x1c1d 0 no 0x24df00002502,
  dr 0x8e00000099 0x19f9a00019fa2 0x1c27 0 no 0x250200002503,
  dr 0x2a1000002a7 0x19fb500019fbc 0x1c28 0 no 0x250300002505,
  dr 0x23f00000249 0x19fbc00019fc4 0x1c2b 0 no 0x25050000252c,
  dr 0x23f00000249 0x1a1820001a186 0x1c45 0 no 0x252c0000252e,
  dr 0x23f00000249 0x1a1860001a18c no 0x1a18c0001a195 0x252e 0,
  dr 0x8e00000099 0x1a1950001a19c no 0x1a19c0001a1bb no 0,
  dr 0x2a1000002a7 0x1a1bb0001a1c4 0x1c48 0 0x252f 0,
  dr 0x23f00000249 0x1a1c40001a1cc 0x1c49 0 no 0x25300000253c,
  dr 0x23f00000249 0x1a2480001a254 0x1c4d 0 no 0x253c0000254c,
  dr 0x2a1000002a7 0x1a2e10001a2e9 0x1c5e 0 0x254c 0,
  dr 0x23f00000249 0x1a2f40001a300 0x1c5f 0 no 0x254d0000254f,
  dr 0x23f00000249 0x1a3190001a31f 0x1c60 0 no 0x254f00002558,
  dr 0x2a1000002a7 0x1a3840001a38d 0x1c63 0 no 0x2558000025a3,
  dr 0x2a1000002a7 0x1a8d30001a8db 0x1c75 0 no 0x25a3000025a5,
  dr 0x23f00000249 0x1a8eb0001a8f1 0x1c78 0 no 0x25a5000025b0,
  dr 0x2a1000002a7 0x1a9370001a93d 0x1c84 0 no 0x25b0000025ba,
  dr 0x2a1000002a7 0x1a9b10001a9b8 0x1c88 0 no 0x25ba000025bc,
  dr 0x2a1000002a7 0x1a9b80001a9bf 0x1c8b 0 no 0x25bc000025be,
  dr 0x23b0000023d 0x1a9ca0001a9d3 0x1c8e 0 0x25be 0,
  dr 0x2a1000002a7 0x1a9d30001a9da 0x1c8f 0 no 0x25bf000025c2,
  dr 0x8e00000099 0x1a9ef0001a9f6 0x1c92 0 0x25c2 0,
  dr 0x23f00000249 0x1a9f60001a9fe 0x1c93 0 0x25c3 0,
  dr 0x2a1000002a7 0x1a9fe0001aa03 0x1c94 0 0x25c4 0,
  dr 0x23f00000249 0x1aa030001aa09 no 0x1aa090001aa11 no 0x25c5000025c6,
  dr 0x23b0000023d 0x1aa110001aa16 0x1c95 0 no 0,
  dr 0x23f00000249 0x1aa160001aa1d 0x1c96 0 no 0x25c6000025c7,
  dr 0x23f00000249 0x1aa1d0001aa23 0x1c98 0 no 0x25c7000025c9,
  dr 0x23f00000249 0x1aa2b0001aa2e 0x1c9a 0 0x25c9 0,
  dr 0x23f00000249 0x1aa2e0001aa31 0x1c9b 0 no 0x25ca000025cc,
  dr 0x2a1000002a7 0x1aa310001aa36 0x1c9e 0 no 0x25cc000025cd,
  dr 0x23f00000249 0x1aa3f0001aa46 0x1ca0 0 no 0x25cd00002604,
  dr 0x23f00000249 0x1acae0001acb3 0x1cb9 0 no 0x260400002605,
  dr 0x23b0000023d 0x1acb90001acbe 0x1cbb 0 0x2605 0,
  dr 0x23f00000249 0x1acbe0001acc4 0x1cbc 0 no 0x260600002620,
  dr 0x2a1000002a7 0x1ae0a0001ae11 0x1cc4 0 no 0x262000002621,
  dr 0x23f00000249 0x1ae110001ae1c 0x1cc6 0 no 0x262100002628,
  dr 0x23f00000249 0x1ae650001ae69 0x1ccd 0 0x2628 0,
  dr 0x2a1000002a7 0x1ae690001ae78 0x1cce 0 0x2629 0,
  dr 0x23f00000249 0x1ae830001ae8a 0x1ccf 0 no 0x262a00002634,
  dr 0x23f00000249 0x1aec90001aecf 0x1cda 0 0x2634 0,
  dr 0x23f00000249 0x1aecf0001aed3 0x1cdb 0 no 0x263500002639,
  dr 0x23f00000249 0x1aeeb0001aef2 no 0x1aef20001af01 0x2639 0,
  dr 0x23f00000249 0x61180000611d 0x1cdf 0 no 0x263a0000263b,
  dr 0x23f00000249 0x1af070001af0d 0x1ce0 0 no 0x263b0000263c,
  dr 0x2a1000002a7 0x1af120001af16 0x1ce2 0 no 0x263c00002641,
  dr 0x23b0000023d 0x1af330001af37 no 0x1af370001af3e no 0x264100002642,
  dr 0x2a1000002a7 0x1af530001af58 0x1ce8 0 no 0x264200002647,
  dr 0x23b0000023d 0x1af8c0001af90 0x1cea 0 0x2647 0,
  dr 0x39a000003a7 0x1af960001af9a 0x1ceb 0 0x2648 0,
  dr 0x23b0000023d 0x1af9f0001afa3 0x1cec 0 0x2649 0,
  dr 0x23f00000249 0x1afa30001afae 0x1ced 0 no 0x264a0000265a,
  dr 0x2a1000002a7 0x1b09d0001b0a0 0x1cf7 0 0x265a 0,
  dr 0x23f00000249 0x1b0a00001b0a3 0x1cf8 0 0x265b 0,
  dr 0x23f00000249 0x1b0af0001b0b4 no 0x1b0b40001b0ba no 0x265c0000265d,
  dr 0x2a1000002a7 0x1b0c00001b0c5 0x1cfa 0 no 0x265d00002660,
  dr 0x23f00000249 0x1b0c50001b0ca 0x1cfe 0 no 0x266000002661,
  dr 0x23f00000249 0x1b0d10001b0d4 0x1d00 0 no 0x266100002678,
  dr 0x2a1000002a7 0x1b1b50001b1bc 0x1d10 0 no 0x267800002679,
  dr 0x23b0000023d 0x1b1ca0001b1ce 0x1d11 0 0x2679 0,
  dr 0x23f00000249 0x1b1ce0001b1d8 0x1d12 0 no 0x267a0000267c,
  dr 0x23f00000249 0x1b1ef0001b1f2 0x1d14 0 0x267c 0,
  dr 0x23f00000249 0x1b1f90001b200 0x1d15 0 no 0x267d00002682,
  dr 0x23f00000249 0x1b2320001b237 0x1d16 0 no 0x268200002687,
  dr 0x7cc000007d6 0x1b2590001b262 0x1d1a 0 0x2687 0,
  dr 0x23f00000249 0x1b2620001b267 0x1d1b 0 0x2688 0,
  dr 0x23f00000249 0x1b2670001b26f 0x1d1c 0 no 0x26890000268a,
  dr 0x23f00000249 0x1b2870001b28c 0x1d1d 0 no 0x268a0000268c,
  dr 0x23f00000249 0x1b2a00001b2a5 0x1d1e 0 0x268c 0,
  dr 0x2a1000002a7 0x1b2a50001b2ac 0x1d1f 0 no 0x268d00002690,
  dr 0x23f00000249 0x1b2ba0001b2c0 0x1d23 0 0x2690 0,
  dr 0x23f00000249 0x1b2c00001b2c6 0x1d24 0 no 0x26910000276d,
  dr 0x23b0000023d 0x1bb3b0001bb42 0x1d7c 0 no 0x276d00002771,
  dr 0x23f00000249 0x1bb5f0001bb66 0x1d80 0 0x2771 0,
  dr 0x2a1000002a7 0x1bb660001bb6c 0x1d81 0 no 0x277200002773,
  dr 0x2a1000002a7 0x1bb7c0001bb82 0x1d83 0 no 0x277300002776,
  dr 0x2a1000002a7 0x1bba90001bbaf 0x1d84 0 no 0x277600002795,
  dr 0x23f00000249 0x1bda60001bdac 0x1d8c 0 0x2795 0,
  dr 0x2a1000002a7 0x1bdac0001bdb3 0x1d8d 0 0x2796 0,
  dr 0x23f00000249 0x1bdb30001bdb9 0x1d8e 0 no 0x279700002798,
  dr 0x23b0000023d 0x1bdbd0001bdc3 0x1d90 0 0x2798 0,
  dr 0x1060000010d 0x18600000194 no 0x18600000194 no 0x27990000279c,
  dr 0x23f00000249 0x1bdc30001bdc7 0x1d93 0 no 0x279c0000279e,
  dr 0x23f00000249 0x1bddb0001bde4 0x1d95 0 no 0x279e0000279f,
  dr 0x23f00000249 0x1bdec0001bdf1 0x1d96 0 0x279f 0,
  dr 0x7cc000007d6 0x1bdf80001bdfd no 0x1bdfd0001be03 no 0x27a0000027a1,
  dr 0x23b0000023d 0x1be130001be1c 0x1d97 0 0x27a1 0,
  dr 0x23f00000249 0x1be200001be2d no 0x1be2d0001be3a no 0x27a2000027a3,
  dr 0x23f00000249 0x1be4f0001be54 0x1d98 0 0x27a3 0,
  dr 0x2a1000002a7 0x1be540001be5a 0x1d99 0 no 0x27a4000027a6,
  dr 0x23f00000249 0x1be660001be6e 0x1d9c 0 0x27a6 0,
  dr 0x23f00000249 0x1be730001be7a 0x1d9d 0 no 0x27a7000027a8,
  dr 0x23f00000249 0x1be7a0001be7e 0x1d9f 0 no 0x27a8000027ad,
  dr 0x2a1000002a7 0x1beca0001bed0 0x1da3 0 0x27ad 0,
  dr 0x2a1000002a7 0x1bed00001bed9 no 0x1bed90001beec 0x27ae 0,
  dr 0x23f00000249 0x1bef50001befd 0x1da4 0 0x27af 0,
  dr 0x2a1000002a7 0x8faa00008fb0 0x1da5 0 0x27b0 0,
  dr 0x23f00000249 0x1befd0001bf02 0x1da6 0 no 0x27b1000027b5,
  dr 0x23b0000023d 0x1bf1a0001bf1e 0x1da7 0 no 0x27b5000027b8,
  dr 0x23b0000023d 0x1bf4c0001bf53 0x1da8 0 no 0x27b8000027be,
  dr 0x23b0000023d 0x1bfa50001bfab 0x1dac 0 0x27be 0,
  dr 0x2a1000002a7 0x1bfab0001bfb4 0x1dad 0 0x27bf 0,
  dr 0x39a000003a7 0x1bfbb0001bfc0 0x1dae 0 0x27c0 0,
  dr 0x2a1000002a7 0x1bfc00001bfcf 0x1daf 0 no 0x27c1000027c6,
  dr 0x23f00000249 0x1bff10001bff9 0x1db5 0 no 0x27c6000027c9,
  dr 0x2a1000002a7 0x1c00b0001c011 no 0x1c00b0001c011 no 0x27c9000027cb,
  dr 0x23f00000249 0x1c0210001c028 0x1db8 0 no 0x27cb000027cd,
  dr 0x2a1000002a7 0x1c02d0001c036 0x1dba 0 no 0x27cd000027ce,
  dr 0x23f00000249 0x1c0360001c03c 0x1dbc 0 no 0x27ce000027cf,
  dr 0x23f00000249 0x1c0470001c04b 0x1dbe 0 no 0x27cf000027d3,
  dr 0x23f00000249 0x1c0580001c05e no 0x1c05e0001c067 0x27d3 0,
  dr 0x23f00000249 0x1c0670001c06c 0x1dc2 0 no 0x27d4000027d7,
  dr 0x23b0000023d 0x1c0780001c07c 0x1dc4 0 no 0x27d7000027d9,
  dr 0x23f00000249 0x1c0870001c08b 0x1dc6 0 no 0x27d9000027db,
  dr 0x2a1000002a7 0x1c08b0001c092 0x1dc9 0 0x27db 0,
  dr 0x23f00000249 0x1c0920001c098 0x1dca 0 no 0x27dc000027de,
  dr 0x23f00000249 0x1c0980001c09d 0x1dcd 0 no 0x27de000027df,
  dr 0x23f00000249 0x1c09d0001c0a2 0x1dcf 0 0x27df 0,
  dr 0x23f00000249 0x1c0a90001c0ad no 0x1c0ad0001c0b4 no 0x27e0000027e2,
  dr 0x2a1000002a7 0x1c0c50001c0ca 0x1dd0 0 0x27e2 0,
  dr 0x7cc000007d6 0x1c0ca0001c0cf 0x1dd1 0 0x27e3 0,
  dr 0x23b0000023d 0x1c0cf0001c0d2 0x1dd2 0 no 0,
  dr 0x23f00000249 0x1c0d20001c0da 0x1dd3 0 no 0x27e4000027e8,
  dr 0x23b0000023d 0x1c0f20001c0f7 0x1dd8 0 0x27e8 0,
  dr 0x23f00000249 0x1c0f70001c0fc 0x1dd9 0 0x27e9 0,
  dr 0x23f00000249 0x1c1020001c105 0x1dda 0 no 0x27ea00002805,
  dr 0x2a1000002a7 0x1c21a0001c21e 0x1df5 0 no 0x280500002807,
  dr 0x23b0000023d 0x1c2360001c23c no 0x1c2360001c23c no 0x280700002809,
  dr 0x23b0000023d 0x1c2590001c265 0x1df6 0 no 0x28090000280b,
  dr 0x23f00000249 0x1c2810001c284 0x1df9 0 0x280b 0,
  dr 0x23f00000249 0x1c2840001c28e 0x1dfa 0 no 0x280c00002810,
  dr 0x23f00000249 0x1c2e80001c2ef 0x1dfb 0 no 0x281000002812,
  dr 0x23f00000249 0x1c3020001c30d 0x1dfd 0 no 0x281200002814,
  dr 0x23b0000023d 0x1c3350001c339 0x1dfe 0 0x2814 0,
  dr 0x23f00000249 0x1c3390001c33e 0x1dff 0 0x2815 0,
  dr 0x23f00000249 0x1c33e0001c342 0x1e00 0 0x2816 0,
  dr 0x23f00000249 0x1c3490001c34d 0x1e01 0 no 0x28170000281a,
  dr 0x296a00002977 0x1c37f0001c384 0x1e03 0 no 0x281a00002824,
  dr 0x23f00000249 0x1c3ae0001c3b2 no 0x1c3b20001c3bb 0x2824 0,
  dr 0x2a1000002a7 0x1c3bb0001c3c0 0x1e0d 0 0x2825 0,
  dr 0x2a1000002a7 0x1c3c00001c3c3 0x1e0e 0 no 0x282600002846,
  dr 0x23f00000249 0x1c5f60001c5fb 0x1e16 0 no 0x284600002847,
  dr 0x2a1000002a7 0x1c5fb0001c600 0x1e18 0 0x2847 0,
  dr 0x23f00000249 0x1c6030001c607 0x1e19 0 0x2848 0,
  dr 0x23f00000249 0x1c6070001c611 0x1e1a 0 no 0x284900002853,
  dr 0x23f00000249 0x1c6a40001c6af 0x1e1b 0 0x2853 0,
  dr 0x23f00000249 0x1c6af0001c6b2 0x1e1c 0 no 0x28540000285b,
  dr 0x23b0000023d 0x1c6f20001c6f8 0x1e20 0 no 0x285b0000285d,
  dr 0x2a1000002a7 0x1c6ff0001c704 0x1e22 0 0x285d 0,
  dr 0x2a1000002a7 0x1c7060001c70d 0x1e23 0 no 0x285e00002862,
  dr 0x23f00000249 0x1c7420001c74f 0x1e27 0 no 0x286200002866,
  dr 0xbf670000bf7c 0x1c76e0001c773 0x1e2b 0 no 0x286600002867,
  dr 0x23f00000249 0x1c77b0001c77e 0x1e2d 0 0x2867 0,
  dr 0x2a1000002a7 0x1c7860001c78c 0x1e2e 0 0x2868 0,
  dr 0x23b0000023d 0x1c78c0001c790 0x1e2f 0 no 0x28690000286b,
  dr 0x23f00000249 0x1c7900001c799 0x1e32 0 no 0x286b00002877,
  dr 0x23f00000249 0x1c85e0001c863 0x1e35 0 no 0x28770000287b,
  dr 0x23b0000023d 0x1c8630001c86b 0x1e3a 0 no 0x287b00002880,
  dr 0x23f00000249 0x1c8850001c88a 0x1e3f 0 no 0x288000002882,
  dr 0x23b0000023d 0x1c8990001c89f 0x1e42 0 no 0x288200002884,
  dr 0x23b0000023d 0x1c89f0001c8a5 0x1e45 0 no 0x288400002886,
  dr 0x23f00000249 0x180000001f 0x1e47 0 no 0x288600002b5c,
  dr 0x2a1000002a7 0x1f6420001f649 0x20ee 0 0x2b5c 0,
  dr 0x23b0000023d 0x1f6490001f650 0x20ef 0 0x2b5d 0,
  dr 0x23f00000249 0x1f6500001f655 0x20f0 0 no 0x2b5e00002b62,
  dr 0x2a1000002a7 0x1f6640001f66a no 0x1f66a0001f673 0x2b62 0,
  dr 0x23f00000249 0x1f67d0001f683 0x20f2 0 no 0x2b6300002b65,
  dr 0x23f00000249 0x1f68a0001f690 0x20f4 0 no 0x2b6500002b7a,
  dr 0x39a000003a7 0x1ac000001b1 0x210a 0 no 0x2b7a00002b7f,
  dr 0x23b0000023d 0x1f73c0001f741 0x2110 0 0x2b7f 0,
  dr 0x23b0000023d 0x1f7410001f745 0x2111 0 0x2b80 0,
  dr 0x23b0000023d 0x1f7450001f74e 0x2112 0 no 0,
  dr 0x23f00000249 0x1f74e0001f753 0x2113 0 no 0x2b8100002b83,
  dr 0x23b0000023d 0x1f7890001f78f 0x2114 0 0x2b83 0,
  dr 0x23f00000249 0x1f78f0001f796 0x2115 0 0x2b84 0,
  dr 0x23f00000249 0x1f7960001f79c no 0x1f7960001f79c no 0x2b8500002b86,
  dr 0x23f00000249 0x1f79c0001f7a2 0x2117 0 no 0x2b8600002b88,
  dr 0x2a1000002a7 0x1f7a20001f7ab 0x211a 0 no 0x2b8800002b8a,
  dr 0x23b0000023d 0x1f7ab0001f7b2 no 0x1f7ab0001f7b2 no 0x2b8a00002b8b,
  dr 0x23f00000249 0x1f7b20001f7b8 no 0x1f7b80001f7be no 0x2b8b00002b92,
  dr 0x2a1000002a7 0x1f87f0001f885 0x211e 0 no 0x2b9200002ba1,
  dr 0x23b0000023d 0x1f9210001f928 no 0x1f9280001f92f no 0x2ba100002ba2,
  dr 0x39a000003a7 0x1f9500001f955 0x212e 0 0x2ba2 0,
  dr 0x2a1000002a7 0x1f9550001f95d 0x212f 0 no 0x2ba300002ba5,
  dr 0x23f00000249 0x1f9760001f97d 0x2131 0 0x2ba5 0,
  dr 0x23f00000249 0x1f97d0001f982 0x2132 0 no 0x2ba600002bb5,
  dr 0x23f00000249 0x1f9bf0001f9c4 0x2142 0 no 0x2bb500002bb7,
  dr 0x7cc000007d6 0x1f9cd0001f9d2 0x2145 0 0x2bb7 0,
  dr 0x23f00000249 0x1f9d20001f9d7 0x2146 0 no 0x2bb800002c2e,
  dr 0x23f00000249 0x1ff010001ff0d 0x21b5 0 0x2c2e 0,
  dr 0x23b0000023d 0x1ff0d0001ff14 0x21b6 0 0x2c2f 0,
  dr 0x7cc000007d6 0x1ff1a0001ff23 0x21b7 0 0x2c30 0,
  dr 0x2a1000002a7 0x1ff2e0001ff35 0x21b8 0 0x2c31 0,
  dr 0x23f00000249 0x1ff350001ff39 0x21b9 0 no 0x2c3200002c41,
  dr 0x23f00000249 0x1ffd40001ffdb 0x21be 0 no 0x2c4100002c46,
  dr 0x23f00000249 0x106ca000106cf 0x21c4 0 no 0x2c4600002c4e,
  dr 0x23b0000023d 0x200470002004e 0x21cc 0 0x2c4e 0,
  dr 0x23f00000249 0x2004e0002005b no 0x2005b00020067 0x2c4f 0,
  dr 0x2a1000002a7 0x200670002006e 0x21cd 0 no 0x2c5000002c58,
  dr 0x23f00000249 0x200ac000200b2 0x21d0 0 0x2c58 0,
  dr 0x23f00000249 0x200b2000200ba 0x21d1 0 no 0x2c5900002c5d,
  dr 0x23f00000249 0x200d3000200da 0x21d6 0 no 0x2c5d00002c5e,
  dr 0x23f00000249 0x200df000200e9 0x21d8 0 no 0x2c5e00002c60,
  dr 0x23f00000249 0x200f9000200ff 0x21db 0 0x2c60 0,
  dr 0x23f00000249 0x1678200016785 0x21dc 0 no 0x2c6100002c8f,
  dr 0x23b0000023d 0x203420002034b 0x21fa 0 no 0x2c8f00002c91,
  dr 0x23b0000023d 0xb6cf0000b6d6 0x21fd 0 0x2c91 0,
  dr 0x23b0000023d 0x203530002035a 0x21fe 0 no 0x2c9200002c94,
  dr 0x23b0000023d 0x2035a00020362 0x2201 0 no 0x2c9400002c99,
  dr 0x23f00000249 0x203960002039b 0x2204 0 no 0x2c9900002c9b,
  dr 0x2a1000002a7 0x203a9000203af 0x2207 0 0x2c9b 0,
  dr 0x23f00000249 0xf5750000f57a 0x2208 0 no 0x2c9c00002c9e,
  dr 0x2a1000002a7 0x203c5000203d1 0x220a 0 no 0x2c9e00002c9f,
  dr 0x23b0000023d 0x203d7000203e1 0x220c 0 no 0,
  dr 0x2a1000002a7 0x203e1000203ea 0x220d 0 no 0x2c9f00002ca1,
  dr 0x2a1000002a7 0x203ee000203f5 0x2210 0 0x2ca1 0,
  dr 0x23f00000249 0x203f5000203fc 0x2211 0 no 0x2ca200002ca3,
  dr 0x23f00000249 0x203fc00020405 0x2213 0 no 0x2ca300002cb5,
  dr 0x23f00000249 0x2050e00020517 0x2218 0 no 0x2cb500002cc3,
  dr 0x2a1000002a7 0x2056f00020575 0x2223 0 no 0x2cc300002cc5,
  dr 0x23f00000249 0x2058400020591 0x2225 0 no 0x2cc500002ccc,
  dr 0x23b0000023d 0x205db000205e5 0x222c 0 0x2ccc 0,
  dr 0x7cc000007d6 0x205e5000205ee no 0x205e5000205ee no 0x2ccd00002cce,
  dr 0x23f00000249 0x2061100020615 0x222d 0 no 0x2cce00002cd0,
  dr 0x23f00000249 0x2061e00020626 0x222f 0 no 0x2cd000002cd3,
  dr 0x23f00000249 0x2062600020630 0x2233 0 0x2cd3 0,
  dr 0x23f00000249 0x2063000020636 0x2234 0 no 0x2cd400002cdc,
  dr 0x23f00000249 0x206ab000206b0 0x2238 0 no 0x2cdc00002ce5,
  dr 0x23f00000249 0x1e6000001ea 0x2242 0 no 0x2ce500002dc1,
  dr 0x23b0000023d 0x210320002103a 0x230e 0 0x2dc1 0,
  dr 0x23b0000023d 0x2103a00021042 0x230f 0 0x2dc2 0,
  dr 0x23f00000249 0x2104200021047 0x2310 0 no 0x2dc300002dc6,
  dr 0x23f00000249 0x2105c00021064 0x2312 0 no 0x2dc600002dc7,
  dr 0x23f00000249 0x2106400021069 0x2313 0 no 0x2dc700002dd4,
  dr 0x23f00000249 0x210c9000210d4 0x2318 0 0x2dd4 0,
  dr 0x23f00000249 0x210d4000210dc 0x2319 0 no 0x2dd500002dd9,
  dr 0x23f00000249 0x154c3000154c8 0x231e 0 no 0x2dd900002de5,
  dr 0x23b0000023d 0x211a3000211a9 0x2327 0 0x2de5 0,
  dr 0x23f00000249 0x211af000211b8 0x2328 0 no 0x2de600002df4,
  dr 0x23f00000249 0x212b1000212bb 0x232b 0 no 0x2df400002dfa,
  dr 0x2a1000002a7 0x212ea000212f1 0x2332 0 0x2dfa 0,
  dr 0x23b0000023d 0x212fe00021306 0x2333 0 no 0x2dfb00002dfc,
  dr 0x23b0000023d 0x2130e00021315 0x2335 0 no 0x2dfc00002dfe,
  dr 0x23f00000249 0x2132000021326 0x2337 0 no 0x2dfe00002e00,
  dr 0x2a1000002a7 0x2132c00021332 0x233a 0 no 0x2e0000002e02,
  dr 0x23f00000249 0x213510002135b 0x233c 0 no 0x2e0200002e03,
  dr 0x23f00000249 0x2135b00021367 0x233e 0 no 0x2e0300002e06,
  dr 0x23f00000249 0x2136d00021372 0x2342 0 no 0x2e0600002e34,
  dr 0x23f00000249 0x2159100021596 0x234f 0 no 0x2e3400002e36,
  dr 0x23f00000249 0x215960002159b 0x2352 0 no 0x2e3600002e3b]

/-- `__dr_idx[3]`, from item 1500 on (device_repo.go:1538-2024). -/
def drIdx3_3 : List DeviceTuple := [
  dr 0x2a1000002a7 0x215a9000215b2 0x2358 0 no 0x2e3b00002e3d,
  dr 0x23f00000249 0x215b2000215b8 0x235b 0 no 0x2e3d00002e3f,
  dr 0x23f00000249 0x215b8000215be 0x235e 0 no 0x2e3f00002e42,
  dr 0x7cc000007d6 0x215da000215df 0x2361 0 no 0x2e4200002e45,
  dr 0x23f00000249 0x215f9000215fe 0x2364 0 no 0x2e4500002e4c,
  dr 0x2a1000002a7 0x2160c00021614 0x236c 0 0x2e4c 0,
  dr 0x23b0000023d 0x216140002161b 0x236d 0 no 0x2e4d00002e51,
  dr 0x23b0000023d 0x216320002163f 0x2372 0 no 0,
  dr 0x23b0000023d 0x2163f00021647 0x2373 0 0x2e51 0,
  dr 0x2a1000002a7 0x2164d00021657 0x2374 0 0x2e52 0,
  dr 0x23b0000023d 0x216570002165e 0x2375 0 no 0x2e5300002e55,
  dr 0x2a1000002a7 0x2167a00021682 0x2376 0 no 0x2e5500002e57,
  dr 0x23b0000023d 0x2168900021691 no 0x2168900021691 no 0x2e5700002e58,
  dr 0x23f00000249 0x216a5000216aa 0x2378 0 no 0x2e5800002e5a,
  dr 0x23f00000249 0x216aa000216b1 0x237b 0 0x2e5a 0,
  dr 0x23f00000249 0x216b1000216b6 0x237c 0 0x2e5b 0,
  dr 0x2a1000002a7 0x216bd000216c3 0x237d 0 no 0x2e5c00002e5e,
  dr 0x23b0000023d 0x216dc000216e1 0x237f 0 0x2e5e 0,
  dr 0x23f00000249 0x216e1000216e6 0x2380 0 no 0x2e5f00002e65,
  dr 0x23f00000249 0x2171d00021726 0x2384 0 0x2e65 0,
  dr 0x23f00000249 0x217260002172c 0x2385 0 0x2e66 0,
  dr 0x23f00000249 0x2173500021739 0x2386 0 no 0x2e6700002e68,
  dr 0x23f00000249 0x2173e00021746 0x2388 0 no 0x2e6800002e77,
  dr 0x2a1000002a7 0x217b3000217b8 0x2392 0 0x2e77 0,
  dr 0xc9b00000ca2 0x217b8000217c0 no 0x217b8000217c0 no 0x2e7800002e79,
  dr 0x23f00000249 0x217ca000217d2 0x2394 0 no 0x2e7900002e92,
  dr 0x23b0000023d 0x218f4000218f7 0x23a7 0 0x2e92 0,
  dr 0x23b0000023d 0x218f7000218fd no 0x218f7000218fd no 0x2e9300002e94,
  dr 0x2a1000002a7 0x218fd00021905 0x23a9 0 no 0x2e9400002e97,
  dr 0x23b0000023d 0x2192400021929 0x23ac 0 no 0,
  dr 0x2a1000002a7 0x2192900021931 0x23ad 0 no 0x2e9700002e98,
  dr 0x23f00000249 0x219390002193c 0x23af 0 no 0x2e9800002f11,
  dr 0x23b0000023d 0x21ca700021cb1 0x2413 0 0x2f11 0,
  dr 0x23f00000249 0x21cb100021cb8 0x2414 0 no 0x2f1200002f15,
  dr 0x23b0000023d 0x21cd600021cdf 0x2415 0 no 0x2f1500002f17,
  dr 0x23f00000249 0x21cee00021cf3 no 0x21cee00021cf3 no 0x2f1700002f18,
  dr 0x2a1000002a7 0x21cf300021cfa 0x2418 0 0x2f18 0,
  dr 0x23f00000249 0x21cfa00021cfe 0x2419 0 0x2f19 0,
  dr 0x39a000003a7 0x21cfe00021d04 no 0x21cfe00021d04 no 0x2f1a00002f1c,
  dr 0x23b0000023d 0x21d0400021d0d 0x241c 0 0x2f1c 0,
  dr 0x2a1000002a7 0x21d0d00021d10 0x241d 0 0x2f1d 0,
  dr 0x2a1000002a7 0x21d1f00021d22 0x241e 0 0x2f1e 0,
  dr 0x23f00000249 0x21d2200021d27 0x241f 0 no 0x2f1f00002f20,
  dr 0x7cc000007d6 0x21d2700021d2d 0x2421 0 0x2f20 0,
  dr 0x2a1000002a7 0x21d2d00021d35 0x2422 0 0x2f21 0,
  dr 0x23b0000023d 0x21d3500021d3c 0x2423 0 no 0x2f2200002f23,
  dr 0x2a1000002a7 0x21d3c00021d43 0x2425 0 no 0x2f2300002f25,
  dr 0x23b0000023d 0x21d4700021d4a no 0x21d4a00021d4e 0x2f25 0,
  dr 0x2a1000002a7 0x21d4e00021d52 0x2428 0 0x2f26 0,
  dr 0x23b0000023d 0x21d5200021d58 no 0x21d5800021d63 0x2f27 0,
  dr 0x23f00000249 0x21d6900021d6f no 0x21d6900021d6f no 0x2f2800002f29,
  dr 0x23b0000023d 0x9cbc00009cbf 0x242a 0 0x2f29 0,
  dr 0x23f00000249 0x21d7300021d76 0x242b 0 0x2f2a 0,
  dr 0x23f00000249 0x21d8400021d87 0x242c 0 no 0x2f2b00002f2e,
  dr 0x23f00000249 0x21d9c00021dab 0x2430 0 no 0x2f2e00002f31,
  dr 0x2a1000002a7 0x21dbf00021dc2 0x2433 0 0x2f31 0,
  dr 0x23f00000249 0x21dc200021dce 0x2434 0 0x2f32 0,
  dr 0x2a1000002a7 0x21dda00021de0 0x2435 0 0x2f33 0,
  dr 0x23f00000249 0x21de000021de6 0x2436 0 0x2f34 0,
  dr 0x23f00000249 0x21de600021deb 0x2437 0 0x2f35 0,
  dr 0x23b0000023d 0x21deb00021df0 0x2438 0 no 0x2f3600002f3b,
  dr 0x7cc000007d6 0x21e0c00021e16 0x243d 0 no 0x2f3b00002f3c,
  dr 0x23f00000249 0x21e1600021e1c 0x243f 0 0x2f3c 0,
  dr 0x2a1000002a7 0x21e2400021e2b 0x2440 0 no 0x2f3d00002f4b,
  dr 0x23f00000249 0x21ea000021ea8 0x2449 0 no 0x2f4b00002f4c,
  dr 0x23f00000249 0x21eb400021ebd 0x244b 0 0x2f4c 0,
  dr 0x2a1000002a7 0x21eca00021ed2 0x244c 0 no 0x2f4d00002f4f,
  dr 0x23b0000023d 0x21eec00021ef5 0x244f 0 0x2f4f 0,
  dr 0x23b0000023d 0x21efe00021f06 no 0x21efe00021f06 no 0,
  dr 0x2a1000002a7 0x21f0600021f0d 0x2450 0 no 0x2f5000002f81,
  dr 0x23f00000249 0x2207700022083 0x246c 0 no 0x2f8100003048,
  dr 0x23f00000249 0x2281100022818 0x252f 0 no 0x30480000304a,
  dr 0x23f00000249 0x228360002283b 0x2531 0 no 0x304a0000304f,
  dr 0x2a1000002a7 0x2284900022853 0x2537 0 no 0x304f00003059,
  dr 0x23f00000249 0x228b9000228bf 0x253d 0 no 0x30590000305d,
  dr 0x23f00000249 0x228f3000228fa 0x253f 0 no 0x305d0000305f,
  dr 0x23b0000023d 0x228fa000228ff no 0x228fa000228ff no 0x305f00003061,
  dr 0x39a000003a7 0x2291b00022920 no 0x2291b00022920 no 0x306100003063,
  dr 0x23b0000023d 0x2292000022926 0x2544 0 0x3063 0,
  dr 0x23b0000023d 0x229260002292b no 0x2292b00022931 no 0x306400003065,
  dr 0x23f00000249 0x229370002293c 0x2545 0 no 0x30650000306e,
  dr 0x23f00000249 0x229a6000229b1 0x254b 0 no 0x306e00003070,
  dr 0x7cc000007d6 0x229b8000229bd 0x254d 0 no 0x307000003071,
  dr 0x2a1000002a7 0x229c2000229cc 0x254f 0 0x3071 0,
  dr 0x23f00000249 0x229d1000229d9 no 0x229d1000229d9 no 0x307200003073,
  dr 0x2a1000002a7 0x229d9000229de 0x2551 0 0x3073 0,
  dr 0x2a1000002a7 0x229e6000229eb 0x2552 0 no 0x307400003076,
  dr 0x2a1000002a7 0x229fb00022a03 0x2555 0 0x3076 0,
  dr 0x23f00000249 0x22a0d00022a10 0x2556 0 no 0x30770000307e,
  dr 0x2a1000002a7 0x22a2600022a2d 0x255d 0 no 0x307e00003092,
  dr 0x23f00000249 0x22af200022af9 0x256a 0 0x3092 0,
  dr 0x23f00000249 0x22af900022b00 0x256b 0 0x3093 0,
  dr 0x23b0000023d 0x22b0000022b04 0x256c 0 no 0x309400003098,
  dr 0x2a1000002a7 0x22b2100022b27 0x256f 0 no 0x30980000309a,
  dr 0x23f00000249 0x22b3300022b39 0x2572 0 no 0x309a0000309d,
  dr 0x2a1000002a7 0x22b5400022b59 0x2576 0 0x309d 0,
  dr 0x23f00000249 0x22b6100022b67 0x2577 0 no 0x309e000030ac,
  dr 0x23f00000249 0x22c2600022c2b 0x257d 0 0x30ac 0,
  dr 0x23f00000249 0x22c2b00022c30 0x257e 0 0x30ad 0,
  dr 0x2a1000002a7 0x22c3000022c35 0x257f 0 0x30ae 0,
  dr 0x2a1000002a7 0x22c3500022c3b 0x2580 0 0x30af 0,
  dr 0x23f00000249 0x22c4800022c4c 0x2581 0 0x30b0 0,
  dr 0x23f00000249 0x22c4c00022c51 no 0x22c5100022c56 no 0x30b1000030b3,
  dr 0x23f00000249 0x22c5d00022c66 0x2584 0 no 0x30b3000030b7,
  dr 0x23b0000023d 0x22c9700022ca0 0x2585 0 no 0x30b7000030bd,
  dr 0x2a1000002a7 0x22cd800022ce1 0x2587 0 0x30bd 0,
  dr 0x39a000003a7 0x22cf300022cf9 0x2588 0 0x30be 0,
  dr 0x23b0000023d 0x22cf900022d00 0x2589 0 0x30bf 0,
  dr 0x2a1000002a7 0x22d0400022d09 0x258a 0 no 0x30c0000030c5,
  dr 0x23f00000249 0x10c5100010c57 0x258f 0 no 0x30c5000030cc,
  dr 0x23f00000249 0x22d7300022d7a 0x2593 0 no 0x30cc000030e8,
  dr 0x2a1000002a7 0x22ec200022ecc 0x25a1 0 0x30e8 0,
  dr 0x23f00000249 0x22ecc00022ed5 0x25a2 0 no 0x30e9000030ee,
  dr 0x23b0000023d 0x22f0c00022f15 0x25a6 0 no 0x30ee000030f0,
  dr 0x23f00000249 0x22f2300022f2b 0x25a9 0 0x30f0 0,
  dr 0x2a1000002a7 0x22f3500022f3d 0x25aa 0 no 0x30f1000030fb,
  dr 0x2a1000002a7 0x22fd100022fd6 0x25b1 0 no 0x30fb00003108,
  dr 0x23b0000023d 0x230730002307b 0x25be 0 0x3108 0,
  dr 0x23b0000023d 0x2307b00023083 0x25bf 0 0x3109 0,
  dr 0x23f00000249 0x230830002308a 0x25c0 0 0x310a 0,
  dr 0x23f00000249 0x2308a00023091 0x25c1 0 no 0x310b0000310e,
  dr 0x23f00000249 0x230d3000230da no 0x230da000230e6 no 0x310e0000310f,
  dr 0x23f00000249 0x230f5000230f9 0x25c3 0 0x310f 0,
  dr 0x23b0000023d 0x230fe00023107 0x25c4 0 0x3110 0,
  dr 0x23f00000249 0x231070002310b 0x25c5 0 no 0x311100003125,
  dr 0x23f00000249 0x232d5000232de 0x25d2 0 0x3125 0,
  dr 0x23f00000249 0x232de000232e3 0x25d3 0 0x3126 0,
  dr 0x23f00000249 0x232e3000232f2 0x25d4 0 0x3127 0,
  dr 0x23f00000249 0x9fef00009ff4 0x25d5 0 no 0x312800003130,
  dr 0x23f00000249 0x233340002333b 0x25de 0 no 0x31300000314b,
  dr 0x2a1000002a7 0x2345d00023466 0x25f0 0 no 0x314b0000314f,
  dr 0x2a1000002a7 0x2348a00023492 0x25f4 0 0x314f 0,
  dr 0x23f00000249 0x234920002349a 0x25f5 0 no 0x315000003155,
  dr 0x23b0000023d 0x234c4000234c9 0x25fb 0 0x3155 0,
  dr 0x2a1000002a7 0x234c9000234d0 0x25fc 0 no 0x315600003158,
  dr 0x23f00000249 0x234d0000234d5 0x25ff 0 0x3158 0,
  dr 0x23f00000249 0x234d5000234e2 no 0x234e2000234ee no 0x31590000315a,
  dr 0x23b0000023d 0x234f3000234fb 0x2601 0 0x315a 0,
  dr 0x23f00000249 0x234fb00023502 0x2602 0 no 0x315b0000315f,
  dr 0x23f00000249 0x2351b00023528 no 0x235280002352d no 0x315f00003161,
  dr 0x23b0000023d 0x235480002354a 0x2608 0 no 0x316100003164,
  dr 0x23b0000023d 0x235660002356b 0x260c 0 no 0x316400003165,
  dr 0x23f00000249 0x2356b00023572 0x260e 0 no 0x3165000031a2,
  dr 0x23f00000249 0x2375400023759 0x262b 0 no 0x31a2000031a4,
  dr 0x23f00000249 0x237590002375d 0x262e 0 no 0x31a4000031a5,
  dr 0x23f00000249 0x2375d00023763 no 0x2375d00023763 no 0x31a5000031a6,
  dr 0x23f00000249 0x2376300023767 0x2631 0 no 0x31a6000031aa,
  dr 0x39a000003a7 0x2377f00023788 0x2634 0 0x31aa 0,
  dr 0x23f00000249 0x237880002378d 0x2635 0 0x31ab 0,
  dr 0x23f00000249 0x2378d00023796 0x2636 0 0x31ac 0,
  dr 0x23b0000023d 0x237a0000237a5 0x2637 0 no 0x31ad000031b1,
  dr 0x23f00000249 0x237bf000237c4 0x263b 0 0x31b1 0,
  dr 0x23f00000249 0x237c4000237ca 0x263c 0 no 0x31b2000031b8,
  dr 0x23f00000249 0x237dc000237e3 0x2640 0 no 0x31b8000031e4,
  dr 0x2a1000002a7 0x2394c00023950 0x2663 0 no 0x31e4000031ef,
  dr 0x23f00000249 0x239fc00023a01 0x266e 0 no 0x31ef000031f0,
  dr 0x23b0000023d 0x23a1900023a25 0x266f 0 no 0x31f0000031f2,
  dr 0x23f00000249 0x23a4900023a4f 0x2670 0 0x31f2 0,
  dr 0x23f00000249 0x23a4f00023a57 0x2671 0 no 0x31f300003204,
  dr 0x23f00000249 0x23b2a00023b3e 0x2677 0 0x3204 0,
  dr 0x23f00000249 0x23b4500023b4b 0x2678 0 0x3205 0,
  dr 0x23f00000249 0x23b5200023b5a 0x2679 0 no 0x320600003208,
  dr 0x23f00000249 0x23b5c00023b64 no 0x23b5c00023b64 no 0x32080000320a,
  dr 0x23f00000249 0x23b6400023b6d 0x267e 0 0x320a 0,
  dr 0x23f00000249 0x23b6d00023b74 0x267f 0 no 0x320b0000320d,
  dr 0x23b0000023d 0x23b7e00023b8a 0x2682 0 no 0x320d0000320f,
  dr 0x23f00000249 0x23bc700023bce 0x2683 0 no 0x320f0000321b,
  dr 0x23f00000249 0x23c1400023c1b 0x268f 0 no 0x321b00003226,
  dr 0x23f00000249 0x23c8c00023c9f 0x2690 0 no 0x322600003227,
  dr 0x23f00000249 0x23ca200023caa 0x2692 0 no 0x32270000322a,
  dr 0x23f00000249 0x23cc200023cc7 0x2693 0 no 0x322a0000322d,
  dr 0x2a1000002a7 0x23cc700023ccd 0x2697 0 no 0x322d0000322f,
  dr 0x2a1000002a7 0x23cd900023cde 0x2699 0 no 0x322f00003230,
  dr 0x23f00000249 0x23cde00023ce3 0x269b 0 0x3230 0,
  dr 0x23b0000023d 0x23ce300023ce9 0x269c 0 0x3231 0,
  dr 0x23f00000249 0x23ce900023cef 0x269d 0 0x3232 0,
  dr 0x2a1000002a7 0x1202300012025 0x269e 0 0x3233 0,
  dr 0x23f00000249 0x23cef00023cf3 0x269f 0 no 0x323400003236,
  dr 0x2a1000002a7 0x23d0000023d04 0x26a1 0 no 0x323600003237,
  dr 0x2a1000002a7 0x23d0c00023d11 no 0x23d1100023d1a 0x3237 0,
  dr 0x2a1000002a7 0x23d2300023d2a no 0x23d2a00023d35 0x3238 0,
  dr 0x2a1000002a7 0x23d4100023d47 0x26a3 0 0x3239 0,
  dr 0x2a1000002a7 0x23d4700023d4d 0x26a4 0 no 0x323a0000323b,
  dr 0x23f00000249 0x23d4d00023d51 0x26a6 0 0x323b 0,
  dr 0x23f00000249 0x23d5100023d53 0x26a7 0 no 0x323c0000323f,
  dr 0x23f00000249 0x23d6c00023d70 0x26aa 0 0x323f 0,
  dr 0x23f00000249 0x23d7000023d74 0x26ab 0 no 0x324000003243,
  dr 0x23f00000249 0x23d7400023d79 0x26af 0 0x3243 0,
  dr 0x23f00000249 0x23d7900023d80 0x26b0 0 no 0x32440000324a,
  dr 0x23f00000249 0x23db300023db7 0x26b4 0 no 0x324a0000324c,
  dr 0x23f00000249 0x23db700023dbd 0x26b7 0 no 0x324c0000324d,
  dr 0x2a1000002a7 0x23dc900023dd0 0x26b8 0 no 0x324d0000324f,
  dr 0x23f00000249 0x23dd000023dd7 0x26bb 0 no 0x324f00003254,
  dr 0x23f00000249 0x23dff00023e04 no 0x23dff00023e04 no 0x325400003257,
  dr 0x23b0000023d 0x23e0c00023e16 0x26c0 0 0x3257 0,
  dr 0x2a1000002a7 0x23e1600023e1e 0x26c1 0 0x3258 0,
  dr 0x23f00000249 0x23e1e00023e22 0x26c2 0 no 0x32590000325e,
  dr 0x39a000003a7 0x23e7900023e82 0x26c4 0 0x325e 0,
  dr 0x23f00000249 0x23e8600023e8d 0x26c5 0 no 0x325f00003263,
  dr 0x2a1000002a7 0x23e9200023ea1 0x26ca 0 0x3263 0,
  dr 0x23f00000249 0x23ea900023eae 0x26cb 0 0x3264 0,
  dr 0x23f00000249 0x23eae00023eb2 0x26cc 0 no 0x326500003266,
  dr 0x23f00000249 0x23ebd00023ec1 0x26cd 0 0x3266 0,
  dr 0x23b0000023d 0x23ec100023ec6 0x26ce 0 0x3267 0,
  dr 0x2a1000002a7 0x23ec600023ecd 0x26cf 0 0x3268 0,
  dr 0x2a1000002a7 0x23ecd00023ed6 no 0x23ed600023edd no 0x32690000326a,
  dr 0x23f00000249 0x23edd00023ee4 0x26d1 0 0x326a 0,
  dr 0x2a1000002a7 0x23ee600023eec 0x26d2 0 no 0x326b0000326f,
  dr 0x23f00000249 0x23f2000023f25 0x26d6 0 no 0x326f00003270,
  dr 0x2a1000002a7 0x23f2500023f2d 0x26d8 0 no 0x327000003272,
  dr 0x2a1000002a7 0x12dc400012dc8 0x26db 0 0x3272 0,
  dr 0x2a1000002a7 0x23f3a00023f40 no 0x23f4000023f46 no 0x327300003274,
  dr 0x23b0000023d 0x23f4600023f4b 0x26dd 0 0x3274 0,
  dr 0x23f00000249 0x23f4b00023f50 0x26de 0 no 0x327500003277,
  dr 0x2a1000002a7 0x23f5a00023f61 0x26e1 0 0x3277 0,
  dr 0x2a1000002a7 0x23f6100023f69 0x26e2 0 no 0x32780000327b,
  dr 0x2a1000002a7 0x23f9000023f96 0x26e6 0 no 0x327b0000327d,
  dr 0x2a1000002a7 0x23fad00023fb4 0x26e9 0 no 0x327d00003284,
  dr 0x23f00000249 0x240390002403f 0x26ec 0 no 0x328400003290,
  dr 0x2a1000002a7 0x240850002408c 0x26f2 0 0x3290 0,
  dr 0x2a1000002a7 0x240970002409d 0x26f3 0 0x3291 0,
  dr 0x23f00000249 0x2409d000240a3 0x26f4 0 no 0x32920000329e,
  dr 0x39a000003a7 0x2411100024116 0x2701 0 no 0x329e000032a5,
  dr 0x23f00000249 0x241830002418b no 0x2418b00024193 no 0x32a5000032d0,
  dr 0x23b0000023d 0x242c4000242c9 0x272f 0 no 0x32d0000032d2,
  dr 0x23f00000249 0x242f8000242fe 0x2730 0 no 0x32d2000032eb,
  dr 0x2a1000002a7 0x2445400024459 0x273c 0 no 0x32eb000032ed,
  dr 0x23b0000023d 0x244780002447d 0x273e 0 0x32ed 0,
  dr 0x2a1000002a7 0x2447d00024485 0x273f 0 0x32ee 0,
  dr 0x23f00000249 0x2449000024498 0x2740 0 no 0x32ef000032ff,
  dr 0x23b0000023d 0x245370002453d 0x2750 0 0x32ff 0,
  dr 0x62600000633 0x2453d00024546 0x2751 0 no 0x330000003307,
  dr 0x23b0000023d 0x245930002459a no 0x245930002459a no 0x33070000330a,
  dr 0x23b0000023d 0x245a2000245a7 0x275b 0 no 0x330a00003312,
  dr 0x23f00000249 0x2460a00024610 0x275d 0 0x3312 0,
  dr 0x23f00000249 0x2461000024614 0x275e 0 no 0x331300003316,
  dr 0x2a1000002a7 0x97e9000097ee 0x275f 0 0x3316 0,
  dr 0x23f00000249 0x2463100024636 0x2760 0 no 0x33170000331b,
  dr 0x23f00000249 0x2464200024647 0x2765 0 no 0x331b0000331d,
  dr 0x23b0000023d 0x2464b0002465c 0x2768 0 no 0x331d0000331f,
  dr 0x23f00000249 0x2466600024672 0x276b 0 no 0x331f00003321,
  dr 0x2a1000002a7 0x2468c00024697 0x276c 0 no 0x332100003324,
  dr 0x39a000003a7 0x246de000246e6 0x276f 0 no 0x332400003327,
  dr 0x2a1000002a7 0x246e6000246ec 0x2773 0 no 0x332700003328,
  dr 0x23b0000023d 0x2470100024707 0x2775 0 0x3328 0,
  dr 0x23f00000249 0x247070002470d 0x2776 0 no 0x33290000332f,
  dr 0x23f00000249 0x2472400024729 0x277c 0 no 0x332f0000333d,
  dr 0x23f00000249 0x247860002478a 0x278b 0 no 0x333d00003535,
  dr 0x23b0000023d 0x2574300025748 0x28c1 0 no 0x35350000353c,
  dr 0x2a1000002a7 0x2575c00025761 0x28c6 0 no 0x353c0000353e,
  dr 0x2a1000002a7 0x257760002577d 0x28c9 0 no 0x353e00003540,
  dr 0x23f00000249 0x2578c00025794 0x28cb 0 no 0x354000003576,
  dr 0x23f00000249 0x25a8b00025a90 no 0x25a9000025a9b no 0x357600003577,
  dr 0x23f00000249 0x1156100011565 0x28e3 0 0x3577 0,
  dr 0x23f00000249 0x25a9b00025aa1 0x28e4 0 no 0x357800003594,
  dr 0x23b0000023d 0x25b9900025b9f 0x28fd 0 no 0x35940000359c,
  dr 0x23f00000249 0x25bd400025bda 0x2906 0 no 0x359c0000359e,
  dr 0x2a1000002a7 0x25be200025be8 0x2908 0 no 0x359e000035a4,
  dr 0x23b0000023d 0x25c5b00025c60 0x2909 0 0x35a4 0,
  dr 0x7cc000007d6 0x25c6000025c66 0x290a 0 0x35a5 0,
  dr 0x23f00000249 0xe93d0000e943 0x290b 0 no 0x35a6000035b1,
  dr 0x23f00000249 0x25cc300025cc7 0x2913 0 no 0x35b1000035b4,
  dr 0x39a000003a7 0x25cc700025ccd 0x2917 0 0x35b4 0,
  dr 0x2a1000002a7 0x25ccd00025cd1 0x2918 0 no 0x35b5000035b8,
  dr 0x23f00000249 0x25cd700025cdd 0x291c 0 no 0x35b8000035c3,
  dr 0x23f00000249 0x25d2a00025d2e 0x2925 0 no 0x35c3000035cd,
  dr 0x2a1000002a7 0x25d9700025da0 0x292c 0 0x35cd 0,
  dr 0x23f00000249 0xe96b0000e971 0x292d 0 no 0x35ce000035d1,
  dr 0x23f00000249 0x25db200025db9 0x2931 0 no 0x35d1000035d2,
  dr 0x2b1e00002b26 0x25dc200025dc5 0x2933 0 no 0x35d2000035d8,
  dr 0x2a1000002a7 0x25e0100025e04 0x2937 0 0x35d8 0,
  dr 0x23b0000023d 0x25e0400025e09 0x2938 0 no 0x35d9000035db,
  dr 0x23f00000249 0x25e0900025e0b 0x293b 0 0x35db 0,
  dr 0x23b0000023d 0x25e0b00025e0f 0x293c 0 0x35dc 0,
  dr 0x2a1000002a7 0x25e1e00025e25 0x293d 0 0x35dd 0,
  dr 0x2a1000002a7 0x25e2500025e27 0x293e 0 0x35de 0,
  dr 0x2a1000002a7 0x25e2700025e2e 0x293f 0 0x35df 0,
  dr 0x23b0000023d 0x25e2e00025e34 0x2940 0 no 0,
  dr 0x23f00000249 0x25e3400025e3a 0x2941 0 no 0x35e0000035f2,
  dr 0x2a1000002a7 0x25f2b00025f32 0x294e 0 0x35f2 0,
  dr 0x23b0000023d 0x25f3b00025f41 0x294f 0 0x35f3 0,
  dr 0x8e00000099 0x25f4100025f49 0x2950 0 0x35f4 0,
  dr 0x2a1000002a7 0x25f5100025f57 0x2951 0 0x35f5 0,
  dr 0x2a1000002a7 0x25f5700025f60 0x2952 0 no 0x35f6000035f7,
  dr 0x23f00000249 0x25f6000025f66 0x2954 0 no 0x35f7000035f8,
  dr 0x23f00000249 0x25f7700025f7d 0x2955 0 no 0x35f8000035fa,
  dr 0x23f00000249 0x25f9f00025fa6 0x2956 0 0x35fa 0,
  dr 0x23b0000023d 0x25fa600025fb5 0x2957 0 no 0x35fb000035fc,
  dr 0x23b0000023d 0x25fd000025fd6 0x2958 0 0x35fc 0,
  dr 0x23b0000023d 0x25fd600025fdf 0x2959 0 no 0x35fd000035fe,
  dr 0x2a1000002a7 0x25fdf00025fe5 0x295b 0 no 0x35fe00003607,
  dr 0x2a1000002a7 0x2601400026019 0x2965 0 0x3607 0,
  dr 0x23f00000249 0x260190002601f 0x2966 0 0x3608 0,
  dr 0x23f00000249 0x2601f00026024 0x2967 0 no 0x36090000360b,
  dr 0x23f00000249 0x2602400026028 0x296a 0 no 0x360b0000368a,
  dr 0x23b0000023d 0x264780002647f 0x29ca 0 0x368a 0,
  dr 0x23f00000249 0x2647f00026487 0x29cb 0 no 0x368b00003693,
  dr 0x23f00000249 0x264bf000264c4 0x29d2 0 no 0x369300003694,
  dr 0x23f00000249 0x264dc000264e0 0x29d3 0 no 0x369400003699,
  dr 0x23f00000249 0x2650c00026512 0x29d7 0 no 0x36990000369e,
  dr 0x2a1000002a7 0x265330002653a 0x29db 0 no 0x369e000036a3,
  dr 0x23f00000249 0x265440002654b 0x29e1 0 no 0x36a3000036a4,
  dr 0x2a1000002a7 0x2654b00026553 no 0x2655300026557 0x36a4 0,
  dr 0x7cc000007d6 0x265570002655e 0x29e3 0 0x36a5 0,
  dr 0x7cc000007d6 0x2655e00026566 0x29e4 0 0x36a6 0,
  dr 0x23f00000249 0x265660002656c 0x29e5 0 no 0x36a7000036ad,
  dr 0x23f00000249 0x265a4000265ac 0x29ec 0 0x36ad 0,
  dr 0x23f00000249 0x265b3000265b8 0x29ed 0 no 0x36ae000036b4,
  dr 0x39a000003a7 0x2660400026608 0x29ee 0 0x36b4 0,
  dr 0x23f00000249 0x266080002660b 0x29ef 0 no 0x36b5000036b7,
  dr 0x2a1000002a7 0x2663b00026641 0x29f0 0 no 0x36b7000036bc,
  dr 0x23f00000249 0x266570002665c 0x29f6 0 0x36bc 0,
  dr 0x23f00000249 0x2666300026667 0x29f7 0 0x36bd 0,
  dr 0x23f00000249 0x266670002666f 0x29f8 0 no 0x36be000036c1,
  dr 0x23f00000249 0x2668c00026692 0x29fa 0 no 0x36c1000036d4,
  dr 0x23f00000249 0x2677f00026785 0x2a07 0 no 0x36d4000036dc,
  dr 0x23b0000023d 0x268290002682c no 0x2682c00026834 0x36dc 0,
  dr 0x23b0000023d 0x2683a0002683d 0x2a0a 0 no 0x36dd000036e4,
  dr 0x23b0000023d 0x268b1000268b5 0x2a0d 0 no 0,
  dr 0x2a1000002a7 0x268b5000268b7 0x2a0e 0 0x36e4 0,
  dr 0x23f00000249 0x268b7000268bb 0x2a0f 0 no 0x36e5000036e7,
  dr 0x23f00000249 0x268c1000268ca 0x2a12 0 0x36e7 0,
  dr 0x23b0000023d 0x268ca000268ce 0x2a13 0 no 0x36e8000036e9,
  dr 0x7cc000007d6 0x268ce000268d3 0x2a15 0 no 0x36e9000036eb,
  dr 0x2a1000002a7 0x268eb000268f0 0x2a16 0 0x36eb 0,
  dr 0x23f00000249 0x2690100026906 0x2a17 0 no 0x36ec000036ed,
  dr 0x8e00000099 0x269130002691a 0x2a18 0 0x36ed 0,
  dr 0x23f00000249 0x2691a0002691f 0x2a19 0 0x36ee 0,
  dr 0x23b0000023d 0x2691f00026927 0x2a1a 0 0x36ef 0,
  dr 0x23f00000249 0x269270002692c 0x2a1b 0 no 0x36f0000036f6,
  dr 0x62600000633 0x269460002694c 0x2a20 0 0x36f6 0,
  dr 0x23f00000249 0x2694c00026956 0x2a21 0 no 0x36f700003700,
  dr 0x23f00000249 0x269a7000269ad 0x2a2b 0 no 0x370000003870,
  dr 0x23f00000249 0x27baa00027bae 0x2b67 0 no 0x387000003871,
  dr 0x23f00000249 0x27bb200027bb6 0x2b69 0 no 0x38710000387b,
  dr 0x2a1000002a7 0x27bed00027bf1 0x2b74 0 no 0x387b00003880,
  dr 0x23f00000249 0x27c2700027c2e 0x2b7a 0 0x3880 0,
  dr 0x23f00000249 0x27c2e00027c34 0x2b7b 0 no 0x388100003883,
  dr 0x23f00000249 0x27c4000027c46 0x2b7d 0 no 0x388300003887,
  dr 0x23f00000249 0x27c5f00027c67 0x2b81 0 no 0x38870000388b,
  dr 0x2a1000002a7 0x27c9800027c9d 0x2b83 0 0x388b 0,
  dr 0x23b0000023d 0x27ca400027ca9 no 0x27ca900027caf no 0x388c0000388f,
  dr 0x2a1000002a7 0x27cbd00027cc6 0x2b87 0 0x388f 0,
  dr 0x23f00000249 0x27cc600027ccb 0x2b88 0 no 0x389000003891,
  dr 0x2a1000002a7 0x27cdf00027ce5 0x2b89 0 0x3891 0,
  dr 0x2a1000002a7 0x27cef00027cf5 0x2b8a 0 no 0x389200003894,
  dr 0x23f00000249 0x27cf500027cfb 0x2b8d 0 0x3894 0,
  dr 0x23f00000249 0x27cfb00027cff 0x2b8e 0 no 0x38950000389c,
  dr 0x2a1000002a7 0x27d6300027d69 0x2b91 0 no 0x389c0000389e,
  dr 0x23b0000023d 0x27d6d00027d73 0x2b93 0 0x389e 0,
  dr 0x23f00000249 0x27d7300027d79 0x2b94 0 no 0x389f000038a4,
  dr 0x2a1000002a7 0x27dcd00027dd3 0x2b98 0 no 0x38a4000038b4,
  dr 0x23f00000249 0x27ede00027ee1 0x2b9c 0 no 0x38b4000038b8,
  dr 0x23f00000249 0x27f1000027f16 0x2b9e 0 no 0x38b8000038ba,
  dr 0x23f00000249 0x27f1600027f1a 0x2ba1 0 no 0x38ba000038cc,
  dr 0x23b0000023d 0x27fde00027fe5 0x2ba9 0 0x38cc 0,
  dr 0x2a1000002a7 0x27fec00027ff0 0x2baa 0 0x38cd 0,
  dr 0x23f00000249 0x27ff000027ff4 0x2bab 0 no 0x38ce000038d0,
  dr 0x23b0000023d 0x2800000028005 0x2bae 0 no 0x38d0000038d1,
  dr 0x23b0000023d 0x2800c00028012 0x2bb0 0 no 0x38d1000038d3,
  dr 0x23f00000249 0x280290002802e 0x2bb2 0 no 0x38d3000038d5,
  dr 0x23f00000249 0x2802e00028030 0x2bb5 0 no 0x38d5000038e0,
  dr 0x2a1000002a7 0x280ac000280b3 0x2bb9 0 no 0x38e0000038e1,
  dr 0x23f00000249 0x280b3000280ba 0x2bbb 0 no 0x38e1000038e2,
  dr 0x23b0000023d 0x1327400013278 0x2bbd 0 no 0x38e2000038e4,
  dr 0x23f00000249 0x280d1000280d6 0x2bc0 0 no 0x38e4000038e7,
  dr 0x23f00000249 0x280db000280e0 0x2bc3 0 0x38e7 0,
  dr 0x2a1000002a7 0x280e0000280e5 0x2bc4 0 0x38e8 0,
  dr 0x23b0000023d 0x280e5000280e9 0x2bc5 0 0x38e9 0,
  dr 0x23f00000249 0x280e9000280ed 0x2bc6 0 no 0x38ea00003902,
  dr 0x23b0000023d 0x2824200028249 0x2bdc 0 0x3902 0,
  dr 0x2a1000002a7 0x282490002824e 0x2bdd 0 no 0x390300003904,
  dr 0x2a1000002a7 0x2824e00028251 0x2bdf 0 0x3904 0,
  dr 0x2a1000002a7 0x2825100028256 0x2be0 0 0x3905 0,
  dr 0x23f00000249 0x2825600028259 0x2be1 0 no 0x390600003a34,
  dr 0x23f00000249 0x28ff000028ff3 0x2cab 0 no 0x3a3400003a55,
  dr 0x2a1000002a7 0x2911e00029121 0x2cbd 0 0x3a55 0,
  dr 0x2a1000002a7 0x2912100029126 0x2cbe 0 0x3a56 0,
  dr 0x2a1000002a7 0x291260002912d 0x2cbf 0 0x3a57 0,
  dr 0x23f00000249 0x2912d00029132 0x2cc0 0 no 0x3a5800003a5e,
  dr 0x23b0000023d 0x291850002918b 0x2cc3 0 0x3a5e 0,
  dr 0x2b1e00002b26 0x2918b00029192 0x2cc4 0 no 0x3a5f00003a61,
  dr 0x23f00000249 0x291a9000291ae 0x2cc6 0 no 0x3a6100003a65,
  dr 0x23f00000249 0x291ae000291b4 no 0x291b4000291ba no 0x3a6500003a66,
  dr 0x23f00000249 0x291ba000291bf 0x2ccc 0 no 0x3a6600003a68,
  dr 0x23f00000249 0x291bf000291c2 0x2ccf 0 no 0x3a6800003a77,
  dr 0x23f00000249 0x292760002927b 0x2cde 0 no 0x3a7700003a7c,
  dr 0x2a1000002a7 0x292b0000292b9 0x2cdf 0 no 0x3a7c00003a7d,
  dr 0x2a1000002a7 0x292c3000292c9 0x2ce1 0 0x3a7d 0,
  dr 0x2a1000002a7 0x292cd000292dc 0x2ce2 0 no 0x3a7e00003a7f,
  dr 0x23b0000023d 0x292dc000292e1 0x2ce4 0 0x3a7f 0,
  dr 0x23f00000249 0x292e1000292e5 0x2ce5 0 no 0x3a8000003a81,
  dr 0x2a1000002a7 0x292f2000292f7 0x2ce6 0 no 0x3a8100003a83,
  dr 0x23f00000249 0x2933000029334 0x2ce7 0 no 0x3a8300003a89,
  dr 0x39a000003a7 0x293680002936d 0x2ced 0 no 0x3a8900003a8b,
  dr 0x2a1000002a7 0x293770002937c 0x2cef 0 no 0x3a8b00003a8c,
  dr 0x23f00000249 0x150c8000150cc 0x2cf1 0 0x3a8c 0,
  dr 0x23f00000249 0x2937c00029385 0x2cf2 0 0x3a8d 0,
  dr 0x23f00000249 0x2938500029389 0x2cf3 0 no 0x3a8e00003aa8,
  dr 0x23f00000249 0x2943d00029441 0x2d0e 0 no 0x3aa800003ace,
  dr 0x2a1000002a7 0x296290002962d 0x2d1c 0 no 0x3ace00003ad3,
  dr 0x2a1000002a7 0x296350002963a no 0x2963a0002963f 0x3ad3 0,
  dr 0x7cc000007d6 0x2963f00029649 no 0x2964900029653 no 0x3ad400003ad5,
  dr 0x23b0000023d 0x296530002965a 0x2d23 0 0x3ad5 0,
  dr 0x23b0000023d 0x296630002966b 0x2d24 0 0x3ad6 0,
  dr 0x23f00000249 0x2966b00029671 0x2d25 0 no 0x3ad700003ada,
  dr 0x2a1000002a7 0x296820002968b 0x2d27 0 0x3ada 0,
  dr 0x23b0000023d 0x2968b00029695 0x2d28 0 0x3adb 0,
  dr 0x23f00000249 0x2969500029698 0x2d29 0 0x3adc 0,
  dr 0x23f00000249 0x296a1000296a5 0x2d2a 0 no 0x3add00003ae2,
  dr 0x23f00000249 0x2970200029704 0x2d2c 0 no 0x3ae200003bb2,
  dr 0x23f00000249 0x29cc800029ccd 0x2de2 0 no 0x3bb200003bb4,
  dr 0x2a1000002a7 0x29ce800029ced 0x2de4 0 no 0x3bb400003bc0,
  dr 0x23f00000249 0x29dfd00029e03 0x2dea 0 0x3bc0 0,
  dr 0x23f00000249 0x29e0300029e07 0x2deb 0 0x3bc1 0,
  dr 0x23b0000023d 0x29e0700029e0d 0x2dec 0 no 0x3bc200003bc3,
  dr 0x23b0000023d 0x29e0d00029e11 0x2dee 0 no 0x3bc300003bc5,
  dr 0x2a1000002a7 0x29e3d00029e41 0x2def 0 0x3bc5 0,
  dr 0x23f00000249 0x29e4100029e49 0x2df0 0 no 0x3bc600003bc8,
  dr 0x23f00000249 0x29e6100029e66 0x2df2 0 no 0x3bc800003bd1,
  dr 0x39a000003a7 0x29ea700029ead 0x2dfc 0 0x3bd1 0,
  dr 0x39a000003a7 0x29ead00029eb5 0x2dfd 0 no 0x3bd200003bdc,
  dr 0x2a1000002a7 0x29efc00029f01 0x2e06 0 no 0x3bdc00003beb,
  dr 0x23f00000249 0x29fb800029fbe 0x2e11 0 no 0x3beb00003bed,
  dr 0x23f00000249 0x29fbe00029fc3 0x2e14 0 no 0x3bed00003bf7,
  dr 0x7cc000007d6 0x2a0110002a016 0x2e1c 0 no 0x3bf700003bf9,
  dr 0x2a1000002a7 0x2a0220002a027 0x2e1e 0 0x3bf9 0,
  dr 0x23f00000249 0x2a0310002a037 0x2e1f 0 no 0x3bfa00003bfd,
  dr 0x2a1000002a7 0x2a0580002a05c 0x2e21 0 0x3bfd 0,
  dr 0x2a1000002a7 0x2a05c0002a060 0x2e22 0 no 0x3bfe00003c01,
  dr 0x23b0000023d 0x2a0810002a08b 0x2e25 0 0x3c01 0,
  dr 0x23f00000249 0x2a0920002a097 0x2e26 0 no 0x3c0200003c29,
  dr 0x39a000003a7 0x2a3e90002a3ee 0x2e33 0 0x3c29 0,
  dr 0x2a1000002a7 0x2a3ee0002a3f2 0x2e34 0 0x3c2a 0,
  dr 0x2a1000002a7 0x2a3f20002a3f8 0x2e35 0 0x3c2b 0,
  dr 0x23f00000249 0x2a4030002a406 0x2e36 0 no 0x3c2c00003c2e,
  dr 0x23b0000023d 0x2a4060002a40b 0x2e39 0 0x3c2e 0,
  dr 0x2a1000002a7 0x2a40b0002a410 0x2e3a 0 no 0x3c2f00003c35,
  dr 0x23f00000249 0x2a4470002a44a 0x2e3f 0 no 0x3c3500003c39,
  dr 0x23f00000249 0x2a4780002a47c 0x2e42 0 0x3c39 0,
  dr 0x23f00000249 0x2a47c0002a481 0x2e43 0 no 0x3c3a00003c3d,
  dr 0x2a1000002a7 0x2a4b90002a4bd 0x2e44 0 no 0x3c3d00003c3f,
  dr 0x2a1000002a7 0x2a4c50002a4ca 0x2e47 0 0x3c3f 0,
  dr 0x2a1000002a7 0x2a4ca0002a4cf 0x2e48 0 no 0x3c4000003c41,
  dr 0x23f00000249 0x2a4df0002a4e3 0x2e49 0 no 0x3c4100003c47,
  dr 0x23f00000249 0x2a4fe0002a508 0x2e50 0 no 0x3c4700003c4a,
  dr 0x23f00000249 0x2a5260002a52c 0x2e51 0 no 0x3c4a00003c51,
  dr 0x23f00000249 0x2a55e0002a566 0x2e56 0 0x3c51 0,
  dr 0x23f00000249 0x2a5660002a56d no 0x2a56d0002a574 no 0x3c5200003c53,
  dr 0x23f00000249 0x2a5740002a578 0x2e58 0 no 0x3c5300003c6a,
  dr 0x23f00000249 0x2a6a90002a6ad 0x2e5f 0 no 0x3c6a00003c6c,
  dr 0x23f00000249 0x2a6ad0002a6b5 0x2e62 0 0x3c6c 0,
  dr 0x2a1000002a7 0x2a6bd0002a6c3 0x2e63 0 0x3c6d 0,
  dr 0x2a1000002a7 0x2a6c30002a6c8 0x2e64 0 no 0x3c6e00003c71,
  dr 0x2a1000002a7 0x2a6d10002a6d6 0x2e68 0 no 0x3c7100003c73,
  dr 0x23f00000249 0x2a6d60002a6db 0x2e6b 0 no 0x3c7300003c7b,
  dr 0x23f00000249 0x2a6f50002a701 0x2e74 0 no 0x3c7b00003c7d,
  dr 0x23f00000249 0x2a7060002a70b 0x2e77 0 0x3c7d 0,
  dr 0x23f00000249 0x2a70b0002a70f 0x2e78 0 no 0x3c7e00003ce6,
  dr 0x23f00000249 0x2aa900002aa96 0x2e8f 0 0x3ce6 0,
  dr 0x23f00000249 0x2aa9d0002aaa0 0x2e90 0 no 0x3ce700003ce9,
  dr 0x2a1000002a7 0x2aaa80002aaad 0x2e93 0 no 0x3ce900003ceb,
  dr 0x23f00000249 0x2aac30002aac9 0x2e95 0 no 0x3ceb00003cf1,
  dr 0x23f00000249 0x2aafd0002ab05 0x2e99 0 no 0x3cf100003cf2,
  dr 0x2a1000002a7 0x2ab050002ab0b 0x2e9b 0 0x3cf2 0,
  dr 0x23f00000249 0x2ab0b0002ab0f 0x2e9c 0 0x3cf3 0,
  dr 0x2a1000002a7 0x2ab0f0002ab16 0x2e9d 0 no 0x3cf400003cf6,
  dr 0x2a1000002a7 0x2ab2f0002ab35 0x2ea0 0 0x3cf6 0,
  dr 0x23f00000249 0x2ab350002ab3a 0x2ea1 0 no 0x3cf700003cf8,
  dr 0x23f00000249 0x2ab480002ab4c 0x2ea3 0 no 0x3cf800003cfb,
  dr 0x2a1000002a7 0x2ab690002ab6f no 0x2ab6f0002ab75 no 0,
  dr 0x23f00000249 0x2ab750002ab7b 0x2ea6 0 0x3cfb 0,
  dr 0x23f00000249 0x2ab7b0002ab81 0x2ea7 0 no 0x3cfc00003d00,
  dr 0x23f00000249 0x2ab950002ab99 0x2eab 0 0x3d00 0,
  dr 0x23b0000023d 0x2ab990002aba1 0x2eac 0 0x3d01 0,
  dr 0x23f00000249 0x2aba10002abad 0x2ead 0 no 0x3d0200003d1d,
  dr 0x2a1000002a7 0x2ad410002ad45 0x2ebe 0 0x3d1d 0,
  dr 0x2a1000002a7 0x2ad450002ad4c 0x2ebf 0 no 0x3d1e00003d22,
  dr 0x2a1000002a7 0x2ad5b0002ad64 0x2ec4 0 no 0x3d2200003d23,
  dr 0x23b0000023d 0x2ad640002ad67 0x2ec6 0 no 0x3d2300003d25,
  dr 0x23f00000249 0x2ad840002ad8c 0x2ec7 0 0x3d25 0,
  dr 0x23f00000249 0x2ad8c0002ad93 0x2ec8 0 no 0x3d2600003d27,
  dr 0x23b0000023d 0x2adb00002adb6 0x2ec9 0 0x3d27 0,
  dr 0x2a1000002a7 0x2adb60002adbb 0x2eca 0 no 0x3d2800003d5b,
  dr 0x23f00000249 0x2b10c0002b114 0x2ede 0 no 0x3d5b00003d5d,
  dr 0x23b0000023d 0x2b11a0002b122 0x2ee1 0 0x3d5d 0,
  dr 0x23f00000249 0x2b12a0002b12e 0x2ee2 0 no 0x3d5e00003d67]

/-- `__dr_idx[3]` (device_repo.go). -/
def drIdx3 : List DeviceTuple := drIdx3_0 ++ drIdx3_1 ++ drIdx3_2 ++ drIdx3_3

/-- `__dr_idx[4]`, from item 0 on (device_repo.go:2028-2036). -/
def drIdx4_0 : List DeviceTuple := [
  dr 0xc9b00000ca2 0x9bd000009c1 0x2ee9 0 no 0x3d6700003d6a,
  dr 0xc9b00000ca2 0x2b18d0002b196 0x2eed 0 no 0x3d6a00003d6e,
  dr 0xc9b00000ca2 0x41190000411d 0x2ef2 0 no 0x3d6e00003d77,
  dr 0xc9b00000ca2 0x7dc400007dc8 0x2efc 0 no 0x3d7700003d7b,
  dr 0xc9b00000ca2 0xb7400000b742 0x2efd 0 no 0x3d7b00003d86,
  dr 0xc9b00000ca2 0x124970001249d 0x2f00 0 no 0x3d8600003d8a,
  dr 0xc9b00000ca2 0x1f7450001f74e 0x2f05 0 0x3d8a 0,
  dr 0xc9b00000ca2 0x22a2600022a2d 0x2f06 0 0x3d8b 0,
  dr 0xc9b00000ca2 0x22d7300022d7a no 0x2b43f0002b44e no 0x3d8c00003d8e]

/-- `__dr_idx[4]` (device_repo.go). -/
def drIdx4 : List DeviceTuple := drIdx4_0

/-- `__dr_idx[5]`, from item 0 on (device_repo.go:2040-2054). -/
def drIdx5_0 : List DeviceTuple := [
  dr 0xbf670000bf7c 0x2b0300002b08 0x2f09 0 no 0x3d8e00003d96,
  dr 0xbf670000bf7c 0x2b4ae0002b4b3 0x2f12 0 0x3d96 0,
  dr 0xbf670000bf7c 0x2b4b30002b4b9 0x2f13 0 0x3d97 0,
  dr 0xbf670000bf7c 0x2b4b90002b4c0 no 0x2b4b90002b4c0 no 0x3d9800003d99,
  dr 0xbf670000bf7c 0x2b4c00002b4c4 no 0x2b4c00002b4c4 no 0x3d9900003d9b,
  dr 0xbf670000bf7c 0x2b4d00002b4d5 0x2f16 0 0x3d9b 0,
  dr 0xbf670000bf7c 0x2b4d50002b4db no 0x2b4d50002b4db no 0x3d9c00003d9e,
  dr 0xbf670000bf7c 0x12f00000138 no 0x2b4db0002b4eb 0x3d9e 0,
  dr 0xbf670000bf7c 0x2b4f20002b4f8 0x2f19 0 no 0x3d9f00003da1,
  dr 0xbf670000bf7c 0x196ed000196f6 0x2f1b 0 0x3da1 0,
  dr 0xbf670000bf7c 0x180000001f 0x2f1c 0 no 0x3da200003da9,
  dr 0xbf670000bf7c 0x2b5a80002b5b0 no 0x2b5b00002b5bb no 0x3da900003daa,
  dr 0xbf670000bf7c 0x2b5bb0002b5c2 0x2f1f 0 0x3daa 0,
  dr 0xbf670000bf7c 0x2b5c20002b5ca 0x2f20 0 0x3dab 0,
  dr 0xbf670000bf7c 0x2b5ca0002b5ce 0x2f21 0 0x3dac 0]

/-- `__dr_idx[5]` (device_repo.go). -/
def drIdx5 : List DeviceTuple := drIdx5_0

/-- `__dr_idx[6]`, from item 0 on (device_repo.go:2058-2080). -/
def drIdx6_0 : List DeviceTuple := [
  dr 0x23b0000023d 0x2b5ce0002b5d3 no 0x2b5d30002b5de no 0,
  dr 0x23b0000023d 0x55a0000055e no 0x2b5de0002b5e8 no 0,
  dr 0x23b0000023d 0x4ae000004ae3 no 0x2b5e80002b5f1 no 0,
  dr 0x23b0000023d 0x795c00007960 no 0x2b5f10002b5fb no 0,
  dr 0x23b0000023d 0x7f4200007f47 no 0x2b5fb0002b606 no 0,
  dr 0x23b0000023d 0x8a7600008a7a no 0x2b6060002b610 no 0,
  dr 0x23b0000023d 0x91ed000091f4 0x2f22 0 no 0,
  dr 0x23b0000023d 0xbeac0000beae no 0x2b6100002b618 no 0,
  dr 0x23b0000023d 0xfd670000fd6a no 0x2b6180002b621 no 0,
  dr 0x23b0000023d 0x2b6210002b626 no 0x2b6260002b631 no 0,
  dr 0x23b0000023d 0x2b6310002b636 no 0x2b6360002b641 no 0,
  dr 0x23b0000023d 0x1245000012454 no 0x2b6410002b64b no 0,
  dr 0x23b0000023d 0x2b64b0002b651 no 0x2b6510002b65d no 0,
  dr 0x23b0000023d 0x133d3000133d8 no 0x2b65d0002b668 no 0,
  dr 0x23b0000023d 0x1632c00016333 no 0x2b6680002b675 no 0,
  dr 0x23b0000023d 0x1727e00017283 no 0x2b6750002b680 no 0,
  dr 0x23b0000023d 0x1afa30001afae no 0x2b6800002b688 no 0,
  dr 0x23b0000023d 0x212fe00021306 no 0x2b6880002b696 no 0,
  dr 0x23b0000023d 0x216a5000216aa no 0x2b6960002b6a1 no 0,
  dr 0x23b0000023d 0x219390002193c no 0x2b6a10002b6a9 no 0,
  dr 0x23b0000023d 0x2284900022853 no 0x2b6a90002b6b9 no 0,
  dr 0x23b0000023d 0x22a2600022a2d no 0x2b6b90002b6c2 no 0,
  dr 0x23b0000023d 0x1327400013278 no 0x2b6c20002b6cc no 0]

/-- `__dr_idx[6]` (device_repo.go). -/
def drIdx6 : List DeviceTuple := drIdx6_0

/-- `__dr_idx[7]`, from item 0 on (device_repo.go:2084-2268). -/
def drIdx7_0 : List DeviceTuple := [
  dr 0x23b0000023d 0x5350000053e 0x2f23 0 no 0x3dad00003dae,
  dr 0x23b0000023d 0x53e00000547 0x2f25 0 no 0x3dae00003db0,
  dr 0x23b0000023d 0x6170000061a no 0x6170000061a no 0x3db000003db2,
  dr 0x23b0000023d 0x63b00000640 0x2f2a 0 no 0x3db200003db3,
  dr 0x23b0000023d 0x84a0000084e 0x2f2b 0 no 0x3db300003db4,
  dr 0x23b0000023d 0x84e00000852 0x2f2d 0 no 0x3db400003db5,
  dr 0x23b0000023d 0x2b6d60002b6d9 0x2f2f 0 no 0x3db500003db6,
  dr 0x23b0000023d 0x2b6d90002b6e0 no 0x2b6d90002b6e0 no 0x3db600003db7,
  dr 0x23b0000023d 0x102400001028 no 0x2b6e00002b6eb no 0x3db700003db8,
  dr 0x23b0000023d 0x1dad00001db5 0x2f33 0 no 0x3db800003db9,
  dr 0x23b0000023d 0x2b6eb0002b6f5 no 0x2b6eb0002b6f5 no 0x3db900003dba,
  dr 0x23b0000023d 0x2b6f50002b6fb 0x2f36 0 no 0,
  dr 0x23b0000023d 0x25b4000025b9 0x2f37 0 no 0,
  dr 0x23b0000023d 0x25b9000025bf 0x2f38 0 no 0x3dba00003dbb,
  dr 0x23b0000023d 0x403f00004047 no 0x40470000404e no 0,
  dr 0x23b0000023d 0x2b6fb0002b70d 0x2f3a 0 no 0x3dbb00003dbc,
  dr 0x23b0000023d 0x48590000485e no 0x2b70d0002b712 no 0x3dbc00003dbd,
  dr 0x23b0000023d 0x2b7190002b724 no 0x2b7240002b72f 0x3dbd 0,
  dr 0x23b0000023d 0x4ccb00004ccf 0x2f3c 0 no 0,
  dr 0x23b0000023d 0x50c6000050cf 0x2f3d 0 no 0x3dbe00003dbf,
  dr 0x23b0000023d 0x59390000593f 0x2f3e 0 no 0x3dbf00003dc1,
  dr 0x23b0000023d 0x5c8600005c8a 0x2f41 0 no 0x3dc100003dc2,
  dr 0x23b0000023d 0x2b7450002b74c 0x2f43 0 no 0x3dc200003dc3,
  dr 0x23b0000023d 0x2b74c0002b753 0x2f45 0 no 0x3dc300003dc4,
  dr 0x23b0000023d 0x646200006468 0x2f47 0 no 0,
  dr 0x23b0000023d 0x656800006571 no 0x656800006571 no 0x3dc400003dc5,
  dr 0x23b0000023d 0x2b7530002b765 0x2f49 0 no 0x3dc500003dc6,
  dr 0x23b0000023d 0x2b7650002b76c no 0x2b7650002b76c 0x3dc6 0,
  dr 0x23b0000023d 0x77e8000077ed 0x2f4b 0 no 0x3dc700003dc8,
  dr 0x23b0000023d 0x2b7720002b77c 0x2f4d 0 no 0x3dc800003dc9,
  dr 0x23b0000023d 0x7aac00007ab3 0x2f4f 0 no 0x3dc900003dca,
  dr 0x23b0000023d 0x2b77c0002b781 0x2f51 0 no 0x3dca00003dcb,
  dr 0x23b0000023d 0x2b7810002b786 0x2f53 0 no 0x3dcb00003dcc,
  dr 0x23b0000023d 0x7c0d00007c13 0x2f55 0 no 0x3dcc00003dcd,
  dr 0x23b0000023d 0x7e8d00007e95 0x2f57 0 no 0x3dcd00003dce,
  dr 0x23b0000023d 0x2b7860002b796 no 0x2b7960002b799 0x3dce 0,
  dr 0x23b0000023d 0x89f1000089f5 0x2f59 0 no 0x3dcf00003dd1,
  dr 0x23b0000023d 0x2b7bd0002b7c9 0x2f5b 0 no 0x3dd100003dd2,
  dr 0x23b0000023d 0x8aad00008ab0 0x2f5d 0 no 0x3dd200003dd3,
  dr 0x23b0000023d 0x2b7c90002b7d3 0x2f5f 0 no 0x3dd300003dd4,
  dr 0x23b0000023d 0x2b7d30002b7d9 0x2f61 0 no 0x3dd400003dd5,
  dr 0x23b0000023d 0x8c5000008c58 0x2f63 0 no 0x3dd500003dd6,
  dr 0x23b0000023d 0x2b7d90002b7e4 0x2f65 0 no 0x3dd600003dd7,
  dr 0x23b0000023d 0x92010000920b 0x2f67 0 no 0x3dd700003dd8,
  dr 0x23b0000023d 0x2b7e40002b7f0 0x2f69 0 no 0x3dd800003dd9,
  dr 0x23b0000023d 0x2b7f00002b7f3 0x2f6b 0 no 0x3dd900003dda,
  dr 0x23b0000023d 0x2b7f30002b7f8 0x2f6d 0 no 0x3dda00003ddb,
  dr 0x23b0000023d 0x2b7f80002b7fd 0x2f6f 0 no 0,
  dr 0x23b0000023d 0x2b7fd0002b800 0x2f70 0 no 0x3ddb00003ddc,
  dr 0x23b0000023d 0x2b8000002b807 0x2f72 0 no 0x3ddc00003ddd,
  dr 0x23b0000023d 0x9b2b00009b31 0x2f74 0 no 0x3ddd00003dde,
  dr 0x23b0000023d 0x5980000059d 0x2f76 0 no 0x3dde00003ddf,
  dr 0x23b0000023d 0xa6b90000a6be 0x2f78 0 no 0,
  dr 0x23b0000023d 0x2b8070002b815 0x2f79 0 no 0x3ddf00003de0,
  dr 0x23b0000023d 0x2b8150002b81a 0x2f7b 0 no 0x3de000003de1,
  dr 0x23b0000023d 0xb47b0000b481 0x2f7d 0 no 0x3de100003de2,
  dr 0x23b0000023d 0xb5300000b537 0x2f7f 0 no 0x3de200003de4,
  dr 0x23b0000023d 0x2b81c0002b824 0x2f81 0 no 0x3de400003de5,
  dr 0x23b0000023d 0x2b8240002b829 0x2f83 0 no 0x3de500003de6,
  dr 0x7cc000007d6 0x2b8290002b82f no 0x2b8290002b82f no 0,
  dr 0x23b0000023d 0x2b82f0002b836 0x2f85 0 no 0x3de600003de7,
  dr 0x23b0000023d 0xbb870000bb8c 0x2f87 0 no 0x3de700003de8,
  dr 0x23b0000023d 0x2b8400002b849 0x2f88 0 no 0x3de800003de9,
  dr 0x23b0000023d 0xbf540000bf5c 0x2f8a 0 no 0x3de900003dea,
  dr 0x23b0000023d 0xc1b80000c1bf 0x2f8c 0 no 0x3dea00003dfa,
  dr 0x23b0000023d 0xc39a0000c3a1 0x2f90 0 no 0x3dfa00003dfc,
  dr 0x23b0000023d 0xa0a00000a0a7 0x2f92 0 no 0x3dfc00003dfd,
  dr 0x23b0000023d 0x2b8cb0002b8db 0x2f94 0 no 0,
  dr 0x23b0000023d 0xe9290000e92e 0x2f95 0 no 0x3dfd00003e04,
  dr 0x23b0000023d 0xea190000ea20 0x2f98 0 no 0x3e0400003e06,
  dr 0x23b0000023d 0x2b9300002b934 no 0x2b9300002b934 no 0,
  dr 0x23b0000023d 0x2b9340002b93c 0x2f9b 0 no 0x3e0600003e07,
  dr 0x23b0000023d 0x2b93c0002b941 no 0x2b93c0002b941 no 0x3e0700003e08,
  dr 0x23b0000023d 0x2b9410002b948 no 0x2b9410002b948 no 0x3e0800003e0a,
  dr 0x23b0000023d 0xfd670000fd6a 0x2fa0 0 no 0x3e0a00003e0d,
  dr 0x23b0000023d 0x2b9590002b95d 0x2fa3 0 no 0,
  dr 0x23b0000023d 0x101b0000101b6 0x2fa4 0 no 0x3e0d00003e0e,
  dr 0x23b0000023d 0x2b9640002b969 0x2fa5 0 no 0x3e0e00003e0f,
  dr 0x23b0000023d 0x2b9690002b96e 0x2fa7 0 no 0x3e0f00003e10,
  dr 0x23b0000023d 0x10ec700010ec9 0x2fa9 0 no 0x3e1000003e23,
  dr 0x23b0000023d 0x2b9c50002b9cb 0x2fb5 0 no 0x3e2300003e24,
  dr 0x23b0000023d 0x1247000012475 0x2fb7 0 no 0x3e2400003e25,
  dr 0x23b0000023d 0x130420001304a 0x2fb9 0 no 0x3e2500003e26,
  dr 0x23b0000023d 0x2b9cb0002b9d1 0x2fbb 0 no 0x3e2600003e27,
  dr 0x23b0000023d 0x130bd000130c2 0x2fbd 0 no 0x3e2700003e2a,
  dr 0x23b0000023d 0x133a1000133a6 0x2fbf 0 no 0x3e2a00003e2b,
  dr 0x23b0000023d 0x133ed000133f2 0x2fc1 0 no 0x3e2b00003e2c,
  dr 0x23b0000023d 0x2b9d10002b9dc 0x2fc3 0 no 0x3e2c00003e2d,
  dr 0x23b0000023d 0x2b9dc0002b9e0 0x2fc5 0 no 0x3e2d00003e2e,
  dr 0x23b0000023d 0x138f0000138f5 0x2fc7 0 no 0x3e2e00003e2f,
  dr 0x23b0000023d 0x138f5000138f8 0x2fc9 0 no 0x3e2f00003e30,
  dr 0x23b0000023d 0x2b9f50002b9fe no 0x2b9f50002b9fe no 0x3e3000003e31,
  dr 0x23b0000023d 0x144b4000144ba no 0x144b4000144ba no 0x3e3100003e33,
  dr 0x23b0000023d 0x146b7000146bb no 0x146b7000146bb no 0x3e3300003e34,
  dr 0x23b0000023d 0x14d4c00014d51 no 0x2b9fe0002ba03 no 0x3e3400003e35,
  dr 0x23b0000023d 0x14d7000014d80 0x2fce 0 no 0x3e3500003e36,
  dr 0x23b0000023d 0x163270001632c 0x2fd0 0 no 0x3e3600003e37,
  dr 0x23b0000023d 0x2ba0e0002ba12 0x2fd2 0 no 0x3e3700003e38,
  dr 0x23b0000023d 0x1648d00016492 0x2fd4 0 no 0x3e3800003e39,
  dr 0x23b0000023d 0x2ba120002ba18 0x2fd6 0 no 0x3e3900003e3a,
  dr 0x23b0000023d 0x2ba180002ba20 0x2fd8 0 no 0x3e3a00003e3b,
  dr 0x23b0000023d 0x168fb00016900 0x2fda 0 no 0x3e3b00003e3c,
  dr 0x23b0000023d 0x1500a0001500d 0x2fdc 0 no 0,
  dr 0x23b0000023d 0x16b8a00016b99 0x2fdd 0 no 0x3e3c00003e3e,
  dr 0x23b0000023d 0x16d1a00016d1f 0x2fe0 0 no 0x3e3e00003e3f,
  dr 0x23b0000023d 0x171c3000171cc 0x2fe2 0 no 0x3e3f00003e40,
  dr 0x23b0000023d 0x2ba200002ba27 0x2fe4 0 no 0x3e4000003e41,
  dr 0x23b0000023d 0x177ac000177b0 0x2fe6 0 no 0x3e4100003e42,
  dr 0x23b0000023d 0x2ba270002ba2c 0x2fe8 0 no 0x3e4200003e43,
  dr 0x23b0000023d 0x194370001943b no 0x194370001943b no 0x3e4300003e44,
  dr 0x23b0000023d 0x2ba2c0002ba30 0x2feb 0 0x3e44 0,
  dr 0x23b0000023d 0x2ba300002ba37 0x2fec 0 no 0x3e4500003e46,
  dr 0x23b0000023d 0x196150001961c 0x2fee 0 no 0x3e4600003e48,
  dr 0x23b0000023d 0x2ba370002ba3f 0x2ff1 0 no 0x3e4800003e49,
  dr 0x23b0000023d 0x196ed000196f6 no 0x196ed000196f6 no 0x3e4900003e51,
  dr 0x23b0000023d 0x199a3000199aa 0x2ffa 0 no 0x3e5100003e53,
  dr 0x23b0000023d 0x19de800019df0 0x2ffd 0 no 0,
  dr 0x23b0000023d 0x1acbe0001acc4 0x2ffe 0 no 0x3e5300003e54,
  dr 0x23b0000023d 0x1afa30001afae 0x3000 0 no 0x3e5400003e55,
  dr 0x23b0000023d 0x1b0c00001b0c5 0x3002 0 no 0x3e5500003e56,
  dr 0x23b0000023d 0x2ba5b0002ba68 0x3004 0 no 0x3e5600003e57,
  dr 0x23b0000023d 0x2ba680002ba71 0x3006 0 no 0x3e5700003e58,
  dr 0x23b0000023d 0x1c0cf0001c0d2 0x3008 0 no 0x3e5800003e59,
  dr 0x23b0000023d 0x2ba710002ba77 0x300a 0 no 0x3e5900003e5a,
  dr 0x23b0000023d 0x2ba770002ba81 0x300c 0 no 0x3e5a00003e5b,
  dr 0x23b0000023d 0x2ba810002ba88 0x300e 0 no 0x3e5b00003e5c,
  dr 0x23b0000023d 0x1c78c0001c790 0x3010 0 no 0x3e5c00003e5d,
  dr 0x23b0000023d 0x1c8990001c89f 0x3012 0 no 0x3e5d00003e5e,
  dr 0x23b0000023d 0x180000001f 0x3014 0 no 0x3e5e00003e61,
  dr 0x23b0000023d 0x1f7450001f74e 0x3017 0 no 0x3e6100003e62,
  dr 0x23b0000023d 0x2baa10002baab no 0x2baa10002baab no 0x3e6200003e64,
  dr 0x23b0000023d 0x1f9d20001f9d7 0x301b 0 no 0x3e6400003e6d,
  dr 0x23b0000023d 0x2baf60002bb05 0x3021 0 no 0x3e6d00003e6e,
  dr 0x23b0000023d 0x203530002035a 0x3023 0 no 0x3e6e00003e6f,
  dr 0x23b0000023d 0x2035a00020362 0x3025 0 no 0x3e6f00003e72,
  dr 0x23b0000023d 0x2bb0e0002bb1e 0x3028 0 no 0x3e7200003e74,
  dr 0x23b0000023d 0x203d7000203e1 0x302b 0 no 0x3e7400003e75,
  dr 0x23b0000023d 0x2bb1e0002bb23 0x302d 0 no 0,
  dr 0x23b0000023d 0x1e6000001ea no 0x1e6000001ea no 0x3e7500003e7b,
  dr 0x23b0000023d 0x2bb340002bb3a 0x3034 0 no 0x3e7b00003e7c,
  dr 0x23b0000023d 0x2bb3a0002bb44 0x3036 0 no 0,
  dr 0x23b0000023d 0x2130e00021315 0x3037 0 no 0x3e7c00003e7d,
  dr 0x23b0000023d 0x215f9000215fe 0x3039 0 no 0x3e7d00003e81,
  dr 0x23b0000023d 0x2bb440002bb4b 0x303e 0 no 0x3e8100003e82,
  dr 0x23b0000023d 0x2192400021929 0x3040 0 no 0x3e8200003e83,
  dr 0x23b0000023d 0x219390002193c 0x3042 0 no 0x3e8300003e86,
  dr 0x23b0000023d 0x2bb4b0002bb53 0x3046 0 no 0x3e8600003e89,
  dr 0x23b0000023d 0x21ca700021cb1 0x3048 0 no 0x3e8900003e8a,
  dr 0x23b0000023d 0x2bb610002bb66 0x304a 0 no 0x3e8a00003e8b,
  dr 0x23b0000023d 0x2bb710002bb77 0x304b 0 no 0x3e8b00003e8c,
  dr 0x23b0000023d 0x21eb400021ebd no 0x21eb400021ebd no 0x3e8c00003e8e,
  dr 0x23b0000023d 0x2bb770002bb82 no 0x2bb770002bb82 no 0x3e8e00003e8f,
  dr 0x23b0000023d 0x2bb960002bb9e 0x304f 0 no 0x3e8f00003e90,
  dr 0x23b0000023d 0x2bb9e0002bba9 no 0x2bb9e0002bba9 no 0x3e9000003e91,
  dr 0x23b0000023d 0x21efe00021f06 0x3052 0 no 0x3e9100003e92,
  dr 0x23b0000023d 0x2281100022818 0x3054 0 no 0x3e9200003e93,
  dr 0x23b0000023d 0x2284900022853 no 0x2284900022853 no 0x3e9300003e94,
  dr 0x23b0000023d 0x22a2600022a2d 0x3057 0 no 0x3e9400003e9b,
  dr 0x23b0000023d 0x2bbe80002bbf0 0x305e 0 no 0x3e9b00003e9c,
  dr 0x23b0000023d 0x22d7300022d7a 0x3060 0 no 0x3e9c00003ea0,
  dr 0x23b0000023d 0x2bbf70002bc08 0x3064 0 no 0x3ea000003ea1,
  dr 0x23b0000023d 0x233340002333b 0x3065 0 no 0x3ea100003ea2,
  dr 0x23b0000023d 0x2bc100002bc16 0x3067 0 no 0x3ea200003ea3,
  dr 0x23b0000023d 0x23bc700023bce 0x3069 0 no 0x3ea300003ea6,
  dr 0x23b0000023d 0x2bc160002bc1e 0x306d 0 no 0x3ea600003ea7,
  dr 0x23b0000023d 0x2bc1e0002bc29 0x306f 0 no 0x3ea700003ea8,
  dr 0x23b0000023d 0x2bc290002bc38 0x3071 0 no 0x3ea800003ea9,
  dr 0x23b0000023d 0x242f8000242fe 0x3073 0 no 0x3ea900003eaa,
  dr 0x23b0000023d 0x2bc380002bc40 0x3075 0 no 0x3eaa00003eac,
  dr 0x23b0000023d 0x2bc4b0002bc53 0x3078 0 no 0x3eac00003ead,
  dr 0x23b0000023d 0x2bc530002bc5d 0x307a 0 no 0x3ead00003eae,
  dr 0x23b0000023d 0x2bc5d0002bc63 0x307c 0 no 0x3eae00003eaf,
  dr 0x23b0000023d 0x25e2e00025e34 0x307e 0 no 0x3eaf00003eb0,
  dr 0x23b0000023d 0x2bc630002bc6a 0x3080 0 no 0x3eb000003eb1,
  dr 0x23b0000023d 0x2bc6a0002bc77 0x3082 0 no 0x3eb100003eb4,
  dr 0x23b0000023d 0x25fd000025fd6 0x3083 0 no 0x3eb400003eb5,
  dr 0x23b0000023d 0x2bc800002bc88 0x3085 0 no 0,
  dr 0x23b0000023d 0x268ca000268ce 0x3086 0 no 0x3eb500003eb6,
  dr 0x23b0000023d 0x269a7000269ad 0x3088 0 no 0x3eb600003eb8,
  dr 0x23b0000023d 0x2bc9c0002bca2 0x308a 0 no 0x3eb800003eb9,
  dr 0x23b0000023d 0x296820002968b 0x308c 0 no 0x3eb900003eba,
  dr 0x23b0000023d 0x2bca20002bca8 0x308e 0 no 0x3eba00003ebb,
  dr 0x23b0000023d 0x2bca80002bcac 0x3090 0 no 0x3ebb00003ebc,
  dr 0x23b0000023d 0x2ad640002ad67 0x3092 0 no 0x3ebc00003ebd,
  dr 0x23b0000023d 0x2adb00002adb6 0x3094 0 no 0x3ebd00003ebe]

/-- `__dr_idx[7]` (device_repo.go). -/
def drIdx7 : List DeviceTuple := drIdx7_0

end Verif.Data
