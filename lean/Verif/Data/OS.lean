import Verif.Data.Bytes
/-
Generated by tools/gen_tables.py from os_repo.go. Do not edit.
-/
set_option maxRecDepth 10000
namespace Verif.Data

/-- `__or_os`, from item 0 on (os_repo.go:11-340). -/
def orOs_0 : List OSTuple := [
  os 5 no 0 0 1 0 0,
  os 0x50000000c no 1 0 1 0 0,
  os 0xc00000011 no 2 0 1 0 0,
  os 0x1100000017 no 3 0 1 0 0,
  os 0x170000001d no 4 0 1 0 0,
  os 0x1d00000023 no 5 0 1 0 0,
  os 0x230000002b no 6 0 1 0 0,
  os 0x2b00000038 no 7 0 1 0 0,
  os 0x3800000040 no no 0x400000004a no 0 0,
  os 0x4a00000052 no 8 0 1 0 0,
  os 0x520000005b no no 0x520000005b no 0 0,
  os 0x5b00000065 no 9 0 1 0 0,
  os 0x5b00000065 no 0xa 0 1 0 0,
  os 0x6500000070 no 0xb 0 no 0 0,
  os 0x700000007c no 0xc 0 no 0 0,
  os 0x7c00000082 no no 0x7c00000082 no 0 0,
  os 0x820000008b no no 0x8b00000096 no 0 0,
  os 0x960000009e no no 0x9e000000a6 no 0 0,
  os 0xa6000000b1 no 0xd 0 1 0 0,
  os 0xa6000000b1 no 0xe 0 no 0 0,
  os 0xb1000000b7 no 0xf 0 1 0 0,
  os 0xb1000000b7 no 0x10 0 no 0 0,
  os 0xb7000000c6 no no 0xb7000000c6 no 0 0,
  os 0xc6000000cd no 0x11 0 1 0 0,
  os 0xcd000000d3 no 0x12 0 1 0 0,
  os 0xd3000000e0 no no 0xd3000000e0 no 0 0,
  os 0xe0000000e6 no 0x13 0 1 0 0,
  os 0xe6000000ed no 0x14 0 1 0 0,
  os 0xed000000f1 no no 0xed000000f1 no 0 0,
  os 0xf1000000f9 no 0x15 0 no 0 0,
  os 0xf900000100 no 0x16 0 1 0 0,
  os 0x10000000106 no 0x17 0 1 0 0,
  os 0x10600000110 no 0x18 0 1 0 0,
  os 0x11000000117 no 0x19 0 1 0 0,
  os 0x1170000011c no 0x1a 0 1 0 0,
  os 0x11c00000125 no 0x1b 0 1 0 0,
  os 0x12500000129 no 0x1c 0 1 0 0,
  os 0x12900000135 no 0x1d 0 no 0 0,
  os 0x1350000013d no no 0x1350000013d no 0 0,
  os 0x13d00000145 no 0x1e 0 1 0 0,
  os 0x1450000014f no 0x1f 0 1 0 0,
  os 0x14f00000155 no 0x20 0 no 0 0,
  os 0x15500000160 no 0x21 0 1 0 0,
  os 0x1600000016e no 0x22 0 1 0 0,
  os 0x16e0000017a no 0x23 0 1 0 0,
  os 0x17a0000018a no 0x24 0 1 0 0,
  os 0x18a00000191 no 0x25 0 1 0 0,
  os 0x19100000199 no 0x26 0 1 0 0,
  os 0x19100000199 no 0x27 0 1 0 0,
  os 0x199000001a0 no no 0x199000001a0 no 0 0,
  os 0x1a0000001aa no 0x28 0 no 0 0,
  os 0x1aa000001b2 no no 0x1b2000001bd no 0 0,
  os 0x1bd000001c9 no no 0x1c9000001d2 no 0 0,
  os 0x1d2000001d8 no no 0x1d2000001d8 no 0 0,
  os 0x1d8000001df no 0x29 0 no 0 0,
  os 0x1df000001e7 no 0x2a 0 1 0 0,
  os 0x1e7000001ea no 0x2b 0 no 0 0,
  os 0x1ea000001f2 no 0x2c 0 1 0 0,
  os 0x1f200000201 no no 0x1ea000001f2 no 0 0,
  os 0x2010000020d no 0x2d 0 1 0 0,
  os 0x2010000020d no 0x2e 0 1 0 0,
  os 0x20d00000213 no no 0x20d00000213 no 0 0,
  os 0x2130000021f no 0x2f 0 1 0 0,
  os 0x21f00000223 no 0x30 0 1 0 0,
  os 0x2230000022a no 0x31 0 1 0 0,
  os 0x22a0000022f no 0x32 0 1 0 0,
  os 0x22f00000236 no 0x33 0 1 0 0,
  os 0x2360000023b no 0x34 0 no 0 0,
  os 0x23b00000243 no 0x35 0 1 0 0,
  os 0x2430000024b no no 0x24b00000254 no 0 0,
  os 0x25400000258 no 0x36 0 no 0 0,
  os 0x25800000260 no 0x37 0 no 0x26000000262 0,
  os 0x2620000026b no 0x38 0 1 0 0,
  os 0x26b00000277 no 0x39 0 1 0 0,
  os 0x26b00000277 no 0x3a 0 no 0x2770000027b 0,
  os 0x27b00000283 no no 0x28300000294 no 0 0,
  os 0x294000002a2 no 0x3b 0 1 0 0,
  os 0x2a2000002af no no 0x2a2000002af no 0 0,
  os 0x2af000002b5 no 0x3c 0 no 0 0,
  os 0x2af000002b5 no 0x3d 0 1 0 0,
  os 0x2b5000002bd no 0x3e 0 no 0 0,
  os 0x2b5000002bd no 0x3f 0 1 0 0,
  os 0x2bd000002c3 no 0x40 0 1 0 0,
  os 0x2c3000002d0 no no 0x2d0000002db no 0 0,
  os 0x2db000002e1 no 0x41 0 no 0 0,
  os 0x2e1000002e9 no 0x42 0 1 0 0,
  os 0x2e1000002e9 no 0x43 0 no 0x2e9000002ea 0,
  os 0x2e1000002e9 no no 0x2ea000002f0 no 0 0,
  os 0x2f0000002f5 no 0x44 0 no 0 0,
  os 0x2f5000002fa no 0x45 0 1 0 0,
  os 0x2f5000002fa no 0x46 0 no 0 0,
  os 0x2fa000002ff no 0x47 0 1 0 0,
  os 0x2fa000002ff no 0x48 0 1 0 0,
  os 0x2ff0000030c no 0x49 0 1 0 0,
  os 0x2ff0000030c no 0x4a 0 1 0 0,
  os 0x2ff0000030c no 0x4b 0 no 0 0,
  os 0x30c00000316 no 0x4c 0 1 0 0,
  os 0x31600000324 no 0x4d 0 1 0 0,
  os 0x3240000032e no 0x4e 0 no 0 0,
  os 0x3240000032e no 0x4f 0 no 0x32e00000331 0,
  os 0x3310000033c no 0x50 0 no 0x33c0000033e 0,
  os 0x33e00000343 no 0x51 0 1 0 0,
  os 0x3430000034e no 0x52 0 1 0 0,
  os 0x34e00000357 no 0x53 0 1 0 0,
  os 0x34e00000357 no no 0x3570000035d no 0x35d00000362 0,
  os 0x3620000036b no 0x54 0 1 0 0,
  os 0x36b00000373 no 0x55 0 1 0 0,
  os 0x3730000037e no 0x56 0 1 0 0,
  os 0x37e00000388 no 0x57 0 1 0 0,
  os 0x3880000038e no no 0x3880000038e no 0 0,
  os 0x38e0000039a no 0x58 0 no 0 0xa,
  os 0x3c3000003ca no 0x60 0 1 0 0,
  os 0x3c3000003ca no 0x61 0 no 0 0xa00000015,
  os 0x3c3000003ca no no 0x3d8000003ed no 0 0,
  os 0x3ed000003f7 no no 0x3f700000403 no 0x3d7000003d8 0,
  os 0x4030000040d no 0x6d 0 1 0 0,
  os 0x4030000040d no 0x6e 0 no 0 0x1500000029,
  os 0x4d4000004e9 no 0x76 0 no 0x3ce000003cf 0,
  os 0x4e9000004f1 no 0x77 0 no 0 0x290000002c,
  os 0x5030000050a no 0x79 0 no 0 0,
  os 0x50a00000511 no 0x7a 0 no 0 0,
  os 0x51100000518 no 0x7b 0 1 0 0,
  os 0x51800000521 no 0x7c 0 1 0 0,
  os 0x51800000521 no 0x7d 0 no 0 0,
  os 0x5210000052b no 0x7e 0 1 0 0,
  os 0x5210000052b no 0x7f 0 1 0 0,
  os 0x5210000052b no 0x80 0 no 0 0,
  os 0x52b00000532 no 0x81 0 no 0 0x2c00000042,
  os 0x52b00000532 no no 0x5570000056a no 0x3ce000003cf 0,
  os 0x52b00000532 no 0x98 0 no 0 0,
  os 0x52b00000532 no 0x99 0 1 0 0,
  os 0x52b00000532 no 0x9a 0 1 0 0,
  os 0x52b00000532 no 0x9b 0 1 0 0,
  os 0x52b00000532 no 0x9c 0 1 0 0,
  os 0x52b00000532 no 0x9d 0 1 0 0,
  os 0x52b00000532 no 0x9e 0 1 0 0,
  os 0x52b00000532 no 0x9f 0 1 0 0,
  os 0x52b00000532 no 0xa0 0 1 0 0,
  os 0x52b00000532 no 0xa1 0 1 0 0,
  os 0x52b00000532 no 0xa2 0 1 0 0,
  os 0x52b00000532 no 0xa3 0 1 0 0,
  os 0x52b00000532 no 0xa4 0 1 0 0,
  os 0x52b00000532 no 0xa5 0 1 0 0,
  os 0x52b00000532 no 0xa6 0 no 0 0,
  os 0x52b00000532 no 0xa7 0 no 0 0,
  os 0x52b00000532 no 0xa8 0 1 0 0,
  os 0x52b00000532 no 0xa9 0 1 0 0,
  os 0x56a00000575 no 0xaa 0 no 0 0,
  os 0x5750000057c no 0xab 0 1 0 0,
  os 0x5750000057c no 0xac 0 no 0 0,
  os 0x57c00000583 no 0xad 0 1 0 0,
  os 0x58300000590 no 0xae 0 1 0 0,
  os 0x58300000590 no 0xaf 0 1 0 0,
  os 0x59000000593 no 0xb0 0 1 0 0,
  os 0x59000000593 no 0xb1 0 1 0 0,
  os 0x59000000593 no 0xb2 0 no 0 0,
  os 0x5930000059b no no 0x5930000059b no 0 0,
  os 0x59b000005a4 no no 0x59b000005a4 no 0 0,
  os 0x5a4000005ab no no 0x5ab000005bc no 0 0,
  os 0x5bc000005c3 no 0xb3 0 no 0 0,
  os 0x5c3000005c9 no 0xb4 0 1 0 0,
  os 0x5c9000005d8 no no 0x5c9000005d8 no 0 0,
  os 0x5d8000005de no 0xb5 0 1 0 0,
  os 0x5de000005e4 no no 0x5e4000005ec no 0 0,
  os 0x5ec000005f3 no no 0x5f300000600 no 0 0,
  os 0x60000000607 no 0xb6 0 1 0 0,
  os 0x60000000607 no 0xb7 0 1 0 0,
  os 0x60000000607 no 0xb8 0 1 0 0,
  os 0x60000000607 no 0xb9 0 2 0 0,
  os 0x6070000060f no no 0x60f00000617 no 0 0,
  os 0x6170000061f no 0xba 0 1 0 0,
  os 0x61f0000062a no 0xbb 0 1 0 0,
  os 0x62a00000633 no 0xbc 0 1 0 0,
  os 0x6330000063c no 0xbd 0 no 0 0,
  os 0x63c00000641 no 0xbe 0 no 0 0,
  os 0x64100000647 no 0xbf 0 no 0 0,
  os 0x6470000064c no no 0x6470000064c no 0 0,
  os 0x64c00000656 no 0xc0 0 1 0 0,
  os 0x65600000661 no 0xc1 0 1 0 0,
  os 0x66100000665 no 0xc2 0 1 0 0,
  os 0x6650000066c no 0xc3 0 1 0 0,
  os 0x6650000066c no 0xc4 0 no 0 0,
  os 0x66c00000679 no 0xc5 0 1 0 0,
  os 0x6790000067f no 0xc6 0 1 0 0,
  os 0x6790000067f no 0xc7 0 1 0 0,
  os 0x6790000067f no 0xc8 0 1 0 0,
  os 0x67f00000685 no 0xc9 0 1 0 0,
  os 0x6850000068d no 0xca 0 1 0 0,
  os 0x68d00000691 no 0xcb 0 1 0 0,
  os 0x69100000698 no 0xcc 0 1 0 0,
  os 0x6980000069e no 0xcd 0 no 0x69e000006a2 0,
  os 0x6a2000006a8 no no 0x6a8000006b6 no 0x6b6000006ba 0,
  os 0x6980000069e no 0xce 0 no 0x6ba000006be 0,
  os 0x6980000069e no 0xcf 0 no 0x6be000006c2 0,
  os 0x6980000069e no 0xd0 0 no 0x6c2000006c6 0,
  os 0x6980000069e no 0xd1 0 no 0x6c6000006ca 0,
  os 0x6980000069e no 0xd2 0 1 0 0,
  os 0 1 0xd3 0 2 0 0,
  os 0x6ca000006d0 no 0xd4 0 1 0 0,
  os 0 1 0xd5 0 2 0 0,
  os 0x6d0000006d4 no 0xd6 0 no 0 0,
  os 0x6d4000006da no 0xd7 0 no 0 0,
  os 0x6da000006df no 0xd8 0 no 0 0x420000004e,
  os 0x6e9000006ef no 0xe4 0 1 0 0,
  os 0x6e9000006ef no 0xe5 0 1 0 0,
  os 0x6ef000006f6 no 0xe6 0 1 0 0,
  os 0x6f6000006fd no 0xe7 0 1 0 0,
  os 0x6f6000006fd no 0xe8 0 1 0 0,
  os 0x6f6000006fd no 0xe9 0 1 0 0,
  os 0x6f6000006fd no 0xea 0 no 0 0,
  os 0x6f6000006fd no 0xeb 0 1 0 0,
  os 0x6f6000006fd no 0xec 0 1 0 0,
  os 0x6f6000006fd no 0xed 0 no 0x33c0000033e 0,
  os 0x6f6000006fd no 0xee 0 no 0x33c0000033e 0,
  os 0x6f6000006fd no 0xef 0 no 0x6fd00000706 0,
  os 0x6f6000006fd no no 0x7060000071a no 0x71a00000728 0,
  os 0x6f6000006fd no 0xf0 0 no 0x32e00000331 0,
  os 0x6f6000006fd no no 0x7280000073a no 0x73a00000745 0,
  os 0x6f6000006fd no 0xf1 0 no 0x3cc000003cd 0,
  os 0x6f6000006fd no no 0x74500000759 no 0x75900000767 0,
  os 0x6f6000006fd no 0xf2 0 no 0x3cd000003ce 0,
  os 0x6f6000006fd no 0xf3 0 no 0x7670000076c 0,
  os 0x6f6000006fd no 0xf4 0 no 0x76c00000777 0,
  os 0x6f6000006fd no 0xf5 0 no 0x77700000779 0,
  os 0x6f6000006fd no 0xf6 0 no 0x7790000077d 0,
  os 0x6f6000006fd no 0xf7 0 no 0x77d0000077f 0,
  os 0x6f6000006fd no 0xf8 0 no 0x77f00000781 0,
  os 0x6f6000006fd no 0xf9 0 no 0x78100000783 0,
  os 0x6f6000006fd no 0xfa 0 no 0x78300000785 0,
  os 0x6f6000006fd no 0xfb 0 no 0x78500000788 0,
  os 0x6f6000006fd no 0xfc 0 no 0 0,
  os 0x6f6000006fd no 0xfd 0 1 0 0,
  os 0x78800000790 no no 0x79000000795 no 0 0,
  os 0x79500000799 no 0xfe 0 1 0 0,
  os 0x79500000799 no 0xff 0 1 0 0,
  os 0x79500000799 no 0x100 0 1 0 0,
  os 0x79500000799 no 0x101 0 1 0 0,
  os 0x79500000799 no 0x102 0 1 0 0,
  os 0x799000007a0 no 0x103 0 1 0 0,
  os 0x799000007a0 no 0x104 0 no 0 0,
  os 0x7a0000007a6 no 0x105 0 1 0 0,
  os 0x7a0000007a6 no 0x106 0 1 0 0,
  os 0x7a0000007a6 no 0x107 0 1 0 0,
  os 0x7a0000007a6 no 0x108 0 1 0 0,
  os 0x7a0000007a6 no 0x109 0 1 0 0,
  os 0x7a0000007a6 no 0x10a 0 1 0 0,
  os 0x7a0000007a6 no 0x10b 0 1 0 0,
  os 0x7a0000007a6 no 0x10c 0 1 0 0,
  os 0x7a6000007a9 no 0x10d 0 1 0 0,
  os 0x7a6000007a9 no 0x10e 0 1 0 0,
  os 0x7a6000007a9 no 0x10f 0 1 0 0,
  os 0x7a6000007a9 no 0x110 0 1 0 0,
  os 0x7a6000007a9 no 0x111 0 1 0 0,
  os 0x7a6000007a9 no 0x112 0 1 0 0,
  os 0x7a6000007a9 no 0x113 0 no 0x7a9000007ae 0,
  os 0x7a6000007a9 no 0x114 0 1 0 0,
  os 0x7a6000007a9 no 0x115 0 1 0 0,
  os 0x7a6000007a9 no 0x116 0 no 0 0x4e00000088,
  os 0x7a6000007a9 no 0x14c 0 1 0 0,
  os 0x7a6000007a9 no 0x14d 0 1 0 0,
  os 0x7a6000007a9 no 0x14e 0 1 0 0,
  os 0x7a6000007a9 no 0x14f 0 1 0 0,
  os 0x7a6000007a9 no 0x150 0 1 0 0,
  os 0x7a6000007a9 no 0x151 0 1 0 0,
  os 0x7a6000007a9 no 0x152 0 1 0 0,
  os 0x7a6000007a9 no 0x153 0 1 0 0,
  os 0x7a6000007a9 no 0x154 0 1 0 0,
  os 0x7a6000007a9 no 0x155 0 1 0 0,
  os 0x7a6000007a9 no 0x156 0 1 0 0,
  os 0x7a6000007a9 no 0x157 0 1 0 0,
  os 0x7a6000007a9 no 0x158 0 no 0 0,
  os 0x7a6000007a9 no 0x159 0 no 0 0,
  os 0x7a6000007a9 no 0x15a 0 1 0 0,
  os 0x7a6000007a9 no 0x15b 0 no 0 0,
  os 0x7a6000007a9 no 0x15c 0 no 0 0,
  os 0x89000000893 no 0x15d 0 no 0 0x88000000d3,
  os 0x89000000893 no 0x1a8 0 1 0 0,
  os 0x89000000893 no 0x1a9 0 1 0 0,
  os 0x89000000893 no 0x1aa 0 1 0 0,
  os 0x89000000893 no 0x1ab 0 1 0 0,
  os 0x89000000893 no 0x1ac 0 1 0 0,
  os 0x89000000893 no 0x1ad 0 1 0 0,
  os 0x89000000893 no 0x1ae 0 no 0 0,
  os 0x9f7000009fe no no 0x9f7000009fe no 0 0,
  os 0x9fe00000a0b no 0x1af 0 1 0 0,
  os 0xa0b00000a1f no 0x1b0 0 1 0 0,
  os 0xa0b00000a1f no 0x1b1 0 no 0 0,
  os 0x9fe00000a0b no no 0xa1f00000a29 no 0 0,
  os 0x9fe00000a0b no no 0xa2900000a2d no 0 0,
  os 0xa2d00000a31 no 0x1b2 0 1 0 0,
  os 0xa3100000a3a no 0x1b3 0 no 0xa3a00000a3e 0,
  os 0xa3100000a3a no 0x1b4 0 no 0xa3e00000a43 0,
  os 0xa3100000a3a no no 0xa4300000a4c no 0 0,
  os 0xa4c00000a60 no 0x1b5 0 1 0 0,
  os 0xa6000000a74 no no 0xa7400000a7c no 0 0,
  os 0xa7c00000a86 no 0x1b6 0 1 0 0,
  os 0xa8600000a8b no 0x1b7 0 no 0 0,
  os 0xa7c00000a86 no 0x1b8 0 no 0 0,
  os 0xa8b00000a92 no no 0xa9200000a97 no 0 0,
  os 0xa9700000aa1 no 0x1b9 0 no 0 0,
  os 0xaa100000aa8 no 0x1ba 0 1 0 0,
  os 0xaa800000aaf no 0x1bb 0 1 0 0,
  os 0xaaf00000ab3 no 0x1bc 0 1 0 0,
  os 0xab300000ab6 no 0x1bd 0 no 0 0,
  os 0xab600000aba no 0x1be 0 1 0 0,
  os 0xaba00000ac3 no 0x1bf 0 1 0 0,
  os 0xac300000ac8 no 0x1c0 0 1 0 0,
  os 0xac800000acf no 0x1c1 0 1 0 0,
  os 0xacf00000ad2 no 0x1c2 0 1 0 0,
  os 0xad200000ad7 no 0x1c3 0 1 0 0,
  os 0xad700000ada no no 0xada00000ae2 no 0x3d5000003d6 0,
  os 0xae200000aec no 0x1c4 0 1 0 0,
  os 0x5030000050a no 0x1c5 0 1 0 0,
  os 0xaec00000af2 no 0x1c6 0 1 0 0,
  os 0xaf200000af9 no 0x1c7 0 1 0 0,
  os 0xaf900000b02 no 0x1c8 0 1 0 0,
  os 0xb0200000b0a no 0x1c9 0 1 0 0,
  os 0xb0a00000b0e no 0x1ca 0 1 0 0,
  os 0xb0e00000b12 no 0x1cb 0 1 0 0,
  os 0xb1200000b1a no 0x1cc 0 1 0 0,
  os 0xb1a00000b25 no 0x1cd 0 1 0 0,
  os 0xb1a00000b25 no 0x1ce 0 1 0 0,
  os 0xb2500000b29 no 0x1cf 0 no 0xb2900000b2c 0,
  os 0xb2c00000b3b no 0x1d0 0 1 0 0,
  os 0xb3b00000b4f no 0x1d1 0 1 0 0,
  os 0xb4f00000b53 no 0x1d2 0 1 0 0,
  os 0xb4f00000b53 no no 0xb4f00000b53 no 0 0,
  os 0xb5300000b5c no 0x1d3 0 1 0 0,
  os 0xb5300000b5c no 0x1d4 0 no 0 0,
  os 0xb5c00000b63 no 0x1d5 0 no 0 0]

/-- `__or_os` (os_repo.go). -/
def orOs : List OSTuple := orOs_0

/-- `__or_ov`, from item 0 on (os_repo.go:343-553). -/
def orOv_0 : List OSVersionTuple := [
  ov 0x59 0 no 0x39a0000039d,
  ov no 0x39d000003a2 no 0x3a2000003a5,
  ov no 0x3a5000003aa no 0x3aa000003ad,
  ov 0x5a 0 no 0x3ad000003b0,
  ov 0x5b 0 no 0x3b0000003b3,
  ov 0x5c 0 no 0x3b0000003b3,
  ov 0x5d 0 no 0x3b0000003b3,
  ov 0x5e 0 no 0x3b0000003b3,
  ov 0x5f 0 no 0x3b0000003b3,
  ov no 0x3b3000003c3 no 0x3aa000003ad,
  ov 0x62 0 no 0x3ca000003cc,
  ov 0x63 0 no 0x3cc000003cd,
  ov 0x64 0 no 0x3cd000003ce,
  ov 0x65 0 no 0x3ce000003cf,
  ov 0x66 0 no 0x3cf000003d0,
  ov 0x67 0 no 0x3d0000003d5,
  ov 0x68 0 no 0x3d5000003d6,
  ov 0x69 0 no 0x3d6000003d7,
  ov 0x6a 0 no 0x3d6000003d7,
  ov 0x6b 0 no 0x3d7000003d8,
  ov 0x6c 0 no 0x2e9000002ea,
  ov no 0x40d00000417 no 0x41700000419,
  ov no 0x41900000423 no 0x42300000425,
  ov no 0x4250000042f no 0x42f00000431,
  ov no 0x4310000043b no 0x43b0000043f,
  ov 0x6f 0 no 0x43f00000443,
  ov no 0x4430000044d no 0x44d00000451,
  ov no 0x4510000045b no 0x45b0000045f,
  ov no 0x45f00000469 no 0x4690000046d,
  ov no 0x46d00000476 no 0x4760000047a,
  ov 0x70 0 no 0x47a0000047e,
  ov no 0x47e00000487 no 0x4870000048b,
  ov 0x71 0 no 0x48b0000048f,
  ov no 0x48f00000498 no 0x4980000049c,
  ov no 0x49c000004a5 no 0x4a5000004a9,
  ov 0x72 0 no 0x4a9000004ad,
  ov no 0x4ad000004b6 no 0x4b6000004ba,
  ov 0x73 0 no 0x4ba000004be,
  ov 0x74 0 no 0x4be000004c2,
  ov 0x75 0 no 0x4c2000004c6,
  ov no 0x4c6000004cf no 0x4cf000004d4,
  ov no 0x4f1000004fa no 0x2e9000002ea,
  ov 0x78 0 no 0x3d7000003d8,
  ov no 0x4fa00000503 no 0x3d6000003d7,
  ov 0x82 0 no 0x53200000534,
  ov 0x83 0 no 0x53400000536,
  ov 0x84 0 no 0x3ca000003cc,
  ov 0x85 0 no 0x53600000538,
  ov 0x86 0 no 0x4a9000004ad,
  ov 0x87 0 no 0x26000000262,
  ov 0x88 0 no 0x5380000053a,
  ov 0x89 0 no 0x33c0000033e,
  ov 0x8a 0 no 0x53a0000053b,
  ov 0x8b 0 no 0x32e00000331,
  ov 0x8c 0 no 0x3cc000003cd,
  ov 0x8d 0 no 0x53b0000053e,
  ov 0x8e 0 no 0x3cd000003ce,
  ov 0x8f 0 no 0x3ce000003cf,
  ov 0x90 0 no 0x53e00000541,
  ov 0x91 0 no 0x3cf000003d0,
  ov 0x92 0 no 0x54100000544,
  ov 0x93 0 no 0x54400000547,
  ov 0x94 0 no 0x5470000054a,
  ov 0x95 0 no 0x54a0000054d,
  ov 0x96 0 no 0x54d00000552,
  ov 0x97 0 no 0x55200000557,
  ov 0xd9 0 1 0,
  ov 0xda 0 no 0x6df000006e1,
  ov 0xdb 0 no 0x6e1000006e3,
  ov 0xdc 0 no 0x41700000419,
  ov 0xdd 0 no 0x42300000425,
  ov 0xde 0 no 0x3ce000003cf,
  ov 0xdf 0 no 0x3cf000003d0,
  ov 0xe0 0 no 0x3d5000003d6,
  ov 0xe1 0 no 0x3d6000003d7,
  ov no 0x6e3000006e9 no 0x2e9000002ea,
  ov 0xe2 0 no 0x3d7000003d8,
  ov 0xe3 0 no 0x2e9000002ea,
  ov 0x117 0 no 0x7a9000007ae,
  ov 0x118 0 no 0x7ae000007b3,
  ov 0x119 0 no 0x7b3000007b8,
  ov 0x11a 0 no 0x7b8000007bd,
  ov 0x11b 0 no 0x7bd000007c2,
  ov 0x11c 0 no 0x7c2000007c6,
  ov 0x11d 0 no 0x7c6000007ca,
  ov 0x11e 0 no 0x7ca000007ce,
  ov 0x11f 0 no 0x7ce000007d2,
  ov 0x120 0 no 0x7d2000007d6,
  ov 0x121 0 no 0x7d6000007da,
  ov 0x122 0 no 0x4980000049c,
  ov 0x123 0 no 0x7da000007df,
  ov 0x124 0 no 0x7df000007e5,
  ov 0x125 0 no 0x7e5000007e9,
  ov 0x126 0 no 0x4a5000004a9,
  ov 0x127 0 no 0x7e9000007ed,
  ov 0x128 0 no 0x7ed000007f1,
  ov 0x129 0 no 0x7f1000007f5,
  ov 0x12a 0 no 0x4a9000004ad,
  ov 0x12b 0 no 0x4b6000004ba,
  ov 0x12c 0 no 0x7f5000007fb,
  ov 0x12d 0 no 0x7fb000007ff,
  ov 0x12e 0 no 0x7ff00000803,
  ov 0x12f 0 no 0x80300000809,
  ov 0x130 0 no 0x8090000080d,
  ov no 0x80d0000081a no 0x81a0000081e,
  ov no 0x81e0000082b no 0x4ba000004be,
  ov no 0x82b00000838 no 0x8380000083c,
  ov 0x131 0 no 0x8380000083c,
  ov 0x132 0 no 0x4be000004c2,
  ov 0x133 0 no 0x4c2000004c6,
  ov 0x134 0 no 0x83c00000840,
  ov no 0x8400000084d no 0x33c0000033e,
  ov 0x135 0 no 0x84d00000852,
  ov 0x136 0 no 0x85200000857,
  ov 0x137 0 no 0x8570000085a,
  ov 0x138 0 no 0x85a0000085d,
  ov 0x139 0 no 0x85d00000860,
  ov 0x13a 0 no 0x86000000863,
  ov 0x13b 0 no 0x86300000868,
  ov 0x13c 0 no 0x8680000086b,
  ov 0x13d 0 no 0x86b0000086e,
  ov 0x13e 0 no 0x86e00000871,
  ov 0x13f 0 no 0x32e00000331,
  ov 0x140 0 no 0x87100000874,
  ov 0x141 0 no 0x53b0000053e,
  ov 0x142 0 no 0x87400000877,
  ov 0x143 0 no 0x8770000087a,
  ov 0x144 0 no 0x3b0000003b3,
  ov 0x145 0 no 0x53e00000541,
  ov 0x146 0 no 0x87a0000087d,
  ov 0x147 0 no 0x54400000547,
  ov 0x148 0 no 0x5470000054a,
  ov 0x149 0 no 0x54a0000054d,
  ov 0x14a 0 no 0x87d00000880,
  ov 0x14b 0 no 0x88000000883,
  ov no 0x88300000890 no 0x78500000788,
  ov 0x15e 0 no 0x7a9000007ae,
  ov 0x15f 0 no 0x7bd000007c2,
  ov 0x160 0 no 0x89300000898,
  ov 0x161 0 no 0x8980000089c,
  ov 0x162 0 no 0x89c000008a0,
  ov 0x163 0 no 0x7e5000007e9,
  ov 0x164 0 no 0x8a0000008a4,
  ov 0x165 0 no 0x8a4000008a8,
  ov 0x166 0 no 0x8a8000008ae,
  ov 0x167 0 no 0x4a5000004a9,
  ov 0x168 0 no 0x8ae000008b2,
  ov 0x169 0 no 0x7e9000007ed,
  ov 0x16a 0 no 0x7ed000007f1,
  ov 0x16b 0 no 0x7f1000007f5,
  ov 0x16c 0 no 0x4a9000004ad,
  ov 0x16d 0 no 0x8b2000008b8,
  ov 0x16e 0 no 0x4b6000004ba,
  ov 0x16f 0 no 0x8b8000008bc,
  ov 0x170 0 no 0x7fb000007ff,
  ov 0x171 0 no 0x7ff00000803,
  ov 0x172 0 no 0x8090000080d,
  ov 0x173 0 no 0x81a0000081e,
  ov 0x174 0 no 0x4ba000004be,
  ov 0x175 0 no 0x8bc000008c4,
  ov 0x176 0 no 0x8c4000008c9,
  ov 0x177 0 no 0x8c9000008ce,
  ov 0x178 0 no 0x8ce000008d5,
  ov 0x179 0 no 0x8d5000008dc,
  ov 0x17a 0 no 0x8dc000008e3,
  ov 0x17b 0 no 0x8c9000008ce,
  ov 0x17c 0 no 0x8e3000008ea,
  ov 0x17d 0 no 0x8ea000008f1,
  ov 0x17e 0 no 0x8f1000008f8,
  ov 0x17f 0 no 0x8f8000008ff,
  ov 0x180 0 no 0x8ff00000906,
  ov 0x181 0 no 0x9060000090d,
  ov 0x182 0 no 0x90d00000912,
  ov 0x183 0 no 0x91200000919,
  ov 0x184 0 no 0x91900000920,
  ov 0x185 0 no 0x92000000927,
  ov 0x186 0 no 0x9270000092e,
  ov 0x187 0 no 0x92e00000935,
  ov 0x188 0 no 0x92e00000935,
  ov 0x189 0 no 0x9350000093c,
  ov 0x18a 0 no 0x93c00000941,
  ov 0x18b 0 no 0x94100000949,
  ov no 0x94900000956 no 0x9560000095b,
  ov 0x18c 0 no 0x95b00000963,
  ov 0x18d 0 no 0x9630000096a,
  ov 0x18e 0 no 0x96a0000096f,
  ov 0x18f 0 no 0x96f00000975,
  ov 0x190 0 no 0x9750000097b,
  ov 0x191 0 no 0x97b00000981,
  ov 0x192 0 no 0x98100000987,
  ov 0x193 0 no 0x9870000098d,
  ov 0x194 0 no 0x98d00000993,
  ov 0x195 0 no 0x98d00000993,
  ov 0x196 0 no 0x99300000999,
  ov 0x197 0 no 0x9990000099f,
  ov 0x198 0 no 0x99f000009a5,
  ov 0x199 0 no 0x9a5000009ab,
  ov 0x19a 0 no 0x9ab000009b1,
  ov 0x19b 0 no 0x9ab000009b1,
  ov 0x19c 0 no 0x9b1000009b7,
  ov 0x19d 0 no 0x9b7000009bd,
  ov 0x19e 0 no 0x9bd000009c3,
  ov 0x19f 0 no 0x9c3000009c9,
  ov 0x1a0 0 no 0x9c9000009cf,
  ov 0x1a1 0 no 0x9cf000009d5,
  ov 0x1a2 0 no 0x9d5000009db,
  ov 0x1a3 0 no 0x9db000009df,
  ov 0x1a4 0 no 0x9df000009e5,
  ov 0x1a5 0 no 0x9e5000009eb,
  ov 0x1a6 0 no 0x9eb000009f1,
  ov 0x1a7 0 no 0x9f1000009f7]

/-- `__or_ov` (os_repo.go). -/
def orOv : List OSVersionTuple := orOv_0

/-- `__or_re`, from item 0 on (os_repo.go:556-805). -/
def orRe_0 : List (List Chunk) := [
  pat! "(?i)NuttX(?:/(\\d+[.\\d]+))?",
  pat! "(?i)Contiki/(\\d+[.\\d]+)",
  pat! "(?i)Minix (\\d+[.\\d]+)",
  pat! "(?i)Plan 9 (\\d+[.\\d]+)",
  pat! "(?i)Linpus/(\\d+[.\\d]+)",
  pat! "(?i)ArcaOS(?: (\\d+[.\\d]+))?",
  pat! "(?i)GhostBSD/(\\d+[.\\d]+)",
  pat! "(?i)elementary OS/(\\d+[.\\d]+)",
  pat! "(?i)TitanOS/(\\d+[.\\d]+)",
  pat! "(?i)Coolita OS QJY/.+LiteOS(\\d+[.\\d]+)",
  pat! "(?i)Coolita OS QJY/(\\d+[.\\d]+)",
  pat! "(?i)^NEXT ",
  pat! "(?i)(?:Pacific|Quest).+OculusBrowser|Standalone HMD|PortalGo",
  pat! "(?i).+.cm(\\d).x86_64",
  pat! "(?i)Linux[/-].+-(azure|Microsoft)",
  pat! "(?i)ViziOS/(\\d+[.\\d]+)",
  pat! "(?i)VIZIO(?: SmartCast|-DTV)",
  pat! "(?i)WoPhone(?:/(\\d+[.\\d]+))?",
  pat! "(?i)KIN\\.(?:One|Two) (\\d+[.\\d]+)",
  pat! "(?i)Qtopia/(\\d+[.\\d]+)",
  pat! "(?i)OpenVMS(?: V(\\d+[.\\d]+))?",
  pat! "(?i)\\(NEXT\\)",
  pat! "(?i)NEWS-OS (\\d+[.\\d]+)",
  pat! "(?i)ULTRIX (\\d+[.\\d]+)",
  pat! "(?i)Turbolinux/(\\d+[.\\d]+)",
  pat! "(?i)Joli OS/(\\d+[.\\d]+)",
  pat! "(?i)GENIX (\\d+[.\\d]+)",
  pat! "(?i)gNewSense/.*\\((\\d+[.\\d]+)",
  pat! "(?i)Geos (\\d+[.\\d]+)",
  pat! "(?i)MOT-.*LinuxOS/",
  pat! "(?i)\xeb\xb6\x89\xec\x9d\x80\xeb\xb3\x84|Fedora/(?:\\d+\\.[\\d.-]+)\\.rs(\\d+(?:[_.]\\d+)*)",
  pat! "(?i)Linux/(?:\\d+\\.[\\d.-]+)-(?:pve|v(\\d)\\+)",
  pat! "(?i)Linux/(?:\\d+\\.[\\d.-]+)-(?:\\d+[.\\d]+)stab(?:\\d+[.\\d]+)",
  pat! "(?i)rocky/(\\d+[.\\d]+)",
  pat! "(?i)clear-linux-os/(\\d+[.\\d]+)",
  pat! "(?i)alpine/(\\d+[.\\d]+)",
  pat! "(?i)scientific/(\\d+[.\\d]+)",
  pat! "(?i)eulerosv(\\d)r(\\d+)",
  pat! "(?i)loongnix-server/(\\d+[.\\d]+)",
  pat! "(?i)Linux/(?:\\d+\\.[\\d.-]+)\\.lns(\\d+(?:[_.]\\d+)*)\\.loongarch64",
  pat! "(?i)SerenityOS|Ladybird/",
  pat! "(?i)Linux.*Liri/",
  pat! "(?i)FRITZ!OS(?:/0(\\d+[.\\d]+))?",
  pat! "(?i)UOS$",
  pat! "(?i)Raspbian/(\\d+[.\\d]+)",
  pat! "(?i)BrightSign/(?:[A-Z0-9]+)/(\\d+[.\\d]+)",
  pat! "(?i)BrightSign/(\\d+[.\\d]+)",
  pat! "(?i)Linux/(?:\\d+\\.[\\d.-]+)\\.el(\\d+(?:[_.]\\d+)*)uek",
  pat! "(?i).+kali(\\d)",
  pat! "(?i)TiVoOS/(\\d+[.\\d]+)",
  pat! "(?i)VIDAA/(\\d+[.\\d]+)",
  pat! "(?i)PICO.+OS(\\d+[.\\d]*)",
  pat! "(?i)RED OS; Linux",
  pat! "(?i)Mikrotik/(\\d)\\.x",
  pat! "(?i)Nova; Linux",
  pat! "(?i)Android 10.+bliss_maple",
  pat! "(?i).+tlinux(\\d)",
  pat! "(?i).+.amzn(\\d)(?:int)?.x86_64|Linux/.+aws",
  pat! "(?i)Linux/.+-c9$",
  pat! "(?i)Android (\\d+[.\\d]*); ClearPHONE",
  pat! "(?i)KreaTV/0\\.0\\.0\\.0",
  pat! "(?i)KreaTV/(\\d+[.\\d]+)",
  pat! "(?i)Linux (?:[^;]+); Opera TV(?: Store)?/|^Opera/\\d+\\.\\d+ \\(Linux mips",
  pat! "(?i)OPR/.+TV Store/(\\d+[.\\d]+)",
  pat! "(?i)Grid OS (\\d+[.\\d]+)",
  pat! "(?i)Mageia; Linux",
  pat! "(?i)(?:WH|WhaleTV)/?(\\d+[.\\d]+)",
  pat! "(?i)Zeasn/.*TBrowser/2\\.0",
  pat! "(?i)SmartHub; ?SMART-TV|HbbTV/.+Maple|Samsung;SmartTV201[2-5]",
  pat! "(?i)Tizen[ /]?(\\d+[.\\d]+)?",
  pat! "(?i)HbbTV/.+Samsung",
  pat! "(?i)Android (\\d+[.\\d]+)-RT",
  pat! "(?i)(?:Ali)?YunOS[ /]?(\\d+[.\\d]+)?",
  pat! "(?i)Windows Phone;FBSV/(\\d+[.\\d]+)",
  pat! "(?i)(?:Windows Phone (?:OS)?|wds)[ /]?(\\d+[.\\d]+)",
  pat! "(?i)XBLWP7|Windows Phone",
  pat! "(?i)Windows CE(?: (\\d+[.\\d]+))?",
  pat! "(?i)(?:IEMobile|Windows ?Mobile)(?: (\\d+[.\\d]+))?",
  pat! "(?i)Windows NT 6\\.2; ARM;",
  pat! "(?i)Windows NT 6\\.3; ARM;",
  pat! "(?i)Windows IoT 10\\.0",
  pat! "(?i)KAIOS(?:/(\\d+[.\\d]+))?",
  pat! "(?i)OpenHarmony(?:[/ ](\\d+[.\\d]+))?",
  pat! "(?i)HarmonyOS(?:[/ ](\\d+[.\\d]+))?",
  pat! "(?i)RazoDroiD(?: v(\\d+[.\\d]*))?",
  pat! "(?i)MildWild(?: CM-(\\d+[.\\d]*))?",
  pat! "(?i)CyanogenMod(?:[\\-/](?:CM)?(\\d+[.\\d]*))?",
  pat! "(?i)(?:.*_)?MocorDroid(?:(\\d+[.\\d]*))?",
  pat! "(?i)Smartisan[_ ]|(SM(?:70[15]|801|919)|YQ60[1357]|DT2002C|DE106|DT190[12]A|O[CE]106|OC105)[ /;\\)]",
  pat! "(?i)SM70[15]",
  pat! "(?i)YQ60[1357]",
  pat! "(?i)DE106[ /;\\)]",
  pat! "(?i)OE106[ /;\\)]",
  pat! "(?i)OC10[56][ /;\\)]",
  pat! "(?i)DT2002C[ /;\\)]",
  pat! "(?i)DT190[12]A[ /;\\)]",
  pat! "(?i)Fire OS(?:[ /](\\d+[.\\d]*))?",
  pat! "(?i)(?:Andr[o0]id (\\d([\\d.])*);? |Amazon;|smarttv_)AFT|AEO[ACBHKT]| KF[ADFGJKMORSTQ]|.+FIRETVSTICK2018",
  pat! "(?i)Andr[o0]id 1[234]",
  pat! "(?i)Andr[o0]id 1[01]",
  pat! "(?i)Andr[o0]id 9|AFTSO001",
  pat! "(?i)Andr[o0]id 7|.+FIRETVSTICK2018",
  pat! "(?i)Andr[o0]id 5\\.1",
  pat! "(?i)Andr[o0]id 4\\.4\\.3",
  pat! "(?i)Andr[o0]id 4\\.4\\.2",
  pat! "(?i)Andr[o0]id 4\\.2\\.2",
  pat! "(?i)Andr[o0]id 4\\.0\\.[34]",
  pat! "(?i)Andr[o0]id 4\\.0",
  pat! "(?i)Andr[o0]id 2\\.3\\.3",
  pat! "(?i)Lineage_(\\d+[.\\d]*)",
  pat! "(?i)(?:Android (\\d([\\d.])*);? )?lineage_\\w+",
  pat! "(?i)Android 12\\.1",
  pat! "(?i)Android 8\\.1",
  pat! "(?i)Android 7\\.1",
  pat! "(?i)Android 5\\.1",
  pat! "(?i)Android 4\\.4",
  pat! "(?i)Android 4\\.3",
  pat! "(?i)Android 4\\.2",
  pat! "(?i)Android 8(?:[\\d.]*);(?: [\\w-]+;)? rr_fortuna3g",
  pat! "(?i)RemixOS|Remix (?:Pro|Mini)",
  pat! "(?i)RemixOS 6|Remix Mini",
  pat! "(?i)FreeBSD.+Android",
  pat! "(?i)Chrome/(\\d+\\.[.\\d]+) Odd/|SM-R(?:8[6-9]|9)|LEM14",
  pat! "(?i)SeewoOS x86_64 (\\d+[.\\d]+)",
  pat! "(?i)(?:CrOS [a-z0-9_]+ |.*Build/R\\d+-)(\\d+[.\\d]+)|Chromebook",
  pat! "(?i)(?:Android (?:9|1[0-6])[.\\d]*|Linux x86_64); (?:asurada|atlas|brask|brox|brya|cherry|coral|corsola|dedede|drallion|elm|eve|fizz|geralt|grunt|guybrush|hana|hatch|jacuzzi|kalista|kukui|nami|nautilus|nirva|nissa|nocturne|octopus|ovis|puff|pyro|rammus|rauru|reef|rex|sand|sarien|skyrim|snappy|soraka|staryu|strongbad|trogdor|volteer|zork)\\)",
  pat! "(?i)Linux; Andr0id[; ](\\d+[.\\d]*)",
  pat! "(?i)Android[; ](\\d+[.\\d]*).+(?:(?:Android(?: UHD)?|AT&T|Google|Smart)[ _]?TV|AOSP on r33a0|BRAVIA|wv-atv)",
  pat! "(?i)Windows.+Andr0id TV|.+(?:K_?Android_?TV_|AndroidTV|GoogleTV_)",
  pat! "(?i)(?:Android API \\d+|\\d+/tclwebkit(?:\\d+[.\\d]*)|(?:[^_]Android/\\d{2}|Android-\\d{2}))",
  pat! "(?i)Android API 36|36/tclwebkit|Android[ /]36",
  pat! "(?i)Android API 35|35/tclwebkit|Android[ /]35",
  pat! "(?i)Android API 34|34/tclwebkit|Android[ /]34",
  pat! "(?i)Android API 33|33/tclwebkit|Android[ /]33",
  pat! "(?i)Android API 32|32/tclwebkit|Android[ /]32",
  pat! "(?i)Android API 31|31/tclwebkit|Android[ /]31",
  pat! "(?i)Android API 30|30/tclwebkit|Android[ /]30",
  pat! "(?i)Android API 29|29/tclwebkit|Android[ /]29",
  pat! "(?i)Android API 28|28/tclwebkit|Android[ /]28",
  pat! "(?i)Android API 27|27/tclwebkit|Android[ /]27",
  pat! "(?i)Android API 26|26/tclwebkit|Android[ /]26",
  pat! "(?i)Android API 25|25/tclwebkit|Android[ /]25",
  pat! "(?i)Android API 24|24/tclwebkit|Android[ /]24",
  pat! "(?i)Android API 23|23/tclwebkit|Android[ /]23",
  pat! "(?i)Android API 22|22/tclwebkit|Android[ /]22",
  pat! "(?i)Android API 21|21/tclwebkit|Android[ /]21",
  pat! "(?i)Android API (?:20|19)|(?:20|19)/tclwebkit|Android[ /](?:20|19)",
  pat! "(?i)Android API 18|18/tclwebkit|Android[ /]18",
  pat! "(?i)Android API 17|17/tclwebkit|Android[ /]17",
  pat! "(?i)Android API 16|16/tclwebkit|Android[ /]16",
  pat! "(?i)Android API 15|15/tclwebkit|Android[ /]15",
  pat! "(?i)Android API 14|14/tclwebkit|Android[ /]14",
  pat! "(?i)(?:Podbean|Podimo)(?:.*)/Android|Rutube(?:TV)?BlackAndroid",
  pat! "(?i)(?:Android OS|OMDroid|sdk_gphone64_arm64-userdebug|StarOS)[ /](\\d+[.\\d]*)",
  pat! "(?i)Pinterest for Android(?: Tablet)?/.*; (\\d(?:[\\d.]*))\\)$",
  pat! "(?i)Android; (\\d+[.\\d]*); Mobile;",
  pat! "(?i)Android;(\\d+[.\\d]*);API",
  pat! "(?i)Android \\(\\d{2}/(\\d+[.\\d]*);",
  pat! "(?i)[ ]([\\d.]+)\\) AppleWebKit.*ROBLOX Android App",
  pat! "(?i)(?:(?:Orca-)?Android|Adr|AOSP)[ /]?(?:[a-z]+ )?(\\d+[.\\d]*)",
  pat! "(?i)(?:Allview_TX1_Quasar|Cosmote_My_mini_Tab) (\\d+[.\\d]*)",
  pat! "(?i)Android ?(?:jelly bean|Kit Kat|S\\.O\\. Ginger Bread|The FireCyano|:) (\\d+[.\\d]*)",
  pat! "(?i)(?:Orca-Android|FB4A).*FBSV/(\\d+[.\\d]*);",
  pat! "(?i)(?:TwitterAndroid).*[ /](?:[a-z]+ )?(\\d+[.\\d]*)",
  pat! "(?i)\\(Android:.*\\); API (\\d+[.\\d]*)",
  pat! "(?i)Android[\\s\\-](\\d+[.\\d]*);",
  pat! "(?i) Adr |.*Android|Silk-Accelerated=[a-z]{4,5}",
  pat! "(?i)BeyondPod|AntennaPod|Podkicker|DoggCatcher|okhttp|Podcatcher Deluxe|Sonos/.+\\(ACR_|.*WhatsApp/.*A$",
  pat! "(?i)Linux; diordnA[; ](\\d+[.\\d]*)",
  pat! "(?i)^A/(\\d+[.\\d]*)/",
  pat! "(?i)Sailfish|Jolla",
  pat! "(?i)AmigaOS[ ]?(\\d+[.\\d]+)",
  pat! "(?i)AmigaOS|AmigaVoyager|Amiga-AWeb",
  pat! "(?i)ThreadX(?:_OS)?(?:/(\\d+[.\\d]*))?",
  pat! "(?i)Nucleus(?:(?: |/v?)(\\d+[.\\d]*))?",
  pat! "(?i)MTK(?:(?: |/v?)(\\d+[.\\d]*))?",
  pat! "(?i)MRE/(\\d+)\\.(\\d+).*;MAUI",
  pat! "(?i)MRE\\\\\\\\(\\d+[.\\d]+)",
  pat! "(?i).+MRE|MAUI Runtime",
  pat! "(?i)Linux.+kanotix",
  pat! "(?i)moonOS/(\\d+[.\\d]+)",
  pat! "(?i)Pardus/(\\d+[.\\d]+)",
  pat! "(?i)RokuOS/.+RokuOS (\\d+[.\\d]+)",
  pat! "(?i)Roku(?:OS|4640X)?/(?:DVP|Pluto)?-?(\\d+[.\\d]+)?",
  pat! "(?i)Roku; (?:AP|UI); (\\d+[.\\d]+)",
  pat! "(?i)RokuBrowser/.+\\(TV-([a-z0-9]+)-(\\d+[.\\d]+)\\)",
  pat! "(?i)Helio/(\\d+[.\\d]+)",
  pat! "(?i)HasCodingOs (\\d+[.\\d]+)",
  pat! "(?i)PCLinuxOS/(\\d+[.\\d]+)",
  pat! "(?i)(Ordissimo|webissimo3)",
  pat! "(?i)(?:Win|Sistema )Fenix",
  pat! "(?i)TOS; Linux",
  pat! "(?i)Arch ?Linux(?:[ /\\-](\\d+[.\\d]+))?",
  pat! "(?i)VectorLinux(?: package)?(?:[ /\\-](\\d+[.\\d]+))?",
  pat! "(?i)sles/(\\d+[.\\d]+)",
  pat! "(?i)(?:rhel|Red ?Hat(?: Enterprise)? Linux(?: Server)?)[ /](\\d+[.\\d]+)",
  pat! "(?i).+redhat-linux-gnu|rhel|Red Hat Enterprise Linux Server",
  pat! "(?i)CentOS Stream (\\d)",
  pat! "(?i)centos(?: Linux)?/(\\d+[.\\d]+) ",
  pat! "(?i).+.el(\\d+(?:[_.]\\d+)*).(?:centos|x86_64)",
  pat! "(?i)CentOS Linux (\\d)",
  pat! "(?i)Fedora/.+.fc(\\d+)",
  pat! "(?i)Mandriva(?: Linux)?/.+mdv(\\d+[.\\d]+)",
  pat! "(?i)Linux Mint/(\\d)",
  pat! "(?i)Zorin OS (\\d+)",
  pat! "(?i)Ubuntu[-/]hardy",
  pat! "(?i)Ubuntu[-/]feisty",
  pat! "(?i)Ubuntu[-/]edgy",
  pat! "(?i)Ubuntu[-/]dapper",
  pat! "(?i)Ubuntu[-/]breezy",
  pat! "(?i)Ubuntu[ /](\\d+[.\\d]+)",
  pat! "(?i)Linux; .*((?:Debian|Knoppix|Mint|Ubuntu|Kubuntu|Xubuntu|Lubuntu|Fedora|Red Hat|Mandriva|Gentoo|Sabayon|Slackware|SUSE|CentOS|BackTrack))[ /](\\d+[.\\d]+)",
  pat! "(?i)Deepin[ /](\\d+[.\\d]+)",
  pat! "(?i)(Debian|Knoppix|Mint|Ubuntu|Kubuntu|Xubuntu|Lubuntu|Fedora|Red Hat|Mandriva|Gentoo|Sabayon|Slackware|openSUSE|SUSE|CentOS|BackTrack|Freebox|ASPLinux)(?:(?: Enterprise)? Linux)?(?:[ /\\-](\\d+[.\\d]+))?",
  pat! "(?i)OS ROSA; Linux",
  pat! "(?i).+gentoo",
  pat! "(?i)(?:Web0S; .*WEBOS|webOS|web0S|Palm webOS|hpwOS)(?:[/]?(\\d+[.\\d]+))?",
  pat! "(?i)WEBOS(\\d+[.\\d]+)",
  pat! "(?i)Web0S; Linux/SmartTV.+Chr[o0]me/120",
  pat! "(?i)Web0S; Linux/SmartTV.+Chr[o0]me/108",
  pat! "(?i)Web0S; Linux/SmartTV.+Chr[o0]me/94",
  pat! "(?i)Web0S; Linux/SmartTV.+Chr[o0]me/87",
  pat! "(?i)Web0S; Linux/SmartTV.+Chr[o0]me/79",
  pat! "(?i)Web0S; Linux/SmartTV.+Chr[o0]me/68",
  pat! "(?i)Web0S; Linux/SmartTV.+Chr[o0]me/53",
  pat! "(?i)Web0S; Linux/SmartTV.+Chr[o0]me/38",
  pat! "(?i)Web0S; Linux/SmartTV.+Safari/538",
  pat! "(?i)Web0S; Linux/SmartTV.+Safari/537",
  pat! "(?i)(?:PalmOS|Palm OS)(?:[/ ](\\d+[.\\d]+))?|Palm",
  pat! "(?i)Xiino(?:.*v\\. (\\d+[.\\d]+))?",
  pat! "(?i)MorphOS(?:[ /](\\d+[.\\d]+))?",
  pat! "(?i)FBW.+FBSV/(\\d+[.\\d]*);",
  pat! "(?i)Windows.+OS: (\\d+[.\\d]*)",
  pat! "(?i)Windows; ?(\\d+[.\\d]*);",
  pat! "(?i)mingw32|winhttp|WhatsApp/.*W$",
  pat! "(?i)(?:Windows(?:-Update-Agent)?|Microsoft-(?:CryptoAPI|Delivery-Optimization|WebDAV-MiniRedir|WNS)|WINDOWS_64)/(\\d+\\.\\d+)",
  pat! "(?i)Windows-(1[01])-",
  pat! "(?i)CYGWIN_NT-10\\.0|Win(?:dows )?NT 10\\.0|Windows[ /]10",
  pat! "(?i)CYGWIN_NT-6\\.4|Windows NT 6\\.4|Windows 10|win10",
  pat! "(?i)Windows[/-](2016|2019|2022|2025)Server",
  pat! "(?i)CYGWIN_NT-6\\.3|Windows NT 6\\.3|Windows[ /]8\\.1",
  pat! "(?i)CYGWIN_NT-6\\.2|Windows NT 6\\.2|Windows 8|post2008Server",
  pat! "(?i)CYGWIN_NT-6\\.1|Windows NT 6\\.1|Windows[ /]7|win7|Windows \\(6\\.1",
  pat! "(?i)CYGWIN_NT-6\\.0|Windows NT 6\\.0|Windows Vista",
  pat! "(?i)CYGWIN_NT-5\\.2|Windows NT 5\\.2|Windows Server 2003 / XP x64|Windows/2003Server",
  pat! "(?i)CYGWIN_NT-5\\.1|Windows NT 5\\.1|(?:Microsoft-)?Windows[ -]XP",
  pat! "(?i)CYGWIN_NT-5\\.0|Windows NT 5\\.0|Windows 2000",
  pat! "(?i)CYGWIN_NT-4\\.0|Windows NT 4\\.0|WinNT|Windows NT",
  pat! "(?i)CYGWIN_ME-4\\.90|Win 9x 4\\.90|Windows ME",
  pat! "(?i)CYGWIN_98-4\\.10|Win98|Windows 98"]

/-- `__or_re`, from item 250 on (os_repo.go:806-1025). -/
def orRe_1 : List (List Chunk) := [
  pat! "(?i)CYGWIN_95-4\\.0|Win32|Win95|Windows 95|Windows_95",
  pat! "(?i)Windows 3\\.1",
  pat! "(?i)Windows|.+win32|Win64|MSDW|HandBrake Win Upd|Microsoft BITS|ms-office; MSOffice",
  pat! "(?i)OS/Microsoft_Windows_NT_(\\d+\\.\\d+)",
  pat! "(?i)Apple ?TV.*CPU (?:iPhone )?OS ((?:9|1[0-9]|26)[_.]\\d+(?:[_.]\\d+)*)",
  pat! "(?i)Apple TV; iOS ((?:9|1[0-9]|26)[_.]\\d+(?:[_.]\\d+)*)",
  pat! "(?i)iOS(?:; |/)((?:9|1[0-9]|26)\\.\\d+(?:[_.]\\d+)*) (?:model/)?AppleTV",
  pat! "(?i)tvOS[ /]?((?:9|1[0-9]|26)\\.\\d+(?:[_.]\\d+)*);?",
  pat! "(?i)AppleTV(?:/?(\\d+[.\\d]+))?",
  pat! "(?i)(?:Watch1,[12]/|Watch OS,|watchOS[ /]?)(\\d+[.\\d]*)?",
  pat! "(?i)Apple Watch",
  pat! "(?i)FBMD/iPad;.*FBSV/ ?(1[3-9]|26).(\\d+[.\\d]*);",
  pat! "(?i)iPad(?:OS)?[ /](1[3-9]|26)\\.(\\d+[.\\d]*)",
  pat! "(?i)^iPad(?:\\d+[\\,\\d]*)/(1[3-9]|26)\\.(\\d+[.\\d]*)",
  pat! "(?i)iPad(?:; (?:iOS|iPadOS|iPhone OS)|.+CPU (?:iPad ?|iPhone )?OS) ((1[3-9]|26)+(?:[_.]\\d+)*)",
  pat! "(?i)iOS[ /](1[3-9]|26)\\.(\\d+[.\\d]*).+iPad",
  pat! "(?i)iPhone OS,(1[3-9]|26)\\.(\\d+[.\\d]*).+iPad",
  pat! "(?i)iphoneos(1[3-9]|26)\\.(\\d+[.\\d]*); iPad",
  pat! "(?i)Pinterest for iOS/.*iPad.*; (\\d(?:[\\d.]*))[)]$",
  pat! "(?i)iPad/([89]|1[012])\\.(\\d+[.\\d]*)",
  pat! "(?i)^(?:iPad|iPhone)(?:\\d+[\\,\\d]*)[/_](\\d+[.\\d]+)",
  pat! "(?i)iphoneos(1[3-9]|26)\\.(\\d+[.\\d]*); iPhone",
  pat! "(?i)Pinterest for iOS/.*iPhone.*; (\\d(?:[\\d.]*))[)]$",
  pat! "(?i)iOS (\\d+[.\\d]+)\\)",
  pat! "(?i)iPhone OS ([0-9]{1})([0-9]{1})([0-9]{1})",
  pat! "(?i)(?:CPU OS|iPh(?:one)?[ _]OS|iPhone.+ OS|PodMN.+iPhone|iOS)[ _/]19(?:[_.])?(\\d+(?:[._]\\d+)*)",
  pat! "(?i)(?:CPU OS|iPh(?:one)?[ _]OS|iPhone.+ OS|PodMN.+iPhone|iOS)[ _/](\\d+(?:[_.]\\d+)*)",
  pat! "(?i)(?:iPhone ?OS|[\\s(]iOS(?: Version)?)(?:/|; |,)(\\d+[\\.\\d]+)",
  pat! "(?i)^.*(?:CFNetwork|Mana)/.+ Darwin/(\\d+[.\\d]+)",
  pat! "(?i)Darwin/25\\.([0-4])\\.0",
  pat! "(?i)Darwin/24\\.([0-6])\\.0",
  pat! "(?i)Darwin/23\\.([0-6])\\.0",
  pat! "(?i)Darwin/22\\.([0-6])\\.0",
  pat! "(?i)Darwin/21\\.([0-6])\\.0",
  pat! "(?i)Darwin/20\\.6\\.0",
  pat! "(?i)Darwin/20\\.5\\.0",
  pat! "(?i)Darwin/20\\.4\\.0",
  pat! "(?i)Darwin/20\\.3\\.0",
  pat! "(?i)Darwin/20\\.2\\.0",
  pat! "(?i)Darwin/20\\.1\\.0",
  pat! "(?i)Darwin/20\\.0\\.0",
  pat! "(?i)Darwin/19\\.([456])\\.0",
  pat! "(?i)Darwin/19\\.3\\.0",
  pat! "(?i)Darwin/19\\.2\\.0",
  pat! "(?i)Darwin/19\\.0\\.0",
  pat! "(?i)Darwin/18\\.7\\.0",
  pat! "(?i)Darwin/18\\.6\\.0",
  pat! "(?i)Darwin/18\\.5\\.0",
  pat! "(?i)Darwin/18\\.2\\.0",
  pat! "(?i)Darwin/18\\.0\\.0",
  pat! "(?i)Darwin/17\\.7\\.0",
  pat! "(?i)Darwin/17\\.6\\.0",
  pat! "(?i)Darwin/17\\.5\\.0",
  pat! "(?i)Darwin/17\\.4\\.0",
  pat! "(?i)Darwin/17\\.3\\.0",
  pat! "(?i)CFNetwork/808\\.3",
  pat! "(?i)CFNetwork/808\\.2",
  pat! "(?i)CFNetwork/808\\.1",
  pat! "(?i)CFNetwork/808\\.0",
  pat! "(?i)CFNetwork/758\\.5\\.3",
  pat! "(?i)CFNetwork/758\\.4\\.3",
  pat! "(?i)CFNetwork/758\\.3\\.15",
  pat! "(?i)CFNetwork/758\\.2\\.[78]",
  pat! "(?i)CFNetwork/758\\.1\\.6",
  pat! "(?i)CFNetwork/758\\.0\\.2",
  pat! "(?i)CFNetwork/711\\.5\\.6",
  pat! "(?i)CFNetwork/711\\.4\\.6",
  pat! "(?i)CFNetwork/711\\.3\\.18",
  pat! "(?i)CFNetwork/711\\.2\\.23",
  pat! "(?i)CFNetwork/711\\.1\\.1[26]",
  pat! "(?i)CFNetwork/711\\.0\\.6",
  pat! "(?i)CFNetwork/672\\.1",
  pat! "(?i)CFNetwork/672\\.0",
  pat! "(?i)CFNetwork/609\\.1",
  pat! "(?i)CFNetwork/60[29]",
  pat! "(?i)CFNetwork/548\\.1",
  pat! "(?i)CFNetwork/548\\.0",
  pat! "(?i)CFNetwork/485\\.13",
  pat! "(?i)CFNetwork/485\\.12",
  pat! "(?i)CFNetwork/485\\.10",
  pat! "(?i)CFNetwork/485\\.2",
  pat! "(?i)CFNetwork/467\\.12",
  pat! "(?i)(?:iPhone|iPod_touch)/(\\d+[.\\d]*)(?: hw)?/",
  pat! "(?i)iOS(\\d+\\.\\d+\\.\\d+)",
  pat! "(?i)iOS(\\d+)\\.(\\d+)0",
  pat! "(?i)FBMD/iPhone;.*FBSV/ ?(\\d+[.\\d]+);",
  pat! "(?i)(?:FBIOS|Messenger(?:Lite)?ForiOS).*FBSV/ ?(\\d+[.\\d]*);",
  pat! "(?i)iPhone OS,([\\d.]+).+(?:iPhone|iPod)",
  pat! "(?i)iPad.+; (\\d+[.\\d]+);",
  pat! "(?i)iPhone.+; Version (\\d+[.\\d]+)",
  pat! "(?i)OS=iOS;OSVer=(\\d+[.\\d]+);",
  pat! "(?i)os=Apple-iOS.+osversion=(\\d+[.\\d]+)/",
  pat! "(?i)(?:Apple-)?(?:iPhone|iPad|iPod)(?:.*Mac OS X.*Version/(\\d+\\.\\d+)|; Opera)?",
  pat! "(?i)dv\\(iPh.+ov\\((\\d+(?:[_.]\\d+)*)\\);",
  pat! "(?i)(?:Podcasts/(?:[\\d.]+)|Instacast(?:HD)?/(?:\\d\\.[\\d\\.abc]+)|Pocket Casts, iOS|\\(iOS\\)|iOS; Opera|Overcast|Castro|Podcat|iCatcher|RSSRadio/|MobileSafari/|WhatsApp/.*i$)",
  pat! "(?i)iTunes-(AppleTV|iPod|iPad|iPhone)/(?:[\\d.]+)",
  pat! "(?i)iOS[ /]Version ([\\d.]+)",
  pat! "(?i)Sonos/.+\\(ICRU_",
  pat! "(?i)CaptiveNetworkSupport|AirPlay|.*[ \\.\\-/]iOS",
  pat! "(?i)(?:CFNetwork|Mana|StudioDisplay)/.+Darwin(?:/|; )(?:[\\d.]+).+(?:x86_64|i386|Power%20Macintosh)|(?:x86_64-apple-)?darwin(?:[\\d.]+)|C?Python.*Darwin|PowerMac|com\\.apple\\.Safari\\.SearchHelper|^(?:com\\.apple\\.WebKit\\.Networking|NetworkingExtension|Safari)",
  pat! "(?i)(?:x86_64-apple-)?Darwin(?:/|; )?25\\.([0-4])\\.0",
  pat! "(?i)(?:x86_64-apple-)?Darwin(?:/|; )?24\\.([0-6])\\.0",
  pat! "(?i)(?:x86_64-apple-)?Darwin(?:/|; )?23\\.([0-6])\\.0",
  pat! "(?i)(?:x86_64-apple-)?Darwin(?:/|; )?22\\.6\\.0",
  pat! "(?i)(?:x86_64-apple-)?Darwin(?:/|; )?22\\.5\\.0",
  pat! "(?i)(?:x86_64-apple-)?Darwin(?:/|; )?22\\.4\\.0",
  pat! "(?i)(?:x86_64-apple-)?Darwin(?:/|; )?22\\.3\\.0",
  pat! "(?i)(?:x86_64-apple-)?Darwin(?:/|; )?22\\.2\\.0",
  pat! "(?i)(?:x86_64-apple-)?Darwin(?:/|; )?22\\.1\\.0",
  pat! "(?i)(?:x86_64-apple-)?Darwin(?:/|; )?22\\.0\\.0",
  pat! "(?i)(?:x86_64-apple-)?Darwin(?:/|; )?21\\.6\\.0",
  pat! "(?i)(?:x86_64-apple-)?Darwin(?:/|; )?21\\.5\\.0",
  pat! "(?i)(?:x86_64-apple-)?Darwin(?:/|; )?21\\.4\\.0",
  pat! "(?i)(?:x86_64-apple-)?Darwin(?:/|; )?21\\.3\\.0",
  pat! "(?i)(?:x86_64-apple-)?Darwin(?:/|; )?21\\.2\\.0",
  pat! "(?i)(?:x86_64-apple-)?Darwin(?:/|; )?21\\.1\\.0",
  pat! "(?i)(?:x86_64-apple-)?Darwin(?:/|; )?21\\.0\\.0",
  pat! "(?i)(?:x86_64-apple-)?Darwin(?:/|; )?20\\.6\\.0",
  pat! "(?i)(?:x86_64-apple-)?Darwin(?:/|; )?20\\.5\\.0",
  pat! "(?i)(?:x86_64-apple-)?Darwin(?:/|; )?20\\.4\\.0",
  pat! "(?i)(?:x86_64-apple-)?Darwin(?:/|; )?20\\.3\\.0",
  pat! "(?i)(?:x86_64-apple-)?Darwin(?:/|; )?20\\.2\\.0.*",
  pat! "(?i)(?:x86_64-apple-)?Darwin(?:/|; )?20\\.[01]\\.0",
  pat! "(?i)(?:x86_64-apple-)?Darwin(?:/|; )?19\\.([2-6])\\.0",
  pat! "(?i)(?:x86_64-apple-)?Darwin(?:/|; )?19\\.0\\.0",
  pat! "(?i)(?:x86_64-apple-)?Darwin(?:/|; )?18\\.7\\.0",
  pat! "(?i)(?:x86_64-apple-)?Darwin(?:/|; )?18\\.6\\.0",
  pat! "(?i)(?:x86_64-apple-)?Darwin(?:/|; )?18\\.5\\.0",
  pat! "(?i)(?:x86_64-apple-)?Darwin(?:/|; )?18\\.2\\.0",
  pat! "(?i)(?:x86_64-apple-)?Darwin(?:/|; )?18\\.0\\.0",
  pat! "(?i)(?:x86_64-apple-)?Darwin(?:/|; )?17\\.7\\.0",
  pat! "(?i)(?:x86_64-apple-)?Darwin(?:/|; )?17\\.6\\.0",
  pat! "(?i)(?:x86_64-apple-)?Darwin(?:/|; )?17\\.5\\.0",
  pat! "(?i)(?:x86_64-apple-)?Darwin(?:/|; )?17\\.4\\.0",
  pat! "(?i)(?:x86_64-apple-)?Darwin(?:/|; )?17\\.3\\.0",
  pat! "(?i)(?:x86_64-apple-)?Darwin(?:/|; )?17\\.2\\.0",
  pat! "(?i)(?:x86_64-apple-)?Darwin(?:/|; )?17\\.0\\.0",
  pat! "(?i)(?:x86_64-apple-)?Darwin(?:/|; )?16\\.7\\.0",
  pat! "(?i)(?:x86_64-apple-)?Darwin(?:/|; )?16\\.6\\.0",
  pat! "(?i)(?:x86_64-apple-)?Darwin(?:/|; )?16\\.5\\.0",
  pat! "(?i)(?:x86_64-apple-)?Darwin(?:/|; )?16\\.4\\.0",
  pat! "(?i)(?:x86_64-apple-)?Darwin(?:/|; )?16\\.3\\.0",
  pat! "(?i)(?:x86_64-apple-)?Darwin(?:/|; )?16\\.2\\.0",
  pat! "(?i)(?:x86_64-apple-)?Darwin(?:/|; )?16\\.1\\.0",
  pat! "(?i)(?:x86_64-apple-)?Darwin(?:/|; )?16\\.0\\.0",
  pat! "(?i)(?:x86_64-apple-)?Darwin(?:/|; )?15\\.([2-6])\\.0",
  pat! "(?i)(?:x86_64-apple-)?Darwin(?:/|; )?14\\.([3-5])\\.0",
  pat! "(?i)(?:x86_64-apple-)?Darwin(?:/|; )?14\\.1\\.0",
  pat! "(?i)(?:x86_64-apple-)?Darwin(?:/|; )?14\\.0\\.0",
  pat! "(?i)(?:x86_64-apple-)?Darwin(?:/|; )?13\\.4\\.0",
  pat! "(?i)(?:x86_64-apple-)?Darwin(?:/|; )?13\\.3\\.0",
  pat! "(?i)(?:x86_64-apple-)?Darwin(?:/|; )?13\\.2\\.0",
  pat! "(?i)(?:x86_64-apple-)?Darwin(?:/|; )?13\\.1\\.0",
  pat! "(?i)(?:x86_64-apple-)?Darwin(?:/|; )?13\\.0\\.0",
  pat! "(?i)(?:x86_64-apple-)?Darwin(?:/|; )?12\\.6\\.0",
  pat! "(?i)(?:x86_64-apple-)?Darwin(?:/|; )?12\\.5\\.0",
  pat! "(?i)(?:x86_64-apple-)?Darwin(?:/|; )?12\\.4\\.0",
  pat! "(?i)(?:x86_64-apple-)?Darwin(?:/|; )?12\\.3\\.0",
  pat! "(?i)(?:x86_64-apple-)?Darwin(?:/|; )?12\\.2\\.0",
  pat! "(?i)(?:x86_64-apple-)?Darwin(?:/|; )?12\\.1\\.0",
  pat! "(?i)(?:x86_64-apple-)?Darwin(?:/|; )?11\\.5\\.0",
  pat! "(?i)(?:x86_64-apple-)?Darwin(?:/|; )?11\\.4\\.2",
  pat! "(?i)(?:x86_64-apple-)?Darwin(?:/|; )?11\\.4\\.0",
  pat! "(?i)(?:x86_64-apple-)?Darwin(?:/|; )?11\\.3\\.0",
  pat! "(?i)(?:x86_64-apple-)?Darwin(?:/|; )?11\\.2\\.0",
  pat! "(?i)(?:x86_64-apple-)?Darwin(?:/|; )?11\\.1\\.0",
  pat! "(?i)(?:x86_64-apple-)?Darwin(?:/|; )?10\\.8\\.0",
  pat! "(?i)(?:x86_64-apple-)?Darwin(?:/|; )?10\\.7\\.[34]",
  pat! "(?i)(?:x86_64-apple-)?Darwin(?:/|; )?10\\.3\\.0",
  pat! "(?i)(?:x86_64-apple-)?Darwin(?:/|; )?10\\.0\\.0",
  pat! "(?i)(?:x86_64-apple-)?Darwin(?:/|; )?9\\.8\\.0",
  pat! "(?i)(?:x86_64-apple-)?Darwin(?:/|; )?9\\.7\\.1",
  pat! "(?i)(?:x86_64-apple-)?Darwin(?:/|; )?9\\.6\\.2",
  pat! "(?i)(?:x86_64-apple-)?Darwin(?:/|; )?9\\.5\\.[05]",
  pat! "(?i)Macintosh;Mac OS X \\((\\d+[.\\d]+)\\);",
  pat! "(?i)Mac[ +]OS[ +]?X(?:[ /,](?:Version )?(\\d+(?:[_.]\\d+)+))?",
  pat! "(?i)Mac (?:OS/)?(\\d+(?:[_.]\\d+)+)",
  pat! "(?i)(?:macOS(?:\\(Catalyst\\))?[ /,]|Mac(?:os)?-)(\\d+[.\\d]+)",
  pat! "(?i)Macintosh; OS X (\\d+[.\\d]+)",
  pat! "(?i)OSX/(\\d+[.\\d]+)",
  pat! "(?i)Darwin|Macintosh|Mac[ _]PowerPC|PPC|iMac|MacBook|.*macOS|AppleExchangeWebServices|com\\.apple\\.trustd|Sonos/.+\\(MDCR_|WhatsApp/.*N$|nook browser",
  pat! "(?i)(?:BB10;.+Version|Black[Bb]erry[0-9a-z]+|Black[Bb]erry.+Version)/(\\d+[.\\d]+)",
  pat! "(?i)RIM Tablet OS (\\d+[.\\d]+)",
  pat! "(?i)RIM Tablet OS|QNX|Play[Bb]ook",
  pat! "(?i)BeOS[ +]?(\\d[.\\d]*)?",
  pat! "(?i)Symbian/3.+NokiaBrowser/7\\.3",
  pat! "(?i)Symbian/3.+NokiaBrowser/7\\.4",
  pat! "(?i)(?:Series ?60|SymbOS|S60)(?:[ /]?(\\d+[.\\d]+|V\\d+))?",
  pat! "(?i)SymbianOS/(\\d+[.\\d]+)",
  pat! "(?i)MeeGo|WeTab",
  pat! "(?i)Symbian(?: OS)?|SymbOS",
  pat! "(?i)(?:Mobile|Tablet);.+Firefox/\\d+\\.\\d+",
  pat! "(?i)RISC OS(?:-NC)?(?:[ /](\\d+[.\\d]+))?",
  pat! "(?i)Inferno(?:[ /](\\d+[.\\d]+))?",
  pat! "(?i)bada(?:[ /](\\d+[.\\d]+))?",
  pat! "(?i)REX; U;",
  pat! "(?i)(?:Brew(?: MP)?|BMP)(?:[ /](\\d+[.\\d]+))?",
  pat! "(?i)GoogleTV(?:[ /](\\d+[.\\d]+))?",
  pat! "(?i)WebTV/(\\d+[.\\d]+)",
  pat! "(?i)(?:SunOS|Solaris)(?:[/ ](\\d+[.\\d]+))?",
  pat! "(?i)AIX(?:[/ ]?(\\d+[.\\d]+))?",
  pat! "(?i)HP-UX(?:[/ ]?(\\d+[.\\d]+))?",
  pat! "(?i)ElectroBSD(?:[/ ]?(\\d+[.\\d]+))?",
  pat! "(?i)FreeBSD(?:[/ ]?(\\d+[.\\d]+))?",
  pat! "(?i)NetBSD(?:[/ ]?(\\d+[.\\d]+))?",
  pat! "(?i)OpenBSD(?:[/ ]?(\\d+[.\\d]+))?",
  pat! "(?i)DragonFly(?:[/ ]?(\\d+[.\\d]+))?",
  pat! "(?i)Syllable(?:[/ ]?(\\d+[.\\d]+))?",
  pat! "(?i)IRIX(?:;?64)?(?:[/ ]?(\\d+[.\\d]+))?",
  pat! "(?i)OSF1(?:[/ ]?v?(\\d+[.\\d]+))?",
  pat! "(?i)Nintendo (Wii|Switch)",
  pat! "(?i)PlayStation.+; Linux (\\d+[.\\d]+)",
  pat! "(?i)PlayStation ?(\\d)(?:[/ ](?:Pro )?(\\d+[.\\d]+))?",
  pat! "(?i)Xbox|KIN\\.(?:One|Two)",
  pat! "(?i)Nitro|Nintendo ([3]?DS[i]?)",
  pat! "(?i)PlayStation ((?:Portable|Vita))",
  pat! "(?i)OS/2; Warp (\\d+[.\\d]+)",
  pat! "(?i)Linux/(\\d+[.\\d]+)",
  pat! "(?i)Linux[^a-z]|Cinnamon/(?:\\d+[.\\d]+)|.+(?:pc|unknown)-linux-gnu|X11",
  pat! "(?i)Java ME|J2ME|Profile/MIDP|CLDC|Java; U; MIDP|MMP/\\d\\.\\d"]

/-- `__or_re` (os_repo.go). -/
def orRe : List (List Chunk) := orRe_0 ++ orRe_1

/-- `__or_buf` (os_repo.go:1028-1210). -/
def orBuf : List Chunk := [
  chunk! "NuttXContikiMINIXPlan 9LinpusArcaOSGhostBSDelementary OSMocor OSSpreadTrumTitan OSKolibriOSCoolita OSRTOS & NextMeta HorizonLeafOSPuffin OSCloud PhonerisingOSRisingOSAzure LinuxViziOSblackPanther OSWoPhoneKIN OSStar-Blade OSQtopiaOpenVMSAROSNeXTSTEPNEWS-OSULTRIXTurbolinuxJoli OSGENIXgNewSenseGEOSMotorola EZXBaidu YiRed StarProxmox VEOpenVZRocky LinuxClear Linux OSAlpine LinuxScientific LinuxEulerOSLoongnixAOSC OSSerenityOSHELIX OSHelix PhoneArmadillo OSArmadilloWebianLiri OSFRITZ!OSUOSRaspbianRaspberry Pi OSBrightSignOSLuneOSOracle LinuxKaliTiVo OSVIDAAPICO OSRedOSRouterOSSirin OSFINNEY U1NovaBliss OS12TencentOSAmazon Linux2023China OS COS like AndroidClearOS MobilePlasma MobileKreaTVOpera TVGridOSCaixa M\xc3\xa1gicaCaixaMagicaMageiaWhale OS1Zeasn/OrsayTizenYunOSWindows PhoneWindows CEWindows MobileWindows RT8.1Windows IoT10KaiOSOpenHarmonyHarmonyOSHmos/11.0.0RazoDroiDMildWildCyanogenModMocorDroidFydeOSSmartisan OS1.5SM8012.5SM9193.02.06.0Smartisan U3 ProFire OS1487654.5.1432cordova-amazon-fireosRevenge OSrevengeos_x2Lineage OSAndroid 1623Android 1522Android 1421Android 1320.019.1Android 1219.0Android 1118.0Android 1017.0Android 916.015.1Android 815.014.1Android 714.0Android 613.012.1Android 512.011.010.210.1Android 49.1.0Resurrection Remix OSRemix OSRemixOS 5Remix ProFreeBSDWear OSSeewoOSChrome OSAndroid TVAndroid1615131197.15.14.44.34.24.14.0.34.0.1Android MarshmallowSailfish OSAmigaOSThreadXMTK / NucleusMRELinspireLindowsOSZenwalkZenwalk GNU LinuxKanotixmoonOSForesight LinuxPardusPureOSLibrem 5OpenWrtuclient-fetchRoku OSDVKBuntudvkbuntuLumin OSHasCodingOSPCLinuxOSOrdissimoFenixTmaxOSMaemoArch LinuxVectorLinuxSUSERed HatCentOS StreamCentOSFedoraMandrivaMintZorinOSUbuntu8.04Debiandebian/stretch9.137.046.106.065.10DeepinRosaGentoowebOS2524WEBOS1palmOSMorphOSWindowsServer $1Windows/2012ServerR2Server 2012 R2Windows/2012ServerServer 2012Windows/2008ServerR2Server 2008 R2VistaServer 2003XP2000NTME98953.1Haiku OSHaikutvOSwatchOSiPadOSiOS26.$118.$117.$116.$115.$114.714.614.514.414.314.213.$113.3.113.312.412.312.211.4.111.411.311.2.611.2CFNetwork/88911.1CFNetwork/887CFNetwork/81110.310.0CFNetwork/8089.3.59.3.29.39.29.19.08.4.18.48.38.28.07.06.15.04.03.2CFNetwork/459Mac14.$113.513.413.213.113.0.112.512.0.111.510.15.$110.1510.1410.14.510.14.410.14.110.13.610.13.510.13.410.13.310.13.210.13.110.1310.12.610.12.510.12.410.12.310.12.210.12.110.1210.11.$1CFNetwork/76010.1110.10.$110.10.210.1010.9.510.9.410.9.310.9.210.9.010.8.510.8.410.8.310.8.210.8.110.7.510.7.410.7.310.7.210.7.110.6.810.6.710.6.310.610.5.810.5.710.5.610.5.5FuchsiaBlackBerry OSBlackBerry Tablet OSBlackBerrybPodBeOSSymbian^3AnnaBelleSymbian/3Symbian OS Series 60Symbian OS Series 40Series40Symbian OSMeeGoSymbianNokiaFirefox OSRISC OSInfernoBadaREXBrewGoogle TVWebTVSolarisAIXHP-UXBSDBSD FourElectroBSDNetBSDOpenBSDDragonFlySyllableIRIXOSF1NintendoPlayStationXbox360Nintendo MobilePlayStation PortableOS/2GNU/LinuxJava ME"]

end Verif.Data
