import Verif.Data.Bytes
/-
Generated by tools/gen_tables.py from hint_repo.go. Do not edit.
-/
set_option maxRecDepth 10000
namespace Verif.Data

/-- `__hr_idx`, from item 0 on (hint_repo.go:12-512). -/
def hrIdx_0 : List (Nat × Nat) := [
  (0xabcf51d62c0a1f8d, 8),
  (0xa2a08eaceaec6479, 0x80000000f),
  (0xe5ca39ae89f9f24c, 0xf0000001d),
  (0x59b71a866a99cee7, 0x1d0000002e),
  (0xc8ee45ffb591858, 0x2e0000003b),
  (0x58098e344aaf5b2, 0x2e0000003b),
  (0xa66d3a0cc50c4ce6, 0x3b00000044),
  (0x2401caa669e5531, 0x440000004f),
  (0xf2ec288f2f0d2ead, 0x4f00000065),
  (0x5c60636fc640ee75, 0x6500000068),
  (0x964016736c2469ea, 0x6800000071),
  (0xa4aa580f76099149, 0x710000007a),
  (0x6e85b43801419504, 0x7a0000007f),
  (0xcb460cb98d3dcc1e, 0x7f0000008c),
  (0x2dfb96a96dd65898, 0x8c0000009e),
  (0x7e367332b17e591, 0x9e000000ac),
  (0x3f1098f513c46f2e, 0xac000000b8),
  (0xb2f4ed56602ef889, 0xb8000000cc),
  (0xfb1c3c3b447ab22, 0xcc000000d2),
  (0x7b723f23e28dc27f, 0x80000000f),
  (0xb8822a15807d8c29, 0xd2000000d7),
  (0x20fe617b591b41af, 0xd7000000e3),
  (0x923017ed36b91c64, 0xd7000000e3),
  (0x811b3ff9f5072fc9, 0x440000004f),
  (0x3489c5ce70204f68, 0xe3000000eb),
  (0x87c61f45f3804bf4, 0xeb000000f5),
  (0x6b2eb3879c112bc8, 0xf5000000fc),
  (0x29b9c085ccd1dace, 0xfc00000106),
  (0x2c3ab9a40a9bb8a8, 0x1060000010a),
  (0xa1ff5ee16d2b8813, 0x10a0000010f),
  (0xc033ebce146256, 0x10f00000117),
  (0x582e887aba28371f, 0x11700000129),
  (0x427ba9c8bf6dee21, 0x12900000137),
  (0xf8d7986663ebf889, 0x1370000013c),
  (0xadc95684e6c1ebc6, 0x13c00000146),
  (0xdf7957f5d4f7edc1, 0x14600000156),
  (0x8b038c7770a8fae0, 0x1560000016e),
  (0x3db4fcf60a0b7e65, 0x16e0000017b),
  (0xd56d0458deecaaaf, 0x17b00000188),
  (0x676f49c845b0ec7a, 0x18800000192),
  (0x639b00495980fe73, 0x192000001a9),
  (0x65b5fe589fe71558, 0x1a9000001b6),
  (0x62c11f76334d048f, 0x1b6000001c8),
  (0xdfdcb1f46f01b6ae, 0x1c8000001d6),
  (0x1801cc1cf9e82e29, 0x1d6000001e8),
  (0x695e3f638b4a90bf, 0x1e800000202),
  (0x388a57ccaf90aefb, 0x20200000214),
  (0x565878cd1e1ff90c, 0x2140000021f),
  (0x9d7b075ad6aa223a, 0x21f00000234),
  (0xdfd2baf46ef971cd, 0x23400000238),
  (0x5a0546e501215a3d, 0x23800000249),
  (0x7dafcf54159562bb, 0x24900000254),
  (0x1362790893156bb5, 0x2540000025f),
  (0x50194d33139923e8, 0x25f00000268),
  (0x4d556f8f0166dd9d, 0x26800000273),
  (0x2eeae0d70f3e1a2f, 0x27300000279),
  (0x887e06f5237922a5, 0x27900000280),
  (0xf533c3379de7caee, 0x28000000295),
  (0xbea252ed78e6c195, 0x295000002a1),
  (0xe38fa0ed8cc5c725, 0x2a1000002a9),
  (0x14cdc3ec89b00bc3, 0x2a9000002bf),
  (0xf08633ede81f767a, 0x2bf000002d5),
  (0x560b1ce701d49811, 0x2d5000002db),
  (0xa74f821cc9abc902, 0x2db000002e5),
  (0x54e2c647429cbd1c, 0x2e5000002fc),
  (0x3c27837339a6ae0e, 0x2fc00000308),
  (0xb7f91545dc3832e9, 0x30800000318),
  (0x65aad4f246c05db4, 0x3180000031e),
  (0x6b406e5cbb08193b, 0x31e00000329),
  (0x723ebcabc19fa8bd, 0x32900000332),
  (0x350dba662af74af7, 0x33200000339),
  (0xdad4f93bf95db19b, 0x33900000341),
  (0x672b6c65839853ce, 0x34100000346),
  (0xa7cbdf7abc4e4561, 0x34600000351),
  (0x661bdeccfe9eacde, 0x3510000035c),
  (0x2a87e5ec31bb082f, 0x35c00000365),
  (0xcfd27cfc3b02d2c7, 0x3650000036d),
  (0xcb26189f62c7f263, 0x36d00000371),
  (0xbb17b74e25f08e0a, 0x37100000378),
  (0x67480ec1e320203e, 0x3780000037f),
  (0x305c99719fe69a02, 0x3780000037f),
  (0xb451ce5bb8ab1ead, 0x37f00000385),
  (0x433ea320a40e4ce5, 0x38500000390),
  (0xe7baaffda3c7bc5, 0x39000000393),
  (0x8282870da2b417be, 0x393000003a1),
  (0x474c7a6768c6184f, 0x393000003a1),
  (0xbc55bc8030818d90, 0x3a1000003b2),
  (0xe35b520dd9ffe15a, 0x3b2000003c7),
  (0xe07651781f78a1c7, 0x3c7000003d8),
  (0x59af7c7095fcfa69, 0x3d8000003e0),
  (0x5ce0b8da2b1cbf41, 0x3e0000003e4),
  (0xc20915fe32d90f5f, 0x3e4000003f0),
  (0x52902c83573e3fbf, 0x3f0000003fa),
  (0xcf1259f80e9eed0f, 0x3fa00000402),
  (0x1acbabf14821116d, 0x40200000410),
  (0x1e4a4e098a5fb56c, 0x41000000419),
  (0x511ab2706d22a458, 0x41900000427),
  (0x9162830123617223, 0x42700000433),
  (0x6db521f7d22e80dc, 0x43300000437),
  (0x67541a18fa2c97c5, 0x4370000043e),
  (0x5138acf214126baa, 0x43e00000443),
  (0x2ba5e411b28d492d, 0x44300000448),
  (0x779214d0bb794951, 0x44800000452),
  (0xa50ec927686cb241, 0x45200000461),
  (0xf93997afeaeb27b, 0x4610000046d),
  (0x574694203e30f11f, 0x46d0000047a),
  (0xe8a8d11ab522d98a, 0x47a00000483),
  (0x545b07866c1a9273, 0x4830000048d),
  (0x1f8fc4be81092692, 0x48d00000496),
  (0xb8a327384f948774, 0x496000004a5),
  (0x2cb1d621b7e3e9ff, 0x4a5000004ab),
  (0x170e60aeae761f72, 0x4ab000004b4),
  (0x8d3b89ea1a88df46, 0x4b4000004c0),
  (0xd0b0be44e5953e90, 0x4c0000004c6),
  (0xe07d5b71fc06a1ce, 0x4c6000004d0),
  (0xf090cec908bf1094, 0x4d0000004d6),
  (0xd9bbd1d642dceca3, 0x4d6000004de),
  (0x7c2f53c4619cbaef, 0x4de000004ea),
  (0xa96fb2e737b23266, 0x4ea000004f5),
  (0x19098670c5d70f80, 0x4f500000502),
  (0xf5a289dd71e2ba6d, 0x5020000050b),
  (0x52894b0ba763c67b, 0x50b00000515),
  (0xaf897b0b561de9d3, 0x5150000051a),
  (0x1768075af88d39af, 0x51a00000522),
  (0x7f27f2edbed98bc1, 0x5220000052a),
  (0x8968bd53bac08e86, 0x52a0000053c),
  (0x9da618db995391a0, 0x53c00000545),
  (0x493d4f2ff820541, 0x53c00000545),
  (0x7b68bb4b07e994fb, 0x54500000554),
  (0xfd573cda3b52a465, 0x5540000055d),
  (0x71f2948a06e8c112, 0x55d00000562),
  (0x2f8ca575b9d804cd, 0x5620000056a),
  (0x7ccab747eaebac6b, 0x56a00000576),
  (0xab739625372f768f, 0x5760000057c),
  (0x597ee534f9c1d1e8, 0x57c00000590),
  (0xda6f776df8f4bd84, 0x59000000599),
  (0xe7889f9077cad37c, 0x5990000059f),
  (0x76298e2108a5db9e, 0x59f000005a6),
  (0x3df59c006ff65802, 0x5a6000005b2),
  (0x33a43af92ec8750f, 0x5b2000005be),
  (0x38ca9d956ba951aa, 0x5be000005cb),
  (0xe4329214ee4b502b, 0x5cb000005d8),
  (0x4be2d870e6c73e37, 0x5d8000005dd),
  (0xdc4dc435e817101, 0x5dd000005ed),
  (0x7741d111c0ecd2d4, 0x5ed000005f2),
  (0xb28f7ce073685ba6, 0x5f200000601),
  (0xa429fe2ff042d77c, 0x60100000608),
  (0x9942e53848a0dabe, 0x60800000612),
  (0x734d5d1f4ef1158c, 0x61200000618),
  (0xa2786fbcfcae4d8, 0x6180000061d),
  (0xb3cd422f2e42c74f, 0x61d00000621),
  (0xe93cc1a0194db689, 0x62100000625),
  (0xcc951a9631a47872, 0x6250000062a),
  (0x34b8fa2ecf6bf9b0, 0x62a00000632),
  (0x79ae2c1c8de79dbf, 0x6320000063c),
  (0x5d735888655c94ac, 0x63c0000064b),
  (0xb751ebf2c747c487, 0x64b0000064f),
  (0xa971a4db61b6efe7, 0x64f0000065b),
  (0x7fe3575170112c90, 0x65b00000663),
  (0x79815a5c232177dc, 0x6630000066d),
  (0xb08e8a5f3d788bcc, 0x66d00000679),
  (0x89d90488fd5234f9, 0x67900000680),
  (0x4e16f1f7a9d8866a, 0x67900000680),
  (0x5e7ab4d8e1b9d187, 0x67900000680),
  (0xbb3b5d201c7eb06c, 0x67900000680),
  (0x4ab8a9092ee6c81e, 0x6800000068b),
  (0x5fd7106daa8f0eb, 0x68b00000696),
  (0xabf8855dd8b66293, 0x69600000699),
  (0x6178258b9585a69f, 0x699000006a7),
  (0x4df21831ede90d98, 0x6a7000006c1),
  (0xc218c2310091b5f7, 0x6c1000006da),
  (0x199367069ddfc117, 0x6da000006e4),
  (0x9b05c6d336e38db2, 0x6e4000006ec),
  (0xe053f1adc72af31c, 0x6ec000006fb),
  (0xcfd5e1a8f158d577, 0x6fb00000716),
  (0x54b48e724146768a, 0x71600000721),
  (0x18f38c71421dc859, 0x7210000073c),
  (0x55ba7897c300b604, 0x73c00000748),
  (0x26e591b89f502c42, 0x74800000751),
  (0xe48e8217bd814066, 0x75100000755),
  (0x7c52ba33b3a76647, 0x75500000758),
  (0x1ebc44eefca5bdd9, 0x75800000767),
  (0xc07f5eae948f4665, 0x7670000076d),
  (0x9b699229b9c9efe9, 0x76d00000771),
  (0x9524386634d2ec7d, 0x77100000775),
  (0xb6731a2a3f761cfc, 0x77500000787),
  (0xe2efcb9eed0b10ad, 0x78700000794),
  (0xbad5651500638e1f, 0x7940000079d),
  (0x2d306fa41ddbf01b, 0x79d000007a5),
  (0xc13f1cebdd53a5c3, 0x79d000007a5),
  (0xa0e920e1c0f32fa2, 0x7a5000007b3),
  (0x8a5e411bc6d06990, 0x7b3000007b8),
  (0x5e1db58566da9133, 0x7b8000007c5),
  (0xf25059908c09b3b, 0x7c5000007cc),
  (0x849868428bda0225, 0x7cc000007d4),
  (0xfe3b84643e39ed6a, 0x7d4000007e3),
  (0x73d9d1ae78eedde4, 0x7e3000007f0),
  (0x6980964bcaad7cf5, 0x7f0000007f8),
  (0x41bd6d94a04853e7, 0x7f800000808),
  (0x32a789a043e32e0, 0x80800000819),
  (0x9e26f6e24dd1f293, 0x8190000082f),
  (0x9e2068a2feaeb8a5, 0x82f0000083c),
  (0x91ebad73b191c3f4, 0x83c0000084e),
  (0x6aeee1b6bcd46a02, 0x84e0000085f),
  (0x9915bcf3dcc2b6a4, 0x85f00000865),
  (0x5cc83d997c189597, 0x8650000086a),
  (0x1a473ea540a5c726, 0x86a0000087a),
  (0xab473db5fbc99f49, 0x87a00000888),
  (0x91d0f17d79e34cd1, 0x88800000897),
  (0x69a79a15eb47e95b, 0x897000008a6),
  (0x9753c55999672342, 0x8a6000008ae),
  (0xd83cb4c8771f8048, 0x8ae000008bc),
  (0xf0fe556d0d79ad2e, 0x8bc000008ca),
  (0xb27f67eb8f230149, 0x8ca000008d2),
  (0x3295b69008aeab7e, 0x8d2000008e2),
  (0x846e474719a1293b, 0x8e2000008f2),
  (0x36a310b83389a1b0, 0x8f200000906),
  (0x56a893d9528ea69c, 0x90600000915),
  (0x8093221278ec0287, 0x9150000091f),
  (0x5c20e8fcdc770771, 0x91f00000935),
  (0x65e4a84bc0df8e7d, 0x93500000942),
  (0x779c4308fa85c99d, 0x94200000951),
  (0x343f95041555d963, 0x7e3000007f0),
  (0x10a5b8f8d46715, 0x95100000963),
  (0x92ec609e89950915, 0x9630000096e),
  (0x896a74f644653070, 0x96e0000097d),
  (0x2b7df670bbd36020, 0x97d0000098b),
  (0xf40a6a86e7f968a2, 0x98b0000099c),
  (0x15d915edea872239, 0x99c000009a8),
  (0xb58f8d1af09000d3, 0x9a8000009b7),
  (0x9ebace530ff8956b, 0x9b7000009c8),
  (0x2acc588da2003746, 0x9c8000009d3),
  (0xcbf5b68f7b6bafcd, 0x9c8000009d3),
  (0xd3cf6c11a2ac342e, 0x9c8000009d3),
  (0xf6621f0a8d1a44b1, 0x9c8000009d3),
  (0x16d18ac7a9be4ba0, 0x9c8000009d3),
  (0x47e54eec0561ff60, 0x9d3000009e6),
  (0x7be83604636ec74b, 0x9e6000009ec),
  (0x89692c09bdd52a73, 0x9ec00000a01),
  (0x2c986dc59aec8d57, 0xa0100000a0d),
  (0xfd21a980da4bfe44, 0xa0d00000a12),
  (0x505dbbe687a8340f, 0xa1200000a19),
  (0x5d7201a24260eafc, 0xa1900000a25),
  (0x91356669ece03ebd, 0xa2500000a31),
  (0x4b2e94bef4b823a8, 0xa2500000a31),
  (0x742841db6af67c0d, 0xa3100000a3e),
  (0xe672d0d0314f608, 0xa3e00000a48),
  (0x30032a64f69d524a, 0xa4800000a55),
  (0x6ec427df0611a91b, 0xa4800000a55),
  (0xca74a4324d0f0315, 0xa5500000a5f),
  (0x77a96070ce31106c, 0xa5f00000a75),
  (0x2ff0e4f81e6d19b0, 0xa7500000a80),
  (0x8409b8f04ea6b277, 0xa8000000a92),
  (0x7c96c73451b871c2, 0xa9200000a97),
  (0xea6611290065f0b, 0xa9200000a97),
  (0xe9f548b43a594792, 0xa9700000a9f),
  (0x119b4bb3bfdccc8c, 0xa9f00000aa7),
  (0xae72c64393a339f3, 0xaa700000ab4),
  (0xcbb9733c8dc857e9, 0xab400000ac3),
  (0x2c1afb1ed5a4d66e, 0xac300000ad0),
  (0x3cc99f4af69ef34, 0xad000000ade),
  (0x2d94d16c62211c72, 0xade00000af0),
  (0xbcfb41d84aa0083b, 0xaf000000afa),
  (0x404e78a383b96ec, 0xafa00000b05),
  (0xd3de3d13f746936c, 0xb0500000b11),
  (0xc7853470ca62c1ab, 0xb1100000b1d),
  (0x90dc78067abc0ae, 0xb1d00000b27),
  (0x179181bb3f562fc0, 0xb2700000b35),
  (0x715bc978a859787f, 0xb3500000b3a),
  (0x79590167ecebbf9c, 0xb3a00000b4f),
  (0xc12b12f4bbd5731d, 0xb4f00000b61),
  (0x73124e3da31734d4, 0xb6100000b75),
  (0x8642b8526028aa87, 0xb4f00000b61),
  (0x2ed8c8d8690a9aa5, 0xb7500000b8d),
  (0x47443799e82b5384, 0xb8d00000b9d),
  (0xc6d8ba441e75b648, 0xb9d00000ba4),
  (0xc21b48fa83a889c9, 0xba400000baa),
  (0x76fcd9068556db3f, 0xbaa00000baf),
  (0x45e16953fca7f4c2, 0xbaf00000bbb),
  (0x803043337b05f562, 0xbbb00000bc7),
  (0x1da906ca88dec510, 0xbc700000bd2),
  (0x12c42b683deda7f8, 0xbd200000bde),
  (0x9f91e3ddaac76e3f, 0xbde00000bf8),
  (0x9aa3f913e67e0deb, 0xbf800000c03),
  (0xd6d66b705569a305, 0xc0300000c09),
  (0x29138274040caec8, 0xc0900000c0f),
  (0x750b157e4746f335, 0xc0900000c0f),
  (0x69383c2bb37e2b45, 0xc0f00000c25),
  (0x40cb578cf5184d32, 0xc2500000c31),
  (0xb382ac11a882ef23, 0xc3100000c3e),
  (0xf740b3dfcc2f0552, 0xc3100000c3e),
  (0xf717addfcc0bf5b4, 0xc3e00000c4f),
  (0xfa9fe19d4da88c70, 0xc4f00000c59),
  (0xc26ce42d283dc5b4, 0xc5900000c61),
  (0x4d6ef1ceb4584ba1, 0xc6100000c69),
  (0xbe5dbeebd2c75365, 0xc6900000c73),
  (0x2613da25ecd6cb9c, 0xc7300000c83),
  (0xc3ab1969949becb, 0xc8300000c9b),
  (0x14b57a1996b1637b, 0xc9b00000ca7),
  (0xbfdf2b125a4a9ae, 0xca700000cb1),
  (0x17fdc1821aad47ba, 0xcb100000cbd),
  (0xd05d8721d4db55e0, 0xcbd00000ccf),
  (0xf0ad7c97430e5b45, 0xccf00000cdc),
  (0x8d240dee8ee27586, 0xcdc00000ce4),
  (0x81c2c41395792f28, 0xce400000cf1),
  (0x1de64122834b1c25, 0xcf100000cfd),
  (0x796030e978c59c7, 0xcfd00000d0e),
  (0x7f7e5141056c3aa1, 0xd0e00000d18),
  (0x16812554769e180f, 0xd1800000d23),
  (0x9e501b9f83104bc3, 0xd2300000d38),
  (0x15928b85d0d89c03, 0xd3800000d48),
  (0x5f4b5f0d74d962b8, 0xd4800000d57),
  (0xd26cf31d85b5ed49, 0xd5700000d5e),
  (0x3a3554f6105e869, 0xd5e00000d6b),
  (0x3a293be966a96140, 0xd6b00000d82),
  (0x849c1b80284c0e91, 0xd8200000d91),
  (0x49d994f05da0bfba, 0xd9100000d9b),
  (0x1e2aa54539a5f16e, 0xd9b00000da7),
  (0x39c7f4b5a54d1164, 0xda700000db0),
  (0x1b95a1ae6df716d6, 0xdb000000dbc),
  (0x1da6a9e40be163bb, 0xdbc00000dcd),
  (0xa0a876a0c146cab5, 0xdcd00000dde),
  (0x112eaf6f2e5103a0, 0xdde00000de2),
  (0xbdf9522679ce715b, 0xde200000dec),
  (0xa2f5b4b5ed9704bf, 0xdec00000dfd),
  (0x8f3be161474457ec, 0xdfd00000e0f),
  (0x5b30f3dc4d34888a, 0xe0f00000e27),
  (0x7a92cf674dfb3119, 0xe2700000e35),
  (0x2abb2da7cd3cedc8, 0xe3500000e41),
  (0x94e5e4c0c57215c8, 0xe4100000e53),
  (0xb3e3a29f811c6d7d, 0xe5300000e5b),
  (0xb1ceec81fcbf8d87, 0xe5b00000e64),
  (0x74fe84c169a5237a, 0xe6400000e77),
  (0xde82580118a10207, 0xe7700000e7c),
  (0x5dda60fb04bd12d9, 0xe7c00000e86),
  (0x550938d5d03f925f, 0xe8600000e8f),
  (0x1cdf2e48df31207d, 0xe8f00000ea0),
  (0x28161733853d6ee5, 0xea000000eaa),
  (0xf238815aa95f079c, 0xeaa00000eb6),
  (0xcefb382b5059a04a, 0xeb600000ec1),
  (0x9ec1030db3577329, 0xec100000ecf),
  (0x498dd8d1d8c8ba7d, 0xecf00000ee5),
  (0x7b40c7ce5f0ca79d, 0xee500000ef6),
  (0x79097bdd59350b0b, 0xef600000f04),
  (0x7f2337eccb1372dc, 0xf0400000f10),
  (0xd92fc261f2559ba2, 0xf1000000f1e),
  (0xaaaf1e249f2142e6, 0xf1e00000f2e),
  (0x35944df6345dbc6f, 0xf2e00000f35),
  (0x9144840151e84cfb, 0xf3500000f41),
  (0x154d4d04f14eee73, 0xf4100000f4f),
  (0xa37e49d4e3e076cc, 0xf4f00000f5c),
  (0x12c365abf90cd348, 0xf5c00000f62),
  (0x420d56397391ae26, 0xf6200000f73),
  (0x64a58a9c1352024f, 0xf7300000f7e),
  (0xf8b674cfbce84a3b, 0xf7e00000f8b),
  (0xbc71ee7b5af0af82, 0xf8b00000f94),
  (0xe46c2d37189db092, 0xf9400000f9e),
  (0xc181669ed3f30866, 0xf9e00000fb0),
  (0x150f20c917175d56, 0xfb000000fbb),
  (0x7013ea78b3cd0605, 0xfbb00000fc7),
  (0x81389eb4aeeb3a65, 0xfc700000fcc),
  (0x7311ec8ecec18925, 0xfc700000fcc),
  (0x6c3ad28ecb6674e3, 0xfc700000fcc),
  (0xaad6005e0d04058, 0xfcc00000fd8),
  (0x703918aedee4154e, 0xfd800000fe0),
  (0x3d95fb331f00f059, 0xfe000000fea),
  (0x2af714b236ff59dd, 0xfe000000fea),
  (0x85809140f83a8e5c, 0xfe000000fea),
  (0x7b3991bcab987d1b, 0xfe000000fea),
  (0x7c58718aff6a7d98, 0xfea00000ff5),
  (0xdd69065be7ad3529, 0xff500001001),
  (0x5471522629da0506, 0x100100001008),
  (0xcb57353ae8b48761, 0x100800001015),
  (0x8def18d448964ab, 0x101500001022),
  (0xeb9adb093d76d665, 0x10220000102f),
  (0x96044b7a8fc70108, 0x102f0000103c),
  (0x58628b14291b64c9, 0x103c00001041),
  (0x94ddf1743109c4b7, 0x10410000104b),
  (0x348d0b6400ed4faf, 0x104b00001051),
  (0xa682052a84db79b1, 0x10510000105d),
  (0x5f303f04f5bda0e1, 0x105d0000106e),
  (0x1ce55d670a3150ee, 0x106e00001073),
  (0xf1f4eaecafe901b4, 0x107300001085),
  (0x177ad77da23dfa92, 0x107300001085),
  (0xf8e3eb034dd481a7, 0x107300001085),
  (0x7e21735bfea7e531, 0x107300001085),
  (0xd34db73ea6ed966b, 0x107300001085),
  (0x7e07044162765ea6, 0x108500001093),
  (0x238303e92863be21, 0x109300001098),
  (0x8a0ed88837f0649a, 0x10980000109d),
  (0xc9dce6e0a5ef2fa9, 0x109d000010b3),
  (0x55cfdc3e03b82138, 0x10b3000010c9),
  (0xf6ca92b6d15e1d66, 0x10c9000010d3),
  (0xbf62421e5b57acba, 0x10d3000010e0),
  (0x5c9f9d6755020fe8, 0x10e0000010ef),
  (0xd798d482982bce30, 0x10e0000010ef),
  (0x4f010e82db4648f2, 0x10ef00001103),
  (0x54ba8821a94caa3d, 0x11030000110a),
  (0x37b54f250440e969, 0x110a0000110f),
  (0x2c578ea379d89789, 0x110a0000110f),
  (0x7d29afcd40138382, 0x110a0000110f),
  (0x6f43bd8cc817a4c5, 0x110f0000111b),
  (0xde5d5bbb7818814a, 0x110f0000111b),
  (0xf5541ac230451276, 0x111b0000112a),
  (0xfbb360beda2369ca, 0x112a00001137),
  (0xd0d3e7d4b4bceb9f, 0x11370000113e),
  (0xbd4a708084130e79, 0x113e0000114a),
  (0xd2902c3eb983717e, 0x114a0000115c),
  (0xee436fd0613b56d3, 0x115c0000116b),
  (0x98375b9ad89ca573, 0x116b0000117a),
  (0xdee7a6d6793b2419, 0x117a00001187),
  (0x93779bf37e354333, 0x118700001195),
  (0x613b7c1502450135, 0x11950000119f),
  (0x29fa20630f3736ad, 0x119f000011a9),
  (0xb0cffda6642e761f, 0xa3e00000a48),
  (0xace6f726a478b7c6, 0x11a9000011b1),
  (0x86a76343e8687827, 0x11b1000011b5),
  (0x84deb73cc5a68096, 0x11b5000011bf),
  (0x6ddb2e270379eab4, 0x11bf000011ce),
  (0xac85da67b68308cc, 0x11ce000011de),
  (0x1b2a0f152778b00, 0x11de000011ed),
  (0xf798173d7fa95d6e, 0x11ed00001200),
  (0xb68dce381efe47a0, 0x11ed00001200),
  (0xbb0894e3cfda45da, 0x120000001209),
  (0x411ce73275fd8d43, 0x120900001218),
  (0x574136989dbcbca9, 0x121800001224),
  (0xeb71511f9716b694, 0x120900001218),
  (0xe3140a9a22eb822e, 0x12240000122f),
  (0xdbb0d19a1f18b612, 0x12240000122f),
  (0xed71159a29460a55, 0x12240000122f),
  (0xec1e1097a3aad695, 0x12240000122f),
  (0x579fcdbdcaff5355, 0x12240000122f),
  (0xd1967aeb35cb68b, 0x12240000122f),
  (0xa425d76a83d67984, 0x12240000122f),
  (0x4482231dfd9aaa64, 0x12240000122f),
  (0x381985c21bde9199, 0x12240000122f),
  (0x412bee71b3e3b1e, 0x122f0000123b),
  (0xb8a715961d8d5f7b, 0x123b0000124e),
  (0xf5f6c1fce128ea1f, 0x124e0000125b),
  (0x56df2eb556d34c92, 0x125b00001263),
  (0x27b60c1102d7e88d, 0x12630000126a),
  (0x52842c000200e47e, 0x126a0000126f),
  (0xa48107998bbd6214, 0x126f00001273),
  (0x3937a2839cb6ad45, 0x127300001281),
  (0xc88ff4510cecd544, 0x12810000128d),
  (0x61eb3e4fa95d539c, 0x128d000012a1),
  (0x5f3c991393d0cbc6, 0x12a1000012b0),
  (0x5154fe605cc9f744, 0x12b0000012bc),
  (0x7b05a5c849428e4b, 0x12bc000012c2),
  (0xe794d1a34ff007fe, 0x12c2000012ce),
  (0xcc8c58e1632decf1, 0x12ce000012de),
  (0x733298e7cab86b0e, 0x12de000012eb),
  (0x85c9b8230ac0ee27, 0x12eb000012f6),
  (0x9d57045c7298cbfb, 0x12f600001305),
  (0x5c2119683ad054ee, 0x130500001312),
  (0xd82ec7508b7984c3, 0x13120000131f),
  (0xd7b7ef3a0f5f586e, 0x131f00001329),
  (0x7ccbb3b57e486643, 0x132900001337),
  (0x13d6564ea76872d2, 0x13370000133f),
  (0xe290fb84ab661bff, 0x133f0000134d),
  (0xa9e9aa9f8940a955, 0x133f0000134d),
  (0x97422502c6993689, 0x133f0000134d),
  (0x616d2302a7946e97, 0x134d00001360),
  (0x5b376e0d46476a11, 0x13600000136b),
  (0xeac0d3c941604e9a, 0x136b00001372),
  (0xd88d97974babfa98, 0x137200001382),
  (0x836f7a7bbecc989a, 0x13820000138f),
  (0x7c74afcfdf6c4896, 0x138f0000139a),
  (0x73a09297e9d419, 0x139a000013a4),
  (0x2cef61705fa907a5, 0x13a4000013b2),
  (0x1fb38573a81fb76e, 0x13b2000013be),
  (0xfdc33186ade4afdb, 0x13b2000013be),
  (0xb3ab71deaa16b00c, 0x13be000013c3),
  (0xcc4eec3fbbcae37a, 0x13c3000013d0),
  (0x498a08297cea3b5c, 0x13d0000013dd),
  (0x6bafa1bc1ba2f2ea, 0x13dd000013ed),
  (0x5d797bd9d2d62b1b, 0x13ed000013fc),
  (0xf39f6c96ae2a4443, 0x13fc0000140d),
  (0x6ce954f6fe410185, 0x140d0000141a),
  (0xac59274b58a1fbb9, 0x141a0000142c),
  (0x1411eae9d83c0f61, 0x142c00001437),
  (0x21db374936f9bf99, 0x143700001443),
  (0x1ebea497cde0a62a, 0x144300001447),
  (0xdc9a2b90a2f01b43, 0x144700001452),
  (0x79254352437d4718, 0x145200001459),
  (0xd2cd8f4f7b84ed99, 0x145900001465),
  (0x8e0a20cfc334e9ef, 0x146500001476),
  (0x375aefb41b0a1343, 0x14760000147d),
  (0x1cbfade13311851d, 0x147d00001491),
  (0xfc61c6f626adb3ba, 0x14910000149e),
  (0x3e7346a503c98673, 0x149e000014ab),
  (0x2c330088c43600e8, 0x14ab000014b7),
  (0x839bd0023f6d9124, 0x14b7000014ba),
  (0xd16c49919b33bad4, 0x14b7000014ba),
  (0xd16c49919b33bac3, 0x14b7000014ba),
  (0xd16c49919b33bac2, 0x14b7000014ba),
  (0xd16c5e919b33de0f, 0x14b7000014ba),
  (0xf5397d1c72da04e, 0x14b7000014ba),
  (0xf5397d1c72da044, 0x14b7000014ba),
  (0x7266975a4b9515ad, 0x14ba000014cd)]

/-- `__hr_idx`, from item 500 on (hint_repo.go:513-557). -/
def hrIdx_1 : List (Nat × Nat) := [
  (0x645587c43c13bfaf, 0x14cd000014d4),
  (0x33755037f36a35f0, 0x14d4000014d9),
  (0xcd0fc9f8663e7dfe, 0x14d9000014e0),
  (0x3cac915177099df7, 0x14e0000014f2),
  (0x22ef84a6c5b827f7, 0x14f2000014fb),
  (0xe885a86ccd66c510, 0x14fb00001500),
  (0x204786817a8a65c6, 0x150000001519),
  (0x347e187daf5b562a, 0x151900001522),
  (0x5e1f36214fac6aac, 0x152200001530),
  (0x7ca042ee227f6f23, 0x15300000153b),
  (0x1d4d4027d28161e9, 0x153b00001547),
  (0xdc6cd59458bfefaf, 0x154700001554),
  (0x8dab6fcd144e6c47, 0x154700001554),
  (0x68148d12ca9d3914, 0x155400001558),
  (0x6d71a93a69564bd6, 0x155400001558),
  (0xc1fe9d0c86bf21e8, 0x15580000155d),
  (0xa6e8973acc332777, 0x155d00001568),
  (0xd9058eb1e80300a0, 0x15680000156f),
  (0xd14e79e3fabfa3ea, 0x156f0000157d),
  (0x6321886ea338e0b5, 0x157d0000158a),
  (0x444f5cc1f01cf2f7, 0x158a00001596),
  (0x59d13b686ac8eec3, 0x1596000015a4),
  (0x82f9ccf6383aa130, 0x157d0000158a),
  (0xdc45923c02b81d31, 0x15a4000015b7),
  (0xfff257946d1d45be, 0x15b7000015c3),
  (0xcdc422f1f53808e4, 0x15c3000015ce),
  (0xe9bce4dbe0019a9e, 0x15c3000015ce),
  (0xd94cae898995671b, 0x15c3000015ce),
  (0x3324eb15d710c0f9, 0x15ce000015e5),
  (0xd226668916c91b3e, 0x15e5000015f2),
  (0xe158222e6f8cc692, 0x99c000009a8),
  (0xd96ae99d492ca50e, 0x15f2000015fc),
  (0x3a19c434401bdec5, 0x15fc00001616),
  (0x673c89eb88948ef2, 0x16160000162c),
  (0xf6410d2dcd076319, 0x162c00001639),
  (0xc90c07f6cf211b9d, 0x16390000164a),
  (0x157091572c43d589, 0x164a00001657),
  (0x51a56b420ec8952f, 0x165700001671),
  (0xa61d6beaa90eba0c, 0x167100001681),
  (0x5927a03e66e7f8b5, 0x168100001685),
  (0xdf4a0d723a2e9377, 0x168500001694),
  (0xbda345ebbd7f2d47, 0x16940000169e),
  (0x8f1ddc7c2fbd04ea, 0x169e000016ac),
  (0xd51b1c0fd61d0913, 0x16ac000016b4),
  (0xef048bcb6dd442a0, 0x16b4000016c3)]

/-- `__hr_idx` (hint_repo.go). -/
def hrIdx : List (Nat × Nat) := hrIdx_0 ++ hrIdx_1

/-- `__hr_buf` (hint_repo.go:560-924). -/
def hrBuf : List Chunk := [
  chunk! "GensparkCastifyActive CleanerGoogle Search AppReddit is funLauncher3CM SecurityAnyDesk Remote DesktopAOLKeepCleaniSafePlayAyobaBaidu Box AppBaidu Box App LiteBifrost WalletPhoto SearchBOX Video DownloaderCanopyKeplrClean MasterDeepSeekX LauncherTeraBoxemporiaAPPESPNEZVPNFacebookFacebook MessengerFancy SecurityHideXACT ShieldDarty S\xc3\xa9curit\xc3\xa9F-Secure Mobile SecurityDNA DigiturvaMa ProtectionKPN VeiligAlways Safe Security 24F-Secure SAFEElisa TurvapakettiSFR S\xc3\xa9curit\xc3\xa9Telia TurvapakettiSwisscom Internet SecurityTalkTalk SuperSafeTelia TryggUPC Internet SecurityVIS+Ziggo Safe OnlineGBox HelperGoogle MapsGoogle GoGoogle PlayGoogleYouTubeSocial Media ExplorerHonor SearchSgalleryCalculator Photo VaultCalculator Hide PhotosHornetAppGalleryHuawei Quick App CenterPetal SearchHUAWEI AI SearchXShareInstabridgeInstagramThreadsInstaProJaumoJaumo PrimeGO SecurityKakaoTalkKUTO VPNCiciSHAREit+SimpleMiChatMiChat LiteMSNMicrosoft BingMicrosoft CopilotMicrosoft Math SolverMicrosoft OutlookApp LockKimiBig KeyboardEmail HomeFit HomeMessenger LiteNews HomeMessenger HomeWeather HomenateNetflixVaultNaverNoCard VPNNoCard VPN LiteNox SecurityThe CrosswordOmshy VPNOpera NewsKinogo.geSearch By ImagePLAYitPotatoVPN360 SecurityTumilereadly AppRedditWhatplayRocks PlayerSearchCraftSamsung EmailShareKaroSina WeiboSKOUTSnapchatSnapTubeNews Suite by SonyStartpageSticky PasswordSurfsharkSweepTCL LiveJoy LauncherWeChatReverse Image SearchNewsPointTinderTotalAVDownload HubXOS LauncherHiOS Launcheritel LauncherVishaDownload ManagerTurTcTuya Smart LifeTwitterBlue ProxyV2FreeViberLivUWazeLookrWiseplayQuick CastYahoo OneSearchHagoZee BusinessGMX MailDogtoranceTelekom MailTV CastWEB.DE MailVPN MonsterT2SPhoto SherlockIDM Video Download ManagerSanista Persian InstagramBlueWalletMetaMaskGraph MessengerKYMS - Keep Your Media SafeLibero MailFVD - Free Video DownloaderYahoo! JapanSmartNewsLineKikCoupons & DealsMojeekDaumMoyaAka Messenger LiteAka MessengerRedReaderTelegramPlus MessengerOrbotSuper CleanerSnapU2BBestgramTracker ConnectAloha BrowserSavySodaHexa Web BrowserLightning BrowserLightning Browser PlusVegas BrowserRaise Fast BrowserBrowspeed BrowserBloketCometDark Web BrowserAnonyv BrowserBrowser Hup ProBroKeep BrowserProxyiumSoundy BrowserLynket BrowserDark WebDark Web PrivateMonument BrowserFast Browser UC LiteMaxTube BrowserUC BrowserAirfind Secure BrowserDelta BrowserVMware AirWatchAloha Browser LiteVertex SurfComfort BrowserChrome WebviewIncognito BrowserAnka BrowserQuick Search TVBasic Web BrowserAPN BrowseriDesktop PC BrowserPhotonAppTec Secure BrowserAPUS BrowserArvinAsk.comAsus BrowserAzka BrowserBaidu BrowserBF BrowserBelva BrowserAi BrowserBeyond Private BrowserBXE BrowserBlack Lion BrowserBraveBrowlserBrowsBitWorld BrowserExplore BrowserSmart BrowserPintar BrowserSuper Fast BrowserYo BrowserBrowse SafeCake BrowserCave BrowserCG BrowserClario BrowserCliqzCloak Private BrowserPuffin Web BrowserPuffin Cloud BrowserPuffin Incognito BrowserArmorfly BrowserCoc CocFrost+FrostStay BrowserDark BrowserDDU BrowserDolphin ZeroDuckDuckGo Privacy BrowserAsk BrowserEcosiaSeekeeWeb Browser & ExplorerFire BrowserNaked BrowserNaked Browser ProFlyperlinkProxynetFulldiveSX BrowserKeepsafe BrowserGhostery Privacy BrowserSurf BrowserGO BrowserHalo BrowserHawk Turbo BrowserHeyTapBrowservBrowserHONOR BrowserOdin BrowserHolla Web BrowserHotBrowserHTC BrowserHuawei Browser MobileClear TV BrowserIE Browser FastMercuryInsta BrowserInternet Browser SecureLUJO TV BrowserInvolta GoIVVI BrowserJioSphereWeb ExplorerKeepSolid BrowserKids Safe BrowserKiwiCM BrowserKUTO Mini BrowserHawk Quick BrowserPrivate Internet BrowserLenovo BrowserLexi BrowserLogicUI TV BrowserVibeMateIfbrowserMarsLab Web BrowsermCentMe BrowserG BrowserOpen Browser LiteMi BrowserMint BrowserMmx BrowserMicrosoft EdgeIntune Managed BrowserSunflower BrowserMMBOX XBrowserLark BrowserOffice BrowserGodzilla BrowserMaxthonSoul BrowserTincat BrowserNeuro BrowserChowboNOMone VR BrowserNox BrowserOcean BrowserOceanHeroOH BrowserOH Private BrowserOJR BrowserONIONBrowserOperaOpera CryptoOpera GXOpera MiniOpera TouchOpus Browse",
  chunk! "rOrbitumOrNET BrowserSurfy BrowserPeach BrowserPanda BrowserPawxyPhantom.meTV BroPICO BrowserPure Mini BrowserPluma360 Secure BrowserQJY TV BrowserQmamuQuarkIndian UC Mini BrowserRabbit Private BrowserAppBrowzerBlack BrowserSamsung BrowserSamsung Browser LiteSecureXX-VPNOpen BrowserSharkee BrowserAmaze BrowserSkyfireSnap BrowserSony Small BrowserStealth BrowserPrivacy BrowserSweet BrowserCherry BrowserHi BrowserBrowseHereProxyFoxBangQQ BrowserPhoenix BrowserTUC Mini BrowserOpen TV BrowserTV-Browser InternetU BrowserUC Browser MiniBrowser MiniUme BrowserVast BrowserVC Browser Mini ProAdult BrowserProxyMaxVivaldiVuhuvTUSKBangla BrowserDesi BrowserOpen Browser fast 5GOpen Browser 4USilverMob USTalkToNova BrowserNextWord BrowserXBrowser MiniXNX BrowserXooloo InternetFloat BrowserXPlay BrowserXtremeCastX Browser LitexBrowserYandex BrowserYandex Browser LiteDUC BrowserYouCareBitchute BrowserZordo BrowserZTE BrowserArc SearchSeznam BrowserFOSS BrowserLotusEvery BrowserFast ExplorerKeyboard BrowserFreedom BrowserGinxDroid BrowserFiery BrowserVivid Browser Mini1DM Browser1DM+ BrowserYAGIHUB BrowserEinkBroGood BrowserSuperFast BrowserAmerigoYahoo! Japan BrowserHabit BrowserBerry BrowserYuzu BrowserViaInternet WebbrowserDolphinDezorStargonDebuggable BrowserSOTI SurfAtlasNova Video Downloader ProInBrowserOnBrowser LiteOwl BrowserEasy Browserhola! BrowserLiloJellyMidori LiteCM MiniFirefox MobileFirefox FocusFirefox KlarFirefox Rocket18+ Privacy BrowserTint BrowserTor BrowserxBrowser Pro Super FastZirco BrowserPi BrowserPrivacy Explorer Fast SafeSecure Private BrowserProxy BrowserPure Lite BrowserQuick BrowserSmart Search & Web BrowserSavannah BrowserThorPronHub BrowserVD BrowserDragon BrowserXnBrowseUi Browser Mini"]

end Verif.Data
