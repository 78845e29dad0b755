import Verif.Data.Bytes
/-
Generated by tools/gen_tables.py from device_repo.go. Do not edit.
-/
set_option maxRecDepth 10000
namespace Verif.Data

/-- `__dr_re`, from item 0 on (device_repo.go:18336-18585). -/
def drRe_0 : List (List Chunk) := [
  pat! "(?i)EK-G[CN][0-9]{3}",
  pat! "(?i)EK-GC([0-9]{3})",
  pat! "(?i)AFTLBT962E2(?:[);/ ]|$)",
  pat! "(?i)AFTLBT962E2(?:[);/ ]|$)",
  pat! "(?i)AFTLFT962X3(?:[);/ ]|$)",
  pat! "(?i)AFTLFT962X3(?:[);/ ]|$)",
  pat! "(?i)(?:Tesla/(?:(?:develop|feature|terminal-das-fsd-eap)-)?[0-9.]+|QtCarBrowser)",
  pat! "(?i)Tesla/[0-9.]+",
  pat! "(?i)Archos.*GAMEPAD([2]?)",
  pat! "(?i)Nintendo (([3]?DS[i]?)|Wii[U]?|Switch|GameBoy)",
  pat! "(?i)Pocket ([23]) ?(?:Plus|\\+)",
  pat! "(?i)Pocket ([235])",
  pat! "(?i)Dreamcast|Aplix_SEGASATURN",
  pat! "(?i)(?:PlayStation ?(4 Pro|[2-5]|Portable|Vita)|sony_tv;ps5;|\\(PS3\\))",
  pat! "(?i)sony_tv;ps5;",
  pat! "(?i)\\(PS3\\)",
  pat! "(?i)PlayStation ?(4 Pro|[2-5]|Portable|Vita)",
  pat! "(?i)10moons[_ ]([^/;)]+)(?: Build|[);])",
  pat! "(?i)(?:(?:E500A_2019|2E E450 2018)|(?:TWOE[-_ ]E450R|F534L|F572L|E500A))(?:[);/ ]|$)",
  pat! "(?i)E500A_2019(?:[);/ ]|$)",
  pat! "(?i)2E E450 2018(?:[);/ ]|$)",
  pat! "(?i)TWOE[-_ ](E450R)(?:[);/ ]|$)",
  pat! "(?i)(F534L|F572L|E500A)(?:[);/ ]|$)",
  pat! "(?i)(?:180[1379]-A01|1713-A01|1707-A01|1509-A00|1603-A03|1607-A01|1503-A01|1505-A0[12]|1605-A01)(?:[);/ ]|$)",
  pat! "(?i)1807-A01(?:[);/ ]|$)",
  pat! "(?i)1803-A01(?:[);/ ]|$)",
  pat! "(?i)1809-A01(?:[);/ ]|$)",
  pat! "(?i)1713-A01(?:[);/ ]|$)",
  pat! "(?i)1707-A01(?:[);/ ]|$)",
  pat! "(?i)1801-A01(?:[);/ ]|$)",
  pat! "(?i)1509-A00(?:[);/ ]|$)",
  pat! "(?i)1503-A01(?:[);/ ]|$)",
  pat! "(?i)1605-A01(?:[);/ ]|$)",
  pat! "(?i)1603-A03(?:[);/ ]|$)",
  pat! "(?i)1607-A01(?:[);/ ]|$)",
  pat! "(?i)1505-A0[12](?:[);/ ]|$)",
  pat! "(?i)3GNET[ _]",
  pat! "(?i)3GNET[ _](U8|T800|U6s)(?:[);/ ]|$)",
  pat! "(?i)3GNET[ _]T ?900",
  pat! "(?i)(?:Aplay ?[34])(?:[);/ ]|$)",
  pat! "(?i)Aplay ?([34])",
  pat! "(?i)AC0731B|AC1024C|AC7803C|BC9710AM|EL72B|LC0720C|LC0723B|LC0725B|LC0804B|LC0808B|LC0809B|LC0810C|LC0816C|LC0901D|LC1016C|MT0724B|MT0729[BD]|MT0811B|OC1020A|RC07(?:09B|10B|18C|19H|2[16]B|22C|27H|34H|43H)|RC0817C|RC1018C|RC1019G|RC1025F|RC1301C|RC780[24]F|RC9711B|RC9712C|RC9716B|RC9717B|RC9724C|RC9726C|RC9727F|RC9730C|RC9731C|TS0807B|TS1013B|VM0711A|VM1017A|RC0813C|QS9719D|QS9718C|QS9715F|QS1023H|QS0815C|QS0730C|QS0728C|QS0717D|QS0716D|QS0715C|MT7801C|TS9708B|AC0732C|MT0739D|MT0812E|(?:3Q_)?ER71B",
  pat! "(?i)MT0724B|LC0901D|LC0816C|LC0810C|LC0809B|LC0808B|LC0804B|LC0725B|LC0723B",
  pat! "(?i)VM1017A|TS1013B|TS0807B|RC9731C|RC9730C|RC9727F|RC9726C|RC9724C|RC9717B|RC9716B|RC9712C|RC9711B|RC1301C|RC1025F|RC1019G|RC1018C|RC0817C|RC0813C|RC0743H|RC0734H|RC0726B|RC0722C|RC0721B|RC0719H|RC0718C|RC0710B|RC0709B|QS9715F|QS1023H|QS0815C|QS0730C|QS0728C|QS0717D|QS0716D|QS0715C|MT0811B|MT0739D|MT0729[BD]|LC1016C|LC0720C|BC9710AM|AC1024C|AC0731B",
  pat! "(?i)MT7801C|QS9718C|QS9719D|VM0711A|OC1020A",
  pat! "(?i)AC7803C|AC0732C|RC0727H",
  pat! "(?i)MT0812E|RC7802F",
  pat! "(?i)EL72B|(?:3Q_)?ER71B",
  pat! "(?i)(RC7804F)",
  pat! "(?i)4Good[ _]|S450m [43]G|S555m 4G|S501m 3G|T700i_3G|People (?:G503|G410|GT300)|Light (?:A10[34]|B100|AT300)|Light_AT200",
  pat! "(?i)(T700i|T100m|T70[34]m)[_ ]?3G",
  pat! "(?i)Light[_ ](AT[23]00)",
  pat! "(?i)People (GT300|AT100)",
  pat! "(?i)S555m[_ ]4G",
  pat! "(?i)(S(?:450m|501m)[_ ][43]G|Light (?:A10[34]|B100)|People (?:G503|G410))",
  pat! "(?i)4Good[ _]([^);/]+)(?: Build|[);])",
  pat! "(?i)4ife (4K Smart TV Box)(?:[);/ ]|$)",
  pat! "(?i)Tarzan F1(?:[);/ ]|$)",
  pat! "(?i)(?:SWEGUE|DRENA|Kamba(?:_2)?)(?:[);/ ]|$)",
  pat! "(?i)8848 (M[3-6])(?:[);/ ]|$)",
  pat! "(?i)(G4040)",
  pat! "(?i)(?:A1 (?:Alpha|Alpha 20\\+)|Alpha 20|Alpha Eco)(?:[);/ ]|$)",
  pat! "(?i)A1 Alpha 20\\+",
  pat! "(?i)A95X MAX \\+",
  pat! "(?i)A95X ?Z2PLUS",
  pat! "(?i)A95X[ _-]?(F[1-4]|R[1235]|[AWZ]2|A1)",
  pat! "(?i)Android 13(?:[\\d.]*);(?: [\\w-]+;)? (?:M50)( Build|[;)])",
  pat! "(?i)(TK701|TK806)_EEA(?:[);/ ]|$)",
  pat! "(?i)elite Aquarius(?:[);/ ]|$)",
  pat! "(?i)(Hashtag|Shine|Chacer)(?:[);/ ]|$)",
  pat! "(?i)AGM[ _]([^/;)]+)(?: Build|[;)])|AG[_ ]Go[_-]Tab|(?:Flair|Ultra 2|Freedom Access)(?:[);/ ]|$)",
  pat! "(?i)AG[_ ]Go[_-]Tab[_ ]Access(_2)?(?:[);/ ]|$)",
  pat! "(?i)(Flair|Ultra 2|Freedom Access)(?:[);/ ]|$)",
  pat! "(?i)AGM A9(?:[);/ ]|$)",
  pat! "(?i)AGM_H3(?:[);/ ]|$)",
  pat! "(?i)AGM_H5_PRO(?:[);/ ]|$)",
  pat! "(?i)AGM[_ ]PAD[_ ](P2W|P[12]|T[13])(?:[);/ ]|$)",
  pat! "(?i)AGM[ _]([^/;)]+)(?: Build|[;)])",
  pat! "(?i)AI\\+ ([^);/]+)( Build|[);])",
  pat! "(?i)(?:AIDATA ELDE 10 TABLET|ADT_?1061(?:_1)?|ADT1012L)(?:[);/ ]|$)",
  pat! "(?i)ADT_?1061(?:_1)?",
  pat! "(?i)AIRBOOK PRO 8S(?:[);/ ]|$)",
  pat! "(?i)iris708|Kingcomm C500",
  pat! "(?i)ALDINORD, ([a-z0-9_ -]+), (?:wired|wireless)",
  pat! "(?i)ALDISUED, ([a-z0-9_ -]+), (?:wired|wireless)",
  pat! "(?i)ALLINmobile_ARENA(?:[);/ ]|$)",
  pat! "(?i)AMA[ _](A703)(?:[);/ ]|$)",
  pat! "(?i)(LE-3[29]ZTHS25|LE-5[05]ZTUS30|LE-50ZTUS32|LE-43ZTFS25)(?:-[ABF])?(?:[);/ ]|$)",
  pat! "(?i)AM(350|355|40[257]|41[025]|450|50[689]|52[037]|51[58]|53[05])(?:[);/ ]|$)",
  pat! "(?i)AM(355|407)",
  pat! "(?i)AM([0-9]{3})",
  pat! "(?i)(?:RG405[VM]|RG505|RG556|RG406V|RGCUBE)(?:[);/ ]|$)",
  pat! "(?i)RG([0-9]{3}[A-Z]?)(?:[);/ ]|$)",
  pat! "(?i)Ancel(801)(?:[);/ ]|$)",
  pat! "(?i)ANS/|(?: UL40|ACK2326)(?: Build|[;)])",
  pat! "(?i)(AnPad_U2)",
  pat! "(?i)AOC[;,]|(?:Q10107L-ME)(?:[);/ ]|$)",
  pat! "(?i)(Q10107L-ME)(?:[);/ ]|$)",
  pat! "(?i)AOYODKG[_ ](A38)(?:[);/ ]|$)",
  pat! "(?i)(WT(?:22|19)M-FI)(?:[);/ ]|$)",
  pat! "(?i)ARRIS|MMI, ([a-z0-9_ -]+), (?:wired|wireless)",
  pat! "(?i)Arris_liberty,([a-z0-9-]+),(?:wired|wireless)",
  pat! "(?i)ARRIS[,;] ([^),;/]+)",
  pat! "(?i)MMI, ([a-z0-9_ -]+), (?:wired|wireless)",
  pat! "(?i)ASSE[-._ ](Q[35]s?)(?:[);/ ]|$)",
  pat! "(?i)ATT_|(?:EA1002|EA21100[125]|EABF22206A|U(?:202|304|31[89]|328|380|626|668|6080|705)AA|QS5509A|V340U|V350U|WTATTRW2|SL112A|SL219A)(?:[);/ ]|$)",
  pat! "(?i)(?:ATT_)?EA211101(?:[);/ ]|$)",
  pat! "(?i)(?:ATT_)?U1030AA(?:[);/ ]|$)",
  pat! "(?i)(?:ATT_)?U102AA(?:[);/ ]|$)",
  pat! "(?i)V340U(?:[);/ ]|$)",
  pat! "(?i)ATMAN[ _-]([^/;)]+)(?: Build|[);])",
  pat! "(?i)(?:(IT)_(701A)|IT-801B)(?:[);/ ]|$)",
  pat! "(?i)(IT)[_-](701A|801B)",
  pat! "(?i)(?:ATOL (?:150F)|Smart_(?:Prime|SLIM_Plus))(?:[);/ ]|$)",
  pat! "(?i)ATOL (150F)",
  pat! "(?i)AUPO[ _]Zeus",
  pat! "(?i)AUPO[ _]Zeus 10 Pro",
  pat! "(?i)(TB-703G)(?:[);/ ]|$)",
  pat! "(?i)AUX[ _]([^/;)]+)(?:_TD)",
  pat! "(?i)Excer[ _]",
  pat! "(?i)Excer[ _]G5\\.([236])",
  pat! "(?i)Excer[ _]G5",
  pat! "(?i)Excer[ _]10[ _]PRO",
  pat! "(?i)Excer[ _]8",
  pat! "(?i)(?:AWOX|B213[29]00SW)(?:[);/ ]|$)",
  pat! "(?i)AWOX;SmartTV;([a-z0-9_ -]+);",
  pat! "(?i)(B213[29]00SW)(?:[);/ ]|$)",
  pat! "(?i)LGE; (AX[a-z0-9-]+);",
  pat! "(?i)AXXA[ _]",
  pat! "(?i)AXXA[ _](S\\d+)[ _]PLUS",
  pat! "(?i)AXXA[ _](S\\d+)",
  pat! "(?i)AYYA[ _]|(?:Ayat101)(?:[);/ ]|$)",
  pat! "(?i)AYYA[ _](T1)",
  pat! "(?i)AZOM[_ ]",
  pat! "(?i)Accent_|(?:FAST7 ?3G|PEARL[_ ]A[24567]|TANK_P55|CAMELEON[_ ](?:C[456]|A1|H2)(?:[_ ]PLUS)?|Speed[- ](?:[AXYM]2|X2\\+)|SURF1000|KIDZY70|SPEED_S8)(?:[);/ ]|$)",
  pat! "(?i)ACCENT[_ ]NEON(?:[);/ ]|$)",
  pat! "(?i)ACCENT[_ ](?:Nubia)?([56]0K)(?:28_512)?(?:[);/ ]|$)",
  pat! "(?i)CAMELEON[_ ]C([65])[_ ]PLUS(?:[);/ ]|$)",
  pat! "(?i)Speed[- _]([AXYM]2|S8)(?:[);/ ]|$)",
  pat! "(?i)Speed-X2\\+(?:[);/ ]|$)",
  pat! "(?i)CAMELEON[_ ](C[456]|A1|H2)(?:[);/ ]|$)",
  pat! "(?i)PEARL A4 Lite(?:[);/ ]|$)",
  pat! "(?i)PEARL A4 PLUS(?:[);/ ]|$)",
  pat! "(?i)PEARL[_ ]A([24567])(?:[);/ ]|$)",
  pat! "(?i)TANK_P55(?:[);/ ]|$)",
  pat! "(?i)FAST7 ?3G(?:[);/ ]|$)",
  pat! "(?i)SURF1000(?:[);/ ]|$)",
  pat! "(?i)KIDZY70(?:[);/ ]|$)",
  pat! "(?i)(U43EY1500B|[FH]32EY1500B|F32EY1000B)(?:[);/ ]|$)",
  pat! "(?i)(?:BUZZ [1-57]|BUZZ 4(?:Pro|S|Lite)|CLEVER [13]|URBAN [123](?: Pro)?)(?:[);/ ]|$)",
  pat! "(?i)BUZZ ([45]) Ultra",
  pat! "(?i)BUZZ ([457]) Note",
  pat! "(?i)BUZZ ([457]) Prime",
  pat! "(?i)BUZZ ([45]) ?Pro",
  pat! "(?i)BUZZ ([12457]) ?Lite",
  pat! "(?i)BUZZ ([123]) Plus",
  pat! "(?i)BUZZ ([1-5])",
  pat! "(?i)CLEVER ([13])",
  pat! "(?i)URBAN ([123])",
  pat! "(?i)(24HHY1|32HHY1)(?:[);/ ]|$)",
  pat! "(?i)(?:A130[_-]202[34])(?:[);/ ]|$)",
  pat! "(?i)A130[_-](202[34])",
  pat! "(?i)acer|ACTAB|TravelMate|a(?:101|110|2[10]0|211|50[10]|51[10]|70[10])(?:[);/ ]|$)|Android.*V3[67]0(?:[);/ ]|$)|Android.*Z1[23456]0 Build|Android.*Z5\\d{2} Build|Android.*T0[234678] Build|Android 5(?:[\\d.]*);(?: [\\w-]+;)? S59|android [45]([\\d.]*);(?: [\\w-]+;)? S55(?:[);/ ]|$)|(?:A1-(713(HD)?|7[23]4|830|841|840(?:FHD)?|81[01])|A3-A[1-5][01]|B1-(7[1235-9][01](HD)?|7[23]3|7A0|8[1235]0|A71|860A)|TPA60W|B3-(A[125]0|A3[02]|A40FHD)|E39)(?:[);/ ]|$)|S5[12]0 Build|(DA[0-9]+HQ?L|Aspire (?:V5-121|XC-704G|V5-573G|4349)|Chromebook 14 \\(CB3-431\\)|Predator G9-793|GT-810|B1-870|B3-A20B|M10-12(?:_EEA)?|B3-A4[02]|android 4([\\d.]*);(?: [\\w-]+;)? Z500|B3-A50FHD|ET-108-11A|AC?TAB(?:721E?|1422E|821|1021(?:E|_A)|1022)|A3-A20FHD|A10-21(?:_EEA|_CUS1)?|E380|Swift SF113-31|A410_4G|EUT[13]10A?-11A)(?:[);/ ]|$)",
  pat! "(?i)DA220HQL(?:[);/ ]|$)",
  pat! "(?i)DA241HL(?:[);/ ]|$)",
  pat! "(?i)(DA[0-9]+HQ?L)(?:[);/ ]|$)",
  pat! "(?i)M10-12(?:_EEA)?",
  pat! "(?i)A1-81[01]",
  pat! "(?i)ATAB(102[12]|721|1422)E",
  pat! "(?i)ACTAB1021(?:_A)?",
  pat! "(?i)ACTAB(821|1022)",
  pat! "(?i)A1-84(1|0(?:FHD)?)",
  pat! "(?i)A1-713(HD)?",
  pat! "(?i)A1-7[23]4",
  pat! "(?i)A10-21(?:_EEA|_CUS1)?",
  pat! "(?i)A3-A[12][01]",
  pat! "(?i)A3-A[345]0",
  pat! "(?i)B1-7(?:[5-9]0|30HD|A0)",
  pat! "(?i)B1-7[123][01]|B1-A71",
  pat! "(?i)B1-7[23]3",
  pat! "(?i)B1-8[123567]0",
  pat! "(?i)B3-A([125]0|3[02]|[45]0FHD|4[02])",
  pat! "(?i)A50[01]",
  pat! "(?i)(ACTAB721)",
  pat! "(?i)EUT([13])10A?-11A",
  pat! "(?i)E39(?:[);/ ]|$)",
  pat! "(?i)E310(?:[);/ ]|$)",
  pat! "(?i)E320(?:-orange)?(?:[);/ ]|$)",
  pat! "(?i)Android.*V360(?:[);/ ]|$)",
  pat! "(?i)Android.*V370(?:[);/ ]|$)",
  pat! "(?i)E380(?:[);/ ]|$)",
  pat! "(?i)S510(?:[);/ ]|$)",
  pat! "(?i)S520(?:[);/ ]|$)",
  pat! "(?i)(?:Acer_)?P400(?:[);/ ]|$)",
  pat! "(?i)(?:Acer_)?P300(?:[);/ ]|$)",
  pat! "(?i)(?:Acer_)?S200(?:[);/ ]|$)",
  pat! "(?i)(?:Acer_)?E100(?:[);/ ]|$)",
  pat! "(?i)Android.*Z1([234])0(?:[);/ ]|$)",
  pat! "(?i)Android.*Z110(?:[);/ ]|$)",
  pat! "(?i)Android.*Z150(?:[);/ ]|$)",
  pat! "(?i)Android.*Z160(?:[);/ ]|$)",
  pat! "(?i)Android.*Z(5\\d{2})(?:[);/ ]|$)",
  pat! "(?i)Android.*S57(?:[);/ ]|$)",
  pat! "(?i)Android.*T02(?:[);/ ]|$)",
  pat! "(?i)Android.*T03(?:[);/ ]|$)",
  pat! "(?i)Android.*T04(?:[);/ ]|$)",
  pat! "(?i)Android.*T06(?:[);/ ]|$)",
  pat! "(?i)Android.*T07(?:[);/ ]|$)",
  pat! "(?i)Android.*T08(?:[);/ ]|$)",
  pat! "(?i)TM01(?:[);/ ]|$)",
  pat! "(?i)M220(?:[);/ ]|$)",
  pat! "(?i)S55(?:[);/ ]|$)",
  pat! "(?i)S59(?:[);/ ]|$)",
  pat! "(?i)(?:Acer )?(Chromebook R1[13])",
  pat! "(?i)TravelMate Spin (B118-G2-R)",
  pat! "(?i)TravelMate (P653-M|5760G|8371|B118-M)",
  pat! "(?i)(?:Acer )?(Chromebook 1[45])",
  pat! "(?i)Aspire (V5-121|XC-704G|V5-573G|A515-51G|4349|E5-511)",
  pat! "(?i)(Predator G9-793|Swift SF113-31)",
  pat! "(?i)a(101|110|2[10]0|211|50[10]|51[10]|70[10])(?:[);/ ]|$)",
  pat! "(?i)Acer; ?([^;()/]+)",
  pat! "(?i)Acer[ _-]?([^;)/]+)(?: Build|[;)])",
  pat! "(?i)acer[_-]([a-z0-9]+)",
  pat! "(?i)BLECK|AT723C(?:[);/ ]|$)",
  pat! "(?i)LeoPad[_ ]10[XS]?(?:[);/ ]|$)",
  pat! "(?i)LeoPad[_ ](10[XS])",
  pat! "(?i)LeoPad[_ ]10",
  pat! "(?i)Adronix[ _]?(?:MT[0-9]+|X1001|Mini ?Tab ?7 ?3G)(?:[);/ ]|$)",
  pat! "(?i)Adronix ?Mini ?Tab ?7 ?3G",
  pat! "(?i)Adronix[ _]?(MT[0-9]+|X1001)(?:[);/ ]|$)",
  pat! "(?i)(?:ADVAN (?:M4|S40|T5C|1011)|i7U|S45E|S50H|I7D|i55[KD]|i4U|S7D|S4Z|i5[KE]|S5E[ _]NXT|S5J\\+|S4\\+|E1C_3G|ADVANNASAPro)(?:[);/ ]|$)| (?:E1C Pro|5505|5202|50(?:[46]1|5[89]|62)|600[234]|6[25]01|Android [56](?:[\\d.]*);(?: [\\w-]+;)? (?:i5C|i7A)|i5G|E1C 3G)(?: Build|[;)])",
  pat! "(?i)S5E[ _]NXT",
  pat! "(?i)i(55[KD]|5[KE])",
  pat! "(?i)5505(?:[);/ ]|$)",
  pat! "(?i)ADVANNASAPro(?:[);/ ]|$)",
  pat! "(?i)5202(?:[);/ ]|$)",
  pat! "(?i)6201(?: Build|[;)])",
  pat! "(?i)6501(?: Build|[;)])",
  pat! "(?i)i5G(?: Build|[;)])",
  pat! "(?i)6004(?: Build|[;)])",
  pat! "(?i)6002(?: Build|[;)])",
  pat! "(?i)(S45E|50[46]1|505[89]|5062|S50H|I7D|S7D|S4Z|S5J\\+|S4\\+|i5C)(?:[);/ ]|$)",
  pat! "(?i)E1C[_ ]3G",
  pat! "(?i)(T5C|i7A)(?:[);/ ]|$)",
  pat! "(?i)ADVAN 1011(?:[);/ ]|$)",
  pat! "(?i)Hollogram|(?:HL(?:4[79]36|6246|5576|5585|[56]575|5[67]67|6[05]77|6256|7257|9000)|IntroTr3544|Pr(?:61(?:4[56]|50)|60[27]0|5[69]50|5860)|Tr3845|TR7989|SP[345]701)(?:[);/ ]|$)",
  pat! "(?i)IntroTr3544|Tr3845",
  pat! "(?i)SP([345]701)",
  pat! "(?i)Pr(61(?:4[56]|50)|60[27]0|5[69]50|5860)",
  pat! "(?i)HL(4[79]36|6246|[56]575|5576|5585|5[67]67|6[05]77|6256|7257|9000)"]

/-- `__dr_re`, from item 250 on (device_repo.go:18586-18835). -/
def drRe_1 : List (List Chunk) := [
  pat! "(?i)Hollogram ([^;/)]+)(?: Build|[;)])",
  pat! "(?i)(PIC7GS8)(?:[);/ ]|$)",
  pat! "(?i)(CYGNUSX?|Gravity Z2|ChampionPro)(?:[);/ ]|$)",
  pat! "(?i)CYGNUSX(?:[);/ ]|$)",
  pat! "(?i)CYGNUS(?:[);/ ]|$)",
  pat! "(?i)Gravity Z2(?:[);/ ]|$)",
  pat! "(?i)ChampionPro(?:[);/ ]|$)",
  pat! "(?i)Numy|novo[0-9]|Novo 10 Hero|AX10PRO|NUMY3GAX9|NOVO10 Spark|Aurora-II|Rainbow(?:II)? 3G",
  pat! "(?i)Numy[_ ]?3G[_ ]?Sword",
  pat! "(?i)NUMY3GAX9(?:[);/ ]|$)",
  pat! "(?i)Numy3G_AX10(?:[);/ ]|$)",
  pat! "(?i)(Novo 10 Hero QuadCore)",
  pat! "(?i)Novo7 ?Flame(?:[);/ ]|$)",
  pat! "(?i)novo ?7[_ ]ELF(?:[);/ ]|$)",
  pat! "(?i)NOVO7(?:[);/ ]|$)",
  pat! "(?i)Numy[ _]([^;/)]+)(?: Build|[;)])",
  pat! "(?i)Novo([0-9]+)[_ -]([^;/)]+)(?: Build|[;)])",
  pat! "(?i)AIRIS|PhonePAD 83G",
  pat! "(?i)TM50QZ(?:[);/ ]|$)",
  pat! "(?i)AIRNESS-([\\w]+)",
  pat! "(?i)(?:Halo3_Pro|Halo4 Pro)(?:[);/ ]|$)",
  pat! "(?i)Halo([34])[ _]Pro",
  pat! "(?i)(?:(?:Airtel[ _])|(?:VIDA_i501))",
  pat! "(?i)Imagine(?:[);/ ]|$)",
  pat! "(?i)(AT702)(?:[);/ ]|$)",
  pat! "(?i)AIWAAndroidTV|(?:AW790|M300|AWM(?:53[39]|50[19]|561|999)|AW500|Android 7(?:[\\d.]*);(?: [\\w-]+;)? Z9 PLUS|JA2-SMP0601|AWTX6|WS-508G)(?:[);/ ]|$)",
  pat! "(?i)AW790(?:[);/ ]|$)",
  pat! "(?i)AW500(?:[);/ ]|$)",
  pat! "(?i)AWM(53[39]|50[19]|561|999)(?:[);/ ]|$)",
  pat! "(?i)(JA2-SMP0601)",
  pat! "(?i)M300(?:[);/ ]|$)",
  pat! "(?i)(AWTX6|WS-508G)",
  pat! "(?i)Akai[ _\\-,]|LGE; (?:ALT|AK)[a-z0-9]+;|Eco[ _]E2|Glory[ _](?:G[1235]|L[123]|O[125])|(?:TAB-[79]8[03]0Q?|X[56] METAL|AKTB-703MZ|FZ70[13]|X5_PRO|X3[_ ]PRO[_ ]SLIM|iLike U5 Pro)(?:[);/ ]|$)",
  pat! "(?i)TAB-([79]8[03]0Q?)",
  pat! "(?i)(FZ70[13])",
  pat! "(?i)X([56]) METAL",
  pat! "(?i)X3[_ ]PRO[_ ]SLIM",
  pat! "(?i)Glory[ _](G[1235]|L[123]|O[125])",
  pat! "(?i)Eco[ _]E2",
  pat! "(?i)AKAI\\-v\\.tv\\.([0-9]{4})",
  pat! "(?i)Akai[ _-]([^;/)]+)(?: Build|[;)])",
  pat! "(?i)AKAI,(AK3219NF)",
  pat! "(?i)LGE; ((?:ALT|AK)[a-z0-9]+);",
  pat! "(?i)Alba ?(?:7Q|10Q|57|4|10 TABLET|(?:[78]|10)(?:Nou|Pie))(?:[);/ ]|$)",
  pat! "(?i)Alba (4)",
  pat! "(?i)Alba((?:[78]|10)(?:Nou|Pie)|7Q|10Q)",
  pat! "(?i)Alcatel|Alc[a-z0-9]+|One[ _]?Touch|idol[3X]|TIMXL|(?:(?:3088X|4003[AJ]|4009[ADEFIKMSX]|4013[DEJKMX]|4014[ADEKMX]|4015[ADNTX]|4016[ADX]|4017[ADEFSX]|4018[ADEFMX]|4024[DEX]|4027[ADNX]|4028[AEJS]|4032[ADEX]|4034[ADEFGLTX]|4035[ADXY]|4044[COV]|4045[ADELX]|4047[ADFGNX]|4049[DEGMX]|4052[CORWZ]|4056[WZ]|4060[SW]|4063[FT]|4065F|4087U|4114E|5001[ADJTU]|5002[ABDEFHJLMRSUWX]|5003[ADGUX]|5006[ADG]|5007[AGUOS]|5008[ADTUY]|5009[AD]|5010[DEGSUX]|5011A|5012[DFG]|5015[ADEX]|5016[AJX]|5017[ABDEOX]|5019D|5022[DEX]|5023[EF]|5024[ADFIJ]|5025[DEG]|5026[ADJ]|5027B|5028[ADY]|5029[ADEFY]|5030[ADEFJMU]|5031[ADGJ]|5032[OW]|5033(?:[DFTXY]R|[EFM]P|[ADEFGJMOQSTXY])|5034D|5036D|5038[ADEX]|5039[DY]|5041[CD]|5042[ADEFGTWX]|5044[ADGIKOPSTY]|5045[ADFGIJTXY]|5046[ADGIJSTUY]|5047[DIUY]|5048[AIUY]|5049[EGSWZ]|5050[ASXY]|5051[ADEJMTWX]|5052[ADY]|5053[ADKY]|5054[ADNSTWX]|5056[ADEGIJMNTUWX]|5057M|5058[AIJY]|5059[ADIJSTXYZ]|5060[ADJ]|5061[AKU]|5065[ADNWX]|5070D|5080[ADFQUX]|5085[ABCDGHIJNOQY]|5086[ADY]|5090[AIY]|5095[IKY]|5098[OS]|5099[ADIUY]|5116J|5131E|5145A|6002[ADJ]|6016[ADEX]|6025[ADH]|6027A|6036[AXY]|6037[BKY]|6039[AHJKSY]|6042D|6043[AD]|6044D|6045[BFIKOXY]|6050[AFY]|6055[ABDHIKPUYZ]|6056[ADH]|6058[ADX]|6060[SXC]|6062W|6065A|6070K|7040[ADEFKRT]|7041[DX]|7042A|7043[AEKY]|7044[AX]|7045Y|7048[ASWX]|7053D|7055A|7070X|7071[ADX]|8030Y|8050[DEGX]|8063|8088[MQX]|8094[MTX]|9001[DIX]|9002X|9003[AX]|9005X|9006W|9007[ATX]|9008[ADIJNTUX]|9009[AFG]|9010X|9013[ATX]|9015B|9020A|9022X|9024[OW]|9025Q|9026X|9027[FQTWX]|9029[ZW]|9032[TWXZ]|9203A|9309X|A(?:40[56]DL|46[46]BG|57[04]BL|576CC|621BL|50[13]DL|57[17]VL)|I213|I216[AX]|80(?:[89]2|84|91|6[78]|5[124567]))(?:_(?:EEA|RU|TR))?|P3[36]0X|AM-H200|A463BG)(?:[);/ ]|$)",
  pat! "(?i)4052[CR]",
  pat! "(?i)4052[OWZ]",
  pat! "(?i)4056[WZ]",
  pat! "(?i)(?:Alcatel)?4044V",
  pat! "(?i)(?:Alcatel)?4044C",
  pat! "(?i)(?:Alcatel)?4044O",
  pat! "(?i)5022[EDX]|5070D",
  pat! "(?i)4015[ATX]|4016A",
  pat! "(?i)4015[DN]|4016[DX]",
  pat! "(?i)4032[AX]",
  pat! "(?i)4032[DE]",
  pat! "(?i)7040[AFK]|7041X|7042A",
  pat! "(?i)7040[DE]|7041D",
  pat! "(?i)4018[ADEFMX]",
  pat! "(?i)4035[ADXY]",
  pat! "(?i)5038[ADEX]",
  pat! "(?i)4045[AXL]",
  pat! "(?i)4045[DE]",
  pat! "(?i)5042[AFGWX]",
  pat! "(?i)5042[DE]",
  pat! "(?i)7043[AY]|7044[AX]",
  pat! "(?i)7043[EK]",
  pat! "(?i)50[16]5X",
  pat! "(?i)5015[AE]|5016[AJ]|5065[ADWX]|5116J",
  pat! "(?i)5025[DEG]|5054[ADSTX]",
  pat! "(?i)5051[AEJMTWX]",
  pat! "(?i)5095[IKY]",
  pat! "(?i)5056[ADEGJMTUX]",
  pat! "(?i)5050[ASXY]",
  pat! "(?i)6037[BKY]",
  pat! "(?i)7071[ADX]",
  pat! "(?i)5002[ABDEHJLMSUWX]",
  pat! "(?i)5031[ADGJ]|5131E",
  pat! "(?i)(?:Alcatel_)?5008R",
  pat! "(?i)(?:Alcatel_)?5002R",
  pat! "(?i)5034D|6056[ADH]",
  pat! "(?i)7040[RT]",
  pat! "(?i)5056[NW]",
  pat! "(?i)6016[AX]",
  pat! "(?i)6016[DE]",
  pat! "(?i)6036[AXY]",
  pat! "(?i)6050[AFY]",
  pat! "(?i)6039[AHJKYS]|idol3",
  pat! "(?i)6045[BFIKOYX]|AM-H200",
  pat! "(?i)6055[ABDHIKPUYZ]",
  pat! "(?i)6058[ADX]",
  pat! "(?i)6060[SX]",
  pat! "(?i)(?:Alcatel_)?6060C",
  pat! "(?i)6043[AD]",
  pat! "(?i)4024[DEX]",
  pat! "(?i)4009[AFIKMSX]|A463BG",
  pat! "(?i)4009[DE]",
  pat! "(?i)4003[AJ]|4013[DEJKMX]|4014[AEKMX]|4114E",
  pat! "(?i)4027[ADNX]|4028[AEJS]|5019D",
  pat! "(?i)5017[ABDEOX]",
  pat! "(?i)9007[TX]",
  pat! "(?i)(?:9009G|9013[AT])",
  pat! "(?i)808[24](?:_(?:EEA|RU|TR))?(?:[);/ ]|$)",
  pat! "(?i)8092(?:_(?:EEA|RU|TR))?(?:[);/ ]|$)",
  pat! "(?i)8091(?:_(?:EEA|RU|TR))?(?:[);/ ]|$)",
  pat! "(?i)8052(?:_(?:EEA|RU|TR))?(?:[);/ ]|$)",
  pat! "(?i)8051(?:_(?:EEA|RU|TR))?(?:[);/ ]|$)",
  pat! "(?i)805[4567](?:_(?:EEA|RU|TR))?(?:[);/ ]|$)",
  pat! "(?i)(?:806[78]|9013X)(?:_(?:EEA|RU))?(?:[);/ ]|$)",
  pat! "(?i)4017[ADEFSX]",
  pat! "(?i)4034[ADEFGXL]",
  pat! "(?i)4060[SW]",
  pat! "(?i)5023[EF]",
  pat! "(?i)5010[DEGSUX]",
  pat! "(?i)5012[DFG]",
  pat! "(?i)5045[ADFGIJTXY]|5145A",
  pat! "(?i)(?:Alcatel_)?5004R",
  pat! "(?i)5046[ADIJTUY]",
  pat! "(?i)5011A|5049[EG]",
  pat! "(?i)9008[ADIJNTUX]",
  pat! "(?i)(?:9027[QFTWX]|9032[TX])",
  pat! "(?i)5085[BQ]",
  pat! "(?i)5085[ADHIJY]",
  pat! "(?i)5090[AIY]",
  pat! "(?i)5046[GS]",
  pat! "(?i)5085[GO]",
  pat! "(?i)5048[AYUI]",
  pat! "(?i)8050[GX]",
  pat! "(?i)8050[ED]",
  pat! "(?i)5098S|9001[DIX]",
  pat! "(?i)9003[AX]",
  pat! "(?i)9024[OW]",
  pat! "(?i)I216[AX]",
  pat! "(?i)7048[ASWX]",
  pat! "(?i)(?:Alcatel-)?OT-802",
  pat! "(?i)(?:TRIBE_)?3075A",
  pat! "(?i)(?:Alcatel[ _])?One[ _]?Touch[ _]((?:T[0-9]+|TAB[^/;]+|EVO[78](?:HD)?)) Build",
  pat! "(?i)(?:Alcatel[ _])?One[ _]?Touch([^/;]*) Build",
  pat! "(?i)(?:Alcatel[ _])?One[ _]?Touch([^/;\\)]*)\\)",
  pat! "(?i)5080[ADFQUX]",
  pat! "(?i)4049[DEGMX]",
  pat! "(?i)5044[ADIKOPTY]",
  pat! "(?i)4047[DFXN]",
  pat! "(?i)5047[DIUY]",
  pat! "(?i)4044[CV]",
  pat! "(?i)(?:Alcatel)?4044[MNT]",
  pat! "(?i)5044[GS]",
  pat! "(?i)5033[DFTXY]R(?:[);/ ]|$)",
  pat! "(?i)5033MP(?:[);/ ]|$)",
  pat! "(?i)5033(?:[ADJEFGMOTXYQS]|[EF]P)(?:_(?:EEA|RU|TR))?(?:[);/ ]|$)",
  pat! "(?i)5009[AD]",
  pat! "(?i)5003[ADGUX]",
  pat! "(?i)5008[ADUYT]",
  pat! "(?i)5007[AGUS]",
  pat! "(?i)6002[AD]",
  pat! "(?i)5006[ADG]",
  pat! "(?i)5024[ADFIJ]|5028Y|6025[ADH]",
  pat! "(?i)(?:5028[AD]|5007O)",
  pat! "(?i)5030[ADFJMU]",
  pat! "(?i)5001[ADJTU]",
  pat! "(?i)5059[ADJXYZIT]",
  pat! "(?i)5060[ADJ]",
  pat! "(?i)5052[ADY]|5053[ADKY]",
  pat! "(?i)5029[ADFY]",
  pat! "(?i)5032[OW]|5099[ADYUI]",
  pat! "(?i)5026[ADJ]",
  pat! "(?i)5039[DY]",
  pat! "(?i)5058[AIJY]",
  pat! "(?i)5061[AKU]",
  pat! "(?i)5086[ADY]",
  pat! "(?i)8088[XQM]",
  pat! "(?i)8094[MTX]",
  pat! "(?i)9029[ZW]",
  pat! "(?i)9032[WZ]",
  pat! "(?i)(?:ALCATEL_)?A383G",
  pat! "(?i)ALCATEL([^/;]+) Build",
  pat! "(?i)ALCATEL[ -]?([^/;\\)]+)",
  pat! "(?i)ALCATEL_([^/;\\)]+)",
  pat! "(?i)Alc([a-z0-9]+)",
  pat! "(?i)(Access_Q784C)(?:[);/ ]|$)",
  pat! "(?i)(?:Alfawise (?:A9)|(?:A95X_R1|Z28Pro))(?:[);/ ]|$)",
  pat! "(?i)(A95X_R1)(?:[);/ ]|$)",
  pat! "(?i)Z28Pro(?:[);/ ]|$)",
  pat! "(?i)Alfawise (A9)",
  pat! "(?i)ALIGATOR[_ ]|(?:RX[67]00|S5710|RX460)(?:[);/ ]|$)",
  pat! "(?i)(?:ALIGATOR[ _])?(S4080|S[56]550|S50(?:6[56]|[678]0)|S55[24]0|S5710|RX510|S6[0156]00|RX710|RX[678]00|RX460)(?:[);/ ]|$)",
  pat! "(?i)(ASSTV[A-Z0-9]+)",
  pat! "(?i)AllCall_|Heat[34]|SHINE 12T?|(?:Rio_X|S5500|HERO_20_PRO|HERO 20)(?:[);/ ]|$)|Hot ?[125][^;/]+ Build",
  pat! "(?i)AllCall_(Alpha|Atom|Bro|Madrid)",
  pat! "(?i)Heat([34])",
  pat! "(?i)Rio_X(?:[);/ ]|$)",
  pat! "(?i)(S5500)(?:[);/ ]|$)",
  pat! "(?i)Hot ?([125][^;/]+) Build",
  pat! "(?i)(?:T1001XS?|T1006S?|T1001|T811|iPlay[_ ][2345]0|U1006H?|U1005E|U63PLUS|iPlay8|iPlay_?[89]T|iPlay[134]0|iPlay_40H|iPlay50_mini_Pro|iPlay50 (?:Pro|Mini)|iPlay_?[25]0[SP]|iPlay50(?:Pro|_Lite)?|iPlay60(?:[_ ]mini)?[_ ](?:Pro|Turbo)|kPad|X_Game|T806MHE?|Power M3|Smile_X|iPlay_60_Lite|iPlay_60|T1201)(?:[);/ ]|$)",
  pat! "(?i)Smile_X(?:[);/ ]|$)",
  pat! "(?i)T811(?:[);/ ]|$)",
  pat! "(?i)T1001XS(?:[);/ ]|$)",
  pat! "(?i)kPad(?:[);/ ]|$)",
  pat! "(?i)T1006S(?:[);/ ]|$)",
  pat! "(?i)T1006(?:[);/ ]|$)",
  pat! "(?i)T1001X(?:[);/ ]|$)",
  pat! "(?i)T1001(?:[);/ ]|$)",
  pat! "(?i)U63PLUS(?:[);/ ]|$)",
  pat! "(?i)U1006H?(?:[);/ ]|$)",
  pat! "(?i)U1005E(?:[);/ ]|$)",
  pat! "(?i)T806MHE?",
  pat! "(?i)iPlay_?([56]0)_Lite",
  pat! "(?i)iPlay[_ ]?([56]0)[_ ]mini[_ ]Pro",
  pat! "(?i)iPlay ?([56]0)[ _]?Pro",
  pat! "(?i)iPlay[_ ]?([1-6]0|[89]T?|40H|[25]0[sP])(?:[);/ ]|$)",
  pat! "(?i)X_Game(?:[);/ ]|$)",
  pat! "(?i)Power M3(?:[);/ ]|$)",
  pat! "(?i)Allview|A4You|H1003_LTE_PRO|A5_(?:Easy(?:_TM)?|Ready(?:_TM)?|Quad|Quad_Plus_TM)|A[5-9]_Lite|A5Smiley|A6_Duo|A10_Lite_(?:2019|2GB)|A10_(?:Plus|Max)|AX2_Frenzy|AX4Nano|AX5NanoQ|AX50(?:[23]|1Q)|C6_Duo|E[23]_Living|E[23]_(?:Jump|Sign)|E4_Lite|M9_Connect|P(?:43_Easy|[5689]_Energy|6_Energy_Lite|[68]_Energy_Mini(?:_TM)?|(41|[4568])_eMagic(?:_TM)?|[589](?:_)?Life(?:_TM)?|[567]_Lite(?:_TM)?|6_plus|[45678]_Pro|7_Seon|10_Life|10_Max|10_Style|7_Xtreme|6_Qmax|4_Quad)|V(?:[1345]_Viper|1_Viper_I|2_Viper_(?:[EISX]|X_plus|Xe))|X4_Soul_Vision|X(?:[1-46]_Soul_Xtreme|[1-5]_Soul|3_Soul_Lite|[2-6]_Soul_Mini(?:_TM)?|4_Soul_Mini_S(?:_TM)?|[2-58]_Soul_Style(?:_TM)?|2_Soul_Style_Plus|2_Twin)|A30_Plus|Viva_(?:H801|100[13]G|(?:H100[124]|H701|H802)_LTE|C701|i701G|803G)|VivaH(?:10|[78])|X7_Soul_Style|X[12]0_Soul|X[78]_Soul_Pro|V10_Viper|Viva_(?:Home|i7G)|H1004_LTE",
  pat! "(?i)E([23])_Living",
  pat! "(?i)E([23])_Jump",
  pat! "(?i)P(41|[4568])_eMagic(?:_TM)?",
  pat! "(?i)P([567])_Lite(?:_TM)?",
  pat! "(?i)P([45678])_Pro",
  pat! "(?i)P([69])_Energy_Lite",
  pat! "(?i)P([689])_Energy_mini(?:_TM)?",
  pat! "(?i)P([5689])_Energy",
  pat! "(?i)P([589])(?:_)?Life(?:_TM)?",
  pat! "(?i)V([12])_Viper_I4G(?:_TM)?",
  pat! "(?i)V2_Viper_(E|I|S|X(?:e)?)",
  pat! "(?i)X([1246])_Soul_Xtreme",
  pat! "(?i)X4_Soul_Infinity_(L|N|S|Z)",
  pat! "(?i)X4[_ ]Soul[_ ]Infinity[_ ]Plus",
  pat! "(?i)X([34])_Soul_Lite",
  pat! "(?i)X4_Soul_Mini_S(?:_TM)?",
  pat! "(?i)X([23456])_Soul_Mini(?:_TM)?",
  pat! "(?i)X([357])_Soul_Pro",
  pat! "(?i)X([23458])_Soul_Style(?:_TM)?",
  pat! "(?i)X(\\d+)_Soul",
  pat! "(?i)V(\\d+)_Viper",
  pat! "(?i)A5_Easy(?:_TM)?",
  pat! "(?i)A([56789])_Lite",
  pat! "(?i)A5_Ready(?:_TM)?",
  pat! "(?i)A(10|30)_Plus",
  pat! "(?i)Viva_(i7G)",
  pat! "(?i)H1003_LTE_PRO([13])",
  pat! "(?i)Viva[_ ]?H([78]|10)[_ ]?LTE",
  pat! "(?i)Viva_?((?:H80[12]|H100[12]|H701)_LTE|C701|i701G|803G|H10|H7|H801|100[13]G)",
  pat! "(?i)ALLVIEW ?SPEEDI",
  pat! "(?i)ALLVIEW ?SPEED",
  pat! "(?i)AX4Nano[_ ]plus",
  pat! "(?i)AX(50[23]|501Q)",
  pat! "(?i)Allview[ _-]([^;/]+) Build",
  pat! "(?i)Allview[ _-]([^;/]+)(?:[;/)]|$)"]

/-- `__dr_re`, from item 500 on (device_repo.go:18836-19085). -/
def drRe_2 : List (List Chunk) := [
  pat! "(?i)(?:QUAD-CORE (?:T3 p1|A64 p3|A33 y3|T3 K2001M|T3 k2001o|T3 k2001-nwd)|ZY-07B|UltraOcta-T8|OCTA-CORE T8|OCTOPUS-CORE T8|QUAD-CORE T3 p3|QuadCore-R16)(?:[);/ ]|$)",
  pat! "(?i)QUAD-CORE T3 K(2001M?)",
  pat! "(?i)QUAD-CORE T3 p([13])",
  pat! "(?i)(?:FF-5000|ZQ8003|825X_Pro|03_v89_jbl|benz_hy1920x720|8227L_demo|tb8163p3_bsp)(?:[);/ ]|$)",
  pat! "(?i)(FF-5000)",
  pat! "(?i)(ZQ8003|825X_Pro|benz_hy|8227L_demo|tb8163p3_bsp)(?:1920x720)?",
  pat! "(?i)Altice[ _]|(SX41|Android 9(?:[\\d.]*);(?: [\\w-]+;)? (?:S32|S42|S32_(?:Plus|NFC)))(?:[);/ ]|$)",
  pat! "(?i)(SX41|S32|S42|S32_Plus|S32_NFC)(?:[);/ ]|$)",
  pat! "(?i)Altice[ _](S62|S31|S43)(?:[);/ ]|$)",
  pat! "(?i)Altus(?:[);/ ]|$)",
  pat! "(?i)(?:smarttv_)?(?:AFT[ABMNRST]|AFTSSS?|AFTANNA0|AFTGAZL|AFTMM|AFTK(?:A|M|RT)|AFTTI43|AFTTIFF43|AFTHA001|AFTKA(?:DE|UK)?00[12]|SD4930UR|AEO(?:AT|B[CP]|C[HNW]|H[PY]|KN|RH|TA)|KF(?:OT|ONWI|TT|JWI|JWA|[DFS]OWI|A[PRSU]WI|T[BH]WI|TRP?WI|SAW[IA]|GIWI|[KMR]AWI|MEWI|[MSTQ]UWI|SNWI|RAPWI))(?:[);/ _]|$)|Kindle|AlexaMediaPlayer|Amazon (?:Tate|Jem)|Silk/\\d+\\.\\d+|Echo/1|.+FIRETVSTICK|Amazon;Echo",
  pat! "(?i)(?:smarttv_)?AFTA(?:[);/ _]|$)",
  pat! "(?i)(?:smarttv_)?AFTR(?:[);/ _]|$)",
  pat! "(?i)(?:smarttv_)?AFTGAZL(?:[);/ _]|$)",
  pat! "(?i)(?:smarttv_)?AFTN(?:[);/ _]|$)",
  pat! "(?i)(?:smarttv_)?AFTTI43",
  pat! "(?i)(?:smarttv_)?AFTKAUK001(?:[);/ _]|$)",
  pat! "(?i)(?:smarttv_)?AFTKA(?:UK)?002(?:[);/ _]|$)",
  pat! "(?i)(?:smarttv_)?AFTANNA0(?:[);/ _]|$)",
  pat! "(?i)(?:smarttv_)?AFTALMO(?:[);/ _]|$)",
  pat! "(?i)(?:smarttv_)?AFTHA001(?:[);/ _]|$)",
  pat! "(?i)(?:smarttv_)?AFTSHN01(?:[);/ _]|$)",
  pat! "(?i)(?:smarttv_)?AFTB(?:[);/ _]|$)",
  pat! "(?i)(?:smarttv_)?AFTSSS(?:[);/ _]|$)",
  pat! "(?i)(?:smarttv_)?AFTSS(?:[);/ _]|$)",
  pat! "(?i)(?:smarttv_)?AFTTIFF43(?:[);/ _]|$)",
  pat! "(?i)(?:smarttv_)?AFTKADE001(?:[);/ _]|$)",
  pat! "(?i)(?:smarttv_)?AFT[MST](?:[);/ _]|$)",
  pat! "(?i).+FIRETVSTICK2018|(?:smarttv_)?AFTMM(?:[);/ _]|$)",
  pat! "(?i)(?:smarttv_)?AFTKM(?:[);/ _]|$)",
  pat! "(?i)(?:smarttv_)?AFTKA(?:[);/ _]|$)",
  pat! "(?i)(?:smarttv_)?AFTKRT(?:[);/ _]|$)",
  pat! "(?i)KFFOWI(?:[);/ ]|$)",
  pat! "(?i)KFMUWI(?:[);/ ]|$)",
  pat! "(?i)KFTT(?:[);/ ]|$)",
  pat! "(?i)KFJWI(?:[);/ ]|$)|Amazon Jem",
  pat! "(?i)KFJWA(?:[);/ ]|$)",
  pat! "(?i)KFSOWI(?:[);/ ]|$)|Amazon Tate",
  pat! "(?i)KFTHWI(?:[);/ ]|$)",
  pat! "(?i)KFTHWA(?:[);/ ]|$)",
  pat! "(?i)KFAPWI(?:[);/ ]|$)",
  pat! "(?i)KFAPWA(?:[);/ ]|$)",
  pat! "(?i)KFSNWI(?:[);/ ]|$)",
  pat! "(?i)KFARWI(?:[);/ ]|$)",
  pat! "(?i)KFASWI(?:[);/ ]|$)",
  pat! "(?i)KFQUWI(?:[);/ ]|$)",
  pat! "(?i)KFAUWI(?:[);/ ]|$)",
  pat! "(?i)KFMEWI(?:[);/ ]|$)",
  pat! "(?i)KFRAP?WI(?:[);/ ]|$)",
  pat! "(?i)KFGIWI(?:[);/ ]|$)",
  pat! "(?i)KFDOWI(?:[);/ ]|$)",
  pat! "(?i)KFKAWI(?:[);/ ]|$)",
  pat! "(?i)KFONWI(?:[);/ ]|$)",
  pat! "(?i)KFSAWI(?:[);/ ]|$)",
  pat! "(?i)KFSAWA(?:[);/ ]|$)",
  pat! "(?i)KFTBWI(?:[);/ ]|$)",
  pat! "(?i)KFSUWI(?:[);/ ]|$)",
  pat! "(?i)KFMAWI(?:[);/ ]|$)",
  pat! "(?i)KFTRWI(?:[);/ ]|$)",
  pat! "(?i)KFTUWI(?:[);/ ]|$)",
  pat! "(?i)KFTRPWI(?:[);/ ]|$)",
  pat! "(?i)KFOT|Kindle Fire|Silk-Accelerated",
  pat! "(?i)Amazon;Echo;",
  pat! "(?i)Echo/1|AEO(?:AT|BC|CN|KN|TA)(?:[);/ ]|$)",
  pat! "(?i)Amazon;Echo_Dot",
  pat! "(?i)Amazon;Echo_Show_(\\d+)",
  pat! "(?i)AEOBP(?:[);/ ]|$)",
  pat! "(?i)AEOHP(?:[);/ ]|$)",
  pat! "(?i)(?:AEOC[HW]|AEORH)(?:[);/ ]|$)",
  pat! "(?i)AEOHY(?:[);/ ]|$)",
  pat! "(?i)Silk/\\d+\\.\\d+",
  pat! "(?i)(?:AFTBU001|AFTPR001)(?:[);/ ]|$)",
  pat! "(?i)AFTBU001(?:[);/ ]|$)",
  pat! "(?i)AFTPR001(?:[);/ ]|$)",
  pat! "(?i)AMIGOO (R300|R9 Max|M1 Max|X15)(?:[);/ ]|$)",
  pat! "(?i)(?:Amigo7x?(?:YUF|SCB)?)(?:[);/ ]|$)",
  pat! "(?i)Amoi|(?:A862W|Clever[ -]?(?:Gem S52|Gleam S45|Pad P7|Wave S50|Touch S46|JOY S40|Lite S41))(?:[);/ ]|$)",
  pat! "(?i)Clever[ -]?(Gleam S45|Gem S52|Wave S50|Touch S46|Lite S41)",
  pat! "(?i)Amoi[-_ /](CA6)",
  pat! "(?i)Amoi[-_ /]([a-z0-9]+)",
  pat! "(?i)Amoisonic-([a-z0-9]+)",
  pat! "(?i)(?:ANDOWL-)?(Q[45]|QG9|QK9MAX)(?:[);/ ]|$)|Andowl",
  pat! "(?i)Android 8(?:[\\d.]*);(?: [\\w-]+;)? P80(?: Build|[);])",
  pat! "(?i)angelcare[ _]",
  pat! "(?i)F20 ?pro",
  pat! "(?i)angelcare[ _]([^/;)]+)(?: Build|[);])",
  pat! "(?i)Anker|smarttv_AFTMM-Anker-AK-D3000111|(?:AFTMM|D21[45]0)(?:[);/ ]|$)",
  pat! "(?i)Anker|smarttv_AFTMM-Anker-AK-D3000111|AFTMM(?:[);/ ]|$)",
  pat! "(?i)D2140(?:[);/ ]|$)",
  pat! "(?i)D2150(?:[);/ ]|$)",
  pat! "(?i)ANRY-(RS10|[SX]20|E30|1006)(?:[);/ ]|$)",
  pat! "(?i)AOCOS ([^);/]+)(?: Build|[);])",
  pat! "(?i)(?:X900_US|X700_EEA)(?:[);/ ]|$)",
  pat! "(?i)X([79]00)_(?:EEA|US)",
  pat! "(?i)Aoro[ _]([^/;)]+)(?: Build|[);])",
  pat! "(?i)(?:aoson ?(?:R10[1-3]|S[78]|M707TG|M96T)(?:[_ ]?Pro)?|R103)(?:[);/ ]|$)",
  pat! "(?i)(?:aoson ?)?R10([1-3])(?:[);/ ]|$)",
  pat! "(?i)aoson ?S7_Pro(?:[);/ ]|$)",
  pat! "(?i)aoson ?S7(?:[);/ ]|$)",
  pat! "(?i)aoson ?S8Pro(?:[);/ ]|$)",
  pat! "(?i)aoson ?(M707TG|M96T)(?:[);/ ]|$)",
  pat! "(?i)(EM103A)(?:[);/ ]|$)",
  pat! "(?i)(?:iTunes-)?Apple[ _]?TV|Apple/|(?:Apple-|iTunes-)?(?:iPad|iPhone)|iPh(?:[0-9]|1[0-7]),[0-9]|CFNetwork|HomePod|AirPlay|AirPodcasts/|Watch ?OS|Watch1,[12]|MDCR_i?Mac|ICRU_iP(?:ad|hone)|Mac OS X[,;]|OSX/|macOS,|for Apple Watch|nook browser",
  pat! "(?i)(?:HomePod|AirPodcasts/)",
  pat! "(?i)Watch3,[13]",
  pat! "(?i)Watch3,[24]",
  pat! "(?i)Watch5,(?:9|11)",
  pat! "(?i)Watch5,1[02]",
  pat! "(?i)Watch6,1[02]",
  pat! "(?i)Watch6,1[13]",
  pat! "(?i)Watch6,1[46]",
  pat! "(?i)Watch6,1[57]",
  pat! "(?i)Watch([456]),[13]",
  pat! "(?i)Watch([456]),[24]",
  pat! "(?i)Watch6,[68]",
  pat! "(?i)Watch6,[79]",
  pat! "(?i)(:?Apple Watch|watchOS)",
  pat! "(?i)(?:MDCR_|ICRU_|Apple-)?MacPro1(?:%2C|,)1",
  pat! "(?i)(?:MDCR_|ICRU_|Apple-)?MacPro2(?:%2C|,)1",
  pat! "(?i)(?:MDCR_|ICRU_|Apple-)?MacPro3(?:%2C|,)1",
  pat! "(?i)(?:MDCR_|ICRU_|Apple-)?MacPro4(?:%2C|,)1",
  pat! "(?i)(?:MDCR_|ICRU_|Apple-)?MacPro5(?:%2C|,)1",
  pat! "(?i)(?:MDCR_|ICRU_|Apple-)?Mac14(?:%2C|,)8",
  pat! "(?i)(?:MDCR_|ICRU_|Apple-)?iMac5(?:%2C|,)1",
  pat! "(?i)(?:MDCR_|ICRU_|Apple-)?iMac5(?:%2C|,)2",
  pat! "(?i)(?:MDCR_|ICRU_|Apple-)?iMac6(?:%2C|,)1",
  pat! "(?i)(?:MDCR_|ICRU_|Apple-)?iMac7(?:%2C|,)1",
  pat! "(?i)(?:MDCR_|ICRU_|Apple-)?iMac8(?:%2C|,)1",
  pat! "(?i)(?:MDCR_|ICRU_|Apple-)?iMac9(?:%2C|,)1",
  pat! "(?i)(?:MDCR_|ICRU_|Apple-)?iMac10(?:%2C|,)1",
  pat! "(?i)(?:MDCR_|ICRU_|Apple-)?iMac11(?:%2C|,)1",
  pat! "(?i)(?:MDCR_|ICRU_|Apple-)?iMac11(?:%2C|,)2",
  pat! "(?i)(?:MDCR_|ICRU_|Apple-)?iMac11(?:%2C|,)3",
  pat! "(?i)(?:MDCR_|ICRU_|Apple-)?iMac12(?:%2C|,)1",
  pat! "(?i)(?:MDCR_|ICRU_|Apple-)?iMac12(?:%2C|,)2",
  pat! "(?i)(?:MDCR_|ICRU_|Apple-)?iMac13(?:%2C|,)1",
  pat! "(?i)(?:MDCR_|ICRU_|Apple-)?iMac13(?:%2C|,)2",
  pat! "(?i)(?:MDCR_|ICRU_|Apple-)?iMac14(?:%2C|,)[13]",
  pat! "(?i)(?:MDCR_|ICRU_|Apple-)?iMac14(?:%2C|,)2",
  pat! "(?i)(?:MDCR_|ICRU_|Apple-)?iMac14(?:%2C|,)4",
  pat! "(?i)(?:MDCR_|ICRU_|Apple-)?iMac17(?:%2C|,)1",
  pat! "(?i)(?:MDCR_|ICRU_|Apple-)?iMac18(?:%2C|,)[12]",
  pat! "(?i)(?:MDCR_|ICRU_|Apple-)?iMac18(?:%2C|,)3",
  pat! "(?i)(?:MDCR_|ICRU_|Apple-)?iMac19(?:%2C|,)1",
  pat! "(?i)(?:MDCR_|ICRU_|Apple-)?iMac19(?:%2C|,)2",
  pat! "(?i)(?:MDCR_|ICRU_|Apple-)?iMac20(?:%2C|,)[12]",
  pat! "(?i)(?:MDCR_|ICRU_|Apple-)?iMac21(?:%2C|,)[12]",
  pat! "(?i)(?:MDCR_|ICRU_|Apple-)?Mac15(?:%2C|,)[45]",
  pat! "(?i)(?:MDCR_|ICRU_|Apple-)?iMacPro1(?:%2C|,)1",
  pat! "(?i)(?:MDCR_|ICRU_|Apple-)?MacBook1(?:%2C|,)1",
  pat! "(?i)(?:MDCR_|ICRU_|Apple-)?MacBook2(?:%2C|,)1",
  pat! "(?i)(?:MDCR_|ICRU_|Apple-)?MacBook3(?:%2C|,)1",
  pat! "(?i)(?:MDCR_|ICRU_|Apple-)?MacBook[45](?:%2C|,)1",
  pat! "(?i)(?:MDCR_|ICRU_|Apple-)?MacBook5(?:%2C|,)2",
  pat! "(?i)(?:MDCR_|ICRU_|Apple-)?MacBook6(?:%2C|,)1",
  pat! "(?i)(?:MDCR_|ICRU_|Apple-)?MacBook7(?:%2C|,)1",
  pat! "(?i)(?:MDCR_|ICRU_|Apple-)?MacBook8(?:%2C|,)1",
  pat! "(?i)(?:MDCR_|ICRU_|Apple-)?MacBook9(?:%2C|,)1",
  pat! "(?i)(?:MDCR_|ICRU_|Apple-)?MacBookAir1(?:%2C|,)1",
  pat! "(?i)(?:MDCR_|ICRU_|Apple-)?MacBookAir2(?:%2C|,)1",
  pat! "(?i)(?:MDCR_|ICRU_|Apple-)?MacBookAir3(?:%2C|,)1",
  pat! "(?i)(?:MDCR_|ICRU_|Apple-)?MacBookAir3(?:%2C|,)2",
  pat! "(?i)(?:MDCR_|ICRU_|Apple-)?MacBookAir4(?:%2C|,)1",
  pat! "(?i)(?:MDCR_|ICRU_|Apple-)?MacBookAir4(?:%2C|,)2",
  pat! "(?i)(?:MDCR_|ICRU_|Apple-)?MacBookAir5(?:%2C|,)1",
  pat! "(?i)(?:MDCR_|ICRU_|Apple-)?MacBookAir5(?:%2C|,)2",
  pat! "(?i)(?:MDCR_|ICRU_|Apple-)?MacBookAir6(?:%2C|,)1",
  pat! "(?i)(?:MDCR_|ICRU_|Apple-)?MacBookAir6(?:%2C|,)2",
  pat! "(?i)(?:MDCR_|ICRU_|Apple-)?MacBookAir7(?:%2C|,)1",
  pat! "(?i)(?:MDCR_|ICRU_|Apple-)?MacBookAir7(?:%2C|,)2",
  pat! "(?i)(?:MDCR_|ICRU_|Apple-)?MacBookAir8(?:%2C|,)1",
  pat! "(?i)(?:MDCR_|ICRU_|Apple-)?MacBookAir8(?:%2C|,)2",
  pat! "(?i)(?:MDCR_|ICRU_|Apple-)?MacBookAir9(?:%2C|,)1",
  pat! "(?i)(?:MDCR_|ICRU_|Apple-)?MacBookAir10(?:%2C|,)1",
  pat! "(?i)(?:MDCR_|ICRU_|Apple-)?Mac14(?:%2C|,)2",
  pat! "(?i)(?:MDCR_|ICRU_|Apple-)?Mac14(?:%2C|,)15",
  pat! "(?i)(?:MDCR_|ICRU_|Apple-)?Mac15(?:%2C|,)12",
  pat! "(?i)(?:MDCR_|ICRU_|Apple-)?MacBookPro1(?:%2C|,)1",
  pat! "(?i)(?:MDCR_|ICRU_|Apple-)?MacBookPro1(?:%2C|,)2",
  pat! "(?i)(?:MDCR_|ICRU_|Apple-)?MacBookPro2(?:%2C|,)1",
  pat! "(?i)(?:MDCR_|ICRU_|Apple-)?MacBookPro2(?:%2C|,)2",
  pat! "(?i)(?:MDCR_|ICRU_|Apple-)?MacBookPro[34](?:%2C|,)1",
  pat! "(?i)(?:MDCR_|ICRU_|Apple-)?MacBookPro5(?:%2C|,)1",
  pat! "(?i)(?:MDCR_|ICRU_|Apple-)?MacBookPro5(?:%2C|,)2",
  pat! "(?i)(?:MDCR_|ICRU_|Apple-)?MacBookPro5(?:%2C|,)[34]",
  pat! "(?i)(?:MDCR_|ICRU_|Apple-)?MacBookPro5(?:%2C|,)5",
  pat! "(?i)(?:MDCR_|ICRU_|Apple-)?MacBookPro6(?:%2C|,)1",
  pat! "(?i)(?:MDCR_|ICRU_|Apple-)?MacBookPro6(?:%2C|,)2",
  pat! "(?i)(?:MDCR_|ICRU_|Apple-)?MacBookPro7(?:%2C|,)1",
  pat! "(?i)(?:MDCR_|ICRU_|Apple-)?MacBookPro8(?:%2C|,)1",
  pat! "(?i)(?:MDCR_|ICRU_|Apple-)?MacBookPro8(?:%2C|,)2",
  pat! "(?i)(?:MDCR_|ICRU_|Apple-)?MacBookPro8(?:%2C|,)3",
  pat! "(?i)(?:MDCR_|ICRU_|Apple-)?MacBookPro9(?:%2C|,)1",
  pat! "(?i)(?:MDCR_|ICRU_|Apple-)?MacBookPro9(?:%2C|,)2",
  pat! "(?i)(?:MDCR_|ICRU_|Apple-)?MacBookPro10(?:%2C|,)1",
  pat! "(?i)(?:MDCR_|ICRU_|Apple-)?MacBookPro10(?:%2C|,)2",
  pat! "(?i)(?:MDCR_|ICRU_|Apple-)?MacBookPro11(?:%2C|,)1",
  pat! "(?i)(?:MDCR_|ICRU_|Apple-)?MacBookPro11(?:%2C|,)[23]",
  pat! "(?i)(?:MDCR_|ICRU_|Apple-)?MacBookPro11(?:%2C|,)[45]",
  pat! "(?i)(?:MDCR_|ICRU_|Apple-)?MacBookPro12(?:%2C|,)1",
  pat! "(?i)(?:MDCR_|ICRU_|Apple-)?MacBookPro13(?:%2C|,)[12]",
  pat! "(?i)(?:MDCR_|ICRU_|Apple-)?MacBookPro13(?:%2C|,)3",
  pat! "(?i)(?:MDCR_|ICRU_|Apple-)?MacBookPro14(?:%2C|,)[12]",
  pat! "(?i)(?:MDCR_|ICRU_|Apple-)?MacBookPro14(?:%2C|,)3",
  pat! "(?i)(?:MDCR_|ICRU_|Apple-)?MacBookPro15(?:%2C|,)1",
  pat! "(?i)(?:MDCR_|ICRU_|Apple-)?MacBookPro15(?:%2C|,)2",
  pat! "(?i)(?:MDCR_|ICRU_|Apple-)?MacBookPro15(?:%2C|,)3",
  pat! "(?i)(?:MDCR_|ICRU_|Apple-)?MacBookPro15(?:%2C|,)4",
  pat! "(?i)(?:MDCR_|ICRU_|Apple-)?MacBookPro16(?:%2C|,)[14]",
  pat! "(?i)(?:MDCR_|ICRU_|Apple-)?MacBookPro16(?:%2C|,)[23]",
  pat! "(?i)(?:MDCR_|ICRU_|Apple-)?MacBookPro17(?:%2C|,)1",
  pat! "(?i)(?:MDCR_|ICRU_|Apple-)?Mac14(?:%2C|,)7",
  pat! "(?i)(?:MDCR_|ICRU_|Apple-)?MacBookPro18(?:%2C|,)[12]",
  pat! "(?i)(?:MDCR_|ICRU_|Apple-)?Mac14(?:%2C|,)(?:6|10)",
  pat! "(?i)(?:MDCR_|ICRU_|Apple-)?Mac15(?:%2C|,)(?:[79]|11)",
  pat! "(?i)(?:MDCR_|ICRU_|Apple-)?MacBookPro18(?:%2C|,)[34]",
  pat! "(?i)(?:MDCR_|ICRU_|Apple-)?Mac14(?:%2C|,)[59]",
  pat! "(?i)(?:MDCR_|ICRU_|Apple-)?Mac15(?:%2C|,)(?:[368]|10)",
  pat! "(?i)(?:MDCR_|ICRU_|Apple-)?Macmini1(?:%2C|,)1",
  pat! "(?i)(?:MDCR_|ICRU_|Apple-)?Macmini2(?:%2C|,)1",
  pat! "(?i)(?:MDCR_|ICRU_|Apple-)?Macmini3(?:%2C|,)1",
  pat! "(?i)(?:MDCR_|ICRU_|Apple-)?Macmini4(?:%2C|,)1",
  pat! "(?i)(?:MDCR_|ICRU_|Apple-)?Macmini5(?:%2C|,)[123]",
  pat! "(?i)(?:MDCR_|ICRU_|Apple-)?Macmini6(?:%2C|,)[12]",
  pat! "(?i)(?:MDCR_|ICRU_|Apple-)?Macmini7(?:%2C|,)1",
  pat! "(?i)(?:MDCR_|ICRU_|Apple-)?Macmini8(?:%2C|,)1",
  pat! "(?i)(?:MDCR_|ICRU_|Apple-)?Macmini9(?:%2C|,)1",
  pat! "(?i)(?:MDCR_|ICRU_|Apple-)?Mac14(?:%2C|,)(?:3|12)",
  pat! "(?i)(?:MDCR_|ICRU_|Apple-)?PowerMac7(?:%2C|,)2",
  pat! "(?i)(?:MDCR_|ICRU_|Apple-)?PowerMac7(?:%2C|,)3",
  pat! "(?i)(?:MDCR_|ICRU_|Apple-)?PowerMac8(?:%2C|,)2",
  pat! "(?i)(?:MDCR_|ICRU_|Apple-)?PowerMac10(?:%2C|,)1",
  pat! "(?i)(?:MDCR_|ICRU_|Apple-)?PowerMac12(?:%2C|,)1",
  pat! "(?i)(?:MDCR_|ICRU_|Apple-)?PowerBook5(?:%2C|,)6",
  pat! "(?i)(?:MDCR_|ICRU_|Apple-)?PowerBook6(?:%2C|,)7",
  pat! "(?i)(?:MDCR_|ICRU_|Apple-)?Mac13(?:%2C|,)[12]",
  pat! "(?i)(?:MDCR_|ICRU_|Apple-)?Mac14(?:%2C|,)1[34]",
  pat! "(?i)(?:MDCR_|ICRU_|Apple-)?iPh(?:one)?1[C,_]1",
  pat! "(?i)(?:MDCR_|ICRU_|Apple-)?iPh(?:one)?1[C,_]2",
  pat! "(?i)(?:MDCR_|ICRU_|Apple-)?iPh(?:one)?2[C,_]1| 3GS\\)$",
  pat! "(?i)(?:MDCR_|ICRU_|Apple-)?iPh(?:one)?3[C,_][123]",
  pat! "(?i)(?:MDCR_|ICRU_|Apple-)?iPh(?:one)?4[C,_]1|1C2%254enohPi| 4S\\)$",
  pat! "(?i)(?:MDCR_|ICRU_|Apple-)?iPh(?:one)?5[C,_][12]| 5\\)$",
  pat! "(?i)(?:MDCR_|ICRU_|Apple-)?iPh(?:one)?5[C,_][34]",
  pat! "(?i)(?:MDCR_|ICRU_|Apple-)?iPh(?:one)?6[C,_][12]|(?:iPhone[ _]?5S| 5S)(?:[);/ ]|$)",
  pat! "(?i)(?:MDCR_|ICRU_|Apple-)?iPh(?:one)?7[C,_]1|1C2%257enohPi|(?:iPhone[ _]?6Plus| 6PLUS)(?:[);/ ]|$)",
  pat! "(?i)(?:MDCR_|ICRU_|Apple-)?iPh(?:one)?7[C,_]2|(?:iPhone[ _]?6| 6)(?:[);/ ]|$)",
  pat! "(?i)(?:MDCR_|ICRU_|Apple-)?iPh(?:one)?8[C,_]1|(?:iPhone[ /]?6s| 6S)(?:[);/ ]|$)",
  pat! "(?i)(?:MDCR_|ICRU_|Apple-)?iPh(?:one)?8[C,_]2| 6SPLUS\\)$",
  pat! "(?i)(?:MDCR_|ICRU_|Apple-)?iPh(?:one)?8[C,_]4|(?:iPhoneSE| SE)(?:[);/ ]|$)"]

/-- `__dr_re`, from item 750 on (device_repo.go:19086-19335). -/
def drRe_3 : List (List Chunk) := [
  pat! "(?i)(?:MDCR_|ICRU_|Apple-)?iPh(?:one)?9[C,_][24]|(?:iPhone[ _]?7Plus| 7PLUS)(?:[);/ ]|$)",
  pat! "(?i)(?:MDCR_|ICRU_|Apple-)?iPh(?:one)?9[C,_][13]|(?:iPhone[ _]?7 ?| 7)(?:[);/ ]|$)",
  pat! "(?i)(?:MDCR_|ICRU_|Apple-)?iPh(?:one)?10[C,_][25]|(?:iPhone[ _]?8Plus| 8PLUS)(?:[);/ ]|$)",
  pat! "(?i)(?:MDCR_|ICRU_|Apple-)?iPh(?:one)?10[C,_][14]|(?:iPhone[ _]?8| 8)(?:[);/ ]|$)",
  pat! "(?i)(?:MDCR_|ICRU_|Apple-)?iPh(?:one)?11[C,_][46]|(?:iPhone[ _]?XS[ _]?Max| XSMAX)(?:[);/ ]|$)",
  pat! "(?i)(?:MDCR_|ICRU_|Apple-)?iPh(?:one)?11[C,_]2|(?:iPhone[ _]?XS| XS)(?:[);/ ]|$)",
  pat! "(?i)(?:MDCR_|ICRU_|Apple-)?iPh(?:one)?11[C,_]8|(?:iPhone[ _]?XR| XR)(?:[);/ ]|$)",
  pat! "(?i)(?:MDCR_|ICRU_|Apple-)?iPh(?:one)?10[C,_][36]|(?:iPhone[ _]?X| X)(?:[);/ ]|$)",
  pat! "(?i)(?:MDCR_|ICRU_|Apple-)?iPh(?:one)?12[C,_]5|(?:iPhone[ _]?11[ _]?Pro[ _]?Max| 11PROMAX)(?:[);/ ]|$)",
  pat! "(?i)(?:MDCR_|ICRU_|Apple-)?iPh(?:one)?12[C,_]3|(?:iPhone[ _]?11[ _]?Pro| 11PRO)(?:[);/ ]|$)",
  pat! "(?i)(?:MDCR_|ICRU_|Apple-)?iPh(?:one)?12[C,_]1|(?:iPhone[ _]?11| 11)(?:[);/ ]|$)",
  pat! "(?i)(?:MDCR_|ICRU_|Apple-)?iPh(?:one)?12[C,_]8|(?:iPhone SE 2|iPhoneSE2ndGen| SE2)(?:[);/ ]|$)",
  pat! "(?i)(?:MDCR_|ICRU_|Apple-)?iPh(?:one)?13[C,_]1|(?:iPhone12mini| 12MINI)(?:[);/ ]|$)",
  pat! "(?i)(?:MDCR_|ICRU_|Apple-)?iPh(?:one)?13[C,_]4|(?:iPhone[ _]?12[ _]?Pro[ _]?Max| 12PROMAX)(?:[);/ ]|$)",
  pat! "(?i)(?:MDCR_|ICRU_|Apple-)?iPh(?:one)?13[C,_]3|(?:iPhone[ _]?12[ _]?Pro| 12PRO)(?:[);/ ]|$)",
  pat! "(?i)(?:MDCR_|ICRU_|Apple-)?iPh(?:one)?13[C,_]2|(?:iPhone[ _]?12| 12)(?:[);/ ]|$)",
  pat! "(?i)(?:MDCR_|ICRU_|Apple-)?iPh(?:one)?14[C,_]3|(?:iPhone[ _]?13[ _]?Pro[ _]?Max| 13PROMAX)(?:[);/ ]|$)",
  pat! "(?i)(?:MDCR_|ICRU_|Apple-)?iPh(?:one)?14[C,_]2|(?:iPhone[ _]?13[ _]?Pro| 13PRO)(?:[);/ ]|$)",
  pat! "(?i)(?:MDCR_|ICRU_|Apple-)?iPh(?:one)?14[C,_]4|(?:iPhone[ _]?13[ _]?mini| 13MINI)(?:[);/ ]|$)",
  pat! "(?i)(?:MDCR_|ICRU_|Apple-)?iPh(?:one)?14[C,_]5|(?:iPhone[ _]?13| 13)(?:[);/ ]|$)",
  pat! "(?i)(?:MDCR_|ICRU_|Apple-)?iPh(?:one)?14[C,_]6|(?:iPhoneSE3ndGen| SE3)(?:[);/ ]|$)",
  pat! "(?i)(?:MDCR_|ICRU_|Apple-)?iPh(?:one)?15[C,_]3|(?:iPhone[ _]?14[ _]?Pro[ _]?Max| 14PROMAX)(?:[);/ ]|$)",
  pat! "(?i)(?:MDCR_|ICRU_|Apple-)?iPh(?:one)?15[C,_]2|(?:iPhone[ _]?14[ _]?Pro| 14PRO)(?:[);/ ]|$)",
  pat! "(?i)(?:MDCR_|ICRU_|Apple-)?iPh(?:one)?14[C,_]8|(?:iPhone[ _]?14[ _]?Plus| 14PLUS)(?:[);/ ]|$)",
  pat! "(?i)(?:MDCR_|ICRU_|Apple-)?iPh(?:one)?14[C,_]7|(?:iPhone[ _]?14| 14)(?:[);/ ]|$)",
  pat! "(?i)(?:MDCR_|ICRU_|Apple-)?iPh(?:one)?16[C,_]2|(?:iPhone[ _]?15[ _]?Pro[ _]?Max| 15PROMAX)(?:[);/ ]|$)",
  pat! "(?i)(?:MDCR_|ICRU_|Apple-)?iPh(?:one)?16[C,_]1|(?:iPhone[ _]?15[ _]?Pro| 15PRO)(?:[);/ ]|$)",
  pat! "(?i)(?:MDCR_|ICRU_|Apple-)?iPh(?:one)?15[C,_]5|(?:iPhone[ _]?15[ _]?Plus| 15PLUS)(?:[);/ ]|$)",
  pat! "(?i)(?:MDCR_|ICRU_|Apple-)?iPh(?:one)?15[C,_]4|(?:iPhone[ _]?15| 15)(?:[);/ ]|$)",
  pat! "(?i)(?:MDCR_|ICRU_|Apple-)?iPh(?:one)?17[C,_]2|(?:iPhone[ _]?16[ _]?Pro[ _]?Max| 16PROMAX)(?:[);/ ]|$)",
  pat! "(?i)(?:MDCR_|ICRU_|Apple-)?iPh(?:one)?17[C,_]1|(?:iPhone[ _]?16[ _]?Pro| 16PRO)(?:[);/ ]|$)",
  pat! "(?i)(?:MDCR_|ICRU_|Apple-)?iPh(?:one)?17[C,_]4|(?:iPhone[ _]?16[ _]?Plus| 16PLUS)(?:[);/ ]|$)",
  pat! "(?i)(?:MDCR_|ICRU_|Apple-)?iPh(?:one)?17[C,_]5|(?:iPhone[ _]?16e| 16e)(?:[);/ ]|$)",
  pat! "(?i)(?:MDCR_|ICRU_|Apple-)?iPh(?:one)?17[C,_]3|(?:iPhone[ _]?16| 16)(?:[);/ ]|$)",
  pat! "(?i)(?:MDCR_|ICRU_|Apple-)?iPh(?:one)?18[C,_]2|(?:iPhone[ _]?17[ _]?Pro[ _]?Max| 17PROMAX)(?:[);/ ]|$)",
  pat! "(?i)(?:MDCR_|ICRU_|Apple-)?iPh(?:one)?18[C,_]1|(?:iPhone[ _]?17[ _]?Pro| 17PRO)(?:[);/ ]|$)",
  pat! "(?i)(?:MDCR_|ICRU_|Apple-)?iPh(?:one)?18[C,_]3|(?:iPhone[ _]?17| 17)(?:[);/ ]|$)",
  pat! "(?i)(?:MDCR_|ICRU_|Apple-)?iPh(?:one)?18[C,_]4|(?:iPhone[ _]?17[ _]?Air| 17AIR)(?:[);/ ]|$)",
  pat! "(?i)(?:MDCR_|ICRU_|Apple-)?iPad1[C,_]1",
  pat! "(?i)(?:MDCR_|ICRU_|Apple-)?iPad2[C,_][1-4]",
  pat! "(?i)(?:MDCR_|ICRU_|Apple-)?iPad2[C,_][567]",
  pat! "(?i)(?:MDCR_|ICRU_|Apple-)?iPad3[C,_][123]",
  pat! "(?i)(?:MDCR_|ICRU_|Apple-)?iPad3[C,_][456]",
  pat! "(?i)(?:MDCR_|ICRU_|Apple-)?iPad4[C,_][123]",
  pat! "(?i)(?:MDCR_|ICRU_|Apple-)?iPad4[C,_][456]",
  pat! "(?i)(?:MDCR_|ICRU_|Apple-)?iPad4[C,_][789]",
  pat! "(?i)(?:MDCR_|ICRU_|Apple-)?iPad5[C,_][12]",
  pat! "(?i)(?:MDCR_|ICRU_|Apple-)?iPad5[C,_][34]|(?:iPad Air 2 \\(WiFi\\))(?:[);/ ]|$)",
  pat! "(?i)(?:MDCR_|ICRU_|Apple-)?iPad6[C,_][34]",
  pat! "(?i)(?:MDCR_|ICRU_|Apple-)?iPad6[C,_][78]",
  pat! "(?i)(?:MDCR_|ICRU_|Apple-)?iPad6[C,_](?:11|12)",
  pat! "(?i)(?:MDCR_|ICRU_|Apple-)?iPad7[C,_][12](?:[\\]);/ ]|$)",
  pat! "(?i)(?:MDCR_|ICRU_|Apple-)?iPad7[C,_][34](?:[\\]);/ ]|$)",
  pat! "(?i)(?:MDCR_|ICRU_|Apple-)?iPad7[C,_][56]|(?:iPad 6 \\(WiFi\\))(?:[);/ ]|$)",
  pat! "(?i)(?:MDCR_|ICRU_|Apple-)?iPad7[C,_](?:11|12)(?:[\\]);/ ]|$)",
  pat! "(?i)(?:MDCR_|ICRU_|Apple-)?iPad8[C,_](?:9|10)",
  pat! "(?i)(?:MDCR_|ICRU_|Apple-)?iPad8[C,_]1[12]",
  pat! "(?i)(?:MDCR_|ICRU_|Apple-)?iPad8[C,_][12]",
  pat! "(?i)(?:MDCR_|ICRU_|Apple-)?iPad8[C,_][34]",
  pat! "(?i)(?:MDCR_|ICRU_|Apple-)?iPad8[C,_][5-8]",
  pat! "(?i)(?:MDCR_|ICRU_|Apple-)?iPad11[C,_][12]",
  pat! "(?i)(?:MDCR_|ICRU_|Apple-)?iPad11[C,_][34]",
  pat! "(?i)(?:MDCR_|ICRU_|Apple-)?iPad11[C,_][67]",
  pat! "(?i)(?:MDCR_|ICRU_|Apple-)?iPad12[C,_]1|(?:iPad 9th Gen \\(WiFi\\))(?:[);/ ]|$)",
  pat! "(?i)(?:MDCR_|ICRU_|Apple-)?iPad12[C,_]2|(?:iPad 9th Gen \\(Cellular\\))(?:[);/ ]|$)",
  pat! "(?i)(?:MDCR_|ICRU_|Apple-)?iPad13[C,_]4",
  pat! "(?i)(?:MDCR_|ICRU_|Apple-)?iPad13[C,_][5-7]|(?:iPad Pro 11-inch 3rd-gen \\(Cellular\\))(?:[);/ ]|$)",
  pat! "(?i)(?:MDCR_|ICRU_|Apple-)?iPad13[C,_]8",
  pat! "(?i)(?:MDCR_|ICRU_|Apple-)?iPad13[C,_](?:9|10|11)",
  pat! "(?i)(?:MDCR_|ICRU_|Apple-)?iPad13[C,_]16",
  pat! "(?i)(?:MDCR_|ICRU_|Apple-)?iPad13[C,_]17",
  pat! "(?i)(?:MDCR_|ICRU_|Apple-)?iPad13[C,_]18",
  pat! "(?i)(?:MDCR_|ICRU_|Apple-)?iPad13[C,_]19",
  pat! "(?i)(?:MDCR_|ICRU_|Apple-)?iPad13[C,_]1|(?:iPad Air 4th Gen \\(WiFi\\))(?:[);/ ]|$)",
  pat! "(?i)(?:MDCR_|ICRU_|Apple-)?iPad13[C,_]2",
  pat! "(?i)(?:MDCR_|ICRU_|Apple-)?iPad14[C,_]10",
  pat! "(?i)(?:MDCR_|ICRU_|Apple-)?iPad14[C,_]11",
  pat! "(?i)(?:MDCR_|ICRU_|Apple-)?iPad14[C,_]1|(?:iPad mini 6th Gen \\(WiFi\\))(?:[);/ ]|$)",
  pat! "(?i)(?:MDCR_|ICRU_|Apple-)?iPad14[C,_]2",
  pat! "(?i)(?:MDCR_|ICRU_|Apple-)?iPad14[C,_]3",
  pat! "(?i)(?:MDCR_|ICRU_|Apple-)?iPad14[C,_]4|(?:iPad Pro \\(11-inch\\) \\(4th generation\\))(?:[);/ ]|$)",
  pat! "(?i)(?:MDCR_|ICRU_|Apple-)?iPad14[C,_]5",
  pat! "(?i)(?:MDCR_|ICRU_|Apple-)?iPad14[C,_]6",
  pat! "(?i)(?:MDCR_|ICRU_|Apple-)?iPad14[C,_]8",
  pat! "(?i)(?:MDCR_|ICRU_|Apple-)?iPad14[C,_]9",
  pat! "(?i)(?:MDCR_|ICRU_|Apple-)?iPad15[C,_]3",
  pat! "(?i)(?:MDCR_|ICRU_|Apple-)?iPad15[C,_]4",
  pat! "(?i)(?:MDCR_|ICRU_|Apple-)?iPad15[C,_]5",
  pat! "(?i)(?:MDCR_|ICRU_|Apple-)?iPad15[C,_]6",
  pat! "(?i)(?:MDCR_|ICRU_|Apple-)?iPad15[C,_]7",
  pat! "(?i)(?:MDCR_|ICRU_|Apple-)?iPad15[C,_]8",
  pat! "(?i)(?:MDCR_|ICRU_|Apple-)?iPad16[C,_]1",
  pat! "(?i)(?:MDCR_|ICRU_|Apple-)?iPad16[C,_]2",
  pat! "(?i)(?:MDCR_|ICRU_|Apple-)?iPad16[C,_]3|(?:iPad Pro 11 inch 5th Gen \\(WiFi\\))(?:[);/ ]|$)",
  pat! "(?i)(?:MDCR_|ICRU_|Apple-)?iPad16[C,_]4",
  pat! "(?i)(?:MDCR_|ICRU_|Apple-)?iPad16[C,_]5",
  pat! "(?i)(?:MDCR_|ICRU_|Apple-)?iPad16[C,_]6",
  pat! "(?i)(?:MDCR_|ICRU_|Apple-)?iPad17[C,_]1",
  pat! "(?i)(?:MDCR_|ICRU_|Apple-)?iPad17[C,_]2",
  pat! "(?i)(?:MDCR_|ICRU_|Apple-)?iPad17[C,_]3",
  pat! "(?i)(?:MDCR_|ICRU_|Apple-)?iPad17[C,_]4",
  pat! "(?i)Apple-?TV2[C,_]1",
  pat! "(?i)Apple-?TV3[C,_][12]",
  pat! "(?i)Apple-?TV5[C,_]3|Apple TV 4",
  pat! "(?i)Apple-?TV6[C,_]2",
  pat! "(?i)Apple-?TV11[C,_]1",
  pat! "(?i)(?:iTunes-)?Apple[ _]?TV|Apple\\/|(?:Apple-|iTunes-)?[^l][^i][^k][^e][^\\s](?:iPad|iPhone)|iPh(?:[0-9]|1[0-4]),[0-9]|CFNetwork|HomePod|AirPlay|Watch ?OS|Watch1,[12]|MDCR_Mac|ICRU_iP(?:ad|hone)|Mac OS X[,;]|macOS,",
  pat! "(?i)iTunes-iPad/[0-9]+(?:\\.[0-9]+)* \\(([^;]+);",
  pat! "(?i)(?:MDCR_|ICRU_|Apple-)?iPad",
  pat! "(?i)iTunes-iPhone/[0-9]+(?:\\.[0-9]+)* \\(([^;]+);",
  pat! "(?i)(?:Apple-)?iPhone ?(3GS?|4S?|5[CS]?|6(:? Plus)?)?",
  pat! "(?i)Aquarius|(?:NS220R?)(?:[);/ ]|$)",
  pat! "(?i)(NS220R?)",
  pat! "(?i)Aquarius[_ ]CMP[_ ]([^/;)]+)(?: Build|[);])",
  pat! "(?i)Aquarius[_ ]([^/;)]+)(?: Build|[);])",
  pat! "(?i)(?:YL-)?Archos|(?:A50TI|AC101BHE|AC50BHE|AC45NE|X67 5G|AC45BHE|AC101PL3GV2|9\\.4 FFF|Tikeasy 10d)(?:[);/ ]|$)",
  pat! "(?i)Archos (Oxygen (?:63|57|68XL))(?:[);/ ]|$)",
  pat! "(?i)A50TI(?:[);/ ]|$)",
  pat! "(?i)AC45NE(?:[);/ ]|$)",
  pat! "(?i)X67 5G(?:[);/ ]|$)",
  pat! "(?i)Archos ?5(?:[);/ ]|$)",
  pat! "(?i)AC101BHE(?:[);/ ]|$)",
  pat! "(?i)AC50BHE(?:[);/ ]|$)",
  pat! "(?i)Archos 80 Oxygen(?:[);/ ]|$)",
  pat! "(?i)Archos 101 Oxygen(?:[);/ ]|$)",
  pat! "(?i)Archos Access 70 3G(?:[);/ ]|$)",
  pat! "(?i)Archos Oxygen 101S ARDOIZ(?:[);/ ]|$)",
  pat! "(?i)Archos Oxygen 101S(?:[);/ ]|$)",
  pat! "(?i)Archos T ?(101X?) 4G(?:[);/ ]|$)",
  pat! "(?i)Archos Core (101) 3G Ultra",
  pat! "(?i)Archos Core (70|101) 3G",
  pat! "(?i)Archos Hello 7(?:[);/ ]|$)",
  pat! "(?i)9\\.4 FFF(?:[);/ ]|$)",
  pat! "(?i)Archos Sense 101 X(?:[);/ ]|$)",
  pat! "(?i)Tikeasy 10d(?:[);/ ]|$)",
  pat! "(?i)T101 HD 4G(?:[);/ ]|$)",
  pat! "(?i)T101 FHD WiFi(?:[);/ ]|$)",
  pat! "(?i)(?:YL-)?Archos ([^/;]*(?:PAD)[^/;]*) Build",
  pat! "(?i)Archos ((?:[789]|10)[0-9]?[a-z]* ?(?:G9|Access|Magnus|G10|Helium|Titanium|Copper|Cobalt|Platini?um|Xenon|Carbon|Neon|XS|IT)[^/);]*)(?: Build|[;)])",
  pat! "(?i)(?:YL-)?Archos ([^/);]+)(?: Build|[;)])",
  pat! "(?i)BioniQP116(?:[);/ ]|$)",
  pat! "(?i)(ARK[_ -])?Benefit[_ -]([^/;]*)(?: Build|\\))|Impulse[ _]P[12]|(?:EDGE A5HD|Elf_S8|ICON (R40\\+|R45)|Wizard_[12]|UKOZI U[56]|L925)(?:[);/ ]|$)",
  pat! "(?i)(?:ARK[_ -])?Benefit[_ -]([^/;]*)(?: Build|\\))",
  pat! "(?i)Impulse[ _]P1\\+",
  pat! "(?i)Impulse[ _](P[12])",
  pat! "(?i)EDGE (A5HD)",
  pat! "(?i)ICON (R40\\+|R45)",
  pat! "(?i)Wizard_([12])",
  pat! "(?i)Elf_S8(?:[);/ ]|$)",
  pat! "(?i)UKOZI U([56])(?:[);/ ]|$)",
  pat! "(?i)L925(?:[);/ ]|$)",
  pat! "(?i)(TSD Octa A0520P|TSD Quadra A050[59]P)(?:[);/ ]|$)",
  pat! "(?i)arnova|ARCHM901|AN7CG2|AN7IG3|AN7G2(DTE|I)?|AN7[BCDFH]?G3|A80KSC|AN8G2|AN8[BC]?G3|AN9G2I?|AN9G3|A101[BC]|AN10G2|AN10BG2(DT|I)?|AN10BG3(DT)?|AN10[CD]G3",
  pat! "(?i)AN7G2I|AN7G2|AN7G2DTE",
  pat! "(?i)A101B2|A101C|AN10G2",
  pat! "(?i)AN10BG2|AN10BG2DT|AN10BG2I",
  pat! "(?i)AN10BG3|AN10BG3DT|AN10BG3-LZ",
  pat! "(?i)Arnova ([^/;]*) Build",
  pat! "(?i)ARTLINE[ _-](KMX3)(?:[);/ ]|$)",
  pat! "(?i)Artel[_ ]|\\w+_ARTEL_\\w+|(?: GAP|GAP YOQ| ALO|U1 MINI|Android 8(?:[\\d.]*);(?: [\\w-]+;)? U[124]|U3_4G| R3G)(?:[);/ ]|$)",
  pat! "(?i)R3G(?:[);/ ]|$)",
  pat! "(?i)GAP|GAP YOQ(?:[);/ ]|$)",
  pat! "(?i)U1 MINI(?:[);/ ]|$)",
  pat! "(?i)U3_4G(?:[);/ ]|$)",
  pat! "(?i)U([124])(?:[);/ ]|$)",
  pat! "(?i)ALO(?:[);/ ]|$)",
  pat! "(?i)Artel[_ ](Quadro(?: Pro)?|Tesla|Air|Tomchi|Premium|U3_4G|Z5|Sentinel (?:X 8G|X D5|X)|T10|T21)",
  pat! "(?i)Artel[_ ]Komi3",
  pat! "(?i)Artel[_ ]Q21_PRO",
  pat! "(?i)Artel[_ ]Q21",
  pat! "(?i)Artel[_ ](Star|Nova|Connect|Choice|Style)",
  pat! "(?i)(?:\\w+_)?ARTEL_([FVM]5|X[45])_\\w+",
  pat! "(?i)Artizlee[ _]S9|ATL-(?:16|21(?:PLUS|[XT])?|31|26)(?:[);/ ]|$)",
  pat! "(?i)ATL-21PLUS(?:[);/ ]|$)",
  pat! "(?i)(ATL-(?:16|21[XT]?|31|26))(?:[);/ ]|$)",
  pat! "(?i)Artizlee[ _]S9",
  pat! "(?i)(?:32LH7010T|32LH8030S|43L[FU]8120T|43LU8030S|43LU8130S|32LH8[10]10T|32LH7030S|32LF7130S|28LH701[10]T|43LU8010T|24LH701[01]T|24L[HF]7020T|24LF8010T|24LH801[01]T|28LH81[12]0T|40LF7030S|40LF7010T|5[05]LU8120T|42LF7110T|32LH7011T|32LF7120T|32LF8120T|50LU8110T|50LU8130S|40LF8120T|50LF7010T|43LF7202T|43LF7010T|32LH8011T|32LF7111T|40LF8130S|40LF7030ST|42LF8120T|42LF8130S|43LU6000T|50LU6000T|32LH5000T|55LU8030S)(?:[);/ ]|$)",
  pat! "(?i)(\\d{2})(L[FHU]\\d+[ST]T?)(?:[);/ ]|$)",
  pat! "(?i)ASANZO[ _](?:A2|S[23]|[SZ]5|S3_PLUS)(?:[);/ ]|$)",
  pat! "(?i)ASANZO[ _]S3[ _]PLUS",
  pat! "(?i)ASANZO[ _](A2|S[23]|[SZ]5)(?:[);/ ]|$)",
  pat! "(?i)ASK[ _]",
  pat! "(?i)ASK[ _]791SP[ _]3G",
  pat! "(?i)ASK[_ ]([^/;]*) Build",
  pat! "(?i)ASPERA|(?:Wren|Jazz 2)(?:[);/ ]|$)",
  pat! "(?i)ASPERA[ _](R5h|R9|RT3|A4[02]|A50|F30|R40)(?:_4G)?(?:[);/ ]|$)",
  pat! "(?i)Wren(?:[);/ ]|$)",
  pat! "(?i)Jazz 2(?:[);/ ]|$)",
  pat! "(?i)(AS[-_](?:50[123]|543[1-6]|44[12]1|541[12]|54[23]1|6431|[46]01L)|AP-(?:109|115G|721N|753G|7[25]7G|10[68]|107G|110N|941|719))[;/)_ ]",
  pat! "(?i)AS[-_]401L(?:[);/ ]|$)",
  pat! "(?i)AS-5432(?:[);/ ]|$)",
  pat! "(?i)AS[-_](?:5434|501)(?:[);/ ]|$)",
  pat! "(?i)AS_601L(?:[);/ ]|$)",
  pat! "(?i)AS-5433 Secret(?:[);/ ]|$)",
  pat! "(?i)AS-5433(?:[);/ ]|$)",
  pat! "(?i)AS-5421(?:[);/ ]|$)",
  pat! "(?i)AS-44[12]1(?:[);/ ]|$)",
  pat! "(?i)AS-5431(?:[);/ ]|$)",
  pat! "(?i)AS-502(?:[);/ ]|$)",
  pat! "(?i)AS-503(?:[);/ ]|$)",
  pat! "(?i)AS-5435(?:[);/ ]|$)",
  pat! "(?i)AS-5436[ _]",
  pat! "(?i)AS-6431(?:[);/ ]|$)",
  pat! "(?i)AS-5411[_ ]",
  pat! "(?i)AS-5412 Max(?:[);/ ]|$)",
  pat! "(?i)AP-721N(?:[);/ ]|$)",
  pat! "(?i)AP-941(?:[);/ ]|$)",
  pat! "(?i)AP-108(?:[);/ ]|$)",
  pat! "(?i)AP-106(?:[);/ ]|$)",
  pat! "(?i)(AP-(?:109|115G|7[25]7G|753G|107G|110N|719))(?:[);/ ]|$)",
  pat! "(?i)(AS-(?:\\d+))(?:[);/ ]|$)",
  pat! "(?i)Astro[- ](S451|S501)(?:[);/ ]|$)",
  pat! "(?i)Asus|Transformer|ZenFone Max|MeMOPad 10|TF300T|Slider SL101|PadFone|ME302(?:C|KL)|ME301T|ME371MG|ME17(?:1|2V|3X)|(?:K0[01][0-9a-z]|(?:P(?:00[128ACIL]|01[MTVWYZ]|01MA|01T_1|02[13478])(?: Build|\\))|X015D|X018D|X003|X00[7ABT]D|Z00D|Z00[MTY]D|Z01[7FGHKMR]D)|K01[579N]|AST21|K50IJ)(?:[);/ ]|$)|G55[023]KL|ZB(631|602|633|55[135]|50[01])KL|ZC(55[134]|520|600)KL|ZA550KL|ZE(5[02]0|620|55[2345])KL|ZD55[23]KL|ZS6(?:61|7[02136])KS|ZS(6[0236]0|55[10])KL|ZS590KS|ZB(500KG|601KL)|MeMo Pad FHD 10 LTE|Z00[SV]D|P01Y_S|Zenfone 5Z?|AOSP on Duma|Tinker Board(?: S)?|TX201LA|I005DA|I003D|Z00UDH",
  pat! "(?i)XPad 10 ?LTE(?:[);/ ]|$)",
  pat! "(?i)ME171(?:[);/ ]|$)",
  pat! "(?i)ASUS Z906(?:[);/ ]|$)",
  pat! "(?i)ME302C(?:[);/ ]|$)",
  pat! "(?i)(?:ME302KL|MeMOPad 10FHD LTE|MeMo Pad FHD 10 LTE|AOSP on Duma)(?:[);/ ]|$)",
  pat! "(?i)ME301T(?:[);/ ]|$)",
  pat! "(?i)Z101 Prime(?:[);/ ]|$)",
  pat! "(?i)Z101(?:[);/ ]|$)",
  pat! "(?i)(?:X Pad 10 LTE|ASUSXPad10)(?:[);/ ]|$)",
  pat! "(?i)(?:K01[3A7]|K007|K00R)(?:[);/ ]|$)|MeMO Pad 7",
  pat! "(?i)K01E(?:[);/ ]|$)",
  pat! "(?i)K00U|ME173X(?:[);/ ]|$)",
  pat! "(?i)(?:K01[15]|K00L|AST21)(?:[);/ ]|$)",
  pat! "(?i)K014(?:[);/ ]|$)",
  pat! "(?i)K00S(?:[);/ ]|$)",
  pat! "(?i)K00F(?:[);/ ]|$)",
  pat! "(?i)K00C(?:[);/ ]|$)",
  pat! "(?i)K010(?:[);/ ]|$)",
  pat! "(?i)K018(?:[);/ ]|$)",
  pat! "(?i)TF300T(?:[);/ ]|$)",
  pat! "(?i)K01B(?:[);/ ]|$)",
  pat! "(?i)TX201LA(?:[);/ ]|$)",
  pat! "(?i)P01[YZ](?:_S)?",
  pat! "(?i)(?:ASUS_)?P00J",
  pat! "(?i)P01[VW]|P002",
  pat! "(?i)(?:P024|P00A)(?:[);/ ]|$)",
  pat! "(?i)P01MA?(?:[);/ ]|$)",
  pat! "(?i)ASUS_(w706)(?:[);/ ]|$)",
  pat! "(?i)(?:ASUS_)?P00I",
  pat! "(?i)(?:ASUS_)?P008",
  pat! "(?i)(?:ASUS_)?P00C|P02[138]|P00L|P01T_1",
  pat! "(?i)ME371MG(?:[);/ ]|$)",
  pat! "(?i)K00G(?:[);/ ]|$)",
  pat! "(?i)(?:K01[2N9]|K00E)(?:[);/ ]|$)",
  pat! "(?i)K00Z(?:[);/ ]|$)",
  pat! "(?i)K016(?:[);/ ]|$)",
  pat! "(?i)(?:ASUS_)?A001D|ZB634KL"]

/-- `__dr_re`, from item 1000 on (device_repo.go:19336-19585). -/
def drRe_4 : List (List Chunk) := [
  pat! "(?i)(?:ASUS_)?T00N",
  pat! "(?i)(?:ASUS_)?T00[CE]",
  pat! "(?i)(?:ASUS[-_])?T00T",
  pat! "(?i)(?:ASUS_)?A002(A)?",
  pat! "(?i)(?:ASUS_)?AI2401_H",
  pat! "(?i)(?:ASUS_?)?AI2501H",
  pat! "(?i)(?:ASUS_)?(?:I006D|ZS590KS)",
  pat! "(?i)(?:ASUS_)?(?:I004D|ZS672KS)",
  pat! "(?i)(?:ASUS_)?(?:AI2202)",
  pat! "(?i)(?:ASUS_)?(?:AI2302)",
  pat! "(?i)(?:ASUS_)?A006",
  pat! "(?i)(?:ASUS_)?A009",
  pat! "(?i)(?:ASUS_)?Z007",
  pat! "(?i)(?:ASUS_)?(X00P[SD]|ZB555KL)",
  pat! "(?i)(?:ASUS_)?(?:ZB60[12]KL)|ZenFone Max Pro M1",
  pat! "(?i)(?:ASUS[_-])?(X01([AB]D)|ZB633KL)(?:[);/ ]|$)",
  pat! "(?i)(?:ASUS_)?(?:Z00[AD]|Z008D|Z008|Z00AD[AB]?|ZE551ML)",
  pat! "(?i)(?:ASUS_)?(?:ZenFone 2E)",
  pat! "(?i)(?:ASUS_)?(?:A007|Z00YD|ZA550KL|ZB553KL|ZB501KL)(?:[);/ ]|$)",
  pat! "(?i)(?:ASUS_)?(?:X00RD|G552KL)",
  pat! "(?i)(?:ASUS_)?(?:Z00[ERLMTW]D|Z011D|ZE500KL)",
  pat! "(?i)(?:ASUS_)?(?:T00[IQ1]|Z01KD)",
  pat! "(?i)(?:ASUS_)?T00P",
  pat! "(?i)(?:ASUS_)?(?:T00K|X017DA|X017D|ZC600KL)",
  pat! "(?i)(?:ASUS_)?(?:Z01RD|ZS620KL)|Zenfone 5Z",
  pat! "(?i)(?:ASUS_)?(?:T00[JF]|X00QD|X00QSA|ZE620KL)|Zenfone 5",
  pat! "(?i)(?:ASUS_)?(?:T00G|Z002|ZS630KL|I01WD[X]?)",
  pat! "(?i)(?:ASUS_)?ZS671KS",
  pat! "(?i)(?:ASUS_)?(?:ZS670KS|I002D|AI2205_C)(?:[);/ ]|$)",
  pat! "(?i)(?:ASUS_)?Z010D",
  pat! "(?i)(?:ASUS_)?X018D",
  pat! "(?i)(?:ASUS_)?X00TD?",
  pat! "(?i)(?:ASUS_)?(?:X01BDA|ZB631KL|Zenfone Max Pro M2)",
  pat! "(?i)(?:ASUS_)?X014D",
  pat! "(?i)(?:ASUS_)?(L001|X00[7AB]D|X009[DB][DA]|X009D|Z00[SV]D|ZB500K[LG]|ZB551KL)",
  pat! "(?i)(?:ASUS_)?(?:G550KL|X013DB)",
  pat! "(?i)(?:ASUS_)?X013D",
  pat! "(?i)(?:ASUS_)?Z00[SV]D",
  pat! "(?i)(?:ASUS_)?(X00[23])",
  pat! "(?i)(?:ASUS_)?X005",
  pat! "(?i)(?:ASUS_)?X550",
  pat! "(?i)(?:ASUS_)?(X00GD)",
  pat! "(?i)(?:ASUS_)?(?:X00D[DS]|X008D)|ZC553KL",
  pat! "(?i)(?:ASUS_)?(X008)",
  pat! "(?i)(?:ASUS_)?(ZE553KL|Z01HDA?)",
  pat! "(?i)(?:ASUS_)?ZS550KL",
  pat! "(?i)(?:ASUS_)?Z00UD",
  pat! "(?i)(?:ASUS_)?(Z016[DS]|Z01FD)",
  pat! "(?i)(?:ASUS_)?Z(?:017DA|E520KL|E552KL|017D|012(?:DC?|S))",
  pat! "(?i)(?:ASUS_)?Z01B[DS]|ZC551KL",
  pat! "(?i)(?:ASUS_)?A001",
  pat! "(?i)(?:ASUS_)?(?:ZD552KL|Z01MDA?)(?:[);/ ]|$)",
  pat! "(?i)(?:ASUS_)?(?:X00LDA|ZD553KL)",
  pat! "(?i)(?:ASUS_)?(?:X00LD|Z01KS|Z01KDA|ZE554KL)",
  pat! "(?i)(?:ASUS_)?X00(?:[HIK]D|IS)|ZC554KL|ZC520KL",
  pat! "(?i)(?:ASUS_)?X015D",
  pat! "(?i)(?:ASUS_)?(:?Z01G[DS]|ZS551KL)",
  pat! "(?i)(?:ASUS_)?Z00XS",
  pat! "(?i)(?:ASUS_)?(?:Z01QD|ZS600KL)",
  pat! "(?i)(?:ASUS_)?(?:I001D[ABCE]?|ZS660KL)",
  pat! "(?i)(?:ASUS_)?(?:I003DD?|ZS661KS)",
  pat! "(?i)(?:ASUS_)?(?:I005D[AC]?|ZS67[36]KS|ROG Phone 5)",
  pat! "(?i)(?:ASUS_)?(?:AI2201)",
  pat! "(?i)(?:ASUS_)?(?:AI2203)",
  pat! "(?i)(?:ASUS_)?(?:AI2205)",
  pat! "(?i)(?:ASUS_)?(?:AI2401)_N",
  pat! "(?i)(?:ASUS_)?(?:AI2401_[DE])",
  pat! "(?i)(?:ASUS_)?(?:AI2401)",
  pat! "(?i)(?:ASUS_?)?(?:AI2501[BE])",
  pat! "(?i)(?:ASUS_?)?(?:AI2501)",
  pat! "(?i)(?:ASUS_)?(?:I007D)",
  pat! "(?i)(K50IJ)(?:[);/ ]|$)",
  pat! "(?i)Tinker Board( S)?",
  pat! "(?i)(?:ASUS_)?ZenWatch( 2)?",
  pat! "(?i)Asus(?:-|;)?([a-z0-9]+)",
  pat! "(?i)(PadFone(?: [^;/]+)?) Build",
  pat! "(?i)(PadFone(?: [a-z0-9]+)?)",
  pat! "(?i)(?:Asus|Transformer) ((?:Pad |Prime )?TF[0-9a-z]+)",
  pat! "(?i)Chromebook Flip (C10[01]PA|C302)",
  pat! "(?i)(?:AP570[12]|AP5705S|AP6301)(?:[);/ ]|$)",
  pat! "(?i)(AP570[12]|AP5705S|AP6301)(?:[);/ ]|$)",
  pat! "(?i)ATOM-(108A[ML]|216AL|216RK|216AM)(?:[);/ ]|$)",
  pat! "(?i)(?:S-Tab10?|M-T[34])(?:[);/ ]|$)",
  pat! "(?i)(M-T[34])",
  pat! "(?i)S-Tab(10?)",
  pat! "(?i)(?:(?:CP20|YQ10S)_(?:MAX|Gold)|YQ10SK|AT81K|CP10)(?:[);/ ]|$)",
  pat! "(?i)(AT81K|CP10|YQ10SK)",
  pat! "(?i)(Magic_1)(?:[);/ ]|$)",
  pat! "(?i)(100011886BK)(?:[);/ ]|$)",
  pat! "(?i)Audiovox|CDM|UTS(?:TARCOM)?\\-|audio[a-z0-9-]+",
  pat! "(?i)Audiovox[_\\-]([a-z0-9-]+)",
  pat! "(?i)CDM(?:-)?([a-z0-9]+)",
  pat! "(?i)UTS(?:TARCOM)?-([a-z0-9-]+)",
  pat! "(?i)audio([a-z0-9-]+)",
  pat! "(?i)R2021W2(?:[);/ ]|$)",
  pat! "(?i)(R2021W2)",
  pat! "(?i)Avaya Vantage(?:[);/ ]|$)",
  pat! "(?i)Avenzo(?:[);/ ]|$)",
  pat! "(?i)MOB4 4G(?:[);/ ]|$)",
  pat! "(?i)MOB4PRO 4G(?:[);/ ]|$)",
  pat! "(?i)Avvio[ _]?([a-z0-9-]+)|(?:CHIVAS_55|Colombia_2018|Mint_M353)(?:[);/ ]|$)",
  pat! "(?i)Avvio[ _]PAD",
  pat! "(?i)Avvio[ _]?([a-z0-9-]+)",
  pat! "(?i)(?:AWOW_)?(?:UTBook|CreaPad_100[359](?:_EEA)?)",
  pat! "(?i)(?:AWOW_)?(UTBook|CreaPad_100[359])",
  pat! "(?i)Axioo[_ ]|PICOp(?:hone|ad)[_-]",
  pat! "(?i)Axioo[_ ](AX[45])",
  pat! "(?i)PICOphone_(L1|M4N|M4P_M3|M4U_M2_M)",
  pat! "(?i)PICOpad[_-](7H_7|7H|GGT)(?:_3G)?",
  pat! "(?i)Axxion ATAB-[0-9]+(?:[);/ ]|$)",
  pat! "(?i)Axxion ATAB-([0-9]+)(?:[);/ ]|$)",
  pat! "(?i)(AT1011E)(?:[);/ ]|$)",
  pat! "(?i)Azumi[_ -]|(?:SPEED55|A50_Style_Plus|LT50\\+|KIREI A5Q PLUS|NOBU[ _]A55[ _]PRO|IRO A55 QL?)(?:[);/ ]|$)",
  pat! "(?i)Azumi[_ -]AKANE",
  pat! "(?i)Azumi[_ -]A4\\+",
  pat! "(?i)Azumi[_ -]([^/;]+) Build",
  pat! "(?i)Azumi[_ -]([a-z0-9_]+)",
  pat! "(?i)LT50\\+",
  pat! "(?i)NOBU[ _]A55[ _]PRO",
  pat! "(?i)BAFF\\d{2}|(?:32YSTV-R|32Y-HD-R)(?:[);/ ]|$)",
  pat! "(?i)BAFF(\\d{2})YFHD",
  pat! "(?i)(?:BAFF)?(\\d{2})Y-?(STV(?:-R)?|HD-R)",
  pat! "(?i)Pixavi[ _](Phone)",
  pat! "(?i)(?:BAUHN|ATV[78]5UHDW-[0-9]{4})(?:[);/ ]|$)",
  pat! "(?i)(ATV[78]5UHDW-[0-9]{4})",
  pat! "(?i)bb-mobile|Techno[-_ ](8\\.0|9\\.7|TQ863Q|X595BT|X800BJ|S700BF|I700AJ|10\\.1 LTE TQ060X|7\\.0 LTE TQ763I|I785AP|I101BI)(?:[);/ ]|$)",
  pat! "(?i)Techno[_ ]S700BF(?:[);/ ]|$)",
  pat! "(?i)Techno[_ ]10\\.1 LTE TQ060X(?:[);/ ]|$)",
  pat! "(?i)Techno[_ ]TQ863Q(?:[);/ ]|$)",
  pat! "(?i)Techno[_ ]I700AJ(?:[);/ ]|$)",
  pat! "(?i)Techno[-_ ]I785AP(?:[);/ ]|$)",
  pat! "(?i)Techno[_ ]X800BJ(?:[);/ ]|$)",
  pat! "(?i)Techno[-_ ]I101BI(?:[);/ ]|$)",
  pat! "(?i)Techno[_ ]7\\.0 LTE TQ763I(?:[);/ ]|$)",
  pat! "(?i)(FirstTab TP-17)(?:[);/ ]|$)",
  pat! "(?i)Techno[_ ](9\\.7|[78]\\.0) 3G(?:[);/ ]|$)",
  pat! "(?i)Techno[_ ](?:X595BT)(?:[);/ ]|$)",
  pat! "(?i)65LEX-8234-UTS2C|(?:32LEX-7272|24LEX-7269|([65]5|50|4[023]|3[29]|2[48])LEX[-_](81(?:27|39|45|58|6[12]|7[34])|71(?:[23]7|4[345]|5[45]|6[2368]|[57]8|7[15])|72(?:0[24]|1[23]|25|36|4[69]|5[579]|6[04]|8[789]|9[12])|82(?:02|4[369]|5[87]|65|89)|9201)[_/-]?([FU]?TS2C)(?:-T9)?|(?:3[29]|24)LEX-7289(?:-c)?|65LEX-8262)(?:[);/ ]|$)",
  pat! "(?i)(\\d{2})LEX[-_](\\d{3,4})[_/-]?([FU]?TS2C)",
  pat! "(?i)(3[29]|24|65)LEX-(7289|8262)(?:-c)?(?:[);/ ]|$)",
  pat! "(?i)(\\d{2})LEX[-_](\\d{3,4})",
  pat! "(?i)(?:BDF[- ](?:819|P10|M107|K107H|KT107|MT6753|X20|P30)|K960N_MT(?:6580|6753)(?:_32_N)?|m107_\\d+a_64_q|ZL80)(?:[);/ ]|$)",
  pat! "(?i)BDF[- ](819|P10|M107|K107H|KT107|MT6753|X20|P30)(?:[);/ ]|$)",
  pat! "(?i)m107_\\d",
  pat! "(?i)K960N_MT(6580|6753)(_32_N)?(?:[);/ ]|$)",
  pat! "(?i)(?:SMART_B19|Destiny)(?:[);/ ]|$)",
  pat! "(?i)BGH ([^/;)]+)(?: Build|[;)])",
  pat! "(?i)Y([17]00|2[01]0|1010)",
  pat! "(?i)BGH (\\+Simple|Mini|M840)",
  pat! "(?i)BGH ([^/;)]+)(?: Build|[;)])",
  pat! "(?i)(ZBH-)?BIHEE",
  pat! "(?i)(A1[1268]|A[78]\\+|A[56])(?:[);/ ]|$)",
  pat! "(?i)BLISS-T6|(BPM9727)(?:[);/ ]|$)",
  pat! "(?i)(BPM9727)",
  pat! "(?i)(?:I11_Plus(?:_EEA)?|(?:I11|I10(Plus)?|I9_Plus)_(?:EEA|ROW)|I9_Plus|I10_Plus|Android 11(?:[\\d.]*);(?: [\\w-]+;)? I11|I10_Pro|I10Plus)(?:[);/ ]|$)",
  pat! "(?i)I10_?(Plus|Pro)?(?:_(?:EEA|ROW))?(?:[);/ ]|$)",
  pat! "(?i)I11(?:_EEA)?(?:[);/ ]|$)",
  pat! "(?i)I(11|9)_Plus(?:_EEA|_ROW)?(?:[);/ ]|$)",
  pat! "(?i)(?:BMXC[_ ]?(?:80[01])| M863(?:-EEA)?)(?:[);/ ]|$)",
  pat! "(?i)(M863)",
  pat! "(?i)BMXC[_ ]?(80[01])",
  pat! "(?i)BPad_Mini_SE(?:[);/ ]|$)",
  pat! "(?i)(BT7X1|EX10SL4|BTXS1)(?:[);/ ]|$)",
  pat! "(?i)BROR[_ ]([^/;)]+)(?: Build|[);])",
  pat! "(?i)(?:RUNE III?)(?:[);/ ]|$)",
  pat! "(?i)RUNE (III?)(?:[);/ ]|$)",
  pat! "(?i)LRNS10GIL0(?:[);/ ]|$)",
  pat! "(?i)(LRNS10GIL0)",
  pat! "(?i)BYYBUO|(?:SmartPad_(?:K7|T10|A10)_(?:EU|L)|SmartPad_T10)(?:[);/ ]|$)",
  pat! "(?i)(?:BYYBUO_)?SmartPad_(K7|T10|A10)(?:_EU|_L)?",
  pat! "(?i)(BK2021)(?:[);/ ]|$)",
  pat! "(?i)Nook|BN[TR]V[0-9]+",
  pat! "(?i)Nook([a-z0-9]+)",
  pat! "(?i)Nook[ _]([^/;]+)[ _]Build",
  pat! "(?i)(BN[TR]V[0-9]+)",
  pat! "(?i)(?:Class_C250|TW10)(?:[);/ ]|$)",
  pat! "(?i)(TW10)",
  pat! "(?i)(Class_C250)",
  pat! "(?i)Becker-([a-z0-9]+)",
  pat! "(?i)Beeline|(?:A239s|SWG2001A-A|RASSE-001)(?:[);/ ]|$)",
  pat! "(?i)Beeline[_ ]Pro[_ ]([2436])",
  pat! "(?i)Tab (Fast(?: 2)?|Pro)",
  pat! "(?i)Tab ([0-9])",
  pat! "(?i)E([67]00)",
  pat! "(?i)(?:Beeline[_ ])?Smart[ _]?([0-9])",
  pat! "(?i)(?:Beeline[_ ])?Fast[_ ]2(?:[);/ ]|$)",
  pat! "(?i)Fast(?:[);/ ]|$)",
  pat! "(?i)A239s(?:[);/ ]|$)",
  pat! "(?i)(RASSE-001)",
  pat! "(?i)(SWG2001A-A)(?:[);/ ]|$)",
  pat! "(?i)(?:Beelink (?:G[ST]1|LAKE I|SEA I|A1)|GTKing(?:_AT(?:_ATV)?|II)?|GT1mini-2|GT1-mini(?:[-_]AT(?:_ATV)?)?|R68 II|Amlogic Alvatech GT1)(?:[);/ ]|$)",
  pat! "(?i)Beelink (G[ST]1|LAKE I|SEA I|A1)(?:[);/ ]|$)",
  pat! "(?i)Amlogic Alvatech GT1(?:[);/ ]|$)",
  pat! "(?i)GT1-mini(?:-AT(?:_ATV)?)?(?:[);/ ]|$)",
  pat! "(?i)GT1mini-2(?:[);/ ]|$)",
  pat! "(?i)GTKing PRO(?:[);/ ]|$)",
  pat! "(?i)GTKingII(?:[);/ ]|$)",
  pat! "(?i)GTKing(?:_AT(?:_ATV)?)?(?:[);/ ]|$)",
  pat! "(?i)R68 II(?:[);/ ]|$)",
  pat! "(?i)Beetel ([a-z0-9]+)",
  pat! "(?i)(X104)-EEA(?:[);/ ]|$)",
  pat! "(?i)Beko(?:[);/ ]|$)",
  pat! "(?i)(?:FibeTV|Bell Streamer)(?:[);/ ]|$)",
  pat! "(?i)Bp100 X-Plus(?:[);/ ]|$)",
  pat! "(?i)BENQ(?:[ -])?([a-z0-9]+)|(?:F52_09|F5_15|T47_09|QS02)(?:[);/ ]|$)",
  pat! "(?i)(F(?:52|5)|T47)_(?:15|09)(?:[);/ ]|$)",
  pat! "(?i)BENQ(?:[ -])?([a-z0-9]+)",
  pat! "(?i)BENQ-SIEMENS - ([a-z0-9]+)",
  pat! "(?i)BenWee[ _-]?(?:[^;/)]+)(?: Build|[;)])",
  pat! "(?i)BenWee W5 ?pro",
  pat! "(?i)BenWee[ _-]?([^;/)]+)(?: Build|[;)])",
  pat! "(?i)Benco[_ ]|(?:AE9(?:[03]10|1[25]0|2[2346]0|950)|AH9110|AEOP520|AEOP513)(?:[);/ ]|$)",
  pat! "(?i)(TAB-A03-(?:BR2|BS))(?:[);/ ]|$)",
  pat! "(?i)(?:Class S300 LTE|G-PADLITE)(?:[);/ ]|$)",
  pat! "(?i)(Class S300 LTE)",
  pat! "(?i)(?:SURVE(10|[26-8]|[12] PRO)|Home9)(?:[);/ ]|$)",
  pat! "(?i)SURVE([12]) PRO",
  pat! "(?i)SURVE(10|[26-8])",
  pat! "(?i)BEZKAM (BK-RAM2)(?:[);/ ]|$)",
  pat! "(?i)B(2[1239])(?:_U)?_(?:EEA|US)(?:[);/ ]|$)",
  pat! "(?i)(?:GAMETAB-ONE|Bigtech_B_RU)(?:[);/ ]|$)",
  pat! "(?i)BilimBook mini(?:[);/ ]|$)",
  pat! "(?i)Capture\\+(?:[);/ ]|$)",
  pat! "(?i)(MD09TV)(?:[);/ ]|$)",
  pat! "(?i)(?:BioWolf 8-F30|BIOWOLF8F30|Ruggbo 20 Lite)(?:[);/ ]|$)",
  pat! "(?i)BioWolf 8-F30|BIOWOLF8F30",
  pat! "(?i)BIRD[-. _]([^;/]+)|(E5018)(?:[);/ ]|$)",
  pat! "(?i)(E5018)(?:[);/ ]|$)",
  pat! "(?i)BIRD[\\-. _]([^;/]+) Build",
  pat! "(?i)BIRD[\\-. _]([^;/]+)",
  pat! "(?i)Bitel[ _-]([^/;]+) Build|(?:B(?:840[5-9]|841[0456]|850[2346]|860[146]|9401|950[1-5])|S8402L?|S8501L?|BPRO)(?:[);/ ]|$)",
  pat! "(?i)(B(?:840[5789]|841[0456]|850[2346]|860[146]|9401|950[12345])|S8402L?|S8501L?)",
  pat! "(?i)BPRO(?:[);/ ]|$)",
  pat! "(?i)Bitel[ _-]([^/;]+) Build",
  pat! "(?i)(?:Mobitab10c-3G|Tab1011Q_II|Colortab[ _]?(10(?:M| II)?|816i))(?:[);/ ]|$)",
  pat! "(?i)(Mobitab)(10)c-3G(?:[);/ ]|$)",
  pat! "(?i)Tab1011Q_II(?:[);/ ]|$)",
  pat! "(?i)Colortab[ _]?(10(?:M| II)?|816i)(?:[);/ ]|$)",
  pat! "(?i)Tough Mobile 2(?:[);/ ]|$)",
  pat! "(?i)Bphone[ _](B111[45]|B2017)(?:[);/ ]|$)",
  pat! "(?i)(B6 Master|B6 Note X)(?:[);/ ]|$)",
  pat! "(?i)Tv Pro(?:[);/ ]|$)",
  pat! "(?i)BMM[ _-]?(?:44[123]D|431B|441[AWB]|44[12]S|431[SD]|53[23]D|54[12]S|541[ABW]|54[123]D|543S|531[ABD]|532 S|531S)(?:[);/ ]|$)",
  pat! "(?i)BMM441[AS]",
  pat! "(?i)BMM442S|BMM441B",
  pat! "(?i)BMM543[DS]",
  pat! "(?i)BMM[ _-]?(53[23]D|431[DS]|54[12]S|531S|431B)(?:[);/ ]|$)",
  pat! "(?i)(EO104K)[-_]BL(?:[);/ ]|$)",
  pat! "(?i)(?:BLACKPHONE_Blackphone_K330_3G)(?:[);/ ]|$)",
  pat! "(?i)Bt[_ -](\\d{2}FSU?\\d{2}B)(?:[);/ ]|$)"]

/-- `__dr_re`, from item 1250 on (device_repo.go:19586-19835). -/
def drRe_5 : List (List Chunk) := [
  pat! "(?i)Blackview|(BL8[08]00|BV([24-9]000|8[128]00|[468]900|(5[1589]|9[135689])00|6[12368]00|7[13]00)(?:[ _](?:PRO))?|P10000(?:[ _](?:PRO))?|omega[ _]pro|Alife[ _][PS]1|N6000|Heatwave|DM550|BV9700Pro|BL9000 Pro|A[68]0(?:Pro)?\\))|(?:SOLID 4 G2|A[86]0Plus|A80S|BL(?:6000|8800)Pro|R6 Lite|P2Lite|A8 MAX|A30-RU|A20Pro|Android 10(?:[\\d.]*);(?: [\\w-]+;)? Tab[89]|Android 10(?:[\\d.]*);(?: [\\w-]+;)? (?:A80)|Android 11(?:[\\d.]*);(?: [\\w-]+;)? (?:A95|A100|BL5000|Tab 12)|Android 1[12](?:[\\d.]*);(?: [\\w-]+;)? (?:A[79]0|A70 Pro|A55 Pro|Tab 1[01356]|Tab 6)|Android 13(?:[\\d.]*);(?: [\\w-]+;)? (?:A200 Pro|Tab [86]0|Tab 18|BL9000)|BV500|BV4800|BV[579]200|SOLID_4G1|BV5300(?: Pro| Plus)?|Tab A5 Kids|Tab [56]0 Kids|Active (?:8|1[02]) Pro|Active 8|SHARK [89]|Tab 8E|Tab (?:[579]0|[789]|1[01]) WiFi|COLOR [68]|Tab (?:1[236]|60) Pro|MEGA [1238]|WAVE 6C|WAVE 8C?|HERO 10|A52 Pro| E7s|Tab 90|XPLORE [12]|FORT [12])(?:[);/ ]|$)",
  pat! "(?i)A([2678]0|5[25]) ?Pro(?:[);/ ]|$)",
  pat! "(?i)A([6798]0|9[56]|55|100)(?: Build|[;)])",
  pat! "(?i)A8 MAX(?:[);/ ]|$)",
  pat! "(?i)A80S(?:[);/ ]|$)",
  pat! "(?i)(A[86]0|BV[59]500)Plus(?:[);/ ]|$)",
  pat! "(?i)(P2|R6) ?Lite",
  pat! "(?i)(BL[69]000|BL8800|BV(?:[0-9]+)|A200) ?Pro",
  pat! "(?i)(BL[579]000|BV6000S|BL8[08]00|N6000)",
  pat! "(?i)(?:Blackview[ _])?E7s(?:[);/ ]|$)",
  pat! "(?i)Blackview (A[78])",
  pat! "(?i)COLOR ([68])",
  pat! "(?i)XPLORE ([12])",
  pat! "(?i)FORT ([12])",
  pat! "(?i)SHARK ([89])",
  pat! "(?i)WAVE ([68])C",
  pat! "(?i)(BV6[13]00)(?:[);/ ]|$)",
  pat! "(?i)(BV\\d+[\\w]?|P10000)[ _]?Plus(?:[-_](?:RU|F))?(?:[);/ ]|$)",
  pat! "(?i)(BV\\d+[\\w]?|P10000)[ _]?PRO(?:[-_](?:RU|F))?(?:[);/ ]|$)",
  pat! "(?i)(BV\\d+[\\w]?|P10000)(?:[-_](?:RU|F))?(?:[);/ ]|$)",
  pat! "(?i)Active (8|1[02]) Pro",
  pat! "(?i)MEGA ([1238])",
  pat! "(?i)Tab (1[0-6]|60) Pro(?:[);/ ]|$)",
  pat! "(?i)Tab ?([56]0? Kids|8E|A[56] Kids)(?:[);/ ]|$)",
  pat! "(?i)Tab ([579]0|[789]|1[01]) WiFi(?:[);/ ]|$)",
  pat! "(?i)Tab 11 SE(?:[);/ ]|$)",
  pat! "(?i)Tab ?([689]|1[0123568]|[689]0)(?:[);/ ]|$)",
  pat! "(?i)omega[ _]pro",
  pat! "(?i)(Alife[ _][PS]1|DM550|Heatwave)",
  pat! "(?i)Blaupunkt|(?:Soundphone S2|Atlantis[_ ](?:1001A|1010A|A10[._]G40[23])|SLplus02|Discovery[_ ](?:A10_302|10[28]C|111C|1000C|1001A?)|Endeavour[_ ](?:785|101[GLM]|1000|1001|101[03]|1100)|Polaris[_ ]80[38](?:_BE)?|BP_(?:6010|6110)|B-STREAM|SL05|SM 02 2019|SF04 4G|A-STREAM|55UW5000T)(?:[);/ ]|$)",
  pat! "(?i)Discovery[_ ](1000|111|10[28])C",
  pat! "(?i)Discovery[_ ]A10_302",
  pat! "(?i)Discovery[_ ]1001A",
  pat! "(?i)Discovery[_ ]1001",
  pat! "(?i)Endeavour[_ ](101[GLM]|785|100[01]|101[03]|1100)",
  pat! "(?i)Polaris[_ ](808[_ ]BE|80[38])",
  pat! "(?i)Atlantis[_ ](1001A|1010A|A10\\.G40[23])",
  pat! "(?i)BP_(6010|6110)",
  pat! "(?i)Blaupunkt[_ ](SL[_ ]0[124]|SM[_ ]0[12]|TX60)",
  pat! "(?i)(SF02|SL05|SF04 4G)",
  pat! "(?i)(4K Android TV|A-STREAM)",
  pat! "(?i)(?:BE_(xl|se|o2|fr|et|dg)|BL-919845)(?:[);/ ]|$)",
  pat! "(?i)BE_(xl|se|o2|fr|et|dg)(?:[);/ ]|$)",
  pat! "(?i)(Zero18)(?:[);/ ]|$)",
  pat! "(?i)(?:LaserTAB10|PlatinumTAB(?:11|8)_4G|PlatinumTAB10V22|PlatinumTAB10_4G_V\\d|BlackTab7_3G_V2|BlackTAB7)(?:[);/ ]|$)",
  pat! "(?i)PlatinumTAB10_4G_(V\\d)",
  pat! "(?i)BLU[ _]|(?:blu|Dash)[ _]([^/;)]+)(?: Build|[;)])|(?:Studio[ _](G3|J8M|X10L|X12|5\\.0K|5\\.5|View(?: XL)?|Mega(?: LTE)?|C 8\\+8|[CGM][ _]HD|G2 HD|G4|[CGX]|SELFIE|Selfie LTE|Touch|M[45] Plus|J[1258]|X[89] HD|X10\\+?|XL(?: 2)?)|Advance (4\\.0 ?[LM]|5\\.[02](?: HD)?|A[467]|L[45]|A5 Plus|A5 LTE)|M6 2021|ENERGY (DIAMOND|XL)|ENERGY[_ ]DIAMOND[_ ]MINI|Energy X 2|LIFE XL|B110DL|Dash (?:X[2L]|L3)|PURE (?:X[LR]|MINI|View)|Life One X[23]|G50 (?:Mega|Plus)|G51 Plus|G90(?: PRO)?|G91 Pro|GRAND (?:M3|Max|5\\.5 HD|XL LTE|Mini|Energy)|R1 (?:HD|PLUS)|R2 (?:LTE|Plus)|Tank Xtreme [45]\\.0|Tank Xtreme(?: Pro)?|Touchbook M7 Pro|DASH X PLUS|C[456] 2019|BOLD (?:M7|N[123]|K[15]0)|B1[34]0DL|Vivo (?:5 Mini|One Plus|5R|XL[234]| Plus|8L|XI[+]?|GO)|C[56]L(?: 2020)?|C6 2020|G9 PRO|D701|VIEW 1|B13[15]DL|R2 3G|Grand (?:M2X?|XL|M2 LTE)|D600|D5[01]0|B1550VL|DIAMOND M|M8L Plus|STUDIO ENERGY|M8L 2022|LIFE X8|M10L (?:Pro|PLUS)|G71 PLUS|G52L|G61S|G91S|Studio Mini 2023|B(?:160|300)V|Android 10(?:[\\d.]*);(?: [\\w-]+;)? (?:G[57]0|G[679]1)|Android 11(?:[\\d.]*);(?: [\\w-]+;)? J9L|Android 13(?:[\\d.]*);(?: [\\w-]+;)? (?:G53)|F92 E 5G|C5 (?:Max|Plus|LTE))(?:[);/ ]|$)",
  pat! "(?i)Advance (4\\.0 ?[LM]|4\\.0|5\\.[02](?: HD)?|A[46]|L[54])",
  pat! "(?i)M6 2021(?:[);/ ]|$)",
  pat! "(?i)(?:BLU[_ ])?Studio[ _](G3|J8M|5\\.0 C|5\\.5|C 5\\+5 LTE|View(?: XL)?|Mega(?: LTE)?|C 8\\+8|G HD LTE|[CG][ _]HD|C|G|Touch|M HD|G2 HD|M[45] Plus|J[1258]|X[89] HD|X5|X10\\+?|XL(?: 2)?|X|G4)(?:[);/ ]|$)",
  pat! "(?i)(?:BLU[_ ])?Studio[ _]5\\.0 ?K(?:[);/ ]|$)",
  pat! "(?i)STUDIO[_ ](X10L|X12|G2)(?:[);/ ]|$)",
  pat! "(?i)STUDIO SELFIE ([23]|LTE)",
  pat! "(?i)(?:BLU[_ ])?NEO_ENERGY_MINI",
  pat! "(?i)ENERGY[_ ]DIAMOND[_ ]MINI",
  pat! "(?i)DASH[ _]X[ _]PLUS[ _]LTE",
  pat! "(?i)DASH 4\\.5",
  pat! "(?i)PURE (X[LR]|View)",
  pat! "(?i)BOLD (M7|N[123]|K[15]0)",
  pat! "(?i)LIFE ONE (X[23]?)",
  pat! "(?i)NEO (XL|X|5\\.5)",
  pat! "(?i)G(5[01]|71) Plus",
  pat! "(?i)G(9[01]?) PRO",
  pat! "(?i)(G[579]0|G[679]1|D701|R2 3G|G52L|G91S|G61S)(?:[);/ ]|$)",
  pat! "(?i)(J9L|G53)(?:[);/ ]|$)",
  pat! "(?i)GRAND 5\\.5 HD",
  pat! "(?i)Grand (M2X?|XL)",
  pat! "(?i)B13[01]DL",
  pat! "(?i)R([12]) PLUS",
  pat! "(?i)C([456]) 20(19|20)",
  pat! "(?i)(?:BLU[_ ])?TankMega_3G",
  pat! "(?i)Tank Xtreme ([45])\\.0",
  pat! "(?i)C5 (Max|Plus|LTE)(?:[);/ ]|$)",
  pat! "(?i)C([56])L 20(20|21)",
  pat! "(?i)C([56])L",
  pat! "(?i)(?:BLU[_ ])?VIVO[ _]SELFIE",
  pat! "(?i)(?:BLU[_ ])?Vivo 5 Mini",
  pat! "(?i)(?:BLU[_ ])?Vivo (One|XL3|XI)(?: Plus|[+])",
  pat! "(?i)(?:BLU[_ ])?Vivo (5R|XI|XL[234]|8L)",
  pat! "(?i)(?:BLU[_ ])?VIVO GO",
  pat! "(?i)(?:BLU[_ ])?ZOEY_SMART",
  pat! "(?i)(?:BLU[_ ])?(D600|D5[01]0)",
  pat! "(?i)M(8|10)L Plus",
  pat! "(?i)M(10)L Pro",
  pat! "(?i)M8L (2022)",
  pat! "(?i)STUDIO 7\\.0 II",
  pat! "(?i)DASH (L[45] LTE|5\\.0|L[45]X|L3|X2|[LMX])(?:[);/ ]|$)",
  pat! "(?i)DASH[ _]([^)/;]+)(?: Build|\\))",
  pat! "(?i)blu[ _]([^/;]+)( Build|[);])",
  pat! "(?i)BLUSLATE([67])(?:[);/ ]|$)",
  pat! "(?i)Bluboo|Maya Build|(?:Picasso(?: 4G)?|Xfire2?|D6 Lite|D1_Pro|D6 Pro|S8_plus_a| S8a|Android 8(?:[\\d.]*);(?: [\\w-]+;)? D6)(?:[);/ ]|$)",
  pat! "(?i)Picasso(?: 4G)?",
  pat! "(?i)D([16])[_ ]Pro",
  pat! "(?i)(?:Bluboo[_ ])?S8[_ ]plus",
  pat! "(?i)D6(?: Build|[;)])",
  pat! "(?i)Bluboo[ _-]?([^;/)]+)(?: Build|[;)])",
  pat! "(?i)Bluboo[ _-]?([^;/)]+)",
  pat! "(?i)BSS(45|50)(?:[);/ ]|$)",
  pat! "(?i)(VF550|EF501R?)(:_RU)?(?:[);/ ]|$)",
  pat! "(?i)BLUEDOT[_ ]|(?:BNT-71|BNT-801W)(?:[);/ ]|$)",
  pat! "(?i)(?:BLUEDOT[_ ])?(BNP-500)(?:[);/ ]|$)",
  pat! "(?i)(BNT-71|BNT-801W)(?:[);/ ]|$)",
  pat! "(?i)(?:33GT HD|WV8R-M|WV8R[_-]N|WV8-[ML])(?:[);/ ]|$)",
  pat! "(?i)WV8R[_-]N",
  pat! "(?i)Bmobile[_ ]|B60Pro(?:_MV03)?|BL40_MV12|BL50P_TG0[567]|BL51_MV05|BL53_TG06|BL5[24]_?Pro|(?:B50Pro|BL5[02]|BL60_TG(?:05|17)|BL60M_MV05|BL60 Pro|BL6[12]|BL63_TG07|FUN 4 2018|AX686A|AX-?(?:[1-9][0-9]{2,3}[eEO+]?|7OO))(?:[);/ ]|$)",
  pat! "(?i)AX-?([1-9][0-9]{2,3}[eAEO+]?)",
  pat! "(?i)B60Pro(?:_MV03)?",
  pat! "(?i)BL40_MV12(?:[);/ ]|$)",
  pat! "(?i)BL60_TG(?:05|17)",
  pat! "(?i)BL([56]0|52)[_ ]?Pro(?:[);/ ]|$)",
  pat! "(?i)BL63_TG07(?:[);/ ]|$)",
  pat! "(?i)BL50P_TG0[567](?:[);/ ]|$)",
  pat! "(?i)BL(5[02])(?:[);/ ]|$)",
  pat! "(?i)BL51_MV05(?:[);/ ]|$)",
  pat! "(?i)BL53_TG06(?:[);/ ]|$)",
  pat! "(?i)BL54_?Pro",
  pat! "(?i)BL6([12])(?:[);/ ]|$)",
  pat! "(?i)Bmobile[_ ]([^/;]+) Build",
  pat! "(?i)Bmobile[_ ]([a-z0-9]+)",
  pat! "(?i)(?:K10[ ]?SE)(?:[);/ ]|$)",
  pat! "(?i)B_TAB1021(?:[);/ ]|$)",
  pat! "(?i)(Cybook)[ -]Tablet(?:[);/ ]|$)",
  pat! "(?i)(?:Pulse Retro|Pulse Sky|Pulse Glide|Cabana|StrikaPlay)(?:[);/ ]|$)",
  pat! "(?i)(Pulse Retro|Pulse Sky|Pulse Glide)",
  pat! "(?i)(Cabana)",
  pat! "(?i)(?:58BSE9503|WZONE)(?:[);/ ]|$)",
  pat! "(?i)(?:sprd-)?(BOWAY)",
  pat! "(?i)BOWAY[ _-]([^/;]+)[ _]Build",
  pat! "(?i)([^/;]+) Build/BOWAY",
  pat! "(?i).*BOWAY[ _-]([^/;]+)/",
  pat! "(?i)(?:L1f-pluss|Brandcode B6S)(?:[);/ ]|$)",
  pat! "(?i)Brandt|(?:BPRIME|BSTAR\\+?|BPRIMES|B-ONE)(?:[);/ ]|$)",
  pat! "(?i)BRANDT ([UF]HD) TV",
  pat! "(?i)(BPRIME|BSTAR\\+?|BPRIMES|B-ONE)(?:[);/ ]|$)",
  pat! "(?i)Bravis[ _]|A501 Bright|A552 JOY Max|A504 Trace|A505 JOY Plus|A503 Joy|NB(?:106M|10[1-8]|751|7[145]|8[57]1|76)|NP101|NB961|NP 104 3G|B501|N1-570 Space|Atlas A551|A511 Harmony|A512 Harmony Pro|A510_Jeans_4G|A509_Jeans|N1_550_Cruiser|N1_551 Gloss",
  pat! "(?i)Bravis[_ ]X500",
  pat! "(?i)Bravis[_ ]A506",
  pat! "(?i)Bravis[_ ]A553",
  pat! "(?i)BRAVIS[ _]TAU",
  pat! "(?i)BRAVIS[ _]DELTA",
  pat! "(?i)BRAVIS[ _]TREND",
  pat! "(?i)BRAVIS[ ]A554",
  pat! "(?i)BRAVIS[ ]S500",
  pat! "(?i)BRAVIS[ _]SPARK",
  pat! "(?i)BRAVIS[ _]SLIM[ _]3G",
  pat! "(?i)Bravis[_ ]([^;\\)]+) Build",
  pat! "(?i)(NB(?:106M|10[1-8]|75[134]|7[145]|8[57]1|76)|NP101|NB961)",
  pat! "(?i)(HD1023|XD233|XD230|XD1030|XD1132|XT114[34]|4K1142|LS424|LS445)",
  pat! "(?i)Brondi[ _]|(?:CENTURION|GLADIATOR| GLORY|LUXURY|SENSUELLE|VICTORY|AMICO[_ ]SMARTPHONE[_ ](?:4G|X[SL]|S\\+)|MIDNIGHT_SKY|501 SZ|850_4G)(?:[ _-]?[2-6])?(?:[);/ ]|$)|Surfing Tab",
  pat! "(?i)(?:Brondi[ _])?(620 SZ|730_4G_HD|501 SZ|850_4G)(?:[);/ ]|$)",
  pat! "(?i)CENTURION(?:[ _-]?([2-6]))?(?:[);/ ]|$)",
  pat! "(?i)GLADIATOR(?:[ _-]?([2-6]))?(?:[);/ ]|$)",
  pat! "(?i)GLORY(?:[ _-]?([2-6]))?(?:[);/ ]|$)",
  pat! "(?i)LUXURY(?:[ _-]?([2-6]))?(?:[);/ ]|$)",
  pat! "(?i)MIDNIGHT_SKY(?:[);/ ]|$)",
  pat! "(?i)SENSUELLE(?:[ _-]?([2-6]))?(?:[);/ ]|$)",
  pat! "(?i)VICTORY(?:[ _-]?([2-6]))?(?:[);/ ]|$)",
  pat! "(?i)AMICO SMARTPHONE (X[LS]|S\\+)",
  pat! "(?i)Surfing Tab ([^;/]+) Build",
  pat! "(?i)Surfing Tab ([^;/)]+)[;/)]",
  pat! "(?i)(BUB6R-3T)(?:[);/ ]|$)",
  pat! "(?i)(?:BTOUCH7_PLUS|SWEET 5\\+ 2019|SWEET ?[56]\\+)(?:[);/ ]|$)",
  pat! "(?i)SWEET 5\\+ 2019",
  pat! "(?i)SWEET ?([65])\\+",
  pat! "(?i)Bush[ ;,_-]|Bush10Nou",
  pat! "(?i)Spira B1 (8|10\\.1)",
  pat! "(?i)BUSH ([^;/)]+)Tablet(?: Build|[);])",
  pat! "(?i)BUSH ([^;/)]+) Smartphone",
  pat! "(?i)BUSH ([^;/)]+)(?: Build|[);])",
  pat! "(?i)BUSH\\-v\\.tv\\.([0-9]{4})",
  pat! "(?i)BUSH, ([a-z0-9_ -]+), (?:wired|wireless)",
  pat! "(?i)(XR4500)(?:[);/ ]|$)",
  pat! "(?i)CM(?:[58]22|(?:85|78)00plus)(?:[);/ ]|$)",
  pat! "(?i)(CM[58]22)(?:[);/ ]|$)",
  pat! "(?i)CM(85|78)00plus(?:[);/ ]|$)",
  pat! "(?i)(?:noa X2 Plus|noa_G1|noaXPower|NOATAB)(?:[);/ ]|$)",
  pat! "(?i)CADENA[_ ]",
  pat! "(?i)CADENA[_ ]Pro[_ ]([^;/)]+)(?: Build|[);])",
  pat! "(?i)CAGI-([a-z0-9_-]+)",
  pat! "(?i)(?:4G (?:mega power|POWER|MAXX|Hot|Cloud|SPARK|Prime|Premium|STAR|Smart|Music|LITE)|4G[- _]Hero)(?:[);/ ]|$)",
  pat! "(?i)4G[- _]Hero",
  pat! "(?i)CCIT[_ ]|CCITA715G|(?:KT[236]00Pro)(?:[);/ ]|$)",
  pat! "(?i)CCIT[ _]Xedition",
  pat! "(?i)CCIT[ _]405(?: Build|[);])",
  pat! "(?i)KT([236]00)Pro",
  pat! "(?i)CCIT[_ ]?([^;/)]+)(?: Build|[);])",
  pat! "(?i)CT-(87(?:4[03]|24|32|50)|85(?:[67]5|5[08]|32|4[03])|88(?:4[03]|32|24)|8932)(?:[);/ ]|$)",
  pat! "(?i)CEPTER(TAB10[1L])",
  pat! "(?i)(?:CG_OMEGA6|Omega (?:[38])|CG_EON_Blaze_Pro|CG\\|EON Blaze GOLD|Blaze [GN])(?:[);/ ]|$)",
  pat! "(?i)Omega ([38])(?:[);/ ]|$)",
  pat! "(?i)CG_OMEGA6(?:[);/ ]|$)",
  pat! "(?i)CG_EON_Blaze_Pro(?:[);/ ]|$)",
  pat! "(?i)CG\\|EON Blaze GOLD(?:[);/ ]|$)",
  pat! "(?i)Blaze ([GN])",
  pat! "(?i)CGV_(Ultimate T8)",
  pat! "(?i)CHCNAV|(?:HCE[67]00)(?:[);/ ]|$)",
  pat! "(?i)(HCE[67]00)",
  pat! "(?i)CKK (Inspire 1|Garnet)|(?:DUKE[78]|DUKE 3|DUKE\\s+II)(?:[);/ ]|$)",
  pat! "(?i)DUKE ?([378])",
  pat! "(?i)DUKE\\s+II",
  pat! "(?i)CKK (Inspire 1|Garnet)",
  pat! "(?i)(?:A015|A001)(?:[);/ ]|$)",
  pat! "(?i)(K10C|C3_Pro)(?:[);/ ]|$)",
  pat! "(?i)BlueS10(?:[);/ ]|$)",
  pat! "(?i)(N101[AB])(?:[);/ ]|$)",
  pat! "(?i)TV 4K(?:[);/ ]|$)",
  pat! "(?i)CORN[_ ]|(?:C55 Pro|C60 Ultra|Fenix8_3G|Note1|Tronik_(?:[123]|12S)|Star7 3G|Coco10_Ultra_4G|Play25_Pro_4G)(?:[);/ ]|$)",
  pat! "(?i)(C55 Pro|C60 Ultra|Star7 3G)(?:[);/ ]|$)",
  pat! "(?i)Fenix8_3G(?:[);/ ]|$)",
  pat! "(?i)CORN Note1(?:[);/ ]|$)",
  pat! "(?i)CORN R([124])0(?:[);/ ]|$)",
  pat! "(?i)Tronik_([123]|12S)(?:[);/ ]|$)",
  pat! "(?i)CORN[_ ]C(4)(?:[);/ ]|$)",
  pat! "(?i)CORN[_ ]X(4|55|5)(?:[);/ ]|$)",
  pat! "(?i)COYOTE[ _]",
  pat! "(?i)APOLLO10 PRO(?:[);/ ]|$)",
  pat! "(?i)CUBOT|QUEST(?: LITE)?|(?:NOTE 7|NOTE 20(?: PRO)?|RAINBOW 2|KING_KONG_3|ZORRO 001|KINGKONG[_ ](?:MINI2?|POWER|STAR|[5-9]|5 Pro|AX|X|ACE [23]|ES|11)|TAB KINGKONG|KING KONG CS| X30P|R15_PRO|S550 Pro|Android [6-7](?:[\\d.]*);(?: [\\w-]+;)? CHEETAH| [RX]19|X19 S|MAX [35]|Android 9(?:[\\d.]*);(?: [\\w-]+;)? (?:J5|MAX 2|X20 PRO)|Android [89](?:[\\d.]*);(?: [\\w-]+;)? R15|Android 12(?:[\\d.]*);(?: [\\w-]+;)? (?:P60|NOTE 30)|Android 13(?:[\\d.]*);(?: [\\w-]+;)? (?:NOTE [345]0|NOTE 2[134]|P80)|Android 11(?:[\\d.]*);(?: [\\w-]+;)? (?:Pocket|NOTE 9|P50|J10)|POCKET 3)(?:[);/ ]|$)",
  pat! "(?i)POCKET (3)",
  pat! "(?i)CHEETAH( 2)?",
  pat! "(?i)KINGKONG POWER ([235])",
  pat! "(?i)KINGKONG[ _]POWER",
  pat! "(?i)KINGKONG[ _]AX",
  pat! "(?i)KINGKONG ACE ([23])",
  pat! "(?i)KINGKONG[ _]STAR[ _]2",
  pat! "(?i)KINGKONG[ _]STAR",
  pat! "(?i)KINGKONG MINI ?([23])",
  pat! "(?i)KING[_ ]?KONG[_ ](11|[35-9]|X|ES 3|ES)",
  pat! "(?i)CUBOT[ _]Echo",
  pat! "(?i)CUBOT[ _]MANITO",
  pat! "(?i)CUBOT[ _]MAGIC",
  pat! "(?i)MAX ([235])",
  pat! "(?i)CUBOT[ _]MAX",
  pat! "(?i)(R15|S550|J3)[_ ]PRO",
  pat! "(?i)NOTE ([2-5]0|2[134]|[79])",
  pat! "(?i)CUBOT[_ ]NOTE[_ ]S",
  pat! "(?i)CUBOT[_ ]Hafury V1",
  pat! "(?i)CUBOT[ _](A5|C6W|H3|J3|P7|P20|[RXJ]9|R11|X18|X[35]0)(?:[);/ ]|$)",
  pat! "(?i)(X19 S|[RX]19|R15|J5|P[568]0|J10|X30P)(?:[);/ ]|$)",
  pat! "(?i)CUBOT ([^;/]+) Build",
  pat! "(?i)([^;/]+) Build/CUBOT",
  pat! "(?i)CUD (GO) (2024)",
  pat! "(?i)CVTE[_ ](MSD338_(:?1G|512M))(?:[);/ ]|$)",
  pat! "(?i)CX9006(?:[);/ ]|$)",
  pat! "(?i)(?:CAIXUN AndroidTV)(?:[);/ ]|$)",
  pat! "(?i)(?:Camfone (?:SE)|Hero[_ ](?:H5\\+|SE2|H[579]|(?:H7|XR)_Plus|SX|1[123]|SE3[ _]Max)|Honey (?:Y1|Y2s)|Mega 10|Furious 7 Pro)(?:[);/ ]|$)",
  pat! "(?i)(Hero[_ ](?:H5\\+|SE2|H[579]|(?:H7|XR)_Plus|SX|1[123]|SE3[ _]Max)|Honey (?:Y1|Y2s)|Mega 10)(?:[);/ ]|$)",
  pat! "(?i)Camfone (SE)(?:[);/ ]|$)",
  pat! "(?i)CNM6762(?:[);/ ]|$)",
  pat! "(?i)(CNM6762)(?:[);/ ]|$)",
  pat! "(?i)S70CDS(?:[);/ ]|$)"]

/-- `__dr_re`, from item 1500 on (device_repo.go:19836-20085). -/
def drRe_6 : List (List Chunk) := [
  pat! "(?i)CANAL PLUS BOX(?:[);/ ]|$)",
  pat! "(?i)(M75TG)(?:[);/ ]|$)",
  pat! "(?i)Capitel-([a-z0-9]+)",
  pat! "(?i)Captiva[ _-]([^;/)]+)(?: Build|\\))",
  pat! "(?i)CT(?:10[0123]0|7[12]0|820|735_16GB|1056_32GB|1005)(?:W|FR)?(?:[);/ ]|$)",
  pat! "(?i)CT(10[0123]0(?:W|FR)?)",
  pat! "(?i)CT(7[12]0(?:W|FR)?|735|1005|1056)",
  pat! "(?i)(C811|C7[57]1)(?: 4G)?(?:[);/ ]|$)",
  pat! "(?i)C751(?:[);/ ]|$)",
  pat! "(?i)C771(?:[);/ ]|$)",
  pat! "(?i)C811 4G(?:[);/ ]|$)",
  pat! "(?i)CASPER[_ ]|(?:Pad H10 PEN|VIA[- _](X30(?: Plus)?|[AXS]40|X45|[XF]20|F30|T7D|A[34]|E[43]|E30|F[123]|G[345]|M4|M3[05]|[LM]40|[LS]8|S7|P[23]|V8C|A[13]_Plus(?:_64)?|A1(?:_1)?|S[13]0|S48|S|T17_M|T1[07]|T7|[ST]7-3G|T8B|T8D-3G|S1[78]|S48_0|[LS]30_0|L[35]0|F30 Plus|M30 Plus))(?:[);/ ]|$)",
  pat! "(?i)(?:CASPER[_ ])?VIA[_ ](A1|[FMX]30)[_ ]Plus(?:_64)?",
  pat! "(?i)(?:CASPER[_ ])?VIA[_ ]([AXM]40|[XF]20|X45|F30|X30|G1_Plus|F30 Plus|A3_Plus|G[135]|E[14]|E30|[AE]2|M[123]|V[35689]|V10|G3|V6X|A[34]|E3|F[123]|G4|M4|M3[05]|P[23]|S|V8C|A1(?:_1)?)(?:[);/ ]|$)",
  pat! "(?i)CASPER_L10_4\\.5G",
  pat! "(?i)CASPER_(S[23]8)(?:[);/ ]|$)",
  pat! "(?i)VIA[- _]([ST]7|T8D)-3G",
  pat! "(?i)VIA[- _](T7D|S[134]0|S48|[LS]8|[LS]30|S7|T17_M|T1[07]|T7|T8B|S1[78]|L[45]0)(?:_0)?(?:[);/ ]|$)",
  pat! "(?i)BULLITTGROUPLIMITED|B30_Dorado|Cat ?(tablet|stargate|nova|S52|B35)|(?:B15Q|CAT-B100|S22 FLIP|S62 Pro|S48c|Android 9(?:[\\d.]*);(?: [\\w-]+;)? S52|Android 10(?:[\\d.]*);(?: [\\w-]+;)? S42)(?:[);/ ]|$)",
  pat! "(?i)S61(?:[);/ ]|$)",
  pat! "(?i)(S48c|S[45]2)(?:[);/ ]|$)",
  pat! "(?i)Cat ?(?:tablet)? ?((?:Galactica|Nova|StarGate|PHOENIX)[^/;]*) Build",
  pat! "(?i)Cat ?tablet",
  pat! "(?i)CAT-(B100)",
  pat! "(?i)(B30)_Dorado",
  pat! "(?i)(?:Cavion[_ ](?:Solid[_ ]4[\\._]5|Base[ _](?:7|7_3G_Silver|5[._]0|10|7\\.2 Quad)|10_3GRQ)|base10_3g_silver|Cavion7\\.1quad|M1092Q)(?:[);/ ]|$)",
  pat! "(?i)Cavion[_ ]Solid[_ ]4[._]5",
  pat! "(?i)Cavion[ _]BASE[ _]5[._]0",
  pat! "(?i)Cavion(?:7\\.1quad)",
  pat! "(?i)Cavion Base 7\\.2 Quad",
  pat! "(?i)(?:Cavion_)?Base_?(7|10)_3G_Silver",
  pat! "(?i)(M1092Q)",
  pat! "(?i)(?:ACRUX|BELLATRIX|BETELGEUSE|GACRUX|Betacrux|Kil-82WFDC|U800B)(?:[);/ ]|$)",
  pat! "(?i)(U800B)",
  pat! "(?i)Betacrux(?:[);/ ]|$)",
  pat! "(?i)CELCUS, ([a-z0-9_ -]+), (?:wired|wireless)",
  pat! "(?i)Celkon|Android 7.+ UNIQ(?: Build|[);])|(?:Millennia Hero|2GBStar|2GBXpress|CliQ2|Campus Prime)(?:[);/ ]|$)",
  pat! "(?i)Celkon[ _*](C[78]20)",
  pat! "(?i)Celkon[_ ]4G_TAB-8",
  pat! "(?i)CliQ2(?:[);/ ]|$)",
  pat! "(?i)Q4GPlus(?:[);/ ]|$)",
  pat! "(?i)Android 7.+ UniQ(?: Build|[);])",
  pat! "(?i)(Campus Prime)(?:[);/ ]|$)",
  pat! "(?i)Celkon[ _*](CT[^;/]+) Build",
  pat! "(?i)Celkon[ _*]([^;/]+) Build",
  pat! "(?i)Celkon[\\. _*]([^;/\\)]+)[\\)/]",
  pat! "(?i)Cell_?C_|(?:Android 5(?:[\\d.]*);(?: [\\w-]+;)? (?:Summit|Fantasy))(?:[);/ ]|$)",
  pat! "(?i)Cell_C_(Summit_Plus|Fame|Evolve)(?:[);/ ]|$)",
  pat! "(?i)Summit(?:[);/ ]|$)",
  pat! "(?i)Fantasy(?:[);/ ]|$)",
  pat! "(?i)(?:Cool_Extreme_2|Earn2 CL|Earn|Fashion2Plus|Fashion[ _]C|Cool Duo|CHIC_X1|Miracle XS|Miracle 6.0 S)(?:[);/ ]|$)",
  pat! "(?i)(Cool_Extreme_2|Earn2 CL|Earn|Fashion[ _]C|Cool Duo|Miracle XS|Miracle 6\\.0 S)(?:[);/ ]|$)",
  pat! "(?i)Cellacom|(?:S51_lite|X501_Prime)(?:[);/ ]|$)",
  pat! "(?i)Cellacom_S62(?:[);/ ]|$)",
  pat! "(?i)S51_lite(?:[);/ ]|$)",
  pat! "(?i)X501_Prime(?:[);/ ]|$)",
  pat! "(?i)Cosmas|CT_Cosmas_V|PADUA",
  pat! "(?i)(?:CT_)?Cosmas_(TF|[VF])",
  pat! "(?i)(?:Centric[- ]CM(?:5001|33[23]1|3321Plus)|CM4331|CM2221)(?:[);/ ]|$)",
  pat! "(?i)(?:Centric[- ])?CM5001",
  pat! "(?i)(?:Centric[- ])?CM3321Plus",
  pat! "(?i)(?:Centric[- ])?CM3321",
  pat! "(?i)(?:Centric[- ])?CM3331",
  pat! "(?i)(?:Centric[- ])?CM4331",
  pat! "(?i)(?:Centric[- ])?CM2221",
  pat! "(?i)(?:C66)(?:[);/ ]|$)",
  pat! "(?i)(C66)",
  pat! "(?i)Changhong|HON H01|GHONGV12",
  pat! "(?i)Changhong[ ]?(X1-K|X6|R8|Z9S?|Z1S|S18|R9|S07)(?:[);/ ]|$)",
  pat! "(?i)ChangHong Andr[o0]id TV",
  pat! "(?i)changhong,([a-z0-9_ -]+),(?:wired|wireless)",
  pat! "(?i)(?:Opera TV.+)Changhong-([^);/]+)",
  pat! "(?i)Cherry|Superion[_ ](?:S2|Radar Deluxe|S1 DTV|S1 Plus DTV|Tab Pro)|Flare([ _])?(Selfie|2\\.[01]|2X|4|A[123]|J[1235678]|P[13]|S[4-8]|X2|Y[3567]|S[ _]Play|HD|LITE|XL|X_V[23]|Y3s|Tab|INFINITY)(?:[ _](?:Pro|Plus|Max|LTE))?|Fusion Aura 3s|Radar Deluxe 2|Desire R[678]|Desire_R[67]_Lite|Fusion Bolt|Omega[_ ](?:Icon 2|Icon Lite 2|lite[_ ][243][Cs]?|HD[ _][345]|HD_Duo|X)|Spin Max 2|Selfie_Two|Flare X Lite|Flare_5|Android 1.*Aqua S9|Aqua S10|MAIA PAD PLUS|COSMOS THREE| Revel 3G|Touch XL 2|DSR_(?:R8|R7P?)|CUBIX CUBE 3|AM1010V",
  pat! "(?i)(Flare2X|Aqua S(?:9|10)(?: (?:Max|Lite|Pro))?)",
  pat! "(?i)Flare[_ ]HD[_ ]([345])",
  pat! "(?i)Flare[ _]S[ _]Play",
  pat! "(?i)Flare (2\\.[01])",
  pat! "(?i)Flare[_ ]J([2356])S",
  pat! "(?i)Flare_([A-Z]\\d+)_Prime",
  pat! "(?i)Flare_([A-Z]\\d+)_Deluxe",
  pat! "(?i)Flare[_ ]([A-Z]\\d+)[_ ]Power",
  pat! "(?i)Flare[_ ]([A-Z]\\d+)[_ ]Pro",
  pat! "(?i)Flare[_ ]([A-Z]\\d+)[_ ]Lite",
  pat! "(?i)Flare[_ ]([A-Z]\\d+)[_ ]Plus",
  pat! "(?i)Flare ?J3 ?Plus",
  pat! "(?i)Cherry[_ ]X740",
  pat! "(?i)Flare[ _]X[_ ]V([23])",
  pat! "(?i)Flare[ _]XL[_ ]?2",
  pat! "(?i)Flare[ _]([A-Z]\\d+)[ _]mini",
  pat! "(?i)Flare[_ ]([A-Z]\\d+)[_ ]Max",
  pat! "(?i)Flare[_ ]J2[_ ]DTV",
  pat! "(?i)Flare[_ ]INFINITY",
  pat! "(?i)Flare[_ ]Lite[_ ]3S",
  pat! "(?i)Flare(?:[ _])?(Selfie|A1_Roam|A[123]|J8 LTE|J1s|J[1235678]|P[13]|S[4-8]|X2|Y3s|Y7_LTE|Y[3567]|[45])",
  pat! "(?i)OMEGA[ _]HD[ _]([345])",
  pat! "(?i)Omega[_ ]Lite[_ ](3[Cs]|[24])",
  pat! "(?i)Omega[_ ]X",
  pat! "(?i)Desire[ _]R(\\d)[ _]Lite",
  pat! "(?i)DSR_R([78])P",
  pat! "(?i)DSR_R([78])",
  pat! "(?i)Flare Tab Pro V(\\d)",
  pat! "(?i)(Fusion Bolt|Flare Tab Pro|Flare Tab|Superion[_ ](?:S2|Radar Deluxe|S1 DTV))",
  pat! "(?i)Cherry(?:[ _]?Mobile)?[ _]?([^/;]+)(?: Build|[);])",
  pat! "(?i)(?:ALTO (?:Bombo|classic|Estrella|JUEGO|SUBIR|[235])|FUEGO MAX|OJOS[ _](?:CIELO|CAMBIO|NUBE|[68i]|ORO|VIVIR|Plus|DOS mini|DOS|LUNA|X1)|AVANCE classic)(?:[);/ ]|$)",
  pat! "(?i)ALTO ([235])",
  pat! "(?i)OJOS[ _]([68i]|X1)",
  pat! "(?i)E-Board[ -]MX05[45]",
  pat! "(?i)E-Board[ -](MX05[45])",
  pat! "(?i)(?:M812C|1501_M02|9930i|A1303|A309W|M651CY|M653|CMCC[ -]M(?:670|860)|M762G|SP210|SP[23]00)(?: Build|[);]|$)",
  pat! "(?i)(M812C|1501_M02|9930i|A1303|A309W|M670|SP210|SP[23]00)",
  pat! "(?i)Build/Tianyi|(?:TYH211U|TYH201H|TYH6(?:1[12]|22|3[12]|41)M|TYH651M-02)(?:[);/ ]|$)",
  pat! "(?i)(?:CW-(Hi8-super|Hi12|V99i?|V17HD3G|VX8-3G|V88-QUAD|V9-DUAL|V88S|Vi[78]|[HV]i10 (?:pro|plus))|Hi10 (?:Pro|plus)|HiPad[ -](?:X|X?Pro|Air|Max)|HiPadX|HiBox-hero|HiBook(?: pro)?|Hi(?:[89]|10)[ _]?(?:Air|[_ ]?X?Pro(?:_PAD)?)|HiPad ?Plus|Hi8SE|Vi8 plus|Vi10(?: ?Pro)?|AuPad|Surpad|HiPadPro)(?:[);/ ]|$)",
  pat! "(?i)(?:CW-Hi8-super)(?:[);/ ]|$)",
  pat! "(?i)AuPadMini(?:[);/ ]|$)",
  pat! "(?i)AuPad(?:[);/ ]|$)",
  pat! "(?i)(?:CW-)?(Vi10|Hi10|Vi8) plus(?:[);/ ]|$)",
  pat! "(?i)CW-(V88)-QUAD(?:[);/ ]|$)",
  pat! "(?i)CW-(V9)-DUAL(?:[);/ ]|$)",
  pat! "(?i)CW-(V17HD|VX8)-?(3G)(?:[);/ ]|$)",
  pat! "(?i)(?:CW-)?(Hi10) pro(?:[);/ ]|$)",
  pat! "(?i)HiBook pro(?:[);/ ]|$)",
  pat! "(?i)HiBook(?:[);/ ]|$)",
  pat! "(?i)HiPad ?X(?:[);/ ]|$)",
  pat! "(?i)HiPad ?Pro(?:[);/ ]|$)",
  pat! "(?i)HiPad ?XPro(?:[);/ ]|$)",
  pat! "(?i)HiPad-Air(?:[);/ ]|$)",
  pat! "(?i)HiPad ?Plus(?:[);/ ]|$)",
  pat! "(?i)HiPad ?Max(?:[);/ ]|$)",
  pat! "(?i)Hi([89]) ?Air(?:[);/ ]|$)",
  pat! "(?i)Hi8SE(?:[);/ ]|$)",
  pat! "(?i)Hi10 ?XPro",
  pat! "(?i)Hi([89]) ?pro(?:[);/ ]|$)",
  pat! "(?i)Vi10 Plus(?:[);/ ]|$)",
  pat! "(?i)Vi10 ?Pro(?:[);/ ]|$)",
  pat! "(?i)Vi10(?:[);/ ]|$)",
  pat! "(?i)Surpad(?:[);/ ]|$)",
  pat! "(?i)HiBox-hero(?:[);/ ]|$)",
  pat! "(?i)CW-(Vi[78]|Hi12|V99i?|V88S)(?:[);/ ]|$)",
  pat! "(?i)(RK25WO|RK[29]5|RS35|RS51_HS)(?:[);/ ]|$)",
  pat! "(?i)(Life X6)(?:[);/ ]|$)",
  pat! "(?i)Claresta[ _]|(?:AirPhoneS[56]|AirPhone K6)(?:[);/ ]|$)",
  pat! "(?i)AirPhone ?(S[56]|K6)",
  pat! "(?i)Claresta (F3) PRO",
  pat! "(?i)Claresta[ _](F4)",
  pat! "(?i)Clarmin|(?:B8Lite|B8Plus|Android 7(?:[\\d.]*);(?: [\\w-]+;)? B5Pro)(?:[);/ ]|$)",
  pat! "(?i)Clarmin[_ ](B[65]|C1)",
  pat! "(?i)ClearPHONE ([246]20)(?:[);/ ]|$)",
  pat! "(?i)(?:CLEMPAD[_ ](?:6_XL|HR_Plus|HR|[68]|7_S|201[89])|ClemPhone_7|MFC_(?:2018|8))(?:[);/ ]|$)",
  pat! "(?i)CLEMPAD_(201[89])",
  pat! "(?i)Clempad[_ ](6_XL|HR_Plus|HR|[68])",
  pat! "(?i)ClemPhone[ _](7)",
  pat! "(?i)(?:Cirrus_C2|Cyclone_C4|Storm_C3|Stratus_C[57](?:_Elite)?|Stratus C8|Sunshine_T1|Typhoon_C6|Sunshine_T1_Elite)(?:[);/ ]|$)",
  pat! "(?i)(Cirrus_C2|Cyclone_C4|Storm_C3|Stratus[_ ]C[578]|Typhoon_C6)",
  pat! "(?i)(Sunshine_T1(?:_Elite)?)",
  pat! "(?i)\\+VT(?:107C|Q007C)|CloudFone[ _]|(?:Thrill[ _](?:Boost[ ]?(2|3)?|Power|Snap|Access|Plus 16GB|Lite|HD)|Excite Prime 2 Pro|Excite Prime|ExciteC|NBA Edition|Go SP|Next Infinity Plus|Next Infinity|Next Lite|Go Connect)(?:[);/ ]|$)",
  pat! "(?i)Thrill Boost 2 Plus(?:[);/ ]|$)",
  pat! "(?i)Thrill Boost (2|3)(?:[);/ ]|$)",
  pat! "(?i)Thrill[ _]Boost(?:[);/ ]|$)",
  pat! "(?i)Thrill Snap(?:[);/ ]|$)",
  pat! "(?i)Thrill Plus 16GB(?:[);/ ]|$)",
  pat! "(?i)Thrill Power(?:[);/ ]|$)",
  pat! "(?i)Thrill Access(?:[);/ ]|$)",
  pat! "(?i)Thrill Lite(?:[);/ ]|$)",
  pat! "(?i)Thrill HD(?:[);/ ]|$)",
  pat! "(?i)NBA Edition(?:[);/ ]|$)",
  pat! "(?i)(Go SP(?: 2)?|Next Infinity (?:Pro|Plus)|Next Infinity|Go Connect(?: Lite)?(?: 2)?)(?:[);/ ]|$)",
  pat! "(?i)Next Lite(?:[);/ ]|$)",
  pat! "(?i)Next(?:[);/ ]|$)",
  pat! "(?i)\\+VT107C",
  pat! "(?i)\\+VTQ007C",
  pat! "(?i)Hind[ _]5\\.1|X417[ _]Amaze|X418[ _]Zest|X421[ _]Nova|X422[ ]Exotic|X425[ _]Shavit|X428[ _]Astute",
  pat! "(?i)Hind[ _]5\\.1",
  pat! "(?i)X417[ _]Amaze",
  pat! "(?i)X418[ _]Zest",
  pat! "(?i)X421[ _]Nova",
  pat! "(?i)X422[ _]Exotic",
  pat! "(?i)X425[ _]Shavit",
  pat! "(?i)X428[ _]Astute",
  pat! "(?i)Clovertek[ _](G12)",
  pat! "(?i)CnM[ -](?:Touchpad|TP)[ -]([0-9.]+)",
  pat! "(?i)Cobalt[ _-](?:SM|T)",
  pat! "(?i)Cobalt[ _-]SM_(55?|6)",
  pat! "(?i)Cobalt[ _-]T((?:7|10))[ _]3G",
  pat! "(?i)Cobalt[ _-]T((?:7|10))[ _]wifi",
  pat! "(?i)(MID(?:1024|112[56]|1045|1048|106[05]|4331|701[26]|7015A?|70[32]2|703[56]|704[278]|7052|7065|7120|8024|80[47]2|8048|8065|8125|812[78]|9724|974[02])|CTB761)(?:[);/ ]|$)",
  pat! "(?i)(?:EPICO 4K)(?:[);/ ]|$)",
  pat! "(?i)(?:Colors[ _](S(?:[19]|11)|P70|P[456]5|P32|E15|P50 Plus)|Pride_1A|P52_Pride5C|P90_Pride5X|P95_Pride_7s|P77_Pride_1E|P88_Pride_1X)(?:[);/ ]|$)",
  pat! "(?i)Pride_1A(?:[);/ ]|$)",
  pat! "(?i)P95_Pride_7s(?:[);/ ]|$)",
  pat! "(?i)P77_Pride_1E(?:[);/ ]|$)",
  pat! "(?i)P52_Pride5C(?:[);/ ]|$)",
  pat! "(?i)P90_Pride5X(?:[);/ ]|$)",
  pat! "(?i)P88_Pride_1X(?:[);/ ]|$)",
  pat! "(?i)Colors[ _](S(?:[19]|11)|P70|E15|P[456]5|P32|P50 Plus)(?:[);/ ]|$)",
  pat! "(?i)Tesla|Impulse 7\\.85 3G|Impulse 10\\.1 OCTA|Smartphone_6\\.1|SP(?:6\\.2|6\\.2_Lite)|TTL(?:713G|8)|Explr 9",
  pat! "(?i)(Explr 9)",
  pat! "(?i)TeslaEvo5\\.0",
  pat! "(?i)(Gravity 9\\.7 SHD)",
  pat! "(?i)(Impulse 7\\.85 3G)",
  pat! "(?i)Impulse 10\\.1 OCTA",
  pat! "(?i)Tesla_SP([^/;)]+)L(?: Build|[;)])",
  pat! "(?i)Smartphone_6\\.1",
  pat! "(?i)(?:Tesla_)?SP(\\d+)[_.](\\d+)_Lite(?: Build|[;)])",
  pat! "(?i)Tesla_SP(\\d+)[_.](\\d+)(?: Build|[;)])",
  pat! "(?i)Tesla_SP([^/;]+) Build",
  pat! "(?i)SP([^/;]+) Build",
  pat! "(?i)Smartphone ([36])",
  pat! "(?i)(L7\\.1)",
  pat! "(?i)(L7 Quad) Build",
  pat! "(?i)(L7 Quad Lite)",
  pat! "(?i)(L8\\.1)",
  pat! "(?i)TESLA,([a-z0-9_ -]+),(?:wired|wireless)",
  pat! "(?i)Comio|(?:CT701G PLUS|CT701W|GT100)(?:[);/ ]|$)",
  pat! "(?i)Comio[ _-]?([^;/)]+)(?: Build|[);])",
  pat! "(?i)VIP7802(?:[);/ ]|$)",
  pat! "(?i)Compal-[a-z0-9]+",
  pat! "(?i)COMPAQ Professional Workstation|(?:CT101|CT1085_32GB)(?:[);/ ]|$)",
  pat! "(?i)(CT1085)_32GB",
  pat! "(?i)(CT101)",
  pat! "(?i)ConCorde ([^/;]+) Build|Concorde_Raptor_Z55(?:[);/ ]|$)",
  pat! "(?i)Concorde_(Raptor_Z55)(?:[);/ ]|$)",
  pat! "(?i)ConCorde Tab ?([^/;]+) Build",
  pat! "(?i)ConCorde ReadMan ?([^/;]+) Build",
  pat! "(?i)ConCorde ([^/;]+) Build",
  pat! "(?i)(GoCAM_G301)(?:[);/ ]|$)",
  pat! "(?i)Concord[ _-]|(?:Flyfix 6|C-721|Plus-7_C777|Plus_M19_C779|Plus-9_C778|Dream_Edition_C-754)(?:[);/ ]|$)",
  pat! "(?i)Concord[ _-](M[12]0)",
  pat! "(?i)Plus[-_]([79]|M19)_(C77[789])(?:[);/ ]|$)",
  pat! "(?i)Condor|Allure (?:A8 Pro|A55 Slim|M[123]|X)|Griffe T[235-9]|TFX71[12]G|TFX71[34]L|TMK715L|TRA-901G|TGW[-]?(710G|709|102L|801[GL])|(?:PGN\\-?[456][012][0-9]|PHS\\-601|PHQ519|PAM412|PHQ52[056]|TB105L|TB717G|PKT\\-301|Plume (?:H1|L[1-68]|P8|P6 PRO LTE)|Infinity E5|Infinity a4|Infinity_i[45]|PKT411|SP413|PAM524|GT60 PRO|GT60|NOVA60(?: i)?|NOVA 70SE|NOVA 70)(?:[);/ ]|$)|CTAB[^/;]+ Build",
  pat! "(?i)CTAB([^/;]+) Build",
  pat! "(?i)(TGW)-?(710G|709|801[GL]|102L)(?:[);/ ]|$)",
  pat! "(?i)(TFX71[12]G|TFX71[34]L|TB105L|TB717G|TMK715L)(?:[);/ ]|$)",
  pat! "(?i)(TRA)-(901G)(?:[);/ ]|$)",
  pat! "(?i)(?:Condor_)(FP216L)(?:[);/ ]|$)",
  pat! "(?i)NOVA ?([67]0)",
  pat! "(?i)PGN-?403",
  pat! "(?i)PGN-?404",
  pat! "(?i)PGN-?409",
  pat! "(?i)PKT-?301",
  pat! "(?i)PGN-?504",
  pat! "(?i)PGN-?505",
  pat! "(?i)PGN-?506",
  pat! "(?i)(Allure \\w+) Plus",
  pat! "(?i)(Allure \\w+) Pro",
  pat! "(?i)(Allure \\w+) Lite",
  pat! "(?i)(Allure (?:M[123]|X)|GT60)",
  pat! "(?i)PGN\\-?507",
  pat! "(?i)PGN-?508",
  pat! "(?i)PGN\\-?509",
  pat! "(?i)PGN-?511"]

/-- `__dr_re`, from item 1750 on (device_repo.go:20086-20335). -/
def drRe_7 : List (List Chunk) := [
  pat! "(?i)PAM-?412",
  pat! "(?i)PGN-?513",
  pat! "(?i)PGN-?514",
  pat! "(?i)PGN-?515",
  pat! "(?i)PGN-?516",
  pat! "(?i)PGN-?51[78]",
  pat! "(?i)Infinity_i([45])",
  pat! "(?i)PGN-?521",
  pat! "(?i)Griffe T3 ?pro",
  pat! "(?i)Griffe T([0-9]) Plus",
  pat! "(?i)Griffe T([0-9])",
  pat! "(?i)PGN-?522",
  pat! "(?i)PGN-?523",
  pat! "(?i)PGN-?527",
  pat! "(?i)PGN-?528|PLUME P6 PRO LTE",
  pat! "(?i)PGN-?605",
  pat! "(?i)PGN-?606",
  pat! "(?i)PGN-?607",
  pat! "(?i)PGN-?608|Allure A55 Slim",
  pat! "(?i)PGN-?609",
  pat! "(?i)PGN-?610",
  pat! "(?i)PGN-?611",
  pat! "(?i)PGN-?612",
  pat! "(?i)PGN-?613",
  pat! "(?i)Plume L([24568]) Pro",
  pat! "(?i)Plume L([13]) Plus",
  pat! "(?i)Plume L([1-5])",
  pat! "(?i)PGN-?([0-9]{3})",
  pat! "(?i)(?:CP6001A)(?:[);/ ]|$)",
  pat! "(?i)(?:CTAB1044hn|CTAB-1044|SEN_1055_ARM)(?:[);/ ]|$)",
  pat! "(?i)(CTAB1044hn|CTAB-1044)(?:[);/ ]|$)",
  pat! "(?i)Conquest[-_ ](?:S\\d+|F2)(?:[);/ ]|$)",
  pat! "(?i)Conquest[-_ ]S(\\d+)",
  pat! "(?i)Contixo|(?:CX-1045 3G|KT995 3G|CX1045|B108_4G)(?:[);/ ]|$)",
  pat! "(?i)CX-?1045(?: 3G)?(?:[);/ ]|$)",
  pat! "(?i)CX-?1065(?: 3G)?(?:[);/ ]|$)",
  pat! "(?i)CONTIXO GX 1035(?:[);/ ]|$)",
  pat! "(?i)Contixo GT1160 4G(?:[);/ ]|$)",
  pat! "(?i)B105(?:[);/ ]|$)",
  pat! "(?i)B108(?:[_ ]4G)?(?:[);/ ]|$)",
  pat! "(?i)KT107(?: 3G)?(?:[);/ ]|$)",
  pat! "(?i)K109(?:[);/ ]|$)",
  pat! "(?i)KT715 3G(?:[);/ ]|$)",
  pat! "(?i)KT995(?:[);/ ]|$)",
  pat! "(?i)KT ?1100GT(?: 4G)?(?:[);/ ]|$)",
  pat! "(?i)(?:YL-)?Coolpad|dazen|(?:Cool_9S|1824-S0|8190Q|1831-A0|8676-[AM]01|1872-A0|REVVLPLUS C3701A|VCR-[AI]0|C105-(?:8|E0)|C106-[789]|C107-9| C106|MTS-T0|ORL-C0|DLS-E0|182[56]-I01|1825-E0| 1825|8298-(?:M02|A01)|5560S|CP3320AS2|CP3321AT|CP350[34]L|cp3636a|CP3648AT?|CP3667AT|CP3669AS|cp3705A[S]?|CP3706AS|CP23NV3|CP8298_I00|CP8676_I0[23]|C103|CP03|C1-U02|SAC-A0| 203[29]|CP0[57]|CP12[psQ]?)(?:[);/ ]|$)|(8295|5860S) Build",
  pat! "(?i)VCR-[AI]0",
  pat! "(?i)1831-A0(?:[);/ ]|$)",
  pat! "(?i)1872-A0(?:[);/ ]|$)",
  pat! "(?i)2032(?:[);/ ]|$)",
  pat! "(?i)8190Q(?:[);/ ]|$)",
  pat! "(?i)DLS-E0(?:[);/ ]|$)",
  pat! "(?i)1824-S0(?:[);/ ]|$)",
  pat! "(?i)CP3321AT(?:[);/ ]|$)",
  pat! "(?i)cp3636a(?:[);/ ]|$)",
  pat! "(?i)CP3705A[S]?(?:[);/ ]|$)",
  pat! "(?i)CP3648AT?(?:[);/ ]|$)",
  pat! "(?i)CP3320AS2?(?:[);/ ]|$)",
  pat! "(?i)CP3706AS(?:[);/ ]|$)",
  pat! "(?i)CP3669AS(?:[);/ ]|$)",
  pat! "(?i)MTS-T0(?:[);/ ]|$)",
  pat! "(?i)(?:C106-[789]|R116|C10[36]|C1-U02)(?:[);/ ]|$)",
  pat! "(?i)2039(?:[);/ ]|$)",
  pat! "(?i)C107-9(?:[);/ ]|$)",
  pat! "(?i)C105-(?:E0|8)(?:[);/ ]|$)",
  pat! "(?i)1826-I01(?:[);/ ]|$)",
  pat! "(?i)1825-I01(?:[);/ ]|$)",
  pat! "(?i)1825(?:[);/ ]|$)",
  pat! "(?i)ORL-C0(?:[);/ ]|$)",
  pat! "(?i)Cool_9S(?:[);/ ]|$)",
  pat! "(?i)CP03(?:[);/ ]|$)",
  pat! "(?i)CP05(?:[);/ ]|$)",
  pat! "(?i)CP07(?:[);/ ]|$)",
  pat! "(?i)CP12Q(?:[);/ ]|$)",
  pat! "(?i)(CP12)(?:[);/ ]|$)",
  pat! "(?i)CP12P(?:[);/ ]|$)",
  pat! "(?i)CP12s(?:[);/ ]|$)",
  pat! "(?i)SAC-A0(?:[);/ ]|$)",
  pat! "(?i)5560S(?:[);/ ]|$)",
  pat! "(?i)(5860S|8295) Build",
  pat! "(?i)Coolpad[_ ]2041",
  pat! "(?i)CP8676_I02(?:[);/ ]|$)",
  pat! "(?i)COR-I0(?:[);/ ]|$)",
  pat! "(?i)CP8676_I03(?:[);/ ]|$)",
  pat! "(?i)CP8298_I00(?:[);/ ]|$)",
  pat! "(?i)(CP350[34]L)(?:[);/ ]|$)",
  pat! "(?i)(8676-[AM]01|8298-(?:M02|A01))(?:[);/ ]|$)",
  pat! "(?i)(?:YL-)?Coolpad[ _-]?([^/;]+) Build",
  pat! "(?i)(?:YL-)?Coolpad[ _-]?([a-z0-9-]+)",
  pat! "(?i)(CP20)(?:_EEA)?(?:[);/ ]|$)",
  pat! "(?i)Cosmote?[_ ]([^;/)]+)(?: Build|[);])",
  pat! "(?i)(CP-J55a|CP-J55aW|CP-J55aX)(?:[);/ ]|$)",
  pat! "(?i)WING 5|WING9|Venus[ _][14]",
  pat! "(?i)Venus[ _]([14])",
  pat! "(?i)Cricket-([a-z0-9]+)|CKT_|(?:U(?:102|304|325|380|572|6080|655|668|680|705|1030)AC|V350C|EC1002|EC21100[1-4]|SL100EA|SL101AE|WTCKT01|SL112C|SL219C|SN304AE|SN509C)(?:[);/ ]|$)",
  pat! "(?i)(?:CKT_)?U102AC",
  pat! "(?i)(?:CKT_)?U1030AC",
  pat! "(?i)Cricket-([a-z0-9]+)",
  pat! "(?i)CRONY-7021(?:[);/ ]|$)",
  pat! "(?i)Crosscall|ODYSSEY_Plus|Action-X[35]|Core-(?:M[45]|T[45]|X[345]|Z5)|Stellar-X5|Trekker-[MSX][1-4]|Odyssey S1",
  pat! "(?i)Action-X3 Pro(?:[);/ ]|$)",
  pat! "(?i)Action-X([35])(?:[);/ ]|$)",
  pat! "(?i)Crosscall_Core-S4_4G(?:[);/ ]|$)",
  pat! "(?i)Core-(M4) GO(?:[);/ ]|$)",
  pat! "(?i)Core-(M[45]|X[345]|Z5)(?:[);/ ]|$)",
  pat! "(?i)Crosscall ([^;/]+) Build",
  pat! "(?i)Trekker-([MSX][1-4]) Core",
  pat! "(?i)Trekker-([MSX][1-4](?: Core)?)",
  pat! "(?i)Stellar-(X5)(?:[);/ ]|$)",
  pat! "(?i)Core-T([45])(?:[);/ ]|$)",
  pat! "(?i)CROWN, ([a-z0-9_ -]+), (?:wired|wireless)|BlossomB902(?:[);/ ]|$)",
  pat! "(?i)CROWN, ([a-z0-9_ -]+), (?:wired|wireless)",
  pat! "(?i)(?:SNOOK-X10)(?:[);/ ]|$)",
  pat! "(?i)(<!myPhone ?)Cube|(U[0-9]+GT|K8GT)|(?:T8-PLUSM?S?|T8PLUSML|I1-TF[BD]?|I1-TC|i15-T[CG]?|I1_3GD|i1002S|Iwork10 Flagship|iwork10 Pro|T10 PLUS|CUBE-T970|U55GT_C8)(?:[);/ ]|$)",
  pat! "(?i)U27GT-C8X?",
  pat! "(?i)U25GT-C4YT|U25GT-W4",
  pat! "(?i)U30GT ?2(?:[);/ ]|$)",
  pat! "(?i)U51GT-SL|U51GT-C8",
  pat! "(?i)(?:T8-PLUSM?S?|T8PLUSML)(?:[);/ ]|$)",
  pat! "(?i)I1-TF[BD]?(?:[);/ ]|$)",
  pat! "(?i)I1_3GD(?:[);/ ]|$)",
  pat! "(?i)I1-TC(?:[);/ ]|$)",
  pat! "(?i)i15-TG(?:[);/ ]|$)",
  pat! "(?i)i15-T(?:[);/ ]|$)",
  pat! "(?i)(?:i1002S|iwork10 Pro)(?:[);/ ]|$)",
  pat! "(?i)Iwork10 Flagship|i15-TC(?:[);/ ]|$)",
  pat! "(?i)CUBE-T970(?:[);/ ]|$)",
  pat! "(?i)(U[0-9]+GT[^;/]*) Build",
  pat! "(?i)(U[0-9]+GT(?:[0-9]|[\\-_][a-z]+)?)",
  pat! "(?i)(K8GT)",
  pat! "(?i)(?:C70W|F35W_EEA|C82W_EEA)(?:[);/ ]|$)",
  pat! "(?i)(C70W|F35W|C82W)(?:_EEA)?(?:[);/ ]|$)",
  pat! "(?i)Cyrus[ _-]|CyrusApel|CM17XA|CS(?:22|45)XA(?:_EEA)?(?:[);/ ]|$)",
  pat! "(?i)CM17XA(?:_EEA)?(?:[);/ ]|$)",
  pat! "(?i)CS(22|45)XA(?:_EEA)?",
  pat! "(?i)Cyrus[ _-]?([^;/)]+)(?: Build|[);])",
  pat! "(?i)Cyrus[ _-]?([^;/)]+)(?:[);/ ]|$)",
  pat! "(?i)(DTB-7168G)(?:[);/ ]|$)",
  pat! "(?i)(?:D5-L|DT07-TAB4G|LM-01)(?:[);/ ]|$)",
  pat! "(?i)(LM-01)",
  pat! "(?i)(D5-L)(?:[);/ ]|$)",
  pat! "(?i)DASS[-_ ](H-ONE)(?:[);/ ]|$)",
  pat! "(?i)(BOXD7)(?:[);/ ]|$)",
  pat! "(?i)DEC 3000 - M700(?:[);/ ]|$)",
  pat! "(?i)DEXP|(?:Ursus|Ixion)[ _]([^;/)]+)|H135[ _]Build|Larus_TV1|Ixion(?:ML4\\.7|ES250)|M150Storm|(?:SENIOR|F4[38]D8000K|VA(?:[12]10|170)|ML450|MS[56]50|BL(?:[123]50|160|155)|BS(?:155|160|[1256]50)|S(?:3[78]0|2[89]0|670)|AL(?:[12]40|[23]50)|AS(?:155|[123]60)| (?:B260|B245|H[12]10|H270|L470|N280i|P310|P380i?|R1[18]0|Q110|E1[78]0|E[12]10|B(?:450|340|35[05])|M170|M445|M[12]10|T155|H32F8000CG?|U43F8000Q|A(?:1[456]0|340|[34]55)|GS15[035]|GL[23]55|G25[035]|G355|G550|G15[05]|ES750|XL150|Z[1-4]55|H[13]70|H[34]10|P[45]10|L2[17]0)|Z250|A440|A350|N[13]80i|L1[178]0|L3[17]0i|G450|G660|Q[123]10|Q[12]80|N[234]10|N[35]70|EX111|S[245]70|S[127]70i|S169|S110|S180i?|S770|A555|(?:U75H8000K|U50H8000E|U65H8000K|F43H8000QG|U50G8000QG|U55H8050E|U43G9000CG|U43F8100QG|U55G8000QG|U50G9000CG|H32H800(?:1C|0[KQ])|H32G8000(?:CG|KW|Q)|H32F8000QG?(?:-[abc])?|H32F8[01]00Q|H39F8000Q|F43H8000K|U43H8000E|F(?:32|43)H8050C|U43F8000EG|F43F8000[CQ]G?|F32[FG]8000C|F43G8000C|H24H8000C|H24F8000Q|F43F8000Q-G)(?:-[AbcfedH])?|Android 8(?:[\\d.]*);(?: [\\w-]+;)? A240|android 10(?:[\\d.]*);(?: [\\w-]+;)? (?:B[23]1|B38|B1[87]|K28|K[34]1)|android 9(?:[\\d.]*);(?: [\\w-]+;)? (?:K18|K21|B11)|Android 11(?:[\\d.]*);(?: [\\w-]+;)? (?:D[12]1|T21|K[345]1|K[342]8|K61|C3[78]|B28|B27|H28)|43UCY[123](?:-[GB])?|32FCY[12]|U43H8050EG|H32H8051C-G|H32H8050CG|65UCY(?:1-[GB]|3)|55UCY1-[BG]|50UCY[12]-G|75UCY1-G|40FCY1|43FCY[12]|24HEY1|55UCY1|U5[05]E9100Q|H24F8000C|H3218000K|U5[05]F8000QG?|U50H8050EG|H32I8000K|U65G8000Q|U43G8100QG|U50F8000EG?|F40H8000E|Android 11(?:[\\d.]*);(?: [\\w-]+;)? P11)(?:[);/ ]|$)",
  pat! "(?i)(?:DEXP_)?(ML450|MS[56]50|ES750|XL150|ES1050)(?:[);/ ]|$)",
  pat! "(?i)IxionES250(?:[);/ ]|$)",
  pat! "(?i)IxionML4\\.7(?:[);/ ]|$)",
  pat! "(?i)Ixion[_ ]([^;/]+)(?: Build|\\))",
  pat! "(?i)M150Storm(?:[);/ ]|$)",
  pat! "(?i)M445(?:[);/ ]|$)",
  pat! "(?i)AL250(?:[);/ ]|$)",
  pat! "(?i)AL350(?:[);/ ]|$)",
  pat! "(?i)AS155(?:[);/ ]|$)",
  pat! "(?i)AS260(?:[);/ ]|$)",
  pat! "(?i)AS360(?:[);/ ]|$)",
  pat! "(?i)Ursus[ _]([^;/)]+)(?: Build|[);])",
  pat! "(?i)(K[23456]1|K[234]8|[KB]18|B[23]1|B[12]7|B[23]8|[BD]11|D21|T21|C3[78]|P11)(?:[);/ ]|$)",
  pat! "(?i)(VA[21]10|VA170|E210|R1[18]0|Q110|M[12]10|N280i|P380i?|P[345]10|S2[89]0|S3[78]0|S[456]70|H[12]10|H[123]70|H[34]10|L1[178]0|L2[17]0|N[13]80i|N[234]10|E1[178]0|Q[123]10|Q[12]80|EX111|N[35]70|L3[17]0i|L470|S[127]70i|S270|S110|S169|S770|S180i?|M170)(?:[);/ ]|$)",
  pat! "(?i)(H28)(?:[);/ ]|$)",
  pat! "(?i)(G450)[ _](2021)",
  pat! "(?i)(B260|B245|A440|A[345]55|B450|B340|B35[05]|BL155|BL160|A160|A[23]40|A350|T155|Z[1-4]55|G25[035]|G355|Z250|G450|G550|G660)(?:[);/ ]|$)",
  pat! "(?i)SENIOR(?:[);/ ]|$)",
  pat! "(?i)DEXP[_ ]Freya",
  pat! "(?i)([HFU]\\d{2}[A-Z]\\d{4}[A-Z]{1,2}|AL-2020|43UCY[12]-[GB]|43UCY[13]|43FCY[12]|40FCY1|24HEY1|32FCY[12]|F32H8050C|H32F8000Q|H32[1I]8000K|H32H8051C-G|F43F8000Q-G|50UCY[12]-G|75UCY1-G|55UCY1-[BG]|65UCY(?:1-[GB]|3)|55UCY1)(?:-[AbcfedH])?(?:[);/ ]|$)",
  pat! "(?i)H135[ _]Build",
  pat! "(?i)(BL[123]50|BS155|BS160|BS[1256]50|AL[12]40|A1[45]0|GS15[035]|AS160|GL[23]55|G15[05])(?:[);/ ]|$)",
  pat! "(?i)DEXP[ _]([^;/]+) Build",
  pat! "(?i)DEXP[ _]([^);/]+)(?:[);/ ]|$)",
  pat! "(?i)DEYI-?(10M18)(?:[);/ ]|$)",
  pat! "(?i)(?:JAGUAR|SATURN|TIGER|PUMA)-0\\dC?(?:[);/ ]|$)",
  pat! "(?i)SATURN-(02C?)",
  pat! "(?i)(?:DG101HSTB|DG101TBIPS)(?:[);/ ]|$)",
  pat! "(?i)DG101TBIPS(?:[);/ ]|$)",
  pat! "(?i)DG101HSTB(?:[);/ ]|$)",
  pat! "(?i)X8ULTRA(?:[);/ ]|$)",
  pat! "(?i)DIGICOM[_ ]",
  pat! "(?i)DIGICOM[_ ](A10_LTE)(?:[);/ ]|$)",
  pat! "(?i)Digicom[_ ]DTOK",
  pat! "(?i)DIGIFORS (400)(?:[);/ ]|$)",
  pat! "(?i)DIJITSU_|LGE; [0-9]{2}DW[0-9]\\d*;|(?:DCT 90)(?:[);/ ]|$)",
  pat! "(?i)DIJITSU[_ ]Smart[_ ]A11s",
  pat! "(?i)LGE; ([0-9]{2}DW\\d*);",
  pat! "(?i)(8800i)(?:[);/ ]|$)",
  pat! "(?i)DINGDING[ _-](SK\\d)(?:[);/ ]|$)",
  pat! "(?i)(?:WTCELERO5G|Celero(?:3[ _])?5G\\+?|SN339D)(?:[);/ ]|$)",
  pat! "(?i)Celero5G\\+",
  pat! "(?i)Celero3 5G\\+",
  pat! "(?i)WTCELERO5G|Celero5G",
  pat! "(?i)DIXON_|(?:ACK1010|KT5512|HK7-3502|DN6015|DFM48|TS-M105G-1|TS_M103A|TS-M704F-1)(?:[);/ ]|$)",
  pat! "(?i)(ACK1010|KT5512|DFM48)",
  pat! "(?i)TS-(M105G|M704F)-1",
  pat! "(?i)DIXON_XK1_3G(?:[);/ ]|$)",
  pat! "(?i)Smartphone[ _]DL|DL_Horizon_Selfie|Tablet_DL_\\d{4}|Smartphone[_ ](?:YZU[_ ]DS53)",
  pat! "(?i)Smartphone[_ ]YZU[_ ]DS53",
  pat! "(?i)DL[_ ]Horizon[ _]H8",
  pat! "(?i)Tablet_DL_(\\d{4})",
  pat! "(?i)(?:DMOAO_)?(?:D[23]_EEA)(?:[);/ ]|$)",
  pat! "(?i)(?:DMOAO_)?(D[23])_EEA(?:[);/ ]|$)",
  pat! "(?i)(?:DNS|AirTab)[ _-]([^;/)]+)|(?:S4505M|S4004M|SD01M)(?:[);/ ]|$)",
  pat! "(?i)(?:DNS[-_]DNS[-_])?S3504",
  pat! "(?i)(?:DNS[_ ])?(S4505M|S4004M|SD01M|S4502|S4003|S4003)(?:[);/ ]|$)",
  pat! "(?i)S-4003(?:[);/ ]|$)",
  pat! "(?i)AirTab[ _-]([^;/]+)(?: Build|[);])",
  pat! "(?i)DNS[ _-]([^;/]+)(?: Build|[);])",
  pat! "(?i)(Aloha_5G)(?:[);/ ]|$)",
  pat! "(?i)(?:DPA_ZETA|DPA H3)(?:[);/ ]|$)",
  pat! "(?i)DPA (H3)",
  pat! "(?i)DRAGON[_ ](OTT)",
  pat! "(?i)(DSCS9)(?:[);/ ]|$)",
  pat! "(?i)(RD86QE)(?:[);/ ]|$)",
  pat! "(?i)DUDU(\\d)",
  pat! "(?i)DUNNS[ _]|DunnsExecutive",
  pat! "(?i)DUNNS[ _](Slinger)(?:[);/ ]|$)",
  pat! "(?i)DUNNS[ _]?(?:MOBILE[ _])?(703GDC|AT1001|Executive)(?:[);/ ]|$)",
  pat! "(?i)Daewoo|(DTA-07IDRF)(?:[);/ ]|$)",
  pat! "(?i)(DTA-07IDRF)(?:[);/ ]|$)",
  pat! "(?i)Daewoo (Android TV 638)(?:[);/ ]|$)",
  pat! "(?i)Daewoo, ?([a-z0-9_ -]+), ?(?:wired|wireless)",
  pat! "(?i)Dslide|Konnect_?(?:402|50[246]|556|60[1278])|GEODROID_A5|Dbook[_ ]110",
  pat! "(?i)Konnect[_ ]?(402|50[246]|556|60[1278])",
  pat! "(?i)Dbook[_ ](110)",
  pat! "(?i)Dslide[ _]?([^;/)]+)(?: Build|[);])",
  pat! "(?i)(?:Signature-S8|Monster 4GXX|AMAZE AX-50 Advance)(?:[);/ ]|$)",
  pat! "(?i)(Signature-S8)",
  pat! "(?i)(DM-B50104)(?:[);/ ]|$)",
  pat! "(?i)(?:MEMOR )([12]0|1)(?:[);/ ]|$)",
  pat! "(?i)(K908H4G)(?:[);/ ]|$)",
  pat! "(?i)(?:DATANG[ _-])+([^;/]+) Build",
  pat! "(?i)(?:DATANG[ _-])+([^;/)]+)(?:[;/)]|$)",
  pat! "(?i)DW-[A-Z0-9]{5}(?:[);/ ]|$)",
  pat! "(?i)(DW-PS3G5)(?:[);/ ]|$)",
  pat! "(?i)DAWLANCE[ _]",
  pat! "(?i)DBTEL(?:[\\-/])?([a-z0-9]+)",
  pat! "(?i)DS-(?:BD[123]|CR1|CL[23] Pro|X1|CL[234] Lite|CL[1-4])(?:[);/ ]|$)",
  pat! "(?i)DS-CL([23]) Pro",
  pat! "(?i)DS-CL([234]) Lite",
  pat! "(?i)DS-CL([234])",
  pat! "(?i)DS-BD([23])",
  pat! "(?i)DS-(X1)",
  pat! "(?i)DeWalt (MD501)(?:[);/ ]|$)",
  pat! "(?i)Dell[^a-z]|Venue|XCD35|Latitude E?\\d{4}|Inspiron N?\\d{4}|Inspiron 13|Vostro (?:3546|14-3468)",
  pat! "(?i)Venue ((?:10|[78]) [0-9]{4}|[78] HSPA\\+)",
  pat! "(?i)(?:Dell )?Venue(?: Build|[);])",
  pat! "(?i)Dell; Venue Pro",
  pat! "(?i)(OptiPlex (?:3050|7010))",
  pat! "(?i)Vostro (3546|14-3468)",
  pat! "(?i)Chromebook (\\d{2} \\(\\d{4}\\))",
  pat! "(?i)Venue7 (3740)",
  pat! "(?i)(?:Dell )?(Streak|Venue) ?([^/;]*) Build"]

/-- `__dr_re`, from item 2000 on (device_repo.go:20336-20585). -/
def drRe_8 : List (List Chunk) := [
  pat! "(?i)(?:Dell Inc\\./)?(XPS 13 9360|Latitude (?:7480|7390|E4310)|Inspiron N?\\d{4}|Inspiron 13-\\d{4})(?:[);/ ]|$)",
  pat! "(?i)Dell; ((?:Streak|Venue)[^;/\\)]*)",
  pat! "(?i)Dell; ([^;/\\)]+)",
  pat! "(?i)Dell[ _-]([^/;]+) Build",
  pat! "(?i)(DT0704K08|DT070[25]W08)(?:[);/ ]|$)",
  pat! "(?i)(?:TAQ_10[4G]|TA[CDQ]-[0-9]+)|P(?:.+)TAQ-(?:[0-9]+)|SDQ[_-](?:550[24]4L|52001G|50002G|57004L)",
  pat! "(?i)TAQ_(10[4G])",
  pat! "(?i)P(?:.+)TAQ-(10213GMK2|10172MK3|10242MK2|70242MK2|[0-9]+)(?:[);/ ]|$)",
  pat! "(?i)(TA[CDQ]-[0-9]+)",
  pat! "(?i)SDQ[_-](550[24]4L|52001G|50002G|57004L)",
  pat! "(?i)Desay[ _-]?([^;/)]+)(?: Build|[;)])",
  pat! "(?i)Desay[ _-]?([^;/)]+)",
  pat! "(?i)Dialog ?([^;/]+)(?: Build|[;)])|(?:M50E-1A)(?:[);/ ]|$)",
  pat! "(?i)(M50E-1A)",
  pat! "(?i)Dialog ?([^;/]+)(?: Build|[;)])",
  pat! "(?i)DICAM-([a-z0-9]+)",
  pat! "(?i)Digi[ _]([^);/]+)(?:[);/ ]|$)",
  pat! "(?i)DIGICEL|(?:DL3(?:PlusPro)?|DL501)(?:[);/ ]|$)",
  pat! "(?i)DL3(?:[);/ ]|$)",
  pat! "(?i)DL(755|501)",
  pat! "(?i)DIGICEL[ _]([^/);]+)(?: Build|[;)])",
  pat! "(?i)(?:DS502|DS6018|DS6261)(?:[);/ ]|$)",
  pat! "(?i)(DS502|DS6018|DS6261)(?:[);/ ]|$)",
  pat! "(?i)DIGIHOME, ([a-z0-9_ -]+), (?:wired|wireless)",
  pat! "(?i)(?:DL721-RB|DL(?:1016|1023|1025GH|1036|900[23]|[78]006|1008M|718M|703QR|702Q|5[05]03QL|1022QR|1010Q)|Compumax Blue)(?:[);/ ]|$)",
  pat! "(?i)(DL5[05]03QL)",
  pat! "(?i)DL(1010Q|1016|1025GH|1022QR|1023|1036|900[23]|[78]006|721-RB|718M|70[23]QR?)",
  pat! "(?i)(Compumax Blue)",
  pat! "(?i)Digit_|Digit4G|Digit(?:4G|play1|next_Ultra)|DIGIT (?:INFINITY|Glory1)",
  pat! "(?i)Digitplay1(?:[);/ ]|$)",
  pat! "(?i)Digitnext_Ultra(?:[);/ ]|$)",
  pat! "(?i)Glory1(?:[);/ ]|$)",
  pat! "(?i)INFINITY MAX(?:[);/ ]|$)",
  pat! "(?i)INFINITY(?:[);/ ]|$)",
  pat! "(?i)Energy Max(?:[);/ ]|$)",
  pat! "(?i)Digit_Digit4G[_-](Bold|Defender|Elite|Music|Power|Shine|Star)_4G(?:[);/ ]|$)",
  pat! "(?i)Digit_Digit4GLite_4G(?:[);/ ]|$)",
  pat! "(?i)Digit_Digit4GPowerMAX_4G(?:[);/ ]|$)",
  pat! "(?i)Digit4G[ _]E([234])[ _]pro(?:[);/ ]|$)",
  pat! "(?i)Digit4G[ -](Energy|Pro)",
  pat! "(?i)Digma[_ ]([^;/)]+)(?: Build|[;)])|iD[sr]Q\\d+|DiMagic|HIT HT707[10]MG|CITI (?:7 E401 4G|8 E400 4G|ATL 4G|Kids|Octa [178]0|1902 3G|10 E402|Z530 3G|13 X703 4G)|(CITI[_ ](?:[A-Z0-9]+)[_ ][34]G)[ _][TC][ST](?:[0-9]{4}[PM][LG])|HIT 4G|HT7074ML|IDX5|(iDx10|iDx7)|MVM900H(?:WZ|C)|MVM908HCZ|(iDxD8 3G|iDxD10 3G|iDrQ10 3G|iDxD[45]|iDxQ5|iD[nx]D7(?:[_ ]3G)?)|PS604M|PT452E|Linx.+ [34]G L[TS][0-9]{4}[PM][GL]|Linx PS474S|PS1043MG|HT7071MG|HT5035PG|HT4039PG|NS6902QL|NS9797MG|TS7854M|TS1012E 3G|TT1004PG|TT702[045]MG|TT1002MG|TT7026MW|WS825[123]PL|VRL42|((?:Optima(?: Kids 7)?|Platina|Plane)[ _](?:[EM])?(?:[0-9\\.ST]+|Prime)(?:[ _][43]G)?)|(VOX[ _](?:[0-9\\.A-Z]+)[_ ][43]G)|DM-LED(?:5[05]UBB3[13]|32SBB33|43UBB3[13]|32SR21|4[03]SBB33|(?:32|40)SBB3[125]|43SR2[23]|42SR24|24SR20|55UR31|43SBB31|24SBB31|65UBB33)|RS1248PL|RS1253PL|RS1249PL|RS1267PL|WS125[01]PL|WS1262RW|HS1002PL|TS1292PL|HS100[134]PL|TS8289PL|Kids_8280C_WS8252PL|HS101[012]PL|DA6B8P01|TA3E0P01|TA2D0P01|TA1C8M01|TA2D0P02|TA3E[02]M01|TA2D0M01|TA3E1M01|TA3D1M01|TA3E1P02|TA2D1M01|TA2D1P01|TA3D(?:1P01|0P0[12]|0M01)|TA3E1P01|TA3E0P02|TA2D5P01|DA1C0P01|MS100[1-3]PL|TAXX5P0X",
  pat! "(?i)HIT(?: 3G)? HT707[10]MG",
  pat! "(?i)K10 (DA1C0P01)",
  pat! "(?i)(TA3E0M01|TA2D0M01|TA3D0M01)",
  pat! "(?i)(TAXX5P0X|TA2D5P02)",
  pat! "(?i)(TA3E1P02)",
  pat! "(?i)(TA3E2M01)",
  pat! "(?i)(TA3D0P01|TA3E0P01|TA2D0P01)",
  pat! "(?i)(TA3[DE]1M01|TA2D1M01)",
  pat! "(?i)(TA1C8M01)",
  pat! "(?i)(TA3D0P02|TA3E0P02)",
  pat! "(?i)(TA2D5P01)",
  pat! "(?i)(TA3E1P01|TA3D1P01|TA2D1P01)",
  pat! "(?i)(TA2D0P02)",
  pat! "(?i)(VOX[ _](?:[0-9\\.A-Z]+)[_ ][43]G)",
  pat! "(?i)Linx ([A-Z][0-9]{3}) 3G (?:LT4028PG|LS4019PG|LT4001PG|LT5001PG|LT4038PG|LT5037MG|LT4030PG)",
  pat! "(?i)(Linx PS474S)",
  pat! "(?i)(CITI Z530 3G)",
  pat! "(?i)(CITI [A-Z0-9]+ [34]G) C[ST](?:606[32]ML|4024PG|5009PL|5021ML|502[56]PL)",
  pat! "(?i)MS100[123]PL",
  pat! "(?i)HIT 18 HS101[012]PL",
  pat! "(?i)Pro STAR 14|AS8001PL",
  pat! "(?i)HS100[13]PL",
  pat! "(?i)MVM900H(?:WZ|C)",
  pat! "(?i)(iD(?:xD10|rQ10|xD7)[_ ]3G)",
  pat! "(?i)(iDx10|iDx7)",
  pat! "(?i)(iDxD[45]|iDxQ5)",
  pat! "(?i)PRO (1[46]00E 4G)",
  pat! "(?i)DIGMA[_ ]IDSD",
  pat! "(?i)CITI[_ ](1902 3G|Kids(?:[_ ](?:8[01]|10))?|8527_4G|8269C 3G|Octa [178]0|10 E402 4G|8 E400 4G|7 E401 4G|13 X703 4G|131[23]C 4G|8443E 4G|1314C 4G|1421D 4G)",
  pat! "(?i)(?:Kids_8280C_)?WS8252PL",
  pat! "(?i)(CITI[ _](?:[A-Z0-9]+)[ _][34]G)[ _][TC][ST](?:106[24]ML|111[46]ML|1115MG|1117PG|1207MG|1210MG|3001ML|500[67]PG|7052PG|706[567]MG|7097MG|720[48]MG|820[69]MG|11[459]4MG|1195MG|1196ML|3001ML|8152ML|1050PL|709[68]PL|7113PL|7193MG|7216MG|8205PG|7203MG|8143MG|7153MG|7141MG|7140ML|8268PL)",
  pat! "(?i)(iDnD7)",
  pat! "(?i)Optima ([0-9]+ [AXZE][0-9]+[SC]?) ([43])G",
  pat! "(?i)Optima ([0-9]+ A500S) 3G",
  pat! "(?i)iD([sr])Q(\\d+)[_ ]3G",
  pat! "(?i)iD([sr])Q(\\d+)",
  pat! "(?i)((?:Optima|Platina|Plane)[ _](?:[EM])?(?:[0-9\\.BSTNMEVCD]+|Prime(?:[ _][345])?)(?:[ _][43]G)?)",
  pat! "(?i)Digma[_ ]([^;/]+) Build",
  pat! "(?i)DiMagic Cube ([^;/)]+)(?: Build|[;)])",
  pat! "(?i)VRL42(?:[);/ ]|$)",
  pat! "(?i)DM-LED(\\d+(?:[SU]R|[SU]BB)\\d+)(?:[);/ ]|$)",
  pat! "(?i)Dynalink TV BOX(?:[);/ ]|$)",
  pat! "(?i)DX_TA_?(7001|SL83)(?:[);/ ]|$)",
  pat! "(?i)(?:MARVEL|FROZEN|Toy_story)(?:[);/ ]|$)",
  pat! "(?i)(MARVEL|FROZEN)",
  pat! "(?i)(M1092R(?:-[12]|V[45])?)(?:[);/ ]|$)",
  pat! "(?i)(QC-(?:703GN|704GA|803GN|1013G|7BHD)|QC7704GM|T10K_Plus)(?:[);/ ]|$)",
  pat! "(?i)DiverMax SpeedBox 3 SB1800(?:[);/ ]|$)",
  pat! "(?i)(?:Divisat|X-MEDIA|DVS X3|OPTIMA_T-II|J-LINK II)(?:[);/ ]|$)",
  pat! "(?i)(?:DVS )?(J-Link|X3)(?:[);/ ]|$)",
  pat! "(?i)X-MEDIA(?:[);/ ]|$)",
  pat! "(?i)OPTIMA_T-II(?:[);/ ]|$)",
  pat! "(?i)DoCoMo|\\;FOMA|KGT/1\\.0",
  pat! "(?i)DoCoMo/.+MST.+(SH2101V)",
  pat! "(?i)DoCoMo/[12]\\.0[/ ]([a-z0-9]+)",
  pat! "(?i)([a-z0-9]+)(?:_W)?\\;FOMA",
  pat! "(?i)KGT/1\\.0 ([a-z0-9]+)",
  pat! "(?i)(24DHS54|32GHS5[67]|40KFS57|32KHS57|43KUS65|24[KG]HS57|24GHS55|50KUS65|40GHS57|43GUS65|55KUS65|65KUS65|42GFS56)(?:[);/ ]|$)",
  pat! "(?i)Dolamee[_ -](D[56])(?:[);/ ]|$)",
  pat! "(?i)(Movix Pro(?: Voice)?|Movix Go)(?:[);/ ]|$)",
  pat! "(?i)DOOGEE[/ _-]|Valencia2_Y100(?:_?(?:pro|plus))?|Y100_Plus|X5max(?:[_ ]PRO)?|Shoot_[12]|x5_doogee|(KISSME|BIGBOY|COLLO[23]?|DAGGER|DISCOVERY2?|FIND|HOTWIND|LATTE|MAX|MINT|MOON|PIXELS|RAINBOX|TURBO|VALENCIA|VOYAGER2?|TITANS2?)[ -_](DG[0-9]+C?)(?:[);/ ]|$)|(?:BL12000|BL5500[_ ]Lite| Y6C|X9 Mini|LEO_DG280|Y9Plus|Y8 Plus|Hitman_DG850|S(?:4[01]|[568]8|9[05678]|59|61|8[69])Pro|X9[567]Pro|S[478]0Lite|S88Plus|BL[579]000|N[24]0Pro| S118|S90C|Ibiza_F2|S55_Lite|T5_Lite|S60 ?Lite|Iron-bone DG750|X10S|X[569]0L|MIX2|Y6 Max|Y6_Piano(?:_black)?|S100Pro|X[679]pro|V20Pro|V40 Pro|S96GT|android 10(?:[\\d.]*);(?: [\\w-]+;)? (?:S59|S35|X95i?|X93|N30)|android 12(?:[\\d.]*);(?: [\\w-]+;)? (?:S98|S61|S89|V Max|S100|V30T?|S51)|V Max Plus|Y7Plus|S35T|V31GT|Smini|T[23]0Ultra|T10E|[TV]20S|V30Pro|android 14(?:[\\d.]*);(?: [\\w-]+;)? (?:N55|Fire 6)|android 13(?:[\\d.]*);(?: [\\w-]+;)? (?:R[12]0)|android 15(?:[\\d.]*);(?: [\\w-]+;)? (?:Fire 3(?: Pro| Ultra)?)|Android 9(?:[\\d.]*);(?: [\\w-]+;)? (?:N100|N20|Y8|S95)|S41T|N50S|D60 Pro|DK10|Turbo_mini_F1|Y100X|T30Pro|T10S|T10Plus|T10Pro|T20Mini|S41 Max|V Max S|S41 Plus|N55 Pro|N55 Plus|S punk|S cyber|Blade20(?: (?:Turbo|Pro|Max|Play))?|Blade GT|Blade10(?: Ultra|Pro)?|V Max (?:Pro|Play)|T30 Max|S200|S200 X|Note 5[89]|Note56 Plus|Note58 Pro|Note59 Pro\\+|S119|U10 Kid|Fire 7|Fire 5 Pro)(?:[);/ ]|$)",
  pat! "(?i)T([13]0)Pro(?:[);/ ]|$)",
  pat! "(?i)R([12]0)(?:[);/ ]|$)",
  pat! "(?i)T([12]0)S(?:[);/ ]|$)",
  pat! "(?i)T10E(?:[);/ ]|$)",
  pat! "(?i)T10Plus(?:[);/ ]|$)",
  pat! "(?i)T20Mini Kid(?:[);/ ]|$)",
  pat! "(?i)T([23]0)Ultra(?:[);/ ]|$)",
  pat! "(?i)T20Mini ?Pro",
  pat! "(?i)Blade([12]0) Ultra",
  pat! "(?i)Blade([12]0) Max",
  pat! "(?i)Blade([12]0)",
  pat! "(?i)Fire ([35]) Pro",
  pat! "(?i)Fire ([36]) Max",
  pat! "(?i)Fire ([367])",
  pat! "(?i)(?:Valencia2_)?Y100_Plus(?:[);/ ]|$)",
  pat! "(?i)Valencia2[_ ]Y100pro",
  pat! "(?i)Valencia2_Y100(?:[);/ ]|$)",
  pat! "(?i)LEO_(DG280)",
  pat! "(?i)Iron-bone (DG750)",
  pat! "(?i)(X95i?|BL[579]000|S90C|X10S|X[569]0L|X93|V30T?|V31GT|V20S|DK10|S200 X|S119)(?:[);/ ]|$)",
  pat! "(?i)X(9[567])Pro",
  pat! "(?i)V30Pro(?:[);/ ]|$)",
  pat! "(?i)N([24]0|55) ?Pro",
  pat! "(?i)Note59 Pro\\+",
  pat! "(?i)Note (5[89])",
  pat! "(?i)N(50)S(?:[);/ ]|$)",
  pat! "(?i)BL5500[_ ]Lite",
  pat! "(?i)S([568]8|9[05678]|59|61|4[01]|8[69]|[12]00|118) ?Pro",
  pat! "(?i)S(88|41|200) ?Plus",
  pat! "(?i)S([4-8]0|55)[_ ]?Lite",
  pat! "(?i)Doogee X5MP|x5MaxPro",
  pat! "(?i)Shoot_([12])",
  pat! "(?i)(?:Doogee[_ ])?X([679])[_ ]?pro",
  pat! "(?i)Y([89]) ?Plus(?:[);/ ]|$)",
  pat! "(?i)(S5[19]|S35T?|S9[58]|S89|Y8|Y6C|S61|N[23]0|[NS]100|S118|S41T|N55|S200)(?:[);/ ]|$)",
  pat! "(?i)(X5max(?:[_ ]PRO)?)",
  pat! "(?i)(?:DOOGEE[ _-])?(BIGBOY|COLLO[23]?|DAGGER|DISCOVERY2?|FIND|HOTWIND|LATTE|MAX|MINT|MOON|PIXELS|RAINBOX|TURBO|VALENCIA|Valencia2_Y100pro|VOYAGER2?|TITANS2?)[ -_](DG[0-9]+C?)(?:[);/ ]|$)",
  pat! "(?i)DOOGEE[ _-]([^);/]+) Build",
  pat! "(?i)DOOGEE[ _-]([^);/]+)(?:[);/ ]|$)",
  pat! "(?i)MIX2(?:[);/ ]|$)",
  pat! "(?i)Doopro P3(?:[);/ ]|$)",
  pat! "(?i)(?:Doov-)?Doov[ _]| (?:20200308|20190808)(?:[);/ ]|$)",
  pat! "(?i)20200308(?:[);/ ]|$)",
  pat! "(?i)20190808(?:[);/ ]|$)",
  pat! "(?i)(?:Doov-)?Doov[ _]([^;/]+) Build",
  pat! "(?i)(?:Doov-)?Doov[ _]([^);/]+)(?:[);/ ]|$)",
  pat! "(?i)Dopod(?: )?([a-z0-9]+)",
  pat! "(?i)Doppio[ _]",
  pat! "(?i)Doppio DP355(?:[);/ ]|$)",
  pat! "(?i)Doppio_TEXTER_3G(?:[);/ ]|$)",
  pat! "(?i)Doppio ([0-9a-z]+)",
  pat! "(?i)(65DYW60)(?:[);/ ]|$)",
  pat! "(?i)Doro|DSB-02[23]0",
  pat! "(?i)DSB-0230(?:[);/ ]|$)",
  pat! "(?i)Doro[_ ]8020x(?:[);/ ]|$)",
  pat! "(?i)DSB-0220(?:[);/ ]|$)",
  pat! "(?i)Doro[ _-]?([^;/)]+)(?: Build|[;)])",
  pat! "(?i)Doro[ _-]([0-9a-z]+)",
  pat! "(?i)(?:Notepad[_ ](?:K10|102|Y80)|MAX 10|T12M_EEA|Y88X__PLUS)(?:[);/ ]|$)",
  pat! "(?i)Notepad[_ ](K10|102|Y80)",
  pat! "(?i)DREAMSTAR([^/;)]+)(?: Build|[);])",
  pat! "(?i)Sens 5(?:[);/ ]|$)",
  pat! "(?i)Sens 5(?:[);/ ]|$)",
  pat! "(?i)(i96 Pro)(?:[);/ ]|$)",
  pat! "(?i)DROXIO (C40|A47|B45|KENTIA)(?:[);/ ]|$)",
  pat! "(?i)Dtac[_ ]?Phone[_ ]?([^/;)]+)(?: Build|[);])",
  pat! "(?i)DuneHD|SOLO 4K(?:[);/ ]|$)",
  pat! "(?i)SOLO 4K(?:[);/ ]|$)",
  pat! "(?i)DuneHD/\\d\\.\\d \\([a-z]+__([a-z0-9_-]+);",
  pat! "(?i)DuneHD/\\d\\.\\d \\(([a-z0-9_-]+);",
  pat! "(?i)(Diamond R8)(?:[);/ ]|$)",
  pat! "(?i)Duubee[ _]([^/;)]+)(?: Build|[);])",
  pat! "(?i)Sternenschein (G-\\d{2})(?:[);/ ]|$)",
  pat! "(?i)DYON[;, ]",
  pat! "(?i)E-Boda|Eclipse_(?:G400M|G500)|Revo R77 GPS",
  pat! "(?i)E-Boda ((?:Revo|Izzycomm(?: Z80)?|Essential|Intelligence|Supreme)[^/);]+)(?: Build|[;)])",
  pat! "(?i)Eclipse_(G400M|G500)",
  pat! "(?i)E-Boda ([^/);]+)(?: Build|[;)])",
  pat! "(?i)(?:CT9716(?:-B)?)(?:[);/ ]|$)",
  pat! "(?i)CT9716(?:[);/ ]|$)",
  pat! "(?i)CT9716-B(?:[);/ ]|$)",
  pat! "(?i)(?:A5SLIM)(?:[);/ ]|$)",
  pat! "(?i)E-tel[-_ ](?:i2[45]0|i300|i7c|N[67]|Q4|O9)",
  pat! "(?i)E-tel[-_ ]i(7c|\\d+)",
  pat! "(?i)E-tel[-_ ]N([67])",
  pat! "(?i)E-tel[-_ ]O9",
  pat! "(?i)E-tel[-_ ]Q4",
  pat! "(?i)EBEN[ _]([^/;)]+)(?: Build|[);])",
  pat! "(?i)EBEST[ _-]?([^;/)]+) Build",
  pat! "(?i)EBEST[ _-]?([^;/)]+)(?:[);/ ]|$)",
  pat! "(?i)(EX-32HS01[67]B|EX-32HS006B|EX-39HS004B|EX-50US003B|EX-60US001B|EX-40FS001W)",
  pat! "(?i)ECOO[ _]E0[45]",
  pat! "(?i)ECOO[ _]E04[ _]3GB\\+|Ecoo E04_PLUS",
  pat! "(?i)ECOO[ _]E04[ _]3GB",
  pat! "(?i)ECOO[ _](E0[45])",
  pat! "(?i)(?:TA10CA3|TM105A?|TR10[CR]S1|TF10EA2|TR10CS2)(?:[);/ ]|$)",
  pat! "(?i)TA10CA3(?:[);/ ]|$)",
  pat! "(?i)(TR10[CR]S1|TF10EA2|TR10CS2)(?:[);/ ]|$)",
  pat! "(?i)TM105A(?:[);/ ]|$)",
  pat! "(?i)TM105(?:[);/ ]|$)",
  pat! "(?i)(?:Harrier(?: Tab)?|Hawk|Rook)[_ ]from[_ ]EE",
  pat! "(?i)(Harrier Tab)[_ ]from[_ ]EE",
  pat! "(?i)Rook[_ ]from[_ ]EE",
  pat! "(?i)(Harrier|Hawk)[_ ]from[_ ]EE",
  pat! "(?i)EFT_(H[234])(?:[);/ ]|$)",
  pat! "(?i)(EGO1003)(?:[);/ ]|$)",
  pat! "(?i)EKO|Star (?:\\d\\.\\d) (?:G65|G5[05]|G40)|(?:K55USW)(?:[);/ ]|$)",
  pat! "(?i)(K55USW)",
  pat! "(?i)Star (\\d\\.\\d) (G65|G5[05]|G40)",
  pat! "(?i)EKO[ _-]?([^;/)]+) Build",
  pat! "(?i)EKO[ _-]?([^;/)]+)(?:[);/ ]|$)",
  pat! "(?i)EK-(?:5040|5336|5540|5937|6020|8680|MII|T7020)",
  pat! "(?i)EK-(MII|T7020)",
  pat! "(?i)EK-(5040|5336|5540|5937|6020|8680)",
  pat! "(?i)ELARI|(?:KidPhone4G)(?:[);/ ]|$)",
  pat! "(?i)ELE-GATE(?:[);/ ]|$)",
  pat! "(?i)(M1045W|PIXBA2019)(?:[);/ ]|$)",
  pat! "(?i)(?:android 8(?:[\\d.]*);(?: [\\w-]+;)? E4Pro|VT8216)(?:[);/ ]|$)",
  pat! "(?i)(VT8216)",
  pat! "(?i)(ELT070[46]H|ELT0802H)(?:[);/ ]|$)",
  pat! "(?i)SDMC D1221(?:[);/ ]|$)",
  pat! "(?i)EUROLUX[;,)]",
  pat! "(?i)EUROLUX, ?([a-z0-9_ -]+), ?(?:wired|wireless)",
  pat! "(?i)(?:EVBOX-PLUS\\+|EVPAD-[35]S|EVPAD-PRO-MAX)(?:[);/ ]|$)",
  pat! "(?i)EVBOX-PLUS\\+",
  pat! "(?i)EVPAD-([35]S)",
  pat! "(?i)(?:OCTA T720Q|OCTA-T700M-T2)(?:[);/ ]|$)",
  pat! "(?i)(EX7SL?4|EX7X4|EX10S4|EX7W1 Plus|EX8S1)(?:[);/ ]|$)",
  pat! "(?i)(?:Tablet)?EXO_|(?:Wave[_-]i101[GLRS]|Wave[_ ]i007[BT]?|Wave i101[Hb]|Wave i007Kids)(?:[);/ ]|$)",
  pat! "(?i)Wave i007Kids(?:[);/ ]|$)",
  pat! "(?i)(?:Tablet)?(?:EXO_)?(Wave[_-]i101[GLRS]|Wave[_ ]i007[BT]?|Wave i101[Hb])(?:[);/ ]|$)",
  pat! "(?i)EYU[ _-](T53|T7)(?:[);/ ]|$)",
  pat! "(?i)Eagle[ _](Classic Pro|Elite|Gold)(?:[);/ ]|$)",
  pat! "(?i)(EE10A|Z-F1010)",
  pat! "(?i)EasyPad|EasyPhone",
  pat! "(?i)(EasyPhone[^/;]+) Build",
  pat! "(?i)EasyPad ([^/;)]+)(?: Build|[;)])",
  pat! "(?i)ECHO[ _](HOLI|HORIZON|MAX|MOSS|NOTE|POWER|SMART|DUNE|JAVA|FUSION|PUSH|PRISM|STUDIO)|(?:HORIZON_M|Stellar [34]G|FEELING|MOON|LOOK)(?:[);/ ]|$)",
  pat! "(?i)(HORIZON_M|FEELING|MOON|LOOK)(?:[);/ ]|$)",
  pat! "(?i)STELLAR ([34])G",
  pat! "(?i)ECHO[ _](HOLI|MAX|MOSS|NOTE|POWER|SMART|DUNE|JAVA|FUSION|PUSH|PRISM|STUDIO)",
  pat! "(?i)(?:EcostarTV)(?:[);/ ]|$)",
  pat! "(?i)(Rocky_MT1)( Build|[);])",
  pat! "(?i)EDENWOOD[;,]",
  pat! "(?i)_TV_[A-Z0-9]+_([0-9]{4});",
  pat! "(?i)SmartTV;",
  pat! "(?i)Ehlel[_ ]",
  pat! "(?i)Einstein(T3)(?:[);/ ]|$)"]

/-- `__dr_re`, from item 2250 on (device_repo.go:20586-20835). -/
def drRe_9 : List (List Chunk) := [
  pat! "(?i)(?:S5[UL]S|X4UPlus|S45U)(?:[);/ ]|$)",
  pat! "(?i)(S5[UL]S|S45U)",
  pat! "(?i)Meeplus_1(?:[);/ ]|$)",
  pat! "(?i)electroneum(M1)(?:[);/ ]|$)",
  pat! "(?i)ELED-(?:4[238]S[AM]{2}RT|5[05](?:CV_)?SMART_UHD|32SMART)(?:[);/ ]|$)",
  pat! "(?i)ELED-(4[238])S[AM]{2}RT(?:[);/ ]|$)",
  pat! "(?i)ELED-55CV_SMART_UHD(?:[);/ ]|$)",
  pat! "(?i)ELED-(50)SMART_UHD(?:[);/ ]|$)",
  pat! "(?i)ELED-(32)SMART(?:[);/ ]|$)",
  pat! "(?i)(?:smarttv_)?AFTRS",
  pat! "(?i)(?:TAB(?:101|728)[ _]3G|TAB7(?:[03]8|16|40|3[30])|STB0819)(?:[);/ ]|$)",
  pat! "(?i)(STB0819)",
  pat! "(?i)(TAB(?:101|728)[ _]3G|TAB7(?:[03]8|16|40|3[30]))",
  pat! "(?i)Elephone|Vowney(?: Lite)?|P6000( ?Pro| ?Plus|\\+| ?02| 5.0 01)?|Soldier|C1_Max|(?:Trunk 1|P8_3D|P8_Max|P8_Mini|A6_mini|P9000(?:_Lite)?|Android 9(?:[\\d.]*);(?: [\\w-]+;)? PX|PX_Pro| U3H|U_Pro|Android 10(?:[\\d.]*);(?: [\\w-]+;)? (?:E10_Pro|E10))(?:[);/ ]|$)",
  pat! "(?i)(?:Elephone[_ ])?Trunk(?: 1)?(?:[);/ ]|$)",
  pat! "(?i)Vowney Lite(?:[);/ ]|$)",
  pat! "(?i)Vowney(?:[);/ ]|$)",
  pat! "(?i)P6000(\\+| ?Plus)(?:[);/ ]|$)",
  pat! "(?i)P6000 02(?:[);/ ]|$)",
  pat! "(?i)P6000 5\\.0 01(?:[);/ ]|$)",
  pat! "(?i)P6000 ?Pro(?:[);/ ]|$)",
  pat! "(?i)P(\\d+)[_ ]Lite(?:[);/ ]|$)",
  pat! "(?i)Soldier(?:[);/ ]|$)",
  pat! "(?i)A6_mini(?:[);/ ]|$)",
  pat! "(?i)P8_Mini(?:[);/ ]|$)",
  pat! "(?i)(U|PX|E10)_Pro(?:[);/ ]|$)",
  pat! "(?i)U3H(?:[);/ ]|$)",
  pat! "(?i)C1_Max(?:[);/ ]|$)",
  pat! "(?i)PX(?: Build|[;)])",
  pat! "(?i)(P8_3D|P8_Max)(?:[);/ ]|$)",
  pat! "(?i)(?:Elephone[ _])?(P[7689]000|S2)(?:[);/ ]|$)",
  pat! "(?i)Elephone[ _-]([^/;]+)(?: Build|[;)])",
  pat! "(?i)(?:LUNA (V57|V55A|G58|G62|G60X)|V55C|G55 LITE)(?:[);/ ]|$)",
  pat! "(?i)(V55C)",
  pat! "(?i)(G55)[_ ]LITE",
  pat! "(?i)LUNA (V57|V55A|G58|G62|G60X)",
  pat! "(?i)(B50UHD4EKC)(?:[);/ ]|$)",
  pat! "(?i) (6CS)(?:[);/ ]|$)",
  pat! "(?i)(?:NV5(?:01|10)WAC|NV501|NV731|NV[57]10WB|NV72[01]WB|NV711WAC|NV73[01]WB)(?:[);/ ]|$)",
  pat! "(?i)NV(501|510|711)WAC(?:[);/ ]|$)",
  pat! "(?i)NV(501|731)(?:[);/ ]|$)",
  pat! "(?i)NV(\\d{3})WB(?:[);/ ]|$)",
  pat! "(?i)(EGQ101)(?:[);/ ]|$)",
  pat! "(?i)emporia[_ ]|(?:Android 9(?:[\\d.]*);(?: [\\w-]+;)? S3mini|Android 13(?:[\\d.]*);(?: [\\w-]+;)? E5mini)(?:[);/ ]|$)",
  pat! "(?i)emporia[_ ]([^/;)]+)(?: Build|[);])",
  pat! "(?i)Energizer_|Energizer[ _](?:Energy|Ultimate|Power Max|Hard ?case)|PowerMax|HARDCASEH5[05]0S|ENERGY[_ ]?(?:[45]00|400S|S[56]00|E12|E5[02]0S?)(?:[_ ](?:LTE|EU))?",
  pat! "(?i)Power ?Max ?(P[0-9]+S?)",
  pat! "(?i)ENERGY[_ ]([45]00|E520)[_ ]LTE",
  pat! "(?i)ENERGY[_ ]400S",
  pat! "(?i)ENERGY[_ ]S([56]00|550)",
  pat! "(?i)ENERGY[_ ]?(E500S|E500|E12)",
  pat! "(?i)HARD ?CASE ?(H5[057]0S|G5)",
  pat! "(?i)Energizer_(E24[12]S|E280S|E282SC|H280A|E241)(?:_(?:4G|512))?(?:[);/ ]|$)",
  pat! "(?i)ENERGY[ _-]?([^;/)]+)(?: Build|[;)])",
  pat! "(?i)Energy Phone ([^;/)]+)(?: Build|[;)])",
  pat! "(?i)Energy Tablet ([^;/)]+)(?: Build|[;)])",
  pat! "(?i)ENERGY[ _-]?([^;/]+) Build",
  pat! "(?i)(EN1007Q)plus(?:[);/ ]|$)",
  pat! "(?i)Enot[ _-](E102|J101)(?:[);/ ]|$)",
  pat! "(?i)ENT11QF12(?:[);/ ]|$)",
  pat! "(?i)(?:ClickTabDSh18)(?:[);/ ]|$)",
  pat! "(?i)(?:EP19_star|EP19)(?:[);/ ]|$)",
  pat! "(?i)(ePad 7i)(?:[);/ ]|$)",
  pat! "(?i)(K501 Plus|[ ]K5(?:0[0-4]|1[01]|03[TS]|3[456]|4[05]|73|03HD)|[ ]K60[01]|[ ]X507T|[ ]K40[56]|[ ]T700|Android 8([\\d.]*);(?: [\\w-]+;)? X400|RS550)(?:[);/ ]|$)",
  pat! "(?i)(AN-232)(?:[);/ ]|$)",
  pat! "(?i)(?:Projector|STI6110)(?:[);/ ]|$)",
  pat! "(?i)Axis(?:[);/ ]|$)",
  pat! "(?i)ERGO|(V550[_ ]Vision|B502 Basic|B504[_ ]Unit|A502[_ ]Aurum|A503[ _]Optima|Prime B400|A551 Sky 4G|A553 Power|A555 Universe|Force F500|GoTab GBT9|GoTab Gti8|F501_Magic|V551[ _]Aura|V540_Level|V570_BIG_BEN|B506[_ ]INTRO|A503-Optima|B505_Unit_4G|LE32CT5515AK)",
  pat! "(?i)B506[_ ]INTRO",
  pat! "(?i)V550[_ ]Vision",
  pat! "(?i)B504[_ ]Unit",
  pat! "(?i)V551[ _]Aura",
  pat! "(?i)(ERGO_)?A500[ _]Best",
  pat! "(?i)(ERGO_)?A550[ _]Maxx",
  pat! "(?i)A502[_ ]Aurum",
  pat! "(?i)A503[ _]Optima",
  pat! "(?i)ERGO[_ ]A556",
  pat! "(?i)ERGO[_ ]F500",
  pat! "(?i)ERGO[_ ]F501",
  pat! "(?i)ERGO[_ ]Tab[ _]Crystal[ _]Lite",
  pat! "(?i)ERGO[_ ]Tab[ _]Hero[ _]II",
  pat! "(?i)ERGO[_ ](B700)",
  pat! "(?i)(LE32CT5515AK)",
  pat! "(?i)(?:Ericsson(?:/ )?[a-z0-9]+)|(?:R380 2\\.0 WAP1\\.1)|Ericy-([a-z0-9]+)",
  pat! "(?i)Ericsson(?:/ )?([a-z0-9]+)",
  pat! "(?i)R380 2\\.0 WAP1\\.1",
  pat! "(?i)Ericy-([a-z0-9]+)",
  pat! "(?i)(24LM8002CT2|65ULES910T2SM|42FLEA73T2SM|40FLES900T2SM|42FLES901T2SM|43FLES90[0125]T2SM|42FLX9060T2|32LX9000CT|39LES80T2SM|32LX9051T2|43ULX9060T2|32LX9050T2|32LES905T2SM|55ULES92T2SM|55ULES901T2SM|55ULX9005T2|32LEA73T2SM|32LES90[24]T2SM|40FLX9000CT2|40FLES901T2SM|42FLES904T2SM|32LES90[136]T2SM)(?:[);/ ]|$)",
  pat! "(?i)PH-1(?:[);/ ]|$)",
  pat! "(?i)ESSENTIEL B[;,]|(?:Wooze[_ ]?(?:I55?|I45|X?L)|HEYOU(?:[135]|20PLUS|[1-7]0))(?:[);/ ]|$)",
  pat! "(?i)HEYOU20PLUS(?:[);/ ]|$)",
  pat! "(?i)HEYOU([135]|[1-7]0)(?:[);/ ]|$)",
  pat! "(?i)Wooze[_ ]?((?:I55?|I45|X?L))(?:[);/ ]|$)",
  pat! "(?i)ESSENTIEL B,([a-z0-9_ -]+),(?:wired|wireless)",
  pat! "(?i)Eton[ _-]?([^;/)]+) Build",
  pat! "(?i)Eton[ _-]?([^;/)]+)(?:[);/ ]|$)",
  pat! "(?i)(ETL-S(?:3520|4521|5042|5084|6022)|ETL-T(?:752G|850|882G|9[78]0))(?:[);/ ]|$)",
  pat! "(?i)(ETL-S(?:[^/); ]+))",
  pat! "(?i)(ETL-T(?:[^/); ]+))",
  pat! "(?i)(?:E65 Pro)(?:[);/ ]|$)",
  pat! "(?i)(EUTB_758G?)",
  pat! "(?i)(ET7002C-H12|ET8183GQ-HM15|ET7184GQ-B15|ET7183GQ-H16|Onyx-[13]S|T40SG?LED-A1[45])(?:[);/ ]|$)",
  pat! "(?i)Onyx-([13]S)",
  pat! "(?i)(ET8183GQ-HM15|ET7184GQ-B15|ET7183GQ-H16)",
  pat! "(?i)(T40SG?LED-A1[45])",
  pat! "(?i)EVERCOSS[ _]|(U6 PRIME|A75A\\*|AT8B|U50A_PLUS|M50 (?:MAX|STAR)|A75 MAX|M55[ABC]|M50A|R40K|R70A|7.*; (?:R70|R5C)|S55[AB]|U70[CB])(?:[);/ ]|$)",
  pat! "(?i)A75A\\*(?:[);/ ]|$)",
  pat! "(?i)(A75|M50A) MAX*(?:[);/ ]|$)",
  pat! "(?i)U50A_PLUS(?:[);/ ]|$)",
  pat! "(?i)M50 STAR(?:[);/ ]|$)",
  pat! "(?i)M50 MAX(?:[);/ ]|$)",
  pat! "(?i)(M50A|R40K|R70|R5C|S55[AB]|M55[ABC])(?:[);/ ]|$)",
  pat! "(?i)(AT8B|R70A|U70[CB])(?:[);/ ]|$)",
  pat! "(?i)EVERCOSS[ _](A7[BRLZ]|A65|A74A|A5Z)(?:[);/ ]|$)",
  pat! "(?i)(?:DC-(?:1032|121[56]|110[24]|1028|1545|70[59]|71[48]|85[56]|8015|971[45])|(?:EVERPAD )?DC-709|DC-9712-8)(?:[);/ ]|$)",
  pat! "(?i)DC-(1032|1028|121[56]|110[24]|1545|70[59]|71[48]|8015|85[56]|971[45]|9712)",
  pat! "(?i)Fine 7B(?:[);/ ]|$)",
  pat! "(?i)(32EVF5000S)(?:[);/ ]|$)",
  pat! "(?i)(E011[1346-9]|E0120)(?:[);/ ]|$)",
  pat! "(?i)(Ever(?:Allure|Glory|Shine|Miracle|Mellow|Classic|Trendy|Fancy|Vivid|Slim|Glow|Magic|Solo|Smart|Star)[^/);]*)(?: Build|[;)])|(?:E70[25]0HD|E805[01]HD|E9054HD|E8050HG|E1014HG|E7224HG|E7914HG|V5_Nano|M10\\+Max|M10 Nano|V4 Nano| V4\\+)(?:[);/ ]|$)",
  pat! "(?i)(E70[25]0HD|E805[01]HD|E9054HD|E8050HG|E7914HG|E7224HG|E1014HG)",
  pat! "(?i)(M10|V[45])[_ ]Nano",
  pat! "(?i)M10\\+Max",
  pat! "(?i)V4\\+",
  pat! "(?i)EverTrendy\\+4G",
  pat! "(?i)Ever(Shine|Allure|Glory) ?II",
  pat! "(?i)(Ever(?:Allure|Glory|Shine|Miracle|Mellow|Classic|Trendy|Fancy|Vivid|Slim|Glow|Magic|Solo|Smart|Star)[^/);]*)(?: Build|[;)])",
  pat! "(?i)Evolio|M4MAGIC",
  pat! "(?i)Evolio[ _](M6|S4 Cobalt|S5|X10|Yuppi)",
  pat! "(?i)EVOLVEO|StrongPhone",
  pat! "(?i)EVOLVEO Android Box (H[48])",
  pat! "(?i)Smart TV ([^;/]*) Build",
  pat! "(?i)EVOLVEO StrongPhone G(\\d)",
  pat! "(?i)(?:EVOLVEO[ _])?StrongPhone[ _]?Q([679])(_LTE)?",
  pat! "(?i)EVOLVEO[ _]([^;/]*) Build",
  pat! "(?i)(EVM4G3|EVM4G6|EVMFV2)(?:[);/ ]|$)",
  pat! "(?i)EVROMEDIA|Playpad[ _]|PLAY_PAD_PRO_XL|3G NOTE XL",
  pat! "(?i)(?:EX(?:29|45)i|CHAT_5\\+)(?:[);/ ]|$)",
  pat! "(?i)CHAT_5+",
  pat! "(?i)EX(29|45)i(?:[);/ ]|$)",
  pat! "(?i)(SMB-H8009)(?:[);/ ]|$)",
  pat! "(?i)Exmart[ _](K1)(?:[);/ ]|$)",
  pat! "(?i)Explay|[\\w]+-EXPLAY-FIN|ActiveD[ _]|Atlant |Informer[ _][0-9]+|CinemaTV 3G|Surfer[ _][0-9.]|Surfer7773G|sQuad[ _][0-9.]|Onliner[1-4]|RioPlay|Leader|Pulsar|Infinityll|Joy_TV|Imperium[78]|Winner[78]|Indigo|Lagoon|Tornado(?:3G)?|Onyx(?:[);/ ]|$)|android 4([\\d.]*);(?: [\\w-]+;)? Discovery.+Safari/|Party|Scream 3G|A350 TV",
  pat! "(?i)ActiveD[ _]7\\.4[ _]3G",
  pat! "(?i)Imperium([78])(?:[);/ ]|$)",
  pat! "(?i)ActiveD[ _]8\\.2[ _]3G",
  pat! "(?i)CinemaTV[ _]3G",
  pat! "(?i)Informer[ _]([0-9]+(?:[ _]3G)?)",
  pat! "(?i)Surfer[ _]([0-9.]+(?:[ _]3G)?)",
  pat! "(?i)Surfer([0-9.]+)[ _]?3G",
  pat! "(?i)sQuad[ _]([0-9.]+(?:[ _]3G)?)",
  pat! "(?i)Onliner([1-4])",
  pat! "(?i)Winner([78])",
  pat! "(?i)Discovery(?:[);/ ]|$)",
  pat! "(?i)Atlant(?:[);/ ]|$)",
  pat! "(?i)Indigo(?:[);/ ]|$)",
  pat! "(?i)Pulsar(?:[);/ ]|$)",
  pat! "(?i)Tornado(?:3G)?(?:[);/ ]|$)",
  pat! "(?i)Onyx(?:[);/ ]|$)",
  pat! "(?i)Fresh(?:[);/ ]|$)",
  pat! "(?i)Joy_TV(?:[);/ ]|$)",
  pat! "(?i)[\\w]+-EXPLAY-FIN",
  pat! "(?i)Lagoon(?:[);/ ]|$)",
  pat! "(?i)A350 TV(?:[);/ ]|$)",
  pat! "(?i)Party(?:[);/ ]|$)",
  pat! "(?i)Explay[ _-]([^;/]+)(?: Build|[;)])",
  pat! "(?i)RioPlay(?:[);/ ]|$)",
  pat! "(?i)ESP-300(?:[);/ ]|$)",
  pat! "(?i)Rock[ _]X[89]+|ROCK_X11",
  pat! "(?i)Rock[ _]X([89])\\+",
  pat! "(?i)EZIO-([a-z0-9]+)",
  pat! "(?i)EZZE-|EZ[a-z0-9]+",
  pat! "(?i)EZZE-([a-z0-9]+)",
  pat! "(?i)EZ([a-z0-9]+)",
  pat! "(?i)(?:(?:SH6[05]|SA50|SP65)_(?:2[13]|66)\\d{3}|H166|R570E|P670|LifeTabPlus|(?:SH6[05]|SA55) \\dGB/\\d{2}GB \\d{4}mAh [HG]MS)(?:[);/ ]|$)",
  pat! "(?i)SH(6[05]) 2GB",
  pat! "(?i)(H166|P670|R570E)(?:[);/ ]|$)",
  pat! "(?i)(SH6[05]|SA50|SP65)_(?:2[13]|66)\\d{3}",
  pat! "(?i)(?:Bison2021|B2021|[HR]2022|Air1 Pro| Air1| B[12] Pro|(?:B2|Air2) Ultra|Action (?:A5|15)Pro|Action 15|Raptor (?:5G|LTD)|Android 12(?:[\\d.]*);(?: [\\w-]+;)? (?:B1)|Android 1[34](?:[\\d.]*);(?: [\\w-]+;)? (?:Raptor|B2))(?:[);/ ]|$)",
  pat! "(?i)Action (A5|15)Pro",
  pat! "(?i)([HR]2022|Air1 (?:Ultra Pro|Ultra\\+?|Pro)|Air1|B[12] Pro|Air2 Ultra|Action 15)(?:[);/ ]|$)",
  pat! "(?i)(?:Bison2021|B2021)(?:[);/ ]|$)",
  pat! "(?i)(B[12])(?: Build|[;)])",
  pat! "(?i)(?:Z8PLUS|Z8POCKET|LT5216|F80s_plus|C8Finger|F80 PIABELLA|i8_ROKR|LT1[68])(?:[);/ ]|$)",
  pat! "(?i)(LT5216|LT1[68])(?:[);/ ]|$)",
  pat! "(?i)(K11[038]|D118)_EEA(?:[);/ ]|$)",
  pat! "(?i)(?:FFFTAB10a4)(?:[);/ ]|$)",
  pat! "(?i)(?:FX4423)(?:[);/ ]|$)",
  pat! "(?i)Fise_32433_3G(?:[);/ ]|$)",
  pat! "(?i)OPTIMUM (500[1-4]|5501)",
  pat! "(?i)UNICUM (1002|8S|8003)",
  pat! "(?i)(Y121-EEA)(?:[);/ ]|$)",
  pat! "(?i)(?:16M4HI105024|FMT-NM7058-02|FXT113R|176HS1050(?:232|531)|175WT1050231|175HS1050231|175FT1050241|Global3 B01|FunPad-8Max)(?:[);/ ]|$)",
  pat! "(?i)(FXT113R)",
  pat! "(?i)ConeXis (A[12]|X[12])|SP5045V",
  pat! "(?i)(?:ifive[_ ]?(?:mini[_ ][43]G?S|X2|Mini3|3|Air|Pro 2))(?:[);/ ]|$)",
  pat! "(?i)ifive[_ ]mini[_ ]([43]G?S)",
  pat! "(?i)ifive(X2|3)",
  pat! "(?i)ifive ?Air",
  pat! "(?i)(FT1000|FT800)(?:[);/ ]|$)",
  pat! "(?i)FOODO[ _-](X10)(?:[);/ ]|$)",
  pat! "(?i)FORME[ _-]",
  pat! "(?i)FORME[ _-]F520(?:[);/ ]|$)",
  pat! "(?i)FORME[ _-](A[35]7|R7S?|P6)(?:[);/ ]|$)",
  pat! "(?i)(?:android 1[23](?:[\\d.]*);(?: [\\w-]+;)? (?:F10[12])|android 1[34](?:[\\d.]*);(?: [\\w-]+;)? (?:F105|S3 Pro)|F10[167] Pro|F101 P|DT[12]|F109|F112 Pro)(?:[);/ ]|$)",
  pat! "(?i)(DT[12])(?:[);/ ]|$)",
  pat! "(?i)F(10[167]|112) Pro",
  pat! "(?i)F(10[1259])(?:[);/ ]|$)",
  pat! "(?i)FPT[_ ](X1[05]|X[39]|X50|S68 4G)(?:[);/ ]|$)",
  pat! "(?i)(FTRW100)(?:[);/ ]|$)",
  pat! "(?i)(?:Q3_EEA|Q3pro|Q10-EEA)(?:[);/ ]|$)",
  pat! "(?i)Q3_EEA(?:[);/ ]|$)",
  pat! "(?i)Q10-EEA(?:[);/ ]|$)",
  pat! "(?i)Q3pro(?:[);/ ]|$)",
  pat! "(?i)FLEET_7(?:[);/ ]|$)",
  pat! "(?i)(?:Fairphone )?(FP(?:1U?|[2345]))(?:[);/ ]|$)",
  pat! "(?i)(FX[123]00)",
  pat! "(?i)Famous|Red Royal Edition",
  pat! "(?i)Red 5\\+",
  pat! "(?i)Famous[_ ]TAB[_ ]10",
  pat! "(?i)FAN-M300H(?:[);/ ]|$)",
  pat! "(?i)Smart ?(601|550|50[59])(?:[);/ ]|$)",
  pat! "(?i)(FAST81[08])(?:[);/ ]|$)",
  pat! "(?i)(vKB011B|vKB004L)",
  pat! "(?i)FENOTI|(?:42FN6000F)(?:[);/ ]|$)",
  pat! "(?i)(?:FENOTI_)?(42FN6000F)(?:[);/ ]|$)",
  pat! "(?i)Fero[_ ]|Royale[_ ](?:[YX]2|A1)",
  pat! "(?i)Royale[_ ]([YX]2|A1)",
  pat! "(?i)Fero[ _](A4001|A450[23]|A5001|L100|Iris|Power|Mega LTE|Vibe|J1)",
  pat! "(?i)ATRIUM II F55L2|TRIO F40LT|CENTRIC S50G|EPIC F50G|Gravity X55L|Orion M50L|ULTRA M50G|UltraJ8|M405B|VIRTUE3|F55L Build|Orbit_ll|F40G2",
  pat! "(?i)(F55L)",
  pat! "(?i)(Gravity X55L|Orion M50L)",
  pat! "(?i)FIGI[_ ]|(?:Note_(?:[37]|11)_Pro|Note_(?:1C|5)|Note_1_Lite|Nopal|[MGF]two|Hola)(?:[);/ ]|$)|Android 8(?:[\\d.]*);(?: [\\w-]+;)? Fj(?: Build|[;)])",
  pat! "(?i)FIGI[_ ]P40 Max",
  pat! "(?i)FIGI[_ ]P40",
  pat! "(?i)([MGF])two",
  pat! "(?i)(FSE1020)",
  pat! "(?i)Fj(?: Build|[;)])",
  pat! "(?i)Note_([37]|11)_Pro",
  pat! "(?i)Note_(1)_Lite",
  pat! "(?i)Figgers[_ ](F3|DragonX)",
  pat! "(?i)Filimo Box FB-101(?:[);/ ]|$)",
  pat! "(?i)FinePower[_ ]?([AB][1-9]|[CD][1-9])(?:[);/ ]|$)",
  pat! "(?i)FinePower[_ ]?([AB][1-9])(?:[);/ ]|$)",
  pat! "(?i)FinePower[_ ]?([CD][1-9])(?:[);/ ]|$)",
  pat! "(?i)FINLUX, ?([0-9]+[a-z0-9_ -]+), ?(?:wired|wireless)",
  pat! "(?i)(?:AURII[ _](?:FAME|VIVID|INSPIRE|MAGNUM|Passion|Virtuoso|RAZOR|ULTRA|Secret Lite|AMUSE[_ ]3G|FORCE|FUSION|F8[_ ]Premium|XCITE|DELIGHT|DREAM[_ ](?:MINI|One)|AMUSE_4G)|SECRET_XR?|INTENSE[ _](?:POWER|METAL_2|XT)|RAZOR_PLUS_4G|SUPER SWEET|SWEET MINI|Dream_One_8|INSPIRE_4G|S90_Q|INTENSE_METAL_4G|INTENSE (?:5|XL)|VIVID_PRO|VIVID_PREMIUM)(?:[);/ ]|$)",
  pat! "(?i)AURII[ _]FORCE(?:[);/ ]|$)",
  pat! "(?i)AURII[ _]VIVID(?:[);/ ]|$)",
  pat! "(?i)AURII[ _]INSPIRE(?:[);/ ]|$)"]

/-- `__dr_re`, from item 2500 on (device_repo.go:20836-21085). -/
def drRe_10 : List (List Chunk) := [
  pat! "(?i)AURII[ _]RAZOR(?:[);/ ]|$)",
  pat! "(?i)RAZOR_PLUS_4G(?:[);/ ]|$)",
  pat! "(?i)AURII[ _]DELIGHT(?:[);/ ]|$)",
  pat! "(?i)AURII[ _]DREAM[_ ]MINI(?:[);/ ]|$)",
  pat! "(?i)AURII[ _]FAME(?:[);/ ]|$)",
  pat! "(?i)AURII[ _]AMUSE[ _]4G(?:[);/ ]|$)",
  pat! "(?i)Dream_One_8(?:[);/ ]|$)",
  pat! "(?i)AURII[ _]DREAM[_ ]One(?:[);/ ]|$)",
  pat! "(?i)AURII[ _]ULTRA(?:[);/ ]|$)",
  pat! "(?i)AURII[ _]AMUSE[_ ]3G(?:[);/ ]|$)",
  pat! "(?i)AURII[ _]FUSION(?:[);/ ]|$)",
  pat! "(?i)AURII[ _]MAGNUM(?:[);/ ]|$)",
  pat! "(?i)VIVID_PRO(?:[);/ ]|$)",
  pat! "(?i)VIVID_PREMIUM(?:[);/ ]|$)",
  pat! "(?i)AURII[ _]XCITE(?:[);/ ]|$)",
  pat! "(?i)SECRET_(XR?)(?:[);/ ]|$)",
  pat! "(?i)AURII[ _]((?:Passion|Virtuoso|Secret Lite|F8[_ ]Premium))(?:[);/ ]|$)",
  pat! "(?i)INTENSE POWER(?:[);/ ]|$)",
  pat! "(?i)INTENSE_XT(?:[);/ ]|$)",
  pat! "(?i)INTENSE_METAL_4G(?:[);/ ]|$)",
  pat! "(?i)INTENSE_METAL_2(?:[);/ ]|$)",
  pat! "(?i)SUPER SWEET(?:[);/ ]|$)",
  pat! "(?i)SWEET MINI(?:[);/ ]|$)",
  pat! "(?i)INTENSE (5|XL)",
  pat! "(?i)(S90_Q)(?:[);/ ]|$)",
  pat! "(?i)(?:Fision TV Plus)(?:[);/ ]|$)",
  pat! "(?i)(?:S554020|F_Plus)(?:[);/ ]|$)",
  pat! "(?i)Fly|Power Plus 5000|Power Plus 3|Photo Pro|Slimline|Cirrus (?:6|13)|Life (?:Ace|Jet|Sky|Compact 4G|Geo|Zen|Play)|(?:lineage_)?FS50[1-9]|FS51[0-8]|FS52[0-9]|FS530|FS55[134]|FS40[1-9]|FS45[1-9]|4FS06|MERIDIAN-|(?:Phoenix 2|(?:IQ[0-9]{3,}[i]?)[ _]?(?:Quad|Firebird|Quattro|Turbo|Magic)?|Tornado Slim|Android 8(?:[\\d.]*);(?: [\\w-]+;)? View Max)(?:[);/ ]|$)",
  pat! "(?i)(?:Fly_)?IQ310(?:[);/ ]|$)",
  pat! "(?i)(?:Fly_)?IQ236(?:[);/ ]|$)",
  pat! "(?i)(?:Fly_)?View Max(?:[);/ ]|$)",
  pat! "(?i)Slimline(?:[);/ ]|$)",
  pat! "(?i)Power Plus 5000(?:[);/ ]|$)",
  pat! "(?i)Photo Pro(?:[);/ ]|$)",
  pat! "(?i)Life Ace(?:[);/ ]|$)",
  pat! "(?i)Life Jet(?:[);/ ]|$)",
  pat! "(?i)Life Sky(?:[);/ ]|$)",
  pat! "(?i)Life Geo(?:[);/ ]|$)",
  pat! "(?i)Life Zen(?:[);/ ]|$)",
  pat! "(?i)Life Play(?:[);/ ]|$)",
  pat! "(?i)Life Buzz(?:[);/ ]|$)",
  pat! "(?i)Life Compact 4G(?:[);/ ]|$)",
  pat! "(?i)FS508|Cirrus 6",
  pat! "(?i)(?:lineage_)?FS504",
  pat! "(?i)FS518|Cirrus 13",
  pat! "(?i)(?:Fly_)?IQ237(?:[);/ ]|$)",
  pat! "(?i)(?:Fly_)?IQ238(?:[);/ ]|$)",
  pat! "(?i)(?:Fly_)?IQ240(?:[);/ ]|$)",
  pat! "(?i)(?:Fly_)?IQ255(?:[);/ ]|$)",
  pat! "(?i)(?:Fly_)?IQ270(?: Firebird)?(?:[);/ ]|$)",
  pat! "(?i)(?:Fly_)?IQ275(?:[);/ ]|$)",
  pat! "(?i)(?:Fly_)?IQ285(?: Turbo)?(?:[);/ ]|$)",
  pat! "(?i)(?:Fly_)?IQ430(?:[);/ ]|$)",
  pat! "(?i)(?:Fly_)?IQ431(?:[);/ ]|$)",
  pat! "(?i)(?:Fly_)?IQ432(?:[);/ ]|$)",
  pat! "(?i)(?:Fly_)?IQ436(?:[);/ ]|$)",
  pat! "(?i)(?:Fly_)?IQ4490(?:[);/ ]|$)",
  pat! "(?i)(?:Fly_)?IQ434(?:[);/ ]|$)",
  pat! "(?i)(?:Fly_)?IQ4406(?:[);/ ]|$)",
  pat! "(?i)(?:Fly_)?IQ436i(?:[);/ ]|$)",
  pat! "(?i)(?:Fly_)?IQ4490i(?:[);/ ]|$)",
  pat! "(?i)(?:Fly_)?IQ440(?:[);/ ]|$)",
  pat! "(?i)(?:Fly_)?IQ4401(?:[);/ ]|$)",
  pat! "(?i)(?:Fly_)?IQ441(?:[);/ ]|$)",
  pat! "(?i)(?:Fly_)?IQ442 Quad(?:[);/ ]|$)",
  pat! "(?i)(?:Fly_)?IQ442(?:[);/ ]|$)",
  pat! "(?i)(?:Fly_)?IQ443(?:[);/ ]|$)",
  pat! "(?i)(?:Fly_)?IQ444(?: Quattro)?(?:[);/ ]|$)",
  pat! "(?i)(?:Fly_)?IQ445(?:[);/ ]|$)",
  pat! "(?i)(?:Fly_)?IQ446(?: Magic)?(?:[);/ ]|$)",
  pat! "(?i)(?:Fly_)?IQ447(?:[);/ ]|$)",
  pat! "(?i)(?:Fly_)?IQ456(?:[);/ ]|$)",
  pat! "(?i)(?:Fly_)?IQ4409 Quad(?:[);/ ]|$)",
  pat! "(?i)(?:Fly_)?IQ448(?:[);/ ]|$)",
  pat! "(?i)(?:Fly_)?IQ449(?:[);/ ]|$)",
  pat! "(?i)(?:Fly_)?IQ450(?:[);/ ]|$)",
  pat! "(?i)(?:Fly_)?IQ450[ _]Quattro(?:[);/ ]|$)",
  pat! "(?i)(?:Fly_)?IQ451(?:[);/ ]|$)",
  pat! "(?i)(?:Fly_)?IQ452 Quad(?:[);/ ]|$)",
  pat! "(?i)(?:Fly_)?IQ454(?:[);/ ]|$)",
  pat! "(?i)(?:Fly_)?IQ4403(?:[);/ ]|$)",
  pat! "(?i)(?:Fly_)?IQ4404(?:[);/ ]|$)",
  pat! "(?i)(?:Fly_)?IQ4410 Quad(?:[);/ ]|$)",
  pat! "(?i)Phoenix 2(?:[);/ ]|$)",
  pat! "(?i)(?:Fly_)?IQ4411(?:[);/ ]|$)",
  pat! "(?i)(?:Fly_)?IQ4412 Quad(?:[);/ ]|$)",
  pat! "(?i)(?:Fly_)?IQ4413[ _]Quad(?:[);/ ]|$)",
  pat! "(?i)(?:Fly_)?IQ4414 Quad(?:[);/ ]|$)",
  pat! "(?i)(?:Fly_)?IQ4415 Quad(?:[);/ ]|$)",
  pat! "(?i)(?:Fly_)?IQ4418(?:[);/ ]|$)",
  pat! "(?i)(?:Fly_)?IQ4504 Quad(?:[);/ ]|$)",
  pat! "(?i)Tornado Slim(?:[);/ ]|$)",
  pat! "(?i)(?:Fly_)?IQ([0-9]+[i]? ?(?:Quad|Firebird|Quattro)?)(?:[);/ ]|$)",
  pat! "(?i)Fly[ _-]?([a-z0-9_]+)/",
  pat! "(?i)Flylife[ _-]?([^/;]+)(?: Build|[;)])",
  pat! "(?i)Fly[ _-]?([a-z0-9]+)",
  pat! "(?i)MERIDIAN-([a-z0-9]+)",
  pat! "(?i)4K SMART TV(?:[);/ ]|$)",
  pat! "(?i)Fondi[- _]([^;/)]+)|(T702|Q008B|Q010B|Q718B|Q902|T602B|T707G|T708B|T725B|T725B1|T907B)(?:\\)| Build)",
  pat! "(?i)(T702|T602B)",
  pat! "(?i)(Q008B|Q010B|Q718B|Q902|T707G|T708B|T725B|T725B1|T907B)",
  pat! "(?i)Fondi[- _]([^;/)]+)",
  pat! "(?i)Fonos-|(?:Android 10(?:[\\d.]*);(?:[\\d.]*)(?: [\\w-]+;)? O3)(?:[);/ ]|$)",
  pat! "(?i)Fonos-(O\\d)(?:[);/ ]|$)",
  pat! "(?i)O3(?: Build|[;)])",
  pat! "(?i)Xming Google TV(?:[);/ ]|$)",
  pat! "(?i)Formuler[ _]|(?:S_TURBO_PRO)(?:[);/ ]|$)",
  pat! "(?i)Formuler[ _](Z(?:8|10)(?: Pro)?|Z Alpha)(?:[);/ ]|$)",
  pat! "(?i)S_TURBO_PRO(?:[);/ ]|$)",
  pat! "(?i)Amosta ?3G5",
  pat! "(?i)Amosta ?3G5",
  pat! "(?i)(Apollo 5 Neo)(?:[);/ ]|$)",
  pat! "(?i)ENIE E2(?:[);/ ]|$)",
  pat! "(?i)(?:Four[ _]?(S600|S300I|S185|K500|S61)|S62_Eco_3|S186_Sky_3|S710 Ruby)(?:[);/ ]|$)",
  pat! "(?i)Four[ _]?(S600|S300I|K500)",
  pat! "(?i)Four[ _]?S185",
  pat! "(?i)Four[ _]?S61",
  pat! "(?i)(?:EASYSMARTM3|EasySmart M2)(?:[);/ ]|$)",
  pat! "(?i)EASY ?SMART ?M([32])",
  pat! "(?i)InFocus M[0-9]+[a-z]?",
  pat! "(?i)InFocus M([0-9]+[a-z]?)",
  pat! "(?i)FOXXD|(?:L590A)(?:[);/ ]|$)",
  pat! "(?i)(?:FOXXD )?(C65|L590A)(?:[);/ ]|$)",
  pat! "(?i)(?:2305003M|2306004M|23080(?:05M|11M))(?:[);/ ]|$)",
  pat! "(?i)(?:FUN PLUS|Fun \\+|FTJ17[AC]00|FTJ152[ABCD]|FTU18A00|FT141B|FT142D(?:_LTEXM)?|FT142A?|FTJ161[ABE](?:-VN)?|FTJ1[56]2E|FTJ162[BD]|FT162D|FTE161[GE]|SAKURA_FTE1|FTE171A)(?:[);/ ]|$)",
  pat! "(?i)Fun \\+",
  pat! "(?i)FTJ17A00(?:[);/ ]|$)",
  pat! "(?i)FTJ17C00(?:[);/ ]|$)",
  pat! "(?i)FTU18A00(?:[);/ ]|$)",
  pat! "(?i)FTE161E|FTJ161E",
  pat! "(?i)FT142D(?:_LTEXM)?(?:[);/ ]|$)",
  pat! "(?i)FT142A?",
  pat! "(?i)FTJ?162D",
  pat! "(?i)(RubensTab_T11)(?:[);/ ]|$)",
  pat! "(?i)FUEGO, ([a-z0-9_ -]+), (?:wired|wireless)|FUEGO 2K SMART TV",
  pat! "(?i)(?:F-01[FHJKLM]|F-02[EFGHLK]|F-03[DEFGKHL]|F-04[EGFHKJ]|F-05[DEFJG]|F-06[EF]|F-07[DE]|F-0[18]D|F-09[DE]|F-[45]1A|F-41B|F-[45]2A|F-1[012]D|F-12C|F-5[12]B|F-51[CE]|M532|FARTM933KZ|901FJ|arrows(?:RX|M03|M0[45](?:-PREMIUM)?)|801FJ|FJL2[12]|RM02|FCG01|A101FC|BZ02|LIFEBOOK AH532)(?:[);/ ]|$)",
  pat! "(?i)F-51A(?:[);/ ]|$)",
  pat! "(?i)F-01F(?:[);/ ]|$)",
  pat! "(?i)(F-01[LM]|F-06F|F-03K|F-42A)(?:[);/ ]|$)",
  pat! "(?i)F-03L(?:[);/ ]|$)",
  pat! "(?i)F-01J(?:[);/ ]|$)",
  pat! "(?i)F-01K(?:[);/ ]|$)",
  pat! "(?i)F-01H(?:[);/ ]|$)",
  pat! "(?i)F-02E(?:[);/ ]|$)",
  pat! "(?i)F-02G(?:[);/ ]|$)",
  pat! "(?i)FJL21(?:[);/ ]|$)",
  pat! "(?i)FJL22(?:[);/ ]|$)",
  pat! "(?i)F-02H(?:[);/ ]|$)",
  pat! "(?i)F-52A(?:[);/ ]|$)",
  pat! "(?i)F-03D(?:[);/ ]|$)",
  pat! "(?i)F-03E(?:[);/ ]|$)",
  pat! "(?i)F-03F(?:[);/ ]|$)",
  pat! "(?i)F-03H(?:[);/ ]|$)",
  pat! "(?i)901FJ(?:[);/ ]|$)",
  pat! "(?i)F-04E(?:[);/ ]|$)",
  pat! "(?i)F-04G(?:[);/ ]|$)",
  pat! "(?i)F-05D(?:[);/ ]|$)",
  pat! "(?i)F-05F(?:[);/ ]|$)",
  pat! "(?i)F-05J(?:[);/ ]|$)",
  pat! "(?i)F-05G(?:[);/ ]|$)",
  pat! "(?i)F-04K(?:[);/ ]|$)",
  pat! "(?i)F-02L(?:[);/ ]|$)",
  pat! "(?i)F-41A(?:[);/ ]|$)",
  pat! "(?i)F-41B(?:[);/ ]|$)",
  pat! "(?i)F-06E(?:[);/ ]|$)",
  pat! "(?i)F-51C(?:[);/ ]|$)",
  pat! "(?i)F-07D(?:[);/ ]|$)",
  pat! "(?i)(?:F-51B|FCG01|A101FC)(?:[);/ ]|$)",
  pat! "(?i)(F-51E)(?:[);/ ]|$)",
  pat! "(?i)801FJ(?:[);/ ]|$)",
  pat! "(?i)F-07E(?:[);/ ]|$)",
  pat! "(?i)F-08D(?:[);/ ]|$)",
  pat! "(?i)F-09D(?:[);/ ]|$)",
  pat! "(?i)F-09E(?:[);/ ]|$)",
  pat! "(?i)F-(52B|12D)(?:[);/ ]|$)",
  pat! "(?i)F-10D(?:[);/ ]|$)",
  pat! "(?i)F-11D(?:[);/ ]|$)",
  pat! "(?i)F-12C(?:[);/ ]|$)",
  pat! "(?i)(F-04[JF])(?:[);/ ]|$)",
  pat! "(?i)arrowsM03(?:[);/ ]|$)",
  pat! "(?i)RM02(?:[);/ ]|$)",
  pat! "(?i)BZ02(?:[);/ ]|$)",
  pat! "(?i)arrowsRX(?:[);/ ]|$)",
  pat! "(?i)arrowsM04-PREMIUM(?:[);/ ]|$)",
  pat! "(?i)arrowsM(0[45])(?:[);/ ]|$)",
  pat! "(?i)(F-0[32]F|F-03G|F-04H|F-05E|F-02K|F-01D)(?:[);/ ]|$)",
  pat! "(?i)M532(?:[);/ ]|$)",
  pat! "(?i)FUNAI[;,)-]|AFTMON00[12](?:[);/ ]|$)",
  pat! "(?i)AFTMON00[12](?:[);/ ]|$)",
  pat! "(?i)Funai-Model18-([a-z0-9]+)",
  pat! "(?i)Fusion5|F104Bv2|F104EvII_PRO|F104EvII|F105D_128",
  pat! "(?i)(?:Fusion5_)?(F104B)v2_PRO",
  pat! "(?i)(?:Fusion5_)?(F104B)v2",
  pat! "(?i)(?:Fusion5_)?F104EvII_PRO",
  pat! "(?i)(?:Fusion5_)?F104EvII(?:_EEA)?(?:[);/ ]|$)",
  pat! "(?i)(?:Fusion5_)?(F704B|F105D|F104E)(?:_128|_EEA)?(?:[);/ ]|$)",
  pat! "(?i)(FXT810R)(?:[);/ ]|$)",
  pat! "(?i)QX1000(?:[);/ ]|$)",
  pat! "(?i)(?:GNE-N001S)(?:[);/ ]|$)",
  pat! "(?i)(?:PAD10_PRO)(?:[);/ ]|$)",
  pat! "(?i)G-TiDE|(?: EX10|EXTREME X9)(?:[);/ ]|$)",
  pat! "(?i)G-TiDE[_ ](A1|S[34]|E520|Vans [89]c?|V7s)",
  pat! "(?i)E(57|60|66|72|77)",
  pat! "(?i)G-TiDE[_ ](H1)",
  pat! "(?i)GTouch[_ ]|(?:Stella (?:XS?|Omega))(?:[);/ ]|$)",
  pat! "(?i)Stella (XS?|Omega)",
  pat! "(?i)GTouch[_ ]STELLA",
  pat! "(?i)(G1000 Pro|G[12]000)(?:[);/ ]|$)",
  pat! "(?i)GDL[_ ](Xtreme 4)(?:[);/ ]|$)",
  pat! "(?i)GEOFOX[_ ]MID ?(743\\+?)(?:[);/ ]|$)",
  pat! "(?i)GEOZON[_ ]([^/;)]+)(?: Build|[);])",
  pat! "(?i)GFIVE[_ ]|(?:PRESIDENT_GOLD_(9|10)|President Gpower 1|Stark|Gpad70[12]|Speedo_1|4G Ultra Pro|4G 6700|4G Style)(?:[);/ ]|$)",
  pat! "(?i)PRESIDENT_GOLD_(9|10)",
  pat! "(?i)GFIVE[_ ]President[_ ]Xhero[_ ](\\d)",
  pat! "(?i)President (A97)",
  pat! "(?i)President Classic (\\d)",
  pat! "(?i)President ?\\(?G(\\d)\\)?",
  pat! "(?i)President Tango (\\d)",
  pat! "(?i)GFIVE[_ ]President[_ ]Smart[_ ](A98|\\d)",
  pat! "(?i)GPad(70[12])",
  pat! "(?i)(?:Android 8(?:[\\d.]*);(?: [\\w-]+;)? TAB5)(?: Build|[;)])",
  pat! "(?i)Quartz(T10-3)(?:[);/ ]|$)",
  pat! "(?i)(?:GLX (?:Aria|Dorna|Taban|Shine|Spark|ASA)|SHAHIN III?|Maad\\+?)(?:[);/ ]|$)",
  pat! "(?i)Maad\\+",
  pat! "(?i)GLX (Aria|Taban|Shine|Spark)(?:[);/ ]|$)",
  pat! "(?i)GLX (Dorna)(?:[);/ ]|$)",
  pat! "(?i)GOCLEVER|QUANTUM_(?:[235]_)?[0-9]{3}|QUANTUM [0-9]{1}|QUANTUM 700N|Quantum2 500|QUANTUM_(1010N|1010M|900|II_500_N)|ARIES|INSIGNIA|ORION_|ELIPSO|LIBRA[ _]97|TERRA_7o[WL]|(?:TQ700|ORION7oL)(?:[);/ ]|$)",
  pat! "(?i)QUANTUM_(1010N|1010M|900)",
  pat! "(?i)INSIGNIA_(785_PRO|1010M|800M)",
  pat! "(?i)(ORION|ARIES|ELIPSO)[_ ](71|101|102)",
  pat! "(?i)TQ700(?:[);/ ]|$)",
  pat! "(?i)QUANTUM_2_(1010|700|960)_Mobile",
  pat! "(?i)QUANTUM_([235])_(5[05]0)_RUGGED",
  pat! "(?i)QUANTUM_(\\d+)_RUGGED_PRO",
  pat! "(?i)QUANTUM[_ ]([235])_([45]00)[_ ]LITE",
  pat! "(?i)QUANTUM[_ ]([45]00)[_ ]LITE",
  pat! "(?i)QUANTUM[ _]?([235])[ _]([^;/]+)(?: Build|[);])",
  pat! "(?i)((?:QUANTUM|ARIES|INSIGNIA|ORION|ELIPSO)[ _-]?[^;/]+)(?: Build|\\))",
  pat! "(?i)TERRA_(7o[WL])",
  pat! "(?i)GOCLEVER[ _-]TAB[ _-]?([^;/]+) Build",
  pat! "(?i)GOCLEVER[ _-]?([^;/]+) Build",
  pat! "(?i)TAB ([^;/)]+) Build/GOCLEVER",
  pat! "(?i)([^;/)]+) Build/GOCLEVER",
  pat! "(?i)GOCLEVER[ _-]?TAB[ _-]([^;/)]+)(?:[;/)]|$)",
  pat! "(?i)GOCLEVER[ _-]?([^;/)]+)(?:[;/)]|$)",
  pat! "(?i)LIBRA[ _]97",
  pat! "(?i)(?:EVO-VX1)(?:[);/ ]|$)",
  pat! "(?i)(?:G(?:3|10)_EEA|CNOTE 50|G10_US)(?:[);/ ]|$)",
  pat! "(?i)G(3|10)_(?:EEA|US)",
  pat! "(?i)(SEI600GO|GO700FR)(?:[);/ ]|$)"]

/-- `__dr_re`, from item 2750 on (device_repo.go:21086-21335). -/
def drRe_11 : List (List Chunk) := [
  pat! "(?i)(GTCOMBO)(?:[);/ ]|$)",
  pat! "(?i)(?:GTX_)?JACULUS(?:[_ ](01|V2))?(?:[);/ ]|$)",
  pat! "(?i)LGE; (?:GVC-[a-z0-9]+|[0-9]{2}GW[0-9]{4}\\d*);",
  pat! "(?i)LGE; ([0-9]{2}GW\\d+);",
  pat! "(?i)LGE; GVC-([a-z0-9]+);",
  pat! "(?i)Galactic[_ ](Astro)(?:[);/ ]|$)",
  pat! "(?i)(TVS-SU5007)(?:[);/ ]|$)",
  pat! "(?i)(?:GI (?:UNI2|iTV912|Fly T2)|Gi-98Quick)(?:[);/ ]|$)",
  pat! "(?i)(EDU-7MT4)(?:[);/ ]|$)",
  pat! "(?i)Garmin-Asus|Garminfone",
  pat! "(?i)Garminfone[ \\-_]([^;/]*)Build",
  pat! "(?i)Garmin-Asus[ \\-_]([^;/]+)Build",
  pat! "(?i)Garmin-Asus[ \\-_]([^;/]+)[\\)/]",
  pat! "(?i)GWAT(?:8-1|10-1)",
  pat! "(?i)GWAT(8|10)-1",
  pat! "(?i)Gazal_100|(GA50F-OS)(?:[);/ ]|$)",
  pat! "(?i)(GA50F-OS)",
  pat! "(?i)(JT08-X1|JT10-90|JT10-81B|JT10-X)(?:[);/ ]|$)",
  pat! "(?i)GEANT[_ ](T\\d)(?:[);/ ]|$)",
  pat! "(?i)(Feel_7013N)",
  pat! "(?i)(GEM[0-9]+[a-z]*)",
  pat! "(?i)General_Mobile_|GM 5 Plus|GM8 go|GM[ _][568][ _]d|GM [86]|General Mobile 4G|GM6_Tur|GM 9 (?:Pro|Plus)|(?: GM 5|e-tab 20|Android 1[012](?:\\.[\\d.]+)?;(?: [\\w-]+;)? (?:G[35]01|G[35]10|G702|G700)|Discovery (?:Air|Elite(?: Plus)?)|GM Discovery II|GM Discovery tab 8|Discovery II Mini| GM6|G300|G008|android 4([\\d.]*);(?: [\\w-]+;)? Discovery|e-?tab5|G51[24]|G31[246]|G901| G100|G518|G318)(?:[);/ ]|$)",
  pat! "(?i)GM[ _](\\d+)[ _]d",
  pat! "(?i)GM6_Tur|GM ?6",
  pat! "(?i)GM ([58])",
  pat! "(?i)Discovery (Air|Elite(?: Plus)?)",
  pat! "(?i)Discovery(?:[);/ ]|$)",
  pat! "(?i)General[ _]Mobile[ _]4G[ _]Dual",
  pat! "(?i)e-?tab ?(\\d+)(?:[);/ ]|$)",
  pat! "(?i)(SK-Mtek GT730[15])(?:[);/ ]|$)",
  pat! "(?i)GD (S1 ATV)(?:[);/ ]|$)",
  pat! "(?i)GEO_?PHONE_",
  pat! "(?i)GEO_?PHONE_(T1[59])_4G(?:[);/ ]|$)",
  pat! "(?i)GEO_?PHONE_T19I_4G(?:[);/ ]|$)",
  pat! "(?i)GEOTEL[ _]?",
  pat! "(?i)GEOTEL[ _]?Note",
  pat! "(?i)GEOTEL[ _]AMIGO",
  pat! "(?i)(GTX-R10i Pro|GTX-R10i|GTX-98Q)(?:[);/ ]|$)",
  pat! "(?i)Getnord[- ]([^/;)]+)(?: Build|[);])",
  pat! "(?i)G-Fone ?(\\d{1,3})",
  pat! "(?i)GHIA|QS702|SVEGLIO[ _][QH]1|VECTOR10\\.1|GTKIDS7[BVR]?|(?:A7_WF|GTA7(?:WF|PLUS)|VENUS7|TREO_TAB8G?|VECTOR_SLIM|GTAB718|GTABPND|GTABKIDS|GTVR10S|AXIS7_SLIM|AXIS7_LED|4104116N|GK133M3)(?:[);/ ]|$)",
  pat! "(?i)SVEGLIO[ _]([QH]1)",
  pat! "(?i)GHIA[ _](L1)",
  pat! "(?i)VECTOR10\\.1",
  pat! "(?i)GTKIDS7[ABVR]?|GTABKIDS",
  pat! "(?i)GHIA[ _]?(47458|VECTOR_3G)",
  pat! "(?i)(GTAB718|GK133M3)",
  pat! "(?i)GHONG(V10)(?:[);/ ]|$)",
  pat! "(?i)GHOST G03(?:[);/ ]|$)",
  pat! "(?i)G03(?:[);/ ]|$)",
  pat! "(?i)GSmart[ _][a-z0-9 ]+(?: Build|\\))|Gigabyte-[a-z0-9]+|Simba SX1|Roma R2|Boston 4G|GSmart_Classic_Lite|Classic[_ ](?:Joy|Pro)",
  pat! "(?i)(GSmart[ _][a-z0-9 ]+)(?: Build|[);])",
  pat! "(?i)Gigabyte-([a-z0-9]+)",
  pat! "(?i)(Classic[ _](?:Joy|Pro)|GSmart_Classic_Lite|Boston 4G)",
  pat! "(?i)Gigaset|(?: GX290|GS80|GS1[0189]0|GS1[89]5|GS2[89]0|GS5[357]-6|GS[23]70(?:_Plus)?|E940-(?:2766|279[567]|2878|2849)-\\d{2})(?:[);/ ]|$)",
  pat! "(?i)Gigaset QV(1030|830)",
  pat! "(?i)G(S[23]70)[_ ]Plus(?:[);/ ]|$)",
  pat! "(?i)GS([23]70|1[0189]0|1[89]5|2[89]0|80)(?:[);/ ]|$)",
  pat! "(?i)(GX290)(?:[);/ ]|$)",
  pat! "(?i)Gigaset ([^;/]+) Build",
  pat! "(?i)Gigaset ([^;/)]+)(?:[);/ ]|$)",
  pat! "(?i)Gini[ _]|(?:SW17W13|SW17W08)(?:[);/ ]|$)",
  pat! "(?i)Gini[ _]W(7)",
  pat! "(?i)Gini[ _]n(8)",
  pat! "(?i)Gini[ _]s5Pro|SW17W13",
  pat! "(?i)Gini[ _]Tab[ _](V[78])",
  pat! "(?i)GINZZU[_ ]|((?:RS(?:7[14]|81|9[67])D)|S5002|S5021|S5230|S50[45]0|S51[24]0|RS(6[12]|9[45])D|S40[23]0|RS850[12]|RS9602|GT-W170)(?:[);/ ]|$)",
  pat! "(?i)GINZZU[_ ]?(S40[17]0|S4710|ST60[14]0|ST6120)",
  pat! "(?i)(?:GINZZU[_ ]?)?(GT-(?:W170|1050|7105|70[1-4]0|7115|7210|[WX]831|X[78]70|7810|8[01]10|X853|X890))",
  pat! "(?i)(RS6[12]D) ULTIMATE",
  pat! "(?i)(?:GINZZU[ _])?((?:RS(?:7[14]|81|9[14-7]|7)D)|S50[45]0|S5002|S5021|S5230|S51[24]0|S40[23]0|RS850[12]|RS9602|RS94D|R8 Dual)(?:[);/ ]|$)",
  pat! "(?i)(?:GIO-)?GIONEE[ _-]?[a-z0-9]+|(?:Dream_D1|V188S?|GN[0-9]{3,4}[a-z]?)(?:[);/ ]|$)|F103(?: Pro)?(?: Build|\\))|P5 mini Build|(M7 Power|F106L|F100[AL]|F103S|F103 Pro|M6 mirror|20190620G|20190619G|20190418Q|GNP21M02|GNS2161B|GAU0820|Android 6(?:[\\d.]*);(?: [\\w-]+;)? (?:P8 Max|P7 Max)|Android 5(?:[\\d.]*);(?: [\\w-]+;)? M5 (?:mini|Plus)|Android 11(?:[\\d.]*);(?: [\\w-]+;)? P61|WBL7519|WBL7361|20190419Q|M5 lite CDMA|GLY1620|M2mini)(?:[);/ ]|$)",
  pat! "(?i)GN810(?:[);/ ]|$)",
  pat! "(?i)GIONEE[_ ]MAX Pro",
  pat! "(?i)GN([0-9]{3,4}[a-z]?)(?:[);/ ]|$)",
  pat! "(?i)(F106L|F100[AL]|V188S|V188|F103S|F8 Neo)(?:[);/ ]|$)",
  pat! "(?i)M7 Power(?:[);/ ]|$)",
  pat! "(?i)M([25]) ?mini",
  pat! "(?i)20190620G(?:[);/ ]|$)",
  pat! "(?i)(S11|F205|S10) Lite(?:[);/ ]|$)",
  pat! "(?i)M6 mirror(?:[);/ ]|$)",
  pat! "(?i)F9 Plus(?:[);/ ]|$)",
  pat! "(?i)20190419Q(?:[);/ ]|$)",
  pat! "(?i)F103( Pro)?( BUILD|\\))",
  pat! "(?i)(P61)(?:[);/ ]|$)",
  pat! "(?i)(?:(?:GIO-)?GIONEE[ _-])?Dream_D1(?:[);/ ]|$)",
  pat! "(?i)(?:GIO-)?GIONEE[ _-]([a-z0-9_-]+).*Android",
  pat! "(?i)Android.*(?:GIO-)?GIONEE[ _-]([a-z0-9_-]+)[ _]Pro",
  pat! "(?i)Android.*(?:GIO-)?GIONEE[ _-]([a-z0-9_-]+)",
  pat! "(?i)(?:GIO-)?GIONEE[ _-]?([a-z0-9]+)",
  pat! "(?i)GLOBALSEC TAB TEN(?:[);/ ]|$)",
  pat! "(?i)(GU1011C|GU8012C|GU7013C|GU730C|GU-6012B)(?:[);/ ]|$)",
  pat! "(?i)GU8012C(?:[);/ ]|$)",
  pat! "(?i)GU-6012B(?:[);/ ]|$)",
  pat! "(?i)(GU1011C|GU7013C|GU730C)(?:[);/ ]|$)",
  pat! "(?i)Globmall[ _](X4)(?:[);/ ]|$)",
  pat! "(?i)S20iQ19(?:[);/ ]|$)",
  pat! "(?i)glofiish[ _]|(?:Gpad_U)(?:[);/ ]|$)",
  pat! "(?i)GO Onyx|GO[0-9]{3,4}",
  pat! "(?i)GO([0-9]{3,4})",
  pat! "(?i)(?:F10_PRIME|F3Prime|F9_PLUS|TEAM_7_3G)(?:[);/ ]|$)",
  pat! "(?i)(?:Netta 2 Pro|NETTA 3|Netta 3\\.100m|BENGAL_6|DETROIT 3|i-910|i-9[02]5)(?:[);/ ]|$)",
  pat! "(?i)i-(910|9[02]5)",
  pat! "(?i)Netta 3(?:\\.100m)?",
  pat! "(?i)(LT-55U900)(?:[);/ ]|$)",
  pat! "(?i)Goly[ _-]",
  pat! "(?i)Goly[ _-]([^;/]+) Build",
  pat! "(?i)Goly[ _-]([^;/)]+)(?:[;/)]|$)",
  pat! "(?i)(?:GOME[_ ](?:201[678].+|C7_Note(?:_Plus)?|U9|S[17])|Fenmmy_Note)(?:[);/ ]|$)",
  pat! "(?i)GOME[_ ](?:2018X38A)(?:[);/ ]|$)",
  pat! "(?i)GOME[_ ](?:2018X07A)(?:[);/ ]|$)",
  pat! "(?i)GOME[_ ](?:2017X05A)(?:[);/ ]|$)",
  pat! "(?i)GOME[_ ](?:2017X82A)(?:[);/ ]|$)",
  pat! "(?i)GOME[_ ](?:2016G68A)(?:[);/ ]|$)",
  pat! "(?i)GOME[_ ](?:2016M25A)(?:[);/ ]|$)",
  pat! "(?i)GOME[_ ](?:2017M27A)(?:[);/ ]|$)",
  pat! "(?i)GOME[_ ](?:2017M95A)(?:[);/ ]|$)",
  pat! "(?i)GOME[_ ](?:2018M29A)(?:[);/ ]|$)",
  pat! "(?i)GOME[_ ](C7_Note(?:_Plus)?|U9|S[17])(?:[);/ ]|$)",
  pat! "(?i)(?:GOME[_ ])?(Fenmmy_Note)(?:[);/ ]|$)",
  pat! "(?i)Nexus|GoogleTV|Google Fiber|Google Pixel|Glass|CrKey[^a-z0-9]|(?:Pixel|sailfish|taimen|blueline|Chromecast(?: HD)?)(?:;? Build|[)])|Pixel (?:XL|9 Pro(?: XL)?|C|[2-9]|[2-4] XL|10|Fold|Tablet)|Google 2XL|PIXEL4X|G011A|AOSP on (?:bramble|HammerHead|Manta|sunfish)|Pipit|ADT-2|GE2AE|G0DZQ|GZPFO|G1MNW|G82U8|G9BQD|G6QU3|GO3Z5|G025[IJENH]|G020[ABCGHEMPI]|G9FPL|GWKK3|GWVK6|GR83Y|GKV4X|GUR25|GP4BC|G4S1M|GKWS6|GHL1X|G1F8F|G01[13]C|G013A|GC3VE|GB7N6|GD1YQ|GTT9Q|GVU6C|GA02099|GA01180-US|G5NZ6|GQML3|G8VOU|GGH2X|GEC77|GC15S|G8HHN|GFE4J|G576D|G2YBB|G1B60|GA04851-US|GPJ41",
  pat! "(?i)(Nexus (?:2|S|4|5X?|One))",
  pat! "(?i)(Nexus (?:6P?))",
  pat! "(?i)(Nexus (?:7|9|10))",
  pat! "(?i)(GFHD[12]00)",
  pat! "(?i)CrKey/[0-9.]+ DeviceType/SmartSpeaker",
  pat! "(?i)CrKey[^a-z0-9]",
  pat! "(?i)(?:Pixel|sailfish)(?: Build|[)])",
  pat! "(?i)blueline|G013A",
  pat! "(?i)G020[AEHF]",
  pat! "(?i)Pixel 9 Pro XL|GGX8B|GQ57S|GZC4K",
  pat! "(?i)Pixel 3 XL|G013C",
  pat! "(?i)Pixel 2 XL|taimen",
  pat! "(?i)Pixel 3a XL|G020[BCG]",
  pat! "(?i)Pixel 4 XL|GA01180-US|G020P",
  pat! "(?i)G020[MI]",
  pat! "(?i)AOSP on sunfish|G025[JNH]|GA02099",
  pat! "(?i)Pixel 4a \\(?5G\\)?|AOSP on bramble|G025[IE]|G6QU3",
  pat! "(?i)pixel ([3-9])a",
  pat! "(?i)G1F8F|G4S1M",
  pat! "(?i)GE2AE|GP4BC|GFE4J",
  pat! "(?i)GO3Z5|GQML3|GVU6C",
  pat! "(?i)GTT9Q|GD1YQ|G5NZ6",
  pat! "(?i)G1MNW|GC3VE|GE9DP",
  pat! "(?i)G9BQD|GPJ41|GKWS6|GZPFO|GA04851-US",
  pat! "(?i)GKV4X|G8HHN|G576D|G6GPR|G576D",
  pat! "(?i)G0DZQ|G82U8|GWKK3|GHL1X",
  pat! "(?i)Google 2XL|G011C",
  pat! "(?i)GUR25|G2YBB|G1B60",
  pat! "(?i)GWVK6|GR83Y|GEC77",
  pat! "(?i)Pixel 9 Pro Fold|GGH2X|GC15S",
  pat! "(?i)Pixel ([6789]|10) Pro",
  pat! "(?i)pixel ([2-9]|10)",
  pat! "(?i)G9FPL|Pixel Fold",
  pat! "(?i)Goophone[ _]|(?:M(G492|L7[JK]2)CH|MN(4A2|8J2)ZP|MGA92ZP|MKU82ZP|MNGW2CH|MNH02CH|MNRM2CH)[/]A(?:[);/ ]|$)",
  pat! "(?i)(?:MG492CH|MGA92ZP)[/]A(?:[);/ ]|$)",
  pat! "(?i)ML7[JK]2CH[/]A(?:[);/ ]|$)",
  pat! "(?i)MKU82ZP[/]A(?:[);/ ]|$)",
  pat! "(?i)MNGW2CH[/]A(?:[);/ ]|$)",
  pat! "(?i)(?:MN4A2ZP|MNH02CH)[/]A(?:[);/ ]|$)",
  pat! "(?i)(?:MN8J2ZP|MNRM2CH)[/]A(?:[);/ ]|$)",
  pat! "(?i)S4 MEGA(?:[);/ ]|$)",
  pat! "(?i)Goophone i([69])(?:[);/ ]|$)",
  pat! "(?i)Gooweel| M5 Pro(?:[);/ ]|$)",
  pat! "(?i)Gooweel; (S7);",
  pat! "(?i)GTV-|(?:Gplus[ _](?:[ZXP]10\\+?|N809|F53|S9701|FW6950|A2_Plus|S10)|GMC-(?:7127M|668[NM]))(?:[);/ ]|$)",
  pat! "(?i)Gplus[ _]([ZXP]10\\+?|N809|F53|S9701|FW6950|A2_Plus|S10)(?:[);/ ]|$)",
  pat! "(?i)GTV-(50PU744N)(?:[);/ ]|$)",
  pat! "(?i)GRADIENTE-([a-z0-9]+)",
  pat! "(?i)GRADIENTE ([a-z0-9-]+)",
  pat! "(?i)GRAETZ[;,]",
  pat! "(?i)(?:Grape[ _])?GTM[-_]5([^;)/]+)(?: Build|[;)])",
  pat! "(?i)(?:E101GCM|TK_E720_EEA)(?:[);/ ]|$)",
  pat! "(?i)TK_(E720)",
  pat! "(?i)(E101GCM)",
  pat! "(?i)(?:G0[256]15D|G0245D|G0335D)(?:[);/ ]|$)",
  pat! "(?i)(G0215D|G0245D|G0335D)(?:[);/ ]|$)",
  pat! "(?i)G-10 (?:ULTRA|PRO)|G-20ULTRA|G-8 PRO",
  pat! "(?i)G-([12]0) ?ULTRA",
  pat! "(?i)G-(8|10) PRO",
  pat! "(?i)(?:GO 55303)(?:[);/ ]|$)",
  pat! "(?i)(?:X1_Light(?:_Lte)?)(?:[);/ ]|$)",
  pat! "(?i)X1_Light(?:_Lte)?",
  pat! "(?i)Gresso[ _]|(?:REGAL R2)(?:[);/ ]|$)",
  pat! "(?i)Gresso[ _]Regal(?:[);/ ]|$)",
  pat! "(?i)Gretel|(?:GT6000)(?:[);/ ]|$)",
  pat! "(?i)(GT6000)",
  pat! "(?i)Gretel; (A[67])",
  pat! "(?i)GroBerwert[ _]?(HD7)(?:[);/ ]|$)",
  pat! "(?i)GR?-TB[0-9]+[a-z]*|GRUNDIG|portalmmm/2\\.0 G|AFTEU(?:011|014|FF014)",
  pat! "(?i)(GR?-TB[0-9]+[a-z]*)",
  pat! "(?i)GRUNDIG (?:Android TV|Google TV UHD\\+)",
  pat! "(?i)GRUNDIG ([a-z0-9]+)",
  pat! "(?i)portalmmm/2\\.0 G([a-z0-9]+)",
  pat! "(?i)(GR(?:32200|43200))(?:[);/ ]|$)",
  pat! "(?i)Gtel[ _]|A727_Infinity_Pro(?:[);/ ]|$)",
  pat! "(?i)Infinity 8s(?:[);/ ]|$)",
  pat! "(?i)Infinity 9(?:[);/ ]|$)",
  pat! "(?i)Gtel[ _-]X(\\d) ?plus(?:[);/ ]|$)",
  pat! "(?i)Gtel[ _-]X(\\d) ?mini(?:[);/ ]|$)",
  pat! "(?i)Gtel[ _-]([^;/]+)(?: Build|[;)])",
  pat! "(?i)(XP9800)(?:[);/ ]|$)",
  pat! "(?i)H96[ _]?(?:Max|mini H8|plus|PRO\\+)",
  pat! "(?i)(?:H96[_ ]?)?Max[ _]RK(\\d{4})(?:[);/ ]|$)",
  pat! "(?i)Max X2(?:[);/ ]|$)",
  pat! "(?i)H96[_ ]Max[ _]V11(?:[);/ ]|$)",
  pat! "(?i)Max(?:[);/ ]|$)",
  pat! "(?i)mini H8(?:[);/ ]|$)",
  pat! "(?i)H96plus(?:[);/ ]|$)",
  pat! "(?i)PRO\\+(?:[);/ ]|$)",
  pat! "(?i)(SpaceTab_H20)(?:_EEA)?(?:[);/ ]|$)",
  pat! "(?i)(T2000)(?: Build|[);])",
  pat! "(?i)(?:H10_ONE)(?:[);/ ]|$)",
  pat! "(?i)SP-001(?:[);/ ]|$)",
  pat! "(?i)SP-001(?:[);/ ]|$)",
  pat! "(?i)HIPER[ -](?:MEDIA|[MS]-Pad)|(?:U(?:43|50|65)YQ2200GR|H32YQ2200GR|H24YQ2200GR(?:-2)?|MEDIA TV M5)(?:[);/ ]|$)",
  pat! "(?i)HIPER[ -]([SM])-Pad",
  pat! "(?i)MEDIA TV (i4 Pro|i4|[46]K|M5)",
  pat! "(?i)(U(?:43|50|65)YQ2200GR|H32YQ2200GR|H24YQ2200GR)",
  pat! "(?i)4K AI Smart TV(?:[);/ ]|$)",
  pat! "(?i)HKPRO,([a-z0-9_ -]+),(?:wired|wireless)",
  pat! "(?i)(?:HMD (?:Pulse (?:Pro|Plus)|Pulse|Vibe|Fusion|Skyline|CREST|XR21|ARC)|N159V)(?:[);/ ]|$)",
  pat! "(?i)N159V|Vibe",
  pat! "(?i)HGTV-LED(\\d{2}[FU]?HDSQ?\\d{3}T2)(?:[);/ ]|$)",
  pat! "(?i)XBOOK_12(?:[);/ ]|$)",
  pat! "(?i) (EV10)( Build|[;)])",
  pat! "(?i)HOTREALS(?:[);/ ]|$)",
  pat! "(?i)Hewlett-Packard|HP Engage|HP/HP|HP Chromebook|HP EliteBook|TouchPad/\\d+\\.\\d+|hp-tablet|HP ?iPAQ|webOS.*P160U|HP (?:Pro )?Slate|Slate 21|Slate 10|HP [78]|HP 10 Plus|Compaq [7|8]|HP; [^;/)]+|cm_tenderloin",
  pat! "(?i)HP ([78][^)/;]*)(?: Build|\\))",
  pat! "(?i)Compaq ([78][^/;]*) Build",
  pat! "(?i)HP Slate ?(.+) Build",
  pat! "(?i)HP Slate ?([0-9]+)",
  pat! "(?i)TouchPad/(\\d+\\.\\d+)|hp-tablet",
  pat! "(?i)HP; ([^;/)]+)",
  pat! "(?i)HP ?iPAQ ?([a-z0-9]+)",
  pat! "(?i)webOS.*(P160U)",
  pat! "(?i)HP ProBook (6560b)",
  pat! "(?i)Chromebook (11 G5|x360 11 G1 EE|13 G1|x2)",
  pat! "(?i)HP EliteBook (820 G2|8470p)",
  pat! "(?i)HTC|Sprint (?:APA|ATP)|ADR[a-z0-9]+|NexusHD2|Amaze[ _]4G(?:[);/ ]|$)|(Desire|Sensation|Evo ?3D|IncredibleS|Wildfire|Butterfly)[ _]?([^;/)]+)(?: Build|\\))|(Amaze[ _]4G|One ?[XELSV\\+]+)(?:[);/ ]|$)|SPV E6[05]0|(One M8|One Mini 2|X525a|PG86100|PC36100|XV6975|PJ83100|2PYB2|2PS64|2PZC5|0PJA10|0PJA2|HTV33|0PM92|0PCV1|601HT|0PAJ5|HTL2[23]|HTV3[12]|2PQ93|X2-HT|EXODUS 1|ISW13HT|710C|U Ultra|2Q8L10000|2Q55100|2QC9200|2PZC100|2PZF1|2PZM3|2Q6E1|U12 life|U Play)(?:[);/ ]|$)",
  pat! "(?i)(?:HTC[_ ](?:U-2u|U Play|2PZM3)|2PZM3|U Play)(?:[);/ ]|$)",
  pat! "(?i)(?:HTC[_ ]U-1[wu]|2PZF1|U Ultra)(?:[);/ ]|$)",
  pat! "(?i)(?:U11 plus|(?:HTC_)?2Q4D[12]00)(?:[);/ ]|$)",
  pat! "(?i)(?:HTC )?(?:U12\\+|2Q55[13]00)(?:[);/ ]|$)",
  pat! "(?i)U(1[12]) life(?:[);/ ]|$)",
  pat! "(?i)2Q6E1(?:[);/ ]|$)",
  pat! "(?i)(?:U11 Eyes|2Q4R100)(?:[);/ ]|$)",
  pat! "(?i)XV6975(?:[);/ ]|$)",
  pat! "(?i)PG86100(?:[);/ ]|$)",
  pat! "(?i)PC36100(?:[);/ ]|$)"]

/-- `__dr_re`, from item 3000 on (device_repo.go:21336-21585). -/
def drRe_12 : List (List Chunk) := [
  pat! "(?i)HTC[_ ]D628u",
  pat! "(?i)(?:HTC[_ ])?(?:HTV33|601HT|2PZC100|2PZC5|U-3[uw])(?:[);/ ]|$)",
  pat! "(?i)(?:HTC_)?(?:801e|802[wdt]|PN071)",
  pat! "(?i)PJ83100(?:[);/ ]|$)",
  pat! "(?i)HTC[_ ]PO582(?:[);/ ]|$)",
  pat! "(?i)(?:HTC_?)?(?:One[ _]?Mini[ _]?2|M8MINx)(?:[);/ ]|$)",
  pat! "(?i)X2-HT(?:[);/ ]|$)",
  pat! "(?i)HTC 2PXH3(?:[);/ ]|$)",
  pat! "(?i)ISW13HT(?:[);/ ]|$)",
  pat! "(?i)HTL22(?:[);/ ]|$)",
  pat! "(?i)(?:HTC U23 pro|2QC9200)(?:[);/ ]|$)",
  pat! "(?i)(?:HTL23|HTV31)(?:[);/ ]|$)",
  pat! "(?i)HTCButterflys901s(?:[);/ ]|$)",
  pat! "(?i)(?:HTC[_ ])?(?:M9pw|One M9 ?PLUS)(?:[);/ ]|$)",
  pat! "(?i)(?:HTC[_ ]M9u|0PJA2|0PJA10|HTC One M9|HTC6535LVW)(?:[);/ ]|$)",
  pat! "(?i)One[ _](X9|[EM]8) dual sim(?:[);/ ]|$)",
  pat! "(?i)Desire[ _]([\\d\\w]+) dual sim(?:[);/ ]|$)",
  pat! "(?i)HTC(?: One m7|6500LVW|PN071)(?:[);/ ]|$)",
  pat! "(?i)(?:One M8|HTC6525LVW|HTC[_ ]M8[xd]|HTC[_ ]0P6B|HTCOneM8)(?:[);/ ]|$)",
  pat! "(?i)HTC ?One ?M8 ?Eye(?:[);/ ]|$)",
  pat! "(?i)(?:HTC_)?(?:0PAJ5|M8Sx)(?:[);/ ]|$)",
  pat! "(?i)HTC[_ ]E9x(?:[);/ ]|$)",
  pat! "(?i)HTC[_ ]?(?:One[_ ])?E9(?:pw|PLUS dual sim)(?:[);/ ]|$)",
  pat! "(?i)HTC_S9u(?:[);/ ]|$)",
  pat! "(?i)HTC6515LVW(?:[);/ ]|$)",
  pat! "(?i)X525a(?:[);/ ]|$)",
  pat! "(?i)(?:2PQ9(?:3|10)|HTC[_ ]A9u)(?:[);/ ]|$)",
  pat! "(?i)2PS64|HTC6545LVW|HTC[_ ]M10h",
  pat! "(?i)(710C)(?:[);/ ]|$)",
  pat! "(?i)0PM92(?:[);/ ]|$)",
  pat! "(?i)(?:HTC_)?0PCV[12](?:[);/ ]|$)",
  pat! "(?i)HTC ?D160LVW(?:PP)?(?:[);/ ]|$)",
  pat! "(?i)HTC[_ ]D310n(?:[);/ ]|$)",
  pat! "(?i)HTC[_ ]v01(?:[);/ ]|$)",
  pat! "(?i)608t(?:[);/ ]|$)",
  pat! "(?i)HTC_(?:0P9O2|D610x)(?:[);/ ]|$)",
  pat! "(?i)HTC[_ ]?(0P4E[12])(?:[);/ ]|$)",
  pat! "(?i)HTC_?D620h(?:[);/ ]|$)",
  pat! "(?i)HTC[_ ]?(?:D626ph|D200LVWPP)(?:[);/ ]|$)",
  pat! "(?i)HTC_?(?:0P9C2|D816[xd]?)(?:[);/ ]|$)",
  pat! "(?i)HTC_?D526h(?:[);/ ]|$)",
  pat! "(?i)2Q8L10000(?:[);/ ]|$)",
  pat! "(?i)Desire620G(?:[);/ ]|$)",
  pat! "(?i)EXODUS 1(?:[);/ ]|$)",
  pat! "(?i)HTC 2Q7A100(?:[);/ ]|$)",
  pat! "(?i)HTC Desire 10 compact(?:[);/ ]|$)",
  pat! "(?i)HTC_D10i(?:[);/ ]|$)",
  pat! "(?i)HTC[ _](?:10[ _]evo|M10f)(?:[);/ ]|$)",
  pat! "(?i)HTC Desire (\\d+) pro 5G(?:[);/ ]|$)",
  pat! "(?i)HTC Desire (\\d+) pro(?:[);/ ]|$)",
  pat! "(?i)Desire 10 lifestyle(?:[);/ ]|$)",
  pat! "(?i)(?:HTC[_ ])?TATTOO[_ ]A3288",
  pat! "(?i)HTC[ _-]P715a",
  pat! "(?i)HTC[ _-]Flyer Build",
  pat! "(?i)HTC[ _-](A10[13]) Plus",
  pat! "(?i)HTC[ _-](A10[0123])",
  pat! "(?i)HTC[ _-]Flyer[ _-]([\\w]{1,5})",
  pat! "(?i)HTC(?:[ _-])?(?:One[ _-]max|6600LVW|0P3P7)(?:[);/ ]|$)",
  pat! "(?i)USCCHTC(\\d+)",
  pat! "(?i)Sprint (ATP.*) Build",
  pat! "(?i)Sprint (APA.*) Build",
  pat! "(?i)Wildfire (E3) lite",
  pat! "(?i)Wildfire (E) star",
  pat! "(?i)Wildfire (E2?) plus",
  pat! "(?i)HTC[ _]([^/;]+) [0-9]+(?:\\.[0-9]+)+ Build",
  pat! "(?i)HTC[ _]([^/;]+) Build",
  pat! "(?i)HTC[ _]([a-z0-9]+[ _-]?(?:[a-z0-9_+\\-])*)",
  pat! "(?i)(?:HTC-)?HTC(?:[-/ ])?([a-z0-9\\-_]+)",
  pat! "(?i)HTC;(?: )?([a-z0-9 ]+)",
  pat! "(?i)(Desire|Sensation|Evo ?3D|IncredibleS|Wildfire|Butterfly)[ _]?([^;/)]+)(?: Build|[);])",
  pat! "(?i)(Amaze[ _]4G|One ?[XELSV\\+]*) Build",
  pat! "(?i)(ADR[^;/]+) Build",
  pat! "(?i)(ADR[a-z0-9]+)",
  pat! "(?i)HTV32(?:[);/ ]|$)",
  pat! "(?i)HAFURY|(?:GT20|MEET)(?:[);/ ]|$)",
  pat! "(?i)GT20(?:[);/ ]|$)",
  pat! "(?i)(MIX|UMAX|MEET)",
  pat! "(?i)Haier|(?:M53-52401|I6_Infinity|Titan[ _]T[135]|(?:HW-)?W(?:71[67]|757|86[07]|970)|S5 Silk|(?:HM-)?(N505|N700|G(?:152|303|353|552|70[01])?-FL|HM-(?:I559|N50[15]|I560|G553|N70[01])-FL|HR-V101|G(?:303)?-W|I(?:557)?-FL)|(?:PAD[ _](?:D71|G781|d85))|A2_Lite_NFC|A4_Lite|HL810G|Andromax C46B2H|OLED TV S9|MINTAKA|android 8([\\d.]*);(?: [\\w-]+;)? E13)(?:[);/ ]|$)|Android [67](?:[\\d.]*);(?: [\\w-]+;)? P2(?: Build|[;)])",
  pat! "(?i)E13(?:[);/ ]|$)",
  pat! "(?i)P2(?: Build|[;)])",
  pat! "(?i)(?:HM-)?(G(?:152|353|552|70[01])|G(?:303)|I(?:557))",
  pat! "(?i)(Titan[_ ]T[135]|I6_Infinity)",
  pat! "(?i)(?:HW-)?W(71[67]|757|86[07]|970)(?:[);/ ]|$)",
  pat! "(?i)MINTAKA(?:[);/ ]|$)",
  pat! "(?i)PAD[ -_](D71|G781|d85)",
  pat! "(?i)(HL810G|HR-V101|M53-52401)",
  pat! "(?i)Haier MatrixTV AEL(?:[);/ ]|$)",
  pat! "(?i)Haier[ _-](H[WT]-[^/;]+) Build",
  pat! "(?i)Haier[ _-](H[WT]-[a-z0-9_-]+)",
  pat! "(?i)Haier[ _-](sy[0-9]+)",
  pat! "(?i)Haier[ _-]([a-z0-9-]+)",
  pat! "(?i)Haipai ?noble S6",
  pat! "(?i)Haixu[_ ]?([^;/)]+)( Build|[;)])",
  pat! "(?i)Hamlet[ _]|XZPAD412LTE",
  pat! "(?i)(?:Hamlet[ _])?XZPAD(412W|412LTE)",
  pat! "(?i)(?:Hammer[_ ](?:Construction_?(?:2_Thermal_5G|2_5G)?|Explorer[_ ](?:Plus|Pro)|FORCE|Blade_[34]|Blade2_PRO|Blade_5G|IRON_[234](?:[_ ]LTE)?|IRON|Explorer|ENERGY(?:_18x9|_2_2022|_[2X])?|Titan 2|Active2?(?:_LTE)?)|Iron[_ ](?:2|Va)|Blade V 5G)(?:[);/ ]|$)",
  pat! "(?i)Hammer[_ ]Construction_2_Thermal_5G",
  pat! "(?i)Hammer[_ ]Construction_2_5G",
  pat! "(?i)Hammer[_ ]Construction",
  pat! "(?i)Hammer[_ ]Explorer[_ ]Plus",
  pat! "(?i)Hammer[_ ]Explorer[_ ]Pro",
  pat! "(?i)HAMMER[ _]ENERGY_2_2022",
  pat! "(?i)HAMMER[ _]ENERGY[ _](18x9|3G|\\d+|X)",
  pat! "(?i)HAMMER[ _]ENERGY",
  pat! "(?i)Hammer[_ ]FORCE",
  pat! "(?i)(?:Hammer[ _])?Iron[ _]([234]|Va?)",
  pat! "(?i)Hammer[ _]Iron",
  pat! "(?i)Hammer[ _]Explorer",
  pat! "(?i)Hammer Active(?:[);/ ]|$)",
  pat! "(?i)Hammer_Active2(?:[);/ ]|$)",
  pat! "(?i)Hammer_Active2_LTE(?:[);/ ]|$)",
  pat! "(?i)Hammer_Blade_([34])",
  pat! "(?i)(?:ALGIZ_RT8|NAUTIZ_X2)(?:[);/ ]|$)",
  pat! "(?i)(NAUTIZ_X2)(?:[);/ ]|$)",
  pat! "(?i)(ALGIZ_RT8)(?:[);/ ]|$)",
  pat! "(?i)(HSG[0-9]{4})|SN97T41W|SN1AT71W\\(B\\)|SN70T51A|SN70T31?|T7-QC",
  pat! "(?i)(HSG[0-9]{4})",
  pat! "(?i)SN1AT71W\\(B\\)",
  pat! "(?i)Hanson[_ ]?([^;/)]+)( Build|[;)])",
  pat! "(?i)ODROID[-]?(C2|[NU]2|XU[34])(?:[);/ ]|$)",
  pat! "(?i)HARPER|(?:HARPER[_ ])?(?:ABX-332|ABX-[12]10|24R470TS|32R750TS|32R670TS|40F660TS|40F750TS|43U750TS|24R490TS|65U660TS|43F6[69]0TS|50U660TS|32R751TS|43F750TS|85U750TS)(?:[);/ ]|$)",
  pat! "(?i)(?:HARPER[_ ])?(ABX-332|ABX-[12]10|32R751TS|40F660TS|24R490TS|65U660TS|50U660TS)",
  pat! "(?i)(?:HARPER[ _-]?)?(\\d{2}[QUFR]\\d{3}TS)(?:[);/ ]|$)",
  pat! "(?i)(HTY[_-]\\d{2}\\w+-(?:S2|H[ACK]22|S2-T9|V[DNZS])|HTY-32HDR06G|HTY_43FHD06B|HTY-43F06B-VZ|HTY-50UHD05B|HTY-24H06W-VZ(?:-M)?|HTV-55U11B-VS|43F01)(?:[);/ ]|$)",
  pat! "(?i)43F01(?:[);/ ]|$)",
  pat! "(?i)HT([YV])[_-](\\d{2}(?:[^/;)]+))(?: Build|[);])",
  pat! "(?i)Hasee ([^;/]+) Build",
  pat! "(?i)Hasee ([^;/)]+)(?:[);/ ]|$)",
  pat! "(?i)(DVB-ATV100)(?:[);/ ]|$)",
  pat! "(?i)(?:Hpad[12]|Wpad3| F3A|W5A)(?:[);/ ]|$)",
  pat! "(?i)Hpad([12])",
  pat! "(?i)Wpad(3)",
  pat! "(?i)F3A(?:[);/ ]|$)",
  pat! "(?i)W5A(?:[);/ ]|$)",
  pat! "(?i)HEIMAT[ _](H43PU2303SVF|H65PU2303SVF)(?:[);/ ]|$)",
  pat! "(?i)Helio (S60|S5)(?:[);/ ]|$)",
  pat! "(?i)Tab1000(?:[);/ ]|$)",
  pat! "(?i)(?:HB_X7)(?:[);/ ]|$)",
  pat! "(?i)(HTB801|HBook-Pro)(?:[);/ ]|$)",
  pat! "(?i)(?:Boost(?:[ _](?:Hypa|Max|Ultra))?(?: Build|[;)])|HMR(?:5012|5450)|Crusader|(?:VHIX-)?VHIX-\\w+(?:-[A-Z])?|HX-(?:\\d{2}[FHU]\\d{2}FB)|43FSY112X[bcd]?|32HSY119X|39HSY111X|55USY151X|50USY151X|65USY151X)(?:[);/ ]|$)",
  pat! "(?i)Boost[ _](Hypa|Max|Ultra)(?:[);/ ]|$)",
  pat! "(?i)Boost(?:[);/ ]|$)",
  pat! "(?i)HMR5012(?:[);/ ]|$)",
  pat! "(?i)(HMR5450|Crusader)(?:[);/ ]|$)",
  pat! "(?i)HX-(\\d{2}[FHU]\\d{2}FB)",
  pat! "(?i)(?:VHIX-)?VHIX-(\\w+)",
  pat! "(?i)(32HSY119X|39HSY111X|55USY151X|43FSY112X[bcd]?|50USY151X|65USY151X)(?:[);/ ]|$)",
  pat! "(?i)(?:Hebe|Hera|Hinova)-BD00|(?:ALH-BD00|MGZ-BD00|FIO-BD00|MIZ-BD00|MNT-BD00|SUP-BD00|MRK-BD00)(?:[);/ ]|$)",
  pat! "(?i)Hinova-BD00|MIZ-BD00",
  pat! "(?i)HLV-T([a-z0-9]+)",
  pat! "(?i)(?:R6III)(?:[);/ ]|$)",
  pat! "(?i)(OC101)(?:[);/ ]|$)",
  pat! "(?i)HIHI-(4[01])KH-TAB-0?1",
  pat! "(?i)HIKING[_ ]|(?:HK-MH501|Fun5)(?:[);/ ]|$)",
  pat! "(?i)HIKING[_ ]([^/;)]+)(?: Build|[);])",
  pat! "(?i)HK-(MH501)",
  pat! "(?i)HIMAX[_ ]|PURE_III(?:[);/ ]|$)",
  pat! "(?i)POLYMER( X)?",
  pat! "(?i)HIMAX[_ ]PURE[_ ]3S",
  pat! "(?i)(?:32Y_STV-R|HIBERGQLED\\d{2}Y|HIBERG\\d{2}YUHD(?:-R)?|(?:5[05]|43|65)YUHD-R)(?:[);/ ]|$)",
  pat! "(?i)HIBERGQLED(\\d{2}Y)(?:[);/ ]|$)",
  pat! "(?i)(?:HIBERG)?(\\d{2})YUHD-R",
  pat! "(?i)HIBERG(\\d{2})YUHD",
  pat! "(?i)(32Y_STV-R)",
  pat! "(?i)HIGHSCREEN|(Easy[- ]Power(?:[- ]Pro)?|Pure[_ ](?:Power|F)|Power Ice(?: Max)?|Easy[_ ]([SFL]|XL)(?:_Pro)?|Razar_Pro|Power Rage(?: Evo)?|Zera-S-Power|Zera[ _][UFS]|Power[ _]?Five[ _]?(?:Pro|Evo|Max|Max(?:Lite|2))|Power(?:Four|Five)|BOOST II(?:se)?|Fest(?:XL)?(?:-Pro)?|Tasty|Boost3|Boost 3(?: Pro)? SE|Expanse|Explosion|Hercules|Alpha Rage|VergeM|Ice2|Prime [LS]|Spade|Spark 2|Alpha GT[RX]|Wallet|Thunder|Razar|COSMO DUO|Prime Mini SE| Bay|Omega Q)(?:[);/ ]|$)",
  pat! "(?i)(Power Ice(?:[ ](?:Max|Evo))?|Power Rage(?: Evo)?|Zera[ _][UFS]|Alpha GT[RX]|Wallet)(?:[);/ ]|$)",
  pat! "(?i)PowerFivePro(?:[);/ ]|$)",
  pat! "(?i)PowerFiveMaxLite(?:[);/ ]|$)",
  pat! "(?i)PowerFiveMax2(?:[);/ ]|$)",
  pat! "(?i)Power Five Evo(?:[);/ ]|$)",
  pat! "(?i)Power Five Max(?:[);/ ]|$)",
  pat! "(?i)Power[_ ]?Five(?:[);/ ]|$)",
  pat! "(?i)Spade(?:[);/ ]|$)",
  pat! "(?i)Spark 2(?:[);/ ]|$)",
  pat! "(?i)FestXL-Pro(?:[);/ ]|$)",
  pat! "(?i)FestXL(?:[);/ ]|$)",
  pat! "(?i)Fest-Pro(?:[);/ ]|$)",
  pat! "(?i)Fest(?:[);/ ]|$)",
  pat! "(?i)Bay(?:[);/ ]|$)",
  pat! "(?i)PowerFour(?:[);/ ]|$)",
  pat! "(?i)Pure[_ ]Power(?:[);/ ]|$)",
  pat! "(?i)Pure[ _]F(?:[);/ ]|$)",
  pat! "(?i)Razar_Pro(?:[);/ ]|$)",
  pat! "(?i)Razar(?:[);/ ]|$)",
  pat! "(?i)Easy[_ ]([SLF]|XL)[_ ]Pro(?:[);/ ]|$)",
  pat! "(?i)Easy[_ ]([SFL]|XL)(?:[);/ ]|$)",
  pat! "(?i)(?:HIGHSCREEN )?Easy[- ]Power[- ]Pro(?:[);/ ]|$)",
  pat! "(?i)(?:HIGHSCREEN )?Easy-Power(?:[);/ ]|$)",
  pat! "(?i)BOOST II(?:[);/ ]|$)",
  pat! "(?i)BOOST IIse(?:[);/ ]|$)",
  pat! "(?i)Boost 3 SE(?:[);/ ]|$)",
  pat! "(?i)Boost 3 Pro SE(?:[);/ ]|$)",
  pat! "(?i)BOOST3(?:[);/ ]|$)",
  pat! "(?i)Zera-S-Power(?:[);/ ]|$)",
  pat! "(?i)Tasty(?:[);/ ]|$)",
  pat! "(?i)VergeM(?:[);/ ]|$)",
  pat! "(?i)WinWin(?:[);/ ]|$)",
  pat! "(?i)Expanse(?:[);/ ]|$)",
  pat! "(?i)Hercules(?:[);/ ]|$)",
  pat! "(?i)Alpha Rage(?:[);/ ]|$)",
  pat! "(?i)Ice2(?:[);/ ]|$)",
  pat! "(?i)Prime Mini SE(?:[);/ ]|$)",
  pat! "(?i)Prime ([LS])(?:[);/ ]|$)",
  pat! "(?i)HS_|10DTB12(?:[);/ ]|$)",
  pat! "(?i)HS_9DTB39(?:[);/ ]|$)",
  pat! "(?i)10DTB12(?:[);/ ]|$)",
  pat! "(?i)HS_([a-z0-9]+)(?:[);/ ]|$)",
  pat! "(?i)Hiremco|(?:Matador Pro Air|X6-PRO|MATADOR[- ]PRO|Matador)(?:[);/ ]|$)",
  pat! "(?i)MATADOR[- ]PRO",
  pat! "(?i)HIREMCO(?:[);/ ]|$)",
  pat! "(?i)(?:HS-)?Hisense ([^;/]+) Build|Hisense|HS-(?:G|U|EG?|I|L|T|X)[0-9]+[a-z0-9-]*|HNR(?:320T|55[01]T)|E270BSA|HWCD100E|HITV300C|HITV205N|M470BS[AE]|E2281|HAT4KDTV|HITV10[12]C|HLTE(?:[237]00T|229T|200M|203T|202N|21[023567][TM]|22[67]T|22[13]E|230E|239E|103E|310[TM]|31[16]T|500T|501N|510[TM]|556N|7[23]0T|720E|M800)|KS(?:907|964)|U972|U601S Pro|U972_Pro|HiSmart [24]K ATV4|HiSmartTV A4",
  pat! "(?i)HITV10[12]C",
  pat! "(?i)M470BS[AE]",
  pat! "(?i)E50s \\d+GB|HLTE239E",
  pat! "(?i)HLTE221E|E MAX(?:[);/ ]|$)",
  pat! "(?i)HLTE200T(?:[);/ ]|$)",
  pat! "(?i)HLTE210T(?:[);/ ]|$)",
  pat! "(?i)HLTE215T(?:[);/ ]|$)",
  pat! "(?i)HLTE213T(?:[);/ ]|$)",
  pat! "(?i)HLTE311T(?:[);/ ]|$)",
  pat! "(?i)HLTE216[TM](?:[);/ ]|$)",
  pat! "(?i)HLTE316T(?:[);/ ]|$)",
  pat! "(?i)HLTE226T(?:[);/ ]|$)",
  pat! "(?i)F8 MINI(?:[);/ ]|$)",
  pat! "(?i)HLTE217T(?:[);/ ]|$)",
  pat! "(?i)HLTE227T(?:[);/ ]|$)",
  pat! "(?i)HNR550T(?:[);/ ]|$)",
  pat! "(?i)HNR551T(?:[);/ ]|$)",
  pat! "(?i)HLTE310[TM](?:[);/ ]|$)",
  pat! "(?i)HLTE510[TM](?:[);/ ]|$)",
  pat! "(?i)HLTE500T(?:[);/ ]|$)",
  pat! "(?i)(?:HLTE230E|Infinity H40 Lite)(?:[);/ ]|$)",
  pat! "(?i)HLTE720T(?:[);/ ]|$)",
  pat! "(?i)HWCD100E(?:[);/ ]|$)",
  pat! "(?i)(HLTE300T|HLTE200M|HLTE212T)(?:[);/ ]|$)",
  pat! "(?i)HITV300C(?:[);/ ]|$)",
  pat! "(?i)E260T\\+(?:[);/ ]|$)",
  pat! "(?i)(U972|U601S)[ _]Pro(?:[);/ ]|$)",
  pat! "(?i)Infinity H([56]0) ZOOM(?:[);/ ]|$)",
  pat! "(?i)Infinity E30SE(?:[);/ ]|$)",
  pat! "(?i)(HS-(?:G|U|EG?|I|L|T|X)[0-9]+[a-z0-9-]*|U972)",
  pat! "(?i)(HAT4KDTV|HiSmart [24]K ATV4|HiSmartTV A4)(?:[);/ ]|$)",
  pat! "(?i)Hisense;SmartTV;([a-z0-9_ -]+)V[ST];",
  pat! "(?i)Hisense;SmartTV;([a-z0-9_ -]+);",
  pat! "(?i)Hisense; ?SmartTV_([0-9]{4})_1;",
  pat! "(?i)(HE43A6500UWTS)",
  pat! "(?i)HITV205N(?:[);/ ]|$)",
  pat! "(?i)KS964(?:[);/ ]|$)",
  pat! "(?i)(?:HS-)?Hisense (U3) 2021(?: Build|[);])",
  pat! "(?i)(?:HS-)?Hisense ([^;/)]+) Pro(?: Build|[);])"]

/-- `__dr_re`, from item 3250 on (device_repo.go:21586-21835). -/
def drRe_13 : List (List Chunk) := [
  pat! "(?i)(?:HS-)?Hisense ([^;/)]+) Plus(?: Build|[);])",
  pat! "(?i)(?:HS-)?Hisense ([^;/)]+)(?: Build|[);])",
  pat! "(?i)(?:HS-)?Hisense ([^/]+)/",
  pat! "(?i)HITACHI[;,]",
  pat! "(?i)HITACHI, ?([0-9]+[a-z0-9_ -]+), ?(?:wired|wireless)",
  pat! "(?i)(Amaze[ _](?:S2_4G|S[56] 4G|S1|S[56](?: Plus)?))(?:[);/ ]|$)",
  pat! "(?i)(HOFFMANN|Neo[_ ]A[1379]00|X-Go|X-Play|X-Pro|X_Ultra|X-Max)(?:[);/ ]|$)",
  pat! "(?i)Neo[_ ](A[1379]00)",
  pat! "(?i)HOFFMANN[ _]X[-_ ](Prime|Twist|Max)",
  pat! "(?i)X[-_](Play|Go|Pro|Ultra|Max)",
  pat! "(?i)(Box Q|Box R 4K Plus|Box R (?:Lite )?4K| KP1|Dongle G 4K)(?:[);/ ]|$)",
  pat! "(?i)(?:Ideal (?:10S|Tab [79]|8S)|ALFA(?:10T[BX]|7LM)|ALFA10TX_PRO|ALFA[_ ](?:10R[CX]|10BS|10TM?|8TX?|10MB|10YC|7RS|[78]M?RC|7M|8S[TL]|8RX|8MG|11 BT|10BT_V2)|HT[ _](?:7RT|8MZ)|7_PREMIUM_PRO)(?:[);/ ]|$)",
  pat! "(?i)(Ideal (?:10S|Tab 9|8S))(?:[);/ ]|$)",
  pat! "(?i)ALFA[_ ]?10TX_PRO",
  pat! "(?i)ALFA[_ ]?(10R[CX]|10YC|10BS|10T[BMX]?|7RS|[78]M?RC|7L?M|10MB|8TX?|8S[TL]|8RX|8MG|11 BT|10BT_V2)(?:[);/ ]|$)",
  pat! "(?i)Ideal Tab 7 Ips( 3G)?",
  pat! "(?i)HT[ _](7RT|8MZ)(?:[);/ ]|$)",
  pat! "(?i)Homtom|(?:HT[0-9]{1,2}(?: ?Pro)?|HT3_Pro|P30 Pro|android 8([\\d.]*);(?: [\\w-]+;)? S17)(?:[);/ ]|$)",
  pat! "(?i)(?:Homtom[_ ])?HT ?([0-9]{1,2})[ _]?Pro(?:[);/ ]|$)",
  pat! "(?i)(?:Homtom[_ ])?HT ?([0-9]{1,2}?)(?:[);/ ]|$)",
  pat! "(?i)Homtom ([^;/]+) Build",
  pat! "(?i)(?:EDA5[01]K?|EDA[47]0|EDA71_G|EDA5[12]|CK65|CT[46]0|CT45P|CN80|EDA61K)(?:[);/ ]|$)",
  pat! "(?i)(CT45P)(?:[);/ ]|$)",
  pat! "(?i)(EDA5[01]K?|EDA[47]0|EDA5[12]|EDA61K)(?:[);/ ]|$)",
  pat! "(?i)(CK65|CT[46]0|CN80)(?:[);/ ]|$)",
  pat! "(?i)(?:HONOR[ _]?|HW-)?(?:FCP-(?:N49|AN10)|AGM3-(?:W|AL)09HN|LGN-LX[1-3]|HEY3-(?:W00|N09)|HEY2-N09|HEY2?-W09|ELN2-[WL]29|ELN-(?:L0[39]|W09)|AGR-(?:W|AL)09HN|NDL-[LW]09|AGM-W09HN|KOB2-(?:AL00|W09)HN|BRT-(?:AN09|W09)|KRJ2-(?:AN00|W09)|ROD-W[01]9|ROD2-(?:W09|W69)|ROL-W[06]0|GDI-W09|NIC-(?:LX[1-3]|AN00)|WOD-LX[1-3]|AGI-AN00|BRP-(?:NX[13]|NX1M|AN[08]0)|BRC-(?:AN00|NX1)|LYN-AN00|ALP-AN00|ALI-(?:NX[13]|AN00)|LLY-AN00|CRT-(?:NX[13]|LX[123]|AN00)|GFY-(?:LX2|LX2P)|VNA-(?:LX[23])|ANY-(?:LX[123]|NX1)|DNP-(?:NX9|AN00)|DNY-NX9|RMO-(?:NX[13]|AN00)|ADT-AN00|DIO-AN00|CLK-AN00|HJC-(?:LX9|AN90)|KOZ-(?:AL00|AL00CM|AL40)|CHL-A[NL]00|CMA-(?:AN[04]0|LX[123])|NEW-AN90|NZA-AL00?|ALT-(?:AN00|LX[123]|NX[13])|CLK-(?:[LN]X[123])|RKY-(?:LX[123]|AN[01]0)|NNH-AN00|VNE-(?:AN[04]0|LX[123]|N41)|JDY-(?:AN00|LX[123])|DVD-AN[08]0|PTP-(?:AN[01267]0|N[245]9)|BVL-(?:AN[02]0|N[45]9|AN16)|MGI-AN00|PGT-(?:N[01]9|AN[012]0)|LGE-(?:AN[012]0|NX9|N49B)|GBD-NX9|ELZ-AN[012]0|FLC-AN00|FRI-(?:AN[10]0|NX9)|VER-(?:AN[01]0|N49|N49DP)|AMP-AN[01]0|AMM-AN00|HPB-AN00|GIA-AN[08]0|ANN-AN00|ANB-AN00|AGT-AN00|ANP-AN00|SDY-AN00|FNE-(?:NX9|AN00)|MAA-AN00|MAA-AN10|REP-AN00|MAG-AN00|REA-(?:NX9|AN00)|RTG-NX9|AMG-AN00|VCA-AN00|TNA-AN00|LSA-AN00|RNA-[AT]N00|NTN-(?:LX[13]|L22|AN20)|NTH-(?:NX9|AN00)|WDY-(?:LX[123]|AN00)|ELP-(?:AN00|NX9)|ELI-(?:AN00|NX9)|LLY-NX1|ABR-(?:NX1|LX[123]|AN00)|LLY-LX[123]|RBN-NX[13]|DNN-AN00|MTN-(?:NX1M?|AN[08]0)|JLH-AN00|MBH-(?:AN10|N49)|BKQ-(?:AN10|N49)|CLE-AN00|ELA-LX[23]|TFY-(?:LX[123]|AN40)|LRA-AN00|LOG-AN00|PPG-AN00|NLA-LX2P?|MEP-AN00|MEY-AN00)(?:[);/ ]|$)",
  pat! "(?i)MBH-(?:AN10|N49)",
  pat! "(?i)ELA-LX[23]",
  pat! "(?i)BKQ-(?:AN10|N49)",
  pat! "(?i)ALT-LX[123]",
  pat! "(?i)LGN-LX[1-3]",
  pat! "(?i)DVD-AN[08]0",
  pat! "(?i)FCP-(?:AN10|N49)",
  pat! "(?i)MTN-AN[08]0",
  pat! "(?i)ABR-LX[123]",
  pat! "(?i)ELI-(?:AN00|NX9)",
  pat! "(?i)ELP-(?:AN00|NX9)",
  pat! "(?i)BVL-AN16|BVL-N49",
  pat! "(?i)BVL-(?:AN20|N59)",
  pat! "(?i)PTP-(?:AN[06]0|N29)",
  pat! "(?i)PTP-(?:AN20|N59)",
  pat! "(?i)PTP-(?:N49|AN[17]0)",
  pat! "(?i)BRP-(?:NX3|NX1M)",
  pat! "(?i)DNN-AN00|DNY-NX9",
  pat! "(?i)DNP-NX9|DNP-AN00",
  pat! "(?i)BRP-NX1",
  pat! "(?i)NLA-LX[23]",
  pat! "(?i)BRP-AN[08]0",
  pat! "(?i)WOD-LX[1-3]",
  pat! "(?i)NIC-LX[1-3]",
  pat! "(?i)RKY-LX[123]",
  pat! "(?i)CLK-LX[123]",
  pat! "(?i)CRT-LX[123]",
  pat! "(?i)LLY-LX[123]",
  pat! "(?i)WDY-LX[123]",
  pat! "(?i)JDY-LX[123]",
  pat! "(?i)CRT-NX[13]",
  pat! "(?i)CLK-NX[13]",
  pat! "(?i)REA-(?:NX9|AN00)|RTG-NX9",
  pat! "(?i)VER-(?:AN10|N49)",
  pat! "(?i)MGI-AN00|PGT-(?:N09|AN00)",
  pat! "(?i)PGT-(?:AN10|N19)",
  pat! "(?i)CMA-LX[123]",
  pat! "(?i)TFY-LX[123]",
  pat! "(?i)LGE-(?:AN10|NX9|N49B)|GBD-NX9",
  pat! "(?i)ANY-(?:NX1)",
  pat! "(?i)ANY-LX[23]",
  pat! "(?i)VNA-LX[23]",
  pat! "(?i)VNE-LX[123]",
  pat! "(?i)NTH-(?:NX9|AN00)",
  pat! "(?i)NTN-(?:LX[13]|L22)(?:[);/ ]|$)",
  pat! "(?i)RNA-[AT]N00",
  pat! "(?i)(?:NZA-AL00?|KOZ-AL40)(?:[);/ ]|$)",
  pat! "(?i)ELN-L0[39]",
  pat! "(?i)(?:HOOZO[_ ](MT232|MT116|MT Pad 116 LTE|X1001)|F13_EEA|MZ104|HZ0010J?|HZ1012|YK_P30(?:_EEA)?)(?:[);/ ]|$)",
  pat! "(?i)HOOZO[_ ](MT232|MT116|MT Pad 116 LTE|X1001|MZ104)(?:[);/ ]|$)",
  pat! "(?i)(HZ0010J?|HZ1012)(?:[);/ ]|$)",
  pat! "(?i)F13_EEA(?:[);/ ]|$)",
  pat! "(?i)(YK_P30)(?:_EEA)?(?:[);/ ]|$)",
  pat! "(?i)HY(?:416|820)(?:[);/ ]|$)",
  pat! "(?i)HY(416|820)(?:[);/ ]|$)",
  pat! "(?i)(WEE5-75EU-FDVB)(?:[);/ ]|$)",
  pat! "(?i)(?:Horizont[_ ])?(32LE7011D|24LE7011D|43LE7022D|32LE705[12]D|65LE7053D|43LE7052D|50LE7053D|55LE7053D)",
  pat! "(?i)HOSIN[ _-]",
  pat! "(?i)HOSIN[ _-]([^;/]+) Build",
  pat! "(?i)HOSIN[ _-]([^;/]+)(?:[;/)]|$)",
  pat! "(?i)(?:HPP-(GS1|L55B)|VLE5|Puya|HPPL6[03]A)(?:[);/ ]|$)",
  pat! "(?i)(?:Venus[_ ](?:X[12]|X1[0245679]|R8 PLUS|R[236-9]|R1[028]|X16-1)|Cosmos[ _](?:V8_lite|V19_Plus|V2[0-3]|U2?|V1[359]|V[45689]|V8-2)|Pearl K[123]|Magic Q8|Magic 5 Plus|Magic (?:[89]|1[13])|Hot[_ ]6|Symbol (?:M1|X|Max|R60|Pro|S4)|Symbol|Note 12 EF|Cyber (?:[78X]|1[35])|Cyber (?:9|1[36]|X) Pro|Cosmos|W10 Pro|TAB R8|TAB R[57]|TAB R[69] (?:Pro|Ultra|Plus)|T5 Pro| M5i|Hyper 7(?: Pro|S)?|Note 18 GT)(?:[);/ ]|$)|(?:Android 8(?:[\\d.]*);(?: [\\w-]+;)? M5 Plus|Android 12(?:[\\d.]*);(?: [\\w-]+;)? W10|Android 13(?:[\\d.]*);(?: [\\w-]+;)? (?:T7(?: Pro)?|T5 Max|W11))(?: Build|[;)])",
  pat! "(?i)Cosmos[ _]V8_lite(?:[);/ ]|$)",
  pat! "(?i)Hot[_ ]6?(?:[);/ ]|$)",
  pat! "(?i)Venus[_ ]X16(?:-1)?(?:[);/ ]|$)",
  pat! "(?i)Venus[_ ](X[12]|X1[0245679]|R[236-9]|R1[028])(?:[);/ ]|$)",
  pat! "(?i)Cyber (\\d*|X) Pro",
  pat! "(?i)Cyber (\\d*)",
  pat! "(?i)Symbol (S4|M1)",
  pat! "(?i)(W10|T[57]) Pro",
  pat! "(?i)W10?(?:[);/ ]|$)",
  pat! "(?i)(T7)(?:[);/ ]|$)",
  pat! "(?i)M5i(?:[);/ ]|$)",
  pat! "(?i)W11(?:[);/ ]|$)",
  pat! "(?i)Pearl K(3) (2021)",
  pat! "(?i)TAB R([569]) Pro",
  pat! "(?i)TAB R([9]) Plus",
  pat! "(?i)TAB R([578])",
  pat! "(?i)(Cosmos[ _](?:V19_Plus|V2[0-3]|U2?|V1[359]|V[45689])|Pearl K[123](?: Prime)?|Magic Q8|Magic 5 Plus|Magic (?:[89]|1[13])|Symbol (?:X|Max)|Cosmos|M5 Plus)(?:-2)?(?:[);/ ]|$)",
  pat! "(?i)(?:HT-705XS|705-G Go|1001-G Go)(?:[);/ ]|$)",
  pat! "(?i)(HT-705XS)(?:[);/ ]|$)",
  pat! "(?i)(1001-G Go)(?:[);/ ]|$)",
  pat! "(?i)(705-G Go)(?:[);/ ]|$)",
  pat! "(?i)Huadoo[ _]|(?: HG11)(?:[);/ ]|$)",
  pat! "(?i)Huadoo[ _](HG0[46]|HG11|V[34])",
  pat! "(?i)HG11(?:[);/ ]|$)",
  pat! "(?i)Huagan[ _]",
  pat! "(?i)Huagan[ _]([^;/)]+)(?: Build|[);])",
  pat! "(?i)KHATAR H-(?:10 mini|20 PRO)(?:[);/ ]|$)",
  pat! "(?i)KHATAR H-10 mini(?:[);/ ]|$)",
  pat! "(?i)KHATAR H-20 PRO(?:[);/ ]|$)",
  pat! "(?i)Honor|Ideos (?:Build/|[;])|HONOR_H30-L01M|(?:HW-)?HUAWEI[_ ]?|EC6108V|dtab01|MediaPad (?:7|10)|(?:Build/HUAWEI|(?:HW-)?HUAWEI)?(?:d-01[HKJ]|d-02[HK]|JSN-(?:L2[1-3]|L42|[TA]L00[a]?)|YOK-AN10|ASK-AL(?:00x|20)|DNN-LX9|KANT-(?:3[67]0|370S|3[56]0S|350[BC]|3[56]9)|BLM-00|COL-(?:AL[01]0|TL[01]0|L29|L10)|JAT-(?:L29|LX[13]|L41|[AT]L00)|ARC-AL00|GLL-AL01|LEO-(?:BX9|DLXXE?)|TFY-(?:AN00)|BZD-(?:W00|AL00)|MXW-[AT]N00|BZT3-(?:AL00|W09)|BZI-(?:W[02]0|AL[02]0)|BZT-(?:AL[01]0|W09)|AGRK-[WL]09|T1-82(?:3L|1W)|MediaPad T1|T1-701u|T1-(?:A21[LW]|A2[23]L)|FDR-(A01[LW]|A03L)|60[56]HW|JDN-(?:L01|AL00|W09)|BGO-(?:DL09|L03)|PLE-70[13]L|BG2-(?:U0[13]|W09)|KOB-[LW]09|PE-(?:[CU]L00|TL[12]0|TL00M)|BZK-[LW]00|AGS-(?:L0[39]|W09)|OXP-AN00|AGR-[LW]09|KOB2-(?:[LW]09|L03)|Kobe3-L09|AGS2-(?:[LW]09|W09HN|W19|L03|AL00|AL00HN)|BAH-(?:L09|AL00)|BAH-W09|Bach-W09|ANY-AN00|BLN-(?:L2[124]|AL[1-4]0|TL[01]0)|CPN-(?:[LW]09|AL00)|701HW|BTV-(?:DL09|W09)|SCM-W09|VRD-(?:(AL|W)09|AL10|W10)|SHT-(?:AL|W)09|JDN2-(:?[WL]09|AL[50]0)|JDN2-(?:AL[05]0|W09)HN|BAH2-(?:AL[01]0|L09|W[01]9)|GEM-70[1-3]L|SCM-AL09|CMR-(?:AL[01]9|W09|W19)|WEB-W0[09]|PCE-W(?:29|[34]0)|PCT-(?:L29|[TA]L10)|WGR-AN19|WGRR?-W[10]9|MRX-(?:AN19|W[0-3]9|AL[01]9)|MRO-W09|MRR-W[23]9|M2-801W|M2-A01L|M2-80[123]L|LND-(?:AL[34]0|L29|TL[34]0)|BZT4-W19|BZW-AL[01]0|BZC-(?:W00|AL00)|BZA-[LW]00|MON-(?:W19|AL19B?)|HMW-W09|TGR-(?:W0[09]|W10)|BTKR-W09|BTK-(?:W09|AL09)|DBY2-(?:L09|L09CK|W0[09])|AGS5-(?:L09|AL00|W0[09])|AGS3K-(?:L09|W0[90]|W20)|AGS3-(A?L09|AL00|W00[DE]|AL09HN|W09HN|W0?9)|SCMR-(?:AL09|W09)|XYAO-W00|GOT-(?:W[02]9|AL[01]9)|DBR-W1[09]|BKY-W09|AGS6-[LW]09|DB[YR]-W09|BAH3-(?:AN10|AL00|[LW]09|W59)|BAH4-(?:L09|AL10|W29|W[03]9)|HWT31|BVE-W10|GRL-(?:AL10|LX9)|Nexus 6P|G6-L11|Ultym5|CM990|NMO-L31|302HW|LTK-LX3|JKM-(?:[TA]L00[ab]?|LX[123]|L03)|FLA-(LX[123]|AL20|TL10|L23)|AQM-(?:LX1|[AT]L[01]0)|Peppa-(?:L2[23]B|L0[23]B)|LDN-(?:LX[23]|TL10|L01|AL00|L21)|DUB-(?:LX[123]|TL00|AL20|AL00a?)|CAM-L(?:03|2[13]|32)|CAM-(?:[ATU]L00|TL00H)(?:_TD)?|Y635-(?:L21|L0[123])|Y625-U03|M[ER]D-LX2|Y6 Pro 2019|TIT-(?:AL00|L01|U02)|ATU-L(?:31|42)|Y6Prime|MRD-L(?:X1[NF]?|X3)|Y6 2019|ATU-L(?:11|2[12]|X3)|SCC-U21|(?:HW-)?SCL-(?:AL00|CL00|TL00H?|L21|U31|L0[1-4]|L32)(?:_TD)?|CUN-(?:L(?:[02][1-3]|33)|U29|[AT]L00)|DRA-(?:LX[2359]|[AT]L00|L0[13]|L2[13])|CAG-(?:L[02]3|L[02]2)|AMN-LX[1239]|MYA-(?:TL10|L(?:0[23]|2[123]|41|1[13])|AL10|U29)|LUA-(?:U22|L2[12]|U03)|CRO-(?:L[02][23]|U00)|ARS-(?:[AT]L00|L22)|U(?:8230|8661|8667)|ATH-(?:[CAU]L00|TL00H?|UL0[16])|MLA-(?:TL[01]0|AL10|L1[12])|VIE-(?:AL10|L[02]9)|SLA-L(?:02|03|22|23)|VNS-(?:L(?:[23]1|[26]2|5[23]|23)|[AT]L00)|EVA-(?:AL[10]0|L[012]9|[TCD]L00)|PRA-(?:LA1|LX[1-3]|AL00X?|TL10)|hi6210sft|ALE-(?:[TUC]L00|L02|L2[13])|503HW|GRA-(?:L09|[TU]L00|UL10)|ELS-(?:[AT]N00|NX9|N04|AN10|N[23]9)|NEY-NX9|ART-(?:L29N|L2[89]|[AT]L00[xm]?)|JNY-(?:LX[12]|L[02]1|[AT]L10)|VOG-(?:L(?:04|09|29)|[AT]L00|AL10)|HW-02L|Marie-L21BX|MAR-(?:LX(?:1[BMH]|2B|[13]Am?|2J?|3BM)|[AT]L00|L21B|L21ME[AB])|NIC-LX1A|HWV33|ELE-(?:[AT]L00|L0[49]|L29)|CLT-(?:AL0[01]|TL0[01]|L0J|L(?:04|[02]9))l?|HW-01K|ANE-(?:LX[123]|LX2J|L2[23]|TL00)|HWV32|EML-(?:[TA]L00|L[02]9)|VKY-(?:[AT]L00|L09|L29)|WAS-(?:L(?:X1|X1A|X2|X2J|X3|03T)|TL10|AL00)|VTR-(?:L[02]9|AL00|TL00)|P Smart S|STK-(?:LX[13]|[AT]L00|L2[12])|PPA-LX[123]|POT-(?:LX(?:[123]|1[AT]|2J|1AF)|AL00|L01)|FIG-L(?:A1|X[123]|[13]1)|HRY-(?:AL00T[a]?|LX1T|[AT]L00A?|LX2|LX1MEB)|STG-(?:LX[12]|AL00)|CTR-(?:LX[123]|AL[02]0|L[89]1)|CHW-LX3|GFY-(?:LX1|AL00)|HLK-(?:AL10|L4[12]|AL00a?)|EVE-LX[39]|WKG-(?:LX9|[AT]N00)|Wukong-L29A|nova Y60|Enjoy 20 5G|CHA-AL80|BNE-(?:LX[13]|AL00)|NCO-(?:AL00|LX[13])|GLA-(?:LX[13]|AL00)|JLN-(?:AL00|LX[13])|JuliaQN-(?:L[02]1B|L23A)|RTE-AL00|NAM-(?:AL00|LX9)|ANG-(?:LX[12]|AN00)|Angela-(?:L2[12]B|L02B)|nova 8|BRQ-A[LN]00|CHL-AL60|JSC-(?:AL50|AN00)|nova 8 SE|NEN-L(?:X[13]|22)|nova 8i|nova 7i|TLR-AL00|BLK-(?:AL[08]0|LX9)|ADA-(?:AL00|AL[01]0U)|BON-AL00|FIN-AL60a?|FOA-(?:LX9|AL00)|GOA-(?:LX9|AL80|AL80U)|CDY-(?:[AT]N[02]0|NX9[AB]|AN9[05]|TN90)|CDL-AN50|CND-AN00|nova 7 SE 5G|JER-(?:[AT]N10|[AT]N20)|nova 7 Pro 5G|JEF-(?:[AT]N00|[AT]N20|NX9)|nova 7 5G|WLZ-(?:[AT]N00|AL10)|nova 6|nova 6SE|nova 6 5G|SPN-[AT]L00|nova 5T Pro|YAL-(?:L[26]1|[AT]L[05]0|L41|AL10)|Yale-(?:L71A|L61D)|GLK-(?:[AT]L00|LX1U|LX[23])|SEA-(?:AL10|[AT]L00)|VCE-(L22|[AT]L00)|INE-(?:AL00|LX[12]r|LX[12]|TL00)|IVY-LX2|PAR-(?:[AT]L00|LX[19]|LX1M|TL20)|HWI-[AT]L00|BAC-(?:[AT]L00|L2[12]|L[02]3|L01)|704HW|nova Lite3Plus|608HW|CAZ-(?:AL[01]0|TL[12]0)|CAN-L[01][1-3]|BND-(?:AL[01]0|TL10|L[23][14])|CRR-(?:L09|UL[20]0|CL00)|NEO-(?:AL00|L29)|LON-(?:AL00(?:-PD)?|L29)|BLL-L2[123]|MHA-(?:L[02]9|[AT]L00)|M300-L09|NXT-(?:AL10|L[02]9)|BRA-AL00|ALN-AL[018]0|CET-(?:AL[06]0|LX9)|DCO-(?:AL00|LX9)|OCE-(?:A[NL]50|AN[01]0)|Mate 40 RS|NOP-AN00|ALA-AN70|NOH-(?:NX9|AN0[01]|AN[58]0|AL[01]0)|LIO-(?:[TA]L00|L[02]9|AN00[mP]?|N29|TN00|AL10)|Mate30 RS|TAS-(?:[AT]L00|L[02]9|AN00)|AMZ-L29|EVR-(?:[TA]L00|L29|N29|AN00)|LYA-(?:AL[01]0|AL00P|L[02]9|L0C|TL00)|PAN-L29|SNE-(?:AL00|LX[0-3]|L01)|HMA-(?:[AT]L00|L[02]9)|BLA-(?:A09|L[02]9|L29S|[TA]L00)|RNE-(?:AL00|L(?:0[123]|2[123]))|ALP-(?:[TA]L00|L[02]9|L09S|L29S)|TET-(?:A[NL]00|AN[15]0)|ICL-(?:AL[12]0|LX9)|ALT-AL10|ALT-(?:AL00|L29)|PAL-(?:AL00|LX9)|TAH-(?:N29|AN00)m?|Mate Xs|TYH601M|TNNH?-AN00|POT-(?:AL10|[TA]L00a)|RIO-(?:[ATU]L00|L0[123])|IDEOS[_ ]X5|U8[85]00|U8510|ANA-(?:AL00|N29|L[0X]4|NX9|[AT]N00)|G750-T01|Hol-U19|H30-(?:C00|L01M?|L02|U10|T00|T10)(?:_TD)?|U9508|U8860|LEM-AL00|BAL-(?:AL[068]0|L49)|ABR-(?:AL[0689]0|LX9)|JAD-(?:AL[0568]0|LX9)|LNA-(?:AL00|LX9)|MNA-(?:AL00|LX9)|KII-L2[12]|G621-TL00M?|CHC-U(?:0[13]|23)|G735-L(?:03|12|23)|U8665|MLD-AL[01]0|Enjoy 20e Helio P35|FRL-(?:L2[123]|[AT]N00a?)|Enjoy 20 Plus 5G|PPA-AL20|Enjoy 20 SE|Enjoy Z 5G|DVC-(?:[AT]N20|AN00)|Enjoy 20 Pro 5G|MRD-[TA]L00|ATU-[AT]L10|FLA-AL[01]0|LDN-(?:AL[12]0|TL[02]0)|TRT-(?:AL00[A]?|L21A|L53|LX[123]|TL10A?)|FIG-(?:[AT]L[10]0)|SLA-(?:AL00|TL10)|DIG-(?:TL10|AL00|L0[13]|L2[123])(?:HN)?|NCE-(AL[10]0|TL10)|TAG-(?:L0[13]|L32|L13|L2[123]|[ACT]L00)|FGD-AL00|MAO-(?:AL00|LX9N?)|MGA-(?:AL[04]0|LX9N|LX[39])|EVE-AL00|MED-(?:[AT]L00|AL20|LX9N?)|PLA-AL10|CLS-AL[03]0|PLR-(?:AL[03]0|L29)|PLU-AL10|LMU-LX9|HED-LX9|HBN-(?:AL[018]0|LX9)|HBP-(?:AL00|LX9)|ADY-(?:AL[01]0|LX9)|PIC-LX9|MT2L03|Y550-L03|Y530|HW-H30-C00|H30-T[01]0|HN3-U01|LYO-(?:L0[12]|L21)|G7-TL00|H1711|Y(?:221|3[23]0|541)-U\\d{2}|MIS-LX9|NEM-(?:AL10|L51|UL10|TL00|L2[12]|TL00H)|RVL-AL09|G7-L01|G527-U081|G620S-L03|C8817D|G630-U251|Maimang 9|Enjoy 10e|BKL-(?:AL[023]0|L09S|L0[49]|TL10)|STF-(?:AL[10]0|L09S?|TL10)|KSA-(?:LX[239]|AL[10]0)|MOA-(?:AL[02]0|TL00|LX9N)|BMH-(?:AN[12]0|TN10)|KKG-AN[07]0|EBG-(?:AN10|N19|[AT]N00)|LRA-(?:LX1|[AT]L00)|COR-(?:AL[01]0|L29|TL10)|ARE-(?:AL[10]0|L22(?:HN)?|TL00)|KOB2K-L09|HWV31|IDEOS S7(?: Slim)?|AUM-(?:L29|L33|L41)|PLK-(?:AL10|CL00|TL00|TL01H?|UL00|L01)|CHE2?-[UT]L00[HM]?|CHE1-CL[12]0|CHE2-L(?:1[12]|23)|Che1-L04|CHE-TL00H?|MOGOLIA|VNA-L29|Holly-U19|CHM-(?:[CUT]L00[HM]?|U01)|HDN-[LW]09|KRJ-(?:W09|AN00)|HDL-(?:W|AL)09|KIW-(?:AL10|TL00H|[TC]L00|L2[1-4]|UL00)(?:_TD)?|DLI-(?:AL10|L[24]2|TL20)|JMM-(?:L22|[AT]L[01]0)|BKK-(?:AL[10]0|L2[12]|LX2|TL00)|VEN-L22|DUK-(?:L09|TL30|AL20)|VAT-L19|FRD-(?:AL[01]0|L0[249]|L1[49]|DL00)|DUA-(?:L22|LX[39]|[TA]L00)|TEL-(?:AN(?:00a?|10)|TN00)|OXF-AN[01]0|EDI-AL10|KNT-(?:AL[12]0|[TU]L10)|TNY-[AT]L00|NTS-AL00|AKA-(?:L29|AL10)|LLD-(?:AL[0123]0|L[23]1|TL10)|KJR-W09|(?:HW-)?H60-(?:J1|L0[1-4]|L1[12])(?:_TD)?)(?:[);/ ]|$)",
  pat! "(?i)ADY-(?:AL[01]0|LX9)",
  pat! "(?i)HBP-(?:AL00|LX9)",
  pat! "(?i)HBN-(?:AL00|LX9)",
  pat! "(?i)HBN-(?:AL[18]0)",
  pat! "(?i)PLR-(?:AL[03]0|L29)",
  pat! "(?i)CLS-AL[03]0",
  pat! "(?i)POT-[TA]L00a(?:[);/ ]|$)",
  pat! "(?i)U9500(?:[);/ ]|$)",
  pat! "(?i)Z100-UL00(?:[);/ ]|$)",
  pat! "(?i)Y530(?:[);/ ]|$)",
  pat! "(?i)Y320-(?:U10|T00|U05)(?:[);/ ]|$)",
  pat! "(?i)Y330-U05(?:[);/ ]|$)",
  pat! "(?i)Y541-U02(?:[);/ ]|$)",
  pat! "(?i)U8818(?:[);/ ]|$)",
  pat! "(?i)G527-U081(?:[);/ ]|$)",
  pat! "(?i)(G620S-L0[13]|C8817D)(?:[);/ ]|$)",
  pat! "(?i)G630-U251(?:[);/ ]|$)",
  pat! "(?i)G7-(?:L01|TL00)(?:[);/ ]|$)",
  pat! "(?i)P7-L(?:10|07)(?:[);/ ]|$)",
  pat! "(?i)P6 ?S-U06",
  pat! "(?i)G730-C00(?:[);/ ]|$)",
  pat! "(?i)U9200(?:[);/ ]|$)",
  pat! "(?i)H1711(?:[);/ ]|$)",
  pat! "(?i)Y221-U(?:[12]2|[0345]3)(?:[);/ ]|$)",
  pat! "(?i)Y550-L03(?:[);/ ]|$)",
  pat! "(?i)Y560-L01(?:[);/ ]|$)",
  pat! "(?i)Huawei g700(?:-(?:U[012]0|T0[01]))?",
  pat! "(?i)ART-[AT]L00[xm]?(?:[);/ ]|$)",
  pat! "(?i)STK-[AT]L00(?:[);/ ]|$)",
  pat! "(?i)MED-(?:[AT]L00|AL20)(?:[);/ ]|$)|Enjoy 10e",
  pat! "(?i)AQM-[AT]L00(?:[);/ ]|$)",
  pat! "(?i)TAG-[ACT]L00(?:[);/ ]|$)",
  pat! "(?i)TAG-(?:L0[13]|L32|L13|L2[123])(?:[);/ ]|$)",
  pat! "(?i)NCE-(AL[10]0|TL10)(?:[);/ ]|$)",
  pat! "(?i)DIG-(?:TL10|AL00)(?:[);/ ]|$)",
  pat! "(?i)SLA-(?:AL00|TL10)(?:[);/ ]|$)",
  pat! "(?i)FIG-(?:[AT]L[10]0)(?:[);/ ]|$)",
  pat! "(?i)(?:TRT-AL00[A]?|TRT-TL10A)(?:[);/ ]|$)",
  pat! "(?i)LDN-(?:AL[12]0|TL[02]0)(?:[);/ ]|$)",
  pat! "(?i)FLA-AL[01]0(?:[);/ ]|$)",
  pat! "(?i)ATU-[AT]L10(?:[);/ ]|$)",
  pat! "(?i)MRD-[TA]L00(?:[);/ ]|$)",
  pat! "(?i)DVC-[AT]N20|Enjoy 20 Pro 5G",
  pat! "(?i)(?:DVC-AN00|Enjoy Z 5G)(?:[);/ ]|$)",
  pat! "(?i)(?:PPA-AL20|Enjoy 20 SE)(?:[);/ ]|$)",
  pat! "(?i)FRL-[AT]N00|Enjoy 20 Plus 5G",
  pat! "(?i)MLD-AL[01]0|Enjoy 20e Helio P35",
  pat! "(?i)U8665(?:[);/ ]|$)",
  pat! "(?i)MED-LX9N?(?:[);/ ]|$)",
  pat! "(?i)G735-L(?:03|12|23)(?:[);/ ]|$)",
  pat! "(?i)CHC-U(?:0[13]|23)(?:[);/ ]|$)",
  pat! "(?i)(?:Honor_|HW-)?G621-TL00M?(?:[);/ ]|$)",
  pat! "(?i)DIG-L2[12](?:[);/ ]|$)",
  pat! "(?i)KII-L2[12]",
  pat! "(?i)BLL-L2[12]",
  pat! "(?i)RIO-L0[12]",
  pat! "(?i)RIO-[UT]L00",
  pat! "(?i)MNA-(?:AL00|LX9)",
  pat! "(?i)LNA-(?:AL00|LX9)",
  pat! "(?i)JAD-(?:AL[0568]0|LX9)(?:[);/ ]|$)",
  pat! "(?i)ABR-(?:AL[08]0|LX9)",
  pat! "(?i)ABR-AL[69]0",
  pat! "(?i)BAL-(?:AL[08]0|L49)",
  pat! "(?i)U8860(?:[);/ ]|$)",
  pat! "(?i)U9508(?:[);/ ]|$)",
  pat! "(?i)(?:Honor_|HW-)?H30-(?:C00|L01M?|L02|U10|T00|T10)(?:_TD)?(?:[);/ ]|$)",
  pat! "(?i)Hol-U19(?:[);/ ]|$)",
  pat! "(?i)G750-T01(?:[);/ ]|$)",
  pat! "(?i)KRJ-AN00|Honor V6 5G",
  pat! "(?i)KJR-W09|KRJ-W09|Honor V6 Wi-Fi",
  pat! "(?i)EBG-[AT]N00",
  pat! "(?i)(?:EBG-AN10|EBG-N19|Honor 30 Pro\\+)(?:[);/ ]|$)",
  pat! "(?i)(?:CDY-(?:AN9[05]|NX9A|TN90)|Honor 30S)(?:[);/ ]|$)",
  pat! "(?i)LRA-LX1(?:[);/ ]|$)",
  pat! "(?i)(?:MXW-[AT]N00|Honor 30 Lite)(?:[);/ ]|$)",
  pat! "(?i)(?:BMH-(?:AN[12]0|TN10)|Honor 30)(?:[);/ ]|$)",
  pat! "(?i)(?:OXP-AN00|Honor Play 4T Pro)(?:[);/ ]|$)",
  pat! "(?i)(?:AKA-AL10|Honor Play 4T)(?:[);/ ]|$)",
  pat! "(?i)(?:JAT-L41|Honor 8A Pro)(?:[);/ ]|$)",
  pat! "(?i)(?:MOA-LX9N|Honor 9A)(?:[);/ ]|$)",
  pat! "(?i)(?:AKA-L29|Honor 9C)(?:[);/ ]|$)",
  pat! "(?i)(?:KKG-AN00|Honor X10 Max)(?:[);/ ]|$)",
  pat! "(?i)(?:DNN-LX9|Honor X10 Lite)",
  pat! "(?i)(?:TEL-(?:AN(?:00a?|10)|TN00)|Honor X10 5G)(?:[);/ ]|$)",
  pat! "(?i)MOA-(?:AL[02]0|TL00)",
  pat! "(?i)HRY-(?:[AT]L00[A]?|LX[12]|L21|LX1MEB)(?:[);/ ]|$)",
  pat! "(?i)(?:HRY-LX1T|Honor 10i)(?:[);/ ]|$)",
  pat! "(?i)(?:LRA-[AT]L00|Honor 20 Lite)(?:[);/ ]|$)",
  pat! "(?i)(HRY-AL00T[a]?|Honor 20i)(?:[);/ ]|$)",
  pat! "(?i)(?:YAL-(?:L41|AL10)|Honor 20 Pro)(?:[);/ ]|$)",
  pat! "(?i)(?:MAR-LX1H|YAL-[AT]L50)(?:[);/ ]|$)",
  pat! "(?i)(?:YAL-(?:L21|[AT]L00)|Honor 20)(?:[);/ ]|$)",
  pat! "(?i)(?:KSA-AL10|Honor Play 3e)(?:[);/ ]|$)",
  pat! "(?i)(?:ASK-AL(?:00x|20)|Honor Play 3)(?:[);/ ]|$)",
  pat! "(?i)CHM-[CUT]L00[HM]?(?:[);/ ]|$)",
  pat! "(?i)(?:JAT-L(29|X[13])|Honor 8A)(?:[);/ ]|$)",
  pat! "(?i)(?:KSA-(LX[239]|AL00)|Honor 8S)(?:[);/ ]|$)",
  pat! "(?i)(?:DUA-LX9|Honor 9S)(?:[);/ ]|$)",
  pat! "(?i)(?:HLK-(?:AL10|L4[12])|Honor 9x Pro)(?:[);/ ]|$)",
  pat! "(?i)(?:HLK-AL00a?|Honor 9x)(?:[);/ ]|$)",
  pat! "(?i)DUA-[TA]L00",
  pat! "(?i)JAT-[AT]L00|Honor Play 8A",
  pat! "(?i)COL-(?:[AT]L[01]0|L29|L10)(?:[);/ ]|$)",
  pat! "(?i)BKK-(?:AL[01]0|L2[12]|LX2|TL00)",
  pat! "(?i)JSN-(?:L2[123]|L42|[TA]L00[a]?)",
  pat! "(?i)ARE-(?:AL[10]0|L22(?:HN)?|TL00)",
  pat! "(?i)TNY-[AT]L00",
  pat! "(?i)PCT-(?:[TA]L10)",
  pat! "(?i)(?:VNA|PCT)-L29",
  pat! "(?i)(?:Honor_|HW-)?CUN-[AT]L00(?:[);/ ]|$)",
  pat! "(?i)AUM-(?:AL[20]0|L33[A]?|TL20)(?:[);/ ]|$)",
  pat! "(?i)AUM-L29(?:[);/ ]|$)",
  pat! "(?i)(?:Honor_|HW-)?(?:LND-(?:AL[34]0|L29|TL[34]0)|AUM-L41)(?:[);/ ]|$)",
  pat! "(?i)(?:Honor_|HW-)?DUA-(?:L22|LX3)(?:[);/ ]|$)",
  pat! "(?i)PRA-(?:AL00X|AL00|TL10)",
  pat! "(?i)COR-(?:AL[01]0|L29|TL10)",
  pat! "(?i)STF-(?:AL[10]0|L09S?|TL10)",
  pat! "(?i)LLD-(?:AL[01]0|L[23]1|TL10)",
  pat! "(?i)LLD-AL[23]0",
  pat! "(?i)BKL-(?:L04|L09S)",
  pat! "(?i)BKL-(?:AL[023]0|L09|TL10)",
  pat! "(?i)(?:HONOR[ _]?)?BND-(?:AL[01]0|TL10|L2[14]|L31)",
  pat! "(?i)(?:HONOR[ _]?)?DLI-(?:AL10|L[24]2|TL20)(?:[);/ ]|$)",
  pat! "(?i)JMM-L22(?:[);/ ]|$)",
  pat! "(?i)DUK-(?:L09|TL30)",
  pat! "(?i)JMM-[AT]L[01]0",
  pat! "(?i)Honor 4c Pro(?:[);/ ]|$)",
  pat! "(?i)AQM-[AT]L10(?:[);/ ]|$)",
  pat! "(?i)(?:Honor_|HW-)?CAM-(?:AL00|TL00H|TL00)(?:_TD)?(?:[);/ ]|$)",
  pat! "(?i)(?:Honor_|HW-)?NEM-(?:AL10|L51|UL10|TL00)(?:[);/ ]|$)",
  pat! "(?i)(?:Honor_|HW-)?NEM-(?:L22|TL00H)(?:[);/ ]|$)",
  pat! "(?i)(?:HONOR[ _]?)?BLN-(?:L2[124]|AL[1-4]0|TL[01]0(?:[);/ ]|$))"]

/-- `__dr_re`, from item 3500 on (device_repo.go:21836-22085). -/
def drRe_14 : List (List Chunk) := [
  pat! "(?i)(?:Honor_|HW-)?NEM-L21(?:[);/ ]|$)",
  pat! "(?i)(?:FRD-(?:AL[01]0|L0[249]|L1[49]|DL00)|VAT-L19)(?:[);/ ]|$)",
  pat! "(?i)KNT-(?:AL[12]0|[TU]L10)",
  pat! "(?i)(?:Honor_|HW-)?SCL-(?:AL00|CL00|TL00H?)(?:_TD)?(?:[);/ ]|$)",
  pat! "(?i)(?:Honor_|HW-)?CHM-U01(?:_TD)?(?:[);/ ]|$)",
  pat! "(?i)(?:Honor_|HW-)?KIW-(?:AL10|TL00H|[TC]L00|L2[1-4]|UL00)(?:_TD)?(?:[);/ ]|$)",
  pat! "(?i)(?:Honor[_]?|HW-)?PLK-(?:AL10|CL00|TL00|TL01H?|UL00|L01)(?:[);/ ]|$)",
  pat! "(?i)ATH-(?:[CAU]L00|TL00H?)(?:[);/ ]|$)",
  pat! "(?i)(?:CHE2?-[UT]L00[HM]?|CHE1-CL[12]0|CHE2-L(?:1[12]|23)|Che1-L04|CHE-TL00)(?:[);/ ]|$)",
  pat! "(?i)((?:Honor_|HW-)?H60-L(?:01|02|03|04|11|12)(?:_TD)?|HW-H60-J1|MOGOLIA)(?:[);/ ]|$)",
  pat! "(?i)PE-(?:[CU]L00|TL[12]0|TL00M)(?:[);/ ]|$)",
  pat! "(?i)(AGS2-AL00|JDN2-(?:AL00|W09))HN",
  pat! "(?i)HDN-[LW]09",
  pat! "(?i)HDL-(?:W09|AL09)",
  pat! "(?i)JDN-(?:AL00|W09)",
  pat! "(?i)(?:VOG-AL00|P30 Pro)(?:[);/ ]|$)",
  pat! "(?i)ANA-(?:[AT]N00)",
  pat! "(?i)ANA-(?:AL00|N29|L04)",
  pat! "(?i)U8500(?:[);/ ]|$)",
  pat! "(?i)U8510(?:[);/ ]|$)",
  pat! "(?i)U8800(?:[);/ ]|$)",
  pat! "(?i)IDEOS[_ ]X5[_ ]PRO(?:[);/ ]|$)",
  pat! "(?i)MLA-AL10(?:[);/ ]|$)",
  pat! "(?i)POT-AL10(?:[);/ ]|$)",
  pat! "(?i)TNN-AN00(?:[);/ ]|$)",
  pat! "(?i)Maimang (\\d)(?:[);/ ]|$)",
  pat! "(?i)(?:TAH-(?:N29|AN00)m|Mate Xs)(?:[);/ ]|$)",
  pat! "(?i)PAL-(?:AL00|LX9)",
  pat! "(?i)ALT-(?:AL00|L29)",
  pat! "(?i)ICL-(?:AL[12]0|LX9)",
  pat! "(?i)TET-(?:A[NL]00|AN10)",
  pat! "(?i)ALP-(?:[TA]L00|L[02]9|L09S|L29S)(?:[);/ ]|$)",
  pat! "(?i)RNE-(?:AL00|L(?:0[13]|2[13]))(?:[);/ ]|$)",
  pat! "(?i)BLA-(?:A09|L[02]9|L29S|[TA]L00)(?:[);/ ]|$)",
  pat! "(?i)HMA-(?:[AT]L00|L[02]9)(?:[);/ ]|$)",
  pat! "(?i)SNE-(?:AL00|LX[0-3]|L01)(?:[);/ ]|$)",
  pat! "(?i)(?:LYA-(?:AL[01]0|L[02]9|L0C|TL00)|PAN-L29)(?:[);/ ]|$)",
  pat! "(?i)LYA-AL00P(?:[);/ ]|$)",
  pat! "(?i)EVR-(?:[TA]L00|L29|N29|AN00)(?:[);/ ]|$)",
  pat! "(?i)(?:TAS-([AT]L00|L[02]9)|AMZ-L29)(?:[);/ ]|$)",
  pat! "(?i)(?:LIO-AN00P|Mate30 RS)(?:[);/ ]|$)",
  pat! "(?i)SPN-AL00(?:[);/ ]|$)",
  pat! "(?i)LIO-(?:[TA]L00|L[02]9|AN00)(?:[);/ ]|$)",
  pat! "(?i)LIO-(?:N29|TN00|AL10)(?:[);/ ]|$)",
  pat! "(?i)LIO-AN00m(?:[);/ ]|$)",
  pat! "(?i)NOH-(?:NX9|AN0[01]|AN50|AL[01]0)(?:[);/ ]|$)",
  pat! "(?i)NOP-AN00(?:[);/ ]|$)",
  pat! "(?i)Mate 40 RS(?:[);/ ]|$)",
  pat! "(?i)OCE-AN10(?:[);/ ]|$)",
  pat! "(?i)OCE-(?:A[NL]50|AN00)(?:[);/ ]|$)",
  pat! "(?i)DCO-(?:AL00|LX9)",
  pat! "(?i)CET-(?:AL00|LX9)",
  pat! "(?i)(?:ALN-AL[08]0|Mate 60 Pro)(?:[);/ ]|$)",
  pat! "(?i)NXT-(?:AL10|L[02]9)(?:[);/ ]|$)",
  pat! "(?i)(?:MHA-(?:L[02]9|[AT]L00)|M300-L09)(?:[);/ ]|$)",
  pat! "(?i)BLL-L23(?:[);/ ]|$)",
  pat! "(?i)LON-(?:AL00(?:-PD)?|L29)(?:[);/ ]|$)",
  pat! "(?i)NEO-AL00(?:[);/ ]|$)",
  pat! "(?i)NEO-L29(?:[);/ ]|$)",
  pat! "(?i)CRR-(?:L09|UL[20]0|CL00)(?:[);/ ]|$)",
  pat! "(?i)BND-L34(?:[);/ ]|$)",
  pat! "(?i)(CAZ-(?:AL[01]0|TL[12]0)|CAN-L[01][1-3])(?:[);/ ]|$)",
  pat! "(?i)(?:608HW|PRA-LX[23])(?:[);/ ]|$)",
  pat! "(?i)MLA-L1[12](?:[);/ ]|$)",
  pat! "(?i)nova Lite3Plus(?:[);/ ]|$)",
  pat! "(?i)(?:PIC-(?:[AT]L00|LX9)|HWV31)(?:[);/ ]|$)",
  pat! "(?i)704HW(?:[);/ ]|$)",
  pat! "(?i)BAC-(?:L0[13]|TL00)(?:[);/ ]|$)",
  pat! "(?i)BAC-(?:AL00|L2[12])(?:[);/ ]|$)",
  pat! "(?i)RNE-L[02]2(?:[);/ ]|$)",
  pat! "(?i)HWI-[AT]L00(?:[);/ ]|$)",
  pat! "(?i)PAR-(?:[AT]L00|LX[19]|LX1M|TL20)(?:[);/ ]|$)",
  pat! "(?i)ANE-AL00(?:[);/ ]|$)",
  pat! "(?i)INE-(?:AL00|LX[12]r|LX[12]|TL00)|IVY-LX2",
  pat! "(?i)VCE-(L22|[AT]L00)(?:[);/ ]|$)",
  pat! "(?i)MAR-AL00(?:[);/ ]|$)",
  pat! "(?i)SEA-[AT]L00(?:[);/ ]|$)",
  pat! "(?i)SEA-AL10(?:[);/ ]|$)",
  pat! "(?i)GLK-(?:[AT]L00|LX1U|LX[23])(?:[);/ ]|$)",
  pat! "(?i)YAL-L61|Yale-(?:L71A|L61D)",
  pat! "(?i)SPN-TL00(?:[);/ ]|$)",
  pat! "(?i)(?:WLZ-[AT]N00|nova 6 5G)(?:[);/ ]|$)",
  pat! "(?i)(?:JNY-[AT]L10|nova 6SE)(?:[);/ ]|$)",
  pat! "(?i)(?:WLZ-AL10|nova 6)(?:[);/ ]|$)",
  pat! "(?i)(?:JEF-(?:[AT]N00|[AT]N20|NX9)|nova 7 5G)(?:[);/ ]|$)",
  pat! "(?i)(?:JER-(?:[AT]N10|[AT]N20)|nova 7 Pro 5G)(?:[);/ ]|$)",
  pat! "(?i)(?:CDY-(?:[AT]N00|NX9B|[AT]N20)|CDL-AN50|CND-AN00|nova 7 SE 5G)(?:[);/ ]|$)",
  pat! "(?i)GOA-(?:LX9|AL80)",
  pat! "(?i)FOA-(?:LX9|AL00)",
  pat! "(?i)FIN-AL60a?",
  pat! "(?i)BLK-(?:AL80|LX9)",
  pat! "(?i)(?:JNY-LX2|nova 7i)(?:[);/ ]|$)",
  pat! "(?i)(?:NEN-L(?:X[13]|22)|nova 8i)(?:[);/ ]|$)",
  pat! "(?i)ANG-AN00(?:[);/ ]|$)",
  pat! "(?i)JSC-AL50|nova 8 SE",
  pat! "(?i)BRQ-AL00(?:[);/ ]|$)",
  pat! "(?i)BRQ-AN00(?:[);/ ]|$)",
  pat! "(?i)(?:ANG-LX[12]|Angela-(?:L2[12]B|L02B)|nova 8)(?:[);/ ]|$)",
  pat! "(?i)NAM-(?:AL00|LX9)(?:[);/ ]|$)",
  pat! "(?i)RTE-AL00(?:[);/ ]|$)",
  pat! "(?i)JLN-(?:AL00|LX[13])|JuliaQN-(?:L[02]1B|L23A)",
  pat! "(?i)GLA-(?:LX[13]|AL00)",
  pat! "(?i)NCO-(?:AL00|LX[13])",
  pat! "(?i)BNE-(?:LX[13]|AL00)",
  pat! "(?i)DIG-L01(?:[);/ ]|$)",
  pat! "(?i)WAS-AL00(?:[);/ ]|$)",
  pat! "(?i)WKG-[AT]N00|Enjoy 20 5G",
  pat! "(?i)(?:WKG-LX9|Wukong-L29A|nova Y60)(?:[);/ ]|$)",
  pat! "(?i)EVE-LX[39]",
  pat! "(?i)MGA-LX[39]",
  pat! "(?i)CTR-LX[123]|CHW-LX3",
  pat! "(?i)STG-LX[12]",
  pat! "(?i)FIG-L(?:A1|X[123]|[13]1)(?:[);/ ]|$)",
  pat! "(?i)POT-(?:LX(?:[123]|1T|2J|1AF)|AL00|L01)(?:[);/ ]|$)",
  pat! "(?i)POT-LX1A(?:[);/ ]|$)",
  pat! "(?i)PPA-LX[12]",
  pat! "(?i)STK-LX1(?:[);/ ]|$)",
  pat! "(?i)P Smart S(?:[);/ ]|$)",
  pat! "(?i)VTR-(?:L[02]9|AL00|TL00)(?:[);/ ]|$)",
  pat! "(?i)WAS-(?:L(?:X1|X1A|X2|X2J|X3|03T)|TL10)(?:[);/ ]|$)",
  pat! "(?i)VKY-(?:AL00|L09|L29)(?:[);/ ]|$)",
  pat! "(?i)BAC-L[02]3(?:[);/ ]|$)",
  pat! "(?i)EML-(?:[TA]L00|L[02]9)(?:[);/ ]|$)",
  pat! "(?i)(?:ANE-(?:LX[123]|LX2J|L2[23]|TL00)|HWV32)(?:[);/ ]|$)",
  pat! "(?i)(?:CLT-(?:AL0[01]|TL0[01]|L0J|L(?:04|[02]9))l?|HW-01K)(?:[);/ ]|$)",
  pat! "(?i)(?:ELE-L(?:04|09|29)|ELE-[AT]L00)(?:[);/ ]|$)",
  pat! "(?i)(?:MAR-(?:LX(?:1[BM]|2B|[13]Am?|2J?|3BM)|TL00|L21B|L21ME[AB])|NIC-LX1A|HWV33)(?:[);/ ]|$)",
  pat! "(?i)(?:VOG-(?:L(?:04|09|29)|TL00|AL10)|HW-02L)(?:[);/ ]|$)",
  pat! "(?i)ANA-LX4(?:[);/ ]|$)",
  pat! "(?i)JNY-(?:LX1|L[02]1)(?:[);/ ]|$)",
  pat! "(?i)ART-L29(?:[);/ ]|$)",
  pat! "(?i)ART-L29N(?:[);/ ]|$)",
  pat! "(?i)(?:ELS-(?:[AT]N00|NX9|N04)|NEY-NX9)(?:[);/ ]|$)",
  pat! "(?i)ELS-(?:AN10|N[23]9)(?:[);/ ]|$)",
  pat! "(?i)GRA-(?:L09|[TU]L00)(?:[);/ ]|$)",
  pat! "(?i)HUAWEI P8max(?:[);/ ]|$)",
  pat! "(?i)GRA-UL10(?:[);/ ]|$)",
  pat! "(?i)(?:ALE-L(?:02|2[13])|ALE-[TUC]L00|503HW)(?:[);/ ]|$)",
  pat! "(?i)(?:PRA-L(?:A1|X[12])|hi6210sft)(?:[);/ ]|$)",
  pat! "(?i)EVA-(?:AL[10]0|L[012]9|[TCD]L00)(?:[);/ ]|$)",
  pat! "(?i)VNS-L(?:[23]1|[26]2|53|23)(?:[);/ ]|$)",
  pat! "(?i)VNS-L52(?:[);/ ]|$)",
  pat! "(?i)SLA-L(?:02|03|22|23)(?:[);/ ]|$)",
  pat! "(?i)DIG-L(?:03|23)(?:[);/ ]|$)",
  pat! "(?i)VIE-(?:AL10|L[02]9)(?:[);/ ]|$)",
  pat! "(?i)MLA-TL[01]0(?:[);/ ]|$)",
  pat! "(?i)VNS-[AT]L00(?:[);/ ]|$)",
  pat! "(?i)ATH-UL0[16](?:[);/ ]|$)",
  pat! "(?i)U(8230|8661|8667)(?:[);/ ]|$)",
  pat! "(?i)ARS-([AT]L00|L22)(?:[);/ ]|$)",
  pat! "(?i)CRO-(?:L[02]2|U00)(?:[);/ ]|$)",
  pat! "(?i)CAG-L[02]2(?:[);/ ]|$)",
  pat! "(?i)LUA-(U22|L2[12]|U03)(?:[);/ ]|$)",
  pat! "(?i)MYA-(?:L(?:0[23]|2[23])|U29)(?:[);/ ]|$)",
  pat! "(?i)DRA-L(?:0[13]|2[13]|X3)(?:[);/ ]|$)",
  pat! "(?i)AMN-LX[1239](?:[);/ ]|$)",
  pat! "(?i)DRA-LX5(?:[);/ ]|$)",
  pat! "(?i)DRA-LX9(?:[);/ ]|$)",
  pat! "(?i)CRO-L[02]3(?:[);/ ]|$)",
  pat! "(?i)CAG-L[02]3(?:[);/ ]|$)",
  pat! "(?i)DRA-(?:LX2|[AT]L00)(?:[);/ ]|$)",
  pat! "(?i)MYA-L13(?:[);/ ]|$)",
  pat! "(?i)CUN-(?:L(?:0[123]|2[123]|33)|U29)(?:[);/ ]|$)",
  pat! "(?i)(?:SCC-U21|(?:HW-)?SCL-(?:U31|L21|L0[1-4]|L32))(?:[);/ ]|$)",
  pat! "(?i)(?:Honor_|HW-)?LYO-L[02]1(?:[);/ ]|$)",
  pat! "(?i)(?:Honor_|HW-)?LYO-L02(?:[);/ ]|$)",
  pat! "(?i)MYA-L11(?:[);/ ]|$)",
  pat! "(?i)MYA-(L41|AL10)(?:[);/ ]|$)",
  pat! "(?i)ATU-L(?:11|21|22|X3)(?:[);/ ]|$)",
  pat! "(?i)(?:MRD-L(?:X1[NF]?|X3)|Y6 2019)(?:[);/ ]|$)",
  pat! "(?i)(?:ATU-L(?:31|42)|Y6Prime)(?:[);/ ]|$)",
  pat! "(?i)TIT-(?:AL00|L01|U02)(?:[);/ ]|$)",
  pat! "(?i)(?:M[ER]D-LX2|Y6 Pro 2019)(?:[);/ ]|$)",
  pat! "(?i)Y625-U03(?:[);/ ]|$)",
  pat! "(?i)Y635-L0[123](?:[);/ ]|$)",
  pat! "(?i)Y635-L21(?:[);/ ]|$)",
  pat! "(?i)CAM-L(?:03|2[13]|32)(?:[);/ ]|$)",
  pat! "(?i)TRT-LX[123](?:[);/ ]|$)",
  pat! "(?i)LDN-L(?:01|X3)(?:[);/ ]|$)",
  pat! "(?i)(?:HUAWEI[ _]?)?DUB-(?:LX[13]|TL00)(?:[);/ ]|$)",
  pat! "(?i)(?:LDN-(?:AL00|L21)|TRT-TL10)(?:[);/ ]|$)",
  pat! "(?i)(?:LDN-(?:LX2|TL10)|TRT-(?:L21A|L53))(?:[);/ ]|$)",
  pat! "(?i)DUB-(?:LX2|AL00)(?:[);/ ]|$)",
  pat! "(?i)DUB-AL00a(?:[);/ ]|$)",
  pat! "(?i)DUB-AL20(?:[);/ ]|$)",
  pat! "(?i)(?:PPA-LX3|Peppa-(?:L2[23]B|L0[23]B))(?:[);/ ]|$)",
  pat! "(?i)ART-L28(?:[);/ ]|$)",
  pat! "(?i)AQM-LX1(?:[);/ ]|$)",
  pat! "(?i)FLA-(LX[123]|AL20|TL10|L23)(?:[);/ ]|$)",
  pat! "(?i)JKM-(?:[TA]L00[ab]?|LX[123]|L03)(?:[);/ ]|$)",
  pat! "(?i)STK-(L2[12]|LX3)|LTK-LX3",
  pat! "(?i)FRL-L2[123](?:[);/ ]|$)",
  pat! "(?i)302HW(?:[);/ ]|$)",
  pat! "(?i)NMO-L31(?:[);/ ]|$)",
  pat! "(?i)CM990(?:[);/ ]|$)",
  pat! "(?i)Ultym5(?:[);/ ]|$)",
  pat! "(?i)G6-L11(?:[);/ ]|$)",
  pat! "(?i)Nexus 6P(?:[);/ ]|$)",
  pat! "(?i)GRL-(?:AL10|LX9)",
  pat! "(?i)HWT31(?:[);/ ]|$)",
  pat! "(?i)BAH4-(?:L09|AL10)",
  pat! "(?i)BAH4-W(?:29|[03]9)",
  pat! "(?i)BAH3-(?:AL00|[LW]09)(?:[);/ ]|$)",
  pat! "(?i)DBR-W1[09]|DBR-W09",
  pat! "(?i)GOT-AL[01]9(?:[);/ ]|$)",
  pat! "(?i)GOT-W[02]9(?:[);/ ]|$)",
  pat! "(?i)SCMR-W09(?:[);/ ]|$)",
  pat! "(?i)SCMR-AL09(?:[);/ ]|$)",
  pat! "(?i)AGS3-(A?L09|AL00)(?:[);/ ]|$)",
  pat! "(?i)AGS3-W0?9(?:[);/ ]|$)",
  pat! "(?i)AGS5-(?:L09|AL00)(?:[);/ ]|$)",
  pat! "(?i)DBY2-W0[09]",
  pat! "(?i)TGR-(?:W0[09]|W10)",
  pat! "(?i)AGS5-W0[09](?:[);/ ]|$)",
  pat! "(?i)HMW-W09(?:[);/ ]|$)",
  pat! "(?i)MON-(W|AL)19(?:[);/ ]|$)",
  pat! "(?i)BZA-W00(?:[);/ ]|$)",
  pat! "(?i)BZA-L00(?:[);/ ]|$)",
  pat! "(?i)BZC-AL00(?:[);/ ]|$)",
  pat! "(?i)BZC-W00(?:[);/ ]|$)",
  pat! "(?i)BZW-AL[01]0(?:[);/ ]|$)",
  pat! "(?i)BZT4-W19(?:[);/ ]|$)",
  pat! "(?i)M2-80[123]L(?:[);/ ]|$)",
  pat! "(?i)M2-A01L(?:[);/ ]|$)",
  pat! "(?i)M2-801W(?:[);/ ]|$)",
  pat! "(?i)MRX-AL[01]9(?:[);/ ]|$)",
  pat! "(?i)MRX-W[0-3]9(?:[);/ ]|$)",
  pat! "(?i)MRR-W[23]9",
  pat! "(?i)MRX-AN19(?:[);/ ]|$)",
  pat! "(?i)WGRR?-W[10]9",
  pat! "(?i)PCE-W(?:29|[34]0)",
  pat! "(?i)WEB-W0[09]",
  pat! "(?i)CMR-(?:AL[01]9|W09)(?:[);/ ]|$)",
  pat! "(?i)CMR-W19(?:[);/ ]|$)",
  pat! "(?i)SCM-AL09(?:[);/ ]|$)",
  pat! "(?i)GEM-70[1-3]L(?:[);/ ]|$)",
  pat! "(?i)(?:JDN2-(:?[WL]09|AL[50]0|AL50HN)|BAH2-(?:AL[01]0|L09|W[01]9))(?:[);/ ]|$)",
  pat! "(?i)SHT-(?:AL|W)09(?:[);/ ]|$)",
  pat! "(?i)VRD-(?:(AL|W)09|AL10|W10)(?:[);/ ]|$)",
  pat! "(?i)SCM-W09(?:[);/ ]|$)",
  pat! "(?i)BTV-W09(?:[);/ ]|$)",
  pat! "(?i)(?:BAH-W09|Bach-W09|CPN-(?:L|W)09|CPN-AL00|701HW)(?:[);/ ]|$)",
  pat! "(?i)BAH-(?:L09|AL00)(?:[);/ ]|$)",
  pat! "(?i)AGS2-(?:[LW]09|W09HN|W19|L03)(?:[);/ ]|$)",
  pat! "(?i)(?:KOB2-(?:[LW]09|L03)|Kobe3-L09)(?:[);/ ]|$)",
  pat! "(?i)AGR-[LW]09(?:[);/ ]|$)",
  pat! "(?i)AGS-(?:L0[39]|W09)(?:[);/ ]|$)",
  pat! "(?i)(?:KOB-(?:L|W)09|BZK-[LW]00)(?:[);/ ]|$)",
  pat! "(?i)BG2-(?:U0[13]|W09)(?:[);/ ]|$)",
  pat! "(?i)BGO-L03(?:[);/ ]|$)"]

/-- `__dr_re`, from item 3750 on (device_repo.go:22086-22335). -/
def drRe_15 : List (List Chunk) := [
  pat! "(?i)(?:BGO-DL09|PLE-70[13]L)(?:[);/ ]|$)",
  pat! "(?i)JDN-L01(?:[);/ ]|$)",
  pat! "(?i)(?:FDR-(A01[LW]|A03L)|60[56]HW)(?:[);/ ]|$)",
  pat! "(?i)(?:T1-(?:A21[LW]|A2[23]L)|MediaPad T1 10 4G)(?:[);/ ]|$)",
  pat! "(?i)T1-701u(?:[);/ ]|$)",
  pat! "(?i)(?:T1-82(?:3L|1W)|MediaPad T1 8\\.0)(?:[);/ ]|$)",
  pat! "(?i)AGS2-AL00(?:[);/ ]|$)",
  pat! "(?i)AGS3-W00[DE](?:[);/ ]|$)",
  pat! "(?i)BZT-(?:AL[01]0)",
  pat! "(?i)BZI-AL[02]0",
  pat! "(?i)BZI-W[02]0",
  pat! "(?i)(?:d-01J|d-02[HK])(?:[);/ ]|$)",
  pat! "(?i)(?:dtab)?(d-01[KH]|01)(?:[);/ ]|$)",
  pat! "(?i)LEO-BX9(?:[);/ ]|$)",
  pat! "(?i)LEO-DLXXE?",
  pat! "(?i)BLM-00(?:[);/ ]|$)",
  pat! "(?i)EC6108V(8|9)",
  pat! "(?i)KANT-350[BC]",
  pat! "(?i)(MediaPad[^/;]*) Build",
  pat! "(?i)Ideos([^;/]*) Build",
  pat! "(?i)(?:HUAWEI )?MT([0-9]+)",
  pat! "(?i)Huawei[ _-]?([^/;]*) Build",
  pat! "(?i)(?:HW-)?Huawei(?:/1\\.0/0?(?:Huawei))?[_\\- /]?([a-z0-9\\-_]+)",
  pat! "(?i)Huawei; ([a-z0-9 \\-]+)",
  pat! "(?i)Hugerock|T101_2021(?:[);/ ]|$)",
  pat! "(?i)Hugerock[_ ](T70H)",
  pat! "(?i)BrailleNote Touch \\+(?:[);/ ]|$)",
  pat! "(?i)BrailleNote Touch(?:[);/ ]|$)",
  pat! "(?i)Humax[;,_]|(AIVI-N3000RV)(?:[);/ ]|$)",
  pat! "(?i)Humax[;,] ([a-z0-9]+)(?:[);/ ]|$)",
  pat! "(?i)Humax_liberty,([a-z0-9]+),(?:wired|wireless)",
  pat! "(?i)(AIVI-N3000RV)(?:[);/ ]|$)",
  pat! "(?i)Hurricane[ _]|(?:Flame_Plus|Glaze|Cobra|Ridge Plus|Rush Plus|DZIRE|Android 7(?:[\\d.]*);(?: [\\w-]+;)? Beam|Vulcan|SAGE|Iris Plus 2021|VortexPlus|Excite|Flint|Panther|Slam|Epic)(?:[);/ ]|$)",
  pat! "(?i)Hurricane[ _]IGNITE",
  pat! "(?i)Hurricane[ _]Bolt",
  pat! "(?i)Hurricane[ _]VORTEX",
  pat! "(?i)Hurricane[ _]GIGA",
  pat! "(?i)(?:VULKANO|ST-810)(?:[);/ ]|$)",
  pat! "(?i)(ST-810)",
  pat! "(?i)Model[ _](5|6s)(?:[);/ ]|$)",
  pat! "(?i)(?:PTC760|PNC5[56]0)",
  pat! "(?i)(PTC760|PNC5[56]0)",
  pat! "(?i)Hyundai|(?:Ultra (?:Active|Air|Charm|Dream|Energy|Latitude|Link|Live|Shadow|Shine|Storm|Style|Sync|Trend|Vision|Wave)|Ultra_Vision_Plus|(?:Android 9(?:[\\d.]*);(?: [\\w-]+;)? [EL]553)|E435 Plus|E503F|E601F|L503F Plus|L604|L622|L601F|E(?:475|504|603)|G(?:24027|2552[34])K|W25042L|HP554O|Seoul (ECO|S8|MIX|5 Plus|9)|HT0701L16|HT0703K16|HT0704K08|HT100(?:4LI?16|2W32|3X16|2W16)|Koral_8W2|HT0701W16|Eternity[_ ](?:G25|H6[578])|HYMI 5S Plus|7GB1|7WD1|10LA1|10LB1|10WB[12]|E465GO|H-LED(?:55[BG]U7003|50FU7001|50[BG]U7003|50EU1311|55EU1311|65[BG]U7003|65EU1311|75BU7005|24BS5000|40GS5003|40FS500[13]|42FS500[13]|43FS500[13]|43EU1312|32FS500[135]|32GS5003|(?:32|40)BS5003|43[BG]U7003)(?:-[PC])?|H-DMP10[03]|HT070[34]W08|Koral 7W4|LGE; [0-9]{2}HYN[a-z0-9]+)(?:[);/ ]|$)",
  pat! "(?i)Ultra[_ ]Vision[_ ]Plus",
  pat! "(?i)Ultra (Active|Air|Charm|Dream|Energy Lite|Energy Plus|Energy|Latitude|Link|Live II|Live|Shadow|Shine|Storm|Style|Sync|Trend|Vision|Wave)",
  pat! "(?i)Seoul (\\d+)",
  pat! "(?i)Eternity[_ ](G25|H6[578])",
  pat! "(?i)E(475|504|503F|553|603|601F)(?:[);/ ]|$)",
  pat! "(?i)L(553|601F|604|622)(?:[);/ ]|$)",
  pat! "(?i)(?:Hyundai[_ ])?(Eternity[_ ](?:G57L?|G[56]0W?)|H7|Aero Plus|E435 Plus)",
  pat! "(?i)(H-LED\\w+)(?:-[PC])(?:[);/ ]|$)",
  pat! "(?i)(H-LED\\w+|H-DMP10[03]|2K TV)(?:[);/ ]|$)",
  pat! "(?i)LGE; ([0-9]{2}HYN[a-z0-9]+)",
  pat! "(?i)HT0704W08|Koral 7W4",
  pat! "(?i)7GB1(?:[);/ ]|$)",
  pat! "(?i)7WD1(?:[);/ ]|$)",
  pat! "(?i)Hyundai ([^;/]+) Build",
  pat! "(?i)Hyundai[ _-]?([a-z0-9_-]+)",
  pat! "(?i)(?:Pryme 01|ST01)(?:[);/ ]|$)",
  pat! "(?i)COMMUNICATOR[_ ]9\\.7[_ ]3G",
  pat! "(?i)(?:Nu65|iPlus P3)(?:[);/ ]|$)",
  pat! "(?i)(Nu65)",
  pat! "(?i)IDC_Voice_20_4G(?:[);/ ]|$)",
  pat! "(?i)(?:GO5_55|BLESS_GO55|BLESSPLUS|KF4Go|KF5bless|GO4\\.5)(?:[);/ ]|$)",
  pat! "(?i)GO4\\.5",
  pat! "(?i)(KF4Go|KF5bless)",
  pat! "(?i)IKU[_ ]|(?:Powerful_K55i|Curvy C50L)(?:[);/ ]|$)",
  pat! "(?i)(Powerful_K55i|Curvy C50L)(?:[);/ ]|$)",
  pat! "(?i)IKU[_ ](A22|A[457]0|X[23]|K3|i[34])(?:[);/ ]|$)",
  pat! "(?i)IKU[_ ](T[123])(?:[);/ ]|$)",
  pat! "(?i)IKU[_ ]T[_ ]Max(?:[);/ ]|$)",
  pat! "(?i)IMO[ _]\\w",
  pat! "(?i)IMO[ _]Q([23]) Plus(?:[);/ ]|$)",
  pat! "(?i)IMO[ _]Q([4]) Pro(?:[);/ ]|$)",
  pat! "(?i)IMO[ _]Q2(?:[);/ ]|$)",
  pat! "(?i)IMO[ _]S2(?:[);/ ]|$)",
  pat! "(?i)IMO[ _]FEEL A2(?:[);/ ]|$)",
  pat! "(?i)IMO[ _]S50(?:[);/ ]|$)",
  pat! "(?i)IMO[ _]S80(?:[);/ ]|$)",
  pat! "(?i)IMO[ _]S89(?:[);/ ]|$)",
  pat! "(?i)IMO[ _]S88(?:[);/ ]|$)",
  pat! "(?i)IMO[ _]S99(?:[);/ ]|$)",
  pat! "(?i)IMO[ _]S98(?:[);/ ]|$)",
  pat! "(?i)IMO[ _]S87(?:[);/ ]|$)",
  pat! "(?i)IMO[ _]S67(?:[);/ ]|$)",
  pat! "(?i)IMO[ _]S78(?:[);/ ]|$)",
  pat! "(?i)IMO[ _]Q8(?:[);/ ]|$)",
  pat! "(?i)IMO[ _]Discovery II(?:[);/ ]|$)",
  pat! "(?i)IMO[ _]Q(?:[);/ ]|$)",
  pat! "(?i)IMO[ _]Q(5)(?:[);/ ]|$)",
  pat! "(?i)IMO[ _](Y5|Z[67])(?:[);/ ]|$)",
  pat! "(?i)IMO TAB X9(?:[);/ ]|$)",
  pat! "(?i)(KZCAR)(?:[);/ ]|$)",
  pat! "(?i)INQ[/ ]",
  pat! "(?i)INQ/([a-z0-9-]+)",
  pat! "(?i)INQ ([^;/]+) Build",
  pat! "(?i)INSYS|(?:HK9-4010|IH9-L614|AC7_DJ17|HN2-M16Q)(?:[);/ ]|$)",
  pat! "(?i)(GU4-K147|HN2-M16Q|VI4-103)",
  pat! "(?i)T95pro(?:[);/ ]|$)",
  pat! "(?i)IQM (?:picasso|vivaldi|newton)(?:[);/ ]|$)",
  pat! "(?i)IQM picasso(?:[);/ ]|$)",
  pat! "(?i)IQM vivaldi(?:[);/ ]|$)",
  pat! "(?i)IQM newton(?:[);/ ]|$)",
  pat! "(?i)(?:IRA_DUO|IRAW7258)(?:[);/ ]|$)",
  pat! "(?i)(IRAW7258)",
  pat! "(?i)IT-(?:1101S?|1101-QUAD)(?:[);/ ]|$)",
  pat! "(?i)IT-(1101S?)",
  pat! "(?i)IUNI[ _]",
  pat! "(?i)IUNI[ _](U3|i1|N1)",
  pat! "(?i)IconBIT|NT-(3506M|1501C|0704S|0909T|1009T|10[01]1T|1017T|3601P/3602P|3603P|3702S|3805C|3905T|3701S|0701S|0805C|0902S|370[23]M)|XDS[789]4K|Omnicast UHD|Movie Smart 4K|Movie IPTV Quad|TOUCAN (?:Smart 3D Quad|(?:NANO|Stick) 4K)|NetTAB_Space_3G|XLR3089",
  pat! "(?i)NT-10[01]1T",
  pat! "(?i)(?:iconBIT )?(Movie (?:Smart 4K|UNO|Play|IPTV Quad|Ultra HD 4K)|XDS[789]4K|XLR3090|Omnicast UHD|Stick|XDS1[01]00?|Movie [XZ])",
  pat! "(?i)(SWU-6522)(?:[);/ ]|$)",
  pat! "(?i)IMAQ TETRA(?:[);/ ]|$)",
  pat! "(?i)(?:Impression[ _-]?([^/;]+)|A502|I10\\-LE|ImPad[ _]?(.*)|ImSmart[ _]?(.*))(?:[);/ ]|$)",
  pat! "(?i)(A502)",
  pat! "(?i)ImSmart[ _]?([^/;)]+)(?: Build|\\))",
  pat! "(?i)ImPad[ _]?([^/;)]+)(?: Build|\\))",
  pat! "(?i)(I10\\-LE)",
  pat! "(?i)Impression[ _-]?([^/;)]+)(?: Build|\\))",
  pat! "(?i)(?:IF(900[1237]|902[19]|903[15]|236a|195a)|M370i?|InFocus M808i?)(?:[);/ ]|$)",
  pat! "(?i)(M370i?)",
  pat! "(?i)IF(236|195)a",
  pat! "(?i)InFocus M([0-9]+[a-z]?)",
  pat! "(?i)(?:INFONE (?:XE?)|GORILLA 9 PLUS|X_RAINBOW)(?:[);/ ]|$)",
  pat! "(?i)INFONE (XE?)(?:[);/ ]|$)",
  pat! "(?i)Inch (?:Regulus (?:7\\.85|II)|Avior 3)(?:[);/ ]|$)",
  pat! "(?i)(Regulus 7\\.85)",
  pat! "(?i)(Regulus II|Avior 3)",
  pat! "(?i)(?:Inco[ _](Aurora II|Colors|Sphere|Plain[_ ]2S?|Plain2 S|Flex(?: 2S)?|S4|Bloom(?: 2)?)|(Horizon_S|Horizon \\+|MATTER)|Bloom4|eco_s|Flex-3)(?:[);/ ]|$)",
  pat! "(?i)Bloom ?4",
  pat! "(?i)(?:Inco[ _])?(Plain[_ ]2S?|Colors|Horizon_S|Horizon \\+|Aurora II|Flex(?: 2S)?|S4|Bloom(?: 2)?)(?:[);/ ]|$)",
  pat! "(?i)Flex-(3)",
  pat! "(?i)Inco Sphere( 3)?(?:[);/ ]|$)",
  pat! "(?i)INFINITON[_ -]|Earth 7\\.0'3G|EARTH10",
  pat! "(?i)INFINITON[_ -]T5",
  pat! "(?i)Earth 7\\.0'3G",
  pat! "(?i)Infinix[ _-]X6739",
  pat! "(?i)Infinix[ _-]X6871",
  pat! "(?i)Infinix[ _-]X6873",
  pat! "(?i)Infinix[ _-]X260",
  pat! "(?i)Infinix[ _-]X502",
  pat! "(?i)Infinix[ _-]X570",
  pat! "(?i)Infinix[ _-]X350",
  pat! "(?i)Infinix[ _-]X351",
  pat! "(?i)Infinix[ _-]X352",
  pat! "(?i)Infinix[ _-]X403",
  pat! "(?i)Infinix[ _-]X503",
  pat! "(?i)Infinix[ _-]X511",
  pat! "(?i)Infinix[ _-]X400",
  pat! "(?i)Infinix[ _-]X401",
  pat! "(?i)Infinix[ _-]X450",
  pat! "(?i)Infinix[ _-]X451",
  pat! "(?i)Infinix[ _-]X454",
  pat! "(?i)Infinix[ _-]X500",
  pat! "(?i)Infinix[ _-]X501",
  pat! "(?i)Infinix[ _-]X506",
  pat! "(?i)Infinix[ _-]X6962",
  pat! "(?i)Infinix[ _-]X6731B",
  pat! "(?i)Infinix[ _-]X6731",
  pat! "(?i)Infinix[ _-]X509",
  pat! "(?i)Infinix[ _-]X6821",
  pat! "(?i)Infinix[ _-](?:X552|Zero 3)",
  pat! "(?i)Infinix[ _-](?:X6861|ZERO 40 5G)",
  pat! "(?i)Infinix[ _-](?:X6860|ZERO 40)",
  pat! "(?i)Infinix[ _-](?:X(?:574|602)|Zero 4 Plus)",
  pat! "(?i)Infinix[ _-](?:X555|Zero 4)",
  pat! "(?i)Infinix[ _-]X603",
  pat! "(?i)Infinix[ _-]X603B",
  pat! "(?i)Infinix[ _-]X620B",
  pat! "(?i)Infinix[ _-]X620",
  pat! "(?i)Infinix[ _-]X687B",
  pat! "(?i)Infinix[ _-]X687",
  pat! "(?i)Infinix[ _-]X6815B",
  pat! "(?i)Infinix[ _-]X6811B",
  pat! "(?i)Infinix[ _-]X6815",
  pat! "(?i)Infinix[ _-]X6811",
  pat! "(?i)Infinix[ _-]X6810",
  pat! "(?i)Infinix[ _-]X6820",
  pat! "(?i)Infinix[ _-]X507",
  pat! "(?i)Infinix[ _-]X510",
  pat! "(?i)Infinix[ _-](?:X55[34]|HOT 3 LTE)",
  pat! "(?i)Infinix[ _-]X669",
  pat! "(?i)Infinix[ _-](?:X6831|X6833B)",
  pat! "(?i)Infinix[ _-]X6835B?",
  pat! "(?i)Infinix[ _-]X6832",
  pat! "(?i)Infinix[ _-]X6528",
  pat! "(?i)Infinix[ _-]X6836",
  pat! "(?i)Infinix[ _-]X6837",
  pat! "(?i)Infinix[ _-]X622",
  pat! "(?i)Infinix[ _-]X521",
  pat! "(?i)Infinix[ _-]X522",
  pat! "(?i)Infinix[ _-]X557",
  pat! "(?i)Infinix[ _-]X556",
  pat! "(?i)Infinix[ _-]X559[cF]",
  pat! "(?i)Infinix[ _-]X6882",
  pat! "(?i)Infinix[ _-]X6531",
  pat! "(?i)Infinix[ _-]X6720B?",
  pat! "(?i)Infinix[ _-]X6881",
  pat! "(?i)Infinix[ _-]X6880",
  pat! "(?i)Infinix[ _-]X559",
  pat! "(?i)Infinix[ _-]X606[BC]?",
  pat! "(?i)Infinix[ _-]X6885",
  pat! "(?i)Infinix[ _-]X6886",
  pat! "(?i)Infinix[ _-]X6726B",
  pat! "(?i)Infinix[ _-]X6728",
  pat! "(?i)Infinix[ _-]X6730B?",
  pat! "(?i)Infinix[ _-]X623",
  pat! "(?i)Infinix[ _-]X608",
  pat! "(?i)Infinix[ _-]X624",
  pat! "(?i)Infinix[ _-]X625",
  pat! "(?i)Infinix[ _-]X650",
  pat! "(?i)Infinix[ _-]X655F",
  pat! "(?i)Infinix[ _-]X655",
  pat! "(?i)Infinix[ _-]X680[BCEF]",
  pat! "(?i)Infinix[ _-]X680D",
  pat! "(?i)Infinix[ _-]X680",
  pat! "(?i)Infinix[ _-]X688",
  pat! "(?i)Infinix[ _-]X682[BC]",
  pat! "(?i)Infinix[ _-]X689C",
  pat! "(?i)Infinix[ _-]X689F",
  pat! "(?i)Infinix[ _-](?:X659|PR652|X658)",
  pat! "(?i)Infinix[ _-]X573B?",
  pat! "(?i)Infinix[ _-]X6812",
  pat! "(?i)Infinix[ _-]X675",
  pat! "(?i)Infinix[ _-]X662",
  pat! "(?i)Infinix[ _-]X6816D",
  pat! "(?i)Infinix[ _-]X6816C?",
  pat! "(?i)Infinix[ _-]X668C?",
  pat! "(?i)Infinix[ _-]X665[EC]",
  pat! "(?i)Infinix[ _-]X6826",
  pat! "(?i)Infinix[ _-]X666",
  pat! "(?i)Infinix[ _-]X6825",
  pat! "(?i)Infinix[ _-]X6827",
  pat! "(?i)Infinix[ _-]X665",
  pat! "(?i)Infinix[ _-]X6817",
  pat! "(?i)Infinix[ _-]X612",
  pat! "(?i)Infinix[ _-]X5010",
  pat! "(?i)Infinix[ _-]X5515[FI]?",
  pat! "(?i)Infinix[ _-]X609",
  pat! "(?i)Infinix[ _-]X5516",
  pat! "(?i)Infinix[ _-]X627",
  pat! "(?i)Infinix[ _-]X5514D",
  pat! "(?i)Infinix[ _-]X6532C",
  pat! "(?i)Infinix[ _-]X6532",
  pat! "(?i)Infinix[ _-]X653",
  pat! "(?i)Infinix[ _-]X657",
  pat! "(?i)Infinix[ _-](?:X6823C?|X6511G)",
  pat! "(?i)Infinix[ _-]X6511",
  pat! "(?i)Infinix[ _-]X6512"]

/-- `__dr_re`, from item 4000 on (device_repo.go:22336-22585). -/
def drRe_16 : List (List Chunk) := [
  pat! "(?i)Infinix[ _-]X6517",
  pat! "(?i)Infinix[ _-]X6515",
  pat! "(?i)Infinix[ _-]X6516",
  pat! "(?i)Infinix[ _-](?:X6525B|SMART 8 Pro)",
  pat! "(?i)Infinix[ _-]X6526",
  pat! "(?i)Infinix[ _-](?:X6525|SMART 8)",
  pat! "(?i)Infinix[ _-]X652B",
  pat! "(?i)Infinix[ _-]X626",
  pat! "(?i)Infinix[ _-]X652C",
  pat! "(?i)Infinix[ _-]X652",
  pat! "(?i)Infinix[ _-]X660",
  pat! "(?i)Infinix[ _-]X6725[BC]",
  pat! "(?i)Infinix[ _-]X6838",
  pat! "(?i)Infinix[ _-]X551",
  pat! "(?i)Infinix[ _-]X600",
  pat! "(?i)Infinix[ _-]X601",
  pat! "(?i)Infinix[ _-]X572",
  pat! "(?i)Infinix[ _-]X571",
  pat! "(?i)Infinix[ _-]X604",
  pat! "(?i)Infinix[ _-]X605",
  pat! "(?i)Infinix[ _-]X610",
  pat! "(?i)Infinix[ _-]X690",
  pat! "(?i)Infinix[ _-]X656",
  pat! "(?i)Infinix[ _-]X692",
  pat! "(?i)Infinix[ _-]X683",
  pat! "(?i)Infinix[ _-]X695",
  pat! "(?i)Infinix[ _-]X693",
  pat! "(?i)Infinix[ _-]X663C",
  pat! "(?i)Infinix[ _-]X677",
  pat! "(?i)Infinix[ _-]X6819",
  pat! "(?i)Infinix[ _-]X676B",
  pat! "(?i)Infinix[ _-]X671B",
  pat! "(?i)Infinix[ _-]X672",
  pat! "(?i)Infinix[ _-]X663D",
  pat! "(?i)Infinix[ _-]X663",
  pat! "(?i)Infinix[ _-]X697",
  pat! "(?i)Infinix[ _-]X698",
  pat! "(?i)Infinix[ _-]X670",
  pat! "(?i)Infinix[ _-]X671(?:[);/ ]|$)",
  pat! "(?i)Infinix[ _-]X676C",
  pat! "(?i)Infinix[ _-]X6716B",
  pat! "(?i)Infinix[ _-]X6716",
  pat! "(?i)Infinix[ _-]X6710",
  pat! "(?i)Infinix[ _-]X678B",
  pat! "(?i)Infinix[ _-]X6711",
  pat! "(?i)Infinix[ _-]X6855",
  pat! "(?i)Infinix[ _-]X6856",
  pat! "(?i)Infinix[ _-]X6857B?",
  pat! "(?i)Infinix[ _-]X6858",
  pat! "(?i)Infinix[ _-]X6850B",
  pat! "(?i)Infinix[ _-]X6850",
  pat! "(?i)Infinix[ _-]X6851B",
  pat! "(?i)Infinix[ _-]X6851",
  pat! "(?i)Infinix[ _-]X6852",
  pat! "(?i)Infinix[ _-]X685",
  pat! "(?i)Infinix[ _-]X1101B?(?:[);/ ]|$)",
  pat! "(?i)Infinix HOT ([a-z]?[1-6])( (?:Lite|Plus|Pro))?",
  pat! "(?i)Infinix[ _-](X[78]00)",
  pat! "(?i)Infinix[ _-](X\\d+)",
  pat! "(?i)Infinix[_ ]([^/;)]+)(?: Build|[);])",
  pat! "(?i)Infinix[ _-]([a-z0-9_-]+)",
  pat! "(?i)(TVB-906X)(?:[);/ ]|$)",
  pat! "(?i)(MAG(?:200|[23]50|425A))(?:[);/ ]|$)",
  pat! "(?i)Inhon[_ ](V6)(?:_EEA)?(?:[);/ ]|$)",
  pat! "(?i)X96mini(?:[);/ ]|$)",
  pat! "(?i)intki[ _]([^/;]*)[ _]Build",
  pat! "(?i)InnJoo|(?:Halo Plus|Halo2 LTE|Halo X|Halo 5 3G|Halo[ _]4(?:[ _]mini[ _]LTE)?|VISION LTE|Halo2 3G|Fire 4 ?(?:Pro|Plus)?|Fire_Plus_LTE|Fire3 mini|Fire2 (?:Air|Pro|Plus) LTE|Fire2 LTE|Superb(?:_PLus)?|VOOM TAB 2)(?:[);/ ]|$)",
  pat! "(?i)InnJoo[ _]X3(?:[);/ ]|$)",
  pat! "(?i)Halo[ _]X[ _]LTE(?:[);/ ]|$)",
  pat! "(?i)InnJoo[ _]X(?:[);/ ]|$)",
  pat! "(?i)Halo Plus(?:[);/ ]|$)",
  pat! "(?i)Halo[ _]4[ _]mini[ _]LTE(?:[);/ ]|$)",
  pat! "(?i)Halo 4(?:[);/ ]|$)",
  pat! "(?i)Halo ?2 LTE(?:[);/ ]|$)",
  pat! "(?i)Halo ?([25]) 3G(?:[);/ ]|$)",
  pat! "(?i)InnJoo[ _]Pro2(?:[);/ ]|$)",
  pat! "(?i)Innjoo ONE 3G(?:[);/ ]|$)",
  pat! "(?i)Innjoo[ _]2[ _]LTE(?:[);/ ]|$)",
  pat! "(?i)InnJoo[ _]([2-4])",
  pat! "(?i)Innos_?(D6000)(?:[);/ ]|$)",
  pat! "(?i)INNO([a-z0-9]+)",
  pat! "(?i)INOI|(?:A126|A1[68]1|A170_Plus|A161_Plus|(?:Android 12(?:[\\d.]*);(?: [\\w-]+;)? (?:A151))|(?:Android 11(?:[\\d.]*);(?: [\\w-]+;)? (?:A17[01]|A180))|A181_Plus|A171_Plus)(?:[);/ ]|$)",
  pat! "(?i)inoiPad mini 2\\+32 Wi-Fi\\+3G",
  pat! "(?i)inoiPad 2\\+32 Wi-Fi\\+3G",
  pat! "(?i)inoiPad 128\\+4GB Wi-Fi\\+4G",
  pat! "(?i)inoiPad mini 1\\+16 Wi-Fi",
  pat! "(?i)inoiPad 64GB Wi-Fi\\+3G",
  pat! "(?i)INOI (2|5) Lite (2019|2021)",
  pat! "(?i)INOI[_ ]([123])[_ ]LITE",
  pat! "(?i)(A126|A17[01])(?:[);/ ]|$)",
  pat! "(?i)A17[01]_Plus",
  pat! "(?i)A(1[58]1)",
  pat! "(?i)(?: A161|A161_Plus)(?:[);/ ]|$)",
  pat! "(?i)INOI ([257]) (?:\\d\\+\\d+ )?(2019|202[01])(?:[);/ ]|$)",
  pat! "(?i)INOI[_ ]([^);/]+)(?: Build|[;)])",
  pat! "(?i)NS-(P11A8100|P10A8100|P10A6100|P16AT08|P16AT10|P16AT785HD|P08A7100|P10A7100)(?:[);/ ]|$)|AFTEAMR311|AFTJMST12",
  pat! "(?i)NS-(P10A6100|P16AT10)",
  pat! "(?i)NS-(P10A8100|P10A7100)",
  pat! "(?i)Intex|(Aqua|Cloud[ _][XY][0-9]{1}|Cloud (?:Fame|Glory) 4G)|(?:CLOUD TREAD|IM0318ND|IV0318ND)(?:[);/ ]|$)",
  pat! "(?i)AQUA[ _]LIONS[ _]T1[ _]LITE(?:[);/ ]|$)",
  pat! "(?i)AQUA[ _]LIONS[ _]([NT]1|[23]|E3)(?:[);/ ]|$)",
  pat! "(?i)AQUA (A4) PLUS(?:[);/ ]|$)",
  pat! "(?i)AQUA[ _](A4|S[13])(?:[);/ ]|$)",
  pat! "(?i)Intex[ _]IM0118ND",
  pat! "(?i)AQUA CRYSTAL\\+(?:[);/ ]|$)",
  pat! "(?i)AQUA FulVU e5(?:[);/ ]|$)",
  pat! "(?i)AQUA JEWEL 2(?:[);/ ]|$)",
  pat! "(?i)Aqua[_ ]Life[_ ]?III(?:[);/ ]|$)",
  pat! "(?i)(?:INTEX[_ ])?AQUA[_ ]4\\.0[_ ]4G",
  pat! "(?i)(?:INTEX[_ ])?AQUA[_ ]4G[_ ]MINI",
  pat! "(?i)(?:INTEX[_ ])?AQUA[_ ]LIONS[_ ]4G",
  pat! "(?i)(?:INTEX[_ ])?AQUA[_ ]PRIME[_ ]4G",
  pat! "(?i)(?:INTEX[_ ])?AQUA[_ ]ZENITH",
  pat! "(?i)(?:INTEX[_ ])?AQUA[_ ]POWER[_ ]IV",
  pat! "(?i)(?:INTEX[ _])?AQUA[_ ]YOUNG[_ ]4G",
  pat! "(?i)(?:INTEX[ _])?AQUA[_ ]TREND[_ ]LITE",
  pat! "(?i)(?:INTEX[ _])?AQUA[_ ]AMAZE\\+",
  pat! "(?i)(?:INTEX[ _])?AQUA[_ ]Supreme\\+",
  pat! "(?i)(?:INTEX[ _])?AQUA[_ ]STYLE (\\d)",
  pat! "(?i)(?:INTEX[ _])?AQUA[_ ]Strong 5\\.1\\+",
  pat! "(?i)(?:INTEX[ _])?AQUA[_ ]CRYSTAL",
  pat! "(?i)(?:INTEX[ _])?ELYT[_ ]DUAL[_ ]PLUS",
  pat! "(?i)(?:INTEX[ _])?ELYT[_ ]DUAL",
  pat! "(?i)(?:INTEX[ _])?ELYT[_ ](E\\d+)",
  pat! "(?i)Intex[ _]IV0118ND",
  pat! "(?i)Intex[ _]IP0418ND",
  pat! "(?i)Intex[ _]([^/;]*)[ _]Build",
  pat! "(?i)CLOUD TREAD(?:[);/ ]|$)",
  pat! "(?i)(Cloud (?:Fame|Glory) 4G)",
  pat! "(?i)(Aqua|Cloud)[ _\\.]([^/;\\)]+)(?:[ _]Build|/|\\))",
  pat! "(?i)Intex[ _]([a-z0-9_+\\-]+)",
  pat! "(?i)(?:Diamond D[56]|Fighter|Eager|Royal R[1-8]|Android 9(?:[\\d.]*);(?: [\\w-]+;)? (?:MAX[89]|MAX_2))(?: Build|[;)])",
  pat! "(?i)MAX[_ ]?([89]|2)(?:[);/ ]|$)",
  pat! "(?i)(Fighter|Eager|Royal R[1-8]|Diamond D[56])",
  pat! "(?i)INVIN[ _-]|(?:IPC002|KM5PRO)(?:[);/ ]|$)",
  pat! "(?i)INVIN[ _-](X[24]|KM[678])",
  pat! "(?i)(IPC002)",
  pat! "(?i)IRBIS|TZ(1(?:0[04]|42|5[01]|84|65|7[01345-89]|8[356]|9[12578])|200|49|55|72|22|7(?:0[127]|1[1-46789]|2[021567]|3[025-8]|4[257]|5[23457]|6[12]|72|7[137]|8[1]|9[147])|8(?:[34]1|32|5[3-8]|6[2-5]|7[12478]|8[1-5]|9[0127])|96[0-9])|TZ199|TZ85|TZ13|TZ(?:one|art|HIT|81L)|(SP(?:0[56]|2[01]|4[1-36]|40[12]|45[345]|49[34]|50|51[0147]|531|54[12]|55[0124]|571)|\\d{2}[FYHU]1YDX000F?BS2|65U001BS2)(?:[);/ ]|$)",
  pat! "(?i)(TZ(?:[0-9]+)|TZ(?:one|art|HIT|81L))(?:[);/ ]|$)",
  pat! "(?i)(SP[0-9]+)(?:[);/ ]|$)",
  pat! "(?i)(\\d{2}[FYHU]1YDX000F?BS2|65U001BS2)",
  pat! "(?i)(?:Vox[_ ](?:[45]S|Alpha|POP|STEEL Plus|Energy|FORTIS|VERO)|IS2_?Plus|IS[36]Plus|IS2S|Next_P(?:_PRO)?|NEXT U|NEXT P\\+|IRS002-16|X1 mini|Iris_Pad_G8020|G7060|G7100|G8060)(?:[);/ ]|$)|android 9(?:[\\d.]*);(?: [\\w-]+;)? (?:N30)(?: Build|[;)])",
  pat! "(?i)Vox[_ ]([45])S",
  pat! "(?i)N30(?: Build|[;)])",
  pat! "(?i)VOX[_ ]FORTIS",
  pat! "(?i)VOX[_ ]VERO",
  pat! "(?i)NEXT[_ ]([PU]\\+?)",
  pat! "(?i)IS([236])_?Plus",
  pat! "(?i)(?:Iris_Pad_)?(G7060|G7100|G80[26]0)",
  pat! "(?i)TPC-[A-Z0-9]+|TPCY-TX[TE][^);/ ]+",
  pat! "(?i)TPC-PA10\\.1M",
  pat! "(?i)TPC-(XE10D-H)",
  pat! "(?i)TPC-([A-Z0-9]+)",
  pat! "(?i)(TPCY-TX[TE][^);/ ]+)",
  pat! "(?i)JFone[ _](JS501)(?:[);/ ]|$)",
  pat! "(?i)JKL[_ ](A28)(?:[);/ ]|$)",
  pat! "(?i)(JP5s?) Inmate Media Device(?:[);/ ]|$)",
  pat! "(?i)(JR-J71)(?:[);/ ]|$)",
  pat! "(?i)(J10)_(?:EEA|US)(?:[);/ ]|$)",
  pat! "(?i)JVC[;, ]|JVC-CVTE|AV-10NT310|(?:smarttv_)?(?:AFTSO001|AFTJULI1|AFTWMST22|LT-98N7125)",
  pat! "(?i)JVC[;,](32D1290)",
  pat! "(?i)(?:smarttv_)?AFTSO001",
  pat! "(?i)(?:smarttv_)?AFTJULI1",
  pat! "(?i)(?:smarttv_)?AFTWMST22",
  pat! "(?i)(LT-98N7125)",
  pat! "(?i)JVC, ([a-z0-9_ -]+), (?:wired|wireless)",
  pat! "(?i)JVC-CVTE;SmartTV|JVC Android TV",
  pat! "(?i)(AV-10NT310)",
  pat! "(?i) (?:JP[12])( Build|[;)])",
  pat! "(?i)(?:A10Pro_EEA)(?:[);/ ]|$)",
  pat! "(?i)(?:JK(?:960|[71]03) 3G|JK702|JK101|JK[17]00 v2\\.0)(?:[);/ ]|$)",
  pat! "(?i)JK(960|[71]03) 3G(?:[);/ ]|$)",
  pat! "(?i)JK(702|[17]00 v2\\.0|101)(?:[);/ ]|$)",
  pat! "(?i)Jesy_(J7)|J9S_PRO(?:[);/ ]|$)",
  pat! "(?i)Jesy_(J7)",
  pat! "(?i)JK-?(760)(?:[);/ ]|$)",
  pat! "(?i)JIAYU[ _-]|(?:JY-G4[\\\\_]G5|(?:JY-[a-z0-9]+)|JY_G4C)(?:[);/ ]|$)",
  pat! "(?i)(?:JIAYU G4_G5|JY-G4[\\\\_]G5)(?:[);/ ]|$)",
  pat! "(?i)JIAYU[ _-](G4[S]?|G2F|G3[S]?|S[23])(?:[);/ ]|$)",
  pat! "(?i)JY[-_]([a-z0-9]+|G4C)(?:[);/ ]|$)",
  pat! "(?i)Remix (?:Pro|Mini)",
  pat! "(?i)JIN[ _]TU[ _]([^;/)]+)(?: Build|[);])",
  pat! "(?i)Jinga[-_ ]|(?:(?:Fresh|Optim)4G|Pass(?:Plus|3G)|PicassoNote|Hotz[_ ]M1|WinPRO|Touch4G|Start(?:3G|LTE)?|IGO[ _]L[41]|Basco[ _](?:L3|L[45]00|L45[01]|XS1|S2|M1)|M500-1|Hit4G|A450|Neon|IGO_L3|JoyPRO|Fresh|GoalPlus)(?:[);/ ]|$)",
  pat! "(?i)Optim4G(?:[);/ ]|$)",
  pat! "(?i)Fresh4G(?:[);/ ]|$)",
  pat! "(?i)Hotz[_ ]M1(?:[);/ ]|$)",
  pat! "(?i)Hit4G(?:[);/ ]|$)",
  pat! "(?i)PassPlus(?:[);/ ]|$)",
  pat! "(?i)Pass3G(?:[);/ ]|$)",
  pat! "(?i)GoalPlus(?:[);/ ]|$)",
  pat! "(?i)(Win|Joy)PRO(?:[);/ ]|$)",
  pat! "(?i)Touch4G(?:[);/ ]|$)",
  pat! "(?i)Start3G(?:[);/ ]|$)",
  pat! "(?i)StartLTE(?:[);/ ]|$)",
  pat! "(?i)Start(?:[);/ ]|$)",
  pat! "(?i)PicassoNote(?:[);/ ]|$)",
  pat! "(?i)Jinga Iron(?:[);/ ]|$)",
  pat! "(?i)Fresh(?:[);/ ]|$)",
  pat! "(?i)IGO_L3(?:[);/ ]|$)",
  pat! "(?i)Jinga Basco neo(?:[);/ ]|$)",
  pat! "(?i)M500-1(?:[);/ ]|$)",
  pat! "(?i)(?:Jinga[ _])?Basco[ _](L[13]|L[45]00|XS1|S2|L45[01]|M1)(?:[);/ ]|$)",
  pat! "(?i)Jinga Trezor S1 Plus(?:[);/ ]|$)",
  pat! "(?i)JINGA_IGO_L2(?:[);/ ]|$)",
  pat! "(?i)(?:JINGA[_ ])?IGO[_ ]([ML]1|L4)(?:[);/ ]|$)",
  pat! "(?i)(?:JINGA[_ ])?(Neon|A450)(?:[);/ ]|$)",
  pat! "(?i)Jio/[^/]+/|LS1542QWN?(?:[);/ ]|$)",
  pat! "(?i)LS1542QWN?(?:[);/ ]|$)",
  pat! "(?i)Jio/([^/]+)/",
  pat! "(?i)(?:Revolution TnT3|Xtreme_(?:[37]|3x)|Xtreme (?:XT84|XT309|XT309 Plus|1)|Opus S3|JSPQ65|Prime (?:P3[09]0|P4442?|P30))(?:[);/ ]|$)",
  pat! "(?i)Revolution (TnT3)",
  pat! "(?i)Xtreme (XT84)",
  pat! "(?i)Prime (P4442?|P3[09]0|P30)",
  pat! "(?i)Xtreme (XT309) Plus",
  pat! "(?i)Xtreme (XT309)",
  pat! "(?i)Xtreme[ _]([137]|3x)(?:[);/ ]|$)",
  pat! "(?i)Joy (?:HH|JD)",
  pat! "(?i)Joy[ _]([^/;)]+)(?: Build|[);])",
  pat! "(?i)(?:TB-JS101A)(?:[);/ ]|$)",
  pat! "(?i)EZpad ([^;/)]+)(?: Build|[;)])",
  pat! "(?i)JUST5(-)?SPACER(s)?|COSMO[_ ](L707|L808)|BLASTER|FREEDOM[ _](C10[05]|M303|X1)|Freedom",
  pat! "(?i)COSMO[_ ](L707|L808)",
  pat! "(?i)FREEDOM[ _](C10[05]|M303|X1)",
  pat! "(?i)JUST5(-)?SPACER2s",
  pat! "(?i)JUST5(-)?SPACER2",
  pat! "(?i)(?:KLT_K301|NAVTECH_TOUCHY_F2)(?:[);/ ]|$)",
  pat! "(?i)K-?Touch[ _][a-z0-9]+|(?:Pace 2 Lite|KT202011(?:99|88)|LDXA-2[01]22|LDOX-2130|LDOX-212[13])(?:[);/ ]|$)",
  pat! "(?i)K-?Touch[ _]([^/;]*)[ _]Build",
  pat! "(?i)K-?Touch[ _]([a-z0-9]+)",
  pat! "(?i)ROiK ?(10)(?:[);/ ]|$)",
  pat! "(?i)(KATV-01) PRO(?:[);/ ]|$)",
  pat! "(?i)kddi-([a-z0-9]+)|(?:INFOBAR A01|HTX21|HTL21)(?:[);/ ]|$)",
  pat! "(?i)kddi-([a-z0-9]+)",
  pat! "(?i)INFOBAR (A01)",
  pat! "(?i)HTX21(?:[);/ ]|$)",
  pat! "(?i)HTL21(?:[);/ ]|$)",
  pat! "(?i)(?:Android 1[34](?:[\\d.]*);(?: [\\w-]+;)? (?:E1[01278]|E28|E38|H3[48]|H2[14]|H19|H1[14]|H44)|Pad Lite E[45]8|Armor_C1w|Armor C1 Max|Armor (?:P1(?:[sw]| Pro)|I2w|V1s|H[12]s|I1 Slim)|Kenshi[_ ]K10|Pad Pro (?:E11[012]|E90))(?:[);/ ]|$)",
  pat! "(?i)Armor[_ ](C1w|I2w|P1s|P1w|V1s|H[12]s|C1 Max|P1 Pro)",
  pat! "(?i)Kenshi[_ ](K10)(?:[);/ ]|$)",
  pat! "(?i)Pad Lite (E[45]8)",
  pat! "(?i)Pad Pro (E11[012]|E90)",
  pat! "(?i) (E1[01278]|E28|E38|H3[48]|H2[14]|H19|H1[14]|H44)(?:[);/ ]|$)",
  pat! "(?i)(KWSA80K)(?:[);/ ]|$)",
  pat! "(?i)(Nova_10_Pro_4G)(?:[);/ ]|$)",
  pat! "(?i)KINGZONE_|K1[_ ]turbo",
  pat! "(?i)KINGZONE_(N5)(?:[);/ ]|$)",
  pat! "(?i)K1[_ ]turbo",
  pat! "(?i)(K22M43298U)(?:[);/ ]|$)",
  pat! "(?i)knmobile[_ ]([^/;)]+)(?: Build|[);])",
  pat! "(?i)J?KOPO[ _-]"]

/-- `__dr_re`, from item 4250 on (device_repo.go:22586-22835). -/
def drRe_17 : List (List Chunk) := [
  pat! "(?i)J?KOPO[ _-]?([^/;)]+)(?: Build|[;)])",
  pat! "(?i)J?KOPO[ _-]?([^/;)]+)",
  pat! "(?i)KREZ[_ ]",
  pat! "(?i)KREZ[_ ](SL502)(?:[);/ ]|$)",
  pat! "(?i)KREZ[_ ](TM100[12]S8)(?:[);/ ]|$)",
  pat! "(?i)KRIP_|K(?:4[bm]|5[bdm]|6b|55h?|57|65|700A)(?:[);/ ]|$)",
  pat! "(?i)(?:KRIP_)?K(4[bm]?|5[bdm]|6b|55h?|57|65|700A)(?:[);/ ]|$)",
  pat! "(?i)(?:NET1100|NET (?:HIT|ALPHA)|NET_(?:LITE|TITAN|VOLT|MAX|MATRIX|[KR]7|HIT)|android 8([\\d.]*);(?: [\\w-]+;)? NETWORK)(?:[);/ ]|$)",
  pat! "(?i)NET[_ ](LITE|TITAN|VOLT|HIT|ALPHA)",
  pat! "(?i)NET_([KR]7)",
  pat! "(?i)(KM-[a-z0-9]+|EV-[a-z0-9]+)(?:[);/ ]|$)",
  pat! "(?i)(55UE-BYVB)(?:[);/ ]|$)",
  pat! "(?i)KZG[_ ](Scope)(?:[);/ ]|$)",
  pat! "(?i)KAAN[ _](N[12]|A1)(?:[);/ ]|$)",
  pat! "(?i)KaiCloud[ ]?(7[48]4|942)(?:[);/ ]|$)",
  pat! "(?i)KALLEY|(?:ELEMENT (?:4 Plus|5|MAX|PLAY|Q)|ELEMENT_PRO_2|K-BOOK(?:8MG|73G)|SILVER_MAX(?:_Pro_2)?|Silver Max (?:Lite|Pro)|Black[ _][13CEGXZ](?:_PRO)?|Black_G_2|BLACK_PRO|ATV R[12]|GOLD_PRO|KBOOK7M)(?:[);/ ]|$)",
  pat! "(?i)Black[ _](C)_PRO",
  pat! "(?i)Black[ _]([13ECGXZ])",
  pat! "(?i)Element 5(?:[);/ ]|$)",
  pat! "(?i)Silver[_ ]Max[_ ]Pro[_ ]2",
  pat! "(?i)Silver Max (Lite|Pro)",
  pat! "(?i)K-?BOOK(8MG|73G|7M)",
  pat! "(?i)ATV (R[12])",
  pat! "(?i)KALLEY,(43D1800|55D1240)",
  pat! "(?i)KJ[-_](OB0[23]|YU_?BI|SMART4K|GOCHI|ALFARK|AC0[25])(?:[);/ ]|$)",
  pat! "(?i)KJ[-_]OB03",
  pat! "(?i)KJ[-_]OB02",
  pat! "(?i)KJ[-_]YU_?BI",
  pat! "(?i)KJ[-_]ALFARK",
  pat! "(?i)KJ-(AC0[25])",
  pat! "(?i)(SmartVision3)(?:[);/ ]|$)",
  pat! "(?i)(?:Browser-)?Karbonn|K9 Kavach 4G|K9[_ ](?:Viraat|Smart)[_ ]Plus|K9 Music 4G|K9 Smart|K9 VIRAAT 4G|Aura_Power|Aura (?:Sleek Plus|Sleek 4G|Power 4G Plus|Note Play|Note 2|Storm|Champ)|Titanium[ _](?:3D-Plex|Octane Plus|Vista 4G|Jumbo|S360|S1[059]|S35|S20[13]|S22|S[15]|S200 HD|Frames S7|MOGHUL|S9)|MACHFIVE|MACHONE|Sparkle V|Alfa A114 Quad|Quattro[ _]L(?:45|5[025])[ _](?:HD|IPS|VR)|A41 Power|A(?:[19]|4[05])[ _]Indian|S2052GB|MACH SIX VR|K-Lite F3|Titanium Vista",
  pat! "(?i)K9[_ ]Smart[_ ]Plus",
  pat! "(?i)K9 Smart(?: 1GB)?",
  pat! "(?i)A([19]|4[05])[ _]Indian",
  pat! "(?i)K9[_ ]Viraat[_ ]Plus",
  pat! "(?i)(?:karbonn)?K9 Viraat 4G",
  pat! "(?i)Titanium[ _]S([29])[ _]?Plus",
  pat! "(?i)Titanium[_ ]S(99|360|1[059]|109|35|200 HD|20[13]|22|[15])(?:[);/ ]|$)",
  pat! "(?i)Titanium Vista(?: 4G)?",
  pat! "(?i)Titanium[ _]MOGHUL",
  pat! "(?i)Titanium[ _]3D-Plex",
  pat! "(?i)Quattro[ _]L(5[05])[ _]HD",
  pat! "(?i)Quattro[ _]L(45)[ _]IPS",
  pat! "(?i)Quattro[ _]L(52)[ _]VR",
  pat! "(?i)Karbonn ([a-z0-9]+) WAP-Browser",
  pat! "(?i)WAP Browser-Karbonn ([a-z0-9]+)/",
  pat! "(?i)Karbonn_([^;/)]+)",
  pat! "(?i)Karbonn ([^;/)]+)(?: Build|[);])",
  pat! "(?i)Karbonn ([^;/]+)/",
  pat! "(?i)Kata[ _-]",
  pat! "(?i)Kata[ _-](C3|L1|M3s|M4s?|V[56])(?:[);/ ]|$)",
  pat! "(?i)Kata[ _-]i5-\\w",
  pat! "(?i)Kata-(T5)(?:[);/ ]|$)",
  pat! "(?i)Kata-Tmini4(?:[);/ ]|$)",
  pat! "(?i)Kata Box 2(?:[);/ ]|$)",
  pat! "(?i)Kazam|(?:Trooper_X[0-9][0-9]|Tornado 348|TROOPER 4\\.0)(?:[);/ ]|$)",
  pat! "(?i)TROOPER 4\\.0",
  pat! "(?i)Trooper_X([0-9])([0-9])(?:[);/ ]|$)",
  pat! "(?i)Kazam[; _]([^;/)]+)(?: Build|\\))",
  pat! "(?i)Alumini_?3_?Plus|Alumini ?[23]|KEMPLER_(?:P[13]|TV|[X9]|8_PLUS)|ZKEMPLER[ _](?:PLUS|PRO)|P1[ _]Amateur",
  pat! "(?i)Alumini ?2",
  pat! "(?i)Alumini_?3_?Plus",
  pat! "(?i)KEMPLER_P([13])",
  pat! "(?i)P1[ _]Amateur",
  pat! "(?i) (O[76]1|E61Pro|O31 Plus)(?:[);/ ]|$)",
  pat! "(?i)(O[76]1)(?:[);/ ]|$)",
  pat! "(?i)KENEKSI|(?:Hemera|Teta Dual|Helios)(?:[);/ ]|$)",
  pat! "(?i)(Hemera|Teta Dual|Helios)(?:[);/ ]|$)",
  pat! "(?i)KENEKSI[ _-]liberty",
  pat! "(?i)KENEKSI[ _-]FLASH",
  pat! "(?i)KENEKSI[ _-]SUN",
  pat! "(?i)KENEKSI[ _-]ZETA",
  pat! "(?i)KENEKSI[ _-]SIGMA",
  pat! "(?i)KENEKSI[ _-](Moon|Libra_Dual|Glass|Amber|Chance|Amulet|Choice|Crystal|Dream|Delta[_ ]Dual|Norma 2|Norma|Sky|Fire 2|Fire|Flame|Flora|Rock|Solo|Soul|Step|Smart|Star|Storm|Wind)",
  pat! "(?i)Three[_ ]Proofings[_ ]W([5-9])(?:[);/ ]|$)",
  pat! "(?i) (VIM2)(?:[);/ ]|$)",
  pat! "(?i)Kiano|Elegance_[45]_[015](?:_PRO)?|ELEGANCE 5\\.0 Lite|Elegance_4\\.5|Elegance 6|CORE 10\\.1 DUAL 3G|Intelect ?(7|8|10)|Slim ?Tab ?\\d+(?:[_ ]3GR?)?(?:[);/ ]|$)",
  pat! "(?i)Slim ?Tab ?(\\d+)(?:[_ ]3GR?)?",
  pat! "(?i)CORE 10\\.1 DUAL 3G",
  pat! "(?i)Elegance_(5)_([51])_Pro",
  pat! "(?i)ELEGANCE 5\\.0 Lite",
  pat! "(?i)Elegance_([45])[_.]([015])",
  pat! "(?i)(Kiano)?(Intelect|Elegance) ?(7|8|10)?",
  pat! "(?i)Kiano[ _]([^;/]+) Build",
  pat! "(?i)(?:N(?:9[5678]00|8800|9000|9977)|Star[ _]N9589)(?:[);/ ]|$)",
  pat! "(?i)(?:Star_)?N(9[5678]00|8800|9977|9589)(?:[);/ ]|$)",
  pat! "(?i)Kingstar[-_ ]?([^;/)]+)(?: Build|[;)])",
  pat! "(?i)Kingsun[ _-]",
  pat! "(?i)Kingsun[ _-]([^;/]+) Build",
  pat! "(?i)Kingsun[ -]([a-z0-9_-]+)",
  pat! "(?i)(KST103SD(?:-L)?)",
  pat! "(?i)KIOWA[_ ]|(?:[AS]5|X4)_CRISTAL(?:[);/ ]|$)",
  pat! "(?i)(X4|[AS]5)_CRISTAL",
  pat! "(?i)KIVI [24]K|(?:24H600G[RU]|24FR50WU|24HK30B|32HR55GU|32H700GU|32F700WU|4[39]UP50GU|40UR50G[RU]|40U600G[RU]|50U730GR|55U600(?:G[RU]|KD)|65UP50GU|55U[PC]50G[RU]|50U600G[RU]|50UX10S|55UR50G[RU]|40FK30G|40FR5[02]BR|43U(?:800B[RU]|600KD|K3[05]G|700GR)|50FK30G|50UK35G|32HR50GR|32[FH]700GR|55UC30G|55U730GR|32HK30G|40FK30G|32HR50GU|32FR50(?:WR|BU)|32FK3[02]G|32F700WR|32H600KD|40U600KD|32H600G[RU])(?:_-Ver0[0-9])?(?:[);/ ]|$)",
  pat! "(?i)(55UC30G|40FK30G|43UK30G|32HR50G[RU]|32HK30G|32FK32G)_-Ver0([0-9])(?:[);/ ]|$)",
  pat! "(?i)(\\d{2}(?:[HFU]|U[CPRXKX]|[BHF][RK])\\d{2,3}(?:[GW][RU]|B[UR]|KD|[BGS]))(?:[);/ ]|$)",
  pat! "(?i)KIVI ([24]K Android TV)",
  pat! "(?i)KLIPAD_|(?:KL-V905|KL(2108NBE|[46]889|489[08]|9878A?E?|3669|759[01]|50[05]|638DK|60[15]|988)?(?:_EEA)?|7589AN|KL628_HL|KL628KO|KL4898[_ -]A50|V356B?)(?:[);/ ]|$)",
  pat! "(?i)(?:KLIPAD_)?(V355B?|KL600|KL-V905|V356B?|KL50[05]|KL60[15])(?:_EEA)?(?:[);/ ]|$)",
  pat! "(?i)(KL[46]889|7589AN|KL759[01]|KL9878A?E?|KL628KO|KL3669|KL489[08]|KL988|KL2108NBE|KL638DK)(?:_EEA)?(?:[);/ ]|$)",
  pat! "(?i)KL4898[_ -]A50",
  pat! "(?i)Kocaso|(?:DX765 Pro|M(?:6200|729|7[357][026][hw]?|76[01236][bw]?|83[016]|8[567]0|1050s|106[012368]w?|1070|X736(?:-kit)?|X780))(?:[);/ ]|$)",
  pat! "(?i)DX765 Pro(?:[);/ ]|$)",
  pat! "(?i)M6200(?:[);/ ]|$)",
  pat! "(?i)M729(?:[);/ ]|$)",
  pat! "(?i)M(7[357][026])[hw]?(?:[);/ ]|$)",
  pat! "(?i)M(76[01236])[bw]?(?:[);/ ]|$)",
  pat! "(?i)MX780(?:[);/ ]|$)",
  pat! "(?i)M(83[016])(?:[);/ ]|$)",
  pat! "(?i)M(8[567]0)(?:[);/ ]|$)",
  pat! "(?i)M851(?:[);/ ]|$)",
  pat! "(?i)M1050S(?:[);/ ]|$)",
  pat! "(?i)M(106[012368])W?(?:[);/ ]|$)",
  pat! "(?i)M1070(?:[);/ ]|$)",
  pat! "(?i)MX736(?:-kit)?(?:[);/ ]|$)",
  pat! "(?i)Kocaso[ _-]?([^;/)]+)(?: Build|[;)])",
  pat! "(?i)Kocaso[ _-]?([a-z0-9_-]+)",
  pat! "(?i)KODAK|(?:IM5|KD50|Ektra|Smartway[_ ](?:[FT]1|[LT]2)|D55L|D61L|D6[05]LX|PATH_7XPRO)(?:[);/ ]|$)",
  pat! "(?i)(KD50|D55L|D6[05]LX|D61L)",
  pat! "(?i)Ektra(?:[);/ ]|$)",
  pat! "(?i)(?:KODAK[_ ])?SMARTWAY[_ ]L1 PRO",
  pat! "(?i)(?:KODAK[_ ])?SMARTWAY[_ ]([FLMTX]1|[LMTX]2|T3)",
  pat! "(?i)Tablet (7|10)",
  pat! "(?i)Kogan|(?:Agora (?:8 Plus|XI|Go|Lite|4G Pro))(?:[);/ ]|$)",
  pat! "(?i)Kogan ?(SmarterTV(?: 2K)?|TV|TVAP)(?:[);/ ]|$)",
  pat! "(?i)Agora ([68]) ?Plus",
  pat! "(?i)Kogan[ _-]([^;/)]+)(?: Build|[;)])",
  pat! "(?i)Kogan[ _-]([a-z0-9_-]+)",
  pat! "(?i)Komu[_ -]",
  pat! "(?i)Komu[_ -]([^;/).]+)(?: Build|[;).])",
  pat! "(?i)Komu[_ -]([a-z0-9_-]+)",
  pat! "(?i)KONKA[_ ]([a-z0-9]+)|(?: R[EU]1|KC516(?: Pro)?|KUD50WT702AN|UDE55NR314ANTS)(?:[);/ ]|$)",
  pat! "(?i)W(9[67]0)",
  pat! "(?i)( R[EU]1)(?:[);/ ]|$)",
  pat! "(?i)(KUD50WT702AN|UDE55NR314ANTS)",
  pat! "(?i)KONKA[_ ]([a-z0-9]+)",
  pat! "(?i)KONROW[_ ]|(?:LINK55|KTAB_1003|BIGCOOL|SOFT5P?|COOLFIVE|COOL-K|Just5|Link5|EASY ?(?:5|62|K55)|EASY_5_EEA|EASY55|CITY55?|CITY4|Cool55|SKY_?55_EEA|Android 11(?:[\\d.]*);(?: [\\w-]+;)? SWEET5|SWEET 55)(?:[);/ ]|$)",
  pat! "(?i)BIGCOOL(?:[);/ ]|$)",
  pat! "(?i)LINK55(?:[);/ ]|$)",
  pat! "(?i)COOL-K(?:[);/ ]|$)",
  pat! "(?i)Cool55(?:[);/ ]|$)",
  pat! "(?i)SOFT5(?:[);/ ]|$)",
  pat! "(?i)SOFT5P(?:[);/ ]|$)",
  pat! "(?i)COOLFIVE(?:[);/ ]|$)",
  pat! "(?i)Just5(?:[);/ ]|$)",
  pat! "(?i)Link5(?:[);/ ]|$)",
  pat! "(?i)EASY ?(55?|62|K55)(?:[);/ ]|$)",
  pat! "(?i)EASY_5_EEA(?:[);/ ]|$)",
  pat! "(?i)CITY(55?|4)(?:[);/ ]|$)",
  pat! "(?i)SKY_?55_EEA(?:[);/ ]|$)",
  pat! "(?i)SWEET ?(55?)(?:[);/ ]|$)",
  pat! "(?i)KONROW[_ ](701X)(?:[);/ ]|$)",
  pat! "(?i)KTAB_1003(?:[);/ ]|$)",
  pat! "(?i)Koobee|(?:F2_Plus|SL004T|Android 10(?:[\\d.]*);(?: [\\w-]+;)? (?:K60))(?:[);/ ]|$)",
  pat! "(?i)F2[_ ]Plus",
  pat! "(?i)(K60)(?:[);/ ]|$)",
  pat! "(?i)Koobee[ _-]?([^;/]+) Build",
  pat! "(?i)Koobee[ _-]?([a-z0-9_-]+)",
  pat! "(?i)(K1 Trio)(?:[);/ ]|$)",
  pat! "(?i)Kooper-mobile-W502(?:[);/ ]|$)",
  pat! "(?i)Korax|era8K Pro(?:[);/ ]|$)",
  pat! "(?i)Korax[_ -]?([^;/)]+)(?: Build|[;)])",
  pat! "(?i)KORIDY[ _-]([^/;]+) Build",
  pat! "(?i)(KL1071Z|KL1084)",
  pat! "(?i)(?:Kraft[_ -])?KTV-(\\w+)",
  pat! "(?i)Kruger[ _&]Matz|KrugerMatz[ _]|K&M|EAGLE_(?:807|961|107[46]|1068)|FLOW ?5PLUS|FLOW 1[01]|FLOW 4 PLUS|Flow 9|FLOW_5|FLOW7|FLOW6(?:S|Lite)?|DRIVE9|DRIVE 8|DRIVE[_ ]6S?|Drive 10|MOVE8mini|MOVE9| MOVE 10|MOVE_|LIVE_6plus|LIVE 5 PLUS|Live [89]|LIVE4_KM043[89]|LIVE 7S?|LIVE 12|Flow 7S|Eagle 806|KM(?:106[679]|107[23]|1065G|0701(?:_1)?|0702|080[45](?:_1)?|1070)|Live 10S",
  pat! "(?i)MOVE[_ ]([78]|6S?|10)",
  pat! "(?i)DRIVE[ _]?([45689][S]?|10)(?:[);/ ]|$)",
  pat! "(?i)FLOW ?([54]) ?PLUS(?:[);/ ]|$)",
  pat! "(?i)FLOW6Lite(?:[);/ ]|$)",
  pat! "(?i)FLOW[ _]?([4-7][S]?|9|1[01])(?:[);/ ]|$)",
  pat! "(?i)LIVE4_(KM043[89])(?:[);/ ]|$)",
  pat! "(?i)KrugerMatz_LIVE4(?:[);/ ]|$)",
  pat! "(?i)_LIVE5_(KM0450)(?:[);/ ]|$)",
  pat! "(?i)LIVE 5 PLUS(?:[);/ ]|$)",
  pat! "(?i)LIVE_6plus(?:[);/ ]|$)",
  pat! "(?i)LIVE ([79]|10)S(?:[);/ ]|$)",
  pat! "(?i)Live ([789]|12)(?:[);/ ]|$)",
  pat! "(?i)MOVE9(?:[);/ ]|$)",
  pat! "(?i)KM(106[679]|1072)(?:[);/ ]|$)",
  pat! "(?i)KM(1073)(?:[);/ ]|$)",
  pat! "(?i)Eagle 806(?:[);/ ]|$)",
  pat! "(?i)Eagle_807(?:[);/ ]|$)",
  pat! "(?i)Eagle_(107[46])(?:[);/ ]|$)",
  pat! "(?i)EAGLE_(961|1068)(?:[);/ ]|$)",
  pat! "(?i)KM(1070)(?:[);/ ]|$)",
  pat! "(?i)KM(1065G)(?:[);/ ]|$)",
  pat! "(?i)KM0(701)(?:_1)?(?:[);/ ]|$)",
  pat! "(?i)KM0(80[45])(?:_1)?(?:[);/ ]|$)",
  pat! "(?i)KM0(702)(?:[);/ ]|$)",
  pat! "(?i)K&M,([a-z0-9_ -]+),(?:wired|wireless)",
  pat! "(?i)KULIAO (K10)(?:[);/ ]|$)",
  pat! "(?i)(Ambition|Beyond)(?:[);/ ]|$)",
  pat! "(?i)(?:KM-)?Kumai",
  pat! "(?i)(?:KM-)?Kumai[ _-]?([^;/]+) Build",
  pat! "(?i)(?:KM-)?Kumai[ _-]?([a-z0-9_-]+)",
  pat! "(?i)Kurio|C15100m",
  pat! "(?i)C15100m(?:[);/ ]|$)",
  pat! "(?i)Kurio[_ ]?(10S|7S)(?:[);/ ]|$)",
  pat! "(?i)Kurio[_ ]?Phone(?:[);/ ]|$)",
  pat! "(?i)Kyocera|KWC-|QC-[0-9]{4}|(?:QC6035|NP501KC|302KC|503KC|602KC|705KC|901KC|C51[27]0|C5155|C5215|C67[35]0|C6522N?|C6530N|C6740N?|C6743|E6[89]10|KYL2[13]|KYV3[1-9]|KYT3[123]|KYF3[1235789]|KYF4[012]|KYX31|KYG0[13]|KYY2[1-4]|S2151|KC-S701|S[468]-KC|S9-KC|S10-KC|KYV40U?|KYY31|KYV4[1-8]|KYV4[47]|KC-S301AE|KC-S302|X3-KC|E6560[CT]|E6782[L]?|E6790(?:TM)?|SZJ-JS20[12]|KCP01K|[47]04KC|A[0-3]01KC|A205KC|WX10K|URBANO PROGRESSO|E7110|E7200|E6921|KY-(?:42C|51B)|C6930|A101BM)(?:[-_][uj]2?)?(?:[);/ ]|$)",
  pat! "(?i)C5120(?:[);/ ]|$)",
  pat! "(?i)(A101BM)(?:[);/ ]|$)",
  pat! "(?i)S([4689]|10)-KC(?:[);/ ]|$)",
  pat! "(?i)C5155(?:[);/ ]|$)",
  pat! "(?i)602KC(?:[);/ ]|$)",
  pat! "(?i)503KC(?:[);/ ]|$)",
  pat! "(?i)404KC(?:[);/ ]|$)",
  pat! "(?i)704KC(?:[);/ ]|$)",
  pat! "(?i)302KC(?:[);/ ]|$)",
  pat! "(?i)KC-S302(?:[);/ ]|$)",
  pat! "(?i)NP501KC(?:[);/ ]|$)",
  pat! "(?i)WX10K(?:[);/ ]|$)",
  pat! "(?i)KYV36(?:[);/ ]|$)",
  pat! "(?i)901KC(?:[);/ ]|$)",
  pat! "(?i)A101KC(?:[);/ ]|$)",
  pat! "(?i)KY-42C(?:[);/ ]|$)",
  pat! "(?i)KYV39(?:[);/ ]|$)",
  pat! "(?i)KYX31(?:[);/ ]|$)",
  pat! "(?i)C5170(?:[);/ ]|$)",
  pat! "(?i)C5215(?:[);/ ]|$)",
  pat! "(?i)C6522N?",
  pat! "(?i)C6740(N)?",
  pat! "(?i)E6560[CT]",
  pat! "(?i)(?:KYOCERA-)?E68[12]0",
  pat! "(?i)(?:KYOCERA-)?(?:E69[12]0|E6921)",
  pat! "(?i)(?:KYOCERA-)?(?:E7200)",
  pat! "(?i)KYL21(?:[);/ ]|$)",
  pat! "(?i)KYL23(?:[);/ ]|$)",
  pat! "(?i)KYY24(?:[);/ ]|$)",
  pat! "(?i)KYG03(?:[);/ ]|$)",
  pat! "(?i)(KYF32|KYF41)(?:[);/ ]|$)",
  pat! "(?i)KYF35(?:[);/ ]|$)",
  pat! "(?i)KYF40(?:[);/ ]|$)",
  pat! "(?i)KYF3[179](?:[);/ ]|$)",
  pat! "(?i)(KYV48|KYF42)(?:[);/ ]|$)",
  pat! "(?i)KYF33(?:[);/ ]|$)",
  pat! "(?i)(KYF38)(?:[);/ ]|$)",
  pat! "(?i)KYV35(?:[);/ ]|$)",
  pat! "(?i)KYV41(?:[);/ ]|$)",
  pat! "(?i)KYV46(?:[);/ ]|$)",
  pat! "(?i)KYV32?(?:[);/ ]|$)",
  pat! "(?i)KYV47(?:-[uj])?(?:[);/ ]|$)",
  pat! "(?i)KYV43(?:_j)?(?:[);/ ]|$)",
  pat! "(?i)705KC(?:[);/ ]|$)",
  pat! "(?i)KYV37(?:[);/ ]|$)",
  pat! "(?i)KYV42(?:_u)?(?:[);/ ]|$)",
  pat! "(?i)KYV44(?:_u2?)?(?:[);/ ]|$)",
  pat! "(?i)KYT33(?:[);/ ]|$)"]

/-- `__dr_re`, from item 4500 on (device_repo.go:22836-23085). -/
def drRe_18 : List (List Chunk) := [
  pat! "(?i)KYT32(?:[);/ ]|$)",
  pat! "(?i)KYT31(?:[);/ ]|$)",
  pat! "(?i)KYV40U?(?:[);/ ]|$)",
  pat! "(?i)KYV33(?:[);/ ]|$)",
  pat! "(?i)KYY21(?:[);/ ]|$)",
  pat! "(?i)KYY22(?:[);/ ]|$)",
  pat! "(?i)KYY23(?:[);/ ]|$)",
  pat! "(?i)KYV31(?:[);/ ]|$)",
  pat! "(?i)KYV34(?:[);/ ]|$)",
  pat! "(?i)KYV(?:45|38)(?:[);/ ]|$)",
  pat! "(?i)A301KC(?:[);/ ]|$)",
  pat! "(?i)(?:Kyocera-)?E6790(?:TM)?",
  pat! "(?i)X3-KC(?:[);/ ]|$)",
  pat! "(?i)E6782(?:[);/ ]|$)",
  pat! "(?i)E6782L(?:[);/ ]|$)",
  pat! "(?i)KCP01K(?:[);/ ]|$)",
  pat! "(?i)(KC-S301AE|KY-51B)(?:[);/ ]|$)",
  pat! "(?i)(SZJ-JS20[12])(?:[);/ ]|$)",
  pat! "(?i)A001KC(?:[);/ ]|$)",
  pat! "(?i)A201KC(?:[);/ ]|$)",
  pat! "(?i)A205KC(?:[);/ ]|$)",
  pat! "(?i)URBANO PROGRESSO(?:[);/ ]|$)",
  pat! "(?i)KYY31(?:[);/ ]|$)",
  pat! "(?i)Kyocera-KZ-([a-z0-9]+)",
  pat! "(?i)Kyocera(?:[\\-/])?([a-z0-9]+)",
  pat! "(?i)(KWC|QC)-?([a-z0-9]+)",
  pat! "(?i)(KA-E410W)(?:[);/ ]|$)",
  pat! "(?i)(?:Ureki_U1|Victor V1|Lamia L01|DART KZ07|REX RX|Eva_E01|Majesty (?:M5|4G))(?:[);/ ]|$)",
  pat! "(?i)Majesty (M5|4G)",
  pat! "(?i)(?:Sapphire 8|Sapphire[76]|Mega plus[23])(?:[);/ ]|$)",
  pat! "(?i)Mega plus([23])",
  pat! "(?i)Sapphire ?([678])",
  pat! "(?i)(?:Panther2 Pro)(?:[);/ ]|$)",
  pat! "(?i)LAIQ|(?:Monaco)(?:[);/ ]|$)",
  pat! "(?i)(?:LAIQ_)?(Glam|New York|Dubai|Monaco)(?:[);/ ]|$)",
  pat! "(?i)LCT_([a-z0-9]+)",
  pat! "(?i)(?:LEM1[456]|LEM12Pro)(?:[);/ ]|$)",
  pat! "(?i)(LEM12)Pro",
  pat! "(?i)(LEM1[456])",
  pat! "(?i)LG|NetCast|WebAppManager|portalmmm/2\\.0 (?:KE|KG|KP|L3)|(?:VX[0-9]+|L-0[12]D|L-07C|P713|(LM-[A-Z][0-9]{3}[A-Z]{0,3}(?:\\(FGN?\\)|\\(G\\)|\\.FN|\\.F(?:GN?)?)?)|LM-(X625N1|G820QM[0127])|G Watch|lucye)(?:[);/ ]|$)|RS98[78]|RS500|VS(?:50[01]|835|876|880|98[05-8]|99[056]|(410|415|425|500|880)PP)|VS820|VS870 4G|Nexsus 5|10A30Q|LM-?(?:K920|K200[EB]?)|LML(41[34]D|211B|713D|212V)L|VK810 4G|VK815|X5-LG|L-05[DE]|L-03K|L-01[LJK]|L-52A|L-[45]1A|901LG|A001LG|80[12]LG|402LG|LGT32|L-02K|L-01F|LM-V40|DM-01K|DM-02H|LMX130IM|LMG820UM1|VS810PP|VS425|VM670|VS930 4G|US215|LGE[;,] (?:[0-9]{2}[ELSTUP][ABCFGHJ-NP-TWX][a-z0-9]{4,7}(?:\\-[a-z]{2})?|[0-9]{2}NANO[a-z0-9]+|OLED[0-9]{2}[a-z0-9-]+)|(?:27ART10AKPL|28MT49S-PSS|HF60LS-EU)(?:[);/ ]|$)",
  pat! "(?i)DM-(01K|02H)",
  pat! "(?i)LG-?(?:D32[0159]|AS323|LS620)",
  pat! "(?i)LG-?(D315|L31L|F370)",
  pat! "(?i)LG-D4(?:[01]5|[01]0)",
  pat! "(?i)LG-D37[35]",
  pat! "(?i)LG-D12[05]",
  pat! "(?i)LG-?(?:X132|X130g)",
  pat! "(?i)LG-?(?:D157f|D150)",
  pat! "(?i)LG-D10[057]",
  pat! "(?i)LG-X14[057]",
  pat! "(?i)LG-X13[57]",
  pat! "(?i)LG-D28[05]",
  pat! "(?i)LG-?LS675",
  pat! "(?i)LG-?LS665",
  pat! "(?i)VS980|L-01F|LG-(?:F320[LKS]|D80[012356]|LS980)",
  pat! "(?i)LG-D6(?:1[08]|2[05])",
  pat! "(?i)LG-(?:D85[012568]|AS990|F400[LKS])|LG-?LS990|(?:LG-)?(?:VS985|LGUS990|LGL24|LGD85[05]|LGV31)(?:[);/ ]|$)",
  pat! "(?i)LG-?LS885",
  pat! "(?i)LG-D722",
  pat! "(?i)LG-(?:D72[23568]|F470[LKS]|D722J)",
  pat! "(?i)LG-D693n?|LG-D690n",
  pat! "(?i)LG-?H81[012589]|LG-?[LU]S991|LGV32|LG-F500[LSK]|VS986",
  pat! "(?i)LG-H525n?",
  pat! "(?i)LG-H22[012]",
  pat! "(?i)LG-(?:H540|H542|H630)",
  pat! "(?i)LG-H73[46]",
  pat! "(?i)LG-H8(?:20|3[01]|5[08]|6[08])|VS987|(?:LG-)?RS988|LG-F700[SKL]|LG-?(?:[LU]S992|AS992)",
  pat! "(?i)LG-H84[05]",
  pat! "(?i)VS988|LG-H87(?:[01](?:DS|[SI]|AR)?|[23])|LG-?US997|LGM-G600[SKL]|LG-[AL]S993|lucye",
  pat! "(?i)LG-?(?:L23|D95[015689]|LS995|D950G|F340[LKS])(?:[);/ ]|$)",
  pat! "(?i)LG-?(?:H95[059]|F510[KLS]|LS996|AS995)",
  pat! "(?i)LG-D68[0-6]",
  pat! "(?i)LM-G820([NV]|QM[0127]|UMB)?",
  pat! "(?i)LG-F310LR?",
  pat! "(?i)901LG(?:[);/ ]|$)",
  pat! "(?i)LG-H410(?:[);/ ]|$)",
  pat! "(?i)LG-?(?:D486|F480[LKS])(?:[);/ ]|$)",
  pat! "(?i)LG-?T480[KS]",
  pat! "(?i)LG-F610[KS]",
  pat! "(?i)VS501|LM-X120",
  pat! "(?i)LGMS395|LG-D393",
  pat! "(?i)LG-(?:F520[LKS]|H788)",
  pat! "(?i)(?:LG-)?H50[02]",
  pat! "(?i)LGL16(?:3BL|4VL)",
  pat! "(?i)LG-(?:X15[05]|X165g)",
  pat! "(?i)LG-D33[157]",
  pat! "(?i)LG-D29[05]",
  pat! "(?i)(?:LG-)?H343",
  pat! "(?i)(?:LG-)?H650",
  pat! "(?i)(?:LG-)?M154",
  pat! "(?i)LGM-K120[LSK]",
  pat! "(?i)LG-K120(?:[);/ ]|$)",
  pat! "(?i)LGM-X320[SKL]?(?:[);/ ]|$)",
  pat! "(?i)LG-F620[KLS]",
  pat! "(?i)LG-?L18VC",
  pat! "(?i)(?:LG-)?P500H",
  pat! "(?i)(?:LG-?)?VS450PP",
  pat! "(?i)LG-(?:E97[567]|F180[KLS]|E987|LS970)|LGL01E",
  pat! "(?i)LG-?L39C",
  pat! "(?i)LG-(?:F240[KLS]|E98[69]|E98[015])",
  pat! "(?i)LG-E435f?",
  pat! "(?i)LG-E4(?:70f|40|65f)",
  pat! "(?i)LG-E4(?:67f|45)",
  pat! "(?i)LG-?(?:D180f|D175f|D170|D165)",
  pat! "(?i)LG-E4[56]0",
  pat! "(?i)LG-E61[02]",
  pat! "(?i)LG-(?:E4[17]5f|E410)",
  pat! "(?i)LG-(?:D605)",
  pat! "(?i)LG-?(?:P655H|MS659)",
  pat! "(?i)LGMS500|LG-D505",
  pat! "(?i)(L-05[DE])(?:[);/ ]|$)",
  pat! "(?i)LG-L160L|LG-F160",
  pat! "(?i)(?:LG-)?(?:P713|P71[0245]|P713TR)(?:[);/ ]|$)",
  pat! "(?i)LG-P716(?:[);/ ]|$)",
  pat! "(?i)LG-?MS323",
  pat! "(?i)L-01D(?:[);/ ]|$)",
  pat! "(?i)L-02D(?:[);/ ]|$)",
  pat! "(?i)(?:LG-?)?(?:F800[SKL]?|H990|H910(?:PR)?|US996|V34|LS997)(?:[);/ ]|$)",
  pat! "(?i)LM-Q710(?:\\(FGN\\)|[\\.]?FGN)",
  pat! "(?i)LG-?(?:D22[17]|D213)",
  pat! "(?i)LG-?(?:K520|F720[KLS])",
  pat! "(?i)LG-(?:K53[05])",
  pat! "(?i)LM-Q[67]10\\.FG(?:[);/ ]|$)",
  pat! "(?i)LM-(Q72[57][KLS]|Q610[\\(.]FGN)(?:[);/ ]|$)",
  pat! "(?i)LM-Q815[KSL](?:[);/ ]|$)",
  pat! "(?i)LGM-X800[KL]|LG-H970",
  pat! "(?i)LM-Q925[LKS](?:[);/ ]|$)",
  pat! "(?i)LM-(?:Q730N|Q620)(?:[);/ ]|$)",
  pat! "(?i)LM-Q520N(?:[);/ ]|$)",
  pat! "(?i)LGV33(?:[);/ ]|$)",
  pat! "(?i)L-03K(?:[);/ ]|$)",
  pat! "(?i)L-01L(?:[);/ ]|$)",
  pat! "(?i)LGLS775|LGL8(?:2V|1A)L",
  pat! "(?i)VS835(?:[);/ ]|$)",
  pat! "(?i)LG-?(?:MS550|K55[07])",
  pat! "(?i)L-41A(?:[);/ ]|$)",
  pat! "(?i)LG-?(?:MS63[14]|H63[145]|F560K|LS770)(?:[);/ ]|$)",
  pat! "(?i)LG-?(?:LS777|L84VL|M430|L83BL)(?:[);/ ]|$)",
  pat! "(?i)LG-?([TM]P450|M470F?)(?:[);/ ]|$)",
  pat! "(?i)LM-Q710|LML713DL|LG-Q710[AP]L",
  pat! "(?i)(?:LM-Q720|LGL722DL)(?:[);/ ]|$)",
  pat! "(?i)LM-Q730(?:[);/ ]|$)",
  pat! "(?i)LM-G710(N|VM)?|LG-G710",
  pat! "(?i)LG-H44[35]",
  pat! "(?i)LM-X410\\.FG?(?:[);/ ]|$)",
  pat! "(?i)LGL455DL(?:[);/ ]|$)",
  pat! "(?i)LML41[34]DL(?:[);/ ]|$)",
  pat! "(?i)LG-?L6(?:2V|1A)L(?:[);/ ]|$)",
  pat! "(?i)LG-?L5(?:2V|1A)L(?:[);/ ]|$)",
  pat! "(?i)LG-?L355DL",
  pat! "(?i)LM-X210[KLS]",
  pat! "(?i)LG-(?:K580|F690[LS])",
  pat! "(?i)LG-?K600",
  pat! "(?i)LG-(?:SP320|M32[27]|US601)",
  pat! "(?i)LG-?(?:LS676|L56VL|L53BL|K200)",
  pat! "(?i)LG-?(?:K500|F650|S02)",
  pat! "(?i)LG-(?:M710|H700|US701)",
  pat! "(?i)LM-X(?:41[05]K|410S)",
  pat! "(?i)LM-X(415[LS]|410L)",
  pat! "(?i)LM-X410(?:\\.FN|\\(FG\\))",
  pat! "(?i)LM-X(?:320|410[UP]M)|LGL322DL",
  pat! "(?i)LG-?LS740",
  pat! "(?i)LG-?LS751",
  pat! "(?i)(?:VS425|LG-?(?:K120GT|K121|M151|X230))(?:[);/ ]|$)",
  pat! "(?i)LG-K130(?:[);/ ]|$)",
  pat! "(?i)(?:LG-?)?(?:M160|L57BL)(?:[);/ ]|$)",
  pat! "(?i)LM-X430(?:[);/ ]|$)",
  pat! "(?i)(?:802LG|LM-X520)(?:[);/ ]|$)",
  pat! "(?i)(?:LM-X510[KLS]|X5-LG)",
  pat! "(?i)LGMS210|LG-M210",
  pat! "(?i)LM-X210[G]?",
  pat! "(?i)LM-X220(?:[);/ ]|$)",
  pat! "(?i)LM-X220N(?:[);/ ]|$)",
  pat! "(?i)LM-V40(?:5|9N|5EBW)?(?:[);/ ]|$)",
  pat! "(?i)LM-(?:V500N?|V450)(?:[);/ ]|$)",
  pat! "(?i)(?:LG-)?(?:RS987|H90[01]|H96[0218]|VS990|F600[LKS]|K428)",
  pat! "(?i)LG-(?:X240|M200)",
  pat! "(?i)(?:LG-)?RS500",
  pat! "(?i)(?:LG-)?VS500",
  pat! "(?i)LM-X212\\(G\\)|(?:LG)?US215",
  pat! "(?i)(?:LG-)?(?:VS995|F800K|US999|LS997|H91[058]|H990(?:DS|[NT])?)",
  pat! "(?i)(?:VS996|LG-(?:H933|H93[012]|H930RE|H932PR|[LU]S998|AS998)|LGM-V300[KLS])(?:[);/ ]|$)",
  pat! "(?i)L-01J(?:[);/ ]|$)",
  pat! "(?i)(?:L-01K|LGV35|LG-H930DS)(?:[);/ ]|$)",
  pat! "(?i)L-51A(?:[);/ ]|$)",
  pat! "(?i)(?:L-52A|LM-G900(?:[NV]|TM)?)(?:[);/ ]|$)",
  pat! "(?i)LM-V700N(?:[);/ ]|$)",
  pat! "(?i)(?:A001LG|LM-V600V?)(?:[);/ ]|$)",
  pat! "(?i)(?:LG-)?VS410PP",
  pat! "(?i)LM-V350[N]?",
  pat! "(?i)(?:LG-)?VS415PP",
  pat! "(?i)(?:LG-)?VS425PP",
  pat! "(?i)(?:LG-?)?(?:K100|LS450)",
  pat! "(?i)LG-AS110|LGUS110",
  pat! "(?i)(?:LG-?)?(?:K|MS)33[02]|LG-X210",
  pat! "(?i)(?:LG-?)?(?:K|MS)350",
  pat! "(?i)(?:LG-?)?(?:K420(?:N)?|K425|F670[KLS]?|K430(?:DS|DSF|DSY)?|K410|MS428)",
  pat! "(?i)(?:LG-)?(?:M250N?|M257PR)",
  pat! "(?i)(?:LG-)?M255",
  pat! "(?i)(?:LG-?)?[MT]P260",
  pat! "(?i)LM-?K200[EB]",
  pat! "(?i)LM-K200(?:[);/ ]|$)",
  pat! "(?i)LM-?K920",
  pat! "(?i)LM-K300(?:[);/ ]|$)",
  pat! "(?i)LM-K330(?:[);/ ]|$)",
  pat! "(?i)LM-K420(?:[);/ ]|$)",
  pat! "(?i)(?:LM-K500|LGL555DL)(?:[);/ ]|$)",
  pat! "(?i)LM-K510(?:[);/ ]|$)",
  pat! "(?i)LM-K520(?:[);/ ]|$)",
  pat! "(?i)LM-K525(?:[);/ ]|$)",
  pat! "(?i)LM-K526(?:[);/ ]|$)",
  pat! "(?i)LM-Q510N(?:[);/ ]|$)",
  pat! "(?i)LM-Q310N(?:[);/ ]|$)",
  pat! "(?i)LM-Q630N?(?:[);/ ]|$)",
  pat! "(?i)(?:LG-)?M700(?:N|A|DSK|AN)?|LGM-X600[SLK]|LG-M703|LG-US700",
  pat! "(?i)LGV36(?:[);/ ]|$)",
  pat! "(?i)LG-M257(?:[);/ ]|$)",
  pat! "(?i)LM-K400(?:[);/ ]|$)",
  pat! "(?i)(?:LG-?)?(?:K220|LS755|F750K|US610)",
  pat! "(?i)(?:LG-?)?M320",
  pat! "(?i)(?:LG-)?K371",
  pat! "(?i)(?:LG-)?M150",
  pat! "(?i)(?:LG-)?F100[SL]",
  pat! "(?i)(?:LG-)?F200(?:[KLS]|LS)",
  pat! "(?i)(?:LG-)?VM670",
  pat! "(?i)(?:LG-)?P880",
  pat! "(?i)(?:LG-)?(H340n?|H32[04])",
  pat! "(?i)(?:LG-)?H34[25]|LGMS345",
  pat! "(?i)(?:LG-)?H4(?:40|2[02])",
  pat! "(?i)(?:LG)?C660",
  pat! "(?i)LML21(?:1B|2V)L",
  pat! "(?i)LG-?L4(?:4V|3A)L",
  pat! "(?i)VS880(PP)?|LG-(?:D690|D631)",
  pat! "(?i)LG-?(?:D838|F350[LKS])",
  pat! "(?i)LG-F300[LKS]",
  pat! "(?i)LG-D38[05]",
  pat! "(?i)LG-?(?:L16C|L15G)",
  pat! "(?i)LM-F100N?(?:[);/ ]|$)",
  pat! "(?i)LM-T60[05]",
  pat! "(?i)LG-?(?:(?:UK|V)410|V411|V400Y7)",
  pat! "(?i)LG-?(?:LK430|V400)",
  pat! "(?i)LG-V49[56]",
  pat! "(?i)LG-V4[89]0",
  pat! "(?i)LGT01|LG-P490L",
  pat! "(?i)LG-V50(?:0|7L)",
  pat! "(?i)LG-V935|LGUK932",
  pat! "(?i)LGT02|LG-?V522",
  pat! "(?i)LG-V525(?:S[13])?(?:[);/ ]|$)",
  pat! "(?i)LG-?[VP]755",
  pat! "(?i)LG-V52[01]"]

/-- `__dr_re`, from item 4750 on (device_repo.go:23086-23335). -/
def drRe_19 : List (List Chunk) := [
  pat! "(?i)LG-?UK750",
  pat! "(?i)\\(LGE?, WEBOS[123], (?:wired|wireless)",
  pat! "(?i)Web0S; Linux/SmartTV.+\\( ?;LGE? ?;(\\d{2}\\w+) ?;",
  pat! "(?i)LGE;? (?:HOTEL\\-TV; )?([0-9]{2}[a-z0-9]{4,9}(?:\\-[a-z]{2,3})?)",
  pat! "(?i)\\(LGE?,? ([a-z0-9_ -]+)(?:\\.[a-z]+)?,? (?:wired|wireless)",
  pat! "(?i)Media/([a-z]{2,3}[0-9]{3,4})",
  pat! "(?i)webOS\\.TV",
  pat! "(?i)LGE_DLNA_SDK|NetCast",
  pat! "(?i)G Watch( R)?",
  pat! "(?i)(LM-[A-Z]{1}[0-9]{3}([A-Z]{1,3})?)",
  pat! "(?i)LGE(?: |-LG| LG-AX|-)([a-z0-9]+)",
  pat! "(?i)FBDV/LG-([a-z0-9]+);FBSV",
  pat! "(?i)LGE;([a-z0-9-]+)",
  pat! "(?i)LG[ _-](V90.*|Optimus[ _-]Pad.*) Build",
  pat! "(?i)LGM-([^/;]*)( Build|[;)])",
  pat! "(?i)LG(?:/|-LG| |-)?([^/;]*) Build",
  pat! "(?i)LG(?:/|-LG| |-)?([a-z0-9]+)",
  pat! "(?i)LG; ([a-z0-9 ]+)",
  pat! "(?i)portalmmm/2\\.0 ((?:KE|KG|KP|L3)[a-z0-9]+)",
  pat! "(?i)(VX[0-9]+)",
  pat! "(?i)Web0S; Linux/SmartTV",
  pat! "(?i)(H11)-EEA(?:[);/ ]|$)",
  pat! "(?i)LOGAN_(Panita)_3G(?:[);/ ]|$)",
  pat! "(?i)(APPLLP Max|APPLLP2?)(?:[);/ ]|$)",
  pat! "(?i)LT[ _-](?:E1[68]|P[89]|9701|9902|P10I|NOTE 10[SM]|NOTE 30|C1[45]00|C26|C3[1235]00|C3750|S10[ _]Lite|S10|S33|S9_NOTE|M[56]|M5_lite|C1300|6217|6509|2003|C60)|(?:C3[67]00)(?:[);/ ]|$)",
  pat! "(?i)LT[- ]NOTE ([13]0[SM]?)",
  pat! "(?i)LT[ _-]C3100",
  pat! "(?i)LT[ _-]C3200",
  pat! "(?i)LT[ _-]C3750",
  pat! "(?i)LT[ _-]C1400",
  pat! "(?i)LT[ _-]C3500",
  pat! "(?i)(?:LT[ _-])?C3600",
  pat! "(?i)(?:LT[ _-])?C3700",
  pat! "(?i)LT[ _-](C3300|C1500)",
  pat! "(?i)LT[ _]S10[ _]Lite",
  pat! "(?i)LT[ _]S10",
  pat! "(?i)LT[ _]C1300",
  pat! "(?i)LT[ _]P10I",
  pat! "(?i)LT[ _]9701",
  pat! "(?i)LT[ _]6217",
  pat! "(?i)LT[ _]6509",
  pat! "(?i)LT[ _]9902",
  pat! "(?i)LT[ _]2003",
  pat! "(?i)LT[ _]S33",
  pat! "(?i)LT[ _]P([89])(?:[);/ ]|$)",
  pat! "(?i)LT[ _]E(1[68])(?:[);/ ]|$)",
  pat! "(?i)LT[ _]C(60|26)(?:[);/ ]|$)",
  pat! "(?i)LT[ _]M([56])[_ ]lite(?:[);/ ]|$)",
  pat! "(?i)LT[ _]M([56])(?:[);/ ]|$)",
  pat! "(?i)Lunnen|TL65611S01|TL4648S01",
  pat! "(?i)Ground (11|10\\.4)",
  pat! "(?i)LU-(V78)(?:[);/ ]|$)",
  pat! "(?i)(LW788)(?:[);/ ]|$)",
  pat! "(?i)(LYF[ _])?LS-[456][0-9]{3}|LYF/[^/]+/",
  pat! "(?i)(LYF[ _])?LS-4006",
  pat! "(?i)LS-450[58]",
  pat! "(?i)LYF/([^/]+)/",
  pat! "(?i)LFi ONE(?:[);/ ]|$)",
  pat! "(?i)Land[ ]?Rover[d]?[ _-](?:X1[0-9]|Explore|LUXURY|T878|L15\\+|V18|V[168]|X)(?:[);/ ]|$)|Polar3|Vphone[- ]X3|ST11-A5",
  pat! "(?i)Land[ ]?Rover[d]?[ _-](X1[0-9]|Explore(?: R)?|T878|L15\\+|V18|V[168]|X)(?:[);/ ]|$)",
  pat! "(?i)Vphone[- ]X3",
  pat! "(?i)(ST11-A5)",
  pat! "(?i)XM[123]00|S6 Build",
  pat! "(?i)XM([123])00([^/;)]*)(?: Build|[;)])",
  pat! "(?i)lanin (T4)(?:[);/ ]|$)",
  pat! "(?i)LANIX-([a-z0-9]+)|Ilium[ _]|LANIX_PAD|IliumPad|X120C|(?:Alpha 950(?:XL)?|Alpha [1359]V|Alpha 1R|X540)(?:[);/ ]|$)",
  pat! "(?i)ILIUM[ _]?PAD[ _]?([^;/]+)(?: Build|[;)])",
  pat! "(?i)Ilium[ _](Alpha [15]s|Alpha [379]|Alpha 1T|L(?:200|6[12]0|9[0125]0|1[0124]00|1050|1120)|LT5[012]0|M[579]s|M7T|M[13579]|S(?:106|520|6[27]0)|X(?:1[12]0|2[0126]0|400|5[12]0|500B|710))(?:[);/ ]|$)",
  pat! "(?i)ILIUM[ _]([^;/)]+)(?: Build|[;)])",
  pat! "(?i)Alpha (9500|950(?:XL)?)",
  pat! "(?i)Alpha ([1359])V",
  pat! "(?i)Alpha (1)R",
  pat! "(?i)(X540)",
  pat! "(?i)LANIX-([a-z0-9]+)",
  pat! "(?i)(Lark|Cumulus|Evolution|FreeMe|Ultimate (?:X4|7i))[ _-]|Build/Lark|Bjorn[_ ]SP-500|FreeBird 5WiFi|Impress_Noda",
  pat! "(?i)Cumulus[ _](5\\.5|[56])[ _]HD",
  pat! "(?i)FreeMe X2 ([79]) (?:ver|v)?\\.([23])",
  pat! "(?i)FreeMe[ _]X2[ _]([7-9])",
  pat! "(?i)FreeMe X4[ _]7[_ ]?HD",
  pat! "(?i)FreeMe X4[ _]9",
  pat! "(?i)(?:Lark[ _-])?Evolution[ _](X2 7 3G-GPS|X4[_ ]10\\.1|10|X4[_ ]7[ _]IPS)",
  pat! "(?i)Ul(?:ti|it)mate (X4 10\\.1 3G IPS|X4 8s 3G|7i)",
  pat! "(?i)Phablet 6\\.0",
  pat! "(?i)Bjorn[_ ]SP-500",
  pat! "(?i)Cirrus[ _](4\\.5|[45])",
  pat! "(?i)Lark[ _](Stratus[_ ]5)",
  pat! "(?i)(?:MID_1089IPSA100)(?:[);/ ]|$)",
  pat! "(?i)MID_1089IPSA100(?:[);/ ]|$)",
  pat! "(?i)Lava[ _]|LAVA(?:A1|X10)|(?:DISCOVER136|KKT QUADRA)|iris[ _]?([^/;)]+)(?: Build|[;)])|A(?:67|76) Build|X1 Selfie Build|X41 Plus Build|X1_atom_L|(?:Flair (?:[ZS]1|P8)|PixelV1|Pixel V2\\+?|Z60s|Z61_2GB|A97 IPS|A97 2GB PLUS|L[EH]9920(?:[_ ]P)?|L[NEH]9910|LH9810|Ivory(?:S1|S4G)?|A76Plus|Grand2c|AH9910| A3_mini|T71_w|V23GB|R1_Lite|Atom 2X|AF9030|Z50_Pro| Z(?:[56]1|92)|Android 6(?:[\\d.]*);(?: [\\w-]+;)? (:?X28|P7plus)|AF9020|Alfa L|T81N(?:_UP)?|LN982[01]|Fuel F1 Mini|LE000Z93P|LZX415|LXX513)(?:[);/ ]|$)",
  pat! "(?i)LZX409(?:[);/ ]|$)",
  pat! "(?i)LXX506(?:[);/ ]|$)",
  pat! "(?i)LZX404(?:[);/ ]|$)",
  pat! "(?i)LZX411(?:[);/ ]|$)",
  pat! "(?i)LZX407(?:[);/ ]|$)",
  pat! "(?i)LXX503(?:[);/ ]|$)",
  pat! "(?i)LXX513(?:[);/ ]|$)",
  pat! "(?i)Flair ([ZS]1|P8)(?:[);/ ]|$)",
  pat! "(?i)AF9030(?:[);/ ]|$)",
  pat! "(?i)AF9020(?:[);/ ]|$)",
  pat! "(?i)AH9910(?:[);/ ]|$)",
  pat! "(?i)LXX501(?:[);/ ]|$)",
  pat! "(?i)LXX504(?:[);/ ]|$)",
  pat! "(?i)Z61P(?:[);/ ]|$)",
  pat! "(?i)A97 IPS(?:[);/ ]|$)",
  pat! "(?i)LF6810(?:[);/ ]|$)",
  pat! "(?i)A97 2GB PLUS(?:[);/ ]|$)",
  pat! "(?i)A76Plus(?:[);/ ]|$)",
  pat! "(?i)A3_mini(?:[);/ ]|$)",
  pat! "(?i)Pixel V2\\+(?:[);/ ]|$)",
  pat! "(?i)Pixel ?V([12])(?:[);/ ]|$)",
  pat! "(?i)X1_atom_L(?:[);/ ]|$)",
  pat! "(?i)X1 Selfie(?:[);/ ]|$)",
  pat! "(?i)X41 Plus(?:[);/ ]|$)",
  pat! "(?i)(?:LAVA[_ ]?)?A([13]|67|76)(?:[);/ ]|$)",
  pat! "(?i)LAVA_R(1s?)",
  pat! "(?i)Z(\\d{2})(?:_2GB)?(?:[);/ ]|$)",
  pat! "(?i)Z50_Pro(?:[);/ ]|$)",
  pat! "(?i)LMX06(?:[);/ ]|$)",
  pat! "(?i)LMG01(?:[);/ ]|$)",
  pat! "(?i)LZG403[ _]225(?:[);/ ]|$)",
  pat! "(?i)LE000Z93P(?:[);/ ]|$)",
  pat! "(?i)LZG403[ _]25(?:[);/ ]|$)",
  pat! "(?i)LZG403(?:[);/ ]|$)",
  pat! "(?i)LZG401(?:[);/ ]|$)",
  pat! "(?i)Z60s(?:[);/ ]|$)",
  pat! "(?i)V23GB(?:[);/ ]|$)",
  pat! "(?i)LE9920[ _]P(?:[);/ ]|$)",
  pat! "(?i)LE9940(?:[);/ ]|$)",
  pat! "(?i)LE9920(?:[);/ ]|$)",
  pat! "(?i)LH9910(?:[);/ ]|$)",
  pat! "(?i)LF9810(?:_2GB)?(?:[);/ ]|$)",
  pat! "(?i)LF9820(?:[);/ ]|$)",
  pat! "(?i)LE9830(?:[);/ ]|$)",
  pat! "(?i)LN9810(?:[);/ ]|$)",
  pat! "(?i)LH9810(?:[);/ ]|$)",
  pat! "(?i)LH993[01](?:[);/ ]|$)",
  pat! "(?i)LE9930(?:[);/ ]|$)",
  pat! "(?i)LH9950(?:[);/ ]|$)",
  pat! "(?i)LN9821(?:[);/ ]|$)",
  pat! "(?i)LN9820(?:[);/ ]|$)",
  pat! "(?i)Atom 2X(?:[);/ ]|$)",
  pat! "(?i)Alfa L(?:[);/ ]|$)",
  pat! "(?i)LN9910(?:[);/ ]|$)",
  pat! "(?i)LE9910(?:[);/ ]|$)",
  pat! "(?i)LH9920(?:[);/ ]|$)",
  pat! "(?i)(X\\d+)[ _]Plus(?:[);/ ]|$)",
  pat! "(?i)(X28)(?:[);/ ]|$)",
  pat! "(?i)iris88[_ ]go",
  pat! "(?i)KKT40[ ]?Power[P\\+]",
  pat! "(?i)Ivory(S1|S4G)?(?:[);/ ]|$)",
  pat! "(?i)T81N_UP(?:[);/ ]|$)",
  pat! "(?i)T81N(?:[);/ ]|$)",
  pat! "(?i)T71_w(?:[);/ ]|$)",
  pat! "(?i)iris[ _]?([^/;)]+)[_ ]lite(?: Build|[);])",
  pat! "(?i)iris[ _]?([^/;)]+)(?: Build|[);])",
  pat! "(?i)Lava[ _]?([^/;)]+)(?: Build|[);])",
  pat! "(?i)LAVA[ _]([^/;)]+)/MIDP",
  pat! "(?i)Le ?Pan|TC970 ([^;/]+)Build",
  pat! "(?i)TC970 ([^;/]+)Build",
  pat! "(?i)Le ?Pan ?(II|S)(?:[);/ ]|$)",
  pat! "(?i)Le ?Pan ?([^;/]+) Build",
  pat! "(?i)(?:LeBest[_ ](?:L9)|L202206)(?:[);/ ]|$)",
  pat! "(?i)LeBest[_ ](L9)",
  pat! "(?i)Letv|LeEco|Le ?X[0-9][^;/]+|Le Max|Le [12]|Le2[_ ]x527|X900 Build|(?:X[89]00\\+|X52[67]|lineage_c106)(?:[);/ ]|$)",
  pat! "(?i)X800\\+",
  pat! "(?i)X900\\+",
  pat! "(?i)X50[10]",
  pat! "(?i)LE ?(X62[26]|X522)",
  pat! "(?i)(X910)",
  pat! "(?i)LEX72[057](?:[);/ ]|$)",
  pat! "(?i)LEX65[0137](?:[);/ ]|$)",
  pat! "(?i)LE(X620)(?:[);/ ]|$)",
  pat! "(?i)(?:Le ?X526|Le2[_ ]x527|Le 2|X52[67])(?:[);/ ]|$)",
  pat! "(?i)LEX82[019]|Le Max 2",
  pat! "(?i)Le ?X([^;/]+) Build",
  pat! "(?i)Le ?X([^) ;/]+)",
  pat! "(?i)Le ?([12][^;/]+) Build",
  pat! "(?i)Le Max([^;/]*) Build",
  pat! "(?i)Le Max([^ ;/]*)",
  pat! "(?i)LeEco ([^;/]+) Build",
  pat! "(?i)(Vyper|N-5[07]|N-45|LP DAISY|LP_(?:Spectrum_S2|VEYRON|PRADO|Pro1|B-50|EVORA_light)|LP_T70|LP[ _]INFINITY\\+?|LP T70 Lite|INFINITY_light|Alphatel_T1)(?:[);/ ]|$)",
  pat! "(?i)LP INFINITY\\+",
  pat! "(?i)(?:LP_)?(Vyper|N-5[07]|N-45|Pro1|Alphatel_T1)(?:[);/ ]|$)",
  pat! "(?i)(?:MY)?LEAGOO[ _-]?|(?:XRover(?: C)?|Shark (5000|1|6300)|M5 EDGE|KIICAA (POWER|MIX)|Leapad[ _](?:X|7s|7Pro)|Alfa [125]|Elite [15Y]|Venture 1|Z10-E|M9 Pro|Power 5|Power[ _]2(?: Pro)?|Android 9(?:[\\d.]*);(?: [\\w-]+;)? M1[23]|Android 8(?:[\\d.]*);(?: [\\w-]+;)? (?:Z9A|T8s)|Lead 3| T5c)(?:[);/ ]|$)",
  pat! "(?i)(?:LEAGOO[- _])?M([89])[_-]?Pro(?:[);/ ]|$)",
  pat! "(?i)LEAGOO[- _](Z[156]|Z5c|M[58]|T1)(?:[);/ ]|$)",
  pat! "(?i)(?:LEAGOO[_ ])?Lead ?([357])",
  pat! "(?i)Elite ([15Y])(?:[);/ ]|$)",
  pat! "(?i)Shark (1|5000|6300)(?:[);/ ]|$)",
  pat! "(?i)Power 2 Pro(?:[);/ ]|$)",
  pat! "(?i)(?:leagoo-)?Power[ _]([25])(?:[);/ ]|$)",
  pat! "(?i)Venture 1(?:[);/ ]|$)",
  pat! "(?i)Alfa ([125])(?:[);/ ]|$)",
  pat! "(?i)XRover( C)?(?:[);/ ]|$)",
  pat! "(?i)(?:LEAGOO[- _])?(Z10-E|M6|M1[23]|T5c|T8s|Z9A)(?:[);/ ]|$)",
  pat! "(?i)(?:My)?Leagoo[- _](E4)(?:[);/ ]|$)",
  pat! "(?i)(?:LEAGOO_)?Leapad[ _](7s|10|X|7I)",
  pat! "(?i)LECT-TAB(1011H?|0711)(?:[);/ ]|$)",
  pat! "(?i)(?:Ledstar[_ ])?(?:Trendy 5\\.0|Novus_Premium_6\\.0)",
  pat! "(?i)Trendy 5\\.0",
  pat! "(?i)Ledstar_Novus_Premium_6\\.0(?:[);/ ]|$)",
  pat! "(?i)Leelbox(?:[);/ ]|$)",
  pat! "(?i)Leelbox(?:[);/ ]|$)",
  pat! "(?i)(32[FH]540S|32H5[235]0T|(?:32|40)F550T|32H650S|43U540S|43U550T|5[05]U5[14]0S|55U630S|(?:43|65)U520S|40F540S|43F5[35]0T|32H511T|24F560T|24H5[125]0T|28H540S|28H541T|28H550T|50U541T|50U550T|50U6[23]0S|55U620S|43F511T|43F520T|43U570T|43[FU]541T)(?:[);/ ]|$)",
  pat! "(?i)(RST)_(B\\d{4}HD)(?:[);/ ]|$)",
  pat! "(?i)Leke[ _]Pad-([^/;)]+)(?: Build|[);])",
  pat! "(?i)Lemco (FBX-3566W?)(?:[);/ ]|$)",
  pat! "(?i)Lemhoov[ _-]([^/;]+) Build",
  pat! "(?i)Lenco (?:[^/);]*)(?: Build|[);])|(?:TDV900)(?:[);/ ]|$)",
  pat! "(?i)Lenco ([^/);]*)(?: Build|[);])",
  pat! "(?i)(?:LNV-)?Lenovo|XiaoXin Pad|IdeaTab|IdeaPad|Thinkpad|Yoga Tablet|Tab2A[0-9]-[0-9]{2}[a-z]?|ZUK[ -_]|TB-X306|(?:TB2-X30L|TB3-710[IF]|TB128FU|YT3-X50[MFL]|K50a40|TB-(?:Q706Z|X103F|8504F|X304F|X704V|X704A)|A5500-H|A2107A-H|A3500-HV|A2109A|S6000|Z2 Plus|Vibe[ _](?:P1|S6i Plus|S[23567]i|C|[ZX]2|K5(?: Plus)?|V7)|P2A42|L38011|L18011|[5-8]01LV|[67]02LV|Z2131|K350t|K31-t3|Tab A1020|TAB 2 A8-50LC|S90-A|A101LV|P70-A|VR-1541F|d-42A|lineage_A6020|EveryPad2|A2010l36|F0CU0028RK|TB310XU|TB301[FX]U|TB132FU|TB32(?:8[FX]U|0FC)|TB138FC|PB-6505Y|TB-X505[FLX]|TB-8704V|TB351FU|TB3[05]0[FX]U|TB-X606[XFM]|L38043|TB3-X70L|TB-X605[LF]C?|A7600-HV?|YT-X703F|TB330XU|TB373FU|TB3[17]0FU|TB331FC|TB321FU|A397i|TB330FU|NL5H00X|L79031|XT2091-[78]|L71061|L70081|L78031|20JJS0CU1M|A301LV|A6020(?:a46|l3[67])|TB360ZU|TB311[XF]U|TB37[15]FC|L58091|L39051|L19041|L19111|L780[157]1|Lecoo P116G|XT2129-3)(?:[);/ ]|$)",
  pat! "(?i)Lenovo ?G780",
  pat! "(?i)Lenovo ?A3500-FL",
  pat! "(?i)(?:Lenovo ?)?A3500-(?:H|HV|F)",
  pat! "(?i)(?:Lenovo[ _])?A5500-[HF]",
  pat! "(?i)Lenovo ?A7600|A7600-H",
  pat! "(?i)TB2-X30[FL]",
  pat! "(?i)TB-X6C6[XF]",
  pat! "(?i)TB311[XF]U",
  pat! "(?i)YT3-X50[FLM]",
  pat! "(?i)YT-J706[XF]",
  pat! "(?i)TB3-710[IF]",
  pat! "(?i)TB-8703[XF]",
  pat! "(?i)501LV(?:[);/ ]|$)",
  pat! "(?i)TAB 2 A10-70L(?:[);/ ]|$)",
  pat! "(?i)(?:TB3-850[FM]|601LV)(?:[);/ ]|$)",
  pat! "(?i)602LV(?:[);/ ]|$)",
  pat! "(?i)TB-X304[FL]",
  pat! "(?i)TB-8504[XL]",
  pat! "(?i)(?:TB-X704[FVL]|70[12]LV)(?:[);/ ]|$)",
  pat! "(?i)801LV(?:[);/ ]|$)",
  pat! "(?i)TB-X103F(?:[);/ ]|$)",
  pat! "(?i)TB-X704A(?:[);/ ]|$)",
  pat! "(?i)TB-X605F(?:[);/ ]|$)",
  pat! "(?i)TB330[FX]U(?:[);/ ]|$)",
  pat! "(?i)TB310[FX]U(?:[);/ ]|$)",
  pat! "(?i)TB-X705[FL](?:[);/ ]|$)",
  pat! "(?i)TB-J606[LF](?:[);/ ]|$)",
  pat! "(?i)TB-Q706[FZ](?:[);/ ]|$)",
  pat! "(?i)TB-J606[FN]",
  pat! "(?i)TB-J607F(?:[);/ ]|$)",
  pat! "(?i)TB-J6C6F(?:[);/ ]|$)",
  pat! "(?i)TB-J616[XF](?:[);/ ]|$)",
  pat! "(?i)TB-J706[LF](?:[);/ ]|$)",
  pat! "(?i)TB132FU(?:[);/ ]|$)",
  pat! "(?i)TB350[FX]U(?:[);/ ]|$)",
  pat! "(?i)TB-J607Z(?:[);/ ]|$)",
  pat! "(?i)TB-7104[IF](?:[);/ ]|$)",
  pat! "(?i)TB-8304F1(?:[);/ ]|$)",
  pat! "(?i)TB-7504X(?:[);/ ]|$)"]

/-- `__dr_re`, from item 5000 on (device_repo.go:23336-23585). -/
def drRe_20 : List (List Chunk) := [
  pat! "(?i)TB-X606[FXV]A?(?:[);/ ]|$)",
  pat! "(?i)TB-X605[FL]C",
  pat! "(?i)TB-?360ZU",
  pat! "(?i)(?:Lenovo )?TB12[58][FX]U",
  pat! "(?i)(?:Lenovo )?TB328[FX]U",
  pat! "(?i)(?:Lenovo )?TB-X505",
  pat! "(?i)TB-7305[IXF](?:[);/ ]|$)",
  pat! "(?i)TB-7306[XF](?:[);/ ]|$)",
  pat! "(?i)Lenovo ?B8000(-[FH])?",
  pat! "(?i)Lenovo ?B8080(-[FH])?",
  pat! "(?i)YOGA Tablet 2 Pro-1380[FL]",
  pat! "(?i)YOGA Tablet 2-1050[FL]",
  pat! "(?i)YOGA Tablet 2-830(?:[FL]|LC)",
  pat! "(?i)Lenovo ?B6000(-[FH])?",
  pat! "(?i)YT3-X90(L|F|X)",
  pat! "(?i)YT3-850[FL]",
  pat! "(?i)YT-X703[FL]",
  pat! "(?i)YT-X705[FL]",
  pat! "(?i)YB1-X90[FL]",
  pat! "(?i)TB37[15]FC",
  pat! "(?i)S6000(?:[);/ ]|$)",
  pat! "(?i)Lenovo ([ASB][0-9]{4})[A-Z]?\\-[EHF]",
  pat! "(?i)ThinkPadTablet_(A[0-9]{3})_",
  pat! "(?i)ThinkPad ?Tablet([^;/]*) Build",
  pat! "(?i)Lenovo ?A3300-(?:GV|H)",
  pat! "(?i)TAB 2 A7-30[HGD]C",
  pat! "(?i)TB-8704[FV]",
  pat! "(?i)TB-X505[FX]",
  pat! "(?i)TB-X104[FXL]",
  pat! "(?i)Tab2A([0-9]-[0-9]{2}[a-z]?)",
  pat! "(?i)IdeaTab[ \\-_]?([a-z0-9]+)",
  pat! "(?i)Yoga Tablet([^;/]+) Build",
  pat! "(?i)TB-8505[FX]S",
  pat! "(?i)TB-8505[FX]",
  pat! "(?i)TB-8506[FX]",
  pat! "(?i)TB300[FX]U",
  pat! "(?i)TB301[FX]U",
  pat! "(?i)TB-8705[FX]",
  pat! "(?i)(?:TB-9707F|TB320FC|TB321FU)(?:[);/ ]|$)",
  pat! "(?i)Lenovo (TB[0-9]?\\-[a-z0-9-]+) Build",
  pat! "(?i)Lenovo S([69]0)-?[aU]",
  pat! "(?i)Lenovo K30-W(?:[);/ ]|$)",
  pat! "(?i)L18011(?:[);/ ]|$)",
  pat! "(?i)L18081(?:[);/ ]|$)",
  pat! "(?i)L19111(?:[);/ ]|$)",
  pat! "(?i)L10041(?:[);/ ]|$)",
  pat! "(?i)L78121(?:[);/ ]|$)",
  pat! "(?i)Z213[12]",
  pat! "(?i)ZUK[ -_]([^/;]*)(?: Build|\\))",
  pat! "(?i)K10a40(?:[);/ ]|$)",
  pat! "(?i)(?:k50a40|K50-t5)(?:[);/ ]|$)",
  pat! "(?i)K(1[30]) Note(?:[);/ ]|$)",
  pat! "(?i)A7010(?:a48)?(?:[);/ ]|$)",
  pat! "(?i)K350t(?:[);/ ]|$)",
  pat! "(?i)L38011(?:[);/ ]|$)",
  pat! "(?i)(?:L38041|K5 Pro)(?:[);/ ]|$)",
  pat! "(?i)L39051(?:[);/ ]|$)",
  pat! "(?i)(?:A7020a4[08]|L38012|K52e78)(?:[);/ ]|$)",
  pat! "(?i)L19041(?:[);/ ]|$)",
  pat! "(?i)K31-t3(?:[);/ ]|$)",
  pat! "(?i)A6010Pro(?:[);/ ]|$)",
  pat! "(?i)(?:A6020a46|Vibe K5 Plus|lineage_A6020)(?:[);/ ]|$)",
  pat! "(?i)(?:Lenovo-)?(?:A6020(?:a40|l3[67])|Vibe K5)(?:[);/ ]|$)",
  pat! "(?i)VIBE Z2(?:[);/ ]|$)",
  pat! "(?i)(?:VIBE C|A2020a40)(?:[);/ ]|$)",
  pat! "(?i)(?:VIBE X2|X2-(?:X+CU|TO|AP))(?:[);/ ]|$)",
  pat! "(?i)(?:X3(?:a40|c[57]0)|K51c78)(?:[);/ ]|$)",
  pat! "(?i)Lenovo X3 Lite(?:[);/ ]|$)",
  pat! "(?i)VIBE V7(?:[);/ ]|$)",
  pat! "(?i)VIBE S6i Plus(?:[);/ ]|$)",
  pat! "(?i)VIBE[ _]S([23567])i(?:[);/ ]|$)",
  pat! "(?i)L79031(?:[);/ ]|$)",
  pat! "(?i)L70081(?:[);/ ]|$)",
  pat! "(?i)k33a48(?:[);/ ]|$)",
  pat! "(?i)L38043(?:[);/ ]|$)",
  pat! "(?i)L3808[23](?:[);/ ]|$)",
  pat! "(?i)P2A42(?:[);/ ]|$)",
  pat! "(?i)L38031(?:[);/ ]|$)",
  pat! "(?i)k53a48(?:[);/ ]|$)",
  pat! "(?i)K33a42(?:[);/ ]|$)",
  pat! "(?i)P1ma40(?:[);/ ]|$)",
  pat! "(?i)Vibe P1 Turbo(?:[);/ ]|$)",
  pat! "(?i)(?:P1(?:a42|c72)|Vibe P1)(?:[);/ ]|$)",
  pat! "(?i)A2016a40(?:[);/ ]|$)",
  pat! "(?i)A1010a20(?:[);/ ]|$)",
  pat! "(?i)(?:Z90a40|Z90-7)(?:[);/ ]|$)",
  pat! "(?i)S1a40(?:[);/ ]|$)",
  pat! "(?i)S1La40(?:[);/ ]|$)",
  pat! "(?i)L78071(?:[);/ ]|$)",
  pat! "(?i)L78011(?:[);/ ]|$)",
  pat! "(?i)L78031(?:[);/ ]|$)",
  pat! "(?i)(?:Z6 Pro 5G|L79041)(?:[);/ ]|$)",
  pat! "(?i)(?:Z6 Pro|L78051)(?:[);/ ]|$)",
  pat! "(?i)L78032(?:[);/ ]|$)",
  pat! "(?i)L38111(?:[);/ ]|$)",
  pat! "(?i)L58041(?:[);/ ]|$)",
  pat! "(?i)L58091(?:[);/ ]|$)",
  pat! "(?i)L18021(?:[);/ ]|$)",
  pat! "(?i)PB2-6(?:70M|50[YM])(?:[);/ ]|$)",
  pat! "(?i)PB1-750M(?:[);/ ]|$)",
  pat! "(?i)PB1-770M(?:[);/ ]|$)",
  pat! "(?i)(S90-A|P70-A|A397i)(?:[);/ ]|$)",
  pat! "(?i)IdeaPad ?([^;/]*) Build",
  pat! "(?i)d-42A(?:[);/ ]|$)",
  pat! "(?i)Lenovo K12 Pro|XT2091-[78]",
  pat! "(?i)Lenovo X2(?:-[ER]U)?",
  pat! "(?i)LENOVO/81W8(?:[);/ ]|$)",
  pat! "(?i)LENOVO/81MV(?:[);/ ]|$)",
  pat! "(?i)LENOVO/81SS(?:[);/ ]|$)",
  pat! "(?i)F0CU0028RK(?:[);/ ]|$)",
  pat! "(?i)20JJS0CU1M(?:[);/ ]|$)",
  pat! "(?i)Lenovo TAB ?([^/);]*)(?: Build|[;)])",
  pat! "(?i)Lenovo ([^/);]*)(?: Build|[;)])",
  pat! "(?i)(?:LNV-|Lenovo-)?Lenovo[ \\-_]?([a-z0-9_+\\-]+)",
  pat! "(?i)(LESPH501[14]|LESPH5003B|SUPERNOVA[ _](?:Qi16|i216|Qi32|i3G96[X]?|iS3G)|PULSAR QI3G|LETAB916|Titanium T355)(?:[);/ ]|$)",
  pat! "(?i)SUPERNOVA[ _](i216|Qi16|Qi32|i3G96[X]?|iS3G)",
  pat! "(?i)PULSAR (QI3G)",
  pat! "(?i)lephone[ _]|lephoneP1|S104G(?:[);/ ]|$)",
  pat! "(?i)lephone[ _](K7|K10)",
  pat! "(?i)lephone_W7_plus|lephone W7+",
  pat! "(?i)lephone(?:[ _])?([^/);]*)(?: Build|[);])",
  pat! "(?i)ANOVA A5(?:[);/ ]|$)",
  pat! "(?i)Lexand[ _]|(?:S[BC]7 PRO HD|SB5 HD|S5A[1-4]|S4A[1-5]|S6A1|A811|A802|LPH7_Smarty)(?:[);/ ]|$)",
  pat! "(?i)A(811|802)",
  pat! "(?i)(S[CB]7) PRO HD",
  pat! "(?i)(SB5) HD",
  pat! "(?i)Lexand[ _]([^;/)]+)(?: Build|[;)])",
  pat! "(?i)(MFC[0-9]{3}[a-z]{2,})",
  pat! "(?i)MFC17[05]FR",
  pat! "(?i)(MFC[0-9]{3}[a-z]{2,})",
  pat! "(?i)((?:24|32)TP1HDTA1)(?:[);/ ]|$)",
  pat! "(?i)LIFEMAXX, ([a-z0-9_ -]+), (?:wired|wireless)",
  pat! "(?i)Lime(?:Z2PLUS|T95)",
  pat! "(?i)Lime(T95)",
  pat! "(?i)(?:Venus Pad1[456]|L24 Ultra|L16 Max|G15 Pro Max|G24_mini|G15_mini)(?:[);/ ]|$)",
  pat! "(?i)Venus Pad(1[456])",
  pat! "(?i)G(15|24)_mini",
  pat! "(?i)Lingwin[ _-]",
  pat! "(?i)Lingwin[ _-]?([^/;]+) Build",
  pat! "(?i)Lingwin[ _-]?([^);/ ]+)",
  pat! "(?i)LI(22)(?:[);/ ]|$)",
  pat! "(?i)LINSAY[_ ]|(?:F10XIPSQ|F10XIPG)(?:[);/ ]|$)",
  pat! "(?i)(F10XIPSQ|F10XIPG)(?:[);/ ]|$)",
  pat! "(?i)LINSAY[_ ]([^/;)]+)(?: Build|[);])",
  pat! "(?i)Webpad[_ ]?(100[123]|7007)",
  pat! "(?i)LOEWE[;,]",
  pat! "(?i)LOGIC[_ ]|(?:LOGIC[_ ](X4 Plus|X50|X[135]|X4M|L4T|L5D|X5[AFT]|X57A|X60G|L50T?|L57|L6[0135]|X60_PLUS)(:?[_ ]LITE2?)?|L55[ABS]|Q-502|L68_Ultra)(?:[);/ ]|$)",
  pat! "(?i)LOGIC[_ ]X60_PLUS(?:[);/ ]|$)",
  pat! "(?i)LOGIC[_ ](L65|X5|X4M)[_ ]LITE(?:[);/ ]|$)",
  pat! "(?i)LOGIC[_ ](L65)(?:[);/ ]|$)",
  pat! "(?i)LOGIC[_ ](X5)[_ ]LITE2(?:[);/ ]|$)",
  pat! "(?i)LOGIC[_ ](X4 Plus|X50|X[13]|X4M|L4T|L5D|L6[013]|X5[AFT]|X57A|X60G)(?:[);/ ]|$)",
  pat! "(?i)(L50T?|L55[ABS]|L57|Q-502)(?:[);/ ]|$)",
  pat! "(?i)Logic Instrument|Fieldbook K101",
  pat! "(?i)Fieldbook F1(?:[);/ ]|$)",
  pat! "(?i)LOGICOM[_ ]|La_tab_link|(TAB950|TAB1062|E731|E812|E912|E1031|POWER BOT|La[ _]?Tab[ _]?(?:7[24]|10[57]|11[345]|12[4789]|292|Stand(?:RB)?)|(?:[BCM]|ID|VR)[ _]?BOT[ _]?(?:TAB[ _])?([0-9]+\\+?)(?:PLUS)?|KT712A_4\\.4|L-?IXIR[0-9]*|L_IXIR_TAB_1047HD|L-ITE|L-EGANTONE(?:-R)?|Le Fizz|L-?EMENT.+|Le[ _]?(?:Up|Connect|Omega|Hop|Hello|Lift|Pulse|Prime|Swipe|Wave|Hola|Moov[2]?|Must(?: 2)?|Starter L|Fit FR|Spark|Prime|Smooth(?: FR)?)|Tab_Stand_Pro|LeFit|logikids4|Le Link|TAB76|Five Pro|Solar(?: Pro)?|LUNAR|Lunar Pro|Elio|Yuno)(?:[);/ ]|$|_)",
  pat! "(?i)La[ _]?Tab[ _]?(7[24]|10[57]|11[345]|127 HD|12[89]|105_P|292|Stand)(?:[);/ ]|$)",
  pat! "(?i)LaTabStandRB(?:[);/ ]|$)",
  pat! "(?i)TAB76(?:[);/ ]|$)",
  pat! "(?i)La[_ ]Tab[_ ]124[_ ]HD[_ ]Plus(?:[);/ ]|$)",
  pat! "(?i)(?:LOGICOM_)?LA_TAB_LINK_(7[14])",
  pat! "(?i)KT712A_4\\.4|L-IXIR TAB 701 3G",
  pat! "(?i)L-?IXIR[ _]TAB[ _]([^);/]+)( Build|[);])",
  pat! "(?i)L-ITE[ _](400M|452|50[46] HD|506R HD|552 HD)(?:[);/ ]|$)",
  pat! "(?i)L-ITE[ _]([^;/]+) Build",
  pat! "(?i)L-?EMENT[ _]?(350|451|40[103]|55[013]|50[15]|500L?)(?:[);/ ]|$)",
  pat! "(?i)L-?EMENT[ _](?:TAB)[ )]?([^);/]+)(?: Build|[);])",
  pat! "(?i)L-?EMENT[ _]?(74[01])(?:[);/ ]|$)",
  pat! "(?i)(TAB950|TAB1062|E731|E812|E912|E1031)(?:[);/ ]|$)",
  pat! "(?i)M bot (5[14])",
  pat! "(?i)VR bot (552) Plus",
  pat! "(?i)VR bot (552)",
  pat! "(?i)((?:[BCM]|ID|VR))[ _]?BOT[ _]?TAB[ _]([0-9]+(?:PLUS|\\+)?)",
  pat! "(?i)((?:[BCM]|ID|VR))[ _]?BOT[ _]?((?:TAB[ _])?([0-9]+\\+?)(?:PLUS)?)",
  pat! "(?i)Le[ _]Connect",
  pat! "(?i)Le[ _]Pulse",
  pat! "(?i)Le[ _]Prime",
  pat! "(?i)Le Hola FR(?:[);/ ]|$)",
  pat! "(?i)Le[ _]Hola(?:[);/ ]|$)",
  pat! "(?i)LeMoov2(?:[);/ ]|$)",
  pat! "(?i)LeMoov(?:[);/ ]|$)",
  pat! "(?i)Le Fit FR(?:[);/ ]|$)",
  pat! "(?i)Le[ _]?Fit",
  pat! "(?i)Le Hop(?:[);/ ]|$)",
  pat! "(?i)Le[ _]Hello(?:[);/ ]|$)",
  pat! "(?i)Le Smooth FR(?:[);/ ]|$)",
  pat! "(?i)Le Smooth(?:[);/ ]|$)",
  pat! "(?i)Le Must 2(?:[);/ ]|$)",
  pat! "(?i)Le Must(?:[);/ ]|$)",
  pat! "(?i)Le Starter L(?:[);/ ]|$)",
  pat! "(?i)Le[ _]Spark(?:[);/ ]|$)",
  pat! "(?i)Le[ _]Prime(?:[);/ ]|$)",
  pat! "(?i)Le Up(?:[);/ ]|$)",
  pat! "(?i)DIXONS-LOGIK[;,]",
  pat! "(?i)GR0006(?:[);/ ]|$)",
  pat! "(?i)LongTV LOUiE(?:[);/ ]|$)",
  pat! "(?i)Lovme[-_ ]([^/;)]+)(?: Build|[);])",
  pat! "(?i)Lumigon[ _](T3)(?:[);/ ]|$)",
  pat! "(?i)(L950[23])(?:[);/ ]|$)",
  pat! "(?i)(?:NEO(SR620|SC600)|INNOSR545|Lumus[_ ]Ion|AEONSR570)(?:[);/ ]|$)",
  pat! "(?i)NEO(SR620|SC600)(?:[);/ ]|$)",
  pat! "(?i)INNO(SR545)(?:[);/ ]|$)",
  pat! "(?i)Lumus[_ ]Ion(?:[);/ ]|$)",
  pat! "(?i)AEON(SR570)(?:[);/ ]|$)",
  pat! "(?i)(?:LUNA[ _](?:[VG]55|G[56]0|G9|G6E|V6)|TG-L800S)(?:[);/ ]|$)",
  pat! "(?i)LUNA[ _]([VG]55|G[56]0|G9|G6E|V6)(?:[);/ ]|$)",
  pat! "(?i)(TG-L800S)(?:[);/ ]|$)",
  pat! "(?i)LUXOR, ([a-z0-9_ -]+), (?:wired|wireless)",
  pat! "(?i)(TPC1013)",
  pat! "(?i)M-HORSE|(?:Pure (?:3|2A?)|Pure ?1|Power1|Top_(?:S[78]|P9|H740|10|i7|Note8)|Android 14(?:[\\d.]*);(?: [\\w-]+;)? (?:C6[78])|Top-V30)(?:[);/ ]|$)",
  pat! "(?i)Pure ?([13]|2A?)(?:[);/ ]|$)",
  pat! "(?i)Top[_ -](S[78]|P9|H740|10|i7|V30)",
  pat! "(?i) (C6[78])(?:[);/ ]|$)",
  pat! "(?i)(X20|X2)(?:[);/ ]|$)",
  pat! "(?i)(?:Eros[_ ](4G|Star|Smart|Plus|Power)|MTECH (?:ACE9|TURBO L\\d+|TEZ 4G|JAZBAA)|Foto3)(?:[);/ ]|$)",
  pat! "(?i)Eros[_ ]Star",
  pat! "(?i)Eros[_ ]Smart",
  pat! "(?i)Eros[_ ]Plus",
  pat! "(?i)Eros[_ ]Power",
  pat! "(?i)TURBO L(\\d+)",
  pat! "(?i)M\\.T\\.T\\.|MTT IDEAL",
  pat! "(?i)M\\.T\\.T\\. ?Tablet([^;/)]+)?(?: Build|[;)])",
  pat! "(?i)M\\.T\\.T\\. ?([^;/)]+)(?: Build|[;)])",
  pat! "(?i)(?:M3US20W|M3SL20|M3SM15X)(?:[);/ ]|$)",
  pat! "(?i)(?:M4[ -]SS[0-9]{4}(?:-R)?|M4_B[23]|M4_R2|R2_Plus)(?:[);/ ]|$)",
  pat! "(?i)SS4458-R|M4-SS4458-R",
  pat! "(?i)M4_B([23])",
  pat! "(?i)M4_R(2)",
  pat! "(?i)(CRD55-UHD9|CRD65-UHD11)(?: Build|[);])",
  pat! "(?i)(M82[01])(?:-EEA)?(?:[);/ ]|$)",
  pat! "(?i)MAXVI[ _](?:MS401)(?:[);/ ]|$)|\\w*_?MAXVI?_\\w+|MS502[_ ]Orion|MS531",
  pat! "(?i)MAXVI[ _](MS401)",
  pat! "(?i)MS502[_ ]Orion",
  pat! "(?i)\\w*MAXVI_(P11|K10|X[358]00)_",
  pat! "(?i)(T1270G)(?:[);/ ]|$)",
  pat! "(?i)MBI[_ ](R7)(?:[);/ ]|$)",
  pat! "(?i)(MBK-T2101)(?:[);/ ]|$)",
  pat! "(?i)MBOX3?(?:[);/ ]|$)",
  pat! "(?i)(?:Prime_S|M300 4G|MDC M5|Nova Pro|Grand Pro)(?:[);/ ]|$)",
  pat! "(?i)Prime_S(?:[);/ ]|$)",
  pat! "(?i)(M300) 4G(?:[);/ ]|$)",
  pat! "(?i)MDC M5(?:[);/ ]|$)",
  pat! "(?i)MEEG[ _-]",
  pat! "(?i)MEEG[ _-]?([^/;]+) Build",
  pat! "(?i)MEEG[ _-]?([^);/ ]+)",
  pat! "(?i)MEGAMAX(?:_W_)?(\\d{2}MG11FSM)",
  pat! "(?i)MEO TV Box 4K(?:[);/ ]|$)",
  pat! "(?i)(MES-B[13])(?:[);/ ]|$)",
  pat! "(?i)MEU ([a-z0-9]+) Build",
  pat! "(?i)(Caryota [1245789]|Jazz J[13] 2018)(?:[);/ ]|$)"]

/-- `__dr_re`, from item 5250 on (device_repo.go:23586-23835). -/
def drRe_21 : List (List Chunk) := [
  pat! "(?i)(Caryota [1245789])(?:[);/ ]|$)",
  pat! "(?i)Jazz (J[13]) 2018",
  pat! "(?i)MIWANG[_ ](M2s)(?:[);/ ]|$)",
  pat! "(?i)(M35|M20|G7106|G7108)(?:[);/ ]|$)",
  pat! "(?i)(M[0-9]{1,2})(?:[);/ ]|$)",
  pat! "(?i)(G[0-9]{4})(?:[);/ ]|$)",
  pat! "(?i)MLLED[ _]",
  pat! "(?i)MLLED[ _]([^;/]+)Build",
  pat! "(?i)MLLED[ _]([^);/]+)(?:[);/ ]|$)",
  pat! "(?i)IQ(?:0705|L550|1017|1010w?|1012N?|1019N|1025|1060M|1380|1401|1436|1452a|1453|1470|1502a|1511|155[23]|1568|1570|1805N|180[68]|1810B_M|1832|1850|1890|5017|L626|9610|181011N|A27X_E|E[12]00|EL41|G550|GW516|L30|L5[01]|M801|M1001|N700|P50|R300|S300|S801|S1001|W503|W511T|W553N?|W60[38]|W626|M960|D10S|D700|9013_4N|F 200|T800)(?:[);/ ]|$)",
  pat! "(?i)IQ0705(?:[);/ ]|$)",
  pat! "(?i)IQL550(?:[);/ ]|$)",
  pat! "(?i)iQD10S(?:[);/ ]|$)",
  pat! "(?i)IQ1010W?(?:[);/ ]|$)",
  pat! "(?i)IQ1012N?(?:[);/ ]|$)",
  pat! "(?i)IQ1025(?:[);/ ]|$)",
  pat! "(?i)iQ9013_4N(?:[);/ ]|$)",
  pat! "(?i)IQ1019N(?:[);/ ]|$)",
  pat! "(?i)iQ1805N(?:[);/ ]|$)",
  pat! "(?i)iQ181011N(?:[);/ ]|$)",
  pat! "(?i)IQ1380(?:[);/ ]|$)",
  pat! "(?i)IQ1401(?:[);/ ]|$)",
  pat! "(?i)IQ1436(?:[);/ ]|$)",
  pat! "(?i)IQ1452a(?:[);/ ]|$)",
  pat! "(?i)IQ1453(?:[);/ ]|$)",
  pat! "(?i)IQ1470(?:[);/ ]|$)",
  pat! "(?i)IQ1502a(?:[);/ ]|$)",
  pat! "(?i)IQ1511(?:[);/ ]|$)",
  pat! "(?i)IQ1552(?:[);/ ]|$)",
  pat! "(?i)IQ1553(?:[);/ ]|$)",
  pat! "(?i)IQ1568(?:[);/ ]|$)",
  pat! "(?i)IQ1570(?:[);/ ]|$)",
  pat! "(?i)IQ1806(?:[);/ ]|$)",
  pat! "(?i)IQ1808(?:[);/ ]|$)",
  pat! "(?i)IQ1810B_M(?:[);/ ]|$)",
  pat! "(?i)IQ1832(?:[);/ ]|$)",
  pat! "(?i)iQ1017(?:[);/ ]|$)",
  pat! "(?i)IQ1850(?:[);/ ]|$)",
  pat! "(?i)IQ1890(?:[);/ ]|$)",
  pat! "(?i)IQ5017(?:[);/ ]|$)",
  pat! "(?i)IQ9610(?:[);/ ]|$)",
  pat! "(?i)iQM960(?:[);/ ]|$)",
  pat! "(?i)iQS801(?:[);/ ]|$)",
  pat! "(?i)IQG550(?:[);/ ]|$)",
  pat! "(?i)IQGW516(?:[);/ ]|$)",
  pat! "(?i)IQE100(?:[);/ ]|$)",
  pat! "(?i)iQE200(?:[);/ ]|$)",
  pat! "(?i)iQA27X_E(?:[);/ ]|$)",
  pat! "(?i)IQEL41(?:[);/ ]|$)",
  pat! "(?i)IQL30(?:[);/ ]|$)",
  pat! "(?i)IQL50(?:[);/ ]|$)",
  pat! "(?i)IQL51(?:[);/ ]|$)",
  pat! "(?i)IQM801(?:[);/ ]|$)",
  pat! "(?i)IQM1001(?:[);/ ]|$)",
  pat! "(?i)IQN700(?:[);/ ]|$)",
  pat! "(?i)IQP50(?:[);/ ]|$)",
  pat! "(?i)IQS300(?:[);/ ]|$)",
  pat! "(?i)IQS1001(?:[);/ ]|$)",
  pat! "(?i)iQ1060M(?:[);/ ]|$)",
  pat! "(?i)IQR300(?:[);/ ]|$)",
  pat! "(?i)IQW608(?:[);/ ]|$)",
  pat! "(?i)iQW603(?:[);/ ]|$)",
  pat! "(?i)IQW626(?:[);/ ]|$)",
  pat! "(?i)IQW511T(?:[);/ ]|$)",
  pat! "(?i)IQW553N?(?:[);/ ]|$)",
  pat! "(?i)iQL626?(?:[);/ ]|$)",
  pat! "(?i)IQW503(?:[);/ ]|$)",
  pat! "(?i)iQD700(?:[);/ ]|$)",
  pat! "(?i)iQT800(?:[);/ ]|$)",
  pat! "(?i)iQF ?200(?:[);/ ]|$)",
  pat! "(?i)Mortal (T1)(?:[);/ ]|$)",
  pat! "(?i)(TAB-S1)(?:[);/ ]|$)",
  pat! "(?i)Primo ?(?:9[13]|81|76)|(?:Enjoy 7 Plus|GP70 2OD)(?:[);/ ]|$)",
  pat! "(?i)Primo ?(9[13]|76|81)",
  pat! "(?i)(GP70 2OD)",
  pat! "(?i)MStar(?:[);/ ]|$)",
  pat! "(?i)MTC[ _](968|97[82]|970|982[OT]?|1078)|(?:MTC[_ ])?SMART[ _]?(?:Race[2]?|Sprint|Run|Turbo|Surf[2]?)[ _]4G|MTC975|Smart Bit|Smart_(?:LINE|Light)|(?:MTC[ _])?SMART[ _](?:Run|Start[_ ][23])|Redbox Mini 5\\(MTS\\)|MTS TV|DV8235|DV9135|DV9157-C|DV8304-C|Osmartphona",
  pat! "(?i)MTC[ _]?(97[258]|970[H]?|982[OT]?|968)",
  pat! "(?i)MTC[ _](1078)",
  pat! "(?i)SMART[ _]Race[ _]4G",
  pat! "(?i)SMART[ _]Race2[ _]4G",
  pat! "(?i)(?:MTC_)?SMART[ _]Sprint[ _]4G",
  pat! "(?i)(?:MTC_)?SMART[ _]Start[ _]([23])",
  pat! "(?i)SMART[ _]?Run(?:[ _]4G)?",
  pat! "(?i)SMART[ _]Surf2[ _]4G",
  pat! "(?i)SMART[ _]Surf[ _]4G",
  pat! "(?i)SMART[ _]Turbo[ _]4G",
  pat! "(?i)Redbox Mini 5\\(MTS\\)",
  pat! "(?i)MTS TV Box (\\d{3})",
  pat! "(?i)(DV8235|DV9135|DV9157)",
  pat! "(?i)MTN-|(?:Kafit V900|Faith29|Ka ?Chocolate|M56[01]M3|M571M3)(?:[);/ ]|$)",
  pat! "(?i)Faith29(?:[);/ ]|$)",
  pat! "(?i)Ka ?Chocolate(?:[);/ ]|$)",
  pat! "(?i)MTN-(L860|S620)",
  pat! "(?i)MTN-([a-z0-9_-]+)",
  pat! "(?i)(MC-X7MINI)(?:[);/ ]|$)",
  pat! "(?i)Mafe_(?:M8[12]0|M825)(?:[);/ ]|$)",
  pat! "(?i)Mafe_(M810|M825)",
  pat! "(?i)MagentaTV ONE \\(2",
  pat! "(?i)(?:N5NOVA|IRON\\+|N5Max_X4)(?:[);/ ]|$)",
  pat! "(?i)IRON\\+",
  pat! "(?i)(?:Magnus[ _](?:bravoZ[23]0|Infinity_?(?:G8|G11))|bravo Z40|Bravo Z11|bravo[-_]Z[12]2)(?:[);/ ]|$)",
  pat! "(?i)bravo[ _-]?(Z[234]0|Z11|Z[12]2)",
  pat! "(?i)(?:Magnus[ _])?Infinity_?(G8|G11)",
  pat! "(?i)MAJESTIC[;, _-]|CRONO ?[0-9]+|(?:TAB (?:647|411) 3G|TAB_(?:81[12]|912|918_PRO)_4G|TAB_911_3G|TAB-714|TAB_814|TAB (711 4G|747 3G|[56]11 3G)|URANO27|URANO 47|URANO 77LTE|PLUTO__?26N?|JACK| JOE)(?:[);/ ]|$)",
  pat! "(?i)JACK(?:[);/ ]|$)",
  pat! "(?i)JOE(?:[);/ ]|$)",
  pat! "(?i)URANO 77LTE(?:[);/ ]|$)",
  pat! "(?i)URANO ?([24]7)(?:[);/ ]|$)",
  pat! "(?i)PLUTO__?(26N?)(?:[);/ ]|$)",
  pat! "(?i)TAB[ _](\\d{3})[ _]PRO_([34])G",
  pat! "(?i)TAB[ _](\\d{3})[ _]([34])G",
  pat! "(?i)MAJESTIC[ _]Tab([^;/]+)Build",
  pat! "(?i)MAJESTIC[ _]Tab([^);/]+)(?:[);/ ]|$)",
  pat! "(?i)MAJESTIC[ _]([^;/]+)Build",
  pat! "(?i)MAJESTIC[ _]([^);/]+)(?:(?:[);/ ]|$)|$)",
  pat! "(?i)CRONO ?([0-9]+) Build",
  pat! "(?i)CRONO ?([0-9]+)(?:[);/ ]|$)",
  pat! "(?i)(?:Build/)?Malata[ _]?([a-z0-9]+)(?:[);/ ]|$)",
  pat! "(?i)Mango[_ ](?:AKABUTO_4G|S5|SQ7)(?:[);/ ]|$)",
  pat! "(?i)Mango[_ ](S5|SQ7)",
  pat! "(?i)MANN[ _]|(ZUG 3|ZUG 5S(?: Q)?)(?:[);/ ]|$)",
  pat! "(?i)MANN[ _](8S)",
  pat! "(?i)(ZUG 3|ZUG 5S(?: Q)?)(?:[);/ ]|$)",
  pat! "(?i)MANTA[;,]|MSP950(1[245]|2[01])|MSP96017|MSP94501|MSP95009|MSP96002|MSP450[79]|(MID713|MID(?:06[SN]|08[S]?|12|13|14|15|701|702|703|704|705(?:DC)?|706[AS]?|707|708|709|711|712|714|717|781|801|802|901|1001|1002|1003|1004(?: 3G)?|1005|1009|1010|7802|9701|9702))(?:[);/ ]|$)",
  pat! "(?i)(MID713|MID(?:06[SN]|08[S]?|12|13|14|15|701|702|703|704|705(?:DC)?|706[AS]?|707|708|709|711|712|714|717|781|801|802|901|1001|1002|1003|1004(?: 3G)?|1005|1009|1010|7802|9701|9702))(?:[);/ ]|$)",
  pat! "(?i)(MSP450[79]|MSP95009)(?:[);/ ]|$)",
  pat! "(?i)MANTA,([a-z0-9_ -]+),(?:wired|wireless)",
  pat! "(?i)(MFSTAB(?:_74G)?)(?:[);/ ]|$)",
  pat! "(?i)Mara(?: Phones)?[ _](Z1?|X1|S)(?:[);/ ]|$)",
  pat! "(?i)Marshal[_ -]?ME",
  pat! "(?i)Marshal[_ -]?ME-(700A|720|617)",
  pat! "(?i)Marshal[_ -]?ME-(34[78]|352|36[456])",
  pat! "(?i)Mascom (S750|SS289|WS517)(?:[);/ ]|$)",
  pat! "(?i)Massgo[ _]",
  pat! "(?i)Massgo[ _]VI2S",
  pat! "(?i)Massgo[ _]([^/;)]+)(?: Build|[);])",
  pat! "(?i)Masstel|(?:Juno[ _]Q[567]|Tab10Ultra|Tab(?:[78]|10)Plus|Hapi10)(?:[);/ ]|$)",
  pat! "(?i)Masstel[_ ]Juno[_ ]Q5Plus",
  pat! "(?i)(?:Masstel_)?Hapi ?(1[05]|30)(?:[);/ ]|$)",
  pat! "(?i)Masstel[_ ]N660s",
  pat! "(?i)Masstel[_ ]\\((M18)\\)",
  pat! "(?i)Masstel_Tab7LTE(?:[);/ ]|$)",
  pat! "(?i)Tab10 WiFi(?:[);/ ]|$)",
  pat! "(?i)Masstel_Tab10_?4G(?:[);/ ]|$)",
  pat! "(?i)Tab([78]|10)Plus",
  pat! "(?i)(?:Masstel[ _])?Tab[ _]?([^/);]+)(?: Build|[);])",
  pat! "(?i)(?:Masstel[_ ]*)?(Juno[_ ]Q[3567]|Juno_S6|[MNXB]\\d+|LT52|N600S)(?:[);/ ]|$)",
  pat! "(?i)MASTER-G[;,]|NEOQC4G(?:[);/ ]|$)",
  pat! "(?i)MASTER-G,([a-z0-9_ -]+),(?:wired|wireless)",
  pat! "(?i)MASTERTECH,([a-z0-9_ -]+),(?:wired|wireless)|QC77QPS(?:[);/ ]|$)",
  pat! "(?i)MASTERTECH,([a-z0-9_ -]+),(?:wired|wireless)",
  pat! "(?i)(QC77QPS)(?:[);/ ]|$)",
  pat! "(?i)(Maximus 3\\.0)",
  pat! "(?i)(?:7116-A5|818 3G|MATRIX GRAVITY|Matrix7116)(?:[);/ ]|$)",
  pat! "(?i)(7116-A5|818 3G)(?:[);/ ]|$)",
  pat! "(?i)Matrix7116(?:[);/ ]|$)",
  pat! "(?i)(MLT(?:43|55)USD02G?|MLT32HSX02|MLT55USX02|MLT43FSX02|MQT55USD03)(?:[);/ ]|$)",
  pat! "(?i)MAXCOM|(?:MS(?:45[036]|505|507_STRONG|514|57[12]|651)|MS457(?:PLUS)?|RS-401|Neva Rise S1)(?:[);/ ]|$)",
  pat! "(?i)(MS457)PLUS(?:[);/ ]|$)",
  pat! "(?i)(MS507)_STRONG(?:[);/ ]|$)",
  pat! "(?i)MS(45[0367]|505|514|57[12]|651)(?:[);/ ]|$)",
  pat! "(?i)(?:MAXCOM )(MK241)(?:[);/ ]|$)",
  pat! "(?i)RS-401(?:[);/ ]|$)",
  pat! "(?i)(Max80 Plus)(?: Build|[);])",
  pat! "(?i)Maximus[ _]|(Noir X|G10 max|iX Ultra)(?:[);/ ]|$)",
  pat! "(?i)(?:Maximus[ _])?(Noir X|D1)(?:[);/ ]|$)",
  pat! "(?i)G10 max(?:[);/ ]|$)",
  pat! "(?i)Maximus_(T2)",
  pat! "(?i)Maxtron[ _-](V[327]|V1[2357]|V20|S[89]|T1|Genio|Apollo|PLUTO)(?:[);/ ]|$)",
  pat! "(?i)Maxtron[ _-]PLUTO",
  pat! "(?i)Maxtron[ _-](V[327]|S[89]|V1[2357]|V20|Apollo)(?:[);/ ]|$)",
  pat! "(?i)Maxtron[ _-](T1|Genio)(?:[);/ ]|$)",
  pat! "(?i)MAXWELL[;,]",
  pat! "(?i)(?:Astro[_ ](?:Phablet_9|55?N[_ ]LTE|55[RT]|5 PRO|5[sTX]|[45]P|X4|5_GO_LTE|X55s?|4\\.5|4|63R|X5|8R)|Astro6|Virtue Z5|Nitro[_ ](?:4S?|55[ARCMN]|5[XRPNM]|[45] GO|4[sN] LTE|55[ _]LTE|N62|G55)|Gravity_(?:55?_GO|6P)|Gravity 5\\.5 LTE|Nitro_Phablet_9s|Nitro Phablet 7N|Nitro 8|MX-(?:A10R|A6[45]))(?:[);/ ]|$)",
  pat! "(?i)MX-(A10R|A6[45])",
  pat! "(?i)Astro[_ ](55?)N[_ ]LTE",
  pat! "(?i)Astro[_ ]X55[_ ]LTE",
  pat! "(?i)Astro[_ ](55[RT]|X55s?|5[sTX]|4|X[45]|[45]P|8R|63R)(?:[);/ ]|$)",
  pat! "(?i)Astro[_ ](4\\.5)",
  pat! "(?i)Astro[_ ]X4",
  pat! "(?i)Nitro ([45]) GO",
  pat! "(?i)Nitro[ _]4s",
  pat! "(?i)Nitro[_ ]((?:55|4N)[_ ]LTE|4|55[ARCNM]|5[XRPNM]|8|N62|G55)",
  pat! "(?i)Gravity_(55?)_GO",
  pat! "(?i)Gravity 5\\.5 LTE",
  pat! "(?i)Nitro[_ ]Phablet[_ ](9s|7N)",
  pat! "(?i)(?:Alpha[_ ]X|Maze Alpha)(?:[);/ ]|$)|(?:Android [78](?:[\\d.]*);(?: [\\w-]+;)? Blade|Comet)(?: Build|[;)])",
  pat! "(?i)Alpha[_ ]X(?:[);/ ]|$)",
  pat! "(?i)Maze Alpha(?:[);/ ]|$)",
  pat! "(?i)(Blade|Comet)(?:[);/ ]|$)",
  pat! "(?i)(?:MP5184G|MS5424G|MS5514G|MS5539G|MS5614G|SSB-(?:500|508)|SSB408D|SSB504R|M1582C_MAX)(?:[);/ ]|$)",
  pat! "(?i)(MP5184G|MS5424G|MS5514G|MS5539G|MS5614G)(?:[);/ ]|$)",
  pat! "(?i)SSB-?(500|508|408D|504R)(?:[);/ ]|$)",
  pat! "(?i)McLaut TV(?:[);/ ]|$)",
  pat! "(?i)Grace (9|10)(?:[);/ ]|$)",
  pat! "(?i)(MF716\\+?|M785|800P3[12]C|101P51C|X1010|M7[67]QF6|M17QF[67][_-][43]G(?:plus)?)(?:[);/ ]|$)",
  pat! "(?i)M785(?:[);/ ]|$)",
  pat! "(?i)X1010(?:[);/ ]|$)",
  pat! "(?i)M17QF6-3Gplus(?:[);/ ]|$)",
  pat! "(?i)M17QF([67])_([34])G(?:[);/ ]|$)",
  pat! "(?i)M7([76])QF6",
  pat! "(?i)MF716\\+",
  pat! "(?i)Mecool[ _-]|(?:ME-COOL S|KM9 ?PRO|BB2 PRO|K[I]{1,3} PRO|KI PLUS|KM9_TV_BOX|M8SPROW|M8S (?:PLUS|PRO) (?:DVB|[LW]|PLUS)|M8S (?:MAX|PRO)| KM[135679]| KD1)(?:[);/ ]|$)",
  pat! "(?i)KM9 ?PRO(?:[);/ ]|$)",
  pat! "(?i)KM9_TV_BOX(?:[);/ ]|$)",
  pat! "(?i)BB2 PRO(?:[);/ ]|$)",
  pat! "(?i)(K[I]{1,3}) PRO(?:[);/ ]|$)",
  pat! "(?i)KI PLUS(?:[);/ ]|$)",
  pat! "(?i)M8SPROW(?:[);/ ]|$)",
  pat! "(?i)M8S PLUS DVB(?:[);/ ]|$)",
  pat! "(?i)M8S PLUS ([LW])(?:[);/ ]|$)",
  pat! "(?i)M8S PRO ([LW])(?:[);/ ]|$)",
  pat! "(?i)M8S PRO PLUS(?:[);/ ]|$)",
  pat! "(?i)M8S PRO(?:[);/ ]|$)",
  pat! "(?i)M8S MAX(?:[);/ ]|$)",
  pat! "(?i)ME-COOL S(?:[);/ ]|$)",
  pat! "(?i)K([MD]\\d+)(?:[);/ ]|$)",
  pat! "(?i)Mecool[ _-]([^/);]+)(?: Build|[;)])",
  pat! "(?i)(?:SmartPad7503G|M-SP10MXA|M-PPAB500|SmartPad970s2(?:3G)?|M[_-][MPS]P[0-9a-z]+|M-IPRO[0-9a-z]+|10edge|1AZ2[TP]| (?:7[BCD]Y|8[ADE]Y|1[AB]EC|1CY|1AZ|1[DI]Y4G|1AZ2TW|1EY4G|1HY4G)(?:_eea)?|Azimut[ _]?[234](?: Lite|Pro)?|M-WPW801| 1EY)(?:[);/ ]|$)",
  pat! "(?i)SmartPad7503G(?:[);/ ]|$)",
  pat! "(?i)SmartPad970s23G(?:[);/ ]|$)",
  pat! "(?i)SmartPad970s2(?:[);/ ]|$)",
  pat! "(?i)M-MP84[02]M(?:[);/ ]|$)",
  pat! "(?i)M-MP940M(?:[);/ ]|$)",
  pat! "(?i)M-SP10MXA(?:[);/ ]|$)",
  pat! "(?i)M-SP8MXA(?:[);/ ]|$)",
  pat! "(?i)M-SP7HXAH(?:[);/ ]|$)",
  pat! "(?i)M-SP7MXAH?(?:[);/ ]|$)",
  pat! "(?i)M-SP8HXAH(?:[);/ ]|$)",
  pat! "(?i)M-MP(?:710|720|725|726|740)GOx?(?:[);/ ]|$)",
  pat! "(?i)M-MP876S2(?:[);/ ]|$)",
  pat! "(?i)M-MP8S2[AB]?3G(?:[);/ ]|$)",
  pat! "(?i)M-MP(101|102|860|875)S2[BW]?(?:[);/ ]|$)",
  pat! "(?i)M-MP85S23G(?:[);/ ]|$)",
  pat! "(?i)1[DEHI]Y4G",
  pat! "(?i)M-MP10[45][01]S2(?:[);/ ]|$)",
  pat! "(?i)M-MP1S2[AB]3G(?:[);/ ]|$)",
  pat! "(?i)M-MP8[24]S4(?:[);/ ]|$)",
  pat! "(?i)M-MP8S4[AB]3G(?:[);/ ]|$)",
  pat! "(?i)M-MP9S4A3G(?:[);/ ]|$)",
  pat! "(?i)M-MP1[02]S4(?:[);/ ]|$)",
  pat! "(?i)M-MP7S4A3G(?:[);/ ]|$)",
  pat! "(?i)M-MP1040MC?(?:[);/ ]|$)",
  pat! "(?i)M-MP1S4[AB]3G(?:[);/ ]|$)",
  pat! "(?i)M-SP10HXxH(?:[);/ ]|$)",
  pat! "(?i)M-SP10MXHA(?:[);/ ]|$)",
  pat! "(?i)M-SP10MXHL(?:[);/ ]|$)",
  pat! "(?i)M-MP8PA3G(?:[);/ ]|$)",
  pat! "(?i)M-MP10PA(?:[);/ ]|$)"]

/-- `__dr_re`, from item 5500 on (device_repo.go:23836-24085). -/
def drRe_22 : List (List Chunk) := [
  pat! "(?i)M-MP10PA3G(?:[);/ ]|$)",
  pat! "(?i)M-IPRO([18][01]0)[BW](?:[);/ ]|$)",
  pat! "(?i)(?:1AZ2[TP]|Azimut2)(?:[);/ ]|$)",
  pat! "(?i)Azimut 3 Lite(?:[);/ ]|$)",
  pat! "(?i)Azimut ?3 Pro(?:[);/ ]|$)",
  pat! "(?i)Azimut 3(?:[);/ ]|$)",
  pat! "(?i)Azimut[ _]4(?:[);/ ]|$)",
  pat! "(?i)8DY(?:[);/ ]|$)",
  pat! "(?i)10edge(?:[);/ ]|$)",
  pat! "(?i)1EY(?:[);/ ]|$)",
  pat! "(?i)M-WPW801(?:[);/ ]|$)",
  pat! "(?i)(7[BCD]Y|8[AE]Y|1BEC|1CY|1AZ|1AZ2TW)(?:_eea)?(?:[);/ ]|$)",
  pat! "(?i)(?:M-MP75S23G|M-MP72[01]M)(?:[);/ ]|$)",
  pat! "(?i)M-MP7S2[ABDK]3G(?:[);/ ]|$)",
  pat! "(?i)M-MP5303G(?:[);/ ]|$)",
  pat! "(?i)M-PPxB400(?:[);/ ]|$)",
  pat! "(?i)M-PPAG550(?:[);/ ]|$)",
  pat! "(?i)M-PPAB500(?:[);/ ]|$)",
  pat! "(?i)M-PP2G530(?:[);/ ]|$)",
  pat! "(?i)M-PPG700(?:[);/ ]|$)",
  pat! "(?i)M-PPxS531(?:[);/ ]|$)",
  pat! "(?i)M-PP2S550(?:[);/ ]|$)",
  pat! "(?i)M-PP2S650C?(?:[);/ ]|$)",
  pat! "(?i)M-PPxS551U(?:[);/ ]|$)",
  pat! "(?i)M-PPAG4(?:[);/ ]|$)",
  pat! "(?i)M-PP[ABC]G500(?:[);/ ]|$)",
  pat! "(?i)M-PP2S500[BC]?(?:[);/ ]|$)",
  pat! "(?i)M-PPx(S510|G551|G51[0125]|G415)(?:[);/ ]|$)",
  pat! "(?i)M[_-]PP[Ax]X(470|510|555|520)U(?:[);/ ]|$)",
  pat! "(?i)M-PPxG(400|501|[457][PM]?)(?:[);/ ]|$)",
  pat! "(?i)M-PPxS(532[LU]|470|501|5P?|7P?)(?:[);/ ]|$)",
  pat! "(?i)M-PPxG(4[15]0)(?:[);/ ]|$)",
  pat! "(?i)M-PPA(S520|R450|G552)(?:[);/ ]|$)",
  pat! "(?i)M-PPx([XS]5\\d{2}[UL])(?:[);/ ]|$)",
  pat! "(?i)M-MP([0-9a-z]+)",
  pat! "(?i)Medion|(?:MD_)?LIFETAB|([SPX]10[0-9]{2}X|E10[45]1X|X5001|P851X|P850X|E691X|E10[56]0X|B5532)(?:[);/ ]|$)",
  pat! "(?i)(?:MD_)?LIFETAB[_ ]([a-z0-9]+)",
  pat! "(?i)(E450[46]|E5004|S5004|X5001|E5020|P5015|P500[45]|X6001)(?:[);/ ]|$)",
  pat! "(?i)(B553[02])(?:[);/ ]|$)",
  pat! "(?i)(E10[45]1X)(?:[);/ ]|$)",
  pat! "(?i)([SPX]10[0-9]{2}X|P851X|P850X|E691X|E10[56]0X)(?:[);/ ]|$)",
  pat! "(?i)Medion(?: Smartphone)? ([^/;]+) Build",
  pat! "(?i)MEDION, ([a-z0-9_ -]+), (?:wired|wireless)",
  pat! "(?i)MegaFon|MFLoginPh|MegLogPh|(MFLogin[34]T?|MS3B|SP-A5|SP-A20i|KM8-ATV-MF)(?:[);/ ]|$)",
  pat! "(?i)MFLoginPh|MegLogPh",
  pat! "(?i)MFLogin3T|MegaFon Login 3",
  pat! "(?i)MS3B|Megafon Optima",
  pat! "(?i)(SP-A5|SP-W1)",
  pat! "(?i)MegaFon V9+",
  pat! "(?i)(KM8-ATV-MF)",
  pat! "(?i)OTT Xview AV1(?:[);/ ]|$)",
  pat! "(?i)(?:Meitu[2]?|MP1503|MP1512|MP160[235]|MP170[19]|MP171[138]|MP1801)(?:[);/ ]|$)",
  pat! "(?i)MP1503(?:[);/ ]|$)",
  pat! "(?i)(?:MP1512|Meizu M6s)(?:[);/ ]|$)",
  pat! "(?i)MP1602(?:[);/ ]|$)",
  pat! "(?i)MP1605(?:[);/ ]|$)",
  pat! "(?i)MP1801(?:[);/ ]|$)",
  pat! "(?i)MP17(?:01|13)(?:[);/ ]|$)",
  pat! "(?i)MP1718(?:[);/ ]|$)",
  pat! "(?i)MP1603(?:[);/ ]|$)",
  pat! "(?i)MP17(?:09|11)(?:[);/ ]|$)",
  pat! "(?i)Meitu2(?:[);/ ]|$)",
  pat! "(?i)Meitu (Kiss|[MV]4)(?:[);/ ]|$)",
  pat! "(?i)Meizu|MZ-[A-Z]|(M04[05]|MZ-16th(?: Plus)?|MZ-16[st]|M7[12]1C|M35[1356]|M612C|M578CA|M181[36]|M1822|M681C|M6T|MX[ -]?[2345](?: Pro)?|(?:MZ-)?m[1-6] note|M621C|M1852|M57[18]C|M3[ESX]|M3 Max|M031|m1 metal|M1 E|M2|M2 E|M5s Build|PRO [567]|PRO 7-[HS]| 15 Lite| 16th|MZ-15 (?:Lite|Plus)|15 Plus|MZ-16 X| 16 X| 16T|MX6| M5c|16s Pro|Android 8(?:[\\d.]*);(?: [\\w-]+;)? 16|Mblu 2[12]|Mblu 22 Pro)(?:[);/ ]|$)",
  pat! "(?i)(?:MZ-)?M571C",
  pat! "(?i)(?:MZ-|Meizu-)?m([1-6])[_ ]note(?:[);/ ]|$)",
  pat! "(?i)Mblu (2[12])",
  pat! "(?i)(?:MZ-)?M1 E(?:[);/ ]|$)",
  pat! "(?i)M2 E(?:[);/ ]|$)",
  pat! "(?i)(?:MZ-)?M578C[A]?|M2(?:[);/ ]|$)",
  pat! "(?i)M681C(?:[);/ ]|$)",
  pat! "(?i)M621C(?:[);/ ]|$)",
  pat! "(?i)M711C(?:[);/ ]|$)",
  pat! "(?i)M721C(?:[);/ ]|$)",
  pat! "(?i)(M6T|MX6|M3E|M3X)(?:[);/ ]|$)",
  pat! "(?i)(?:MZ-)?M3S(?:[);/ ]|$)",
  pat! "(?i)(?:MZ-)?M3 Max(?:[);/ ]|$)",
  pat! "(?i)M5S|M612C",
  pat! "(?i)(?:MZ-)?M5c(?:[);/ ]|$)",
  pat! "(?i)(M04[05]|MX[ -]?2)(?:[);/ ]|$)",
  pat! "(?i)(M35[1356]|MX[ -]?3)(?:[);/ ]|$)",
  pat! "(?i)MX[ -]?4 Pro(?:[);/ ]|$)",
  pat! "(?i)MX[ -]?4(?:[);/ ]|$)",
  pat! "(?i)(Meizu[- _])?MX[ -]?5(?:[);/ ]|$)",
  pat! "(?i)M1813(?:[);/ ]|$)",
  pat! "(?i)(?:M1816|M8 lite)(?:[);/ ]|$)",
  pat! "(?i)M8c Pro(?:[);/ ]|$)",
  pat! "(?i)PRO 7-[HS](?:[);/ ]|$)",
  pat! "(?i)PRO ([76]) Plus(?:[);/ ]|$)",
  pat! "(?i)PRO ([567])",
  pat! "(?i)M031(?:[);/ ]|$)",
  pat! "(?i)M1852(?:[);/ ]|$)",
  pat! "(?i)M1822(?:[);/ ]|$)",
  pat! "(?i)(?:MZ-)?16T(?:[);/ ]|$)",
  pat! "(?i)(?:MZ-)?16th Plus(?:[);/ ]|$)",
  pat! "(?i)(?:MZ-)?15 Plus(?:[);/ ]|$)",
  pat! "(?i)(?:MZ-15 Lite| 15 Lite)(?:[);/ ]|$)",
  pat! "(?i)MZ-16th| 16th(?:[);/ ]|$)",
  pat! "(?i)(?:MZ-)?16 X(?:[);/ ]|$)",
  pat! "(?i)16(?: Build|[;)]|$)",
  pat! "(?i)(?:MZ-)?16s Pro(?:[);/ ]|$)",
  pat! "(?i)meizu (17|C9|2[10]) Pro(?:[);/ ]|$)",
  pat! "(?i)MZ-?M3(?:[);/ ]|$)",
  pat! "(?i)(?:Meizu[_ ])?note([89]|21)(?:[);/ ]|$)",
  pat! "(?i)(?:MZ-)?Meizu[_ ]([^/;]+) Build",
  pat! "(?i)(?:MZ-)?Meizu[_ ]([a-z0-9_]+)",
  pat! "(?i)MZ-([^/;]+) Build",
  pat! "(?i)MELROSE[_ ](?:S9\\+?|S9P|2019)(?:[);/ ]|$)",
  pat! "(?i)MELROSE[_ ]S9\\+(?:[);/ ]|$)",
  pat! "(?i)MELROSE[_ ](S9|S9P)(?:[);/ ]|$)",
  pat! "(?i)MELROSE_2019(?:[);/ ]|$)",
  pat! "(?i)SlidePad ?([^;/]*) Build|SPNG?[0-9]{2,4}[a-z]{0,2}(?:[);/ ]|$)|SP704CE?|SP-NG708-3G",
  pat! "(?i)SlidePad ?([^;/]*) Build",
  pat! "(?i)SPNG([0-9]{2,4}[a-z]{0,2})(?:[);/ ]|$)",
  pat! "(?i)SP-NG(708)-3G(?:[);/ ]|$)",
  pat! "(?i)SP704(CE?)",
  pat! "(?i)(?:Pacific|Quest).+OculusBrowser|(?:Standalone HMD|PortalGo|Quest 3S?)(?:[);/ ]|$)",
  pat! "(?i)(?:Quest 2|Standalone HMD)",
  pat! "(?i)(?:MiXzo[ _])?(?:ME ?10(?:2[35]|30)|MX1037|MX1024|MX10[24]1|MX1397)([ _][34]G)?(?:[);/ ]|$)",
  pat! "(?i)MiXzo[_ ]ME ?(1023|1030)(?:[_ ]([34])G)(?:[);/ ]|$)",
  pat! "(?i)MiXzo[_ ]MX1021(?:[_ ]3G)?(?:[);/ ]|$)",
  pat! "(?i)(?:MiXzo[ _])?MX(1037|1041|1024|1397)[ _]4G(?:[);/ ]|$)",
  pat! "(?i)ME ?1025",
  pat! "(?i)(?:MicroMax[ \\-\\_]?[a-z0-9]+|Q327)|4560MMX|P70221|(?:YU(?:5012|5040|5530)|AQ5001(?: Canvas Power)?|Android 4(?:[\\d.]*);(?: [\\w-]+;)? A240|Android 8(?:[\\d.]*);(?: [\\w-]+;)? B5Pro|Bharat 5|N8216|N8301|IN_2[bc]|IN_Note1|ione note|E7446|E7533|E6523)(?:[);/ ]|$)",
  pat! "(?i)A240(?:[);/ ]|$)",
  pat! "(?i)A107(?:[);/ ]|$)",
  pat! "(?i)Q465(?:[);/ ]|$)",
  pat! "(?i)E451(?:[);/ ]|$)",
  pat! "(?i)4560MMX(?:[);/ ]|$)",
  pat! "(?i)IN_2b(?:[);/ ]|$)",
  pat! "(?i)IN_2c(?:[);/ ]|$)",
  pat! "(?i)E6523(?:[);/ ]|$)",
  pat! "(?i)AQ4502(?:[);/ ]|$)",
  pat! "(?i)E453(?:[);/ ]|$)",
  pat! "(?i)E481(?:[);/ ]|$)",
  pat! "(?i)Q462(?:[);/ ]|$)",
  pat! "(?i)P70221(?:[);/ ]|$)",
  pat! "(?i)Q(3[25]7|30[13]|326|354|338|3[03]01)(?:[);/ ]|$)",
  pat! "(?i)Q402\\+",
  pat! "(?i)YU5040(?:[);/ ]|$)",
  pat! "(?i)YU5012(?:[);/ ]|$)",
  pat! "(?i)YU5530(?:[);/ ]|$)",
  pat! "(?i)(?:Micromax_)?(Q333|S302|Q324)",
  pat! "(?i)Q402 ?Plus",
  pat! "(?i)Micromax[_ ]HS3(?:[);/ ]|$)",
  pat! "(?i)Micromax[_ ]HS2(?:[);/ ]|$)",
  pat! "(?i)Micromax[_ ]HS1(?:[);/ ]|$)",
  pat! "(?i)Q440Plus(?:[);/ ]|$)",
  pat! "(?i)Micromax[_ ]Q353P(?:[);/ ]|$)",
  pat! "(?i)Q452(?:[);/ ]|$)",
  pat! "(?i)Q4601(?:[);/ ]|$)",
  pat! "(?i)Q421(?:[);/ ]|$)",
  pat! "(?i)E313(?:[);/ ]|$)",
  pat! "(?i)Q413(?:[);/ ]|$)",
  pat! "(?i)Q4251(?:[);/ ]|$)",
  pat! "(?i)Micromax C1A(?:[);/ ]|$)",
  pat! "(?i)C2APLS(?:[);/ ]|$)",
  pat! "(?i)Bharat[ _](\\d)[ _]Pro(?:[);/ ]|$)",
  pat! "(?i)Bharat[ _](\\d)[ _]Plus(?:[);/ ]|$)",
  pat! "(?i)Bharat (\\d)(?:[);/ ]|$)",
  pat! "(?i)ione note(?:[);/ ]|$)",
  pat! "(?i)IN_Note1(?:[);/ ]|$)",
  pat! "(?i)E7446(?:[);/ ]|$)",
  pat! "(?i)E7533(?:[);/ ]|$)",
  pat! "(?i)B5Pro(?:[);/ ]|$)",
  pat! "(?i)MicroMax(?:[ _-])?(P681|P802)(?:[);/ ]|$)",
  pat! "(?i)MicroMax(?:[ _-])?(X291|X246|X252|X458|X312)",
  pat! "(?i)MicroMax(?:[ _-])?(P[a-z0-9]+)",
  pat! "(?i)MicroMax(?:[ _-])?([a-z0-9]+)",
  pat! "(?i)MLAB[ _-]",
  pat! "(?i)MLAB[ _-]GLOWY([78]|10)",
  pat! "(?i)KIN\\.(One|Two)|RM-(?:1010|1031|106[57]|107[23467]|1089|109[02]|1096|1099|1109|111[348]|1127|1141|115[24]|994)|Microsoft; Lumia|Lumia (?:1530|1320|950|850|650|640|550|535|435)|Corporation/Surface|Surface Duo|Surface 3",
  pat! "(?i)KIN\\.(One|Two)",
  pat! "(?i)RM-1099|Lumia 430",
  pat! "(?i)RM-1114|Lumia 435",
  pat! "(?i)RM-1031|Lumia 532",
  pat! "(?i)RM-109[02]|RM-1089|Lumia 535",
  pat! "(?i)RM-1141|Lumia 540",
  pat! "(?i)RM-1127|Lumia 550",
  pat! "(?i)RM-106[57]|RM-1096|Lumia 640 XL",
  pat! "(?i)RM-1109|RM-1113|RM-107[23467]|Lumia 640",
  pat! "(?i)RM-1154|Lumia 650",
  pat! "(?i)Lumia 950|RM-1118",
  pat! "(?i)RM-994|Lumia 1320",
  pat! "(?i)Surface Pro( [34])?",
  pat! "(?i)Microsoft; Lumia ([^;/)]+)(?:[;/)]|$)",
  pat! "(?i)(?:ETL101(?:GB|AL)|ETW101GT(?:_C)?)(?:[);/ ]|$)",
  pat! "(?i)ETL101(?:GB|AL)",
  pat! "(?i)(MT003-21)(?:[);/ ]|$)",
  pat! "(?i)(?:NEO[- ](?:X8-H|X8|U9-H|X[57]-mini|X8H?-PLUS|X88-?I|X7-216A|X5-116A|X[68]|U1|Z64|U22-XJ)|MNBP-300G)(?:[);/ ]|$)",
  pat! "(?i)NEO-X([57])-mini",
  pat! "(?i)NEO-(X8H?)-PLUS",
  pat! "(?i)NEO-X88-?I",
  pat! "(?i)NEO-X([68])",
  pat! "(?i)(MNBP-300G)",
  pat! "(?i)(?:Pearl_Neo|M4CRD?|Emerald_M55CR|Mint[ _](?:VirGo|Orion))(?:[);/ ]|$)",
  pat! "(?i)Pearl_(Neo)",
  pat! "(?i)Emerald[_ ]M55CR",
  pat! "(?i)(?:Mint[_ ])?VirGo",
  pat! "(?i)(?:Mint[_ ])?Orion",
  pat! "(?i)(?:Cool|Fresh|Ultra)?Mintt",
  pat! "(?i)Mintt (M3)(?:[);/ ]|$)",
  pat! "(?i)Coolmintt ?(Blaze 2|Tribe|A[3578]|M[12]|P[13]|X7)(?:[);/ ]|$)",
  pat! "(?i)Ultramintt ?(A[56]|R1|S[12]|X[56]|Y[35])(?:[);/ ]|$)",
  pat! "(?i)UltraMintt ?(T10)(?:[);/ ]|$)",
  pat! "(?i)FRESHMINTT ?(A7|A10)(?:[);/ ]|$)",
  pat! "(?i)MIO(?:/)?([a-z0-9]+)|(?:MOBIX M6|Mio TouchPad 7 Quad Core)(?:[);/ ]|$)",
  pat! "(?i)MOBIX M6(?:[);/ ]|$)",
  pat! "(?i)MIO(?:/)?([a-z0-9]+)",
  pat! "(?i)Mione[_ ]",
  pat! "(?i)Hero (\\d+)",
  pat! "(?i)Mione P2\\+",
  pat! "(?i)Mione U1(?:[);/ ]|$)",
  pat! "(?i)Mione_Pro(?:[);/ ]|$)",
  pat! "(?i)Mione Pro Plus(?:[);/ ]|$)",
  pat! "(?i)Mione[_ ]N10pro(?:[);/ ]|$)",
  pat! "(?i)Mione[_ ]Q1(?:[);/ ]|$)",
  pat! "(?i)Mione[_ ]Q11(?:[);/ ]|$)",
  pat! "(?i)MIRAY[;,]|MIDM[_-]|MPM[_-]|TPM4G_WT8",
  pat! "(?i)MIDM[_-]([a-z0-9]+)",
  pat! "(?i)MPM[_-]([a-z0-9]+)",
  pat! "(?i)MIRAY,([a-z0-9_ -]+),(?:wired|wireless)",
  pat! "(?i)MITCHELL_BROWN[;,]",
  pat! "(?i)MITO[- _]",
  pat! "(?i)MITO[- _]3255(?:[);/ ]|$)",
  pat! "(?i)MITO[- _]A37[_ ]Z1plus",
  pat! "(?i)MITO[- _](A(?:19[_ ][12]GB|37[_ ]Z1|36[_ ]W1|[0-9]+)|311)(?:[);/ ]|$)",
  pat! "(?i)MITO[- _](T(?:[0-9]+))(?:[);/ ]|$)",
  pat! "(?i)MITSU|portalmmm/[12]\\.0 M",
  pat! "(?i)MITSU/[a-z0-9.]+ \\(([a-z0-9]+)\\)",
  pat! "(?i)MITSU[ -]?([a-z0-9]+)",
  pat! "(?i)portalmmm/[12]\\.0 (M[a-z0-9]+)",
  pat! "(?i)(MC32020)(?:[);/ ]|$)",
  pat! "(?i)(?:Mobell[ _](?:S50)|NOVA P3)(?:[);/ ]|$)",
  pat! "(?i)Mobell[ _](S50)",
  pat! "(?i)(?:MobiGo2|MobiPrint 4\\+)(?:[);/ ]|$)",
  pat! "(?i)MobiGo2(?:[);/ ]|$)",
  pat! "(?i)MobiPrint 4\\+(?:[);/ ]|$)",
  pat! "(?i)MobiGo|(?:Kiona|KANUNA|Halona|IKOSORA\\+|Kicka[_ ][45][ _]Plus|Kicka Zoom|Kohana|Kayeta|Kosumi|KWANITA|Lonan|Hotah|Kicka 5|Kiona|Smart[ _]?(?:[CEN]11|N12|P24)|Sakari|V Smart 2)(?:[);/ ]|$)",
  pat! "(?i)Smart[ _]?([CEN]11|N12|P24)",
  pat! "(?i)(IKOSORA\\+|Kiona|Kicka[_ ][45][ _]Plus|Kohana|Kayeta|Kosumi|Lonan|Halona|Hotah|Kicka 5|Kicka Zoom|Kiona|Sakari)(?:[);/ ]|$)",
  pat! "(?i)Mobicel[_ ](R[16]|METRO2)|(?:Android 6(?:[\\d.]*);(?: [\\w-]+;)? SHIFT)|(?:Android 8(?:[\\d.]*);(?: [\\w-]+;)? (?:BEAM|ZOOM|RUBY)|FAME(?:_DS)?|CLIK|R7_[12]|HYPE(?:_X)?|DANDY(?:_ZAM)?|Matrix|VENUS_G|TRENDY PLUS|FENDY_DS|TANGO_LITE|BLINK|BERRY|BERRY[_ ]?(?:[12]|PLUS)|R1PLUS_1|ZOOM-H|REBEL|LEGEND (?:MAX|PRO_1|Pro LTE)|HERO_DS|Switch[ _]GO|SWITCH1|switch plus|PULSE_1|TRENDY 2|TRENDY_LITE|FEVER_PLUS(?:_[HJ])?|RIO_(?:SS|ZAM|RW|BN)|Clik plus|(PURE|Fendy) PLUS|RX PRO|Neo[ _]LTE|Titan_1|ZOOM_1|R4 LTE|NEO_1|EPIC_[12]| GLO|EPIC PRO_[12]|IX PRO|OREO|Cosmo LTE|Neo_Plus|IX-1|Android 13(?:[\\d.]*);(?: [\\w-]+;)? IX|Android 1[12](?:[\\d.]*);(?: [\\w-]+;)? FORCE|VX20|VX19)(?:[);/ ]|$)",
  pat! "(?i)EPIC PRO_([12])",
  pat! "(?i)IX(?: Build|[;)])",
  pat! "(?i)EPIC_([12])",
  pat! "(?i)BERRY[_ ]PLUS",
  pat! "(?i)R7_[12]",
  pat! "(?i)GLO(?:[);/ ]|$)",
  pat! "(?i)Neo[ _]LTE",
  pat! "(?i)RIO_(SS|ZAM|RW|BN)"]

/-- `__dr_re`, from item 5750 on (device_repo.go:24086-24335). -/
def drRe_23 : List (List Chunk) := [
  pat! "(?i)Switch[ _]GO",
  pat! "(?i)VX(19|20) Pro",
  pat! "(?i)VX(19|20)",
  pat! "(?i)Mobicel_(R[16])",
  pat! "(?i)FEVER_PLUS_([HJ])",
  pat! "(?i)Mobiistar|Zumbo[ _]S|(?:PRIME X MAX|X1 (?:Notch|Dual)|E1 Selfie|XQ[_ ]Dual|C1 Lite)(?:[);/ ]|$)",
  pat! "(?i)X1 (Notch|Dual)(?:[);/ ]|$)",
  pat! "(?i)E1 Selfie(?:[);/ ]|$)",
  pat! "(?i)XQ[_ ]Dual(?:[);/ ]|$)",
  pat! "(?i)mobiistar_LAI_Zumbo(?:[);/ ]|$)",
  pat! "(?i)Zumbo[_ ]S[_ ]2017[_ ]Lite(?:[);/ ]|$)",
  pat! "(?i)Zumbo[_ ]S[_ ]2017(?:[);/ ]|$)",
  pat! "(?i)mobiistar ZUMBO S2( Dual)",
  pat! "(?i)Mobiistar_LAI_Zumbo_J_2017(?:[);/ ]|$)",
  pat! "(?i)Mobiistar_LAI_Zumbo_J(?:[);/ ]|$)",
  pat! "(?i)Mobiistar[_ ]Zumbo[_ ]J2",
  pat! "(?i)Mobiistar[_ ]Zumbo[_ ]S2",
  pat! "(?i)mobiistar[ _]LAI[ _]YUNA[ _]([1XCS])",
  pat! "(?i)mobiistar[ _](?:LAI[ _])?ZORO[ _]([235])",
  pat! "(?i)mobiistar[ _]LAI[ _]Zena",
  pat! "(?i)mobiistar[ _]LAI[ _]Z([12])?",
  pat! "(?i)mobiistar LAI 504([KC])",
  pat! "(?i)mobiistar[ _]PRIME[ _](X1|558|X[ _]Plus|X[ _]Grand) Build",
  pat! "(?i)mobiistar[ _]KOOL([ _]Lite)?",
  pat! "(?i)Mobiistar[ _]([^;/)]+)(?: Build|[;)])",
  pat! "(?i)GENESIS_126(?:[);/ ]|$)",
  pat! "(?i)(MS5[50]X6|MS55X5|MS55L1|MS50L1|MS43A3000|MS45A4000|MS50A4000|MS50A4500|MS50A5000|MS50A6000|MS50B11000|MB-2900 QUATTRO|POLYS[_ ]MS45L1|Wave5)",
  pat! "(?i)POLYS[_ ]MS45L1",
  pat! "(?i)(Cynus[ _][^/;)]+)( Build|\\))",
  pat! "(?i)(?:(?:MOBO[_ ]MB7005|MT7-421HD)|(?:MT7-442D|MT7-411D))(?:[);/ ]|$)",
  pat! "(?i)(?:MOBO[_ ])?(MB7005|MT7-421HD|MT7-442D|MT7-411D)(?:[);/ ]|$)",
  pat! "(?i)TicWatch (Pro 3 Ultra GPS|C2|C2\\+|Pro [5S]|S2?)(?:[);/ ]|$)",
  pat! "(?i)MD-0[143]P(?:[);/ ]|$)",
  pat! "(?i)MD-04P(?:[);/ ]|$)",
  pat! "(?i)MD-03P(?:[);/ ]|$)",
  pat! "(?i)MD-01P(?:[);/ ]|$)",
  pat! "(?i)MEP2Q421G(?:[);/ ]|$)",
  pat! "(?i)Modecom|Free(?:Way )?Tab|xino z[\\d]+ x[\\d]+|(?:ECHO LOLLY)(?:[);/ ]|$)",
  pat! "(?i)xino Z([\\d]+) X([\\d]+)",
  pat! "(?i)FreeTab[ _-]?([^/;]+)? Build",
  pat! "(?i)FreeTab[ _-]?([^);/ ]+)?",
  pat! "(?i)FreeWay Tab[ _-]?([^/;]+) Build",
  pat! "(?i)FreeWay Tab[ _-]?([^);/ ]+)",
  pat! "(?i)Mofut[ _-]?([^/;]+) Build",
  pat! "(?i)Mofut[ _-]?([^);/ ]+)",
  pat! "(?i)MD-PH-001(?:[);/ ]|$)",
  pat! "(?i)(?:momo3s)(?:[);/ ]|$)",
  pat! "(?i)(TurboPhone4G Compact 2108)(?:[);/ ]|$)",
  pat! "(?i)MOT|DROID ?(?:Build|[a-z0-9]+)|portalmmm/2\\.0 (?:E378i|L6|L7|v3)|XOOM [^;/]*Build|XT19(?:24-7|4[23]-1|29-15|41-2|25-10|24-9|65-6|70-[25])|XT17(?:99-2|10-(?:08|10))|XT1021|XT21(?:71-[23]|13-2|15-1|75-2|41-1|25-4|27-2|29-[123]|43-1|53-1|58-6|39-1|31(?:-[134]|DL)|63-4|69-1|37-[12])|XT20(?:13-[124]|15-2|45-3|55-2|61-3|71-4|73-2|83-9|81-1|87-1|93DL|93-[37])|XT22(?:01-[126]|15-[124]|21-[12]|25-[12]|3[35]-2|31-1|51-1|55-1|43-2|4[15]-1|61-1|71-5)|XT-2201|XT180[3-5]|XT23(?:15-1|33-1|35-[23]|03-2|01-5|07-1|21-[23]|23-3|43-[1236]|63-2)|XT24(?:01-2|09-5|[23]7-4|51-4|53-2)|XT25(?:03-[1-4]|27-3|07-5|05-4)|(?:XT|MZ|MB|ME)[0-9]{3,4}[a-z]?(?:\\(Defy\\)|-0[1-5])?(?:[;]? Build|\\))|lineage_osprey|ATRIX HD|PAMR00(?:0[28]|10)IN|PANB0001IN|PANB001[35]IN|PANV000[59]IN|PAGS0005IN",
  pat! "(?i)(?:MOT-|Motorola-)?XT300",
  pat! "(?i)XT2451-4|razr 50 ultra",
  pat! "(?i)XT2321-[23]",
  pat! "(?i)motorola razr 50(?: Build|[;)])|XT2453-2",
  pat! "(?i)(?:MOT-|Motorola-)?XT30[35]",
  pat! "(?i)(?:MOT-|Motorola-)?XT31[16]",
  pat! "(?i)(?:MOT-|Motorola-)?XT2125-4",
  pat! "(?i)(?:MOT-|Motorola[- ])?edge \\(?(202\\d)\\)?",
  pat! "(?i)(?:MOT-|Motorola-)?XT2307-1",
  pat! "(?i)(?:MOT-|Motorola-)?XT2175-2",
  pat! "(?i)XT2245-1|motorola edge 30 neo",
  pat! "(?i)(?:MOT-|Motorola-)?XT2143-1",
  pat! "(?i)(?:MOT-|Motorola-)?XT2153-1",
  pat! "(?i)(?:MOT-|Motorola-)?XT32[01]",
  pat! "(?i)(?:MOT-|Motorola-)?XT3(?:89|90)",
  pat! "(?i)(?:MOT-|Motorola-)?XT502",
  pat! "(?i)(?:MOT-|Motorola-)?XT531",
  pat! "(?i)(?:MOT-|Motorola-)?XT535",
  pat! "(?i)(?:MOT-|Motorola-)?XT2083-9",
  pat! "(?i)(?:MOT-|Motorola-)?XT55[567]C?",
  pat! "(?i)(?:MOT-|Motorola-)?XT603",
  pat! "(?i)(?:MOT-|Motorola-)?XT610",
  pat! "(?i)(?:MOT-|Motorola-)?XT615",
  pat! "(?i)(?:MOT-|Motorola-)?XT621",
  pat! "(?i)(?:MOT-|Motorola-)?XT626",
  pat! "(?i)(?:MOT-|Motorola-)?XT682",
  pat! "(?i)(?:MOT-|Motorola-)?XT685",
  pat! "(?i)(?:MOT-|Motorola-)?XT687",
  pat! "(?i)(?:MOT-|Motorola-)?Atrix HD",
  pat! "(?i)(?:MOT-|Motorola-)?XT720",
  pat! "(?i)(?:MOT-|Motorola-)?XT800W",
  pat! "(?i)(?:MOT-|Motorola-)?XT860",
  pat! "(?i)(?:MOT-|Motorola-)?XT881",
  pat! "(?i)(?:MOT-|Motorola-)?XT882",
  pat! "(?i)(?:MOT-|Motorola-)?XT88[56]",
  pat! "(?i)(?:MOT-|Motorola-)?XT890",
  pat! "(?i)(?:MOT-|Motorola-)?XT894",
  pat! "(?i)(?:MOT-|Motorola-)?XT897",
  pat! "(?i)(?:MOT-|Motorola-)?XT901",
  pat! "(?i)(?:MOT-|Motorola-)?XT90[567]",
  pat! "(?i)(?:MOT-|Motorola-)?XT910S?",
  pat! "(?i)(?:MOT-|Motorola-)?XT91[4568]",
  pat! "(?i)(?:MOT-|Motorola-)?XT9(?:19|20)",
  pat! "(?i)(?:MOT-|Motorola-)?XT925",
  pat! "(?i)(?:MOT-|Motorola-)?XT912",
  pat! "(?i)XT2221-[12]",
  pat! "(?i)XT2335-[23]",
  pat! "(?i)XT2343-[1236]",
  pat! "(?i)XT2225-[12]",
  pat! "(?i)PAMR00(0[28]|10)IN",
  pat! "(?i)XT2055-[124]",
  pat! "(?i)(?:MOT-|Motorola-)?(?:XT102[12]|XT830C|XT15[12]4|XT152[67])",
  pat! "(?i)Moto E \\(XT2052DL\\)",
  pat! "(?i)(?:MOT-|Motorola-)?XT1706",
  pat! "(?i)(?:MOT-|Motorola-)?XT2158-6",
  pat! "(?i)MotoE2\\(4G-LTE\\)",
  pat! "(?i)(?:MOT-|Motorola-)?XT1924-[79]",
  pat! "(?i)moto e\\(?([0-9])\\)? plus",
  pat! "(?i)Moto E([0-9]) Play",
  pat! "(?i)moto-e([0-9])-play",
  pat! "(?i)moto e6 \\(XT2005DL\\)",
  pat! "(?i)moto e5 cruise(?:[);/ ]|$)",
  pat! "(?i)moto e5 supra(?:[);/ ]|$)",
  pat! "(?i)Moto E5 go(?:[);/ ]|$)",
  pat! "(?i)Moto E\\(?(\\di?)\\)? Power(?:[);/ ]|$)",
  pat! "(?i)Moto E\\(?((?:[567]|22)i?)\\)?(?:[);/ ]|$)",
  pat! "(?i)Moto E\\(?([567])s\\)?(?:[);/ ]|$)",
  pat! "(?i)Moto E(\\d+)\\(?s\\)?",
  pat! "(?i)Moto E(?: Build|[;)])",
  pat! "(?i)(?:MOT-|Motorola-)?XT1030",
  pat! "(?i)(?:MOT-|Motorola-)?XT1565",
  pat! "(?i)(?:MOT-|Motorola-)?XT1096",
  pat! "(?i)(?:MOT-|Motorola-)?XT175[046]",
  pat! "(?i)(?:MOT-|Motorola-)?XT172[135]",
  pat! "(?i)(?:MOT-|Motorola-)?XT1254",
  pat! "(?i)(?:MOT-|Motorola-)?XT10(?:28|3[12349]|68|69)|lineage_osprey",
  pat! "(?i)(?:MOT-|Motorola-)?XT106[34]",
  pat! "(?i)(?:MOT-|Motorola-)?g\\(?(\\d+)\\)? 5G",
  pat! "(?i)(?:MOT-|Motorola-)?XT1609",
  pat! "(?i)(?:MOT-|Motorola-)?XT180[1-6]|Moto G ?5S Plus|Moto G \\(5S\\) Plus",
  pat! "(?i)(?:MOT-|Motorola-)?XT1799-2|Moto G \\(5S\\)",
  pat! "(?i)(?:MOT-|Motorola-)?XT168[57]",
  pat! "(?i)(?:MOT-|Motorola-)?XT167[06]",
  pat! "(?i)(?:MOT-|Motorola-)?XT1925-10",
  pat! "(?i)(?:MOT-|Motorola-)?XT1965-6",
  pat! "(?i)XT2129-[12]",
  pat! "(?i)XT2137-[12]",
  pat! "(?i)(?:MOT-|Motorola-)?(?:XT10(?:49|5[23568]|6[04]|9[23457])|XT1093)",
  pat! "(?i)(?:MOT-|Motorola-)?XT156[234]|Moto X Play(?:[);/ ]|$)",
  pat! "(?i)(?:MOT-|Motorola-)?XT157[02]",
  pat! "(?i)(?:MOT-|Motorola-)?XT1575",
  pat! "(?i)(?:MOT-|Motorola-)?XT158[01]",
  pat! "(?i)(?:MOT-|Motorola-)?XT2401-2",
  pat! "(?i)(?:MOT-|Motorola-)?XT1080",
  pat! "(?i)(?:MOT-|Motorola-)?XT1585",
  pat! "(?i)(?:MOT-|Motorola-)?XT1650(?:-05)?",
  pat! "(?i)moto z4(?:[);/ ]|$)",
  pat! "(?i)Moto Z3 Play(?:[);/ ]|$)",
  pat! "(?i)(?:MOT-|Motorola-)?XT1635(?:-0[1-3])?",
  pat! "(?i)(?:MOT-|Motorola-)?XT1710-(?:-0[28])?",
  pat! "(?i)(?:MOT-|Motorola-)?XT1789-05|Moto Z2 Force(?:[);/ ]|$)",
  pat! "(?i)(?:MOT-|Motorola-)?XT1929-15|moto z3(?:[);/ ]|$)",
  pat! "(?i)(?:MOT-|Motorola-)?XT166[23]",
  pat! "(?i)(?:MOT-|Motorola-)?XT2241-1",
  pat! "(?i)(?:MOT-|Motorola-)?XT2243-2",
  pat! "(?i)(?:MOT-|Motorola-)?XT2409-5",
  pat! "(?i)(?:MOT-|Motorola-)?XT2201-[26]",
  pat! "(?i)(?:MOT-|Motorola-)?XT-2201",
  pat! "(?i)(?:MOT-|Motorola-)?XT2507-5",
  pat! "(?i)(?:MOT-|Motorola-)?XT2505-4",
  pat! "(?i)(?:MOT-|Motorola-)?XT2301-5",
  pat! "(?i)(?:MOT-|Motorola-)?XT1943-1",
  pat! "(?i)(?:MOT-|Motorola-)?XT1941-2",
  pat! "(?i)(?:MOT-|Motorola-)?XT1942-1|P30 Note(?:[);/ ]|$)",
  pat! "(?i)(?:MOT-|Motorola-)?edge plus 5G UW \\(2022\\)",
  pat! "(?i)(?:MOT-|Motorola-)?edge plus \\(?(202[23])\\)?",
  pat! "(?i)(?:MOT-|Motorola-)?edge plus|XT2061-3",
  pat! "(?i)(?:MOT-|Motorola-)?edge ([23]0) fusion",
  pat! "(?i)(?:MOT-|Motorola-)?edge 20 lite|XT2139-1",
  pat! "(?i)(?:MOT-|Motorola-)?edge (\\d+) fusion",
  pat! "(?i)(?:MOT-|Motorola-)?edge (\\d+) ultra",
  pat! "(?i)(?:MOT-|Motorola-)?edge (\\d+) pro",
  pat! "(?i)(?:MOT-|Motorola-)?edge (\\d+) neo",
  pat! "(?i)(?:MOT-|Motorola-)?(?:edge 5G UW \\(2021\\)|XT2141-1)",
  pat! "(?i)(?:MOT-|Motorola-)?edge (\\d+)",
  pat! "(?i)(?:MOT-|Motorola-)?edge \\(2021\\)",
  pat! "(?i)XT2503-[1-4]",
  pat! "(?i)(?:MOT-|Motorola-)?edge",
  pat! "(?i)(?:MOT-|Motorola-)?one vision plus",
  pat! "(?i)(?:MOT-|Motorola-)?(?:XT1970-[25]|one vision)",
  pat! "(?i)(?:MOT-|Motorola-)?one power",
  pat! "(?i)(?:MOT-|Motorola-)?one hyper",
  pat! "(?i)(?:MOT-|Motorola-)?one zoom",
  pat! "(?i)(?:MOT-|Motorola-)?one fusion\\+",
  pat! "(?i)(?:MOT-|Motorola-)?one fusion|XT2073-2",
  pat! "(?i)motorola one action|XT2013-[124]",
  pat! "(?i)motorola one 5G ace|XT2113-2",
  pat! "(?i)moto g stylus \\(XT2115DL\\)",
  pat! "(?i)moto g stylus \\((202[12])\\)",
  pat! "(?i)moto g stylus 5G \\((2022)\\)",
  pat! "(?i)XT2215-[124]",
  pat! "(?i)moto g stylus 5G|XT2131(?:-[134]|DL)",
  pat! "(?i)moto g play \\(2021\\)|XT2093DL|XT2093-[37]",
  pat! "(?i)XT2271-5|moto g play - 2023",
  pat! "(?i)moto g power \\(XT2041DL\\)",
  pat! "(?i)moto g power \\(2021\\)",
  pat! "(?i)moto g power \\(2022\\)",
  pat! "(?i)moto g pure|XT2163-4",
  pat! "(?i)moto g fast|XT2045-3",
  pat! "(?i)moto g 5G \\(2022\\)",
  pat! "(?i)moto g\\(?40\\)? fusion|PANV000[159]IN",
  pat! "(?i)PANB001[35]IN|PANB0001IN",
  pat! "(?i)moto g\\(?60\\)?s",
  pat! "(?i)moto g(\\d+)\\((\\w)\\)",
  pat! "(?i)moto g\\(([0-9]+)\\) \\(XT1925DL\\)",
  pat! "(?i)moto g\\(([0-9]+)\\) forge",
  pat! "(?i)moto g\\(([0-9]+)\\) optimo \\(XT1952DL\\)",
  pat! "(?i)moto g\\(([0-9]+)\\) optimo maxx\\(XT1955DL\\)",
  pat! "(?i)moto g\\(([0-9])\\) power lite",
  pat! "(?i)moto g\\(?([0-9]|1[05])\\)? power",
  pat! "(?i)moto g\\(([0-9])\\) supra",
  pat! "(?i)moto g\\(([0-9])\\) plus",
  pat! "(?i)moto g\\(([0-9]+)\\) play",
  pat! "(?i)moto g\\(([0-9]+)\\)",
  pat! "(?i)moto g(\\d+)(?:[);/ ]|$)",
  pat! "(?i)moto e\\(?([0-9]+)\\)?(?: Build|[;)])",
  pat! "(?i)moto x\\(?(4+)\\)?(?: Build|[;)])",
  pat! "(?i)moto(?:rola)? one 5G",
  pat! "(?i)Moto MAXX|XT1225",
  pat! "(?i)Moto ([CGEXZ]) ?\\(([a-z0-9]+)\\)( Plus| Play)?",
  pat! "(?i)Moto ?([CGEXZ])([0-9]+)( Plus| Play)?",
  pat! "(?i)(?:Motorola-)?Moto[ _]?([CGEXZ])([ _](?:Plus|Play))?",
  pat! "(?i)Moto(?:rola)?[- _]F100",
  pat! "(?i)razr \\(?(202[02])\\)?",
  pat! "(?i)MOTORAZR[ _-]([a-z0-9]+)",
  pat! "(?i)MOTORIZR[ _-]([a-z0-9]+)",
  pat! "(?i)motorola razr (40) ultra",
  pat! "(?i)motorola razr (40)",
  pat! "(?i)Motorola[ _-]([^/);]+)(?: Build|[);])",
  pat! "(?i)Moto[ _-]([^/);]+)(?: Build|[);])",
  pat! "(?i)MOT[O]?[_-]?([a-z0-9.]+)",
  pat! "(?i)DROID ?([a-z0-9 ]*) Build",
  pat! "(?i)DROID ?([a-z0-9]+)",
  pat! "(?i)portalmmm/2\\.0 ((?:E378i|L6|L7|V3)[a-z0-9]+)",
  pat! "(?i)(XOOM [^;/]*)Build",
  pat! "(?i)(MZ[0-9]{3})(?:[);/ ]|$)",
  pat! "(?i)((?:ME|MB|XT)[0-9]{3,4}(?:\\(Defy\\))?)(?:[);/ ]|$)",
  pat! "(?i)(LEX L11[ae])(?:[);/ ]|$)",
  pat! "(?i)MOVIC|F4502",
  pat! "(?i)MOVIC[ -]K(2)",
  pat! "(?i)MOVIC[ -]W([2345])",
  pat! "(?i)(F450[12])",
  pat! "(?i)M(?:8421|9101[AB]|910[36]|841[4568]|8601)(?:[);/ ]|$)",
  pat! "(?i)M(\\d{4}[AB]?)(?:[);/ ]|$)",
  pat! "(?i)(?:MH-T6000|MT-T8B22|MT-T800)(?:[);/ ]|$)",
  pat! "(?i)MT-T8(00|B22)",
  pat! "(?i)(?:MPQC|MPDC)[0-9]+|PH(?:150|340|350|360|451|500|520|544|604)|(?:MID(?:7C|74C|82C|84C|801|811|701|711|170|77C|43C|102C|103C|104C|114C)|MP100i OCTA|MP(?:843|717|718|1010|7007|7008|843|888|959|969|QCG(1[01]|77)(?: 3G)?)|MGP7)(?:[);/ ]|$)",
  pat! "(?i)((?:MPQC|MPDC)[0-9]+[^/;)]*)(?: Build|[;)])",
  pat! "(?i)MP100i OCTA(?:[);/ ]|$)",
  pat! "(?i)MPQCG10(?: 3G)?(?:[);/ ]|$)",
  pat! "(?i)(MID(?:7C|74C|82C|84C|801|811|701|711|170|77C|43C|102C|103C|104C|114C)|MP(?:843|717|718|1010|7007|7008|843|888|959|969|QCG(?:11|77))|MGP7)(?:[);/ ]|$)"]

/-- `__dr_re`, from item 6000 on (device_repo.go:24336-24585). -/
def drRe_24 : List (List Chunk) := [
  pat! "(?i)(PH(?:150|340|350|360|451|500|520|544|604))",
  pat! "(?i)MultiPOS[ _]?(X9)(?:[);/ ]|$)",
  pat! "(?i)Multilaser[ _]|ML-TI-MS|(?:MS50[LGXM]|M7[_-]3G[_-](?:PLUS|QC_3|QUAD_CORE)|MS5\\.V2|M9-3G|MS45S_A6|ML([02]1|12)-M7s[- ]?Quad-?Core| ML01-M7-SD|MS45S|MS50S|MS60[XZ]|M7SQC_Plus|MS80X|MS40[GS]|MS55M|MS70|M7_3G_A10|M7_3G|M7S_PLUS|M10A?_3G|M7-3G QUAD CORE|M7s_?Lite|M[79]_WIFI|ML-(?:SO|WI)-M9-3G|M10A-Lite|M10_4G_PRO|MS50L?_4G|MS60F(?:_PLUS)?|MS45S_A6_(?:Teen|Senior)|MLX8|ML-WI-M7_3G_PLUS|KIDPAD_LITE|M8_4G)(?:[);/ ]|$)",
  pat! "(?i)Multilaser[ _]([EFG])[_ ]Pro(?:[);/ ]|$)",
  pat! "(?i)Multilaser[_ ]Elite[_ ]2",
  pat! "(?i)Multilaser[ _]F[_ ]Pro[ _]2(?:[);/ ]|$)",
  pat! "(?i)Multilaser[ _]G[_ ]Max(?:[);/ ]|$)",
  pat! "(?i)Multilaser[ _]GMAX_2(?:[);/ ]|$)",
  pat! "(?i)Multilaser[ _]G_?MAX_2_SE",
  pat! "(?i)Multilaser[ _]G(?:[);/ ]|$)",
  pat! "(?i)Multilaser[ _]G[ _]2(?:[);/ ]|$)",
  pat! "(?i)Multilaser[ _]E[_ ]Lite(?:[);/ ]|$)",
  pat! "(?i)Multilaser[ _]([H])[_ ]5G(?:[);/ ]|$)",
  pat! "(?i)Multilaser[ _]([FEH])(?:[);/ ]|$)",
  pat! "(?i)Multilaser[ _]ZAPP(?:[);/ ]|$)",
  pat! "(?i)Multilaser[ _]ZAPP[ _]II[ _]3G(?:[);/ ]|$)",
  pat! "(?i)MS60F_PLUS(?:[);/ ]|$)",
  pat! "(?i)(MS50[LGXSM]|MS45S_A6|MS40[GS]|MS55M|MS60F|MS70|MS60[XZ]|MS45S|MS80X|MS50L?_4G|MS5\\.V2)(?:[);/ ]|$)",
  pat! "(?i)(?:ML-WI-)?M7[_-]3G[_-]PLUS(?:[);/ ]|$)",
  pat! "(?i)M([79])_WIFI(?:[);/ ]|$)",
  pat! "(?i)M10_4G_PRO(?:[);/ ]|$)",
  pat! "(?i)M8_4G(?:[);/ ]|$)",
  pat! "(?i)M7SQC_PLUS(?:[);/ ]|$)",
  pat! "(?i)M7-3G_QC_3(?:[);/ ]|$)",
  pat! "(?i)M7-3G[ _]QUAD[ _]CORE(?:[);/ ]|$)",
  pat! "(?i)ML([02]1|12)-M7s[- ]?Quad-?Core(?:[);/ ]|$)",
  pat! "(?i)M7s_?Lite(?:[);/ ]|$)",
  pat! "(?i)ML01-M7-SD(?:[);/ ]|$)",
  pat! "(?i)M10A-Lite(?:[);/ ]|$)",
  pat! "(?i)(?:ML-(?:SO|WI)-)?M9-3G(?:[);/ ]|$)",
  pat! "(?i)M7_3G_A10(?:[);/ ]|$)",
  pat! "(?i)MLX8(?:[);/ ]|$)",
  pat! "(?i)M(10A?|7)_3G(?:[);/ ]|$)",
  pat! "(?i)KIDPAD_LITE(?:[);/ ]|$)",
  pat! "(?i)ML-TI-(MS\\d+)(?:[);/ ]|$)",
  pat! "(?i)(MP01A3G)(?:[);/ ]|$)",
  pat! "(?i)MyGica[_ ]",
  pat! "(?i)HDR (Quad Core|Smart TV) Box",
  pat! "(?i)ATV(19[60]0|495 Pro 16G)",
  pat! "(?i)MY MOBILE (708)(?:[);/ ]|$)",
  pat! "(?i)MyPad[ _][^;/)]+( Build|[);])|MyPhone ?(?:A888|A919 Duo|Agua (?:Infinity|Rio ?(?:Fun|Lite)?)|MY27|Rio (?:2 ?(?:Fun|Lite)?|Pixie)|UNO)|my(?:A(?:10|[789])|T[356]) DTV|myWX1 Plus|myXI1(?:[ _](?:Plus|Pro))?|my(?:G1|XI3|NX1|X12|X[23589]|A1[0-35-8]|29S|807)|Brown [12]|A898 DUO",
  pat! "(?i)myT([356]) DTV",
  pat! "(?i)myA([789]|10) DTV",
  pat! "(?i)myXI1 Plus(?:[);/ ]|$)",
  pat! "(?i)myXI1 Pro(?:[);/ ]|$)",
  pat! "(?i)myXI([13])(?:[);/ ]|$)",
  pat! "(?i)my(A1[0-35-8]i?|G1|NX1|X[23589]|X12|29S)(?:[);/ ]|$)",
  pat! "(?i)myWX1 Plus(?:[);/ ]|$)",
  pat! "(?i)Brown 1(?:[);/ ]|$)",
  pat! "(?i)brown 2(?:[);/ ]|$)",
  pat! "(?i)MyPhone[ _]([^;/)]+)( Build|[;)])",
  pat! "(?i)MyPad[ _]([^;/(]+)(?: Build|[;)])",
  pat! "(?i)(?:MyTAB[ _-](?:8 MINI Dual Core|U55GT)|U103GT1)(?:[);/ ]|$)",
  pat! "(?i)MyTAB[ _-]8 MINI Dual Core(?:[);/ ]|$)",
  pat! "(?i)MyTAB-U55GT(?:[);/ ]|$)",
  pat! "(?i)U103GT1(?:[);/ ]|$)",
  pat! "(?i)MyWigo[ _]([^;/)]+)( Build|\\))",
  pat! "(?i)MygPad[_ ]([^/;)]+)(?: Build|[);])",
  pat! "(?i)(MOVE_S201)(?:[);/ ]|$)",
  pat! "(?i) (Myria[_ ][^/;]+|502M|Cozy|Easy tab 9|Grand|Compact_E2_Plus)(?: Build|[;)])|Myria_FIVE|Myria_Grand_4G|Myria_Wide_2|Myria_Wide_4G",
  pat! "(?i)(502M|Grand|Compact_E2_Plus)",
  pat! "(?i)(Cozy|Easy tab 9)",
  pat! "(?i)Myria[_ ]([^/);]+)(?: Build|[);])",
  pat! "(?i)(E70 Ultra)(?:[);/ ]|$)",
  pat! "(?i)MYSTERY|(MID-(?:123G|72[12]|7[01348]3G|753G|8[23]3G))(?:[);/ ]|$)",
  pat! "(?i)MID-(123G|72[12]|7[01348]3G|753G|8[23]3G)(?:[);/ ]|$)",
  pat! "(?i)MYSTERY[_ ]TV[_ ](D\\d{4}[A-Z]{2}\\d{2})",
  pat! "(?i)(?:Npad[ _-]?(?:X1?|plus|Air|Pro|Y1|[SQ])|TAB011)(?:[);/ ]|$)",
  pat! "(?i)Npad[ _-]?plus",
  pat! "(?i)Npad[ _-]?Air",
  pat! "(?i)Npad[ _-]?Pro",
  pat! "(?i)Npad[ _]([^/;)]+)(?: Build|[);])",
  pat! "(?i)(?:NASCO (?:TANGO 7)|SNAP_PRO)(?:[);/ ]|$)",
  pat! "(?i)NEC[ _-]|KGT/2\\.0|portalmmm/1\\.0 (?:DB|N)|(?:portalmmm|o2imode)/2\\.0[ ,]N|(?:PC-T[SE]\\d{3}[\\w]{2,3}|N-06C|N-02E|LAVIE T11 (?:11QHD1|112K1)|LAVIE Tab E (?:10|8)FHD[12]|7SD1|8HD1|LAVIE Tab (?:10FHD3|T12 12QHD1|9QHD1))(?:[);/ ]|$)",
  pat! "(?i)N-06C(?:[);/ ]|$)",
  pat! "(?i)N-02E(?:[);/ ]|$)",
  pat! "(?i)(?:NEC[ _-]|KGT/2\\.0 )([a-z0-9]+)",
  pat! "(?i)portalmmm/1\\.0 ((?:DB|N)[a-z0-9]+)",
  pat! "(?i)(?:portalmmm|o2imode)/2\\.0[ ,](N[a-z0-9]+)",
  pat! "(?i)LAVIE Tab E ((?:10|8)FHD[12]|7SD1|8HD1)(?:[);/ ]|$)",
  pat! "(?i)LAVIE Tab 10FHD3(?:[);/ ]|$)",
  pat! "(?i)LAVIE Tab T12 12QHD1(?:[);/ ]|$)",
  pat! "(?i)LAVIE T11 (11QHD1|112K1)(?:[);/ ]|$)",
  pat! "(?i)LAVIE T7 (7SD1)(?:[);/ ]|$)",
  pat! "(?i)LAVIE T8 (8HD1)(?:[);/ ]|$)",
  pat! "(?i)PC-TE(\\d+)",
  pat! "(?i)PC-TS(\\d+)",
  pat! "(?i)LAVIE Tab (9QHD1)",
  pat! "(?i)(?:NEKO_(?:WK?_)?LT[-_](\\w+)|LT-\\d{2}N(?:[HF]8020S|X8001S|F7021S))(?:[);/ ]|$)",
  pat! "(?i)(?:NEKO_)?(?:WK?_)?LT[-_](\\w+)(?:[);/ ]|$)",
  pat! "(?i)NETWIT_([^;/)]+)( Build|[;)])",
  pat! "(?i)Nevir,([a-z0-9_ -]+),(?:wired|wireless)",
  pat! "(?i)(MXQ|MXQ-Pro)-NEXBOX|NEXBOX-([^) ]+)",
  pat! "(?i)NEXBOX-([^) ]+)",
  pat! "(?i)NEXON[ _](X[1235]\\+|X[123589]|X10)(?:[);/ ]|$)",
  pat! "(?i)(Discovery_XT|Revolution-X69K)(?:[);/ ]|$)",
  pat! "(?i)(NG3128HD)(?:[);/ ]|$)",
  pat! "(?i)NGM[_ ][a-z0-9]+|(Forward|Dynamic)[ _]?[^/;]+(?:Build|/)|Smart5Plus32GB|Android 5(?:[\\d.]*);(?: [\\w-]+;)? (?:P50[89]|P55[01])(?:[);/ ]|$)",
  pat! "(?i)P(50[89]|55[01])",
  pat! "(?i)(Forward|Dynamic)[ _]?([^/;)]+)(?: Build|[;)])",
  pat! "(?i)(Forward|Dynamic)[ _]?([^/;]+)/",
  pat! "(?i)NGM ([^;/]+) Build",
  pat! "(?i)NGM_([a-z0-9]+)",
  pat! "(?i)Android 4(?:[\\d.]*);(?: [\\w-]+;)? (3188HD)(?: Build|[;)])",
  pat! "(?i)NINETOLOGY[_ ]([^/;)]+)(?: Build|[);])",
  pat! "(?i)(?:NOA-)?NOA[ _]|Hummer(?:_2019_R|LE)|NextSE|Vivo 4G_r|SPRINT4G|SparkSE",
  pat! "(?i)NOA[_ ]CORE[_ ]FORTE",
  pat! "(?i)NOA[_ ]Hummer[_ ]Lite",
  pat! "(?i)NOA[_ ]HUMMER",
  pat! "(?i)NOA[_ ]MOVEse",
  pat! "(?i)NOA[_ ]NEXT",
  pat! "(?i)NOA[_ ]VISION[_ ]H3SE",
  pat! "(?i)NOA[_ ]VISION[_ ]H3",
  pat! "(?i)NOA[_ ]LOOP",
  pat! "(?i)(?:NOA-)?NOA[_ ]H4se",
  pat! "(?i)NOA[_ ]Mg12",
  pat! "(?i)NOA[_ ]H44SE",
  pat! "(?i)NOA[_ ]H10LE",
  pat! "(?i)NOA[_ ](M108K|P497)",
  pat! "(?i)(?:NOA[_ ])?Vivo 4G_r",
  pat! "(?i)NOA[_ ]([^;)/ ]+)",
  pat! "(?i)SMART_VOLT_NX5(?:[);/ ]|$)",
  pat! "(?i)(?:NOGAPC (?:LIVE|PRO|ULTRA)|NOGAPAD ?(?:7G|10\\.1GHD|10HD))(?:[);/ ]|$)",
  pat! "(?i)NOGAPAD ?7G(?:[);/ ]|$)",
  pat! "(?i)NOGAPAD ?10\\.1GHD(?:[);/ ]|$)",
  pat! "(?i)NOGAPC PRO(?:[);/ ]|$)",
  pat! "(?i)NOGAPC LIVE(?:[);/ ]|$)",
  pat! "(?i)NOGAPC ULTRA(?:[);/ ]|$)",
  pat! "(?i)(NTV-H3230TS)(?:[);/ ]|$)",
  pat! "(?i)(Bonvi Note|Bonvi Prime|Bonvi Pro|Borneo_Pro|Vi_Note)(?:[);/ ]|$)",
  pat! "(?i)HB-(2000)(?:[);/ ]|$)",
  pat! "(?i)NUU_|(?:(?:N(500[12]|550[12]|570[24]|6001)L|S(?:5501|5701|600[13]|6303|6501|6512)L|T080[12]L)|S6702X|A6L-[CG])(?:[);/ ]|$)",
  pat! "(?i)T080[12]L",
  pat! "(?i)NUU_A([13]L?)",
  pat! "(?i)NUU_M([32])(?:[);/ ]|$)",
  pat! "(?i)NUU_X5(?:[);/ ]|$)",
  pat! "(?i)(?:NUU_)?(N5001L|A6L-[CG]|Q500)(?:[);/ ]|$)",
  pat! "(?i)NYX[ _]|(?:GLAM|ARGON|TQ14|GO-X|orbis)(?:[);/ ]|$)",
  pat! "(?i)NYX[_ ]ALTER",
  pat! "(?i)NYX[ _]REX",
  pat! "(?i)(TQ14|GO-X)",
  pat! "(?i)(?:DMTAB-(?:IN08A|NV08B|NV2[04]A)|NBTY07SMKG|NBFP07PMKG|SNB02-NV7A|NABI2-NV7A)(?:[);/ ]|$)",
  pat! "(?i)DMTAB-(?:IN08A|NV08B)",
  pat! "(?i)DMTAB-NV(2[04])A",
  pat! "(?i)android 7(?:[\\d.]*);(?: [\\w-]+;)? (?:F101)(?:[);/ ]|$)",
  pat! "(?i)F101(?:[);/ ]|$)",
  pat! "(?i)(?:NAOMIPHONE Ambar|DAMMAR)(?:[);/ ]|$)",
  pat! "(?i)NAOMIPHONE Ambar(?:[);/ ]|$)",
  pat! "(?i)DAMMAR(?:[);/ ]|$)",
  pat! "(?i)(NX-32THS100)(?:[);/ ]|$)",
  pat! "(?i)(?:NEXO (?:Smarty|handy|SMART DUO|Evo)|MOVIO 2)(?:[);/ ]|$)",
  pat! "(?i)NP-752Go(?:[);/ ]|$)",
  pat! "(?i)(NeoTab)[ _-]((?:S1[23]0|S125|H85|H11[05]|KID741|S9700))(?:[);/ ]|$)",
  pat! "(?i)NAVITEL[ _]|(?:T737PRO|T505PRO|T500 3G)(?:[);/ ]|$)",
  pat! "(?i)(?:NAVITEL[ _])?(T70[07]|T500) 3G(?:[);/ ]|$)",
  pat! "(?i)NAVITEL[ _](T757)LTE(?:[);/ ]|$)",
  pat! "(?i)NAVITEL[ _](A73[0157]|A650)(?:[);/ ]|$)",
  pat! "(?i)T(505|737)PRO(?:[);/ ]|$)",
  pat! "(?i)RE900 Full HD(?:[);/ ]|$)",
  pat! "(?i)Navon[_ ]|(?:Vision_Tab_(?:7|10)|Pure Micro|Superme_Max|Raptor3G8GB|Predator (?:10|3G)|Platinum[_ ]?10[_ ]?3G(?:_V2|2019)?|Supreme[_ ](?:Fine(?:[_ ]Micro)?|Chief|Pure|Pro)(?:[_ ](?:Mini|Plus))?|T400 3G 2017|Spirit_Plus)(?:[);/ ]|$)",
  pat! "(?i)M505 LTE(?:[);/ ]|$)",
  pat! "(?i)(F552|D504)(?:[);/ ]|$)",
  pat! "(?i)Superme_Max(?:[);/ ]|$)",
  pat! "(?i)Supreme_Fine_Mini(?:[);/ ]|$)",
  pat! "(?i)Supreme_Fine_Micro(?:[);/ ]|$)",
  pat! "(?i)Supreme[_ ]Fine[_ ]Plus(?:[);/ ]|$)",
  pat! "(?i)Supreme_Fine(?:[);/ ]|$)",
  pat! "(?i)Supreme[_ ]Chief(?:[);/ ]|$)",
  pat! "(?i)Supreme[_ ]Pure[ _]Plus(?:[);/ ]|$)",
  pat! "(?i)Supreme Pure(?:[);/ ]|$)",
  pat! "(?i)Supreme[_ ]Pro(?:[);/ ]|$)",
  pat! "(?i)Pure Micro(?:[);/ ]|$)",
  pat! "(?i)Spirit_Plus(?:[);/ ]|$)",
  pat! "(?i)Navon[_ ]Infinity(?:[);/ ]|$)",
  pat! "(?i)Navon[_ ](D405)(?:[);/ ]|$)",
  pat! "(?i)(?:Navon[_ ])?Platinum[ _]10[ _]3G(_V2)?(?:[);/ ]|$)",
  pat! "(?i)(?:Navon[_ ])?Platinum103G2019(?:[);/ ]|$)",
  pat! "(?i)(?:Navon[_ ])?Orpheus[ _]3G(?:[);/ ]|$)",
  pat! "(?i)(?:Navon_)?Predator[_ ](3G|10|7)(?:[);/ ]|$)",
  pat! "(?i)Raptor3G8GB(?:[);/ ]|$)",
  pat! "(?i)Vision_Tab_(7|10)(?:[);/ ]|$)",
  pat! "(?i)(M002[DGQK]-2|M002N|M002N-3T|M002W-2T|6M-3T)(?:[);/ ]|$)",
  pat! "(?i)NEDAPHONE[ _](V9)(?:[);/ ]|$)",
  pat! "(?i)Neffos|(TP601[ABCE])(?:[);/ ]|$)",
  pat! "(?i)(?:C57|TP601[ABCE])(?:[);/ ]|$)",
  pat! "(?i)Neffos[_ ]Y50",
  pat! "(?i)Neffos[_ ]((?:[YNCXA])[0-9][A-Z]?(?: Max| Lite| Plus)?)",
  pat! "(?i)Neolix[ _-]",
  pat! "(?i)Neolix[ _-]T7[_ ]",
  pat! "(?i)Neolix[ _-]1-C-",
  pat! "(?i)Neolix[ _-]([^/;)]+)(?: Build|[);])",
  pat! "(?i)NEO[ ]?(90[689])(?:[);/ ]|$)",
  pat! "(?i)(?:NQT-(?:101|7)[34]GIQ(?:11)?|NQT-7W)(?:[);/ ]|$)",
  pat! "(?i)(NQT-1013GIQ11)",
  pat! "(?i)NQT-101([34])GIQ",
  pat! "(?i)NQT-7([34])GIQ",
  pat! "(?i)KT1007_EEA(?:[);/ ]|$)",
  pat! "(?i)(N50HQ2305SVF|N43HQ2304SVF|N32HR2301SF|N32HF2302SF)(?:[);/ ]|$)",
  pat! "(?i)NETBOX-Prime(?:[);/ ]|$)",
  pat! "(?i)NETBOX-ShineS(?:[);/ ]|$)",
  pat! "(?i)NM-NETPAD7(?:[);/ ]|$)",
  pat! "(?i)NIM-(450D|550O|[56]00Q)",
  pat! "(?i)neutab ?k1(?:[);/ ]|$)",
  pat! "(?i)neutab ?k1",
  pat! "(?i)NB (RunIQ)(?:[);/ ]|$)",
  pat! "(?i)(NBTB10[12])(?:[);/ ]|$)",
  pat! "(?i)NEWAL[_ ]?([^;/)]+)( Build|[;)])",
  pat! "(?i)NEWGEN\\-([a-z0-9]+)",
  pat! "(?i)NLS-(?:MT90|NFT10|MT65)(?:[);/ ]|$)",
  pat! "(?i)(?:(?:Newman[ _])(?:P308|K1|G5i)|UE Pad 1)(?:[);/ ]|$)",
  pat! "(?i)Newman[ _](P308|K1|G5i)(?:[);/ ]|$)",
  pat! "(?i)(CarPad-(?:II|III)-P)(?:[);/ ]|$)",
  pat! "(?i)Newsday[_ ](E1|A[12]|N2\\+)(?:[);/ ]|$)",
  pat! "(?i)Nexa[ _](?:Atlas|Vega N1)",
  pat! "(?i)Nexa[ _](Vega N1)",
  pat! "(?i)Nexa[ _](Atlas)",
  pat! "(?i)NTV[-_](U50C614S|H43C612N)(?:[);/ ]|$)",
  pat! "(?i)S?Nexian",
  pat! "(?i)S?Nexian[ ]?([a-z0-9-]+)",
  pat! "(?i)S?Nexian-([a-z0-9]+)",
  pat! "(?i)^NEXT |LGE; YE-[0-9a-z]+(?:-4K)?;|MyBox(?:[);/ ]|$)",
  pat! "(?i)MyBox(?:[);/ ]|$)",
  pat! "(?i)LGE; (YE-[0-9a-z]+)-4K;",
  pat! "(?i)LGE; (YE-[0-9a-z]+);",
  pat! "(?i)Next[0-9]|NX(?:785QC8G|M900MC|008HD8G|010HI8G|M908HC|M726|16A8116K|A8QC116|A8LTE116|16A10132S|16A11264|A116QC164|A101LTE116)|(?:BRT81)(?:[);/ ]|$)",
  pat! "(?i)(BRT81)(?:[);/ ]|$)",
  pat! "(?i)Next([0-9]+[^;/]+) Build",
  pat! "(?i)TAB (A40[13]0)(?:[);/ ]|$)",
  pat! "(?i)Nextbit|(?:Robin)(?: Build|\\))",
  pat! "(?i)(Robin)(?:[);/ ]|$)",
  pat! "(?i)NOAIN[ _-]([^;/]+) Build",
  pat! "(?i)NOAIN[ _-]([^;/)]+)(?:[;/)]|$)",
  pat! "(?i)Nobby[ ](S500|X800(?: Pro)?|S300(?: Pro)?)(?:[);/ ]|$)",
  pat! "(?i)Noblex|NBX-|(?:A[56]0UNS|T7A6INC|T7A6N)(?:[);/ ]|$)",
  pat! "(?i)(?:Noblex|NBX)[ _-]([^;/]+) Build",
  pat! "(?i)(?:Noblex|NBX)[ _-]([^;/)]+)(?:[;/)]|$)",
  pat! "(?i)(A[56]0)UNS",
  pat! "(?i)(T7A6INC|T7A6N)",
  pat! "(?i)Nokia|Lumia|Maemo RX|portalmmm/2\\.0 N7|portalmmm/2\\.0 NK|nok[0-9]+|Symbian.*\\s([a-z0-9]+)$|RX-51 N900|TA-[0-9]{4}|N(?:1374|1530|15[01256])DL|ARM; 909",
  pat! "(?i)TA-10(07|23|29|35)",
  pat! "(?i)TA-10(20|28|32|38)",
  pat! "(?i)TA-10(24|27|44|53)",
  pat! "(?i)TA-10(00|03|21|25|33|39|54)",
  pat! "(?i)TA-10(04|12|52)",
  pat! "(?i)Nokia 6\\.1 Plus",
  pat! "(?i)Nokia 5\\.1 Plus",
  pat! "(?i)Nokia 3\\.1 Plus",
  pat! "(?i)Nokia 2 V(?:[);/ ]|$)",
  pat! "(?i)Nokia[_ ]Xplus",
  pat! "(?i)Nokia ?X2DS"]

/-- `__dr_re`, from item 6250 on (device_repo.go:24586-24835). -/
def drRe_25 : List (List Chunk) := [
  pat! "(?i)(?: )?(Nokia500|nokiaasha500(?:dualsim)?)(?: Build|[_);/])",
  pat! "(?i)Nokia5130c(?:-2)?",
  pat! "(?i)Nokia8800e?",
  pat! "(?i)Nokia808 ?PureView",
  pat! "(?i)Nokia ?([0-9]{4})c(?:-)?",
  pat! "(?i)Nokia ?([0-9]{4})s(?:-)?",
  pat! "(?i)Nokia[ _]?([0-9]{4})[ _]?Flip",
  pat! "(?i)Nokia[ _]?([0-9]{4})[ _]?V[ _]?Flip",
  pat! "(?i)Nokia ?([0-9]{4})",
  pat! "(?i)(?: )?Nokia([235][0-9]{2})(?: Build|[_);/])",
  pat! "(?i)Nokia([CEX]-?[0-9]{1,2}i?)-[0-9]{1,2}u?(?: Build|[_);/])",
  pat! "(?i)Nokia;? 520T",
  pat! "(?i)RM-91[45]",
  pat! "(?i)RM-997|Nokia 526",
  pat! "(?i)RM-97[68]",
  pat! "(?i)RM-97[45]",
  pat! "(?i)NOKIA;? 710",
  pat! "(?i)Nokia;? 720T",
  pat! "(?i)RM-103[89]",
  pat! "(?i)Nokia;? 800C",
  pat! "(?i)Nokia;? 800",
  pat! "(?i)Nokia;? 900",
  pat! "(?i)(RM-82[12]|Nokia;? 920)(?: Build|[_);/])",
  pat! "(?i)(RM-89[23]|RM-910|Nokia;? 925)(?: Build|[a_);/])",
  pat! "(?i)(ARM; 909|NOKIA;? 909|NOKIA; id300)(?: Build|[_);/])",
  pat! "(?i)NOKIA;? 1520\\.1",
  pat! "(?i)Nokia T([12]0|21)",
  pat! "(?i)Streaming (Stick 800|Box 8000)(?:[);/ ]|$)",
  pat! "(?i)Nokia ([A-Za-z0-9\\. ]+)(?: Build|\\))",
  pat! "(?i)Nokia(N[0-9]+)",
  pat! "(?i)Nokia-([a-z0-9]+)",
  pat! "(?i)NOKIA; ([a-z0-9\\- ]+)",
  pat! "(?i)NOKIA[ _]?([a-z0-9-]+)",
  pat! "(?i)NOKIA/([a-z0-9 ]+)",
  pat! "(?i)(Lumia [a-z0-9-]+ XL)",
  pat! "(?i)(Lumia [a-z0-9-]+)",
  pat! "(?i)Maemo RX-51 ([a-z0-9]+)",
  pat! "(?i)NokiaInternal|Nokia-WAP-Toolkit|Nokia-MIT-Browser|Nokia Mobile|Nokia Browser|Nokia/Series",
  pat! "(?i)portalmmm/2\\.0 (N7[37]|NK[a-z0-9]+)",
  pat! "(?i)nok([0-9]+)",
  pat! "(?i)Symbian.*\\s([a-z0-9]+)$",
  pat! "(?i)Nomi[ _-]|(C101010 Ultra2|i501[234]|i5032|i50[537]0|i5031|i55[13]0|i5532|C0(700(?:[02358]|2HD)|7850)|C1010[0-3]|i(?:50[0158]|450|40[01]|55[02])|i504 Dream|AB5116-01)(?:[);/ ]|$)",
  pat! "(?i)i501[23](?:[);/ ]|$)",
  pat! "(?i)Nomi[ _]i5010(?:[);/ ]|$)",
  pat! "(?i)Nomi[ _]i5001(?:[);/ ]|$)",
  pat! "(?i)Nomi[ _]i5011(?:[);/ ]|$)",
  pat! "(?i)Nomi[ _]i506(?:[);/ ]|$)",
  pat! "(?i)Nomi[ _]i5730(?:[);/ ]|$)",
  pat! "(?i)Nomi[ _]i6030(?:[);/ ]|$)",
  pat! "(?i)I5070(?:[);/ ]|$)",
  pat! "(?i)i5071(?:[);/ ]|$)",
  pat! "(?i)Nomi[_ ]I4070(?:[);/ ]|$)",
  pat! "(?i)i5014(?:[);/ ]|$)",
  pat! "(?i)i5032(?:[);/ ]|$)",
  pat! "(?i)i5030(?:[);/ ]|$)",
  pat! "(?i)i5031(?:[);/ ]|$)",
  pat! "(?i)i5050(?:[);/ ]|$)",
  pat! "(?i)(?:Nomi_)?i4510(?:[);/ ]|$)",
  pat! "(?i)(?:Nomi_)?i4500(?:[);/ ]|$)",
  pat! "(?i)i5532(?:[);/ ]|$)",
  pat! "(?i)i5510(?:[);/ ]|$)",
  pat! "(?i)i5530(?:[);/ ]|$)",
  pat! "(?i)Nomi[_ ]i5511(?:[);/ ]|$)",
  pat! "(?i)(?:Nomi_)?i5710(?:[);/ ]|$)",
  pat! "(?i)i508(?:[);/ ]|$)",
  pat! "(?i)(?:Nomi[ _])?i(50[015]|450|40[01]|55[02])(?:[);/ ]|$)",
  pat! "(?i)Nomi[ _]i507(?:[);/ ]|$)",
  pat! "(?i)Nomi[ _]i503(?:[);/ ]|$)",
  pat! "(?i)(?:Nomi[ _]i504|i504 Dream)(?:[);/ ]|$)",
  pat! "(?i)Nomi[ _](\\w+)[ _]PLUS(?:[);/ ]|$)",
  pat! "(?i)(AB5116-01)(?:[);/ ]|$)",
  pat! "(?i)(?:Nomi_)?C101040",
  pat! "(?i)(?:Nomi_)?C101030",
  pat! "(?i)(?:Nomi_)?C101012",
  pat! "(?i)(?:Nomi_)?C101014",
  pat! "(?i)(?:Nomi_)?C101034",
  pat! "(?i)(?:Nomi_)?C101044",
  pat! "(?i)(?:Nomi_)?C070010",
  pat! "(?i)(?:Nomi_)?C070020",
  pat! "(?i)(?:Nomi_)?C070011",
  pat! "(?i)(?:Nomi_)?C070030",
  pat! "(?i)(?:Nomi_)?C070012",
  pat! "(?i)(?:Nomi_)?C070014L",
  pat! "(?i)(?:Nomi_)?C0700[13]4",
  pat! "(?i)(?:Nomi_)?C070044",
  pat! "(?i)(?:Nomi_)?C080012",
  pat! "(?i)(?:Nomi_)?C080010",
  pat! "(?i)(?:Nomi_)?C080034",
  pat! "(?i)(?:Nomi_)?C080014",
  pat! "(?i)(?:Nomi_)?C07008",
  pat! "(?i)(?:Nomi_)?C10105",
  pat! "(?i)(?:Nomi[ _])?(C0(?:700(?:[0235]|2HD)|7850|9600)|C1010[0-3])(?:[);/ ]|$)",
  pat! "(?i)Nomi[ _-]([^;/]+) Build",
  pat! "(?i)Nomi[ _-]([^;/)]+)(?:[;/)]|$)",
  pat! "(?i)(?:Nomu[ _-](?:T18|S30mini|S10)|(?:V1600S|S10 PRO|S50_Pro)|LMCV1|Xeno V1)(?:[);/ ]|$)",
  pat! "(?i)Nomu[ _-]T18(?:[);/ ]|$)",
  pat! "(?i)Nomu[ _-]s10(?:[);/ ]|$)",
  pat! "(?i)Nomu[ _-]S30mini(?:[);/ ]|$)",
  pat! "(?i)LMCV1(?:[);/ ]|$)",
  pat! "(?i)S([15]0)[_ ]PRO(?:[);/ ]|$)",
  pat! "(?i)(V1600S)(?:[);/ ]|$)",
  pat! "(?i)(Xeno V1)(?:[);/ ]|$)",
  pat! "(?i)(Y-(?:4301|4001)-FHD-R)(?:[);/ ]|$)",
  pat! "(?i)NORDMENDE[ _;,]",
  pat! "(?i)NORDMENDE[_ ](43NM6000F|55NM6000U)(?:[);/ ]|$)",
  pat! "(?i)(NT-TP10)(?:[);/ ]|$)",
  pat! "(?i)Nos (?:FIVE|NOVU|NEVA|Roya)(?:[);/ ]|$)",
  pat! "(?i)NOS FIVE(?:[);/ ]|$)",
  pat! "(?i)NOS NOVU III(?:[);/ ]|$)",
  pat! "(?i)NOS NOVU II(?:[);/ ]|$)",
  pat! "(?i)NOS NOVU(?:[);/ ]|$)",
  pat! "(?i)NOS NEVA 80(?:[);/ ]|$)",
  pat! "(?i)NOS Roya(?:[);/ ]|$)",
  pat! "(?i)(?:A06[35]|AIN065|A142P?|Phone \\(2a\\)|A059P?)(?:[);/ ]|$)",
  pat! "(?i)A063|A015",
  pat! "(?i)A(?:IN)?065",
  pat! "(?i)A142|Phone \\(2a\\)",
  pat! "(?i)(?:NS(?:[356]|500[2-68]|5511|5502)|NS 5511)(?:[);/ ]|$)",
  pat! "(?i)NS 5511(?:[);/ ]|$)",
  pat! "(?i)(NS[0-9]{1,4})(?:[);/ ]|$)",
  pat! "(?i)SPYBOXS11_PLUS(?:[);/ ]|$)",
  pat! "(?i)SPYBOXS11(?:[);/ ]|$)",
  pat! "(?i)(NWX-40F171MSY|NVX-32H219MSY|NVX-43U329MSY|NVX-39H211MSY|NWX-43F149MSYv?|NWX-24H121MSY|NWX-24H121WSY|NWX-32H171MSY|NVX-55U321MSY|NVX-50U329MSY|NWX-65U169TSY-A|NVX-65U321MSY|NVX-75U131MSY)x?(?:[);/ ]|$)",
  pat! "(?i)Novey|(?:Pro K10|(?:Force (?:F15|G20)|Alpha A1[06]))(?:[);/ ]|$)",
  pat! "(?i)Force (F15|G20)",
  pat! "(?i)Alpha A(1[06])",
  pat! "(?i)Novey (L2)(?:[);/ ]|$)",
  pat! "(?i)NoviSea[ _](A10)(?:[);/ ]|$)",
  pat! "(?i)NEO \\[Reloaded\\](?:[);/ ]|$)",
  pat! "(?i)(TM800A620M|TM101A620M)(?:[);/ ]|$)",
  pat! "(?i)Nubia[ _]|(?:NX(?:302J|403A|404H|406E|40[X2]|503A|50[5678]J|51[0123]J|521J|523J_V1|529Jq?|5[345]1J|5[48]9J|569[HJ]|5[67]3J|575J|59[157]J|60[1689]J|61[12679]J|62[79]J|65[19]J|6[126]9J|66[67]J|679[JS]|70[129]J|71[123]J|72[1459]J|73[367]J|769J|779J|709S|907J|789J)|NP0[13]J|Z235[12]N|Z6255CA|Z2353|Z246[45]N|NT01|NP05J)(?:[);/ ]|$)",
  pat! "(?i)NP0[13]J",
  pat! "(?i)NT01(?:[);/ ]|$)",
  pat! "(?i)Z246[45]N",
  pat! "(?i)NX679[JS]",
  pat! "(?i)NX40[X2]",
  pat! "(?i)NX(403[AE]|406E|404H)",
  pat! "(?i)(?:NX5[12]1J|Nubia Z9 mini)",
  pat! "(?i)(?:NX510J|Nubia Z9 Max)",
  pat! "(?i)(?:NX549J|Nubia Z11 mini S)",
  pat! "(?i)(?:NX529Jq?|Nubia Z11 mini)",
  pat! "(?i)NX569[HJ]",
  pat! "(?i)NX6(?:08|17)J",
  pat! "(?i)Nubia[_ ]([^;)/]+)( build|[;)])",
  pat! "(?i)Nuvo[_ ](NS35|Blue ND40|Green[_ ]ND[_ ]45)(?:[);/ ]|$)",
  pat! "(?i)Nuvo[_ ](NS35)(?:[);/ ]|$)",
  pat! "(?i)Blue (ND40)(?:[);/ ]|$)",
  pat! "(?i)Green[_ ]ND[_ ]45(?:[);/ ]|$)",
  pat! "(?i)NVIDIA|SHIELD|Tegra(Note-P1640| Note 7)|wx_na_wf|wx_un_do",
  pat! "(?i)wx_na_wf|wx_un_do",
  pat! "(?i)(SHIELD Tablet(?: K1)?|Tegra Note 7)(?: Build|[;)])",
  pat! "(?i)SHIELD Andr[o0]id TV",
  pat! "(?i)O\\+[ _](Presto 700 LTE|FAB GO|360|8\\.(?:3[178]z|[15]2|37y|3[38]|9[12378]|1[75]|6)|Air|Grande|Crunch|Ultra|Xfinit|Upsized|Venti|EVO 4G|Sonic|360[ _]ALPHA[ _]PLUS[ _]2\\.0|360[ _]HD[ _]2\\.0|Stream HDTV)",
  pat! "(?i)O\\+[ _](Presto 700 LTE|Grande|Crunch|Ultra 2\\.0|Xfinit|Ultra Lite|Ultra|Sonic|Upsized|Venti 4G|EVO 4G|8\\.(?:3[178]z|37y|3[38]|[15]2|9[12378]|1[75]|6))",
  pat! "(?i)O\\+_AIR",
  pat! "(?i)O\\+[ _]360[ _]HD[ _]2\\.0",
  pat! "(?i)O\\+[ _]360[ _]HD",
  pat! "(?i)O\\+[ _]360[ _]ALPHA[ _]PLUS[ _]2\\.0",
  pat! "(?i)O\\+[ _]360 ALPHA Plus",
  pat! "(?i)O\\+[ _]360 ALPHA",
  pat! "(?i)O\\+[ _]360",
  pat! "(?i)O\\+ Stream HDTV",
  pat! "(?i)O\\+ FAB GO",
  pat! "(?i)Xda|O2[ -]|COCOON",
  pat! "(?i)O2 TV Box(?:[);/ ]|$)",
  pat! "(?i)(Xda[ _][a-z0-9_]+)",
  pat! "(?i)(COCOON)",
  pat! "(?i)O2-(X[12]i|X4)",
  pat! "(?i)O2 ([a-z0-9 ]+)",
  pat! "(?i)O2-([a-z0-9]+)",
  pat! "(?i)(TEG9300)(?:[);/ ]|$)",
  pat! "(?i)OINOM[_ ](V9D|V7H|V[679])(?:[);/ ]|$)",
  pat! "(?i)(GEN-10|GT1001)(?:[);/ ]|$)",
  pat! "(?i)(?:OKWU SIGMA|PI[_ ]Plus)(?:[);/ ]|$)",
  pat! "(?i)PI[_ ]Plus",
  pat! "(?i)OLTO[_-]|(?:43ST20[HU]|32ST[23]0H)(?:[);/ ]|$)",
  pat! "(?i)(?:OLTO-)?(\\d{2}ST\\d{2}[HU])",
  pat! "(?i)OMIX[ _.]|(?:X600 NFC|O1 Neo|O1 Icon|Android 1[12](?:[\\d.]*);(?: [\\w-]+;)? X[467]00)(?:[);/ ]|$)",
  pat! "(?i)X(\\d*)",
  pat! "(?i)onn\\.|Onn 2k|(?:1000(?:7148[135]|0356[12]|0520[6-9]|11886(?:C?A|_GTW)|26191|43279|44018G?|7148[1356]A?|92980A?|1188[56]|15685-[AE])|ONA19TB00[327]|1001(?:10027|10603|4666[03]|35794|3592[0345])|O8HD|TBBVNC10000520[78])(?:[);/ ]|$)",
  pat! "(?i)(1000(?:92980A?|7148[135]A|0356[12]|0520[6-9]|11886(?:C?A|_GTW)|1188[56]|15685-[AE]|26191|43279|44018G?|7148[1356]A?)|ONA19TB00[327]|O8HD|1001(?:4666[03]|10027|10603|35794|3592[0345])|TBBVNC10000520[78])(?:[);/ ]|$)",
  pat! "(?i)(4K Streaming Box)",
  pat! "(?i)ONVO[ _]|\\d{2}OV|(?:Apollo Premium4K TV|0V50500|OV43400)(?:[);/ ]|$)",
  pat! "(?i)(0V50500|OV43400)[,;]?",
  pat! "(?i)(?:ONVO[_ ])?(\\d{2}OV[a-z0-9]+)(?:[);/ ]|$)",
  pat! "(?i)Apollo Premium4K TV(?:[);/ ]|$)",
  pat! "(?i)(?:KON_TIKI(2)?|Nova3Color|GoColor7|Lomonosov3?|Poke2Color|NovaAirC|NoteAir(?:2P?|[34]C)|TabUltraCPro|LIVINGSTONE[23]|MC_FAUST[23]|DARWIN[9X]|MC_DARWIN[678]|MC_GAMA4|MC_Cristo4|MC_NovaPro|VOLTA[45]|Kon_Tiki3|FAUST[56]|GALILEO|Poke3|KANT2)(?:[);/ ]|$)",
  pat! "(?i)VOLTA([45])",
  pat! "(?i)KON_TIKI([23])?",
  pat! "(?i)Lomonosov(3)",
  pat! "(?i)(?:MC_)?FAUST([2356])",
  pat! "(?i)(?:MC_)?DARWIN([6789X])",
  pat! "(?i)LIVINGSTONE([23])",
  pat! "(?i)NoteAir([34])C",
  pat! "(?i)(?:OB-)?OPPO[ _]?([a-z0-9]+)|N1T|R8001|R820[16]|A101OP|OPG0[1-4]|A00[12]OP|(?:X90[07][0679]|U70[57]T?|X909T?|R(?:10[01]1|2001|201[07]|6007|7005|7007|80[13579]|81[13579]|82[01379]|83[013]|800[067]|8015|810[679]|811[13]|820[057]|15 Neo)[KLSTW]?|N520[79]|N5117|A33[wf]|A33fw|A37fw?|PAAM00|A303OP|PAAT00|PAC[TM]00|R7kf|R7plus[fmt]?|A1601|CPH[0-9]{4}|CPH19(69|79|23|1[179])|PB(A[TM]00|CT10|BT30|CM[13]0|[FD]M00)|P(E[RFHG]M\\d{2}|E[GH]T\\d{2}|DAM10|ADM00|AF[TM]00|ADT00|AHM00|BBM[03]0|BBT00|BDT00|BFT00|[CB]E[MT]00|CA[MT]00|C[CDG]M00|CA[MT]10|[CD]PM00|CRM00|CDT00|CD[TM]10|CHM[013]0|CKM[08]0|CLM[15]0|DEM[13]0|DHM00|D[RK][TM]00|DPT00|DB[TM]00|DCM00|[CD]NM00|DVM00|DY[TM][12]0|DNT00|EA[TM]00|CRT01|EDM00)|PFDM00|PEG[MT]10|PEM[MT][02]0|PDCT00|PDET10|PDS[TM]00|PEC[MT]30|PE[QYPEXNLU]M00|PCHT[13]0|PCRT00|PFGM00|PF[VU]M10|A102OP|PFCM00|PFJM10|PGCM10|PECM20|PDAT10|A103OP|PCCT00|PFTM[12]0|PFFM20|OW19W[123]|OW20W1|PGJM10|PGAM10|PF[EF]M10|Reno ?(?:[4567]|Ace|1[012])|Find X[23]|Find N| R7sf| 1201|[56].*; (?:R7[gf])|OPD(?:210[12]A?|220[12]|230[123]|240[19])|PFZM10|PGIM10|A1603|A201OP|PESM10|PGBM10|PH[WQJMU]110|PH[AY]120|PGGM10|PG[WX]110|PGU110|PCCM40|PGT110|PGEM10|RX17Neo|R15 Dream Mirror|R9 Plustm A|PGFM10|A301OP|P(?:J[CGJSU]|H[FVSTNYZ])110|K9 Pro 5G| K9[xs]|CPH1821EX|PJ[HYBVRW]110|CHP(?:1723|2219|2365)|PKD130|RX17Pro|F7 Youth|A302OP|PJT110|PK[ABCDVJHPLKSTMZQUW]110|PL[ABEDJNM]110|PKC130|PJU110_A1|PHJ110_A1|PKH120|PERM10_K10)(?:[);/ ]|$)",
  pat! "(?i)PCH[TM]10(?:[);/ ]|$)",
  pat! "(?i)PHQ110(?:[);/ ]|$)",
  pat! "(?i)PJU110|PJS110|PHJ110_A1",
  pat! "(?i)CPH2681|PKD130",
  pat! "(?i)PKA110|CPH2693",
  pat! "(?i)PJY110|CPH2665|CPH2639",
  pat! "(?i)PKP110|CPH2695",
  pat! "(?i)PCHT30(?:[);/ ]|$)",
  pat! "(?i)(?:CPH2083|CPH2077)(?:[);/ ]|$)",
  pat! "(?i)(?:CPH2179)(?:[);/ ]|$)",
  pat! "(?i)(?:CPH2271)(?:[);/ ]|$)",
  pat! "(?i)CPH2349|CPH2351",
  pat! "(?i)CPH22(?:69|75)(?:[);/ ]|$)",
  pat! "(?i)(?:OPPO[ _]?)?(CPH1837|CPH2669|PAD[TM]00)(?:[);/ ]|$)",
  pat! "(?i)(?:OPPO[ _]?)?A37f(w)(?:[);/ ]|$)",
  pat! "(?i)A37f(?:[);/ ]|$)",
  pat! "(?i)CPH2579(?:[);/ ]|$)",
  pat! "(?i)(?:OPPO[ _]?)?CPH1605(?:[);/ ]|$)",
  pat! "(?i)PESM10(?:[);/ ]|$)",
  pat! "(?i)CPH20(?:81|73|31|15)(?:[);/ ]|$)",
  pat! "(?i)CPH2137(?:[);/ ]|$)",
  pat! "(?i)(?:OPPO[ _]?)?(?:CPH18(?:0[35]|53)|PBBM30)(?:[);/ ]|$)",
  pat! "(?i)(?:OPPO[ _]?)?(?:CPH1809|PBA[TM]00|PBBT30)(?:[);/ ]|$)",
  pat! "(?i)CPH19(?:3[13]|43)(?:[);/ ]|$)",
  pat! "(?i)(?:PEC[MT]30|PECM20)(?:[);/ ]|$)",
  pat! "(?i)PDVM00(?:[);/ ]|$)",
  pat! "(?i)PEFM00(?:[);/ ]|$)",
  pat! "(?i)(?:PDA[TM]10|CPH2069|CPH2061)(?:[);/ ]|$)",
  pat! "(?i)CPH(?:2127|213[19])(?:[);/ ]|$)",
  pat! "(?i)CPH2135(?:[);/ ]|$)",
  pat! "(?i)CPH2321(?:[);/ ]|$)",
  pat! "(?i)(?:CPH2195|OPG02|CPH2303)(?:[);/ ]|$)",
  pat! "(?i)(?:CPH2239|CPH2241)(?:[);/ ]|$)",
  pat! "(?i)CPH2273(?:[);/ ]|$)",
  pat! "(?i)PEM[MT][02]0(?:[);/ ]|$)",
  pat! "(?i)CPH2631|CPH3669",
  pat! "(?i)(?:A102OP|CPH2309)(?:[);/ ]|$)",
  pat! "(?i)(?:OPPO[ _]?)?(?:CPH170[15]|CPH2407)(?:[);/ ]|$)",
  pat! "(?i)PFTM20|CPH2387",
  pat! "(?i)CPH19(?:09|1[02])(?:[);/ ]|$)",
  pat! "(?i)(?:OPPO[ _]?)?(?:CPH190[15]|PBF[TM]00)(?:[);/ ]|$)",
  pat! "(?i)(?:OPPO[ _]?)?CPH1717(?:[);/ ]|$)",
  pat! "(?i)(?:OPPO[ _]?)?CPH1801(?:[);/ ]|$)",
  pat! "(?i)(?:OPPO[ _]?)?(?:PDY[TM]20|CPH2067)(?:[);/ ]|$)",
  pat! "(?i)CPH(?:2161|2099)(?:[);/ ]|$)",
  pat! "(?i)(?:CHP|CPH)2219(?:[);/ ]|$)",
  pat! "(?i)CPH2263(?:[);/ ]|$)",
  pat! "(?i)(?:OPPO[ _]?)?(?:PDY[TM]10)(?:[);/ ]|$)",
  pat! "(?i)(?:OPPO[ _]?)?(?:CPH1715)(?:[);/ ]|$)",
  pat! "(?i)(?:OPPO[ _]?)?(?:CPH2339|CPH2385)",
  pat! "(?i)(?:OPPO[ _]?)?(?:CPH2495|CPH2483)",
  pat! "(?i)(?:OPPO[ _]?)?CPH2565",
  pat! "(?i)(?:OPPO[ _]?)?A79kt",
  pat! "(?i)(?:OPPO[ _]?)?(?:CPH255[37]|A303OP)",
  pat! "(?i)(?:OPPO[ _]?)?CPH2473"]

/-- `__dr_re`, from item 6500 on (device_repo.go:24836-25085). -/
def drRe_26 : List (List Chunk) := [
  pat! "(?i)PCD[TM]00(?:[);/ ]|$)",
  pat! "(?i)(PBBT00|PBBM00)(?:[);/ ]|$)",
  pat! "(?i)(?:OPPO[ _]?)?(?:PDBM00)(?:[);/ ]|$)",
  pat! "(?i)(?:OPPO[ _]?)?CPH1729(?:[);/ ]|$)",
  pat! "(?i)(?:OPPO[ _]?)?CPH1827(?:[);/ ]|$)",
  pat! "(?i)(?:OPPO[ _]?)?(?:PCA[TM]10|CPH193[89])(?:[);/ ]|$)",
  pat! "(?i)(CPH1937|CPH1941|PCHM30)(?:[);/ ]|$)",
  pat! "(?i)(?:PCPM00|CPH20[02]1)(?:[);/ ]|$)",
  pat! "(?i)CPH2059(?:[);/ ]|$)",
  pat! "(?i)PDK[TM]00(?:[);/ ]|$)",
  pat! "(?i)(?:PEH[MT]00|CPH212[13])(?:[);/ ]|$)",
  pat! "(?i)(?:PFGM00)(?:[);/ ]|$)",
  pat! "(?i)CPH2203(?:[);/ ]|$)",
  pat! "(?i)CPH2333(?:[);/ ]|$)",
  pat! "(?i)(?:CPH2197)(?:[);/ ]|$)",
  pat! "(?i)CHP2365|CPH2365",
  pat! "(?i)PCE[TM]00(?:[);/ ]|$)",
  pat! "(?i)(?:OPPO[ _]?)?CPH1851(?:[);/ ]|$)",
  pat! "(?i)CPH1920(?:[);/ ]|$)",
  pat! "(?i)(?:OPPO[ _]?)?CPH1903(?:[);/ ]|$)",
  pat! "(?i)CPH2455|CPH2461",
  pat! "(?i)(?:OPPO[ _]?)?X9009(?:[);/ ]|$)",
  pat! "(?i)CPH191[135](?:[);/ ]|$)",
  pat! "(?i)CPH19(?:69|87)(?:[);/ ]|$)",
  pat! "(?i)(?:OPPO[ _]?)?CPH2095",
  pat! "(?i)(?:OPPO[ _]?)?(?:CPH2119)(?:[);/ ]|$)",
  pat! "(?i)(?:OPPO[ _]?)?A1601(?:[);/ ]|$)",
  pat! "(?i)(?:OPPO[ _]?)?CPH1609(?:[);/ ]|$)",
  pat! "(?i)(?:OPPO[ _]?)?CPH1613(?:[);/ ]|$)",
  pat! "(?i)(?:OPPO[ _]?)?(?:CPH172[37]|CHP1723)(?:[);/ ]|$)",
  pat! "(?i)(?:OPPO[ _]?)?CPH1725(?:[);/ ]|$)",
  pat! "(?i)(?:OPPO[ _]?)?CPH18(?:[15]9|21|21EX)(?:[);/ ]|$)",
  pat! "(?i)(?:OPPO[ _]?)?(?:CPH1825|CPH1881)(?:[);/ ]|$)",
  pat! "(?i)(?:OPPO[ _]?)?CPH1823(?:[);/ ]|$)",
  pat! "(?i)(?:OPPO[ _]?)?CPH2223(?:[);/ ]|$)",
  pat! "(?i)(?:OPPO[ _]?)?(?:CPH2285|F19 Pro)(?:[);/ ]|$)",
  pat! "(?i)(?:OPPO[ _]?)?CPH2213(?:[);/ ]|$)",
  pat! "(?i)(?:OPPO[ _]?)?X909T?(?:[);/ ]|$)",
  pat! "(?i)(?:OPPO[ _]?)?R827T?(?:[);/ ]|$)",
  pat! "(?i)(?:OPPO[ _]?)?X907[067](?:[);/ ]|$)",
  pat! "(?i)(?:OPPO[ _]?)?X900[067](?:[);/ ]|$)",
  pat! "(?i)(?:OPPO[ _]?)?PEUM00",
  pat! "(?i)(?:OPPO[ _]?)?Find N(?:[);/ ]|$)",
  pat! "(?i)(?:OPPO[ _]?)?(?:PGU110|CPH2439)(?:[);/ ]|$)",
  pat! "(?i)(?:OPPO[ _]?)?(?:CPH2437|PGT110)(?:[);/ ]|$)",
  pat! "(?i)(?:OPPO[ _]?)?(?:CPH2519|PHT110)(?:[);/ ]|$)",
  pat! "(?i)(?:OPPO[ _]?)?(?:PHN110|CPH2499)",
  pat! "(?i)(?:OPPO[ _]?)?(?:PKH1[12]0|CPH2671)",
  pat! "(?i)(?:OPPO[ _]?)?R815[TW]?(?:[);/ ]|$)",
  pat! "(?i)(?:OPPO[ _]?)?R8015(?:[);/ ]|$)",
  pat! "(?i)(?:OPPO[ _]?)?R8111(?:[);/ ]|$)",
  pat! "(?i)(?:OPPO[ _]?)?R821T?(?:[);/ ]|$)",
  pat! "(?i)(?:OPPO[ _]?)?U707T?(?:[);/ ]|$)",
  pat! "(?i)(?:OPPO[ _]?)?U705T(?:[);/ ]|$)",
  pat! "(?i)(?:OPPO[ _]?)?(?:CPH187[15]|PAF[MT]00)(?:[);/ ]|$)",
  pat! "(?i)(?:OPPO[ _]?)?(?:PAHM00)(?:[);/ ]|$)",
  pat! "(?i)(?:OPPO[ _]?)?(?:PDE[TM]10|CPH2023)(?:[);/ ]|$)",
  pat! "(?i)(?:OPPO[ _]?)?(?:CPH2005|Find X2 Lite)(?:[);/ ]|$)",
  pat! "(?i)(?:OPPO[ _]?)?(?:PDEM30|OPG01|CPH2025|Find X2 Pro)(?:[);/ ]|$)",
  pat! "(?i)PEDM00(?:[);/ ]|$)",
  pat! "(?i)Find X3 Neo(?:[);/ ]|$)",
  pat! "(?i)(?:PEEM00|CPH2173|OPG03|Find X3 Pro)(?:[);/ ]|$)",
  pat! "(?i)Find X3 Lite(?:[);/ ]|$)",
  pat! "(?i)CPH2307|PFFM10",
  pat! "(?i)CPH2305|PFEM10|PFFM20",
  pat! "(?i)PKC1[13]0|CPH2659",
  pat! "(?i)PK[JU]110",
  pat! "(?i)CPH2651|PKB110",
  pat! "(?i)(?:OPPO[ _]?)?R1011 Build",
  pat! "(?i)(?:OPPO[ _]?)?(PBC(?:M30|T10))(?:[);/ ]|$)",
  pat! "(?i)A1603(?:[);/ ]|$)",
  pat! "(?i)CPH1955(?:[);/ ]|$)",
  pat! "(?i)(?:OPPO[ _]?)?(PCNM00)(?:[);/ ]|$)",
  pat! "(?i)(?:OPPO[ _]?)?(PCLM50)(?:[);/ ]|$)",
  pat! "(?i)(?:OPPO[ _]?)?(PERM00)(?:[);/ ]|$)",
  pat! "(?i)(?:OPPO[ _]?)?PGCM10| K9x(?:[);/ ]|$)",
  pat! "(?i)(?:OPPO[ _]?)?PGGM10",
  pat! "(?i)(?:OPPO[ _]?)?CPH2373",
  pat! "(?i)(?:OPPO[ _]?)?(?:PGJM10|CPH2337|PERM10_K10)",
  pat! "(?i)(?:OPPO[ _]?)?PERM10| K9s(?:[);/ ]|$)",
  pat! "(?i)(?:OPPO[ _]?)?PGIM10",
  pat! "(?i)(?:OPPO[ _]?)?PJC110",
  pat! "(?i)(?:OPPO[ _]?)?PLD110",
  pat! "(?i)(?:OPPO[ _]?)?PHS110",
  pat! "(?i)(?:OPPO[ _]?)?PJG110",
  pat! "(?i)(?:OPPO[ _]?)?PHF110",
  pat! "(?i)(?:OPPO[ _]?)?PJR110",
  pat! "(?i)(?:OPPO[ _]?)?PKS110",
  pat! "(?i)CPH2667|PJT110",
  pat! "(?i)(?:OPPO[ _]?)?N5117(?:[);/ ]|$)",
  pat! "(?i)(?:OPPO[ _]?)?N520[79](?:[);/ ]|$)",
  pat! "(?i)(?:OPPO[ _]?)?R831T?(?:[);/ ]|$)",
  pat! "(?i)(?:OPPO[ _]?)?R831K(?:[);/ ]|$)",
  pat! "(?i)(?:OPPO[ _]?)?(?:R831[SL]|1201)(?:[);/ ]|$)",
  pat! "(?i)(?:OPPO[ _]?)?A33[wf](?:[);/ ]|$)",
  pat! "(?i)(?:OPPO[ _]?)?A33fw(?:[);/ ]|$)",
  pat! "(?i)(?:OPPO[ _]?)?R8113(?:[);/ ]|$)",
  pat! "(?i)(?:OPPO[ _]?)?CPH1707(?:[);/ ]|$)",
  pat! "(?i)(?:OPPO[ _]?)?R11 Plusk?t?(?:[);/ ]|$)",
  pat! "(?i)R8001(?:[);/ ]|$)",
  pat! "(?i)R820[16](?:[);/ ]|$)",
  pat! "(?i)(?:OPPO[ _]?)?(?:CPH1721|R11s Plust?)(?:[);/ ]|$)",
  pat! "(?i)(?:OPPO[ _]?)?(?:CPH1719|R11st?)(?:[);/ ]|$)",
  pat! "(?i)(?:OPPO[ _]?)?(?:CPH1835|PAC[TM]00|PAAM00)(?:[);/ ]|$)",
  pat! "(?i)(?:OPPO[ _]?)?(?:CPH183[13]|PAAT00)(?:[);/ ]|$)",
  pat! "(?i)PBCM10(?:[);/ ]|$)",
  pat! "(?i)(?:OPPO[ _]?)?(?:CPH1879|PBE[MT]00)(?:[);/ ]|$)",
  pat! "(?i)(?:OPPO[ _]?)?(?:CPH1893)(?:[);/ ]|$)",
  pat! "(?i)(?:OPPO[ _]?)?(?:CPH1877|PBD[MT]00|RX17Pro)(?:[);/ ]|$)",
  pat! "(?i)(?:OPPO[ _]?)?R8006(?:[);/ ]|$)",
  pat! "(?i)(?:OPPO[ _]?)?R800[07](?:[);/ ]|$)",
  pat! "(?i)(?:OPPO[ _]?)?R810[679](?:[);/ ]|$)",
  pat! "(?i)(?:OPPO[ _]?)?R7kf(?:[);/ ]|$)",
  pat! "(?i)(?:OPPO[ _]?)?R7sPlus(?:[);/ ]|$)",
  pat! "(?i)(?:OPPO[ _]?)?R7sf(?:[);/ ]|$)",
  pat! "(?i)(?:OPPO[ _]?)?R7[gf](?:[);/ ]|$)",
  pat! "(?i)(?:OPPO[ _]?)?R7Plus[mt]?(?:[);/ ]|$)",
  pat! "(?i)(?:OPPO[ _]?)?R7Plusf(?:[);/ ]|$)",
  pat! "(?i)(?:OPPO[ _]?)?(?:X9079|R9 Plustm A)(?:[);/ ]|$)",
  pat! "(?i)(?:OPPO[ _]?)?(?:CPH1607|R9sk)(?:[);/ ]|$)",
  pat! "(?i)(?:OPPO[ _]?)?(?:CPH1611|R9s Plus)(?:[);/ ]|$)",
  pat! "(?i)(?:CPH1917|PCA[MT]00)(?:[);/ ]|$)",
  pat! "(?i)CPH1983(?:[);/ ]|$)",
  pat! "(?i)(?:CPH1919|PCCM00)(?:[);/ ]|$)",
  pat! "(?i)(?:CPH2525|PHV110|A302OP|Reno10 Pro)(?:[);/ ]|$)",
  pat! "(?i)CPH2521|PHU110",
  pat! "(?i)PJJ110|CPH2607|Reno 11 Pro",
  pat! "(?i)CPH2599|PJH110",
  pat! "(?i)PJ[VW]110",
  pat! "(?i)CPH2629|Reno12 Pro",
  pat! "(?i)(?:PCKM00|CPH1907)(?:[);/ ]|$)",
  pat! "(?i)CPH1989(?:[);/ ]|$)",
  pat! "(?i)(?:PCKM80|CPH1945|CPH1951)(?:[);/ ]|$)",
  pat! "(?i)(?:CPH2043|PDCT00)(?:[);/ ]|$)",
  pat! "(?i)(?:CPH2013|A002OP)(?:[);/ ]|$)",
  pat! "(?i)(?:PDCM00|A001OP|CPH2048)(?:[);/ ]|$)",
  pat! "(?i)(?:PCR[MT]00|CPH203[567]|CPH2009)",
  pat! "(?i)PCRT01(?:[);/ ]|$)",
  pat! "(?i)CPH2113(?:[);/ ]|$)",
  pat! "(?i)CPH2125(?:[);/ ]|$)",
  pat! "(?i)(?:CPH2109|Reno 4 Pro)(?:[);/ ]|$)",
  pat! "(?i)(?:PDP[TM]00|CPH2091)(?:[);/ ]|$)",
  pat! "(?i)(?:PEA[TM]00|Reno4 SE 5G)(?:[);/ ]|$)",
  pat! "(?i)(?:PDN[TM]00|CPH2089)(?:[);/ ]|$)",
  pat! "(?i)CPH2065|Reno4 Z 5G",
  pat! "(?i)CPH2209(?:[);/ ]|$)",
  pat! "(?i)(?:CPH2199|A10[13]OP)|Reno5 A 5G(?: Build|[;)])",
  pat! "(?i)CPH2205|Reno5 Lite(?: Build|[;)])",
  pat! "(?i)(?:PEG[MT]00|CPH2145|Reno5 5G)(?:[);/ ]|$)",
  pat! "(?i)PEG[MT]10(?:[);/ ]|$)",
  pat! "(?i)CPH2217(?:[);/ ]|$)",
  pat! "(?i)(?:CPH2211|Reno5 Z 5G)(?:[);/ ]|$)",
  pat! "(?i)(?:PDS[TM]00|CPH220[17]|Reno5 Pro 5G)(?:[);/ ]|$)",
  pat! "(?i)PDR[TM]00(?:[);/ ]|$)",
  pat! "(?i)(?:CPH1921|PCCM40)(?:[);/ ]|$)",
  pat! "(?i)CPH2159|(?:Reno5 4G|Reno 5)(?: Build|[;)])",
  pat! "(?i)CPH2237|Reno6 Z 5G(?: Build|[;)])",
  pat! "(?i)PEPM00(?:[);/ ]|$)",
  pat! "(?i)CPH224[79]|Reno6 Pro 5G(?: Build|[;)])",
  pat! "(?i)PENM00(?:[);/ ]|$)",
  pat! "(?i)(?:CPH2235|PEQM00|CPH2251|Reno6 5G|Reno 6)(?:[);/ ]|$)",
  pat! "(?i)PFJM10|CPH2371|CPH2363|Reno7(?: Build|[;)])",
  pat! "(?i)CPH2353|OPG04|A201OP",
  pat! "(?i)PFCM00|Reno7 SE(?: Build|[;)])",
  pat! "(?i)(?:PFDM00|CPH2293|Reno7 Pro)(?:[);/ ]|$)",
  pat! "(?i)CPH2357|PGAM10",
  pat! "(?i)PGBM10|CPH2359",
  pat! "(?i)CPH2481|CPH2505",
  pat! "(?i)CPH252[34]|A301OP",
  pat! "(?i)(?:PEYM00|K9 Pro 5G)(?:[);/ ]|$)",
  pat! "(?i)(?:PEXM00)(?:[);/ ]|$)",
  pat! "(?i)PCLM10(?:[);/ ]|$)",
  pat! "(?i)PDHM00(?:[);/ ]|$)",
  pat! "(?i)PCGM00(?:[);/ ]|$)",
  pat! "(?i)(?:OPPO[ _]?)?(?:CPH1979|PCD[TM]10)(?:[);/ ]|$)",
  pat! "(?i)A59st(?:[);/ ]|$)",
  pat! "(?i)OPPO ?(CNM632)",
  pat! "(?i)OPD2102A?",
  pat! "(?i)OPD230[23]",
  pat! "(?i)OPD220[12]",
  pat! "(?i)OW19W[13]",
  pat! "(?i)N1T?(?:[);/ ]|$)",
  pat! "(?i)R([0-9]{3,4}[KSTW]?)(?:[);/ ]|$)",
  pat! "(?i)(CPH[0-9]{4})",
  pat! "(?i)(?:OB-)?OPPO[ _]?([a-z0-9]+)",
  pat! "(?i)(?:Spider 8|S60Pro|MARINE [12]|MODERN 8|PILOT [123]|FLAT [12]C?|Tiger 1[023]|android 13(?:[\\d.]*);(?: [\\w-]+;)? (?:Pad 1[158]|Pad 8)|android 12(?:[\\d.]*);(?: [\\w-]+;)? (?:C[678]0|C30 Pro|Pad (?:[167]0|13))|Pad [78]0 WiFi|Pad 100)(?:[);/ ]|$)",
  pat! "(?i)MARINE ([12])",
  pat! "(?i)PILOT ([123])",
  pat! "(?i)FLAT ([12])C",
  pat! "(?i)FLAT (2)",
  pat! "(?i)Tiger (1[023])",
  pat! "(?i)(C[678]0)(?:[);/ ]|$)",
  pat! "(?i)Pad ([78]0) WiFi",
  pat! "(?i)Pad (100|[167]0|1[1358]|8)",
  pat! "(?i)MDTV|LPX-G BOX",
  pat! "(?i)OTTO (CR05)(?:[);/ ]|$)",
  pat! "(?i)OUJIA(?:2018)?[-_ ]S20",
  pat! "(?i)OUJIA[ _](S10|S8|S11|T50|S2[79]|2019)(?:[);/ ]|$)",
  pat! "(?i)Ox-([^;/)]+)(?: Build|[;)])",
  pat! "(?i)Ox-p010-2(?:[);/ ]|$)",
  pat! "(?i)OYSIN[ _]([^/;)]+)(?: Build|[);])",
  pat! "(?i)(?:Apex(?:[123])|CC1 PRO)(?:[);/ ]|$)",
  pat! "(?i)(CC1) PRO",
  pat! "(?i)Apex([123])",
  pat! "(?i)(?:Tab_A6|A1[35]_EEA)(?:[);/ ]|$)",
  pat! "(?i)Tab_(A6)",
  pat! "(?i)(A1[35])_EEA",
  pat! "(?i)(?:OBA_?(?:SMART_3|Conecta_Max|Conecta_4G))(?:[);/ ]|$)",
  pat! "(?i)OBA_(Conecta_(?:Max|4G))",
  pat! "(?i)OBER[_ ](Primo E8)(?:[);/ ]|$)",
  pat! "(?i)Obi[ _-]|(?:(?:SJ1\\.5|SJ2\\.6|S(400|452\\+|45[13]|50[127]|503\\+?|520|55[01])|falcon)|SJ1-5|SJ[23]\\.2| SF1)(?:[);/ ]|$)",
  pat! "(?i)SJ(\\d)[.-](\\d)",
  pat! "(?i)(?:Obi_)?S400",
  pat! "(?i)(?:Obi_)?S451|falcon",
  pat! "(?i)(?:Obi_)?S452\\+",
  pat! "(?i)(?:Obi_)?S453",
  pat! "(?i)(?:Obi[_ ])?(SF1)(?:[);/ ]|$)",
  pat! "(?i)(?:Obi_)?S501",
  pat! "(?i)(?:Obi_)?S502",
  pat! "(?i)(?:Obi_)?S503\\+",
  pat! "(?i)(?:Obi_)?S503",
  pat! "(?i)(?:Obi_)?S507",
  pat! "(?i)(?:Obi_)?S520",
  pat! "(?i)(?:Obi_)?S550",
  pat! "(?i)(?:Obi_)?S551",
  pat! "(?i)(?:Obi_)?S454",
  pat! "(?i)Obi[ _-]([^;/]+) Build",
  pat! "(?i)Obi[ _-]([^;/)]+)(?:[;/)]|$)",
  pat! "(?i)(?:FIRE_V[78]|POMELO-MAX\\+)(?:[);/ ]|$)",
  pat! "(?i)FIRE_V([78])",
  pat! "(?i)POMELO-MAX\\+",
  pat! "(?i)ODYS[ _-]|IEOS[_ ]([^/;]+)|NOON(?:_PRO)? Build|SPACE10_(?:PLUS|PRO)_3G|THOR_?10|TAO_X10|RAPID_?(?:10|7)_?LTE|MAVEN_?10_|CONNECT[78]|ELEMENT10_PLUS_3G|XELIO[_0-9P]|PACE_10_LTE|(?:ADM816HC|ADM8000KP|NEO6_LTE|EOS10|AEON|FALCON_10_PLUS_3G|SPACE_ONE_?10(?:SE)?|FUSION|THANOS_10|MAVEN_X10_HD(?:_LTE)?|JUNIOR_8_PRO|JuniorT8Pro|(?:NOVA|PYRO)_X?7_PLUS_3G|UNO_X8|MAVEN_[GT]10(?:_pro)?|MAVEN_7_PLUS|SLADE_X55|XELIO_PRO_10_LTE|GOAL_10_PLUS_3G|NOTOSplus3G|PACE ?10|Titan_10_LTE|PEDI_PLUS_W|NoteTab_Pro|UNO_X10|NERON)(?:[);/ ]|$)",
  pat! "(?i)XELIO[_ ]HD10[_ ]LTE",
  pat! "(?i)XELIO[_ ](HD10|A10)",
  pat! "(?i)MAVEN_?10_PRO_PLUS_3G",
  pat! "(?i)MAVEN_?10_?PLUS",
  pat! "(?i)MAVEN_?10_?PRO",
  pat! "(?i)MAVEN_?10_?HD",
  pat! "(?i)RAPID_?7_?LTE",
  pat! "(?i)RAPID_?10_?LTE",
  pat! "(?i)THOR_?10 Build",
  pat! "(?i)PACE ?10",
  pat! "(?i)UNO[_ ]X(8|10)",
  pat! "(?i)THOR_?10_PLUS_3G",
  pat! "(?i)IEOS[_ ]QUAD[_ ]W",
  pat! "(?i)IEOS[_ ]NEXT[_ ]10",
  pat! "(?i)IEOS[_ ]QUAD[_ ]PRO",
  pat! "(?i)NEO6[_ ]LTE",
  pat! "(?i)IEOS[ _]([^/;]+) Build",
  pat! "(?i)(?:ODYS[ _-])?NOON Build"]

/-- `__dr_re`, from item 6750 on (device_repo.go:25086-25335). -/
def drRe_27 : List (List Chunk) := [
  pat! "(?i)(?:ODYS[ _-])?NOON_PRO",
  pat! "(?i)Odys[ _-]([^/;]+) Build",
  pat! "(?i)Okapi",
  pat! "(?i)Okapi10(?:[);/ ]|$)",
  pat! "(?i)Okapia|Signature (?:L|Pro|Touch)|(?:MAGIC\\+)(?:[);/ ]|$)",
  pat! "(?i)Signature (L|Pro|Touch)",
  pat! "(?i)Okapia X1(?:[);/ ]|$)",
  pat! "(?i)Okapia[_ ]Mirage(?:[);/ ]|$)",
  pat! "(?i)MAGIC\\+(?:[);/ ]|$)",
  pat! "(?i)Okapia[_ ]?Magic(?:[);/ ]|$)",
  pat! "(?i)OK-(?:LS[12]|smart11|LX[56])(?:[);/ ]|$)",
  pat! "(?i)OK-(LS[12]|LX[56])",
  pat! "(?i)Olax |Ocean K(?:10|8)(?:[);/ ]|$)",
  pat! "(?i)Ocean (K8) Pro",
  pat! "(?i)Ocean (K10|K8)(?:[);/ ]|$)",
  pat! "(?i)Olax Prime 12(?:[);/ ]|$)",
  pat! "(?i)Olkya (Liger 71G)(?:[);/ ]|$)",
  pat! "(?i)Ollee008twoa(?:[);/ ]|$)",
  pat! "(?i)TREK(?:[);/ ]|$)",
  pat! "(?i)TREK(?:[);/ ]|$)",
  pat! "(?i)Onda|(?:(?:V820w|V891[w]?|V919(?: 3G)? Air)[ _-]DualOS|(?:V919 4G Air|V989 Air|V972) Core[48]|T2101L2B1C| V10 4G|OBOOK20[_ ]PLUS|OBOOK (?:20 SE|20 DualOS|20 PLUS(?: DUALOS)?)|OBOOK10 SE|V10_4G|V919 Air CH DualOS| T9S|V116w-DualOS|V80[ _]SE)(?:[);/ ]|$)",
  pat! "(?i)(?: T9S)(?:[);/ ]|$)",
  pat! "(?i)ONDA[ _]MID",
  pat! "(?i)V820w[ _-]DualOS",
  pat! "(?i)V891W[ _-]DualOS",
  pat! "(?i)V891[ _-]DualOS",
  pat! "(?i)V919 3G Air[ _-]DualOS",
  pat! "(?i)V919 Air[ _-]DualOS",
  pat! "(?i)T2101L2B1C|OBOOK 20 PLUS DUALOS",
  pat! "(?i)OBOOK[_ ]?20[_ ]PLUS",
  pat! "(?i)V10 4G(?:[);/ ]|$)",
  pat! "(?i)V80[ _]SE(?:[);/ ]|$)",
  pat! "(?i)OBOOK 20 DualOS(?:[);/ ]|$)",
  pat! "(?i)OBOOK 20 SE(?:[);/ ]|$)",
  pat! "(?i)OBOOK10 SE(?:[);/ ]|$)",
  pat! "(?i)V10_4G(?:[);/ ]|$)",
  pat! "(?i)([a-z0-9]+)[ _]Onda",
  pat! "(?i)Onda ([a-z0-9]+)",
  pat! "(?i)X-music II pro|X-music (?:S|\xe2\x85\xa2|III)",
  pat! "(?i)X-music (?:\xe2\x85\xa2|III)",
  pat! "(?i)X-music (S)",
  pat! "(?i)OneLern(DB\\d{3})(?:[);/ ]|$)",
  pat! "(?i)(?:du_)?ONEPLUS|(?:PGKM10|CPH25(?:1[35]|51|69|73|8[135])|CPH24(?:0[19]|1[1579]|[12]3|6[579]|87|9[31]|4[79]|5[91])|CPH271[79]|CPH2709|CPH2399|CPH238[19]|A0001|A200[135]|AC200[13]|A300[03]|A3010|A5000|A60[01][03]|BE201[1235]|BE202[5689]|E100[135]|GM191[03517]|GM190[0135]|GM192[05]|HD191[0137]|HD190[01357]|HD1925|IN201[013579]|IN202[0135]|KB200[01357]|LE211[01357]|LE212[035]|GN2200|Nord N10 5G|LE210[01]|LE212[17]|DE211[78]|DN210[13]|EB210[13]|MT211[01]|IV2201|NE221[01357]|PG[PZ]110|PH[BKP]110|OPD(?:2203|2403|2304|240[45]|2415|248[01])|PK[GRX]110|PJ[ADEFXZ]110|CPH26(?:0[59]|1[139]|21|4[579]|5[35]|6[13]|91)|OPWWE231|PLF110|PLC110)(?: Build|[;)])",
  pat! "(?i)PJZ110|CPH265[35]|CPH2649",
  pat! "(?i)CPH2691|CPH264[57]",
  pat! "(?i)(?:CPH2585|CPH2611|CPH2609)(?:[);/ ]|$)",
  pat! "(?i)(?:PJD110|CPH258[13]|CPH2573)(?:[);/ ]|$)",
  pat! "(?i)(?:CPH244[79]|PHB110|CPH2451)(?:[);/ ]|$)",
  pat! "(?i)PHK110(?:[);/ ]|$)",
  pat! "(?i)PJA110(?:[);/ ]|$)",
  pat! "(?i)PGKM10(?:[);/ ]|$)",
  pat! "(?i)PHP110(?:[);/ ]|$)",
  pat! "(?i)PGP110(?:[);/ ]|$)",
  pat! "(?i)PGZ110(?:[);/ ]|$)",
  pat! "(?i)AC200[13](?:[);/ ]|$)",
  pat! "(?i)(?:CPH2399|CPH2401)(?:[);/ ]|$)",
  pat! "(?i)EB210[13](?:[);/ ]|$)",
  pat! "(?i)CPH271[79]",
  pat! "(?i)CPH266[13]",
  pat! "(?i)CPH26(?:19|21)",
  pat! "(?i)CPH(?:2381|2409)(?:[);/ ]|$)",
  pat! "(?i)CPH246[57](?:[);/ ]|$)",
  pat! "(?i)CPH2569(?:[);/ ]|$)",
  pat! "(?i)CPH249[13]",
  pat! "(?i)BE2012(?:[);/ ]|$)",
  pat! "(?i)BE201[135](?:[);/ ]|$)",
  pat! "(?i)DE211[78](?:[);/ ]|$)",
  pat! "(?i)(?:GN2200|CPH2459)(?:[);/ ]|$)",
  pat! "(?i)(?:CPH251[35])(?:[);/ ]|$)",
  pat! "(?i)(?:CPH2605)(?:[);/ ]|$)",
  pat! "(?i)CPH2469(?:[);/ ]|$)",
  pat! "(?i)BE2025(?:[);/ ]|$)",
  pat! "(?i)(BE202[69]|Nord N10 5G)(?:[);/ ]|$)",
  pat! "(?i)BE2028(?:[);/ ]|$)",
  pat! "(?i)DN210[13](?:[);/ ]|$)",
  pat! "(?i)IV2201(?:[);/ ]|$)",
  pat! "(?i)IN202[0135](?:[);/ ]|$)",
  pat! "(?i)KB2000(?:[);/ ]|$)",
  pat! "(?i)OnePlus 8 Lite(?:[);/ ]|$)",
  pat! "(?i)(?:IN201[01357]|OnePlus 8)(?:[);/ ]|$)",
  pat! "(?i)IN2019(?:[);/ ]|$)",
  pat! "(?i)LE211[01357](?:[);/ ]|$)",
  pat! "(?i)MT211[01](?:[);/ ]|$)",
  pat! "(?i)LE210[01](?:[);/ ]|$)",
  pat! "(?i)CPH2423(?:[);/ ]|$)",
  pat! "(?i)CPH2411(?:[);/ ]|$)",
  pat! "(?i)CPH241[3579](?:[);/ ]|$)",
  pat! "(?i)LE212[01357](?:[);/ ]|$)",
  pat! "(?i)NE2210(?:[);/ ]|$)",
  pat! "(?i)NE221[1357](?:[);/ ]|$)",
  pat! "(?i)(?:GM191[01357]|OnePlus 7 Pro)(?:[);/ ]|$)",
  pat! "(?i)GM190[0135](?:[);/ ]|$)",
  pat! "(?i)HD190[01357](?:[);/ ]|$)",
  pat! "(?i)(?:HD191[0137]|OnePlus 7T Pro)(?:[);/ ]|$)",
  pat! "(?i)(?:HD1925|GM192[05])(?:[);/ ]|$)",
  pat! "(?i)KB200[135](?:[);/ ]|$)",
  pat! "(?i)(?:KB2007|OnePlus ?8TMO)(?:[);/ ]|$)",
  pat! "(?i)A0001(?:[);/ ]|$)",
  pat! "(?i)A200[135]|OnePlus2",
  pat! "(?i)E100[135](?:[);/ ]|$)",
  pat! "(?i)A3010|OnePlus3T",
  pat! "(?i)A300[03]|OnePlus3",
  pat! "(?i)A5010|OnePlus[ ]?5T",
  pat! "(?i)A5000|OnePlus5",
  pat! "(?i)A600[03]|OnePlus6",
  pat! "(?i)A601[03](?:[);/ ]|$)",
  pat! "(?i)OPD248[01]",
  pat! "(?i)(?:du_)?ONEPLUS[ _]?([^;/,)(]+)(?: Build|[;,)])",
  pat! "(?i)ONIDA[_ ](i4G1)|(?:AFTLE|AFTTIFF55)(?:[);/ ]|$)",
  pat! "(?i)ONIDA[_ ](i4G1)",
  pat! "(?i)AFTLE(?:[);/ ]|$)",
  pat! "(?i)AFTTIFF55(?:[);/ ]|$)",
  pat! "(?i)(?:ONIX S405|AT101-1116|ONIX_8_3G_01)(?:[);/ ]|$)",
  pat! "(?i)(AT101-1116)(?:[);/ ]|$)",
  pat! "(?i)ONIX_8_3G_01(?:[);/ ]|$)",
  pat! "(?i)(S405)(?:[);/ ]|$)",
  pat! "(?i)(?:DP-CMX1|TA2C-M8)(?:[);/ ]|$)",
  pat! "(?i)(TA2C-M8)",
  pat! "(?i)(DP-CMX1)",
  pat! "(?i)Sagemcom DIW387_UHD_OOR|(Q7A\\+?)(?:[);/ ]|$)",
  pat! "(?i)Sagemcom DIW387_UHD_OOR(?:[);/ ]|$)",
  pat! "(?i)(Q7A\\+?)(?:[);/ ]|$)",
  pat! "(?i)Opel ?Mobile|(?:OpelMobile_Smart(?:JX|X1)|Easy_Smart_2|Rugged60Q)(?:[);/ ]|$)",
  pat! "(?i)(?:Openbox (?:A[3489](?: (?:Pro|Lite))?|GOLD)|AS1_HD|AS_?4K[_-](?:CI(?:_PRO|_Lite)?(?:_PLUS)?|PLUS|2X)|AS_?4K)(?:[);/ ]|$)",
  pat! "(?i)Openbox (A[3489](?: (?:Pro|Lite))?)(?:[);/ ]|$)",
  pat! "(?i)AS_?4K_CI_PRO",
  pat! "(?i)AS_?4K[_-](2X|CI)",
  pat! "(?i)AS_?4K[_-]PLUS",
  pat! "(?i)AS_?4K",
  pat! "(?i)(?:(?:Sigma|Beeta)_4_0|Active 5\\.0)(?:[);/ ]|$)",
  pat! "(?i)Active 5\\.0",
  pat! "(?i)Opsson|IUSAI",
  pat! "(?i)IUSAI[ _]([^/;]+) Build",
  pat! "(?i)IUSAI[ _]([^/;\\)]+)[/;\\)]",
  pat! "(?i)Opsson[ _]([^/;]+) Build",
  pat! "(?i)(?:Opsson-)?Opsson[ -_]([^/;]+)/",
  pat! "(?i)Optoma[-_ ]",
  pat! "(?i)SPV[ -]?([a-z0-9]+)|Orange[ _-]([^/;]+)( Build|\\))|SC/IHD92|Nura 2|FunTab ([^/;]+) Build|Orange[ _](?:Mahpee|Nevalink|Nevamini)|Dive 50|MouveTab7WIFI|(?:Sanza-)?M56[02]F3(?:[);/ ]|$)",
  pat! "(?i)Orange TV Box(?:[);/ ]|$)",
  pat! "(?i)Orange_Nevalink(?:[);/ ]|$)",
  pat! "(?i)Orange_Nevamini(?:[);/ ]|$)",
  pat! "(?i)(?:Sanza-)?M56[02]F3",
  pat! "(?i)FunTab ([^/;]+) Build",
  pat! "(?i)Orange[ _-](Rise) ?(3[125]|5[12])(?:[);/ ]|$)",
  pat! "(?i)(?:Orange[ _-])?Dive ?(\\d+) Dual(?:[);/ ]|$)",
  pat! "(?i)(?:Orange[ _-])?Dive ?(\\d+)(?:[);/ ]|$)",
  pat! "(?i)Orange[ _-](Daytona|Dublin|Fova|Gova|Hi 4G|Hiro|Kivo|Monte Carlo|Neva 80|Neva play|Nura|Reyo|Rise[_ ](3[034]|40|5[345])|Rono|Roya|San Francisco|Tactile internet 2|Tado|Yomi|Yumo|Zali|Mahpee|Neva leaf|Sanza touch|Viking L508|Zilo)(?:[);/ ]|$)",
  pat! "(?i)SPV[ -]?([a-z0-9]+)",
  pat! "(?i)OrangePi[_ ]?([^;/)]+)( Build|[;)])",
  pat! "(?i)(?:RC(?:2200|501|545|555|60[89])L|R678EL|R8L5T|RC608L2)(?:[);/ ]|$)",
  pat! "(?i)(OT-DVB\\d{2})(?:[);/ ]|$)",
  pat! "(?i)Orbsmart[_ ]",
  pat! "(?i)Orbsmart[_ ]([^/;)]+)(?: Build|[);])",
  pat! "(?i)(LeNumero[12])(?:[);/ ]|$)",
  pat! "(?i)ORION, ([a-z0-9_ -]+), (?:wired|wireless)|CRANE-EVB",
  pat! "(?i)ORION, ([a-z0-9_ -]+), (?:wired|wireless)",
  pat! "(?i)(CRANE-EVB)",
  pat! "(?i)OUKI|OK[AU][0-9]+[a-z]* Build|OKP6 Pro",
  pat! "(?i)OUKI[ _-]?([^;/]+) Build",
  pat! "(?i)([^;/)]+) Build/OUKI",
  pat! "(?i)OUKI[ _-]?([^;/)]+)(?:[;/)]|$)",
  pat! "(?i)(OK[AU][0-9]+[a-z]*) Build",
  pat! "(?i)OU[Kc]ITEL|(?:Android 10(?:[\\d.]*);(?: [\\w-]+;)? (?:C19|C22)|Android 8(?:[\\d.]*);(?: [\\w-]+;)? (?:C11|U23)|Android 9(?:[\\d.]*);(?: [\\w-]+;)? (?:K12)|Android 11(?:[\\d.]*);(?: [\\w-]+;)? (?:C25)|Android 12(?:[\\d.]*);(?: [\\w-]+;)? (?:C3[12])|Android 1[2-4](?:[\\d.]*);(?: [\\w-]+;)? (?:RT[89])|Android 1[23](?:[\\d.]*);(?: [\\w-]+;)? (?:K16|C51|C3[3568])|Android 7(?:[\\d.]*);(?: [\\w-]+;)? (?:U1[78]|U22)|(?:C1[569]|K10000|K[46]000)(?:[ _]Pro)|K4000Pro|C1[18]_Pro|C1[0237] Pro|C2[13] Pro|C12 Plus|[UK]15 Pro|K15_Plus|U16 Max|C11_F|U7 Max|U7 Plus|U11[_ ]Plus|U20_Plus|C21 Plus|OK6000 Plus|WP5000|WP[58] Pro|K[46]000[ _](?:Plus|Lite)|K9 Pro|Y4800|K10000|K7 Power|K[4-8]000| RT[12356]| OT[568]| C 38| OT11| WP(?:[125-79]|1[02356789]|2[0123678]|3[0235689]|5[02356]|60|300)|K[37]_Pro|WP32_Pro|WP100 TITAN|WP2[01]0 Pro|K13_Pro|U25_Pro|OKT[13]|UniverseTap|RT7 TITAN(?: 5G)?)(?:[);/ ]|$)",
  pat! "(?i)WP(21|55) Ultra",
  pat! "(?i)WP(28 [ES]|35 S|53 S)",
  pat! "(?i) C 38(?:[);/ ]|$)",
  pat! "(?i)(C1[0-9]|C2[13]|C31|K10000|K[46]000|WP\\d+|U[12]5|K[379]|K1[35])[ _]?Pro(?:[);/ ]|$)",
  pat! "(?i)K7 Power(?:[);/ ]|$)",
  pat! "(?i)(K10000|U16|U7)[ _]Max(?:[);/ ]|$)",
  pat! "(?i)(U20|K[46]000|U7|U11|OK6000|K15|C12|C21|WP\\d+)[_ ]?Plus(?:[);/ ]|$)",
  pat! "(?i)(K4000)[_ ]Lite(?:[);/ ]|$)",
  pat! "(?i)(K10000)[_ ]Mix(?:[);/ ]|$)",
  pat! "(?i)UniverseTap(?:[);/ ]|$)",
  pat! "(?i)(?:Oukitel-)?(Y4800|K10000|K[4-8]000|WP5000|[CU]2|U1[078]|U2[23]|C1[19]|C[23]2|C3|C3[13568]|C51|WP15 S|C25)(?:[);/ ]|$)",
  pat! "(?i)(?:OUKITEL)? K([37]|1[26])(?:[);/ ]|$)",
  pat! "(?i)(RT[1235689]|OKT[13]|OT5 S|OT[568]|OT11)(?:[);/ ]|$)",
  pat! "(?i)(?:OUKITEL)? (WP\\d+|C11_F)(?:[);/ ]|$)",
  pat! "(?i)OUKITEL; ([^;]+);",
  pat! "(?i)OV-[a-z]+(?:[^;(/]*)[();/ ]|Qualcore 10(?:10|27)|Livecore7032|Vertis 5021 Aim|Vertis 4004 You|OV1027[34]G",
  pat! "(?i)OV-Vertis[ _-]([^;/]+) Build",
  pat! "(?i)OV(\\d+)([34])G",
  pat! "(?i)(?:OV-)?Qualcore[-_ ](\\d+)[-_ ]([34])G",
  pat! "(?i)(OV-[a-z]+(?:[^/();]+))(?: Build|[();])",
  pat! "(?i)(?:OWWO[ _]?(?:[1457]S|Q[78])|CARNIVAL B5)(?:[);/ ]|$)",
  pat! "(?i)OWWO[ _]?([1457]S|Q[78])(?:[);/ ]|$)",
  pat! "(?i)CARNIVAL B5(?:[);/ ]|$)",
  pat! "(?i)Oysters|T84ERI[ _]3G|T72HM(s_)?3G|T102MS_3G|T102ER3G|T72ER3G|(T74HMi|T84Bi)[_ ]4G|T74MR4G|T74RD|T84Ni[_ ][34]G|Pacific(?:[ ]?800i|E)|T104B_[34]G|IndianV|T72HA_3G|T12V? 3G|T74D_3G|T74N_3G|T74SC_3G|T74Mai_3G|T74MRi3G|T104MBi_3G|T104SCi_3G|T104ER4G|Arctic450|Atlantic(?:4G|454|[EV])|AntarcticE|Life4G|T7V 3G|UBS1|Pacific(?:VS?|I?4G|454)",
  pat! "(?i)Pacific[ ]?800i",
  pat! "(?i)(?:Oysters[_ ])?Pacific(VS?|I?4G|454)",
  pat! "(?i)Atlantic(454|[EV]|4G)(?:[);/ ]|$)",
  pat! "(?i)Arctic(450)(?:[);/ ]|$)",
  pat! "(?i)AntarcticE(?:[);/ ]|$)",
  pat! "(?i)Life4G(?:[);/ ]|$)",
  pat! "(?i)UBS1(?:[);/ ]|$)",
  pat! "(?i)Oysters ((?:Arctic|Indian|Atlantic|Pacific)[^/;]+) Build",
  pat! "(?i)(T84ERI[ _]3G|T72HM(s_)?3G|(?:(T74HMi|T84Bi)[_ ]4G)|T84Ni[_ ][34]G)",
  pat! "(?i)(T74MR|T102MS|T104B|T74SC|T74[DN]|T72HA|T102ER|T72ER|T104SCi|T104MBi|T104ER|T7V|T12V?|T74MRi)[ _]?([34]G)",
  pat! "(?i)(T74RD)",
  pat! "(?i)Oysters ([^/;]+)( Build|\\))",
  pat! "(?i)OYYUT11(?:[);/ ]|$)",
  pat! "(?i)Ozone HD|OzoneHD[ _]?(T2 WiFi|Nexo|4K(?: TV)?|Fun|Neo)(?:[);/ ]|$)",
  pat! "(?i)(?:PAGRAER (?:P50 Pro)|PGR3042)(?:[);/ ]|$)",
  pat! "(?i)PAGRAER (P50 Pro)",
  pat! "(?i)PAPYRE[_ ]",
  pat! "(?i)PAPYRE[_ ]pad_7\\.1",
  pat! "(?i)Art-PCB-V116|Bee-PCB-V216|Clap-PCB-I316|PCB-T(?:10[34]|715|750)|Kova[ _-]PCB-\\w+|Kova_Plus_PCB_T735",
  pat! "(?i)PCB-T(715|750)",
  pat! "(?i)Kova[ _-]PCB-T730",
  pat! "(?i)(?:PCD[ _])?(?:PL5507|PL571US|PH3501|PH400[12]|E400|PL620)(?:[);/ ]|$)",
  pat! "(?i)(?:PCD[ _])?(P[HL]\\d{4}|E400|PL620)",
  pat! "(?i)PCD[ ]?50[689]|(?:P63L)(?:[);/ ]|$)",
  pat! "(?i)PCD[ ]?(50[689])",
  pat! "(?i)(P63L)",
  pat! "(?i)PEAQ[ _]|PET \\d{3}|LGE; (?:PQ[a-z0-9-]+);",
  pat! "(?i)PET ([^/;)]+)(?: Build|[;)])",
  pat! "(?i)LGE; (PQ[a-z0-9-]+);",
  pat! "(?i)PINE ([^/;)]+)(?: Build|[);])",
  pat! "(?i)PIRANHA[_ ]|(?:Ultra 4 Tab 9\\.0|Ultra 5 Tab White|Piranha8032)(?:[);/ ]|$)",
  pat! "(?i)Pro II Tab 7\\.0",
  pat! "(?i)Ultra 4 Tab 9\\.0",
  pat! "(?i)PIXPRO[_ ]",
  pat! "(?i)Aura[_ ]TELPAD[_ ]MT7",
  pat! "(?i)Aura[_ ]TELPAD[_ ]MT7",
  pat! "(?i)(?:POCO[ _](?:X[2-7](?:_SN)?|F[267] PRO|M[2-7]|M5s|F[3567]|F4(?: GT)?|C40|C3|C[567]1|C[678]5)|M2010J19(?:C[GI]|GC)|M2007J20C[ITG]|M2012K11AG|M2006C3MI|M2004J19PI|M2102J20S[GI]|M2103K19P[IGY]|21091116AG|21061110AG|M2104K10I|211033MI|220111[67]P[GI]|camellian?|21121210G|2203(?:1116AI|33QPG)|22021211R[GI]|2204121(?:6U?G|9P[GI])|2207(?:1219C[GI]|33SP[IH]|117BPG)|22101320[GI]|22111317P[GI]|23013PC75G|2302EPCC4[HI]|23049PCD8[GI]|2305EPCC4G|22127PC95I|2310FPCA4[GI]|MZB0(?:GGWIN|E6DIN|7Z[0-4]IN)|23076PC4BI|2312(?:FRAFDI|BPC51[HX]|FPCA6G|2PCD1[GI]|8PC33I)|2311(?:3RKC6G|DRK48[GI])|2406(?:9PC21[GI]|6PC95I)|2404APC5FG|2405CPCFBG|2409(?:5PCAD[GI]|FPCC4[GI])|2410(?:FPCC5G|8PCE2I)|MZB9965IN|MZB874[13456]IN|M2004J11G|MZB0A0MIN|2412(?:DPC0A[GI](?:-art)?|2RKC7G)|24117RK2CG|25028PC03[GI]|25053PC47G|25078PC3EG|25062PC34[GE])(?:[);/ ]|$)",
  pat! "(?i)(?:POCO X2|MZB874[13456]IN)(?:[);/ ]|$)",
  pat! "(?i)23113RKC6G|POCO F6 Pro(?:[);/ ]|$)",
  pat! "(?i)24069PC21[GI]|POCO F6(?:[);/ ]|$)",
  pat! "(?i)2311DRK48[GI]|POCO X6 Pro 5G(?: Build|[;)])",
  pat! "(?i)23122PCD1[GI]|POCO X6 5G(?: Build|[;)])",
  pat! "(?i)2312FRAFDI|MZB0GGWIN",
  pat! "(?i)2412DPC0A[GI]|POCO X7 Pro",
  pat! "(?i)24095PCAD[GI]|POCO X7",
  pat! "(?i)(?:M2012K11AG|POCO F3)(?:[);/ ]|$)",
  pat! "(?i)23013PC75G|POCO F5 Pro",
  pat! "(?i)23049PCD8[GI]|POCO F5",
  pat! "(?i)M2004J19PI(?:[);/ ]|$)",
  pat! "(?i)(?:M2103K19P[IGY]|M3 Pro 5G|camellian?)(?:[);/ ]|$)",
  pat! "(?i)POCO M([23]) Pro(?:[);/ ]|$)",
  pat! "(?i)21091116AG|M4 Pro 5G",
  pat! "(?i)22041219P[IG]|POCO M4 5G(?: Build|[;)])",
  pat! "(?i)22071219C[IG]|POCO M5(?: Build|[;)])",
  pat! "(?i)2207117BPG|POCO M5s",
  pat! "(?i)2404APC5FG|POCO M6(?: Build|[;)])",
  pat! "(?i)2409FPCC4[GI]|POCO M7 Pro 5G",
  pat! "(?i)25062PC34[GE]|POCO M7",
  pat! "(?i)2312FPCA6G|POCO M6 Pro(?: Build|[;)])",
  pat! "(?i)2201117P[GI]|POCO M4 Pro",
  pat! "(?i)(?:M2010J19C[GI]|POCO M3)(?:[);/ ]|$)",
  pat! "(?i)(?:M2007J20C[GT]|POCO X3 NFC)(?:[);/ ]|$)",
  pat! "(?i)(?:M2102J20S[GI]|POCO X3 Pro)(?:[);/ ]|$)"]

/-- `__dr_re`, from item 7000 on (device_repo.go:25336-25585). -/
def drRe_28 : List (List Chunk) := [
  pat! "(?i)(?:21061110AG|POCO X3 GT)(?:[);/ ]|$)",
  pat! "(?i)(?:M2007J20CI|MZB9965IN|POCO X3(?:_SN)?|MZB07Z[0-4]IN)(?:[);/ ]|$)",
  pat! "(?i)(?:22111317P[GI]|POCO X5 5G)(?:[);/ ]|$)",
  pat! "(?i)(?:22041216UG|POCO X4 GT Pro)(?:[);/ ]|$)",
  pat! "(?i)(?:22041216G|POCO X4 GT)(?:[);/ ]|$)",
  pat! "(?i)(?:22101320[GI]|POCO X5 Pro 5G)(?:[);/ ]|$)",
  pat! "(?i)2201116P[GI]|POCO X4 Pro 5G",
  pat! "(?i)(?:M2104K10I)(?:[);/ ]|$)",
  pat! "(?i)(?:21121210G|POCO F4 GT)(?:[);/ ]|$)",
  pat! "(?i)22021211R[GI]|POCO F4",
  pat! "(?i)24117RK2CG|POCO F7 Pro",
  pat! "(?i)24122RKC7G|Poco F7 Ultra",
  pat! "(?i)25053PC47G|POCO F7",
  pat! "(?i)(?:M2006C3MI|POCO C3)(?:[);/ ]|$)",
  pat! "(?i)(?:211033MI|22031116AI|MZB0A0MIN)(?:[);/ ]|$)",
  pat! "(?i)(?:220333QPG|POCO C40)(?:[);/ ]|$)",
  pat! "(?i)2305EPCC4G|MZB0E6DIN|2302EPCC4[HI]|POCO C51(?: Build|[;)])",
  pat! "(?i)220733SP[IH]",
  pat! "(?i)2312BPC51[HX]|POCO C61",
  pat! "(?i)2310FPCA4[GI]|POCO C65",
  pat! "(?i)2410FPCC5G|POCO C75",
  pat! "(?i)25028PC03[GI]|POCO C71",
  pat! "(?i)25078PC3EG|POCO C85",
  pat! "(?i)(?:POCO F2 PRO|M2004J11G)(?:[);/ ]|$)",
  pat! "(?i)X5 GT PRO(?:[);/ ]|$)",
  pat! "(?i)POPTEL|P9000_MAX(?:[);/ ]|$)",
  pat! "(?i)P9000_MAX(?:[);/ ]|$)",
  pat! "(?i)POPTEL K1(?:[);/ ]|$)",
  pat! "(?i)(KING 7S?)",
  pat! "(?i)PRIME (O8)(?:[);/ ]|$)",
  pat! "(?i)(\\d)K Pro Android TV",
  pat! "(?i)PROFILO(?:[);/ ]|$)",
  pat! "(?i)PULID[ _]|F1[01357]\\+? Build",
  pat! "(?i)F(1[01357]\\+?) Build",
  pat! "(?i)PULID[ _]([^;/]+) Build",
  pat! "(?i)PULID[ _]([a-z0-9_]+)\\)",
  pat! "(?i)(PB1009|M10[45]00|M7500|M7600-D|DAYTONA-G12|MONZA-T7|SILVERSTONE-T(?:5A|10)|EasyNote TV11HC)(?:[);/ ]|$)",
  pat! "(?i)SILVERSTONE-(T5A|T10)",
  pat! "(?i)(PB1009|M10[45]00|M7500|M7600-D)(?:[);/ ]|$)",
  pat! "(?i)(?:Pre|Pixi)/(\\d+)\\.(\\d+)|Palm|Treo|Xiino|PVG100(?:E_RU|E)?(?:[);/ ]|$)",
  pat! "(?i)((?:Pre|Pixi))/(\\d+\\.\\d+)",
  pat! "(?i)Palm(?:[ -])?([a-z0-9]+)",
  pat! "(?i)Treo([a-z0-9]+)",
  pat! "(?i)Xiino|Palmscape",
  pat! "(?i)Panasonic|PANATV[0-9]+|Viera/|4KTV-0SU|(?:P902i|P-0[28]D|FZ-B2D|FZ-[NX]1|FZ-A2A|DMC-CM1|P-01[JK]|P-0[23]E|P55 Max)(?:[);/ ]|$)|Eluga[ _]|P55 Novo 4G",
  pat! "(?i)P-01J(?:[);/ ]|$)",
  pat! "(?i)(P-01K)(?:[);/ ]|$)",
  pat! "(?i)P-03E(?:[);/ ]|$)",
  pat! "(?i)P-02E(?:[);/ ]|$)",
  pat! "(?i)Eluga[ _]I7(?:_EE)?",
  pat! "(?i)(?:Panasonic_)?Eluga[ _-]([^;/]+) Build",
  pat! "(?i)(?:Panasonic_)?Eluga[ _-]([^);/]+)[;/)]",
  pat! "(?i)(DMC-CM1)",
  pat! "(?i)P-02D(?:[);/ ]|$)",
  pat! "(?i)(FZ-[XN]1)(?:[);/ ]|$)",
  pat! "(?i)FZ-(B2D|A2A)(?:[);/ ]|$)",
  pat! "(?i)P55 Novo(?: 4G)?",
  pat! "(?i)P(\\d*) NXT",
  pat! "(?i)P902i(?:[);/ ]|$)",
  pat! "(?i)Panasonic\\..+\\.([0-9]{4})(?:[);/ ]|$)",
  pat! "(?i)Panasonic\\..+\\.([0-9]{4})\\.Mediatek",
  pat! "(?i)PANATV[0-9]+|Viera/",
  pat! "(?i)(43D1200|(?:32|43)D1270|32D1280|4KTV-0SU[WF]?)",
  pat! "(?i)PANASONIC, ([a-z0-9_ -]+), (?:wired|wireless)",
  pat! "(?i)PANASONIC,([a-z0-9_ -]+),(?:wired|wireless)",
  pat! "(?i)Panasonic[ _-]?([a-z0-9]+)",
  pat! "(?i)portalmmm/2\\.0 (P[a-z0-9]+)",
  pat! "(?i)P-08D(?:[);/ ]|$)",
  pat! "(?i)Panavox Android TV(?:[);/ ]|$)",
  pat! "(?i)(Boom P1)(?:[);/ ]|$)",
  pat! "(?i)Panodic(?:[);/ ]|$)",
  pat! "(?i)Panoramic[_ ](FQ-058/2)(?:[);/ ]|$)",
  pat! "(?i)Pantech|P[GN]-|PT-[a-z0-9]{3,}|TX[T]?[0-9]+|IM-[a-z0-9]+(?:[);/ ]|$)|ADR910L",
  pat! "(?i)Pantech[ -]?(P4100)",
  pat! "(?i)Pantech[ -]?([a-z0-9]+)",
  pat! "(?i)Pantech_([a-z0-9-]+)",
  pat! "(?i)(P[GTN]-[a-z0-9]+)",
  pat! "(?i)(TX[T]?[0-9]+) Pro",
  pat! "(?i)(TX[T]?[0-9]+)",
  pat! "(?i)(IM-[a-z0-9]+)(?:[);/ ]|$)",
  pat! "(?i)(Xplorer_2)(?:[);/ ]|$)",
  pat! "(?i)EV1 PRO|Partner[_ ]Evolution(?:[);/ ]|$)",
  pat! "(?i)Partner[_ ]Evolution",
  pat! "(?i)Pelitt[ _]",
  pat! "(?i)Pendoo|A5X MAX(?:[\\.-]\\w+)?\\.01\\.d4|(?:PNDP60L10BLK|PNDP60M7PUR)(?:[);/ ]|$)",
  pat! "(?i)Pendoo ?(T95Z|X10) PLUS",
  pat! "(?i)Pendoo ?X8PRO+",
  pat! "(?i)Pendoo[ \\.]?(X9[29]|T95)",
  pat! "(?i)A5X MAX(?:[\\.-]\\w+)?\\.01\\.d4",
  pat! "(?i)(PNDP60L10BLK|PNDP60M7PUR)",
  pat! "(?i)Penta[ _]|(?:PS650)(?:[);/ ]|$)",
  pat! "(?i)Pentagram|Quadra|Monster X5",
  pat! "(?i)(?:PENTAGRAM[_ ])?EON[_ ]PRIX",
  pat! "(?i)Quadra 7(?: UltraSlim)?",
  pat! "(?i)Monster X5?",
  pat! "(?i)Quadra ?([^);/]*) Build",
  pat! "(?i)Pentagram ?TAB ?([^);/]*) Build",
  pat! "(?i)Pentagram ?([^);/]*) Build",
  pat! "(?i)(PHICOMM|E5051)(?:[);/ ]|$)",
  pat! "(?i)C630 \\(CLUE L\\)(?:[);/ ]|$)",
  pat! "(?i)E653\\(ENERGY L\\)(?:[);/ ]|$)",
  pat! "(?i)PHICOMM ENERGY 3\\+(?:[);/ ]|$)",
  pat! "(?i)E5051(?:[);/ ]|$)",
  pat! "(?i)C6051(?:[);/ ]|$)",
  pat! "(?i)PHICOMM[ _]Clue[ _]([^/;)]+)(?: Build|[);])",
  pat! "(?i)PHILCO[ /]|(PCS0[12]|PH350B|PTB(?:10|[78])R|PTB7PAP_PTB7PAB_PTB7PAR|Hit Max|Hit P1[023]|HIT P8|HIT P10a|TP7A4|TP10A1I)(?:[);/ ]|$)",
  pat! "(?i)Hit (P1[023]|P8)",
  pat! "(?i)(PCS0[12]|PH350B|Hit Max)(?:[);/ ]|$)",
  pat! "(?i)(PTB(?:10|[78])R|TP7A4|TP10A1I)(?:[);/ ]|$)",
  pat! "(?i)PHILCO Android TV(?:[);/ ]|$)",
  pat! "(?i)PH60D16DSGWN4K(?:[);/ ]|$)",
  pat! "(?i)PTB7PAP_PTB7PAB_PTB7PAR(?:[);/ ]|$)",
  pat! "(?i)Philips|NETTV/|2020/2021 UHD Android|10BDL4151T|Xenium (?:S[25]66|S706)|(?:NeoViu D1|PI3210G|TPM1[79]1E|70PUH6774_96|QM152E|QM16[134]E|TLE(?:821L|722G)|AND1E|S397|W5510|S410J|SCN550)(?:[);/ ]|$)",
  pat! "(?i)(10BDL4151T)",
  pat! "(?i)(?:Philips[_ ])?Xenium[ _](S[25]66|V787|S706)(?:[);/ ]|$)",
  pat! "(?i)(?:Philips[_ ])?(X818|X588)(?:[);/ ]|$)",
  pat! "(?i)(?:Philips[_ ])?(S397|W5510)(?:[);/ ]|$)",
  pat! "(?i)(?:AND1E|Google)(?: TV)?(?:[);/ ]|$)",
  pat! "(?i)(PI3210G)",
  pat! "(?i)(TPM1[79]1E)",
  pat! "(?i)QM152E(?:[);/ ]|$)",
  pat! "(?i)(QM16[134]E)",
  pat! "(?i)(70PUH6774)_96",
  pat! "(?i)(202[01])/(?:20)?(2[12]) (?:Philips )?UHD Android",
  pat! "(?i)(TLE821L)(?:[);/ ]|$)",
  pat! "(?i)(TLE722G)(?:[);/ ]|$)",
  pat! "(?i)(?:S410J)(?:[);/ ]|$)",
  pat! "(?i)Philips, BDP([0-9]{4})",
  pat! "(?i)Philips, ([a-z0-9-]+)",
  pat! "(?i)(NETTV/[0-9.]{5})",
  pat! "(?i)Philips-FISIO ([a-z0-9]+)",
  pat! "(?i)Philips[ _-]?([a-z0-9\\-@]+)",
  pat! "(?i)(?:PHONEMAX[_ ](?:Saturn(?:[_ ]X)?|Mars|Venus X)|Rocky 2)(?:[);/ ]|$)",
  pat! "(?i)PHONEMAX[_ ]Saturn[_ ]X(?:[);/ ]|$)",
  pat! "(?i)PHONEMAX[_ ]Saturn(?:[);/ ]|$)",
  pat! "(?i)PHONEMAX[_ ]Mars(?:[);/ ]|$)",
  pat! "(?i)PHONEMAX[_ ]Venus X(?:[);/ ]|$)",
  pat! "(?i)Rocky 2(?:[);/ ]|$)",
  pat! "(?i)Pipo[_ ]|PipoM9Pro",
  pat! "(?i)Pipo[_ ]([TP]9)",
  pat! "(?i)PIPO[_ ](X10|X9S)",
  pat! "(?i)(?:Pico (?:G2 4K|Neo ?3|4)|A8110)(?:[);/ ]|$)",
  pat! "(?i)Pico (G2 4K|Neo 3|4)(?:[);/ ]|$)",
  pat! "(?i)(A8110)(?:[);/ ]|$)",
  pat! "(?i)Pioneer|.*; R1 Build|(?:dvr700pi|XDP-300R|F9212[AB]|SDA-835TAB|SDA-80?TAB)(?:[);/ ]|$)",
  pat! "(?i).*; R1 Build",
  pat! "(?i)(XDP-300R)",
  pat! "(?i)(F9212[AB]|SDA-835TAB|SDA-80?TAB)",
  pat! "(?i)Pioneer, ?([a-z0-9_ -]+), ?(?:wired|wireless)",
  pat! "(?i)Pioneer[ _-]?([^;/]+) Build",
  pat! "(?i)Pioneer[ _-]?([^;/)]+)(?:[;/)]|$)",
  pat! "(?i)PIONEER COMPUTERS (DreamBook)",
  pat! "(?i)Infineum[_ ](Z4?5)(?:[);/ ]|$)",
  pat! "(?i)Pixelphone S1(?:[);/ ]|$)",
  pat! "(?i)Pixus|(hiPower|Touch_7_3G|Ride[_ ][34]G|Play[ _]Three[ _]v(?:[234]\\.0|3\\.1))(?:[);/ ]|$)",
  pat! "(?i)Ride[_ ]([34])G",
  pat! "(?i)Play[ _]Three[ _]v([234]\\.0|3.1)",
  pat! "(?i)Pixus[ _]Arena",
  pat! "(?i)Pixus[ _]Deon",
  pat! "(?i)Pixus[ _]Sprint",
  pat! "(?i)Pixus[ _]Drive",
  pat! "(?i)Pixus[ _]Wing",
  pat! "(?i)Pixus[ _]Line",
  pat! "(?i)Pixus[ _]Titan",
  pat! "(?i)Pixus[ _]Folio",
  pat! "(?i)(?:Pixus_)?Touch[ _]7[ _]3G",
  pat! "(?i)Pixus[ _]hiMax",
  pat! "(?i)Pixus[ _]Blast",
  pat! "(?i)Pixus[ _]Joker",
  pat! "(?i)Pixus Blaze 10\\.1 3G",
  pat! "(?i)Pixus[_ ]Hammer",
  pat! "(?i)(?:Cosmo_Communicator|Gemini[_ ]4G)(?:[);/ ]|$)",
  pat! "(?i)(Cosmo_Communicator)(?:[);/ ]|$)",
  pat! "(?i)(?:Gemini[_ ]4G)(?:[);/ ]|$)",
  pat! "(?i)(PLT-[12]00)(?:[);/ ]|$)",
  pat! "(?i)PLAY NOW TV BOX 2(?:[);/ ]|$)",
  pat! "(?i)MOMO([0-9]|[ ]?mini[ ]?(?:S|3GS)?)",
  pat! "(?i)MOMO([0-9][^);/]*)(?: Build|[;)])",
  pat! "(?i)PLUM[ _]|(?:Z51[89])(?:[);/ ]|$)",
  pat! "(?i)PS_TAB_(WB01)(?:[);/ ]|$)",
  pat! "(?i)Pluzz[_-](Z552|PL5[05]10|PL4010|PL501[46]|Elite_Dual)(?:[);/ ]|$)",
  pat! "(?i)PocketBook[ _/]",
  pat! "(?i)A7(?:[);/ ]|$)",
  pat! "(?i)A10 3G(?:[);/ ]|$)",
  pat! "(?i)A10(?:[);/ ]|$)",
  pat! "(?i)SURFpad2(?:[);/ ]|$)",
  pat! "(?i)PocketBook SURFpad 3 \\(([\\d]+)[,.]([\\d]+)[\"]?\\)(?:[);/ ]|$)",
  pat! "(?i)SURFpad 4 ([LMS])(?:[);/ ]|$)",
  pat! "(?i)PocketBook/(515|614|62[23467]|63[012]|64[01]|650|740|801|840|970)(?:[);/ ]|$)",
  pat! "(?i)POV_TV|POV_TAB|MOB-5045|TAB-P10232-3G",
  pat! "(?i)POV_TAB[_-]NAVI7[_-]3G[_-]M",
  pat! "(?i)POV_TAB-PROTAB25XXL8?",
  pat! "(?i)POV_TAB-PROTAB([a-z0-9]+)",
  pat! "(?i)POV_TAB-P?([a-z0-9]+)",
  pat! "(?i)Polar(?:_W?K?)?[_ ]P\\d{2}|(?:P42L31T2CSM|P32L33T2CSM)(?:[);/ ]|$)",
  pat! "(?i)(?:Polar(?:_W?K?)?[_ ])?(P\\d{2}[LU]\\d{2}T2S?CSM)(?:[);/ ]|$)",
  pat! "(?i)PolarLine[_ ](?:W?K?[_ ])?(\\d{2}P[LU]\\d{2}S?TC-SM)(?:[);/ ]|$)",
  pat! "(?i)Polaroid|POLPAROID|(?:PMID|MIDC)[0-9a-z]+(?:[);/ ]|$)|MID(?:1014|0714)|PRO[VG]?(?:[0-9]{3,}[a-z]*|[0-9]{2}[a-z])|(?:P(?:400[56]|4526|500[56]|502[56]|504[67]|552[56])A|P902/A900|PSPC(?:505|550|[MZL]20A0|K2[01]NA)|SIGMA 5|MIDI109PDE|MIDI156PDE|MIDB1048PHE|MIDS145PXE|MIDS747PX|MID4004JBL|MIDS185PR|PSPTD21NA|POMDTB00[56]|PSPCL30A0|PSN-H116|BDL0232PR|Mobility3G|BDL1064PR001|SMX4K)(?:[);/ ]|$)",
  pat! "(?i)PSPC(505|550)",
  pat! "(?i)PRO4611(?:PR201)?",
  pat! "(?i)SIGMA 5(?:[);/ ]|$)",
  pat! "(?i)PRO([VG]?(?:[0-9]{3,}[a-z]*|[0-9]{2}[a-z]))",
  pat! "(?i)POLAROID, ([a-z0-9_ -]+), (?:wired|wireless)",
  pat! "(?i)MIDS185PR|POLPAROID PURE",
  pat! "(?i)(MID(?:1014|0714|S145PXE|S747PX|4004JBL|B1048PHE|I109PDE|I156PDE)|POMDTB00[56]|BDL0232PR|BDL1064PR001)",
  pat! "(?i)((?:PMID|MIDC)[0-9a-z]+)(?:[);/ ]|$)",
  pat! "(?i)(P902/A900)(?:[);/ ]|$)",
  pat! "(?i)Polestar(?:[);/ ]|$)",
  pat! "(?i)POLY ?PAD",
  pat! "(?i)POLY ?PAD[_ .]([a-z0-9]+)(?:[);/ ]|$)",
  pat! "(?i)POLY ?PAD[_.]([a-z0-9]+)",
  pat! "(?i)POLYTRON|W8480|W7430|PW1100S|W7550|W7531|W8570|R2401|R255B",
  pat! "(?i)POLYTRON[ _]R1500",
  pat! "(?i)POLYTRON[ _-]R2402",
  pat! "(?i)POLYTRON[ _-]R2403",
  pat! "(?i)POLYTRON[ _-]R2406",
  pat! "(?i)POLYTRON[ _-]R2407",
  pat! "(?i)POLYTRON[ _-]R2452",
  pat! "(?i)POLYTRON[ _-]R2457",
  pat! "(?i)POLYTRON[ _-]R2501",
  pat! "(?i)POLYTRON[ _-]R2507",
  pat! "(?i)POLYTRON[ _-]R2509SE",
  pat! "(?i)POLYTRON[ _-]R2509",
  pat! "(?i)POLYTRON[ _-]R250A",
  pat! "(?i)POLYTRON[ _-]R2506",
  pat! "(?i)POLYTRON[ _-](?:R3450|W1400)",
  pat! "(?i)POLYTRON[ _-]R3500",
  pat! "(?i)POLYTRON[ _]L501",
  pat! "(?i)POLYTRON[ _]P520",
  pat! "(?i)POLYTRON[ _]P552",
  pat! "(?i)POLYTRON[ _]4G501",
  pat! "(?i)POLYTRON[ _]4G502",
  pat! "(?i)POLYTRON[ _]4G503",
  pat! "(?i)POLYTRON[_ ]?[ _]4G550",
  pat! "(?i)POLYTRON[ _]4G551",
  pat! "(?i)POLYTRON[ _]T7800",
  pat! "(?i)POLYTRON[ _]T7700",
  pat! "(?i)POMP[ _-]",
  pat! "(?i)POMP[ _-]([^;/]+) Build",
  pat! "(?i)POMP[ _-]([^;/)]+)(?:[;/)]|$)",
  pat! "(?i)(V100M4L)(?:[);/ ]|$)",
  pat! "(?i)(?:YPY_S450|Twist 4(?: Fit|Pro)?|Twist (?:4G|5 Max)|T1085|Positivo (?:Q20|Slim)|M10 4G PRO X|UP 32|YOLO|Android 4([\\d.]*);(?: [\\w-]+;)? X400)(?:[);/ ]|$)",
  pat! "(?i)X400(?:[);/ ]|$)",
  pat! "(?i)Positivo (Q20|Slim)(?:[);/ ]|$)",
  pat! "(?i)Twist 4 (Fit|Pro)",
  pat! "(?i)(?:T1060B|S455|Positivo (?:Twist|Ypy|Mini I)|Twist[ _](?:\\(2018\\)|2 (?:Fit|Pro)|Mini|Tab|Metal(?: 32GB)?|Max|XL|SE|[23SM])|KC770|G1101T)(?:[);/ ]|$)",
  pat! "(?i)S455(?:[);/ ]|$)",
  pat! "(?i)Twist \\(2018\\)(?:[);/ ]|$)",
  pat! "(?i)Twist Metal 32GB(?:[);/ ]|$)",
  pat! "(?i)Twist Metal(?:[);/ ]|$)"]

/-- `__dr_re`, from item 7250 on (device_repo.go:25586-25835). -/
def drRe_29 : List (List Chunk) := [
  pat! "(?i)Twist Max(?:[);/ ]|$)",
  pat! "(?i)Twist[ _]Mini(?:[);/ ]|$)",
  pat! "(?i)Twist 2 Fit(?:[);/ ]|$)",
  pat! "(?i)Twist 2 Go(?:[);/ ]|$)",
  pat! "(?i)Twist 2 Pro(?:[);/ ]|$)",
  pat! "(?i)Twist XL(?:[);/ ]|$)",
  pat! "(?i)Twist SE(?:[);/ ]|$)",
  pat! "(?i)(?:Positivo )?Twist ([23SM])(?:[);/ ]|$)",
  pat! "(?i)(?:Positivo )Mini I(?:[);/ ]|$)",
  pat! "(?i)(T1060B|KC770|G1101T)(?:[);/ ]|$)",
  pat! "(?i)Positivo Ypy (AB7F|AB10H|L1050E)(?:[);/ ]|$)",
  pat! "(?i)Twist Tab(?:[);/ ]|$)",
  pat! "(?i)(DRN-[78]09)(?:[);/ ]|$)",
  pat! "(?i)(?:MAXI 20|Premier P50)(?:[);/ ]|$)",
  pat! "(?i)(?:AXE_II|186HS2080531|186HS1050531|186HS1050232|186FT1080231|185FT5050231|X7[05]-2021|PREMIO[ _](?:S50|P420|P451)|Android 8(?:[\\d.]*);(?: [\\w-]+;)? Axe)(?:[);/ ]|$)",
  pat! "(?i)X(7[05])-2021",
  pat! "(?i)PREMIO[ _](S50|P420|P451)(?:[);/ ]|$)",
  pat! "(?i)Prestigio 5500 DUO|(?:PMP|PAP|PMT|PSP|PGPS)[0-9]+[a-z0-9_]+(?:[);/ ]|$)|Muze C3|PTV50SS04X_CIS_BK|PTV50SS08X|PTV32SS08Z|PTV40SS04Y_CIS_ML|PTV32SS04Z_CIS_(?:ML|BK)|SILVER POS|PAB4411|GV7777",
  pat! "(?i)P[AS]P(5517|5503|550[578])DUO(?:[);/ ]|$)",
  pat! "(?i)PAP(7500)(?:[);/ ]|$)",
  pat! "(?i)(?:Muze C3|PSP3504DUO)(?:[);/ ]|$)",
  pat! "(?i)PGPS7799CIS08GBPG(?:[);/ ]|$)",
  pat! "(?i)GV7777(?:[);/ ]|$)",
  pat! "(?i)PGPS7797(?:[);/ ]|$)",
  pat! "(?i)PMT(3118|38[74]8|3[123]01|3[12]57|778[18]|4[789]91|5588|5718|5791|577[18]|4327|3768)[_ ]([34])G",
  pat! "(?i)PMT(1177|3208|3618|31[357]1|1157|1196|3[10]96|3[17]61|3407)[_ ]([34])GE?",
  pat! "(?i)PMT(1107|3[456]37|3[34]27|3317|4638|4311|413[17]|411[178]|3771)[_ ]([34])GE?",
  pat! "(?i)PMT(3231|37[01]8|4231|4667|38[3678]1)[_ ]([34])GE?",
  pat! "(?i)PSP7546DUO([ _][A-Z]{2})?",
  pat! "(?i)PSP7610DUO([ _][A-Z]{2})?",
  pat! "(?i)PTV(\\w+)_CIS_(ML|BK)",
  pat! "(?i)(PAB4411)",
  pat! "(?i)(PTV32SS08Z|PTV50SS08X)",
  pat! "(?i)(PM[PT][0-9]+[a-z0-9_]+)(?:[);/ ]|$)",
  pat! "(?i)((?:PAP|PSP)[0-9]+[a-z0-9_]+(?: DUO)?)(?:[);/ ]|$)",
  pat! "(?i)PD\\-(3127NC|3127) Build",
  pat! "(?i)PD\\-3127NC Build",
  pat! "(?i)PD\\-3127 Build",
  pat! "(?i)Primux|SirocoY|Omega6_4G(?:[);/ ]|$)",
  pat! "(?i)Primux_ioxphone(?:[);/ ]|$)",
  pat! "(?i)PrimuxDelta6(?:[);/ ]|$)",
  pat! "(?i)PrimuxKappa(P50[01])(?:[);/ ]|$)",
  pat! "(?i)PrimuxKappa(?:[);/ ]|$)",
  pat! "(?i)Primux_Beta2(?:[);/ ]|$)",
  pat! "(?i)Primux_?Omega([57])(?:[);/ ]|$)",
  pat! "(?i)Omega6_4G(?:[);/ ]|$)",
  pat! "(?i)PrimuxUP(?:[);/ ]|$)",
  pat! "(?i)PrimuxZonda4(?:[);/ ]|$)",
  pat! "(?i)Primux_Siroco6(?:[);/ ]|$)",
  pat! "(?i)SirocoY(?:[);/ ]|$)",
  pat! "(?i)Pritom_|(?:K7_A101(?:_EEA)?|Android 1[01](?:[\\d.]*);(?: [\\w-]+;)? (?:M10_Lite|M10_EEA|M10_(?:PLUS|Air)(?:_EEA)?|P7_EEA)|M10_R0[24]|P7PRO|M10_C01_EEA|TOUCH 7)(?:[);/ ]|$)",
  pat! "(?i)M10_R0([24])",
  pat! "(?i)(?:Pritom[_ ])?M10_C01",
  pat! "(?i)Pritom[_ ]M10|M10_EEA",
  pat! "(?i)(?:T1700Q-)?PRIXTON|(T7012Q)(?:[);/ ]|$)",
  pat! "(?i)PRIXTON (C18)",
  pat! "(?i)(T701[24]Q|T1700Q)",
  pat! "(?i)PLT([^;/]+) Build|PLT(?:777[045]|9774|107[47]|9999)G(?:[);/ ]|$)",
  pat! "(?i)PLT([^;/]+) Build",
  pat! "(?i)PLT(777[045]|9774|107[47]|9999)G",
  pat! "(?i)ProVision (S1)(?:[);/ ]|$)",
  pat! "(?i)Proline_|(?:H10882M-TN|H1088[28]M|H1010|M504)(?:[);/ ]|$)",
  pat! "(?i)Proline[_ ]FalconXL",
  pat! "(?i)(H10882M-TN|H1088[28]M|H1010)",
  pat! "(?i)(MPC-(?:[57]0|65|100)|MPC-110DSP)(?:[);/ ]|$)",
  pat! "(?i)PROTRULY[ _](D[78]|V10S)(?:[);/ ]|$)",
  pat! "(?i)Punos (10)",
  pat! "(?i)QBOX(?:[);/ ]|$)",
  pat! "(?i)Qtouch_|[ ](Q09|QS701|Q0[15]A|QS31)(?:[);/ ]|$)",
  pat! "(?i)(?:Qtouch[_ ])?[ ]?(Q09|QS701|Q0[15]A|Q85|QS31)(?:[);/ ]|$)",
  pat! "(?i)(QPHONE[_ ](?:10\\.1|9\\.[12]|7\\.1|5\\.[246])|QTAB10EW)(?:[);/ ]|$)",
  pat! "(?i)(QPHONE[_ ](?:10\\.1|9\\.[12]|7\\.1|5\\.[246]))(?:[);/ ]|$)",
  pat! "(?i)(TLW-100[BG]?)(?:[);/ ]|$)",
  pat! "(?i)(?:Android 12(?:[\\d.]*);(?: [\\w-]+;)? F22 ?Pro|(?:Android 11(?:[\\d.]*);(?: [\\w-]+;)? (?:F22|F21 Pro))(?: Build|[;)]))",
  pat! "(?i)F(\\d+) ?Pro(?:[);/ ]|$)",
  pat! "(?i)F(22)(?:[);/ ]|$)",
  pat! "(?i)(?:Scepter[ _]?8(?: Tablet)?)(?:[);/ ]|$)",
  pat! "(?i)Scepter[ _]?8",
  pat! "(?i)QMobile|QTab|Q-?Smart|LINQ (?:L10|X100)|(?:Mark [25]|E2 Noir|Noir[ _](A[18]|X1S)|LUNA PRO|NICE S|JazzX JS(?:[27]|10)(?: PRO)?|LT[57]00[ _]PRO|LT950|Infinity (?:Cinema 2|triple|santos|Prime 2)|Q Infinity|Hot 5|Hot Pro 2|VITA S|i7i 2020|i10[ _]20(?:20|19)|V2 2018|Z12 PRO|Smart HD Pro|V[67]_Metal|Rocket (?:Lite|Pro)| GLi|i6i 2020|i6 Metal|Android 6(?:[\\d.]*);(?: [\\w-]+;)? (?:J5|S2 Pro|J7 PRO|M350 Pro)|Android 5(?:[\\d.]*);(?: [\\w-]+;)? Z9 Plus|i8i Dual|View Max Pro)(?:[);/ ]|$)",
  pat! "(?i)JazzX JS(2|10)",
  pat! "(?i)Noir[ _](A[18]|X1S)(?:[);/ ]|$)",
  pat! "(?i)A600(?:[);/ ]|$)",
  pat! "(?i)QMobile (Z9|J2)",
  pat! "(?i)(J7|S2) Pro",
  pat! "(?i)LT([57]00)[ _]PRO",
  pat! "(?i)V([67])_Metal",
  pat! "(?i)i(\\d+)i 20(20|1[89])",
  pat! "(?i)i10[ _]20(20|19)",
  pat! "(?i)i6 Metal (201[78])",
  pat! "(?i)Mark ([25])",
  pat! "(?i)QSmart (X[124]0)",
  pat! "(?i)Q Infinity ([FCB])",
  pat! "(?i)(LT950|J5)(?:[);/ ]|$)",
  pat! "(?i)LINQ (L10|X100)",
  pat! "(?i)GLi Lite(?:[);/ ]|$)",
  pat! "(?i)GLi(?:[);/ ]|$)",
  pat! "(?i)V2 2018(?:[);/ ]|$)",
  pat! "(?i)QMobile ENERGY (X[12])(?:[);/ ]|$)",
  pat! "(?i)QTab[ _-]([^;/]+) Build",
  pat! "(?i)QTab[ _-]([^;/)]+)(?:[;/)]|$)",
  pat! "(?i)(?:QMobile|Q-?Smart)[ _-]([^;/)]+) Plus(?: Build|[;)])",
  pat! "(?i)(?:QMobile|Q-?Smart)[ _-]([^;/)]+) PRO(?: Build|[;)])",
  pat! "(?i)(?:QMobile|Q-?Smart)[ _-]([^;/)]+)(?: Build|[;)])",
  pat! "(?i)(?:QMP_K8| QMP-M1-N-IP)(?:[);/ ]|$)",
  pat! "(?i)QMP[_-](K8|M1)",
  pat! "(?i)(Q\\d{2}Y[FHK]-(?:M[GB]|PB))(?:[);/ ]|$)",
  pat! "(?i)Qilive [0-9][^;/]*|QILIVE|Q(7S5[5]?IN4G|T19101|T22101B|T23109BP|T21101|7T10INP|T19101HV|8T10IN|8S55IN4G2|8S[56]IN4G|9T9IN|9T(?:7|10)IN4G|9S55IN4G|10S5[37]IN4G|10S[56]IN4G|10S[56]IN4GR|9S5IN4G|6T7IN|T2108BP)",
  pat! "(?i)Q10S5IN4G[R]?",
  pat! "(?i)(QT19101HV|QT19101|QT23109BP|QT22101B)",
  pat! "(?i)Qilive (1\\d+[^;/)]*)(?: Build|[;)])",
  pat! "(?i)Qilive ([0-5][^;/)]*)(?: Build|[;)])",
  pat! "(?i)Qilive ([0-5]*)/",
  pat! "(?i)Qilive ([6-9][^;/)]*)(?: Build|[;)])",
  pat! "(?i)QILIVE[; ]Smart ?TV",
  pat! "(?i)(?:Android 14(?:[\\d.]*);(?: [\\w-]+;)? (?:C10S))(?:[);/ ]|$)",
  pat! "(?i)(C10S)",
  pat! "(?i)Passion[ _]P|Hynex plus|Stark K1|Hynex H[356]|Levin V[12]|Aston A[357]\\+",
  pat! "(?i)Passion[ _](P[0-9]+)",
  pat! "(?i)Hynex plus( 2)?",
  pat! "(?i)Hynex (H[356])\\+",
  pat! "(?i)Hynex (H[35])",
  pat! "(?i)Levin (V[12])",
  pat! "(?i)Aston A([357])\\+",
  pat! "(?i)Qtek[ _]?([a-z0-9]+)",
  pat! "(?i)AQT(100|8[02])(?:[);/ ]|$)",
  pat! "(?i)Qrash|(?:Quantum (?:Fit|Five|Fly|UP|MUV (?:PRO|UP)|Go|Mini|M|V|You [2E])|GO 2|Q[23]0|LIO\\+|Q-TITANO(_007i|-H2)?|Q-Pulse70M|Q-Wave(?:101|71M))(?:[);/ ]|$)",
  pat! "(?i)LIO\\+(?:[);/ ]|$)",
  pat! "(?i)GO 2(?:[);/ ]|$)",
  pat! "(?i)Qrash(?:[);/ ]|$)",
  pat! "(?i)Quantum (Fit|Five|Go|Mini|[MV]|Fly|You [2E]|Q[23]0)(?:[);/ ]|$)",
  pat! "(?i)Quantum MUV PRO(?:[);/ ]|$)",
  pat! "(?i)Quantum MUV UP(?:[);/ ]|$)",
  pat! "(?i)Quantum UP(?:[);/ ]|$)",
  pat! "(?i)Q-TITANO[ _-](BOS|X|M1|007i|H[12]|AK47)(?:[);/ ]|$)",
  pat! "(?i)Q-Pulse70M(?:[);/ ]|$)",
  pat! "(?i)Q-Wave(101|71M)(?:[);/ ]|$)",
  pat! "(?i)Quatro (8|10|FSM1453)(?:[);/ ]|$)",
  pat! "(?i)(?:Cronos|MINERVA(?:_32GB)?|X668_64GB|X626_4G|Hermes|T104_64GB)(?:[);/ ]|$)",
  pat! "(?i)MINERVA(?:_32GB)?(?:[);/ ]|$)",
  pat! "(?i)(Cronos|Hermes|X626_4G)(?:[);/ ]|$)",
  pat! "(?i)T104_64GB(?:[);/ ]|$)",
  pat! "(?i)Android 1[012](?:[\\d.]*);(?: [\\w-]+;)? RAPTOR(?:[);/ ]|$)",
  pat! "(?i)TINKU LTE(?:[);/ ]|$)",
  pat! "(?i)TINKU LTE(?:[);/ ]|$)",
  pat! "(?i)QUMO[ _]?|(?:Quest[ _]?(?:408|410|45[56]|50[679])|Vega[ _]?78[23]|Sirius[ _]?(?:1001|890))(?:[);/ ]|$)",
  pat! "(?i)(?:QUMO[ _]?)?Vega[ _]?(78[23]|8002)(?:[);/ ]|$)",
  pat! "(?i)Yooda(?:[);/ ]|$)",
  pat! "(?i)Sirius[ _]?(1001|890)(?:[);/ ]|$)",
  pat! "(?i)(?:QUMO[ _]?)?(Sirius 101-4G 8GB Black|Altair 701 8GB Black|Altair 71 4GB Black|Altair 700[24]|Altair 70[16]|Vega_803i)(?:[);/ ]|$)",
  pat! "(?i)(?:QUMO[ _])?Quest[ _]?(35[34]|40[268]|410|45[2568]|47[46]|50[679]|5[137]0|574|600)(?:[);/ ]|$)",
  pat! "(?i)QW[ _-]TB-\\w+",
  pat! "(?i)QW[ _-](TB-\\w+)",
  pat! "(?i)R-TV BOX[ _]?(MINI\\+|X99|X10 PRO|[RXS]10)",
  pat! "(?i)R3Di_FR150(?:[);/ ]|$)",
  pat! "(?i)(C50USY24F|K55USY23|H43QSY24F)(?:[);/ ]|$)",
  pat! "(?i)RCA-OEM[;,]|RC[AT]([^;/]+)(?: Build|[;)]|$)|RWOSU6547|RCA RLTP4028|RLTP5567|RLTP5573|RC7T3G21|DRP(?:29101|2091)",
  pat! "(?i)(?:RCA[ _])?(RLTP4028|RLTP5567|RLTP5573)",
  pat! "(?i)RCT6873W42M|RCT6876Q22N?|RCT6873W42BMF9E",
  pat! "(?i)RCT6973W43(?:MD)?",
  pat! "(?i)RCT6703W12|RCT6B06P23",
  pat! "(?i)RCT(?:6303W87(?:DK|M)|6K03W13)",
  pat! "(?i)(DRP29101|DRP2091)",
  pat! "(?i)(RWOSU6547)",
  pat! "(?i)RCT([^;/)]+)(?: Build|[;)])",
  pat! "(?i)RC([^;/)]+)(?: Build|[;)])",
  pat! "(?i)(MX101M[23])(?:[);/ ]|$)",
  pat! "(?i)(?:H1A1000)(?:[);/ ]|$)",
  pat! "(?i)RED_X_RX2441_4G(?:[);/ ]|$)",
  pat! "(?i)Regal (?:TAB 10\\.1|G[o0][o0]gle TV)|REGAL, ([a-z0-9_ -]+), (?:wired|wireless)",
  pat! "(?i)Regal (TAB 10\\.1)",
  pat! "(?i)Regal G[o0][o0]gle TV",
  pat! "(?i)REGAL, ([a-z0-9_ -]+), (?:wired|wireless)",
  pat! "(?i)(?:NEP N(?:11?|9))(?:[);/ ]|$)",
  pat! "(?i)NEP N(11?|9)",
  pat! "(?i)BB10;|BlackBerry|rim[0-9]+|PlayBook|STV100-[1234]|STH100-[12]|BBA100-[12]|BBB100-[1234567]|BBD100-[126]|BB[EF]100-[123456789]|BB[CGH]100-1",
  pat! "(?i)BBA100-[12]",
  pat! "(?i)BBB100-[1234567]",
  pat! "(?i)BBD100-[126]|BlackBerry Motion",
  pat! "(?i)BBE100-[123456789]",
  pat! "(?i)BBF100-[1234567]|BlackBerry Key2",
  pat! "(?i)BBH100-1|Evolve X",
  pat! "(?i)(?:BlackBerry )?(9000|9790)",
  pat! "(?i)STV100-[1234]",
  pat! "(?i)STH100-[12]",
  pat! "(?i)BB10; ([a-z0-9\\- ]+)\\)",
  pat! "(?i)PlayBook.+RIM Tablet OS",
  pat! "(?i)BlackBerry(?: )?([a-z0-9]+)",
  pat! "(?i)rim([0-9]+)",
  pat! "(?i)(8520|8530|9220|9320|9360)",
  pat! "(?i)(9800|9860)",
  pat! "(?i)FORTIUS QUAD 7(?:[);/ ]|$)",
  pat! "(?i)(RH-LE\\d{2}DSY-C)(?:[);/ ]|$)",
  pat! "(?i)(?:Shock ?(?:5|5\\.5)|popper2)(?:[);/ ]|$)",
  pat! "(?i)Shock ?(5\\.5|5)",
  pat! "(?i)ESKIMO_K5001(?:[);/ ]|$)",
  pat! "(?i)(?:ZR01|3917JR|P710|P780|C330)(?:[);/ ]|$)",
  pat! "(?i)Ramos ?([^/);]+)(?: Build|[);])|(?:MOS1(?:max)?|W22PRO 3G)(?:[);/ ]|$)",
  pat! "(?i)(?:Ramos[ _])?(R10|R9|M7)(?:[);/ ]|$)",
  pat! "(?i)(MOS1)(?:[);/ ]|$)",
  pat! "(?i)Ramos ?([^/;]+)(?: Build|[);])",
  pat! "(?i)Raspberry (Pi [0-9]+)(?:[);/ ]|$)",
  pat! "(?i)RAVOZ[ _](Z[3567] (?:Lite|Pro)|Z[3-7]|R[4789]|V[1235])(?:[);/ ]|$)",
  pat! "(?i)XPOWER_P6000(?:[);/ ]|$)",
  pat! "(?i)(?:Phone 2|Razer Edge 5G)(?:[);/ ]|$)",
  pat! "(?i)(Allure[_ ](?:Ultra(?:[_]Curve)?|Secure|Admire|Rise)|Opulent X)(?:[);/ ]|$)",
  pat! "(?i)Readboy[ _-]",
  pat! "(?i)Readboy[ _-]C18Max",
  pat! "(?i)Readboy[ _-]C(\\d+)Pro",
  pat! "(?i)Readboy[ _-]([^;/)]+)(?: Build|[;)])",
  pat! "(?i)(RxIS202)(?:[);/ ]|$)",
  pat! "(?i)Realme[ _]|(?:RMX(?:18(0[13579]|11|3[13]|2[1257]|[45]1|53|45)|19(03|4[1235]|19|9[23]|2[1579]|[01379]1|73)|20(?:[025-7]1|42|[0357]2|03|2[257]|63|7[56]|63L1|8[1356]|[2-5]0)|21(?:0[13]|1[27]|[12]1|4[24]|5[156]|6[13]|7[036]|8[0359]|9[345])|220[0125]|30(?:[3468]1|4[23]|9[23]|63|85)|31(?:15|2[125]|42|51|6[16]|71|9[1357])|32(?:0[13]|35|42|[346]1|6[0235689]|86)|33(?:[0157]0|[17]2|71|6[036]|[0186]1|57|88|9[12356])|34(?:30|78|[69]1|[67]2|7[145]|9[23])|35(?:0[1236]|1[12367]|21|[578]1|6[0123]|7[246])|36(?:1[0125789]|[39]0|36|2[347](?:_Natv_vf)?|8[67]|6[013])|37(?:0[0689]|6[125]|[14-7]0|[0457]1|8[01235])|38(?:[039]0|2[03]|34|4[01234]|5[0123]|6[789]|7[01]|88)|39(?:10|2[01]|3[0389]|4[013-6]|5[012]|8[87]|9[0325-9])|50(?:0[0234]|1[01]|20|3[0-3]|5[01456]|6[012]|7[0189]|8[05]|90)|51(?:0[016]|1[016])|53(?:0[03]|13)|52[015]0|66(?:88|99))|(?:OPPO[ _]?)?CPH1861|RMP220[45]|RMP210[235-8]|4K Google TV Stick)(?:[);/ ]|$)",
  pat! "(?i)RMX503[01]",
  pat! "(?i)RMX370[68]",
  pat! "(?i)RMX38(?:51|00)",
  pat! "(?i)RMX501[01]",
  pat! "(?i)RMX(?:6688|5061)",
  pat! "(?i)RMX52[01]0",
  pat! "(?i)(?:OPPO[ _]?)?RMX3142(?:[);/ ]|$)",
  pat! "(?i)(?:OPPO[ _]?)?CPH1861(?:[);/ ]|$)",
  pat! "(?i)RMX180[59]",
  pat! "(?i)RMX180[137]",
  pat! "(?i)RMX(?:182[125])",
  pat! "(?i)RMX185[13]",
  pat! "(?i)RMX190[13]|Realme X(?:[);/ ]|$)",
  pat! "(?i)RMX199[12]",
  pat! "(?i)RMX1931|Realme X2 Pro(?:[);/ ]|$)",
  pat! "(?i)RMX2176(?:[);/ ]|$)",
  pat! "(?i)RMX2121(?:[);/ ]|$)",
  pat! "(?i)RMX1921|Realme XT(?:[);/ ]|$)",
  pat! "(?i)RMX19(1[19]|27)",
  pat! "(?i)RMX197[13]",
  pat! "(?i)RMX203[02]",
  pat! "(?i)RMX200[13]",
  pat! "(?i)RMX204[02]",
  pat! "(?i)RMX206[13](?:L1)?(?:[);/ ]|$)",
  pat! "(?i)RMX215[15]",
  pat! "(?i)RMX3085|Realme 8(?:[);/ ]|$)",
  pat! "(?i)RMX3151|Realme 8i(?:[);/ ]|$)",
  pat! "(?i)RMX349[123]",
  pat! "(?i)RMX3388|RMX3474",
  pat! "(?i)RMX339[23]",
  pat! "(?i)RMX347[12]",
  pat! "(?i)RMX36(?:30|15)",
  pat! "(?i)RMX366[01]",
  pat! "(?i)RMX368[67]",
  pat! "(?i)RMX3(?:636|751)",
  pat! "(?i)RMX399[29]",
  pat! "(?i)RMX39(?:88|90)",
  pat! "(?i)RMX392[01]",
  pat! "(?i)RMX394[03]"]

/-- `__dr_re`, from item 7500 on (device_repo.go:25836-26085). -/
def drRe_30 : List (List Chunk) := [
  pat! "(?i)RMX505[14]",
  pat! "(?i)RMX194[1235]",
  pat! "(?i)(?:RMX202[1207]|Realme G70 Series)(?:[);/ ]|$)",
  pat! "(?i)RMX218[03]",
  pat! "(?i)RMX219[45]",
  pat! "(?i)RMX2101(?:[);/ ]|$)",
  pat! "(?i)RMX306[13]",
  pat! "(?i)RMX320[13]",
  pat! "(?i)RMX326[123]",
  pat! "(?i)RMX319[13]|realme C25 Series",
  pat! "(?i)RMX319[57]",
  pat! "(?i)RMX326[589]",
  pat! "(?i)RMX350[123]",
  pat! "(?i)RMX(?:3581|3623)",
  pat! "(?i)RMX362[47]",
  pat! "(?i)RMX351[123]",
  pat! "(?i)RMX376[02]",
  pat! "(?i)RMX393[09]",
  pat! "(?i)RMX382[03]",
  pat! "(?i)RMX330[01]",
  pat! "(?i)RMX331[012]",
  pat! "(?i)RMX356[012]",
  pat! "(?i)RMX3371(?:[);/ ]|$)",
  pat! "(?i)RMX3357(?:[);/ ]|$)",
  pat! "(?i)RMX336[0136]",
  pat! "(?i)RMX3350(?:[);/ ]|$)",
  pat! "(?i)RMX216[13](?:[);/ ]|$)",
  pat! "(?i)RMX351[67]",
  pat! "(?i)RMX183[13](?:[);/ ]|$)",
  pat! "(?i)RMX(?:20(?:51|[2]5)|2144)(?:[);/ ]|$)",
  pat! "(?i)RMX2052(?:[);/ ]|$)",
  pat! "(?i)RMX2071(?:[);/ ]|$)",
  pat! "(?i)RMX207[56](?:[);/ ]|$)",
  pat! "(?i)RMX2072(?:[);/ ]|$)",
  pat! "(?i)RMX(2142|2081)(?:[);/ ]|$)",
  pat! "(?i)RMX208[56]",
  pat! "(?i)RMX346[12]",
  pat! "(?i)RMX211[12]",
  pat! "(?i)RMX220[01]",
  pat! "(?i)RMX312[12]",
  pat! "(?i)RMX304[123]",
  pat! "(?i)RMX309[23]",
  pat! "(?i)RMX361[01]",
  pat! "(?i)Realme[ _]([1-9])[ _]Pro(?:[);/ ]|$)",
  pat! "(?i)RMP210[23](?:[);/ ]|$)",
  pat! "(?i)RMP220[45]",
  pat! "(?i)RMP210[78]",
  pat! "(?i)RMP210[56](?:[);/ ]|$)",
  pat! "(?i)(?:Space_M10|S[678]00[ _]MAX|IP-[678]0 MAX|RED360 Air 8K)(?:[);/ ]|$)",
  pat! "(?i)(Space_M10)",
  pat! "(?i)S([678]00)[ _]MAX",
  pat! "(?i)IP-([678]0) MAX",
  pat! "(?i)(i-Jupiter)(?: Build|[);])",
  pat! "(?i)(?:Wizpad_)?Valuer_V8",
  pat! "(?i)(?:Wizpad_)?Valuer_V8",
  pat! "(?i)(?:Redway_7|redway7_pro|redway10_lite)(?:[);/ ]|$)",
  pat! "(?i)(?:reeder[_ ](?:3G_Tablet|A7iC|A[78]i[_ ]Quad|A8i Q2|M8 Plus|[TM]8|M10 Plus|P11SE|M7_Go|TV)|M8_Go|M8Go2020|M10SPlus|P12Curve|M10 Pro LTE|M10 Blue Max|P13[ _]Blue[ _]Plus(?:[ _]2022)?|P13_Max_Blue|P13[_ ]Blue[_ ]Ma(?:ks|x|xL)|P13_Blue|P13[ _]Blue[ _]202[12]|M7Plus|A8i-Q2|M7Go_2019|S19 Max(?: Pro S(?: Zoom)?| \\d{2}GB|L 128GB| Pro)|M10 GO|S23 Pro Max|S19 Max|P11SE_Art)(?:[);/ ]|$)",
  pat! "(?i)reeder[_ ](3G_Tablet|A7iC|A[78]i[_ ]Quad|A8i Q2|M8 Plus|[TM]8|M10 Plus|P11SE)(?:[);/ ]|$)",
  pat! "(?i)(?:reeder_)?(?:M7Go_2019|M7_Go)",
  pat! "(?i)(?:reeder_)?(M8|M10)[_ ]Go",
  pat! "(?i)P13 Blue 202([12])",
  pat! "(?i)P13 Blue MaxL? 202([012])",
  pat! "(?i)P13[_ ]Blue[_ ]Max|P13_Max_Blue",
  pat! "(?i)S19 Max (?:32|64)GB",
  pat! "(?i)RelNAT[_ ](Premier)(?:[);/ ]|$)",
  pat! "(?i) (TB02)(?:[);/ ]|$)",
  pat! "(?i)RD(?:16Q|86E)(?:[);/ ]|$)",
  pat! "(?i)RD(16Q|86E)(?:[);/ ]|$)",
  pat! "(?i)(TLE-(?:32|43F|50U)SBM)(?:[);/ ]|$)",
  pat! "(?i)Pocket ([23]) ?(?:Plus|\\+)",
  pat! "(?i)Pocket ([235])",
  pat! "(?i)Revo[_ ](?:Youplus|555)|RevoYou",
  pat! "(?i)Revo[ _]?(You|555)",
  pat! "(?i)(?:S6523(?:[ _]RU)?)(?:[);/ ]|$)",
  pat! "(?i)(?:PACE A1)(?:[);/ ]|$)",
  pat! "(?i)(?:RKM[_ ])?MK(902II|902|80[28][^/;]*)(?: Build|[;)])",
  pat! "(?i)Rinno (R(?:400|505))",
  pat! "(?i)(RMD[-_](?:10(?:2[689]|30|5[089])|1121|75[017]|726|85[57]|870)|RMP-(?:450|50[56]|530|600))(?:[);/ ]|$)",
  pat! "(?i)RMD[-_](10(?:2[689]|30|5[089])|1121|75[017]|726|85[57]|870)(?:[);/ ]|$)",
  pat! "(?i)RMP[-_](450|50[56]|530|600)(?:[);/ ]|$)",
  pat! "(?i)(RITZVIVA[_ ]S500C)(?:[);/ ]|$)",
  pat! "(?i)RIVIERA[ _]",
  pat! "(?i)RIVIERA[ _](F23|U963)",
  pat! "(?i)PHANTOM (?:PZ|RX)|RHYTHM[ _]RX|(?:STORM_S8(?: ?plus)?)(?:[);/ ]|$)",
  pat! "(?i)PHANTOM PZ ?(2[05]|[13]5|4|18)(?:[);/ ]|$)",
  pat! "(?i)PHANTOM RX ?(298|387)(?:[);/ ]|$)",
  pat! "(?i)RHYTHM[ _]RX ?([15-9]0|[467]5|[12]80|150|[14]00)(?:[);/ ]|$)",
  pat! "(?i)(NovaTab_R10)(?:[);/ ]|$)",
  pat! "(?i)ROAM[_ ]CAT[ _](M8)",
  pat! "(?i)(ZC-P95)(?:[);/ ]|$)",
  pat! "(?i)(?:IO (?:Pro|3D|Light)|Orb S)(?:[);/ ]|$)",
  pat! "(?i)Roku(?:OS|4640X)?/(?:DVP|Pluto)?-?|QSP; Roku",
  pat! "(?i)Rombica[_ ]|(TV-Impact(?:-pro)?|SSQ-A0500|Smart Box v[0-9]+|Smart Box (?:[ABCDXYZ]1|[GDFQ]2|[AF]3|H4)|myPhone Jet|5[05]MT-UDG54G|65MT-UDG54G|55XT-UD2G64N)(?:[);/ ]|$)",
  pat! "(?i)SSQ-A0500(?:[);/ ]|$)",
  pat! "(?i)(?:Rombica[_ ])?Cinema4K_v01",
  pat! "(?i)(\\d{2}MT-UDG54G|Infinity K8|Smart Box (?:Q1|v00[3-9]|Quad|Ultra HD v002|4K V001|[ABCDXYZ]1|[AGDFQL]2|[AFG]3|H4)|TV (?:Ultima|Fly)|Smart Stick Pro|TV Mercury|TV Emotion|TV Air|55XT-UD2G64N)(?:[);/ ]|$)",
  pat! "(?i)(43FSQ2020T2|32HSQ1220T2)(?:[);/ ]|$)",
  pat! "(?i)RM(D)?[-_](974R|600|550|790)(?:[);/ ]|$)",
  pat! "(?i)Rover ([0-9]+)",
  pat! "(?i)(?:Rover[ ]?Pad|RoverPhone|(?:Air|Art|Sky) 7\\.85 3G|Pro_Q(?:8|10)_LTE)(?:[);/ ]|$)",
  pat! "(?i)RoverPhone(?:[);/ ]|$)",
  pat! "(?i)Pro_Q(8|10)_LTE(?:[);/ ]|$)",
  pat! "(?i)(?:Rover[ ]?Pad)?sky 7\\.85(?: 3G)?(?:[);/ ]|$)",
  pat! "(?i)(Air|Art) 7\\.85 3G",
  pat! "(?i)RoverPad (10\\.4|Air S70|9\\.7 3G|Sky 9\\.7|3W A73|3W7|3WT70|3W9\\.4)(?:[);/ ]|$)",
  pat! "(?i)(?:RQ[ -](Regal R8|713S|712|768)|Bishop-RQ451)(?:[);/ ]|$)",
  pat! "(?i)RQ (Regal R8)",
  pat! "(?i)RQ-(713S|712|768)",
  pat! "(?i)(?:RugGear|RG(?:310|500|65[05]|702|7[13]0|850)|RG725)(?:[);/ ]|$)",
  pat! "(?i)(RG[0-9]+)(?:[);/ ]|$)",
  pat! "(?i)(FieldPad 8)(?:[);/ ]|$)",
  pat! "(?i)(FieldPad 8)",
  pat! "(?i)Rhino-Quest(?:[);/ ]|$)",
  pat! "(?i)Rhino-Quest(?:[);/ ]|$)",
  pat! "(?i)Ruio[ _]|(?:M671M4|i7Plus|S5[05]06|S518)(?:[);/ ]|$)",
  pat! "(?i)Ruio[ _](S4)(?:[);/ ]|$)",
  pat! "(?i)(?:Ruio[ _])?(S5|i7)Plus(?:[);/ ]|$)",
  pat! "(?i)(S5[05]06|S518)(?:[);/ ]|$)",
  pat! "(?i)Runbo|F1-TT(?:[);/ ]|$)",
  pat! "(?i)Runbo[ _-]?(X5-W|F1 Plus|[PF]1-TT|F1-EN|[FH]1|TT|Q5-S|X5-King|X6|Q5)(?:[);/ ]|$)",
  pat! "(?i)Pyramid A5X|RUPA[_.]smartTV",
  pat! "(?i)RUPA[_.]smartTV",
  pat! "(?i)(?:RYTE U55 LTE|RT701)(?:[);/ ]|$)",
  pat! "(?i)RYTE (U55 LTE)",
  pat! "(?i)(RT701)",
  pat! "(?i)(GT40 Ultra|SU15 Pro)(?: Build|[);])",
  pat! "(?i)S-TELL|(?:M630|M55[78]|P760|P750i|M555i|M580|M457|M655)(?:[);/ ]|$)",
  pat! "(?i)(P760|P750i)(?:[);/ ]|$)",
  pat! "(?i)(?:S-TELL[ _])?M([0-9]{3}|555i|M580|M655)(?:[);/ ]|$)",
  pat! "(?i)S2TEL[ _-]",
  pat! "(?i)S2TEL-(Q8)",
  pat! "(?i)(?:20220728MT)(?:[);/ ]|$)",
  pat! "(?i)(S2[23])_EEA(?:[);/ ]|$)",
  pat! "(?i)SEEWO[ _](SD02)(?:[);/ ]|$)",
  pat! "(?i)SEG, ([a-z0-9_ -]+), (?:wired|wireless)",
  pat! "(?i)(?:GO[35]E|5101J|GO3C(?: Plus)?)(?:[);/ ]|$)",
  pat! "(?i)5101J(?:[);/ ]|$)",
  pat! "(?i)GO3C Plus(?:[);/ ]|$)",
  pat! "(?i)GO3C(?:[);/ ]|$)",
  pat! "(?i)(GO[35]E)(?:[);/ ]|$)",
  pat! "(?i)(?:SENNA_)?(32SN6000H|43SN6000F)(?:[);/ ]|$)",
  pat! "(?i)(?:SERVO 16MAX)(?:[);/ ]|$)",
  pat! "(?i)StarShine|StarTrail|STARADDICT|StarText|StarNaute|StarXtrem|StarTab|(?:Android 8(?:[\\d.]*);(?: [\\w-]+;)? (?:AURA (?:PLUS|ULTRA)|AURA))(?: Build|[;)])",
  pat! "(?i)StarXtrem II(?:[);/ ]|$)",
  pat! "(?i)StarXtrem ?([3-6])(?:[);/ ]|$)",
  pat! "(?i)StarXtrem(?:[);/ ]|$)",
  pat! "(?i)StarTrail III(?:[);/ ]|$)",
  pat! "(?i)StarTrail II(?:[);/ ]|$)",
  pat! "(?i)StarTrail[ _]?([1-9])[ _]([34])G(?:[);/ ]|$)",
  pat! "(?i)StarTrail[ _]?([1-9])(?:[);/ ]|$)",
  pat! "(?i)StarTrail(?:[);/ ]|$)",
  pat! "(?i)AURA PLUS(?:[);/ ]|$)",
  pat! "(?i)aura ULTRA(?:[);/ ]|$)",
  pat! "(?i)AURA(?:[);/ ]|$)",
  pat! "(?i)StarShine II(?:[);/ ]|$)",
  pat! "(?i)StarShine III(?:[);/ ]|$)",
  pat! "(?i)StarShine(?:[);/ ]|$)",
  pat! "(?i)STARADDICT 6(?:[);/ ]|$)",
  pat! "(?i)STARADDICT 4(?:[);/ ]|$)",
  pat! "(?i)STARADDICT III(?:[);/ ]|$)",
  pat! "(?i)STARADDICT II Plus(?:[);/ ]|$)",
  pat! "(?i)STARADDICT II(?:[);/ ]|$)",
  pat! "(?i)STARADDICT(?:[);/ ]|$)",
  pat! "(?i)StarText II(?:[);/ ]|$)",
  pat! "(?i)StarText(?:[);/ ]|$)",
  pat! "(?i)StarNaute II(?:[);/ ]|$)",
  pat! "(?i)STARNAUTE ?([1-4])(?:[);/ ]|$)",
  pat! "(?i)StarNaute(?:[);/ ]|$)",
  pat! "(?i)((?:StarShine|StarTrail|STARADDICT|StarText|StarNaute|StarXtrem)[^;/]*) Build",
  pat! "(?i)SGIN_(?:E10M|X10)(?:[);/ ]|$)",
  pat! "(?i)BHX-UH200|BID-AT200",
  pat! "(?i)BHX-UH200(?:[);/ ]|$)",
  pat! "(?i)BID-AT200(?:[);/ ]|$)",
  pat! "(?i)(Modern[ _](?:S10?|S[3679]))(?:[);/ ]|$)",
  pat! "(?i)(?:LYNX_LUXE|Hyper X Dragon|HYPER X BLADE(?: II)?)(?:[);/ ]|$)",
  pat! "(?i)(?:Atractivo|SmartabS4)(?:[);/ ]|$)",
  pat! "(?i)(Atractivo)",
  pat! "(?i)(?:CRUSH_X565|BLAZE_X500)(?:[);/ ]|$)",
  pat! "(?i)SMUX ?BOX A1(?:[);/ ]|$)",
  pat! "(?i)SNAMI[_ ]([^/;)]+)(?: Build|[);])",
  pat! "(?i)SOLE[_ ]POP[_ ]S([45]0)(?:[);/ ]|$)",
  pat! "(?i)(?:SOLO[_ ](?:Aspire(?: M)?)|Inspire_U5(?:_PLUS)?)(?:[);/ ]|$)",
  pat! "(?i)(?:SOLO[_ ](Aspire(?: M)?))",
  pat! "(?i)(?:Sonos/.+\\((?:(?:BR|ZP).+)\\)|Sonos;|Sonos/.+\\(?:Arc|ANVIL|Play:\\d\\))",
  pat! "(?i)\\((ZPS(?:[13569]|1[1-9]|2[0-467]|3[013-9]|4[1345]|5[45])|ZP(?:90|120))\\)",
  pat! "(?i)Sonos;Beam;",
  pat! "(?i)Sonos;Roam;",
  pat! "(?i)Sonos;Bookshelf;",
  pat! "(?i)Sonos;Move;",
  pat! "(?i)Play:?(\\d)",
  pat! "(?i)Sonos;One;",
  pat! "(?i)Sonos;OneSL",
  pat! "(?i)\\(ANVIL\\)",
  pat! "(?i)AG_1088_(A133P?|A523P)",
  pat! "(?i)(?:GRAVITY [34]G(?:_2019)?|GRAVITY2-4G|GRAVITY_4|GRAVITY_OCTACORE|GRAVITY[ -_](?:Max|SE|PRO|2-MAX|[23]|3_MINI|3_SE|ULTIMATE 2)|SPC (?:GEN|SMART)|SPC_ALIEN(?:_STICK)?|ZEUS_4G(?:_PRO)?|SPC Glow9\\.7|Lightyear|Laika|L70_Lite|L60 Turbo|L60 Pro|FLOW 7|SMART_ULTIMATE(?:_64)?|DISCOVERY_2_ME|Discovery (?:Pro|SE))(?:[);/ ]|$)",
  pat! "(?i)GRAVITY ([34])G_2019",
  pat! "(?i)GRAVITY ([34])G",
  pat! "(?i)GRAVITY 2|GRAVITY2-4G",
  pat! "(?i)GRAVITY_([43])",
  pat! "(?i)SPC Glow9\\.7",
  pat! "(?i)SMART_ULTIMATE(?:_64)?",
  pat! "(?i)(L60 Turbo|L60 Pro|Discovery (?:Pro|SE))",
  pat! "(?i)Spurt[_ ]|(?: K700)(?:[);/ ]|$)",
  pat! "(?i)(?:Spurt[_ ])?K([78]00)",
  pat! "(?i)SQOOL-V(41?)(?:[);/ ]|$)",
  pat! "(?i)(Y777_Fire)(?:[);/ ]|$)",
  pat! "(?i)(?:AERIAL(?: PLUS)?|BLOCK_MINI|BLOCK GO|BLOCK 3|Fractal|Joy Pro|Origins Pro|SLAY II)(?:[);/ ]|$)",
  pat! "(?i)STG[ _](A[12] Pro|[AS]1|X[1-3]|X20|S[1-3]0|[BCHP]10)(?:[);/ ]|$)",
  pat! "(?i)STK[_ ]|(?:Storm 2e Pluz|Life 7S)(?:[);/ ]|$)",
  pat! "(?i)STK[_ ]Transporter[_ ]1",
  pat! "(?i)STK[_ ]([^/;)]+)(?: Build|[;)])",
  pat! "(?i)STK[_ ]([a-z0-9]+)",
  pat! "(?i)LEAP-S1|SH6B7CE_EU012",
  pat! "(?i)(SH6B7CE)_(EU012)",
  pat! "(?i)(?:S3_U_EEA)(?:[);/ ]|$)",
  pat! "(?i)SUNWIND[_ ]|SUN[-_]LED\\d+|(?:SKY 9 [EA]\\d+ 3G|Sky (?:126[24]C|1123B|7143B|8244B|8421D|1430D) [43]G|SKY Kids 70 SS7238PG)(?:[);/ ]|$)",
  pat! "(?i)SKY ([79]) ([EA]\\d+) 3G",
  pat! "(?i)Sky (\\d{4}[BCD]) ([34])G",
  pat! "(?i)SUN[-_]LED(\\d+\\w{1,2}\\d+)",
  pat! "(?i)(?:SCHR9G[RL]|PRA(?:U8|100|557|507)|ZUR(?:722M|70016W?|700[RW]|805A))(?:[);/ ]|$)",
  pat! "(?i)SCHR9G[RL]",
  pat! "(?i)PRA(U8|100|557|507)(?:[);/ ]|$)",
  pat! "(?i)ZUR(70016W?|700[RW]|805A)(?:[);/ ]|$)",
  pat! "(?i)SWOFY[_ ]",
  pat! "(?i)SWOFY[_ ]M503-Pro",
  pat! "(?i)Young (Y56|Y36\\+|Y[35]5|Y51\\+)(?:[);/ ]|$)",
  pat! "(?i)TPS-(SC10)(?:[);/ ]|$)",
  pat! "(?i)Saba[_ ]|(?:32SB6000H|42SB6000F)(?:[);/ ]|$)",
  pat! "(?i)(?:Saba[_ ])?(\\d{2}SB\\d{4}[HF])(?:[);/ ]|$)",
  pat! "(?i)SMART TV(?:[);/ ]|$)",
  pat! "(?i)Safaricom|NEON[_ ]RAY|(?:NEON_NOVA|NEON PLUS|NEON PLUS|NEON LITE|Neon Storm|SFCSTB2LITE)(?:[);/ ]|$)",
  pat! "(?i)ET Kimem(?:[);/ ]|$)",
  pat! "(?i)Safaricom_Kimem_Kerefa_4G(?:[);/ ]|$)",
  pat! "(?i)SAGEM|portalmmm/2\\.0 (?:SG|my)",
  pat! "(?i)SAGEM-(my[a-z0-9-]+)",
  pat! "(?i)SAGEM ([a-z0-9]+)",
  pat! "(?i)SAGEM-([a-z0-9-]+)",
  pat! "(?i)portalmmm/2\\.0 ((?:SG|my)[a-z0-9]+)",
  pat! "(?i)Sagemcom[;, \\-_]|(DIW3930|DCTIW362_PLAY)(?:[);/ ]|$)",
  pat! "(?i)(DI384|DIW350|DIW387|DIW3930)(?:[);/ ]|$)",
  pat! "(?i)Sagemcom[;,] ([a-z0-9]+)(?:[);/ ]|$)",
  pat! "(?i)Sagemcom\\-OTT\\-([a-z0-9]+)(?:[);/ ]|$)",
  pat! "(?i)Sagemcom_Broadband_SAS,([a-z0-9_ -]+),(?:wired|wireless)",
  pat! "(?i)(?:STS5[57]0|STS502|STS602)(?:[);/ ]|$)",
  pat! "(?i)(STS5[57]0|STS602)",
  pat! "(?i)(STS502)",
  pat! "(?i)Salora(?:_cx)?[;,]",
  pat! "(?i)_TV_[A-Z0-9]+_([0-9]{4});",
  pat! "(?i)SmartTV;",
  pat! "(?i)SAMBOX[_ ]|KM22(?:[);/ ]|$)"]

/-- `__dr_re`, from item 7750 on (device_repo.go:26086-26335). -/
def drRe_31 : List (List Chunk) := [
  pat! "(?i)KM(22)",
  pat! "(?i)SAMSUNG|FamilyHub|SmartHub|SMART-TV.+Tizen.+SamsungBrowser|Gear Live|(?:SEC_)?SC-(?:001|01[EFGHKLM]|02[CGHJKLMF]|03[EFJKL]|04[EFJLG]|05[GL]|(?:4[12]|5[1-4])A|5[1-5][BC]|51E|5[15]D|56C|5[23]D)|N[57]100|N5110|N9100|S(?:CH|GH|PH|EC|AM|HV|HW|M)-|GT-|Galaxy|(?:portalmmm|o2imode)/2\\.0 [SZ]|sam[rua]|beyond[02]q?|crownq?lte|vollo Vi86(?:[);/ ]|$)|(?:lineage_|aokp_|rr_)?(?:serranoltexx|j5y17lte|Santos103G|fortuna3g|Verizon-SM)|(?:OTV-)?SMT-E5015|ISW11SC|40[34]SC|SC(?:G1[6789]|G2[0-7]|V3[1-9]|V4[0-9]|51Aa|-56B|T21|G0[1-9]|G1[0-5]|L2[234])(?:-[uj])?(?:[);/ ]|$)",
  pat! "(?i)(?:OTV-)?SMT-E5015",
  pat! "(?i)Samsung, ([a-z0-9_ -]+), (?:wired|wireless)",
  pat! "(?i)SmartTV\\+(201[345])",
  pat! "(?i)(?:SAMSUNG-)?(?:GT-)?N5100",
  pat! "(?i)(?:SAMSUNG-)?SM-T677(?:[ATV]|N[KL])?(?:[);/ ]|$)",
  pat! "(?i)(?:SAMSUNG-)?SM-T670(?:[);/ ]|$)",
  pat! "(?i)(?:SAMSUNG-)?(?:GT-)?N5110",
  pat! "(?i)(?:SAMSUNG-)?GT-N5120",
  pat! "(?i)(?:SAMSUNG-)?(?:GT|SM)-N8000",
  pat! "(?i)(?:SAMSUNG-)?GT-N8010",
  pat! "(?i)(?:SAMSUNG-)?GT-N8020",
  pat! "(?i)(?:SAMSUNG-)?GT-P1000M?|SCH-I800",
  pat! "(?i)(?:SAMSUNG-)?GT-P3100B?",
  pat! "(?i)(?:SAMSUNG-)?GT-P311[03]",
  pat! "(?i)(?:SAMSUNG-)?GT-P5100|SCH-I915",
  pat! "(?i)(?:SAMSUNG-)?GT-P511[03]",
  pat! "(?i)(?:SAMSUNG-)?SM-T217T",
  pat! "(?i)(?:SAMSUNG-)?GT-P5200|Santos103G",
  pat! "(?i)(?:SAMSUNG-)?GT-P5210",
  pat! "(?i)(?:SAMSUNG-)?GT-P5220",
  pat! "(?i)(?:SAMSUNG-)?GT-P6200",
  pat! "(?i)(?:SAMSUNG-)?GT-P6201",
  pat! "(?i)(?:SAMSUNG-)?GT-P6810",
  pat! "(?i)(?:SAMSUNG-)?GT-P7100",
  pat! "(?i)(?:SAMSUNG-)?GT-P75[01]0",
  pat! "(?i)(?:SAMSUNG-)?SM-T321",
  pat! "(?i)(?:SAMSUNG-)?SM-T905",
  pat! "(?i)(?:SAMSUNG-)?SM-P600",
  pat! "(?i)(?:SAMSUNG-)?SM-P60[12]",
  pat! "(?i)(?:SAMSUNG-)?SM-(?:P605|P607T)",
  pat! "(?i)(?:SAMSUNG-)?SM-P900",
  pat! "(?i)(?:SAMSUNG-)?SM-P901",
  pat! "(?i)(?:SAMSUNG-)?SM-P905",
  pat! "(?i)(?:SAMSUNG-)?SM-(?:P587|P588C)(?:[);/ ]|$)",
  pat! "(?i)(?:SAMSUNG-)?SM-P583(?:[);/ ]|$)",
  pat! "(?i)(?:SAMSUNG-)?SM-P205(?:[);/ ]|$)",
  pat! "(?i)(?:SAMSUNG-)?SM-P200(?:[);/ ]|$)",
  pat! "(?i)(?:SAMSUNG-)?SM-T307U(?:[);/ ]|$)",
  pat! "(?i)(?:SAMSUNG-)?SM-T297",
  pat! "(?i)(?:SAMSUNG-)?SM-(?:T505[CN]?|T507)(?:[);/ ]|$)",
  pat! "(?i)(?:SAMSUNG-)?SM-T500(?:[);/ ]|$)",
  pat! "(?i)(?:SAMSUNG-)?SM-T503(?:[);/ ]|$)",
  pat! "(?i)(?:SAMSUNG-)?SM-T22[57]",
  pat! "(?i)(?:SAMSUNG-)?SM-T220(?:[);/ ]|$)",
  pat! "(?i)(?:SAMSUNG-)?SM-X216",
  pat! "(?i)(?:SAMSUNG-)?SM-X218",
  pat! "(?i)(?:SAMSUNG-)?SM-X210",
  pat! "(?i)(?:SAMSUNG-)?SM-X215",
  pat! "(?i)(?:SAMSUNG-)?SM-X115",
  pat! "(?i)(?:SAMSUNG-)?SM-X110",
  pat! "(?i)(?:SAMSUNG-)?SM-X135",
  pat! "(?i)(?:SAMSUNG-)?SM-T11[03]",
  pat! "(?i)(?:SAMSUNG-)?SM-X205",
  pat! "(?i)(?:SAMSUNG-)?SM-X200",
  pat! "(?i)(?:SAMSUNG-)?SM-(?:T830[X]?|T837R4)(?:[);/ ]|$)",
  pat! "(?i)(?:SAMSUNG-)?SM-T837P(?:[);/ ]|$)",
  pat! "(?i)(?:SAMSUNG-)?SM-(?:T835[CN]?|T837[VTA]?)(?:[);/ ]|$)",
  pat! "(?i)(?:SAMSUNG-)?SM-(?:T725[CN]?|T720X|T727(?:R4|[AUV])?)(?:[);/ ]|$)",
  pat! "(?i)(?:SAMSUNG-)?SM-T720(?:[);/ ]|$)",
  pat! "(?i)(?:SAMSUNG-)?SM-T865N?(?:[);/ ]|$)",
  pat! "(?i)(?:SAMSUNG-)?SM-T867(?:R4|[VU])?(?:[);/ ]|$)",
  pat! "(?i)(?:SAMSUNG-)?SM-(?:P615[CN]?|P61[379])(?:[);/ ]|$)",
  pat! "(?i)(?:SAMSUNG-)?SM-P625",
  pat! "(?i)(?:SAMSUNG-)?SM-P620",
  pat! "(?i)(?:SAMSUNG-)?SM-(?:P610X?)(?:[);/ ]|$)",
  pat! "(?i)(?:SAMSUNG-)?SM-T860X?(?:[);/ ]|$)",
  pat! "(?i)(?:SAMSUNG-)?SM-T866N(?:[);/ ]|$)",
  pat! "(?i)(?:SAMSUNG-)?SM-X700",
  pat! "(?i)(?:SAMSUNG-)?SM-X900",
  pat! "(?i)(?:SAMSUNG-)?SM-X910(?:[);/ ]|$)",
  pat! "(?i)(?:SAMSUNG-)?SM-X916[CB]",
  pat! "(?i)(?:SAMSUNG-)?SM-X810",
  pat! "(?i)(?:SAMSUNG-)?(?:SM-X818U|SM-X816[BN])",
  pat! "(?i)(?:SAMSUNG-)?SM-X716",
  pat! "(?i)(?:SAMSUNG-)?SM-X616",
  pat! "(?i)(?:SAMSUNG-)?SM-X(?:518U|516)",
  pat! "(?i)(?:SAMSUNG-)?SM-X610",
  pat! "(?i)(?:SAMSUNG-)?SM-X710",
  pat! "(?i)(?:SAMSUNG-)?SM-T111",
  pat! "(?i)(?:SAMSUNG-)?SM-X920",
  pat! "(?i)(?:SAMSUNG-)?SM-X926",
  pat! "(?i)(?:SAMSUNG-)?SM-X620",
  pat! "(?i)(?:SAMSUNG-)?SM-X626B",
  pat! "(?i)(?:SAMSUNG-)?SM-X510",
  pat! "(?i)(?:SAMSUNG-)?SM-X520",
  pat! "(?i)(?:SAMSUNG-)?SM-X526",
  pat! "(?i)(?:SAMSUNG-)?SM-X820",
  pat! "(?i)(?:SAMSUNG-)?SM-X826",
  pat! "(?i)(?:SAMSUNG-)?SM-X400",
  pat! "(?i)(?:SAMSUNG-)?SM-X406",
  pat! "(?i)(?:SAMSUNG-)?SM-T116(?:BU|NU|NY)?",
  pat! "(?i)(?:SAMSUNG-)?SM-(?:T2105|T212)",
  pat! "(?i)(?:SAMSUNG-)?SM-T210R?",
  pat! "(?i)(?:SAMSUNG-)?SM-T21(?:[15]|7[AS])",
  pat! "(?i)(?:SAMSUNG-)?SM-T230(?:NU)?",
  pat! "(?i)(?:SAMSUNG-)?SM-T23[15]|403SC|SM-T321",
  pat! "(?i)(?:SAMSUNG-)?SM-(?:T239|T237[PV])",
  pat! "(?i)(?:SAMSUNG-)?SM-T232(?:[);/ ]|$)",
  pat! "(?i)(?:SAMSUNG-)?SM-T310",
  pat! "(?i)(?:SAMSUNG-)?SM-T312",
  pat! "(?i)(?:SAMSUNG-)?SM-T311",
  pat! "(?i)(?:SAMSUNG-)?SM-T315",
  pat! "(?i)(?:SAMSUNG-)?SM-T330",
  pat! "(?i)(?:SAMSUNG-)?SM-(?:T33[215]|T337[AVT])",
  pat! "(?i)(?:SAMSUNG-)?SM-T520",
  pat! "(?i)(?:SAMSUNG-)?SM-(?:T53[15]|T537[AV])",
  pat! "(?i)(?:SAMSUNG-)?SM-T536(?:[);/ ]|$)",
  pat! "(?i)(?:SAMSUNG-)?SM-T532(?:[);/ ]|$)",
  pat! "(?i)(?:SAMSUNG-)?SM-T320",
  pat! "(?i)(?:SAMSUNG-)?SM-T325",
  pat! "(?i)(?:SAMSUNG-)?SM-T525",
  pat! "(?i)(?:SAMSUNG-)?SM-(?:T530(?:NU)?|T533)",
  pat! "(?i)(?:SAMSUNG-)?SM-T700",
  pat! "(?i)(?:SAMSUNG-)?SM-(?:T705|T707[AV])",
  pat! "(?i)(?:SAMSUNG-)?SM-T800",
  pat! "(?i)(?:SAMSUNG-)?(?:SM-(?:T805|T807[PV]?)|SCT21)",
  pat! "(?i)(?:SAMSUNG-)?SM-(?:T813|T810)",
  pat! "(?i)(?:SAMSUNG-)?SM-(?:T719[CY]?|T715(?:N0|[CY])?)(?:[);/ ]|$)",
  pat! "(?i)(?:SAMSUNG-)?SM-(?:T71[03]|T710X)(?:[);/ ]|$)",
  pat! "(?i)(?:SAMSUNG-)?SM-(?:T815|T817[ATW]?|T818[ATVW]?|T819[Y]?)",
  pat! "(?i)(?:SAMSUNG-)?SM-T820",
  pat! "(?i)(?:SAMSUNG-)?SM-T82[57]",
  pat! "(?i)(?:SAMSUNG-)?SM-T975N?(?:[);/ ]|$)",
  pat! "(?i)(?:SAMSUNG-)?SM-T970(?:[);/ ]|$)",
  pat! "(?i)(?:SAMSUNG-)?SM-(?:T976[BN]|T978U)(?:[);/ ]|$)",
  pat! "(?i)(?:SAMSUNG-)?SM-T870(?:[);/ ]|$)",
  pat! "(?i)(?:SAMSUNG-)?SM-T875N?(?:[);/ ]|$)",
  pat! "(?i)(?:SAMSUNG-)?SM-T878U(?:[);/ ]|$)",
  pat! "(?i)(?:SAMSUNG-)?SM-T73[57]",
  pat! "(?i)(?:SAMSUNG-)?(?:SM-T736|SM-T738[UTV])",
  pat! "(?i)(?:SAMSUNG-)?SM-T733",
  pat! "(?i)(?:SAMSUNG-)?SM-X906",
  pat! "(?i)(?:SAMSUNG-)?SM-X80[68]",
  pat! "(?i)(?:SAMSUNG-)?SM-X800",
  pat! "(?i)(?:SAMSUNG-)?SM-X706",
  pat! "(?i)(?:SAMSUNG-)?SM-X730",
  pat! "(?i)(?:SAMSUNG-)?SM-T900",
  pat! "(?i)(?:SAMSUNG-)?SM-T280",
  pat! "(?i)(?:SAMSUNG-)?SM-T285",
  pat! "(?i)(?:SAMSUNG-)?SM-T3[58]0",
  pat! "(?i)(?:SAMSUNG-)?SM-(?:P350|T3[58]5|T357[TW])",
  pat! "(?i)(?:SAMSUNG-)?SM-T387(?:AA|R4|VK|[TPVW])",
  pat! "(?i)(?:SAMSUNG-)?SM-T295",
  pat! "(?i)(?:SAMSUNG-)?SM-T290",
  pat! "(?i)(?:SAMSUNG-)?SM-(?:P355([MY])?|T550)",
  pat! "(?i)(?:SAMSUNG-)?SM-(?:P550|P555(M)?|T555)",
  pat! "(?i)(?:SAMSUNG-)?SM-(?:T58[05]|P58[05])",
  pat! "(?i)(?:SAMSUNG-)?SM-T587[P]?",
  pat! "(?i)(?:SAMSUNG-)?SM-T59[057]",
  pat! "(?i)(?:SAMSUNG-)?SM-T51(?:7P|[057])",
  pat! "(?i)(?:SAMSUNG-)?SM-(?:T37[57]|T378[KLSV])",
  pat! "(?i)(?:SAMSUNG-)?SM-T56[02]",
  pat! "(?i)(?:SAMSUNG-)?SM-T561",
  pat! "(?i)(?:SAMSUNG-)?SM-T567V",
  pat! "(?i)(?:SAMSUNG-)?SM-X306",
  pat! "(?i)(?:SAMSUNG-)?SM-X300",
  pat! "(?i)(?:SAMSUNG-)?SM-T636",
  pat! "(?i)(?:SAMSUNG-)?SM-T365(?:F0|[MY])?(?:[);/ ]|$)",
  pat! "(?i)(?:SAMSUNG-)?SM-T360(?:[);/ ]|$)",
  pat! "(?i)(?:SAMSUNG-)?SM-(?:T395[CN]?|T397U)(?:[);/ ]|$)",
  pat! "(?i)(?:SAMSUNG-)?SM-T390(?:[);/ ]|$)",
  pat! "(?i)(?:SAMSUNG-)?SM-(?:T575N?|T577U?)(?:[);/ ]|$)",
  pat! "(?i)(?:SAMSUNG-)?SM-T570(?:[);/ ]|$)",
  pat! "(?i)(?:SAMSUNG-)?SM-(?:T545|T547U?)(?:[);/ ]|$)",
  pat! "(?i)(?:SAMSUNG-)?SM-T540(?:[);/ ]|$)",
  pat! "(?i)(?:SAMSUNG-)?SM-(?:P902|P907A)(?:[);/ ]|$)",
  pat! "(?i)(?:SAMSUNG[- ])?SM-T2519",
  pat! "(?i)SM-R8[76]0",
  pat! "(?i)SM-R90[05]",
  pat! "(?i)SM-R91[05]",
  pat! "(?i)Family ?Hub",
  pat! "(?i)(?:SAMSUNG-)?SM-A245",
  pat! "(?i)(?:SAMSUNG-)?SM-A256",
  pat! "(?i)(?:SAMSUNG-)?SM-G850(?:8S|[AFKLMSWXY])",
  pat! "(?i)(?:SAMSUNG-)?GT-B5330",
  pat! "(?i)(?:SAMSUNG-)?SM-A605K",
  pat! "(?i)(?:SAMSUNG-)?SM-A202K",
  pat! "(?i)(?:SAMSUNG-)?GT-B5510",
  pat! "(?i)(?:SAMSUNG-)?GT-B5512",
  pat! "(?i)(?:SAMSUNG-)?GT-B7510",
  pat! "(?i)(?:SAMSUNG-)?GT-I5700",
  pat! "(?i)(?:SAMSUNG-)?GT-I5801",
  pat! "(?i)(?:SAMSUNG-)?GT-I5800",
  pat! "(?i)(?:SAMSUNG-)?GT-I8000",
  pat! "(?i)(?:SAMSUNG-)?GT-S7530",
  pat! "(?i)(?:SAMSUNG-)?GT-I8350",
  pat! "(?i)(?:SAMSUNG-)?OMNIA7",
  pat! "(?i)(?:SAMSUNG-)?SGH-i677",
  pat! "(?i)(?:SAMSUNG-)?SGH-i917",
  pat! "(?i)(?:SAMSUNG-)?SGH-i937",
  pat! "(?i)(?:SAMSUNG-)?(?:GT-I8150|SM-T255S)",
  pat! "(?i)SC-01H(?:[);/ ]|$)",
  pat! "(?i)(?:SAMSUNG-)?GT-S5830",
  pat! "(?i)(?:SAMSUNG-)?SM-(?:G357(?:FZ|M)|G310HN)",
  pat! "(?i)(?:SAMSUNG-)?GT-I8160",
  pat! "(?i)(?:SAMSUNG-)?SM-G313(?:HY|M[LUY]|[FM])",
  pat! "(?i)(?:SAMSUNG-)?SM-G316M",
  pat! "(?i)(?:SAMSUNG-)?SM-G313[HU]",
  pat! "(?i)(?:SAMSUNG-)?SM-(?:G316U|G318(?:H|ML))(?:[);/ ]|$)",
  pat! "(?i)(?:SAMSUNG-)?SM-G9100(?:[);/ ]|$)",
  pat! "(?i)(?:SAMSUNG-)?SHV-E120",
  pat! "(?i)(?:SAMSUNG-)?GT-I8190",
  pat! "(?i)(?:SAMSUNG-)?GT-I8200",
  pat! "(?i)(?:SAMSUNG-)?GT-I826[02]",
  pat! "(?i)(?:SAMSUNG-)?SHW-M570S",
  pat! "(?i)(?:SAMSUNG-)?SM-G386W",
  pat! "(?i)(?:SAMSUNG-)?SM-G3589W",
  pat! "(?i)(?:SAMSUNG-)?GT-I8320",
  pat! "(?i)(?:SAMSUNG-)?GT-I85[23]0",
  pat! "(?i)(?:SAMSUNG-)?SM-G3858",
  pat! "(?i)(?:SAMSUNG-)?SM-G600S",
  pat! "(?i)(?:SAMSUNG-)?SM-E426S",
  pat! "(?i)(?:SAMSUNG-)?SM-M156S",
  pat! "(?i)(?:SAMSUNG-)?SM-M166S",
  pat! "(?i)(?:SAMSUNG-)?GT-I855[028]",
  pat! "(?i)(?:SAMSUNG-)?SM-G381[28]",
  pat! "(?i)(?:SAMSUNG-)?GT-I8580",
  pat! "(?i)(?:SAMSUNG-)?GT-I8730",
  pat! "(?i)(?:SAMSUNG-)?SM-(?:E500(?:HQ|YZ|[0FHM])|S978L)",
  pat! "(?i)(?:SAMSUNG-)?SM-E700[09FHM]",
  pat! "(?i)(?:SAMSUNG-)?GT-I90(?:00|08|18|88)",
  pat! "(?i)(?:SAMSUNG-)?GT-I9001",
  pat! "(?i)(?:SAMSUNG-)?GT-I9003",
  pat! "(?i)(?:SAMSUNG-)?GT-I9010",
  pat! "(?i)(?:SAMSUNG-)?GT-I9070",
  pat! "(?i)(?:SAMSUNG-)?GT-I910[08]",
  pat! "(?i)(?:SAMSUNG-)?ISW11SC",
  pat! "(?i)(?:SAMSUNG-)?GT-I9103",
  pat! "(?i)(?:SAMSUNG-)?GT-I9105",
  pat! "(?i)(?:SAMSUNG-)?SM-G730(?:W8|[AV])",
  pat! "(?i)(?:SAMSUNG-)?(?:GT-I919[025]|SCH-I435)|(?:lineage_|aokp_)?serranoltexx",
  pat! "(?i)(?:SAMSUNG-)?GT-I9515",
  pat! "(?i)(?:SAMSUNG-)?(?:GT-I9295|SHV-E470S)",
  pat! "(?i)(?:SAMSUNG-)?(?:GT-I9300|SCH-(?:I535|I939|L710))|SC-03E",
  pat! "(?i)(?:SAMSUNG-)?(?:GT-I9305|SCH-R530)",
  pat! "(?i)(?:SAMSUNG-)?(?:SM-S975L|GT-I950[025]|SC-04E|SCH-(?:I545|I959|R970)|SGH-M919N?|Galaxy-S4|SHV-E300K)",
  pat! "(?i)(?:SAMSUNG-)?(?:GT-I9506)",
  pat! "(?i)(?:SAMSUNG-)?SHV-E330",
  pat! "(?i)(?:SAMSUNG-)?GT-S5280",
  pat! "(?i)(?:SAMSUNG-)?GT-S5301",
  pat! "(?i)(?:SAMSUNG-)?GT-S5310",
  pat! "(?i)(?:SAMSUNG-)?SM-G110[BHM]",
  pat! "(?i)(?:SAMSUNG-)?GT-S5360",
  pat! "(?i)(?:SAMSUNG-)?GT-S6310",
  pat! "(?i)(?:SAMSUNG-)?GT-S6312",
  pat! "(?i)(?:SAMSUNG-)?SM-G130(?:BT|HN|[EHMU])",
  pat! "(?i)(?:SAMSUNG-)?SM-G130BU",
  pat! "(?i)(?:SAMSUNG-)?GT-S6790"]

/-- `__dr_re`, from item 8000 on (device_repo.go:26336-26585). -/
def drRe_32 : List (List Chunk) := [
  pat! "(?i)(?:SAMSUNG-)?GT-S6810",
  pat! "(?i)(?:SAMSUNG-)?GT-S6812",
  pat! "(?i)SC-04J(?:[);/ ]|$)",
  pat! "(?i)SC-02L(?:[);/ ]|$)",
  pat! "(?i)(?:SAMSUNG-)?GT-S7275",
  pat! "(?i)(?:SAMSUNG-)?GT-S7500",
  pat! "(?i)(?:SAMSUNG-)?(?:GT-S7560|SCH-I699)",
  pat! "(?i)(?:SAMSUNG-)?GT-S7390",
  pat! "(?i)(?:SAMSUNG-)?GT-S7580",
  pat! "(?i)(?:SAMSUNG-)?SCH-I739",
  pat! "(?i)(?:SAMSUNG-)?(?:GT-S7562|SCH-I919)",
  pat! "(?i)(?:SAMSUNG-)?GT-S7582",
  pat! "(?i)(?:SAMSUNG-)?SM-(?:G31[36]HU|G313HZ)",
  pat! "(?i)(?:SAMSUNG-)?GT-S7710",
  pat! "(?i)(?:SAMSUNG-)?SM-G388F",
  pat! "(?i)(?:SAMSUNG-)?SM-G389F",
  pat! "(?i)(?:SAMSUNG-)?SM-G390[FWY]",
  pat! "(?i)(?:SAMSUNG-)?SM-G398FN",
  pat! "(?i)(?:SAMSUNG-)?SM-G715(?:FN|U1|[AUW])",
  pat! "(?i)(?:SAMSUNG-)?SM-G889(?:YB|[AFG])",
  pat! "(?i)(?:SAMSUNG-)?SM-G525[FN]",
  pat! "(?i)(?:SAMSUNG-)?SM-G736",
  pat! "(?i)(?:SAMSUNG-)?SM-G556",
  pat! "(?i)(?:SAMSUNG-)?GT-S8500",
  pat! "(?i)(?:SAMSUNG-)?GT-S8530",
  pat! "(?i)(?:SAMSUNG-)?GT-S8600",
  pat! "(?i)(?:SAMSUNG-)?GT-S5380",
  pat! "(?i)(?:SAMSUNG-)?GT-S7250",
  pat! "(?i)(?:SAMSUNG-)?GT-S5250",
  pat! "(?i)(?:SAMSUNG-)?GT-S5330",
  pat! "(?i)(?:SAMSUNG-)?GT-S5780",
  pat! "(?i)(?:SAMSUNG-)?GT-S7230",
  pat! "(?i)(?:SAMSUNG-)?SM-(?:C101|C105([AL])?)",
  pat! "(?i)(?:SAMSUNG-)?SM-(?:C111(M)?|C115)",
  pat! "(?i)(?:SAMSUNG-)?SM-G318[HM]Z",
  pat! "(?i)(?:SAMSUNG-)?SM-G355(?:6D|[89HM])",
  pat! "(?i)(?:SAMSUNG-)?SM-G350",
  pat! "(?i)(?:SAMSUNG-)?SM-(?:G360[FH]?|S820L)",
  pat! "(?i)(?:SAMSUNG-)?SM-G361[FH]?",
  pat! "(?i)(?:SAMSUNG-)?SM-(?:G386F|G3518(?:_TD)?|G3586V)",
  pat! "(?i)(?:SAMSUNG-)?SM-G3568V",
  pat! "(?i)(?:SAMSUNG-)?SM-G5108Q?",
  pat! "(?i)(?:SAMSUNG-)?SM-G3815",
  pat! "(?i)(?:SAMSUNG-)?SM-G80[01]",
  pat! "(?i)(?:SAMSUNG-)?SM-G9009D",
  pat! "(?i)(?:SAMSUNG-)?SM-G900FD",
  pat! "(?i)(?:SAMSUNG-)?SM-(?:G900|G906[KLS]|S902L|S903VL|G490F)|Galaxy-S5|SCL23|SC-04F",
  pat! "(?i)(?:SAMSUNG-)?SM-G901F",
  pat! "(?i)(?:SAMSUNG-)?SM-G870[AFW]|SC-02G",
  pat! "(?i)(?:SAMSUNG-)?SM-G903[FMW]",
  pat! "(?i)(?:SAMSUNG-)?SM-G860P",
  pat! "(?i)(?:SAMSUNG-)?(?:SM-G920(?:F[DQ]|W8|[089AFIKLPRSTVX])?|SM-S906L|SM-S907VL)|SC-05G",
  pat! "(?i)(?:SAMSUNG-)?SM-G890A",
  pat! "(?i)(?:SAMSUNG-)?(?:SM-G925[0ADFJIKLPRSTVWX]|SCV31|404SC|SC-04G|SM-G828)",
  pat! "(?i)(?:SAMSUNG-)?SM-G928(?:7C|N0|R4|W8|[07ACFGIKLPSTVX])",
  pat! "(?i)(?:SAMSUNG-|Verizon-)?SM-G930(?:AZ|FD|R[467]|T1|V[CL]|W8|[0AFKLPRSTUVX8])?(?:[);/ ]|$)",
  pat! "(?i)(?:SAMSUNG-)?SM-G935(?:R4|W8|[0AFKLPSTUVX])|SC-02H|SCV33|Galaxy s7 edge",
  pat! "(?i)(?:SAMSUNG-)?SM-G891A",
  pat! "(?i)(?:SAMSUNG-)?SM-G950[08FNUW]?|SCV36|SC-02J",
  pat! "(?i)(?:SAMSUNG-)?SM-G8750",
  pat! "(?i)(?:SAMSUNG-)?SM-G892[AU]",
  pat! "(?i)(?:SAMSUNG-)?SM-G955[0AFKLNPRTUVWX]?|SCV35|SC-03J",
  pat! "(?i)(?:SAMSUNG-)?SM-G960[0FNUWX]?|SCV38|SC-02K",
  pat! "(?i)(?:SAMSUNG-)?SM-G965[0FNUWX]|SCV39|SC-03K",
  pat! "(?i)(?:SAMSUNG-)?(?:SM-(?:G973|G977[BNPTU])|SCV41|SC-03L)",
  pat! "(?i)(?:SAMSUNG-)?SM-(?:S10 Lite|G770(?:U1|F))",
  pat! "(?i)(?:SAMSUNG-)?(?:SM-G975[08FUNWX]|SCV42|SC-04L)",
  pat! "(?i)(?:(?:SAMSUNG-)?SM-G970(?:U1|[08FUNWX])|beyond0q?)(?:[);/ ]|$)",
  pat! "(?i)(?:SAMSUNG-)?SM-G980F",
  pat! "(?i)(?:SAMSUNG-)?SM-G981(?:U1|[0BNUVW])|SCG01|SC-51A|SC51Aa",
  pat! "(?i)(?:SAMSUNG-)?SM-G780",
  pat! "(?i)(?:SAMSUNG-)?SM-G781(?:U1|[0BNUVW])",
  pat! "(?i)(?:SAMSUNG-)?SM-G988(?:U1|[0BNQUW])|SCG03",
  pat! "(?i)(?:SAMSUNG-)?SM-G985F|SCG02",
  pat! "(?i)(?:SAMSUNG-)?SM-G986(?:U1|[0BNUW])|SC-52A",
  pat! "(?i)(?:SAMSUNG-)?SM-G991V",
  pat! "(?i)(?:SAMSUNG-)?SM-G991(?:U1|R4|[0ABNWQU])|SCG09",
  pat! "(?i)(?:SAMSUNG-)?SM-G990",
  pat! "(?i)(?:SAMSUNG-)?SC-51B",
  pat! "(?i)(?:SAMSUNG-)?(?:SM-G998(?:U1|[0BNUWTP])|SC-52B)",
  pat! "(?i)(?:SAMSUNG-)?SM-G996(?:U1|[0BNWUP])|SCG10",
  pat! "(?i)(?:SAMSUNG-)?SM-S901(?:U1|[0BENUW])|SC-51C|SCG13",
  pat! "(?i)(?:SAMSUNG-)?SM-S908(?:U1|[0BENUW])|SCG14|SC-52C",
  pat! "(?i)(?:SAMSUNG-)?SM-S906(?:U1|[0BENUW])",
  pat! "(?i)(?:SAMSUNG-)?(?:SM-S911|SCG19|SC-51D)",
  pat! "(?i)(?:SAMSUNG-)?SM-S916",
  pat! "(?i)(?:SAMSUNG-)?(?:SM-S918|SC-52D|SCG20)",
  pat! "(?i)(?:SAMSUNG-)?(?:SM-S711|SCG24)",
  pat! "(?i)(?:SAMSUNG-)?(?:SM-S921|SCG25|SC-51E)",
  pat! "(?i)(?:SAMSUNG-)?(?:SM-S926)",
  pat! "(?i)(?:SAMSUNG-)?(?:SM-S721|SCG30)",
  pat! "(?i)(?:SAMSUNG-)?(?:SM-S928|SCG26)",
  pat! "(?i)(?:SAMSUNG-)?(?:SM-S936)",
  pat! "(?i)(?:SAMSUNG-)?(?:SM-S931)",
  pat! "(?i)(?:SAMSUNG-)?(?:SM-S937)",
  pat! "(?i)(?:SAMSUNG-)?(?:SM-S938)",
  pat! "(?i)(?:SAMSUNG-)?SM-F700(?:U1|[0FNUW])|SCV47",
  pat! "(?i)(?:SAMSUNG-)?SM-F707(?:U1|[0BNUW])|SCG04",
  pat! "(?i)(?:SAMSUNG-)?SCH-I200",
  pat! "(?i)(?:SAMSUNG-)?SCH-I829",
  pat! "(?i)(?:SAMSUNG-)?(?:SCH-R740|SGH-S730)",
  pat! "(?i)(?:SAMSUNG-)?SCH-S738",
  pat! "(?i)vollo Vi86(?:[);/ ]|$)",
  pat! "(?i)(?:SAMSUNG-)?SM-G386(?:T1|T)",
  pat! "(?i)(?:SAMSUNG-)?SM-A716S",
  pat! "(?i)(?:SAMSUNG-)?SM-(?:A015(?:DL|[TU]1|[AFGMUV])|S111DL)",
  pat! "(?i)(?:SAMSUNG-)?SM-A013[FGM]",
  pat! "(?i)(?:SAMSUNG-)?SM-(?:A025(?:[AFGM]|AZ)?|S124DL)",
  pat! "(?i)(?:SAMSUNG-)?(?:SM-A037[F]?|SM-S13[45]DL)",
  pat! "(?i)(?:SAMSUNG-)?SM-A035[F]?",
  pat! "(?i)(?:SAMSUNG-)?SM-A047",
  pat! "(?i)(?:SAMSUNG-)?SM-A042[FM]",
  pat! "(?i)(?:SAMSUNG-)?SM-A045",
  pat! "(?i)(?:SAMSUNG-)?SM-A032[F]?",
  pat! "(?i)(?:SAMSUNG-)?SM-A022[GMF]?",
  pat! "(?i)(?:SAMSUNG-)?SM-A055",
  pat! "(?i)(?:SAMSUNG-)?SM-A057",
  pat! "(?i)(?:SAMSUNG-)?SM-A066",
  pat! "(?i)(?:SAMSUNG-)?SM-A065",
  pat! "(?i)(?:SAMSUNG-)?SM-A260[FG]",
  pat! "(?i)(?:SAMSUNG-)?(?:SM-S115(?:DL)?|SM-A115V)",
  pat! "(?i)(?:SAMSUNG-)?(?:SM-[AS]146)",
  pat! "(?i)(?:SAMSUNG-)?(?:SM-A145)",
  pat! "(?i)(?:SAMSUNG-)?(?:SM-A156|SM-S156V)",
  pat! "(?i)(?:SAMSUNG-)?(?:SM-A155)",
  pat! "(?i)(?:SAMSUNG-)?(?:SM-A165)",
  pat! "(?i)(?:SAMSUNG-)?(?:SM-[AS]166)",
  pat! "(?i)(?:SAMSUNG-)?SM-A225[F]?",
  pat! "(?i)(?:SAMSUNG-)?SM-A226L",
  pat! "(?i)(?:SAMSUNG-)?SM-A156L",
  pat! "(?i)(?:SAMSUNG-)?SM-A226|SC-56B",
  pat! "(?i)(?:SAMSUNG-)?SM-A300(?:FU|YZ|XU|XZ|[09FGHMXY])",
  pat! "(?i)(?:SAMSUNG-)?SM-A310(?:N0|[FMXY])",
  pat! "(?i)(?:SAMSUNG-)?SM-A320(?:FL|[FXY])",
  pat! "(?i)(?:SAMSUNG-)?SM-A346",
  pat! "(?i)(?:SAMSUNG-)?SM-A356",
  pat! "(?i)(?:SAMSUNG-)?SM-A366",
  pat! "(?i)(?:SAMSUNG-)?SM-A430F",
  pat! "(?i)(?:SAMSUNG-)?(?:SM-A500(?:YZ|[9LSWY])?|SM-A5OOH)(?:[);/ ]|$)",
  pat! "(?i)(?:SAMSUNG-)?SM-A500[0FGHKM]",
  pat! "(?i)(?:SAMSUNG-)?SM-A500(?:FU|X)",
  pat! "(?i)(?:SAMSUNG-)?SM-A510[08FKLMSXY]",
  pat! "(?i)(?:SAMSUNG-)?SM-A520[FKLSWX]",
  pat! "(?i)(?:SAMSUNG-)?SM-A525",
  pat! "(?i)(?:SAMSUNG-)?(?:SC-53B|SM-A526)",
  pat! "(?i)(?:SAMSUNG-)?SM-A528",
  pat! "(?i)(?:SAMSUNG-)?SM-A600(?:AZ|FN|GN|T1|[AFGNPTUX])|SM-A6(?:[);/ ]|$)",
  pat! "(?i)(?:SAMSUNG-)?SM-A605(?:[FG]N|[08FGX])|SM-A6\\+",
  pat! "(?i)(?:SAMSUNG-)?SM-G6200",
  pat! "(?i)(?:SAMSUNG-)?SM-A606[0Y]",
  pat! "(?i)(?:SAMSUNG-)?SM-A700(?:YD|[09FHKLSX])",
  pat! "(?i)(?:SAMSUNG-)?SM-A710[08FKLMSXY]",
  pat! "(?i)(?:SAMSUNG-)?SM-A720[FMSX]",
  pat! "(?i)(?:SAMSUNG-)?SM-A750(?:GN|[CFGNX])",
  pat! "(?i)(?:SAMSUNG-)?SM-A71(?:5[FW])?(?:[);/ ]|$)",
  pat! "(?i)(?:SAMSUNG-)?SM-A725[FM](?:[);/ ]|$)",
  pat! "(?i)(?:SAMSUNG-)?SM-A736",
  pat! "(?i)(?:SAMSUNG-)?SM-A716(?:U1|[0BUVT])(?:[);/ ]|$)",
  pat! "(?i)(?:SAMSUNG-)?SM-A(?:530F|800[0FISXY])|SCV32",
  pat! "(?i)(?:SAMSUNG-)?SM-G885[FSY]",
  pat! "(?i)(?:SAMSUNG-)?SM-A810(?:YZ|[FS])",
  pat! "(?i)(?:SAMSUNG-)?SM-(?:A8s|G887[0F])",
  pat! "(?i)(?:SAMSUNG-)?SM-A530[MNWX]",
  pat! "(?i)(?:SAMSUNG-)?SM-A730[FX]",
  pat! "(?i)(?:SAMSUNG-)?SM-A900[0F]",
  pat! "(?i)SM-A9\\[7\\]",
  pat! "(?i)(?:SAMSUNG-)?SM-A920[0FXN]",
  pat! "(?i)(?:SAMSUNG-)?SM-G885[08]",
  pat! "(?i)(?:SAMSUNG-)?SM-(?:A9 Pro|A910[0F]|G887N)",
  pat! "(?i)(?:SAMSUNG-)?SM-A105[FGMN]",
  pat! "(?i)(?:SAMSUNG-)?SM-A107[FM]",
  pat! "(?i)(?:SAMSUNG-)?SM-(?:S102DL|A102[NUW])",
  pat! "(?i)(?:SAMSUNG-)?SM-A115(?:A[PZ]|U1|[AFMUW])",
  pat! "(?i)(?:SAMSUNG-)?SM-(?:A12(?:5[AFMNUWTPV]|7[FM])|S127DL)",
  pat! "(?i)(?:SAMSUNG-)?SM-(?:A136(?:U1|[BMWUS])|S136DL)",
  pat! "(?i)(?:SAMSUNG-)?(?:SM-A135|SM-A137F)",
  pat! "(?i)(?:SAMSUNG-)?SM-(?:A205(?:U1|YN|[FGSWU])|S205DL)|SC-02M|SCV46",
  pat! "(?i)(?:SAMSUNG-)?(?:SM-A215(?:DL|R4|U1|[UWTP])|SM-S215DL|SC-42A|SCV49|SM-A102J)(?:[);/ ]|$)",
  pat! "(?i)(?:SAMSUNG-)?SM-A217",
  pat! "(?i)(?:SAMSUNG-)?SM-A202[FG]",
  pat! "(?i)(?:SAMSUNG-)?SM-A207[0FM]",
  pat! "(?i)(?:SAMSUNG-)?SM-A235",
  pat! "(?i)(?:SAMSUNG-)?SM-A23[36]|SM-S236|SC-56C|SCG18",
  pat! "(?i)(?:SAMSUNG-)?(?:SM-A305(?:[FGY]N|GT|[FGN])|SCV43)",
  pat! "(?i)(?:SAMSUNG-)?SM-A307(?:FN|GN|GT|[FG])",
  pat! "(?i)(?:SAMSUNG-)?SM-A315[FGN](?:[);/ ]|$)",
  pat! "(?i)(?:SAMSUNG-)?SM-A325",
  pat! "(?i)(?:SAMSUNG-)?(?:SM-(?:A326(?:BR|U1|[BUWJ])|S326DL)|SCG08)",
  pat! "(?i)(?:SAMSUNG-)?SM-A336",
  pat! "(?i)(?:SAMSUNG-)?SM-A405(?:F[NM]|S)",
  pat! "(?i)(?:SAMSUNG-)?SM-A305[018](?:[);/ ]|$)",
  pat! "(?i)(?:SAMSUNG-)?(?:SM-A415F|SC-41A|SCV48)(?:[);/ ]|$)",
  pat! "(?i)(?:SAMSUNG-)?SM-[AS]426",
  pat! "(?i)(?:SAMSUNG-)?SM-(?:A505(?:F[GN]|U1|YN|[FGNUWX])|S506DL|505FN)",
  pat! "(?i)(?:SAMSUNG-)?SM-A5070(?:[);/ ]|$)",
  pat! "(?i)(?:SAMSUNG-)?SM-A507FN",
  pat! "(?i)(?:SAMSUNG-)?SM-(?:A515[FUW]|S515DL)",
  pat! "(?i)(?:SAMSUNG-)?(?:SM-A516(?:U1|[0BNUVTF])|SC-54A|SCG07)",
  pat! "(?i)(?:SAMSUNG-)?SM-A536V",
  pat! "(?i)(?:SAMSUNG-)?(?:SM-A536|SC-53C|SCG15|SM-S536DL)",
  pat! "(?i)(?:SAMSUNG-)?SM-A546S",
  pat! "(?i)(?:SAMSUNG-)?SM-A566S",
  pat! "(?i)(?:SAMSUNG-)?(?:SM-[AS]546|SC-53D|SCG21)",
  pat! "(?i)(?:SAMSUNG-)?(?:SM-A556|SCG27)",
  pat! "(?i)(?:SAMSUNG-)?(?:SM-A566)",
  pat! "(?i)(?:SAMSUNG-)?SM-A705(?:GM|[MYF]N|[0FUWX])",
  pat! "(?i)(?:SAMSUNG-)?SM-A707[0FW]",
  pat! "(?i)(?:SAMSUNG-)?SM-A805[0FNX]",
  pat! "(?i)(?:SAMSUNG-)?SM-A908[BN]",
  pat! "(?i)(?:SAMSUNG-)?SM-A9080",
  pat! "(?i)(?:SAMSUNG-)?SM-E025F",
  pat! "(?i)(?:SAMSUNG-)?SM-E045F",
  pat! "(?i)(?:SAMSUNG-)?SM-E055",
  pat! "(?i)(?:SAMSUNG-)?SM-E066",
  pat! "(?i)(?:SAMSUNG-)?SM-F127G(?:[);/ ]|$)",
  pat! "(?i)(?:SAMSUNG-)?SM-E135F",
  pat! "(?i)(?:SAMSUNG-)?SM-E146B",
  pat! "(?i)(?:SAMSUNG-)?SM-E145F",
  pat! "(?i)(?:SAMSUNG-)?SM-E156B",
  pat! "(?i)(?:SAMSUNG-)?SM-E166P",
  pat! "(?i)(?:SAMSUNG-)?SM-E225F(?:[);/ ]|$)",
  pat! "(?i)(?:SAMSUNG-)?SM-E236",
  pat! "(?i)(?:SAMSUNG-)?SM-E346",
  pat! "(?i)(?:SAMSUNG-)?SM-F415F(?:[);/ ]|$)",
  pat! "(?i)(?:SAMSUNG-)?SM-E426B(?:[);/ ]|$)",
  pat! "(?i)(?:SAMSUNG-)?SM-E5260(?:[);/ ]|$)",
  pat! "(?i)(?:SAMSUNG-)?SM-E546",
  pat! "(?i)(?:SAMSUNG-)?SM-E625",
  pat! "(?i)(?:SAMSUNG-)?GT-I9301I",
  pat! "(?i)(?:SAMSUNG-)?SM-S120VL",
  pat! "(?i)(?:SAMSUNG-)?SGH-T399",
  pat! "(?i)(?:SAMSUNG-)?SM-(?:J100(?:FN|VPP|MU|[FGHMY])|S777C)",
  pat! "(?i)(?:SAMSUNG-)?SM-J105[BFHYM]",
  pat! "(?i)(?:SAMSUNG-)?SM-J106[BFHM]",
  pat! "(?i)(?:SAMSUNG-)?SM-(?:J120(?:ZN|[AFGHMPTW])|J05H)",
  pat! "(?i)(?:SAMSUNG-)?SM-(?:J110[FGHLM]|J111[FM])",
  pat! "(?i)(?:SAMSUNG-)?SM-J200[FGHMY]",
  pat! "(?i)(?:SAMSUNG-)?SM-J200BT",
  pat! "(?i)(?:SAMSUNG-)?SM-J260AZ",
  pat! "(?i)(?:SAMSUNG-)?SM-(?:J260([AFGMY]|T1)|S260DL)",
  pat! "(?i)(?:SAMSUNG-)?SM-J(?:210F|250[FGMNY])",
  pat! "(?i)(?:SAMSUNG-)?SM-(?:S367VL|S357BL)",
  pat! "(?i)(?:SAMSUNG-)?SM-J311(?:[09]|9S)",
  pat! "(?i)(?:SAMSUNG-)?SM-S320VL(?:[);/ ]|$)",
  pat! "(?i)(?:SAMSUNG-)?SM-S327VL(?:[);/ ]|$)",
  pat! "(?i)(?:SAMSUNG-)?SM-J327(?:T1|[ATW])(?:[);/ ]|$)",
  pat! "(?i)(?:SAMSUNG-)?SM-J327(?:[FP]|R4)",
  pat! "(?i)(?:SAMSUNG-)?SM-J337R4(?:[);/ ]|$)",
  pat! "(?i)(?:SAMSUNG-)?SM-J337T(?:[);/ ]|$)",
  pat! "(?i)(?:SAMSUNG-)?SM-J327VPP"]

/-- `__dr_re`, from item 8250 on (device_repo.go:26586-26835). -/
def drRe_33 : List (List Chunk) := [
  pat! "(?i)(?:SAMSUNG-)?SM-J327V",
  pat! "(?i)(?:SAMSUNG-)?SM-S337TL",
  pat! "(?i)(?:SAMSUNG-)?SM-J3109",
  pat! "(?i)(?:SAMSUNG-)?SM-(?:J300H|J320(?:[ZF]N|R4|W8|YZ|[AFGHMNPVY]))",
  pat! "(?i)(?:SAMSUNG-)?SM-(?:J330(?:FN|[08FGLN])|J327(?:R[76]|U))(?:[);/ ]|$)",
  pat! "(?i)(?:SAMSUNG-)?SM-J337(?:VPP|[AWPUV])(?:[);/ ]|$)",
  pat! "(?i)(?:SAMSUNG-)?SM-(?:G400[FG]|J400[FGM])",
  pat! "(?i)(?:SAMSUNG-)?SM-J500(?:FN|N0|[78FGHMY])(?:[);/ ]|$)",
  pat! "(?i)(?:SAMSUNG-)?SM-(?:J510(?:[FGMU]N|FQ|[8FGHKLSY])?|5108|G510H)(?:[);/ ]|$)",
  pat! "(?i)(?:SAMSUNG-)?SM-J530[GY]",
  pat! "(?i)(?:SAMSUNG-)?SM-J530|(?:lineage_)?j5y17lte",
  pat! "(?i)(?:SAMSUNG-)?SM-G570[0FMY]",
  pat! "(?i)(?:SAMSUNG-)?SM-J600[FGLN]",
  pat! "(?i)(?:SAMSUNG-)?SM-J610[FG]",
  pat! "(?i)(?:SAMSUNG-)?SM-J410[FG]",
  pat! "(?i)(?:SAMSUNG-)?SM-J415(?:[FG]N|[FGN])",
  pat! "(?i)(?:SAMSUNG-)?SM-J710FN(?:[);/ ]|$)",
  pat! "(?i)(?:SAMSUNG-)?SM-J7[01]0(?:FN|MN|[8FHKM])",
  pat! "(?i)(?:SAMSUNG-)?SM-J700P",
  pat! "(?i)(?:SAMSUNG-)?SM-(?:J700(?:T1|T)|J710GN|J7109?)",
  pat! "(?i)(?:SAMSUNG-)?SM-(?:J730[K]|J727(?:R4|[AFSU]))(?:[);/ ]|$)",
  pat! "(?i)(?:SAMSUNG-)?SM-J737(?:R4|T1|VPP|[APSTUV])(?:[);/ ]|$)",
  pat! "(?i)(?:SAMSUNG-)?SM-C710F",
  pat! "(?i)(?:SAMSUNG-)?SM-G610[FMY]",
  pat! "(?i)(?:SAMSUNG-)?SM-G611(?:FF|MT|M)",
  pat! "(?i)(?:SAMSUNG-)?SM-G615F",
  pat! "(?i)(?:SAMSUNG-)?SM-(?:S727VL|S737TL)",
  pat! "(?i)(?:SAMSUNG-)?SM-(?:J7 Pro|J730(?:GM|[FG]))",
  pat! "(?i)(?:SAMSUNG-)?SM-J701[FM]",
  pat! "(?i)(?:SAMSUNG-)?SM-J720[FM]",
  pat! "(?i)(?:SAMSUNG-)?SM-(?:S767VL|S757BL)",
  pat! "(?i)(?:SAMSUNG-)?SM-J727[PTV]",
  pat! "(?i)SM-J7\\[7\\]",
  pat! "(?i)(?:SAMSUNG-)?SM-J810|SM-J8(?:[);/ ]|$)",
  pat! "(?i)SM-J9\\[7\\] Prime",
  pat! "(?i)SM-J9\\[8\\] Pro",
  pat! "(?i)(?:SAMSUNG-)?SM-M015[FG]",
  pat! "(?i)(?:SAMSUNG-)?SM-M045F",
  pat! "(?i)(?:SAMSUNG-)?SM-M055F",
  pat! "(?i)(?:SAMSUNG-)?SM-M013F",
  pat! "(?i)(?:SAMSUNG-)?SM-M017F",
  pat! "(?i)(?:SAMSUNG-)?SM-M025F",
  pat! "(?i)(?:SAMSUNG-)?SM-M022[FGM]",
  pat! "(?i)(?:SAMSUNG-)?SM-M105[FGMY]",
  pat! "(?i)(?:SAMSUNG-)?SM-M107F",
  pat! "(?i)(?:SAMSUNG-)?SM-M115[FM]",
  pat! "(?i)(?:SAMSUNG-)?SM-M127[FGN]",
  pat! "(?i)(?:SAMSUNG-)?SM-M135",
  pat! "(?i)(?:SAMSUNG-)?SM-M136",
  pat! "(?i)(?:SAMSUNG-)?SM-M146B",
  pat! "(?i)(?:SAMSUNG-)?SM-M145F",
  pat! "(?i)(?:SAMSUNG-)?SM-M156B",
  pat! "(?i)(?:SAMSUNG-)?SM-M166P",
  pat! "(?i)(?:SAMSUNG-)?SM-(?:M205(?:[FGMN]|FN)|M20)(?:[);/ ]|$)",
  pat! "(?i)(?:SAMSUNG-)?SM-M215F",
  pat! "(?i)(?:SAMSUNG-)?SM-M215G",
  pat! "(?i)(?:SAMSUNG-)?SM-M225",
  pat! "(?i)(?:SAMSUNG-)?SM-M236L",
  pat! "(?i)(?:SAMSUNG-)?SM-M236",
  pat! "(?i)(?:SAMSUNG-)?SM-(?:M307(?:FN|[0F])|M30s)",
  pat! "(?i)(?:SAMSUNG-)?SM-M305?",
  pat! "(?i)(?:SAMSUNG-)?SM-M315F",
  pat! "(?i)(?:SAMSUNG-)?SM-M325F",
  pat! "(?i)(?:SAMSUNG-)?SM-M326",
  pat! "(?i)(?:SAMSUNG-)?SM-M336",
  pat! "(?i)(?:SAMSUNG-)?SM-M317F",
  pat! "(?i)(?:SAMSUNG-)?SM-M346",
  pat! "(?i)(?:SAMSUNG-)?SM-M356",
  pat! "(?i)(?:SAMSUNG-)?SM-M405",
  pat! "(?i)(?:SAMSUNG-)?SM-M426",
  pat! "(?i)(?:SAMSUNG-)?SM-M515F",
  pat! "(?i)(?:SAMSUNG-)?SM-M526",
  pat! "(?i)(?:SAMSUNG-)?SM-M536S",
  pat! "(?i)(?:SAMSUNG-)?SM-M536",
  pat! "(?i)(?:SAMSUNG-)?SM-M546",
  pat! "(?i)(?:SAMSUNG-)?SM-M625",
  pat! "(?i)(?:SAMSUNG-)?SM-M556",
  pat! "(?i)(?:SAMSUNG-)?SM-W201([689])",
  pat! "(?i)(?:SAMSUNG-)?SM-W2022",
  pat! "(?i)(?:SAMSUNG-)?SM-W2020",
  pat! "(?i)(?:SAMSUNG-)?SM-W2021",
  pat! "(?i)(?:SAMSUNG-)?SM-A826",
  pat! "(?i)(?:SAMSUNG-)?SM-W2015",
  pat! "(?i)(?:SAMSUNG-)?SM-G910S",
  pat! "(?i)(?:SAMSUNG-)?SM-(?:G550(?:FY|T[12]?)|S550TL|G55[01]0|G5520)",
  pat! "(?i)(?:SAMSUNG-)?SM-G5528",
  pat! "(?i)(?:SAMSUNG-)?SM-G600(?:FY|[0F])",
  pat! "(?i)(?:SAMSUNG-)?SM-G610[0KLS]",
  pat! "(?i)(?:SAMSUNG-)?SM-G611[FKLS]",
  pat! "(?i)(?:SAMSUNG-)?SM-C500[0X]",
  pat! "(?i)(?:SAMSUNG-)?SM-C501[08]",
  pat! "(?i)(?:SAMSUNG-)?SM-C5560",
  pat! "(?i)(?:SAMSUNG-)?SM-C700[0X]",
  pat! "(?i)(?:SAMSUNG-)?SM-C701[08FX]",
  pat! "(?i)(?:SAMSUNG-)?SM-C710[08]",
  pat! "(?i)(?:SAMSUNG-)?SM-C900[08FY]",
  pat! "(?i)(?:SAMSUNG-)?SM-Z130H",
  pat! "(?i)(?:SAMSUNG-)?SM-Z200[FMY]",
  pat! "(?i)(?:SAMSUNG-)?SM-Z300H",
  pat! "(?i)(?:SAMSUNG-)?SM-Z400[FY]",
  pat! "(?i)(?:SAMSUNG-)?SM-(?:G150(?:N[0KLS])?|G155S)(?:[);/ ]|$)",
  pat! "(?i)(?:SAMSUNG-)?(?:SM-G16(?:0N|[05]0?|5N))(?:[);/ ]|$)",
  pat! "(?i)(?:SAMSUNG-)?SM-J321AZ(?:[);/ ]|$)",
  pat! "(?i)(?:SAMSUNG-)?SM-J326AZ(?:[);/ ]|$)",
  pat! "(?i)(?:SAMSUNG-)?SM-J336AZ(?:[);/ ]|$)",
  pat! "(?i)(?:SAMSUNG-)?SM-J727AZ(?:[);/ ]|$)",
  pat! "(?i)(?:SAMSUNG-)?SM-J327AZ",
  pat! "(?i)(?:SAMSUNG-)?SM-J337AZ",
  pat! "(?i)(?:SAMSUNG-)?SM-(?:F900[0FUW]|F907[BN])|SCV44",
  pat! "(?i)(?:SAMSUNG-)?SM-W9023",
  pat! "(?i)(?:SAMSUNG-)?SM-W9025",
  pat! "(?i)(?:SAMSUNG-)?SM-W9024",
  pat! "(?i)(?:SAMSUNG-)?SM-W7023",
  pat! "(?i)(?:SAMSUNG-)?SM-W7024",
  pat! "(?i)(?:SAMSUNG-)?(?:SM-F711|SCG12|SC-54B)",
  pat! "(?i)(?:SAMSUNG-)?(?:SM-F721|SC-54C|SCG17)",
  pat! "(?i)(?:SAMSUNG-)?(?:SM-F731|SCG23)",
  pat! "(?i)(?:SAMSUNG-)?(?:SM-F741)",
  pat! "(?i)(?:SAMSUNG-)?SM-F916(?:U1|[0BNQUW])|SCG05",
  pat! "(?i)(?:SAMSUNG-)?(?:SM-F926|SC-55B|SCG11)",
  pat! "(?i)(?:SAMSUNG-)?(?:SM-F936|SCG16|SC-55C)",
  pat! "(?i)(?:SAMSUNG-)?(?:SM-F946|SCG22|SC-55D)",
  pat! "(?i)(?:SAMSUNG-)?(?:SM-F956|SCG28|SC-55E)",
  pat! "(?i)(?:SAMSUNG-)?GT-I9060(?:[);/ ]|$)",
  pat! "(?i)(?:SAMSUNG-)?GT-I9063",
  pat! "(?i)(?:SAMSUNG-)?GT-I9(?:080|128)",
  pat! "(?i)(?:SAMSUNG-)?GT-I9168",
  pat! "(?i)(?:SAMSUNG-)?GT-I9082",
  pat! "(?i)(?:SAMSUNG-)?GT-N7000",
  pat! "(?i)(?:SC-01G|SCL24)(?:[);/ ]|$)",
  pat! "(?i)(?:SAMSUNG-)?SM-N935[FSLK](?:[);/ ]|$)",
  pat! "(?i)(?:SAMSUNG-)?(?:(?:GT-)?N7100|SCH-(?:I605|N719|R950)|SPH-L900|Galaxy Note 2)(?:[);/ ]|$)",
  pat! "(?i)(?:SAMSUNG-)?GT-N7105",
  pat! "(?i)(?:SAMSUNG-)?SM-G710(?:2T|5[HL]|[25689KLS])?(?:[);/ ]|$)",
  pat! "(?i)(?:SAMSUNG-)?SM-G720(?:AX|N0|[02])(?:[);/ ]|$)",
  pat! "(?i)(?:(?:SAMSUNG-)?SM-(?:G530(?:[689]W|[AF]Z|BT|MU|R[47]|[AFHMPTWY])|G531[FH]|S920L)|(?:rr_)?fortuna3g)(?:[);/ ]|$)",
  pat! "(?i)(?:SAMSUNG-)?SM-G531(?:BT|[MY])(?:[);/ ]|$)",
  pat! "(?i)(?:SAMSUNG-)?SM-G532F(?:[);/ ]|$)",
  pat! "(?i)(?:SAMSUNG-)?SM-G532MT(?:[);/ ]|$)",
  pat! "(?i)(?:SAMSUNG-)?SM-G532[MG](?:[);/ ]|$)",
  pat! "(?i)(?:SAMSUNG-)?SM-N7502(?:[);/ ]|$)",
  pat! "(?i)(?:SAMSUNG-)?SM-N750[05LQ]?",
  pat! "(?i)(?:SAMSUNG-)?SM-N9002(?:[);/ ]|$)",
  pat! "(?i)(?:SAMSUNG-)?SM-9005(?:[);/ ]|$)",
  pat! "(?i)(?:SAMSUNG-)?(?:SM-N900(?:W8|[05689][VQ]?|[AKLPSTV])?|SCL22|SC-01F|SC-02F)",
  pat! "(?i)(?:SAMSUNG-)?SM-(?:N910|910U)|N9100(?:[);/ ]|$)",
  pat! "(?i)(?:SAMSUNG-)?SM-N916[KLS]",
  pat! "(?i)(?:SAMSUNG-)?SM-N915",
  pat! "(?i)(?:SAMSUNG-)?SM-N920(?:R[467]|W8|[0ACFGIKLPSTVX])",
  pat! "(?i)(?:SAMSUNG-)?SM-N9208",
  pat! "(?i)(?:SAMSUNG-)?SM-G750(?:8Q|[9AFH])",
  pat! "(?i)(?:SAMSUNG-)?GT-I915[028]",
  pat! "(?i)(?:SAMSUNG-)?GT-I920[05]",
  pat! "(?i)(?:SAMSUNG-)?(?:SM-N930(?:R[467]|W8|[0AFKLPSTUVX])|SCV34)",
  pat! "(?i)(?:SAMSUNG[- ])?SM-N950|SCV37|SC-01K",
  pat! "(?i)(?:SAMSUNG[- ])?(?:SM-N960|SCV40|SC-01L)|crownqlte",
  pat! "(?i)(?:SAMSUNG[- ])?(?:SM-N975(?:U1|XU|[0CFUWX])|SM-N976[0BVNQU]|SC-01M|SCV45)|Galaxy Note 10\\+",
  pat! "(?i)(?:SAMSUNG[- ])?SM-(?:N970(?:U1|W8|[089DFJKLSUWX])|N971N)|Galaxy Note 10",
  pat! "(?i)(?:SAMSUNG[- ])?SM-N770[FX]",
  pat! "(?i)(?:SAMSUNG[- ])?(?:SM-N981(?:B/DS|U1|[0BNUW]))",
  pat! "(?i)(?:SAMSUNG[- ])?(?:SM-N985(?:F/DS|F))|Galaxy Note 20 Ultra",
  pat! "(?i)(?:SAMSUNG[- ])?(?:SM-N980(?:F/DS|F)|Galaxy Note 20)",
  pat! "(?i)(?:SAMSUNG[- ])?(?:SM-N986(?:B/DS|U1|[0BCNUW])|SC-53A|SCG06)",
  pat! "(?i)(?:SAMSUNG-)?SM-W750V",
  pat! "(?i)(?:SAMSUNG-)?SM-G310R5",
  pat! "(?i)(?:SAMSUNG-)?GT-E2152",
  pat! "(?i)(?:SAMSUNG-)?(GT-(P|N8|N5)[0-9]+[a-z]?)",
  pat! "(?i)(?:SAMSUNG-)?((?:SM-[TNP]|GT-P)[a-z0-9_-]+)",
  pat! "(?i)((?:SCH|SGH|SPH|SHV|SHW|GT|SM)-[a-z0-9_-]+)",
  pat! "(?i)Galaxy ([^/;)]+)(?: Build|[;)])",
  pat! "(?i)Galaxy ([a-z0-9]+)",
  pat! "(?i)SAMSUNG[\\-][ ]?([a-z0-9]+[\\-_][a-z0-9]+)",
  pat! "(?i)SAMSUNG;[ ]?([a-z0-9]+[\\-_][a-z0-9]+)",
  pat! "(?i)SAMSUNG[ _/\\-]?([a-z0-9-]+)",
  pat! "(?i)SAMSUNG;[ ]?([a-z0-9 ]+)",
  pat! "(?i)SEC_SC-([a-z0-9]+)",
  pat! "(?i)SEC-([a-z0-9]+)",
  pat! "(?i)SAM-([a-z0-9]+)",
  pat! "(?i)(?:portalmmm|o2imode)/2\\.0 ([SZ][a-z0-9]+)",
  pat! "(?i)sam([rua][0-9]+)",
  pat! "(?i)(T3G_04|TWIFI-06)(?:[);/ ]|$)",
  pat! "(?i)(?:SAMTRON(?:_W)?_)?(43SA70[15]|50SA707|55SA703|43SA701)(?:[);/ ]|$)",
  pat! "(?i)(?:8312D|G(60[25]|70[3568]G?|785|803)|N83(?:-2cpu)?|N91) Build",
  pat! "(?i)G(60[25]|70[3568]G?|785|803)",
  pat! "(?i)Sansui[_ ]|(?:S505024)(?:[);/ ]|$)",
  pat! "(?i)Sansui[_ ](Switch|Play|Fun|SA4[01]|U4[56]|U3[02]|Nova)(?:[);/ ]|$)",
  pat! "(?i)SANTIN|(?:BiTBiZ_V58|ACTOMA ACE|DREAMPLUS03A|Candy U7 Pro|GAAMII|RS635H|HY-002 Plus|HongQi HQ1|G101-OG|HEXIN-H2-A)(?:[);/ ]|$)",
  pat! "(?i)BiTBiZ_V58(?:[);/ ]|$)",
  pat! "(?i)GAAMII G1(?:[);/ ]|$)",
  pat! "(?i)GAAMII(?:[);/ ]|$)",
  pat! "(?i)HEXIN-H2-A(?:[);/ ]|$)",
  pat! "(?i)Candy U7 Pro(?:[);/ ]|$)",
  pat! "(?i)DREAMPLUS03A(?:[);/ ]|$)",
  pat! "(?i)GreenOrange(?:[);/ ]|$)",
  pat! "(?i)CLASSONE(?:[);/ ]|$)",
  pat! "(?i)halove(?:[);/ ]|$)",
  pat! "(?i)ACTOMA ACE(?:[);/ ]|$)",
  pat! "(?i)monica(?:[);/ ]|$)",
  pat! "(?i)HongQi HQ1(?:[);/ ]|$)",
  pat! "(?i)POWER(?:[);/ ]|$)",
  pat! "(?i)GALAZ(?:[);/ ]|$)",
  pat! "(?i)NEWDUN(?:[);/ ]|$)",
  pat! "(?i)HEXIN[_ -](H2-A|H3)(?:[);/ ]|$)",
  pat! "(?i)HY-002 Plus(?:[);/ ]|$)",
  pat! "(?i)G101-OG(?:[);/ ]|$)",
  pat! "(?i)SANTIN[ _][#]?(Dante|Candy U7|Armor(?: 2)?|YSL-Y7|ANT\\.W|N[13]|JS|S6|V9(?:[ _]Pro)?|Life Shine|ovvi|D|11 XS Max|SHUGUO)(?:[);/ ]|$)",
  pat! "(?i)(RS635H)(?:[);/ ]|$)",
  pat! "(?i)Santin[ _#]?([^;/)]+)(?: Build|[;)])",
  pat! "(?i)Sanyo|MobilePhone[ ;]",
  pat! "(?i)SCP-?6750",
  pat! "(?i)SCP-?6760",
  pat! "(?i)SCP-?6780",
  pat! "(?i)SANYO[ /_-]([a-z0-9-]+)",
  pat! "(?i)MobilePhone ([a-z0-9-]+)",
  pat! "(?i) (TB-PO1|TB-B01|TB-G01)(?:[);/ ]|$)",
  pat! "(?i)(SberBox|SaluteTV|SBDV-00006)(?:[);/ ]|$)",
  pat! "(?i)SCHNEIDER[;,]",
  pat! "(?i)Schok[ _]|FreedomTurboXL",
  pat! "(?i)(SL-LED\\d{2}S\\d{2}T2SU?)(?:[);/ ]|$)",
  pat! "(?i)(Pi 5\\.5L)(?:[);/ ]|$)",
  pat! "(?i)Seatel[ _](L2|V8[AE]|T[5-8]|R6|V[89])(?:[);/ ]|$)",
  pat! "(?i)Seeken[ _-]",
  pat! "(?i)Seeken[_ -](SG1|SJ1)",
  pat! "(?i)Seeken[_ -](ST-101)",
  pat! "(?i)Selecline[ _]|(?:S4T7IN|ST19101|S3T10IN)(?:[);/ ]|$)",
  pat! "(?i)(ST19101|S4T7IN|S3T10IN)(?:[);/ ]|$)",
  pat! "(?i)Selecline 10(?:[);/ ]|$)",
  pat! "(?i)Selenga[ _](A[1345])(?:[);/ ]|$)",
  pat! "(?i)Sencor|(?:ELEMENT[ _]?(?:(?:7|8|9\\.7|10[ _]1)(?:[ _]?V[23])?|P[0-9]+|10\\.1 Q001)|10_1Q205|ELEMENT-P5501)(?:[);/ ]|$)",
  pat! "(?i)(?:SENCOR[ _])?Element (10\\.1) (Q001)",
  pat! "(?i)(?:SENCOR[ _])?ELEMENT[ _]?7[ _]?V3",
  pat! "(?i)(?:SENCOR[ _])?ELEMENT[ _]?7[ _]?V2[ _]BASIC",
  pat! "(?i)(?:SENCOR[ _])?ELEMENT[ _]?7[ _]?V2",
  pat! "(?i)(?:SENCOR[ _])?ELEMENT[ _]8[ _]?V3",
  pat! "(?i)(?:SENCOR[ _])?ELEMENT[ _]8[ _]?V2",
  pat! "(?i)(?:SENCOR[ _])?ELEMENT8",
  pat! "(?i)(?:SENCOR[ _])?ELEMENT[ _]9\\.7[ _]?V3",
  pat! "(?i)(?:SENCOR[ _])?ELEMENT[ _]9\\.7[ _]?V2",
  pat! "(?i)(?:SENCOR[ _])?ELEMENT[ _]9\\.7",
  pat! "(?i)(?:SENCOR[ _])?ELEMENT10[ _]1",
  pat! "(?i)(?:SENCOR[ _])?(7Q105)(?:[);/ ]|$)",
  pat! "(?i)(?:SENCOR[ _])?(10)_(1Q205|1Q102)(?:[);/ ]|$)",
  pat! "(?i)(?:SENCOR[ _])?ELEMENT[ _-]?P([0-9]+)",
  pat! "(?i)Sencor[ _]([^;/]+) Build",
  pat! "(?i)Sendo([a-z0-9]+)",
  pat! "(?i)Senkatel[ _]|(?:MaximusT1001)(?:[);/ ]|$)",
  pat! "(?i)Senkatel[ _](T1009|T8002|T701[12]|T9702)",
  pat! "(?i)SENSEIT[ _]?([^;/)]+)( Build|\\))",
  pat! "(?i)Senwa|(?:S\\-?(?:471|7[12]5|6[01]5|915|905TL|1000|5018)|V705B|LS50F| LS50?|LS5518H|LS5718|LS5018FP?)(?:[);/ ]|$)",
  pat! "(?i)S-?471(?:[);/ ]|$)"]

/-- `__dr_re`, from item 8500 on (device_repo.go:26836-27085). -/
def drRe_34 : List (List Chunk) := [
  pat! "(?i)S-?605(?:[);/ ]|$)",
  pat! "(?i)S-?905TL(?:[);/ ]|$)",
  pat! "(?i)S-?1000(?:[);/ ]|$)",
  pat! "(?i)S-?5018(?:[);/ ]|$)",
  pat! "(?i)LS5018FP(?:[);/ ]|$)",
  pat! "(?i)LS5018F(?:[);/ ]|$)",
  pat! "(?i)S-?(615|7[12]5|915)(?:[);/ ]|$)",
  pat! "(?i)V705B(?:[);/ ]|$)",
  pat! "(?i)LS50F(?:[);/ ]|$)",
  pat! "(?i)LS50(?:[);/ ]|$)",
  pat! "(?i)LS5(?:[);/ ]|$)",
  pat! "(?i)LS5518H(?:[);/ ]|$)",
  pat! "(?i)LS5718(?:[);/ ]|$)",
  pat! "(?i)Senwa[ _-]*([^;/]+)(?: Build|[;)])",
  pat! "(?i)(?:AUTOID ?(?:9N|Q[79])|CRUISE[12])(?:[);/ ]|$)",
  pat! "(?i)(CRUISE[12])(?:[);/ ]|$)",
  pat! "(?i)AUTOID ?(9N|Q[79])(?:[);/ ]|$)",
  pat! "(?i)(NBP-60)(?:[);/ ]|$)",
  pat! "(?i)SHARP|SBM|SH-?[0-9]+[a-z]?(?:[);/ ]|$)|AQUOS|(?:SH-T01|SH-M26|SH-M0[14-9]|SH-(?:M1[1-7]|M19s)(?:-y)?|S[357]-SH|SH-[MZ]([12]0|01|22)|SH-C0[3-6]|SH-[CL]02|SH-RM(?:1[1258]|02)|SH-R?M19s?|SH-R10A|[34]04SH|401SH|[45]02SH|306SH|[36]05SH|70[1246]SH|80[138]SH|90[1678]SH|50[3679]SH|SHL2[1235]|SHV4[0-8]|SHV3[1-9](?:[-_]u)?|FS80(?:1[08]|32|28|0[29])|TG-L900S|NP601SH|403SH|603SH|SHF3[1-4]|SHV4[035][-_]u|SW001SH|SHG0[1-9]|X4-SH|A002SH|DM-01[JH]|A[01]01SH|606SH|FS801[56]|d-41A|d-51C|NP80[567]SH|NP501SH|A00[34]SH|A102SH|IS05|SH-(?:S50|53A|51B|[HDA]01|01FDQ|S40P|M24)|LP-0[12]|FS8014|SBM00[35]SH|SBM103SH|A10[345]SH|lineage_ss2|LCD_xxSUFOC475A|A20[1248]SH|FS802[56]|ADS1|STTM21VAPP|NPA205SH|SHG10|SHT21|A30[12]SH|SH-M29)(?:[);/ ]|$)",
  pat! "(?i)506SH(?:[);/ ]|$)",
  pat! "(?i)603SH(?:[);/ ]|$)",
  pat! "(?i)50[23]SH(?:[);/ ]|$)",
  pat! "(?i)[34]04SH(?:[);/ ]|$)",
  pat! "(?i)606SH(?:[);/ ]|$)",
  pat! "(?i)507SH(?:[);/ ]|$)",
  pat! "(?i)S3-SH(?:[);/ ]|$)",
  pat! "(?i)S5-SH(?:[);/ ]|$)",
  pat! "(?i)S7-SH(?:[);/ ]|$)",
  pat! "(?i)X4-SH(?:[);/ ]|$)",
  pat! "(?i)(?:SHG06|A10[34]SH|SH-M20)(?:[);/ ]|$)",
  pat! "(?i)(?:SH-51C|A204SH|SHG08)(?:[);/ ]|$)",
  pat! "(?i)(?:SH-53D)(?:[);/ ]|$)",
  pat! "(?i)SH-M04(?:[);/ ]|$)",
  pat! "(?i)SH-M05(?:[);/ ]|$)",
  pat! "(?i)SH-(?:M26|54D)(?:[);/ ]|$)",
  pat! "(?i)SH-M29(?:[);/ ]|$)",
  pat! "(?i)SH-M07(?:[);/ ]|$)",
  pat! "(?i)A003SH(?:[);/ ]|$)",
  pat! "(?i)SH-41A(?:[);/ ]|$)",
  pat! "(?i)SH-S40P(?:[);/ ]|$)",
  pat! "(?i)(?:SH-54B|SHG05|SH-R?M19|SH-M19s-y)(?:[);/ ]|$)",
  pat! "(?i)(?:SHG07|SH-RM19s)(?:[);/ ]|$)",
  pat! "(?i)A208SH(?:[);/ ]|$)",
  pat! "(?i)(?:SH-53C|SH-M24|SHG10)(?:[);/ ]|$)",
  pat! "(?i)(?:SHG03|A004SH|SH-M17|SH-53A|A105SH|SH-S50)(?:[);/ ]|$)",
  pat! "(?i)SH-D01(?:[);/ ]|$)",
  pat! "(?i)SH-M12(?:-y)?(?:[);/ ]|$)",
  pat! "(?i)SH-H01(?:[);/ ]|$)",
  pat! "(?i)(?:SH-[MZ]10|801SH)(?:[);/ ]|$)",
  pat! "(?i)(?:SH-M13|906SH|SH-01M)(?:[);/ ]|$)",
  pat! "(?i)(?:SHG04|A102SH|SH-RM18|Aquos zero6)(?:[);/ ]|$)",
  pat! "(?i)(?:SHG02|A002SH)(?:[);/ ]|$)",
  pat! "(?i)(?:SH-Z01|Aquos S2 4/64)(?:[);/ ]|$)",
  pat! "(?i)(?:SH-02E|SH-01[GH]|SH-04H|SH-09D)(?:[);/ ]|$)",
  pat! "(?i)SH-01FDQ(?:[);/ ]|$)",
  pat! "(?i)SH-?06D(?:[);/ ]|$)",
  pat! "(?i)(SHL2[1235]|SH-M01|SH-01E)(?:[);/ ]|$)",
  pat! "(?i)SBM(203SH|30[23]SH)(?:[);/ ]|$)",
  pat! "(?i)SH-L02(?:[);/ ]|$)",
  pat! "(?i)(?:605SH|SH-03J|SHV39)(?:[);/ ]|$)",
  pat! "(?i)(?:701SH|SHV41|SH-M06)(?:[);/ ]|$)",
  pat! "(?i)(?:SH-M09|SHV42|706SH|SH-03K)(?:[);/ ]|$)",
  pat! "(?i)803SH(?:[);/ ]|$)",
  pat! "(?i)(?:908SH|SHG01|SH-M14)(?:[);/ ]|$)",
  pat! "(?i)SH-M16(?:[);/ ]|$)",
  pat! "(?i)SH-M15(?:[);/ ]|$)",
  pat! "(?i)SH-C02(?:[);/ ]|$)",
  pat! "(?i)SH-C06(?:[);/ ]|$)",
  pat! "(?i)SH-C03(?:[);/ ]|$)",
  pat! "(?i)SH-C05(?:[);/ ]|$)",
  pat! "(?i)SH-C04(?:[);/ ]|$)",
  pat! "(?i)(SHF3[1-4])(?:[);/ ]|$)",
  pat! "(?i)704SH(?:[);/ ]|$)",
  pat! "(?i)A201SH(?:[);/ ]|$)",
  pat! "(?i)(?:SH-02J|SH-04G)(?:[);/ ]|$)",
  pat! "(?i)SH-02H(?:[);/ ]|$)",
  pat! "(?i)30[56]SH(?:[);/ ]|$)",
  pat! "(?i)402SH(?:[);/ ]|$)",
  pat! "(?i)403SH(?:[);/ ]|$)",
  pat! "(?i)(?:509SH|SH-R10A)(?:[);/ ]|$)",
  pat! "(?i)NP601SH(?:[);/ ]|$)",
  pat! "(?i)(?:SHV40|SHV3[24])(?:_u)?(?:[);/ ]|$)",
  pat! "(?i)702SH(?:[);/ ]|$)",
  pat! "(?i)Aquos P6(?:[);/ ]|$)",
  pat! "(?i)SHV3[183](?:[);/ ]|$)",
  pat! "(?i)(?:FS8010|SH-M08|SHV43(?:-u)?|SH-01[KL]|lineage_ss2|Aquos S2)(?:[);/ ]|$)",
  pat! "(?i)FS8016(?:[);/ ]|$)",
  pat! "(?i)(?:SHV46|SH-R?M11|901SH)(?:[);/ ]|$)",
  pat! "(?i)(?:SHV44|808SH|SH-04L|SH-03G)(?:[);/ ]|$)",
  pat! "(?i)(?:FS8032|FS8015|SH-02M|SHV45(?:-U)?)(?:[);/ ]|$)",
  pat! "(?i)FS8018(?:[);/ ]|$)",
  pat! "(?i)(?:SHV48|907SH)(?:[);/ ]|$)",
  pat! "(?i)SH-RM12(?:[);/ ]|$)",
  pat! "(?i)SH-RM15(?:[);/ ]|$)",
  pat! "(?i)SH-51A(?:[);/ ]|$)",
  pat! "(?i)(?:SH-51B|A101SH|SH-M22)(?:[);/ ]|$)",
  pat! "(?i)(?:A202SH|SH-52C)(?:[);/ ]|$)",
  pat! "(?i)(?:SH-51D|A301SH)(?:[);/ ]|$)",
  pat! "(?i)A302SH(?:[);/ ]|$)",
  pat! "(?i)(?:SH-52D)(?:[);/ ]|$)",
  pat! "(?i)SHV3[57](?:_u)?(?:[);/ ]|$)",
  pat! "(?i)TG-L900S(?:[);/ ]|$)",
  pat! "(?i)SH-A01(?:[);/ ]|$)",
  pat! "(?i)FS8026(?:[);/ ]|$)",
  pat! "(?i)FS8025(?:[);/ ]|$)",
  pat! "(?i)(?:FS8002|SHV47)(?:[);/ ]|$)",
  pat! "(?i)FS8009(?:[);/ ]|$)",
  pat! "(?i)FS8014(?:[);/ ]|$)",
  pat! "(?i)FS8028(?:[);/ ]|$)",
  pat! "(?i)SHV36(?:[);/ ]|$)",
  pat! "(?i)SHG09(?:[);/ ]|$)",
  pat! "(?i)SW001SH(?:[);/ ]|$)",
  pat! "(?i)(DM-01[JH])",
  pat! "(?i)NP80[56]SH",
  pat! "(?i)LP-0([12])(?:[);/ ]|$)",
  pat! "(?i)SBM(00[35]SH)(?:[);/ ]|$)",
  pat! "(?i)SBM(103SH)(?:[);/ ]|$)",
  pat! "(?i)SH-02L(?:[);/ ]|$)",
  pat! "(?i)SBM200SH(?:[);/ ]|$)",
  pat! "(?i)SH-08E(?:[);/ ]|$)",
  pat! "(?i)SHT21(?:[);/ ]|$)",
  pat! "(?i)(d-41A|d-51C)(?:[);/ ]|$)",
  pat! "(?i)(SH-T01)(?:[);/ ]|$)",
  pat! "(?i)(LC-(?:[0-9]{2})[a-z0-9]+)(?:[);/ ]|$)",
  pat! "(?i)SHARP-AQUOS|AQUOSBrowser",
  pat! "(?i)SHARP[ -]([a-z0-9-]+)",
  pat! "(?i)AQUOS[ _-]TV([a-z0-9-]+)",
  pat! "(?i)(?:SHARP|SBM)([a-z0-9]+)",
  pat! "(?i)(SH-?[0-9]+[a-z]?|IS05|ADS1)(?:[);/ ]|$)",
  pat! "(?i)(SHIFT6mq?)(?:[);/ ]|$)",
  pat! "(?i)STV[-_](55LED41|40LED25S|40LED42S|32LED42S|32LED30C)(?:[);/ ]|$)",
  pat! "(?i)SHTRIH-SMARTPOS-F2(?:[);/ ]|$)",
  pat! "(?i)(PNT-704[025])(?:[);/ ]|$)",
  pat! "(?i)SICO[_ ](?:PLUS|e1002|Topaz)|(?:Express3-Max|SSR3-1-51-5M|SSD-1-53-13M|Mega2(?:max)?|Express3|Diamond 2|Plus3_4G|Plus2 4G|Infinity Max|Nile X|More_3)(?:[);/ ]|$)",
  pat! "(?i)SICO[_ ]PLUS2|Plus2 4G",
  pat! "(?i)SICO[_ ]PLUS",
  pat! "(?i)SICO[_ ]Topaz",
  pat! "(?i)SICO[_ ]e1002",
  pat! "(?i)SIEMENS|SIE-|portalmmm/2\\.0 SI|(?:S55|SL45i)(?:[);/ ]|$)",
  pat! "(?i)(?:SIE-)?(S[56]5|S40|C45|ME45|SLIK)(?:[);/ ]|$)",
  pat! "(?i)SIEMENS[ -]([a-z0-9]+)",
  pat! "(?i)SIE(?:MENS )?[\\-]?([a-z0-9]+)",
  pat! "(?i)(?:SIE-)?(SL45i)",
  pat! "(?i)portalmmm/2\\.0 (SI[a-z0-9]+)",
  pat! "(?i)Sigma|(X[_-]Style[ _]?Tab[_ ]A(\\d+)|Tab_A1025_X-treme|X[-_ ]?treme[-_ ]?(?:PQ[0-9]{2}|PQ18_MAX)|X-Style_(?:S550[12]|S3502)|Tab A1015|Tab A802|Tab_A1010_Neo)(?:[);/ ]|$)",
  pat! "(?i)SIGMAMOBILE-S3500-3G(?:[);/ ]|$)",
  pat! "(?i)(?:Sigma[ _])?X[-_ ]?treme[-_ ]?PQ([0-9]{2})[_ ]Max(?:[);/ ]|$)",
  pat! "(?i)(?:Sigma[ _])?X[-_ ]?treme[-_ ]?PQ([0-9]{2})(?:[);/ ]|$)",
  pat! "(?i)X[_-]Style[ _]?Tab[_ ]A(\\d+)(?:[);/ ]|$)",
  pat! "(?i)Tab (A1015|A802)(?:[);/ ]|$)",
  pat! "(?i)Tab_A1010_Neo(?:[);/ ]|$)",
  pat! "(?i)(?:Sigma[ _])?X[-_ ]?Style[-_ ]S([0-9]+)(?:[);/ ]|$)",
  pat! "(?i)Silelis[ _](T-1)(?:[);/ ]|$)",
  pat! "(?i)TangoTab|Presto[ )]|PicassoTab_[X9]|PICASSOTABX14|Ultimax|Valumax|S72-B|SX2W",
  pat! "(?i)TangoTab[_ ]?(\\d+|X)",
  pat! "(?i)PicassoTab_?(X14|XL?|9)",
  pat! "(?i)(NP602SI)(?:[);/ ]|$)",
  pat! "(?i)Singtech|(?:Sapphire[_ ](?:H50S|H7S?|H90)|Infinity_I(?:1|_Mix))(?:[);/ ]|$)",
  pat! "(?i)Sapphire[_ ](H50S|H7S?|H90)(?:[);/ ]|$)",
  pat! "(?i)Singtech[ _](Q2|S1)(?:[);/ ]|$)",
  pat! "(?i)Infinity_I1(?:[);/ ]|$)",
  pat! "(?i)Infinity_I_Mix(?:[);/ ]|$)",
  pat! "(?i)Siragon|(?:SP[_-](?:5[0124]50|5[34]00|61[05]0|7200))(?:[);/ ]|$)",
  pat! "(?i)(?:Siragon[_ ])?(?:SP[_-](5[0124]50|5[34]00|61[05]0|7200))",
  pat! "(?i)(?:FINNEY U1|SOLARIN)(?:[);/ ]|$)",
  pat! "(?i)(?:FINNEY U1)(?:[);/ ]|$)",
  pat! "(?i)(?:SOLARIN)(?:[);/ ]|$)",
  pat! "(?i)APRIX C55(?:[);/ ]|$)",
  pat! "(?i)(?:SKY|Elite|Fuego)[_ ][3-7]\\.[05](?:[A-Z]{1,2})?|Elite[ _](?:Max|PHOTOPRO|5_0T|M45|[45]T|45T|GO|A63Max|M5Plus|T8Plus|T[46]|[ABCDHP]5|A6|5_5_Octa|Octa|[A-HJLNPTVR]55|[AB]65|[CG]63|T10)|Platinum[_ ](?:5\\.0M|5\\.5C|[56]\\.[05]\\+?|[ABCMP]4|[ACGKV]55|[ABDEFGHJKM]5|A7|A57|P9|X|UNO|VIEW2|O|4\\.0|4_0Plus)|PLATINUMVIEW|SKY[ _](?:55M|Pro_III|PAD10|PAD8)|SKYVISION|SKY B(?:lack|63)| SKY[ _]Prestige|Sky Vision2|PRO_SELFIE|Sky,",
  pat! "(?i)Platinum[_ ](?:5\\.0M|M5)",
  pat! "(?i)Platinum[_ ]5\\.5C",
  pat! "(?i)Platinum[_ ]([56])\\.([05])\\+",
  pat! "(?i)Platinum[ _]4\\.0",
  pat! "(?i)Platinum[_ ](P9) Pro(?:[);/ ]|$)",
  pat! "(?i)Platinum[_ ]B4P(?:[);/ ]|$)",
  pat! "(?i)Platinum[_ ]([ABCMP]4|[ACGK]55|[ABDEFGHJKM]5|A7|A57|P9|X|UNO|O|6\\.0)(?:[);/ ]|$)",
  pat! "(?i)Platinum[_ ]?VIEW(2)?(?:[);/ ]|$)",
  pat! "(?i)SKY[ _]PAD10Max",
  pat! "(?i)SKY[ _]PAD8Pro",
  pat! "(?i)SKY[ _]PAD(10|8)",
  pat! "(?i)Elite_Octaplus(?:[);/ ]|$)",
  pat! "(?i)Elite[_ ]T8Plus(?:[);/ ]|$)",
  pat! "(?i)Elite_OctaXS(?:[);/ ]|$)",
  pat! "(?i)Elite OctaX(?:[);/ ]|$)",
  pat! "(?i)Elite Octa(?:[);/ ]|$)",
  pat! "(?i)Elite OctaMax(?:[);/ ]|$)",
  pat! "(?i)Elite ([ENP])55Max",
  pat! "(?i)Elite[ _](Max|M45|Go|[45]T|T[46]|[ABCDHP]5|A6|[A-HJLNPTVR]55|[AB]65|[CG]63|45T)(?:[);/ ]|$)",
  pat! "(?i)Elite (T10) Pro",
  pat! "(?i)Elite (T10)",
  pat! "(?i)Elite[_ ]([3-7])[\\._]([05](?:[A-Z]{1,2})?\\+?)",
  pat! "(?i)Fuego[_ ]([3-7]\\.[05](?:[A-Z]{1,2})?\\+?)",
  pat! "(?i)SKY Black ?(2)?",
  pat! "(?i)SKY 5\\.0Pro II",
  pat! "(?i)SKY[ _]PrestigeX",
  pat! "(?i)SKY[ _]Prestige",
  pat! "(?i)SKY[_ ]([3-7]\\.[05](?:[A-Z]{1,2})?)",
  pat! "(?i)Sky, (XiOneUK|LlamaUK), (?:wired|wireless)",
  pat! "(?i)SKYSTREAM[_ ](?:3Plus|One)(?:[);/ ]|$)",
  pat! "(?i)SKYSTREAM[_ ]3Plus",
  pat! "(?i)SKYSTREAM[_ ]One",
  pat! "(?i)(?:SKYLINE[_ ])?(32YST5970|50UST5970|24YST5970|40LST597[05]|32YST5975|43LST5975|43U6510|5[58]U7510|43LST5970)(?:[);/ ]|$)",
  pat! "(?i)LGE; ST-[0-9a-z]+;|(?:50ST3204)(?:[);/ ]|$)",
  pat! "(?i)(50ST3204)(?:[);/ ]|$)",
  pat! "(?i)LGE; (ST-[0-9a-z]+);",
  pat! "(?i)Sky_?worth|SWTV-|SKW690|(?:FlowBox-F1|SWTV|VGK02|SW-22AE NF)(?:[);/ ]|$)",
  pat! "(?i)(SWTV-2[02]AE(?:-PRO|-FHD)?)",
  pat! "(?i)Sky_?worth ([^;/)]+)(?: Build|[;)])",
  pat! "(?i)Android.+(?:Safari)(?: Build|\\) AppleWebKit)|SMADL[ _]",
  pat! "(?i)Android.+(?:Safari)(?: Build|\\) AppleWebKit)",
  pat! "(?i)SMADL[ _]Matri([2X])",
  pat! "(?i)Smailo_(2GO)(?:[);/ ]|$)",
  pat! "(?i)(?:Coral 4|Slide Lite|Notrino|Smart PRIME II)(?:[);/ ]|$)",
  pat! "(?i)(Coral 4|Slide Lite|Notrino|Smart PRIME II)",
  pat! "(?i)SK5501(?:[);/ ]|$)",
  pat! "(?i)SK5501(?:[);/ ]|$)",
  pat! "(?i)Smarttech[;,]",
  pat! "(?i)SMARTBOOK[ _]S",
  pat! "(?i)SMARTBOOK[ _]SB ?13",
  pat! "(?i)SMARTBOOK[ _](S9Q9|S7QS|S9\\+)",
  pat! "(?i)(ST1009|ST7160|ST1009X)(?:[);/ ]|$)",
  pat! "(?i)(?:Android 7(?:[\\d.]*);(?: [\\w-]+;)? M512| M520| M700)(?:[);/ ]|$)",
  pat! "(?i)(M512|M520|M700)(?:[);/ ]|$)",
  pat! "(?i)Smartfren|Androtab|Andromax|PD6D1J|AD682J|AD68[89]G|AD6B1H|AD9A1H|AD682H|AD683G|I46D1G|EG680|EG98",
  pat! "(?i)Andromax[ _-]([^/;]+) Build",
  pat! "(?i)Andromax[ _-]([a-z0-9]+)",
  pat! "(?i)Smartfren[ _-]([^/;\\)]+)(?: Build|[/;\\)])",
  pat! "(?i)(Androtab[^/;]+) Build",
  pat! "(?i)Smartisan[_ ]|(SM(?:70[15]|[89]01|919)|OD10[35]|YQ60[1357]|DT2002C|DE106|DT190[12]A|O[CE]106|OS103|O[CS]105)[ /;\\)]",
  pat! "(?i)SM70[15]",
  pat! "(?i)YQ60[1357]",
  pat! "(?i)OD10[35]",
  pat! "(?i)OS105[ /;\\)]",
  pat! "(?i)DE106[ /;\\)]",
  pat! "(?i)OE106[ /;\\)]",
  pat! "(?i)OC10[56][ /;\\)]",
  pat! "(?i)DT2002C[ /;\\)]",
  pat! "(?i)DT190[12]A[ /;\\)]",
  pat! "(?i)OS103[ /;\\)]",
  pat! "(?i)Smarty[_ ]",
  pat! "(?i)Mini ?(7L?)",
  pat! "(?i)Smooth|S2 Advance(?:[);/ ]|$)",
  pat! "(?i)Smooth 5\\.5 lite",
  pat! "(?i)Smooth (5\\.[05]|6\\.[015])(?:[);/ ]|$)",
  pat! "(?i)Smooth626(?:[);/ ]|$)",
  pat! "(?i)Smooth 6\\.26 (Lite|Max|Pro)(?:[);/ ]|$)",
  pat! "(?i)Smooth Note 6\\.8(?:[);/ ]|$)",
  pat! "(?i)Smooth (8GT)(?:[);/ ]|$)",
  pat! "(?i)Smotreshka Box (115NA|413NA|213a?)(?:[);/ ]|$)",
  pat! "(?i)soda (?:S2|[SE]1|FIRE)(?:[);/ ]|$)"]

/-- `__dr_re`, from item 8750 on (device_repo.go:27086-27335). -/
def drRe_35 : List (List Chunk) := [
  pat! "(?i)soda (S2|[SE]1)",
  pat! "(?i)Softbank|J-PHONE",
  pat! "(?i)Softbank/[12]\\.0/([a-z0-9]+)",
  pat! "(?i)([a-z0-9]+);Softbank;",
  pat! "(?i)J-PHONE/[0-9]\\.[0-9]/([a-z0-9-]+)",
  pat! "(?i)((?:S1586K|SS(?:5[23]14|5[47]24)G))(?:[);/ ]|$)",
  pat! "(?i)SOLONE|(?:E1457|W145[02]|Sun_S5501)(?:[);/ ]|$)",
  pat! "(?i)SOLONE[ _]Elite[ _]L5501",
  pat! "(?i)SOLONE[ _]SUMO[_ ]S5001",
  pat! "(?i)SOLONE[ _](SL-K40|S5002)(?:[);/ ]|$)",
  pat! "(?i)Sonim[ -]|XP(?:[67]7|[358]8|99)00(?:[);/ ]|$)",
  pat! "(?i)(?:Sonim-)?XP3400",
  pat! "(?i)(?:Sonim-)?XP3800",
  pat! "(?i)(?:Sonim-)?XP3900",
  pat! "(?i)(?:Sonim-)?XP5800",
  pat! "(?i)(?:Sonim-)?XP5700",
  pat! "(?i)(?:Sonim-)?XP6700",
  pat! "(?i)(?:Sonim-)?XP7700",
  pat! "(?i)(?:Sonim-)?XP8800",
  pat! "(?i)(?:Sonim-)?XP9900",
  pat! "(?i)Sony(?: ?Ericsson)?|SGP|Xperia|(?:[4-9]0[12])SO|C1[569]0[45]|C2[01]0[45]|C230[45]|C530[236]|C550[23]|C6[56]0[236]|C6616|C68(?:0[26]|[34]3)|C69(?:0[236]|16|43)|D(?:200[45]|21(?:0[45]|14)|22(?:0[236]|12|43)|230[2356]|240[36]|2502|2533|510[236]|530[36]|5316|5322|5503|58[03]3|65(?:0[23]|43|63)|66[03458]3|66[14]6|6708)|E(?:20[0345]3|2006|210[45]|2115|2124|230[36]|2312|23[356]3|530[36]|53[3456]3|5506|55[356]3|56[46305][36]|58[02]3|6508|65[35]3|66[0358]3|68[358]3)|F(?:311[12356]|331[13]|321[12356]|5[13]21|5122|813[12]|833[12])|G(?:2299|312[135]|311[26]|322[136]|3212|331[123]|3412|3416|342[136]|823[12]|834[123]|8[14]4[12]|8188)|H(?:3113|3123|3133|3213|3223|3311|3321|3413|4113|4133|4213|4233|4311|4331|4413|4433|4493|8116|8166|82[1679]6|83[12]4|8416|9436|9493)|I(?:3[12]23|3213|[34]113|[34]312|4193|42[19]3|4332)|J(?:3173|3273|81[17]0|82[17]0|91[15]0|92[16]0)|(?:WT|LT|SO|ST|SK|MK)[0-9]+[a-z]+[0-9]*(?: Build|\\))|X?L39H|XM50[ht]|XQ-[A-Z]{2}[0-9]{2}|W960|portalmmm/2\\.0 K|S3[69]h|SOG(?:0[1-9]|1[0-3])|SOL2[2-6]|SOT[23]1|SOV3[1-9]|SOV4[0-3]|X10[ia]v?|E1[05][ai]v?|MT[0-9]{2}[a-z]? Build|SO-0(?:[12]C|[2-5]D|[1-4]E|[1-5]F|[1-5]G|[1-4]H|[1-4]J|[1-5]K|1M|[1-3]L)|R800[aix]|LiveWithWalkman|BRAVIA|SGP771|E3 Dual|A[012]01SO|A204SO|A[123]02SO|SO-[45]1[AB]|SO-5[1234][ABCDE]|A[12]03SO|A002SO|A301SO|NW-(A[13]00|ZX500|Z1000)Series|NSZ-GS7|SmartWatch 3|SVP-DTV15",
  pat! "(?i)(?:Sony(?:Ericsson)?)?E10[ai]v?",
  pat! "(?i)(?:Sony(?:Ericsson)?)?U20",
  pat! "(?i)(?:Sony(?:Ericsson)?)?E15[ai]v?",
  pat! "(?i)(?:Sony(?:Ericsson)?)?(LT15[ai]?v?|SO-01C)",
  pat! "(?i)(?:Sony(?:Ericsson)?)?LT18[ai]v?",
  pat! "(?i)(?:Sony(?:Ericsson)?)?MT11",
  pat! "(?i)(?:Sony(?:Ericsson)?)?MT15",
  pat! "(?i)(?:Sony(?:Ericsson)?)?MT27",
  pat! "(?i)(?:Sony(?:Ericsson)?)?MK16[ai]",
  pat! "(?i)(?:Sony(?:Ericsson)?)?ST15[ai]",
  pat! "(?i)(?:Sony(?:Ericsson)?)?ST17[ai]",
  pat! "(?i)(?:Sony(?:Ericsson)?)?SO-02L",
  pat! "(?i)(?:Sony(?:Ericsson)?)?ST18[ai]",
  pat! "(?i)(?:Sony(?:Ericsson)?)?SK17[ai]?",
  pat! "(?i)(?:Sony(?:Ericsson)?)?X10[ai]v?",
  pat! "(?i)(?:Sony(?:Ericsson)?)M1",
  pat! "(?i)(?:Sony(?:Ericsson)?)?R800",
  pat! "(?i)(?:Sony(?:Ericsson)?)?WT19|LiveWithWalkman",
  pat! "(?i)(?:Sony(?:Ericsson)?)?CK13i",
  pat! "(?i)(?:Sony(?:Ericsson)?)?CK15[ai]",
  pat! "(?i)(?:Sony(?:Ericsson)?)?F100i",
  pat! "(?i)(?:Sony(?:Ericsson)?)?J105",
  pat! "(?i)(?:Sony(?:Ericsson)?)?J108",
  pat! "(?i)(?:Sony(?:Ericsson)?)?J10",
  pat! "(?i)(?:Sony(?:Ericsson)?)?J20",
  pat! "(?i)(?:Sony(?:Ericsson)?)?U10",
  pat! "(?i)(?:Sony(?:Ericsson)?)?U100",
  pat! "(?i)(?:Sony(?:Ericsson)?)?U1",
  pat! "(?i)(?:Sony(?:Ericsson)?)?U5",
  pat! "(?i)(?:Sony(?:Ericsson)?)?U8",
  pat! "(?i)(?:Sony(?:Ericsson)?)?W20",
  pat! "(?i)(?:Sony(?:Ericsson)?)?W100",
  pat! "(?i)(?:Sony(?:Ericsson)?)?W150",
  pat! "(?i)(?:Sony(?:Ericsson)?)?W960",
  pat! "(?i)(?:Sony(?:Ericsson)?)?WT13",
  pat! "(?i)SO-01E(?:[);/ ]|$)",
  pat! "(?i)XQ-BE[4-7]2",
  pat! "(?i)XQ-AQ[56]2",
  pat! "(?i)(?:Sony(?:Ericsson)?)?I(?:4113|31[12]3)",
  pat! "(?i)(?:Sony(?:Ericsson)?)?J3173(?:[);/ ]|$)",
  pat! "(?i)SO-41B(?:[);/ ]|$)",
  pat! "(?i)(?:A203SO|SO-53C|SOG08)(?:[);/ ]|$)",
  pat! "(?i)(?:A001SO|XQ-AU42|XQ-AU51|XQ-A[TU]52|SO-41A|SOV43)(?:[);/ ]|$)",
  pat! "(?i)(?:A10[12]SO|SO-52B|SOG04|XQ-BT52)(?:[);/ ]|$)",
  pat! "(?i)(?:SO-52D|XQ-DC72|XQ-DC54|A302SO|SOG11)(?:[);/ ]|$)",
  pat! "(?i)(?:XQ-ES[45]4|XQ-ES72|SOG14|SO-52E|A402SO)(?:[);/ ]|$)",
  pat! "(?i)XQ-BT44(?:[);/ ]|$)",
  pat! "(?i)(?:XQ-CC72|XQ-CC[45]4|SOG07|SO-52C|A202SO)(?:[);/ ]|$)",
  pat! "(?i)(?:Sony(?:Ericsson)?)?I(?:42[19]3|32[12]3)",
  pat! "(?i)(?:Sony(?:Ericsson)?)?I4193",
  pat! "(?i)(?:Sony(?:Ericsson)?)?(?:J(?:9110|81[17]0)|SOV40|SO-03L|802SO)",
  pat! "(?i)(?:Sony(?:Ericsson)?)?(?:J9150)",
  pat! "(?i)(?:Sony(?:Ericsson)?)?(?:SOG01|SO-51A|XQ-AT42|XQ-AT51|SO51Aa|XQ-AT72)(?:[);/ ]|$)",
  pat! "(?i)(?:Sony(?:Ericsson)?)?(?:SO-51B|SOG03|XQ-BC[4567]2)(?:[);/ ]|$)",
  pat! "(?i)(?:Sony(?:Ericsson)?)?(?:SOG06|XQ-CT[67]2|SO-51C|A201SO|XQ-CT[45]4)(?:[);/ ]|$)",
  pat! "(?i)(?:Sony(?:Ericsson)?)?(?:SOG10|A301SO|SO-51D|XQ-DQ(?:[67]2|[45]4))(?:[);/ ]|$)",
  pat! "(?i)(?:XQ-EC72|XQ-EC54|XQ-EC44|SOG13|SO-51E|A401SO|SOG13)(?:[);/ ]|$)",
  pat! "(?i)XQ-FS(?:72|44)",
  pat! "(?i)(?:Sony(?:Ericsson)?)?LT22i|Xperia P",
  pat! "(?i)(?:Sony(?:Ericsson)?)?LT25i|Xperia V",
  pat! "(?i)(?:Sony(?:Ericsson)?)?J92[16]0",
  pat! "(?i)(?:Sony(?:Ericsson)?)?(?:J82[17]0|SO-01M|SOV41|901SO)",
  pat! "(?i)(?:Sony(?:Ericsson)?)?(?:SOG02|A002SO|XQ-AS[4567]2|SO-52A)",
  pat! "(?i)(?:Sony(?:Ericsson)?)?(?:XQ-DE72|XQ-DE[45]4|SOG12)",
  pat! "(?i)(?:Sony(?:Ericsson)?)?(?:SO-53B|A103SO|SOG05|XQ-BQ[4567]2)",
  pat! "(?i)(?:SOG09|XQ-CQ72|SO-54C|XQ-CQ[45]4|XQ-CQ62|A204SO)",
  pat! "(?i)(?:Sony(?:Ericsson)?)?(?:SOV42|902SO)",
  pat! "(?i)(?:Sony(?:Ericsson)?)?J3273",
  pat! "(?i)(?:Sony(?:Ericsson)?)?LT26ii",
  pat! "(?i)(?:Sony(?:Ericsson)?)?LT26i|Xperia S(?:[);/ ]|$)",
  pat! "(?i)(?:Sony(?:Ericsson)?)?SO-02C",
  pat! "(?i)(?:Sony(?:Ericsson)?)?SO-03D",
  pat! "(?i)(?:Sony(?:Ericsson)?)?LT26w",
  pat! "(?i)(?:Sony(?:Ericsson)?)?LT28[aih]",
  pat! "(?i)(?:Sony(?:Ericsson)?)?LT29i|Xperia TX(?:[);/ ]|$)",
  pat! "(?i)(?:Sony(?:Ericsson)?)?LT30a",
  pat! "(?i)(?:Sony(?:Ericsson)?)?LT30p",
  pat! "(?i)(?:Sony(?:Ericsson)?)?ST21[ia]2",
  pat! "(?i)(?:Sony(?:Ericsson)?)?ST21[ia]",
  pat! "(?i)(?:Sony(?:Ericsson)?)?ST23[ia]",
  pat! "(?i)(?:Sony(?:Ericsson)?)?ST25[ia]",
  pat! "(?i)(?:Sony(?:Ericsson)?)?SOL22",
  pat! "(?i)(?:Sony(?:Ericsson)?)?SOL21",
  pat! "(?i)(?:Sony(?:Ericsson)?)?ST26[ia]",
  pat! "(?i)(?:Sony(?:Ericsson)?)?ST27[ia]",
  pat! "(?i)(?:Sony(?:Ericsson)?)?C150[45]",
  pat! "(?i)(?:Sony(?:Ericsson)?)?C160[45]",
  pat! "(?i)(?:Sony(?:Ericsson)?)?(?:E210[45]|E2115|E2124)",
  pat! "(?i)(?:Sony(?:Ericsson)?)?E20[05]3|E2006",
  pat! "(?i)(?:Sony(?:Ericsson)?)?C190[45]",
  pat! "(?i)(?:Sony(?:Ericsson)?)?C200[45]",
  pat! "(?i)(?:Sony(?:Ericsson)?)?C210[45]|S36h",
  pat! "(?i)(?:Sony(?:Ericsson)?)?C230[45]|S39h",
  pat! "(?i)(?:Sony(?:Ericsson)?)?C530[236]|Xperia SP(?:[);/ ]|$)",
  pat! "(?i)(?:Sony(?:Ericsson)?)?C550[23]",
  pat! "(?i)(?:Sony(?:Ericsson)?)?C650[236]|Xperia ZL(?:[);/ ]|$)",
  pat! "(?i)(?:Sony(?:Ericsson)?)?SOL25(?:[);/ ]|$)",
  pat! "(?i)(?:Sony(?:Ericsson)?)?(?:C66(?:0[236]|16)|SO-02E)",
  pat! "(?i)(?:Sony(?:Ericsson)?)?(?:C68(?:0[26]|[34]3)|XL39H|SOL24)|Xperia Z Ultra(?:[);/ ]|$)",
  pat! "(?i)Xperia Z(?:[);/ ]|$)",
  pat! "(?i)(?:Sony(?:Ericsson)?)?D200[45]",
  pat! "(?i)(?:Sony(?:Ericsson)?)?D21(?:0[45]|14)",
  pat! "(?i)(?:Sony(?:Ericsson)?)?D22(?:0[236]|43)",
  pat! "(?i)(?:Sony(?:Ericsson)?)?D2212|E3 Dual",
  pat! "(?i)(?:Sony(?:Ericsson)?)?E20[34]3",
  pat! "(?i)H33[12]1",
  pat! "(?i)H43[13]1",
  pat! "(?i)I43[13]2",
  pat! "(?i)XQ-AD5[12]",
  pat! "(?i)(?:Sony(?:Ericsson)?)?D2302",
  pat! "(?i)(?:Sony(?:Ericsson)?)?D230[356]",
  pat! "(?i)(?:Sony(?:Ericsson)?)?D240[36]",
  pat! "(?i)(?:Sony(?:Ericsson)?)?(?:E230[36]|E23[35]3)",
  pat! "(?i)(?:Sony(?:Ericsson)?)?(?:E2312|E2363)",
  pat! "(?i)(?:Sony(?:Ericsson)?)?E56[05][36]",
  pat! "(?i)(?:Sony(?:Ericsson)?)?E56[436]3",
  pat! "(?i)(?:Sony(?:Ericsson)?)?D2502",
  pat! "(?i)(?:Sony(?:Ericsson)?)?D2533",
  pat! "(?i)(?:Sony(?:Ericsson)?)?E53[05]3|E5306",
  pat! "(?i)(?:Sony(?:Ericsson)?)?E53[0346]3",
  pat! "(?i)(?:Sony(?:Ericsson)?)?E5506|E5553",
  pat! "(?i)(?:Sony(?:Ericsson)?)?E55[36]3",
  pat! "(?i)(?:Sony(?:Ericsson)?)?D510[236]",
  pat! "(?i)(?:Sony(?:Ericsson)?)?(?:D530[36]|D5316|XM50[ht])",
  pat! "(?i)(?:Sony(?:Ericsson)?)?D5322",
  pat! "(?i)(?:Sony(?:Ericsson)?)?D5503|Xperia Z1 Compact",
  pat! "(?i)(?:Sony(?:Ericsson)?)?(?:C69(?:0[236]|16|43)|SOL23|L39H|SO-0[12]F)|Xperia Z1(?:[);/ ]|$)",
  pat! "(?i)(?:Sony(?:Ericsson)?)?(?:D58[03]3|SO-02G)|Xperia Z3 Compact(?:[);/ ]|$)",
  pat! "(?i)SGP561|SOT21(?:[);/ ]|$)",
  pat! "(?i)(?:Sony(?:Ericsson)?)?(?:D65(?:0[23]|43)|SO-03F)|Xperia Z2(?:[);/ ]|$)",
  pat! "(?i)(?:Sony(?:Ericsson)?)?(?:D66[045]3|D66[14]6|SO-01G|SOL26|401SO)|Xperia Z3(?:[);/ ]|$)",
  pat! "(?i)(?:Sony(?:Ericsson)?)?(?:D6633|D6683)",
  pat! "(?i)(?:Sony(?:Ericsson)?)?(?:E65[35]3)",
  pat! "(?i)(?:Sony(?:Ericsson)?)?(?:D6708)",
  pat! "(?i)SOV31|402SO|SO-03G",
  pat! "(?i)SGP771|SOT31|SO-05G",
  pat! "(?i)(?:Sony(?:Ericsson)?)?(?:E58[02]3|SO-02H)",
  pat! "(?i)(?:Sony(?:Ericsson)?)?(?:E66[05]3|SOV32|501SO|SO-01H)",
  pat! "(?i)(?:Sony(?:Ericsson)?)?E66[38]3",
  pat! "(?i)(?:Sony(?:Ericsson)?)?(?:E68[58]3|SO-03H)",
  pat! "(?i)(?:Sony(?:Ericsson)?)?E6833",
  pat! "(?i)(?:Sony(?:Ericsson)?)?F311[135]",
  pat! "(?i)(?:Sony(?:Ericsson)?)?F311[26]",
  pat! "(?i)(?:Sony(?:Ericsson)?)?F321[135]",
  pat! "(?i)(?:Sony(?:Ericsson)?)?F321[26]",
  pat! "(?i)(?:Sony(?:Ericsson)?)?F833[12]|SOV34|601SO|SO-01J",
  pat! "(?i)(?:Sony(?:Ericsson)?)?(?:701SO|SOV36|G834[123]|SO-01K)",
  pat! "(?i)(?:Sony(?:Ericsson)?)?G8441|SO-02K",
  pat! "(?i)(?:Sony(?:Ericsson)?)?F331[13]",
  pat! "(?i)(?:Sony(?:Ericsson)?)?G312[135]|G311[26]",
  pat! "(?i)(?:Sony(?:Ericsson)?)?G341[26]|G342[13]",
  pat! "(?i)(?:Sony(?:Ericsson)?)?G3426",
  pat! "(?i)(?:Sony(?:Ericsson)?)?G322[136]|G3212",
  pat! "(?i)(?:Sony(?:Ericsson)?)?H31[123]3",
  pat! "(?i)(?:Sony(?:Ericsson)?)?H41[13]3",
  pat! "(?i)H44[19]3|H3413",
  pat! "(?i)(?:Sony(?:Ericsson)?)?H(?:3213|3223|4213|4233)",
  pat! "(?i)(?:Sony(?:Ericsson)?)?G823[12]|SOV35|602SO|SO-03J",
  pat! "(?i)(?:Sony(?:Ericsson)?)?(?:G814[12]|G8188|SO-04[JK])",
  pat! "(?i)(?:Sony(?:Ericsson)?)?(?:H83[12]4|H82[17]6|SOV37|SO-03K|H8296|702SO)",
  pat! "(?i)(?:H81[16]6|SOV38)(?:[);/ ]|$)",
  pat! "(?i)(?:Sony(?:Ericsson)?)?(?:H(8416|9436|9493)|SO-01L|SOV39|801SO)",
  pat! "(?i)(?:Sony(?:Ericsson)?)?G331[13]",
  pat! "(?i)(?:Sony(?:Ericsson)?)?G3312",
  pat! "(?i)(?:Sony(?:Ericsson)?)?SO-04E",
  pat! "(?i)(?:Sony(?:Ericsson)?)?SO-04D",
  pat! "(?i)(?:Sony(?:Ericsson)?)?SO-05D",
  pat! "(?i)(?:Sony(?:Ericsson)?)?F5121",
  pat! "(?i)(?:Sony(?:Ericsson)?)?F5122",
  pat! "(?i)(?:Sony(?:Ericsson)?)?F5321|SO-02J",
  pat! "(?i)(?:Sony(?:Ericsson)?)?(?:F8131|502SO|SOV33|SO-04H)",
  pat! "(?i)(?:Sony(?:Ericsson)?)?F8132",
  pat! "(?i)(?:Sony)?(?:SGP(?:311|312|321)|(Sony)?SO-03E|Tablet Z LTE)(?:[);/ ]|$)",
  pat! "(?i)SGP712(?:[);/ ]|$)",
  pat! "(?i)SGP(?:511|512|521)(?:[);/ ]|$)|SO-05F",
  pat! "(?i)SGP(?:6[124]1|612)(?:[);/ ]|$)",
  pat! "(?i)SGPT(?:12|121|122|123|13|131|132|133)(?:[);/ ]|$)",
  pat! "(?i)(?:BRAVIA )(2K GB ATV3|[48]K UR[123]|4K GB ATV3|4K GB|4K VH21|4K VH2|4K 2015|2015|VH1|VU[12]|VU31)(?:[);/ ]|$)",
  pat! "(?i)SVP-DTV15(?:[);/ ]|$)",
  pat! "(?i)(NSZ-GS7)(?:[);/ ]|$)",
  pat! "(?i)Sony-BRAVIA-VH1(?:[);/ ]|$)",
  pat! "(?i)NW-(A[13]00|Z1000|ZX500)Series",
  pat! "(?i)BDPlayer; ([0-9a-z\\-_]+);",
  pat! "(?i)BDP(201[3-7])",
  pat! "(?i)SonyBDP|SonyDBV|BDPlayer",
  pat! "(?i)(?:Sony-)?(KDL?-?[0-9a-z]+)",
  pat! "(?i)Opera TV Store.*(?:Sony-)([0-9a-z\\-_]+)",
  pat! "(?i)((?:WT|SO|ST|SK|MK)[0-9]+[a-z]*[0-9]*)(?: Build|\\))",
  pat! "(?i)(MT[0-9]{2}[a-z]?)(?:[);/ ]|$)",
  pat! "(?i)portalmmm/2\\.0 K([a-z0-9]+)",
  pat! "(?i)SonyEricsson ?IS11S",
  pat! "(?i)Sony ?Ericsson?([^/;]*) Build",
  pat! "(?i)SonyEricsson([CGJKPTWZ][0-9]+[a-z]+)/",
  pat! "(?i)Sony ?Ericsson ?([a-z0-9-]+)",
  pat! "(?i)Sony Corporation/([^/;]*)\\)",
  pat! "(?i)Sony (Tablet[^/;]*) Build",
  pat! "(?i)(SGP[^/;]*) Build",
  pat! "(?i)Xperia ([^/;]*Tablet[^/;]*) Build",
  pat! "(?i)Xperia ([^;/]+) \\(AOSP\\) Build",
  pat! "(?i)Xperia ([^;/]+) Build",
  pat! "(?i)(XQ-[A-Z]{2}[0-9]{2})",
  pat! "(?i)Sony[ -]?([^/;]*) Build",
  pat! "(?i)Sony[ -]?([a-z0-9-]+)",
  pat! "(?i)Soullink[ _](S1)",
  pat! "(?i)((?:SM-LED32M(?:1[0214]|0[479])S)|SM-QLED(?:50T2|50T21|55T21)SU|SM-LED(?:24M(?:0[69]|11)S|43M02S|40M04S|(?:5[05]|43)M0[1234]SU|32M1[35]S|65M0[12]SU))(?:_-Ver01)?(?:[);/ ]|$)",
  pat! "(?i)(?:SOYES[ _](?:[67]S|XS|XS11)|S10-H|XS12 PRO)(?:[);/ ]|$)",
  pat! "(?i)SOYES[ _]([67]S|XS11|XS)",
  pat! "(?i)Spark Plus 3(?:[);/ ]|$)",
  pat! "(?i)Sparx[ _]|(?:Android 1[34](?:[\\d.]*);(?: [\\w-]+;)? Neo 11|NEO_6|NEO 5|Neo_6_plus|Neo 5 Pro|Neo X|Neo 8 Lite|Edge 20 Pro|Ultra 8 Pro|Ultra 8)(?: Build|[;)])",
  pat! "(?i)Neo ([89])i",
  pat! "(?i)Neo ([578]) Pro",
  pat! "(?i)Neo[ _]([5687])[ _]Plus",
  pat! "(?i)Neo[ _]([567]|11)",
  pat! "(?i)(Versity (?:9640|9553))(?:[);/ ]|$)",
  pat! "(?i)(CARBONO_5|CUARZO_6|DIAMANTE_5|VULCANO_55)(?:[);/ ]|$)",
  pat! "(?i)VULCANO_55(?:[);/ ]|$)",
  pat! "(?i)CARBONO_5(?:[);/ ]|$)",
  pat! "(?i)CUARZO_6(?:[);/ ]|$)",
  pat! "(?i)DIAMANTE_5(?:[);/ ]|$)",
  pat! "(?i)Spice|(?:Xlife[-_ ](?:\\d+Q?|Victor5|M5q\\+|M5 Pro|Proton5|Electro55HD))(?:[);/ ]|$)",
  pat! "(?i)(?:Spice_)?Xlife[-_ ](\\d+Q?|M5\\+)(?:[);/ ]|$)",
  pat! "(?i)Xlife-M5q\\+",
  pat! "(?i)Spice[-_ ]?Mi-?(7\\d{2})N(?:[);/ ]|$)",
  pat! "(?i)Spice[-_ ]?Mi-?(7\\d{2})(?:[);/ ]|$)",
  pat! "(?i)Spice[-_ ]?Mi-?(\\d{3})N(?:[);/ ]|$)",
  pat! "(?i)Spice[-_ ]?Mi-?(\\d{3})(?:[);/ ]|$)",
  pat! "(?i)Spice[-_ ]?([^/;]+)(?: Build|[;)])",
  pat! "(?i)Spice[-_ ]?([^/;]+)(?:/|$)",
  pat! "(?i)RED ([1369]0)(?:[);/ ]|$)"]

/-- `__dr_re`, from item 9000 on (device_repo.go:27336-27585). -/
def drRe_36 : List (List Chunk) := [
  pat! "(?i)Starlight|(?:VENUS_PLUS|My_Star_X|My_star_18|RIO STAR|C_Note(?:_Pro)?|Star_Mix_2|I_STAR_PLUS|star_plus_plus|star_two|I star (?:one|two)|Milan_Pro|Gionee_?Star)(?:[);/ ]|$)",
  pat! "(?i)Gionee_?Star",
  pat! "(?i)I star two|star_two",
  pat! "(?i)(?:Starmobile (?:Play (?:Neo|Spark|GO|Click|Max)|Astra)|DIAMOND D1|UP[_ ](?:Sense|Rave|Groove|Octa|Prime|Selfie|Snap|Xtreme|XL|Max|Vision|Neo)|PLAY (?:Club|Style|Click LTE|Dash)|ENGAGE7\\+)(?:[);/ ]|$)",
  pat! "(?i)Starmobile PLAY GO(?:[);/ ]|$)",
  pat! "(?i)Starmobile ASTRA(?:[);/ ]|$)",
  pat! "(?i)DIAMOND D1(?:[);/ ]|$)",
  pat! "(?i)(?:Starmobile )?Play (Neo|Spark|Click|Club|Style|Max|Dash)(?:[);/ ]|$)",
  pat! "(?i)UP[_ ](Sense|Rave|Groove|Octa|Prime|Selfie|Snap|Xtreme|XL|Max|Vision|Neo)(?:[);/ ]|$)",
  pat! "(?i)ENGAGE7\\+",
  pat! "(?i)Andromeda[ _]S(707|84[05]|850|8)(?:[);/ ]|$)",
  pat! "(?i)Smart_Starwind|(?:SW-LED(?:24SG303|32SB30[024]|42SB300|43SB30[04]|40SG300|40SB30[04]|43SG30[20]|43UB40[04]|43UG40[0135]|32SG3(?:0[01245]|11)|55UG40[03]|58UG401|5[05]UB401|50UG40[03]|65UG403|5[08]UB400|58UA401|65UG402))(?:[);/ ]|$)",
  pat! "(?i)SW-LED(\\d{2}[SU][ABG]\\d{3})",
  pat! "(?i)STILEVS|ST65SMWOS4K(?:[);/ ]|$)",
  pat! "(?i)STILEVS SMART TV(?:[);/ ]|$)",
  pat! "(?i)STX[ -]([^;/]+)|STONE EVO",
  pat! "(?i)STX[ -]([^;/]+) Build",
  pat! "(?i)STX[ -]([a-z0-9_-]+)",
  pat! "(?i)eZee[^a-z]*Tab ?([^;/]*) Build|STOREX LinkBox",
  pat! "(?i)eZee[^a-z]*Tab ?([^;/]*) Build",
  pat! "(?i)StrawBerry[ _]",
  pat! "(?i)StrawBerry[ _](SX|QX15)(?:[);/ ]|$)",
  pat! "(?i)LGE; WSTR[0-9a-z]+;|(B3 (?:Maxi|Simply)|B3Pro|Android 8(?:[\\d.]*);(?: [\\w-]+;)? (?:B1s|HT28|HT16))(?:[);/ ]|$)",
  pat! "(?i)(B3 (?:Maxi|Simply)|B1s|HT28|HT16)(?:[);/ ]|$)",
  pat! "(?i)B3Pro(?:[);/ ]|$)",
  pat! "(?i)LGE; (WSTR[0-9a-z]+);",
  pat! "(?i)STYLO|(?:TARISTAB[234]|Luna|CPE91|VS571|VS5502|S57_A[ZL]URE|BOLD_PLUS|INKOSI(?:_PRO)?|INKULU_PRO|Ithemba|S56 MIST|S55 Nova|INKOSI_PRO_4G|S40_VISTA|S50_JADE|S50_BOLD|S64_ALPHA|S53_STARK|S40_LIFE|LIFE_2|S49[_ ](?:MONO|POISE|ECO)| [27]21|721_PRO|DQR22|MOSCOW|SWIFT_4G|STEP_UP|APEX_5G|ARCTIC|S61 JAZZ|Sirius Plus Tab 10|DVK87 Orion 8 Tab|DVK82 Mercury|EBY33)(?:[);/ ]|$)| (?:BRAVE|SATURN)(?: Build|[;)])",
  pat! "(?i)STYLO[ _](F1|Viva)",
  pat! "(?i)STYLO[ _]SONIC",
  pat! "(?i)([27]21)(?:[);/ ]|$)",
  pat! "(?i)STYLO[ _]S9[_ ]TOPAZ",
  pat! "(?i)SV61 VECTOR\\+",
  pat! "(?i)SM61 MAGIC\\+",
  pat! "(?i)S49[_ ]POISE",
  pat! "(?i)S49[_ ]MONO",
  pat! "(?i)S49[_ ]ECO",
  pat! "(?i)Stylo[_ ](521)",
  pat! "(?i)(VS571|VS5502)",
  pat! "(?i)TARISTAB([2-4])",
  pat! "(?i)SUBOR[ _]",
  pat! "(?i)SUBOR[ _](S5|2019)(?:[);/ ]|$)",
  pat! "(?i)SUBOR[_ ]K10PLUS(?:[);/ ]|$)",
  pat! "(?i)SUGAR[ _]",
  pat! "(?i)SUGAR Y([78]) MAX(?:[);/ ]|$)",
  pat! "(?i)SUGAR S60 pro(?:[);/ ]|$)",
  pat! "(?i)SUGAR F7 Mini(?:[);/ ]|$)",
  pat! "(?i)SUGAR[ _]([^);/]+) ?Dual(?: Build|[);])",
  pat! "(?i)SUGAR[ _]([^);/]+)(?: Build|[);])",
  pat! "(?i)Cyclone (?:Voyager|X8)(?:[);/ ]|$)",
  pat! "(?i)(Cyclone (?:Voyager 2|Voyager))(?:[);/ ]|$)",
  pat! "(?i)(Cyclone X8)(?:[);/ ]|$)",
  pat! "(?i)SUNVAN[ _-]",
  pat! "(?i)SUNVAN[ _-]?([^/;]+) Build",
  pat! "(?i)SUNVAN[ _-]?([^);/ ]+)",
  pat! "(?i)Model[ _][6ADSY](?:[ _]pro)?(?:[ _]4G)?(?:[);/ ]|$)",
  pat! "(?i)(Model S 4G)",
  pat! "(?i)(Model [6ADSY])",
  pat! "(?i)(?:V1s-G|T2s_LITE|V2_PRO-ST)(?:[);/ ]|$)",
  pat! "(?i)T2s_LITE(?:[);/ ]|$)",
  pat! "(?i)(V1s)-G",
  pat! "(?i)LGE; SNY?[0-9]{2}[0-9a-z]+(?:-[0-9]+)?;|(?:SS4G9 Mira|SS4G7 Sole|SS4G1 Luna|SS4G8 Nora|SS4G6 Lola|SN7014S?|SN7016|SN10016|SN01DNGL300|SUNNY ?(?:SS01|S52D|SN55UAL253-?)|SUNNY;SmartTV)(?:[);/ ]|$)",
  pat! "(?i)(SS4G9 Mira|SS4G7 Sole|SS4G1 Luna|SS4G8 Nora|SS4G6 Lola)(?:[);/ ]|$)",
  pat! "(?i)SUNNY (SS01|S52D)",
  pat! "(?i)(SN7014S?|SN7016|SN10016)(?:[);/ ]|$)",
  pat! "(?i)SUNNY;SmartTV",
  pat! "(?i)SN01DNGL300(?:[);/ ]|$)",
  pat! "(?i)(?:SUNNY[_ ]?)?(SN55UAL253)",
  pat! "(?i)LGE; (SNY?[0-9]{2}[0-9a-z]+)(?:-[0-9]+)?;",
  pat! "(?i)(TAB(?:2323GMQC|1081|918QC|917QC-(?:8|16)GB)|TAB1090)(?:[);/ ]|$)",
  pat! "(?i)(?:Sunwell_)?(?:T95ZPLUS|T95[KU]PRO|MINIM8S|MXQ-H3)(?:[);/ ]|$)",
  pat! "(?i)(?:Sunwell_)?T95ZPLUS",
  pat! "(?i)(T95[KU])PRO",
  pat! "(?i)MINIM8S(?:[);/ ]|$)",
  pat! "(?i)MXQ-H3(?:[);/ ]|$)",
  pat! "(?i)SUPER GENERAL[;,]",
  pat! "(?i)SuperBOX_S2PRO(?:[);/ ]|$)",
  pat! "(?i)(SC-[0-9]+[a-z]+|SC-2110)",
  pat! "(?i)Android 7(?:[\\d.]*); (?:BLACK|WHITE) X(?:[);/ ]|$)",
  pat! "(?i)(?:SuperTab(?:A10|K7|S7G)|K7 Kids)(?:[);/ ]|$)",
  pat! "(?i)SuperTab(A10|K7|S7G)",
  pat! "(?i)SUPRA|NVTAB 7\\.0 3G|M74C 3G",
  pat! "(?i)SUPRA[ _]([^;/)]+)(?: Build|[;)])",
  pat! "(?i)(NVTAB 7\\.0 3G|M74C 3G)",
  pat! "(?i)(SN10)(?:[);/ ]|$)",
  pat! "(?i)VOLT_(5XL)(?:[);/ ]|$)",
  pat! "(?i)SUZUKI[ _]|(?:ECOPAD7|SUMOPad10)(?:[);/ ]|$)",
  pat! "(?i)SUMOPAD(8100|10)(?:[);/ ]|$)",
  pat! "(?i)(SBX604)(?:[);/ ]|$)",
  pat! "(?i)(?:Slate2|Swipe_(?:Elite_3M?|Strike8)|Elite_(?:Grace|VR)|EliteDual|Elite (?:Prime|Star|Note|Sense|Power)|Konnect (?:Prime|Power|Neo 4G))(?:[);/ ]|$)",
  pat! "(?i)(?:Swipe_)?Elite[_ ]?(Sense|VR|3M?|Grace|Star|Prime|Note|Dual|Power)(?:[);/ ]|$)",
  pat! "(?i)Slate2(?:[);/ ]|$)",
  pat! "(?i)Swipe[_ ]Strike8",
  pat! "(?i)swisstone (SD 5[13]0)(?:[);/ ]|$)",
  pat! "(?i)eSmart[_ ]([EM]2|M3)(?:[);/ ]|$)",
  pat! "(?i)SYCO[ _]|RS-4(?:03|42)(?:[);/ ]|$)",
  pat! "(?i)RS-(\\d{3})",
  pat! "(?i)SYMPHONY[ \\_]([a-z0-9]+)|(?:(?:roar[ _](?:V20|A50|V78|E80|V150))|innova[123]0|roarV95|ZVIII?|V10[25]|V1[23]0|V128|V14[012]|V1[45]5|SYMTAB\\d+| (?:i9[79]|i7[245]|i8[05]|i6[568]|i30|i1[58]|i120|Z30 pro|Z60 plus|[ZR]30|V9[246789]|V75m)|INOVA|Android 7(?:[\\d.]*);(?: [\\w-]+;)? P11|Android 6.*; (?:V75|i2[015])|EASY_NAV_2|G10\\+|helio 30)(?:[);/ ]|$)",
  pat! "(?i)Symphony_PD1_4G_4G(?:[);/ ]|$)",
  pat! "(?i)innova([123]0)",
  pat! "(?i)roar[ _]?(V20|A50|E80|V78|V95|V150)(?:[);/ ]|$)",
  pat! "(?i)(Z30|P7) pro",
  pat! "(?i)(Z60) plus",
  pat! "(?i)G10\\+",
  pat! "(?i)(V141|V1[23]0|V10[25]|V128|V14[012]|i9[79]|i7[245]|i8[05]|i6[568]|i30|i1[58]|i120|V1[45]5|[ZR]30|V9[246789]|V75m?|i2[015]|P11)(?:[);/ ]|$)",
  pat! "(?i)SYMPHONY[ \\_]([a-z0-9]+)",
  pat! "(?i)SYMTAB(\\d+)",
  pat! "(?i)(SYX-(?:T70[04]|T10[12]))(?:[);/ ]|$)",
  pat! "(?i)System76 Galago Pro(?:[);/ ]|$)",
  pat! "(?i)T-Mobile[ _][a-z0-9 ]+|(?:REVVLRY\\+?|REVVL V\\+ 5G|REVVL 2(?: PLUS)?|5062[ZW]|5007[ZW]|T790[WZ]|Telekom Puls|TMAF0[23]5G|TMRVL4G|TMRV5GTB|TMRV0[67]P?5G|T Phone|T Tablet)(?:[);/ ]|$)",
  pat! "(?i)5062[ZW]",
  pat! "(?i)5007[ZW]",
  pat! "(?i)T790[WZ]",
  pat! "(?i)REVVL V\\+ 5G",
  pat! "(?i)REVVL 2(?:[);/ ]|$)",
  pat! "(?i)TMAF025G(?:[);/ ]|$)",
  pat! "(?i)TMRV075G(?:[);/ ]|$)",
  pat! "(?i)TMAF035G(?:[);/ ]|$)",
  pat! "(?i)TMRV07P5G(?:[);/ ]|$)",
  pat! "(?i)Telekom Puls(?:[);/ ]|$)",
  pat! "(?i)T Phone Pro \\((2023)\\)",
  pat! "(?i)T Phone \\((2023)\\)",
  pat! "(?i)T Phone Pro(?:[);/ ]|$)",
  pat! "(?i)T Phone (\\d*)(?:[);/ ]|$)",
  pat! "(?i)T Phone(?:[);/ ]|$)",
  pat! "(?i)T Tablet(?:[);/ ]|$)",
  pat! "(?i)T-Mobile[ _]([a-z0-9_ ]+) Build",
  pat! "(?i)T-Mobile[ _]([a-z0-9_ ]+)",
  pat! "(?i)T96mini(?:[);/ ]|$)",
  pat! "(?i)TADAAM BOX(?:[);/ ]|$)",
  pat! "(?i)(?:TAG[ -]TAB[ -]III?|TAGPhone)(?:[);/ ]|$)",
  pat! "(?i)TAG[ -]TAB[ -](III?)",
  pat! "(?i)TAGPhone(?:[);/ ]|$)",
  pat! "(?i)TAUBE[;,]",
  pat! "(?i)Ignis [89]",
  pat! "(?i)Ignis ([89])",
  pat! "(?i)TCL,|TCL[a-z0-9]+;|smarttv_AFTMM-TCL|AFTDEC012E|AFTMD002|AFTSHN02|AFTMD001|TCL[_ -][a-z0-9]+|(?:TCL[_ -][^;/]+ Build)|(?:TCLGalaG60(?:\\(9108A\\))?|T431P|4163D|4187[DMU]|4188[CLRSVO]|5004S|5033TP|5087Z|5101A|5102[BKLMOP]|5107G|5124J|5130[JMEI]|5133MP|5133A|5148A|5152D|5159[AJ]|5164[AD]|5199I|6102[ADH]|6125[ADFH]|6127[AI]|6156[ADH]|6159[AK]|6165[AHS]|7040N|8491X|9048S|9060[GX]|9080G|9081X|9295G|9296[GQ]|A(?:50[2789]|600)DL|T(?:60[123]|701)DL|T(?:506D|671[EFGHO]|676[HJK]|766[AHJSU]|767[GHW]|770[BH]|771K|773O|774[BH]|775[BH]|776[HO]|779W|780H|781SPP|781S|781|782H|790[SY]|799[BH]|810[HS])|Percee TV|9183W|9198S|9309X2|9317X1|8[14]96G|916[016]G| 9061| 8182| 8167| 8095|BeyondTV\\d?|UnionTV|T507[DU]|5131[AG]|T610[KE]|T611B|T612B|T614D|T702[DW]|9132[GS]|9137W|T430W|T431[DUQ]|T501[CL]|T768S|T803D|9199S|9494G|9460G|9466X|T60[79]DL|T433[DE]|T506[AGKTF]|T509[AK])(?:_(?:RU|EEA|TR))?(?:[);/ ]|$)",
  pat! "(?i)TCLGalaG60(?:\\(9108A\\))?(?:[);/ ]|$)",
  pat! "(?i)5004S(?:[);/ ]|$)",
  pat! "(?i)T430W(?:[);/ ]|$)",
  pat! "(?i)T501[CL](?:[);/ ]|$)",
  pat! "(?i)T779W(?:[);/ ]|$)",
  pat! "(?i)5[01]33[MT]P(?:[);/ ]|$)",
  pat! "(?i)4187D(?:[);/ ]|$)",
  pat! "(?i)(?:4163D|4188S)(?:[);/ ]|$)",
  pat! "(?i)5131[AG]",
  pat! "(?i)T431[DUQ](?:[);/ ]|$)",
  pat! "(?i)6102[AD](?:[);/ ]|$)",
  pat! "(?i)5164[AD](?:[);/ ]|$)",
  pat! "(?i)6102H(?:[);/ ]|$)",
  pat! "(?i)T506[AD]",
  pat! "(?i)T506[GK]",
  pat! "(?i)T507[DU]",
  pat! "(?i)T433[DE]",
  pat! "(?i)T610[KE](?:[);/ ]|$)",
  pat! "(?i)T774[BH](?:[);/ ]|$)",
  pat! "(?i)T775B(?:[);/ ]|$)",
  pat! "(?i)T775H(?:[);/ ]|$)",
  pat! "(?i)6125[ADFH]",
  pat! "(?i)6127[AI]",
  pat! "(?i)6156[ADH]",
  pat! "(?i)6159[AK]",
  pat! "(?i)5199I(?:[);/ ]|$)",
  pat! "(?i)A509DL(?:[);/ ]|$)",
  pat! "(?i)A600DL(?:[);/ ]|$)",
  pat! "(?i)5102[LO](?:[);/ ]|$)",
  pat! "(?i)5152D(?:[);/ ]|$)",
  pat! "(?i)5133A(?:[);/ ]|$)",
  pat! "(?i)5102[BKMP](?:[);/ ]|$)",
  pat! "(?i)5159[AJ](?:[);/ ]|$)",
  pat! "(?i)5101A(?:[);/ ]|$)",
  pat! "(?i)5107G(?:[);/ ]|$)",
  pat! "(?i)5124J(?:[);/ ]|$)",
  pat! "(?i)5130[JEI](?:[);/ ]|$)",
  pat! "(?i)4187[MU](?:[);/ ]|$)",
  pat! "(?i)5148A(?:[);/ ]|$)",
  pat! "(?i)5130M(?:[);/ ]|$)",
  pat! "(?i)T780H(?:[);/ ]|$)",
  pat! "(?i)T782H(?:[);/ ]|$)",
  pat! "(?i)T790Y(?:[);/ ]|$)",
  pat! "(?i)(?:T790S|TCL 10 5G UW)(?:[);/ ]|$)",
  pat! "(?i)TCL[_ -]([^;/]+) Build",
  pat! "(?i)TCL[_ -]([a-z0-9]+)",
  pat! "(?i)(7040N)(?:[);/ ]|$)",
  pat! "(?i)A502DL(?:[);/ ]|$)",
  pat! "(?i)A507DL(?:[);/ ]|$)",
  pat! "(?i)A508DL(?:[);/ ]|$)",
  pat! "(?i)T601DL(?:[);/ ]|$)",
  pat! "(?i)T609DL(?:[);/ ]|$)",
  pat! "(?i)T702W(?:[);/ ]|$)",
  pat! "(?i)T611B(?:[);/ ]|$)",
  pat! "(?i)T614D(?:[);/ ]|$)",
  pat! "(?i)T770[HB](?:[);/ ]|$)",
  pat! "(?i)T766[AHJSU](?:_(?:EEA|TR|RU))?(?:[);/ ]|$)",
  pat! "(?i)T671[HFEO](?:_EEA)?(?:[);/ ]|$)",
  pat! "(?i)T768S(?:_EEA)?(?:[);/ ]|$)",
  pat! "(?i)6165[AHS]",
  pat! "(?i)T676[KJ]",
  pat! "(?i)(?:4188[CLRO]|T602DL)(?:[);/ ]|$)",
  pat! "(?i)(?:T781S|T781SPP)(?:[);/ ]|$)",
  pat! "(?i)T776[HO]",
  pat! "(?i)T767[GW](?:[);/ ]|$)",
  pat! "(?i)(?:T671G|T701DL)(?:[);/ ]|$)",
  pat! "(?i)T767H(?:[);/ ]|$)",
  pat! "(?i)T773O(?:[);/ ]|$)",
  pat! "(?i)5087Z(?:[);/ ]|$)",
  pat! "(?i)T781(?:[);/ ]|$)",
  pat! "(?i)T810[SH](?:[);/ ]|$)",
  pat! "(?i)T799[BH]",
  pat! "(?i)T771K(?:[);/ ]|$)",
  pat! "(?i)T607DL(?:[);/ ]|$)",
  pat! "(?i)T612B(?:[);/ ]|$)",
  pat! "(?i)T803[DE](?:[);/ ]|$)",
  pat! "(?i)T702D(?:[);/ ]|$)",
  pat! "(?i)8095(?:[);/ ]|$)",
  pat! "(?i)9048S(?:[);/ ]|$)",
  pat! "(?i)9198S(?:[);/ ]|$)",
  pat! "(?i)9460G(?:[);/ ]|$)",
  pat! "(?i)9183W(?:[);/ ]|$)",
  pat! "(?i)(?:9061|9081X)(?:[);/ ]|$)",
  pat! "(?i)8496G(?:[);/ ]|$)",
  pat! "(?i)8196G(?:[);/ ]|$)",
  pat! "(?i)9309X2(?:_EEA)?(?:[);/ ]|$)",
  pat! "(?i)(?:8167)(?:[);/ ]|$)",
  pat! "(?i)(?:8182)(?:[);/ ]|$)",
  pat! "(?i)9060G|9161G",
  pat! "(?i)9060X|9160G",
  pat! "(?i)(Percee TV|UnionTV)(?:[);/ ]|$)",
  pat! "(?i)BeyondTV(\\d)?(?:[);/ ]|$)",
  pat! "(?i)((?:43|55)S62FS|(?:43|50)P65US|U(?:43|60|65)P60|65P4USM|(?:40|49)S62|L32S6|55P610|50P8S|55S62|(?:43|50)P6US|55DP60)",
  pat! "(?i)_TV_[A-Z0-9]+_Tbrowser_2k20",
  pat! "(?i)AFTMD002(?:[);/ ]|$)",
  pat! "(?i)AFTSHN02(?:[);/ ]|$)",
  pat! "(?i)AFTMD001(?:[);/ ]|$)",
  pat! "(?i)AFTDEC012E(?:[);/ ]|$)",
  pat! "(?i)TCL,([a-z0-9_ -]+),(?:wired|wireless)",
  pat! "(?i)(K(?:24|32)DLX9HS|K40DLM8FS|K40DLX9FS|K50DLX9US|K50DLJ10US|K43DLJ10US|K32DLX10HS|K32DLJ12HS)(?:[);/ ]|$)",
  pat! "(?i)Build/TDTech|(?:NAT-TN70|TDT-MA01|AVA-PA00)(?:[);/ ]|$)",
  pat! "(?i)TECHNOSAT[ _]",
  pat! "(?i)TECHNOSAT[ _](W2)",
  pat! "(?i)TEENO[_ ](S9|A1|i12|S11)(?:[);/ ]|$)",
  pat! "(?i)TENPLUS[_ ]([^/;)]+)(?: Build|[);])",
  pat! "(?i)TETC[ -](F\\d)(?:[);/ ]|$)",
  pat! "(?i)TIANYU ([a-z0-9]+)",
  pat! "(?i)TIANYU-KTOUCH/([a-z0-9]+)",
  pat! "(?i)(?:TIMVISIONBOX|TIM_BOX)(?:[);/ ]|$)",
  pat! "(?i)Metal_Tablet_10(?:[);/ ]|$)",
  pat! "(?i)(MT-1011QR)(?:[);/ ]|$)",
  pat! "(?i)TOOGO[_ ]",
  pat! "(?i)TOOGO[_ ]([^/;)]+)(?: Build|[);])",
  pat! "(?i)(ArtiDiag800 BT)(?:[);/ ]|$)"]

/-- `__dr_re`, from item 9250 on (device_repo.go:27586-27835). -/
def drRe_37 : List (List Chunk) := [
  pat! "(?i)TOPSHOWS[ _-](X[19])(?:[);/ ]|$)",
  pat! "(?i)TORNADO[;,)]",
  pat! "(?i)TORNADO, ?([a-z0-9_ -]+)\\*?, ?(?:wired|wireless)",
  pat! "(?i)(?:(?:T1[235]|T151|T2[1268]|T181|P101)-EEA|W-?109)(?:[);/ ]|$)",
  pat! "(?i)(T1[235]|T151|T2[1268]|P101|T181)-EEA(?:[);/ ]|$)",
  pat! "(?i)W-?109(?:[);/ ]|$)",
  pat! "(?i)(Magictab (?:9GX|7GE|718))(?:[);/ ]|$)",
  pat! "(?i)TT20(?:[);/ ]|$)",
  pat! "(?i)(?:TVPLUS BOX)(?:[);/ ]|$)",
  pat! "(?i)(NuclearSX-SP5)",
  pat! "(?i)Amazing[ _](X[35]s|X[123567]|A5S|A3[025]|A[468]|A4S|A5[057]|P6)(?:[);/ ]|$)",
  pat! "(?i)Amazing[ _](X[35])s(?:[);/ ]|$)",
  pat! "(?i)Amazing[ _](A5S|X[123567]|A[468]|A4S|A5[057]|A3[025])(?:[);/ ]|$)",
  pat! "(?i)Amazing[ _](P6)(?:[);/ ]|$)",
  pat! "(?i)TWZ[-_ ](?:TabPlay|Y6[08]|Y52|A49|A[59]5|A567|AA8|QQ[12])|TWZQQ1|(?:OX_X1)(?:[);/ ]|$)",
  pat! "(?i)TWZ[_ ]TabPlay[_ ](12[56])",
  pat! "(?i)TWZ[-_ ]?(Y6[08]|Y52|A49|A[59]5|A567|AA8|QQ[12])",
  pat! "(?i)(TYD-109([_ ]Pro)?)(?:[);/ ]|$)",
  pat! "(?i)(?:TP_1_3000)(?:[);/ ]|$)",
  pat! "(?i)(MID169|MID211H)(?:[);/ ]|$)",
  pat! "(?i)(Nitro 551)(?:[);/ ]|$)",
  pat! "(?i)(TA-(?:2[_ ](?:3G|Pro)|5[05][_ ]Power|[1-4]|[1246]0))(?:[);/ ]|$)",
  pat! "(?i)Tanix|(?:TX[53] MAX|TX[69]s|TX3 Mini|TX3MINI|TX5 Pro)(?:[);/ ]|$)",
  pat! "(?i)TX([69])s",
  pat! "(?i)Tanix (A3)",
  pat! "(?i)TX([35]) MAX",
  pat! "(?i)(?:Tanix_)?(?:TX3[ _]?Mini)",
  pat! "(?i)TeachTouch[_ ]",
  pat! "(?i)TeachTouch (Table)",
  pat! "(?i)TECTOY_5029Y(?:[);/ ]|$)",
  pat! "(?i)Tech[ _]?pad|XTAB[ _-]|(?:3G_16|Dual (?:C1081HD|C981HD)|S813G|NOTE[_ ]4CAM|M5(?:Go|Plus)|M6Plus|Android 8(?:[\\d.]*);(?: [\\w-]+;)? 816x?)(?:[);/ ]|$)",
  pat! "(?i)Tech ?Pad[_ ]?(10Y|9x|i700|10Z|7QC|10QC|832|703)",
  pat! "(?i)TechPad[_ ]3Gx",
  pat! "(?i)Android 8(?:[\\d.]*);(?: [\\w-]+;)? (816x?)",
  pat! "(?i)Dual (C981HD|C1081HD)",
  pat! "(?i)XTAB[ _-]([^/;)]+)(?: Build|[;)])",
  pat! "(?i)M5(Go|Plus)",
  pat! "(?i)NOTE[ _]4CAM",
  pat! "(?i)Tech ?pad[ _-]([^/;)]+)(?: Build|[;)])",
  pat! "(?i)TECHSMART[_ ]",
  pat! "(?i)TECHSMART[_ ]([^/;)]+)(?: Build|[);])",
  pat! "(?i)TechniPhone 5(?:[);/ ]|$)",
  pat! "(?i)(?:UP10SI[34]6LA|UP918|UP7[67]8|UP1018|UP10_SH36LAG|Ultrapad_UP10\\.S36LA)(?:[);/ ]|$)",
  pat! "(?i)(UP10SI[34]6LA|UP918|UP778|UP768|UP1018)",
  pat! "(?i)(?:Ultrapad_)?UP10[_.](SH36LAG|S36LA)",
  pat! "(?i)Allwinner Nitro Pro(?:[);/ ]|$)",
  pat! "(?i)Teclast|P80_G3M2|TLA00[12]|TLA016|X98 Air III|M20_4G|X98 Air II\\(HG5N\\)|Tbook|X80 Power\\(B2N4\\)|P80H\\(D1C2\\)|T20\\(T2E1\\)|(?:[TM]40 Plus|T30|P80[XHT]|P20HD|P10[_ ]HD|M40|P10SE?|M30_Pro|M40SE|P8[05]|P25(?:_T)?|P85T|P[23]0S|P[34]0HD|T40S)_(?:ROW|EEA|RUS|W_EEA)|P20HD\\(N6H5\\)|T40 Plus\\(M7T3\\)|T40Pro|T40 PRO(?:\\(T1A1\\))?|T10\\(E3C[56]\\)|P10S\\(N4H5\\)|98\\(M1E[45789]\\)|98\\(M3E3\\)|X10 \\(M1D3\\)|M89 Pro|M40\\(N9H[123]\\)|P20HD\\(N6H7\\)|M40SE\\(M5T3\\)|M50S|M40(?:SE?|Pro|Air)_(?:ROW|EEA|RUS)|M50Plus|[MT]50Mini|P30Air|P10HD_Lite|(?:T60Ai|P50Ai|P50_[BT]|T50|M40_?Plus|M40 Pro|T50Pro_W|TLG01|P26T|P40S|P50|P25T|T70|T50Max|T50HD|T60Plus|T65Max|ArtPadPro)_(?:ROW|EEA)|M50[-_]ROW|M40Plus_EEA|P40HD_T_(?:EEA|ROW)|T40_Plus_RUS|T40 Air|P50_B|P50Case|(?: (?:T4[05]HD|P30T|P80X|M50HD)|98 \\(M1E3\\))|(?:Android 13(?:[\\d.]*);(?: [\\w-]+;)? (?:M50 Pro|T[56]0)|T50HD)(?:[);/ ]|$)",
  pat! "(?i)Tbook[_ -]([^;/]+)(?: Build|[;)]|$)",
  pat! "(?i)T10\\(E3C[56]\\)",
  pat! "(?i)T20\\(T2E1\\)",
  pat! "(?i)X10 \\(M1D3\\)",
  pat! "(?i)98 \\(M1E3\\)",
  pat! "(?i)P10S(?:\\(N4H5\\)|_(?:ROW|EEA))(?:[);/ ]|$)",
  pat! "(?i)P20HD_?(?:ROW|EEA|RUS)|P20HD\\(N6H[57]\\)",
  pat! "(?i)M50 ?Mini",
  pat! "(?i)P10[_ ]HD_(?:ROW|EEA)",
  pat! "(?i)P80[_ ](?:ROW|EEA)|P80_G3M2",
  pat! "(?i)P(50|85)[_ ](?:ROW|EEA|RUS|[BT])",
  pat! "(?i)M([43]0)[_ ]?Pro[_ ](?:ROW|EEA|RUS)",
  pat! "(?i)M40\\(N9H[123]\\)",
  pat! "(?i)T(50|65)Max",
  pat! "(?i)M([45]0)[_ ]?Plus_?",
  pat! "(?i)M40S[_ ](?:ROW|EEA|RUS)",
  pat! "(?i)T40 ?PRO",
  pat! "(?i)T40[ _]Plus(?:_(?:ROW|EEA|RUS)|\\(M7T3\\))",
  pat! "(?i)T(4[05])HD",
  pat! "(?i)M(50)HD",
  pat! "(?i)P80H\\(D1C2\\)",
  pat! "(?i)(P80[Xh]|P30HD|T30|M40|P25(?:_T)?|P10SE|T40S|P[24]0S|T[56]0|TLG01|P26T|P85T|P30T|T50HD|P25T|M50S?|T70)(?:[_ -](?:ROW|EEA))?(?:[);/ ]|$)",
  pat! "(?i)98\\(M1E[45789]\\)|98\\(M3E3\\)",
  pat! "(?i)X80 Power\\(B2N4\\)(?:[);/ ]|$)",
  pat! "(?i)X98 Air III(?:[);/ ]|$)",
  pat! "(?i)X98 Air II\\(HG5N\\)(?:[);/ ]|$)",
  pat! "(?i)Teclast[_ -]([^;/]+) Build",
  pat! "(?i)Tecno|Camon|Phantom[56]|Phantom6-Plus|Phantom6S|DP7C ?Pro-SGA1|(?:DP7CPRO|DP8D)(?:[);/ ]|$)",
  pat! "(?i)Phantom([56])",
  pat! "(?i)TECNO[ _]AD8",
  pat! "(?i)TECNO[ _]AD9",
  pat! "(?i)TECNO[ _]AC8(?:[);/ ]|$)",
  pat! "(?i)TECNO[ _]AD10(?:[);/ ]|$)",
  pat! "(?i)TECNO[ _]AE10(?:[);/ ]|$)",
  pat! "(?i)TECNO[ _]AD11(?:[);/ ]|$)",
  pat! "(?i)TECNO[ _]AE11(?:[);/ ]|$)",
  pat! "(?i)TECNO[ _]AB7(?:[);/ ]|$)",
  pat! "(?i)TECNO[ _]AX8(?:[);/ ]|$)",
  pat! "(?i)TECNO[ _]F4 Pro(?:[);/ ]|$)",
  pat! "(?i)TECNO[ _]IN5(?:[);/ ]|$)",
  pat! "(?i)TECNO[ _]IA5(?:[);/ ]|$)",
  pat! "(?i)TECNO[ _]ID3k(?:[);/ ]|$)",
  pat! "(?i)TECNO[ _]KB2(?:[);/ ]|$)",
  pat! "(?i)TECNO[ _]ID5b(?:[);/ ]|$)",
  pat! "(?i)TECNO[ _]ID5a(?:[);/ ]|$)",
  pat! "(?i)TECNO[ _]ID6(?:[);/ ]|$)",
  pat! "(?i)TECNO[ _]IN2(?:[);/ ]|$)",
  pat! "(?i)TECNO[ _]IN1 Pro(?:[);/ ]|$)",
  pat! "(?i)TECNO[ _]KB3(?:[);/ ]|$)",
  pat! "(?i)Tecno[ _]7C(?:[);/ ]|$)",
  pat! "(?i)Tecno[ _]P701(?:[);/ ]|$)",
  pat! "(?i)(?:DP7C ?Pro-SGA1|TECNO[ _]DP7CPRO|DP7CPRO)(?:[);/ ]|$)",
  pat! "(?i)Tecno[ _]P703(?:[);/ ]|$)",
  pat! "(?i)Tecno[ _]P704a(?:[);/ ]|$)",
  pat! "(?i)TECNO[ _]DP10A Pro(?:[);/ ]|$)",
  pat! "(?i)TECNO[ _]P904(?:[);/ ]|$)",
  pat! "(?i)DP8D(?:[);/ ]|$)",
  pat! "(?i)Tecno[ _]RC6(?:[);/ ]|$)",
  pat! "(?i)Tecno[ _]CB7[j]?",
  pat! "(?i)Tecno[- _]C9(?:[);/ ]|$)",
  pat! "(?i)Tecno[ _]CF7[kS]?(?:[);/ ]|$)",
  pat! "(?i)Tecno[ _]CF8(?:[);/ ]|$)",
  pat! "(?i)Tecno[ _]CC7S?(?:[);/ ]|$)",
  pat! "(?i)Tecno[ _]CC9(?:[);/ ]|$)",
  pat! "(?i)Tecno[ _](?:CC6|KC3)(?:[);/ ]|$)",
  pat! "(?i)Tecno[ _-]CD7(?:[);/ ]|$)",
  pat! "(?i)Tecno[ _-]CD6S?(?:[);/ ]|$)",
  pat! "(?i)Tecno[ _-]CD8j(?:[);/ ]|$)",
  pat! "(?i)Tecno[ _-]CD8(?:[);/ ]|$)",
  pat! "(?i)Tecno[ _-](?:CE9h|CE7)(?:[);/ ]|$)",
  pat! "(?i)Tecno[ _-]CE9(?:[);/ ]|$)",
  pat! "(?i)Tecno[ _-]CE8(?:[);/ ]|$)",
  pat! "(?i)Tecno[ _-]CD6j(?:[);/ ]|$)",
  pat! "(?i)Tecno[ _-]CE7j(?:[);/ ]|$)",
  pat! "(?i)Tecno[ _-]CG6j?(?:[);/ ]|$)",
  pat! "(?i)Tecno[ _-]CG8h?(?:[);/ ]|$)",
  pat! "(?i)Tecno[ _-]CG7n?(?:[);/ ]|$)",
  pat! "(?i)Tecno[ _-](?:Mobile )?CH9n?(?:[);/ ]|$)",
  pat! "(?i)Tecno[ _-](?:Mobile )?CH6[nh]?(?:[);/ ]|$)",
  pat! "(?i)Tecno[ _-]CH7n?(?:[);/ ]|$)",
  pat! "(?i)Tecno[ _-](?:Mobile )?CI6n?(?:[);/ ]|$)",
  pat! "(?i)Tecno[ _-](?:Mobile )?CH6i(?:[);/ ]|$)",
  pat! "(?i)Tecno[ _-](?:Mobile )?CI8n?(?:[);/ ]|$)",
  pat! "(?i)Tecno[ _-]CI7n(?:[);/ ]|$)",
  pat! "(?i)(?:Tecno[ _-]CK7n?|Camon 20 Pro)(?:[);/ ]|$)",
  pat! "(?i)Tecno[ _-]CK6n?(?:[);/ ]|$)",
  pat! "(?i)Tecno[ _-]CK8n(?:[);/ ]|$)",
  pat! "(?i)Tecno[ _-]CK8nB(?:[);/ ]|$)",
  pat! "(?i)Tecno[ _-]CK9n(?:[);/ ]|$)",
  pat! "(?i)Tecno[ _-]CL6[ks]?(?:[);/ ]|$)",
  pat! "(?i)Tecno[ _-]CL9(?:[);/ ]|$)",
  pat! "(?i)Tecno[ _-]CL7[ks]?(?:[);/ ]|$)",
  pat! "(?i)Tecno[ _-]CL8(?:[);/ ]|$)",
  pat! "(?i)Tecno[ _-]CLA6(?:[);/ ]|$)",
  pat! "(?i)Tecno[ _-]CLA5(?:[);/ ]|$)",
  pat! "(?i)Tecno[ _-]CM5(?:[);/ ]|$)",
  pat! "(?i)Tecno[ _-]CM6(?:[);/ ]|$)",
  pat! "(?i)Tecno[ _-]CM8(?:[);/ ]|$)",
  pat! "(?i)Tecno[ _-]CA6S?(?:[);/ ]|$)",
  pat! "(?i)Tecno[ _-]CA7(?:[);/ ]|$)",
  pat! "(?i)Tecno[ _-]CA8S?(?:[);/ ]|$)",
  pat! "(?i)Tecno[ _-]Camon CX(?:[);/ ]|$)",
  pat! "(?i)Tecno[ _-]CX Air(?:[);/ ]|$)",
  pat! "(?i)TECNO[ _]F3(?:[);/ ]|$)",
  pat! "(?i)TECNO[ _]B1(?:[);/ ]|$)",
  pat! "(?i)TECNO[ _]SA2S(?:[);/ ]|$)",
  pat! "(?i)TECNO[ _]B1[fg](?:[);/ ]|$)",
  pat! "(?i)TECNO[ _](?:RA8|KB2h)(?:[);/ ]|$)",
  pat! "(?i)TECNO[ _]KB2j(?:[);/ ]|$)",
  pat! "(?i)TECNO[ _]BA2(?:[);/ ]|$)",
  pat! "(?i)TECNO[ _]B1p(?:[);/ ]|$)",
  pat! "(?i)TECNO[ _]RB8S(?:[);/ ]|$)",
  pat! "(?i)TECNO[ _]RB6S(?:[);/ ]|$)",
  pat! "(?i)TECNO[ _]RB7S(?:[);/ ]|$)",
  pat! "(?i)TECNO[ _]B1c(?:[);/ ]|$)",
  pat! "(?i)TECNO[ _]SC7S(?:[);/ ]|$)",
  pat! "(?i)TECNO[ _]BB2(?:[);/ ]|$)",
  pat! "(?i)TECNO[ _]BB4(?:[);/ ]|$)",
  pat! "(?i)TECNO[ _]BC2c?(?:[);/ ]|$)",
  pat! "(?i)TECNO[ _]BC3?(?:[);/ ]|$)",
  pat! "(?i)TECNO[ _]BC1(?:[);/ ]|$)",
  pat! "(?i)TECNO[ _]BC1s(?:[);/ ]|$)",
  pat! "(?i)TECNO[ _]BD2[dp]?(?:[);/ ]|$)",
  pat! "(?i)TECNO[ _]L6502S(?:[);/ ]|$)",
  pat! "(?i)TECNO[ _]BD1(?:[);/ ]|$)",
  pat! "(?i)TECNO[ _]W5006S(?:[);/ ]|$)",
  pat! "(?i)TECNO[ _]BD4[ai]?(?:[);/ ]|$)",
  pat! "(?i)TECNO[ _]BD4[jh](?:[);/ ]|$)",
  pat! "(?i)TECNO[ _]BD3(?:[);/ ]|$)",
  pat! "(?i)TECNO[ _]BE7(?:[);/ ]|$)",
  pat! "(?i)TECNO[ _]BE6j?(?:[);/ ]|$)",
  pat! "(?i)TECNO[ _]BE8[i]?(?:[);/ ]|$)",
  pat! "(?i)TECNO[ _](?:Mobile )?BF6(?:[);/ ]|$)",
  pat! "(?i)TECNO[ _]BF7h?(?:[);/ ]|$)",
  pat! "(?i)TECNO[ _]BG6[ih](?:[);/ ]|$)",
  pat! "(?i)TECNO[ _]KL4(?:[);/ ]|$)",
  pat! "(?i)TECNO[ _]KL8h(?:[);/ ]|$)",
  pat! "(?i)Tecno[ _]SA1S Pro(?:[);/ ]|$)",
  pat! "(?i)Tecno[ _]KG5[mh]?(?:[);/ ]|$)",
  pat! "(?i)Tecno[ _](?:Mobile )?BF7n(?:[);/ ]|$)",
  pat! "(?i)Tecno[ _](?:Mobile )?BG6[ms]?(?:[);/ ]|$)",
  pat! "(?i)Tecno[ _](?:Mobile )?KJ5n?(?:[);/ ]|$)",
  pat! "(?i)Tecno[ _](?:Mobile )?BG7n?(?:[);/ ]|$)",
  pat! "(?i)Tecno[ _](?:Mobile )?KJ6(?:[);/ ]|$)",
  pat! "(?i)Tecno[ _](?:Mobile )?KJ8(?:[);/ ]|$)",
  pat! "(?i)Tecno[ _](?:Mobile )?KJ7s?(?:[);/ ]|$)",
  pat! "(?i)Tecno[ _]KA7O?(?:[);/ ]|$)",
  pat! "(?i)Tecno[ _]LB6?(?:[);/ ]|$)",
  pat! "(?i)Tecno[ _]KB7j?(?:[);/ ]|$)",
  pat! "(?i)Tecno[ _]KB8?(?:[);/ ]|$)",
  pat! "(?i)Tecno[ _](?:KC8S?|KC2j?)(?:[);/ ]|$)",
  pat! "(?i)Tecno[ _](?:KC6S?|KC1j)(?:[);/ ]|$)",
  pat! "(?i)Tecno[ _]BB4k(?:[);/ ]|$)",
  pat! "(?i)Tecno[ _]KD6a?(?:[);/ ]|$)",
  pat! "(?i)Tecno[ _]KD7[hS](?:[);/ ]|$)",
  pat! "(?i)Tecno[ _]KD7(?:[);/ ]|$)",
  pat! "(?i)TECNO[ _]KE7(?:[);/ ]|$)",
  pat! "(?i)TECNO[ _]KE6j?(?:[);/ ]|$)",
  pat! "(?i)TECNO[ _]KE5[jk]?(?:[);/ ]|$)",
  pat! "(?i)TECNO[ _](?:KF6(?:ks|[nhmjki])?|PR651[EH]?)(?:[);/ ]|$)",
  pat! "(?i)TECNO[ _]KF8(?:[);/ ]|$)",
  pat! "(?i)TECNO[ _]KF7j(?:[);/ ]|$)",
  pat! "(?i)TECNO[ _]KF6p(?:[);/ ]|$)",
  pat! "(?i)TECNO[ _](?:Mobile )?KG6k?(?:[);/ ]|$)",
  pat! "(?i)TECNO[ _](?:Mobile )?KG5[nkjq]?(?:[);/ ]|$)",
  pat! "(?i)TECNO[ _]KG7[nh]?(?:[);/ ]|$)",
  pat! "(?i)TECNO(?: Mobile)?[ _]KG6p(?:[);/ ]|$)",
  pat! "(?i)TECNO(?: Mobile)?[ _]KG8(?:[);/ ]|$)",
  pat! "(?i)TECNO[ _]KH7[nh]?(?:[);/ ]|$)",
  pat! "(?i)TECNO[ _]KG5p(?:[);/ ]|$)",
  pat! "(?i)TECNO[ _]KH6(?:[);/ ]|$)",
  pat! "(?i)TECNO[ _](?:Mobile[ _])?KI5[km]",
  pat! "(?i)TECNO[ _](?:Mobile[ _])?KI5",
  pat! "(?i)TECNO[ _]KI8",
  pat! "(?i)TECNO[ _](?:Mobile[ _])?KI7",
  pat! "(?i)TECNO[ _]KC1h(?:[);/ ]|$)",
  pat! "(?i)TECNO[ _]KE5S(?:[);/ ]|$)",
  pat! "(?i)TECNO[ _]KG5m(?:[);/ ]|$)",
  pat! "(?i)TECNO[ _]KL4h(?:[);/ ]|$)",
  pat! "(?i)TECNO[ _](?:Mobile )?KL5n?(?:[);/ ]|$)",
  pat! "(?i)TECNO[ _](?:Mobile )?KL6(?:[);/ ]|$)",
  pat! "(?i)TECNO[ _](?:Mobile )?KL7(?:[);/ ]|$)",
  pat! "(?i)TECNO[ _]KC1(?:[);/ ]|$)",
  pat! "(?i)TECNO[ _]K9(?:[);/ ]|$)",
  pat! "(?i)TECNO[ _]KA6(?:[);/ ]|$)",
  pat! "(?i)TECNO[ _]KA9(?:[);/ ]|$)",
  pat! "(?i)Tecno[ _]DP8D(?:[);/ ]|$)",
  pat! "(?i)Tecno[ _](P702AS)(?:[);/ ]|$)",
  pat! "(?i)TECNO[ _]LA7 Pro(?:[);/ ]|$)",
  pat! "(?i)TECNO[ _]LA7(?:[);/ ]|$)",
  pat! "(?i)TECNO[ _]LA6(?:[);/ ]|$)",
  pat! "(?i)TECNO[ _]LB7(?:[);/ ]|$)",
  pat! "(?i)TECNO[ _]LC6a?(?:[);/ ]|$)",
  pat! "(?i)Tecno[ _]LB8a?",
  pat! "(?i)TECNO[ _]LC7S?(?:[);/ ]|$)",
  pat! "(?i)TECNO[ _]LC8(?:[);/ ]|$)",
  pat! "(?i)Tecno[ _-]J8(?:[);/ ]|$)",
  pat! "(?i)Tecno[ _-]RA7(?:[);/ ]|$)",
  pat! "(?i)Tecno[ _-]W3 Pro(?:[);/ ]|$)",
  pat! "(?i)Tecno[ _-]WX3P(?:[);/ ]|$)",
  pat! "(?i)TECNO[ _]LD7j?(?:[);/ ]|$)",
  pat! "(?i)TECNO[ _]LE6h?(?:[);/ ]|$)",
  pat! "(?i)TECNO[ _](?:Mobile )?LG6n(?:[);/ ]|$)"]

/-- `__dr_re`, from item 9500 on (device_repo.go:27836-28085). -/
def drRe_38 : List (List Chunk) := [
  pat! "(?i)TECNO[ _]LH6n(?:[);/ ]|$)",
  pat! "(?i)TECNO[ _]LE6j(?:[);/ ]|$)",
  pat! "(?i)TECNO[ _]LE7n?(?:[);/ ]|$)",
  pat! "(?i)TECNO[ _]LF7n?(?:[);/ ]|$)",
  pat! "(?i)TECNO[ _]LE8(?:[);/ ]|$)",
  pat! "(?i)TECNO[ _]LG7n(?:[);/ ]|$)",
  pat! "(?i)TECNO[ _]LG8n(?:[);/ ]|$)",
  pat! "(?i)TECNO[ _]LH7n(?:[);/ ]|$)",
  pat! "(?i)TECNO[ _](?:Mobile )?LH8n(?:[);/ ]|$)",
  pat! "(?i)TECNO[ _](?:Mobile )?LI9(?:[);/ ]|$)",
  pat! "(?i)TECNO[ _](?:Mobile )?LI7(?:[);/ ]|$)",
  pat! "(?i)TECNO[ _](?:Mobile )?LI6(?:[);/ ]|$)",
  pat! "(?i)TECNO[ _](?:Mobile )?KL8(?:[);/ ]|$)",
  pat! "(?i)Tecno (F2) ?LTE",
  pat! "(?i)(?:TECNO[-_])?L8Plus",
  pat! "(?i)TECNO[ _-]?(T611)(?:[);/ ]|$)",
  pat! "(?i)TECNO[ _-]?(T1101)(?:[);/ ]|$)",
  pat! "(?i)Tecno[ _]([^;/]+)(?: Build|[);])",
  pat! "(?i)Tecno[ _-]?([a-z0-9_-]+)",
  pat! "(?i)Preo[ _]",
  pat! "(?i)Preo[ _]P([23])",
  pat! "(?i)Tele2[ _]|Tele2fon",
  pat! "(?i)Tele2fon[_ ]V6",
  pat! "(?i)Tele2[ _](Mi[dn]i)[ _]1[_.]1(?:[);/ ]|$)",
  pat! "(?i)Tele2[ _]Midi[ _]2[_.]0(?:[);/ ]|$)",
  pat! "(?i)Tele2[ _]((?:Maxi|Midi)(?:[_ ](?:Plus|LTE))?)(?:[);/ ]|$)",
  pat! "(?i)Tele2[ _](Mi[dn]i)(?:[);/ ]|$)",
  pat! "(?i)TELEFUNKEN|Foxtrot|TEL-1013GIQA|TEL-1014GIQ|TEL-73GIQA|TEL-74GIQ|TF-SP(?:500[12]|4002)|(TF-MID(?:[78]02G|70[78]G|80[46]G|9705RG|9707G|7805G|100[57]G|1010G))| TF5X| TF6|TF500|TF501_EC|(TF-LED(?:32S14T2S|43S9[57]T2SU|50S0[34]T2SU|50S25T2SU|55S11T2SU|58S06T2SU|65S75T2SU|32S39T2S|32S08T2S|32S5[289]T2S|32S60T2S|32S7[045]T2S|40S63T2S|40S19T2S|40S41T2S|43S94T2S|43S22T2SU)(?:-1)?)|LTE_LIMA|LTE Mike|Diamond_LTE|Outdoor (?:LTE|WT4|WT4-S)|TELP-1013KBC",
  pat! "(?i)TEL-(1014GIQ|74GIQ|73GIQA(?:11)?)",
  pat! "(?i)(?:TELEFUNKEN)?(TF-SP(?:500[12]|4002)|Outdoor (?:LTE|WT4-S|WT4)|Foxtrot|TF5X|TF6)",
  pat! "(?i)(TF-MID(?:[78]02G|70[78]G|80[46]G|9705RG|9707G|7805G|100[57]G|1010G)|TF501_EC|TELP-1013KBC)",
  pat! "(?i)(TF-LED(?:\\d{2}S\\d{2}T2SU?)|TF500)",
  pat! "(?i)TELEFUNKEN, ([a-z0-9_ -]+), (?:wired|wireless)",
  pat! "(?i)TELEGO|Wise2_plus",
  pat! "(?i)Telego[ _-]([^/;)]+)(?: Build|[;)])",
  pat! "(?i)Telenor|(?:Infinity[_ ](?:E[2-5]|K2?|A2))(?:[);/ ]|$)",
  pat! "(?i)Telenor[ _]([^;/]+)(?: Build|[;)])",
  pat! "(?i)Infinity[ _](E[2-5]|K2?|A2)",
  pat! "(?i)Telit_Mobile_Terminals-([a-z0-9]+)",
  pat! "(?i)Telit[\\-_]?([a-z0-9]+)",
  pat! "(?i)(TVB-100)(?:[);/ ]|$)",
  pat! "(?i)Telma|(?:F1x4G|Feel_Plus)(?:[);/ ]|$)",
  pat! "(?i)TELMA F1\\+4G",
  pat! "(?i)TELMA[_ ]FEEL",
  pat! "(?i)Telma[_ ](F2|Titan[_ ]4G|EGO)",
  pat! "(?i)Telma_Wi-Kif\\+3G_3G",
  pat! "(?i)Telma_Wi-Kif\\+4G_4G",
  pat! "(?i)TELO[_ ](?:TE6|M5|TE580_CO)(?:[);/ ]|$)",
  pat! "(?i)TELO[_ ](TE6|TE580_CO)(?:[);/ ]|$)",
  pat! "(?i)TPS3[29]0",
  pat! "(?i)TPS(3[29]0)",
  pat! "(?i)TG ?(15|30)(?:[);/ ]|$)",
  pat! "(?i)Teracube (2e|One)(?:[);/ ]|$)",
  pat! "(?i)TERRA[ _]PAD[ _](\\d+)(_V2)?(?:[);/ ]|$)",
  pat! "(?i)Hudl (?:[^/;]+)(?: Build|[;)])|W032i-C3(?:[);/ ]|$)",
  pat! "(?i)Hudl ([^/;]+)(?: Build|[;)])",
  pat! "(?i)W032i-C3(?:[);/ ]|$)",
  pat! "(?i)CASEBOOK_3(?:[);/ ]|$)",
  pat! "(?i)ThL[ _-]|(?:Knight 2|THL5000|T200)(?:[);/ ]|$)",
  pat! "(?i)THL ?(5000)",
  pat! "(?i)(T200)(?:[);/ ]|$)",
  pat! "(?i)Box 1 Pro(?:[);/ ]|$)",
  pat! "(?i)Box 1(?:[);/ ]|$)",
  pat! "(?i)ThL[ _-]*([^;/)]+)(?: Build|[;)])",
  pat! "(?i)ThL[ _-]*([^ ;/)]+)(?:[);/ ]|$)",
  pat! "(?i)(?:Primo(7|8)|QM73[45]-8G|QM734-2|QM736-8G\\(HD\\)|8950|MID1002|5014G|TEO(?:13P|10[SM]|8M|7RK|X10[23]|104G)|Friendly_TH101|Delight TH201|TEOX10-MT8SL128LTE|HERO10RK|SPTEO10BK16|T43FSM5160|Origin_679(?:_Pro)?)(?:[);/ ]|$)|(?:Tlink|Every)[0-9]+|THOMSON[, ]",
  pat! "(?i)Primo(7|8)",
  pat! "(?i)QM736-8G\\(HD\\)",
  pat! "(?i)8950(?:[);/ ]|$)",
  pat! "(?i)TEO(13P|10[SM]|7RK|104G|X10[23]|8M)(?:[);/ ]|$)",
  pat! "(?i)(5014G|T510H)(?:[);/ ]|$)",
  pat! "(?i)Tlink([0-9]+)",
  pat! "(?i)Origin[_ ]679[_ ]Pro",
  pat! "(?i)Origin[_ ]679",
  pat! "(?i)Every([0-9]+)",
  pat! "(?i)THOMSON[ _]SEREA500",
  pat! "(?i)(T43FSM5160)",
  pat! "(?i)THOMSON,([a-z0-9_ -]+)(?:\\*[0-9])?,(?:wired|wireless)",
  pat! "(?i)Thuraya[ _](X5-Touch)(?:[);/ ]|$)",
  pat! "(?i)TiPhone ?([a-z0-9]+)",
  pat! "(?i)TIVO[ ,-]",
  pat! "(?i)(?:TiVo|VirginMedia), (?:OnDemand_)?([a-z0-9]+), (?:wired|wireless)",
  pat! "(?i)TiVo-([a-z0-9]+)-([a-z0-9]+)",
  pat! "(?i)Tibuta[_ ]|TAB_868_PRO(?:[);/ ]|$)",
  pat! "(?i)Tibuta[_ ]MasterPad-(E100)",
  pat! "(?i)TAB_(868)_PRO",
  pat! "(?i)TIS001[_-]|TIS_?001",
  pat! "(?i)TIS001[_-]S([34])(?:[);/ ]|$)",
  pat! "(?i)TIS001[_-]T2(?:[);/ ]|$)",
  pat! "(?i)TIS_?001([ABC])?",
  pat! "(?i)(TC1050G)(?:[);/ ]|$)",
  pat! "(?i)Tmovi[ _]|(?:Infinit[ _](?:Lite[_ ]2|X[_ ]CAM)|Infinit (?:MX(?: Pro)?|2)|Vision_PRO|VISION ULTRA|Epix|Yeah_Go|Insignia Delta 2|Insignia_(?:Delta3|Lab))(?:[);/ ]|$)",
  pat! "(?i)Tmovi[ _]Prime",
  pat! "(?i)Infinit[_ ]X[_ ]CAM",
  pat! "(?i)Infinit[_ ]Lite([_ ]2)?",
  pat! "(?i)Insignia_(Lab)",
  pat! "(?i)Insignia[ _]Delta[ _]?([32])",
  pat! "(?i)Tinai (K[12])(?:[);/ ]|$)",
  pat! "(?i)TiNMO[- _](A11|K3)(?:[);/ ]|$)",
  pat! "(?i)(MiTraveler 958)",
  pat! "(?i)Tolino Tab ([^/);]+)(?: Build|[);])",
  pat! "(?i)TONE[ _-](e19|m1[57]|e2[01])(?:[);/ ]|$)",
  pat! "(?i)TOOKY (A19|W1|T8[368]|T1982)(?:[);/ ]|$)",
  pat! "(?i)TOOKY A9PLUS(?:[);/ ]|$)",
  pat! "(?i)Coto[_ ]|X1013",
  pat! "(?i)TopDevice|TDTV\\d{2}[BC][SQ]\\d{2}[FHU]|TDT45(?:18|41)_4G|TDT3778_Wi_E|TDT3887_Wi_D|TDT4528_4G_E",
  pat! "(?i)(?:TopDevice_)?(TDTV\\d{2}[BC][SQ]\\d{2}[FHU])",
  pat! "(?i)KIDS(09|708)",
  pat! "(?i)Toplux ([a-z0-9]+)",
  pat! "(?i)TOPSION|TP01_box(?:[);/ ]|$)",
  pat! "(?i)(?:TOREX[- _](?:PS12|S18|S27|PAD 8 ?PRO|PAD818)|PAD831B|TOREX831B)(?:[);/ ]|$)",
  pat! "(?i)TOREX-(PS12)",
  pat! "(?i)(?:TOREX[_ ])?PAD(831B|818)",
  pat! "(?i)TOREX PAD 8 ?PRO",
  pat! "(?i)TOREX[- ](S18|S27)",
  pat! "(?i)(?:EGO[ _](?:Max[ _]S|Surf[_ ][iS]|Phab 3G|Note 4G)|DROIDZ (?:Drive\\+|ATOM [SX]|Portal(?: X)?|Swivel|Smart|Trend|Force|Span|Play|Blast|Sport|Excel|Motion|Sky 3g|Rotate|Duo(?: Slim)?|Dash(?: X)?|Quad|Match TV|Beat TV|Avatar TV|Easy|Push i|Edge\\+))(?:[);/ ]|$)",
  pat! "(?i)DROIDZ (Duo(?: Slim)?|Dash(?: X)?|Push i|Edge\\+|Drive\\+|Portal(?: X)?)",
  pat! "(?i)DROIDZ (Swivel|Trend|Force|Span|Smart|Atom X|Blast|Sport|Quad|Beat TV|Avatar TV|Match TV|Easy|Excel|Play|Rotate|Motion)",
  pat! "(?i)EGO[ _](Max[ _]S|Surf[_ ][iS])",
  pat! "(?i)Toshiba|TSBNetTV/|portalmmm/[12]\\.0 TS|(?:T-01C|T-0[12]D|IS04|IS11T|AT1S0|AT300SE|AFT6E0FA|AFTBOXE1|AFTDCT31|AFTHA00[2-4]|AT(?:7-C|10-A|10[PL]E-A|100|200|270|300|330|374|400|470|500a?|503|570|703|830)|AFTKMST12|AFTBAMR311|SATELLITE (?:C655|L50-C|Pro L300|A100))(?:[);/ ]|$)",
  pat! "(?i)AT(100|200|270|300|330|374|400|470|500|503|570|703|830)",
  pat! "(?i)AT10([PL])E-A",
  pat! "(?i)SATELLITE (C655|Pro L300|A100)",
  pat! "(?i)AFT6E0FA(?:[);/ ]|$)",
  pat! "(?i)AFTBOXE1(?:[);/ ]|$)",
  pat! "(?i)AFTHA002(?:[);/ ]|$)",
  pat! "(?i)AFTHA003(?:[);/ ]|$)",
  pat! "(?i)AFTHA004(?:[);/ ]|$)",
  pat! "(?i)TOSHIBA;SmartTV;([a-z0-9_ -]+);",
  pat! "(?i)TOSHIBA, ([a-z0-9_ -]+), (?:wired|wireless)",
  pat! "(?i)Toshiba[ /_\\-]?([a-z0-9_ -]+) Build",
  pat! "(?i)Toshiba[ /_\\-]?([a-z0-9_-]+)",
  pat! "(?i)portalmmm/[12]\\.0 (TS[a-z0-9 ]+)",
  pat! "(?i) (770[NG]|1100AS)(?:[);/ ]|$)",
  pat! "(?i)TOUCHMATE|(TM-(?:MID870SB|MID1050WKD|MID1020A|MID794C|MID795|MID710|MID798|MID792|MID788D|SM500N|SM410|MID1010|MID1065))",
  pat! "(?i)(TM-(?:MID1020A|MID794C|MID795|MID710|MID798|MID792|MID788D|MID10[14]0|MID1065))",
  pat! "(?i)(TM-(?:SM500N|SM410))",
  pat! "(?i)Touchmate ([^/;]+) Build",
  pat! "(?i)Transpeed[_ ]|(?:TR99 MINI\\+|TR99|8K618-T)(?:[);/ ]|$)",
  pat! "(?i)TR99 MINI\\+",
  pat! "(?i)(?:Transpeed[_ ])?(TR99|H616|6K|X4S?|8K618-T)(?:[);/ ]|$)",
  pat! "(?i)17_Pro_Max(?:[);/ ]|$)",
  pat! "(?i)(?:TrekStor|Surftab) ([^/;]+)(?: Build|\\))|Surftab[^;\\)]*(?:[;\\)]|$)|ST10216-2A|ST13416-1|VT10416-[12]|TFQCOAL01232|TFMTKAW01232|Xintroni10\\.1",
  pat! "(?i)ST10216-2A|VT10416-[12]",
  pat! "(?i)TrekStor ([^/;]+) Build",
  pat! "(?i)Surftab ([^/;]+) Build",
  pat! "(?i)Surftab[ _]([^;\\)]*)(?:[;\\)]|$)",
  pat! "(?i)(TFQCOAL01232)",
  pat! "(?i)Xintroni10\\.1",
  pat! "(?i)Trevi[ _]|TAB[ _]10[ _]3G[ _]V16|TAB[ _](7|8)[ _]3G[ _]V8|TAB9 3G|MINITAB 3GV|Phablet[ _](?:4|4\\.5|5|5\\,3|6)[ _]?[CSQ]|REVERSE[ _]5\\.5[ _]?Q",
  pat! "(?i)TAB[ _]?(7|8)[ _]3G[ _]V8",
  pat! "(?i)TAB[ _]?9[ _]3G[ _]V8",
  pat! "(?i)TAB[ _]?9[ _]3G",
  pat! "(?i)TAB[ _]10[ _]3G[ _]V16",
  pat! "(?i)(?:Trevi_)?Phablet[ _]4[ _]?C",
  pat! "(?i)(?:Trevi_)?Phablet[ _]4[ _]?S",
  pat! "(?i)(?:Trevi_)?Phablet[ _]4\\.5[ _]?Q",
  pat! "(?i)(?:Trevi_)?PHABLET[ _]5[ _]?S",
  pat! "(?i)(?:Trevi_)?PHABLET[ _]5,3[ _]?Q",
  pat! "(?i)(?:Trevi_)?REVERSE[ _]5\\.5[ _]?Q",
  pat! "(?i)(?:Trevi_)?PHABLET[ _]6[ _]?S",
  pat! "(?i)Trevi[_]([^;/]+) Build",
  pat! "(?i)TriaPlayBox(?:[);/ ]|$)",
  pat! "(?i)(K43UH90[12]|K32HH902|H32H500[01]SA)(?:[);/ ]|$)",
  pat! "(?i)(A23 Max|A75 Pro Max)(?:[);/ ]|$)",
  pat! "(?i)Passion[-_](?:1S|PRO|PLUS)(?:[);/ ]|$)",
  pat! "(?i)MobileMapper60(?:_2)?(?:[);/ ]|$)",
  pat! "(?i)Trio V51 DT(?:[);/ ]|$)",
  pat! "(?i)(Orion R68G|Draco AW80|Draco H3|Vega S95_(?:Meta|Pro|Telos))(?:[);/ ]|$)",
  pat! "(?i)TRUE BEYOND TAB 3G|HPH07|SMART[ _](4G Adventure(?: Pro)?|MAX 4\\.0 PLUS|4G[ _](?:MAX 5\\.5|GEN C [45]\\.[05]|M1 Plus|Champion|Speedy 5\\.0 Plus|Speedy[_ ]5inch|P1))|Alpha 5G|SMART Champ 4\\.0|TRUE SMART 7\\.0 Quadcore|SMART 4G M1|SMART TAB 4G (?:e-Biz|M1)",
  pat! "(?i)Alpha 5G(?:[);/ ]|$)",
  pat! "(?i)SMART MAX 4\\.0 PLUS",
  pat! "(?i)SMART Champ 4\\.0",
  pat! "(?i)SMART 4G Gen C ([45]\\.[05])",
  pat! "(?i)SMART 4G Speedy 5\\.0 Plus",
  pat! "(?i)SMART 4G MAX 5\\.5",
  pat! "(?i)SMART[ _]4G[_ ]Speedy[_ ]5inch",
  pat! "(?i)SMART[ _]4G[_ ]Champion",
  pat! "(?i)SMART[ _]4G[_ ]P1 Prime",
  pat! "(?i)SMART[ _]4G[_ ]P1",
  pat! "(?i)SMART[ _]4G M1 Plus",
  pat! "(?i)TRUE SMART 7\\.0 Quadcore",
  pat! "(?i)(SSB-508[ED])(?:[);/ ]|$)",
  pat! "(?i)(TL554B|TC504B)(?:[);/ ]|$)",
  pat! "(?i)StarTrail TT(?:[);/ ]|$)",
  pat! "(?i)(?:Turbo[_ ]?(?:X5[_ ]?(?:Max|Black|Space|Hero)|X8|X6[ _]Z|X[ _]Ray)|Monsterpad7)(?:[);/ ]|$)",
  pat! "(?i)TurboX5Space(?:[);/ ]|$)",
  pat! "(?i)TurboX5Hero(?:[);/ ]|$)",
  pat! "(?i)TurboX[ _]Ray(?:[);/ ]|$)",
  pat! "(?i)Turbo[ _]?X5[ _]?Black(?:[);/ ]|$)",
  pat! "(?i)Turbo[ _]X5[ _]Max(?:[);/ ]|$)",
  pat! "(?i)Turbo[ _]X6[ _]Z(?:[);/ ]|$)",
  pat! "(?i)Turbo[ _]X8(?:[);/ ]|$)",
  pat! "(?i)Monsterpad7(?:[);/ ]|$)",
  pat! "(?i)Turbo[-_]X|(?:TURBOX_I4G|Hive V 3G|Calltab10\\.1|Calltab2GB10|Calltab7inch|Turbox_S3|Fire_II_WiFi|Breeze IV|Aqua_II|RainbowIII3G|RubikII7|Rubik 10\\.1 II|Rubik_10_III|QUAD-CORE A33 inet)(?:[);/ ]|$)|Mercury|(?:android 8([\\d.]*);(?: [\\w-]+;)? Dream)(?:[);/ ]|$)",
  pat! "(?i)Turbo-X_A2(?:[);/ ]|$)",
  pat! "(?i)Turbo-X_e3(?:[);/ ]|$)",
  pat! "(?i)Mercury",
  pat! "(?i)Turbo-X_pi_4G|Turbo_X_Pi 1 4G",
  pat! "(?i)Turbo-X Ice(?:[);/ ]|$)",
  pat! "(?i)Aqua_II(?:[);/ ]|$)",
  pat! "(?i)Hive V 3G(?:[);/ ]|$)",
  pat! "(?i)Fire_II_WiFi(?:[);/ ]|$)",
  pat! "(?i)Breeze IV(?:[);/ ]|$)",
  pat! "(?i)RubikII7(?:[);/ ]|$)",
  pat! "(?i)Rubik 10\\.1 II(?:[);/ ]|$)",
  pat! "(?i)Rubik_10_III(?:[);/ ]|$)",
  pat! "(?i)RainbowIII3G(?:[);/ ]|$)",
  pat! "(?i)Calltab10\\.1",
  pat! "(?i)TURBO-X, ([a-z0-9_ -]+), (?:wired|wireless)",
  pat! "(?i)Turbo-X Tablet([^;/)]+)(?: Build|[;)])",
  pat! "(?i)Turbo-X ([^;)/]+)(?: Build|[;)])",
  pat! "(?i)(?:Turbokids[-_ ]?(TMNT|3G|S4|Princess|3GNEW)|Monsterpad 3G| TMNT)(?:[);/ ]|$)",
  pat! "(?i)Turbokids[-_ ]?3GNEW",
  pat! "(?i)TMNT(?:[);/ ]|$)",
  pat! "(?i)Turbokids[-_ ]?(TMNT|3G|S4|Princess)",
  pat! "(?i)Turbopad[-_ ]?(72[34]|80[23]|912|101[456]|Pro)(?:NEW)?(?:[);/ ]|$)",
  pat! "(?i)TURKCELL[_ ]",
  pat! "(?i)Turbo T50(?:[);/ ]|$)",
  pat! "(?i)T([124-8])0(?:[);/ ]|$)",
  pat! "(?i)Maxi Plus 5(?:[);/ ]|$)",
  pat! "(?i)MaxiPRO5(?:[);/ ]|$)",
  pat! "(?i)Turkcell_T_Tablet(?:[);/ ]|$)",
  pat! "(?i)(STV-32DHBK2R-T9|STV-32FDFBK1R|STV-65DUBK1R|STV-43FDUBK1R|TQ55UFBTV1|TD86UFBTV1|TQ50UFBCV1|TD32HF[GW]EV1|TD43FFGTV1|TD50UFGEV1|TD55UFBHV1|TD55UFGEV1|TQ65UFBCV1|TD(?:[67]5|43)UFGCV1|TD43[UF]FBHV1|TD50UF[BG]HV1|TD65UFBSV1|TD55UFGHV1|TQ65UFBHV1|TD43UFBSV1|TD32HFBHV1|TD24HFBHV1|TD43FFBSV1)(?:[);/ ]|$)",
  pat! "(?i)TwinTAB|(?:MQ703G)(?:_1)?(?:[);/ ]|$)",
  pat! "(?i)(MQ703G)(?:_1)?",
  pat! "(?i)TwinTAB-(T103GQ1)",
  pat! "(?i)Tymes[ _](V5)(?:[);/ ]|$)",
  pat! "(?i)TT175(?:[);/ ]|$)",
  pat! "(?i)(KF-1500)(?:[);/ ]|$)",
  pat! "(?i)(?:Liantong)?(?:VP00[1235])(?:[);/ ]|$)",
  pat! "(?i)(?:Liantong)?VP001",
  pat! "(?i)(?:Liantong)?VP002",
  pat! "(?i)(?:Liantong)?VP003",
  pat! "(?i)(?:Liantong)?VP005",
  pat! "(?i)(USCC-[a-z0-9_-]+)",
  pat! "(?i)TV3[45]8_?(?:DVB|ISDB)(?:[);/ ]|$)",
  pat! "(?i)TV348_DVB(?:[);/ ]|$)",
  pat! "(?i)TV348_ISDB(?:[);/ ]|$)",
  pat! "(?i)TV358DVB(?:[);/ ]|$)",
  pat! "(?i)UGINE(?:[);/ ]|$)",
  pat! "(?i)UGINE;SmartTV;([a-z0-9_ -]+)V[ST];",
  pat! "(?i)UMI(?:DIGI)?[ _]|(?:A[5]_Pro|.+; A[79] Pro|S3_Pro|ROME[_ ]X|BISON|hammer_S|S2 LITE|London|Z2_PRO|C NOTE 2|A11 Pro Max|Power 3|Android 10(?:[\\d.]*);(?: [\\w-]+;)? (?:A3[SX]|A7S)|RP0[1234]|MT0[167]|MT1[016]|MP0[1-9]|MP1[3789]|MP2[0134-79]|MP34|Plus E|S2_PRO|RP05|One Pro|Diamond_X|TG3DBG1MA|Android [67](?:[\\d.]*);(?: [\\w-]+;)? Z Pro|Android 8(?:[\\d.]*);(?: [\\w-]+;)? A1_PRO|RP08|MP3[38]|PR4JBX20A|PG2309GBA|PA2310GBB)(?:[;/) ]|$)",
  pat! "(?i)TG3DBG1MA|MT10",
  pat! "(?i)(A[13579]|Z2|S3)[_ ]Pro",
  pat! "(?i)MP01(?:[;/) ]|$)",
  pat! "(?i)MP05(?:[;/) ]|$)",
  pat! "(?i)MP33(?:[;/) ]|$)",
  pat! "(?i)MP34(?:[;/) ]|$)",
  pat! "(?i)RP08(?:[;/) ]|$)"]

/-- `__dr_re`, from item 9750 on (device_repo.go:28086-28335). -/
def drRe_39 : List (List Chunk) := [
  pat! "(?i)MP27(?:[;/) ]|$)",
  pat! "(?i)MP38(?:[;/) ]|$)",
  pat! "(?i)MP24(?:[;/) ]|$)",
  pat! "(?i)MP26(?:[;/) ]|$)",
  pat! "(?i)MP25(?:[;/) ]|$)",
  pat! "(?i)ROME[_ ]X",
  pat! "(?i)RP05(?:[;/) ]|$)",
  pat! "(?i)RP01(?:[;/) ]|$)",
  pat! "(?i)RP02(?:[;/) ]|$)",
  pat! "(?i)RP03(?:[;/) ]|$)",
  pat! "(?i)RP04(?:[;/) ]|$)",
  pat! "(?i)UMI[_ ]SUPER",
  pat! "(?i)UMI[_ ]ZERO",
  pat! "(?i)MP02(?:[;/) ]|$)",
  pat! "(?i)MP08(?:[;/) ]|$)",
  pat! "(?i)MP03(?:[;/) ]|$)",
  pat! "(?i)MP04(?:[;/) ]|$)",
  pat! "(?i)MP06(?:[;/) ]|$)",
  pat! "(?i)(A3[SX]|A7S)(?:[;/) ]|$)",
  pat! "(?i)(?:UMI_)?(London|Diamond(?:_X)?)",
  pat! "(?i)UMI(?:DIGI)?[ _]([^/;)]+)(?: Build|[;)])",
  pat! "(?i)UNIWA[ _]|(?:W888)(?:[);/ ]|$)",
  pat! "(?i)UNIWA[ _](X5|F40)",
  pat! "(?i)(W888)",
  pat! "(?i)UNNO[_ ]",
  pat! "(?i)UNNO[_ ]([^/;)]+)(?: Build|[);])",
  pat! "(?i)UOOGOU[_ ]([^/;)]+)(?: Build|[);])",
  pat! "(?i)UTOK (45[01]D)|(?:Dorel \\d|Dorel 3S|Hello 7Q)(?:[);/ ]|$)",
  pat! "(?i)UTOK (45[01]D)",
  pat! "(?i)Dorel (\\d)",
  pat! "(?i)utstar[ _-]?([a-z0-9]+)",
  pat! "(?i)UTIME[ _](U6|G7|U100|[TX]1|FX)(?:[);/ ]|$)",
  pat! "(?i)Uzbekistan(?:[);/ ]|$)",
  pat! "(?i)UGOOS[-_ ]|(?:Android 11(?:[\\d.]*);(?: [\\w-]+;)? UT8|TOX[34](?:_Plus)?)(?:[);/ ]|$)",
  pat! "(?i)UGOOS-UT3 ?Plus",
  pat! "(?i)(UT8|TOX[34])(?:[);/ ]|$)",
  pat! "(?i)UGOOS[- _](\\w{2}\\d+\\w?)(?:[);/ ]|$)",
  pat! "(?i)(A101S)(?:[);/ ]|$)",
  pat! "(?i)Uhappy|UP?580|UP350|UP[35679]20",
  pat! "(?i)UP([35679]20)",
  pat! "(?i)Uhappy[ _-]([^;/]+) Build",
  pat! "(?i)Uhappy[ _-]?([^;/)]+)(?:[);/ ]|$)",
  pat! "(?i)Ulefone|Gemini Pro|Power[ _]Armor14|Power 3S|Power_[356]|Power_5S|S(?:10|9)_Pro|(?:Note [89]P|Note 1[23]P|Armor(?:[ _](?:[2367]|2S|X[236]|6[SE]|3WT|3W|X))?|U00[78][ _]Pro|Be[ _]X|Be[ _]Touch(?:[ _][23])?|Be[ _](?:One|Pure|Pro)(?:[ _]Lite)?|Note 14|Note (?:11P|7T)|Note 16 Pro|Tiger_lite|Note_7P|Note 10P|Paris_(?:Lite|X)|Paris|P6000_Plus|Vienna|RugKing|GQ3060TF3|Android 11(?:[\\d.]*);(?: [\\w-]+;)? Note 6P?|Tab A11 Pro)(?:[);/ ]|$)",
  pat! "(?i)S(10|9)_Pro",
  pat! "(?i)Be[ _]Touch([ _][23])?",
  pat! "(?i)Be[ _]Pure[ _]Lite",
  pat! "(?i)Be[ _]Pure",
  pat! "(?i)Be[ _]One[ _]Lite",
  pat! "(?i)Be[ _]One",
  pat! "(?i)Be[ _]X",
  pat! "(?i)Be[ _]Pro",
  pat! "(?i)U(00[78]) Pro",
  pat! "(?i)Power[ _]Armor[ _]?(\\d+)[ _]Pro",
  pat! "(?i)Power Armor (\\d+|19T|X11|18T|16S)(?:[);/ ]|$)",
  pat! "(?i)Armor[ _]6S(?:[);/ ]|$)",
  pat! "(?i)GQ3060TF3(?:[);/ ]|$)",
  pat! "(?i)Armor[ _]([679])E(?:[);/ ]|$)",
  pat! "(?i)Armor[ _]X(\\d+) Pro(?:[);/ ]|$)",
  pat! "(?i)Armor[ _]X(\\d+)(?:[);/ ]|$)",
  pat! "(?i)Armor[ _]([25])S(?:[);/ ]|$)",
  pat! "(?i)Armor[ _]X(?:[);/ ]|$)",
  pat! "(?i)Armor[ _]3W(?:[);/ ]|$)",
  pat! "(?i)Armor[ _]3WT(?:[);/ ]|$)",
  pat! "(?i)Armor[ _](1\\d|11T) 5G(?:[);/ ]|$)",
  pat! "(?i)Armor[ _](8) Pro(?:[);/ ]|$)",
  pat! "(?i)Armor[ _]([236789])(?:[);/ ]|$)",
  pat! "(?i)Armor Pad([^;/)]*)(?: Build|[);])",
  pat! "(?i)Armor([^;/)]*)(?: Build|[);])",
  pat! "(?i)Gemini Pro(?:[);/ ]|$)",
  pat! "(?i)Power[_ ]([356][SL]?)",
  pat! "(?i)Note[ _]([78]P|7T|6|14)(?:[);/ ]|$)",
  pat! "(?i)Note[ _](16) Pro(?:[);/ ]|$)",
  pat! "(?i)Note ([69]|1[123]|10)P(?:[);/ ]|$)",
  pat! "(?i)Ulefone[_ ]Tab[_ ]([^;/)]+)(?: Build|[);])",
  pat! "(?i)Ulefone[_ ](X|S1[ _]Pro|S[17])(?:[);/ ]|$)",
  pat! "(?i)Ulefone[ _-]?([^;/]+) Build",
  pat! "(?i)Ulefone[ _-]?([^;/)]+)(?:[;/)]|$)",
  pat! "(?i)VisionBook[ _]|([78]Qa_3G|7A_3G|VB_10Q_Plus|10A_LTE_eea|(?:8|10)C_LTE|10L-PLUS)(?:[);/ ]|$)",
  pat! "(?i)(VisionBook[ _](?:10Qi|7Q[i]?|8Q[ei]?|P70|8Qi_3G)(?:[ _](?:[34]G|Plus|LTE))?)(?:[);/ ]|$)",
  pat! "(?i)(7A(?:[ _](?:[34]G)))(?:[);/ ]|$)",
  pat! "(?i)([78])Qa_3G(?:[);/ ]|$)",
  pat! "(?i)VisionBook_10Q_LTE(?:[);/ ]|$)",
  pat! "(?i)(8|10)C_LTE(?:[);/ ]|$)",
  pat! "(?i)VisionBook_10Q_Pro(?:[);/ ]|$)",
  pat! "(?i)10A_LTE_eea(?:[);/ ]|$)",
  pat! "(?i)VB_10Q_Plus(?:[);/ ]|$)",
  pat! "(?i)VisionBook_P50Plus_LTE(?:[);/ ]|$)",
  pat! "(?i)(VisionBook[ _](?:P50 LTE|P55 X2 LTE|P55 LTE(?: Pro)?))(?:[);/ ]|$)",
  pat! "(?i)P60_Ultra_5G(?:[);/ ]|$)",
  pat! "(?i)(?:S900PROBT|S900_Pro)(?:[);/ ]|$)",
  pat! "(?i)Uniden[ _](C505|Prime 500)(?:[);/ ]|$)",
  pat! "(?i)(Titan(_pocket)?|Jelly(?:-Pro| Star| Max|2(?:_JP)?| 2E)|Atom_X?L|Ticktock(?:-S)?|UNIA62_S01|Titan Slim|TANK 01|TANK 2 PRO|TANK2|TANK 3|TANK MINI 1|OB-(?:P10|P08|A98))(?:[);/ ]|$)",
  pat! "(?i)(Jelly)-Pro(?:[);/ ]|$)",
  pat! "(?i)Jelly2(?:_JP)?(?:[);/ ]|$)",
  pat! "(?i)(Titan|Atom_X?L)(?:[);/ ]|$)",
  pat! "(?i)TANK ?([23])",
  pat! "(?i)OB-(P10|P08)",
  pat! "(?i)BASE[_ ](Varia)",
  pat! "(?i)U((?:67[013]|680)C|(?:452|504)TL|683CL|69[36]CL)(?:[);/ ]|$)",
  pat! "(?i)UNIQCELL_|(?:[AQ]5\\.8|UNI (?:10X|GO))(?:[;/) ]|$)",
  pat! "(?i)UNIQCELL_A4(?:[;/) ]|$)",
  pat! "(?i)(Space A5\\.8|Q5\\.8|UNI (?:10X|GO))(?:[;/) ]|$)",
  pat! "(?i)Uniscope[ _-]?([^/;]+) Build",
  pat! "(?i)Uniscope[ _-]?([^);/ ]+)",
  pat! "(?i)(UT10)(?:[;/) ]|$)",
  pat! "(?i)EA(?:500Plus|520|602|630)(?:_US)?(?:[);/ ]|$)",
  pat! "(?i)EA500Plus(?:[);/ ]|$)",
  pat! "(?i)(EA(?:520|602|630))(?:_US)?(?:[);/ ]|$)",
  pat! "(?i)(?:SDOTT0202|SDSTB02)(?:[;/) ]|$)",
  pat! "(?i)Plasma Mobile|WebTV/(\\d+\\.\\d+)|PC; OpenHarmony|TV Bro| BOX|BOX | BOX |roku|YouView|DirectFB|avdn/|wired|wireless|AndroidTV|cordova-amazon-fireos|wv-atv|SDSTB|SDOTT|(?:M10 Ultra|FO-R15|TVBOX|Smart[ _-]?TV|SmartATV|M8S\\+ 4K|PCBox|rk(?:3128|322x|3368)(?:[_-]box)?|H10 PLAY|Smart AIO TV|TVBOX_L|L-BOX|TVBOX-5G|mips.+(?:Opera TV|wireless|wired)|smartbox|TV BOX|BOX TV|I12Pro Max|(?:audi_)?ks1280x480|AT&T TV|RealtekATV|AOSP on r33a0|tv001 on rtd289x|hx322x_box|X98_S500|8K3528-T|MX10|V88|H8S|X92|AI PONT|tv\\.plus|WayDroid x86_64 Device|MediaBox|Cloud Phone|HK1RBOX-X4)(?:[);/ ]|$)",
  pat! "(?i)LGE; ([a-z0-9-]+);",
  pat! "(?i)WebTV/(\\d+\\.\\d+)",
  pat! "(?i)M10 Ultra(?:[);/ ]|$)",
  pat! "(?i)(FO-R15|X98_S500|8K3528-T|MX10|V88|H8S|X92|AI PONT)(?:[);/ ]|$)",
  pat! "(?i)BOX|BOX | BOX |roku|YouView|DirectFB|avdn/|wired|wireless|AndroidTV|cordova-amazon-fireos|wv-atv|SDSTB|SDOTT|(Smart[ _-]?TV|SmartATV|PCBox|hx322x_box|rk(?:3128|322x|3368)(?:[_-]box)?|TVBOX|Smart AIO TV|TVBOX_L|L-BOX|TVBOX-5G|AT&T TV|RealtekATV|TV Bro|AOSP on r33a0|tv001 on rtd289x|tv.plus|MediaBox|HK1RBOX-X4)(?:[);/ ]|$)",
  pat! "(?i)M8S\\+ 4K(?:[);/ ]|$)",
  pat! "(?i)H10 PLAY(?:[);/ ]|$)",
  pat! "(?i)(?:Opera TV|wireless|wired|smartbox|TV BOX|BOX TV)(?:[);/ ]|$)",
  pat! "(?i)I12Pro Max(?:[);/ ]|$)",
  pat! "(?i)(?:audi_)?ks1280x480",
  pat! "(?i)PC; OpenHarmony",
  pat! "(?i)Unnecto|(?:U513|U5151|U61[1356]|U7[12]0|U-830|U90[35])(?:[);/ ]|$)",
  pat! "(?i)UNSP7(?:[);/ ]|$)",
  pat! "(?i)UNSP7(?:[);/ ]|$)",
  pat! "(?i)(?:Premier5Max|Premier5|Premier Pro)(?:[);/ ]|$)",
  pat! "(?i)Unonu[ _-]|(?:U4001|UT3G)(?:[);/ ]|$)",
  pat! "(?i)(U4001|UT3G)(?:[);/ ]|$)",
  pat! "(?i)Unonu[ _-]([^;/]+) Build",
  pat! "(?i)Unonu[ _-]?([^;/)]+)(?:[);/ ]|$)",
  pat! "(?i)(?:QOOQ|QOOQ-V[1-5]0?)(?:[);/ ]|$)",
  pat! "(?i)QOOQ-V([1-5])0?",
  pat! "(?i)(?:DT[245]0|i6200[AS])(?:[);/ ]|$)",
  pat! "(?i)(DT[245]0|i6200[AS])",
  pat! "(?i)(Albatros C2)(?:[);/ ]|$)",
  pat! "(?i)(?:V-HOME_)?(32LH1210|43LF1210|(?:5[05]|65|43)LU1210|24LH1211|24LH1203)(?:[);/ ]|$)",
  pat! "(?i)V[- ]hope[_ ]([^/;)]+)(?: Build|[);])",
  pat! "(?i)(BUV7TBLT10A)(?:[);/ ]|$)",
  pat! "(?i)(?:VPA051|VA-10J)(?:[);/ ]|$)",
  pat! "(?i)(VA-10J)",
  pat! "(?i)(?:V12E-LTE-8128|V10E-LTE-464)(?:[);/ ]|$)",
  pat! "(?i)V(1[02])E-LTE",
  pat! "(?i)VANWIN[ -_]?(V62)(?:[);/ ]|$)",
  pat! "(?i)(L10-T11|L10_T08)(?:[_-]EEA)?(?:[);/ ]|$)",
  pat! "(?i)(L10)[_-](T11|T08)",
  pat! "(?i)VAVA[ _](X3)(?:[);/ ]|$)",
  pat! "(?i)(?:Camellia_II|Cactus II|Maple III|Maple-II|Cactus-Pro|LavenderII|Jasmine-II)(?:[);/ ]|$)",
  pat! "(?i)(Camellia_II|Cactus II|Maple III)(?:[);/ ]|$)",
  pat! "(?i)(Maple|Jasmine|Lavender)-?II(?:[);/ ]|$)",
  pat! "(?i)VDVD[_ ](P20|IX21)(?:[);/ ]|$)",
  pat! "(?i)VEON[_ ]|(?:VEON[_ ](?:C8680)|VN50WOS2021)(?:[);/ ]|$)",
  pat! "(?i)VEON[_ ](C8680)(?:[);/ ]|$)",
  pat! "(?i)VEON 4K Smart TV(?:[);/ ]|$)",
  pat! "(?i)(VN50WOS2021)",
  pat! "(?i)VETAS[_ ]([^/;)]+)(?: Build|[);])",
  pat! "(?i)VGOTEL|(?:Flex 2|Venture V(?:[278]|12)|VentureV10|Ocean[_ ][689]|Ocean9L|NEW (?:1[01256]|2[02456]|[57])|V TAB 2|i_Smart)(?:[);/ ]|$)",
  pat! "(?i)Venture ?V([278]|1[02])(?:[);/ ]|$)",
  pat! "(?i)Ocean[_ ]?([689]|9L)(?:[);/ ]|$)",
  pat! "(?i)NEW (\\d+)",
  pat! "(?i)VIDA[-_ ](?:i-?(401|512|450)|V401)(?:[);/ ]|$)",
  pat! "(?i)VIDA[-_ ](?:i-?(\\d+))",
  pat! "(?i)VIDA[-_ ](V401)",
  pat! "(?i)(?:vi20220819)(?:[);/ ]|$)",
  pat! "(?i)(?:V-Z[45]0|V-Z80Plus)(?:[);/ ]|$)",
  pat! "(?i)(V-Z80)Plus",
  pat! "(?i)(V-Z[45]0)(?:[);/ ]|$)",
  pat! "(?i)VILLAON[_ ]",
  pat! "(?i)VILLAON[_ ]([^;/)]+)(?: Build|[);])",
  pat! "(?i)A631LO(?:[);/ ]|$)",
  pat! "(?i)P662LO(?:[);/ ]|$)",
  pat! "(?i)S661LS(?:[);/ ]|$)",
  pat! "(?i)(F30UP)(?:[);/ ]|$)",
  pat! "(?i)VIVIMAGE[ _]([^/;)]+)(?:_EEA)?(?: Build|[);])",
  pat! "(?i)(?:LIGHT MINI|VIWA A5\\+|LIGHT PLUS|LIGHT ONE|POWER P1)(?:[);/ ]|$)",
  pat! "(?i)VIWA A5\\+",
  pat! "(?i)VK-VK([79]00)(?:[);/ ]|$)",
  pat! "(?i)(?:(?:VK700)-MAX|VK700 Pro|T5SE|VK700[0X]|vk6050|vk6735|vk700)(?:[);/ ]|$)",
  pat! "(?i)(VK700)-MAX(?:[);/ ]|$)",
  pat! "(?i)(VK700) Pro(?:[);/ ]|$)",
  pat! "(?i)T5SE(?:[);/ ]|$)",
  pat! "(?i)VK(700[0X]|6050|6735|700)(?:[);/ ]|$)",
  pat! "(?i)VNT_Tab8(?:[);/ ]|$)",
  pat! "(?i)VOCAL[ _](V[01]|V11|V2 Lite|V0Core)(?:[);/ ]|$)",
  pat! "(?i)VOGA[ _]",
  pat! "(?i)VOIX[_](U10)(?:[);/ ]|$)",
  pat! "(?i)(VOL001)(?:[);/ ]|$)",
  pat! "(?i)(VK-740-BL)(?:[);/ ]|$)",
  pat! "(?i)VucaPad_(\\w+)",
  pat! "(?i)ZYVV1(?:[);/ ]|$)",
  pat! "(?i)Vankyo[_ ]|(?:QTAB1010X|S10_ROW|S[23]0_EEA|Z[14]_EEA)(?:[);/ ]|$)",
  pat! "(?i)Vankyo[_ ]S(10|[78])",
  pat! "(?i)(S[23]0|Z[14])_EEA",
  pat! "(?i)QTAB(1010X)",
  pat! "(?i)Vargo[; _]|(?:V210101|Android 8(?:[\\d.]*);(?: [\\w-]+;)? VX4)(?:[);/ ]|$)",
  pat! "(?i)(V210101|VX4)(?:[);/ ]|$)",
  pat! "(?i)(?:M910A|M783K|M783K-16G|M1072R-3G|KingPad[_ ](?:[KM]10|SA10|SA8|Z10)(?:Pro)?)(?:_EEA)?(?:[);/ ]|$)",
  pat! "(?i)KingPad[_ ]([KM]10|SA10|SA8|Z10)(Pro)?",
  pat! "(?i)(M910A|M783K|M783K-16G|M1072R-3G)(?:[);/ ]|$)",
  pat! "(?i)Vega (Q7128)(?:[);/ ]|$)",
  pat! "(?i)VEIDOO_(T60)_PLUS(?:[);/ ]|$)",
  pat! "(?i)(LD-24SR(?:4715|4815|4850)BS|LD-65SU8815BS|LD-32SR(?:4850|4815|511[25])BS|LD-32SF4850BS|LD-39SR4815BS|LD-50SU(?:8921|8815)BS|LD-55SU8815BS|LD-43SU8821BS|LD-43SF(?:4850|4815)BS(?:-T9)?)(?:[);/ ]|$)",
  pat! "(?i)(?:CX-508|CX-551|Reiv 500|Creon F5|Isprit U50|Isprit-U50-LTE)(?:[);/ ]|$)",
  pat! "(?i)Isprit U50|Isprit-U50-LTE",
  pat! "(?i)(CX-508|CX-551|Reiv 500|Creon F5)",
  pat! "(?i)(ACE10)(?:[);/ ]|$)",
  pat! "(?i)(?:VCT([a-z0-9_-]+)|CT9A03W23|CT9A06P23)(?:[);/ ]|$)",
  pat! "(?i)VCT9B06Q22(?:[);/ ]|$)",
  pat! "(?i)(?:CT9A03W23|CT9A06P23)(?:[);/ ]|$)",
  pat! "(?i)VCT([a-z0-9_-]+)",
  pat! "(?i)(?:RP-UDM0[12]A|RP-UDP05A|JO-UQM10A|UQM1[23]A)(?:[);/ ]|$)",
  pat! "(?i)(RP-UDM0[12]A|RP-UDP05A|JO-UQM10A)",
  pat! "(?i)(UQM1[23]A)",
  pat! "(?i)QTA(SUN[12]|XIA1|QZ3|QZ3KID|IR7)|QMV7[AB]|WTVIS01",
  pat! "(?i)QTAXIA1|QTAIR7",
  pat! "(?i)QMV7[AB]",
  pat! "(?i)Vernee|(?:Mars Pro|Apollo[ _](?:Lite|X)|Thor (?:E|Plus)|X2_euro|M7_EEA|T3 Pro|V2 Pro|Apollo)(?:[);/ ]|$)",
  pat! "(?i)Apollo[ _]Lite",
  pat! "(?i)Apollo[ _]X",
  pat! "(?i)(V2|T3) Pro",
  pat! "(?i)Vernee[ _-]([^;/]+) Build",
  pat! "(?i)Vernee[ _-]([a-z0-9_-]+)",
  pat! "(?i)MotionE11(?:[);/ ]|$)",
  pat! "(?i)(V-Pad Pop)(?:[);/ ]|$)",
  pat! "(?i)Vertex[_ -]|(?:Luck|Luck_L1[02]0_[34]G|Lion_Dual|V709X|TAB X8|TAB X10|Tab [43]G (?:7-2|8-1|10-1)|Tab_3G_7-1|Pro_P3[01]0_4G|Lion_DC|Baccara|Eagle[ _]4G|ImpressMAX|Lion [1-3])(?:[);/ ]|$)|Impress[ _]([^;/]+)(?:Build|\\))",
  pat! "(?i)(?:Vertex_)?Luck[_ ]L[_ ](5045)[_ ]([34])G",
  pat! "(?i)(Lion_Dual|Lion_DC|Baccara|Eagle[ _]4G|Luck[_ ]L1[023]0(?:[_ ][34]G)?|Luck)(?:[);/ ]|$)",
  pat! "(?i)Impress ?MAX(?:[);/ ]|$)",
  pat! "(?i)IMPRESS ECLIPSE(?:[);/ ]|$)",
  pat! "(?i)Pro_P(3[01]0)_4G(?:[);/ ]|$)",
  pat! "(?i)Impress_Luck[_ ]?4G_NFC(?:[);/ ]|$)",
  pat! "(?i)Lion ([1-3])(?:[);/ ]|$)",
  pat! "(?i)(Impress[ _][a-z]+)([34])G(?:Build|\\))",
  pat! "(?i)(Impress[ _](?:[^;/]+))(?:Build|\\))",
  pat! "(?i)(V709X)",
  pat! "(?i)TAB X(8|10)(?:[);/ ]|$)",
  pat! "(?i)Tab[ _]([43])G[ _]([78]|10)-([21])",
  pat! "(?i)Vertu[ ]?([a-z0-9]+)|(?:ASTER(?: [PT])?|CONSTELLATION X|VTL-(?:202[123]01|202402))(?:[);/ ]|$)",
  pat! "(?i)ASTER( [PT])?(?:[);/ ]|$)",
  pat! "(?i)CONSTELLATION X(?:[);/ ]|$)",
  pat! "(?i)Vertu[ ]?([a-z0-9]+)",
  pat! "(?i)verykool[ _]?SL5009",
  pat! "(?i)verykool[ _]?S5001",
  pat! "(?i)verykool[ _]?S5004",
  pat! "(?i)verykool[ _]?S5007",
  pat! "(?i)verykool[ _]?s5015",
  pat! "(?i)verykool[ _]?SL5011",
  pat! "(?i)verykool[ _]?s5019",
  pat! "(?i)verykool[ _]?S5005",
  pat! "(?i)verykool[ _]?SL5560",
  pat! "(?i)verykool[ _]?SL5200",
  pat! "(?i)verykool[ _]?SL5050"]

/-- `__dr_re`, from item 10000 on (device_repo.go:28336-28585). -/
def drRe_40 : List (List Chunk) := [
  pat! "(?i)verykool[ _]?S5030",
  pat! "(?i)verykool[ _]?s5527",
  pat! "(?i)verykool[ _]?s5526",
  pat! "(?i)verykool[ _]?S5530",
  pat! "(?i)verykool[ _]?S5525",
  pat! "(?i)verykool[ _]?S5524",
  pat! "(?i)verykool[ _]?s5516",
  pat! "(?i)verykool[ _]?SL5550",
  pat! "(?i)verykool[ _]?s5035",
  pat! "(?i)verykool[ _]?s5034",
  pat! "(?i)verykool[ _]?s5037",
  pat! "(?i)verykool[ _]?s5036",
  pat! "(?i)verykool[ _]?s6005x",
  pat! "(?i)verykool[ _]?SL6010",
  pat! "(?i)verykool[ _]?S4006[QT]?",
  pat! "(?i)verykool[ _]?S4007",
  pat! "(?i)verykool[ _]?S4008",
  pat! "(?i)verykool[ _]?s5017|Dorado s5017",
  pat! "(?i)verykool[ _]?s4510",
  pat! "(?i)verykool[ _]?s5204",
  pat! "(?i)verykool[ _]?s5205",
  pat! "(?i)verykool[ _]?s5528Jr",
  pat! "(?i)verykool[ _]?s5528",
  pat! "(?i)verykool[ _]?s5702",
  pat! "(?i)verykool[ _]?SL5029",
  pat! "(?i)verykool[ _]?SL5565",
  pat! "(?i)verykool[ _]?TL8010",
  pat! "(?i)verykool[ _]?T7440",
  pat! "(?i)verykool[ _]?T7445",
  pat! "(?i)verykool[ _]?([^/;)]+)(?:[ _]SL?[0-9]{4}[QT]?)(?: Build|[);])",
  pat! "(?i)verykool[ _]?([^/;)]+)(?: Build|[);])",
  pat! "(?i)VESTA_SMART|VESTA32LD86(?:[);/ ]|$)",
  pat! "(?i)Vestel[ _,/\\-]|Venus[ _](GO|E[2-5]|V[1-9]|Z[1-9]0)|V_?TAB|VP74|VT97PRO|VSP145M|VSP250[GS]|VSP355[GS]|V3_5580_Dual|V TAB Z[12]",
  pat! "(?i)V_TAB_([0-9]{4}[A-Z]?)",
  pat! "(?i)V[_ ]TAB[_ ](Z[12])",
  pat! "(?i)Venus[ _]V([1-9])([ _][0-9]{4})?",
  pat! "(?i)Venus[ _]Z([1-9]0)",
  pat! "(?i)Venus[ _]GO",
  pat! "(?i)Venus[ _]E2 Plus",
  pat! "(?i)Venus[ _]E([345])",
  pat! "(?i)Vestel[ _]5530[ _]Dual",
  pat! "(?i)Vestel[ _](5000|5530)",
  pat! "(?i)VESTEL\\-v\\.tv\\.([0-9]{4})",
  pat! "(?i)VESTEL, ([a-z0-9_ -]+), (?:wired|wireless)|\\+CE-HTML",
  pat! "(?i)(?:Zippers Tab 10i 3G)|Vexia FCS E2 CLM",
  pat! "(?i)(Zippers Tab 10i 3G)",
  pat! "(?i)ViBox[ _](V[25])[_ ]Pro(?:[);/ ]|$)",
  pat! "(?i)(VI10[68]|VI86)(?:[);/ ]|$)",
  pat! "(?i)Videocon[_ -]|(?:VT75C|V50DC|V406018|V512930|V50(?:2430|3630|4730|5024|5430|4630|5[98]20)|Z45_(?:Dazzle|Amaze)|Z45Q Star|Z50 Nova)(?:[);/ ]|$)",
  pat! "(?i)Videocon[_ -]([a-z0-9]+)",
  pat! "(?i)VT75C(?:[);/ ]|$)",
  pat! "(?i)V502430(?:[);/ ]|$)",
  pat! "(?i)V50DC(?:[);/ ]|$)",
  pat! "(?i)V505024(?:[);/ ]|$)",
  pat! "(?i)V503630(?:[);/ ]|$)",
  pat! "(?i)V504730(?:[);/ ]|$)",
  pat! "(?i)V505920(?:[);/ ]|$)",
  pat! "(?i)V505820(?:[);/ ]|$)",
  pat! "(?i)V406018(?:[);/ ]|$)",
  pat! "(?i)V512930(?:[);/ ]|$)",
  pat! "(?i)(V505430|V504630)(?:[);/ ]|$)",
  pat! "(?i)Z45_(Dazzle|Amaze)(?:[);/ ]|$)",
  pat! "(?i)Z45Q Star(?:[);/ ]|$)",
  pat! "(?i)Z50 Nova(?:[);/ ]|$)",
  pat! "(?i)(V65G2)(?:[);/ ]|$)",
  pat! "(?i)ViewSonic|ViewPad|ViewPhone|(?:IFP(?:98|86|[67]5)50-3|VSD[0-9]+|vsi7q_1)(?:[);/ ]|$)",
  pat! "(?i)(?:ViewSonic-)?V500(?:[);/ ]|$)",
  pat! "(?i)ViewSonic A8\\+(?:[);/ ]|$)",
  pat! "(?i)(?:ViewSonic-)?ViewPhone ?([^;/]+)(?: Build|[;)])",
  pat! "(?i)(?:ViewSonic-)?ViewPad[ _]?([^;/)]+)(?: Build|[;)])",
  pat! "(?i)(VSD[0-9]+)(?:[);/ ]|$)",
  pat! "(?i)IFP(98|86|[67]5)50-3",
  pat! "(?i)Vinabox[-_ ]X(\\d*)[-_ ](2018)",
  pat! "(?i)Vinabox[-_ ]X(\\d*)[-_ ]?Plus",
  pat! "(?i)Vinabox[-_ ]([^/;)]+)(?: Build|[);])",
  pat! "(?i)VMP-(015-162|021-82|041-162|011-81|025-324|045-664|046-664)(?:[);/ ]|$)|VMP023\\.",
  pat! "(?i)VMP023\\.",
  pat! "(?i)(XA Pro) Build",
  pat! "(?i)(?:VMP0617|VI65PB1401NA|VTAB7)(?:[);/ ]|$)",
  pat! "(?i)(Z08MK)(?:[);/ ]|$)",
  pat! "(?i)VIPRO[_ ]",
  pat! "(?i)ViPro S20(?:[);/ ]|$)",
  pat! "(?i)VIPRO PRO2X(?:[);/ ]|$)",
  pat! "(?i)Vipro Edge 2(?:[);/ ]|$)",
  pat! "(?i)VIPRO PRO[ _-]?([0-9])(?:[);/ ]|$)",
  pat! "(?i)(?:V608C|V50[15]c|VT701)(?:[);/ ]|$)",
  pat! "(?i)V(50[15]|608)C(?:[);/ ]|$)",
  pat! "(?i)(VT701)",
  pat! "(?i)LGE; VS-[0-9a-z]+;|XS100MINI(?:[);/ ]|$)",
  pat! "(?i)XS100MINI(?:[);/ ]|$)",
  pat! "(?i)LGE; (VS-[0-9a-z]+);",
  pat! "(?i)Vision ?Touch",
  pat! "(?i)(?:Prime10(?:SE|ES)|Elite(?:7QS|8QI|9QL|10QH(?:Pro)?))(?:[);/ ]|$)",
  pat! "(?i)Prime10(SE|ES)",
  pat! "(?i)Elite(7QS|8QI|9QL|10QH)",
  pat! "(?i)Vitelcom|portalmmm/[12]\\.0 TSM",
  pat! "(?i)TSM-([a-z0-9]+)",
  pat! "(?i)TSM([a-z0-9-]+)",
  pat! "(?i)portalmmm/[12]\\.0 (TSM[a-z0-9 ]+)",
  pat! "(?i)Vitumi[_ ]",
  pat! "(?i)Vitumi 10.1",
  pat! "(?i)(24LH1207|(?:43|5[05])LU1222|43L[FU]1204|50LU1204|43LF1212|32LH1212|32LH1221)(?:-V)?(?:[);/ ]|$)",
  pat! "(?i)(?:SMART[_ ]EV[56]|EV7_Pro|EV6 ELITE|EV5 X|EV7_Play| EV7)(?:[);/ ]|$)",
  pat! "(?i)(EV7)_Pro",
  pat! "(?i)(EV6) ELITE",
  pat! "(?i)(EV7)_Play",
  pat! "(?i)EV7(?:[);/ ]|$)",
  pat! "(?i)SMART[_ ](EV[56])",
  pat! "(?i)VIVAX|(?:Fly4|Fly5[_ ]Lite|Fun[_ ]S500|Point[_ ](?:X[12]|X50[123]|X450)|SMART FLY V500|PRO3|32LE77SM|40LE77SM|FUN S1|FUN_S20|TPC[-_ ](?:7121|80[56])3G)(?:[);/ ]|$)",
  pat! "(?i)Fly5[_ ]Lite(?:[);/ ]|$)",
  pat! "(?i)Fly4(?:[);/ ]|$)",
  pat! "(?i)SMART FLY V500(?:[);/ ]|$)",
  pat! "(?i)Point_X([12])(?:[);/ ]|$)",
  pat! "(?i)Fun[_ ]S500(?:[);/ ]|$)",
  pat! "(?i)FUN[ _]S(10?|20)(?:[);/ ]|$)",
  pat! "(?i)VIVAX[ _]Fly ?(\\d)(?:[);/ ]|$)",
  pat! "(?i)VIVAX[ _]Fly[ _]V(1|550)(?:[);/ ]|$)",
  pat! "(?i)(?:VIVAX )?(Point[ _](?:X551|X50[123]|X450))(?:[);/ ]|$)",
  pat! "(?i)SMART Point X5010(?:[);/ ]|$)",
  pat! "(?i)VIVAX[_ ]PRO[_ ]?(3|M1)",
  pat! "(?i)(?:VIVAX[ _])?TPC[-_ ](105|7121|806)_?([34])G",
  pat! "(?i)(?:TABLET )?TPC[-_ ](\\d+) ?([34])G(?:[);/ ]|$)",
  pat! "(?i)(?:VIVAX-)?(40LE78T2S2SM|32LE77SM|40LE77SM)",
  pat! "(?i)((?:VIV-|BBG-)?vivo)|iQOO Neo \\d|(?:V1730(D[AT]|GA)|V18(?:01A0|13B[AT])|1819|V1937|I(?:192[78]|201[28]|2218)|V(?:2026|2031|2036|2043)_21|V1916[AT]|V1936TL|V1936AL|V(?:1732|1809|181[3468]|182[149]|183[1268]|1901|191[13469]|192[1-48]|193[0246]|194[15]|195[05]|196[235]|198[16]|1990|201[12]|202[03-5]|203[146]|204[6789]|205[45679]|2066B|206[1568]|207[23]|208[05]|2099|2106|211[18]|212[135]|213[346]|214[1358]|2162)A|V1824BA|V(?:1731|1818|2020)CA|V(?:1818|1938)CT|V(?:1730|2031)EA|V(?:1732|1809|181[3468]|182[19]|183[1268]|1901|1913|1938)T|I201[19]|I212[67]|X50 Pro\\+|I220[123678]|I24(?:0[134579]|10)|I22(?:1[234679]|2[013])|I230[1-6]|I20(?:09|17|22)|I25(?:0[25])|V1962BA|V1930|PA2170|PA23[57]3|PA24(?:73|55)|PA25(?:73|11)|V20(?:0[1256]|0[2159]A|[34]4|29_PK|4[57]A?|23EA|2[2-9]|3[0-35-9]|4[0-3568]|5[02-5789]|6[015689]|69B?A|70)|V21(?:0[12459]|1[01]|2[04-79]|3[012459]A?|7[12]A|4[0-79]|40A|6[0289]|64[KP]A|6[234568]A|7[08]A|1[4-8]A?|0[28]A?|5[4678]A|5[0-478]|8[03568]A|80GA|66(?:BA)?|56FA|9[069]A|99GA)|V22(?:8[2345]A|7[01289]A|5[0123]|30EA|4[0246789]|41HA|5[46]A?|3[016789]|34(?:_PK)?|3[01289]A|4[2345]A|[34]1A|2[12589]|2[079]A|[36]6A|0[37]A|0[1-9]|1[789]A|1[24789])|V23(?:4[34]A|4[1-8]|12BA|24HA|61GA|66[GH]A|3[0-46789]|3[4789]A|39FA|0[1-479]A|0[23789]|52GA|5[01256]|5[23479]A|53DA|57EA|6[124]A|2[0-57]|2[3479]A|1[0124-9]|1[23478]A)|V24(?:0[1346-9]|1[02-9]|2[02-8]|3[0-9]|35A|4[01368]|4[45]A|45EA|0[358]A|05DA|54D?A|2[569]A|1[0579]A|30A|5[135]|5[2368]A|6[345]A)|V25(?:0[236-9]|0[2567]A|1[0138]|2[0179]|3[014])|S7t 5G| (?:Y30g|Y20T|Y31s 5G|Y33s|Y50t|Y55s 5G)|iQOO (?:U[13]x?|Z1x 5G|Z5x|[578]|Z[153])|V17 SD665|NEX 3s? 5G|Z5x 712|iPA2375|iPA24(?:5[13]|75)|Y51A|Y51 PK|1907_19|V2111-EG|Android 8(?:[\\d.]*);(?: [\\w-]+;)? (?:Y85A?|Y83A|Y71A?)|X21i A|X21A|Y52s|Y71t|Y76s)(?:[);/ ]|$)",
  pat! "(?i)V2170A(?:[);/ ]|$)",
  pat! "(?i)V2303A|V2337A",
  pat! "(?i)(Y20T|Y30g|X21i A|X21A)(?:[);/ ]|$)",
  pat! "(?i)V2324A|V2309(?:[);/ ]|$)",
  pat! "(?i)V2366[GH]A",
  pat! "(?i)V2309A|V2308",
  pat! "(?i)V2454D?A",
  pat! "(?i)V2405D?A|V2413",
  pat! "(?i)V2415A?",
  pat! "(?i)(?:V2307|V2343A|V2401)(?:[);/ ]|$)",
  pat! "(?i)V2336(?:[);/ ]|$)",
  pat! "(?i)V1824[B]?A(?:[);/ ]|$)",
  pat! "(?i)V1955A(?:[);/ ]|$)",
  pat! "(?i)(?:V2171A|I2017)(?:[);/ ]|$)",
  pat! "(?i)I2019(?:[);/ ]|$)",
  pat! "(?i)(?:V2172A|I2022)(?:[);/ ]|$)",
  pat! "(?i)I2201(?:[);/ ]|$)",
  pat! "(?i)(?:V2243A|I2212)(?:[);/ ]|$)",
  pat! "(?i)I2220|V2307A",
  pat! "(?i)V2408A|I2401",
  pat! "(?i)I192[78](?:[);/ ]|$)",
  pat! "(?i)V2165A(?:[);/ ]|$)",
  pat! "(?i)(?:V2049A|I2009|iQOO 7)(?:[);/ ]|$)",
  pat! "(?i)V2425A|I2405",
  pat! "(?i)(?:V2231A|I2214)(?:[);/ ]|$)",
  pat! "(?i)I2304|V2339A",
  pat! "(?i)V2154A|iQOO Neo 5S",
  pat! "(?i)I2012(?:[);/ ]|$)",
  pat! "(?i)V1922A(?:[);/ ]|$)",
  pat! "(?i)V1916[AT]",
  pat! "(?i)V1914A(?:[);/ ]|$)",
  pat! "(?i)(?:V1981A|iQOO Neo 3)(?:[);/ ]|$)",
  pat! "(?i)V1936(?:TL|A[L]?)(?:[);/ ]|$)",
  pat! "(?i)(?:V2118A|iQOO Neo 5 Lite)(?:[);/ ]|$)",
  pat! "(?i)(?:V2055A|iQOO Neo 5)(?:[);/ ]|$)",
  pat! "(?i)V2199A(?:[);/ ]|$)",
  pat! "(?i)(?:V1986A|iQOO Z1)(?:[);/ ]|$)",
  pat! "(?i)V2012A(?:[);/ ]|$)",
  pat! "(?i)iQOO Z1x 5G(?:[);/ ]|$)",
  pat! "(?i)I2505|I2410",
  pat! "(?i)(?:V2073A|I2011|iQOO Z3 5G)(?:[);/ ]|$)",
  pat! "(?i)V1919A|iQOO Z5x",
  pat! "(?i)I2018(?:[);/ ]|$)",
  pat! "(?i)V2148A|iQOO Z5",
  pat! "(?i)(?:I220[236]|I2127|V2220A)(?:[);/ ]|$)",
  pat! "(?i)I2126(?:[);/ ]|$)",
  pat! "(?i)I2208(?:[);/ ]|$)",
  pat! "(?i)I22(?:13|07)(?:[);/ ]|$)",
  pat! "(?i)I2301(?:[);/ ]|$)",
  pat! "(?i)I2216(?:[);/ ]|$)",
  pat! "(?i)I2223(?:[);/ ]|$)",
  pat! "(?i)I2302|I2218",
  pat! "(?i)I2219|V2353A",
  pat! "(?i)(?:V2023A|iQOO U1)(?:[);/ ]|$)",
  pat! "(?i)(?:V2065A|iQOO U1x)(?:[);/ ]|$)",
  pat! "(?i)(?:V2061A|iQOO U3)(?:[);/ ]|$)",
  pat! "(?i)(?:V2106A|iQOO U3x 5G)(?:[);/ ]|$)",
  pat! "(?i)(?:V2025A|iQOO 5 Pro)(?:[);/ ]|$)",
  pat! "(?i)(?:V2024A|iQOO 5)(?:[);/ ]|$)",
  pat! "(?i)(?:V2141A|iQOO 8 Pro)(?:[);/ ]|$)",
  pat! "(?i)(?:V2136A|iQOO 8)(?:[);/ ]|$)",
  pat! "(?i)V2339(?:[);/ ]|$)",
  pat! "(?i)V2337(?:[);/ ]|$)",
  pat! "(?i)(?:V2025)(?:[);/ ]|$)",
  pat! "(?i)(?:V2066|V2108)(?:[);/ ]|$)",
  pat! "(?i)(?:V2050)(?:[);/ ]|$)",
  pat! "(?i)V2061(?:[);/ ]|$)",
  pat! "(?i)V2055(?:[);/ ]|$)",
  pat! "(?i)V2040(?:[);/ ]|$)",
  pat! "(?i)Vivo 1921(?:[);/ ]|$)",
  pat! "(?i)Vivo 1916(?:[);/ ]|$)",
  pat! "(?i)vivo 1805(?:[);/ ]|$)",
  pat! "(?i)(?:vivo 1912|V1923A)(?:[);/ ]|$)",
  pat! "(?i)(?:V1924A|NEX 3 5G)(?:[);/ ]|$)",
  pat! "(?i)V1950A(?:[);/ ]|$)",
  pat! "(?i)vivo NEX S(?:[);/ ]|$)",
  pat! "(?i)NEX 3s 5G(?:[);/ ]|$)",
  pat! "(?i)vivo NEX A(?:[);/ ]|$)",
  pat! "(?i)vivo NEX(?:[);/ ]|$)",
  pat! "(?i)(?:V1821[AT]|vivo 1813)(?:[);/ ]|$)",
  pat! "(?i)Vivo ONE(?:[);/ ]|$)",
  pat! "(?i)V2115A|V2141|V2157|V2150",
  pat! "(?i)V2253|V2312",
  pat! "(?i)V2320|V2199GA",
  pat! "(?i)V23[45]6(?:[);/ ]|$)",
  pat! "(?i)V2338(?:[);/ ]|$)",
  pat! "(?i)V2203A(?:[);/ ]|$)",
  pat! "(?i)V1831[AT]",
  pat! "(?i)V1832[AT](?:[);/ ]|$)",
  pat! "(?i)V243[08]",
  pat! "(?i)V211[56]",
  pat! "(?i)V220[19]|V2242(?:[);/ ]|$)",
  pat! "(?i)V2436|V2443",
  pat! "(?i)V22(?:31|46)",
  pat! "(?i)V2352|V2433",
  pat! "(?i)V243[45](?:[);/ ]|$)",
  pat! "(?i)V2244(?:[);/ ]|$)",
  pat! "(?i)V2318(?:[);/ ]|$)",
  pat! "(?i)V2343(?:[);/ ]|$)",
  pat! "(?i)V2314(?:[);/ ]|$)",
  pat! "(?i)V2327(?:[);/ ]|$)",
  pat! "(?i)(?:V2341|V2424|V2417)(?:[);/ ]|$)",
  pat! "(?i)(?:V2418|V2403)(?:[);/ ]|$)",
  pat! "(?i)V24(?:51|27|48)",
  pat! "(?i)V2441|V2453",
  pat! "(?i)V24[45]0",
  pat! "(?i)V1932[AT](?:[);/ ]|$)",
  pat! "(?i)V1962A(?:[);/ ]|$)",
  pat! "(?i)V2162A?",
  pat! "(?i)V2020C?A(?:[);/ ]|$)",
  pat! "(?i)V2031EA(?:[);/ ]|$)",
  pat! "(?i)V2080A(?:[);/ ]|$)",
  pat! "(?i)S7t 5G(?:[);/ ]|$)",
  pat! "(?i)V2072A(?:[);/ ]|$)",
  pat! "(?i)V2048A(?:[);/ ]|$)",
  pat! "(?i)V1941A(?:[);/ ]|$)",
  pat! "(?i)V1928A(?:[);/ ]|$)",
  pat! "(?i)vivo 1804(?:[);/ ]|$)",
  pat! "(?i)vivo 1806(?:[);/ ]|$)",
  pat! "(?i)1819(?:[);/ ]|$)",
  pat! "(?i)vivo 1818(?:[);/ ]|$)",
  pat! "(?i)vivo 19(?:10|09)(?:[);/ ]|$)",
  pat! "(?i)(?:vivo 1907(?:_19)?|1907_19)(?:[);/ ]|$)",
  pat! "(?i)(?:vivo 1919|V17 SD665)(?:[);/ ]|$)",
  pat! "(?i)vivo 1920(?:_20)?(?:[);/ ]|$)",
  pat! "(?i)vivo 1933(?:[);/ ]|$)"]

/-- `__dr_re`, from item 10250 on (device_repo.go:28586-28835). -/
def drRe_41 : List (List Chunk) := [
  pat! "(?i)V2022(?:[);/ ]|$)",
  pat! "(?i)vivo 2018(?:[);/ ]|$)",
  pat! "(?i)(?:VIV-|BBG-)?vivo[ _]1601(?:[);/ ]|$)",
  pat! "(?i)vivo 1609(?:[);/ ]|$)",
  pat! "(?i)vivo 1611(?:[);/ ]|$)",
  pat! "(?i)vivo (1713|1612)(?:[);/ ]|$)",
  pat! "(?i)vivo 1718(?:[);/ ]|$)",
  pat! "(?i)V2166BA(?:[);/ ]|$)",
  pat! "(?i)vivo (?:1716|1850)(?:[);/ ]|$)",
  pat! "(?i)vivo 1723(?:[);/ ]|$)",
  pat! "(?i)(?:vivo 1727|V9Youth)(?:[);/ ]|$)",
  pat! "(?i)vivo (?:1851|V9Pro)(?:[);/ ]|$)",
  pat! "(?i)vivo V3Max(?: [AL])?(?:[);/ ]|$)",
  pat! "(?i)vivo X9s Plus(?:[);/ ]|$)",
  pat! "(?i)vivo X9s(?: [AL])?(?:[);/ ]|$)",
  pat! "(?i)V2241A|V2218(?:[);/ ]|$)",
  pat! "(?i)V2219(?:[);/ ]|$)",
  pat! "(?i)vivo X5Pro(?:[);/ ]|$)",
  pat! "(?i)vivo X20Plus UD(?:[);/ ]|$)",
  pat! "(?i)vivo 1721(?:[);/ ]|$)",
  pat! "(?i)(?:X20Plus(?: a)?|vivo 1720)(?:[);/ ]|$)",
  pat! "(?i)vivo X21i(?: A)?(?:[);/ ]|$)",
  pat! "(?i)vivo X21UD(?: A)?(?:[);/ ]|$)",
  pat! "(?i)vivo (?:1725|X21)(?:[);/ ]|$)",
  pat! "(?i)V1814[AT](?:[);/ ]|$)",
  pat! "(?i)V1809[AT](?:[);/ ]|$)",
  pat! "(?i)V1816[AT](?:[);/ ]|$)",
  pat! "(?i)V18(38|29)[AT](?:[);/ ]|$)",
  pat! "(?i)V1836[AT](?:[);/ ]|$)",
  pat! "(?i)V1938CT(?:[);/ ]|$)",
  pat! "(?i)V1938T(?:[);/ ]|$)",
  pat! "(?i)(?:V2001A|vivo 2004)(?:[);/ ]|$)",
  pat! "(?i)V1930(?:[);/ ]|$)",
  pat! "(?i)vivo 2005(?:[);/ ]|$)",
  pat! "(?i)(?:vivo 1937|V1937)(?:[);/ ]|$)",
  pat! "(?i)(?:V2005A|vivo 2006)(?:[);/ ]|$)",
  pat! "(?i)(?:V2011A|X50 Pro\\+)(?:[);/ ]|$)",
  pat! "(?i)(?:V20(?:46|59)A|V2045)(?:[);/ ]|$)",
  pat! "(?i)V2085A(?:[);/ ]|$)",
  pat! "(?i)(?:V2047A|V2046)(?:[);/ ]|$)",
  pat! "(?i)(?:V2056A|V2047)(?:[);/ ]|$)",
  pat! "(?i)(?:V2134A|V2105)(?:[);/ ]|$)",
  pat! "(?i)(?:V2145A|V2114)(?:[);/ ]|$)",
  pat! "(?i)V2133A(?:[);/ ]|$)",
  pat! "(?i)V2104(?:[);/ ]|$)",
  pat! "(?i)(?:V2144|V2183A)(?:[);/ ]|$)",
  pat! "(?i)V218[56]A|V2145",
  pat! "(?i)V2208(?:[);/ ]|$)",
  pat! "(?i)X([0-9])Plus(?: A)?(?:[);/ ]|$)",
  pat! "(?i)vivo Xplay6(?:[);/ ]|$)",
  pat! "(?i)vivo (?:1929|2015)(?:_21)?(?:[);/ ]|$)",
  pat! "(?i)vivo 1902(?:[);/ ]|$)",
  pat! "(?i)V2310|V2331",
  pat! "(?i)(?:V2333|V2345)(?:[);/ ]|$)",
  pat! "(?i)V2410(?:[);/ ]|$)",
  pat! "(?i)V22[01]4(?:[);/ ]|$)",
  pat! "(?i)(?:vivo 1906(?:_20)?|V2236A)(?:[);/ ]|$)",
  pat! "(?i)V2239|V2412",
  pat! "(?i)V2166(?:[);/ ]|$)",
  pat! "(?i)(?:V2203|V222[19])(?:[);/ ]|$)",
  pat! "(?i)(?:V225[24]|V2325)(?:[);/ ]|$)",
  pat! "(?i)(?:V2217|V2236|V2234_PK)(?:[);/ ]|$)",
  pat! "(?i)(?:V2234)(?:[);/ ]|$)",
  pat! "(?i)V2332|V2406",
  pat! "(?i)V2409|V2344",
  pat! "(?i)vivo 19(?:04|40)(?:[);/ ]|$)",
  pat! "(?i)V2102(?:[);/ ]|$)",
  pat! "(?i)vivo 2007(?:[);/ ]|$)",
  pat! "(?i)vivo 1901(?:_19)?(?:[);/ ]|$)",
  pat! "(?i)(?:V212[05]|V2139)(?:[);/ ]|$)",
  pat! "(?i)V2147|V2212",
  pat! "(?i)vivo 1915(?:[);/ ]|$)",
  pat! "(?i)(?:V2419|V2423)(?:[);/ ]|$)",
  pat! "(?i)V250[78]",
  pat! "(?i)V2027(?:_PK)?(?:[);/ ]|$)",
  pat! "(?i)V2029(?:_PK)?(?:[);/ ]|$)",
  pat! "(?i)(?:V2207|V2238)(?:[);/ ]|$)",
  pat! "(?i)V2206(?:[);/ ]|$)",
  pat! "(?i)vivo 1613(?:[);/ ]|$)",
  pat! "(?i)(?:V2043_21|V2048)(?:[);/ ]|$)",
  pat! "(?i)(?:V205[24]|V2070|V2101|V2034)(?:[);/ ]|$)",
  pat! "(?i)V2037(?:[);/ ]|$)",
  pat! "(?i)V2129(?:[);/ ]|$)",
  pat! "(?i)V2065(?:[);/ ]|$)",
  pat! "(?i)V2028(?:[);/ ]|$)",
  pat! "(?i)V2038(?:[);/ ]|$)",
  pat! "(?i)V2043(?:[);/ ]|$)",
  pat! "(?i)V(?:2041|2060)(?:[);/ ]|$)",
  pat! "(?i)V2032(?:[);/ ]|$)",
  pat! "(?i)V2152(?:[);/ ]|$)",
  pat! "(?i)V2111(?:[);/ ]|$)",
  pat! "(?i)V2149|V2111-EG",
  pat! "(?i)V2140(?:[);/ ]|$)",
  pat! "(?i)V213[15](?:[);/ ]|$)",
  pat! "(?i)V2023(?:[);/ ]|$)",
  pat! "(?i)V1901[AT](?:[);/ ]|$)",
  pat! "(?i)(?:vivo 193[89]|V203[46]A)(?:[);/ ]|$)",
  pat! "(?i)V2160(?:[);/ ]|$)",
  pat! "(?i)V2099A(?:[);/ ]|$)",
  pat! "(?i)V2066[B]?A(?:[);/ ]|$)",
  pat! "(?i)V2036(?:_21)?(?:[);/ ]|$)",
  pat! "(?i)V2068A?(?:[);/ ]|$)",
  pat! "(?i)V2228(?:[);/ ]|$)",
  pat! "(?i)V2057(?:[);/ ]|$)",
  pat! "(?i)(?:V2109|Y33s)(?:[);/ ]|$)",
  pat! "(?i)V2146(?:[);/ ]|$)",
  pat! "(?i)V2166A(?:[);/ ]|$)",
  pat! "(?i)V2205(?:[);/ ]|$)",
  pat! "(?i)(?:V2247|V2324)(?:[);/ ]|$)",
  pat! "(?i)V2248(?:[);/ ]|$)",
  pat! "(?i)V2357A(?:[);/ ]|$)",
  pat! "(?i)V1934A(?:[);/ ]|$)",
  pat! "(?i)(?:V1965A|vivo 1935)(?:[);/ ]|$)",
  pat! "(?i)(?:V2023EA|Y50t)(?:[);/ ]|$)",
  pat! "(?i)V(?:2024|203[05])(?:[);/ ]|$)",
  pat! "(?i)Y51 PK(?:[);/ ]|$)",
  pat! "(?i)vivo 1707(?:[);/ ]|$)",
  pat! "(?i)V2031(?:_21)?(?:[);/ ]|$)",
  pat! "(?i)Y51A(?:[);/ ]|$)",
  pat! "(?i)(?:V2054A|Y31s 5G)(?:[);/ ]|$)",
  pat! "(?i)(?:V2057A|Y52s)(?:[);/ ]|$)",
  pat! "(?i)V2053(?:[);/ ]|$)",
  pat! "(?i)vivo 1606(?:[);/ ]|$)",
  pat! "(?i)vivo 1606a(?:[);/ ]|$)",
  pat! "(?i)(?:V2058|V2111A|V2123A)(?:[);/ ]|$)",
  pat! "(?i)vivo 1603(?:[);/ ]|$)",
  pat! "(?i)vivo 1610(?:[);/ ]|$)",
  pat! "(?i)V2164A|Y55s 5G",
  pat! "(?i)V2311|V2225",
  pat! "(?i)vivo 1719(?:[);/ ]|$)",
  pat! "(?i)vivo (?:1714|Y69A?)(?:[);/ ]|$)",
  pat! "(?i)V2002A(?:[);/ ]|$)",
  pat! "(?i)V2006(?:[);/ ]|$)",
  pat! "(?i)vivo (?:1724|Y71A?)(?:[);/ ]|$)",
  pat! "(?i)Y71t(?:[);/ ]|$)",
  pat! "(?i)vivo 1801i?(?:[);/ ]|$)",
  pat! "(?i)V1731CA(?:[);/ ]|$)",
  pat! "(?i)V2059(?:[);/ ]|$)",
  pat! "(?i)V2031A(?:[);/ ]|$)",
  pat! "(?i)V2124(?:[);/ ]|$)",
  pat! "(?i)V2156F?A|Y76s(?:[);/ ]|$)",
  pat! "(?i)V1913[AT](?:[);/ ]|$)",
  pat! "(?i)vivo 180([38]|8i)(?:[);/ ]|$)",
  pat! "(?i)vivo 1812(?:_19)?(?:[);/ ]|$)",
  pat! "(?i)V1732[AT](?:[);/ ]|$)",
  pat! "(?i)vivo (?:Y83A?|1802)(?:[);/ ]|$)",
  pat! "(?i)vivo 1726(?:[);/ ]|$)",
  pat! "(?i)V1730EA(?:[);/ ]|$)",
  pat! "(?i)vivo (?:1823|1908)(?:_19)?(?:[);/ ]|$)",
  pat! "(?i)vivo 181[17](?:[);/ ]|$)",
  pat! "(?i)vivo 1820(?:_19)?(?:[);/ ]|$)",
  pat! "(?i)V1945A(?:[);/ ]|$)",
  pat! "(?i)(?:V2026|V2033|V2042)(?:[);/ ]|$)",
  pat! "(?i)(?:V20[63]9|V2026_21)(?:[);/ ]|$)",
  pat! "(?i)vivo 18(16|20)(?:[);/ ]|$)",
  pat! "(?i)(V1818[AT]|vivo 181[45])(?:[);/ ]|$)",
  pat! "(?i)V1818C[AT](?:[);/ ]|$)",
  pat! "(?i)vivo 1807(?:[);/ ]|$)",
  pat! "(?i)V1813[AT](?:[);/ ]|$)",
  pat! "(?i)V1801A0(?:[);/ ]|$)",
  pat! "(?i)vivo (?:1918|1951|Z1Pro)(?:[);/ ]|$)",
  pat! "(?i)V1730D[AT](?:[);/ ]|$)",
  pat! "(?i)vivo 1917(?:[);/ ]|$)",
  pat! "(?i)V1813B[AT](?:[);/ ]|$)",
  pat! "(?i)(?:vivo Z3x|V1730GA)(?:[);/ ]|$)",
  pat! "(?i)V1921A(?:[);/ ]|$)",
  pat! "(?i)V1911A(?:[);/ ]|$)",
  pat! "(?i)V1990A(?:[);/ ]|$)",
  pat! "(?i)V1963A(?:[);/ ]|$)",
  pat! "(?i)V2142(?:[);/ ]|$)",
  pat! "(?i)(?:vivo Y75s|V2069BA)(?:[);/ ]|$)",
  pat! "(?i)vivo X710L?(?:[);/ ]|$)",
  pat! "(?i)X6SPlus(?: [AD])?(?:[);/ ]|$)",
  pat! "(?i)vivo X6S(?: A)?(?:[);/ ]|$)",
  pat! "(?i)vivo X([5679]|20)[ALD]?(?:[);/ ]|$)",
  pat! "(?i)vivo X5Pro(?: L)?(?:[);/ ]|$)",
  pat! "(?i)vivo Y66i(?: A)?(?:[);/ ]|$)",
  pat! "(?i)vivo Y(\\d{2})[AL]?(?:[);/ ]|$)",
  pat! "(?i)vivo Xplay(\\d)S(?:[);/ ]|$)",
  pat! "(?i)vivo Xplay(\\d)[AL]?(?:[);/ ]|$)",
  pat! "(?i)(?:VIV-|BBG-)?vivo[ _]([^/;]+) Build",
  pat! "(?i)(?:VIV-|BBG-)?vivo[ _]([^);/]+)(?:[);/ ]|$)",
  pat! "(?i) (Y85A?|Y83A|Y71A?)(?:[);/ ]|$)",
  pat! "(?i)Vizio|(?:VAP430|VTAB1008|XR6[PM]10)(?:[);/ ]|$)",
  pat! "(?i)VIZIO ([a-z0-9_-]+) ViziOS/",
  pat! "(?i)Model/([a-z0-9_-]+)\\)",
  pat! "(?i)Vizio, ([a-z0-9_-]+), (?:wired|wireless)",
  pat! "(?i)(VTAB1008|XR6[PM]10)",
  pat! "(?i)VIZ(?:101|070)TAB[78]11",
  pat! "(?i)VIZ070TAB(\\d{3})",
  pat! "(?i)VIZ101TAB(\\d{3})",
  pat! "(?i)(?:Vodacom)[ _]|(?:Kicka 5 Plus 4G)(?:[);/ ]|$)",
  pat! "(?i)(?:Vodacom)[ _](Power Tab 10)(?:[);/ ]|$)",
  pat! "(?i)Vodafone[ _-]|VodafoneSmartChat|Smart Ultra 6|Smart ?Tab ?(?:III? ?)?(?:4G|7|10)[;/ )-]|(?:GigaTV|VFD[ _][0-9]+|VFD[37]20|VF6[89]5|VF-(696|1397|795|895N|1497)|SmartV22)(?:[);/ ]|$)",
  pat! "(?i)VFD 50[012]",
  pat! "(?i)VFD 51[0123]",
  pat! "(?i)VFD 52[789]",
  pat! "(?i)Vodafone[ _]875(?:[);/ ]|$)",
  pat! "(?i)Vodafone[ _]975N?(?:[);/ ]|$)",
  pat! "(?i)Vodafone[ _]785(?:[);/ ]|$)",
  pat! "(?i)VFD 525(?:[);/ ]|$)",
  pat! "(?i)Vodafone[ _]890N(?:[);/ ]|$)",
  pat! "(?i)Vodafone[ _]985N(?:[);/ ]|$)",
  pat! "(?i)Smart ?Tab ?3G",
  pat! "(?i)Smart ?Tab ?4G",
  pat! "(?i)Smart ?Tab ?4",
  pat! "(?i)SmartTab7[);/ -]",
  pat! "(?i)SmartTab10[);/ -]",
  pat! "(?i)Smart ?Tab ?II ?7",
  pat! "(?i)Smart ?Tab ?II ?10",
  pat! "(?i)Smart ?Tab ?III ?7",
  pat! "(?i)Smart ?Tab ?III ?10",
  pat! "(?i)Vodafone TV(?:[);/ ]|$)",
  pat! "(?i)VFD[ _]([0-9]+)(?:[);/ ]|$)",
  pat! "(?i)Vodafone[ _-]([^;/]+) Build",
  pat! "(?i)Vodafone[ _-]([a-z0-9_-]+)",
  pat! "(?i)Volla Phone (22|X23)",
  pat! "(?i)VOLT[_ ](SV451[_ ]Vision)(?:[);/ ]|$)",
  pat! "(?i)Vonino|Epic (?:E8|P7)|Epic_(?:M8|P7)|Gyga[ _](?:X|S|QS|XS)|Jax[ _](?:QS|[SXQN]|Mini)|Magnet[ _](?:M[19]|G[135]0|W10)|Navo_QS|Navo[ _][SP]|Onyx_(QS|Z)|Orin_QS|Pluri[ _](?:[BCMQ]7|[CQM]8)|Sirius_QS|Spirit QS|Volt[ _][XS]|Xavy[_ ]([GT]7|L8)|Xylo[ _][XSPQT]|Zun[ _](?:N|X[OS]?)|JAX_N|Druid_L10|iMart_Pro|MusicPAD_[HM]1",
  pat! "(?i)Zun[ _](N|X[OS]?)",
  pat! "(?i)Xylo[ _]([PSXQT])",
  pat! "(?i)Volt[ _]S_A7",
  pat! "(?i)Volt[ _]S",
  pat! "(?i)Volt[ _]X",
  pat! "(?i)Gyga[ _]QS",
  pat! "(?i)Gyga[ _]XS",
  pat! "(?i)Gyga[ _](S|X)",
  pat! "(?i)Jax[ _]QS",
  pat! "(?i)Jax[ _]S_A7",
  pat! "(?i)Jax[ _]([SQXN])",
  pat! "(?i)Jax[ _]Mini",
  pat! "(?i)Epic[_ ]([EM]8|P7)",
  pat! "(?i)Pluri_M([78])_2020",
  pat! "(?i)Pluri[ _]([BCMQ])7",
  pat! "(?i)Pluri[ _]([CQM])8",
  pat! "(?i)Druid[_ ](L10)",
  pat! "(?i)Magnet[_ ]M10[_ ]2020",
  pat! "(?i)Magnet[_ ](G50)[_ ]Pro",
  pat! "(?i)Magnet[ _](M[19]|G[135]0|W10)",
  pat! "(?i)Navo[_ ](Q?[SP])",
  pat! "(?i)Onyx_(QS|Z)",
  pat! "(?i)Xavy[_ ]([GT]7|L8)",
  pat! "(?i)MusicPAD_([HM]1)",
  pat! "(?i)(HK1 (?:Max|MINI\\+?|PLUS|PRO)|KK MAX|VONTAR[_ -](?:Z[58]|[VH]1|KIII|MX-4K|X[234]|R3|H728)|H618|DQ08)(?:[);/ ]|$)",
  pat! "(?i)DQ08(?:[);/ ]|$)",
  pat! "(?i)VONTAR[_ -](Z[58]|[VH]1|KIII|MX-4K|X[234]|H618|H728|R3)(?:[);/ ]|$)",
  pat! "(?i)HK1 Max(?:[);/ ]|$)",
  pat! "(?i)KK MAX(?:[);/ ]|$)",
  pat! "(?i)HK1 MINI\\+(?:[);/ ]|$)",
  pat! "(?i)HK1 MINI(?:[);/ ]|$)"]

/-- `__dr_re`, from item 10500 on (device_repo.go:28836-29085). -/
def drRe_42 : List (List Chunk) := [
  pat! "(?i)HK1 PLUS(?:[);/ ]|$)",
  pat! "(?i)HK1 PRO(?:[);/ ]|$)",
  pat! "(?i)VORAGO|(?:PAD-7-V5|PAD-7)(?:[);/ ]|$)",
  pat! "(?i)(PAD-7-V5|PAD-7)",
  pat! "(?i)(?:SXPro|S7-classic|SXPRO_classic|Quartz(?:PRO|LITE)|ULTRAPAD)(?:[);/ ]|$)",
  pat! "(?i)VORKE[ _](Z[157]|Z6(?: Plus)?)(?:[);/ ]|$)",
  pat! "(?i)VORMOR-X5-pro(?:[);/ ]|$)",
  pat! "(?i)(Android 13(?:[\\d.]*);(?: [\\w-]+;)? (?:HD65)|ZG65|SYNQ|CMG101|CM62|CG65|T10M_Pro|HD55|HD60[iL]?|HD62|HD68|ZTAB10|BTAB10|HD65[ _](?:Choice|Select|Ultra|PLUS)|ZG55|ZG65 Pro|V39TPHE01S|V32TPHDE1S|V24TPHDE1S)(?:[);/ ]|$)",
  pat! "(?i)HD65[_ ]Choice",
  pat! "(?i)HD65[_ ]Ultra",
  pat! "(?i)HD65[_ ]Select",
  pat! "(?i)HD65[_ ]PLUS",
  pat! "(?i)(SYNQ|CM62|CG65|ZG55|HD55|HD60[iL]?|HD6[258]|ZG65)",
  pat! "(?i)(CMG101)",
  pat! "(?i)(V39TPHE01S|V32TPHDE1S|V24TPHDE1S)",
  pat! "(?i)VOTO[ _-]|VT8[89]8(?:[);/ ]|$)",
  pat! "(?i)VOTO[ _-]?([^/;]+) Build",
  pat! "(?i)VOTO[ _-]?([^);/ ]+)",
  pat! "(?i)(VT8[89]8)(?:[);/ ]|$)",
  pat! "(?i)Voxtel_([a-z0-9]+)",
  pat! "(?i)(?:VOYO[_ ](?:A15)|i8-Max|Q101-4G)(?:[);/ ]|$)",
  pat! "(?i)i8-Max(?:[);/ ]|$)",
  pat! "(?i)(Q101)-4G(?:[);/ ]|$)",
  pat! "(?i)VOYO[_ ](A15)(?:[);/ ]|$)",
  pat! "(?i)(?:Joy [123]\\+|Joy [34]|Active 1\\+|Bee 3|Active [13]|V341U|Bee Lite|Aris| Bee|Star [345])(?:[);/ ]|$)",
  pat! "(?i)Joy ([123])\\+(?:[);/ ]|$)",
  pat! "(?i)Joy ([34])(?:[);/ ]|$)",
  pat! "(?i)Active 1\\+(?:[);/ ]|$)",
  pat! "(?i)Bee 3(?:[);/ ]|$)",
  pat! "(?i)Bee(?:[);/ ]|$)",
  pat! "(?i)Star (\\d)(?:[);/ ]|$)",
  pat! "(?i)Active (\\d)(?:[);/ ]|$)",
  pat! "(?i)V341U(?:[);/ ]|$)",
  pat! "(?i)(?:VSUN (?:ILLUSION|RACE|V9|TOUCH)|Aqua Tough|MERCURY Tough|MARS TOUCH|MARS NOTE|MARS NOCAM|SATURN SELFIE)(?:[);/ ]|$)",
  pat! "(?i)ILLUSION(?:[);/ ]|$)",
  pat! "(?i)MARS TOUCH(?:[);/ ]|$)",
  pat! "(?i)SATURN SELFIE(?:[);/ ]|$)",
  pat! "(?i)RACE(?:[);/ ]|$)",
  pat! "(?i)VSUN TOUCH(?:[);/ ]|$)",
  pat! "(?i)(V9)(?:[);/ ]|$)",
  pat! "(?i) (81V)(?:[);/ ]|$)",
  pat! "(?i)(?:VP5004A|VS5513|VS4011|VR6031)(?:[);/ ]|$)",
  pat! "(?i)(VP5004A|VR6031)(?:[);/ ]|$)",
  pat! "(?i)VS5513(?:[);/ ]|$)",
  pat! "(?i)VS4011(?:[);/ ]|$)",
  pat! "(?i)Nexo-TAB-7(?: Build|[;)])",
  pat! "(?i)Nexo-TAB-7(?: Build|[;)])",
  pat! "(?i)(?:X9 CALL2| WO (?:[789]|1[02])(?: Ultra)?|WO Pad (?:Pro|Max|\\d{2}))(?: Build|[);])",
  pat! "(?i)WO Pad (13)",
  pat! "(?i)WO ([89]) Ultra",
  pat! "(?i)WO (1[02]|[789])",
  pat! "(?i)(F808NM|F803YM)(?:[);/ ]|$)",
  pat! "(?i)LGE; WLE[0-9a-z]+;|(?:WUD55H7762SN|WUD55G7762S)(?:[);/ ]|$)",
  pat! "(?i)(WUD55H7762SN|WUD55G7762S)(?:[);/ ]|$)",
  pat! "(?i)LGE; (WLE[0-9a-z]+);",
  pat! "(?i)WE (A[15]0|B3|F[12]0|E[12]|L[3469]|R[34]|V[34]|S1|X[13]|T1)(?:[);/ ]|$)",
  pat! "(?i)WIWA DREAM PLAYER(?:[);/ ]|$)",
  pat! "(?i)W10_EEA(?:[);/ ]|$)",
  pat! "(?i)(TD-TP010G-2)(?:[);/ ]|$)",
  pat! "(?i) (P10X)(?:[);/ ]|$)",
  pat! "(?i)WALKER[;,]",
  pat! "(?i)Walton|Walpad|RX7 Mini|Primo[ _](?:C[1234]?|D[1-689]|E[1-589]|F8s|EF[23]?|EM|F[1-79]i?|G[1-9]|GF[234]?|GH[23]?|GM|H[2-689M]|H10|H7s|N[F1]?|NX2?|R[1-689]|R[HM]2?|RX[23]?|S[1-8]|V1|X[1-4]|Z|[ZV]X)|Orbit M20|Orbit Y(?:2[10]|12|[57]0)|XANON X[29]0|NEXG N(?:7[0-4]|2[56]|[689])|LT750",
  pat! "(?i)Walpad[ _]?([^;/)]+)(?: Build|[);])",
  pat! "(?i)Primo H8 Pro(?:[);/ ]|$)",
  pat! "(?i)Primo (RM2|ZX2|NX4|X2) ?mini(?:[);/ ]|$)",
  pat! "(?i)Primo H8(?:[);/ ]|$)",
  pat! "(?i)RX7 Mini(?:[);/ ]|$)",
  pat! "(?i)Orbit Y(\\d{2})",
  pat! "(?i)Orbit M(\\d{2})",
  pat! "(?i)NEXG N(7[0-4]|2[56]|[689])",
  pat! "(?i)(LT750)",
  pat! "(?i)Primo[ _]([^;/)]+)[ _]Plus(?: Build|[;)])",
  pat! "(?i)Primo[ _]([^;/)]+)(?: Build|[;)])",
  pat! "(?i)Walton[ _]([^;/)]+)(?: Build|[;)])",
  pat! "(?i)Waltter NEO 10\\.1",
  pat! "(?i)V10(?:[);/ ]|$)",
  pat! "(?i)PRO 8475(?:[);/ ]|$)",
  pat! "(?i)(WM1001)(?:[);/ ]|$)",
  pat! "(?i)(?:C81W_EEA|P16W|F21W)(?:[);/ ]|$)",
  pat! "(?i)(P16W|C81W|F21W)(?:_EEA)?",
  pat! "(?i)(?:20200808A1)(?:[);/ ]|$)",
  pat! "(?i)weplus_3|WEIMEI_NEON2",
  pat! "(?i)WELLCOM[ _\\-/]([a-z0-9]+)",
  pat! "(?i)Westerndigital|WDSimpleBrowser",
  pat! "(?i)(65WS3205)(?:[);/ ]|$)",
  pat! "(?i)WESTPOINT[;,]",
  pat! "(?i)(TETS-4919SM)",
  pat! "(?i)Wexler|(?:MOBI 7 LTE|ULTIMA 7 TWIST PLUS|ULTIMA 7|ULTIMA [78] TWIST|TAB10iQ3G|TAB[ _]10Q)(?:[);/ ]|$)|ZEN[ _](?:4\\.[57]|5)",
  pat! "(?i)(?:Wexler[ _.-])?ZEN[ _]4\\.5(?:[);/ ]|$)",
  pat! "(?i)(?:Wexler[ _.-])?ZEN[ _]4\\.7(?:[);/ ]|$)",
  pat! "(?i)(?:Wexler[ _.-])?ZEN[ _]5(?:[);/ ]|$)",
  pat! "(?i)ZEN[ _]5\\+(?:[);/ ]|$)",
  pat! "(?i)(?:Wexler[._-])?TAB[ _]?10Q(?:[);/ ]|$)",
  pat! "(?i)TAB10iQ3G(?:[);/ ]|$)",
  pat! "(?i)Wexler[ _.-]([^;/]+) Build",
  pat! "(?i)Wexler[ _.-]([^);/]+)(?:[);/ ]|$)",
  pat! "(?i)(ULTIMA 7 TWIST PLUS|ULTIMA [78] TWIST|ULTIMA 7 OCTA|ULTIMA 7|MOBI 7 LTE)(?:[);/ ]|$)",
  pat! "(?i)(TAB-8US2|TAB-10US)(?:[);/ ]|$)",
  pat! "(?i)Wieppo (S6 Lite|S[658]|E1)(?:[);/ ]|$)",
  pat! "(?i)(?:Wigor (?:V4))(?:[);/ ]|$)|Android 7(?:[\\d.]*);(?: [\\w-]+;)? V3(?: Build|[;)])",
  pat! "(?i)Wigor (V4)(?:[);/ ]|$)",
  pat! "(?i)(V3)(?: Build|[;)])",
  pat! "(?i)(?:WIKO[_ -])|(?:WIKO-)?CINK_[a-z0-9_]+|(?:WIKO-)?HIGHWAY_[a-z0-9_]+|(?:WIKO-)?(?:Cink([^/;]*)|Highway([^/;]*)|Iggy|Stairway|Rainbow ?(Jam|Lite|Up)?|Darkside|Darkmoon|Darkfull|Darknight|Freddy|FEVER|Jerry[2]?|Sublim|Ozzy|JIMMY|Barry|Birdy|Bloom|Getaway|Goa|Kite|Robby|Lenny[2-9]?|Slide2?|Sunset[2-9]?|Sunny[2-9]?|Tommy[2-9]?|PULP(?: Fab)?|Wax|HARRY|Ridge(?: Fab)?|U FEEL(?: Prime| Lite)?|U PULSE(?: LITE)?|View2 (?:Go|Plus)|View XL|View Prime)(?: Plus)?(?: 4G)?(?: Build|$)?|W_(?:C8[06]0|K[346]00|P130|P200|C200SN)|WC300|W-(?:V7[23]0|V745|V755|V8[035]0|P[36]11|K130|K211|K3[68]0|K420|K510S?|K521|K560|K610|K630)-(?:BYT|EEA|FRA|OPE|SU[IN]|SWI|TIM|TRU|TMV|TVM|DU|T[HV]|ID)|WIM Lite|W-V851|W-V6[08]0|W-V750BN|W-V770|W-K200|W-U300|(?:U307AS|CINK PEAX 2|HIGHWAY PURE|C210AE|v3913|U614AS|V3991AN|v12fnlite|K-KOOL|p6901|U616AT|VHEM|KENNY|View Go| WIM|SHR-AN00|JLG-AN00|Aix-AN00|BAL-AN20|MKY-AN20|GAR-AN[06]0)(?:[);/ ]|$)",
  pat! "(?i)(?:WIKO-)?W-V770",
  pat! "(?i)(?:WIKO-)?VHEM",
  pat! "(?i)(?:WIKO-)?U616AT",
  pat! "(?i)(?:WIKO-)?W-V745",
  pat! "(?i)(?:WIKO-)?W-V750",
  pat! "(?i)(?:WIKO-)?W-V755-EEA",
  pat! "(?i)(?:WIKO-)?Cink Peax 2",
  pat! "(?i)(?:Wiko-)?Cink([^/;]*) Build",
  pat! "(?i)(?:WIKO-)?CINK_([a-z0-9_]+)",
  pat! "(?i)(?:WIKO-)?HIGHWAY PURE",
  pat! "(?i)(?:WIKO-)?HIGHWAY STAR",
  pat! "(?i)(?:Wiko-)?Highway([^/;]*) Build",
  pat! "(?i)(?:WIKO-)?HIGHWAY_([a-z0-9_]+)",
  pat! "(?i)(?:WIKO-)?Iggy",
  pat! "(?i)(?:WIKO-)?FEVER",
  pat! "(?i)(?:WIKO-)?Stairway",
  pat! "(?i)(?:WIKO-)?Ridge Fab 4G",
  pat! "(?i)(?:WIKO-)?Ridge 4G",
  pat! "(?i)(?:WIKO-)?Ridge",
  pat! "(?i)(?:WIKO-)?Rainbow ([^/;]+) Build",
  pat! "(?i)(?:WIKO-)?Rainbow",
  pat! "(?i)(?:WIKO-)?Darkside",
  pat! "(?i)(?:WIKO-)?Darkmoon",
  pat! "(?i)(?:WIKO-)?Darkfull",
  pat! "(?i)(?:WIKO-)?Darknight",
  pat! "(?i)(?:WIKO-)?Sublim",
  pat! "(?i)(?:WIKO-)?Ozzy",
  pat! "(?i)(?:WIKO-)?Barry",
  pat! "(?i)(?:WIKO-)?Birdy",
  pat! "(?i)(?:WIKO-)?Bloom2",
  pat! "(?i)(?:WIKO-)?Bloom",
  pat! "(?i)(?:WIKO-)?JIMMY",
  pat! "(?i)(?:WIKO-)?Jerry2",
  pat! "(?i)(?:WIKO-)?Jerry",
  pat! "(?i)(?:WIKO-)?Getaway",
  pat! "(?i)(?:WIKO-)?KENNY",
  pat! "(?i)(?:WIKO-)?Goa",
  pat! "(?i)(?:WIKO-)?Freddy",
  pat! "(?i)(?:WIKO-)?Kite",
  pat! "(?i)C210AE(?:[);/ ]|$)",
  pat! "(?i)U307AS(?:[);/ ]|$)",
  pat! "(?i)U316AT(?:[);/ ]|$)",
  pat! "(?i)v3913(?:[);/ ]|$)",
  pat! "(?i)(?:WIKO-)?Lenny[ -_]?3 Max",
  pat! "(?i)(?:WIKO-)?Lenny[ -_]?4 Plus",
  pat! "(?i)(?:WIKO-)?Lenny[ -_]?([2-9])",
  pat! "(?i)(?:WIKO-)?Lenny",
  pat! "(?i)(?:WIKO-)?Slide2",
  pat! "(?i)(?:WIKO-)?Slide",
  pat! "(?i)(?:WIKO-)?Sunset2",
  pat! "(?i)(?:WIKO-)?Sunset",
  pat! "(?i)(?:WIKO-)?Sunny3 Mini",
  pat! "(?i)(?:WIKO-)?Sunny3",
  pat! "(?i)(?:WIKO-)?Sunny2 Plus",
  pat! "(?i)(?:WIKO-)?Sunny2",
  pat! "(?i)W-K211-(?:TH|TVM)",
  pat! "(?i)(?:WIKO-)?Sunny",
  pat! "(?i)(?:W_K600|Tommy3|W_C200SN)",
  pat! "(?i)(?:WIKO-)?Tommy2 Plus",
  pat! "(?i)(?:WIKO-)?Tommy2",
  pat! "(?i)(?:WIKO-)?Tommy",
  pat! "(?i)(?:WIKO-)?Wax",
  pat! "(?i)(?:WIKO-)?HARRY",
  pat! "(?i)(?:WIKO-)?WIM Lite|p6901",
  pat! "(?i)(?:WIKO-)?WIM",
  pat! "(?i)(?:WIKO-)?Pulp Fab 4G",
  pat! "(?i)(?:WIKO-)?Pulp Fab",
  pat! "(?i)(?:WIKO-)?Pulp 4G",
  pat! "(?i)(?:WIKO-)?Pulp",
  pat! "(?i)(?:WIKO-)?Robby(2)?",
  pat! "(?i)(?:WIKO-)?U PULSE LITE",
  pat! "(?i)(?:WIKO-)?U PULSE",
  pat! "(?i)(?:WIKO-)?U FEEL LITE",
  pat! "(?i)(?:WIKO-)?U FEEL PRIME",
  pat! "(?i)(?:WIKO-)?U FEEL",
  pat! "(?i)(?:WIKO-)?View2 Go",
  pat! "(?i)(?:WIKO-)?View2 Plus",
  pat! "(?i)(?:WIKO-)?View XL",
  pat! "(?i)(?:WIKO-)?View Prime",
  pat! "(?i)W_P130|View Go",
  pat! "(?i)W-V800-(TVM|TIM|EEA|OPE|DU)",
  pat! "(?i)W-K130-(?:OPE|EEA|BYT)",
  pat! "(?i)W-K510-(?:TVM|EEA|OPE|SUN|BYT|TH)|W-K510S-SWI",
  pat! "(?i)W-K560-(?:EEA|TVM)",
  pat! "(?i)W-K610-(?:SUI|FRA)",
  pat! "(?i)W-V720-(?:EEA|OPE|SUN)",
  pat! "(?i)W-P311-(?:EEA|OPE|TVM)",
  pat! "(?i)W-P611-(?:EEA|OPE)",
  pat! "(?i)W-V830-(?:EEA|OPE|ID)",
  pat! "(?i)W-V730-(?:EEA|TVM|ID|OPE)",
  pat! "(?i)W-U300(?:[);/ ]|$)",
  pat! "(?i)U520AS(?:[);/ ]|$)",
  pat! "(?i)U614AS(?:[);/ ]|$)",
  pat! "(?i)K-KOOL(?:[);/ ]|$)",
  pat! "(?i)Wiko ([^/;)]+)(?: Build|[;)])",
  pat! "(?i)(42QWS9001|32QWS9002)(?:[);/ ]|$)",
  pat! "(?i)Wileyfox|(?:Swift 2|crackling)(?:[);/ ]|$)",
  pat! "(?i)Wileyfox Spark \\+",
  pat! "(?i)Wileyfox; Pro",
  pat! "(?i)Swift 2 (X|Plus)(?:[);/ ]|$)",
  pat! "(?i)Swift 2(?:[);/ ]|$)",
  pat! "(?i)Wileyfox (Spark|Swift)",
  pat! "(?i)Wileyfox ([^/)]+)(?: Build|[);])",
  pat! "(?i)(?:NOTE GRACE V)(?:[);/ ]|$)",
  pat! "(?i)Wink[_ ]|SWITRON-i12A|WinkBox (?:[23]|Mini)",
  pat! "(?i)WinkBox ([23])",
  pat! "(?i)Wink[_ ]((?:Glory|World|Share|City)(?:[_ ](?:SE|S))?)(?:[);/ ]|$)",
  pat! "(?i)Wink[ _](Primo|Highway)(?:[);/ ]|$)",
  pat! "(?i)(?:Winmax[ _](?:XC14|XC[46]|TX30)|PolarH4|Tiger_X12)(?:[);/ ]|$)|MAUI.+Winmax_BD45",
  pat! "(?i)Winmax[ _](XC14|XC[46])(?:[);/ ]|$)",
  pat! "(?i)Winmax[ _](TX30)(?:[);/ ]|$)",
  pat! "(?i)MAUI.+Winmax_(BD45)",
  pat! "(?i)Winnovo|(?:T10LTE|H(?:7|10)_US)(?:[);/ ]|$)",
  pat! "(?i)T10LTE(?:[);/ ]|$)",
  pat! "(?i)H(7|10)_US(?:[);/ ]|$)",
  pat! "(?i)Winnovo[ _]?(M866|M798|VTab|750[PK]|T2)(?:[);/ ]|$)",
  pat! "(?i)Winnovo[ _](V51)",
  pat! "(?i)Winnovo[ _](K5[46]|K43)[a-z]{2}",
  pat! "(?i)Winstar S-?5",
  pat! "(?i)Winstar S-?5",
  pat! "(?i)(WISENET5|WPOS-3)(?:[);/ ]|$)",
  pat! "(?i)WIZARPOS[ _]([^/;)]+)(?: Build|[);])",
  pat! "(?i)miSmart|miTab|WIAM[ _]\\#?\\d+|WOLDER",
  pat! "(?i)WIAM[_ ]\\#?65[_ ]lite",
  pat! "(?i)(?:WOLDER_)?WIAM[ _]\\#?(\\d+)",
  pat! "(?i)WOLDER[_ ](\\d+)",
  pat! "(?i)miSmart[ \\-_]?([^/]+) Build",
  pat! "(?i)miTab[_ ]PRO[_ ]10[_ ]plus",
  pat! "(?i)miTab[ \\-_]?([^/)]+)(?: Build|[;)])",
  pat! "(?i)AT[ _-]AS([0-9A-Z]+)(?:[);/ ]|$)",
  pat! "(?i)(?:W55SE|W626 LITE|WS054|WS067|WS5SE|WS626)(?:[);/ ]|$)",
  pat! "(?i)Wonu ([a-z0-9]+)",
  pat! "(?i)SP5026i-Scorpio|SP5040-Casiopea",
  pat! "(?i)Woxter[ _]|Nimbus 101Q",
  pat! "(?i)Nimbus ?(101Q|115|1100RX)(?:[);/ ]|$)",
  pat! "(?i)WOXTER[ _]I-101(?:[);/ ]|$)",
  pat! "(?i)Woxter[ _]([SQ]X) ?([0-9A-Z]+)(?:[);/ ]|$)",
  pat! "(?i)Woxter[_ ](?:Zielo[ _])?(Q27|Z800|Z420)(?:[);/ ]|$)",
  pat! "(?i)Woxter[ _]([^/;)]+)(?: Build|\\))",
  pat! "(?i)G1LITE(?:[);/ ]|$)",
  pat! "(?i)X[-]?BO (V[78]|V1[01]|V[89]\\+)(?:[);/ ]|$)",
  pat! "(?i)XMOBILE|(?:XM-SW1|X63Pro)(?:[);/ ]|$)",
  pat! "(?i)(?:XMOBILE) X7(?:[);/ ]|$)",
  pat! "(?i)X[-_]TIGI|Hope(?:[78]|10)[_ ](?:Mate|Max|Pro|Plus|LTE)|JOY(?:10|8) Mate|JOY10_LTE|Photo_P15_Lite|SHARP_2|SHARP1|V18 pro_A|Bison1",
  pat! "(?i)X[_ ]TIGI[_ ]JOY7_TV",
  pat! "(?i)(?:X_TIGI_)?JOY(10|[78])[ _]Mate",
  pat! "(?i)Hope([78])[_ ](Mate|Max)"]

/-- `__dr_re`, from item 10750 on (device_repo.go:29086-29335). -/
def drRe_43 : List (List Chunk) := [
  pat! "(?i)Hope ?8 LTE",
  pat! "(?i)Hope10[_ ]Pro",
  pat! "(?i)Hope10[_ ]Plus",
  pat! "(?i)X-TIGI[_ ]V28[_ ]LTE",
  pat! "(?i)X[-_]TIGI[_ ]V19",
  pat! "(?i)X[-_]TIGI[_ ]A1[_ ]?Plus",
  pat! "(?i)X-TIGI[_ ]Photo[_ ]P11",
  pat! "(?i)SHARP_?([12])",
  pat! "(?i)X[-_]TIGI[ _-]([^/;)]+)(?: Build|[;)])",
  pat! "(?i)X-View|(?:ZEN_U5\\+|AMBER_KIDS|Proton_(?:Amber_HD|Neon|JADE_2_PRO)|TitaniumGTColorsGO|FTB13)(?:[);/ ]|$)",
  pat! "(?i)ZEN_U5\\+",
  pat! "(?i)(FTB13)",
  pat! "(?i)(?:X96Air_(?:A100|100W|V2|P[1-3])|X96_X6_I|X96Max_Plus_?(?:Ultra|[25]|Q[12])?|X96MATE_PLUS|X96MINI_11)(?:[);/ ]|$)",
  pat! "(?i)X96Air_(100W|A100|V2|P[1-3])",
  pat! "(?i)X96Max_Plus_?([25]|Q[12])",
  pat! "(?i)X96Q(?:[);/ ]|$)",
  pat! "(?i)(XB-T11i)(?:[);/ ]|$)",
  pat! "(?i)XCOM[ _](?:X520|ISMART)(?:[);/ ]|$)",
  pat! "(?i)XCOM[ _](X520)",
  pat! "(?i)XCOM[ _]ISMART",
  pat! "(?i)(V1277)(?:[);/ ]|$)",
  pat! "(?i)XGEM[;,]",
  pat! "(?i)XGEM[;,] ?([a-z0-9]+)(?:[);/ ]|$)",
  pat! "(?i)(?:XGIMI TV|XK03H|MoGo Pro)(?:[);/ ]|$)",
  pat! "(?i)(?:MagicDrawingPad)(?:[);/ ]|$)",
  pat! "(?i)(?:X4000)(?:[);/ ]|$)",
  pat! "(?i)(YT5760[ABL]|YT5716C?|YT7216C?|YT7260[BL]|YT9216[BC]J|YT9213AJ|YT9270)(?:[);/ ]|$)",
  pat! "(?i)(Enia)(?:[);/ ]|$)",
  pat! "(?i)(XDSR785HDR_AVANT)(?:[);/ ]|$)",
  pat! "(?i)XGODY|(?:Y19\\(EU\\)|XGT_EEA|N01Pro| N02)(?:[);/ ]|$)",
  pat! "(?i)XGODY Y17(?:[);/ ]|$)",
  pat! "(?i)Y19\\(EU\\)",
  pat! "(?i) N02(?:[);/ ]|$)",
  pat! "(?i)XGODY_X96(?:[);/ ]|$)",
  pat! "(?i)(XDH-(?:0F-A1|1[78]-A1|21-A1|29-B1|2A-B1)|XD-SDD05-2101)(?:[);/ ]|$)",
  pat! "(?i)(LA2-(?:L|S[N]?)|HLA Note(?:3|1-L)|L7620DE|20190416Q|20170608S|20180322D|20190325D|20190718Q|20190417Q|20180101M|20170605Q)(?:[);/ ]|$)",
  pat! "(?i)HLA Note3(?:[);/ ]|$)",
  pat! "(?i)HLA Note1-L(?:[);/ ]|$)",
  pat! "(?i)(LA2-(?:L|S[N]?))(?:[);/ ]|$)",
  pat! "(?i)(20190416Q|L7620DE|20180101M|20170605Q)(?:[);/ ]|$)",
  pat! "(?i)20170608S(?:[);/ ]|$)",
  pat! "(?i)20180322D(?:[);/ ]|$)",
  pat! "(?i)20190325D(?:[);/ ]|$)",
  pat! "(?i)20190718Q(?:[);/ ]|$)",
  pat! "(?i)20190417Q(?:[);/ ]|$)",
  pat! "(?i)Xiaomi| ONC(?: Build|[;)])|MiTV-\\w|Mi9 ?(?:Lite|SE)|MiProj(?:A1|M05)|Mi9 Pro 5G|(?:Mi5X|MI [a-z0-9]+|Mi-4c|MI-One[ _]?[a-z0-9]+|MIX(?: 2S?)?|MIX 2S ART|pomelo|rubyplus|AFTBTX4)(?:[);/ ]|$)|HM (?:[^/;]+) (?:Build|MIUI)|(?:2014501|2014011|201481[12378]|201302[23]|2013061) Build|Redmi|POCOPHONE|(?:SHARK )?KTUS-[AH]0|(?:SHARK )?(KLE|KSR|MBU|PAR)-[AH]0|SK[RW]-[AH]0|PRS-[AH]0|POCO F1|DLT-[AH]0|MIBOX[234]([_ ]PRO)?|MiTV4[ACSX]?|AWM-A0|MI CC 9 Meitu Edition|MiBOX1S|M2006J10C|M2006C3(?:L[IGC]|LVG|MN?G|MT)|M2007J1(?:7[CGI]|SC)|M2002(?:J9[SEG]|F4LG)|HM2014819|WT88047|210611(?:8C|19(?:BI|[AD]G|AL))|M2001(?:J[12]G|J2I|C3K3I)|M2004J1(?:5SC|9AG)|M2004J(?:7[AB]|19)[CG]|M2012K11(?:[CGI]|A[CI])|M2011K2[CG]|M2011J18C|M2006C3[ML]II|M2003J(?:15SC|15SS|6B2G|6A1G|6[AB]1I)|M2007J3S[ICYGP]|M2007J22[CG]|M2103K19[CGYI]|M2101K(?:[79]AG|7AI|7B[GI]|6[GIRP]|7BNY|9[GCR])|M2010J19S[CGYIL]|M2102(?:K1AC|K1[CG]|J2SC)|HM NOTE 1(?:LTE|W)|MI[_ ]PLAY|Qin 1s\\+|Qin ?2(?: Pro)?|MI_(NOTE_Pro|5X|4i|(?:A2|8)_Lite)|A001XM|lancelot|XIG0[1-57]|2107119DC|M1810(?:F6LI|F6[GI])|M2101K(?:7BL|9AI)|A101XM|M2012K10C|M2104K10AC|M19(?:01F7[1S]|10F4S|08(?:F1XE|C3JGG)|08C3J[IH]|06F9S[IH]|02F1G|03C3GI)|21051182[CG]|21081111RG|2109119D[GI]|21091116(?:AI|[AU]?C|i|U[GI])|220111(?:7T[LGIY]|19TI|19UY|6S[IRC]|6TG|[67]SG|7SL)|21121(?:119S[CG]|23A[CG]|119VL|210C)|2204121(?:6[CI]|6UC|9[CGI]|9NY|1AC)|220333Q(?:AG|NY|L|BI)|2107113S[IGR]|22031(?:29G|116BG|21C)|PAR-H0|M2105K81A?C|2109119BC|2202(?:1119KR|1211RC|33L2[CGI])|22011(?:2[23][CG]|211C|16TI|17S[YI])|joyeuse|galahad|hydrogen|begonia|kenzo|willow|beryllium|rosemary|biloba| MD(?:G1|E5)|KLE-AO|Mi ?Pad ?\\d|220612(?:18C|[23]SC)|2207(?:12(?:2MC|12AG|19AI)|33S(?:F?G|[ILH])|43FI)|2208(?:7RA4DI|1212(?:U?G|[CR])|128(?:1AC|3[GC]))|Black Shark|MZB82(?:98|5[57])IN|MZB0A5[HE]IN|2210(?:1317C|1320C|1316(?:U[PG]|UCP?|[CIG])|1(?:29SG|32[CG]))|2211(?:13(?:3[CG]|17I)|1317G)|23013RK75C|2305(?:3RN02[AYLI]|4RA19C)|2209(?:5RA98C|116AG|129SC)|2212(?:0RN86[CGIH]|6RN91Y|ARNC4L|2RK93C|7RK46C)|2302(?:6RN54G|1RAA(?:EI|EG|2[YG])|7RAD4I|8R(?:N4D[GI]|A60L|NCA[GI]))|angelican|vnd_camellia|2304(?:9RAD8C|FPN6D[GC]|6RP50C|3RP34[CGI]|6PNC9C)|2303(?:0RAC7Y|CRA44A|ERA42L)|M1908C3(?:[KJI]G|KH|I[CH])|M1906G7G|M1901F7G|M1903(?:F10I|C3GG|C3E[IG])|M1904F3BG|Hongmi [45]A?|M1912G7B[CE]|2307(?:7RABDC|6RN4BI|6RA4BR|6RN8DY|8PND5G|8RKD5C|6RA4BC|3RPBF[GCL]|BRPDCC)|2310(?:6RN0DA|8RN04Y)|2312(?:CRNCCL|DRA50G|9RAA4G|9RA5FL|9RN51[HX]|CRAD3C|DRAAB[CGI]|7PN0C[CG]|DRA50[CI]|4RA7EO|4RN87[CIG])|2311(?:6PN5B[CG]|BPN23C|7RA68G|DRN14I|7RK66C|FRAFDC|DRK48C|3RKC6C)|2308(?:CPXD0C|8PND5R)|24018RPAC[CG]|2404(?:ARN45A|8RN6C[GI]|0RN64Y|4RN32L|9RN28L)|2405(?:3PY09[CI]|CRPFD[CGL]|CPX3D[CG])|2306EPN60G|23090(?:RA98[CGI])|23100RN82L|2406(?:9RA21C|ERN9C[IC]|APNFAG)|2403(?:1PN0DC|0PN60G)|QIN3ULTRA|FengMiProjA2|A401XM|MZB8458IN|M1805E10A|M1803D5XA|2407(?:6RP19[GI]|FPN8E[GR]|2PX77C|FRK8EC|4RPD2[GI]|5RP89G)|2410CRP4C[CGI]|2411(?:DRN47[CI]|6RACCG|6RNC1I|5RA8E[CGI]|7RK2CC|7RN76[OLEG])|A201XM|2409(?:0RA29[CGI]|BRN2C[ACILGY]|4RAD4[CIG]|1RPAD[CG])| Mi8|MDE40|A301XM|2410DPN6CC|2412(?:9PN74[CGI]|9RT7CC|7RK2CC|2RKC7C)|2501(?:0PN30[CGI]|9PNF3C)|2502(?:8RN03[ALIY]|FRA65G)|2504(?:2PN24C|0RP0A[EG])|2505(3RT47C|DRP06[EGI])|2506(?:7PYE3C|0RK16C|BPN68G|9PTEBG|2RN2D[AELY])|25078RA3E[AEYL]|2508(?:CRN2BE|0RABDC)|2509(?:8PN5AC|FPN0BC|9RP13G|BRP2DG)|25113PN0EC|25104RADAC",
  pat! "(?i)SKR-[AH]0",
  pat! "(?i)SKW-[AH]0",
  pat! "(?i)DLT-[AH]0",
  pat! "(?i)(?:SHARK )?KLE-A[0O]",
  pat! "(?i)(?:SHARK )?KSR-[AH]0",
  pat! "(?i)(?:SHARK )?KLE-H0",
  pat! "(?i)(?:SHARK )?MBU-H0",
  pat! "(?i)(?:SHARK )?MBU-A0",
  pat! "(?i)(?:SHARK )?PRS-[AH]0",
  pat! "(?i)(?:SHARK )?PAR-[AH]0",
  pat! "(?i)(?:SHARK )?KTUS-[AH]0",
  pat! "(?i)Black Shark ([^/);]+)(?: Build|[;)])",
  pat! "(?i)Xiaomi_2014501|2014501 Build",
  pat! "(?i)Xiaomi_2014011|2014011 Build",
  pat! "(?i)Xiaomi_201302[23]|201302[23] Build",
  pat! "(?i)Xiaomi[_-]2014818|2014818 Build",
  pat! "(?i)Xiaomi_2014817|2014817 Build",
  pat! "(?i)Xiaomi[_-]201481[123]|201481[123] Build",
  pat! "(?i)Hongmi ([45]A?)",
  pat! "(?i)MI[_ ]PLAY(?:[);/ ]|$)",
  pat! "(?i)Mi ?9 ?SE(?:[);/ ]|$)",
  pat! "(?i)(?:Mi ?9 Lite|M1904F3BG)(?:[);/ ]|$)",
  pat! "(?i)(?:Xiaomi_)?M1902F1[GT]",
  pat! "(?i)MI CC 9e|MI CC9e",
  pat! "(?i)MI CC ?9 Pro",
  pat! "(?i)MI CC 9(?: Meitu Edition)?(?:[);/ ]|$)",
  pat! "(?i)(?:Xiaomi_)?(?:M2001J2E_TD-LTE|M2001J2[GI])(?:[);/ ]|$)",
  pat! "(?i)(?:Xiaomi_)?(?:Mi 10 Pro|M2001J1[EG](?:_TD-LTE)?)(?:[);/ ]|$)",
  pat! "(?i)M2011K2[CG](?:[);/ ]|$)",
  pat! "(?i)21091116UI(?:[);/ ]|$)",
  pat! "(?i)M2012K11AI(?:[);/ ]|$)",
  pat! "(?i)(?:M2012K11I|Mi 11X Pro)(?:[);/ ]|$)",
  pat! "(?i)M2007J3S[GI](?:[);/ ]|$)",
  pat! "(?i)M2007J17G(?:[);/ ]|$)",
  pat! "(?i)M2007J3S[CYP](?:[);/ ]|$)",
  pat! "(?i)M2007J1SC(?:[);/ ]|$)",
  pat! "(?i)M2102J2SC(?:[);/ ]|$)",
  pat! "(?i)(?:M2002J9[EGS]|XIG01|Mi 10 Lite 5G)(?:[);/ ]|$)",
  pat! "(?i)M2007J17I(?:[);/ ]|$)",
  pat! "(?i)(?:M2012K11G|MZB0A5EIN)(?:[);/ ]|$)",
  pat! "(?i)(?:2107113S[IGR]|Xiaomi 11T Pro)(?:[);/ ]|$)",
  pat! "(?i)(?:21081111RG|Xiaomi 11T)(?:[);/ ]|$)",
  pat! "(?i)(?:2109119DI|(?:Xiao)?mi 11 Lite (?:5G )?NE)(?:[);/ ]|$)",
  pat! "(?i)(?:M2101K9[GCR]|2109119DG|Mi 11 Lite 5G)(?:[);/ ]|$)",
  pat! "(?i)(?:M2101K9A[GI]|Mi 11 Lite)(?:[);/ ]|$)",
  pat! "(?i)M2102K1[CG](?:[);/ ]|$)",
  pat! "(?i)(?:M2102K1AC|Mi 11 Pro)(?:[);/ ]|$)",
  pat! "(?i)2201122[CG](?:[);/ ]|$)",
  pat! "(?i)2201123[CG](?:[);/ ]|$)",
  pat! "(?i)2209116AG(?:[);/ ]|$)",
  pat! "(?i)22071212AG(?:[);/ ]|$)",
  pat! "(?i)(?:2207122MC|Xiaomi 12 Pro Dimensity)(?:[);/ ]|$)",
  pat! "(?i)(?:22081212(?:U?G|[CR])|Xiaomi 12T Pro|A201XM)(?:[);/ ]|$)",
  pat! "(?i)(?:2206122SC|Xiaomi 12S Pro)(?:[);/ ]|$)",
  pat! "(?i)(?:2206123SC)(?:[);/ ]|$)",
  pat! "(?i)(?:2203121C|Xiaomi 12S Ultra)(?:[);/ ]|$)",
  pat! "(?i)2203129G(?:[);/ ]|$)",
  pat! "(?i)(?:2112123A[CG]|Xiaomi 12X)(?:[);/ ]|$)",
  pat! "(?i)2210132[CG](?:[);/ ]|$)",
  pat! "(?i)(?:2210129SG|Xiaomi 13 Lite)(?:[);/ ]|$)",
  pat! "(?i)2211133[CG](?:[);/ ]|$)|Xiaomi 13(?: Build|[;)])",
  pat! "(?i)(?:2304FPN6D[CG]|Xiaomi 13 Ultra)(?:[);/ ]|$)",
  pat! "(?i)(?:23078PND5G|23088PND5R|Xiaomi 13T Pro|A301XM)(?:[);/ ]|$)",
  pat! "(?i)(?:2306EPN60G|XIG04)(?:[);/ ]|$)",
  pat! "(?i)23127PN0C[CG](?:[);/ ]|$)",
  pat! "(?i)(?:24031PN0DC|24030PN60G|Xiaomi 14 Ultra)(?:[);/ ]|$)",
  pat! "(?i)24053PY09I(?:[);/ ]|$)",
  pat! "(?i)(?:23116PN5B[CG]|Xiaomi 14 Pro)(?:[);/ ]|$)",
  pat! "(?i)(?:2311BPN23C)(?:[);/ ]|$)",
  pat! "(?i)(2407FPN8E[GR]|2406APNFAG|Xiaomi 14T Pro)(?:[);/ ]|$)",
  pat! "(?i)XIG07(?:[);/ ]|$)",
  pat! "(?i)2410DPN6CC|Xiaomi15 Pro",
  pat! "(?i)24129PN74[CGI]",
  pat! "(?i)2501(?:0PN30[CGI]|9PNF3C)",
  pat! "(?i)MI[ _]8[ _]?Lite(?:[);/ ]|$)",
  pat! "(?i)MI 8 Explorer Edition(?:[);/ ]|$)",
  pat! "(?i)MI ?8 ?([a-z]+)(?:[);/ ]|$)",
  pat! "(?i)Mi ?8(?:[);/ ]|$)",
  pat! "(?i)Mi 9T Pro(?:[);/ ]|$)",
  pat! "(?i)(?:Mi ?9 Pro 5G|M1908F1XE)(?:[);/ ]|$)",
  pat! "(?i)MI 9 Transparent Edition(?:[);/ ]|$)",
  pat! "(?i)MI ([89]) Lite(?:[);/ ]|$)",
  pat! "(?i)MI 5s Plus(?:[);/ ]|$)",
  pat! "(?i)Xiaomi_MDT2|Mi5X(?:[);/ ]|$)",
  pat! "(?i)Xiaomi_2013061|2013061 Build",
  pat! "(?i)Mi[- ]([43])c(?:[);/ ]|$)",
  pat! "(?i)MI 4W(?:[);/ ]|$)",
  pat! "(?i)Mi_4i(?:[);/ ]|$)",
  pat! "(?i)MI 4 ?LTE(?:[);/ ]|$)",
  pat! "(?i)MI MAX ([23])(?:[);/ ]|$)",
  pat! "(?i)(?:MI MAX|hydrogen)(?:[);/ ]|$)",
  pat! "(?i)MDE40(?:[);/ ]|$)",
  pat! "(?i)Mi[ _]A2[ _]Lite(?:[);/ ]|$)",
  pat! "(?i)M1906F9S[IH](?:[);/ ]|$)",
  pat! "(?i)2106118C(?:[);/ ]|$)",
  pat! "(?i)MDE5(?:[);/ ]|$)",
  pat! "(?i)M1803D5XA(?:[);/ ]|$)",
  pat! "(?i)Mi MIX 3 5G(?:[);/ ]|$)",
  pat! "(?i)MIX ([23])(?:[);/ ]|$)",
  pat! "(?i)MIX 2S ART(?:[);/ ]|$)",
  pat! "(?i)MIX 2S(?:[);/ ]|$)",
  pat! "(?i)MIX(?:[);/ ]|$)",
  pat! "(?i)2405CPX3D[CG]",
  pat! "(?i)24072PX77C(?:[);/ ]|$)",
  pat! "(?i)Mi Note 3(?:[);/ ]|$)",
  pat! "(?i)POCOPHONE[ _]F1|POCO F1|beryllium|M1805E10A",
  pat! "(?i)M1903C3G[IG]",
  pat! "(?i)24069RA21C|Redmi Turbo 3",
  pat! "(?i)MDG1(?:[);/ ]|$)",
  pat! "(?i)WT88047(?:[);/ ]|$)",
  pat! "(?i)HM2014819(?:[);/ ]|$)",
  pat! "(?i)HM 2A(?:[);/ ]|$)",
  pat! "(?i)HM 1S[CW]?(?:[);/ ]|$)",
  pat! "(?i)HM 1(?:[);/ ]|$)",
  pat! "(?i)(?:M2001C3K3I|MZB8298IN|M1908C3K[GH]|MZB8458IN)(?:[);/ ]|$)",
  pat! "(?i)(?:MZB825[57]IN|M1908C3I[CG]|M1908C3IH)(?:[);/ ]|$)",
  pat! "(?i)Redmi 8A (Dual|Pro)(?:[);/ ]|$)",
  pat! "(?i)(?:M2004J7AC|M2004J15SC|Redmi 10X (?:4G|LTE))(?:[);/ ]|$)",
  pat! "(?i)220333Q(?:AG|NY|L)(?:[);/ ]|$)",
  pat! "(?i)(?:2310(?:6RN0DA|8RN04Y|0RN82L)|2311DRN14I)(?:[);/ ]|$)",
  pat! "(?i)2404(?:ARN45A|0RN64Y|9RN28L)",
  pat! "(?i)23124RN87[CIG]",
  pat! "(?i)2409BRN2C[ACILY]",
  pat! "(?i)25078RA3E[AEYL]",
  pat! "(?i)25062RN2D[AELY]",
  pat! "(?i)(?:M2004J19[CG]|M2006C3MII|lancelot|galahad|M2004J19AG)(?:[);/ ]|$)",
  pat! "(?i)(?:M2004J19I|Redmi 9 Prime)(?:[);/ ]|$)",
  pat! "(?i)(?:M2010J19S[IL]|Redmi 9 Power)(?:[);/ ]|$)",
  pat! "(?i)M2006C3L[GCI](?:[);/ ]|$)",
  pat! "(?i)M2006C3LII(?:[);/ ]|$)",
  pat! "(?i)MZB0A5HIN(?:[);/ ]|$)",
  pat! "(?i)M2006C3M[GT](?:[);/ ]|$)",
  pat! "(?i)M2006C3LVG(?:[);/ ]|$)",
  pat! "(?i)(?:M2010J19S[GY]|pomelo|Redmi 9T, Note 9 4G, 9 Power)(?:[);/ ]|$)",
  pat! "(?i)Redmi 9T NFC(?:_SN)?(?:[);/ ]|$)",
  pat! "(?i)(?:M2006C3MNG|Redmi 9C NFC|angelican)(?:[);/ ]|$)",
  pat! "(?i)(?:22041219(?:G|NY)|Redmi 10 5G)(?:[);/ ]|$)",
  pat! "(?i)(?:21061119D[CG])(?:[);/ ]|$)",
  pat! "(?i)(?:220333QBI|Redmi 10 Power)(?:[);/ ]|$)",
  pat! "(?i)220233L2[CGI](?:[);/ ]|$)",
  pat! "(?i)(?:21061119A[GL]|21121119(?:SG|VL)|22011119UY|Redmi 10 2022)(?:[);/ ]|$)",
  pat! "(?i)(?:22041219I|Redmi 10 Prime\\+ 5G)(?:[);/ ]|$)",
  pat! "(?i)22011119TI(?:[);/ ]|$)",
  pat! "(?i)(?:21061119[BT]I|Redmi 10 Prime)(?:[);/ ]|$)",
  pat! "(?i)(?:M2004J7BC|Redmi 10X Pro)(?:[);/ ]|$)",
  pat! "(?i)22120RN86[GIH]|22126RN91Y|2212ARNC4L",
  pat! "(?i)23053RN02[AYLI]",
  pat! "(?i)(?:23076(?:RN8DY|RA4BR|RN4BI)|23077RABDC|XIG03|Redmi 12 5G|A401XM)(?:[);/ ]|$)",
  pat! "(?i)22071219AI(?:[);/ ]|$)",
  pat! "(?i)Redmi K20 Pro Premium Edition(?:[);/ ]|$)",
  pat! "(?i)Redmi K20Pro(?:[);/ ]|$)",
  pat! "(?i)Redmi K30 Pro Zoom Edition(?:[);/ ]|$)",
  pat! "(?i)Redmi K30 Pro Zoom(?:[);/ ]|$)",
  pat! "(?i)Redmi K30S Ultra(?:[);/ ]|$)",
  pat! "(?i)Redmi K([23]0) Pro(?:[);/ ]|$)",
  pat! "(?i)Redmi K30 5G(?:[);/ ]|$)",
  pat! "(?i)M1912G7B[CE](?:[);/ ]|$)",
  pat! "(?i)Redmi K30i 5G(?:[);/ ]|$)",
  pat! "(?i)M2012K11AC(?:[);/ ]|$)",
  pat! "(?i)22021211RC(?:[);/ ]|$)",
  pat! "(?i)(?:M2012K10C|Redmi K40 Gaming)(?:[);/ ]|$)",
  pat! "(?i)Redmi K40 Pro\\+(?:[);/ ]|$)",
  pat! "(?i)(?:M2012K11C|Redmi K40 Pro)(?:[);/ ]|$)",
  pat! "(?i)(?:M2006J10C|Redmi K30 Ultra)(?:[);/ ]|$)",
  pat! "(?i)22011211C|Redmi K50 Pro",
  pat! "(?i)22127RK46C|Redmi K60 Pro",
  pat! "(?i)23078RKD5C|Redmi K60 Ultra",
  pat! "(?i)241[12]7RK2CC|24122RKC7C",
  pat! "(?i)Redmi Y1 Lite(?:[);/ ]|$)",
  pat! "(?i)M1810F6[GI]",
  pat! "(?i)ONC(?: Build|[;)])|M1810F6LI",
  pat! "(?i)M1903C3E[IG]",
  pat! "(?i)Redmi (\\d+) Pro(?:[);/ ]|$)",
  pat! "(?i)Redmi 4 Prime(?:[);/ ]|$)",
  pat! "(?i)(?:220733SFG|Redmi A1\\+|220743FI)(?:[);/ ]|$)",
  pat! "(?i)220733S[GHIL](?:[);/ ]|$)",
  pat! "(?i)2302(?:8RN4D[GI]|6RN54G)",
  pat! "(?i)23028RNCA[GI]",
  pat! "(?i)23129RN51[XH]",
  pat! "(?i)2404(?:4RN32L|8RN6C[GI])",
  pat! "(?i)25028RN03[ALIY]",
  pat! "(?i)Qin ?2 Pro(?:[);/ ]|$)",
  pat! "(?i)Qin 2(?:[);/ ]|$)",
  pat! "(?i)2107119DC(?:[);/ ]|$)",
  pat! "(?i)2109119BC(?:[);/ ]|$)",
  pat! "(?i)2209129SC(?:[);/ ]|$)",
  pat! "(?i)Civi 1S(?:[);/ ]|$)",
  pat! "(?i)(?:M2105K81AC|22081281AC|(?:Xiao)?mi Pad 5 Pro)(?:[);/ ]|$)",
  pat! "(?i)(?:21051182[CG]|(?:Xiao)?mi Pad 5)(?:[);/ ]|$)",
  pat! "(?i)M2105K81C(?:[);/ ]|$)",
  pat! "(?i)(?:23046RP50C|Pad 6 Pro)(?:[);/ ]|$)",
  pat! "(?i)24091RPAD[CG]",
  pat! "(?i)2410CRP4C[CGI]",
  pat! "(?i)23043RP34[CGI]|Xiaomi Pad 6(?: Build|[;)])",
  pat! "(?i)2307BRPDCC(?:[);/ ]|$)",
  pat! "(?i)(?:24018RPAC[CG]|Xiaomi Pad 6S Pro 12\\.4)(?:[);/ ]|$)",
  pat! "(?i)MI (?:PAD ?4 ?PLUS|Pad4\\+)(?:[);/ ]|$)",
  pat! "(?i)MI PAD4 Wi-?Fi(?:[);/ ]|$)",
  pat! "(?i)MI PAD 4(?:[);/ ]|$)",
  pat! "(?i)MI ?PAD 3(?:[);/ ]|$)",
  pat! "(?i)MI PAD 2(?:[);/ ]|$)",
  pat! "(?i)MI PAD(?:[);/ ]|$)",
  pat! "(?i)22081283[GC](?:[);/ ]|$)",
  pat! "(?i)2405CRPFD[CGL](?:[);/ ]|$)"]

/-- `__dr_re`, from item 11000 on (device_repo.go:29336-29585). -/
def drRe_44 : List (List Chunk) := [
  pat! "(?i)2407(?:6RP19[GI]|5RP89G)|Redmi Pad SE 8\\.7",
  pat! "(?i)(?:23073RPBF[GCL]|Redmi Pad SE)(?:[);/ ]|$)",
  pat! "(?i)24074RPD2[CGI]",
  pat! "(?i)2505DRP06[EG]",
  pat! "(?i)25040RP0A[EG]",
  pat! "(?i)FengMiProjA2(?:[);/ ]|$)",
  pat! "(?i)MIBOX3[ _]Pro(?:[);/ ]|$)",
  pat! "(?i)MIBOX([234])(?:[);/ ]|$)",
  pat! "(?i)MiBOX1S(?:[);/ ]|$)",
  pat! "(?i)MiTV-MSSP[123](?:[);/ ]|$)",
  pat! "(?i)MiTV-MTEQ0(?:[);/ ]|$)",
  pat! "(?i)MiTV-AESP0(?:[);/ ]|$)",
  pat! "(?i)MiTV-(?:ANSP0|AYFR0)(?:[);/ ]|$)",
  pat! "(?i)MiTV-MOOQ0(?:[);/ ]|$)",
  pat! "(?i)MiTV-MOSR1(?:[);/ ]|$)",
  pat! "(?i)MiTV-MOOQ1(?:[);/ ]|$)",
  pat! "(?i)MiTV-MOOR4(?:[);/ ]|$)",
  pat! "(?i)(?:MiTV-AXSO0|MiTV4(?:A|-ANSM0)|MiTV-MSSP0)(?:[);/ ]|$)",
  pat! "(?i)MiTV-AXSO[12](?:[);/ ]|$)",
  pat! "(?i)MiTV(4[CSXI]|4)(?:[);/ ]|$)",
  pat! "(?i)MiTV-AFKR0(?:[);/ ]|$)",
  pat! "(?i)AFTBTX4(?:[);/ ]|$)",
  pat! "(?i)MiTV-([A-Z]{4}[0-9]{1})(?:[);/ ]|$)",
  pat! "(?i)M2011J18C(?:[);/ ]|$)",
  pat! "(?i)22061218C(?:[);/ ]|$)",
  pat! "(?i)(?:2308CPXD0C|Mix Fold 3)(?:[);/ ]|$)",
  pat! "(?i)HM NOTE 1W(?:[);/ ]|$)",
  pat! "(?i)HM NOTE 1TD (?:Build|MIUI)",
  pat! "(?i)HM NOTE 1(?:LTE|S)(?:W|GLOBAL|TD)? (?:Build|MIUI)|HM NOTE 1LTE",
  pat! "(?i)Xiaomi[_ ]2015052",
  pat! "(?i)(?:M2010J19SC|M2003J15SS|Redmi Note 9 4G)(?:[);/ ]|$)",
  pat! "(?i)M2003J6A1G(?:[);/ ]|$)",
  pat! "(?i)M2003J15SC(?:[);/ ]|$)",
  pat! "(?i)(?:M2101K7BL|rosemary)(?:[);/ ]|$)",
  pat! "(?i)(?:M2007J22G|A001XM)(?:[);/ ]|$)",
  pat! "(?i)M2007J22C(?:[);/ ]|$)",
  pat! "(?i)M2007J17C(?:[);/ ]|$)",
  pat! "(?i)(?:joyeuse|M2003J6(?:B2G|A1I))(?:[);/ ]|$)",
  pat! "(?i)Redmi Note 10 Lite|M2002F4LG(?:[);/ ]|$)",
  pat! "(?i)(?:Redmi Note ?9 Pro Max|M2003J6B1I)(?:[);/ ]|$)",
  pat! "(?i)M2101K7A[GI]",
  pat! "(?i)M2103K19Y|22021119KR",
  pat! "(?i)M2101K7B(?:[GI]|NY)(?:[);/ ]|$)",
  pat! "(?i)(?:M2103K19[GC]|Redmi Note 10 5G|vnd_camellia)(?:[);/ ]|$)",
  pat! "(?i)M2103K19I|A101XM|Redmi Note 10T 5G",
  pat! "(?i)XIG02(?:[);/ ]|$)",
  pat! "(?i)(?:M2101K6[GIRP]|M2104K10AC|Redmi Note 10 Pro)(?:[);/ ]|$)",
  pat! "(?i)rubyplus(?:[);/ ]|$)",
  pat! "(?i)22101316[CIG]",
  pat! "(?i)23021RAA(?:EI|2G)",
  pat! "(?i)(?:22101320C|Redmi Note 12 Pro Speed)(?:[);/ ]|$)",
  pat! "(?i)2303(?:0RAC7Y|CRA44A|ERA42L|Redmi Note 12S)(?:[);/ ]|$)",
  pat! "(?i)(?:2302(?:1RAA2Y|1RAAEG|8RA60L|7RAD4I)|22101317C|22111317G)(?:[);/ ]|$)",
  pat! "(?i)(?:Redmi Note 12R Pro)(?:[);/ ]|$)",
  pat! "(?i)(?:23076RA4BC|Redmi Note 12R)(?:[);/ ]|$)",
  pat! "(?i)(?:23049RAD8C)(?:[);/ ]|$)",
  pat! "(?i)(?:23054RA19C)(?:[);/ ]|$)",
  pat! "(?i)(?:22101316UC)(?:[);/ ]|$)",
  pat! "(?i)(?:22101316UG|Redmi Note 12 Pro\\+ 5G)(?:[);/ ]|$)",
  pat! "(?i)22101316UP(?:[);/ ]|$)",
  pat! "(?i)22101316UCP(?:[);/ ]|$)",
  pat! "(?i)22111317I(?:[);/ ]|$)",
  pat! "(?i)(?:21091116C|2201116T[IG])(?:[);/ ]|$)",
  pat! "(?i)(?:2312(?:CRAD3C|DRA50C)|23117RA68G)(?:[);/ ]|$)",
  pat! "(?i)(?:2311FRAFDC)(?:[);/ ]|$)",
  pat! "(?i)(?:2312DRA50[GI]|Redmi Note 13 Pro 5G|XIG05)(?:[);/ ]|$)",
  pat! "(?i)2312(?:4RA7EO|9RAA4G|9RA5FL)(?:[);/ ]|$)",
  pat! "(?i)(?:23090RA98C)(?:[);/ ]|$)",
  pat! "(?i)(?:24115RA8E[CGI])(?:[);/ ]|$)",
  pat! "(?i)(?:24090RA29C|24116RACCG)(?:[);/ ]|$)",
  pat! "(?i)24090RA29[GI]",
  pat! "(?i)2409(?:4RAD4[CIG])",
  pat! "(?i)24117RN76[OLEG]",
  pat! "(?i)(?:23090RA98[GI]|Redmi Note 13 Pro\\+ 5G)(?:[);/ ]|$)",
  pat! "(?i)(?:2312DRAAB[CGI]|Redmi Note 13 5G)(?:[);/ ]|$)",
  pat! "(?i)(?:2201116SC|Redmi Note 11E Pro)(?:[);/ ]|$)",
  pat! "(?i)(?:22041219C|Redmi Note 11E)(?:[);/ ]|$)",
  pat! "(?i)(?:22041216C|Redmi Note 11T Pro)(?:[);/ ]|$)",
  pat! "(?i)22041216UC(?:[);/ ]|$)",
  pat! "(?i)(?:2201116S[GR]|Redmi Note 11 Pro 5G)(?:[);/ ]|$)",
  pat! "(?i)(?:2201116SI|Redmi Note 11 Pro\\+ 5G)(?:[);/ ]|$)",
  pat! "(?i)(?:21091116U[CG]|Redmi Note 11 Pro\\+)(?:[);/ ]|$)",
  pat! "(?i)21091116AC(?:[);/ ]|$)",
  pat! "(?i)22095RA98C(?:[);/ ]|$)",
  pat! "(?i)(?:21121119SC|2201117T[GILY]|Redmi Note 11 4G)(?:[);/ ]|$)",
  pat! "(?i)(?:22087RA4DI|Redmi Note 11 SE)(?:[);/ ]|$)",
  pat! "(?i)2201117S[GIYL]",
  pat! "(?i)(?:22031116BG|Redmi Note 11S 5G)(?:[);/ ]|$)",
  pat! "(?i)(?:21091116(?:AI|I)|Redmi Note 11T 5G)(?:[);/ ]|$)",
  pat! "(?i)(?:M1908C3J[IH]|M1908C3JG)(?:[);/ ]|$)",
  pat! "(?i)(?:M1908C3JGG|Redmi Note 8 \\(2021\\)|biloba)(?:[);/ ]|$)",
  pat! "(?i)(?:begonia|M1906G7G)(?:[);/ ]|$)",
  pat! "(?i)willow(?:[);/ ]|$)",
  pat! "(?i)M1901F71(?:[);/ ]|$)",
  pat! "(?i)M1901F7S(?:[);/ ]|$)",
  pat! "(?i)M1901F7G(?:[);/ ]|$)",
  pat! "(?i)Redmi Note (\\d+) Pro Max(?:[);/ ]|$)",
  pat! "(?i)Redmi Note (\\d+) Pro(?:[);/ ]|$)",
  pat! "(?i)Redmi[ _]Note[ _]([^;/) ]+)?",
  pat! "(?i)Redmi[ _]([^;/) ]+)?",
  pat! "(?i)Mi Note 10 Pro|M1910F4S(?:[);/ ]|$)",
  pat! "(?i)Mi Note 10|M1910F4G(?:[);/ ]|$)",
  pat! "(?i)MI[ _]Note[ _]([^;/) ]+)?",
  pat! "(?i)Qin 1s\\+",
  pat! "(?i)MI[- ]One[ _]?Plus(?:[);/ ]|$)",
  pat! "(?i)Mi[- ]One[ _]?([a-z0-9]+)?(?: Build|[);])",
  pat! "(?i)MI[ _]([^;/]*) Build",
  pat! "(?i)MI[ _]([a-z0-9]+)(?:[);/ ]|$)",
  pat! "(?i)HM Note ([^/;]+) (?:Build|MIUI)",
  pat! "(?i)HM ([^/;]+) (?:Build|MIUI)",
  pat! "(?i)Xiaomi[ _-]([^/;]+)(?: Build|$)",
  pat! "(?i)XI[_-]CE(?:655|U55|U[48])",
  pat! "(?i)XI[_-]CE(655|U55|U[48])",
  pat! "(?i)Xolo|(?:Q600|Q700s?|Q800|Q1000s|Q1000[ _]Opus|Q1010i|Q2000|Omega[ _]5\\.[05]|Era5X|Era[ _]2[VX](?:[_ ]3GB)?|era[ _]X|era_HD|era[_ ]4[GK]|Era_4?X(?:_2GB)?|BLACK-1XM|A1000s_Lite|cube 5\\.0_2GB|Opus 3|era1X|era [2X]|era1Xpro)(?:[);/ ]|$)",
  pat! "(?i)BLACK-?1XM?",
  pat! "(?i)Era[ _]?1X ?Pro",
  pat! "(?i)Era[_ ]?([145])X(?:[);/ ]|$)",
  pat! "(?i)Era_4X_2GB(?:[);/ ]|$)",
  pat! "(?i)Era[ _]2V(?:[);/ ]|$)",
  pat! "(?i)era[_ ](HD|4[GK]|2X?|X)",
  pat! "(?i)cube 5\\.0_2GB",
  pat! "(?i)(Q600 Club|Q600|Q700s?|Q800|Q1000s Plus|Q1000s|Q1000[ _]Opus|Q1010i|Q2000|Omega[ _]5\\.[05]|A1000s_Lite|Opus 3)(?:[);/ ]|$)",
  pat! "(?i)Xolo[ _]?([^;/]+) Build",
  pat! "(?i)Xolo[ _]?([a-z0-9_-]+)",
  pat! "(?i)XORO[ _]|(?:TelePAD(?:795|731|1032|10A3|7A3)|HMT(?:390Q?|400)|HST 260)(?:[);/ ]|$)",
  pat! "(?i)TelePAD(7|10)A3 4G(?:[);/ ]|$)",
  pat! "(?i)TelePAD(795|731|1032)(?:[);/ ]|$)",
  pat! "(?i)MegaPAD3204V5(?:[);/ ]|$)",
  pat! "(?i)HMT(390Q?|400)(?:[);/ ]|$)",
  pat! "(?i)HST 260(?:[);/ ]|$)",
  pat! "(?i)Xshitou[_ ](P7)(?:[);/ ]|$)",
  pat! "(?i)(?:Xsmart (?:Nova 7|Mate 10)|CORE_X)(?:[);/ ]|$)",
  pat! "(?i)Xsmart (Nova 7|Mate 10)",
  pat! "(?i)(?:Xtouch[ _](?:X10|A5|X)|XBot[_ ](?:Senior|Junior)|X9_16GB|XP10_Wifi)(?:[);/ ]|$)",
  pat! "(?i)Xtouch[ _](X10|A5|X)(?:[);/ ]|$)",
  pat! "(?i)X9_16GB(?:[);/ ]|$)",
  pat! "(?i)XBot[_ ](Senior|Junior)",
  pat! "(?i)(?:BRIO[_ ]X31|XM14G|X10MT(?:16|87))(?:[);/ ]|$)",
  pat! "(?i)(BRIO[_ ]X31)",
  pat! "(?i)Xpad_(M9_3G)",
  pat! "(?i)YASIN ([24])K G Smart TV",
  pat! "(?i)YASIN (?:Android|2K) (?:Android )?TV(?:[);/ ]|$)",
  pat! "(?i)YASIN 4K Android TV(?:[);/ ]|$)",
  pat! "(?i)(YY-\\d{3}[a-z]?)",
  pat! "(?i)M20201419(?:[);/ ]|$)",
  pat! "(?i)Pad6 PLUS(?:[);/ ]|$)",
  pat! "(?i)(?:X109|(?:Y103|Y61|Q11)[-_]EEA)(?:[);/ ]|$)",
  pat! "(?i)(Y103|Q11|Y61)[-_]EEA",
  pat! "(?i)(X109)(?:[);/ ]|$)",
  pat! "(?i)YU Fly (\\w+)",
  pat! "(?i)YUHO_|(?:Netra(?:[_ ](?:Plus|Lite))?)(?:[);/ ]|$)",
  pat! "(?i)YUHO_(O2|H2|Y[123])_PRO",
  pat! "(?i)(?:YUHO_)?(Vast2?|O[12]|Y2|Netra(?:[_ ](?:Plus|Lite))?)(?:[);/ ]|$)",
  pat! "(?i)(?:U320|(?:L211|N10|U221|U310)-EEA)(?:[);/ ]|$)",
  pat! "(?i)(L211|N10|U221|U310)-EEA",
  pat! "(?i)YUNDOO[ _-]([^/;)]+)(?: Build|[);])",
  pat! "(?i)(?:YNDX-?00(?:0SB|10[12]|055|07[1-9]|08[01]|09[1-6])|YandexModule2-00001|yandexstation_2)(?:[);/ ]|$)",
  pat! "(?i)YNDX-?(0007[1-9]|0008[01]|0009[1-6]|0010[12])",
  pat! "(?i)YNDX-?000SB",
  pat! "(?i)YNDX-?00055",
  pat! "(?i)Xenta[ -]Tab|Luna TAB|TAB09-410|TAB10-410|TAB07-485|TAB0[78]-200|TAB08-201-3G|TAB9-200|TAB09-211|TAB10-2[01]1|TAB13-201",
  pat! "(?i)Luna TAB07-10[01]",
  pat! "(?i)Xenta-TAB07-21[01]",
  pat! "(?i)TAB10-2[01]1",
  pat! "(?i)M631Y|M685Y4|M651G_MY|YES (?:Altitude 4|MPY(?:48|54))",
  pat! "(?i)YES (Altitude 4|MPY(?:48|54))",
  pat! "(?i)yestel|(?:T5|T13|X2)_EEA(?:[);/ ]|$)",
  pat! "(?i)yestel P30(?:[);/ ]|$)",
  pat! "(?i)(X2|T5|T13)_EEA(?:[);/ ]|$)",
  pat! "(?i)Yezz|ANDY[ _]|(?: (?:4E4|5EQ)|A5EI|LIV[ _][13]S?|LIV1|LIV2[_ ]?LTE|ART ?[123](?:_?PRO|S)?|MAX_1_PLUS|MAX2 PLUS|EPIC T|GO ?[123])(?:[);/ ]|$)",
  pat! "(?i)(?:YEZZ[_-])?(4E4|5EQ|A4M|A5EI)",
  pat! "(?i)GO ?([123])",
  pat! "(?i)LIV[ _]([13])S",
  pat! "(?i)LIV2[_ ]?LTE",
  pat! "(?i)Andy[ _]([A-Z]*[0-9]\\.[0-9][A-Z0-9]*)(?:[ _](LTE))?",
  pat! "(?i)Andy[ _]([A-Z]*[0-9])([0-9][A-Z0-9]*)(?:[ _](LTE))?",
  pat! "(?i)Andy[ _]([A-Z]*[0-9][A-Z0-9]+)(?:[ _](LTE))?",
  pat! "(?i)KB2 PRO(?:[);/ ]|$)",
  pat! "(?i)YPAD(P70[12])(?:[);/ ]|$)",
  pat! "(?i)(YD20[16]|YOTA 3[+])(?:[);/ ]|$)",
  pat! "(?i)YD20[16](?:[);/ ]|$)",
  pat! "(?i)YOTA 3[+](?:[);/ ]|$)",
  pat! "(?i)YOU-BOX(?:[);/ ]|$)",
  pat! "(?i)YOU-BOX(?:[);/ ]|$)",
  pat! "(?i)Youwei[ _]",
  pat! "(?i)youwei[ _]mini5G(?:[);/ ]|$)",
  pat! "(?i)YTONE[ _-]",
  pat! "(?i)YTONE[ _-]?([^/;]+) Build",
  pat! "(?i)YTONE[ _-]?([^);/ ]+)",
  pat! "(?i)(?:YU5[05]10[A]?|YU(?:4711|5200|5050|501[14]|5551)|AO5510|YU Yureka Black|YU 6000)(?:[);/ ]|$)",
  pat! "(?i)YU5010[A]?",
  pat! "(?i)YU5510[A]?",
  pat! "(?i)YU (Yureka Black)",
  pat! "(?i)(?:N101[ _]DUAL(?:[ _]CORE)?(?:[ _]?2)?(?:[ _]V11)?|N70 DUAL CORE)(?:[);/ ]|$)",
  pat! "(?i)N(101|70)[ _]DUAL(?:[ _]CORE)?(?:[ _]?2)?",
  pat! "(?i)(?:YS[78]pro|YS6 Pro)(?:[);/ ]|$)",
  pat! "(?i)YS([678]) ?pro",
  pat! "(?i)YUNO\\.|ULX-(?:55UTCS3234|32TCS226|43UTCS347|39TCS222|50UTCS3234|43FTCS2234|32TCSW2234|24TCS221)",
  pat! "(?i)ULX-(\\d{2}[FU]?TCSW?\\d{2,4})-T9",
  pat! "(?i)ULX-(\\d{2}[FU]?TCSW?\\d{2,4})",
  pat! "(?i)Yusun|LA2-T",
  pat! "(?i)Yusun ([^;/]+) Build",
  pat! "(?i)Yusun ([a-z0-9_\\-\\+]+)",
  pat! "(?i)YXTEL_([HU]1|U3)(?:[);/ ]|$)",
  pat! "(?i)(ZMOOTH)(?:[);/ ]|$)",
  pat! "(?i)ZALA(?: SmartBox)? (DV9135)(?:[);/ ]|$)",
  pat! "(?i)(?:Odyssey[_ ](?:evo|DTV[67]|J[59]|J10|GLAZE\\+?|RANGE|ACE|AEON|VICTORY|SACRED|SAGA|SWIFT|O2|ULTRA|FLAME|POPO|PERRI|TYTAN|HIGH|SOAR|ERA)|ODYSSEY[ _]?NEXT|INTENSE (?:RISE|Hype|GAME))(?:[);/ ]|$)",
  pat! "(?i)ODYSSEY[ _]J10[ _]Mini",
  pat! "(?i)ODYSSEY[ _](O2|J[95]|DTV[67]|J10)",
  pat! "(?i)ODYSSEY[_ ]AEON",
  pat! "(?i)ODYSSEY[_ ]ACE",
  pat! "(?i)ODYSSEY[_ ]ULTRA",
  pat! "(?i)ODYSSEY[ _]?NEXT",
  pat! "(?i)ODYSSEY[ _]PERRI",
  pat! "(?i)ODYSSEY[_ ]FLAME",
  pat! "(?i)ODYSSEY[_ ]evo",
  pat! "(?i)ODYSSEY[_ ]Victory",
  pat! "(?i)ODYSSEY[_ ]SWIFT",
  pat! "(?i)ODYSSEY[_ ]TYTAN",
  pat! "(?i)ODYSSEY[_ ]SAGA",
  pat! "(?i)ODYSSEY[_ ]SACRED",
  pat! "(?i)ODYSSEY[_ ]POPO",
  pat! "(?i)ODYSSEY[_ ]RANGE",
  pat! "(?i)Odyssey[_ ]GLAZE\\+",
  pat! "(?i)Odyssey[_ ]GLAZE",
  pat! "(?i)Odyssey[_ ]HIGH",
  pat! "(?i)Odyssey[_ ]SOAR",
  pat! "(?i)Odyssey[_ ]ERA",
  pat! "(?i)(65W600U)(?:[);/ ]|$)",
  pat! "(?i)ZIFRO|(?:ZT-97003G)(?:[);/ ]|$)",
  pat! "(?i)(ZT-9700)3G",
  pat! "(?i)ZIK[_ ](W1027)(?:[);/ ]|$)",
  pat! "(?i)(Z168)_EEA(?:[);/ ]|$)",
  pat! "(?i)ZTE|AxonPhone|([a-z0-9]+)_USA_Cricket|(?:Blade[ _](?:A[57] 20(?:19|20)(?:RU)?|(?:V1000|L8)RU|E01|V0820|L110|L[2357]|L210(?:RU)?|L7A|L8|S6|V[6789]|V8Q|V8 SE|V9 VITA|X7|A(310?|320|460|465|475|510|520|530|602|51|30|3)|V580|V Ultra|Q Lux)|N9[15]8St|N818S|N951[0579]|N91[38]0|N9101|N913[267]|N952[01]|N9560|N9810|N799D|[UV]9180|[UV]9815|Z(?:5151V|610DL|6250CC|6400C|6410S|233V|331|5031O|559DL|6621O|667T|6750M|768G|792|81[25]|818L|82[08]|83[12359]|85[125]|851M|992|(557|71[67]|798|836|861|916)BL|986DL|(232|718|828)TL|(?:233|353|558|717|799|837|862|899|917|963)VL|955A|95[678]|965|97[018]|98[1237]|986U|999|936L)|V769M|Blade Apex2|G (LTE|Lux)|Vec|Z959|V865M|Z3001S|902ZT|KIS II Max|Kis 3|K3DX-V5G|Z930L|Optus X|Blade[ _](A[357] 2019(?:-T)?|A[35] 2020-T|A7S 2020-T|A6 MAX|A0622|X9)|Z3153V|Z836F|Ctyon-A9|602ZT|MO-01[JK]|Z963U|402ZT|P545|P609|P650 Pro|dandelion|901ZT|A00[13]ZT|Z-01K|UZTE (?:GRAND V7|V808)|ZTG01|K8[37]CA|K87CC|VERGATARIO ?5(?:PLUS)?|Axon mini|KIS C341|A[13]03ZT|Z335(?:1S|[23]CA)|Z5156CC|Z5157[VY]|B867RE|MEO Smart A[48]0|SmartA35|P65[10] 2021|Z6201V|Z6252CA|Z6251V?|A2020N3|A2322G|A202ZT|A302ZT|Z719DL|Z5158|Z235[069]|Z246[67]|Z245[038]|B2017G|5G UG Phone U2[35]|ATLAS[ _]W|A2121G|A2022|A202[23]P|A0622|A0616|2050RU|Z7540|A2022PG|A2019G|Z2472|Z2357N|A2025H)(?:[);/ ]|$)",
  pat! "(?i)5G UG Phone U23|ZTE 7160N",
  pat! "(?i)P651 2021(?:[);/ ]|$)",
  pat! "(?i)P650 2021(?:[);/ ]|$)",
  pat! "(?i)7530N(?:[);/ ]|$)",
  pat! "(?i)9040N(?:[);/ ]|$)",
  pat! "(?i)9042N(?:[);/ ]|$)",
  pat! "(?i)7531N(?:[);/ ]|$)",
  pat! "(?i)A2122H(?:[);/ ]|$)",
  pat! "(?i)602ZT(?:[);/ ]|$)",
  pat! "(?i)A001ZT(?:[);/ ]|$)",
  pat! "(?i)A003ZT(?:[);/ ]|$)",
  pat! "(?i)A103ZT(?:[);/ ]|$)",
  pat! "(?i)A202ZT(?:[);/ ]|$)",
  pat! "(?i)A302ZT(?:[);/ ]|$)",
  pat! "(?i)901ZT(?:[);/ ]|$)",
  pat! "(?i)A303ZT(?:[);/ ]|$)"]

/-- `__dr_re`, from item 11250 on (device_repo.go:29586-29835). -/
def drRe_45 : List (List Chunk) := [
  pat! "(?i)ZTG01(?:[);/ ]|$)",
  pat! "(?i)7543N(?:[);/ ]|$)",
  pat! "(?i)ZTE T221(?:[);/ ]|$)",
  pat! "(?i)A0616(?:[);/ ]|$)",
  pat! "(?i)Z3352CA(?:[);/ ]|$)",
  pat! "(?i)Z3353CA(?:[);/ ]|$)",
  pat! "(?i)ZTE[_ ]Blade[_ ]A(3[13])[_ ]?(?:Plus|\\+)",
  pat! "(?i)(?:A7020(?:RU)?|Blade A7S 2020-T)(?:[);/ ]|$)",
  pat! "(?i)A7000(?:[);/ ]|$)",
  pat! "(?i)Z6252CA(?:[);/ ]|$)",
  pat! "(?i)A7030|A71 5G",
  pat! "(?i)Z5157[VY]",
  pat! "(?i)A0722(?:[);/ ]|$)",
  pat! "(?i)Z6201V(?:[);/ ]|$)",
  pat! "(?i)Blade 10 Vita(?:[);/ ]|$)",
  pat! "(?i)Z6251V(?:[);/ ]|$)",
  pat! "(?i)(?:ZTE)? (?:2050|V1050)(?:RU)?",
  pat! "(?i)ZTE Axon 7(?:[);/ ]|$)",
  pat! "(?i)A2019G? Pro(?:[);/ ]|$)",
  pat! "(?i)(?:902ZT|A2020N[23] Pro|A2020N3)(?:[);/ ]|$)",
  pat! "(?i)A2020 SP(?:[);/ ]|$)",
  pat! "(?i)(?:A2021[LGH]?|ZTE Axon 11 5G)(?:[);/ ]|$)",
  pat! "(?i)A2021E(?:[);/ ]|$)",
  pat! "(?i)9000N(?:[);/ ]|$)",
  pat! "(?i)A2322|A2022L",
  pat! "(?i)A2023G?",
  pat! "(?i)ZTE[ _]?9047",
  pat! "(?i)N799D(?:[);/ ]|$)",
  pat! "(?i)Z818L(?:[);/ ]|$)",
  pat! "(?i)Z3001S(?:[);/ ]|$)",
  pat! "(?i)Z3351S(?:[);/ ]|$)",
  pat! "(?i)Ctyon-A9(?:[);/ ]|$)",
  pat! "(?i)K3DX-V5G(?:[);/ ]|$)",
  pat! "(?i)(?:ZTE)?N918St(?:[);/ ]|$)",
  pat! "(?i)N958St(?:[);/ ]|$)",
  pat! "(?i)N9101(?:[);/ ]|$)",
  pat! "(?i)Z963U(?:[);/ ]|$)",
  pat! "(?i)N9120(?:[);/ ]|$)",
  pat! "(?i)Z5156CC(?:[);/ ]|$)",
  pat! "(?i)Z5158(?:[);/ ]|$)",
  pat! "(?i)N9130(?:[);/ ]|$)",
  pat! "(?i)N9132(?:[);/ ]|$)",
  pat! "(?i)N9136(?:[);/ ]|$)",
  pat! "(?i)N9137(?:[);/ ]|$)",
  pat! "(?i)N9180(?:[);/ ]|$)",
  pat! "(?i)N9510(?:[);/ ]|$)",
  pat! "(?i)Z5151V(?:[);/ ]|$)",
  pat! "(?i)N9517(?:[);/ ]|$)",
  pat! "(?i)Z559DL(?:[);/ ]|$)",
  pat! "(?i)402ZT(?:[);/ ]|$)",
  pat! "(?i)(?:ZTE[_ ])?Blade[ _]Q[ _]Lux(?:[);/ ]|$)",
  pat! "(?i)ZTE T320(?:[);/ ]|$)",
  pat! "(?i)N9515(?:[);/ ]|$)",
  pat! "(?i)N9519(?:[);/ ]|$)",
  pat! "(?i)N9520(?:[);/ ]|$)",
  pat! "(?i)N9521(?:[);/ ]|$)",
  pat! "(?i)N9560(?:[);/ ]|$)",
  pat! "(?i)N9810(?:[);/ ]|$)",
  pat! "(?i)[UV]9180(?:[);/ ]|$)",
  pat! "(?i)[UV]9815(?:[);/ ]|$)",
  pat! "(?i)ZTE[_ ]Blade[_ ](C2|V7)[_ ]Plus",
  pat! "(?i)(?:ZTE[_ ])?BA521",
  pat! "(?i)(?:ZTE_)?V829",
  pat! "(?i)V970M?|V987",
  pat! "(?i)Z959(?:[);/ ]|$)",
  pat! "(?i)(?:[RV]880H|V965)(?:[);/ ]|$)",
  pat! "(?i)Z95[67]",
  pat! "(?i)(?:ZTE_)?Grand[ _]Era",
  pat! "(?i)Z331(?:[);/ ]|$)",
  pat! "(?i)N818S(?:[);/ ]|$)",
  pat! "(?i)ZTE[_ ]V0840(?:[);/ ]|$)",
  pat! "(?i)Z5031O(?:[);/ ]|$)",
  pat! "(?i)P545(?:[);/ ]|$)",
  pat! "(?i)P609(?:[);/ ]|$)",
  pat! "(?i)Optus X Start(?:[);/ ]|$)",
  pat! "(?i)BA520(?:[);/ ]|$)",
  pat! "(?i)Blade A(5[12]) Lite(?:[);/ ]|$)",
  pat! "(?i)Blade L2 Plus(?:[);/ ]|$)",
  pat! "(?i)(?:ZTE_)?Blade[ _]L2(?:[);/ ]|$)",
  pat! "(?i)Blade L3 Plus(?:[);/ ]|$)",
  pat! "(?i)Blade L3 Apex(?:[);/ ]|$)",
  pat! "(?i)Blade L3(?:[);/ ]|$)",
  pat! "(?i)ZTE[ _]T610(?:[);/ ]|$)",
  pat! "(?i)ZTE[ _]Blade L4 Pro(?:[);/ ]|$)",
  pat! "(?i)(?:Blade L5 Plus|BLADE L0510)(?:[);/ ]|$)",
  pat! "(?i)Blade L6(?:[);/ ]|$)",
  pat! "(?i)Blade L7A(?:[);/ ]|$)",
  pat! "(?i)Blade L(\\d+)(?:RU)?",
  pat! "(?i)Blade A([357]) (20(?:19|20))",
  pat! "(?i)ZTE BV0720(?:[);/ ]|$)",
  pat! "(?i)Blade A[35] 2020-T(?:[);/ ]|$)",
  pat! "(?i)ZTE C880A(?:[);/ ]|$)",
  pat! "(?i)Blade A([35]1?) Lite",
  pat! "(?i)Blade A(53) Pro",
  pat! "(?i)Blade (S6|A[35]1?) Plus",
  pat! "(?i)(?:ZTE[ _])?BLADE[ _]A062[02](?:[);/ ]|$)",
  pat! "(?i)BLADE (?:A6 MAX|A0605)(?:[);/ ]|$)",
  pat! "(?i)A0622(?:[);/ ]|$)",
  pat! "(?i)Blade S6 Lite(?:[);/ ]|$)",
  pat! "(?i)Blade S6(?:[);/ ]|$)",
  pat! "(?i)BLADE A5 PRO(?:[);/ ]|$)",
  pat! "(?i)T920(?:[);/ ]|$)",
  pat! "(?i)ZTE[ _]T617(?:[);/ ]|$)",
  pat! "(?i)(?:ZTE[ _])?Blade[ _]L(210|130)",
  pat! "(?i)(?:ZTE_)?Blade_A5_2019",
  pat! "(?i)BLADE V Ultra(?:[);/ ]|$)",
  pat! "(?i)Blade V6 MAX(?:[);/ ]|$)",
  pat! "(?i)Blade V6 Plus(?:[);/ ]|$)",
  pat! "(?i)Blade (?:V7 Lite|V0720)(?:[);/ ]|$)",
  pat! "(?i)BLADE V0710(?:[);/ ]|$)",
  pat! "(?i)Blade V([67])(?:[);/ ]|$)",
  pat! "(?i)9050N(?:[);/ ]|$)",
  pat! "(?i)ZTE 8050(?:[);/ ]|$)",
  pat! "(?i)ZTE 8150N(?:[);/ ]|$)",
  pat! "(?i)ZTE 8550(?:[);/ ]|$)",
  pat! "(?i)BV0800(?:[);/ ]|$)",
  pat! "(?i)(?:ZTE[ _])?Blade V1000|(?:ZTE_)?V1000",
  pat! "(?i)Z6750M(?:[);/ ]|$)",
  pat! "(?i)Blade X([79])(?:[);/ ]|$)",
  pat! "(?i)ZTE T630(?:[);/ ]|$)",
  pat! "(?i)ZTE T520(?:[);/ ]|$)",
  pat! "(?i)Blade (?:V8Q|V0840)(?:[);/ ]|$)",
  pat! "(?i)Blade V8 SE(?:[);/ ]|$)",
  pat! "(?i)BLADE (?:V0850|V8 Mini)(?:[);/ ]|$)",
  pat! "(?i)BLADE V0920|ZTE-V9VITA",
  pat! "(?i)Blade V(9|10) Vita(?:[);/ ]|$)",
  pat! "(?i)Blade V([89]|10)(?:[);/ ]|$)",
  pat! "(?i)BLADE V0820(?:[);/ ]|$)",
  pat! "(?i)(?:Blade[ _])?(Apex2|G (LTE|Lux)|Vec)(?:[);/ ]|$)",
  pat! "(?i)Z768G(?:[);/ ]|$)",
  pat! "(?i)Z717[BV]L(?:[);/ ]|$)",
  pat! "(?i)Z233VL(?:[);/ ]|$)",
  pat! "(?i)(?:Z798BL|Z799VL)(?:[);/ ]|$)",
  pat! "(?i)(?:ZTE-)?Z792",
  pat! "(?i)(?:ZTE-)?Z812",
  pat! "(?i)(?:ZTE-)?Z719DL",
  pat! "(?i)(?:ZTE-)?Z7540",
  pat! "(?i)Z851(?:[);/ ]|$)",
  pat! "(?i)(?:Z836BL|Z837VL|Z836F)(?:[);/ ]|$)",
  pat! "(?i)(?:Z861BL|Z862VL)(?:[);/ ]|$)",
  pat! "(?i)(?:Z958|Z955A)(?:[);/ ]|$)",
  pat! "(?i)dandelion(?:[);/ ]|$)",
  pat! "(?i)Z6250CC(?:[);/ ]|$)",
  pat! "(?i)(?:ZTE[-_])?Z992",
  pat! "(?i)(?:Z999|Z-01K)(?:[);/ ]|$)",
  pat! "(?i)B201[56]|Axon mini",
  pat! "(?i)A2017[GU]?",
  pat! "(?i)(?:A2020(?:RU|[GU])? Pro|Axon 10 Pro)(?:[);/ ]|$)",
  pat! "(?i)V?975|geek",
  pat! "(?i)(?:ZTE-)?G-X991",
  pat! "(?i)Z936L(?:[);/ ]|$)",
  pat! "(?i)MO-01[JK](?:[);/ ]|$)",
  pat! "(?i)V865M(?:[);/ ]|$)",
  pat! "(?i)Z6621O(?:[);/ ]|$)",
  pat! "(?i)P650 Pro(?:[);/ ]|$)",
  pat! "(?i)V769M(?:[);/ ]|$)",
  pat! "(?i)VERGATARIO 5(?:[);/ ]|$)",
  pat! "(?i)VERGATARIO5PLUS(?:[);/ ]|$)",
  pat! "(?i)ZTE V5 PRO(?:[);/ ]|$)",
  pat! "(?i)MEO Smart A([48]0)",
  pat! "(?i)Smart ?A(35)",
  pat! "(?i)ATLAS[ _]W",
  pat! "(?i)A2121[GLE]?(?:[);/ ]|$)",
  pat! "(?i)B867RE(?:[);/ ]|$)",
  pat! "(?i)K83CA(?:[);/ ]|$)",
  pat! "(?i)K87CA(?:[);/ ]|$)",
  pat! "(?i)K87CC(?:[);/ ]|$)",
  pat! "(?i)ZTE-K88(?:[);/ ]|$)",
  pat! "(?i)ZTE-K92(?:[);/ ]|$)",
  pat! "(?i)T1002(?:[);/ ]|$)",
  pat! "(?i)T1004(?:[);/ ]|$)",
  pat! "(?i)AxonPhone ([^;/]+) Build",
  pat! "(?i)([a-z0-9]+)_USA_Cricket",
  pat! "(?i)ZTE[- ](V98|V96A|V81|V70)(?:[);/ ]|$)",
  pat! "(?i)Blade[_ ](A(\\d+)C?|L111|V580|E01)(?:[);/ ]|$)",
  pat! "(?i)ZTE Blade A53\\+",
  pat! "(?i)Blade[_ ]V0730(?:[);/ ]|$)",
  pat! "(?i)Blade[_ ]V0800(?:[);/ ]|$)",
  pat! "(?i)Blade[_ ]V1000(?:[);/ ]|$)",
  pat! "(?i)ZTE B(A601|A910|A510)(?:[);/ ]|$)",
  pat! "(?i)ZTE Blade (A[35]1|A7s|C370)",
  pat! "(?i)ZTE BA610T(?:[);/ ]|$)",
  pat! "(?i)ZTE[- ]([a-z0-9\\-_ ]+) Build",
  pat! "(?i)ZTE-(?:G |G-)?([a-z0-9 _]+)",
  pat! "(?i)U?ZTE[ _]?([a-z0-9]+)",
  pat! "(?i)ZYQ-Q88|(Q(?:2602|262[436]|638|2688|272[89]|3022|3623|TAB Tab4|328 m9|328|668)|J77|Q[._](?:Up|Boss P99|Dee R09|Good M9|Hi|Hot|Me|Mate R99|Next|TOP-X8|You))(?:[);/ ]|$)",
  pat! "(?i)Q\\.Up C5",
  pat! "(?i)Q\\.Up",
  pat! "(?i)Q\\.Boss P99",
  pat! "(?i)Q[._]Dee R09",
  pat! "(?i)Q\\.Good M9",
  pat! "(?i)Q[._]Hi S1",
  pat! "(?i)Q[._]Hi",
  pat! "(?i)Q[._]Hot P7 3G",
  pat! "(?i)Q[._]Hot",
  pat! "(?i)Q[._]Me Phone7 3G",
  pat! "(?i)Q[._]Me Plus7",
  pat! "(?i)Q[._]Me",
  pat! "(?i)Q[._]Mate R99",
  pat! "(?i)Q[._]Next B7",
  pat! "(?i)Q[._]Next J2",
  pat! "(?i)Q[._]TOP-X8",
  pat! "(?i)Q[._]You",
  pat! "(?i)(ZB30)(?:[);/ ]|$)",
  pat! "(?i)(Z3211G)(?:[);/ ]|$)",
  pat! "(?i)(ZXT-10HL323S|ZXT-10FL323G-PRO)",
  pat! "(?i)ZATEC[_ ]|(?:[ ]WIND|ZPAD_1|ZPLAY1_2018|Zpower_(?:Plus|2018))(?:[);/ ]|$)",
  pat! "(?i)ZATEC[_ ]GRAVITY(?:[);/ ]|$)",
  pat! "(?i)[ ]WIND(?:[);/ ]|$)",
  pat! "(?i)Zealot(?:[);/ ]|$)",
  pat! "(?i)(THOR 4 Plus|THOR S|THOR PRO)(?:[);/ ]|$)",
  pat! "(?i)THOR (S|4 Plus)(?:[);/ ]|$)",
  pat! "(?i) (MC2[27]00|TC15|TC2[01567]|TC5[12567]|TC7[05]x|TC7[57]|TC700H|ET51|MC33|MC93|EC30|EC55|PS20J|VC8300)(?:[);/ ]|$)",
  pat! "(?i)(TC15|TC2[01567]|TC5[12567]|TC7[05]x|TC7[57]|TC700H|MC33|EC30|EC55)(?:[);/ ]|$)",
  pat! "(?i)(ET51)(?:[);/ ]|$)",
  pat! "(?i)(MC2[27]00|MC93|PS20J)(?:[);/ ]|$)",
  pat! "(?i)(VC8300)",
  pat! "(?i)ZEEKER[ _](P10|T100)",
  pat! "(?i)ZEEMI[ _-]",
  pat! "(?i)ZEEMI[ _-]([^/;]+) Build",
  pat! "(?i)ZEEMI[ _-]([^/;)]+)(?:[);/ ]|$)",
  pat! "(?i)(Admire[_ ][^/;]+|Cinemax[^/;)]+)(?:Build|\\))|(?:AdmireGlam|M72 Smart)(?:[);/ ]|$)",
  pat! "(?i)ADMIRE[_ ]SENSE\\+",
  pat! "(?i)ADMIRE[_ ]SWADESH\\+",
  pat! "(?i)ADMIRE[_ ]SENSE[_ ]DUO",
  pat! "(?i)ADMIRE[_ ]CURVE[_ ]NEO",
  pat! "(?i)ADMIRE[_ ]CURVE\\+",
  pat! "(?i)ADMIRE[_ ]NEO\\+",
  pat! "(?i)ADMIRE[_ ]DUO",
  pat! "(?i)ADMIRE[_ ]SHINE",
  pat! "(?i)ADMIRE[_ ]INFINITY",
  pat! "(?i)ADMIRE[_ ]Unity",
  pat! "(?i)ADMIRE[_ ]STRONG",
  pat! "(?i)ADMIRE[_ ]GLORY\\+",
  pat! "(?i)(M72 Smart)",
  pat! "(?i)(Admire[_ ][^/;]+|Cinemax[^/;)]+)(?:Build|\\))",
  pat! "(?i)Z5007|Z551[679]|Z6001",
  pat! "(?i)(?:C-723ULTRA|C-70[13] ?ULTRA)(?:[);/ ]|$)",
  pat! "(?i)C-(\\d+) ?Ultra",
  pat! "(?i)ZFINERY900(?:[);/ ]|$)",
  pat! "(?i)(?:ZC-339)(?:[);/ ]|$)",
  pat! "(?i)(ZC-339)",
  pat! "(?i)ZIDOO[ _](H6 Pro|X6 Pro|X9S|Z10|X[1589]|X20 Pro|Z9S)(?:[);/ ]|$)",
  pat! "(?i)(?:Eon45i)(?:[);/ ]|$)",
  pat! "(?i)KidsLegacyTabPro|Zpad-X8-PRO",
  pat! "(?i)ZIOX[_ ]|(?:Astra Viva 4G|Astra (?:(?:NXT|Curve|Young) Pro|(?:Metal|Titan|Young|Curve) 4G|Star|Blaze)|Duo(?:tel|pix)[ _]\\w\\d{1,2})(?:[);/ ]|$)",
  pat! "(?i)ZIOX[_ ]F9[_ ]PRO(?:[);/ ]|$)",
  pat! "(?i)Astra (Viva|Titan|Young|Metal|Curve) 4G(?:[);/ ]|$)",
  pat! "(?i)Astra (Star|Blaze)(?:[);/ ]|$)",
  pat! "(?i)Astra (NXT|Curve|Young) Pro(?:[);/ ]|$)"]

/-- `__dr_re`, from item 11500 on (device_repo.go:29836-30085). -/
def drRe_46 : List (List Chunk) := [
  pat! "(?i)Duo(tel|pix)[ _](\\w\\d{1,2})(?:[);/ ]|$)",
  pat! "(?i)(ZM(?:CK|EM|TFTV|TN)[a-z0-9]+)|ZA409",
  pat! "(?i)(ZM(?:CK|EM|TFTV|TN)[a-z0-9]+)",
  pat! "(?i)(?:K101_EEA|K118)(?:[);/ ]|$)",
  pat! "(?i)K(101|118)",
  pat! "(?i)Android 8(?:[\\d.]*);(?: [\\w-]+;)? (LitePro)(?:[);/ ]|$)",
  pat! "(?i)(LT600T)(?:[);/ ]|$)",
  pat! "(?i)ZOPO|(?:ZOPO[_ ])?(HERO2|Flash X3|F2_Color5_5|F5_Color_M5|C2_Color_M4|ZP[0-9]{2,}[^/;]+)(?:\\)| Build)",
  pat! "(?i)(?:ZOPO_C2_MOD|ZP998)(?:[);/ ]|$)",
  pat! "(?i)ZOPO 9xxQuad(?:[);/ ]|$)",
  pat! "(?i)(?:ZOPO_)?ZP980[+](?:[);/ ]|$)",
  pat! "(?i)(?:ZOPO_)?ZP980(?:[);/ ]|$)",
  pat! "(?i)ZP952(?:[);/ ]|$)",
  pat! "(?i)HERO2(?:[);/ ]|$)",
  pat! "(?i)ZP951(?:[);/ ]|$)",
  pat! "(?i)ZP955(?:[);/ ]|$)",
  pat! "(?i)ZP950[+h]?(?:[);/ ]|$)",
  pat! "(?i)ZP(?:900H?|910)(?:[);/ ]|$)",
  pat! "(?i)ZP(?:800H|810)(?:[);/ ]|$)",
  pat! "(?i)ZP500[+]?(?:[);/ ]|$)",
  pat! "(?i)ZP330(?:[);/ ]|$)",
  pat! "(?i)ZP370(?:[);/ ]|$)",
  pat! "(?i)F2_Color5_5(?:[);/ ]|$)",
  pat! "(?i)F5_Color_M5(?:[);/ ]|$)",
  pat! "(?i)C2_Color_M4(?:[);/ ]|$)",
  pat! "(?i)ZP5(63|86)(?:[);/ ]|$)",
  pat! "(?i)ZP567(?:[);/ ]|$)",
  pat! "(?i)ZP300[S+]?(?:[);/ ]|$)",
  pat! "(?i)ZP200[+]?(?:[);/ ]|$)",
  pat! "(?i)ZP100(?:[);/ ]|$)",
  pat! "(?i)ZP1790(?:[);/ ]|$)",
  pat! "(?i)ZP781(?:[);/ ]|$)",
  pat! "(?i)ZOPO[_ ]ONE[_ ]([YXTP])(?:[);/ ]|$)",
  pat! "(?i)(?:ZOPO_)?(Flash X3|X1i|ZP[0-9]{2,}[^/;)]+)(?: Build|\\))",
  pat! "(?i)Zuum[ _-]|Android 6.+ UNIQ(?: Build|[);])|(?:ROCKET III?|Akus (?:PRO|[ZP]1?)|AURA_Z|COVET|MAGNO(?:-S| P[13])?|ONIX(?: S)?|STEDI|STELLAR(?:[ _](?:Z|PRO|[MP]1|M2))?|GRAVITY [ZM]|AURA (?:PRIME|PLUS JLO|PRO JLO|PRO|[ZM]1|X)|COVET_PRO_LITE|RONI|Android.*; (?:GRANT|LIMIT)|Gravity Life|SENS (?:M1|G)|ULTRA Z|NOVUS TAB)(?:[);/ ]|$)",
  pat! "(?i)AKUS ([ZP]1?)",
  pat! "(?i)AURA_Z(?:[);/ ]|$)",
  pat! "(?i)COVET( [XZ])?",
  pat! "(?i)MAGNO( C[12]?| P[13])?",
  pat! "(?i)SENS (M1|G)",
  pat! "(?i)STELLAR ([MP]\\d|Z)",
  pat! "(?i)GRAVITY ([MZ])",
  pat! "(?i)AURA ([ZM]1|X)",
  pat! "(?i)ROCKET (III?)",
  pat! "(?i)Android 6.+; UNIQ(?: Build|[);])",
  pat! "(?i)Android.+; LIMIT(?: Build|[);])",
  pat! "(?i)Zuum[ _-]([^;/]+) Build",
  pat! "(?i)Zuum[ _-]?([^;/)]+)(?:[);/ ]|$)",
  pat! "(?i)ZYNC|(Cloud Z5|Z1000|Z18|Z99|Z99[_ ][23]G|Z99|Z900[_ ]Plus|Z909|Z930[+]|Z930)(?:[);/ ]|$)",
  pat! "(?i)(Z18| DuZ99al Core|Z99[_ ][23]G|Z99 Dual Core|Z99|Z900[_ ]Plus|Z909|Z930[+]|Z930)",
  pat! "(?i)(Z1000[^/;]+)Build",
  pat! "(?i)Cloud (Z5)",
  pat! "(?i)ZYNC Cloud[ _]([^;]+)Build",
  pat! "(?i)ZYNC[ _]([^;]+)Build",
  pat! "(?i)(Desk21T-03)",
  pat! "(?i)Allente 1(?:[);/ ]|$)",
  pat! "(?i)(AS51[2456])(?:[);/ ]|$)",
  pat! "(?i)(AL-555|GI-626|OB[_-](?:421|588|728|62[78]))(?:[);/ ]|$)",
  pat! "(?i)OB[_-](421|588|728|62[78])",
  pat! "(?i)(TBX11)(?:[);/ ]|$)",
  pat! "(?i)Astro;([A-Z0-9]+);",
  pat! "(?i)Decade 53(?:[);/ ]|$)",
  pat! "(?i)BO-(FRSP4|LFSPBS5|LFSP4|LFSPSL4|LFSPBS5|LFSPSL6QCI)",
  pat! "(?i)BO-(FRSP4)",
  pat! "(?i)Aquaris|bq [^/;]+ Build|BQS[-_][0-9]{4}|(?:BQ(?:ru)?[_ -][0-9]{3,4})|BQ_\\d{2}FSF?|BQ5059|BQ1008G|BQru_BQru-|Edison 3|Smart_TV_BQ|Fnac 10 3G",
  pat! "(?i)BQ(?:ru)?-(?:5209L|5044)(?:[);/ ]|$)",
  pat! "(?i)BQ(?:ru)?-(?:6035L)(?:[);/ ]|$)",
  pat! "(?i)BQ(?:ru)?-(?:5535L)(?:[);/ ]|$)",
  pat! "(?i)BQ(S|ru)?-6353L",
  pat! "(?i)BQ(S|ru)?-(?:5070|6040L)(?:[);/ ]|$)",
  pat! "(?i)BQ(S|ru)?-(?:6424L)(?:[);/ ]|$)",
  pat! "(?i)BQ(?:S|ru)?-(?:5730L)(?:[);/ ]|$)",
  pat! "(?i)BQ(?:S|ru)?-(?:5731L)(?:[);/ ]|$)",
  pat! "(?i)BQ(?:S|ru)?-57[46]5L(?:[);/ ]|$)",
  pat! "(?i)BQ(?:S|ru)?-5533G(?:[);/ ]|$)",
  pat! "(?i)BQ(?:S|ru)?-5031G(?:[);/ ]|$)",
  pat! "(?i)BQ(?:S|ru)?-(?:5732L)(?:[);/ ]|$)",
  pat! "(?i)BQ(?:S|ru)?-6430L(?:[);/ ]|$)",
  pat! "(?i)BQ(?:S|ru)?-6630L(?:[);/ ]|$)",
  pat! "(?i)BQ-9011[G]?(?:[);/ ]|$)",
  pat! "(?i)BQ-8068L(?:[);/ ]|$)",
  pat! "(?i)BQ(ru)?-(7082)",
  pat! "(?i)BQ-7022(G)?",
  pat! "(?i)BQ-6200L|BQ-6000L",
  pat! "(?i)BQ(?:ru|s)?-6631G",
  pat! "(?i)BQ(ru)?[ -]6015L",
  pat! "(?i)BQ(?:S|ru)?-(?:5525|6030G|6010G)",
  pat! "(?i)BQ-6001L|BQ-6050",
  pat! "(?i)BQ-5707G(?:[);/ ]|$)",
  pat! "(?i)BQ-5702(?:[);/ ]|$)",
  pat! "(?i)BQ-5700L(?:[);/ ]|$)",
  pat! "(?i)BQ-(?:5591|551[89]G)(?:[);/ ]|$)",
  pat! "(?i)BQ-5520L(?:[);/ ]|$)",
  pat! "(?i)BQ-5519L(?:[);/ ]|$)",
  pat! "(?i)BQ-5540L(?:[);/ ]|$)",
  pat! "(?i)BQ-5517L(?:[);/ ]|$)",
  pat! "(?i)BQ-5516L(?:[);/ ]|$)",
  pat! "(?i)BQ(?:S|ru)?-(?:5515|6868L)(?:[);/ ]|$)",
  pat! "(?i)BQ-5515L(?:[);/ ]|$)",
  pat! "(?i)BQ-(?:5512L|5528L)(?:[);/ ]|$)",
  pat! "(?i)BQ-5511L(?:[);/ ]|$)",
  pat! "(?i)BQS[_ ]5505(?:[);/ ]|$)",
  pat! "(?i)BQ(?:ru)?-5510(?:[);/ ]|$)",
  pat! "(?i)BQ(?:ru)?-(?:5521|5594)(?:[);/ ]|$)",
  pat! "(?i)BQ-5508L(?:[);/ ]|$)",
  pat! "(?i)BQ-5507L(?:[);/ ]|$)",
  pat! "(?i)BQ(?:ru)?-5504(?:[);/ ]|$)",
  pat! "(?i)BQ(?:ru)?-5503(?:[);/ ]|$)",
  pat! "(?i)BQ(?:ru)?-6045L(?:[);/ ]|$)",
  pat! "(?i)BQ(?:ru)?-4030G(?:[);/ ]|$)",
  pat! "(?i)BQS-5502(?:[);/ ]|$)",
  pat! "(?i)BQS-5501(?:[);/ ]|$)",
  pat! "(?i)BQS-5500(?:[);/ ]|$)",
  pat! "(?i)BQ-5500L(?:[);/ ]|$)",
  pat! "(?i)BQ-5302G(?:[);/ ]|$)",
  pat! "(?i)BQ-5301(?:[);/ ]|$)",
  pat! "(?i)BQ-5300G(?:[);/ ]|$)",
  pat! "(?i)BQ(ru|S)?-(?:5211|5020)(?:[);/ ]|$)",
  pat! "(?i)BQ-5206L(?:[);/ ]|$)",
  pat! "(?i)BQ(?:ru|S)?-(?:5204|5050)(?:[);/ ]|$)",
  pat! "(?i)BQ(?:ru)?-5203(?:[);/ ]|$)",
  pat! "(?i)BQ(?:ru)?-5202(?:[);/ ]|$)",
  pat! "(?i)BQ(?:ru)?-5201(?:[);/ ]|$)",
  pat! "(?i)BQ-5082(?:[);/ ]|$)",
  pat! "(?i)BQ-5045L(?:[);/ ]|$)",
  pat! "(?i)BQ-5047L(?:[);/ ]|$)",
  pat! "(?i)BQ-5071(?:[);/ ]|$)",
  pat! "(?i)BQ[S]?-(?:5065|5340)(?:[);/ ]|$)",
  pat! "(?i)BQ(?:S|ru)?-5046L(?:[);/ ]|$)",
  pat! "(?i)BQ(?:ru)?-?(?:5059|5514G)(?:[);/ ]|$)",
  pat! "(?i)(?:BQru_)?BQ(?:ru)?-5058(?:[);/ ]|$)",
  pat! "(?i)BQ(?:ru)?-5057(?:[);/ ]|$)",
  pat! "(?i)BQ[S]?-(?:5056|5030)(?:[);/ ]|$)",
  pat! "(?i)BQ-6042l(?:[);/ ]|$)",
  pat! "(?i)BQS-5055(?:[);/ ]|$)",
  pat! "(?i)BQ(?:ru)?-5054(?:[);/ ]|$)",
  pat! "(?i)BQ-5052(?:[);/ ]|$)",
  pat! "(?i)BQ-6051G(?:[);/ ]|$)",
  pat! "(?i)BQ[S]?-5045(?:[);/ ]|$)",
  pat! "(?i)BQ(?:ru)?-(?:5037|5514L)(?:[);/ ]|$)",
  pat! "(?i)BQ(?:ru)?-5035(?:[);/ ]|$)",
  pat! "(?i)BQ(?:ru)?-5033(?:[);/ ]|$)",
  pat! "(?i)BQ-5541L(?:[);/ ]|$)",
  pat! "(?i)BQ-5032(?:[);/ ]|$)",
  pat! "(?i)BQS-5025(?:[);/ ]|$)",
  pat! "(?i)BQ(?:ru)?-5022(?:[);/ ]|$)",
  pat! "(?i)BQ-5015L(?:[);/ ]|$)",
  pat! "(?i)BQ-5016G(?:[);/ ]|$)",
  pat! "(?i)BQ-5012L(?:[);/ ]|$)",
  pat! "(?i)BQ-5521L(?:[);/ ]|$)",
  pat! "(?i)BQS-5011(?:[);/ ]|$)",
  pat! "(?i)BQ-5010G(?:[);/ ]|$)",
  pat! "(?i)BQ-5000G(?:[);/ ]|$)",
  pat! "(?i)BQS-5010(?:[);/ ]|$)",
  pat! "(?i)BQ-5009L(?:[);/ ]|$)",
  pat! "(?i)BQS-500[59](?:[);/ ]|$)",
  pat! "(?i)BQ-5008L(?:[);/ ]|$)",
  pat! "(?i)BQ-5007L(?:[);/ ]|$)",
  pat! "(?i)BQS-5006(?:[);/ ]|$)",
  pat! "(?i)BQ-(?:5005L|5530L)(?:[);/ ]|$)",
  pat! "(?i)BQS-5004(?:[);/ ]|$)",
  pat! "(?i)BQ-5003L(?:[);/ ]|$)",
  pat! "(?i)BQ-5002G(?:[);/ ]|$)",
  pat! "(?i)BQS-5002(?:[);/ ]|$)",
  pat! "(?i)BQS-5003(?:[);/ ]|$)",
  pat! "(?i)BQ-5001L(?:[);/ ]|$)",
  pat! "(?i)BQS-5001(?:[);/ ]|$)",
  pat! "(?i)BQ(?:ru|S)?-5000(?:[);/ ]|$)",
  pat! "(?i)BQS-4800(?:[);/ ]|$)",
  pat! "(?i)BQS-4707(?:[);/ ]|$)",
  pat! "(?i)BQS-4702(?:[);/ ]|$)",
  pat! "(?i)BQS-4701(?:[);/ ]|$)",
  pat! "(?i)BQ-(?:4585|5011G)(?:[);/ ]|$)",
  pat! "(?i)BQ(?:ru)?-4583(?:[);/ ]|$)",
  pat! "(?i)BQS-4570(?:[);/ ]|$)",
  pat! "(?i)BQS-4560(?:[);/ ]|$)",
  pat! "(?i)BQS-4555(?:[);/ ]|$)",
  pat! "(?i)BQS-4550(?:[);/ ]|$)",
  pat! "(?i)BQ(?:ru)?-(?:4526|5004G)(?:[);/ ]|$)",
  pat! "(?i)BQS-4525(?:[);/ ]|$)",
  pat! "(?i)BQS-4516(?:[);/ ]|$)",
  pat! "(?i)BQS-4515(?:[);/ ]|$)",
  pat! "(?i)BQS-4510(?:[);/ ]|$)",
  pat! "(?i)BQS-4505(?:[);/ ]|$)",
  pat! "(?i)BQS-4503(?:[);/ ]|$)",
  pat! "(?i)BQS-4502(?:[);/ ]|$)",
  pat! "(?i)BQ-4501G(?:[);/ ]|$)",
  pat! "(?i)BQ(?:ru)?-4500(?:[);/ ]|$)",
  pat! "(?i)BQ-4077(?:[);/ ]|$)",
  pat! "(?i)BQ(?:ru)?-4072(?:[);/ ]|$)",
  pat! "(?i)BQ(?:ru)?[- ]402[68](?:[);/ ]|$)",
  pat! "(?i)BQS-4010(?:[);/ ]|$)",
  pat! "(?i)BQS-4009(?:[);/ ]|$)",
  pat! "(?i)BQS-4008(?:[);/ ]|$)",
  pat! "(?i)BQS-4007(?:[);/ ]|$)",
  pat! "(?i)BQS-4005(?:[);/ ]|$)",
  pat! "(?i)BQS-4004(?:[);/ ]|$)",
  pat! "(?i)BQS-4003(?:[);/ ]|$)",
  pat! "(?i)BQ-4001G(?:[);/ ]|$)",
  pat! "(?i)BQS-4001(?:[);/ ]|$)",
  pat! "(?i)BQS-3510(?:[);/ ]|$)",
  pat! "(?i)BQS-3503(?:[);/ ]|$)",
  pat! "(?i)BQ-1085L(?:[);/ ]|$)",
  pat! "(?i)BQ-1084L(?:[);/ ]|$)",
  pat! "(?i)BQ-1083G(?:[);/ ]|$)",
  pat! "(?i)BQ-1082G(?:[);/ ]|$)",
  pat! "(?i)BQ-1077L(?:[);/ ]|$)",
  pat! "(?i)BQ(?:ru)?-1057L(?:[);/ ]|$)",
  pat! "(?i)BQ-1051G(?:[);/ ]|$)",
  pat! "(?i)BQ-1050G(?:[);/ ]|$)",
  pat! "(?i)BQ[-]?1008G(?:[);/ ]|$)",
  pat! "(?i)Aquaris (M10 FHD|M10 4G|M8)",
  pat! "(?i)Aquaris_([AM])4\\.5",
  pat! "(?i)BQ(?:ru)?[_ -](?:5590|5740G)(?:[);/ ]|$)",
  pat! "(?i)BQ[S]?-(?:6016L|5520)(?:[);/ ]|$)",
  pat! "(?i)BQ(?:S|ru)?-(?:5701L|5060)(?:[);/ ]|$)",
  pat! "(?i)(BQ-7850|BQ-700[12]G|BQ-8002G|BQ-905[12]G|BQ-9702G|BQ-7056G)",
  pat! "(?i)BQ-8006G(?:[);/ ]|$)",
  pat! "(?i)BQ-7062G(?:[);/ ]|$)",
  pat! "(?i)BQ(?:ru)?-1081G(?:[);/ ]|$)",
  pat! "(?i)BQ-7802G(?:[);/ ]|$)",
  pat! "(?i)BQ-7008G(?:[);/ ]|$)",
  pat! "(?i)BQ-7064G(?:[);/ ]|$)",
  pat! "(?i)BQ-7050G(?:[);/ ]|$)",
  pat! "(?i)BQ-7000G(?:[);/ ]|$)",
  pat! "(?i)BQ-7040G(?:[);/ ]|$)",
  pat! "(?i)BQ-7038G(?:[);/ ]|$)",
  pat! "(?i)BQ-7005G(?:[);/ ]|$)",
  pat! "(?i)BQ-7098G(?:[);/ ]|$)",
  pat! "(?i)BQ-1007(?:[);/ ]|$)",
  pat! "(?i)BQ-1045[G]?(?:[);/ ]|$)",
  pat! "(?i)BQ-(?:1054L|1020L)(?:[);/ ]|$)",
  pat! "(?i)BQ-7083G(?:[);/ ]|$)",
  pat! "(?i)BQ-8077L(?:[);/ ]|$)",
  pat! "(?i)BQ(?:ru)?-7083(?:[);/ ]|$)",
  pat! "(?i)BQ(?:ru)?-1056L(?:[);/ ]|$)",
  pat! "(?i)BQ(?:ru)?-1022l(?:[);/ ]|$)",
  pat! "(?i)BQ(?:ru)?-1024L(?:[);/ ]|$)",
  pat! "(?i)BQ(?:ru)?-7055L(?:[);/ ]|$)",
  pat! "(?i)BQ(?:ru)?-1025L(?:[);/ ]|$)",
  pat! "(?i)BQ(?:ru)?-7081(?:[);/ ]|$)",
  pat! "(?i)Edison 3(?:[);/ ]|$)",
  pat! "(?i)(?:bq )?Aquaris ([^/);]*)(?: Build|[);])",
  pat! "(?i)(?:bq )?Aquaris",
  pat! "(?i)BQ_(\\d{2}FS\\d{2}B)",
  pat! "(?i)bq ([^/;]+) Build",
  pat! "(?i)eNOVA|(?:TAE08N10)(?:[);/ ]|$)",
  pat! "(?i)(TAE08N10)",
  pat! "(?i)eSTAR[_ ](?:Grand|GO\\!?|Zoom Quad|Gemini|MINI[_ ]3G|BEAUTY|MOON)|(?:Digni-Smart|MERCURY HD Quad core|MID1020L|takee 1)(?:[);/ ]|$)",
  pat! "(?i)eSTAR (Grand|GO\\!?) (HD Intel|IPS Intel|IPS|HD|Intel) Quad Core 3G"]

/-- `__dr_re`, from item 11750 on (device_repo.go:30086-30335). -/
def drRe_47 : List (List Chunk) := [
  pat! "(?i)eSTAR (Zoom Quad|Gemini|GO)",
  pat! "(?i)eSTAR GRAND HD quad core( [34]G)?",
  pat! "(?i)eSTAR[_ ]MINI[_ ]3G",
  pat! "(?i)(MID1020L)",
  pat! "(?i)eTouch ?([a-z0-9]+)",
  pat! "(?i)(Smart-Ex02|Ex-Handy 10)(?: (?:ROW|RUS))?(?:[);/ ]|$)",
  pat! "(?i)EVVOLI[;,]",
  pat! "(?i)EVVOLI,([a-z0-9_ -]+),(?:wired|wireless)",
  pat! "(?i)(?:Freebox Player Mini|Free_Wi-Kif4G_4G)(?:[);/ ]|$)",
  pat! "(?i)hoco[_ -]?([^;/)]+)( Build|[;)])",
  pat! "(?i)iCherry_?",
  pat! "(?i)iCherry[ _](C(?:25[1258]|21[16]|110|121|22[01379]|23[03])|X1)(?:[);/ ]|$)",
  pat! "(?i)i-Joy|i-Call|(?:Neon[79]|Sygnus|Deox|Elektra (?:M|L|XL|XXL))(?:[);/ ]|$)",
  pat! "(?i)Elektra M(?:[);/ ]|$)",
  pat! "(?i)Elektra L(?:[);/ ]|$)",
  pat! "(?i)Elektra XL(?:[);/ ]|$)",
  pat! "(?i)Elektra XXL(?:[);/ ]|$)",
  pat! "(?i)Neon([79])(?:[);/ ]|$)",
  pat! "(?i)Sygnus(?:[);/ ]|$)",
  pat! "(?i)Deox(?:[);/ ]|$)",
  pat! "(?i)i-Call ([^;/]+) Build",
  pat! "(?i)i-Joy ([^;/]+) Build",
  pat! "(?i)i-mate ([a-z0-9]+)",
  pat! "(?i)i-mobile[ _]?[a-z0-9]+|i-Style|IQ ?(9\\.1|5\\.5|5\\.6A?)",
  pat! "(?i)i-mobile (i-note[^/;]*) Build",
  pat! "(?i)i-Style ?([^;/)]+)(?: Build|[;)])",
  pat! "(?i)(?:i-mobile_)?IQ[ _]XPRO2",
  pat! "(?i)(?:i-mobile_)?IQ[ _]BIG2",
  pat! "(?i)IQ ?(9\\.1|5\\.5|5\\.6A?|II)",
  pat! "(?i)i-mobile (IQ[^/;]*) Build",
  pat! "(?i)i-mobile(?: )?([a-z0-9\\- ]+) Build",
  pat! "(?i)i-mobile(?: )?([a-z0-9]+)",
  pat! "(?i)iBall[ _]([^;/)]+)[ _]Build|iBall[_ ]Slide|(?:Snap[_ ]4G2|3G 1026-Q18|6351-Q400i|iT-KSA0003|iT-KSA0012|iT-KSA0066|Avid|Twinkle_i5|Gorgeo[_ ]4GL|Brisk 4G2|Slide[_ ](?:Dazzle[_ ]3500|Skye_03)|Blaze_V4|Wondro 10|Q27 4G|Andi (?:Wink|5G Blink) 4G|Co-Mate|Nova_4G|Brace-X1|DD-1GB|Elan 4G2|Spirit_X2|Cuddle A4)(?:[);/ ]|$)",
  pat! "(?i)(Snap[_ ]4G2|Avid|Twinkle_i5|Gorgeo[_ ]4GL|Blaze_V4|Wondro 10|Q27 4G|Brisk 4G2|Co-Mate|Nova_4G|Elan 4G2)(?:[);/ ]|$)",
  pat! "(?i)6351-Q400i(?:[);/ ]|$)",
  pat! "(?i)DD-1GB(?:[);/ ]|$)",
  pat! "(?i)Slide[_ ]Dazzle[_ ]3500(?:[);/ ]|$)",
  pat! "(?i)1026-Q18(?:[);/ ]|$)",
  pat! "(?i)Brace-X1(?:[);/ ]|$)",
  pat! "(?i)iT-KSA0003(?:[);/ ]|$)",
  pat! "(?i)iT-KSA0066(?:[);/ ]|$)",
  pat! "(?i)iT-KSA0012(?:[);/ ]|$)",
  pat! "(?i)iBall[ _]([^;/)]+)(?:[ _]Build|[;)])",
  pat! "(?i)AUXUS ([^/;]+) Build",
  pat! "(?i)AUXUS (Core[^/;]+) Build",
  pat! "(?i)AUXUS ([^/;]+) Build",
  pat! "(?i)IBRIT_|(?:SI5[12]|i5Plus|POWER_X|Z2Lite|Diamond Pro Max)(?:[);/ ]|$)",
  pat! "(?i)IBRIT_I([57])(?:[);/ ]|$)",
  pat! "(?i)iBRIT_POWER6(?:[);/ ]|$)",
  pat! "(?i)iBRIT_Speed Pro(?:[);/ ]|$)",
  pat! "(?i)SI51(?:[);/ ]|$)",
  pat! "(?i)SI52(?:[);/ ]|$)",
  pat! "(?i)POWER_X(?:[);/ ]|$)",
  pat! "(?i)iBRIT_AF51(?:[);/ ]|$)",
  pat! "(?i)iData[ _]|(?:Android 13(?:[\\d.]*);(?: [\\w-]+;)? T3_Pro)(?:[);/ ]|$)",
  pat! "(?i)iData[ _](K1|50|i3AL)(?:[);/ ]|$)",
  pat! "(?i)NOTEBOOK6(?:[);/ ]|$)",
  pat! "(?i)(?:APACHE G6|iDroid Royal V5|BALR_?X7(?:_PAK)?)(?:[);/ ]|$)",
  pat! "(?i)BALR_?X7",
  pat! "(?i)IFT1018(?:[);/ ]|$)",
  pat! "(?i)iGET SMART|E8_Ultra|(?:SMART[_ ](?:L20X|G10[12]|S7[02]|G71|G81[H]?|L10[234]|L11|L3[12]|W[12]0X|W101|W3[12]|W8[4X]|W20[23]|L206)(?:_eea)?|Android 5(?:[\\d.]*);(?: [\\w-]+;)? (?:S100))(?:[);/ ]|$)",
  pat! "(?i)(?:SMART[_ ])?S100(?:[);/ ]|$)",
  pat! "(?i)SMART[_ ](L20X|G10[12]|S7[02]|G71|G81[H]?|L10[234]|L11|W[12]0X|W101|W8[4X]|W3[12]|W20[23]|L206|L3[12])",
  pat! "(?i)HLQ MAX(?:[);/ ]|$)",
  pat! "(?i)iHunt|One_ Love_|TIT?AN[_ ]P\\d+|Like_(3|4U|3_Pro)|X300 Elite|S10_Tank_2019|S10 Tank PRO 2020|S60 Discovery Plus|S60_Discovery_2019|AlienXLite2020|Alien X (?:Lite|Pro)|Alien_X|(?:Titan ?P6000|S[23]0 Ultra ApeX 2021|S21 Ultra 4G 2021|P11000 Pro|Strong Tablet P15000 Pro|Like 11 Panda Pro|Like_Hi10_2021|Like Hi5|S21 Plus 2021|Like_[78]|Cyber DOG 4G|S10 Tank 2020|(?:S100|S90_)Apex|Tablet PC 10 PRO)(?:_EEA)?(?:[);/ ]|$)",
  pat! "(?i)Strong Tablet (P15000|X) Pro",
  pat! "(?i)S10[_ ]Tank[_ ]20(19|20)",
  pat! "(?i)Tian[ _]P3000",
  pat! "(?i)TITAN_P11000_PRO|P11000 Pro",
  pat! "(?i)TITAN P([48]000) Pro 2021",
  pat! "(?i)Titan ?P6000",
  pat! "(?i)Like_([378])",
  pat! "(?i)S(90|100)_?Apex",
  pat! "(?i)S([23]0) Ultra ApeX 2021",
  pat! "(?i)S(2[234]) ULTRA",
  pat! "(?i)(?:iHunt_)?S(2[234])[ _]PLUS",
  pat! "(?i)iHunt ([^;)/]+)(?: Build|[;)])",
  pat! "(?i)iKoMo ([a-z0-9]+)",
  pat! "(?i)(IK-102[58]|IK-1106|IK-7108|IK-787)(?:[);/ ]|$)",
  pat! "(?i)(?:Jarvis7_85)(?:[);/ ]|$)",
  pat! "(?i)(?:iLA[-_ ](?:Silk|X2?|R1)|R1 Lite)(?:[);/ ]|$)",
  pat! "(?i)(R1) Lite(?:[);/ ]|$)",
  pat! "(?i)iLA[-_ ](Silk|X2?|R1)(?:[);/ ]|$)",
  pat! "(?i)ILEPO[ _](MXQ-4K)(?:[);/ ]|$)",
  pat! "(?i)WTAB[ _]?\\d{3}|(ITELL[_ ](?:K3300|K3500N?|K4700)|K3102 WIFI|FIVO (?:PLUS|Lite)|Zed Book G)(?:[);/ ]|$)",
  pat! "(?i)WTAB[ _]?(\\d{3}(?:[^;/)]*))(?: Build|[;)])",
  pat! "(?i)(ITELL[_ ](?:K3300|K3500N?|K4700))(?:[);/ ]|$)",
  pat! "(?i)FIVO PLUS(?:[);/ ]|$)",
  pat! "(?i)FIVO Lite(?:[);/ ]|$)",
  pat! "(?i)(?:Vin 5|Vin3 S|Vin3(?: Lite)?|Messi No\\.1|Messi 3)(?:[);/ ]|$)",
  pat! "(?i)Vin ?(3|5)",
  pat! "(?i)Messi (No\\.1|3)",
  pat! "(?i)(i5800C|i6800|Victor(?:_S)?)(?:[);/ ]|$)",
  pat! "(?i)(?:IMARS VEGA X7|VIVI_8|MILKY_WAY_M2)(?:[);/ ]|$)",
  pat! "(?i)(?:Revolution A8|muPAD[_ ][KT]10|muPAD10[24]|muPADT7|muPAD 7S)(?:[);/ ]|$)",
  pat! "(?i)(Revolution A8|muPAD[_ ][KT]10)",
  pat! "(?i)muPAD[ _]?(10[24]|T7|7S)",
  pat! "(?i)(EX1080)(?:[);/ ]|$)",
  pat! "(?i)(ITP-XD80L)(?: Build|[);])",
  pat! "(?i)iNew|(?:V7A|V3 Plus|V3-?E|V3C|FIRE_Tab_6)(?:[);/ ]|$)",
  pat! "(?i)V3C(?:[);/ ]|$)",
  pat! "(?i)V3-?E(?:[);/ ]|$)",
  pat! "(?i)V3 Plus(?:[);/ ]|$)",
  pat! "(?i)V7A(?:[);/ ]|$)",
  pat! "(?i)FIRE_Tab_6(?:[);/ ]|$)",
  pat! "(?i)iNew[ -_]([^;/]+) Build",
  pat! "(?i)(?:iNO SCOUT 2|SGINO6|iNO S9)(?:[);/ ]|$)",
  pat! "(?i)iOCEAN|M6752|W180|X7[ _]?S|X8 mini",
  pat! "(?i)X7[ _]?S",
  pat! "(?i)(M6752|W180) Build",
  pat! "(?i)iOCEAN[ _-]?([^/;]+) Build",
  pat! "(?i)iOCEAN[ _-]?([^);/ ]+)",
  pat! "(?i)iOutdoor (X)(?:[);/ ]|$)",
  pat! "(?i)iPEGTOP[ _](Z26)",
  pat! "(?i)(?:IPRO_K2_3G|Kylin[ _]5\\.[05]S?|KYLIN(?:40|50i)|Jade[78]s|Amber[678]S?|Amber[58]S[ _]Pro|Benny10|Phonenix50S|Ruby5S|Zafiro|I9355A|Opal 4S|Perla|S[45]01A|S200M|WAVE 4\\.0 II|WAVE 5\\.0|MEGA7|SAMBA65S|S501APlus)(?:[);/ ]|$)",
  pat! "(?i)Kylin_5\\.0S",
  pat! "(?i)Kylin (5\\.[05])",
  pat! "(?i)Jade([78])s",
  pat! "(?i)WAVE 4\\.0 II",
  pat! "(?i)WAVE 5\\.0",
  pat! "(?i)(I9355A|S[45]01A|S200M|Perla)",
  pat! "(?i)iQ&T|iQ&amp;T|(?:IFoo (?:U200|H55|S50))(?:[);/ ]|$)",
  pat! "(?i)(?:iQ&T|iQ&amp;T) (N8)(?:[);/ ]|$)",
  pat! "(?i)(IFoo (?:U200|H55|S50))(?:[);/ ]|$)",
  pat! "(?i)Frog ?One(?:[);/ ]|$)",
  pat! "(?i)(PALADIN EVO)",
  pat! "(?i)iRola ([^/;]+) Build|(DX758|DX752|DX752|DX758[ _]?Pro) Build",
  pat! "(?i)DX758[ _]?Pro",
  pat! "(?i)(DX758|DX752)",
  pat! "(?i)iRola ([^/;]+) Build",
  pat! "(?i)iRULU[ _-](X11|V[34]|U2|AL101)(?:[);/ ]|$)",
  pat! "(?i)iRULU[ _-](X11|V[34]|AL101)(?:[);/ ]|$)",
  pat! "(?i)iRULU[ _](U2)(?:[);/ ]|$)",
  pat! "(?i)ISWAG[ _]",
  pat! "(?i)iSWAG[_ ]ACTIV",
  pat! "(?i)iSWAG[_ ]KRONOS",
  pat! "(?i)iSWAG[_ ]Lynx",
  pat! "(?i)iSWAG[_ ]MEGA",
  pat! "(?i)iSWAG[_ ]MANTRA",
  pat! "(?i)iSWAG[_ ]NEMESIS",
  pat! "(?i)iSWAG[_ ]NEO",
  pat! "(?i)ISWAG[_ ]VIPER",
  pat! "(?i)(?:IS655|IS[35]30)(?:[);/ ]|$)",
  pat! "(?i)(IS[35]30)",
  pat! "(?i)(IS655)",
  pat! "(?i)(I-T60)(?:[);/ ]|$)",
  pat! "(?i)itel|iNote|GP10X2019(?:[);/ ]|$)",
  pat! "(?i)S665LN?",
  pat! "(?i)W6002E?",
  pat! "(?i)S663L[NC]",
  pat! "(?i)S662LCN?",
  pat! "(?i)W5005P?",
  pat! "(?i)A509WM?",
  pat! "(?i)[LW]6503",
  pat! "(?i)L5006[CS]",
  pat! "(?i)[LW]6004",
  pat! "(?i)itel[ _]A15R",
  pat! "(?i)P662LN?",
  pat! "(?i)P682LPN?",
  pat! "(?i)iNote ([^/;]*)Build",
  pat! "(?i)iNote_([a-z0-9\\-_]+)",
  pat! "(?i)itel-it(1410|1512|1520)(?:[);/ ]|$)",
  pat! "(?i)itel-it1553(?:[);/ ]|$)",
  pat! "(?i)S11Plus(?:[);/ ]|$)",
  pat! "(?i)itel[- ](A14S?|A16 Plus|A44 Power|A23S|A52 Lite)",
  pat! "(?i)itel it170([23])",
  pat! "(?i)itel A(\\d{1,2}) ?Plus",
  pat! "(?i)iTel ([^/;)]+)(?: Build|[;)])",
  pat! "(?i)iTel[_ ]([a-z0-9\\-_]*)",
  pat! "(?i)iTRUCK 7 3G(?:[);/ ]|$)",
  pat! "(?i)(LAMCY (?:L3[05]0|C100|L400)|IVA S6)(?:[);/ ]|$)",
  pat! "(?i)LAMCY (L3[05]0|C100|L400)(?:[);/ ]|$)",
  pat! "(?i)IVA S6(?:[);/ ]|$)",
  pat! "(?i)(?:(?:733|730|766|930)TPC|769TPC(?:II)?|744TPC plus)(?:[);/ ]|$)",
  pat! "(?i)((?:733|730|766|930)TPC|769TPC(?:II)?)(?:[);/ ]|$)",
  pat! "(?i)(?:Innelo_1|iV 505|Me 1\\+|Me 3S|Me [2345]|Android 8(?:[\\d.]*);(?: [\\w-]+;)? (?:i2_Lite|i2))(?:[);/ ]|$)",
  pat! "(?i)i2(?:[);/ ]|$)",
  pat! "(?i)Me 1\\+",
  pat! "(?i)Me ([2345]S?)",
  pat! "(?i)(?:MC401_GWL)(?:[);/ ]|$)",
  pat! "(?i)(MC401)_GWL",
  pat! "(?i)(IX701)(?:[);/ ]|$)",
  pat! "(?i)iYOU[_ ](M1)(?:[);/ ]|$)",
  pat! "(?i)(Mi7_HERO_(?:BETA|TAB))(?:[);/ ]|$)",
  pat! "(?i)Mi7[_ ]HERO[_ ]BETA(?:[);/ ]|$)",
  pat! "(?i)Mi7[_ ]HERO[_ ]TAB(?:[);/ ]|$)",
  pat! "(?i)(M10ES11)(?:[);/ ]|$)",
  pat! "(?i)(I 618 APP plus\\+)(?:[);/ ]|$)",
  pat! "(?i)I 618 APP plus\\+",
  pat! "(?i)ivvi[ _]",
  pat! "(?i)ivvi[ _](P60)[_ ](\\w\\d+)",
  pat! "(?i)ivvi[ _]([^/;)]+)(?: Build|[);])",
  pat! "(?i)mPhone ?([68]|7 Plus|7s)(?:[);/ ]|$)",
  pat! "(?i)meanIT[ _]|(?:meanIT[ _](?:C[12]|X10|X[126]|MG430|Q[145]|C[18]0C[18]1)|Smartphone_X5)(?:[);/ ]|$)",
  pat! "(?i)meanIT[ _]Q1 plus(?:[);/ ]|$)",
  pat! "(?i)meanIT[ _](C[12]|X[126]|MG430|Q[145])(?:[);/ ]|$)",
  pat! "(?i)meanIT[ _](X[12]0|C[18]0C[18]1)(?:[);/ ]|$)",
  pat! "(?i)mipo[ _]([^/;)]+)(?: Build|[);])",
  pat! "(?i)(Fundroid MB(?:18|216))(?:[);/ ]|$)",
  pat! "(?i)(?:myPhone|myTab)_?[^;/)]+( Build|[);])|(?:FUN|Pocket|Prime)_18x9|Prime3Lite|Prime_4_Lite|Q-Smart_Plus|Q-Smart_III_Plus|Q_Smart_BE|(?:HAMMER_)?AXE[_ ]M[_ ]LTE|Hammer[_ ](?:Axe)|Cube_LTE|C-Smart_pix|SmartView_9\\.6_3G|SmartView_(?:[78]|9_6)_(?:LTE|[34]G)|Android 6(?:[\\d.]*);(?: [\\w-]+;)? Pocket|Pocket_2|LUNA_II",
  pat! "(?i)Cube_LTE|Cube 16GB",
  pat! "(?i)(?:myPhone_)?Fun[_ ]?(\\d)[_ ]?Lite",
  pat! "(?i)(?:myPhone_)?Fun[_ ]?(\\d)[_ ]?LTE",
  pat! "(?i)(?:myPhone_)?Fun_?([48]|18x9)",
  pat! "(?i)(?:HAMMER_)?AXE[_ ]M[_ ]LTE",
  pat! "(?i)INFINITY (LTE|3G)",
  pat! "(?i)Pocket_2(?:[);/ ]|$)",
  pat! "(?i)Pocket(?:[);/ ]|$)",
  pat! "(?i)myPhone[_ ]Pocket[_ ]Pro",
  pat! "(?i)Prime3Lite(?:[);/ ]|$)",
  pat! "(?i)Prime_18x9(_LTE)?(?:[);/ ]|$)",
  pat! "(?i)Q_Smart_BE(?:[);/ ]|$)",
  pat! "(?i)Q-Smart_Plus(?:[);/ ]|$)",
  pat! "(?i)SmartView_9[_.]6_3G",
  pat! "(?i)myPhone[ _]([^;/)]+)( Build|[;)])",
  pat! "(?i)myTab[ _]?([^;/]+)(?: Build|[;)])",
  pat! "(?i)(?:nJoy[_ ])?(Deimos 7|Kali_8|Turnus_8|Tityos_10|Arcas_7|Theia_10|Chronos_10)(?:[);/ ]|$)",
  pat! "(?i)neocore_?",
  pat! "(?i)neocore_N1G1(?:[);/ ]|$)",
  pat! "(?i)neocore E1-2(?:[);/ ]|$)",
  pat! "(?i)neocore_E1R1(?:[);/ ]|$)",
  pat! "(?i)NEOCORE_E2(?:[);/ ]|$)",
  pat! "(?i)NODROPOUT[_ ]",
  pat! "(?i)NODROPOUT[_ ]([^/;)]+)(?: Build|[);])",
  pat! "(?i)(?:AFTWI001|OK Google TV)(?:[);/ ]|$)",
  pat! "(?i)phoneOne[ -]?([a-z0-9]+)",
  pat! "(?i)(?:2000_000170_00)(?:[);/ ]|$)",
  pat! "(?i)(43SFSW4M)(?:[);/ ]|$)",
  pat! "(?i)Texet|(NaviPad [^/;]*) Build|TM-(?:1046|1058|1057|1067|3000|3200R|3500|400[34]|4071|450[34]|451[30]|4377|4082R|508[34]|550[358]|5010|5017|507[4-7]|5[23]77|6003|6906|702[13]|7055HD|709[69]|9747BT|9758|9751HD|9767|5513|520[410]|507[13]|558[134]|570[23]|7859|8044|9748[ _]3G|9720|7047HD[ _]3G|9757|9740|4982|4515|4083|500[3567]|5571|3204R|5016|8043|7047HD[ _]3G|8041HD|8066|705[23]|7041|8041HD|8051|8048|974[96]|973[78]W|974[170]|9743W|9750HD|7043XD|7049|7887|7037W|702[46])|TB-(771A|711A)|X Point|X-Force[\\(-]?TM-5009\\)?|X-Plus[\\(-]?TM-5577\\)?|TM_5011|X-pad (?:AIR 8|iX 7|NAVI 7\\.[35]|NAVI 10|SKY 8\\.1|STYLE 8|STYLE 10\\.1|HIT|LITE 7\\.[12]|QUAD (?:7\\.2|10|7)|SHINE 8\\.1)(?: 3G)?",
  pat! "(?i)(NaviPad [^/;]*) Build",
  pat! "(?i)X-pad SHINE 8\\.1 3G",
  pat! "(?i)X-pad QUAD 7\\.2 3G",
  pat! "(?i)X-pad LITE (7\\.[12])",
  pat! "(?i)X-pad STYLE 10\\.1 3G",
  pat! "(?i)(X-pad (?:AIR 8|iX 7) 3G)",
  pat! "(?i)TM-7096|X-pad NAVI 7\\.3 3G",
  pat! "(?i)X-pad NAVI 7\\.5 3G",
  pat! "(?i)X-pad SKY 8\\.1 3G",
  pat! "(?i)TM-1046|X-pad NAVI 10 3G",
  pat! "(?i)(TM-(?:1057|1067|6906|8043|9748[_ ]3G|9740|9757(?:[_ ]3G)?|7047HD[ _]3G|9747BT|9751HD|702[13]|705[23]|7041|9720|7047HD[_ ]3G|8044|8041HD|973[78]W|9743W|974[710]|9750HD|7043XD|7037W|702[46])|TB-(?:771A|711A|8041HD))",
  pat! "(?i)(TM-(?:3000|3200R|400[34]|4083|4377|4504|451[30]|500[35]|5[23]77|5571|3204R|520[04]|5581|5505|5017|507[13-7]|5081|6003|5513))",
  pat! "(?i)TM-508(3|4)",
  pat! "(?i)TM-558(3|4)",
  pat! "(?i)TM-(5016|3500)",
  pat! "(?i)TEXET[_ ]IX-MINI",
  pat! "(?i)X-Force[\\(-]?TM-5009\\)?",
  pat! "(?i)X-Plus[\\(-]?TM-5577\\)?",
  pat! "(?i)teXet[_ ]X-medium[_ ]plus",
  pat! "(?i)Vmobile[ _]",
  pat! "(?i)Vmobile[ _](J7)(?:[);/ ]|$)"]

/-- `__dr_re`, from item 12000 on (device_repo.go:30336-30585). -/
def drRe_48 : List (List Chunk) := [
  pat! "(?i)Vmobile XS Pro(?:[);/ ]|$)",
  pat! "(?i)waipu tv stick(?:[);/ ]|$)",
  pat! "(?i)OWN[ _]|(?:S4035[ _][34]G|Smart8|SMART PLUS LTE|FUN VALUE (?:4G|Lite)|FUN_VALUE)(?:[);/ ]|$)",
  pat! "(?i)FUN ([67])",
  pat! "(?i)FUN 5\\(4G\\)",
  pat! "(?i)(?:OWN[ _])?(S3000D|S3010|S3020D|S4010|S4025|S4035[ _][34]G)",
  pat! "(?i)FUN[_ ]VALUE(?: 4G)?",
  pat! "(?i)Smart ?(8|9)(?:[);/ ]|$)",
  pat! "(?i)SMART PLUS LTE(?:[);/ ]|$)",
  pat! "(?i)FBMD/(?:Aspire E5-421G|Z5WAL|One S1003);",
  pat! "(?i)FBMD/Aspire E5-421G;",
  pat! "(?i)FBMD/Z5WAL;",
  pat! "(?i)FBMD/One S1003;",
  pat! "(?i)FBMD/(?:Alienware [0-9]{2,3}R[0-9]{1,2}|Area-51m|R3|R4|Alienware Aurora R[0-9]+(:? [0-9]+)?);",
  pat! "(?i)Alienware 15R3;",
  pat! "(?i)Alienware 17R4;",
  pat! "(?i)Area-51m;",
  pat! "(?i)Aurora (R[0-9]+)",
  pat! "(?i)FBMD/(?:K50IN|K54L|T100HAN|T103HAF|UX360CAK|X550LB|X553MA|X555LN|X556UQK);",
  pat! "(?i)FBMD/K50IN;",
  pat! "(?i)FBMD/K54L;",
  pat! "(?i)FBMD/T100HAN;",
  pat! "(?i)FBMD/T103HAF;",
  pat! "(?i)FBMD/UX360CAK;",
  pat! "(?i)FBMD/X550LB;",
  pat! "(?i)FBMD/X553MA;",
  pat! "(?i)FBMD/X555LN;",
  pat! "(?i)FBMD/X556UQK;",
  pat! "(?i)FBMD/(?:Latitude E4300|Inspiron 3541|XPS 15 95[35]0);",
  pat! "(?i)FBMD/((?:Compaq|HP) |23-f364)",
  pat! "(?i)HP EliteBook (25[67]0p)",
  pat! "(?i)HP ProBook (440 G5|6[35]60b)",
  pat! "(?i)FBMD/(?:37021C5|80E5|80SM|80VR);",
  pat! "(?i)FBMD/37021C5;",
  pat! "(?i)FBMD/80E5;",
  pat! "(?i)FBMD/80SM;",
  pat! "(?i)FBMD/80VR;",
  pat! "(?i)FBMD/SCL141CTP;",
  pat! "(?i)FBMD/TH360R12\\.32CTW;",
  pat! "(?i)Satellite (A[25]00|C650|C855|L650|S855)",
  pat! "(?i)Satellite ([^;\\)]+);",
  pat! "(?i)(?:Apple-)?iPod",
  pat! "(?i)(?:Apple-)?iPod1[C,_]?1",
  pat! "(?i)(?:Apple-)?iPod2[C,_]?1",
  pat! "(?i)(?:Apple-)?iPod3[C,_]?1",
  pat! "(?i)(?:Apple-)?iPod4[C,_]?1",
  pat! "(?i)(?:Apple-)?iPod5[C,_]?1",
  pat! "(?i)(?:Apple-)?iPod7[C,_]?1",
  pat! "(?i)(?:Apple-)?iPod9[C,_]?1|iPodTouch7",
  pat! "(?i)(?:Apple-)?iPod",
  pat! "(?i)COWON ([^;/]+) Build",
  pat! "(?i)Diofox[ _](M8|M10|M508)(?:[);/ ]|$)",
  pat! "(?i)Fanvace[- _]([^;/)]+)(?: Build|[);])",
  pat! "(?i)FiiO M(11S|1[157]|6)",
  pat! "(?i)KuGou[_ -](P5)",
  pat! "(?i)MECHEN[- _]([^;/)]+)[- _]Pro(?: Build|[);])",
  pat! "(?i)MECHEN[- _]([^;/)]+)(?: Build|[);])",
  pat! "(?i)Oilsky (M501|M303)(?:-Pro)?(?:[);/ ]|$)",
  pat! "(?i)(M501|M303)",
  pat! "(?i)(SV-MV100)",
  pat! "(?i)YP-(G[SIPB]?1|G[57]0|GB70D)",
  pat! "(?i)YP-G[B]?1",
  pat! "(?i)Shanling (M6\\(21\\))",
  pat! "(?i)(Y57A)(?:[);/ ]|$)",
  pat! "(?i)(SLTDVD102[34])",
  pat! "(?i)(DV-PTB1080)(?:[);/ ]|$)",
  pat! "(?i)Erisson[_ ]Shell",
  pat! "(?i)ALDINORD[;,)]",
  pat! "(?i)_TV_[A-Z0-9]+_([0-9]{4});",
  pat! "(?i)ALDISUED[;,)]",
  pat! "(?i)ALDISUED, ([a-z0-9_ -]+), (?:wired|wireless)",
  pat! "(?i)_TV_[A-Z0-9]+_([0-9]{4});",
  pat! "(?i)(LE(?:32|43)S5970(?:s)?-(?:20|28|30)|LE55U7970-30|LE43S5977-20|U60856|S50856)",
  pat! "(?i)AOC;([a-z0-9_ \\-/]+);",
  pat! "(?i)ARRIS[;,)]",
  pat! "(?i)AWOX[;,)]",
  pat! "(?i)LGE/[^/]+/AWOX; ([a-z0-9]+);",
  pat! "(?i)AXEN[;,)]",
  pat! "(?i)LGE/[^/]+/AXEN; ([a-z0-9]+)-",
  pat! "(?i)AYA[;,)]",
  pat! "(?i)_TV_[A-Z0-9]+_([0-9]{4});",
  pat! "(?i)Airties; ?([^);/]+)",
  pat! "(?i)LGE/SQY/RCA; ([a-z0-9]+);",
  pat! "(?i)ALLSTAR[;,)]",
  pat! "(?i)LGE/[^/]+/ALLSTAR; ([a-z0-9]+);",
  pat! "(?i)Altech UEC; ?([^);/]+)",
  pat! "(?i)ALTIMO[;,]",
  pat! "(?i)Altus[;,)]",
  pat! "(?i)Amazon.+AMZ",
  pat! "(?i)Amazon.+AMZ-([a-z0-9_ -]+)_Build_",
  pat! "(?i)ATLANTIC[;,)]",
  pat! "(?i)_TV_[A-Z0-9]+_([0-9]{4});",
  pat! "(?i)Beko[;,)]",
  pat! "(?i)Blaupunkt_UMC[;,)]",
  pat! "(?i)Botech[;,)]",
  pat! "(?i)LGE/[^/]+/BOTECH; ([a-z0-9]+);",
  pat! "(?i)(ATV R[12])",
  pat! "(?i)BUSH[;,)]",
  pat! "(?i)_TV_[A-Z0-9]+_([0-9]{4});",
  pat! "(?i)CLAYTON[;,)]",
  pat! "(?i)_TV_[A-Z0-9]+_([0-9]{4});",
  pat! "(?i)CECOTEC[;,)]",
  pat! "(?i)_TV_[A-Z0-9]+_([0-9]{4});",
  pat! "(?i)CELCUS[;,)]",
  pat! "(?i)Changhong; ?([^);/]+)",
  pat! "(?i)CONTINENTAL_EDI[;,)]",
  pat! "(?i)_TV_[A-Z0-9]+_([0-9]{4});",
  pat! "(?i)CROWN[;,)]",
  pat! "(?i)_TV_[A-Z0-9]+_([0-9]{4});",
  pat! "(?i)Cultraview690[;,]",
  pat! "(?i)LaTivu_(?:\\d+[.\\d]+)_([0-9]{4})",
  pat! "(?i)DIJITSU[;,)]",
  pat! "(?i)LGE/[^/]+/DIJITSU; ([a-z0-9]+);",
  pat! "(?i)DIKOM[;,)]",
  pat! "(?i)_TV_[A-Z0-9]+_([0-9]{4});",
  pat! "(?i)DIORA[;,)]",
  pat! "(?i)_TV_[A-Z0-9]+_([0-9]{4});",
  pat! "(?i)Daewoo[;,)]",
  pat! "(?i)_TV_[A-Z0-9]+_([0-9]{4});",
  pat! "(?i)DIGIHOME[;,)]",
  pat! "(?i)_TV_[A-Z0-9]+_([0-9]{4});",
  pat! "(?i)DYON[;,)]",
  pat! "(?i)LGE/[^/]+/DYON; ([a-z0-9]+)",
  pat! "(?i)EAS_ELECTRIC[;,)]",
  pat! "(?i)_TV_[A-Z0-9]+_([0-9]{4});",
  pat! "(?i)EGL[;,)]",
  pat! "(?i)_TV_[A-Z0-9]+_([0-9]{4});",
  pat! "(?i)ELECTRONIA[;,)]",
  pat! "(?i)_TV_[A-Z0-9]+_([0-9]{4});",
  pat! "(?i)ENDURO[;,)]",
  pat! "(?i)_TV_[A-Z0-9]+_([0-9]{4});",
  pat! "(?i)EDENWOOD[;,)]",
  pat! "(?i)_TV_[A-Z0-9]+_([0-9]{4});",
  pat! "(?i)ELEKTROLAND[;,)]",
  pat! "(?i)_TV_[A-Z0-9]+_([0-9]{4});",
  pat! "(?i)ESSENTIELB[;,)]",
  pat! "(?i)_TV_[A-Z0-9]+_([0-9]{4});",
  pat! "(?i)Expressluck[;,)]",
  pat! "(?i)([24]K)TV",
  pat! "(?i)FU[;,)]",
  pat! "(?i)_TV_[A-Z0-9]+_([0-9]{4});",
  pat! "(?i)FINIX[;,)]",
  pat! "(?i)_TV_[A-Z0-9]+_([0-9]{4});",
  pat! "(?i)FITCO, ([a-z0-9_ -]+), (?:wired|wireless)",
  pat! "(?i)FOX[;,)]",
  pat! "(?i)LGE/[^/]+/FOX; ([a-z0-9-]+);",
  pat! "(?i)FUJICOM[;,)]",
  pat! "(?i)_TV_[A-Z0-9]+_([0-9]{4});",
  pat! "(?i)FINLUX[;,)]",
  pat! "(?i)_TV_[A-Z0-9]+_([0-9]{4});",
  pat! "(?i)FUEGO[;,)]",
  pat! "(?i)_TV_[A-Z0-9]+_([0-9]{4});",
  pat! "(?i)FUNAI[;,)]",
  pat! "(?i)GN_ELECTRONICS[;,)]",
  pat! "(?i)_TV_[A-Z0-9]+_([0-9]{4});",
  pat! "(?i)GOGEN[;,)]",
  pat! "(?i)_TV_[A-Z0-9]+_([0-9]{4});",
  pat! "(?i)GRAETZ[;,)]",
  pat! "(?i)_TV_[A-Z0-9]+_([0-9]{4});",
  pat! "(?i)(OWB|(?:Amazon.+)?Grundig)",
  pat! "(?i)Amazon.+Grundig-([a-z0-9_ -]+)_Build_",
  pat! "(?i)HIGH_ONE[;,)]",
  pat! "(?i)_TV_[A-Z0-9]+_([0-9]{4});",
  pat! "(?i)HOFER[;,)]",
  pat! "(?i)_TV_[A-Z0-9]+_([0-9]{4});",
  pat! "(?i)HUMELAB[;,)]",
  pat! "(?i)_TV_[A-Z0-9]+_([0-9]{4});",
  pat! "(?i)(?:HHW_)?HAIER",
  pat! "(?i)HANSEATIC[;,)]",
  pat! "(?i)_TV_[A-Z0-9]+_([0-9]{4});",
  pat! "(?i)HI-LEVEL[;,)]",
  pat! "(?i)_TV_[A-Z0-9]+_([0-9]{4});",
  pat! "(?i)Hisense|Eurofins_Digital_Testing",
  pat! "(?i)(L[A-Z]{2,3}[0-9]{2}[A-Z][0-9]{3,4}[A-Z]{0,6}[0-9]?[A-Z]?)",
  pat! "(?i)(H[A-Z]?[0-9]{2}[A-Z][0-9]{3,4}[A-Z]{0,4})",
  pat! "(?i)SmartTV_([0-9]{4})_",
  pat! "(?i)Hitachi[;,)]",
  pat! "(?i)_TV_[A-Z0-9]+_([0-9]{4});",
  pat! "(?i)HORIZON[;,)]",
  pat! "(?i)_TV_[A-Z0-9]+_([0-9]{4});",
  pat! "(?i)HOTEL[;,)]",
  pat! "(?i)Humax|hdr1000s",
  pat! "(?i)(HD-FOX C|HD (FOX\\+|NANO)|iCord (HD\\+|MINI|Cable)|(CX|IR)HD-5100(C|S)|HM9503HD)",
  pat! "(?i)Humax; ([^);/]+)",
  pat! "(?i)HYUNDAI[;,)]",
  pat! "(?i)LGE/[^/]+/HYUNDAI; ([a-z0-9]+);",
  pat! "(?i)_TV_[A-Z0-9]+_([0-9]{4});",
  pat! "(?i)INNOHIT[;,)]",
  pat! "(?i)LGE/[^/]+/INNOHIT; ([a-z0-9-]+);",
  pat! "(?i)(Vantage|VT-100|VT-1)",
  pat! "(?i)inverto; ([^);/]+)",
  pat! "(?i)(Volksbox Web Edition|Volksbox Essential|Volksbox II|Volksbox)",
  pat! "(?i)AFTSO001|JVC[;,)]",
  pat! "(?i)LGE/[^/]+/JVC; ([a-z0-9-]+);",
  pat! "(?i)_TV_[A-Z0-9]+_([0-9]{4});",
  pat! "(?i)KUBO[;,)]",
  pat! "(?i)KALLEY[;,)]",
  pat! "(?i)KENDO[;,)]",
  pat! "(?i)_TV_[A-Z0-9]+_([0-9]{4});",
  pat! "(?i)KYDOS[;,)]",
  pat! "(?i)_TV_[A-Z0-9]+_([0-9]{4});",
  pat! "(?i)LGE ?;|43UN68006LA",
  pat! "(?i)KEY000000(2E|2F|3B|3F)",
  pat! "(?i)(NetCast [0-9]{1}\\.[0-9]{1}|GLOBAL_PLAT3)",
  pat! "(?i)(OLED[0-9]{2}[A-Z0-9]{3}[A-Z]{2})",
  pat! "(?i)(OLED[0-9]{2}[A-Z][0-9][A-Z](?:-Z)?)",
  pat! "(?i)(OLED[0-9]{2}[A-Z0-9]{2})",
  pat! "(?i)([0-9]{2}[A-Z]{2}[0-9]{4}[A-Z0-9]{1}[A-Z]{2})",
  pat! "(?i)([0-9]{2}NANO[0-9]{3}[A-Z]{2})",
  pat! "(?i)([0-9]{2}NANO[0-9]{2})",
  pat! "(?i)LGE;? (?:HOTEL\\-TV; )?([0-9]{2}[a-z0-9]{4,9}(?:\\-[a-z]{2,3})?)",
  pat! "(?i)LGE;? ?([0-9]{2}[A-Z]{2}[0-9]{2,4}[A-Z]?)",
  pat! "(?i)LGE;? ?([0-9]{2}QNED[0-9]{3}[A-Z]{2})",
  pat! "(?i)LAURUS[;,)]",
  pat! "(?i)_TV_[A-Z0-9]+_([0-9]{4});",
  pat! "(?i)LENCO[;,)]",
  pat! "(?i)_TV_[A-Z0-9]+_([0-9]{4});",
  pat! "(?i)Lifemaxx[;,)]",
  pat! "(?i)_TV_[A-Z0-9]+_([0-9]{4});",
  pat! "(?i)LINSAR[;,)]",
  pat! "(?i)_TV_[A-Z0-9]+_([0-9]{4});",
  pat! "(?i)Loewe[^$]",
  pat! "(?i)([A-Z]{2}[0-9]{3})",
  pat! "(?i)DIXONS-LOGIK[;,)]",
  pat! "(?i)_TV_[A-Z0-9]+_([0-9]{4});",
  pat! "(?i)LUXOR[;,)]",
  pat! "(?i)_TV_[A-Z0-9]+_([0-9]{4});",
  pat! "(?i)MEGA_VISION[;,)]",
  pat! "(?i)_TV_[A-Z0-9]+_([0-9]{4});",
  pat! "(?i)MIIA[;,)]",
  pat! "(?i)LGE/[^/]+/MIIA; (MT[a-z0-9]+);",
  pat! "(?i)MStar[;,)]",
  pat! "(?i)([24])KTV18",
  pat! "(?i)MTC[;,)]",
  pat! "(?i)([24])K_Android_TV_V01",
  pat! "(?i)MEDION, ([a-z0-9_ -]+), (?:wired|wireless)",
  pat! "(?i)_TV_[A-Z0-9]+_([0-9]{4});",
  pat! "(?i)Metz; ([a-z0-9]+);",
  pat! "(?i)MITCHELL_BROWN[;,)]",
  pat! "(?i)_TV_[A-Z0-9]+_([0-9]{4});",
  pat! "(?i)MYROS[;,)]",
  pat! "(?i)_TV_[A-Z0-9]+_([0-9]{4});",
  pat! "(?i)NABO[;,)]",
  pat! "(?i)_TV_[A-Z0-9]+_([0-9]{4});",
  pat! "(?i)NEXON[;,)]",
  pat! "(?i)_TV_[A-Z0-9]+_([0-9]{4});",
  pat! "(?i)NILAIT[;,)]",
  pat! "(?i)_TV_[A-Z0-9]+_([0-9]{4});",
  pat! "(?i)NORMANDE[;,)]",
  pat! "(?i)_TV_[A-Z0-9]+_([0-9]{4});"]

/-- `__dr_re`, from item 12250 on (device_repo.go:30586-30773). -/
def drRe_49 : List (List Chunk) := [
  pat! "(?i)NAVON[;,)]",
  pat! "(?i)_TV_[A-Z0-9]+_([0-9]{4});",
  pat! "(?i)NEO, ([a-z0-9_ -]+), (?:wired|wireless)",
  pat! "(?i)NEXT[;,)]",
  pat! "(?i)LGE/[^/]+/NEXT; ([a-z0-9-]+);",
  pat! "(?i)_TV_[A-Z0-9]+_([0-9]{4});",
  pat! "(?i)NOKIA[;,)]",
  pat! "(?i)_TV_[A-Z0-9]+_([0-9]{4});",
  pat! "(?i)NORDMENDE[;,)]",
  pat! "(?i)_TV_[A-Z0-9]+_([0-9]{4});",
  pat! "(?i)OCEANIC[;,)]",
  pat! "(?i)_TV_[A-Z0-9]+_([0-9]{4});",
  pat! "(?i)ONVO[;,)]",
  pat! "(?i)LGE/[^/]+/ONVO; ([a-z0-9]+);",
  pat! "(?i)ORAVA[;,)]",
  pat! "(?i)_TV_[A-Z0-9]+_([0-9]{4});",
  pat! "(?i)LGE/[^/]+/PEAQ; ([a-z0-9-]+);",
  pat! "(?i)Philips.+([0-9]{2}H[FHOU][HKLST][0-9]{4}[^),;]+)",
  pat! "(?i)PREMIER[;,)]",
  pat! "(?i)LGE/[^/]+/PREMIER; ([a-z0-9]+);",
  pat! "(?i)PROFILO[;,)]",
  pat! "(?i)Profilo[,;] ?([^),;/]+)",
  pat! "(?i)_TV_[A-Z0-9]+_([0-9]{4});",
  pat! "(?i)PROSONIC[;,)]",
  pat! "(?i)_TV_[A-Z0-9]+_([0-9]{4});",
  pat! "(?i)VIERA (201[1-9])",
  pat! "(?i)(DIGA [A-Z]{1}[0-9]{4})",
  pat! "(?i)DIGA Webkit ([A-Z]{1}[0-9]{4})",
  pat! "(?i)SmartTV(201[89]|202[0-2])",
  pat! "(?i)Panasonic\\..+\\.([0-9]{4})(?:[);/ ]|$)",
  pat! "(?i)Panasonic;Viera([0-9]{4});",
  pat! "(?i)_TV_[A-Z0-9_]+_([0-9]{4});",
  pat! "(?i)(?:Philips|TPVision)|NETTV/",
  pat! "(?i)(?:Philips|TPVision)[,;](?: |Philips;)?([^),;]+)",
  pat! "(?i)NETTV/[0-9.]{5}",
  pat! "(?i)POLAROID[;,)]",
  pat! "(?i)QILIVE[;,)]",
  pat! "(?i)_TV_[A-Z0-9]+_([0-9]{4});",
  pat! "(?i)RCA;",
  pat! "(?i)RCA; ([a-z0-9]+);",
  pat! "(?i)REGAL[;,)]",
  pat! "(?i)_TV_[A-Z0-9]+_([0-9]{4});",
  pat! "(?i)SCHAUB_LORENZ[;,)]",
  pat! "(?i)_TV_[A-Z0-9]+_([0-9]{4});",
  pat! "(?i)SCHONTECH[;,)]",
  pat! "(?i)_TV_[A-Z0-9]+_([0-9]{4});",
  pat! "(?i)SEG[;,)]",
  pat! "(?i)_TV_[A-Z0-9]+_([0-9]{4});",
  pat! "(?i)SEHMAX[;,)]",
  pat! "(?i)_TV_[A-Z0-9]+_([0-9]{4});",
  pat! "(?i)SULPICE_TV[;,)]",
  pat! "(?i)_TV_[A-Z0-9]+_([0-9]{4});",
  pat! "(?i)SUNGATE[;,)]",
  pat! "(?i)LGE/[^/]+/SUNGATE; ([a-z0-9-]+);",
  pat! "(?i)Saba[;,)]",
  pat! "(?i)_TV_[A-Z0-9]+_([0-9]{4});",
  pat! "(?i)Salora(?:_cx)?[;,)]",
  pat! "(?i)_TV_[A-Z0-9]+_([0-9]{4});",
  pat! "(?i)Samsung.*Smart\\s*TV|Tizen.*TV|Maple_2011",
  pat! "(?i)SmartTV(201[2-9]|202[0-4]):([^);/]+)",
  pat! "(?i)SmartTV(201[2-9]|202[0-4])",
  pat! "(?i)SCHNEIDER[;,)]",
  pat! "(?i)LGE/[^/]+/SCHNEIDER; ([a-z0-9-]+);",
  pat! "(?i)Selevision; (?:Selevision )?([^);/]+)",
  pat! "(?i)(EMC1000i)",
  pat! "(?i)(?:UMC-)?Sharp",
  pat! "(?i)SHARP, ([a-z0-9_ -]+), (?:wired|wireless)",
  pat! "(?i)Sharp-([^);/]+)",
  pat! "(?i)Sharp[,;] ?([^),;/]+)",
  pat! "(?i)(LE[0-9]{3}[A-Z]{0,3})",
  pat! "(?i)LC-([^);/,]+)",
  pat! "(?i)SILVA_SCHNEIDER[;,)]",
  pat! "(?i)_TV_[A-Z0-9]+_([0-9]{4});",
  pat! "(?i)SKYTECH[;,)]",
  pat! "(?i)LGE/[^/]+/SKYTECH; ([a-z0-9-]+);",
  pat! "(?i)Sky_?worth|SKW690|SWTV[;,)]",
  pat! "(?i)Sky_worth;([^);/]+)",
  pat! "(?i)LaTivu_(?:\\d+[.\\d]+)_([0-9]{4})",
  pat! "(?i)Smart[;,)]",
  pat! "(?i)Smart; ([^);/]+)",
  pat! "(?i)([A-Z]{2}[0-9]{2}|ZAPPIX)",
  pat! "(?i)SMARTTECH[;,)]",
  pat! "(?i)LGE/[^/]+/SMARTTECH; ([a-z0-9]+);",
  pat! "(?i)SOLAS[;,]",
  pat! "(?i)(KDL-GR[12])",
  pat! "(?i)KDL-GN([56])",
  pat! "(?i)(?:BRAVIA )(2K GB ATV3|[48]K UR[123]|4K GB ATV3|4K GB|4K VH2|4K 2015|2015|VH1|VU1)(?:[);/ ]|VH1|4K VH2|$)",
  pat! "(?i)(K[DM]L?-?[0-9]{2}[A-Z]{1}[0-9]{4}[A-Z]{1})",
  pat! "(?i)(K[DM]L?-?[0-9]{2}[A-Z]{1}[0-9]{3}[A-Z]{1})",
  pat! "(?i)(K[DM]L?-?[0-9]{2}[A-Z]{1,2}[0-9]{1,5})",
  pat! "(?i)SSMART[;,)]",
  pat! "(?i)LGE/[^/]+/SSMART; ([a-z0-9-]+);",
  pat! "(?i)STAR LIGHT[;,)]",
  pat! "(?i)STILEVS[;,)]",
  pat! "(?i)LGE/[^/]+/STILEVS; ([a-z0-9]+);",
  pat! "(?i)SUNNY[;,)]|SN55FMN243-0246",
  pat! "(?i)(SN55FMN243-0246)",
  pat! "(?i)(?:ATMACA|XianYou)/SUNNY; ([a-z0-9-]+);",
  pat! "(?i)(?:ATMACA|XianYou)/SUNNY.+(2018)\\)",
  pat! "(?i)(?:ATMACA|XianYou)/SUNNY;",
  pat! "(?i)TALBERG[;,)]",
  pat! "(?i)_TV_[A-Z0-9]+_([0-9]{4});",
  pat! "(?i)TAUBE[;,)]",
  pat! "(?i)LGE/[^/]+/TAUBE; ([a-z0-9]+);",
  pat! "(?i)(?:Amazon.+)?TCL",
  pat! "(?i)(32D1820|(?:39|55)D2900|32D2930|(?:32|43)S4900)",
  pat! "(?i)TCL[,;] ?([^),;/]+)",
  pat! "(?i)Amazon.+TCL-([a-z0-9_ -]+)_Build_",
  pat! "(?i)SCBC[;,)]|_TV_[A-Z0-9_]+_TCL_SCBC",
  pat! "(?i)_TV_[A-Z0-9]+_TCL_SCBC_Tbrowser_2k20",
  pat! "(?i)TDSystems[;,)]",
  pat! "(?i)SmartTV(2019|2020)",
  pat! "(?i)TOKYO[;,)]",
  pat! "(?i)TUCSON[;,)]",
  pat! "(?i)_TV_[A-Z0-9]+_([0-9]{4});",
  pat! "(?i)((DigiCorder|MultyVision|Digit) (ISIO S|ISIO C|ISIO))",
  pat! "(?i)_TV_[A-Z0-9]+_([0-9]{4});",
  pat! "(?i)TECHNIKA[;,)]",
  pat! "(?i)_TV_[A-Z0-9]+_([0-9]{4});",
  pat! "(?i)([A-Z]{1}-[0-9]{3})",
  pat! "(?i)Techwood[;,)]",
  pat! "(?i)_TV_[A-Z0-9]+_([0-9]{4});",
  pat! "(?i)PREO[;,)]",
  pat! "(?i)LGE/[^/]+/PREO; ([a-z0-9-]+);",
  pat! "(?i)_TV_[A-Z0-9]+_([0-9]{4});",
  pat! "(?i)THOMSON[,]?|THOM",
  pat! "(?i)(TB28D19DHS-01|T28D18SFS-01B)",
  pat! "(?i)(T32RTM5040|T32D18SFS-01B)",
  pat! "(?i)(T43FSL5031|T43D18SFS-01B)",
  pat! "(?i)(T40D18SFS-01B)",
  pat! "(?i)(T49D18SFS-01B)",
  pat! "(?i)(T55D18[SD]FS-01B)",
  pat! "(?i)Toptech690[;,]",
  pat! "(?i)LaTivu_(?:\\d+[.\\d]+)_([0-9]{4})",
  pat! "(?i)(?:Amazon.+)?Toshiba",
  pat! "(?i)(([0-9]{2}|DTV_)[A-Z]{2}[0-9]{1,3})",
  pat! "(?i)Amazon.+Toshiba-([a-z0-9_ -]+)_Build_",
  pat! "(?i)_TV_[A-Z0-9]+_([0-9]{4});",
  pat! "(?i)THTF_CVTE[;,)]",
  pat! "(?i)TURBO-?X[;,)]",
  pat! "(?i)_TV_[A-Z0-9]+_([0-9]{4});",
  pat! "(?i)UNITED[;,)]",
  pat! "(?i)_TV_[A-Z0-9]+_([0-9]{4});",
  pat! "(?i)OEM, ([a-z0-9_ -]+), (?:wired|wireless)|_TV_[A-Z0-9]+_([0-9]{4});|LaTivu_(?:\\d+[.\\d]+)_([0-9]{4})|LGE/[^/]+/[^/]+;",
  pat! "(?i)LGE/[^/]+/[^/]+; ([a-z0-9-]+);",
  pat! "(?i)_TV_[A-Z0-9]+_([0-9]{4});",
  pat! "(?i)LaTivu_(?:\\d+[.\\d]+)_([0-9]{4})",
  pat! "(?i)VANGUARD[;,)]",
  pat! "(?i)_TV_[A-Z0-9]+_([0-9]{4});",
  pat! "(?i)VORTEX[;,)]",
  pat! "(?i)_TV_[A-Z0-9]+_([0-9]{4});",
  pat! "(?i)VOX[;,)]",
  pat! "(?i)_TV_[A-Z0-9]+_([0-9]{4});",
  pat! "(?i)(?:Vestel.+VESTEL|(?:BBC_CUSTOMERS|VESTEL)[;,)])",
  pat! "(?i)_TV_[A-Z0-9]+_([0-9]{4});",
  pat! "(?i)videoweb|tv2n",
  pat! "(?i)(tv2n)",
  pat! "(?i)(videowebtv)",
  pat! "(?i)VISITECH[;,)]",
  pat! "(?i)_TV_[A-Z0-9]+_([0-9]{4});",
  pat! "(?i)WELLINGTON[;,)]",
  pat! "(?i)_TV_[A-Z0-9]+_([0-9]{4});",
  pat! "(?i)WONDER[;,)]",
  pat! "(?i)_TV_[A-Z0-9]+_([0-9]{4});",
  pat! "(?i)WALKER[;,)]",
  pat! "(?i)_TV_[A-Z0-9]+_([0-9]{4});",
  pat! "(?i)WALTHAM[;,)]",
  pat! "(?i)_TV_[A-Z0-9]+_([0-9]{4});",
  pat! "(?i)WeByLoewe[;,)]",
  pat! "(?i)WESTON[;,)]",
  pat! "(?i)LGE/[^/]+/WESTON; ([a-z0-9]+);",
  pat! "(?i)X-VISION[;,)]",
  pat! "(?i)XGEM[;,)]",
  pat! "(?i)XGEM[;,)] ?([a-z0-9]+)(?:[);/ ]|$)",
  pat! "(?i)Amazon.+Xiaomi",
  pat! "(?i)Amazon.+Xiaomi-([a-z0-9_ -]+)_Build_",
  pat! "(?i)ZIMMER[;,)]",
  pat! "(?i)LGE/[^/]+/ZIMMER; ([a-z0-9-]+);",
  pat! "(?i)ANDERSSON[;,)]",
  pat! "(?i)_TV_[A-Z0-9]+_([0-9]{4});",
  pat! "(?i)coocaa[;,)]",
  pat! "(?i)coocaa; ([a-z0-9]+);",
  pat! "(?i)ELIT[;,)]",
  pat! "(?i)_TV_[A-Z0-9]+_([0-9]{4});",
  pat! "(?i)OK[;,)]",
  pat! "(?i)_TV_[A-Z0-9]+_([0-9]{4});",
  pat! "(?i)SIMFER[;,)]",
  pat! "(?i)LGE/[^/]+/SIMFER; ([a-z0-9]+);"]

/-- `__dr_re` (device_repo.go). -/
def drRe : List (List Chunk) := drRe_0 ++ drRe_1 ++ drRe_2 ++ drRe_3 ++ drRe_4 ++ drRe_5 ++ drRe_6 ++ drRe_7 ++ drRe_8 ++ drRe_9 ++ drRe_10 ++ drRe_11 ++ drRe_12 ++ drRe_13 ++ drRe_14 ++ drRe_15 ++ drRe_16 ++ drRe_17 ++ drRe_18 ++ drRe_19 ++ drRe_20 ++ drRe_21 ++ drRe_22 ++ drRe_23 ++ drRe_24 ++ drRe_25 ++ drRe_26 ++ drRe_27 ++ drRe_28 ++ drRe_29 ++ drRe_30 ++ drRe_31 ++ drRe_32 ++ drRe_33 ++ drRe_34 ++ drRe_35 ++ drRe_36 ++ drRe_37 ++ drRe_38 ++ drRe_39 ++ drRe_40 ++ drRe_41 ++ drRe_42 ++ drRe_43 ++ drRe_44 ++ drRe_45 ++ drRe_46 ++ drRe_47 ++ drRe_48 ++ drRe_49

end Verif.Data
