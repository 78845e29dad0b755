import Verif.Data.Bytes
/-
Generated by tools/gen_tables.py from device_repo.go. Do not edit.
-/
set_option maxRecDepth 10000
namespace Verif.Data

/-- `__dr_buf` (device_repo.go:30776-41986). -/
def drBuf : List Chunk := [
  chunk! "NikoncameraCoolpix S800cSamsungEK-GN120Galaxy NXEK-GC100Galaxy CameraEK-GC110Galaxy Camera WiFi onlyEK-GC200Galaxy Camera 2Galaxy Camera $1BMWcar browserCar (2022)JeepWagoneerMAC AUDIOMac Audio SproSproS ProTeslaQtCarBrowserModel STopwaysp9853i_1h10_vmmTS9ArchosconsoleGamepad $1JXDJXD_S601WIFIS601 WiFiMicrosoftXboxXbox Series XXbox One XXbox OneXBOX_ONE_EDXbox One SXbox 360Nintendo$1OUYARetroid Pocket$1 PlusPocket 4 Pro4 ProSanyoAplix_SANYO3DO TRYSegaDreamcastAplix_SEGASATURNSaturnSonyPlayStation 5PlayStation 4 PROPlayStation 4 ProPlayStation 3PlayStation $110moonstv2EsmartphoneE500A (2019)E450 (2018)360N7N7 LiteN7 ProN6 LiteN6N6 ProQ5 PlusN4N5N4AN5SN4S3GNETT9003GOtabletAplay $13QQoo! P-PadQoo! Q-PadQoo! SurfTS9708BSurf TS1009BQoo! LiteQoo! MetaQoo! Q-BookQoo! Glaze4Good$1 3GLight $1People $1PeopleKIDS S45Kids S454ife5IVETarzan F17 MobileSwegueDRENADrenaKamba_2Kamba 2Kamba7Ke treeGT40promaxGT40 Pro Max8848A&Kfeature phoneA1Alpha 20 PlusAlpha 20Alpha 21Alpha EcoA1 AlphaAlphaA95XA95X PlusPlusA95X F3 SlimF3 SlimMax+A95X_F3Air_IIF3 Air IIA95X MAXMaxA95X PROProA95X F3 AirF3 AirZ2 PlusAAUWM50ACDACD-Tab-10STab 10SAEEZOAFFIXelite AquariusElite AquariusAG MobileAGMGo Tab Access$1A9AGM_H_MAXH MaxH3H5 ProPad $1AI+AIDATAADT 1061ADT1012LADT 1012LELDE 10AIRONAirBook Pro 8SAISiris708LAVA PRO 4.5Kingcomm C500Super Smart Plus X3ALDI NORDALDI S\xc3\x9cDALLINmobileArenaAMAAMCVAMGOOAM350Jack ProTigoAM402ProntoAM410UnicoAM450SwiftAM508FuegoAM509UnoAM515D1AM518C1AM520AM523AM527GeoAM530AM535P1AM$1ANBERNICRGCUBERG CubeRG$1ANCELANSUL40ANS/L51L51ACK2326ArtiaANXONITAOCAOYODKGAOpensmart displayeTILE $1ARRISASSEAT&TCingular FlexCingular Flex 2Cingular Flip IVEA211005Fusion 5GU304AARadiant CoreU705AARadiant MaxEA211001Radiant Max 5GQS5509AAxiaSL219AVergeU318AACalypsoU319AACalypso 2U328AACalypso 3U380AACalypso 4U202AAMaestroEA1002Maestro MaxV350UMaestro PlusU626AAMaestro 3EA211002Motivate 2EABF22206AMotivate 3SL112AMotivate 4U668AAMotivate MaxWTATTRW2VistaU6080AAPropel 5GFusion ZATMANATMPC$1-$2ATOLperipheralSmart_PrimeSmart PrimeSmart_Slim_plusSmart Slim PlusAUPOZeus 10 ProAURISAUXAVHExcer G5.$1Excer G5Excer 10 ProExcer 8AWOXAXENAXXAAYYAAyat101Ayat 101AZOMRiver 1AccentNeonNubia $1Cameleon C$1 PlusSpeed $1Speed X2 PlusCameleon $1Pearl A4 LitePearl A4 PlusPearl A$1Tank P55FAST7 3GSurf 1000Kidzy 70AccesstyleAceBuzz $1 UltraBuzz $1 NoteBuzz $1 PrimeBUZZ 5 Pro PlusBuzz 5 Pro+Buzz $1 ProBuzz $1 LiteBuzz $1 PlusBUZZ 4SBuzz 4SBuzz $1Clever $1URBAN 1 ProUrban 1 ProUrban $1AcelineAcepadA130 ($1)AcerDA220HQLDA241HLA410_4GA410 4GBattleZone LTEIconia AATAB$1EACTAB1021ACTAB$1ET-108-11AEnduro T1TPA60WIconia Tab 8Iconia Tab 7A1-830Iconia A1Iconia Talk SA3-A20FHDIconia A3 FHDIconia A10 M1Iconia A3Iconia Tab 10Iconia One 7Iconia B1Iconia Talk 7Iconia One 8Iconia One 10A101VangoghA200Picasso EPicassoAcer One 7 4GOne 7 4GAcer One 7One 7GT-810Predator 8Acer_one_8_T2One 8 T2One 8 T4-82LENDURO Urban T$1Liquid E700Liquid MiniLiquid ExpressLiquid E1 DuoLiquid E2 DuoLiquid E3Liquid S1Liquid S2neoTouch P400neoTouch P300neoTouch S200beTouch E100Liquid Z$1Liquid Z110Liquid Z5 DuoLiquid Z4 DuoLiquid Jade ZLiquid Z530Liquid Z630Liquid Z630SLiquid ZestLiquid Zest 4GLiquid Zest PlusLiquid M330Liquid M220AcerTD600TD600Liquid JadeLiquid X2desktopTravelMate Spin $1TravelMate $1Aspire $1Iconia Tab A$1ActeckAT723CAikun AT723CBLECKBleckAdreamerLeoPad $1LeoPad 10AdronixMini Tab 7 3GAdvanADVAN M4M4ADVAN S40S40i7UI Lite i7US5E NXTI$1i4UI4UNASA PlusNASA ProNASAG5G5 EliteS50 4GG2 ProG3 ProE1C 3GE1C ProSketsa 2AdvanceIntroTR7989SmartPad SP$1Prime PR$1Hollogram HL$1Hollogram $1Advantage AirAfriOnephabletCygnus XCygnusGravity Z2Champion ProAileTVAILETVSmart TVAinolNumy 3G AX1Novo 7 Numy AX1 3GNumy 3G SwordNOVO10 SparkNovo 10 SparkAX10PRONumy AX10 ProNumy_3G_AX3Numy AX3 SwordNumy3GTalosNumy 3G TalosNumy_3G_BW1Numy 3G Talos 2Numy 3G AX9Numy 3G AX10RainbowII 3GNumy Rainbow-IIRainbow 3GNumy RainbowAurora-IINovo 7 Aurora IINovo7FireNovo 7 FireNovo 7 FlameNovo 7 ElfNovo 7Numy $1Novo $1 $2AirTouchAirTouch PERFORMANCEPERFORMANCE 10xPerformance 10xAirisTM50QZPhonePAD 83GAirnessAirphaHalo$1 ProAirtelAirpad 7-sAir",
  chunk! "Pad 7SImagineVIDA_i501Vida i501AiutoAiwaAW790Z9 PLUSZ9 PlusAW500AWM$1M300AIWAAndroidTVAndroidTV BoxAjibajib ajib X1X1ajib l1L1ajib i10I10AkaiTAB $1AKTB-703MZiLike X$1 MetaliLike X3 Pro SlimX5_PROiLike X5 ProiLike U5 ProGlory $1Eco E2Smart TV ($1)Si2157LG32AlbaAlba 575.710 TABLET10 TabletAlcatel3088X3088SmartFlipGo Flip 3Go Flip 4Go Flip VA405DLMyFlipA406DLMyFlip 2Quick FlipCingular Flip II4087U1SE LightOne Touch Pop Star6044DOne Touch Pop UpOne Touch Pop C1One Touch Pop C1 Dual SIMOne Touch Pop C2One Touch Pop C2 Dual SIM5036DOne Touch Pop C5 Dual SIMOne Touch Pop C7One Touch Pop C7 Dual SIMOne Touch Pop D1One Touch Pop D3One Touch Pop D5One Touch Pop 2 4\"One Touch Pop 2 4\" Dual SIMOne Touch Pop 2 4.5\"One Touch Pop 2 4.5\" Dual SIMOne Touch Pop 2 5\"One Touch Pop 2 5\" Dual SIMOne Touch Pop 3One Touch Pop 3 5\"One Touch Pop 3 5.5\"5015DOne Touch Pop 3 Dual SIMOne Touch Pop 45051DOne Touch Pop 4 Dual SIMOne Touch Pop 4SOne Touch Pop 4+7070XOne Touch Pop 4 6\"5057MOne Touch Pop MirageOne Touch Pop S37045YOne Touch Pop S7One Touch Idol 25042TOne Touch AstroIdolX 6040One Touch Idol X5027BOne Touch DawnA7 XL1B (2020)1B (2022)OnyxVolta4034T1E5002F1A (2020)4063F1L Plus4065F1L Pro3LA576CCKora A576CCOne Touch Fierce 2One Touch Fierce 45054NOne Touch Fierce XL6042DOne Touch FlashOne Touch Idol 2 miniOne Touch Idol 2 mini Dual SIMOne Touch Idol 2 mini SOne Touch Idol 2SOne Touch Idol 3One Touch Idol 3 5.5\"One Touch Idol 46070KOne Touch Idol 4SOne Touch Idol 5One Touch Idol 5SOne Touch Idol X+8030YOne Touch Hero 27055AOne Touch Hero 2C7053DOne Touch X15065NTRUA574BLRavenA577VLZipA466BGPixi Unite5056IOne Touch Optus X SmartA570BLOne Touch Pixi Avion LTEA571VLOne Touch Pixi Avion 4G LTEOne Touch Pixi FirstA464BGOne Touch Pixi GlitzA621BLOne Touch Pixi Glory4014DOne Touch Pixi 2One Touch Pixi 3 3.5\"One Touch Pixi 3 3.5\" Dual SIMOne Touch Pixi 3 4\"One Touch Pixi 3 4.5\"One Touch Pixi 3 4.5\" 4G9002XOne Touch Pixi 3 7\"9007AOne Touch Pixi 3 7\" 4G1T1T 101T 10 Smart1T 10 WiFiTEKE MiniSmart Tab 7\" WiFiOne Touch Pixi 3 7\" WiFi9009A1T 79009F1T 7\" 3G9309X1T 7\" (2021)1T 7.0\"9022XOne Touch Pixi 3 8\"9010XOne Touch Pixi 3 10\"One Touch Pixi 4 3.5\"One Touch Pixi 4 4\"One Touch Pixi 4 4.5\"One Touch Pixi 4 Plus PowerOne Touch Pixi 4 5\" 3G5041DOne Touch Pixi 4 5.0\"One Touch Pixi 4 5.5\" 3GOne Touch Pixi 4 5\" 4G5098OOne Touch Pixi TheatreA501DLA503DLA1XAxelA3A3 PlusA3 XL9203AA3 7\" 3G3T 8.0\"9026XA3 10\"A5A5 LED5085NA5 Max LEDA7A305049SA30 Plus5049ZA30 FierceA503X (2019)5049WRevvl9006WOne Touch Pixi 2 7\" 4GOne Touch Pixi 4 6\" 3GOne Touch Pixi 4 6\" 3G Dual SIMOne Touch Pixi 4 6\" 4GOne Touch Pixi 4 7\" 3G9015BOne Touch Pixi 4 7\" 4G8063One Touch Pixi 4 7\" WiFiOne Touch Pixi 5One Touch Pixi 7I2139005XOne Touch Pixi 89025QOne Touch Pop 4 7\" 4GP320XOne Touch POP 8P310XOne Touch POP 7P330XOne Touch POP 7S9020AOne Touch Trek HDOne Touch Go PlayWaveALCATEL_ONE_TOUCH_768TIslandOne Touch TribeALCATEL_one_touch_585One Touch 585ALCATEL_ONE_TOUCH_838One Touch 838ALCATEL_one_touch_813dOne Touch 813DALCATEL_one_touch_813One Touch 813OT871AOne Touch 871AP360XOne Touch Pop 10One Touch $1One Touch$1Shine LiteTIMXLTIM XL5085CPulseMixU3U5U5 3GU5 HD4047GU5 Lite4047AU5 Plus4044OCingular Flip 2Go FlipU501 (2021)1 Ultra11C1C (2019)1X (2019)1V (2020)1V (2021)6002J1V (2022)3C (2019)1S1S (2020)5030E1SP (2020)1SE (2020)1V1X5059SAvalon V5V35029E3 (2020)3L (2020)3V3C6027A3H Plus3X3X (2020)56065A5H Plus6062W73T 10\"3T 10.1\"Joy TabJoy Tab 2Alcatel UPBig Easy Plus5041CTETRAAlcorAlfawiseZ28 ProAligatorRX850RX850 eXtremoAll StarAllCallSHINE 12TShine 12TSHINE 12 PROShine 12 ProSHINE 12Shine 12HERO_20_PROHero 20 ProHERO 20Hero 20AllCall_S1_XS1 XAllCall_S1S1AllCall_RIO_SRio SAllCall_RIO_PRORio ProAllCall_RIORioHeat $1Rio XHot $1AllDocubeSmile XKidz Pad ProM5XSkPadM5SM5M5XPower M3U63 PlusiPlay 10 Pro 10.1\"XiPlay 8 ProT1201iPlay 60 ProiPlay60 mini TurboiPlay 60 Mini TurboiPlay $1 LiteiPlay $1 Mini ProiPlay $1 ProiPlay50 MiniiPlay 50 MiniiPlay $1X GameAllviewA4YouA4 YouAX2_FrenzyAX2 FrenzyAX5NanoQAX5 Nano QC6_DuoC6 DuoE$1 LivingE$1 JumpE3_SignE3 SignE4_LiteE4 LiteM9_ConnectM9 ConnectP43_EasyP43 EasyP$1 eMagicP",
  chunk! "$1 LiteP6_plusP6 PlusP6_QmaxP6 QmaxP$1 ProP4_QuadP4 QuadP9_Energy_Lite_2017P9 Energy Lite (2017)P9_Energy_SP9 Energy SP$1 Energy LiteP8_Energy_PROP8 Energy ProP$1 Energy MiniP$1 EnergyP7_SeonP7 SeonP7_XtremeP7 XtremeP$1 LifeP10_LifeP10 LifeP10_MaxP10 MaxP10_StyleP10 StyleV$1 Viper I 4GV1_Viper_IV1 Viper IV4_Viper_PROV4 Viper ProV2_Viper_X_plusV2 Viper X PlusV2 Viper $1X4_Soul_VisionX4 Soul VisionX7_Soul_StyleX7 Soul StyleX8_Soul_ProX8 Soul ProX$1 Soul XtremeX4 Soul Infinity $1X4 Soul Infinity PlusX$1 Soul LiteX4 Soul Mini SX$1 Soul MiniX3_Soul_PLUSX3 Soul PlusX$1 Soul ProX2_Soul_Style_PlusX2 Soul Style PlusX$1 Soul StyleX$1 SoulV$1 ViperX2_TwinX2 TwinA5 EasyA$1 LiteA5 ReadyA5SmileyA5 SmileyA5_Quad_Plus_TMA5 Quad PlusA5_QuadA5 QuadA6_DuoA6 DuoA10_Lite_2019A10 Lite (2019)A10_Lite_2GBA10 LiteA$1 PlusA10_MaxA10 MaxImpera SALLVIEW P4iAllDro P4Allview_P2AllDroViva $1Viva_HomeViva HomeAllviewCityPlusCity PlusAllviewCityCityAllviewAX2FrenzyAllview2SpeedDuoAlldro 2 Speed DuoAllview3SpeedQuadAlldro 3 Speed QuadViva H1003 LTE Pro $1H1003_LTE_PROViva H1003 LTE ProViva_1003G_LiteViva 1003G LiteH1004_LTEViva H1004 LTEViva H$1 LTESpeed ISpeedALLVIEWSPEEDAX4 Nano PlusAX4NanoAX4 NanoALLVIEW_TX1_QuasarTX1 QuasarAX$1AllwinnerQUAD-CORE A64 p3A64 QUAD-CORE p3QUAD-CORE A33 y3A33 QUAD-CORE y3ZY-07BUltraOcta-T8Ultra Octa T8QUAD-CORE T3 K2001oQUAD-CORE T3 K2001OQUAD-CORE T3 K$1QUAD-CORE T3 P$1OCTA-CORE T8OCTOPUS-CORE T8QuadCore-R16QUAD-CORE R16AlpsAltiboxAlticeAltusAmazonFire TV Cube (Gen 1)Fire TV Cube (Gen 2)Fire TV Cube (Gen 3)Fire TV (Gen 3)Fire TV 4-Series (2021)Fire TV 4-Series (2023)Fire TV 2-Series (2023)Fire TV (2021-2022)Fire TV 2K (2022)Fire TV 4K (2021-2022)Fire TV HD (2023)Fire TV (Gen 1)Fire TV Stick (Gen 3)Fire TV Stick Lite (Gen 1)Fire TV Omni QLED (2022)Fire TV Omni QLED (2023)Fire TV StickFire TV Stick 4KFire TV Stick 4K (2023)Fire TV Stick 4K MaxFire TV Stick 4K Max (2023)Fire 7\"Fire 7\" (2019)Kindle Fire HDKindle Fire HD 8.9\" WiFiKindle Fire HD 8.9\" 4GKindle Fire HD 7\" WiFiKindle Fire HDX 7\" WiFiKindle Fire HDX 7\" 4GKindle Fire HDX 8.9\" WiFiKindle Fire HDX 8.9\" 4GFire Max 11Fire HD 6Fire HD 7Fire 7 (2022)Fire HD 7 (2017)Fire HD 8 (2015)Fire HD 8 (2022)Fire HD 8 (2016)Fire HD 8 (2017)Fire HD 8 (2018)Fire HD 8 (2020)Fire HDX 8.9Fire HDX 8.9 4GFire HD 10Fire HD 10 (2017)Fire HD 10 (2019)Fire HD 10 (2021)Fire HD 10 (2023)Fire HD 10 Plus (2021)SD4930URFire PhoneKindle FireKindlesmart speakerEchoEcho DotEcho Show $1Echo Show (Gen 2)Echo Show 5Echo Show 8Echo Show 15 (2021)AlexaMediaPlayerAlexaAmazon BasicsFire TV (2020)Fire TV 4K (2020)AmigooAminoAmigo7xAmigo 7xAmigo7Amigo 7AmoiClever Pad P7A862WCLEVER JOY S40Clever Joy S40AndowlAngelTechP80AngelcareF20 ProAnkerNebula SoundbarNebula CosmosNebula Cosmos MaxAnryAocosAocweiX$1AoroAosonR10$1 10.1\"S7 Pro 7.0\"S7 7.0\"S8 Pro 8.0\"ApoloSignAppleHomePodAirPlayWatch1,1wearableWatch 38mmWatch1,2Watch 42mmWatch2,6Watch Series 1 38mmWatch2,7Watch Series 1 42mmWatch2,3Watch Series 2 38mmWatch2,4Watch Series 2 42mmWatch Series 3 38mmWatch Series 3 42mmWatch SE 40mmWatch SE 44mmWatch SE (Gen 2) 40mmWatch SE (Gen 2) 44mmWatch Series 8 41mmWatch Series 8 45mmWatch6,18Watch UltraWatch7,5Watch Ultra 2Watch Series $1 40mmWatch Series $1 44mmWatch Series 7 41mmWatch Series 7 45mmWatch7,8Watch Series 10 42mmWatch7,9Watch Series 10 46mmWatch7,10Watch7,11Watch7,1Watch Series 9 41mmWatch7,3Watch7,2Watch Series 9 45mmWatch7,4WatchMac Pro (2006)Mac Pro (2007)Mac Pro (2008)Mac Pro (2009)Mac Pro (2010-2012)Mac Pro (2023)iMac (2006)iMac 17\" (2006)iMac 24\" (2006)iMac (2007)iMac (2008)iMac (2009)iMac 27\" (2009)iMac 21.5\" (2010)iMac 27\" (2010)iMac 21.5\" (2011)iMac 27\" (2011)iMac 21.5\" (2012-2013)iMac 27\" (2012)iMac 21.5\" (2013)iMac 27\" (2013)iMac 21.5\" (2014)iMac 27\" (2015)iMac 21.5\" (2017)iMac 27\" (2017)iMac 27\" (2019)iMac 21.5\" (2019)iMac 27\" (2020)iMac 24\" (2021)iMac 24\" (2023)iMac Pro 27\" (2017)MacBook 13\" (2006)MacBook 13\" (2006-2007)MacBook 13\" (2007)MacBook 13\" (2008)MacBook 13\" (2009)MacBook 13\" (2010)MacBook 12\" (2015)MacBook 12\" (2016)MacBook Air 13\" (2008)MacBook Air (2009)MacBook Air 11\" (2010)MacBook Air ",
  chunk! "13\" (2010)MacBook Air 11\" (2011)MacBook Air 13\" (2011)MacBook Air 11\" (2012)MacBook Air 13\" (2012)MacBook Air 11\" (2013-2014)MacBook Air 13\" (2013-2014)MacBook Air 11\" (2015)MacBook Air 13\" (2015-2017)MacBook Air 13\" (2018)MacBook Air 13\" (2019)MacBook Air 13\" (2020)MacBook Air 13\" (2022)MacBook Air 15\" (2023)MacBook Air 13\" (2024)MacBook Pro 15\" (2006)MacBook Pro 17\" (2006)MacBook Pro 17\" (2007)MacBook Pro 15\" (2007)MacBook Pro (2008)MacBook Pro 15\" (2008)MacBook Pro 17\" (2009)MacBook Pro 15\" (2009)MacBook Pro 13\" (2009)MacBook Pro 17\" (2010)MacBook Pro 15\" (2010)MacBook Pro 13\" (2010)MacBook Pro 13\" (2011)MacBook Pro 15\" (2011)MacBook Pro 17\" (2011)MacBook Pro 15\" (2012)MacBook Pro 13\" (2012)MacBook Pro 15\" (2012-2013)MacBook Pro 13\" (2012-2013)MacBook Pro 13\" (2013-2014)MacBook Pro 15\" (2013-2014)MacBook Pro 15\" (2015)MacBook Pro 13\" (2015)MacBook Pro 13\" (2016)MacBook Pro 15\" (2016)MacBook Pro 13\" (2017)MacBook Pro 15\" (2017)MacBook Pro 15\" (2018-2019)MacBook Pro 13\" (2018-2019)MacBook Pro 15\" (2019)MacBook Pro 13\" (2019)MacBook Pro 16\" (2019)MacBook Pro 13\" (2020)MacBook Pro 13\" (2022)MacBook Pro 16\" (2021)MacBook Pro 16\" (2023)MacBook Pro 16\" (2023-2024)MacBook Pro 14\" (2021)MacBook Pro 14\" (2023)MacBook Pro 14\" (2023-2024)Mac Mini (2006)Mac Mini (2007)Mac Mini (2009)Mac Mini (2010)Mac Mini (2011)Mac Mini (2012)Mac Mini (2014)Mac Mini (2018)Mac Mini (2020)Mac mini (2023)Power Macintosh G5 (2003)Power Macintosh G5 (2004-2005)iMac G5 (2005)Mac Mini G4 (2005)PowerBook G4 (2005)iBook G4 (2005)Mac Studio (2022)Mac Studio (2023)nook browseriPhoneiPhone 3GiPhone 3GSiPhone 4iPhone 4SiPhone 5iPhone 5CiPhone 5SiPhone 6 PlusiPhone 6iPhone 6siPhone 6s PlusiPhone SEiPhone 7 PlusiPhone 7iPhone 8 PlusiPhone 8iPhone XS MaxiPhone XSiPhone XRiPhone XiPhone 11 Pro MaxiPhone 11 ProiPhone 11iPhone SE (2020)iPhone 12 MiniiPhone 12 Pro MaxiPhone 12 ProiPhone 12iPhone 13 Pro MaxiPhone 13 ProiPhone 13 MiniiPhone 13iPhone SE (2022)iPhone 14 Pro MaxiPhone 14 ProiPhone 14 PlusiPhone 14iPhone 15 Pro MaxiPhone 15 ProiPhone 15 PlusiPhone 15iPhone 16 Pro MaxiPhone 16 ProiPhone 16 PlusiPhone 16eiPhone 16iPhone 17 Pro MaxiPhone 17 ProiPhone 17iPhone AiriPadiPad 2iPad MiniiPad 3iPad 4iPad AiriPad Mini 2iPad Mini 3iPad Mini 4iPad Air 2iPad Pro 9.7iPad Pro 12.9iPad 5 9.7iPad Pro 2 12.9iPad Pro 10.5iPad 6 9.7iPad 7 10.2iPad Pro 2 11\"iPad Pro 4 12.9\"iPad Pro 11\" WiFiiPad Pro 11\"iPad Pro 3 12.9iPad Mini 5iPad Air 3iPad 8 10.2\"iPad 9 10.2\" WiFiiPad 9 10.2\"iPad Pro 3 11\" WiFiiPad Pro 3 11\"iPad Pro 5 12.9\" WiFiiPad Pro 5 12.9\"iPad Air 5 WiFiiPad Air 5iPad 10 10.9\" WiFiiPad 10 10.9\"iPad Air 4 WiFiiPad Air 4iPad Air 7 13\" WiFiiPad Air 7 13\"iPad Mini 6 WiFiiPad Mini 6iPad Pro 4 11\" WiFiiPad Pro 4 11\"iPad Pro 6 12.9\" WiFiiPad Pro 6 12.9\"iPad Air 6 11\" WiFiiPad Air 6 11\"iPad Air 7 11\" WiFiiPad Air 7 11\"iPad 11 10.9\" WiFiiPad 11 10.9\"iPad Mini 7 WiFiiPad Mini 7iPad Pro 5 11\" WiFiiPad Pro 5 11\"iPad Pro 7 13\" WiFiiPad Pro 7 13\"iPad Pro M5 11\" WiFiiPad Pro M5 11\"iPad Pro M5 13\" WiFiiPad Pro M5 13\"Apple TV 2Apple TV 3Apple TV 4Apple TV 4KApple TV 4K (2021)Apple TViPad $1iPhone $1AquariusAquarius Pro, Std, Elt SeriesPro Std Elite SeriesCMP $1Archos 55 diamond Selfie55 Diamond Selfie50 Titanium 4G40C TIv240c Titanium v245B Titanium45b TitaniumAC45BHE45b Helium45 NeonX67 5G101B Helium 4GT96 WIFIT96 WiFi50B Helium 4G80 Oxygen101 Oxygen 4G70 Access 3GArchos Access 101 3G V2101 Access 3G V2AC101PL3GV2101 Platinum 3G V2101s Oxygen Ardoiz101s OxygenT$1 4GCore $1 3G UltraArchos Core 3g v4Core 101 3G V4Core $1 3GHello 79.4\" FFFSense 101 XTikeasy 10dT101 HD 4GT101 FHD WiFiArian Space100 ST1004PG10080 SS8003PG8071 ST7002PG7170 ST7001RW70ArivalBioniq P116ArkBenefit $1Impulse P1 PlusImpulse $1Edge $1Icon $1Wizard $1Elf S8Ukozi U$1Hercls L925ArmPhoneArnovaARCHM901M901AN7CG27c G27 G2AN7G37 G3AN7IG37i G3AN7BG37b G3AN7CG37c G3AN7DG3-CPChildpadAN7DG37d G3AN7FG37f G3AN7HG37h G3A80KSC8AN8G28 G2AN8G38 G3AN8BG38b G3AN8CG38c G3AN9G2I9i G2AN9G29 G2AN9G39 G310 G2A101B1010b G210b G3AN10CG310c G3AN10DG310d G3ARNOVA 90G390 G3ARNOVA 90 G490 G4ARNOVA 97G497 G4ARNOVA 101 G4101 G4ArtLineArtelR3 GTVG",
  chunk! "ap Yo QU1 MiniU3 4GU$1AlloKomi 3Q21 ProQ21ArtizleeATL-21 PlusS9Ar\xc3\xa7elikArcelikAsano$1$2 $1.0\"AsanzoS3 PlusAsk791SP 3GAsperaWrenJazz 2AssistantAsperAgioClubAS-601LSecretMax SecretSurfUnamiPrimaShotTargetShineGridRiderMax RitmAS-5412 MaxAP-721N ForceAP-941CetusAP-106 ForceAstro (UA)AsusXPad 10 LTEEee Pad MeMO 171Z906 10.1\"ME172VMeMO PadMeMO Pad FHD 10MeMO Pad FHD 10 LTEMeMO Pad Smart 10Z101 PrimeZ101X Pad 10 LTEMeMO Pad 7MeMO Pad 10 ME103KMeMO Pad HD 7MeMO Pad 8MeMO Pad 8.9MeMO Pad HD 7 Dual SIMMeMO Pad 10Transformer Pad TF701TTransformer Pad TF103CTransformer Pad TF103CGTransformer Pad TF300TTransformer Pad TF303KTransformer Book TrioSlider SL101Eee Pad Slider SL101ZenPad C 7.0P008 BuildZenPad Z8P001ZenPad Z10ZenPad Z8sZenPad 7.0ZenPad 8.0ZenPad S 8.0P027ZenPad 3S 10ZenPad 3S 10 LTEZenPad 3 8.0ZenPad 10ASUS Tablet P1801-TTransformer AiO P1801 18.4\"ASUS TAB A8TAB A8FonepadFonepad Note 6Fonepad 7Fonepad 7 Dual SIMFonepad 8ZenFone Max ShotPadFone SPadFone MiniPadFone X MiniPadFone T008PadFone EPadFone T004PadFone InfinityZenFone ARZenFone 11 UltraZenFone 12 UltraZenFone 8ZenFone 8 FlipZenFone 9ZenFone 10ZenFone VZenFone V LiveZenFone CZenFone Max M1ZenFone Max Pro M1ZenFone Max M2ZenFone 2ZenFone 2EZenFone LiveZenFone Live L1G553KLZenFone Lite L1ZenFone 2 LaserZenFone 4ZenFone 5 LTEZenFone 5 LiteZenFone 5ZZenFone 5ZenFone 6ZenFone 7 ProZenFone 7ZenFone MaxZenFone Max Plus M1ZenFone Max Pro M2ZenFone Go PlusZenFone GoZenFone Go TVZenFone Go LifeZenFone PegasusZenFone Pegasus 5000ZenFone Pegasus 2 PlusZenFone Pegasus 3S MaxZenFone 3 MaxZenFone 3 PegasusZenFone 3 ZoomZenFone 3 DeluxeZenFone SelfieZenFone 3ZenFone 3 LaserZenFone 3 UltraZenFone 4 Selfie ProZenFone 4 SelfieZenFone 4 MaxZenFone 4 Max PlusZenFone 4 ProZenFone ZoomROG PhoneROG Phone 2ROG Phone 3ROG Phone 5ROG Phone 6ROG Phone 6DROG Phone 7ROG Phone 9 FEROG Phone 8 ProROG Phone 8ROG Phone 9ROG Phone 9 ProSmartphone for Snapdragon InsidersZN220ICZen AiO ZN220ICTinker Board$1asus_google_cubeCubeZenWatch$1Transformer $1Chromebook Flip $1AthesiAtmaca ElektronikATMACA_AtomAtouchS-Tab$1AtozeeCP20_GoldCP20 GoldYQ10S_MAXYQ10S MaxYQ10S_GoldYQ10S GoldAttilaAtvioAudiovoxCDM-$1AutanAvayaVantage K175AvenzoMob 4 4GMob 4 Pro 4GAvvioCHIVAS_55Chivas 55Mint_M353Mint M353Colombia_2018Colombia (2018)PADAwowAxiooPicoPhone $1PICOphone_M2PicoPhone M2 MPicoPad $1 3GAxxionATAB-$1AzeyouAzumi MobileAkaneA4 PlusSPEED55Speed 5.5\"A50_Style_PlusA50 Style PlusIRO A55 QLT50 PlusKIREI A5Q PLUSKirei A5Q PlusNobu A55 ProAzupikBAFF$1Y FHD$1Y $2BARTECPixaviPixavi $1BAUHNBB MobileTechno 7.0\" Pioneer LTE S700BFTechno 10.0\" LTE TQ060XTechno 8.0\" Poplar LTE TQ863QTechno 7.0\" Mozg LTE I700AJTechno 7.85\" Mozg I785APTechno 8.0\" Mozg X800BJTechno 10.1\" Mozg I101BITechno 7.0\" Kalash LTE TQ763ITechno $1\" 3GTechno Spark 3G X595BTBBK$1LEX-$2/$3$1LEX-$2/TS2C$1LEX-$2BDFM107ZL80BK960N MT$1BDQSMART_B19Smart B19DestinyBDsharingBDS2 PlusBGHY$1Y710 KIDSY710 KidsJOY X2Joy X2BIHEEBLISSBLISS-T6T6BMAXMaxPad I10 $1MaxPad I11MaxPad I$1 PlusBMXCBNCFBPad Mini SEBRAVEBRORBS MobileRune $1BYDFor BYD AUTOCarPadBYJU'SBYYBUOSmartPad $1BackcellBarnes & NobleNook $1BeafonTab Lite $1BeckerBeelinePro $1Tab $1TabE$1Smart $1Smart DualFast 2FastSmart 8 A239sBeebox $1BeelinkGT1GT1 MiniGT1 Mini 2GT King ProGT King IIGT KingR68 IIBeetelBeistaBekoBellFibeTVStreamerBellphoneBP 100 X-PlusBenQQS02BenQ-SiemensBenWeeW5 ProBencoAE9950V60AE9150V62AE9220V70AE9010V80AE9120V90AE9310V91AEOP520V91 PlusAH9110Y11AE9240AEOP513S1 PlusAE9260S1 ProAE9230Y32BenesseBenzoG-PADLITEGPad LiteBeyondSurve $1 ProSurve $1Home9Home 9BezkamBiegedyB$1BigbenGAMETAB-ONEGameTab-OneBigtech_BBigTech BBilimLandBilimBook MiniBillionCapture PlusBillowBioRuggedBioWolf 8-F30Ruggbo 20 LiteBirdBitelB ProBitmore$1 $2C 3GTab1011Q IIColorTab $1BittiumTough Mobile 2BkavBphone $1Black BearBlack BoxTV ProBlack FoxBMM443DB7 Fox+B8 FoxB8 Fox+BMM441WB8MBMM442DB7BMM531DB6BMM531AB5BMM541AB5+B4BMM441DB4 MiniBMM541BB4 Mini NFCBMM531BB4 Mini (2019)BMM542DB3+BMM541DB3BMM541WB7R FoxBMM 532 SBMM 532SBMM $1Blackpcs$1-BLBlackphoneK330BlacktonBt $1BlackviewA$1 ProA$1A8 MaxA80SA30-RU$1 LiteBV9000Pro-FBV9000 Pro",
  chunk! "$1 ProN6000 SEBV4800 SEE7sColor $1Xplore $1Fort $1Shark $1Wave $1CWAVE 8Wave 8HERO 10Hero 10SOLID_4G1Solid-4 G1SOLID 4 G2Solid-4 G2Active $1 ProActive 8Mega $1Tab $1 ProTab $1 WiFiTab 11 SEOmega ProBlaupunktDiscovery $1CDiscovery A10.302Discovery 1001ADiscovery 1001Soundphone S2Endeavour $1Polaris $1Atlantis_A10_G403Atlantis A10.G403Atlantis $1SLplus02SL Plus 02BP $1SM 02 2019SM 02 (2019)B-STREAMBox Stream55UW5000TBE $1BL-919845BE clever 7.0\"BllocBlowLaserTAB10Laser Tab 10PlatinumTAB11_4GPlatinum Tab 11 4GPlatinumTAB8_4GPlatinum Tab 8 4GPlatinumTAB10V22Platinum Tab 10 V22Platinum Tab 10 4G $1BlackTab7_3G_V2Black Tab 3G V2BlackTAB7Black Tab 3GBluF92 E 5GAdvance A5 PlusAdvance A5 Plus LTEAdvance A5 LTEAdvance $1M6 (2021)STUDIO X MiniStudio X MiniStudio X10 2022Studio X10 (2022)Studio Mini 2023Studio Mini (2023)STUDIO G PLUSStudio G PlusSTUDIO G MaxStudio G MaxStudio $1Studio 5.0 KSTUDIO SELFIE LTEStudio Selfie LTESTUDIO ONEStudio OneSTUDIO ENERGYStudio EnergyStudio Selfie $1STUDIO SELFIEStudio SelfieNeo Energy MiniEnergy Diamond MiniENERGY DIAMONDEnergy DiamondDIAMOND MDiamond MGrand EnergyENERGY XLEnergy XLEnergy X 2ENERGY X PLUS 2Energy X Plus 2ENERGY X PLUSEnergy X PlusB300VFlexLIFE XLLife XLDash X Plus LTEDASH X PLUSDash X PlusDash 4.5Dash XLPure $1PURE MINIPure MiniBold $1Life One X2 MiniLife One $1LIFE ONELife OneLIFE X LTELife X LTELIFE X8Life X8LIFE MARKLife MarkNEO X PLUSNeo X PlusNeo $1G50 MegaG$1 PlusG$1 ProGrand 5.5 HDGrand X LTEGrand XL LTEGrand M2 LTEGrand $1Grand MaxGrand MiniGrand M3B110DLView MegaB1550VLView Speed 5GView 2B135DLView 4B160VView 5B140DLView 3VIEW 1View 1R1 HDR2 LTER$1 PlusC$1 (20$2)Tank MegaTank Xtreme $1.0\"Tank Xtreme ProTank XtremeVIVO AIR LTEVivo Air LTETouchbook G7C5 $1C6L MaxC$1L (20$2)C5L PlusC5L MaxC$1LVivo SelfieVivo 5 MiniVivo One Plus 2019Vivo One Plus (2019)Vivo $1 PlusVivo $1Vivo GoZoey SmartTouchbook M7 ProM$1L PlusM$1L ProM8L ($1)Studio 7.0\" IIAdvance A7Dash $1BluSlateEducational Tablet $1BlubooMaya BuildMayaXfire2Xfire 2Picasso 4GXfireD6 LiteS8_plus_aS8 PlusS8aD$1 ProD6BlueSkyBSS$1BluebirdBluedotBluegoodBLUEGOODV6Bluewave33GT HDWave 8 HD+WV8R-MWave 8 Red MarshmallowWV8-MWV8-LWave 8 Red NougatBmobileAX7OOAX700FUN 4 2018Fun 4 (2018)B60 ProBL40BL60BL$1 ProBL63BL60M_MV05BL60MB50ProB50 ProBL50 ProBL$1BL51BL53BL54 ProBL6$1BobarryK10 SEBolvaB-TAB1021BookeenBoostStrikaPlayStrika PlayBotech58BSE9503WZONEWzoneBowayBqeelY8 MAX S905X3Y8 MaxBrandCodeL1f-plussL1f PlusBrandcode B6SB6SBrandt$1 TVBravisA501 BRIGHTA501 BrightTrace ProCrystalDiscoveryTauDeltaTrendB501EasyN1-570SpaceA554 GrandS500 DiamondA505 JOY PlusA505 Joy PlusA552 JOY MaxA552 Joy MaxAtlas A551A551 AtlasA503 JoyA504 TraceA512 Harmony ProA511 HarmonyA510_Jeans_4GA510 Jeans 4GA509_JeansA509 JeansBRAVIS NEOA401 NeoN1_550_CruiserN1-550 CruiserN1_551 GlossN1-551 GlossBRAVIS OMEGAOmegaBRAVIS BIZBizBRAVIS POWERPowerSparkSlim 3GNP 104 3GNP104 3GBRAVIS NP 103NP103BRAVIS NP 747 SDNP747 SDBRAVIS NP 844NP844BrightSignBrigmtonBTPC-BTPC-1022QC3G-TVBrondiCENTURION $1GLADIATOR $1GLORY $1LUXURY $1Midnight SkySENSUELLE $1VICTORY $1AMICO_SMARTPHONE_4GAmico Smartphone 4GAmico Smartphone $1SURFING TAB $1BubblegumBundySweet 5 Plus (2019)Sweet $1 PlusBTOUCH7_PLUSB-Touch 7 PlusBushBush10Nou10NouSpira B1 $1\"$1TabletBUSH Spira B2 5 SmartphoneSpira B2 5\"BuzzTVC IdeaCM$100 PlusC5 Mobilenoa X2 PlusNoa X2 Plusnoa_G1Noa G1noaXPowerNoa X PowerNOATABNoa TabCADENACAGICAGI-CAGI-OMEGACALME4G mega power4G Mega Power4G MAXX4G Maxx4G Hot4G Hero4G SMART4G Smart4G STAR4G Star4G Prime4G SPARK4G Spark4G Premium4G LITE4G Lite4G POWER4G Power4G Music4G CloudCCITX EditionVogue 405KT$1 ProCENTEKCT-$1CEPTERCG MobileOmega $1Omega 6EON Blaze ProEON Blaze GoldBlaze $1CGVCHCNAVCKK MobileDUKE $1DUKE 2CMFA001Phone 2 ProA015Phone 1COLORROOMCOMPUMAXBlueS10Blue S10CONSUNGCOOD-ETV Box 4KCORNPlay25_Pro_4GPlay 25 Pro 4GCoco10_Ultra_4GCoco 10 Ultra 4GFenix 8 3GNote 1R$10Tronik $1C$1COYOTE1090 DVR Maximus ProCPDEVICEApollo 10 ProCUBOTTAB KINGKONG 2Tab King Kong 2TAB KINGKONGTab King KongPocket $1PocketCheetah$1RAINBOW 2Rainbow 2RAINBOWRainbowDINOSAURDinosaurKINGKONG X PROKing Kong X ProK",
  chunk! "ing Kong Power $1King Kong PowerKing Kong AXKing Kong Ace $1King Kong Star 2King Kong StarKINGKONG MINI2 ProKing Kong Mini 2 ProKing Kong Mini $1KINGKONG_MINIKing Kong MiniKINGKONG 5 ProKing Kong 5 ProKing Kong $1KING KONG CSKing Kong CSKING KONGKing KongQUEST LITEQuest LiteQUESTQuestX20 PROX20 ProZORRO 001Zorro 001ManitoMagicMax $1NOTE PlusNote PlusNOTE 20 PRONote 20 ProNote $1Note SCUBOT_NOVANovaCUBOT_POWERCUBOT_X18_PlusX18 PlusHafury V1CUD$1 ($2)CVTECXCX9006CaixunCAIXUN AndroidTVCamfoneFurious 7 ProCanaimaCanal DigitalOnePlaceCanal+CANAL PLUSTV BoxCanguroCapitelCaptivaCarbon MobileCarbon 1 Mark IIOne Mark IICarrefourCT820Touch Tablet Neo2CT$1CasioG'zOne RavineG'zOne CommandoG'zOne Commando 4G LTECasperVIA $1 PlusVIA $1CASPER_VIA_E1cVIA E1CL10 4.5GPad H10 PENPad H10 PenVIA $1 3GCatB15QCAT B35B35S61S62 ProS22 FLIPS22 FlipCavionSolid 4.5\"Base 5.0\"CAVION_10_3GRQBase 10 3GR QuadBase 7.1\" QuadBase 7.2\" QuadCavion Base 10Base 10Cavion Base 7 DualBase 7.0\" DualCavion Base 7 QuadBase 7.0\" QuadBase $1.0\" 3G SilverCeibalACRUX\xc3\x81cruxBELLATRIXBellatrixBETELGEUSEBetelgeuseGACRUXGacruxKil-82WFDCKiland T8H133 Beta CruxCelcusCelkon4G Tab 8Millennia Hero2GBStar2GB Star2GBXpress2GB XpressCliQ 2Q4G PlusUniQCell-CSummitFantasyCELLC_EvolveEvolveCellAllureFashion2PlusFashion 2 PlusCHIC_X1Chic X1CellacomS62S51 LiteX501 PrimeCellutionCosmas $1CosmasPADUAPaduaCentricP1 PlusL3G1ChainwayChanghongHON H01HONPhone H01GHONGV12V12Cherry MobileFlare HD $1Flare_HD_MAXFlare HD MaxFLARE LITEFlare LiteFlare S PlayFlare $1Flare J$1sFlare $1 PrimeFlare $1 DeluxeFlare $1 PowerFlare $1 ProFlare $1 LiteFlare $1 PlusFlare XL PlusFlare J3 PlusFlare X LiteFlare A5Flare X V$1Flare XL 2Flare $1 MiniFlare_J2_2018Flare J2 (2018)Flare S4 Max LTEFlare $1 MaxFlareS5LiteDTVFlare S5 Lite DTVFlare S2 DTVFlare InfinityFlare Lite S3Touch XL 2Omega HD $1Omega_HD_DuoOmega HD DuoOmega Icon Lite 2Omega Icon 2Omega Lite $1Omega XSpin Max 2Selfie_TwoSelfie TwoDesire R$1 LiteDesire R6 plusDesire R6 PlusDesire R6Desire R$1 PlusDesire R$1Desire EyeCOSMOS THREECosmos 3CUBIX CUBE 3Cubix Cube 3Revel 3GRadar Deluxe 2Superion Radar Deluxe 2Superion_S2_PlusSuperion S2 PlusSuperion S1 Plus DTVSuperion Tab ProFlare Tab Pro V$1Fusion Aura 3sFusion Aura 3SMAIA PAD PLUSMaia Pad PlusAM1010VOmega Lite 3Chico MobileALTO BomboAlto BomboALTO classicAlto ClassicAVANCE classicAvance ClassicALTO EstrellaAlto EstrellaALTO JUEGOAlto JuegoALTO SUBIRAlto SubirAlto $1Ojos $1OJOS NUBEOjos NubeOJOS CAMBIOOjos CambioOJOS OROOjos OroOJOS LUNAOjos LunaOJOS CIELOOjos CieloOJOS PLUSOjos PlusOJOS VIVIROjos VivirOJOS DOS miniOjos DOS MiniOJOS DOSOjos DOSFUEGO MAXFuego MaxChiliGreenE-Board $1China MobileM651CYCMCC-M860N5 ProM653A3sM762GChina TelecomTYH622MMaimang 11 5GTYH611MMaimang 10 SE 5GTYH612MMaimang 10 5GTYH632MMaimang A20 5GTYH631MMaimang 20 5GTYH641MMaimang 30 5GTYH211UTianyi One (2021)TYH201HTianyi OneTYH651M-02Maimang 40 5GChuwiHi8AuPad MiniAuPad$1 Quad$1 Dual$1 $2HiBook ProHiBookHiPad XHiPad ProHiPad X ProHiPad AirHiPad PlusHiPad MaxHi$1 AirHi8 SEHi10_XPro_PadHi10 XPro PadHi10 XProHi$1 ProVi10 PlusVi10 ProVi10SurPadHiBox HeroCipherLabCitycallClarestaAirPhone $1ClarminB8LiteB8 LiteB8PlusB8 PlusB5ProB5 ProClearPHONEClementoniClempad ($1)MFC_2018Clempad (2018)MFC_8Clempad 8CLEMPAD_7_SClempad 7SClempad $1Clemphone $1Cloud MobileStratus_C5_EliteStratus C5 EliteCloudfoneThrill Boost 2 PlusThrill Boost $1Thrill BoostThrill SnapThrill Plus 16GBThrill PowerThrill AccessThrill LiteThrill HDExcite Prime 2 ProExcite Prime 2Excite PrimeExciteCExcite CNBA EditionNext LiteNextCloudpad C701TV+Cloudpad C700QTV+CloutHind 5.1X417 AmazeX418 ZestX421 NovaX422 ExoticX425 ShavitX428 AstuteClovertekCnMCnM Touchpad $1CobaltSM$1T$1 3GT$1 WiFiCoby KyrosCogecoEPICO 4KEpico 4K Cloud PVRColorsPride 1APride 7SPride 1EPride 5CPride 5XPride 1XComTrade TeslaEvo 5.0Impulse 10.1\" OCTASmartphone $1 LiteSmartphone 6.1Smartphone $1.$2 LiteSmartphone $1.$2Smartphone $1Tesla_Tablet_7857.85\"TTH7H7TTL7 BuildL7Tesla_Tablet_L7_3GL7 3GTTL713GL7.1 3GTTL8 BuildL8TESLA_TABLET_M7M7Tesla_Tablet_M8M8TESLA XT550MediaBox XT550ComioGT100CT701WCT701G PLUSCT701G ",
  chunk! "PlusCommScopeVIP7802CompalCompaqProfessional WorkstationConCordeReadMan $1ConceptumConcordFlyfix 6C-721Flyfix QPlus-$1 $2Dream_Edition_C-754Dream Edition C-754Concord_RANGE_HSRange HSCondorCTAB $1NOVA 70SENova 70 SENOVA60 iNova 60iNova $1PHS-601C8GT60 PROGT60 ProC4+ NoirC7 MiniPlume P4C2C5C8SC7Allure A9C6+C6 ProAllure A9 PlusG2SGriffe G4SP413Griffe T1PKT411Griffe G2PHQ519Griffe G4SPHQ520Griffe G5PAM524Griffe G5 PlusPHQ525Griffe G6PHQ526Griffe G6 ProPlume P7Plume P4 ProPlume P5Plume P6Infinity a4Infinity A4Infinity e5 proInfinity E5 ProInfinity E5Infinity I$1Griffe G4 PlusGriffe T3 ProGriffe T$1 PlusGriffe T$1P7 PlusPlume P4 PlusPlume P6 Pro LTEPlume P8Allure A55Allure A100Allure A55 SlimAllure A100 LitePlume P8 LiteAllure A8Allure A8 PlusAllure A55 PlusPlume H1Plume L$1 ProPlume L$1 PlusPlume L3 SmartPlume L$1Plume P8 ProPGN-$1ConnectceConnect Core 6ConnexSEN_1055_ARMSerenity 1055 10.1\"ConquestS$1Conquest-F2F2ContixoCX-1045 3GCX-1065 3GGX-1035 4G 10.1\"GT1160 4G 10.1\"B105 3G 10.1\"B108 4G 10.1\"KT107 3G 10.1\"KT109 4G 10.1\"KT715 3G 7.0\"KT995 3G 10.1\"KT1100GTCoolpadCP23NV3Y60 5GCool Play 6Cool Play C7Cool Play 7N7 PlusREVVLPLUS C3701AREVVL PlusCP3667ATTasker8190Q1825-E0N5 LiteN5CBellazaCanvasLegacyLegacy SLegacy S SRLegacy BrisaSuvaN2MCool 1Cool SCool S1Cool 5Cool 3 PlusCool 3Cool 9Cool 9SCool 20Cool 20 ProCool 20S 5GCool 30iCP12PCP12s26Arise10AE501ModenaE502Modena 2Note 3Note 6Note 3 PlusNote 3 Lite6ADazen 6ACoopersCosmoteCosmote_My_mini_TabMy Mini TabCoviaCrescentWING 5Wing 5WING9Wing 9Venus $1CrestronCricketDebut FlipDebut FlexSL101AEDebut SmartU572ACDebut S3U6080ACMagic 5GU655ACMagic 2 5GU380ACDebut S2U680ACOutlastSN509COutlast 5GEC211001Dream 5GU304ACIconU325ACIcon 2EC211002Icon 3WTCKT01Icon 4SL112CIcon 5SL219CIcon 6V350CInfluenceEC211004Innovate 5GSN304AEInnovate E 5GU705ACOvationEC1002Ovation 2U668ACOvation 3EC211003SplendorSL100EAVision PlusCrony7021CrosscallAction-X3 ProAction-X$1Core-S4Core-$1 GoCore-$1ODYSSEY_PlusODYSSEY+Odyssey S1ODYSSEY S1Trekker-$1 CoreTrekker-$1Stellar-$1Core-T$1CrownBlossomB902Blossom B902CtroniqSNOOK-X10Snook X10Talk 8XU25GTU30GT2U27GTTalk 8U55GT_C8Talk 79Talk 7XU31GTTalk 10T8 UltimateU55GTT10 PLUST10 PlusU65GTTalk 9XiWork 8 AiriWork 8 3GiWork 8 UltimateiWork 10 UltimateiWork 10iWork 10 ProiWork 10 FlagshipT970 4GCuiudcuiudCuiud F7F7CUIUD A91A91CwowdefuCyrusCM17XACS$1 XAD-LinkD-TechDT07-TAB4GDT07 Tab 4GDASSDEALDIGDECModel 700DEXPIxion $1Ixion ES250 RageIxion ML 4.7\"Ixion ES2 5Ixion ES2 5\"Ixion M150 StormIxion M445 Onyx 24.5\" AL2505.0\" AL3505.45\" AS1555.85\" AS2606.22\" AS360Ursus 9EV mini 3GUrsus 9EV Mini 3GUrsus $1SeniorLarus_TV1FreyaAtlasDEYIDFJAGUAR-01Jaguar 01Saturn $1TIGER-01Tiger 01PUMA-01Puma 01DGTECDG101TBIPSDG101HSTBDIALNX8 UltraDIGICOMDTokDIGIFORSDIJITSUDCT 90Smart A11sDIMODING DINGDISHCelero 5G+SN339DCelero 5G SCCelero 3 5G+Celero3 5GCelero 3 5GCelero 5GDIXONHK7-3502SolisDN6015AstrumTS-$1-1TS_M103ATS-M103AXK1 3GDLYZU DS53Horizon H8DL_Horizon_SelfieHorizon SelfieTablet_DL_3910iPlayer KidsDMOAODNSS3504 Meteor 3.5\"S4003AirTab $1DORLANDDPADPA_ZETAZetaDRAGONDSDevicesDSICDUDU AUTODUDU$1DUNNS MobileDaewooArchive 7PDanewKonnect $1GEODROID_A5Geodroid A5DBook $1DSlide $1DangcapHDD8 ProDanyMonster 4GXXMonster 4GAMAZE AX-50 AdvanceAmaze AX-50 AdvanceDariaDatalogicMemor $1DataminiDatangDATANGDatawindPocket Surfer 3G5DW-UBT7WUbislate 7WDatsunDATSUNDATSUN_D5500D5500Datsun_D5001D5001DawlanceGSMART 4KTV4K Smart TVDbPhoneDB8PLUSDB8 PlusDbtelDcodeDS-CR1CypherCygnal $1 ProCygnal $1 LiteCygnal $1DS-BD1BoldDS-CL1CygnalDS-BD3 ProBold 3 ProDeWaltDellXCD35Venue $1VenueVenue ProVostro $1Chromebook $1Venue 7 $1DenaliE-Tab $1DenkaDENKA TVDenverTAQ-$1SDQ-$1DesayDialogDicamDigiDigicelDL3PlusProDL3 Plus ProDL3DL$1DL810DIGICELDL1plusDL1 PlusDigidragonDigihomeDigilandDL1008MDigitDigit4G Play1Digit4G Next UltraDigit4G Glory1Digit4G Infinity MaxDigit4G InfinityDigit4G Energy MaxDigit4G $1Digit4G LiteDigit4G Power MaxDigit4G E$1 ProDigmaHIT 3GDA6B8P01Q8 DA6B8P01K10 $1Pro Infinity $1Pro Wave $1Pro Eclipse $1Pro Empire $1Pro Pulse $1Pro Edge $1Pro Spark $1Pro Zoom $1Pro Quantum $1Pro Zenith $1Pro Spectrum $1iDx5HT5035PGH",
  chunk! "IT Q500 3GHT4039PGHIT Q401 3GVS5037PLVOX Fire 4GPS604MLinx 6.0LT4049PGLinx Atom 3GLT5048MGLinx Joy 3GLT5052MLLinx Base 4GLT4047MGLinx Alfa 3GLS4050MGLinx X1 3GLS4051MGLinx X1 Pro 3GLT4054MGLinx Argo 3GLS5041PLLinx Trix 4GLS5040PLLinx Rage 4GLS5053MLLinx Pay 4GLinx $1 3GPT452ELinx 4.5CITI ATL 4G CS5029MLCITI ATL 4GPro Prime 18 11\" 3GPro Hit 18 10.51\"HS1007PLPro Hit 106 10.1\"HS1009PLPro Hit 104 10.1\"Pro Star 14TS7854MPlane 8.1\" 3GRS1249PLPro 1800F 4GHS1002PLPro Hit 16 10.4\"HS1008PLHit 16 10.4\"HS1004PLPro Hit 108E 10.1\"HS1006PLPro Hit 14 10.4\"HS1005PLPS1043MGPlane 10.3\" 3GTS1012E 3GPlane 10.1\" 3GiDx8MVM908HCZiDx9HIT 4G HT7074MLHIT 4GIDsD 10 3GCITI $1WS1262RWKids 1210BWS8253PLKids 8260CKids 8280CiDxD8 3GD-Plane2 8NS6902QLPlatina 7.2 4GNS9797MGPlatina 7.2 3GTT1004PGOptima 10.4\" 3GTT1002MGOptima D 10.4\" 3GTT7025MGOptima 7.5\" 3GTT7026MWOptima 7.6\" 3GTT7020MGOptima 7.3\" 3GTT7024MGOptima 7.4\" 3GOptima $1 $2GTS8289PLOptima 8305C 4GOptima $1 3GiD$1Q$2 3GiD$1Q$2TS7203RWOptima Kids 7TT7000MGOptima Prime 3G8402D 4G1402D 4G WS1250PL1402D 4GWS1251PLKids 1247CRS1267PLPro 1480E 4GDiMagic Cube $1VR L42DM-LED$1DinalinkDynalinkDinaxDX TA $1DisneyToy_storyTOY STORYDitecmaDivaDiverMaxSpeedBox 3DivisatJ-LINK IIJ-Link IIX-MediaOptima T-IIDoCoMoDofflerDolameeDom.ruDoogeeT$1 ProT30 MaxR$1T$1ST10ET20 Mini KidT$1 UltraT20 Mini ProT20MiniT20 MiniU10 KidBlade GT UltraBlade GT ProBlade GT PlayBlade GTBlade10 PowerBlade 10 PowerBlade10 EnergyBlade 10 EnergyBlade $1 UltraBlade $1 MaxBlade10 ProBlade 10 ProBlade20 TurboBlade 20 TurboBlade20 ProBlade 20 ProBlade20 PlayBlade 20 PlayBlade $1Fire $1 ProFire 3 UltraFire 6 PowerFire $1 MaxFire $1V Max PlusV Max PlayV Max ProV Max SV MaxS Punk ProS punkS PunkS cyber ProS Cyber ProS cyberS CyberV40 ProValencia2 Y100 PlusValencia2 Y100 ProValencia2 Y100Leo $1Iron Bone $1X$1 ProV30 ProN$1 ProN55 PlusNote 59 Pro+Note58 ProNote 58 ProNote56 PlusNote 56 PlusN$1SBL12000 PROBL12000 ProD60 ProBL5500 LiteBL12000V20ProV20 ProS41 MaxS$1 ProS$1 PlusS$1 LiteS96GTS96 GTKISSME-DG580Kissme DG580Hitman_DG850Hitman DG580X9 MiniSminiS Minix5_doogeeX5T5_LiteT5 LiteX5 Max ProX5max_SX5 Max SShoot $1Ibiza_F2Ibiza F2Y6_Piano_blackY6 Piano BlackY6_PianoY6 PianoY6 Max 3DY6 MaxY7PlusY7 PlusT6proT6 ProDG550DG550 DaggerY100XNova Y100XTurbo_mini_F1Turbo Mini F1Y$1 PlusMix 2DooproP3DoovX11 Pro MaxX11 ProDopodDoppioDP355TexterDoraDoro80508020X8080Dragon TouchMAX 10Max 10T12MY88X__PLUSY88X PlusNotepad $1DreamStarDREAMSTARDreamgateSens 5DroidlogicDroxioDtacPhone $1Dune HDSolo 4kDuoTVduoTVDurabookDuubeeDykemannSternenschein $1Dyon2K Google TV2K Smart TVE-BodaRevo R77 GPSEclipse $1E-CerosRevolutionRevolution HDE-TACHIA5 SlimE-teli$1N$1Curiosity O9Q4EBENEBESTECONECOOAurora PlusAuroraECSTA10CA3TM105ATM105EERockEFTEGLEGL11QF611QF6EGOTEKEKOEKO Android TV 2K2K Android TVStar $1 $2EKTEK-$1ELARIELARI 4G Wink4G WinkKidPhone4GKidPhone 4GELE-GATEENACOMENIEE4ProE4 ProEPIK LearningHighQ $1ETOED1221EUROLUXEVPADEVBox PlusEVPAD-PRO-MAXEVBox Pro MaxEWISOCTA T720QOcta T720QOCTA-T700M-T2Octa T700M T2EXCEEDEXOWave i007 KidsEYUEagleEagleSoarEasypixEasyPad $1Echo MobilesECHO_HORIZON_LITEHORIZON LiteSTELLAR $1GECHO_SMART_4GSMART 4GEcoStarEdanixEdenwoodEhlelEhlel C7 PROModun C7 ProEinsteinEks MobilityX4UPlusX4U PlusElecsonMeePlus OneElectroneumElekta$1\" FHD LED Smart TV55\" UHD Curved LED Smart TV$1\" UHD LED Smart TV$1\" HD LED Smart TVElementElement 4K (2017)ElenbergElephoneTrunkVowney LiteVowneyP6000 PlusP6000 02P6000 01P6000 ProSoldierA6 MiniP8 MiniU3HC1 MaxPXElevateLuna $1Luna $1 LiteElistaElong MobileEltexNV-$1-WacNV-$1NV-$1-WBEmaticEmporiaS3miniS3 MiniE5miniE5 MiniEnergizerPower Max $1Energy $1 LTEEnergy 400SENERGY400Energy 400Energy S$1Energy $1Hard Case $1Ultimate 65GEnergy SistemEnergy Phone $1Energy Tablet $1ENERGY i10 DUALi10 DualEngelEnotEntityENT11QF12EnvizenClickTab DSH18EphoneEP19_starEP19 StarEP19EpicEpik OneK501 PlusLeo PlusRS550K501LeoK500Omega LiteK502K503TLeo TurboK503SLeo ProK503HDLeo HDK503Leo MaxK504Titan 3GX507TTitan IIK510BoltK511Bolt ProK534HadaK535Hada TurboK545RocketK536RoyalK540ExcaliburX400Pebble X400K573PantherK600JupiterK601Jupiter OneK406Pe",
  chunk! "bble PlusK405Pebble IIT700PaletteEplutusEpsonProjectorHA14A LCD ProjectorSTI6110EF-100EquatorAxisErgoF501_MagicF501 MagicB502 BasicA503-OptimaA503 OptimaB506 IntroV550 VisionB504 UnitB505_Unit_4GB505 Unit 4GV551 AuraV540_LevelV540 LevelV570_BIG_BENV570 Big BenErgo F502F502 PlatinumA500 BestA550 MaxxPrime B400A502 AurumA551 Sky 4GA553 PowerA555 UniverseA556F500F501B500 FirstForce F500GoTab GBT9GoTab Gti8GoTab GTi8Tab Crystal LiteTab Hero IIERGO SmartBox SXSmartBox SXERGOGSGHS55EricssonR380ErissonEssentialPH-1EssentielbHEYou 20 PlusHEYou $1Wooze $1EtonEtulineEudoraE65 ProEurocaseEUTB_758G_TABI_Argos_KIDSTABI Argos Kids 758GEurostarOnyx $1ET7002C-H12ePad 4SEvercossA75A Star$1 MaxU50A PlusM50 StarM50 MaxU6 PRIMEU6 PrimeEverestEverPad DC-$1EverexFine 7BEverfineEverisEvertekEverpad $1$1 NanoM10 MaxEverMiracle PlusV4 PlusEverTrendy 4GEver$1 IIEvolioM4MAGICM4 MagicEvolio_M5ProM5 ProEvolveoEVOLVEO MultiMedia Box M4MultiMedia Box M4Android Box $1Smart TV $1Android Stick Q4Stick Q4StrongPhone D2 MiniStrongPhone G$1StrongPhone Q$1$2EvooEvroMediaPlaypad 3G GOOPlay Pad 3G GooPlay Pad 3G 2GooPlay Pad PROPlay Pad ProPLAY_PAD_PRO_XLPlay Pad Pro XLPlayPad 3GTab XLPlay Pad 3G Tab XL3G NOTE XLPlay Pad 3G Note XLExMobileChat 5 PlusEX $1iExertisHLLO $1ExmartExplayActiveD 7.4 3GScream 3GTornado 8Imperium $1 3GActiveD 8.2 3GCinemaTV 3GInfinityllInfinity IIInformer $1Surfer $1Surfer $1 3GsQuad $1Onliner $1Winner $1AtlantIndigoPulsarTornado 3GFreshJoyTVFinLagoonA350TVPartyRio PlayLeaderExtraLinkSmart Life ESP-300ExtremRock X$1+ROCK_X11Rock X11EyemooNXTEPaper-S1NXT EPaper S1EzioEzzeEZ$1F+SA55 2GBSA55SH$1LifeTabPlusLife Tab PlusF150B2 UltraRaptor 5GRaptor LTDRaptorAction $1 ProB2021F2 MobileZ8PLUSZ8 Plusi8_ROKRi8 RokrZ8POCKETZ8 PocketF80s_plusF80s PlusF80 PIABELLAF80 PiabellaC8FingerC8 FingerFEONALFFF SmartLifeTAB-10A4FILIXUltra M FX4423FISEFise_M32433 3GFLYCATOptimum $1Unicum $1FLYCOAYFMT16M4HI105024Netsurfer StormGlobal3 B01FMT-NM7058-02Flash176HS1050531Falcon176HS1050232B52175WT1050231175HS1050231Tomcat175FT1050241ViperFunPad-8MaxFunPad 8 MaxFNBSP5045VConeXis A1ConeXis A2ConeXis X1ConeXis X2FNFiFive Mini $1iFive $1ifiveMini3iFive Mini 3iFive Airifive Pro 2iFive Pro 2FONTELFOODOFORMEForeverFOSSiBOTDT1 LiteS3 ProF109 SF$1 ProF101 PF$1FPTFRESHFRESH SMART TVFaRao ProFacebookPortalTVPortal TVFacetelQ3Q10Q3 ProFacimeFleet 7FairphoneFamocoFamousRed 5 PlusRed Royal Edition5Plus5 PlusFamous 5Tab 10FantecM300HFarEasToneFarassooFengxiangFenotiFeroFero_Y1Y1Royale Y2 LiteRoyale $1FERO PACEPaceA4001 Plus 2019A4001 Plus (2019)A4001 PlusFiGOATRIUM II F55L2Atrium IITRIO F40LTTrio F40LTEPIC F50GEpic F50GULTRA M50GPrimeM405B_8GBVirtue II 8GBM405BVirtue IIVIRTUE3Virtue IIICENTRIC S50GCentric S50GUltraJ8Ultra J8Orbit_llOrbit IIF40G2Ultra Plus F40G2FiGiNopalP40 MaxP40Hola$1twoFjNote_1CNote 1CNote_5Note 5Note $1 ProNote $1 LiteFiggersFilimoFB-101FinePowerFinluxFINLUXFireFly MobileAurii ForceAurii VividAurii InspireAurii RazorAurii Razor PlusAurii DelightAurii Dream MiniAurii FameAurii Amuse 4GAurii Dream One 8Aurii Dream OneAurii UltraAurii Amuse 3GAurii FusionAurii MagnumAurii Vivid ProAurii Vivid PremiumAurii xCiteAurii Secret $1Aurii $1Intense PowerIntense XTIntense Metal 4GIntense Metal 2Super SweetSweet MiniInspire_4GInspire 4GIntense $1FisionTV+FluoS554020LF_PlusF PlusFlyPanoramaVictoryView MaxSlimlinePower Plus 5000Photo ProLife AceLife JetLife SkyLife GeoLife ZenLife PlayLife BuzzLife Compact 4GFS506Cirrus 3FS403Cumulus 1Cirrus 6FS511Cirrus 7FS509Nimbus 9FS406Stratus 5FS404Stratus 3Cirrus 2FS407Stratus 6FS401Stratus 1FS402Stratus 2FS501Nimbus 3FS502Cirrus 1FS507Cirrus 4FS505Nimbus 7FS551Nimbus 4FS514Cirrus 8FS553Cirrus 9FS554Power Plus FHDPower Plus 3FS517Cirrus 11FS516Cirrus 12Cirrus 13FS520Selfie 1FS521Power Plus 1FS522Cirrus 14FS523Cirrus 16FS524KnockoutFS526Power Plus 2FS527Nimbus 17FS528Memory PlusFS529ChampFS530Power Plus XXLFS454Nimbus 8FS452Nimbus 2FS512Nimbus 10FS510Nimbus 12FS451Nimbus 1FS405Stratus 4FS408Stratus 8FS409Stratus 9FS455Nimbus 11FS456Nimbus 14FS457Nimbus 15FS459Nimbus 16FS458Stratus 7DynamicJazzWhizzPrideFirebirdMarathonTurboEvokeGloryEr",
  chunk! "a Nano 1Era Nano 3Era Nano 4Era Nano 5Era Nano 6Era Nano 9Era Nano 10EnergyEra Energy 2RadianceMiracle 2MiracleDiamond 2GeniusEra Life 1Era Life 2Era Life 4ChicHorizonHorizon 2Ego Vision 1Evo Tech 1Energy 3PhoenixPhoenix 2Energy 2CoralEvo Chic 3Evo Tech 3Era Style 3Era Style 4Evo Energy 5Tornado SlimIQ$1Flylife $1FobemFobem FondiFonosO3FormovieXmingFormulerS Turbo ProForstarAmosta 3G5FortisFortuneShipEnie E2Four MobileS185 Sky 2S186_Sky_3S186 Sky 3S61 Eco 2S62_Eco_3S62 Eco 3S710 RubyFourelEasy Smart M$1FoxconnInFocus M$1FoxxDFreeYond2305003MM5A2308005MM62308011M2306004MF9SFreetelFun +FTJ152CSamurai MiyabiRei 2 DualPriori 5Cricket WaveFTJ161AMusashiFTE171AIce 3Ice 2FTE161GIce 2 PlusFTJ162ERaijinFT141BNicoXMPriori 2FTJ152APriori 3Priori 4FTJ152BPriori 3S LTEFTJ152DSamurai KiwamiFTJ162BSamurai Kiwami 2FTJ161BSamurai ReiFTJ152EKatana 1SAKURA_FTE1Sakura FTE1FUN PLUSFun PlusFrunsi2K SMART TVFujitsuArrows 5G F-51AArrows NX F-01FEasy Phone $1Arrows Phone F-03LArrows NX F-01JArrows NX F-01KArrows Fit F-01HArrows X F-02EArrows NX F-02GArrows EF FJL21Arrows Z FJL22Arrows NX F-02HArrows NX9 F-52AArrows Kiss F-03DArrows Kiss F-03EDisney Mobile F-03FArrows SV F-03HArrows J 901FJArrows V F-04EArrows NX F-04GArrows X LTE F-05DArrows NX F-05FArrows Be F-05JArrows K-taiArrows Be F-04KArrows Be 3 F-02LArrows Be 4 F-41AArrows Be 4 Plus F-41BArrows NX F-06EArrows N F-51CArrows \xce\xbc F-07DArrows WeArrows We Plus $1Arrows U 801FJDisney Mobile F-07EDisney Mobile F-08DANTEPRIMA F-09DRaku-Raku Smartphone Premium F-09ERaku-Raku Smartphone F-$1Arrows X F-10DArrows Me F-11DF-12CArrows M03Arrows RM02Arrows BZ02Arrows RXArrows M04 PremiumArrows M$1Arrows Tab $1FARTM933KZArrows Tab M504/HA4StylisticLIFEBOOK AH532LifeBook AH532FunaiFire TV 4K (2022)Fusion5$1v2 Pro$1v2F104EVII ProF104EVIIFuture Mobile TechnologyFxtecPro1 XG-GuardG GuardSMART TVG-PLUSGNE-N001SG-TabPad 10 ProG-TiDEShining7Shining 7G-TiDE V6EXTREME X9Extreme X9EX10G-TouchStella $1StellaG-VillGDLGEOFOXMID$1GEOZONGFivePresident Gold $1President Gpower 1President GPower 1President XHero $1President $1President Classic $1President G6 PlusPresident G10 FashionPresident G$1President Tango $1President Smart $1StarkSpeedo_1Speedo 14G Ultra Pro4G Style4G 6700GPad$1GIRASOLETAB5GLONYXQuartz $1GLXGLX ASAAsaSHAHIN IIIShahin IIIShahin IIMaad PlusMaadGOCLEVERQUANTUM $1INSIGNIA $1TQ700NQUANTUM 700NORION7oLORION 70LQUANTUM 700QUANTUM_1010_LiteQuantum 1010 LiteQuantum 2 $1 MobileQuantum $1 $2 RuggedQuantum $1 Rugged ProQuantum $1 $2 LiteQUANTUM_II_500_NQuantum 2 500 NQuantum $1 LiteQuantum $1 $2NETBOOK R103Netbook R103Terra $1Libra 97GOLDBERGEVO-VX1EVO VX1GOODTELG$1CNOTE 50GOtvGTMEDIAGTXJaculus $1GVC ProGalacticGalatecGalaxy InnovationsGI iTV912iTV912Gi-98Quick98 QuickGI UNI2Uni 2GI Fly T2Fly T2GammaGarmin-AsusGarminfone $1GatewayTablet $1\"GazalGazal_100MIX100 MixGazal_100GazerGazer_TVGeaneeGeantGear MobileGeminiGeneral MobileGM 5 PlusG518GM Era 30G318GM Era 50G300GM 10G310GM 21G510GM 21 PlusG312GM 22G316GM 23G314GM 23 SEG512GM 22 PlusG702GM 22 ProG700GM 21 ProG301GM 20G501GM 20 ProG514GM 24 ProGM $1DGM 6GM $1GM8 goGM 8 GoG008GM 9 GoGM 9 ProG901GM Phoenix 5GGM 9 PlusG100GM 6 DSDiscovery $1Discovery II MiniGM Discovery IIGM Discovery tab 8Discovery Tab 84G DualGeneral Mobile 4G4GGenesisGenius DevicesGeo PhoneT19iGeotelNoteAmigoGeotexGetnordGfoneGhiaSveglio $1QS702GHIA_ZEUS_3GZeus 3GVECTOR_SLIMVector SlimGHIA_AXIS7PAxis 7PAXIS7_SLIMAxis 7 SlimAXIS7_LEDAxis 7 LEDGHIA_AXIS7_3GAxis 7 3GGHIA_AXIS7Axis 7A7_WFA7 WiFiVector 10.1\"GTA7WFA7 ROJAGTA7PLUSA7 PlusTREO_TAB8GTREO TAB8GGT KIDS 7GTVR10SVector 10.1\" SlimGTABPNDKids PandaVENUS7VENUS 74104116NAny Diez.1GhongGhostG03GigabyteRoma R2GSmart Roma R2Simba SX1GSmart Simba SX1GigasetGigaset QV$1GS$1GS57-6ME ProGS55-6MEE940-2797-00GX4E940-2797-01GX4 ProE940-2766-00GS3E940-2795-00GS4E940-2849-00GX6E940-2849-01GX6 ProE940-2796-00GS5E940-2878-03GS5 LiteGS53-6ME PureGiniW$1S5 ProSW17W08S5Ginzzu$1 UltimateGioneeGNP21M02M12 Pad ProGN810GN8003LM6LWBL7519S6sWBL7361M6 LiteMax Pro20190619GK3 Pro20190418QK6GN8003GAU0820K8 ProGNS2161BM18GN$1M7 PowerM5 PlusM$1 MiniM11P5 miniM5 lite CDMAM5",
  chunk! " Lite CDMAP7 MaxP8 MaxM6 MirrorGLY1620M50 ProF9 PlusF12 ProF103$1Dream D1GlobalSecTab TenGlobexX8GU6012BGlobmallGlocalMeS20iGlofiishGpad_UG Pad UGpad AirG Pad AirGlory StarStarOSGoMobileGO Onyx PlusGO Onyx miniGo Onyx MiniGO Onyx HDGo Onyx HDGO OnyxGo OnyxGo$1GocommaH1-C-ALADENGW5Gol MobileF10_PRIMEF10 PrimeF3PrimeF3 PrimeF9_PLUSTEAM_7_3GTeam 7.0 3GGoldMasterNetta 2 Proi-$1Netta 3BENGAL_6Bengal 6DETROIT 3Detroit 3GoldStarGolyGomeC72C71C51K1U1U7U7 MiniU9GoogleGlass 1Galaxy NexusAOSP on HammerHeadNexus 5AOSP on MantaNexus 10Pixel SlateFiber $1ChromecastChromecast HDChromecast HD (2022)Chromecast (2020)GoogleTVPixelPixel XLPixel 3Pixel 3aPixel 9 Pro XLPixel 3 XLPixel 2 XLPixel 3a XLPixel 4 XLPixel 4PIXEL4XPixel 4 XPixel 4aPixel 4a (5G)Pixel $1aPixel 5a 5GG011APixel 2Pixel 7 ProPixel 7Pixel 5Pixel 8 ProPixel 8Pixel 8aGPJ41Pixel 7aG8VOUPixel 6 ProGB7N6Pixel 6Pixel 10 Pro XLPixel 9Pixel 9 ProPixel 9 Pro FoldPixel 10 Pro FoldPixel $1 ProPixel $1PipitPixel FoldPixel CPixel Tablet 2Pixel TabletPixelbook GoPixelbookADT-2Nexus PlayerGoophoneI6 PlusI6I6SI6S PlusI7I7 PlusS4 MegaGooweelGplusGMC-7127MX20GMC-668NQ20SGMC-668MQ20GradienteGRADIENTEGraetzGrapeGTM-5$1Great AsiaTK-$1GreeG0515DTosot 5GG0615DTosot 7GGreen LionG-$1 UltraG-$1 ProGreen OrangeGO 55303C5 GOGreentelX1 Light LTEGressoREGAL R2Regal R2RegalGretelGroBerwertGrundigAFTEU014Vision 7 4K (2019)AFTEUFF014OLED 4K (2019)AFTEU011Vision 6 HD (2019)Gr\xc3\xbcnbergGtelA727_Infinity_ProA727 Infinity ProInfinity 8sInfinity 9X$1 PlusX$1 MiniGuophoneH96Max RK$1Max X2Max V11Mini H8Pro+HAOQINHAOVMHAVITPJ209 PROPJ209 ProHDCH10_ONEH10 OneHEC50SSD-SMART TV-R1R1 50S 4KHEROSP-001HIPER$1-PadMEDIA STICK 4KMedia Stick 4KMedia TV $1HKCHKC 4K AI Smart TVHKProHMDPulse PlusPulse+Pulse ProPulseFusionSkylineVibe 5GVibeCRESTCrestXR21HMD ARCArcHOLLEBERGHGTV-LED$1HOMIIXBOOK_12XBOOK 12HONKUAHGHOTREALSTablet PC 10.1\"HPHP Slate 6 Voice TabSlate 6 VoiceTabHP 10 Plus10 PlusSlate $1Slate 21 ProSlate 21Slate 10 HDcm_tenderloinTouch 9.7\" WiFiCompaq 8200 Elite SFF PCCompaq $1HP Pro Slate 8Pro Slate 8TouchPadiPAQ $1VeerProBook $1Engage One Pro AIOEliteBook $1Z240 Tower WorkstationHTCU PlayU UltraU11 PlusU12 PlusU$1 LifeU12 LifeU11 EyesImagioEvo 3GEvo 4GDesire 628 Dual SIMU11OneOne XOne MiniOne Mini 2One X2One X10JJ OneU23 ProJ ButterflyButterfly SOne M9_Prime Camera EditionOne M9 Prime Camera EditionOne M9 PlusOne M9One $1 Dual SIMDesire $1 Dual SIMOne M7One M8One M8 EyeOne E8One E9One E9 PlusOne S9One RemixOne X+One A9ADR6300Droid IncredibleHTC6435LVWDroid DNAADR6400LThunderBoltADR6410LRADroid Incredible 3SPV E600SPV E650Vox2PYB2Desire $1Desire 626SDesire 510Desire 530Desire 310Desire 320Desire 608tDesire 610Desire 601Desire 620Desire 626Desire 816Desire 526Desire 19sDesire 620G Dual SIMExodus 1U19eDesire 10 CompactDesire 10 Pro10 EvoDesire $1 Pro 5GDesire $1 ProDesire 10 Life StyleNexusHD2HD2Tattoo A3288P715aFlyerFlyer $1One Max$1 (Sprint)Wildfire $1 LiteWildfire $1 StarWildfire $1 PlusHafuryGT20HaierA2_Lite_NFCAlpha A2 Lite NFCA4_LiteAlpha A4 LiteHM-N505-FLI8S5 SilkElegance E13HM-N700-FLHM-N701-FLHM-N501-FLL56HM-I559-FLL55sHM-I560-FLG7sHM-G553-FLG51P2Andromax C46B2HAndromax ECMintakahaierATVnipporihaierATVAndroid TVOLED TV S9haier Android TV DVB2KAndroid TV DVB2KAndroid TV FF ProHaipaiNoble S6HaixuHamletZelig Pad $1HammerConstruction 2 Thermal 5GConstruction 2 5GConstructionExplorer PlusExplorer ProEnergy 2 (2022)Hammer Titan 2Titan 2ForceIron $1IronExplorerActiveActive 2Active 2 LTEBlade V 5GHammer_Blade_5GBlade 5GHammer_Blade2_PROBlade 2 ProHandheldHannSpreeSN1AT71W(B)SN70T31SN70T3SN70T51ASN97T41WT7-QCSNAT71BUEHansonHardkernelODROID $1HarperHartensHTV-43F01-T2CHTY-24H06W-VZ-MHTY-24H06W-VZHT$1-$2HaseeHathwayHeadWolfHPad$1WPad$1FPad3WPad5HeimatHelioHemiltonPro Tab 1000HexaByteX7HezireHiBoost $1Boost GoVHIX-40F152MSYbVHIX-40F152MSYHX-$1VHIX-$1Hi NovaFIO-BD009 SEMNT-BD009z 5GHebe-BD009 ProHera-BD009ALH-BD00MGZ-BD0010 ProMRK-BD0010 SE 5G11SUP-BD0012 SEHi-LevelHLV-T$1HiByportable media playerR6 Gen IIIHiGraceHiHiHIHI-$1KH-TAB-01HiKingFun5Fun 5HiMaxPolymer$1Pure 3SPURE_IIIPure 3HibergQLED $1$1Y UHD-R$1Y UHDHighscreenPower ",
  chunk! "Five ProPower Five Max LitePower Five Max 2Power Five EvoPower Five MaxPower FiveSpadeSpark 2Fest XL ProFest XLFest ProFestBayPower FourPure PowerPure FRazar ProRazarEasy $1 ProEasy $1Easy Power ProEasy PowerExplosionBoost 2Boost 2 SEBoost 3 SEBoost 3 Pro SEBoost 3Zera S PowerTastyVerge MWinWinExpanseHerculesThunderAlpha RagePrime Mini SEPrime $1COSMO DUOCosmo DuoOmega QHipstreetHiremcoX6-PROX6 ProMatrixMatador Pro AirMatador ProMatadorHisenseE270BSASero 7E22Sero 7 ProE2281Sero 8HLTE202NHLTE203TA5 Pro CCHLTE700TA6HLTE730TA6LHNR320THLTE556NM50 Lite 2021M50 Lite (2021)E50sInfinity E MAXInfinity E MaxE MaxHLTE501NV PlusKS907V3HLTE223EH30HLTE720EU30F26F28F29King Kong 4King Kong 4 ProKing Kong 5King Kong 6F8 MiniF30SF40F50F50 PlusH18H20HLTE103EE20Hisense E50 128GE50Hisense E50 Lite 64GE50 LiteHLTE229TR7 ProH11Infinity H40 LiteHLTEM800Xiaohaitun 2U40 LiteE9NanaInfinity H$1 ZoomInfinity E30 SETouchU3 (2019)U3 (2021)HitachiHitechHoffmannX $1HomaticsHometechALFA 10TX ProALFA $17_PREMIUM_PRO7 Premium ProIdeal Tab 7 IPS$1HT $1HomtomP30 ProS17HT$1 ProHT$1HoneywellScanPal $1EDA71ScanPal EDA71Dolphin $1HongTopHongTop_ProjectorHONGTOP_boxHonorMagic V5Play 10Magic 8 ProLOG-AN00Play 70 PlusMEP-AN00500 ProMEY-AN00500X7cX7dALT-NX1X7c 5GMagic V3X70ABR-AN00X70iX8cLLY-NX1200 Lite200200 ProAMG-AN00GTPPG-AN00GT ProAMM-AN00300AMP-AN00300 ProAMP-AN10300 UltraVER-N49DPMagic V2 RSRCLE-AN00Magic V Flip 2FLC-AN00Magic Vs3ALI-NX1X9bALI-NX3Magic 6 Lite 5GMagic 6 ProMagic 6 RSRBVL-AN00Magic 6Magic 7Magic 7 RSRMagic 7 ProMagic 7 LiteJDY-AN00Play 50 5GALT-AN00Play 60 PlusNIC-AN00Play 60KOZ-AL00CMPlay 20aCLK-AN00Play 8T400400 ProABR-NX1400 LiteX9cMTN-NX1MMagic 8 LiteMTN-NX1X9dBRC-NX1X9c SmartNLA-LX2PX5c PlusX5cGFY-LX2PX5b PlusGFY-LX2X5bLLY-AN00X50i+ 5GLYN-AN00X60i 5GBRC-AN00X60X60 ProAGI-AN00X60 GTX5 PlusX6cRKY-AN00Play 40 PlusRKY-AN10Play 7T 5GWDY-AN00Play 40X7aX7bVNE-AN40Play 6CX8aRBN-NX3X8a 5GX8bX6aX6bALT-NX3X6b 5GVCA-AN00V Purse90 Lite90 Smart90MAG-AN0090 GTREP-AN0090 ProMAA-AN10100 ProMAA-AN00Magic V2LRA-AN00Magic V Flip 5GFRI-AN10Magic Vs UltimateVER-AN00Magic Vs2RMO-NX3Magic 5 LiteMagic 5Magic 5 ProPGT-AN20Magic 5 UltimateCLK-NX2X7b 5GRMO-NX1X9aCRT-AN00X50iALI-AN00X50ALP-AN00X50 Pro 5GTFY-AN40Play 6T ProDIO-AN00X40iADT-AN00X40 GTRMO-AN00X40CMA-AN00Play 30 PlusVNE-AN00Play 30VNE-N41X8 5GFNE-AN00FNE-NX970 5GSDY-AN0070 ProRBN-NX170 LiteANP-AN0080 ProAGT-AN0080 GTANB-AN0080 Pro FlatANN-AN0080 5GGIA-AN8080 SEHPB-AN0070 Pro+FRI-NX9Magic VsFRI-AN00Magic Vs 5GMagic 4 ProLGE-AN00Magic 4LGE-AN20Magic 4 Pro+ANY-LX1Magic 4 LiteCMA-AN40Play 6TX9 5GX9NNH-AN0050NTN-AN20X650 5GJLH-AN0050 SE50 Lite50 Pro 5GLSA-AN0060GIA-AN0060 SE 5GTNA-AN0060 ProELZ-AN00Magic 3ELZ-AN10Magic 3 ProELZ-AN20Magic 3 Pro+NEW-AN90Play 5 VitalityCHL-AL00Play 5T ProCHL-AN00X20 SEHJC-AN90Play 5KOZ-AL00Play 20HJC-LX9Play 20 ProPlay 5TGDI-W09MagicPad 13 WiFiROD2-W09MagicPad 2 WiFiROD-W09Pad V8 Pro 12.1\" WiFiROD-W19Pad 9 Pro Soft Light Edition 12.1\" WiFiROL-W00Pad V9 11.5\" WiFiROL-W60Pad GT 11.5\" WiFiROD2-W69Pad GT Pro 12.3\" WiFiKRJ2-W09Pad V7 10.4\" WiFiKRJ2-AN00Pad V7 10.4\" 5GBRT-W09Pad V7 Pro 11\" WiFiBRT-AN09Pad V7 Pro 11\" 5GKOB2-W09HNPad X7 8\" WiFiKOB2-AL00HNPad X7 8\" LTEAGR-W09HNPad X6AGM-W09HNPad X8 Lite WiFiNDL-W09Pad X8a WiFiNDL-L09Pad X8a LTEAGR-AL09HNPad X6 9.7\"ELN-W09Pad X9 11.5\" WiFiPad X9 11.5\" LTEELN2-L29Pad X9a 11.5\" LTEELN2-W29Pad X9a 11.5\" WiFiHEY3-W00Pad 10 12.1\" WiFiHEY3-N09Pad 10 12.1\"HEY-W09Pad 8 12.0\" WiFiHEY2-W09Pad 9 12.1\" WiFiHEY2-N09Pad 9 12.1\" 5GAGM3-W09HNPad 7 10.1\" WiFiAGM3-AL09HNPad 7 10.1\"HoozoF13HopelandHY$1HorionHorizontHosinHot PepperHPP-GS1HPPL60AChilacaHPPL63APancaVLE5PoblanoPuyaHPP-L55BSerranoHotwavCosmos V8 LiteHot 6Venus R8 PLUSVenus R8 PlusVenus X16Cyber $1 ProCyber XCyber $1Hyper 7 ProHyper 7SHyper 7T5 MaxSymbol $1W10M5iW11Pearl K$1 ($2)Symbol R60Note 12 EFNote 18 GTTab R$1 ProTab R$1 PlusTAB R6 UltraTab R6 UltraTab R$1Symbol ProSymbolHowHT-1001G Go KidsHT-$1HuadooHG11HuaganHuaviKHATAR H-10 MiniKHATAR H-20 ProHuaweiPura 70Pura 70 UltraPura 70 ProPura 70 Pro+LMU-LX9Pura 80 UltraHED-LX9Pura 80PLU-AL10Mate 70 RS Ultimate 5GMate 70 ProMate 70 5GPLA-AL10Mate 70",
  chunk! " Pro+ 5GGFY-AL00Enjoy 70S9SAscend D1Ascend D3Ascend Y530Ascend Y320Ascend Y330Ascend Y5CAscend G300Ascend G527Ascend G620SAscend G630Ascend G7Ascend P7Ascend P6Ascend G730Ascend P1Ascend XT2Ascend Y221Ascend Y550Ascend Y560Ascend G700Enjoy 10Enjoy 10 PlusEnjoy 10EEnjoy 10SEnjoy 5SMGA-AL00Enjoy 50EVE-AL00Enjoy 50zMGA-AL40Enjoy 60MAO-AL00Enjoy 60 Pro 4GCTR-AL00Enjoy 50 ProSTG-AL00Enjoy 60XCTR-AL20Enjoy 70 ProFGD-AL00Enjoy 70GR3Enjoy 6Enjoy 6SEnjoy 7Enjoy 7SEnjoy 7 PlusEnjoy 8Enjoy 8 PlusEnjoy 8eEnjoy 9eEnjoy 20 Pro 5GEnjoy Z 5GEnjoy 20 SEEnjoy 20 Plus 5GEnjoy 20eFusion 2Y6pG PlayG Play MiniG621GR3 (2017)GR5GR5 (2017)RIO-L03GX8G8G7 PlusP60 ProP60P50 ProP50P50EP50 PocketBAL-AL60Pocket SLEM-AL00Pocket 2Honor 2Honor 3CHonor 3C LiteHonor 3XHN3-U01Honor 3YOK-AN10Honor V40ALA-AN70Honor V40 LiteKKG-AN70Honor X30 MaxANY-AN00Honor X30TFY-AN00Honor X30iAGS3-AL09HNHonor Pad 6 10.1\"AGS3-W09HNHonor Pad 6 10.1\" WiFiHonor Pad V6 10.4\" 5GHonor Pad V6 10.4\" WiFiHonor 30 ProHonor 30 Pro PlusHonor 30SHonor 30IHonor 30 LiteHonor 30TNNH-AN00Honor Play 4Honor Play 4 ProHonor Play 4THonor 8A ProHonor 9AHonor 9CHonor 9x LiteHonor 9X LiteOXF-AN00Honor View 30OXF-AN10Honor View 30 ProHonor X10 MaxHonor X10 LiteHonor X10 5GX10 ProHonor X10 ProHonor Play 9AHonor 10 LiteHonor 10IHonor 20 LiteHonor 20IHonor 20 ProHonor 20SHonor 20Honor Play 3EHonor Play 3Honor Play 4CHonor 8AHonor 8SHonor 9SHonor 9X ProHonor 9XHonor Play 7Honor Play 8AHonor Play 8Honor 10Honor 8CHonor 8XHonor 8X MaxHonor Magic 2Honor Magic 2 3DHonor V20Honor View 20Honor 5 PlayMYA-TL10Honor 6 PlayHonor 7AHonor 7A ProHonor 7CHonor 7SHonor 8 LiteRVL-AL09Honor Note 10Honor PlayHonor 9Honor 9 LiteHonor 9iHonor View 10Honor V10Honor 7XHonor 6ADIG-L21HNHonor 6CHonor 6C ProHonor 8 ProEDI-AL10Honor Note 8CAM-UL00Honor Holly 3NTS-AL00Honor MagicDUK-AL20Honor V9Honor V9 PlayHonor 4C ProHonor Play 4T ProHonor 5AHonor 5CHonor 5C Dual SIMHonor 6XHonor 7 LiteHonor 8VEN-L22Honor 8 SmartHonor V8Honor 4AHonor 4CHonor 5XHonor 7Honor 7iHolly-U19Honor HollyHonor 4XHonor 6Honor 6 PlusHonor Tab 5Honor Water Play 10.1Honor Water Play 8.0Honor Pad 2VKY-TL00P10 PlusP40 5GANA-NX9P40 DualIdeos X2Ideos X3Ideos X5Ideos X5 ProMaimang 5RIO-AL00Maimang 4Maimang 8Maimang 9TYH601MMaimang 9 5GMaimang $1Mate XSMate XS 2TAH-AN00Mate XMate X3ALT-AL10Mate X5Mate X6Mate X2TET-AN50Mate X2 5GMate 10Mate 10 LiteMate 10 ProMate 20Mate 20 LiteMate 20 ProMate 20 RSMate 20 XMate 30TAS-AN00Mate 30 5GMate 30 RS Porsche DesignMate 30 LiteMate 30 ProMate 30 Pro 5GMate 30E Pro 5GMate 40 ProNOH-AN80Mate 40E Pro 5GMate 40 Pro+Mate 40 RSMate 40Mate 40EMate 50 ProMate 50CET-AL60Mate 50EMate 60 ProALN-AL10Mate 60 Pro+BRA-AL00Mate 60Mate 8Mate 9Mate 9 LiteMate 9 ProMate RSMate RS Porsche DesignMate SMate SENova LiteNova PlusNova Lite 3+Nova 2Nova 2 LiteNova 2 PlusNova 2 Plus Dual SIMNova 2INova 2SNova 3Nova 3eNova 3iNova 4Nova 4eNova 5Nova 5 ProNova 5iNova 5Tnova 5T ProNova 5T ProNova 5i ProNova 6 5GNova 6 SENova 6Nova 7 5GNova 7 Pro 5GNova 7 SE 5GMAO-LX9Nova 11iGOA-AL80UNova 11 UltraNova 11 ProNova 11Nova 12 LiteBON-AL00Nova 11 SEADA-AL00UNova 12 UltraADA-AL10UNova 12CTR-L81Nova 12iCTR-L91Nova 13iMIS-LX9Nova 13 ProADA-AL00Nova 12 ProBLK-AL00Nova 13TLR-AL00Nova 14Nova 7iNova 8iNova 8 5GJSC-AN00Nova 8 SE 5GNova 8 SE 4GCHL-AL60Nova 8 SE VitalityNova 8 Pro 4GNova 8 Pro 5GNova 8Nova 9Nova 9 ProNova 9 SENova 10 ProNova 10 4GNova 10 SECHA-AL80Nova 10zMAO-LX9NNova SmartNova YouthEnjoy 20 5GNova Y60Nova Y61Nova Y70GFY-LX1Nova Y72SNova Y90Nova Y91P smartP smart (2019)P smart (2020)P smart (2021)P smart ZP smart SP10P10 LiteP10 SelfieP20P20 LiteP20 ProP30P30 LiteMarie-L21BXP30 Lite NEP40 LiteP40 Lite EP40 Lite E NFCP40 ProP40 Pro PlusP8P8 PremiumP8 Lite (2015)P8 Lite (2017)P9P9 LiteP9 Lite PremiumP9 Lite MiniP9 Lite SmartP9 PlusG9 PlusG9 LiteShotXY MaxY3 (2017)Y3 (2018)Y3IIY5 (2017)Y5 (2018)Y5 (2019)Y5 LiteY5pY5 Lite (2017)Y5 Lite (2018)Y5 Prime (2018)Y5 Pro (2017)Y5IIY6Y6 II CompactY6 EliteY6 (2016)Y6 (2017)Y6 (2018)Y6 (2019)Y6 Prime (2018)Y6 ProY6 Pro (2019)Y625Y635Y635 Dual SIMY6IIY7 (2017)Y7 (2018)Y7 (2019)Y7 PrimeY7 Prime (2018)Y7 Pro (2019)Enjoy 9",
  chunk! "Y7aY7pY8pY9 (2018)Y9 (2019)Y9 Prime (2019)Y9aStream SGT3Evolucion 3Ultym 5Ascend G6Nexus 6PMate XT Ultimate DesignKOB2K-L09MatePad T8 8\" LTEBVE-W10Qinyun C5z 10.4\" WiFiQua Tab 02 10.1\"MatePad 10.4\" (2022)MatePad 10.4\" (2022) WiFiMatePad 10.4\"BAH3-W59MatePad 10.4\" WiFiBAH3-AN10MatePad 10.4\" 5GDBY-W09MatePad 11 WiFiAGS6-W09MatePad SE 11 WiFiAGS6-L09MatePad SE 11BKY-W09MatePad 12 X WiFiMatePad 11 (2023) WiFiMatePad Pro 11MatePad Pro 11 WiFiXYAO-W00MatePad Pro 11 (2024) WiFiMatePad 10.8\" WiFiMatePad 10.8\"MatePad T10sMatePad T10s WiFiMatePad 10.4\" SEMatePad 11.5\" Air WiFiDBY2-L09MatePad 11.5\" AirBTK-AL09MatePad 11.5\" LTEBTK-W09MatePad 11.5\" WiFiBTKR-W09MatePad 11.5\" (2024) WiFiMatePad 11.5\" S WiFiMatePad 10.4\" SE WiFiMatePad Paper 10.3\" WiFiMatePad C5 8C3 9.6\" WiFiC3 9.6\"C3 9.7\" (2020)C3 9.7\" (2020) WiFiC5 8\" LTEC5 10.4\" WiFiMediaPad M2 8.0\"MediaPad M2 10.1\"MediaPad M2 8.0\" WiFiMatePad Pro 10.8\"MatePad Pro 10.8\" WiFiMatePad Pro 10.8\" (2021) WiFiMRO-W09MatePad Pro 12.2\" (2024) WiFiMatePad Pro 10.8\" 5GMatePad Pro 12.6\" WiFiWGR-AN19MatePad Pro 12.6\"MatePad Pro 13.2\" WiFiMatePad Pro 13.2\" (2025) WiFiMediaPad M5 10.8MediaPad M5 Pro 10.8MediaPad M6 10.8\"MediaPad X2MediaPad M5 LiteMediaPad M5 8.4MediaPad M6 8.4MediaPad M6 10.8\" WiFiMediaPad M3 8MediaPad M3 LiteMediaPad M3 Lite 10BTV-DL09MediaPad M3MediaPad T5 10MediaPad T 8.0\"MediaPad T 10MediaPad T3 10MediaPad T3 8MediaPad T3 7MediaPad T2 7.0MediaPad T2 7.0 ProMediaPad T2 8.0 ProMediaPad T2 10.0\" ProMediaPad T1 10MediaPad T1 7MediaPad T1 8AGS3K-W20MediaPad SE 10.1\" WiFiAGS3K-W00MediaPad T10s 10.1\" WiFiAGS3K-W09MatePad T10s 10.1\" WiFiAGS3K-L09MatePad T10s 10.1\" LTEAGRK-W09MediaPad T10 9.7\" WiFiAGRK-L09MediaPad T10 9.7\" LTEEnjoy Tablet 10.1Enjoy Tablet 2 10.1\" WiFiMediaPad C5 10.1BZT-W09MediaPad C5 10.1\" WiFiMON-AL19BMediaPad C5 8\"MatePad C5e 10.1\"MatePad C5e 10.1\" WiFiBZT3-W09BZT3-AL00C5 10.4\"BZD-W00MediaPad C3 8.0\" WiFiBZD-AL00MediaPad C3 8.0\"D Tab Compactdtab $1Smart Watch 2Smart Watch 2 SportGLL-AL01Watch 3 Pro EliteARC-AL00Watch 4BLM-00 SmartScreenEC6108V$1KANT-369Vision S 65\"KANT-359Vision S 55\"Smart Screen S 55\"KANT-350SSmart Screen S Pro 55\"KANT-360SSmart Screen S Pro 65\"KANT-360Smart Screen S 65\"KANT-370SSmart Screen S Pro 75\"KANT-370Smart Screen S 75\"Ideos$1Ascend Mate $1HugerockT101_2021T101 (2021)HumanwareBrailleNoteBrailleNote Touch PlusBrailleNote TouchHumaxHurricaneIgniteVortexGigaGlazeCobraDZIREDzireSAGESageBeamSlamVulcanFlame_PlusFlame PlusRidge PlusRush PlusIris Plus 2021Iris Plus (2021)VortexPlusVortex PlusExciteFlintHuskeeVULKANOVulkanoHyattaModel $1HykkerHykker_MyTab10MyTab10HyteraHyundaiUltra Vision PlusUltra $1Seoul S8Seoul MIXSeoul MixSeoul ECOSeoul EcoSeoul 5 PlusSeoul $1G25523KEternity G23Eternity $1G25524KEternity G24G24027KEternity G27W25042LEternity W42HP554OL503F PlusHYMI 5S PlusHymi 5S PlusE465GOE465 GoULTRA ROCKUltra RockL$1Koral 7W4HT0701L16Koral 7XLHT0701W16Koral 7W4XHT0703W08Koral 7W310LB1Koral 10LB1HT1004LI16Koral 10XLKoral_8W2Koral 8W2HT1004L16HT1003X16Koral 10XHT1002W16Koral 10WHT0703K16Koral 7M3XHT0704K08Koral 7M410WB1Koral 10WB110WB2HyTab Plus 10WB210LA1HyTab Pro 10LA1HT1002W32Koral 10X3 WiFiHyTab 7GB1HyTab Lite 7WD1HyvePryme 01ST01Storm ST01I KALLIKALLI-INNCommunicator 9.7\" 3GI-PlusiPlus P3IDCVoice 20IKI MobileGO5_55Go 5.5\"Go 4.5\"BLESS_GO55Bless Go 5.5\"BLESSPLUSBless PlusIKU MobileT MaxIMO MobileQ$1 PlusQ$1 ProQ2S2Feel A2S50 LightS80 HeroS89 MiracleS88 DiscoveryS99 OceanS98 ChampionS87 RaptorS67 BlastS78 GloryQ8 ClarityDiscovery IIQQ$1Tab X9INCARINQINSYSHK9-4010AC7_DJ17AC7-DJ17IH9-L614MX IH9-L614IOTWET95 ProIQMVivaldiNewtonIRAIRA_DUODuo TabletITIT-1101-QUAD1101 QuadIUNIIconBITNT-3506MNetTAB Mercury Quad FHDNT-0704SNetTAB Sky LENT-0909TNetTAB Thor IZNT-1009TNetTAB Thor quad IINetTAB Thor LENT-1017TNetTAB Thor 3G quadNT-3601P/3602PNetTAB Pocket 3GNT-3603PNetTAB Pocket 3G SlimNT-3702SNetTAB Sky HD 3GNT-3805CNetTAB Skat 3G quadNT-3701SNetTAB Sky 3G duoNT-3905TNetTAB Thor ZX 3GNT-0701SNetTAB Sky netNT-0805CNetTAB Skat MXNT-0902SNetTAB Space quad RXNetTAB_Space_3GNetTAB Space 3GNT-3702MNetTAB Matrix 3G duoNT-3703MNetTAB Matrix 3GTMATRIX ULTRANetTAB ",
  chunk! "Matrix UltraNT-1501CCallisto 100XLR3089Movie 2100TOUCAN NANO 4KToucan Nano 4KTOUCAN Smart 3D QuadToucan Smart 3D QuadTOUCAN Stick 4KToucan Stick 4KIcone GoldImaqIMAQTetraImoseBAM-IIImpressionImSmart $1ImPad $1InFocusIF9001Turbo 5IF9007IF9021Turbo 5 PlusIF9035A2IF9002M5sIF9003M6sIF9031Vision 3IF9029Vision 3 ProBig Tab IF$1aM$1InFoneGORILLA 9 PLUSGorilla 9 PlusX_RAINBOWX RainbowInch$1\"IncoBloom 4Plain2 SPlain 2SMATTERMattereco_sEco SFlex $1Sphere$1InduramaINDURAMAInfinitonT5Earth 7\" 3GEARTH10Earth 10.1\" 3GInfinityProInfinityProTVInfinixGT 10 ProGT 20 ProGT 30 ProBuzzAlpha MarvelSurf SmartSurf Smart 3GSurf Smart 2Surf SpiceSurf BravoSurf NoirRaceRace LiteRace BoltRace Bolt QRace Bolt 2Race EagleRace JetZeroZero FlipZero 30Zero 30 5GZero 2Zero 20Zero 3Zero 40 5GZero 40Zero 4 PlusZero 4Zero 5Zero 5 ProZero 6Zero 6 ProZero 8iInfinix X6870Note 50S 5GZero 8Zero 5GZero XZero X ProZero X NeoZero UltraHotHot 2Hot 3Hot 30iHot 30Hot 30 PlayHot 30 5GHot 40iHot 40Hot 40 ProHot S3XHot SHot S2Hot 4Hot 4 ProHot 5Hot 50Hot 50iHot 50 5GHot 50 ProHot 50 Pro+Hot 5 LiteHot 60 ProHot 60 Pro+Hot 60 5GHot 60iHot 60i 5GHot 6XHot 6 ProHot 7Hot 7 ProHot 8Hot 9 ProHot 9Hot 9 PlaySmart 4 PlusSmart 4Hot 10 PlayHot 10Hot 10THot 11Infinix X689DHot 10s NFCInfinix X689Hot 10sHot 10iHot S3Hot 11SHot 11 (2020)Hot 12 Play NFCHot 12 PlayHot 12 ProHot 20iHot 20Hot 20 5GHot 20 PlayHot 20SHot 12iHot 12Smart HD (2021)SmartSmart 2Smart 2 HDSmart 3Smart 3 PlusSmart 2 ProSmart 9 HDSmart 9Smart 5Smart 6 PlusSmart 6Smart 6 HDSmart 7 PlusSmart 7Smart 7 HDSmart 8 ProSmart 8 PlusSmart 8S5 LiteS4Smart 10 PlusNote 40X 5GHot NoteNote 2Note 4Note 4 ProNote 5 StylusNote 7Note 7 LiteNote 8Note 8iNote 10 ProNote 10Note 12Note 12i (2022)Note 12iNote 12 ProNote 12 Pro 5GNote 12 VIPNote 12 NFCNote 11Note 11 ProNote 11SNote 12 5GNote 12 (2023)Note 30Note 30iNote 30 VIPNote 30 ProNote 30 5GNote 50 ProNote 50 Pro+ 5GNote 50X 5GNote 50Note 40SNote 40 ProNote 40 Pro+ 5GNote 40 Pro 5GNote 40 5GNote 40XPadHot $1$2InfoKitInfomirInhonInkaX96 miniInktiInnJooVOOM TAB 2Voom Tab 2X3Halo X LTEHalo PlusHalo 4 Mini LTEHalo 4Halo 2 LTEHalo $1 3GPro 2One 3G2 LTEFire2 Plus LTEFire 2 Plus LTEFire_Plus_LTEFire Plus LTEFire2 Air LTEFire 2 Air LTEFire2 Pro LTEFire 2 Pro LTEFire2 LTEFire 2 LTEFire3 miniFire 3 MiniFire 4 ProFire 4 PlusFire 4Superb_PLusSuperB PlusSuperbSuperBVISION LTEVision LTEInnosInnostreamINNO$1InoiPad Mini 2+32Pad 2+32Pad 4+128Pad Mini 1+16 WiFiinoiPad ProPad ProPad WiFi+3GINOI easyphoneEasy Phone$1 Lite ($2)A72A181_PlusA181 PlusA180A62InsigniaNS-P11A810011.6\"Flex 10.1\"NS-P16AT08Flex 8\"NS-P08A71008\"10.1\"NS-P16AT785HDFlex Elite 7.85\"AFTEAMR311HD (2018)AFTJMST124K (2018)IntelNUC10i3FNHNUC 10IntexIM0318NDAqua Lions 3Aqua Lions T1 LiteAqua Lions $1Aqua $1 PlusAqua $1Aqua Lions T1 PlusAqua Crystal PlusAqua Fulvu E5Aqua Jewel 2Aqua Life IIIAqua 4.0 4GAqua Mini 4GAqua Lions 4GAqua Prime 4GAqua ZenithAqua Power IVAqua Young 4GAqua Trend LiteAqua Amaze PlusAqua Supreme PlusAqua Style $1Aqua Strong 5.1 PlusAqua CrystalElyt Dual PlusElyt DualElyt $1IV0318NDIndie 11Lions 6Infie 77Cloud TreadInvensInvinKM5PROKM5 ProIrbisIrisVox $1SN30Vox FortisVox VeroVOX Alpha PlusVox Alpha PlusVOX STEEL PlusVox Steel PlusVOX AlphaVox AlphaVOX EnergyVox EnergyVOX POP plusVox Pop PlusVOX POP ProVox Pop ProNext_P_PRONext P ProNext $1IS$1 PlusIRS002-16I-S6IS2SX1 miniX1 MiniJAY-TechTablet PC PA10.1MTablet PC $1TPC-G1011LTETablet PC G 10.11\" LTEJFoneJKLJPayJRENJUSYEAJVCFire TV 4K (2019)Fire TV 4K (2021)Fire TV 2K (2020)JamboJP1JamboPhoneJP2JamboPhone 2JckkcfugA10 ProJekaJK $1 3GJK $1JesyJ9S_PROJ9s ProJiakeJK-$1JiayuG4/G5JY-$1JideRemix ProRemix MiniJin TuJingaOptim 4GFresh 4GHotz M1Hit 4GPass PlusPass 3GGoal PlusTouch 4GStart 3GStart LTEStartPicasso NoteIGO L3Basco NeoBasco M500 3GBasco $1Trezor S1 PlusIGO L2IGO $1JioJioPhone NextJiviRevolution $1Opus S3JSPQ65JSP Q65Xtreme Klick $1Xtreme View Pro $1 PlusXtreme View $1Xtreme $1JollaJoyJoySurfJS10JumperEZpad $1Juniper SystemsJunipers/Cedar#CT8CT8Just5Cosmo $1Freedom $1FreedomSpacer 2SSpacer 2JUST5SPACERSpacerBLASTER 2Blaster 2BLASTERBlasterK-LiteKLT_K301K301NAVTECH_TOUCHY",
  chunk! "_F2Navtech Touchy F2K-TouchKT20201199KT20201188T12 Pro MaxLDOX-2130i13 Pro MaxLDOX-2123X13 ProLDOX-2121MT40LDXA-2022X27S ProLDXA-2122X27SPace 2 LiteKAPROiK-10KATV1KDDIiida InfoBar $1InfoBar A02KENSHIArmor I1 SlimArmor $1Pad Lite $1Pad Pro $1KENWOODKGTELKINGZONEK1 TurboKMCKN MobileKOPOKREZKRIPK$1KRONONET1100NET 1100NET $1NET_MATRIXNet MatrixNET_MAXNet MaxNet $1NETWORKNetworkKT-TechKTCKVADRAKVADRA_KVADRA_TTKZGKaanKaiomyKaiCloud $1KalleyBlack_G_2Black G 2Black $1 ProBlack $1BLACK_PROBlack ProElement 4 PlusElement 5ELEMENT MAXElement MaxSilver Max Pro 2Silver Max $1SILVER_MAXSilver MaxELEMENT PLAYElement PlayELEMENT QElement QELEMENT_PRO_2Element Pro 2GOLD_PROGold ProK-BOOK$1Android TV $1KanjiCata 7KJ-GOCHIGochiAilu MaxYubi 3GAlfaKJ-$1KJ-SMART4KSmart 4KKapsysKarbonnK9 Kavach 4GK9 Music 4GK9 Smart Eco PlusK9 Smart EcoK9 Smart 4GK9 Smart SelfieK9 Smart GrandK9 Smart YuvaK9 Smart PlusK9 SmartA40 Indian PlusA$1 IndianK9 Viraat PlusAura Sleek PlusAura Power 4G PlusAura Note PlayAura Note 2Aura StormAura ChampAura Sleek 4GAura_PowerAura PowerAlfa A114 QuadK9 Viraat 4GMACHFIVEMach FiveMACHONEPLUSTitanium Mach One PlusMACHONETitanium Mach OneMACH SIX VRTitanium Mach Six VRTitanium S$1 PlusTitanium S$1Titanium Vista 4GTitanium Jumbo 2Titanium JumboTitanium MoghulTitanium Frames S7Titanium Octane PlusTitanium 3D PlexS2052GBTitanium S250 2GBK-lite F3K-Lite F3Sparkle VA41 PowerQuattro L$1 HDQuattro L$1 IPSQuattro L$1 VRKataI5T Mini 4Box 2KazamTornado 348Thunder 450WTrooper X4.0Trooper X$1.$2KazunaKAZ-N20eTalk MYFLIXKempler & StraussAlumini 2Alumini 3 PlusAlumini3Alumini 3P$1P1 AmateurKEMPLER_TVTVKEMPLER_XKEMPLER_8_PLUS8 PlusKEMPLER_9ZKEMPLER PLUSZKempler PlusZKEMPLER_PROZKempler ProKenboE61ProE61 ProO31 PlusKeneksiLibertySunSigmaKenxindaThree Proofings W$1KhadasKianoSlim Tab $1CORE 10.1 DUAL 3GElegance $1.$2\" ProElegance 5.0\" LiteElegance 6Elegance 6 5.85\"Elegance $1.$2\"$2 $3KingboxKingelonN9000KingstarKingsunKinstoneKiowa$1 CristalS5 ULTRAS5 UltraKivi$1 v$2KlipadKL628_HLKL628HLKL4898-A50KocasoDX765 ProM6200M729MX780M851M1050sM1070MX736KodakIM5Seren $1EktraSmartway L1 ProSmartway $1Tablet $1PATH_7XPRO7XPROKoganAgora $1 PlusAgora XIAgora 11Agora GoAgora 4G ProAgora LiteKomuKonkaKC516 ProPhoenix ProKC516E5660SViva 5660sW830Tango 830Expose $1W990Tuxedo 990KonrowBigCoolLINK55Cool-KCool 55Soft 5Soft 5PCool FiveJust 5Link 5Easy 5City $1Sky 55Sweet $1K-Tab 1003KoobeeSL004TK100F2 PlusKoolneeKooperMobile W502Koraxera8K ProKoridyKoslamKraftKTV-$1Kr\xc3\xbcger&MatzMOVE8miniMOVE 8 MiniMOVE_6_miniMOVE 6 MiniMOVE $1DRIVE 4 mini LTEDRIVE $1FLOW $1 PlusFLOW 6 LiteFLOW $1LIVE 4 $1LIVE 4LIVE 5 $1LIVE 5 PlusLIVE 6 PlusLIVE $1SLIVE $1MOVE 9EAGLE $1 10.1\"EAGLE $1 10.4\"EAGLE 806 8.0\"EAGLE 807 8.4\"EAGLE $1EAGLE $1 10.5\"EAGLE $1 7.1\"EAGLE $1 8.0\"EAGLE $1 7.0\"KuliaoKultKumaiKurioTab 2Phone C14500KyoceraMilanoBalmuda $1One S$1RiseDigno GDigno EDigno CDigno JDigno TDigno XS2DignoDigno Dual 2Digno RafreDigno BXDigno BX 2Digno Keitai RMiraie FInfobar XVHydroHydro EDGEHydro XTRMC6730Hydro ICONC6750Hydro ELITEC6530NHydro LIFEHydro WAVEC6743Hydro ReachDuraForceDuraForce ProDuraForce Pro 2DuraForce Pro 3E7110DuraForce Ultra 5GC6930DuraForce 5GKC-S701TorqueKYG01Torque 5GDigno SMiraieTorque G01Torque G06Easy Mobile Phone $1MarveraMamorino 5Gratina 4GGratina $1Torque X01Keitai $1Torque G02Torque G03Torque G04BasioBasio 4Basio 3Kantan SumahoQua PhoneQua Phone QXQua Phone QZQua Tab QZ10Qua Tab QZ8Qua Tab 01RafreInfobar A03Urbano L01Urbano L02Urbano L03Urbano V01Urbano V02Urbano V03DuraForce EXDuraForce XDOne X3BrigadierDuraScoutLuceKatan Sumaho 2Katan Sumaho 2+Katan Sumaho 3Urbano ProgressoGzOne Type-XXS2151CoastKZ $1KyowonKzenUreki_U1Ureki U1Eva_E01Eva E01Victor V1REX RXRex RXLamia L01Majesty $1DART KZ07Dart KZ07L-MaxMega Plus $1Sapphire $1LAGENIOPanther 2 ProLAIQLCTLEMFOLGDisney Mobile DM-$1L70F70L90L80LG-D340F8L70 TriL30LG-D160L40L45L35L20L60L60iL65LM-X210APMPhoenix 4LG-P505RLM-X210VPPZone 4LM-X220PMTribute EmpireLG-SP200Tribute DynastyTribute 5Tribute 2LG-F570Band PlayVS930 4GSpectrum II 4GG2G2 MiniG3G3 VigorLG-F410SG3 AG3SG3 BeatG3 StylusLG-F460G3 Cat. 6LG-D724G3sG4G4cG4 Sty",
  chunk! "lusG4sLG-H735G4 BeatLG-H731G4 VigorG5 SEG6LM-Q850G7 FitLM-Q910G7 OneG FlexG Flex 2G Pro LiteLG-F430LGx2GxLM-G850G8X ThinQLM-G810G8S ThinQWine Smart H410Wine SmartWine Smart 3GWine Smart JazzK20F60AKALGL41CUltimate 2LGLS660TributeMagnaLGL63BLFiestaFiesta 2Bello 2L BelloL FinoRisioRisio 2X300SpreeLGM-X401SX500LGM-X100SSmart Folder X100SClassClassicOptimus OneOptimus Exceed 2Optimus GLG-F220KOptimus GKOptimus Dynamic IIOptimus G ProOptimus L3 IIOptimus L4 IIOptimus L4 II DualOptimus L40Optimus L5 IIOptimus L5Optimus L1 IIOptimus L9 IILG-P875Optimus F5Optimus F3Optimus F6LG-US780Optimus F7Optimus it $1Optimus LTE 2LG-F260SOptimus LTE 3LG-F120Optimus LTE TagLG-P705Optimus L7Optimus L7 IIOptimus L7 II DualOptimus L70Optimus LTE L-01DPRADA phone L-02DL-07COptimus Bright L-07CV20Q Stylus PlusL50 SportyLG-LS840Viper 4G LTE801LGQ StylusLG-M400Stylus 3Stylus 2Stylus 2 PlusQ7Q7+Q8+Q8Q9Q70Q52Qua Phone PXLG-MS870Sprint 4GStyleStyle 2Stylo 2Stylo 2 VStylo 2 PlusStyle 3G StyloStylo 3Stylo 3 PlusStylo 4Stylo 5Stylo 6G7 ThinQLMG820UM1G8 ThinQLG-M153FortuneLM-X210CMFortune 2Escape 2Premier ProPremier Pro PlusPremier Pro LTEPremierTreasureLM-X525Q60LM-K315IMW31K31LGL423DLSolo LTELG-F820LUX2X CamX MachX ChargeX StyleLG-F740LX SkinX ScreenX VentureLM-X510WMX Power 3X4X4+K11K30LMX130IMLM-K310IMLM-X600IMW30 ProLM-X440ZMWW30LM-K610IMW41LG-H522Prime Plus 4GLGL58VLRabel 2LG-X190RayVoltVolt IILM-X410LGM-K121LGM-X401LX401LM-X420NX4 (2019)K4K4 LTEK4 (2017)LM-X420K40K40SLM-K410K41SLG-X220K5LM-X540K50SK50402LGSprayL-02KJoJoLM-X625N1LM-X625NX6 (2019)AristoAristo 2Aristo 3X2 (2019)V40 ThinQV50 ThinQLM-V510NV50S ThinQLM-Q920NQ92LM-Q927LQ9 OneV10K8 (2017)LM-X220QMAK8sK8 4GK8 VK8 (2018)V30V30 PlusVelvet 5GVelvet 2 ProLM-G910Velvet 4GV60 ThinQ 5GOptimus ZoneV35Optimus Zone 2Optimus Zone 3K3K3 (2017)K7K8VS500PPK10K10 (2017)K20 PlusK22 PlusK22K92K33K42K51K51SK52K56K56 PlusQ51Q31Q61Q6LM-X440itHarmonyHarmony 4X PowerX Power 2Phoenix 3Optimus VuOptimus Vu IIOptimus VOptimus 4X HDLeonLeon 4G LTESpiritOptimus ProLGL158VLRebel 3Rebel 4RebelVS876Lucid 3G VistaLG-H740G Vista 2VS820LancetVS870 4GLucid 2VS810PPTranspyreLG-F580LGentleG Pro 2Vu 3LG-FL40L070 TouchLG-F440LIce Cream SmartL80 DualLG-D370L80 SingleY25WING10A30QUltra TabG Pad 5 10.1\" FHDG Pad 7.0\" LTELG-V533G Pad IV 8.0\"G Pad F 7.0\"LGLK430G Pad F 8.0\"LG-LK460G Pad F2 8.0\"G Pad 8.0G Pad 8.0\" LTEG Pad 8.3LG-V700G Pad 10.1LG-V497G Pad II 8.0\"G Pad II 10.1LG-V940G Pad II 10.1 FHDG Pad III 8.0G Pad III 8.0\" FHDG Pad III 10.1\" FHD LTELG-P530LG Pad IV 8.0\" FHD LTEVK810G Pad 8.3 LTEVK815G Pad X 8.3G Pad X 8.0\"LG-V930G Pad X 10.1\"LG-V530G Pad X2 8.0\" PlusG Pad X2 10.1\"LGT32Qua Tad PZLGT31Qua Tad PXHF60LS-EU27ART10AKPLStandbyMEKEY0000010FWebOS TV47LA790W-ZANetCastLG Watch UrbaneWatch UrbaneG Watch$1LNMBBSLOGANLOKMATLT MobileLT_S9_NOTENote S9P7sS10 LiteS10W7P10iM15M40M60M25 PowerS33M$1 LiteLUNNENGround $1TL65611S01Ground 11TL4648S01Ground 8.4LUOLWLYFLS-4004Flame 2LS-5501Earth 1LS-5021Earth 2LS-5505Water F1LS-4503Flame LS-4503LS-4001Flame 3LS-4003Flame 4LS-4002Flame 5LS-4005Flame 6Flame 7LS-4008Flame 7SFlame 8LS-5002Water 1LS-5005Water 4LS-5006Water 6LS-5008Water 2LS-5009Wind 6LS-5013Wind 5LS-5014Wind 4LS-5010Wind 1LS-5015Water 8LS-5016Wind 7LS-5504Water 7LS-5507Water 7SLS-5017Water 11LS-5018Wind 4SLS-5020Water 10LS-5201Water F1SLS-5502Wind 3LS-5503Water 3LS-5506Water 9LS-6001Wind 2LYOTECH LABSLFi OneLand RoverVphone X3LUXURYLuxuryPolar3Ioutdoor Polar 3LandvoS6 BuildS6XM$100$2LaninLanixILIUM_PAD_RX10v5Ilium Pad RX10 V5LANIX_PAD_E7Ilium Pad E7Ilium Pad $1X120CIlium X120CIlium $1Ilium Alpha $1Alpha $1VAlpha $1RLarkCumulus $1 HDFreeMe X2 $1 Version $2FreeMe X4 7 3G HDFreeMe X4 7HD 3GFreeMe X2 $1FreeMe X4 7HDFreeMe X4 9FreeMe X4 7FreeBird 5WiFiFreeBird 5 WiFiEvolution $1Ultimate $1PHABLET 7Phablet 7Phablet 6.0Bjorn SP-500Cirrus $1Impress_NodaImpress NodaLaserMID-1089IPSA100LavaBlaze 2Blaze Pro 5GBlaze ProBlazeBlaze NXTBlaze 5GBlaze X 5GLXX505Blaze CurveFlair $1Benco Y30Benco Y50Benco Y40Agni 5GAgni 2 5GZ61 ProA97 IPSR5s PlayA97 2GB PlusA76 PlusA3 MiniPixel V2 PlusPixel V$1X1 Atom LIris X1 SelfieX41 PlusLAVA Z3 UPZ3LEX402Z33Z$1",
  chunk! "Z50 ProZ6Z2LZG402 OMZ21Z3 ProZ60sV2V7V7 PrimeLE9940_WV7s PrimeZ53Z52Z62Z71Z93Iris 66Iris 52Iris 54Iris 59Iris 46Iris 45CIris 45Iris Atom 2XIris Alfa LZ41V8V+6Grand2cGrand 2CR1_LiteR1 LiteLE9820R5LE9810R3 NoteP7plusLZX415Yuva 3LZX414Yuva 3 ProLZX408Yuva 2 ProLIX402Yuva ProLZG409Yuva StarLXX508Storm 5GIris 88 GoFuel F1 MiniIris Fuel F1 MiniDISCOVER136Discover 136KKT QUADRAKKT QuadraKKT40 Power PlusIvory $1T81N UpT81NT71Iris $1 LiteIris $1Le PanTC802ALe Pan MiniTC970 $1Le Pan $1LeBestL202206L19 ProLeEcoLe 1 ProMax X900+Le 1SLe 3S $1X900 BuildLe X900Le Pro 3Le Pro 3 AILe 2 $1Le 2lineage_c106Le Max 2Le X$1Le $1Le Max$1Leader PhoneN-45 lightN-45 LightVyper PROVyper ProLP DAISYDaisyLP_VEYRONVeyronLP_PRADOPradoLP_B-50B50LP_Spectrum_S2Spectrum S2INFINITY_lightInfinity LightInfinity PlusLP_INFINITYInfinityLP_EVORA_lightEvora LightLP T70 LiteT70 LiteLP_T70T70LeagooM$1 ProM5 EDGEM5 EdgeLead $1KIICAA POWERKICCAA PowerKIICAA MIXKICCAA MixElite $1Power 2 ProPower $1Venture 1Alfa $1XRover$1Leapad 7ProLeaPad 7 ProLEAGOO_LEAPAD7_8LeaPad 7LeaPad $1LectrusLECT-TAB$1LedstarTrendy 5.0Novus Premium 6.0\"LeelboxLeffLegendLekePad-$1LemcoLemhoovLencoLENCO Diverso-700Diverso 700TDV900LenovoG780Lecoo P116GLecoo 5G Cloud TabletIdeaTab A7-40Tab A1020IdeaTab A1020TB373FUIdeaTab Pro 12.7\" (2025)IdeaTab A7-50IdeaTab A8-50IdeaTab A10-70A2107A-HA2107A2109AIdeaTab A2109ATab 2 A10-30Tab K10Tab K10 (Gen 2)Yoga Tab 3Yoga Tab 11YT-K606FYoga Pad ProTB3-730XTAB3 7TAB3 7 EssentialTB-7703XTAB3 7 PlusTB3-X70LTAB3 10 PlusTB3-X70FTAB3 10 BusinessTAB3 8 PlusTB-8X04FTAB4 8 RELTAB 2 A8-50LCTAB2 A8-50LCTAB2 8.0\"TAB 2 A10TAB3 8TAB3 8 DualTAB4 10TAB4 8TB-8704XTAB4 8 PlusTAB4 10 PlusTAB5 10.1\"TAB10 10.1\"Moto TabTab M10Tab M11Tab M9Tab P10Tab P11Tab P12 ProTB370FUTab P12TB351FUTab PlusTab K11Tab QT K11 Pro WiFiTab QT K11 WiFiTab P11 PlusTab P11 ProTab P11 Pro (Gen 2)Tab P11 (Gen 2)Tab K11 Pro 5GTab E7Tab E8TB-7304Tab 7 EssentialTab 7A301LVTab 7 5GPB-6505Tab V7A101LVTab 6Tab M10 FHD PlusTab M10 FHD RelTB-X605Tab M10 FHDTB-X306Tab M10 HDTab M10 5GTab M10 Plus (Gen 3)Tab M10 (Gen 3)Tab M7Tab M7 (Gen 3)Yoga Tablet 10Yoga Tablet 10 HDYoga Tablet 2 Pro 13.3\"Yoga Tablet 2 10.1\"Yoga Tablet 2 8.0\"Yoga Tablet 8Yoga 3 ProYoga Tab 3 8YT3-850MYoga Tab 3 10Yoga Tab 3 PlusYoga Smart TabYoga BookTB-J716FXiaoXin Pad Pro 11.5\" (2021)TB138FCXiaoxin Pad Pro 11\" (2022)TB331FCXiaoxin Pad 11\" (2024)EveryPad2Yamada Every Pad 2Xiaoxin Pad Pro 12.7\"XiaoXin Pad 2022Xiaoxin Pad Pro 10.6\" (2022)IdeaTab S6000IdeaTab $1ThinkPad Tablet $1ThinkPad Tablet$1TAB 2 A7-30TAB 2 A7TB-8504FTAB 4 8Tab 4 8\" PlusTB-X304XTab 4 10.1\"TB-X304FM10E10TAB 2 A$1YB-Q501FYoga A12YT-X705XYoga Tablet$1Smart Tab M8Tab M8Tab M8 (Gen 3)Tab M8 (Gen 4)Tab M8 (Gen 4) (2024)Tab M8 FHDLegion Y700L71061Legion Y90L71091Legion Y70A5sA8Z2151ZUK EdgeZUK Z2Z2121ZUK Z2 ProZUK $1K3 NoteK$1 NoteK4 NoteK5 PlayK5 ProK10 PlusK5 NoteA6 NoteA6010 ProVibe K5 PlusVibe K5Vibe Z2Vibe CVibe X2Vibe X3Vibe X3 LiteVibe V7Vibe S6i PlusVibe S$1iLegion ProLegion 2 ProK9K5SK6 NoteK6 PowerVibe P1mVibe P1 TurboVibe P1Vibe BA PlusVibe ShotVibe S1Vibe S1 LiteZ5sZ5Z5 ProZ6 Pro 5GZ6 ProZ5 Pro GTZ6 YouthS5 Pro GTPhab 2PhabPhab PlusIdeaPad $1dtab Compact 42AXT2081-4K12A2010l36A2010K12 ProXT2129-3K13 ProVR-1541FMirage SoloNL5H00XXiaoxin 100Projector701Projector 701IdeaPad S145-15IILIdeaPad S145-15IWLFlex 14API 81SSIdeaCentre 520S-23IKUThinkPad Yoga 370LeotecLESPH5011Argon e250LESPH5003BArgon A250BLESPH5014Krypton K150Titanium T355Supernova $1Pulsar $1LETAB916L-Pad Star SLephoneS104GW7 PlusLesiaAnova A5LexandS4A1VegaS4A2IridaS4A3PalladaS4A5OxygenS4A4 NEONS4A4 NeonS5A1CallistoS5A2OveronS5A3CapellaS5A4ArgonS6A1Antares$1 PRO HD$1 HDLPH7_SmartyLPH7 SmartyLexibookMFC191FRTablet Ultra 3 XLMFC045FRTabTabMFC163FRTablet Master 3MFC142FRTablet KidsMFC250FRTablet JuniorMFC270FRTablet Junior Power TouchMFC280FRTablet Junior 2MFC156FRTablet OneMFC155FRTablet MasterMFC157FRTablet Master 2Tablet UltraMFC375FRTablet Ultra 2MFC162FRPower TabletMFC180FRTablet AdvancedMFC181FRTablet Advanced 2MFC500FRTablet XLMFC190BBFRBarbie TabletMFC195DCFRTablet Disney Cars HDMFC195FUFRFurby TabletMFC195DP",
  chunk! "FRTablet Disney Princesse HDMFC140FRLapTabMFC141FRLapTab 2LibertonLifemaxxLimeLimeZ2PLUSTV Box Z2+LingboVenus Pad $1L16 MaxL24 UltraG15 Pro MaxG$1 MiniLingwinLinnexLi $1LinsayListoWebPad $1Loewe48A81FEVSLogicX60 PlusL68_UltraL68 Ultra$1 Lite 2Logic InstrumentFieldbook F1Fieldbook F1BFieldbook K101Fieldbook KS80LogicomTab_Stand_ProLa Tab Stand ProLa Tab $1La Tab StandLa Tab 79La Tab 124 HD PlusLa Tab Link $1logikids4Logikids 4L-ixir Tab 701 3GL_IXIR_TAB_1047HDL-ixir Tab 1047 HDLIXIR1041L-ixir Tab 1041L-ixir Tab $1L-ite $1L-ite Tab $1L-ement $1L-ement Tab $1POWER BOTM BOT $1VR BOT $1 PlusVR BOT $1$1 BOT Tab $2$1 BOT $2ElioYunoFive Pro 32Five ProSolar ProSOLARSolarLunar ProLUNARLunarLe LiftLe LinkLe WaveLe SwipeLe OmegaLe ConnectLe PulseLe PrimeLe Hola FRLe HolaLe Moov 2Le MoovLe Fit FRLe FitLe FizzLe HopLe HelloLe Smooth FRLe SmoothLe Must 2Le MustLe Starter LLe SparkL-EGANTONE-RL-Egant One RL-EGANTONEL-Egant OneLe UpLogikLogitechG CloudLongTVLOUiELovmeLumigonLumitelLumusINNO $1IonAEON $1LunaLuxorLvilleM-HorsePower1Power 1Top $1TOP_Note8Top Note 8M-KOPAM-TechEROS 4GEros 4GEros StarEros SmartEros PlusEros PowerACE9Ace 9JAZBAATEZ 4GFoto3Foto 3Turbo L$1M.T.T.MTT IDEALIdealTablet$1M3 MobileM3US20WUS20WM3SL20SL20M3SM15XSM15XM4telSS1050SS1060LiveSS1070SenseSS1080Max OneSS1090Max UltraSS4020PlaySS4040In TouchSS4045SS4345Soul MiniSS4350SoulSS4445Style AccessSS4450ShareSS4451BelieveSS4452DreamSS4453-RR1 FeelR2_PlusR2 PlusSS4453InspirationSS4455SS4456EvolutionSS4457-REverSS4457EleganceFeel PlusSS4458AttitudeMAGMAGCHMAXVIMS531MS531 VegaMS502 OrionMAXXMBIMBKMBOXMDC StorePrime SNova ProGrand Pro$1 4GMEEGMEGAMAXMEOMESWAOMEUMIVOJazz $1 (2018)MIWANGMIXCMLLEDMLSiQTalk TwistNotch LiteNotch SenseiQTab 10iQTab Brave 3GiQTab Action 4GLife 10.1\"Alu Plus 4G 10.1\"iQTab Ideal 8.0\"iQTab Care 8.0\"Brain 3GiQTalk Verse 4GColor mini 4GTOP-S 4GTrend 4GiQTalk OnyxiQTalk FlameiQTalk SpicyiQTalk Titan 4GColor 3 4GRange 4GiQTalk Color 5.5 4GiQTab RoseiQTab MasteriQTab Novel 3GJet 3GTrophy 4GDiamond 5.2 4GiQTalk AuraSlice 4GAngel 3GAngel 3G (2018)Vital 4GStyle 4GF5Energy 4GMX 4GMX (2019)Fab 4GStatus 4GMore 4GWave 4GBrace 2018 4GLevel 4GRuby 4GDX 4GVista 4GSpace S 4GR3 4GPhab 6.0\"D6 4GLiberalAlu 5.5\"Pop 4GFlame 4G (2018)Color Fingerprint 4GT8 Fingerprint 4GiQF200MORTALMOVISUNMSIPrimo $1MStarMTCOsmartphonaSmart Race 4GSmart Race 2 4GSmart Sprint 4GSmart Start $1Smart_LINESmart LineSmart_LightSmart LightSmart BitSmart Run 4GSmart Surf 2 4GSmart Surf 4GSmart Turbo 4GRedbox Mini 5SB-$1DV8304-CSuperWave DV8304-CMTNFaith 29Ka ChocolateKafit V900KaFit V900Sm@rt Mini $1M560M3Smart SM561M3Smart TM571M3Smart KamunyeMTN-8978PSteppaMTN-$1MULTYNETMULTYNET FHDMYFONMYPAD7sMy Pad 7sMacooxMC-X7 MiniMafeMafe_M820Shine M820MagentaMagentaTVTV One (Gen 2)MagentaTV ONETV OneMagentaTV BoxMagicseeN5NOVAN5 NovaIron+N5Max_X4N5 Max X4MagnusBravo $1Infinity $1MajesticJackJoeUrano 77 LTEUrano $1Pluto $1Tab $1 Pro $2GTab $1 $2GTAB-714Tab 714 WiFiTAB_814Tab 814Tab$1Crono $1MalataMangoMango_AKABUTO_4GAkabuto 4GMannManta MultimediaMSP95012Titano 1MSP95014Titano 3MSP95015Mezo 2MSP95020Rocky 2MSP95021Rocky 3 ProMSP96017Forto 2MSP96002Forto 1MSP94501Easy SelfieMantraMaraMarshalME-$1MascomMassgoVi2 SMasstelJuno Q5 PlusHapi $1N660STab 7 LTETab 10 WiFiTab 10 4GTab10UltraTab 10 UltraTab $1 PlusMaster-GNEOQC4GGPad Neo QC 4GMastertechMatco ToolsMATRIX GRAVITYGravity7116 A5MaunfeldMaxcom$1 StrongMS$1RS-401Neva Rise S1MaxfoneMaximusG10 MaxiX UltraMaxtronPlutoMaxwellMaxwestAstro $1Astro $1N LTEAstro X55 LTEAstro_5_GO_LTEAstro 5 Go LTEAstro 5 PROAstro 5 ProAstro $1\"Virtue Z5Astro X4Nitro $1 GONitro 4s LTENitro 4sNitro $1Gravity $1 GOGravity_6PGravity 6PGravity 5.5 LTEAstro6Astro 6Nitro Phablet $1Astro_Phablet_9Astro Phablet 9MazeAlpha XMaze SpeedM1582C_MAXM1582C MaxSSB-$1McLautMeMobileGrace $1MecerXpress Smartlife M785X1010M17QF6 3G PlusM17QF$1 $2G800P31CXpress Smartlife 800P31C800P32CXpress Smartlife 800P32C101P51CXpress Smartlife 101P51CXpress Smartlife M7$1QF6Xpress Smartlife M716 PlusMF716Xpress Smartlife M716MecoolKM9 ProKM9 TV BoxBB2 ProKI PlusM8S Pro WM8S Plus DVBM8S Plus $1M8S Pro $1M8S Pro PlusM",
  chunk! "8S ProM8S MaxSMediacomSmartPad 750 3GSmartPad 970 S2 3GSmartPad 970 S2SmartPad 8.0\" MobileSmartPad 9.7\" MobileSmartPad MX 10.1\"SmartPad MX 8.0\"SmartPad HX 7.0\"SmartPad MX 7.0\"SmartPad HX 8.0\" HDSmartPad 7.0\" GoSmartPad 8.0\" S2SmartPad 8.0\" S2 3GSmartPad $1 S2SmartPad 875 S2 3GM-SP1AGO3GSmartPad 10 Go 3GM-SP7xGO3GSmartPad 10.1\" iPro 3G1AECSmartPad 10 EclipseSmartPad iyo 10 4GSmartPad 10.1\" S2SmartPad 10.1\" S2 3GSmartPad 8.0\" S4SmartPad 8.0\" S4 3GSmartPad 9.7\" S4 3GSmartPad 10.1\" S4SmartPad 7.0\" S4 HDSmartPad 10.1\" HD S4 3GSmartPad 10.1\" S4 3GSmartPad 10.1\" HX HDSmartPad 10.1\" MXSmartPad 10.1\" MX LiteSmartPad 8.0\" HD Pro 3GSmartPad 10.1\" HD ProSmartPad 10.1\" HD Pro 3GSmartPad 8.0\" HD iPro$1 3GSmartPad 10.0\" Azimut 2SmartPad 10.1\" Azimut 3 LiteSmartPad 10.1\" Azimut 3 ProSmartPad 10.1\" Azimut 3SmartPad 10.5\" Azimut 4SmartPad iyo 8\"SmartPad 10 EdgeSmartPad 1EYWinPad W801SmartPad 7.0\" MobileSmartPad 7.0\" S2 3GSmartPad Mini MobilePhonePad Duo B400PhonePad Duo G550PhonePad Duo B500PhonePad Duo G530PhonePad Duo G700PhonePad Duo S531PhonePad Duo S550PhonePad Duo S650PhonePad Duo S551UPhonePad Duo G4PhonePad Duo G500PhonePad Duo S500PhonePad Duo $1PhonePad Duo X$1UPhonePad Duo G$1PhonePad Duo S$1MedionLifetab $1Life $1MegaFonLogin+MFLogin4Login 4 LTELogin 3OptimaSP-A20iMintV9 PlusMegacableOTT Xview AV1Xview+MeituT8T8sT9M8s2MeizuM2 NoteM$1 Note20 Inf20 InfinityMblu 22 ProMblu $1Lucky 08M1EM2EM2M3 NoteM5 NoteM6 NoteM3sM3 MaxM5cMX2MX3MX4 ProMX4MX5m1 metalM1 MetalM8 LiteM8c ProPRO 7PRO $1 PlusPRO $1MX Dual Core16T16th Plus15 Plus15 Lite16th16X1616s ProM3MelroseS9 Plus2019 Ultra Slim 3.4\"MemupSlidePad $1SlidePad NG$1SlidePad NG$1 3GSlidePad 704$1MetaPacificGoPortalGoPortal GoQuest 3SQuest 3Quest 2Quest ProMetzMETZ 2K TVMiXzoME$1 $2GMX1021 3GMX$1 4GME1025 3GMicroMaxAQ5001 Canvas PowerCanvas PowerAQ5001Canvas Juice 2Canvas Doodle 2Canvas Fire 4Canvas Juice 4Canvas Pulse4560MMXIN 2BIN 2CIN 1BCanvas A1Canvas Evok NoteCanvas 5Canvas 5 LiteCanvas TabBolt Q$1Q417Canvas MegaQ350RCanvas Magnus 2 PlusQ480Canvas Space 2Q380Canvas SparkQ351Canvas Spark 2 ProQ350Canvas Spark 2 PlusQ349Canvas Selfie 4Bolt PaceQ409Spark 4G (2017)Q415Canvas PaceQ340Selfie 2YU Yureka YU5040Yunique 2 PlusYU Yureka S YU5530Q424Bolt SelfieQ4101Bolt Warrior 1 PlusQ352Bolt Supreme 4Bolt $1Q306Bolt Prime 3GBharat 2 PlusQ426Canvas Mega 2N8216Infinity N11N8301Infinity N12Canvas Infinity ProCanvas InfinityCanvas Infinity LiteQ440 PlusQ353 PlusSpark 4G PrimeSelfie 2 NoteCanvas Magnus HDCanvas Xpress 2Canvas XpressVdeo 4Canvas 1 (2018)Canvas 2 PlusBharat $1 ProBharat $1 PlusBharat $1iOne NoteIN Note 1IN Note 2IN 1bCanvas Tab $1MicrolabGlowy $1Kin $1Lumia 430Lumia 435Lumia 532Lumia 535 Dual SIMLumia 535Lumia 540Lumia 550RM-1010Lumia 638Lumia 640 XL LTELumia 640 XLLumia 640 LTE Dual SIMLumia 640 LTELumia 640 Dual SIMLumia 640Lumia 650RM-1152Lumia 650 SSLumia 850Lumia 950 XL Dual SIMLumia 950 XLLumia 950 Dual SIMLumia 950Lumia 1320Lumia 1530Surface Book 3Surface Pro$1Surface Duo 2Surface DuoSurface 3Lumia $1MicrotechETW101GTE-Tab WiFiE-Tab LTEMightierMinixNEO-X8-HNEO X8HNEO U22-XJNEO U22NEO X$1 MiniNEO $1 PlusNEO X88iNEO-X7-216ANEO X7NEO-X5-116ANEO X5NEO X$1NEO-U1NEO U1NEO-Z64NEO Z64NEO-U9-HNEO U9HPearl $1EmeraldM4CRCloverVirGoOrionMinttCoolMintt $1UltraMintt $1FreshMintt $1MioMobix M6Mio TouchPad 7 Quad CoreTouchPad 7 Quad CoreMioneHero $1Mione IIIHero 3P2+Mione_PUBG_1PUBG 1Mione XS maxXS MaxN10 ProQ1Q11MirayTPM4G_WT8TPM4G WT8MIDM $1MPM $1Mitchell & BrownMito3255A37 Z1 PlusMitsubishiMitsuiMobellNOVA P3Nova P3MobiIoTMobiGo 2MobiPrint 4 PlusMobiWireKANUNAKanunaKWANITAKwanitaMobiGo2LMobiGo 2LV Smart 2MobicelEpic Pro $1IX PROIX ProRX PRORX ProIX-1IXLEGEND MAXLegend MaxLEGEND PRO_1Legend Pro 1Legend Pro LTEBLINKBlinkFORCEEpic $1BERRY1Berry 1BERRY PROBerry ProBERRY 2Berry 2TRENDY 2Trendy 2Berry PlusBERRYBerryTRENDY PLUSTrendy PlusTRENDY_LITETrendy LiteR4 LTEHYPE_XHype XHYPEHypeDANDY_ZAMDandy ZamDANDYDandyMETRO2Metro 2ASTROAstroVENUS_GVenus GoTANGO_LITETango LiteFENDY_DSFendy DSREBELRUBYRubyR7OREOOreoGLOTitan_1Titan 1ZOOM_1Zoom 1HERO_DSHero DSFAME_DSFame DSFAMEFameBEAMSHIFTShiftCosmo LTENe",
  chunk! "o LTENEO_1NeoNeo_PlusNeo PlusRio $1switch plusSwitch PlusSwitch GoSwitch1SwitchR1PLUS_1R1 PlusClik plusClik PlusCLIKClikVX$1 ProVX$1PULSE_1Pulse 1PURE PLUSPure PlusFendy plusFendy PlusZOOM-HZoom HZOOMZoomFever Plus $1FEVER_PLUSFever PlusMobiistarX1 $1E1 SelfieXQ DualZumboLai Zumbo S Lite (2017)Lai Zumbo S (2017)Zumbo S2Lai Zumbo J (2017)Lai Zumbo JLai Zumbo J2mobiistar ZUMBO PowerZumbo PowerLai Yuna $1mobiistar LAI YukiLai YukiLai Zoro $1Lai ZenaLai Z$1mobiistar_ZORO_4GZoro 4Gmobiistar touch LAI 512Touch Lai 512Lai 504$1mobiistar LAI YLai Ymobiistar PRIME X 2017Prime XC1 LitePRIME X MAX 2018Prime X MaxKool$1mobiistar KAT 452 BuildKat 452mobiistar_LAI_YOLLO BuildLai YolloMobile KingdomG\xc3\xa9nesis 126MobiolaMS50X6Atmos IIPolys MS45L1MS55X6Atmos Pro IIMS55X5Atmos ProMS55L1GAIAMS50L1IntiMB-2900 QUATTROMB-2900 QuattroMS43A3000MS45A4000eOn 45MS50A4000eOn 50MS50A4500eOn 50 EleganceMS50A5000eOn 50 Quad 8MS50A6000eOn 50 Quad 16MS50B11000Wave5Wave 5MobistelMoboMobvoiTicWatch $1Mode 1RRRSMD-01PMode MobileMEP2Q421GEarnPhoneModecomXino Z$1 X$2ECHO LOLLYEcho LollyFreeTab $1FreeWay Tab $1MofutMoondropMIAD01Mosimosimomo3smomo3SMotivMotorolaMOT-V360V360moto tab g70Moto Tab G70XT2261-1Moto Tab G62PAGS0005INMoto One MacroSpiceThinkPhone 25ThinkPhoneMOTOROLA E6SMoto E6SMOTOROLA s50Moto S50Moto Razr 50 UltraMoto Razr 40 UltraXT2323-3Moto Razr 40Moto Razr 50motorola razr plus 2023Moto Razr+ (2023)motorola razr 2023Moto Razr (2023)XT2251-1Moto Razr (2022)razr ultra 2025Moto Razr Ultra (2025)Motosmart MEFireEdge SEdge ($1)Edge 40 NeoEdge S30motorola edge 30 ultraEdge 30 UltraEdge 30 NeoXT2201-1Edge 30 ProEdge 20Edge S ProDefy MiniMotosmartQuenchFire XTDefyDefy (2021)Defy XTAdmiralDroid ProMotoluxePrimusIronRockAtrixMotoluxe Dual-SIMAtrix TVAtrix HDMilestoneGlamMilestone 3Electrify 2Moto XT882Droid RAZR VDroid RAZR iDroid 4Photon QElectrify MDroid RAZR MDroid RAZRDroid RAZR D1Droid RAZR D3Droid RAZR HDDroid RAZR MaxxXT2527-3Moto G100 Promoto g52j 5GMoto G52j 5GMoto G52moto g53y 5GMoto G53y 5GMoto G53Moto G54 5GMoto G82 5GXT2427-4Moto G85 5GMoto G10 PowerXT2127-2Moto G10moto g04sMoto G04sMoto G8 PowerMoto G8 Power LiteXT2015-2Moto G8 PlayXT2087-1Moto G9 PlusMoto EMoto E (2020)Moto E3 PowerMoto E30Moto E2 (4G-LTE)Moto E5 PlusMoto E$1 PlusMoto E$1 PlayMoto E6 (XT2005DL)Moto E5 CruiseMoto E5 SupraMoto E5 GoMoto E$1 PowerMoto E$1Moto E$1sXT2081-1Moto E7 PlusDroid MiniDroid Maxx 2Moto X2Moto CMoto C PlusMoto G4 PlusDroid TurboMoto GMoto G2Moto G$1 5GMoto G4 PlayMoto G5s PlusMoto G5sMoto G5 PlusMoto G5Moto G6Moto G7 PlusMoto G30XT2235-2Moto G32XT2363-2Moto G34 5GMoto G50XT2171-3Moto G51XT2171-2Moto G51 5GXT2169-1Moto G71 5GXT2255-1Moto G72XT2437-4Moto G75 5GMoto XMoto X PlayMoto X StyleMoto X Pure EditionMoto X ForceMoto X50 UltraDroid UltraDroid Turbo 2Moto ZMoto Z4Moto Z3 PlayMoto Z PlayMoto Z2 PlayMoto Z2 ForceMoto Z3Moto MMoto X30 ProMoto S30 ProEdge X30Moto Edge X30 5GMoto Edge 60 ProMoto Edge 60Moto X40P30 PlayP30 NoteEdge Plus 5G UW (2022)Edge Plus ($1)Edge PlusEdge $1 FusionEdge 20 LiteEdge $1 UltraEdge $1 ProEdge $1 NeoEdge 5G UW (2021)Edge (2021)XT2303-2Edge 40Edge 60 FusionEdgeOne Vision PlusOne VisionOne PowerOne HyperOne ZoomOne Fusion PlusOne FusionOne Actionmotorola one macroOne Macromotorola one 5G UW aceOne 5G UW Acemotorola one 5G UWOne 5G UWOne 5G Acemotorola one visionMoto G Stylus (XT2115DL)Moto G Stylus ($1)Moto G Stylus 5G ($1)Moto G Stylus 5G (2022)XT2315-1Moto G Stylus 5G (2023)XT2115-1Moto G Stylus (2021)Moto G Stylus 5Gmoto g stylusMoto G StylusMoto G Play (2021)Moto G Play (2023)Moto G PowerMoto G Power (2021)Moto G Power (2022)moto g powermoto g proMoto G ProMoto G PureMoto G Fastmoto g 5G plusMoto G 5G PlusMoto G 5G (2022)moto g 5GMoto G 5GMoto G40 FusionXT2233-2Moto G42Moto G60Moto G60sMoto G$1$2moto g24 powerMoto G24 PowerXT2231-1Moto G22XT2333-1Moto G23Moto G$1 (XT1925DL)Moto G$1 ForgeMoto G$1 Optimo (XT1952DL)Moto G$1 Optimo Maxx (XT1955DL)Moto G$1 Power LiteMoto G$1 PowerMoto G$1 SupraMoto G$1 PlusMoto G$1 PlayMoto G$1moto g goMoto G GoMoto X$1One 5GMoto MaxxMoto $1$2$3Moto $1$2MotoroiXMoto 360Moto ACTVXT2071-4RAZR 5GRAZ",
  chunk! "R ($1)RAZR $1RIZR $1RAZR $1 UltraDROID $1Motorola SolutionsMovicMovitelMoxeeMH-T60002160MT-T8$1MpmanMP100i OCTAMPQCG10 3GMultiPOSMultilaserElite 2F Pro 2G MaxG Max 2G Max 2 SEGE Lite$1 5GZAPPZAPP IIMS60F PlusMS45S_A6_SeniorMS45S A6 SeniorMS45S_A6_TeenMS45S A6 TeenM7 3G PlusM7S_PLUSM7S PlusM$1 WiFiM10 4G ProM8 4GM7SQC PlusM7 3G Quad Core 3M7 3G Quad CoreML$1-M7s Quad CoreM7s LiteML01-M7 SDM10A LiteM9 3GM7 3G A10X8 4GM$1 3GKidPad LiteMwalimuPlusMyGicaHDR $1 BoxQuad core Enjoy tv boxQuad Core Enjoy TV BoxATV$1MyMobileMyPhone (PH)myT$1 DTVmyA$1 DTVA898 DUOA898 DuoMyPhoneMY27my27MY807myX1myXI1 PlusmyXI1 PromyXI$1my$1myWX1 PlusBrown 1Brown 2MyPad $1MyTab8 Mini Dual CoreMyWigoMyWigo City3City 3Excite GIIIExcite G3MygPadMymagaMyriaMyria_FIVEFiveMyria_Grand_4GGrand 4GMyria_Wide_4GWide 4GMyria_Wide_2Wide 2MyrosMysteryMID-$1N-oneTAB011NPad MiniNPad PlusNPad AirNPad ProNpadSNPad SNpadQNPad QNPad $1NASCOTANGO 7Tango 7SNAP_PROSnap ProNECMedias AmadanaMedias ULAVIE Tab E $1LAVIE Tab T10 FHD (Gen 3)LAVIE Tab T12 QHDLAVIE Tab T11 $1LAVIE Tab T7 $1LAVIE Tab T8 $1LAVIE Tab E TE$1LAVIE Tab S TS$1LAVIE Tab $1NEKOLT-$1NETWITNEVIRNEXBOXMXQ-Pro-NEXBOXMXQ ProMXQ-NEXBOXMXQNEXONNEXTNG OpticsNGMSmart5Plus32GBSmart 5 PlusYou Color P$1Dynamic JumpLDynamic Jump LNGponNINETECUltraTab 10 ProPlatinum 10 G3NINETOLOGYNOACore ForteHummerLEHummer LEHummer_2019_RHummer R (2019)Hummer LiteHummerMove SENextSENext SEVision H3SEVision H3LoopH4SEMG12H44SEH10LESPRINT4GSparkSESpark SEVivo 4GNOBUXSmart Volt NX5NOGANOGAPAD 7GNOGAPAD 10.1\" GHDNOGAPAD 10HDPC ProPC LivePC UltraNOVISNOVONTT WestHikariBox+ $1NUU MobileTab 8S6003LX6 PlusN5704LS6512LA15S6001LS5501LM19N5702LS6501LN5501LA5LN5002LA7LS6303LA9LN5502LA10LN6001LA23S5701LM4X ProS6702XB30 ProNYX MobileNYX_A1AlterNYX_BlinkNYX_EGOEgoNYX_FENIXFenixNYX_FLY_IIFly IINYX_FLY_MINIFly MiniNYX_FLYNYX_HITHitNYX_JAKJakNYX_JOINJoinNYX_NOBA_IINoba IINYX_NOBANobaNYX_ORBISOrbisRexNYX_SHADEShadeNYX_SKYSkyNYX_SPARKNYX_VOXNYX_ZEUZ_HDZeus HDGLAMARGONorbisNabiDream Tab HD 8.0\"Big Tab HD $1.0\"NBTY07SMKGBarbie Tab 7.0\"NBFP07PMKGFisher Price Learning Tab 7.0\"SNB02-NV7A2S TabNABI2-NV7A2 TabNanhoF101Naomi PhoneAmbarDammarNationalNavRoadNexo SmartyNexo handyNexo HandyNEXO SMART DUONexo Smart DuoNEXO EVONexo EvoMOVIO 2Movio 2NavcityNP-752GoNP-752 GoNavitechNavitel$1 LTERE900 Full HDNavonMizu M505 LTEMizu $1Supreme MaxSupreme Fine MiniSupreme Fine MicroSupreme Fine PlusSupreme FineSupreme ChiefSupreme Pure PlusSupreme PureSupreme ProPure MicroSpirit PlusT400 3G 2017T400 3G (2017)Platinum 10.1\" 3G$1Platinum 10.1\" 3G (2019)Orpheus 3GPredator $1Raptor 3G 8GBVision Tab $1NecnotNedaphoneNeffosC5LY50Neffos X20 ProNeffos X20NeolixT7NeomiNeon IQTab 10.1\" $1GTab 7\" $1GNQT-7WTab 7\" WiFiNeoregentKT1007NesonsNetBoxNETBOXShine SNetgearGTV100NeoTV PrimeNetmakNetPad 7NeuImageNIM-NeuTabNew BalanceNew BridgeNewalNewgenNewlandNLS-MT90MT90 OrcaNLS-MT65MT65 Beluga IVNLS-NFT10NFT10 Pilot ProNewmanUE Pad 1UE 1 PADNewsMyNewsdayNexaNexarNTV-$1NexianNext & NextStar2000 WiFi2000 HD FTA2000-HD PLUS2000 HD Plus2000-HD2000 HDNEXT 64642071YE-2000HD CXYE-2000 USBMyBox$1 4KNextBookNX008HD8GPremium 8 HDNXA8QC116Ares 8NXA8LTE116Ares 8LNX16A8116KAres A8NX16A10132SAres A10NX16A11264Ares A11NEXT1015BAPAres 10NXA101LTE116Ares 10LNXA116QC164Ares 11NXM908HCPremium 9NX010HI8GPremium 10 HiNX785QC8GNXM900MC8 HDNXM726Premium 7NextTabNextbitNoainNOAINNobbyNoblexNokia6TA-1041Nokia 8 Sirocco8 SiroccoNokia 7 plus7 plus6.1 Plus5.1 Plus3.1 PlusNokia 1 Plus1 Plus2 V TellaNokia 8 V 5G UW8V 5G UWX+N152DLC100N156DLC110N151DLC200N150DLN1374DLG300 5GN155DLN1530DLG400 5GX2 DualRX-51 N900N900Asha 5005130 XpressMusicNokia5230NuronNokia52335233Nokia5800d-15800 XpressMusicNokia6210NavigatorNavigatorSapphire ArteNOKIA-RH-172280NOKIA-RH-276225NOKIA-RH-346585NOKIA-RH-483105NOKIA-RM-113205808 PureView$1 Classic$1 Slide$1 Flip$1 V FlipAsha $1Lumia 520TLumia 520Lumia 526RM-846Lumia 620Lumia 630Lumia 635RM-1027Lumia 636Lumia 710Lumia 720TRM-885Lumia 720Lumia 730Lumia 735Lumia 800CLumia 800Nokia 820Lumia 820RM-984Lumia 830Lumia 900Lumia 920Lumia 925Lumia 929Lumia IconRM-1045Lumia 930Lumia 1020Lumia 1520.1T$1Strea",
  chunk! "ming $1Maemo RX-34N800NomiEvo M2Evo MEvo M3Evo M1i506 Shinei5730 InfinityNote-XIron-XIron-X1Iron-MEvo M4Evo X2Evo XEvo X1Evo ZBeat MBeat M1Space X2Space MSpace XSpace M1Infinity X1JumpC101010 Ultra2Ultra 2Ultra 3 ProUltra 3 LTEUltra 3 3GUltra 4 3GUltra 4 LTEUltra 4 Pro LTECorsaCorsa ProCorsa 2Corsa 3 LTECorsa 3 3GCorsa 4 Light 3GCorsa 4 LTECorsa 4 Pro LTELibra 3 3GLibra 2 3GLibra 4 LTELibra 4 3GStella PlusNomuT18S30 MiniS30NoontecNoontec NordfrostNordmendeNorthTechTouchPad 10.0\"NosNovu IIINovu IINovuNeva 80RoyaNothingPhone 2A142PPhone 2a PlusPhone 2aA059PPhone 3a ProA059Phone 3aNousNS5511NovacomSPYBOXS11Spy Box S11 PlusSpy Box S11NovexNoveyForce $1Alpha A$1Pro K10NoviSeaNuAnsNEO ReloadedNuVisionNubiaRed Magic Gaming PadNP05JRed Magic AstraPad Pro 10.9\" WiFiZ6255CABlade A72NX724JFlip 5GNeo 3 GT 5G8150NNeo 5GZ2352NNeo 2 5GZ2353MusicZ2460Music 2Z2351NFocus Pro 5GNX302JFocus 5GNX711JZ50NX712JZ50 UltraNX713JZ50S ProNX721JZ60 UltraNX667JZ30 ProNX701JZ40 ProNX702JZ40s ProNX733JZ70 UltraNX737JZ70s UltraNX736JZ70 Ultra Starry NightNX709JRed Magic 7 ProNX729JRed Magic 8 ProNX769JRed Magic 9 ProNX789JRed Magic 10 ProNX779JRed Magic 10 AirNX709SRed Magic 7S ProRed Magic 7NX669JRed Magic 6NX666JRed Magic 6RNX619JRed Magic MarsNX629JRed Magic 3Z5 MiniZ5S MiniNX503AZ5SNX506JZ7NX507JZ7 MiniNX505JZ7 MaxNX508JZ9Z9 MiniZ9 MaxNX512JZ9 Max DualNX531JZ11NX523J_V1Z11 MaxZ11 Mini SZ11 MiniNX606JZ18NX616JZ18SNX611JZ18 MiniNX551JNX563JZ17Z17 MiniNX589JZ17 Mini SNX591JZ17 LiteNX595JZ17SNX612JV18NX627JZ20NX725JZ60S ProNX513JMy PragueNX601JNX609JRed MagicNX659JRed Magic 5GNX651JNX573JM2 LiteNX907JM2 PlayNX541JN1NX597JN1 LiteNX575JN2N3Nubia 8011N80NuvoND45NvidiaTegraNote-P1640Tegra Note P1640SHIELD TabletSHIELD Android TVNVIDIA_SHIELD_PRO_2019SHIELD TV ProNVIDIA ShieldSHIELD TVSHIELDSHIELD PortableO+Air360 HD 2.0360 HD360 Alpha Plus 2.0360 Alpha Plus360 AlphaStream HDTVFab GoO2OASYSOINOMOKSIOKWUSIGMAPI PlusOLTOOMIXX600 NFCO1 NeoO1 IconONN2k TV stick2K TV StickONVOApollo PremiumONYX BOOXVolta $1NovaAirCNova Air CMC_NovaProNoteAir2PNova Air 2 PlusNoteAir2Nova Air 2Nova3ColorNova 3 ColorPoke2ColorPoke 2 ColorPoke3Poke 3KANT2Kant 2Kon Tiki $1Lomonosov $1LomonosovFaust $1Darwin $1MC_GAMA4Gama 4GALILEOGalileoGoColor7Go Color 7MC_Cristo4Monte Cristo 4Living Stone $1Note Air $1CTabUltraCProTab Ultra C ProOPPOA11A1 ProPJU110_A1A1x 5GA2x 5GA3x 5GCPH2641A3xCPH2725A5xPKW110A5x 5GPJB110A2 5GPKD110A3 EnergyA3 5GPKL110A3i 5GA3 Pro 5GCPH2711A5 ProA5 Pro 5GPLN110A6 Pro 5GA11xA12A15sA16sCPH2421A16eA16kCPH2477A17CPH2471A17kCPH2185PCHM00CPH1923A1kCPH2071A11kCPH1925A1sA16CPH2591A18A37f$1A37fA38A39A36A31A33PKV110A5 EnergyPKQ110A5 5GCPH2727A5 (2025)A5 (2020)A53 5GA32A35A52A53A53sA53s 5GA54 5GA54A54sA55 5GCPH2325A55A60CPH2683A60 5GA55s 5GPFVM10A56 5GA57A57 (2022)PHJ110CPH2577A58PFTM10A97PHA120A96A5SCPH2773A5iCPH2755A5i ProA71A71 (2018)A73 5GA74A74 5GA72n 5GCPH2375A76A77A77 5GA78 5GA78A79A79 5GA77sA7nA7xA83A83 (2018)A9 (2020)A92A92sA93A93sPFUM10A96 5GCPH2529A98 5GA94PELM00A95 5GA95 4GA9xAX5AX5sAX7CPH2341F21 ProF21s ProF1 PlusCPH2527F23 5GCPH2603Reno 11 FCPH2643F27 Pro+ 5GF11F11 ProF17F17 ProF1sF3F3 PlusF5 YouthF7 YouthF9F9 ProF19sF19 ProF19 Pro PlusFind 5Find 5 MiniFind 7Find 7aFind N 5GFind NFind N2Find N2 FlipFind N3 FlipFind N3Find N5Find CloverFind GuitarFind MelodyFind MuseFind Way SUlike 2Find XFind X LamborghiniFind X2Find X2 LiteFind X2 ProFind X3Find X3 NeoFind X3 ProFind X3 LiteFind X5Find X5 ProPGEM10Find X6 ProPGFM10Find X6PHZ110Find X7PHY110Find X7 UltraPHY120Find X7 Ultra SEFind X8 ProFind X8 UltraFind X8PKT110Find X8sPLB110Find X8s+Joy PlusReno 3 YouthK7xK9xK10xK10 5GK9sK10 Pro 5GK11 5GK12s 5GA1 5GA2 Pro 5GK11x 5GK12 5GK12 PlusK12x 5GCPH2729K13 5GPLE110K13 Turbo Pro 5GPLM110K13 Turbo 5GN1 MiniNeo 3Neo 5Neo 7Neo 7sPianoR11R11 PlusR1KR1xR11s PlusR11sR15R15 ProR15xR17RX17NeoRX17 NeoR15 Dream MirrorR15 NeoR17 NeoR17 ProR1LR1SR7 LiteR7s PlusR7sR7 PlusR7 Plus FR9 PlusR9sR9s PlusRenoReno AReno 10X ZoomPCCT00Reno 10XPHW110Reno 10CPH2531Reno 10 5GReno 10 Pro 5GReno 10 Pro+ 5GReno 11 ProReno 11 F 5GReno 11Reno 12CPH2625Reno 12 5GCPH2637Reno 12 F 5GCPH2687Reno 12 F 4GRen",
  chunk! "o 12 Pro 5GCPH2701Reno 13 FPKM110Reno 13CPH2699Reno 13 F 5GCPH2689Reno 13 5GCPH2697Reno 13 Pro 5GPKK110Reno 13 ProPKZ110Reno 14 ProCPH2739Reno 14 Pro 5GPLA110Reno 14CPH2737Reno 14 5GReno 2Reno 2FReno 2ZReno 3Reno 3AReno 3 5GReno 3 ProReno 3 LiteReno 4 4GReno 4 LiteReno 4 Pro 4GReno 4 5GReno 4 SE 5G Reno 4 Pro 5GReno 4Z 5GReno 4FReno 5AReno 5 LiteReno 5 5GReno 5KReno5 K 5GReno 5K 5GReno 5FReno 5ZReno 5 Pro 5GReno 5 Pro Plus 5GReno 5GReno 5Reno 6 Z 5GReno 6 ProReno 6 Pro 5GReno 6 Pro PlusReno 6Reno 7CPH2343Reno 7ZReno 7AReno 7 SEReno 7 ProReno 8 Pro 5GPFZM10Reno 8 Pro+CPH2457Reno 8 ZReno 8 5GReno 8TPHM110Reno 9PGW110Reno 9 Pro+PGX110Reno 9 ProReno 9 AK9 Pro 5GK9 5GReno Ace 2 EVAReno AceReno Ace 2Reno K3Reno ZA59sCPH2617A59 5GPad AirOPD2409Pad 4 ProOPD2401Pad 3 ProOPD2301Pad Air 2Pad NeoPad 2OPD2101Pad WiFiWatch 46mmOW19W2Watch 41mmOW20W1Watch 2 46mmN1TOSCALMODERN 8Modern 8Marine $1Pilot $1C30 ProFlat $1CFlat $1S60ProS60 ProTiger $1Pad $1 WiFiSpider 8OTTMDTVLPX-G Box MaxOTTOOUJIA2018-S10MAXS10 MaxS20S27 PLUSS27 PlusOX TABOx-p010-2OYSINOaleApex $1OangccObaboxOBASMART_3OberObiSJ$1.$2SkipperFlaconPythonFoxWolverineLeopardBoa PlusBoaPelicanOctopusCraneHornbillAlligatorOdotpadDragon Fruit Fire V$1Pomelo Max+OdysXelio HD10 LTEXelio $1XELIOPHONETAB3Xelio Phonetab 3THANOS_10Thanos 10XELIO_NEXT_10_PLUS_3GXelio Next 10 Plus 3GXELIO_PHONE_TAB7_3GXelio Phonetab 7 3GXELIO10EXTREMEXelio 10 XtremeXELIO10_PLUS_3GXelio 10 Plus 3GXELIO10_HD_PLUS_3GXelio 10 HD Plus 3GXELIO_10_HDXelio 10 HDXELIO_PRO_10_LTEXelio Pro 10 LTEELEMENT10_PLUS_3GElement 10 Plus 3GCONNECT8PLUSConnect 8 PlusCONNECT7PROConnect 7 ProMAVEN_X10_HD_LTEMaven X10 HD LTEMaven_T10_proMaven T10 ProMAVEN_X10_HDMaven X10 HDMaven 10 Pro Plus 3GMaven 10 PlusMaven 10 ProMaven 10 HDMAVEN_7_PLUSMaven 7 PlusRapid 7 LTERapid 10 LTETAO_X10Tao X10SPACE10_PLUS_3GSpace 10 Plus 3GSPACE_ONE_10SESpace One 10 SESPACE_ONE10Space One 10SPACE10_PRO_3GSpace 10 Pro 3GThor 10JuniorT8ProJunior T8 ProJUNIOR_8_PROJunior 8 ProADM816HCNeo XEOS10EOS 10PACE_10_LTE_V2Pace 10 LTE V2Pace 10AEONAeonFALCON_10_PLUS_3GFalcon 10 Plus 3GFUSIONFusion 7Uno X$1ADM8000KPTitanTitan_10_LTETitan 10 LTEPYRO_7_PLUS_3GPyro 7 Plus 3GNOVA_X7_PLUS_3GNova X7 Plus 3GODYS_NOVA_X7Nova X7Thor 10 Plus 3GNOTOSplus3GNotos Plus 3GMAVEN_G10Maven G10PEDI_PLUS_WPedi Plus WNoteTab_ProNoteTab ProGOAL_10_PLUS_3GGoal 10 Plus 3GIeos Quad WIeos Next 10Ieos Quad ProNERONNeronNeo 6 LTESLADE_X55Slade X55Ieos $1NoonNoon ProOkapiOkapi 10Okapi_Tab8_ProTab 8 ProOkapiaSignature $1MirageMagic+OkingOK-smart11Smart 11OlaxOcean $1 ProOcean $1Prime 12OlkyaOllee008 TwoAOlympiaTrekOndaT9 SMIDV820W Dual OSV891W Dual OSV891 Dual OSV919 3G Air Dual OSV116w-DualOSV116w 3G Dual OSV919 Air Dual OSV919 Air CH DualOSV919 Air CH Dual OSV919 4G Air Core8V919 4G Air Core 8V972 Core4V919 Core 4V989 Air Core8V989 Air Core 8ONDA V989V989 Core 8oBook 20 Plus Dual OSoBook 20 PlusV10 10.1\" 4GV80 SEoBook 20 Dual OSoBook 20 SEoBook 10 SEV10 4GOneClickX-music II proX-Music II ProX-Music IIIX-Music $1OneLernOnePlus1313RPKX11013T12R12CPH248711R 5GCPH2551OpenPKG110Ace 5PLF110Ace 5 RacePLC110Ace 5 UltraPKR110Ace 5 ProPJX110Ace 3 Pro 5GPJF110Ace 3VPJE110Ace 3Ace 2Ace 2 ProAce 2VAce ProAce Racing EditionNord 5GNord 2TNord CE 5GCPH2613Nord CE 4Nord CE 5Nord 4CPH2709Nord 5Nord CE 4 Lite 5GNord CE 2 LiteNord CE 3 LiteNord CE 3 5GNord 3 5GNord N100Nord N200 5GCPH2389Nord N300 5GNord N20 5GNord N30 5GNord N30 SE 5GNord N20 SENord N10Nord N10 5GNord N10 LiteNord 2 5GNord CE 28 Pro8T8 Lite8 5G UW9RT 5G9R10R10R 5G10T 5G10 Pro Extreme Edition7 Pro7T7T Pro7T Pro 5G8T+ 5G3T5T6TOPWWE231Watch 2OPD2203Pad 11.61\" WiFiPad Lite 11.0\"OPD2404Pad Pro 12.1\"OPD2403Pad 2 12.1\" WiFiOPD2415Pad 3 13.2\" WiFiOPD2405Pad 3 11.61\"OPD2304Pad Go 11.35\"OnidaFire TV (2019)Onix8\" Tablet 3GOnkyoOokeeOokeeOneOoredooCrius Mea $1OpelMobileEasy_Smart_2Easy Smart 2Rugged60QRugged 60QOpelMobile_SmartJXSmartJXOpelMobile_SmartX1SmartX1 4GOpel Mobile SmartX6SmartX6OpenboxAS_4K_CI_PRO_PLUSAS 4K CI Pro PlusAS_4K_CI_LiteAS 4K CI LiteAS 4K CI ProAS 4K $1AS 4K PlusAS1_HDAS1 HDAS 4KOPENBOX GOLDGoldOphoneSigma_4_0Sigma 4.0Beeta_4_0Beeta 4.0",
  chunk! "Active 5.0OpssonIusai $1OptomaOptoma-UHDUHD55OrangeSC/IHD92Livebox PlayNeva LinkNeva MiniNola playNola PlayNola funNola FunNeva zenNeva ZenNeva startNeva StartNura 2SanzaSegoFunTab $1Orange Mouve 2Mouve Tab IIMouveTab7WIFIMouve Tab 7 WiFiorange_Tab_7_4GTab 7 4GDive $1 DualDive $1SPV $1Orange PiOrbicR678ELRC501LSlimRC545LMauiRC555LWonderRC2200LJourney VRC608LRC609LR8L5TTab8 5GOrbitaOrbsmartOrdissimoCRANE-EVBOukiOKP6 ProOukitelWP$1 UltraWP$1WP100 TITANWP100 TitanC38K7 Power$1 MixU8 Universe TapRT7 TITAN 5GRT7 Titan 5GOT6 KidsRT7 TITANRT7 TitanRT3 ProRT3 PlusOvermaxOV-V10Vertis YardVertis 5021 AimVertis 4004 YouVertis $1Livecore7032Livecore 7032Qualcore 1010Qualcore $1 $2GOvviJumbo X1OwwoCarnival B5OystersPacific 800iPacificEPacific EIndianVIndian VPacific $1Atlantic $1Arctic $1Antarctic ELife 4GUniversal Phone 1T74Mai_3GT74MAi 3GOyyuT11 3GOzoneHDPAGRAERPGR3042A35 ProPAPYREPad 7.1\"PC SmartQUICKTAB PLUSQuickTab PlusPCBOXArt-PCB-V116ArtBee-PCB-V216BeeClap-PCB-I316ClapPCB-T103Curi LitePCB-T104Kova T730Kova_Plus_PCB_T735Kova Plus T735PCDPL571USJaguar Pro IIPCD ArgentinaPEAQPET $1PINE64PIRANHAPro IIUltra 4Ultra 5 Tab WhiteUltra 5Piranha80328032PIXPROL1 ProPLDTTelPad MT7POCOF6 ProF6X6 Pro 5GX6 5GX6 NeoX7 ProF5 ProM3 Pro 5GM4 Pro 5GM4 5G23128PC33IM6 5GM7 Pro 5G24108PCE2IM7 5G23076PC4BIM6 Pro 5G24066PC95IM6 Plus 5GM6 ProM4 ProM2010J19GCM3 SEX3 NFCX3 ProX3 GTX5 5GX4 GT ProX4 GTX5 Pro 5GX4 Pro 5GF3 GTF4 GTF4F7 ProF7 UltraC3C31C40C5022127PC95IC55C61C65C75C85F2 ProX5 GT Pro2405CPCFBGPad 12.1\"POPTELP9000 MaxPPTVPRIMEPRISM+PrismPlus$1K Pro Smart TVPROFiLOPULIDPVBoxPVBOX_P5_PROP5 ProPacific Research AllianceArmadillo PhonePackard BellDAYTONA-G12Daytona G12MONZA-T7Monza T7Silverstone $1EasyNote TV11HCPaladinPaladin TVPalmTreo $1TungstenPVG100PepitoPanacomT-i708DPanasonicP-smart KeitaiToughbook $1Eluga PEluga XEluga I7Eluga $1Lumix $1Lumix Phone P-02DToughpad $1Toughpad FZ-$1P55 Novo 4GP55 MaxP$1 NXTP902iPanasonic G00gle TVPanasonic MIL DLNAViera CastEluga Live 10.1\"PanavoxPanoPanodicPanoramicPantechADR910LStar QIM-A860Vega No 6IM-A850Vega R3IM-A870KVega IronParrot MobilePartner MobileEV1 PROEV1 ProPelittPelitt T1 MAXT1 MaxPelitt T1 PLUST1 PlusPendooX8 Pro+pendoo miniMiniX11 PROA5X MaxPentaPS650Smart PS650WS704DXT-Pad WS704DXPentagramEon PrixQuadra 7 UltraSlimMonster X5Quadra $1PerfeoPerfeo_PF_A4551CHRONOPerfeo_PF_A4552RATEPerfeo_PF_A4553MATRIXPhicommClue LEnergy LEnergy 3+Energy 4SClue 2SClue $1PhilcoHIT P10aHit P10aHit $1PH60D16DSGWN4KPTB7PAPhilipsXenium $1$1/96 4K UHDSmart TV UHD ($1-20$2)$1 4G LTEM9 ProBlu-ray Player (BDP$1)NetTV SeriesUHD Android TVSmart TV UHDFisio $1NeoViu D1SCN550Screeneo U5PhonemaxSaturn XMarsVenus XPiPOPipoM9ProPicoNeo3 LinkNeo 3 LinkPioneerR1dvr700piDVR700PI 7.0\"BDP-160Pioneer ComputersPixelaInfineum $1PixelphonePixusRide $1GPlay Three v$1Play TwoPlay FivehiPowerDeonSprintDriveWingLineFolioTouch 7 3GHiMax 9.6\"Blast 10.1\"Joker 10.1\"Blaze 10.1\" 3GRazePixus_JetJetpixus hit 2Hit 2Planet ComputersGemini 4GPlatoonPlay NowPlay Now TV Box 2PloyerMOMOminiSMOMO mini Smomo mini 3GSMOMO Mini 3GSMOMO $1PlumZ405Gator 3Z407Axe 4Z516CompassZ518Compass 2Z519Gator 5Z811Optimax 11Z709Optimax 7Z712Optimax 12PlusStylePluzzPocketBookA10 3GA10SURFpad 2SURFpad 3 $1.$2\"SURFpad 4 $1Point MobilePM80Point of ViewPOV_TV-HDMI-KB-01HDMI Smart TV DonglePOV_TV-HDMI-200BTMini PC HDMI DongleMOB-5045Mobii Phone 5045POV_TAB-P506ONYX 506 NaviONYX 507 NaviPOV_TAB-P527SONYX 527SPOV_TAB-P547ONYX 547 NaviPOV_TAB-PROTAB26ProTab 26 XXL IPSProTab 25XXLPOV_TAB-PL1015Mobii 1015TAB-P10232-3GTab P10232 3GProTab $1Mobii $1PolarPolarLinePolaroidP4005ATurbo C4P5005ATurbo C5P4006ATurbo D4PSPTD21NATurbo D2 PlusP4526ATurbo EPSPCL30A0Cosmo C6P5006ACosmo KP5526ACosmo K PlusPSPCK20NACosmo K2PSPCK21NACosmo K2 PlusP5026ACosmo LPSPCL20A0Cosmo L2PSPCM20A0Cosmo M2P5046ACosmo P5sP5525ACosmo Q5sP5047ACosmo ZPSPCZ20A0Cosmo Z2P5025AL5sPro4611PRO5023Phantom 5PROV400AgatePROV350ProV350Sigma 5Pro$1PSPT350Turbo 350 GrisPSN-H116SnapSMX4KSmartBox SPure 10.1\"Mobility3GMobility 10.1\" 3GPolestarPolestar PhonePhonePolyPadPolytronR2508Rocket Q-FiveR2401Rocket 2XRocket R2402Rocket R1Rocket ",
  chunk! "R2Rocket R3Rocket S1Rocket S2Rocket T1Rocket T3Rocket T6 SERocket T6Rocket T7Rocket T4Rocket JetzRocket Jetz 5.04G450Zap 5W6500Quadra RocketW7452Quadra S2W7550Quadra V5W8570Quadra V7Rocket L501Prime 7SPrime 7 Pro4G500Zap 6 CleoW8480Crystal 4 W8480W7531Wizard VW7430Quadra Mini W7430Zap 6 PoshZap 6 PowerZap 6 FlazZap 6 NoteZap 6 Posh NotePW1100SQ2352R255BPrime T8Cosmica T7800Rocket PadPompPoppoxPoppox P3PorschePorsche Rear Seat EntertainmentPortfolioPositivoYPY_S450YPY S450Twist 4 MiniTwist 5 MaxTwist 4 $1YOLOTwist 4 FitUP 32Twist 4 ProTwist 4GTwist 4T1085M10 4G PRO XM10 4G Pro XPositivo BGHSelfieTwist (2018)Twist Metal 32GBTwist MetalTwist MaxTwist MiniTwist 2 FitTwist 2 GoTwist 2 ProTwist XLTwist SETwist $1Mini IYpy $1Twist TabPowerwayDreamtab $1Premier StarMAXI 20Maxi 20Premier P50Premio186HS2080531AXE_IIAxe IIAxe186HS1050531P541185FT5050231P511186FT1080231P571186HS1050232P630X$1 (2021)PrestigioPrestigio 5500 DUOMultiPhone 5500 DuoMultiPhone $1 DuoMultiPhone $1PSP5551DUOGrace S5PSP7590DUOGrace V7 LTEPSP7551DUOGrace S7 LTEPSP5470DUOGrace X5PSP5530DUOGrace Z5PSP3533DUOGrace Z3PSP5515DUOGrace P5PSP5552DUOGrace R5 LTEPSP5506DUOGrace Q5PSP5511DUOGrace M5 LTEPSP7501DUOGrace R7PSP7570DUOGrace P7 LTEPSP7572DUOGrace B7PSP3552DUOMuze H3PSP5523DUOMuze H5 LTEPSP3515DUOMuze M3 LTEPSP3495DUOMuze V3 LTEPSP3534DUOMuze K3 LTEPSP5513DUOMuze D5 LTEPSP5520DUOMuze B5PSP5518DUOMuze X5 LTEPSP5553DUOMuze F5 LTEPSP5502DUOMuze A5PSP5545DUOMuze E5 LTEPSP7512DUOMuze E7 LTEPSP3511DUOMuze G3 LTEPSP5522DUOMuze G5 LTEPSP7550DUOMuze G7 LTEPSP7510DUOMuze C7 LTEMuze C3PSP3512DUOMuze B3PSP3532DUOMuze F3PSP3470DUOMuze J3PSP5524DUOMuze J5PSP7511DUOMuze B7PSP3514DUOWize U3PSP3513DUOWize V3PSP3416DUOWize YA3PSP3406DUOWize Y3PSP3423DUOWize R3PSP3471DUOWize Q3 LTEPSP3510DUOWize G3PSP3537DUOWize NV3PSP3528DUOWize PX3PSP3527DUOWize NK3PSP3468DUOWize OK3SILVER POSSilver POSPMT3277_3GMultiPad Ranger 7.0\" 3GPMT4337_3GSeed A7 3GPMT3997_W_DSmartKidsPMT3103_WSmartKids MaxPMT3104_Wi_DSmartKids UpPMT4511_4GSmartKids ProPMT4208Node A8 3GPMT4771Root A10 3GPMP7070C3GMultiPad 4 Diamond 7.0\" 3GGeo Vision Tour 3Geo Vision 7777Geo Vision Tour 2Grace $1 $2GPMT3287_3GMultiPad Ranger 8.0 3GPMT4238_4GQ ProMultiPad Wize $1 $2GWize $1 $2GMuze $1 $2GX ProS MaxPTV$1CIS$2MultiCenter $1PrimepadPD-3127NCPD-3127PrimuxIOX PhoneDelta 6Kappa $1KappaBeta 2Omega 6 4GUPZonda 4Siroco 6Siroco YPritomM10_LiteM10 LiteM10 R0$1TOUCH 7Touch 7K7_A101K7 A101M10_AirM10 AirM10_PLUSM10 PlusM10 C01P7_EEAP7P7PROTronPad P7 ProPrixtonProScanPLT$1PLT$1GProVisionProlineFalcon XLM504Falcon XPrologyProtrulyPunosPurismLibrem 5Q-BoxQ-TouchQ.BellQTAB10EWQFXQINQLinkScepter 8QMobileJazzX JS7 PROJazz X JS7 ProJazz X JS$1Noir A1 liteNoir A1 LiteNoir $1Noir A600Z12 PRONoir Z12 ProE2 NoirHot Pro 2Noir LT$1 ProView Max ProX700 PRO IIX700 Pro IIX700 PRO LiteX700 Pro LiteX700 PROX700 ProM350 ProLUNA PROLuna ProVITA SVita SNICE SNice SV$1 Metali$1i (20$2)i10 (20$1)i6i 2020i6i (2020)i8i PROi8i Proi8i DualQMobile I8ii8ii6 Metal ONEi6 Metal Onei6 Metal HDi6 Metal ($1)Smart HD ProRocket ProRocket LiteMark $1Infinity Cinema 2Infinity Prime 2Infinity tripleInfinity TripleInfinity santosInfinity SantosQ Infinity PROQ Infinity ProQ Infinity E LiteQ Infinity $1Linq $1GLi LiteGLiV2 (2018)$1 TabQ InfinityQTECHQMP $1QWATTQiliveQ7S5IN4GQ7 5.0\" 4GQ7S55IN4GQ7 5.5\" 4GQ8S55IN4G2Q8 5.5\" 4GQ8S6IN4GQ8 6.0\" 4GQ8S5IN4GPQ8 5.1\" 4GQ9S5IN4GQ9 5.0\" 4GQ9S55IN4GQ9 5.5\" 4GQ10S53IN4GQ10 5.3\" 4GQ10S57IN4GQ10 5.7\" 4GQ10 5.0\" 4GQ10S6IN4GQ10 6.0\" 4GQ6T7INQ7T10INPQ7 10.1\"Q8T10INQ8 10.1\"Q9T7IN4GQ9 7.0\" 4GQ9T9INQ9 9.0\"Q9T10IN4GQ9 10.1\" 4GQT21101Q1-21QT2108BPQ4-2197R-297R2QiuwokyQnet MobilePassion $1Hynex Plus$1Stark K1Hynex $1 PlusHynex $1Levin $1Aston A$1 PlusQtekQuanta ComputerSlate AQT$1QuantumLio PlusGo 2QrashMUV ProMUV UpUpQ-Titano $1Q-Pulse 70MQ-Wave $1QuatroQuboMinervaX668_64GBX668T104QuechuaQuechua Phone 5RAPTORQuipusTinkuQumoVega $1YoodaSirius $1Quest $1QupiQupi TVQupi TV StartTV StartQwareTB-9718QPro 5TB-1380QPro 4TB-1317QPro 3TB-1517DTabbyR-TVBox $1R3DiFR150RAZZRCA TabletsRCARENO5011619RCT6513W87Galileo Pro 11.5\"Voyager 7.0\"Voyager III 7.0\"RCT6773W22BVo",
  chunk! "yager II 7.0\"Atlas 10.0\"RCT6203W46LPro 10 Edition IIRCT6A06P22Endeavor 10.0\" HDViking Pro 10.0\"RCT6603W47M7Viking II 10.0\"RCT6613W23PDelta Pro 11.6\"RCT$1RC$1RCTREDHydrogen OneRED-XRED_X_RX2441REGALRENSONep N$1RIMBlackBerry DTEK60KEYoneBBC100-1MotionKEY2 LEKEY2BBF100-8KEY2 SilverBBF100-9KEY2 BlackBBG100-1Evolve XBlackBerry PrivBlackBerry DTEK50BlackBerry $1BlackBerry Playbook9300Curve 3G 9300Curve $19630Tour 96309720Torch $1BlackBerryROADMAXFortius Quad 7ROCHRT ProjectShock $1popper2Popper 2RTKESKIMO!RakutenZR01Big3917JRBig SP710HandC330C330 MiniP780Hand 5GRamosMOS1maxMOS1 MaxW22PRO 3GW22 Pro 3GRaspberryRavozRaylandzXPOWER_P6000XPower P6000RazerRazer Edge 5GEdge 5GReachReadboyC18 MaxC$1 ProRealixRealmeRMX3844P1 Pro 5GRMX5004P1 Speed 5GRMX3870P1 5GRMX3987P2 Pro 5GP3 Ultra 5GRMX5079P3 5GRMX3944P3x 5GRMX5032P3 Pro 5GRMX5300P3 LiteRMX5116P4 Pro 5GRMX5110P4 5GRMX3834GT Neo 5RMX3852GT Neo 6GT 6RMX3853GT 6TGT 7 ProGT 7RMX5085GT 7TGT 8 ProRMX6699GT 8RMX3850GT Neo 6 SERMX3700GT Neo 5 SERMX5060RMX5062Neo 7 TurboRMX5071Neo 7xRMX5080Neo 7 SEQ3 Pro PlayRMX36632 ProRMX18273i3 ProRMX1993X2 ProRMX2117Q2 5GRMX2173Q2 ProRMX2205Q3 Pro 5GRMX3161Q3 5GRMX3462Q3tRMX3372Q5 ProRMX3478Q5RMX3574Q5iX7 5GX7 Pro 5GXT5 Pro5iRMX19295s6iRMX20026S6 ProRMX21037IRMX2170RMX3115X7 Pro Extreme EditionRMX30818iRMX33818sRMX32418 5G9iRMX36129i 5GRMX35219 5G9 Pro+ 5G9 Pro 5GRMX361710s10 Pro 5G10 Pro+ 5GRMX374111 Pro+ 5GRMX374011 Pro+RMX377111 Pro 5GRMX377011 ProRMX378511x 5GRMX378011 5GRMX384212 Pro 5GRMX384312 ProRMX384112 Pro+RMX384012 Pro+ 5GRMX386712+ 5G12 5GRMX3871RMX399812x 5GRMX399312xRMX500213 Pro13 Pro 5G13 Pro+ 5GRMX500013+ 5GRMX395113 5GRMX395214x 5GRMX507014 5GRMX507814T 5G14 Pro+ 5GRMX505014 Pro+RMX505614 Pro 5GRMX505514 ProRMX510615 5GRMX510115 Pro 5GRMX510015 ProRMX511115TRMX525015x 5GRMX19255SRMX1811RMX2185C11RMX2189C12C15C15 Qualcomm EditionC17C20C21C21YC25C25sC25YC30RMX3690C30sC33C35RMX3710RMX3830RMX3765C51sC53RMX3950C63 5GRMX3910RMX3890C67RMX3782Narzo 60xRMX3997C65 5GRMX3941RMX5303RMX3945C73 5GRMX5020C75xRMX3231C11 (2021)RMX5090GT 5RMX3888GT 5 ProRMX3709GT 3GT 2 ProGT 2RMX3551GT 2 Explorer MasterRMX3031GT NeoRMX3370GT Neo 2GT Neo 3RMX3563GT Neo 3 150WGT Neo 3TGT Neo 2TRMX3701GT Master EditionGT Neo FlashNarzo 20 ProRMX2193Narzo 20RMX2050Narzo 20ARMX3171Narzo 30ARMX2156Narzo 30RMX3242Narzo 30 5GRMX3430Narzo 50ARMX3286Narzo 50RMX3572Narzo 50 5GRMX3395Narzo 50 ProRMX3396Narzo 50 Pro 5GNarzo 50A PrimeRMX3235Narzo 50iRMX3506Narzo 50i PrimeRMX3750Narzo 60 5GRMX3869Narzo 70 5GRMX5003Narzo 70 Turbo 5GRMX3868Narzo 70 Pro 5GRMX5033Narzo 80 Pro 5GRMX3761Narzo N53RMX3933Note 60X50 5GX50t 5GX50 ProX50 Pro PlayerX3 Super ZoomRMX2083Realme X7 Max 5GX7 Max 5GQ3sV5 5GV3 5GRMX3618V11 5GRMX3125V11s 5GV13 5GV15 5GRMX3571V23RMX3576V23iRMX3475V25RMX3619RMX3783V50sRMX3781RMX3995RMX3996V60sRMX3946RMX2202GT 5GRMX3938Note 60xRMX5313Note 70TPadPad XPad Mini4K Google TV StickRedLineRED360 Air 8KS$1 MaxIP-$1 MaxRedbeanRedfoxWizpad Valuer V8Redwayredway10_lite10 Literedway7_proRedway_7ReederA8i-Q2A8i Q2P11SE_ArtP11SE ArtM10SPlusM10S PlusM7PlusM7 PlusM7 GoM8Go2020M8 Go (2020)$1 GoM10 Blue MaxM10 Pro LTEP12CurveP12 CurveP13 Blue Max PLP13 Blue Pro LiteP13_Blue_MaksP13 Blue MaksP13_Blue_Plus_2022P13 Blue Plus (2022)P13_Blue_PlusP13 Blue PlusP13 Blue Max Pro 2021P13 Blue Max Pro (2021)P13 Blue Max LiteP13 Blue Max ProP13 Blue (202$1)P13 Blue Max (202$1)P13 Blue MaxP13_BlueP13 BlueS19 MaxS19 MaxL 128GBS19 Max LS19 Max Pro S ZoomS19 Max Pro S EdgeS19 Max Pro SS19 Max ProS23 Pro MaxREEDER TVRelNATRelndooRemdunRD$1RenovaRevoRevo_YouplusYou PlusRevomovilS6523S21RhinoPace A1Ricohricoh_ricoh_mfpapnlMFPRikomagicMK$1Ringing BellsRINGING BELLSSmart 101Smart 101 4GRinnoRitmixRMD-$1RMP-$1RitzvivaS500CRivieraRivoSTORM_S8plusStorm S8 PlusSTORM_S8Storm S8Phantom PZ$1Phantom RX$1Rhythm RX$1RizzenRoadroverRoadrover ChangAn SChangAn SRoam CatRokitOrb SIO ProIO LightIO 3DRoku3930XExpressRoku4640XUltraDigital Video PlayerRombicamyPhone JetSmart Stick 4KTV-Impact-proTV Impact ProTV-ImpactTV ImpactCinema 4K v01RomsatRoss&MoorRM$1-$2RoverRover ComputersPro Q$1 LTESky 7.85\" 3G$1 7.85\" 3GRoyQueenBishop-",
  chunk! "RQ451BishopRoyoleFlexPai 2FlexPaiRugGearRG725RuggeTechRuggexRhino QuestRuioM671M4Cola 4GRunGeeRunGee X9RunboF1-TTRunboP2RupaPyramid A5XRyteS-ColorS-TELLS2TelSAILFI13 ProSANYSANY V8SANY V8 ProV8 ProSEBBESEEWOSEGSEMP TCLL9 PlusGO! 3C PlusGO! 3CSENNASERVO16 MaxSFRStarXtrem 2StarXtrem $1StarXtremStarTrail 3StarTrail 2StarTrail $1 $2GStarTrail $1StarTrailAura PlusAura UltraAuraStarShine 2StarShine 3StarShineStarAddict 6StarAddict 4StarAddict 3StarAddict 2 PlusStarAddict 2StarAddictStarText 2StarTextStarNaute 2StarNaute $1StarNauteStarTabSGINSGIN_E10ME10MSGIN_X10X10SINGER4K GSMART TVSINGER ANDROID TVSK BroadbandBHX-UH200B TV Smart 3 (2021)SKGSKK MobileLYNX_LUXELynx LuxeHyper X DragonHYPER X BLADE IIHyper X Blade IIHYPER X BLADEHyper X BladeSMARTECSmartabS4Smartab S4SMT TelecomCRUSH_X565Crush X565BLAZE_X500Blaze X500SMUXSNAMISOLEPop S$1SOLOInspire_U5_PLUSInspire U5 PlusInspire_U5Inspire U5SONOSBR200BOOSTRoamBookshelfMovePlay:$1OneSLSubSOSHSoshPhoneSOWLYSPCGRAVITY_OCTACOREGravity OctaCoreGravity (2019) $1GGravity $1GGravity MaxGRAVITY PROGravity ProGRAVITY SEGravity SEGRAVITY-2-MAXGravity 2 MaxGravity 2GRAVITY ULTIMATE 2Gravity Ultimate 2GRAVITY_3_MINIGravity 3 MiniGRAVITY_3_SEGravity 3 SEGravity $1Glow 9.7\"LightyearL70_LiteL70 LiteFLOW 7Flow 7LaikaZEUS_4G_PROZeus 4G ProZEUS_4GZeus 4GSmart UltimateSPC SMART PLUSSmart PlusSPC SMART LITESmart LiteSPC SMART MAXSmart MaxSPC SMARTSPC GEN MAXGen MaxSPC GEN LITEGen LiteSPC GEN PlusGen PlusSPC GENGenDISCOVERY_2_MEDiscovery 2 MeSPC_ALIEN_STICKAlien StickSPC_ALIENAlienSPURTSQOOLV$1SSKYSTF MobileFractalOrigins ProAERIAL PLUSAerial PlusAERIALAerialBLOCK_MINIBlock MiniBLOCK 3 miniBlock 3 MiniBLOCK 3Block 3BLOCK GOBlock GoSLAY IISlay IIJoy ProSTG TelecomSTKLife 8Life 7SStorm 2e PluzStorm 2e PlusSync 5z PlusTransporter 1STRONGLEAP-S1SUAATS3SUNWINDSky $1 $2 3GSKY Kids 70Sky Kids 70Sky $1 $2GSUN-LED$1SWISSMOBILITYSCHON R9PRA$1ZUR722MZ72 goZUR$1SWOFYM503 ProSYHYoung $1SZ TPSSabaSafaricomET KimemKimem Kerefa 4GNEON_RAY_PRONeon Ray ProNeon Ray Ultra MNeon Ray UltraNEON_RAYNeon RayNEON RAY 2Neon Ray 2NEON_NOVANeon NovaNEON PLUSNeon PlusNEON LITENeon LiteNeon StormSFCSTB2LITESTB2 LiteSagemSagemcomDCTIW362_PLAYDCTIW362 PlaySaietSicuro Smart $1SaloraSamboxSAMBOX_KM_35_PROKM35 ProKM$1GT-B9150Home SyncSMT-E5015Maple Maple2012Smart TV (2012)Galaxy Note 8.0\"Galaxy View 18.4\" LTEGalaxy View 18.4\" WiFiGalaxy Note 8.0\" WiFiGalaxy Note 8.0\" LTEGalaxy Note 10.1\"Galaxy Note 10.1\" WiFiGalaxy Note 10.1\" LTEGalaxy TabGalaxy Tab 2 7\"Galaxy Tab 2 7\" WiFiGalaxy Tab 2 10.1\"Galaxy Tab 2 10.1\" WiFiGalaxy Tab 3 7.0\" 4GGalaxy Tab 3 10.1\"Galaxy Tab 3 10.1\" WiFiGalaxy Tab 3 10.1\" LTEGalaxy Tab 7\" PlusGalaxy Tab 7\" Plus NGalaxy Tab 7.7\"SC-01EGalaxy Tab 7.7\" PlusGalaxy Tab 10.1vGalaxy Tab 10.1\"Galaxy Tab Pro 8.4\" 3GGalaxy Tab Pro 12.2\" LTEGalaxy Note 10.1\" 2014 Edition WiFiGalaxy Note 10.1\" 2014 EditionGalaxy Note 10.1\" 2014 Edition LTEGalaxy NotePRO 12.2\" WiFiGalaxy NotePRO 12.2\"Galaxy NotePRO 12.2\" LTEGalaxy Tab A 10.1\" with S Pen (2016) LTEGalaxy Tab A 10.1\" with S Pen (2016) WiFiGalaxy Tab A 8.0\" with S Pen (2019) LTEGalaxy Tab A 8.0\" with S Pen (2019) WiFiGalaxy Tab A 8.4\" (2020) LTEGalaxy Tab A 8.0\" (2019) LTEGalaxy Tab A7 10.4\" (2020) LTEGalaxy Tab A7 10.4\" (2020) WiFiGalaxy Tab A7 10.4\" (2022) WiFiGalaxy Tab A7 Lite 8.7\" (2021) LTEGalaxy Tab A7 Lite 8.7\" (2021) WiFiGalaxy Tab A9+ 11.0\" 5GGalaxy Tab A9+ 11.0\" WiFiGalaxy Tab A9+ 11.0\" LTEGalaxy Tab A9 8.7\"Galaxy Tab A9 8.7\" WiFiGalaxy Tab A11 8.7\" LTEGalaxy Tab 3 Lite 7.0\" WiFiGalaxy Tab A8 10.5\" LTEGalaxy Tab A8 10.5\" WiFiGalaxy Tab S4 10.5\" WiFiGalaxy Tab S4 10.5\" with S PenGalaxy Tab S4 10.5\"Galaxy Tab S5e 10.5\"Galaxy Tab S5e 10.5\" WiFiGalaxy Tab S6 10.5\"Galaxy Tab S6 10.5\" LTEGalaxy Tab S6 Lite 10.4\"Galaxy Tab S6 Lite 10.4\" (2024)Galaxy Tab S6 Lite 10.4\" (2024) WiFiGalaxy Tab S6 Lite 10.4\" WiFiGalaxy Tab S6 10.5\" WiFiGalaxy Tab S6 10.5\" 5GGalaxy Tab S8 11.0\" WiFiGalaxy Tab S8 Ultra 14.6\" WiFiGalaxy Tab S9 Ultra 14.6\" WiFiGalaxy Tab S9 Ultra 14.6\" 5GGalaxy Tab S9+ 12.4\"Galaxy Tab S9+ 12.4\" 5GGalaxy Tab S9 12.4\" 5GGalaxy Tab S9 FE+ 12.4\" 5GGalaxy Tab S9 FE 10.9\" 5GGala",
  chunk! "xy Tab S9 FE+ 12.4\" WiFiGalaxy Tab S9 11\" WiFiGalaxy Tab 3 Lite 7.0\"Galaxy Tab S10 Ultra 14.6\" WiFiGalaxy Tab S10 Ultra 14.6\" 5GGalaxy Tab S10 FE+ 13.1\"Galaxy Tab S10 FE+ 13.1\" 5GGalaxy Tab S9 FE 10.9\" WiFiGalaxy Tab S10 FE 10.9\" WiFiGalaxy Tab S10 FE 10.9\" 5GGalaxy Tab S10+ 12.4\" WiFiGalaxy Tab S10+ 12.4\" 5GGalaxy Tab S10 Lite WiFiGalaxy Tab S10 Lite 5GGalaxy Tab 3 VGalaxy Tab 3 7.0\" KidsGalaxy Tab 3 7.0\" WiFiGalaxy Tab 3 7.0\"Galaxy Tab 4 7.0\" WiFiGalaxy Tab 4 7.0\" 3GGalaxy Tab 4 7.0\" LTEGalaxy Tab 4 7.0\" WiFi + 3GGalaxy Tab 3 8.0\" WiFiGalaxy Tab 3 8.0\" 3GGalaxy Tab 3 8.0\"Galaxy Tab 3 8.0\" LTEGalaxy Tab 4 8.0\" WiFiGalaxy Tab 4 8.0\" LTEGalaxy TabPRO 10.1\" WiFiGalaxy Tab 4 10.1\" LTEGalaxy Tab 4 10.1\" AdvancedGalaxy Tab 4 10.1\"Galaxy TabPRO 8.4\" WiFiGalaxy TabPRO 8.4\" LTEGalaxy TabPRO 10.1\" LTEGalaxy Tab 4 10.1\" WiFiGalaxy Tab S 8.4\" WiFiGalaxy Tab S 8.4\" LTEGalaxy Tab S 10.5\" WiFiGalaxy Tab S 10.5\" LTEGalaxy Tab S2 9.7\" WiFiGalaxy Tab S2 8.0\" LTEGalaxy Tab S2 8.0\" WiFiGalaxy Tab S2 9.7\" LTEGalaxy Tab S3 9.7\" WiFiGalaxy Tab S3 9.7\" LTEGalaxy Tab S7+ 12.4\" LTEGalaxy Tab S7+ 12.4\" WiFiGalaxy Tab S7+ 12.4\" 5GGalaxy Tab S7 11.0\" WiFiGalaxy Tab S7 11.0\" LTEGalaxy Tab S7 11.0\" 5GGalaxy Tab S7 FE 12.4\" LTEGalaxy Tab S7 FE 12.4\" 5GGalaxy Tab S7 FE 12.4\" WiFiGalaxy Tab S8 Ultra 14.6\" 5GGalaxy Tab S8+ 12.4\" 5GGalaxy Tab S8+ 12.4\" WiFiGalaxy Tab S8 11.0\" 5GGalaxy Tab S11 WiFiGalaxy TabPRO 12.2\" WiFiGalaxy Tab A 7.0\" WiFiGalaxy Tab A 7.0\" LTEGalaxy Tab A 8.0\" WiFiGalaxy Tab A 8.0\" LTEGalaxy Tab A 8.0\" (2018) LTEGalaxy Tab A 8.0\" (2019) WiFiGalaxy Tab A 9.7\" WiFiGalaxy Tab A 9.7\" LTEGalaxy Tab A 10.1\" (2016) WiFiGalaxy Tab A 10.1\" (2016) LTEGalaxy Tab A 10.5\" (2018) LTEGalaxy Tab A 10.1\" (2019)Galaxy Tab E 8.0\"Galaxy Tab E 9.6\" WiFiGalaxy Tab E 9.6\" 3GGalaxy Tab E 9.6\" 4GGalaxy Tab Active 5 8.0\" 5GGalaxy Tab Active5 8.0 (2024) WiFiGalaxy Tab Active 4 Pro 10.1\" 5GGalaxy Tab Active 8.0\"Galaxy Tab Active 8.0\" WiFiGalaxy Tab Active 2 8.0\"Galaxy Tab Active 2 8.0\" WiFiGalaxy Tab Active 3 8.0\"Galaxy Tab Active 3 8.0\" WiFiGalaxy Tab Active Pro 10.1\"Galaxy Tab Active Pro 10.1\" WiFiGalaxy Note Pro 12.2\"Galaxy Tab QSM-R820Galaxy Watch Active 2 44mmSM-V7000Galaxy GearSM-R3500Galaxy Gear FitSM-R3800Galaxy Gear 2SSM-R3810Galaxy Gear 2 NeoSM-R825Galaxy Watch Active 2 44mm LTESM-R830Galaxy Watch Active 2 40mmSM-R835Galaxy Watch Active 2 40mm LTESM-R800Galaxy Watch 46mmSM-R875Galaxy Watch 4 44mmGalaxy Watch 4 40mmGalaxy Watch 5 40mmGalaxy Watch 5 44mmSM-R925Galaxy Watch 5 Pro 50mmSM-R920Galaxy Watch 5 Pro 45mmSM-R960Galaxy Watch 6 Classic 47mmSM-R950Galaxy Watch 6 Classic 43mmSM-R805Galaxy Watch 46mm LTESM-R895Galaxy Watch 4 46mmSM-R810Galaxy Watch 42mmSM-R815Galaxy Watch 42mm LTESM-R885Galaxy Watch 4 Classic 42mmSM-R500Galaxy Watch ActiveSM-R600Galaxy Gear Sport 43mmSM-R760Galaxy Gear S3 Frontier 46mmSM-R720Galaxy Gear S2 43mmSM-R730Galaxy Gear S2 44mmSM-R750Gear S 40mmSM-R732Gear S2 42mmSM-R765Galaxy Gear S3 Frontier 33mmSM-R770Galaxy Gear S3 Classic 41mmSM-R845Galaxy Watch 3 45mm LTESM-R840Galaxy Watch 3 45mmSM-R850Galaxy Watch 3 41mmSM-R855Galaxy Watch 3 41mm 4GGear LiveFamily HubGalaxy A24Galaxy A25 5GGalaxy AlphaGalaxy ChatGalaxy JeanGalaxy Jean 2Galaxy Y ProGalaxy Y Pro DuosGalaxy ProGalaxy SpicaGalaxy ApolloGalaxy 3Omnia IIOmnia MOmnia WOmnia 7Focus FlashFocusFocus SGalaxy WGalaxy Active NeoGalaxy AceGalaxy Ace StyleGalaxy Ace 2Galaxy Ace 4Galaxy Ace 4 DuosGalaxy Ace 4 LiteGalaxy Ace 4 NeoGalaxy S IIGalaxy S II HD LTEGalaxy S III miniGalaxy S III mini Value EditionGalaxy CoreGalaxy Core AdvanceGalaxy Core LTEGalaxy Core Lite LTEH1Galaxy BeamGalaxy Beam 2Galaxy WideGalaxy Wide 5Galaxy Wide 7Galaxy Wide 8Galaxy WinGalaxy Win ProGalaxy ExpressGalaxy E5Galaxy E7Galaxy SGalaxy S PlusGalaxy SLGalaxy S Giorgio ArmaniGalaxy S AdvanceGalaxy S II WiMAXGalaxy RGalaxy S II PlusGalaxy S3 miniGalaxy S4 miniGalaxy S4 Value EditionGalaxy S4 ACTIVEGalaxy S IIIGalaxy S III LTEGalaxy S4Galaxy S4 with LTE+Galaxy S4 LTEGalaxy STARGalaxy POCKET PlusGalaxy POCKET NeoGalaxy POCKET 2Galaxy Y Hello KittyGalaxy YoungGalaxy Young DUOSGalaxy Young 2Galaxy Young 2 ProGalaxy",
  chunk! " FAME Lite with NFCGalaxy FAMEGalaxy FAME DuosGalaxy FeelGalaxy Feel 2Galaxy ACE 3Galaxy ACE PlusGalaxy TrendGalaxy Trend LiteGalaxy Trend PlusGalaxy Trend 2Galaxy S DUOSGalaxy S DUOS 2Galaxy S DUOS 3Galaxy Xcover 2Galaxy Xcover 3Galaxy Xcover 3 VEGalaxy Xcover 4Galaxy Xcover 4sGalaxy Xcover ProGalaxy Xcover FieldProGalaxy Xcover 5Galaxy Xcover 6 ProGalaxy Xcover 7Wave IIWave 3Wave YWave MWave 525Wave 533Wave 578Wave 723Galaxy S4 zoomGalaxy K zoomGalaxy V PlusGalaxy Core 2Galaxy Core PlusGalaxy Core PrimeGalaxy Core Prime Value EditionGalaxy Core Mini 4GGalaxy Core MaxGalaxy EXPRESS IIGalaxy S5 miniGalaxy S5 Dual-SIMGalaxy S5 DuosGalaxy S5Galaxy S5 LTE+Galaxy S5 ActiveGalaxy S5 NeoGalaxy S5 K SportGalaxy S6Galaxy S6 EdgeGalaxy S6 Edge+Galaxy S7Galaxy S7 EdgeGalaxy S7 ActiveGalaxy S8Galaxy S8 LiteGalaxy S8 ActiveGalaxy S8+Galaxy S9Galaxy S9+Galaxy S10Galaxy S10 LiteGalaxy S10+SC-05LGalaxy S10+ Olympic Games EditionGalaxy S10eGalaxy S20Galaxy S20 5GGalaxy S20 FEGalaxy S20 FE 5GGalaxy S20 Ultra 5GGalaxy S20+Galaxy S20+ 5GGalaxy S21 5G UWGalaxy S21 5GGalaxy S21 FE 5GGalaxy S21 5G Olympic Games EditionGalaxy S21 Ultra 5GGalaxy S21+ 5GGalaxy S22Galaxy S22 UltraGalaxy S22+Galaxy S23Galaxy S23+Galaxy S23 UltraGalaxy S23 FEGalaxy S24Galaxy S24+Galaxy S24 FEGalaxy S24 UltraGalaxy S25+Galaxy S25Galaxy S25 EdgeGalaxy S25 UltraGalaxy Z FlipGalaxy Z Flip 5GGalaxy StellarGalaxy Style DuosGalaxy DiscoverGalaxy CenturaVollo Vi86Galaxy AvantGalaxy A QuantumGalaxy A01Galaxy A01 CoreGalaxy A02sGalaxy A03sGalaxy A03Galaxy A04sGalaxy A04eGalaxy A04Galaxy A03 CoreGalaxy A02Galaxy A05Galaxy A05sGalaxy A06 5GGalaxy A06Galaxy A2 CoreGalaxy A11Galaxy A14 5GGalaxy A14Galaxy A15 5GGalaxy A15Galaxy A16Galaxy A16 5GGalaxy A22Galaxy BuddyGalaxy Buddy 3Galaxy A22 5GGalaxy A3 (2015)Galaxy A3 (2016)Galaxy A3 (2017)Galaxy A34 5GGalaxy A35 5GGalaxy A36 5GGalaxy A4Galaxy A5Galaxy A5 DuosGalaxy A5 (2015)Galaxy A5 (2016)Galaxy A5 (2017)Galaxy A52Galaxy A52 5GGalaxy A52s 5GGalaxy A6Galaxy A6+Galaxy A6s (2018)Galaxy A60Galaxy A7Galaxy A7 (2016)Galaxy A7 (2017)Galaxy A7 (2018)Galaxy A71Galaxy A72Galaxy A73 5GGalaxy A71 5GGalaxy A8Galaxy A8 StarGalaxy A8 (2016)Galaxy A8sGalaxy A8 (2018)Galaxy A8+ (2018)Galaxy A9Galaxy A9 7Galaxy A9 (2018)Galaxy A9 StarGalaxy A9 ProGalaxy A10Galaxy A10sGalaxy A10eGalaxy A12Galaxy A13 5GGalaxy A13Galaxy A20Galaxy A21Galaxy A21sGalaxy A20eGalaxy A20sGalaxy A23Galaxy A23 5GGalaxy A30Galaxy A30sGalaxy A31Galaxy A32Galaxy A32 5GGalaxy A33 5GGalaxy A40Galaxy A40sGalaxy A41Galaxy A42 5GGalaxy A50Galaxy A50sGalaxy A51Galaxy A51 5GGalaxy A53 5G UWGalaxy A53 5GGalaxy Quantum 4Galaxy Quantum 6Galaxy A54 5GGalaxy A55 5GGalaxy A56 5GGalaxy A70Galaxy A70sGalaxy A80Galaxy A90Galaxy A90 5GGalaxy F02sGalaxy F04Galaxy F05Galaxy F06 5GGalaxy F12Galaxy F13Galaxy F14 5GGalaxy F14Galaxy F15 5GGalaxy F16 5GGalaxy F22Galaxy F23 5GGalaxy F34 5GGalaxy F41Galaxy F42 5GGalaxy F52 5GGalaxy F54 5GGalaxy F62Galaxy S III NeoGalaxy LunaGalaxy LightGalaxy J1Galaxy J1 MiniGalaxy J1 mini PrimeGalaxy J1 (2016)Galaxy J1 AceGalaxy J2Galaxy J2 DuosGalaxy J2 PureGalaxy J2 CoreGalaxy J2 ProGalaxy J3 OrbitGalaxy J3 ProGalaxy J3 SkyGalaxy J3 Luna ProGalaxy J3 PrimeGalaxy J3 EmergeGalaxy J3 AuraGalaxy J3 StarGalaxy J3 MissionGalaxy J3 EclipseGalaxy J3 (2015)Galaxy J3 (2016)Galaxy J3 (2017)Galaxy J3 (2018)Galaxy J4Galaxy J5 (2015)Galaxy J5 (2016)Galaxy J5 Pro (2017)Galaxy J5 (2017)Galaxy J5 PrimeGalaxy J6Galaxy J6+Galaxy J4 CoreGalaxy J4+Galaxy On8Galaxy J7Galaxy J7 (2015)Galaxy J7 (2016)Galaxy J7 (2017)Galaxy J7 (2018)Galaxy J7+ (C7)Galaxy J7 PrimeGalaxy J7 Prime 2Galaxy J7 MaxGalaxy J7 Sky ProGalaxy J7 ProGalaxy J7 CoreGalaxy J7 DuoGalaxy J7 CrownGalaxy J7 VGalaxy J7 7SM-J8 PlusGalaxy J8 PlusSM-J8 ProGalaxy J8 ProGalaxy J8Galaxy J9 7 PrimeGalaxy J9 8 ProSM-A326Galaxy Jump 5GSM-M336KGalaxy Jump 2SM-M446KGalaxy Jump 3SM-M366KGalaxy Jump 4Galaxy M01Galaxy M04Galaxy M05Galaxy M01 CoreGalaxy M01sGalaxy M02sGalaxy M02Galaxy M10Galaxy M10sGalaxy M11Galaxy M12Galaxy M13Galaxy M13 5GGalaxy M14 5GGalaxy M14Galaxy M15 5GGalaxy M16 5GGalaxy M20Galaxy M21Galaxy M21 (2021)Galaxy M22Galaxy",
  chunk! " Buddy 2Galaxy M23 5GGalaxy M30sGalaxy M30Galaxy M31Galaxy M32Galaxy M32 5GGalaxy M33 5GGalaxy M31sGalaxy M34 5GGalaxy M35 5GGalaxy M40Galaxy M42 5GGalaxy M51Galaxy M52 5GGalaxy Quantum 3Galaxy M53 5GGalaxy M54 5GGalaxy M62Galaxy M55 5GGalaxy W201$1Galaxy W22Galaxy W20Galaxy W21Galaxy Quantum 2Galaxy Golden 2Galaxy RoundGalaxy On5Galaxy On5 (2016)Galaxy On7Galaxy On7 (2016)Galaxy On7 PrimeGalaxy C5Galaxy C5 ProGalaxy C55 5GGalaxy C7Galaxy C7 ProGalaxy C8Galaxy C9 ProGalaxy Z1Galaxy Z2Galaxy Z3Galaxy Z4Galaxy FolderGalaxy Folder 2Galaxy SolGalaxy Sol 2Galaxy Sol 3Galaxy HaloGalaxy Amp Prime 2Galaxy Amp Prime 3 (2018)Galaxy FoldGalaxy W23 FoldGalaxy W25Galaxy W24 FoldGalaxy W23 FlipGalaxy W24 FlipGalaxy Z Flip 3Galaxy Z Flip 4Galaxy Z Flip 5Galaxy Z Flip 6Galaxy Z Fold 2 5GGalaxy Z Fold 3 5GGalaxy Z Fold 4Galaxy Z Fold 5Galaxy Z Fold 6Galaxy Grand NeoGalaxy Grand Neo DuosGalaxy GrandGalaxy Grand Neo+Galaxy Grand DuosGalaxy NoteGalaxy Note EdgeGalaxy Note Fan EditionGalaxy Note IIGalaxy Note II LTEGalaxy Grand 2Galaxy Grand MaxGalaxy Grand PrimeGalaxy Grand Prime VE DuosGalaxy Grand Prime PlusGalaxy J2 Prime (TV)Galaxy J2 PrimeGalaxy Note 3 Neo DuosGalaxy Note 3 NeoGalaxy Note 3 DuosGalaxy Note 3 LTEGalaxy Note 3Galaxy Note 4Galaxy Note 4 LTEGalaxy Note 4 EdgeGalaxy Note 5Galaxy Note 5 DuosGalaxy Mega 2Galaxy Mega 5.8Galaxy Mega 6.3Galaxy Note 7Galaxy Note 8Galaxy Note 9Galaxy Note 10+Galaxy Note 10Galaxy Note 10 LiteGalaxy Note 20 5GGalaxy Note 20 UltraGalaxy Note 20Galaxy Note 20 Ultra 5GAtiv SEGreatCall Touch 3E2152Chromebook 3Chromebook PlusSC-02CSMART-TVGalaxy $1SC-$1SCH-$1SamtechSamtronSaneiN83N918312DG101SankeyTAB7A3G05TAB-7A3G05SansuiS505024SantinBiTBiZ V58GAAMII G1GAAMIIHexin H2-ACandy U7 ProDream Plus 03AClass OneHaloveActoma AceMonicaHongQi HQ1GalazNewdunHexin $1HY-002 PlusG101-OGKatana Eclipse XIncognitoInnuendoSavioSberSchneiderSchokSchok Volt SV55Volt SV55FreedomTurboXLFreedom Turbo XLScooleScosmosSeatelSeekenSeleclineSelengaSelfixSELFIXSELFIX_SLASH6Slash 6VOYAGER-V45Voyager V45SELFIX_ES732_EXPERIUSES732 ExperiusSELFIX_Q5_URBANQ5 UrbanSELFIX_Q3_REBELQ3 RebelSELFIX_Q6_STALLIONQ6 StallionSELFIX_V41_PRO_MARDIGRASV41 Pro MardigrasSencorElement $1\" $2Element 7 V3Element 7 V2 BasicElement 7 V2Element 8 V3Element 8 V2Element 8Element 9.7 V3Element 9.7 V2Element 9.7Element 10.1$1.$2Element P$1SencromSENCROMRedrobox 4K PLUSRedro Box 4K PlusSendoSenkatelMaximusT1001Maximus T1001SenseitSenwaOdinInizioInizio PlusInizio LTEV705BPegasusThorSparklyDiamondSeuicAUTOID $1SewooSharpAquos Xx3STTM21VAPPRouvo VAquos Xx3 MiniAquos Xx2Aquos XxAquos eaAndroid OneAndroid One S3Android One S5Android One S7Android One X4Aquos WishAquos Wish 2Aquos Wish 3Aquos SH-M04Aquos Sense LiteAquos Sense 8Aquos Sense 9Aquos Sense PlusAquos Sense 4 BasicAquos Sense 4Aquos Sense 4 PlusAquos Sense 6Aquos Sense 6sAquos Sense 7 PlusAquos Sense 7Aquos Sense 5GAquos D10Aquos S3 Dual SIMAquos ZetaAquos ZeroAquos Zero 2Aquos Zero 6Aquos Zero 5G BasicAquos S2 (C10)Aquos Phone ZetaDragon QuestAquos Phone SH-06DAquos Phone $1Aquos Phone XX $1Aquos L2Aquos RAquos R CompactAquos R2Aquos R2 CompactAquos R5GAquos S4 PlusAquos S4 SIMAquos VAquos V7+Aquos V6Aquos V6 5GAquos V6+Aquos K $1Simple Smartphone 4Simple Smartphone 6Aquos EverAquos CompactAquos CrystalAquos Crystal XAquos Crystal 2Aquos 3Aquos 2Aquos SAquos S BasicAquos P6Aquos S MiniAquos S2Aquos S2 PlusAquos S3 PlusAquos R3Aquos S3Aquos S3 MiniAquos S3 BasicAquos S3 LiteAquos S4 LiteAquos R6Aquos R7Aquos R8 ProAquos wish3Aquos R8Aquos ULuna SB10A2 LiteBasio 2Basio ActiveStar WarsSH-RM02Aquos SH-RM02401SHAquos 401SHDisney Mobile $1A001SHSimple Sumaho 5Aquos Keitai 3NPA205SHAquos Keitai 4NP807SHAquos Keitai 10NP501SHAquos KeitaiLeica Leitz Phone $1Galapagos $1Aquos K-taiPantone 6Sharp Aquos PadAquos Pad SHT21LCD_xxSUFOC475ALCD-60SU475AAquos Net PlusAquos TV$1Shift PhonesShivakiSTV-$1Shtrikh-MSmartpos F2ShuttleSicoPlus 2More_3More 3Plus3_4GPlus 3TopazMega2maxMega 2 MaxMega2Mega 2Nile XSSR3-1-51-5MSSD-1-53-13MInfinity MaxE1002Express3-MaxExpress 3 MaxExpress3Express 3SiemensX-StyleX-Treme PQ$1 MaxX-Treme PQ$1X-",
  chunk! "Style Tab A$1Tab_A1025_X-tremeX-Treme Tab A1025Tab A1010 NeoX-Style S$1SilelisSilent CircleBlackphone 2SimbansTangoTab $1TangoTabUltimaxValumaxPicasso Tab $1PrestoS72-BSX2WSimplySingtechInfinity I1Infinity I MixSiragonSP-$1Sirin LabsFinney U1SolarinSiswooAprix C55Platinum 5.0MPlatinum 5.5CPlatinum $1.$2 PlusPlatinum_4_0PlusPlatinum 4.0 PlusPlatinum 4.0Platinum $1 ProPlatinum B4Platinum $1Platinum View$1Pad 10 MaxPad 8 ProSKYVISIONVisionSky Vision2Vision 2Elite OctaPlusElite T8 PlusElite Octa XSElite Octa XElite OctaElite OctaMaxElite_5_5_OctaElite 5.5 OctaELITE PHOTOPROElite Photo ProElite M5PlusElite M5 PlusElite $155 MaxElite A63MaxElite A63 MaxSKY B63Elite B63Elite $1 ProElite $1.$2Fuego $1SKY_Pro_IIIPro IIIPRO_SELFIEPro SelfieSKY 55M55MPremier5Premier 5Prestige XPrestigeEM150Q MiniES130Q 1TBES140Q 2TBES240ES340Q 2TB V3SkyStreamIII PlusSkytechSkyworthFlowBox-F1VGK02DGO Smart StickSW-22AE NFSWTV-22AE NFSmadlSafariMatri $1SmailoSmart PRIME IIPrime IISmart KasselSK5501Smart TechSmartBookSB13SmartabSmartexSmartfrenS7 BuildAndromax Tab 7.0PD6D1JAndromax V3sAD682JAndromax TAD688GAndromax C2AD689GAndromax i3AD682HAndromax i3sAD6B1HAndromax G2 HotAD9A1HAndromax G2AD683GAndromax IB26D2HAndromax LNew Andromax-iNew Andromax II46D1GAndromax REG680Andromax ZEG98Andromax U2Andromax $1SmartisanT1SM801T2SM901M1SM919M1LNut Pro 2sNut 3Nut 2Nut Pro 3JianGuo Pro 2Smartisan U3 ProU3 ProSmartyMini $1Maxi 10LSmooth MobileS2 AdvanceSmooth 5.5 LiteSmooth $1Smooth 6.26Smooth 6.26 $1Smooth Note 6.8SmotreshkaSobieTechSOBIETECH SLPSmart LED 3D ProjectorSodasoda FIRESoftbankSoho StyleSoloneE1457Earth Iron E1457W1450Wind Breeze W1450W1452Wind Air W1452SOLONE A47SL-A47Sun_S5501Sun S5501Elite L5501Sumo S5001SonimXP3400XP3XP3 PlusXP5sXP5XP6XP7XP8XP10Xperia X10 miniXperia X10 mini proXperia X8Xperia arcXperia arc SXperia neo VXperia neoXperia SolaXperia proXperia miniXperia activeXperia AceXperia rayXperia mini proXperia X10AspenXperia PLAYXperia Acro SLive with Walkmantxttxt proJalouNaiteCedarElmHazelAinoYariSatioVivazVivaz proZyloSpiroYendoW960Mix WalkmanXperia AXXperia Pro IXperia ProSO-04FXperia A2SO-02DXperia NXG2299Xperia R1 PlusSO-04GXperia A4Xperia 10Xperia Ace IIXperia Ace IIIXperia 10 IIXperia 10 IIIXperia 10 VXperia 10 VIXperia 10 III LiteXperia 10 IVXperia 10 PlusXperia 10 DualXperia 1Xperia 1 Professional EditionXperia 1 IIXperia 1 IIIXperia 1 IVXperia 1 VXperia 1 VIXperia 1 VIIXperia PXperia VXperia 5 DualXperia 5Xperia 5 IIXperia 5 VXperia 5 IIIXperia 5 IVXperia 8Xperia 8 LiteXperia SLXperia SXperia arcoXperia arco HDXperia arco SXperia ionXperia TXXperia T LTEXperia TXperia tipo dualXperia tipoXperia miroXperia UXperia ULXperia VLXperia JXperia goXperia EXperia E DualXperia E4Xperia E4GXperia MXperia M DualXperia LXperia CXperia SPXperia ZRXperia ZLXperia ZL2Xperia ZXperia Z UltraXperia E1Xperia E1 DualXperia E3Xperia E3 DualXperia E4g DualXperia L2Xperia L2 DualI3312Xperia L3Xperia L3 DualXperia L4Xperia M2 DualXperia M2Xperia M2 AquaXperia M4 AquaXperia M4 Aqua DualXperia M5Xperia M5 DualXperia C3 DualXperia C3Xperia C4Xperia C4 DualXperia C5 UltraXperia C5 Ultra DualXperia T3Xperia T2 UltraXperia T2 Ultra DualXperia Z1 CompactXperia Z1Xperia Z3 CompactXperia Z2 Tablet WifiXperia Z2 Tablet WiFiXperia Z2 TabletXperia Z2D6563Xperia Z2aXperia Z3Xperia Z3 DualXperia Z3+Xperia Z3vXperia Z4E6508Xperia Z4vXperia Z5 CompactXperia Z5Xperia Z5 DualXperia Z5 PremiumXperia Z5 Premium DualXperia XAXperia XA DualXperia XA UltraXperia XA Ultra DualXperia XZXperia XZ1Xperia XZ1 CompactXperia E5Xperia XA1Xperia XA1 PlusXperia XA1 Plus DualXperia XA1 UltraXperia XA2Xperia XA2 DualXperia XA2 PlusH4433Xperia XA2 UltraXperia XZsXperia XZ PremiumXperia XZ2H8266Xperia XZ2 DualSO-05KXperia XZ2 CompactXperia XZ2 Premium DualXperia XZ3Xperia L1Xperia L1 DualXperia AXperia GXXperia SXXperia XXperia X DualXperia X CompactXperia X PerformanceXperia X Performance DualXperia Tablet ZXperia Tablet Z4Xperia Tablet Z2Xperia Tablet Z3 CompactXperia Tablet SSmartWatch 3Bravia $1Bravia 4K (2015)Bravia VH1Walkman $1BDP7GBDP8G_AXBDP8G AXBDV7G_NVBDV7G NVBDP9G_AXDBDP9G AXDBl",
  chunk! "u-ray Player ($1)Blu-ray Playerarco IS11SXperia $1SoulLinkSoundmaxSoyesS10-HXS12 PROXS12 ProSpark NZSparxEdge 20 ProNeo $1iNeo 7 UltraNeo 8 LiteNeo $1 ProNeo $1 PlusUltra 11Ultra 8 ProUltra 8Sparx S7S7SpectralinkSpectrumVulcano 5.5\"Carbono 5.0\"Cuarzo 6.0\"Diamante 5.0\"Xlife $1Xlife M5Q+Xlife-M5 ProXlife M5 ProXlife-Victor5Xlife Victor 5Xlife-Proton5 ProXlife Proton 5 ProXlife-Electro55HDXlife Electro 55 HDMi-$1NMi-$1SpiderRed $1StarlightMilan_ProMilan ProGionee StarMy_Star_XMy Star XMy_star_18My Star 18RIO STARRio StarVENUS_PLUSVenus PlusC_Note_ProC Note ProC_NoteC NoteStar_Mix_2Star Mix 2I_STAR_PLUSI Star PlusI Star TwoI star oneI Star OneStarlight_ROME_XRome Xstar_plus_plusStar++StarmobilePlay GoAstraDiamond D1Play $1UP $1Engage 7 PlusStarwayAndromeda S$1StarwindSW-LED$1StilevsST65SMWOS4KStonexSTX $1StorexeZee'Tab$1STOREX LinkBoxLinkBoxStrawBerryStreamSystemB3 ProStyloSonicSTEP_UPStep UpSWIFT_4GSwift 4GINKOSI_PRO_4GInkosi Pro 4G721_PRO721 ProS9 TopazSV61 Vector PlusSM61 Magic PlusS61 JAZZS61 JazzS57_AZURES57 AzureS57_ALURES57 AlureS56 MISTS56 MistCPE91S54 ZenS55 NovaS40_VISTAS40 VistaS50_JADES50 JadeS50_BOLDS50 BoldIthembaARCTICArcticEBY33S53_STARKS53 StarkS40_LIFES40 LifeLIFE_2Life 2MOSCOWMoscowAPEX_5GApex 5GS49 PoiseS49 MonoS49 EcoS64_ALPHAS64 AlphaDQR22INKOSI_PROInkosi ProINKOSIInkosiINKULU_PROInkulu ProBOLD_PLUSBold PlusBraveRAINRainSATURNDVK82 MercuryTaris Tab $1DVK87Orion 8 TabSirius Plus Tab 10SuborSugarY$1 MaxF7 MiniSumvisionSunVanSunmaxModel_6_pro_4GModel 6 Pro 4GSunmiT2s LiteV2_PRO-STV2 Pro STSunnyPrime TV StickSunstechSunvellT95Z PlusMini M8SMXQ-H3Super GeneralSuperBOXS2 ProSuperSonicSuperTVBLACK XBlack XWHITE XWhite XSuperTabK7 KidsSupermaxMX11 primeMX11 PrimeSupraSupraimSurgeVolt $1SuzukiSumoPad $1ECOPAD7ECOPad 7SveonSwipeKonnect PowerKonnect PrimeKonnect Neo 4GSlate 2Strike 8SwisstoneSwiteleSmart $1SycoRS-$1SymphonyPD1 4GZVIIIInnova $1ZVIIINOVAiNovaSymphony Atom iiAtom IIRoar $1G10 Plushelio 30SymTab $1EASY_NAV_2Easy Nav 2SyroxSystem76Galago ProT-MobileTMRVL4GREVVL VREVVL 4 PlusREVVL 4TMRV065GREVVL 6x 5GTMRV06P5GREVVL 6x Pro 5GREVVL 5GREVVL 2 PLUSREVVL 2 PlusREVVL V+ 5GREVVLRYREVVL 2REVVL 6 5GREVVL 7 5GREVVL 6 Pro 5GREVVL 7 Pro 5GTelekom PulsT Phone 2 ProT Phone Pro ($1)T Phone ($1)T Phone ProT Phone $1T PhoneTMRV5GTBREVVL Tab 5GT TabletT96TADAAMTAG TechTAGPhone advancedPhone AdvancedTAUBETB TouchIgnis $1TCLGala G60SignaIon XStylus 5G201205304303403305305i306T431P405406T506F406iT506T 406s408501T509K505T509A505 S40 SE20L20L Plus Premium Edition20L Plus20E30E20Y20BC9A3XL5L9L9SL10L10+L10 LiteT ProPlex10 5G10 5G UWLXA2XX4 5G40 XE 5G50 XL 5G50 XE 5G10L10 SE20 SE20 A30 SE4188V30 LE30+T676H3030 Z30 V 5GT603DL30 T30 5G30 XE 5G30 XL20R 5G20S20 XE20 5G20 Pro 5G40R 5GION VNxtPaper 40NxtPaper 50 Pro 5GNxtPaper 50 5G9494GNxtPaper 12 Pro9199SNxtPaper 10 5G9466XNxtPaper 119317X1Smart Tab 7TKEE MaxTab 8\" 4G9132GTab 8\"9132STab Lite9295G10 TabMax 4G9296G10 TabMax WiFi9296Q10 TabMaxTab Pro 5GTab 10 5GTab 10sTab 10 WiFi (Gen 2)Tab 10 LTE (Gen 2)Tab 7 LiteTab 7L WiFiTab 10L WiFiTab 10 FHD 4GTab 10 HD 4G9137WTab 8 LE9166GTab 11 LTE8491XTab 10L9080GTab 10s 4GBeyond TV $1Smart TV (2020)smarttv_AFTMM-TCL-TS8011TS8011Fire TV 3-Series (2023)FHD Fire TV (2023)4K Fire TV (2023)4K Fire TV (2024)TD SystemsTD TechNAT-TN70N8 ProAVA-PA00TDT-MA01TECHNOSATX98miniX98 MiniTEENOTENPLUSTETCTIANYUTIMvisionTJCMetal Tablet 10TJDTOOGOTOPDONTOPSHOWSTORNADOTOSCIDOW109TOXTOX1TTECTTK-TVTTK Box 214SB-214TTfoneTT20TVCNuclear SX-SP5TWMAmazing $1SAmazing $1TWZ CorporationTabPlay $1OX_X1OX X1TYDTaiga SystemTaigaPhone 1TakaraTaliusTamboTanixTX$1sTX$1 MaxTX5 ProTX3 MiniTeachTouchTecToyON 128GBTechPadS813GTechPad10QC10QCTechPad_10xx10XX3Gx3G_163G-16XTAB $1M5 $1M6PlusM6 PlusNote 4 CamTech_Pad_Kaios_One_3GKaios One 3GTechmadeTechSmart $1TechniSatTechniPhone 5TechnopcUltraPad $1UltraPad UP10$1TechstormNitro ProTechwoodTeclastTbook $1T10T2098P10SP20HDP40HDP80TP50CaseP50 CaseM50 MiniT50MiniT50 MiniApex P10HDP10HD_LiteApex P10HD LiteP30SP50AiT60AiM20_4GM20 4GM89 ProTLA002M30 4GTLA016M16M40AirM40 AirM40SEM40 SET$1 MaxT60PlusT60 PlusM$1 PlusM40ST40 ProT40 AirTLA001T40T",
  chunk! "40 PlusT$1HDM$1HDT50Pro_WT50 ProP80hArtPadProArt Pad ProP80XP30AirP30 AirTPad 98 10.1\" 4GX98 PowerX98 Air IIIX98 Air IITecno MobilePhantom6-PlusPhantom 6 PlusPhantom6SPhantom 6SPhantom $1Phantom X2Phantom X2 ProPhantom XPhantom V FoldPhantom V Fold 2Phantom V FlipPhantom V2 FlipPhantom 9Phantom 8TECNO WX3LTEWX3 LTETECNO-W3W3F4 ProCamon iCamon iTwinCamon iAir 2+Camon iAce 2Camon i2XCamon i2Camon iClick 2Camon iSkyCamon iSky 2Camon iSky 3DroidPad 7CDroidPad 7DDroidPad 7C ProDroidPad 7FDroidPad 7GDroidPad 10A ProDroidPad 10D 4GDroidPad 8DR7+Camon i4Camon C9Camon 11Camon 11 ProCamon 12Camon 12 ProCamon 12 AirCamon 15Camon 15 AirCamon 15 PremierCamon 15 ProCamon 16Camon 16 PremierCamon 16 ProCamon 16 SCamon 16 SECamon 17Camon 17 ProCamon 17PCamon 18 PremierCamon 18Camon 18PCamon 19Camon 19 NeoCamon 19 ProCamon 19 Pro 5GCamon 20 ProCamon 20Camon 20 Pro 5GCamon 20s Pro 5GCamon 20 Premier 5GCamon 30Camon 30 Premier 5GCamon 30 5GCamon 30 Pro 5GCamon 30S ProCamon 30SCamon 40Camon 40 ProCamon 40 Premier 5GCamon CMCamon XCamon X ProCamon CXCamon CX AirPop 1Pop 2Pop 2 MiniPop 2FPop 2SPop 2S ProPop 2 PlusPop 2 PowerPop 2X PlusPop 2X AirPop 2XPop 2 AirPop 3Pop 3 PlusPop 4Pop 4 ProPop 4 AirPop 4 LTEPop 5Pop 5XPop 5 GoPop 5CPop 5 LTEPop 5 ProPop 5PPop 6Pop 6 GoPop 6 ProPop 7Pop 7 ProPop 8Pop 9Pop 9 5GSA1s ProSpark Go (2022)Spark Go (2023)Spark Go (2024)Spark 20Spark 20CSpark 20 ProSpark 20 Pro 5GSpark 20 Pro+Spark 2 YouthSpark 3Spark 3 ProSpark 4Spark 4 AirSpark 4 LiteSpark 5 AirSpark 5Spark 5 ProSpark 6Spark 6 AirSpark 6 GoSpark 7Spark 7 ProSpark 7PSpark 7TSpark 8Spark 8CSpark 8PSpark 8TSpark 8 ProSpark 9 ProSpark 9Spark 9TSpark 10CSpark 10Spark 10 5GSpark 10 ProSpark GoSpark Go (2020)Spark Go 1SSpark 30CSpark 30Spark 30 ProSpark AirSpark PlusSpark YouthSpark CMDroidPad $1Pouvoir 2 ProPouvoir 2Pouvoir 1Pouvoir 3Pouvoir 3 AirPouvoir 3 PlusPouvoir 4Pouvoir 4 ProBoom J8R7 4GW3 ProWX3 ProTECNO S9PovaPova NeoPova Neo 2Pova Neo 3Pova Neo 5GPova 2Pova 3Pova 5GPova 4Pova 4 ProPova 5Pova 5 Pro 5GPova 6 Pro 5GPova 6Pova 6 NeoPova 6 Neo 5GL8 PlusMegaPad 11TeknosaPreo Teknosa P1Preo P1Preo P$1Tele2$1 1.1Midi 2.0TelefunkenTEL-1013GIQAGiqa 10.1\" 3GTEL-$1Foxtrot2Foxtrot 2LTE_LIMALima LTEDiamond_LTEDiamond LTELTE MikeMike LTETelegoTELEGO-W503W503Telego_JOY2Joy 2Wise2_plusWise 2 PlusTelenorTeliaNordicTV Box NordicTelia boxTelitTelkomTellyTY55_1TY55-1TelmaTelma_F1_Max_4GF1 Max 4GF1 Plus 4GF1x4GF1x 4GFeel_PlusFeelWi-Kif+ 3GWi-Kif+ 4GTelma_Wikif_Max_4GWi-Kif MaxTeloSystemsTELO_M5TelpoTPS$1TemigereevTG $1TeracubeTerraPad $1$2TescoHudl $1Op3n DottTetratabCasebook 3ThLKnight 2Box 1 ProBox 1ThomsonQM734-2QM734-8GQM735-8GQM736-8G (HD)3G 8950SPTEO10BK16TEO10BK16TEOX10-MT8SL128LTETEOX10TEO$1HERO10RKHero 10RKTlink$1Origin 679 ProOrigin 679Every$1Delight TH201Friendly_TH101Friendly TH101Serea 500ThurayaTiPhoneTiVoSTREAM 4KStream 4KTCD8F6000$2TibutaMasterPad $1TigersTIS001 S$1TIS001 T2TIS001$1Time2$1 10.1\"TimoviTMOVI_YEAH_BEATYeah BeatYeahLIVEYeah LIVEInfinit X CamInfinit MX ProInfinit MXInfinit 2Infinit Lite$1Vision_PROVision ProVISION ULTRAVision UltraEpixYeah_GoYeah GoInsignia $1Insignia Delta $1TinaiTinmoTivaxTolinoTolino Tab $1ToneTookyTOOKYA9 PlusTop HouseCoto W418COTO_T117Coto T117X1013COTO_T40017T40017TopDeviceTDT4518_4GTDT4541_4GTDT3778_Wi_ETDT3887_Wi_DTDT4528_4G_ETopelotekKIDS$1 Kids TabletTopluxTopsionTP01TorexTOREX831BPad 831BDROIDZ $1DROIDZ Sky 3gDROIDZ Sky 3GDROIDZ ATOM SDROIDZ Atom SEGO $1EGO Phab 3GEGO Note 4GToshibaT-01CRegza T-01CT-01DRegza T-01DT-02DRegza T-02DIS04Regza IS04IS11TRegza IS11TAT7-CAT1S0Regza AT1S0AT300SERegza AT300SEAT500aRegza AT500aRegza AT$1Excite AT10$1-AAT10-AExcite AT10-ASATELLITE L50-CSatellite L50CSatellite $132WF2F53DB65UF3D63DAAFTKMST1243LF711U20AFTDCT314K UHD (2020)AFTBAMR31143LF421U19V35 Series (2021)TSBNetTV/Touch PlusTouchmateTM-MID870SBSuperMan 8\"TM-MID1050WKDMega Matrix 10.1\" 3GTranspeedTR99 Mini PlusTrecfone17 Pro MaxTrekStorSurfTab 10.1ST13416-1SurfTab Theatre 13.4\"Surftab theatre S11SurfTab Theatre S11PrimeTab P10SurfTab $1TFMTKAW01232SurfTab L15SurfTab Xintron I 10.1\"TreviTAB $1 3G V8TAB 9 3G V8TAB 9 3GTAB 10 3G V",
  chunk! "16MINITAB 3GVMINITAB 3G VPhablet 4 CPhablet 4 SPhablet 4.5QPhablet 5 SPhablet 5.3 QPhablet 5.5 Q REVERSEPhablet 6 STriaPlayTricolorTridentTrifonePassion-1SPassion 1SPassion-PlusPassion PlusPassion_ProPassion ProTrimbleMobileMapperMobileMapper 60TrioV51DTTronsmartTrueAlpha 5GSmart Max 4.0 PlusSmart Champ 4.0Smart 4G Gen C $1\"Smart 4G Speedy 5.0 PlusSMART 4G Adventure ProSmart 4G Adventure ProSMART 4G AdventureSmart 4G AdventureSmart 4G Max 5.5Smart 4G Speedy 5Smart 4G ChampionSmart 4G P1 PrimeSmart 4G P1Smart 4G M1 PlusSMART 4G M1Smart 4G M1SMART TAB 4G M1Smart Tab 4G M1SMART TAB 4G e-Biz PROSmart Tab 4G e-Biz ProSMART TAB 4G e-BizSmart Tab 4G e-BizTRUE BEYOND TAB 3GBeyond Tab 3GSmart Tab 7.0 QuadCoreHPH07ID TV HPH07True SlimTuCELTunisie TelecomStarTrail by TTX5 SpaceX5 HeroX RayX5 BlackX5 MaxX6 ZMonsterPad 7\"Turbo-XTurbox_S3E3MercuryTurbo-X_epsilonEpsilonTurbo-X lamdaLamdaPi 4GTURBOX_I4GI 4GIceTurbo-X Coral IICoral IIAqua IIHive V 3GHive VIFire II WiFiBreeze IVRubik II 7\"Rubik II 10.1\"Rubik III 10.1\"Rainbow III 3GCallTab II 10.1\"Calltab2GB10CallTab 10.1\"Calltab7inchCallTab 7\"QUAD-CORE A33 inetTwisterTurboKidsMonsterpad 3GMonsterPad 3G3G NewTMNTTurboPadTurkcellTurbo T50T$10T21 Maxi Plus 5T21 Maxi Pro 5TuvioTwinMOSTymesT\xc3\xbcrk TelekomTurk TelekomTT175T\xc3\xbcrksatU-MagicEnjoy 30e 5GEnjoy 50 PlusU.S. CellularUSCC-USCC-E6762Kyocera DuraForceUDTV348 DVBTV348 ISDBTV358 DVBUGINEUMIDIGIMT01A11 TabMT07A13 TabMT06G3 TabG1 TabMT11G2 TabMT16G5 TabPA2310GBBA15TA11 Pro MaxMP17MP29C1 PlusMP07MP20MP21MP09MP19F3 Pro 5GMP13F3 5GMP18G1 MaxA11SA13SA15CG5 MechaPG2309GBAG6 5GG5AG3 MaxG3 PlusUMI TOUCH XTouch XUMI TOUCHPlus EOne ProBISON GTBison GTPR4JBX20ABison X20Bison X10GBison N1Bison X10Bison GT2 5GBison GT2Bison 2BISON ProBison ProBISONBisonhammer_SHammer SDiamond_XDiamond XC NOTE 2C Note 2SuperZ ProS2 LITES2 LiteS2_PROPower 3Power 5SA13 Pro 5GA13 Pro Max 5GPower 7 MaxUNIWAUNNOUOOGOUUTOKDorel 3SDorel $1Hello 7QUTStarcomUTimeUZ MobileUzbekistanUgoosUT3 PlusTOX3_PlusTOX3 PlusUhansUhappyUP$1UP350UP580U580UlefoneBe Touch$1Be Pure LiteBe PureBe One LiteBe OneBe XBe ProU$1 ProP6000_PlusParis_liteParis LiteParis_XParis XRugKing 4 ProRugKingParisTiger_liteTiger LitePower Armor $1 ProPower Armor X11 ProPower Armor $1Armor 6SArmor 20WTArmor $1EArmor X$1 ProArmor X$1Armor $1SArmor XArmor 3WArmor 3WTArmor $1 5GArmor $1 ProArmor Pad$1Armor$1Gemini ProViennaNote $1PTab A11 ProUmaxVisionBook $1VisionBook $1Qa 3GVisionBook 10Q LTEVisionBook $1C LTE10L-PLUSVisionBook 10L PlusVisionBook 10Q ProVisionBook 10A LTEVisionBook 10Q PlusVisionBook P50 Plus LTEUmiioP60_Ultra_5GP60 Ultra 5GUnblock TechS900PROBTS900 Pro BTS900_ProS900 ProUnidenUnihertzJelly 2Jelly 2EJelly StarJelly MaxTitan_pocketTitan PocketTitan SlimTicktock-STicktock SUNIA62_S01Ticktock ETicktockTANK 01Tank 01TANK 2 PROTank 2 ProOB-A98Tank 4 ProTANK MINI 1Tank Mini 18849 Tank $1Tank Pad $1Unikalne SmartphonesBASE $1UnimaxUMX U$1UniqcellA4UniscopeUnistrongUnitechEA500 PlusUnited GroupSDOTT0202EON Smart Box (2019-2020)SDSTB02EON Smart Box (2023)UnknownWeb TVM10 UltraM8S+ 4KH10 Playi12 Pro MaxAudi KSWayDroid x86_64 DeviceUnnectoU513Drone XTU5151U611Quattro XU613Quattro SU615Quattro MU616U710Quattro U710U720Quattro ZU-830RushU903U905Air 5.5Unnion TechnologiesSP7UnoPhonePremier5MaxPremier 5 MaxUnonuUnowhyQOOQ V$1QOOQUrovoV-GenV-HOMEV-HOPEVAIOVPA051Phone AVALEV$1E LTEVALEMPHANTOM_ZPhantom ZVALTECHTAB7Q804VALTAB-7Q804VALVANWINVASOUNVAVAVCCactus-ProCactus Pro$1 IIVDVDVEONVETASVGO TELVenture V$1New $1Flex 2i_Smarti SmartV TAB 2V Tab 2VIDAVIIPOOvi20220819R6VIKUSHAVILLAONV6751LV30 RSV651WV40V651LV40sV501WV20 SEVIMOQA49 PlayVIVIBrightVIVIMAGEVIWALIGHT MINILight MiniLIGHT PLUSLight PlusLIGHT ONELight OneLight A5 PlusPOWER P1Power P1VK MobileVK$1VKworldT5 SEVNPT TechnologyVNT-Tab8VOCALVOGAVOGA 55909VVOIXVOLIAVOLKANOVUCATIMESVucaPadVVETIMEV1VankyoMatrixPad S$1MatrixPad $1QTab $1S10_ROWMatrixPad S10VargoVastkingKingPad $1 $2VeidooVEIDOOVektaVensoIsprit U50VenstarVenturerChallenger Pro 10.1\"Mariner 10 ProVCT$1VericoUni Pad $1Uni Pad PM-$1VerizonEllipsis 10QTASUN1Ellipsis 8 HDQTASUN2Ellipsis 8 HD 4G LTEQTAQZ3KIDEllipsis ",
  chunk! "Kids LTEQTAQZ3Ellipsis 8Ellipsis 7WTVIS01Visible MidnightVerneeApollo LiteApollo XApolloMars ProThor EThor PlusVernee_M5M7_EEAX2_euroVerssedMotion E1.1VersusVertexLuck L $1 $2GImpress MaxImpress EclipsePro P$1 4GImpress Luck 4G NFCImpress Lion $1$1 $2GTab X$1Tab $1G $2.$3\"VertuAster$1VTL-202402Quantum FlipVTL-202101iVertu 5GVTL-202201Metavertu 5GVTL-202301Metavertu 2 5GConstellation XVerykoolverykoolLotusLotus JrLotus PlusSpark IISpark LTELotus IIMaverick ProEclipsePhantomHelix IIAlpha ProMaverick IIMaverick IIIMaverick III JrMaverick JrMaverick LTESpearSpear JrApollo QuattroSol Quatro JrCyprus ProCyprus LTELeo 3GLeo IVLeo VDoradoOrion ProCosmo JrCosmoRoyale QuattroKolorPad LTEKolorPad IIKolorPad IVVestaVESTA32LD86SmartTV 32LD86SVESTA_SMART_TVSmartTVVestelVT97PROVTab 9.7 ProVP74VTab Lite IIVTAB10VTab 10V_TAB_7_ECO_IIIVTab 7 Eco 3V_TAB_7_LITE_IIIVTab 7 Lite 3VTab $1V3_5580_DualVenus V3 5580 DualVSP145MVenus 4.5VSP250GVenus 5.0VVSP250SVenus 5.0XVSP355GVenus 5.5VVSP355SVenus 5.5XVenus V$1$2Venus Z$1Venus E2 Plus DualVenus E2 PlusVenus E$1Vestel_5000_Dual5000 DualVestel_5000_2gb5000 2GB5530 DualVexiaVexia FCS E2 CLMElegance E2 CLMViBoxVicturioTouchPad $1VideoconVideocon_V1585V1585VT75CKryton 3KrytonKryton 22 PlusDelite 11Delite 21Metal Pro 2Metal Pro 1Starr 100Ultra 50Infinium Z45 $1Infinium Z45Q StarInfinium Z50 NovaViendoViewSonicV500A8 PlusViewPhone $1vsi7q_1ViewPad i7QViewPad $1ViewBoard IFP$150-3 $1\" 4KVinaboxX$1 ($2)VingaVMP-021-82021VMP-025-324025VMP-015-162015VMP-041-162041VMP-045-664045VMP-011-81011VMP-046-664046023VinsocViosVMP0617VI65PB1401NA65PB1VTAB7ViproPro 2XEdge 2VirzoV$1cVision TechnologyXS100 MiniVision TouchVisionTouchLifeLifeInspireVisual LandPrestige Prime 10$1Elite10QHProPrestige Elite 10QH ProPrestige Elite $1VitelcomVitumiKids TV46410B01 10.1\"VityazViumee$1 Elite$1 PlayEV5 XEV7VivaxFly 5 LiteFly 4Smart Fly V500Point X$1Fun S500Fun S$1Fly $1Fly V$1Smart Point X5010TPC-$1 $2GVivoPA2170PA2373PA2473PA2455Pad 3PA2353PA2511Pad SEiPA2375iQOO PadiPA2451iQOO Pad AiriPA2475iQOO Pad2 ProiPA2453iQOO Pad2PA2573Pad 5 ProX NoteV2256AX FlipV2178AX FoldV2266AX Fold 2X Fold 3V2330X Fold 3 ProV2229AX Fold+V2318AV2506AY500V2516AY500 ProV2506Y400 5GV2455Y400V2439Y400 Pro 5GX100 ProX100 UltraX100V2502AX300 ProX200 UltraV2503X200 FEX200 ProV2419AX200 Pro MiniX200V2458AX200sV2324HAX100s ProV2359AX100sY200 5GV2361GAY200 GTV2354AY200iY200e 5GV2353DAY200t 5GiQOOiQOO 3iQOO 9iQOO 9 SEiQOO 9 ProiQOO 9TV2218AiQOO 10 ProV2217AiQOO 10iQOO 11V2304AiQOO 11SV2254AiQOO 11 ProiQOO 12V2329AiQOO 12 ProiQOO 13V2505AiQOO 15iQOO 3 5GiQOO U5V2180GAiQOO U5xiQOO 7 LegendiQOO 7 IndiaiQOO 7iQOO Neo 10I2221iQOO Neo 10RV2425Y200V2426AiQOO Neo 10 ProV2463AiQOO Neo 10 Pro+V2196AiQOO Neo 6iQOO Neo 7V2232AiQOO Neo 7 Racing EditionI2217iQOO Neo 7 ProV2238AiQOO Neo 7 SEV2302AiQOO Neo 8 ProiQOO Neo 9 ProV2338AiQOO Neo 9V2339FAiQOO Neo 9S ProV2403AiQOO Neo 9S Pro+V2157AiQOO Neo 5 SEiQOO Neo 5SiQOO 7 5GiQOO ProiQOO Pro 5GiQOO NeoiQOO Neo 3iQOO Neo 855V2301AiQOO Neo 8iQOO Neo 5 LiteiQOO Neo 5iQOO Neo 6 SEiQOO Z1iQOO Z1xiQOO Z1x 5GV2445AiQOO Z10xI2404iQOO Z10x 5GiQOO Z10R 5GI2407iQOO Z10 5GV2452AiQOO Z10 TurboV2507AiQOO Z10 Turbo+I2502iQOO Z10 LiteI2409iQOO Z10 Lite 5GV2453AiQOO Z10 Turbo ProiQOO Z3Z5x 712iQOO Z5xV2131AiQOO Z5x 5GiQOO Z5 5GiQOO Z5iQOO Z6V2164KAiQOO Z6xiQOO Z6 ProiQOO Z6 LiteV2270AiQOO Z7V2230EAiQOO Z7iiQOO Z7 5GiQOO Z7 Pro 5GV2272AiQOO Z7xiQOO Z7x 5GiQOO Z7s 5GV2314AiQOO Z8V2312AiQOO Z8xV2361AiQOO Z9iQOO Z9 5GV2352GAiQOO Z9 Turbo EnduranceV2352AiQOO Z9 TurboV2417AiQOO Z9 Turbo+iQOO Z9x 5GI2403iQOO Z9s 5GI2305iQOO Z9s Pro 5GI2306iQOO Z9 Lite 5GiQOO U1iQOO U1xiQOO U3V2143AiQOO U3xiQOO U3x 5GiQOO 5 ProiQOO 5iQOO 8 ProiQOO 8V30eV40 SE 5GV21V21 5GV21eV21e 5GV20 (2021)U20U10NexNex 3Nex 3 5GNex 3SNex SNex 3S 5GNex ANex Dual DisplayV2334AS18eV2312BAY100i 5GT1 5GV2151T1 Pro 5GV2153T1 4GV2143T1xV2188AT2xT2x 5GV2222T2 5GV2321T2 Pro 5GV2240V2426T3 UltraV2404T3 Pro 5GV2334T3 5GT3 Lite 5GT3x 5GV2437T4x 5GV2518T4R 5GV2510T4 ProV2502T4 5GV2509T4 Lite 5GV1962BAG1 5GS15V2344AS18 ProV2362AS19 ProV2323AS18V2364AS19V2121AV2429AV2430AS20 ProV2464AV2465AS30 Pro MiniY",
  chunk! "04V2531Y04sV2130AS10e 5GV23eV2126V23e 5GV2130V23 5GV2132AX70tV2132V23 Pro 5GV2202V25 SEV25eV2230AY35 5GV2357EAY37mY39 5GV2230V27 ProV2237V27eV27V2250V29V2251V29 ProV2303V29eV2317AY12 (2023)V2317V29e 5GV2315Y28 5GV2351Y28s 5GV2407Y28e 5GY28Y29V2420Y29 5GV2527Y29t 5GV2446Y29s 5GV29 Lite 5GV2342V30 LiteV2327AY36tY38 5GV30 Lite 5GY100V40 LiteV2348V2347V40eV50V2428V50eV50 LiteV50 Lite 5GV2319V2513V60eV2511V2530V60 LiteV2529V60 Lite 5GV2207AS15 ProS6 5GS12 5GV2190AS15eV2244AS16V2245AS16 ProV2239AS16eV2283AV2282AS17tV2285AS17eV2284AS17 ProS7eS7tS7t 5GS9 (2021)S9eU3XV11 ProV11iV15V15 ProV17 ProV17 NeoV17V19V5V5 LiteV5 PlusV5sV77eV7 PlusV9V9 YouthV9 ProV3 MaxX9s PlusX9sX90X90 ProV2241HAX90sX5 ProX20 Plus UDX20 PlusX21iX21 UDX21X21SX23X27X27 ProX30X30 ProX50eX50 LiteX50 Pro PlusX60tX60 Pro PlusX70 ProX70 Pro+X70 5GX80V2242AV2227AX90 Pro+X80 ProX80 Lite 5GX Play 6Y1sY17Y17sY18Y18sV2350Y18eV2414Y18iV2408Y18tY16V2140AY10V2168AY10 T1V2313AY100 5GV2168V2118Y01Y01AY02sY02tY02Y02AY03Y03tY12V2163AY12 ProY12aY12iY15V2134Y15aY15sY15cY19V2432Y19 5GY19sY19s ProV2431Y19eY20iY20Y22V2249Y27V2322Y27sV2302Y27 5GY22sY20 (2021)Y20AY20GY20TY20G (2021)Y11sY20sV2279AY100iV2278AY78V2271AY78+Y72 5GV2009AY74s 5GV2102AY72T 5GV2117Y75V2219AY77V2169Y77 5GV2110Y21sV2520Y21dY21GY21Y21aY21eY21tY3V2044Y3sV1930AY3 StandardV2445EAY300+V2435AY300V2416Y300 5GV2410AY300 Pro 5GV2456AY300 Pro+V2444AY300iV2422Y300 Plus 5GY30Y30 5GY30 (2021)Y30gY31V2534Y31 Pro 5GY31sV2521Y31 5GV2158AV2158V25 ProV2180AY32tY33Y33sY33tY33s (2022)Y35Y36Y36 5GY37 5GY5sY50tY51Y51 PKY51 (2015)Y51sY51AY52sY52Y53iY53Y53sV2069AY53s T1Y55lY55sY55s (2021)V2164PAY73t 5GV2127Y55 5GV2154Y55V2045AY54sY56 5GV2355Y58 5GY65Y69Y70sY71Y71tY71iY73Y73 (2021)Y73sY76 5GY76sY7sY81Y81iY81sY83Y83 ProY89Y90Y91Y91iY9sY12sY12s (2021)Y93Y93sY95Y97Z1Z1 ProZ1iZ1xZ3xZ5xZ5x (2020)Y75 5GY75sX ShotX6S PlusX6SY66iX Play $1SX Play $1VizioVAP430ISV-B11D50u-D1VizmoTAB $1 7\"TAB $1 10.1\"VodacomKicka 5 Plus 4GVodafoneVFD 100Smart MiniVodafone Pro 4GPro 4GVFD720Smart N9VF685Smart KickaVF695Smart First 6VFD 200Smart First 7VFD 300Smart Mini 7VFD 301Smart Mini 7 DualSmart Turbo 7Smart E8Smart E9VFD 822Smart X9VFD 600Smart Prime 7VFD320Smart C9VFD 820VFD 610Smart N8VFD 630Smart N10VFD 620Smart N9 LiteSmart ultra 6Smart Ultra 6VFD 700Smart Ultra 7VFD 710Smart V8VFD 720VFD 730Smart V10SmartV22Smart V22VFD 900Smart Platinum 7Smart 4 MiniSmart 4GSmart 4 TurboSmart 4 PowerVodafoneSmartChatSmart ChatVF-696Smart Grand 6VF-795Smart Speed 6VF-895NSmart Prime 6VF-1397Tab Speed 6VF-1497Tab Prime 6VFD 1100Tab Mini 7VFD 1300Smart Tab N8VFD 1400Tab Prime 7Smart Tab 3GSmart Tab 4GSmart Tab 4Smart Tab 10Smart Tab II 7Smart Tab II 10Smart Tab III 7Smart Tab III 10GigaTVGiga TVVFD $1VollaVolla PhoneVoninoZun $1Xylo $1Volt S A7Volt SVolt XGyga QSGyga XSGyga $1Jax QSJax S A7Jax $1Jax MiniiMart_ProIMart ProPluri M$1 (2020)Pluri $17Pluri $18Druid $1Magnet M10 (2020)Magnet $1 ProMagnet $1Navo $1Orin_QSOrin QSSirius_QSSirius QSSpirit QSXavy $1MusicPAD $1VontarDQ08HK1 MaxKK MaxHK1 Mini PlusHK1 MiniHK1 PlusHK1 ProVoragoCELL-500VorcomSXPRO_classicSX Pro ClassicSXProSX ProS7-classicS7 ClassicQuartzLITEQuartz LiteQuartzPROQuartz ProULTRAPADUltra PadVorkeVormorZG65 ProHD65 ChoiceHD65 UltraHD65 SelectHD65 PlusT10M_ProT10M ProZTAB10Z Tab 10BTAB10B Tab 10VotoVoxtelVoyoi8 MaxVsmartJoy $1 PlusJoy $1Active 1 PlusBee 3Bee LiteStar $1Active $1HobsonAris ProArisVsunIllusionMars TouchMERCURY ToughMercury TouchMARS NOTEMars NoteMARS NOCAMMars NocamAqua ToughSaturn SelfieVue MicroTempo S13Tempo S11V\xc3\xb6lfenNexo TAB7W&OWO Pad MaxWO Pad $1WO$1 UltraWO Pad ProWO$1X9 CALL2X9 Call 2WAFWANSAWEWIWADream Player TVWOZIFANWSWainyokWalkerWaltonPrimo Walpad $1Primo S6 infinityPrimo S6 InfinityPrimo S8 miniPrimo S8 MiniPrimo H8 ProPrimo $1 MiniPrimo H8 TurboRX7 MiniOrbit Y$1Orbit M$1XANON X20Xanon X20XANON X90Xanon X90NEXG N71 PlusNexg N71 PlusNexg N$1WALTON GSMART 2KTVPrimo $1 PlusWaltterNeo 10.1\"WeChipWebfleetPro 8475WecoolWeelikeitWeiimi20200808A1X16 ProWeimeiweplus_3WePlus 3WEIMEI_NEON2Neon 2WellcoMWestern DigitalStreamer2010Streamer (2010)WestonWestpointWexlerZEN 4.5ZEN 4.7ZEN 5ZEN 5 Pl",
  chunk! "usTAB 10QTAB 10iQ 3GWhoopWieppoWigorWikoSHR-AN00Hi Enjoy 80 Pro 5GJLG-AN00Hi Enjoy 80S 5GGAR-AN60Hi Enjoy 60s 5GGAR-AN00Hi Enjoy 60 5GBAL-AN20Hi Enjoy 70 Pro 5GAix-AN00MKY-AN20Hi Enjoy 70M 5GT3VoixPower U10Power U20Power U30Cink Peax 2Cink$1Cink $1Highway PureHighway StarHighway$1Highway $1IggyFeverStairwayRidge Fab 4GRidge 4GRidgeRAINBOW LITERainbow LiteRainbow $1DarksideDarkmoonDarkfullDarknightSublimOzzyBarryBirdyBloom 2BloomJimmyJERRY MAXJerry MaxW_K300Jerry 3W-K420-TVMJerry 4Jerry 2JerryGetawayKennyGoaFreddyKiteW_K400Lenny 5Life 3Lenny 3 MaxLenny 4 PlusLenny $1LennySlide 2SlideSunset 2SunsetSunny 3 MiniSunny 3W-K200Sunny 3 PlusSunny 2 PlusSunny 2W-K360-TVSunny 4 PlusW-K130-TMVSunny 4W-K380-TVMSunny 5Sunny 5 LiteTommy 3Tommy 2 PlusTommy 2TommyWaxHarryW-V600Harry 2WIM LiteWIMPulp Fab 4GPulp FabPulp 4GPulpRobby$1U Pulse LiteU PulseU Feel LiteU Feel PrimeU FeelV3991ANU Feel FabView 2 GoView 2 PlusView XLView PrimeWC300View Litev12fnliteViewW_C800W_C860View 2 ProW_P200View GoView 3 LiteW-V851W-V850-EEAView 5 PlusW-K420-EEAW-K211W-K521Y60Y61Y62 PlusW-K610Y62Y80W-V680W-K630Y82View 3 ProView 4 LiteW-V745-TVMRideRide 2Ride 3K-KoolWildRedWileyfoxSpark +Wileyfox Spark XSpark XSwift 2 $1Swift 2cracklingWindsNOTE GRACE VNote Grace VWinkSWITRON-i12ASwitron i12AWinkBox MiniBox MiniWinmaxPolarH4Polar H4Tiger_X12Tiger X12WinnovoT10 LTEH$1WinstarWintouchQ93SWiseasyWizarPosWolderWiam #65 LiteWiam #$1miSmart $1miTab PRO 10 PLUSmiTab $1WolfgangAT-AS$1WolkiWS054W5.5 LiteW55SEW5.5 SEWS626W6.26W626 LITEW6.26 LiteWS5SEW5 SEWS067W6 ProWonuWooSP5026i-ScorpioScorpioSP5040-CasiopeaCasiopea IIWoxterNimbus $1i-101Zielo $1X-AGEG1 LiteX-BOX-MobileX63ProX63 ProXM-SW1Smart WiFiX-TIGIX-TIGI_JOY10_PROJoy 10 ProX-TIGI_JOY10Joy 10Joy 7 TVJoy $1 MateHope $1 $2Hope 8 LTEHope 10 ProHope 10 PlusX-TIGI_JOY7_MAXJoy 7 MaxJOY10_LTEJoy 10 LTEBison1Bison 1V28 LTEV18 pro_AV18 ProA1 PlusPhoto P11Photo_P15_LitePhoto P15 LiteSharp $1X-ViewZEN U5+AMBER_KIDSAmber KidsProton_Amber_HDProton Amber HDProton_NeonProton NeonPROTON_JADE_2_PROProton Jade 2 ProX-ViewTabletTitaniumGTColorsGOTitanium GT Colors GOX88X88pro10Pro 10X96Air $1X96Max_Plus_UltraMax Plus UltraMax Plus $1X96Max_PlusMax PlusX96_X6_IX6iX96MATE_PLUSMate PlusX96MINI_11Mini 11X96QXBXCOMiSmartXElectronXGEMXGIMIXK03HHorizon ProMoGo ProXPPenMagic Drawing PadXREALX4000Beam ProXY AutoXcellXcruiserXgodyXGT_EEAXGTN01ProN01 ProN02XiaoduXiaolajiaoRed Pepper Note 3Red Pepper PlusE SportsRed Pepper 8X ProRed Pepper 9XMate 30 MaxXiaomiBlack SharkAWM-A0Black Shark HeloBlack Shark 2Black Shark 2 ProBlack Shark 3Black Shark 4 ProBlack Shark 3 5GBlack Shark 3 Pro 5GBlack Shark 3 ProBlack Shark 4Black Shark 5Black Shark 5 ProBlack Shark $1Hongmi 4GHongmi 1SHongmiHongmi 2 3GHongmi 2Hongmi 2 4GHongmi $1Mi PlayMi 9 SEMi 9 LiteMi 9Mi CC 9eMI CC9 Pro Premium EditionMi CC 9 Pro Premium EditionMi CC 9 ProMi CC 9Mi 10Mi 10 ProMi 1111i HyperCharge 5GMi 11XMi 11X ProMi 10T Pro 5GMi 10T Lite 5GMi 10T 5GMi 10 Ultra 5GMi 10SMi 10 Lite 5GMi 10iMi 11iMi 11T ProMi 11TMi 11 Lite 5G NEMi 11 Lite 5GMi 11 LiteMi 11 UltraMi 11 ProRedmi Note 12 Pro 4G12T12 Pro Dimensity12T Pro12S Pro12S12S Ultra12 Lite12X13 Lite13 Ultra13T Pro1414 UltraXiaomi 14 Pro Ti14 Pro Ti14 CiviMix Flip14T Pro14T1525042PN24C15S Pro2506BPN68G15T Pro25069PTEBG15 Ultra25098PN5AC17 Pro25113PN0EC172509FPN0BCMi 8 LiteMi 8 Explorer EditionMi 8 $1Mi 8Mi 9T ProMi 9 Pro 5GMi 9 Transparent EditionMi $1 LiteMi 5s PlusMi 5XMi 3Mi $1CMi 4WMi 4iMi 4 LTEMi Max3ProMi Max 3 ProMi Max $1Mi MaxMi Max 2Mi A2 LiteMi A3Mi Mix 4Mi Mix 2Mi Mix 2SMi Mix 3 5GMi Mix $1Mi Mix 2S ArtMi MixMix Fold 4Mi Note 3Pocophone F1Redmi GoRedmi Turbo 324129RT7CCRedmi Turbo 425053RT47CRedmi Turbo 4 ProRedmi 5 PlusRedmi 5Redmi 2Redmi 2 ProRedmi 2ARedmi 1SRedmi 1Redmi 8ARedmi 8Redmi 8A $1Redmi 10XRedmi 10CRedmi 13CRedmi 132406ERN9CIRedmi 13 5GRedmi 13C 5GRedmi 14C2411DRN47IRedmi 14C 5G2411DRN47CRedmi 14R 5GRedmi 15CRedmi 152508CRN2BERedmi 15C 5GRedmi 9Redmi 9 PrimeRedmi 9 PowerRedmi 9ARedmi 9iRedmi 9i SportRedmi 9CRedmi 9ATRedmi 9TRedmi 9T NFCRedmi 9C NFCRedmi 10 5GRedmi 10Redmi 10 PowerRedmi 10ARedmi 10 (2022)Redmi 10 P",
  chunk! "rime+ 5GRedmi 10 Prime (2022)Redmi 10 PrimeRedmi 10X Pro22120RN86CRedmi 11ARedmi 12CRedmi 12Redmi 12 5GRedmi 11 PrimeRedmi K20 Pro Premium EditionRedmi K20 ProM1903F10IRedmi K20Redmi K30 Pro Zoom EditionRedmi K30 Pro ZoomRedmi K30S UltraRedmi K$1 ProRedmi K30 5GRedmi K30 4GRedmi K30i 5GRedmi K40Redmi K40SRedmi K40 GamingRedmi K40 Pro+Redmi K40 ProRedmi K30 Ultra22041211ACRedmi K50Redmi K50 Mercedes-AMG F1 Team22041216IRedmi K50i21121210CRedmi K50GRedmi K50 ProRedmi K50 Ultra22122RK93CRedmi K60ERedmi K60 ProRedmi K60 Ultra23117RK66CRedmi K70 Pro2311DRK48CRedmi K70E23113RKC6CRedmi K702407FRK8ECRedmi K70 UltraRedmi K80 Pro25060RK16CRedmi K80 UltraRedmi Y1 LiteRedmi Y3Redmi 6 Pro ExtremeXiaomi_M1805D1STRedmi 6 ProRedmi 7Redmi 7ARedmi $1 ProRedmi 4 PrimeRedmi A1+Redmi A1Redmi A2Redmi A2+Redmi 3Redmi A3x2312CRNCCLRedmi A32409BRN2CGRedmi A3 Pro24116RNC1IRedmi A4 5GRedmi A5QIN3ULTRAQin 3 UltraQin 2 ProQin 2CC11CiviCivi 223046PNC9CCivi 324053PY09CCivi 4 Pro25067PYE3CCivi 5 ProCivi 1SMi Pad 5 ProMi Pad 5Mi Pad 5 Pro 5GPad 6 ProPad 7 ProPad 7Pad 6Pad 6 Max 14Pad 6S Pro 12.4\"Mi Pad 4 PlusMi Pad 4 WiFiMi Pad 4Mi Pad 3Mi Pad 2Mi PadRedmi PadRedmi Pad ProRedmi Pad SE 8.7\"Redmi Pad SERedmi Pad Pro 5GRedmi Pad 2 4GRedmi Pad 225099RP13GRedmi Pad 2 Pro2509BRP2DGRedmi Pad 2 Pro 5GMiProjA1Mi Laser Projector 150\"MiProjM05Mi Smart Compact ProjectorFengMi Projector A2Mi Box 3 ProMi Box $1Mi Box 1SMiTV 4SMiTV Q1MiTV StickMiTV Stick 4KMiTV P1MiTV R1MiTV A ProMiTV 4AMiTV 4A ProMiTV $1TV Box S (2nd Gen)Redmi Smart Fire TV 4KMi Mix FoldMix Fold 2Mix Fold 3Redmi NoteHongmi Note 1TDRedmi Note 4GRedmi Note 2kenzoRedmi Note 3Redmi Note 5A PrimeRedmi Note 5A LiteRedmi Note 9Redmi Note 9SRedmi Note 10XRedmi Note 10SRedmi Note 9T 5GRedmi Note 9 5GRedmi Note 9 Pro 5GRedmi Note 9 ProRedmi Note 10 LiteRedmi Note 9 Pro MaxRedmi Note 10Redmi Note 10TRedmi Note 10 5GRedmi Note 10T 5GRedmi Note 10 JERedmi Note 10 ProRedmi Note 12 DiscoveryRedmi Note 12 ProRedmi Note 12Redmi Note 12 Pro SpeedRedmi Note 12SRedmi Note 12R ProRedmi Note 12RRedmi Note 12TRedmi Note 12T ProRedmi Note 12 Pro DERedmi Note 12 Pro+ 5GRedmi Note 12 Pro+Redmi Note 11 ProRedmi Note 13 Pro2406ERN9CCRedmi Note 13RRedmi Note 13R ProRedmi Note 13 Pro 5GRedmi Note 13Redmi Note 13 Pro+Redmi Note 14 Pro+Redmi Note 14 ProRedmi Note 14 Pro 5GRedmi Note 14 5GRedmi Note 142502FRA65GRedmi Note 14S25104RADACRedmi Note 15 Pro+25080RABDCRedmi Note 15 ProRedmi Note 13 Pro+ 5GRedmi Note 13 5GRedmi Note 11E ProRedmi Note 11ERedmi Note 11T ProRedmi Note 11T Pro+Redmi Note 11 Pro 5GRedmi Note 11 Pro+ 5GRedmi Note 11 Pro+Redmi Note 11 5GRedmi Note 11R 5GRedmi Note 11 4GRedmi Note 11 SERedmi Note 11SRedmi Note 11S 5GRedmi Note 11T 5G23013RK75CRedmi Note 12 Pro 5GRedmi Note 8Redmi Note 8 (2021)Redmi Note 8 ProRedmi Note 8TRedmi Note 7SRedmi Note 7 ProRedmi Note 7Redmi Note $1 Pro MaxRedmi Note $1 ProRedmi Note $1Redmi $1MI_NOTE_ProMi Note ProMi Note 10 ProMi Note 10 LiteMi Note 10Mi Note $1Qin 1s+Mi One PlusMi One $1Mi $1HM $1XionCE$1XoloBlack 1XEra 1X ProEra $1XEra 4X 2GBEra 2VEra $1Cube 5.0XoroTelePad $1 A3 4GTelePad $1MegaPad 3204 V5HMT $1HST 260XshitouXsmartCORE_XCore XXtouchXBot $1XP10_WifiXP10 WiFiXtratechXM14GIguanaPad XM14GX10MT16X10MT87IguanaPad 10.1\"XwavexPad $1YASINYASIN $1K G Smart TVYELLYOUTHYEPENM20201419X12 Pro MaxYIKEMIPad 6 PlusYOTOPTYU FlyYUHOYUHO_Vast_PlusVast PlusYUHO_Y1_ACEY1 AceYUHO_Y1_StarSY1 Star SYUHO_Y1_STARY1 StarYUHO_O1_LITEO1 LiteYUMKEMU320YUNDOOYandexYandexModule2-00001ModuleYNDX-$1YNDX-000SBSmartSpeak Duo Maxyandexstation_2Station 2YarvikLuna TAB07-920NLuna 7Luna 7cLuna TAB274Luna TAB474Luna 10Luna TAB10-150Luna 10cTAB09-410Noble 9.7TAB10-410Noble 10.1TAB07-485Noble MiniXenta 7cTAB07-200Xenta 7icTAB08-200Xenta 8icTAB08-201-3GXenta 8cTAB9-200Xenta 9.7icTAB09-211Xenta 9.7ic+Xenta 10icTAB13-201Xenta 13cYesM631YAltitudeM651G_MYAltitude 2M685Y4Altitude 3YestelYezzAndy $1Yezz-AC4EIAndy 4EIART1_PROArt 1 ProART1Art 1ART2PROArt 2 ProART 3SArt 3SEPIC TEpic TGO $1LIV1LIV 3S LTELIV $1SLIV 3 LTELIV2 LTEMAX_1_PLUSMax 1 PlusMAX2 PLUSMax 2 PlusAndy $1 $2Andy $1.$2 $3Yoka TVKB2 ProYoozYotaPhone 3 Plus",
  chunk! "YouinYou-BoxYouweiMini 5Gyouwei boxBox X1YtoneYuYuphoriaYU5011Yunique 2YU5050YutopiaAO5510YurekaYU5200Yureka SYU5551Yureka 2Yureka PlusYU4711YuniqueYU5014YU 6000Yureka NoteYuandaoYunSongYS$1 ProULX-$1-T9ULX-$1YusunLA2-TYxtelZ-KaiZALAZH&KOdyssey J10 MiniOdyssey $1Odyssey AeonOdyssey AceOdyssey UltraOdyssey NextOdyssey PerriOdyssey FlameOdyssey EvoOdyssey VictoryOdyssey SwiftOdyssey TytanOdyssey SagaOdyssey SacredOdyssey PopoOdyssey RangeOdyssey Glaze PlusOdyssey GlazeOdyssey HighOdyssey SoarOdyssey EraINTENSE RISEIntense RiseINTENSE HypeIntense HypeINTENSE GAMEIntense GameZIFFLERZIFROZIKZIOVOZTE5G UG Phone U235G UG Phone U25Optus X (2021)Optus X Pro (2021)Voyage 10Voyage 20 ProVoyage 40 Pro+Voyage 30SS30 Pro 5GLibero 2Libero 3Libero 5GLibero 5G IILibero 5G IIILibero 5G IVLibero S10Anshin FamilyFresh 50Blade AF3Blade A3Blade A3 (2019)Blade A3 PlusBlade A$1 PlusBlade A7s (2020)Blade A7 (2020)Blade A7p (2020)Blade A71ZTE 7060Blade A73Z2359Blade A75N939ScBlade A711Blade A3v7540NBlade A72 5GBlade A7 VitaBlade A7Blade 10 VitaBlade 11 PrimeBlade 20 SmartAxon 7Axon 9 ProAxon 10 Pro 5GAxon 10s Pro 5GAxon 11 5GAxon 11Axon 11 SE 5GA2322GAxon 30 5GAxon 30A2022HAxon 31 Pro 5GA2022PGAxon 30 UltraA2022PAxon 30 Pro 5GA2022Axon 30 ProA2023HAxon A41 Ultra 5GA2023PAxon 40 UltraAxon 40 ProAxon 40 SEA2016Axon EliteZ2356Axon 60A2025HAxon 60 Ultra 5GZ2350Axon 60 LiteA2024HAxon 50 Ultra 5GBlade EgAllstarQuest PlusQuest 5Ctyon A9V5GV5SV5 MaxImperialImperial MaxAvidAvid 579Avid 589Prestige 2Tempo XWarp 4GVisible R2Blade ForceBlade T2Blade Q+Blade Q LuxBlade GF3Warp SyncWarp 7Boost MaxBoost Max+Max XLVitalV5 Red BullGrand Memo LTEV779MJoey Jump 2V807Blade CV809Blade C2Blade $1 PlusBlade 521Blade G PlusZTE_Blade_IIIBlade IIIBlade G ProV882LordV967SGrand X2Grand XGrand X3V965V8000Grand X4Z987Grand X Max+Grand EraUZTE GRAND V7Grand V7V788DKis PlusZ331N818SSmall Fresh 5Optus X Spirit 2Optus X Power 2Optus X WaveOptus X StartBlade A520Blade A$1 LiteBlade L2 PlusBlade L2Blade L3 PlusBlade L3 ApexBlade L3Blade L4Blade L4 ProBlade L5 PlusBlade L6Blade L7ABlade L$1Blade A$1 ($2)Blade A2Blade A$1 (2020)Blade A1Blade A$1 ProBlade A6Blade A6 MaxBlade A6 LiteBlade S6 LiteBlade S6Blade A5 ProBlade S7Blade D LuxBlade A5Blade V UltraBlade V6 MaxBlade V6 PlusBlade V7 LiteBlade V7Blade V$1Blade V50Blade V50 DesignBlade V50 Design 5GBlade V50 VitaZ2458Blade V70 DesignZ2467Blade V70 MaxBlade V8Blade V10Blade X1 5GBlade X$1Blade X5Blade L5Blade V8QBlade V8 SEBlade V8 MiniBlade V9 VitaZTE 8030Blade V30 VitaZTE 8031Blade V2022 4GZTE 9030NBlade S30ZTE 9030Blade V30ZTE A7040Blade V40 SmartZTE A7050Blade A72sZTE 8045Blade V40 VitaZTE 8140NBlade V41 VitaZTE 9046Blade V40 ProZTE 8046Blade V40 DesignZTE 9045Blade V40Blade V$1 VitaBlade V8 LiteMidnightZ820ObsidianZ986UBlade Max 3Z6410SBlade Max 2sZ610DLBlade Max ViewZ971Blade SparkZ978Blade V8 ProZ839Blade VantageZ3153VBlade Vantage 2Z930LUnico LTEZ965Blade XZ6400CBlade X2 MaxZ981Blade Z Max ProZ982Blade Z MaxZ983Blade X MaxCitrine LTECymbal-C LTEZ233VCymbal LTEZ232TLCymbal-G LTEZ353VLCymbal-T LTEZ718TLJasper LTEKIS II MaxKis II MaxKis 3Majesty Pro LTEZ899VLMajesty Pro Plus LTEZ828TLMidnight Pro LTEFanfareMavenZMax OneZMax 5GZ815Fanfare 2Z831Maven 2Z832Sonata 3Z835Maven 3Prelude PlusZ851MOverture 3Z852Fanfare 3Z828Avid PlusZ855Avid 4Z833Avid TRIOZFive 2 LTEZ558VLZFive C LTEZ557BLZFive G LTEZFive L LTEZ916BLZMax Grand LTEZ917VLZMax Champ LTEZMax 2ZMax 3ZMax 10Z963VLMax Duo LTEZ970ZMax Z970Z986DLMAX Blue LTEAvail 2Axon MAxon MiniA2015Axon TianjiC2017Axon 7 MaxA2018Axon 7sB2017GAxon 7 MiniAxon 10 ProZ667TZingerSkate 2GeekZ716BLScoreX501GrooveF-450AdamantLeverMonoV865MOptus X VistaOptus X Pro LTELeo Q2Vergatario 5Vergatario 5 PlusV5 ProZTE 8012NBlade V2021 5GZTE 9000Blade V2020ZTE 8000Blade V2020 VitaKIS C341Kis C341MEO Smart A$1Atlas WZ2357NBlade A75 5GAxon 20 5GZTE 8010Blade V2020 SmartZXV10 B867REGrand X View 3Grand X View 4Grand X View 3.8Trek 2PrimeTimeBlade X10Blade X10 II Pro+AxonPhone $1ZTE Blade A52Blade A52Z2450Blade A55Blade A53+ZTE Blade A33sBlade A33sZ2453Blade A35Z2466Blade A35sZ2472Blade A36Blade A610ZYQQ638Q2624Chee",
  chunk! "r 3GQ2602TV NextQ2728Zone 3GQ2729Q2688Q2623Win 3GQ2626Care 3GQ3623Braw 3GQ3022Q328 m9Q328 M9Q328Speed 3GQ668TV I4J77Q.DeeQ.Up C5Q.UpQ.Boss P99Q.Dee R09Q.Good M9Q.Hi S1Q.HiQ.Hot P7 3GQ.HotQ.Me Phone 7 3GQ.Me Plus 7Q.MeQ.Mate R99Q.Next B7Q.Next J2Q.Top X8Q.YouQTAB Tab4QTab Tab4ZYQ-Q88Q88ZZBZaithZamolxeZatecWindZPLAY1_2018Zplay (2018)Zpower_2018Zpower (2018)Zpower_PlusZpower PlusZPAD_1ZPadZealotZeblazeThor $1THOR PROThor ProZebraZeekerZEEKERZeemiZenAdmireGlamAdmire GlamAdmire Sense+Admire Swadesh+Admire Sense DuoAdmire Curve NeoAdmire Curve+Admire Neo+Admire DuoAdmire ShineAdmire InfinityAdmire UnityAdmire StrongAdmire Glory+ZenekZ5517LeopardoZ6001LibelulaZ5007OsoZ5519Ping\xc3\xbbinoZ5516ZentalityC-$1 UltraZfinerY900Zhongyu DisplayZidooZigoEon45iEon 45iZinoxKidsLegacyTabProKids Legacy Tab ProZpad-X8-PROZpad X8 ProZioxAstra $1 4GAstra $1Astra $1 ProDuopix F9 ProDuo$1 $2ZondaZA409MuzicZonkoZoomSmartZopoC2 II9XX QuadZP980+Speed 7 PlusHero 2Speed 7Speed 8Leader MaxLibero HDLiberoColor CColor SColor F2F5 Color M5C2 Color M4Color XColor C5iFieldShiningPilotFlash X2Flash G5 PlusOne $1ZuumNOVUS TABNovus TabAKUS PROAkus ProAkus $1Aura ZCOVET_PRO_LITECovet Pro LiteCOVET PROCovet ProCOVET MiniCovet MiniCovet$1Magno ProMAGNO PLUSMagno PlusMagno C PlusMAGNO-SMagno SMagno$1ONIX SOnix SONIXSens $1STEDIStediSTELLAR PROStellar ProSTELLAR PLUSStellar PlusStellar $1STELLAR MINIStellar MiniSTELLAR MaxStellar MaxSTELLARStellarGravity LifeAURA PRIMEAura PrimeAURA PLUS JLOAura Plus J.LoAURA PRO JLOAura Pro J.LoAURA PROAura ProAura $1RONIRoniULTRA ZUltra ZRocket $1UniqLimitGRANTGrantZyncCloud $1ZyrexZT216actiMirrorDesk21T-03allenteAllente 1alpsmartaltronAL-555OB-$1GI-626anderssonastro (MY)b2mDecade 53bogoBO-LFSP4LifeStyle 4DCBO-LFSPSL4LifeStyle 4SLBO-LFSPBS5LifeStyle 5BSBO-LFSPSL6QCILifeStyle 6QCbqStrike LTEStrike Power MaxStrike Power PlusMagic OMagic CMagic SCleverFunAurora SEMagic LHornet Plus ProBQ-8067LHornet PlusBQ-8052GBQ-8041LBQ-7084GSimpleBQ-7061GAndrosArmorBQ-7051GElbaBQ-7036LHornetCanionFnac 10 3GFnac 10\" 3GBQ-7021GBQ-7010GBQ-7006GUnionBQ-7003JamaicaBQ-6645L6645L ElementBQ-6061L6061L SlimBQ-6022GUniversePracticJumboNext MusicSpringJeansBQ-5522SilkFast PlusFast ProTwin ProTwinWideStrike ForwardBlissAmsterdamStrike Power Max 4GNext LTEIron MaxStrike Selfie MaxNice 2NiceNice MiniKawasakiVancouverVelvet 2Strike ViewVelvet ViewStrikeBalanceStrike SelfieSpace LiteSense 2WalletLikeBeliefChoiceChoice LTEStrike PowerStrike Power EasyStrike 2Magic ETurbo PlusBQ-5060LBasicBQ-6861LCoreBQ-6761UnitStrike Power 4GVelvetSharkShark RushHigh WayBondFirstRichRich MaxMonte CarloSpotVelvet EasyPragueBQ-5560LTrend (2021)BQ-5565LSydneyLos AngelesIntenseShark ProColomboColombo IIContactMilanTokyoBladeMontreal\xd0\x9esakaVeniceFox ViewFox PowerGolfRichmondSingaporeFlorenceSantiagoDubaiKingstonBQS-4501 BristolBristolFox EasyFox LTEShark MiniStrike MiniUp!OrleansShanghaiValenciaSeoulDusseldorfVeronaCoolOxfordAspen MiniBombayHornet Max ProBQ-1036LExion AdvantHornet MaxArmor Pro PlusArmor ProArmor Pro LTEPassionCorsikaHawaiiGraceAquaris $1Aquaris $14.5JavaBQ-9055LExion Pro MiniBQ-8088LExion SurfFijiGrace 3GLuzonClarionMaltaCharmCharm PlusArmor PowerNeckerNexionLightExion Plus70831056LArmor Pro LTE+Exion ProExion OneExion MaxEdison 3AquarisBQ_32FSFO1B32FSF01BSmart_TV_BQeNOVAeNOVA TAB 10 LTETab 10\" LTEeSTAR$1 $2 Quad Core 3GGrand HD Quad Core$1eSTAR GRANDGrandMERCURY HD Quad coreMercury HD Quad coreeSTAR BEAUTY HD Quad coreBeauty HD Quad CoreeSTAR MOON HD Quad coreMoon HD Quad Core 3GeSTAR BEAUTY 2 HD Quad coreBeauty 2 HD Quad CoreMini 3Gtakee 1Takee 1Digni-SmartDigni SmarteTouchecomevvolifreeFreebox Player MiniFree_Wi-Kif4G_4GWi-Kif 4Ghocoi-CherryiCherry-C256C256 Nano 3Gi-JoyElektra MElektra LElektra XLElektra XXLNeon $1SygnusDeoxi-Call $1i-matei-mobilei-Style $1IQ X Pro 2IQ Big 2IQ $1IQ Z PROIQ Z ProIQ Z BRIGHTIQ Z BrightiBallAndi Wink 4GAndi 5G Blink 4GSlide DD-1GBCuddle A4Slide Cuddle A4Slide Dazzle 3500Slide 3GSpirit_X2Spirit X2Slide_Skye_03Slide Skye 03Brace X1iTAB BizniZiTAB BizniZ MiniiTAB Moviez ProiBerryiBritDiamond Pro Maxi5PlusI5 PlusPower 6Speed ProSpeed PlusPower X",
  chunk! "Z2LiteZ2 LiteAF51iDataT3_ProT3 ProiDinoNotebook 6iDroidAPACHE G6Apache G6Royal V5Barl X7iFITiGetSmart S100E8_UltraEKINOX E8 UltraiHome LifeHLQ MAXiHuntStrong Tablet $1 ProTablet PC 10 PROTablet PC 10 ProCyber DOG 4GCyber Dog 4GLike_Hi10_2021Like Hi10 (2021)S10 Tank (20$1)S10 Tank PRO 2020S10 Tank Pro (2020)One_ Love_One LoveTian P3000Titan P11000 ProTITAN P15000 PRO 5GTitan P15000 Pro 5GTitan P$1 Pro (2021)Titan P8000 Ultra CarbonTitan_P6000_PROTitan P6000 ProTitan P6000Like_3_ProLike 3 ProLike 12 PROLike 12 ProLike Hi5Like $1Like_4ULike 4UiHunt_LikeX300 EliteS60_Discovery_2019S60 Discovery (2019)S60 Discovery PlusS60 Discovery Pro 2022S60 Discovery Pro (2022)AlienXLite2020Alien X Lite (2020)Alien X Lite PROAlien X Lite ProAlien X LiteAlien X Pro 2021Alien X Pro (2021)Alien_X_ApeX_2020Alien X ApeX (2020)Alien_X_ApeXAlien X ApeXS$1 ApeXAlien_XAlien XS21 Plus 2021S21 Plus (2021)S$1 Ultra ApeX (2021)S21 Ultra 4G 2021S21 Ultra 4G (2021)S$1 UltraLike 11 Panda Pro 2022Like 11 Panda Pro (2022)iKoMoiKoniKoniaJarvis 7.85iLAiLepoiLifeK3102 WIFIK3102 WiFiWTAB $1Zed Book GFivo PlusFivo LiteiMIVin3 SVin 3 SVin3 LiteVin 3 LiteVin $1Messi $1iManiMarsIMARS VEGA X7Vega X7VIVI_8VIVI 8MILKY_WAY_M2Milky Way M2iMuzmuPAD $1iNOVAiNaviITP-XD80LU+ Pad8iNewV3CV3-EV3 PlusV7AFire Tab 6iNo MobileiNO SCOUT 2Scout 2SGINO6iNO S9iOceanX7S-TX8 mini proX8 Mini ProX8 miniX8 MiniX7S EliteiOutdooriPEGTOPIPEGTOPiProIPRO_K2_3GK2 3GS501APlusS501A PlusKylin 5.0SKylin $1Kylin50iKylin 50iKYLIN40Kylin 40Opal 4SJade $1sAmber5S_ProAmber 5S ProAmber6Amber 6Amber7SAmber 7SAmber8s ProAmber 8S ProAmber8SAmber 8SAmber8Amber 8Benny10Benny 10Phonenix50SPhonenix 50SRuby5SRuby 5SSAMBA65SSamba 65SZafiroWave 4.0 IIWave 5.0MEGA7Mega 7iQ&TiReplaceFrog OneiRobotiRolaDX758 ProiRuluiSWAGActivKronosLynxMegaNemesisiSafe Mobile$1.RGiStariTelW6502L6503C671LCity 100A671LCA80A6610LA90W5505A507LVV52 LTEA632WA04A663LA05sS667LNS24S23S681LNS23+A662LMA60sA662LA667LA665LA70W5504P33W5503W5002A571WA37A631LA507LMAC50Vision 5Vision 5 PlusS663LS661WA551LP15P552WP17 ProP551WP17A666LP55P663LP55+P665LP55TP661NP55 5GP671LP65P666LP65CW5003S32 MiniL5502A44 AirL5505A47W5006XA510WA16 PlusL6006A48A571LA26S666LNRS4P651WP37A33 PlusP681LP37 ProW6501P36P661WP38L5007A24A511LPA24 ProA512WA513WA18sL6003PA55 LTEL6002PA511LQA23SA23 ProL5002PA25 ProL5002A25A507LSL5503A46A661LA49W6004PA56 ProA661WPA58 ProA661WA631WA58 LiteL6004LAC60W4001SV41W4001AC13W4002A14 PlusW4003A14 MaxA56 LTEW6001P33 PlusW5001PW6003A611WP683LP40+L6005Vision 1Vision 3 PlusP682LP38 ProP651LVision 2SL6501Vision 1 PlusL6502Vision 1 ProS661LGP10X2019iNote $1it$1Power ProS11 Plusitel it1701iNote Primeitel P10001LPad 1itel W7001KidPad 1itel W7002PrimeTab 1P10003LVista Tab 30iNote Prime $1iTruck7.0\" 3GiVALamcy $1iView744TPC plus744TPC PlusiVooMiInnelo_1Innelo 1iV 505Me 1i2_Litei2 Litei2Me 1+Me $1iWaylinkiXTechiYouiZotronMI7 Hero BetaMI7 Hero TabibowininovoI618 App Plus+ivviivvi P60_X11 PlusP60-X11 PluskidibyKIDIBYmPhonemeanITSmartphone_X5Q1 PlusmipomultiboxmyPhone (PL)C-Smart_pixC-Smart PixCube LTEFUN $1 LiteFUN $1 LTEFUN $1Hammer AXE ProHammer Axe PromyPhone AXE 3GHammer Axe 3GHammer Axe M LTELUNA_IILuna IIPocket ProPocket_18x9Pocket 18x9Prime 3 LitePrime_4_LitePrime 4 LitePrime 18x9$1Q-Smart BEQ-Smart PlusQ-Smart_III_PlusQ-Smart III PlusmyTab10IImyTab 10 IImyTab_10IIImyTab 10 IIISmartView_7_3GSmartView 7\" 3GSmartView_8_LTESmartView 8\" LTESmartView 9.6\" 3GmyTab $1nJoyneoCoreN1 G1E1+E1 R1E2noDROPOUTok.AFTWI0014K (2020)OK Google TVphoneOnerephone2000_000170_00rephone (Gen 1)simferteXetTM-9749X-pad Plus 7.1 3GTM-9746X-pad Plus 7 3GTM-8051X-pad Force 8i 3GTM-1058X-Force 10 3GTM-8048X-pad Force 8 3GTM-7055HDNaviPad 3GTM-9758X-pad Style 10.0\"X-pad Shine 8.1\" 3GX-pad QUAD 10 3GX-pad Quad 10.0\" 3GX-pad QUAD 7 3GX-pad Quad 7.0\" 3GX-pad Quad 7.2\" 3GX-pad STYLE 8 3GX-pad Style 8.0\" 3GX-pad HIT 3GX-pad Hit 3GX-pad Lite $1\"TM-9767X-pad Style 10.0\" 3GX-pad Style 10.1\" 3GX-pad NAVI 7.3\" 3GTM-7099X-pad NAVI 7.4\" 3GX-pad NAVI 7.5\" 3GX-pad Sky 8.1\" 3GX-pad NAVI 10.0\" 3GTM-7859X-pad NAVI 8.2\" 3GTM-7049NaviPad TM-7049 3GTM-7887NaviPad TM-7887 3GTM-8066X-pad Rapid 8.2\" 4GTM",
  chunk! "-4503X-QuadTM-5006X-LineTM-5007X-ShineTM_5011X-OmegaPay $1GPay 5.5\" $1GTM-5702Pay 5.7\" 3GTM-5703Pay 5.7\" ProTM-5201TM-4515X-Maxi 2TM-4071X-SmartTM-4982iX-MaxiiX-MiniTM-5010X-SelfieTM-4082RX-Driver QuadTM-5503X-MageTM-5508X-CosmoX-ForceX-PlusX-Medium PlusX PointX-Pointv-mobileXS Prowaipu.tv4K Stick\xc3\xb6wnFun $1Fun 5 4GOne PlusFun Value LiteFun Value 4GSmart Plus LTEAspire E5-421GAspire E5-511One 10AlienwareAlienware 15 R3Alienware 17 R4Area-51mAurora $1K50INK54LTransformer BookTransformer MiniZenBook FlipX550LBX553MAX555LNX556UQKLatitude E4300Inspiron 3541XPS 15 9530XPS 15 9550Compaq Presario CQ61 Notebook PCCompaq Presario CQ61HP Pavilion x2 DetachablePavilion x2HP Laptop 15-bs0xx15 Laptop PCHP ENVY x360 Convertible 15-bp0xxENVY x360 Convertible PCHP Pavilion dv6 Notebook PCPavilion dv6HP Pavilion NotebookPavilionHP Spectre x360 ConvertibleSpectre x360HP Pavilion All-in-One 24-r0xxPavilion 24-r0xx All-in-One Desktop PC23-f364Pavilion TouchSmart 23-f364 All-in-One Desktop PCThinkPad Helix 3702G50-80Ideapad 310-15ISKLegion Y720Notebook 14\" Cherry TrailPrestige TH-360R12.32CTWFBMD/Satellite iPod Touch 1GiPod Touch 2GiPod Touch 3iPod Touch 4iPod Touch 5iPod Touch 6iPod Touch 7iPod TouchCowonDiofoxFanvaceFiiOM11 Plus LTDKuGouMECHENMicrosoft ZuneHDZune HDOilskyM303-ProM303 ProGalaxy Player 4.0YP-G70Galaxy Player 5.0YP-GS1Galaxy Player 3.6YP-GI1Galaxy Player 4.2YP-GP1Galaxy Player 5.8YP-G50Galaxy Player 50YP-GB70DGalaxy Player 70 PlusShanlingShanling M6SurfansSylvaniaWizzAKIRAAKIRA ShellAMCV ShellBBK shellDEXP ShellDigma ShellECON ShellHi ShellJVC ShellKvantKvant ShellLebenLeben ShellLeff ShellLoviewLoview ShellLUMUS ShellMystery ShellNovex shellTCL/RCA-Starwind ShellSupra ShellTCL/TCL-Telefunken ShellTCL/THOM-Yuno ShellFS-ARS-01BAYAAirtiesLGE/SQY/RCAAltech UECAltimoAtlantic ElectricsATVIO55D1620BangOlufsenBangolufsenBeoVisionLC-65CUG8052ECLAYTONCecotecContinental EdisonCreNovaCNV001CultraviewDIKOMDIORADream MultimediaDMMDreamboxSMART-32-X-EOSSmart 32 X-EOSEAS ElectricELECTRONIAENDUROElektrolandExpress LUCKF&UFINIXFITCOFOXFUJICOMGN ElectronicsGoGENG7HIGH1ONEHOFERHOTACKHUMElabLE55X7000UHanseatic32A35EEVS40A35EEVS50ADEVTOOL50A53FEVS50A6101EX50A683FEVS55A6100EE55A69FEVS55U62QGAVT50A6502EA50A60GEVS75U9KAATMICALIDVB688649D2900Hotel TV CompanyHMS1000SHMS-1000SFVP4000TFVP-4000THGS1000SHGS-1000SHDR1000SHDR-1000SHDR4000THDR-4000TIkeaInno HitIntekInvertoAFTSO0014K (2019)KUBO32D1620KendoKydosXU43WT180N43LJ614V-ZA43UN68006LA55SK850V-ZAKEY0000213F1zKEY0000213FKEY000000$1LM21U32LMLaurusLinsarMEGA VISIONMIIA$1KTV18$1K Android TVManhattanMIRAYLEDM-322NIPNABONILAITNORMANDEOCEANICOravaPPDSPREMIERPROSONICTX-50JX700EVIERA ($1)DIGA $1SCHAUB LORENZSCHONTECHSEHMAXSULPICE TVSUNGATEMaple_2011Smart TV (2011)SelevisionLC-$1BLA-43UMC_2KAndroidTV_2019UMC_AndroidTV_2021UMC_GoogleTV_2019Google TVSilva SchneiderSKWE20E21Smart ElectronicSolasKDL-GN$1BRAVIA $1SsmartStar-LightTALBERGTCL SCBCSCBC58643D1850TOKYOTOKTCLED32STUCSONTechnicoloruzw4054ttgUZW4054TTGTechnikaTechnoTrendPreo $1$1 28.0\"$1 32.0\"$1 43.0\"$1 40.0\"$1 49.0\"$1 55.0\"40FB5426Top-Tech40L2600Tsinghua TongfangLE40GY15UNITEDVANGUARDVORTEX (RO)VOX ElectronicsVideowebVideoWeb TVVisitechWELLINGTONWONDERWalthamWe. by Loewe.43A71FEVSX.VisionAFTANNA0F2 4K (2022)Zimmercoocaaelit"]

end Verif.Data
