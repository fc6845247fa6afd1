/-
  Numbers used by `Proof/FillBCheck.lean`, found by a search program. Nothing is assumed about them.
-/
namespace Poplar.FillB

/-- the start: `(f, n, r, code)` -/
def seg0 : List (Nat × Nat × Nat × Nat) := [
  (1, 25, 0, 0x2d3cd0d16e031b9289541bcf32def80734f1ce081d1990c5eb3210c1d3042c8d8204a8239f119a121861530caa0570c14d2d065832cc73036b2295b52408a)]

/-- group 1 -/
def seg1 : List (Nat × Nat × Nat × Nat) := [
  (26, 20, 99500, 0xba570b6e9062d42235721f1323dd3079e7176f02670320ec70ed152a801059ef0750527f910255221ead1a8c61d0f505dd1),
  (47, 64, 157138, 0x2bbc2078ac1aad52514d15a390918a1b454166ee1e42322eb700a722f66f249d225a741474607e6f022d42c1b711af9120cb0920603724292033051205259049011b80c0fe0929da1148a51a19701e6e2fe9722c65019d613cd71c50d2ad7113ace0bf64125810b00a057721a62f1d04a12e0d1a2d92c83722d3501463239a50316a08237218e9083a52070d10e8219133308f22fc4319d6c2ec241b9c6017f1),
  (111, 64, 373406, 0x23fd01c7912ec8124d060c569173d81ffb5199ef2aa0d090d20ee44281ae1f35710d9827b341778206f4913a6f2f3c9197b9293982a2d505bf113406211a70d98a1c9452ef762226e220500e4b52a55123cef1c59523846036171075830a641a6c908de11a7a618e3523f4b290b71232a1c524040952a7a111d0c2fa1716bad284a424589143e70bf86279ce184751fdf102ce82b5a7321d211c70127f215e58),
  (175, 64, 590191, 0x223e70e248298c61c9f81dd4928c6c1426a3056805fd91c6340dfed19c4f10ff8214311324829c710e5180ba052fe6809d220be6c1eba722c522af441ea6f2d9192ce2b03ead23fa515b9004c982afed047cb045812acd0058c40fc8d296480882e205b601a8606c97232f10b9902bc6a1b6af1ec660d8b227bf81e810131160acd924ed01c8b530de228c53106c52ce871b39826fe5088d6121730b04e0b9ad),
  (239, 64, 977576, 0x6ad6258d72a374268d3103740b183105870f68e237192378a2362d01307037940ecc604f132ee380a89308d740c0a10e32825b101d60718b902ce18052d12776c27cc72223707f5803ae1198f11d00e10138232040fd64279282cfc51954a00c1000de1019770ab562272b0b39021c580f4a1139450f43023a190e96f2692e1ddb90084f1732d27ee22972c127a40b995004c51d9d02ce8a1c7c52470d2968f),
  (303, 64, 1503711, 0x3de50e4a90990529d4a04e0c1047301d170af0c24aa208eeb05d3920ec42d267243a12d2550a90405274253f2257d02ff4815558035372da8b027ea09d8e0c8b80fceb20c3004b3526e640178e226d7121a6237d91f56720b502c0cc0dcc41d60a21c952314c063f90f615044631d4670fef21cd4612fa215ea927b3930126289a52c88218ec623b5428dc6142640e4f105d950efa3205e91f3d815b511f10a),
  (367, 64, 2025332, 0x1106e04ee40ec9429ed913c8c1f6f70ee220c22b1a22c1e34e27eab11aef2d54a18329193b1185b1208b40eace1f3e5099122a1242fcb7014af1c85504cf2017ab236e7251f12caa105e0326236143b60de4d133e92a6462054d0bf8b09633106062a6382d4b024b6f0979713838016b60eb2b0149209f131f20e2d1ae04f6e035d80d7aa0a7120b3c22ae980666828b712426e2868722c781f44c227b6262b3),
  (431, 64, 2554786, 0x1c78c0d5481c66d0a3b4229631e1f6311162dbe80a98c22faa05caf079572bd240d28e0fe731b50b2942a0a02b286280c1b8284080edd900c891dbcc0ff072d8462bd0116daf1ee8b1044b23aae143592867308d6404fe10206e0b14422dab2d41610ba8077f70278c237f30bf5707f48226c62038f0cbe40dbe6129721a93121af923d670cf4421ff50a4291be011da2626e39208812211409eb82ce7430e39),
  (495, 53, 3085266, 0x9ed620aef27c762124e2ca19292d2090a930e8c10f2124aae2ccd226e05306e721a11147cc1cff02c3cd14ba722ff5139f41f0771daae3066f10e30207333172a2add20cb851eacb24664237b125f0615e0c1de35275ed24175294041fc540f76a0aeb9262102b78b265260c099007ad00c230e7b72c297292682c3f710f970cb7212fb2),
  (549, 64, 3507491, 0x8cef2b9ef010d90a5490f7982d9cf25e160d5d8084290da2e0c959291940a86d0a23613825061ca0db6d23e92094aa034ef0d0d60ab372d1701ea641e799086f113e9824c83147742f6b5012ef29e17047350ee8c03ff628ccc006ec1314913a0a192c708f9405d630a1860249127a152fdb60cab71e9152254d1f03025112244d205ba820e231041813b98227930b4552430b25285163ed04c4208532107ab),
  (613, 64, 4040079, 0xd159274d91b8142c32c163702f622087351048413fe71ff990e0e80dbe90f74f27e152622c0f7122a6ce0efef04c6b1323124d4a05d991e1cc2d3472b9701d8c6286ec245a8123d01f0f82c82324ad910db9083301b73831a770a0d62cc242ab5328f97044ae235b00a73215c03221c7012710250325936252c62313922d462295810be121a072ad220a12e272af28d12144e3269430d9061e1a303e180a8ec),
  (677, 3, 4563745, 0x1be5721cd424bc4),
  (681, 64, 4592938, 0x205f71b8a922cd323d470a350230b223fb503e280eae709a580d00903ce804d840d52e09df82bcc829fcf0b86b13a5231413279c52da2e012a324e8d13acb093502d8aa2502d299872ffed0ec4125f8710e3423f650ae981751323e2d22df70582123f4f2c58b2cb572d094258d100c380b3e72b7d42e7032f156308a8244d108cb604c2730ef22c559199092fef301f260d30d22e121044e2046f0456904ec9),
  (745, 64, 5123034, 0x46732a9d820982089501dd2b17e6d27d972918c0fc6a0b4cc02475220a327e0a0434107c8f25acc07e680a3f81e418118b80514f10fa61a1ea1a58c0e93722b900fcac1e9cd08e892d15928c711e923132cb0d4e523db81f69310ea323e820df020d055242d208927223481f1d1045970acf3015c505fcd24a162613718651084031cbb9105920e50c2c30b0d372063b91380d0e46224db4264240746f0b30b),
  (809, 3, 5644325, 0x22e502471729e68),
  (813, 64, 5669555, 0x85140e00e1c8420e8e9259681ab37117c308ca618f061f2b710daf2c93024ad42f78d2ed3630e750da5405b480e9ec207b01e2e91c82b292970e2971ff061b3e8236941c9ac05a79234f90d74d142b0015d721aa92142d0f5cb1d2252532e2d9691fe79217c60d909205f908eb70a1980137023063086422874222755264f30306d1226f10f10036d21736919deb07c0a0d090245840f7f70ee3904ed619f48),
  (877, 64, 6203048, 0x224120a1e3286cf26e952d8ce247f3048951b702240912628d01fe71e8cc0d273138e90ac271fef123f521e2021f0c528ff307b760386c164cf266040ffa5073a60a4b40e44e2e3e32adc330c17175e22833116cce0e1d20be471c4ab1ea360ed0b249a3074ac214af08d2e0b90b1da790a8892a88a0b08c084481faed2ae0a2c8912cd880ad0909af12e0ca037c723669204c31ef8a0c4261528d0a9d42a1b7),
  (941, 64, 6727014, 0xcdec2d8a7157081eea4128b20d3a5286a2253ab2cd751c9060dda110aef247c80f5e50c3941e88e20a4a24512285c10ef671b8550bac921fcb2288e2c8b824a11231781ed471ddd9044242fdcb0e1b90fed804cc80968f140e62ff221453430fa529b841764e1cdcb035ec0537617d821b3411c6a2205d703f380c38d075b110d0c275eb18a11186e210ad021cef0eb070d7382178b25ae5319131069429e2f),
  (1005, 64, 7252691, 0x2c5c5107910ea0213d751da901a0f227e10185ac2dd110a80a2adb810202045533074122e382d00e0e0452adf40ad9006dc10b85426e4e1cf6605ab229470225d1268312196d0f463015a82392a06bb31ec8c2ef0f239262b0e425d562c075305f42356b27f880a3cc2262222122142912a5d32f516236ae16f712d36524d4d0ef862d32a2d293016f72acc508e0b1878d006142480e28736107e5037880a834),
  (1069, 64, 7780184, 0xb1d80cc0a17f4c259912e07703b08304792ca491fa12242891748f0bdcb0e12f20bc1026920b514250c50478c197562438f1cf02177e32174f116ef08af41322f15b0e1ee35016e507d8923f640ac681515131ba314782167751e9b7255c42299310f0a2b4f02c0522fc122c8f3235a7234d6129a81405506d060ec360f9d21c5c9113272d72905eb6105c61b1af244ec277c420935277410fe8f0259603581),
  (1133, 64, 8299891, 0x12f2f2eb75041c309b07185390ca3127dd32702919061290932c7a50e5f7216cd035e703d2e0ddcf26022209470fc140340c19b8b2acaf29ad31e5822aa64164a6151ec0c3d730c44262792d2b12482b13a64223c623e2a26f060b40e305830a4382e0e1106430e74f09b142d9341c533240920e0571f3ac028422150a1f05909b4821450138502d3f309ec4107f209a64236091c1e62651425bac307a50fd46),
  (1197, 64, 8829492, 0x2712c11cee0dbe327a070a5d40fe2825b240e6072a2ec01a8a2a18c275c7041b005be60e8d21f110274f3150541fbf713b432205910a2508f6e2c24f218661de50224c51056b010f62caa41fa340a96a04c941f0c42716228d042946c166c10c3ac1d6922669924b812c2b22e9ae2bcf506489131a92441507b182521922e950d134315950ee0e30d632ec2f1b99000b280820e2c1551357328fd51fef61ab01),
  (1261, 64, 9354472, 0x1c3e32d3b20d92418427131cf0832c0dcc308e0a0534925bb82e9ed3122b0d18f0cd632d7d12372922c662daa922b4a188622a16d1c3d80146c292b50d2081835923dcc1af2918079135a82a4791dae10d7e310e672ea592a5c927b44135eb086a60ea092e88c0a697105541d4382aa572a66526254049c204d75156f10d9210ce82117e110824080430ad832dac123b6f075692e60d20ca1120d5277871b397),
  (1325, 64, 9874726, 0x76f92a42717c7521436235962f52a0d7e521b2d05d7016847260120f228072e9012890f7251f987215c32c3b51316d2688a225822b9630b56f2071510e482a7932ada929bd903f440ede609f760aecb210f40d51729fed2722a0c83201caa0f58215fd42cc8e2dcf22212d029890dbb109e6707cc6294c21b0d9107172a55600cb128fa72c31111a4d2060e007230d4b91e3c509a462e4c22a6b5253e1079b9),
  (1389, 64, 10399036, 0x3d8d1824a08e011bb6d28f241221421de3312040f21127be1227c12324b0b58f1eeae20f2a04ca10aac20891323fcd1330c204950f4f50e1ce308a326636314512c4ef2975705401084aa22f6e0a6b03176d0d6d50c91408dea03f0c0a6d30db131a61901d332586e1432c1b2520ec8d1ecaf070ce04592178502918e096142d00a04d2e10f961ad2d0fbb9136a82d161105a4231472e80505f86317cc1a277),
  (1453, 64, 10921981, 0x16d00ad680d374104290a66128dd62d3a325e110efb305271044421e72f169452ad0817ce8210480a55817407091070976d024ee0992b011930d67031e4e0b8e210675206d101d5819181237c62e00e2bc701c1771f088233d91a6281e6ca303702e1b623ee90db3610e852ef0507d620b4822b40922fad2a1710ed682def31d0271c65222278075522def71d30b0ee75195a921ba108f7516543069f023fa2),
  (1517, 64, 11446381, 0x21b8825a73222ac17d5712a4623da1132b418a3330d110d8f72530218c9722b540fb4b0f6eb2418a27d25273c62d282218231e1ef295a61c72a2c3500dad126ef71eab42fe69195f00967605dd0097960e2561e19823e0a09f4618c6f239ee0eb2c0d9d01ae21295b22d0a41ea8f0cb620eee92b6d32ca180ad120e8310af721d9540fa2f011071980e1d28c1fc932d1b417f2e1d3891378706c16131f902d6a),
  (1581, 64, 11971531, 0x1762017f0094921ee0d0d16524db30254d17d6b106e20de2d23f6807b481036b2254e0ed832a7891bdd404d83083862e0ad0ee321c713083af1f90f31f8105c4109ed32fb130a1a82603014cd32fc5508698191550b4ec0c2f2160e70bb8f03db612043314411cbf5246300d9031e2d229caa0f65626e380e4b4034a41392204dd7215d205a9126b121c4f92adc706da721563086c6314ae24cd60b8b217d24),
  (1645, 64, 12503364, 0x10b22e7ef2b3170a92e3192c036e207ecd25b0f2c28708a4a0e648317440e6f329d4d0e75321d0e1142a065e717c70214c9286590c00522ff60e6860a90701fea028d50e8182d0832470b208842fd14239e10dc6625e2a1dea2013e415ecb1adb609a06205ca2107215d361f19505ed315b6e0a4c70fc2b01e4b1f22f1a8ac1fd072790101e6f114cf01f440af022b3aa269840ca6722e262461018ec91d7ce),
  (1709, 18, 13017720, 0x10609216212d988085d026f9027c892a62306a530136d08dad00d4509ea61d96b1d0cf1f19829f750170d2c4d0),
  (1728, 64, 13165114, 0x1d94a127ac20af80378e1ab692f1342f8d92dac50bec529e531efce139b3250e6286470625224cb909869296633048503ed3216d60acf6142152214a1a748140cd02de2086ca28f01015630b2aa157e12e4912472c1e56c0d08a226d02b1c61af4123f8f0d495107ec2cc2f004380b2e721c881a11231d960ac2a1f7841d9382468313e952e071204841cbf62ec1513ca80f7c20c96e142d72f2c82a6470e4f0),
  (1792, 64, 13699630, 0x274a8130062c05424498131b8245b8140f60919926d94241761f5121c449108ed217f5178451050327ea80af75260f1304531f5e805c33208ab27cb81310c02ec9204110fbe4267352444504de50a74f1ebe827e8d04e25299ac260d32b824096781cb952da7231ce71a9cf2280c2474f1997400f620f6f103e6a0fce12dd8f1dbd32f7041cd93047d027dd928f4802df522a4d30cf6021051f565075210868c),
  (1856, 46, 14223724, 0x318aa1790c2966609f91252e72efe12b07218a4c10fcb2472b236320b1c6280181a9150c2a318cf92fd4329f830d34907c72234cc114162344e0c9b5063e91e94f0f559283a810b4221db727cb70eb832ed120a4022bb7602ff60d337050ed028590a3e92e1ef0ad2a2c676236182963009665),
  (1903, 64, 14604332, 0x2797317f8133181097722db000ceb28312097b42b32d1da0823a92277391ef111cdb51b8cb085b1309d72588706f37144e60a8ef0fe6900be724750035b515a8c2ff970e22e31f6c0e2621f55808cab3165510ea223c7724e1610d131f2501d01129a621b9782e6591a8a62e014235ec2af73120ca1c4c4158f720ef9277f50e3ab0ec51139b623486047a72daed260c92a5642432a0fec204eb0104c124c6b),
  (1967, 64, 15132555, 0x1301628d5308fa2027e929bb7236c316098207820d4e40e10201f2923ae92d1440b0e224d370db6a12e2125208093272a49812f092da4b0a3c730e860d3cf247222301820c861e0ca2cd961561131ae40d338119061e32724872040360ce430a20d2744f139810a1890acf90af8a30ce22d912096322c4670eae40c6370c1b71a02e0913210db8083371a94e295d32430c287ac296932b3591ae2817d5210678),
  (2031, 3, 15655927, 0xe04c0a54c10621),
  (2035, 64, 15680234, 0xb5031e794090470c21326b772e23425b0a19232025822632a0ddec293ce2c2ae0a3f213bf917b94294b521c6422fb71dbf10b30c1f7020850424c192d5ab1d6a7230b522a0828e061b26e0a02a0cd8927dc7188e51ea310d0142bccf235d2234750b8b705ee9098d30ba8e044ad01eec0f5d7310a7226cb0f54922d510a768125d60638921b06160ad2d7c50f58e04f9804f4220ce50953123d642d09728fe9),
  (2099, 64, 16212080, 0xe8ae03fe9227560a68b24fd00e0730f68d01499090311d9b70fd703053526558245d82eacb1004219f4f104f010c6f0b05510726039e8085f3192a621dad0116c01a791bcb82a4011c62427fb12e4501548e02fa92509019b2b25acb06e541453721a4b2acee04e13143461c0492e86a1c1290f52f087440c47001d6e0a225010900eb0418ee5176942832a21788010351c0082d02c300c901ecf0b02b2b805),
  (2163, 46, 16736569, 0x18fad07cec0e0011a1ed1c428229aa1541712c36237380b3a41396e0b97607da62e0642c9370fc371e3431fa192c0e80df011c8342bcd62a5460ea4d216950c9b02a45116b660a5f727c682e30d293b71422820d9421f6410e5504e0e0a9850c964063930d06f00d6e246542d1862fd3107a75),
  (2210, 64, 17116833, 0x183ab23f372d50e177f011dcb00c69180c60738b2e89115f6c1cd082d8190dc871b78a21582111e40240f2c38e13b162d3d80fcd50386f0d46c0962420a941e2cb22a180c1a1264f01dca12f79112eb223d8b0bb88250071e87403ec224ad807f660dea52ee690c31708c8d0a1a22cec52c6810e4182c1e20ee6b008a1252c12d97129c8f293cd1fce803b6701592140e724b4d1427430faa098a3040a4055d9),
  (2274, 64, 17651169, 0x1d90c2d8b8288712e6850cd9718f8e17e8510fc130df01ca670da220f5640e1d5237e32d2b431dc80ed08249a21c8a62060d19a4d0fd8c2710b118f20ff53218320e7b5084131b295114ac176831c1f10fc672a6a11f26e09c1326d4428979047eb094420a9d70a6a4154eb0078d2960c0cd74259670899810fb70ff090bbac2d6521b09829eea0a3941e34d3062b2213725d51093210a9ac23f2321f151c2e8),
  (2338, 64, 18172476, 0x1ce490e7f128ed0044290850d1f2d80ed4b228ad189e40a80d221750acaf0cbb80db4d126160e5b90454e07c551c28d22e3127c4226e41007c5055d10b321225d22460d2d1481802d015af05f05042371762a228482ed3710e660268d2506f2bf822356407d42267130b0821e2b30e3f21d64109de6091ef2a5381ed1202dd305f8c07281024ea012122878f104871798a061620a2e80afb9155b9044810a837),
  (2402, 64, 18697943, 0x29a482672a2436e2c197037440b8302bbd91e8302b3a32392d058a324ad3156100cae41d06a2a5ce180b000ed50a50a23df5316122065314292317902f6f308a8525128304a3245640a0ec0aff721aa81ab4d1ac58032663162521f2f2d35628d822d1a9104d9234d91a6f3084c31019524be51ed65199421be68101360f40f23ff60a10e2ad8f1fd36105c917e282c881171c406f5920a491d5b304678095cc),
  (2466, 64, 19224129, 0x1ee4c1fe6519ea12acd2142e904ca424a6f31a05176f5017b608f930cdb407a120106302b08011e921df409e8d229d62596218fa422d6f27d76172b70d01210ed42a20427330044ca0ed2c0a5cb0234729d500b06e0b5942246715cc61c7343058821d782fbf125f0c0cbcc0aa2805ff604fc71da972c3d81734521f8d21d740eed90bb0a2496813bf214ded249c802fe80c88602c560ad9320dee014611b66e),
  (2530, 64, 19745830, 0xfc950dbe81e02b2f7221cab925a1031d17088991f7e32836208a7627f1529ca7237832ad4b25f840d4b8199d12282720fa9170f30e34f0c16324c4e07d93099580f4b71b4a323d7424c852bb01261c708e4e226a929cf70da6d024531074b30e4a10ecd307a222b452102e25a561314729f620ebce0d721304760975518ef30d133234932ef1013bae0e0f823ed929d030e9ed0132229e740ea08151152c228),
  (2594, 64, 20276244, 0x119d224974250f21854a0c24604367105380d954045d625bb7242752c02f07e69296e41b9b321cb90d4cf095e2236cd17166289a30aea90b2442e6e90dca4228cf16f240919325291273662b2432003621dc515dd01e2f60e2180872222cf522caa0c16212b16297ee13121043a406b380dd610a2e20dbc5157900d92e1906209e970d02e129300cb6d1d359175071f13123eae1cf76106ab2857324bb613fb1),
  (2658, 64, 20797993, 0x2468e0ae090d2171cf3104f942d60f105e1066442a4720ff92133f32548b2ec300fd85135ec0fca5223f02de281e231185f70d823142c41a9f50ebe722b040b1b52a758094e122944010732d9ab0aec420778285ef13b5209f73133c800f93037f809bac0672a2271828e5211b4119bf309711225292247325b232bb7913ba10a9f405e65198541a065172632c2cd086342e0230668508ecb276ad030b706df7),
  (2722, 64, 21315681, 0x1cac120cac2ade82dbf5220340d8d903f4b07f7325de60b56d2e1b0011062d966317450c2071ed2b04497204441694e237ed2491609744105081af662d8811c1a10d6a90af4626fca2e1120e9d90e7620cfcc194a60e8d31ffed0f4360d8262154128a97309a82586d01358185c20e1b22c80e0ac6e04591301a7225b9311692d00d22b31244f70f5e12744a2468624bb10c04b29df61315701e020e1340486e),
  (2786, 64, 21843074, 0xe1c12ca390acc7107841c943249ae1ef94004931075624c702d3a613345229031a57223c7023f780a5592a6aa0ed93263591d4042c0732bd0424261307f00f4e522ea926fb120b4a1e38910f9919832106e7106ae28f7028c971e6cb0d702210652bcb3082312b1f429e8625b340b1640b49116f5606eeb21dd51fdb423dc90f755204d81e2ad0f612238f70aab0226711313126970306d90ca130d9d10e563),
  (2850, 64, 22364659, 0x5f64006630d109104c60d1900b3f42bdc10998f29ecf0d1550940e13a850aee31ee791f06c249112828c191a5235f927d6b143b0187510bad501226139e91b9440d8ec2fe66012c80b4f22cbe8252f828bf206b36191c7095882586808f740eb2d1905930f170e06605f322a70603f550984a29f1109e06244f2164142dec91c8b3227c21d8d92ad64185eb1fc3409b3909e412ad2a03418121f90c8d7250f7),
  (2914, 35, 22889417, 0x31a13107630bf232075800e64226c430f38322361d3883100e13bab2c99129c92240ea0fd6a0d37310f92211f402d742213203dd60efb017c791fc102db87130662b2d10cba40156c1e0831d0430e74e0976c1432521d35),
  (2950, 64, 23181363, 0x2ff4630dc224b21311ab1e08d287b0157e611f750108528e292acc32ad952d1cb29f0e0dcc60108d26ad21c3cb01d6b010a400d890d874207aa26dc7078f011345219972461704ab816eef01fab0970226ded2512d10e840dbb70ffd8262261e4ea2d22e11a990f2291cb0e286360083916cd21438e2a3722080c2336313f9814fa325cec25a44222132cc752d0a7244a81b00b246c8109e6121a5249d901116),
  (3014, 64, 23710827, 0x67d13064e2e6072662c1cc242d4570f4500d1d608c152a5650a3a40ffa306ec121802025e30f2272054b24c2c06061035701e3022acf4106e50eaf91ae342eee61cb352161204bf722dd3175180d4492d856016a81d865279551326106fa617bcd0a9311f170036e522a6431c830829028cd50368113a32035532a4d30bfea0fa981e1d924aa411a262e80f0a90a06c2529cad027ab1d03722f3813355288ed),
  (3078, 46, 24239403, 0xc2c30b41407eca1c36e2f7c3174e30e64f2a5b52dded2fce704ca6057a71f4362354a04724144e5315c6025ea27551169d6259f604bc82d9c130ea523d0d2cd2e1d1e91e3b50b40928e331b041140f32cc782f7810373016c131f4cf07e220cda7187e210e072c2112613525c561dc831a115),
  (3125, 64, 24617980, 0x106f21db950eaa5278d80df972942b0139524a8112665030e4297701ba76251d10a2260d081262162e73616f18260f20dfa630c631a9a923ec61f96826ed10e9f61ece32b941267322bac30bf62105a7263232a326236b41e29423b27085a10d019293930f27909d320e4f731636306721f3d60aaf80113003e611054516d722558221c01036c82a78e0a1a12c8291043723ab0245c71e9f828d710ef0e2b008),
  (3189, 64, 25141947, 0xa1f90884d25f331f134223e51c8532078a29e8c2bb2a03331096ce26eb51f2ac27f101eee7017e52670f2691218fc423e711c1971677301f361997706a1919cc7101f909aa91608828b922c9f31b2c503c541c40e0e5ad27015189ac1cfd40043212ed108c961dec7299891beea253d2251c520c4f2473226fe70dfe212161305a90b9ab01b7023cc518c0307ced2aa18112690920d10fb61e8a12da33265ca),
  (3253, 3, 25675964, 0x1d9d20e8ea07968),
  (3257, 64, 25692696, 0x1300c2c26c10eee0d61709f921664a022e91f0f60148201d080da161af0e2d0531ea320dab131fa8139a70ccee22f950f20c1e00c11415193e30d26e10970027922a4c90c14a284c11922227e0c0ef47250e12ad2c1d21924192011812bb312194614b4d1046b248f62750e2d8850e7e5040cc2b6c42316f04d410c0160e2651cc990350c0a16e10ea504f6b31d242c6420db6b212a225319312a90d0c80c2c2),
  (3321, 64, 26223607, 0x3054f2e34c22d521c4991c78b1e7e125ab229c43105aa23a9526e072adf620ce21a7090d0f81ef0209ae70aeb20986c27f462acb8252ed171b527c16131a70e2210cc4c234290d4b2237b70e105131d20b8f4299d32940220461266e919b6804e8f225c331a4630b682fcb331695274c7034d42f12424731298d22dda92357106782138430510a1ad2105e130b57505f810876c2a69304c7526c0d085c525f58),
  (3385, 64, 26750103, 0x8c411ca5055a80b48c0a635267a51e9d7199ab0b45625b8c0100e0c0e52d02f224ae2cb260b02a0ea4c2f62a0d2652a4561f16d2b94f1ea6a266880fe84177190c9c70e143014ad04ca30a3f52538517b930a2163228c0a023196cf248f1200662d0420a1881d3e12e42104c2e1d65911dad0aaa61b6932d6cc010680f4820c325104162c1b2074aa03dc9105130d308130a913030099a108c86059a7310a6),
  (3449, 64, 27287424, 0x10d6525b09293b80258123b82128951d22b2c2b527d710d54a17e07294b21feb01056e1dbec2aca904492248042908e1972c0e85524fd1250022d3d32198b0b8431646a104a4284162940f2e0b6306c50e9a221155017d017e6c0a9272c68613b0726be4085ae1bf462dfcf15c1727c2f305110c8140f62517fe8275293136e20a731de0b2e58b081ea0b46f0ecb831f61006a210fa80c891205d10ae1224f04),
  (3513, 64, 27795469, 0x265cf26017237092db73099441d44329dc20cce425c8f0d3520892a2c292133a517ba10d68c0ef77107292af7525b043050b2d8ac2305204bb30d7d50e90a046850d9902366f2351113c651d589025a508dc10a6e305f730d2590e2771d57423f8521ce3131b72276108fad09be33172407bce1d9f003d4e0b9ef105b22f18f13c8801c171a7011e2ef21c932bcd523f302422d03ef31f86a3154f24eca09a2e),
  (3577, 52, 28322882, 0x21d0b0c47925a2a07e350536c02f4e0e93108fea13a2c2ca4b27db7210140c3d221ad0216660a7551b9770b8a7298ac07c6f00fa707e170d5b6204f022cad1ee1710d6b1c1052679817ed21c75205f8f2c3710eac8150aa207f40ca9001e810b4700c96308f0c0ae950cd6e15ba10ca6204ee61edd920ad8142d427cd01c88f0cd06),
  (3630, 64, 28747774, 0x222cd29ccc2a54717c15221aa05b032ca020f6a3080d30aba304cd72a5232d6aa07209132332acc72eb881e1773212f2c395228110e58f247b92070f25e4b10c792a733046080a59203f641408330c4e2c1870eb8112186213340f5eb224260b2f31b92c32064130f90ef61143d706c30154c80d88b2320328de31f3220e91802e460c9d81d3c727d892b32803b64133261fbcf2175511e4802d77129b928e0e),
  (3694, 24, 29280771, 0xa4131dab422e320e6b52d092074212b2a5007381a0ac1d80b0be462ce680aa4a2a806044470fe2d2c5921fa021dfc5253030a9af2f26f20bd123ed6),
  (3719, 64, 29475959, 0x22f260ff4902688267100f2630e3f530883264cd253912464f304a8267f81100203c9710442150681a9f825d2a17c032a6892116827ed908086017a92a775205a71b7d32c8f508fe12de4213a681d6661102d04c5828d992616d21b2201bc21ffc327db20cbf90068d14514133b52774f26f16217b305ee829cb00e7f02442f012651768618fb00ed480c8c3086f00194a0600b215f10043623f670e2631dd18),
  (3783, 64, 30008072, 0x85c92d1b62afd61ae411ebe7234540dfc7303610e06423fe502d2b2d72500f7300ad30f8e40eb9529d531af6d20e4a2d194228e620b870ac19296cf0e8c2138b7146311e8e6168ef235b6231761cd18173421b5760793808bf31333621aef047f02a7d017c882360f0c732045040be2c3042e21ca20c0c7106ec2754523a630b8820110219f33239ac143390e19907acc04b451d5190060510e691208b17485),
  (3847, 64, 30533384, 0x1d26219daa07816012750f5350aa2b2e4d204fcc0159903be51b294078222fea91db4e0fecc05e29010f831e2d14bb50cbf02bceb30ff6047a108fec0c08e086092960d107b120c6b23b590c9f11d0161d7c62e6ee1cf812663503ad204ce52ac70027670179820eea0e0251fc0629e772442a1f10118f6122cf6009b1158af1cb222edc5150b02de6b19ab02298b1e8d823e4822a8907a111c55609fa60d18a),
  (3911, 64, 31058736, 0x1a6360690615d2c2c08923eef09c4e246020fd2b0e0371f38c046b61f5cd0fd6e2d9c5235862caf22974c13bd00df042300f0ea8e0e29321a6724d6b216530a69119f552d552291420ebe403ea628ee8206820d92f08ccf0107414488295c5105902720303a742a7292ab2110f0c24a2f259610934b00f842d1f50f82b15a4e05bf01e2d00914d1d036210d32c1d61bec9314d91ec181bbcb0ba8308c340ba2f),
  (3975, 64, 31585806, 0xd56c2c8a52c3f2178c70d8282d81231e842c8c111c6a02f540fe17217e8249d809e90143562a00b0b1e22b5970c3a30d43420c0c306541f8572a1f922da40d5110aad22044f2dcf827db81e1ca25a0f2f86b035222c2e72e832082eb1622b050292a464281c9123eb10d812e0ef00b7503d4120fb621a951c52d0f58d284a90b3550a7a12dbb60b387012ee045d5196750b283226aa1430423f4722a32084d3),
  (4039, 64, 32131237, 0x24601284c806e951566910574059d0246222ba581250c2cc961c8243062d2267704e9804e4211eed1985724554277c20ffc21360f1c7e51166416676075ea30fe2148e82e40824ff40692a317ab00d9809201040e623da728f3310f982b162214910ad0f2946a0cb5009e780c1f81ecf22ec1323a460e8eb1a2882eeb9176f126dec2bb910c9510d7e7099c30d64e023042c60306641287d10198222cb730d2c),
  (4103, 64, 32629165, 0x2028b186920f42f0ed90205cc0cf3522eb61175010e062c1b4244b824c8a01d5620b4923b74315ca0cd2a1a44a1e2052372f22bd20b8051aef60cc860f449011d229e99272ed0efb40ed6223dd204c022529225ba61c2ad278411f10b0d16f1edb3234e90aab324c8c1312a1ceb9306d62162d2afe22d3791cac200d061308204ef203fc60605813ff30ce8411c07230a408d690feb3190ea1f4a92d9951d8c2),
  (4167, 64, 33157577, 0x239a2155f81f78e088f008c0e2853225b33301d726c0c01148105cf0cfc60c864062932c3160a52210b7921f470f72b226722586710ee12f92c0943518d131d8a10f41506ab01a979033c92ee3727ec705fa31f522311922015811ba91c03521ec80b12b0e6f10e7180618d2b00109e422c70e1e9a72a254124721e86f0e3841b48a0966724a4d0f5940e35405b3922f312222c0072524cc31e5951e3cb13332),
  (4231, 64, 33679162, 0x82120993225c30036b50ee2c083a9011550b4a222e4d205b731d300c0a209e542603621e1519dcc0aac82a44623fd30ccc23223504d442a438253c102cd004f840fb350fd673145305e6e0fe3628b142986d08ae6105f930a651daa704dd12883913946284a7138260b5190cdc71bdf124cd02343824973037d5249d31430a117e612a481b9ae2c49503e581bbea03c182ec8f031b03167025c5308a411f223),
  (4295, 64, 34205340, 0xbbce0d2092d96b29c950a90d1a0680a6880169229e281071507f8d2482d074c224c710e4882db98201e51b5b20c8b9015733078124c0700a9513a17260b31dc0c0d9221f193304e7104c92a9440d9551dc820f7312997002f6a0446208c490ad1604de71e0650522d166071ba0203b5725396236ab120380b163248680452a04f89080f527dee22fa71034b0abc1287d70184a00e19238231caf9051011c528),
  (4359, 64, 34727269, 0x23c6d1a976211a629f010bd571f566004cc29cf80b33213d580b2e10fdd70a1e60a5102e60c2d00c1cd4903ccc27cb406dc72742424b83222702d871045f60de421ca6b231411fcc82670221dc8114c421f0c0e06b260102b13427d42138392b6122080304be80dbac2771525a43035d92cc722cb282a707133d30deb30b3cb2602c31cc814c4b29af80042f08297237f20f7d30b8571ca21174f00b92e1d38f),
  (4423, 64, 35250184, 0x28fe81a1d50db3428ed4227542a5a10cab821474232580e4b909d2d1f3d914513276f8080511c3060a48f0afa90cfb213a532ff712e31622a530a4b1047ca117eb2ae991f48f240971d944227cf0c250177d8093a4314f21222f11e472c8702868c265030b07516a011c3a51da02314431de121f425226330fa9507e491d12420b38264b12e0f51c08725a822c92b1f8d82da8a24474220ec0fce21b1c426931),
  (4487, 64, 35776263, 0xc3cc0f7e221f320bb4c314ec0210113eee2ad512eca12a4ce06d3307c781d60827ca910562161c5305a62bb7002f75085171eace0ee4b14fc80e04a193cf2c67008cee0f7891978b3172501f2c0cb8621cf4005c70c18f140f001f272ddc304d881a2ed104080ebd00a2290e10c2fa8800df6237d8108d1123731f6a3106732c2942c9570d8750e9f7247f826613298cf13acf095700a749291e51a2861b2e3),
  (4551, 64, 36299996, 0x464107f53139f510fb917c2d107871152f17bd81f1471c3031064b1d1e8253502fef220ef71eb1328c4d231ab0d112250c6159631d0170aeb805085224a122ae207435169f90112b06eca29c032c57516f05172701c489317122f3562694b0bae12ca90094861bd390ad533086422fa91b951248b5293ed259ca2e1a605cce245a91f03119af2244d320f572d338275d40136b214d72d84d1e12b2cdd923718),
  (4615, 15, 36823050, 0xace918223012aa2e8820a72d22daa0dc4d09b7722df61ff650a2af28c0624c412fe0402fa3),
  (4631, 64, 36946617, 0xa4a8184cb0b5831ec8b132c8230303176928bf025862284532aaeb0913707dac07f2f0dacc2520e225cc036f90d0d70e245310611a16529fa709fc70eac925e840e2860970b2c7420a5300ac111c3a205f0424d4e251f20b7a91b2a61b8c21db2f22e640cb14072a10d28f1227815cb1153920f56a1dae31f0f90b5362458516129036b40d4560b86c2eed81d40a318562346525c900f9f010676257c40752f),
  (4695, 24, 37479503, 0x21e030f54f087e2138ae2d7082c8a1252c721251222f03136921c6d0e0461738b2e0c5047291b06f27697248b02487902d68149ac1c38e238d510d4e),
  (4720, 64, 37677276, 0x10618304310bbaa2e0b02364122c502a76131c212ce73075e21e3b425b8b10ea416bae1ad462aa222147705f4b04e94104e12512e19bd02e0120b0d721cc52676d0a2d40e20e0873422df5180d0310250778b20e6421e550a2190a99500b851864a21905039452ffa80c668024920d12e0d4251064e0aaa91db6b2ad89247c92e2950a232218d42d18913b990ef252e3d10fc380d3171eaf70e6e506f5721726),
  (4784, 64, 38208057, 0x18328234f8234b309bb60bab6168422c3f4138ea1992709ae12532f0ee93012d9010792487403d6708eb62daf526f791dfa306f552a7b1321c622c12224b22ce760eae6288eb21ea40ec29009ef1ad4f118c61e8640b744119261d3730b90c2eff81ceee170700c3ec285d61f7d9029af2552430cc20f512135870c14925ab113031105ad25fec08d1010f4f1a92e2f20911bb221d532c3c22ace821b811e836),
  (4848, 3, 38737443, 0x19a561e67206744),
  (4852, 64, 38761625, 0x44910974624be71395525ab7253ac109e310db12ce2413ce30806f1fd342224b0b2f20eeaa2d9b004f75217b0017d722e571cc871068404672234050e2e8089530fc92044230d699073e91fcf61bdab0a00a236681f756228c72aa892caad025e90f59823d6a026e50e5581d5770d29000b610f5f71ce8d22762015ad08f2e2d86609eea28d970110924c8d0a38423de116c8c0cbb52458e2f6902cb3904ec8),
  (4916, 64, 39289229, 0x8d2322c3825b030d6c60116a0c9d704bb42da871e7e205e281efad09688212712a5aa0c73305db00e2700fe010c88c0e9ca2bc0b07e32107c620a152b88823751280f408ff12f110089d503dcd1ab82239270b236015610351825ef71fc030e3b9323180b2641e54e09fc90fd91138a10e6a905fc62d41210d62142b7184960a20523d39013d72d6f925d120166c2ae632886527fe41dac61292e05e922dbef),
  (4980, 3, 39814666, 0x2408328b3110792),
  (4984, 64, 39839269, 0x255210e00f25a290ea38014710dd0521be10690b0975710d0f0b8c92d89404d460efad2e06217cea0df030350f01c980dee327f9728fd40622c25b161373426e92014460acec1afc316852099c90c0250840219f9929590156e62c7e221f622239008ea60846a017a8058f62a6062e1ac2d1b930951022f62a7f8037e50eaf61408c265cc262782e75428e8b00574198561f55509aac017c50a65227e6b2af57),
  (5048, 64, 40377856, 0x2be301f324019f11eb171e78a1322e1ca0e0ca320868f0dbf6305a503ee20a2f42652d142f501377198073158f22e6a0e4631be662c05323ea807c052202e2de41122851d6690c0f304d430d46e28dd52774a0f994231ea1bf6522a812a46517ad40cc612bf562d0500cf5031d5329447245430e70c04c611f3252352531e572cc2e147370d4882efd00cfec078660db4b21ff02255530fa4291871ca8900612),
  (5112, 64, 40902507, 0x1b7cc06a8503f75113840971309e662ffd31054a07af92059010b4e08b0209eae104a70d2d6172651f1cf2451300aaf0e14b1836913b4c29cb31341224d2c31396036701ed460151430dd021863015822e0d31fca12d0e6286902c30d236081b596045031ccaa10faf014670b34a1189206183005421f0702304e16cb90a638079e324c1607ac320d420eb061fc5921667278051ee500478b0ed8a0afb20dab7),
  (5176, 64, 41424339, 0xf1792d9330134602c74231791ffd103df6259b024c4b1336c1e326215f60d991214960a6b408f880f2f71c7c9251ab30e440e6b4188611d66c1570607b0700d0c2b6b809f4b239af12715083cd2663211947186eb097ce1ee99026930bdd80456e2197816e2c267151094912bb82165019db00fcf82390429c820c11628c010ebf9104451ec6a239d41d58f2748823f1419187142ad0de7005cd4151b72d04f),
  (5240, 64, 41950805, 0xe3d224611245e8170630ed230f5251d7c9246321fd521182c23dcf176e42f2c52974d21a661e23931eb6212a5086a10c1642092f2d20a253ed0770d0c8d30cf632d20e2ecca0e1ec01634228220d91603d861e1ed07ff72a68e1ebf402cb4250193152f21e9828a251e10c1f80b2df170f7d827d2f30f320d518101300484f0a1cc1f38a2a4b513a651f95029fc831e2e05b4a01d8b2429126f0d205cb2740e),
  (5304, 64, 42468095, 0x260f71f1d20aba62baeb1d7e32fd022068524cf921e430ec450e5a222b28033042928b0e4ad2ca011d5c81400d2a76a0073212caa1ca492d1f20e8a8044d406c6621b251f51703405035250ed7229d8c2f86e0994b0e9ab31482281c82a5931a2d231ee903d440d11929be31a578292ed17a121d0d70eba52da0905d26105361d60e2adb914bf728c5204e6b0912824caf0c58d1de430c3ad260792d12b010ae),
  (5368, 64, 42991878, 0x138910864d2dcf72dd2125c362d9551dc38187863062a04f8305eb1235010de3522e1016f8f1f11127fd32608d0548c1c4500ad6b0d68d061a824c480256c08571131ce228b30b388040e503836053480d1130ad082650d00fc20da6b0fef01798f0e8f8307a427c4410b0f0e32f1d9f90ff840db70208331f03401c4c22a0d3076e251e12acf605f1324292125b6223080f6901076b2356a191650660328d34),
  (5432, 64, 43516313, 0x1e7ee2c24c07f432a7cf1d0e50b8e30f4eb302592bf2321429277f402b890ac362199122b5510629237280ded005c340aa431f2f700e911a28316834250d22e068183580ac45104aa25ba51e4f0315980af430c2d50e2571438805de10ff0b0b5f22cf882fe2b0acca04f2e086782dcce207121637904fe527dca0d8c703f45130d2229c20e9b423ba1035e82240a2a72e16e4922c95244c7085b0245e71f06d),
  (5496, 64, 44043316, 0x13ac40d5c30e19227276274290d0501bd2a2238518bef209ee1724813bc50760130f540e9ef0958a012f623fa1130b7240512624d140392d9ad0f7072526b098442f8041d4922a7cc17601036e31e64708d622cf78004b7118e525928182790e58e0188e0b98826264233521d7cc24631289c600416286a50b50a23bf12508513e261075422f321f6101e88f187392df62201662fbf30a4720ac8624c0424cd1),
  (5560, 64, 44564771, 0x28888301b40cb630b4b1121ab2a91908d6818a6221f39130e31d5ce1d04d2d1b3307072bcb8272ab0d365089121f46a1330d1d79327e8901ee7247082b3f905e75035ae0060727e7128d48033621ffd6244992b5920dc671094c31d8126d6f143d421bf41eaf3233c6034eb19ef5010f1226a708fc610e0915b690c1c105ec209989296832e1b90cd3117d420a7d40af050f4560c1f71fab62ec141f78f28da7),
  (5624, 64, 45094821, 0xb0a22a06b1a063217c30d8900f9032986a20e0f1392328f0e035c12da39260540b2ad08db12a63320463216aa026462ad972cb4b225c106048011940349031859107a40d9522db4926325188cd1f1611b7451ea520de1304dec0a4ee06dc62669812b810eda4263391323514ef624d7719b7513133218120496f1f8830c863103541eab9287d4221e210bb3093231efa22648b2c3aa26c2d0152e2747909f05),
  (5688, 64, 45614183, 0x2a6b1cc551be4d13c1628c44175851998b1a0010a60c04d2d2078c2d00f1f08931e64161581df250fdb01b2e23236d04fd7236a40de410ea0a0adaf058ab2a6d01eba30444c02c7718f4c2cbea14ca50a4c51e3412697718f760a6c7105112d1a2255d306f81012a72af77023ee23bcb04df328f251e9e8234c913e9109a720aeca0c30c03de90aacb2a44722dad174f31bb0920c7529e8910e8b0341626773)]

/-- group 2 -/
def seg2 : List (Nat × Nat × Nat × Nat) := [
  (5752, 64, 46143466, 0x1ca74290582a215091951f2b0036ce200340a5781e5f410703290ca09dee28f2b0136c2e53700b7728b6302c281f19923ab2104cf08e4913e8f0fb190b3cc1f5b42438a1792410e772e056213ed027880e229191541ca222d48203c2f24c460d7c51602f0b03023d631074206d030f4930ecae29e2b2a5891e27707f8a074c525a810e48f31658133780ec981caf72c8181c91726d8f055ec1a9690e96327eb7),
  (5816, 64, 46665130, 0x1b3290210e2964c24098227c82261205df8106c1021b012fc72c2f20d78c2cb531ec0d250912c64f303cf0ee48248780e04d0771210fb80e0ef22471041e21d12b27fd900cb406d4f007b10aed72b3961aac10c1510cac21e7360108307dad10d122bbc600ea80fe1531df20108b1f0042af7020d4a0fc22132b50d8721e850216c9158581b35803cd30b00e266161e8b40ba6424b8213a740dd90045f5045ac),
  (5880, 64, 47189798, 0x3048414c2c2864c076d112d372a6291bf341d1ef2f8f32a6752fa132e5ef2188a08a0917fc92cb3809b15035020a3d21d2a125b781f16b224c6169f62ec4d15de729d1622c2605c22223eb0a3ae139b729fb004d5205f070d1c8142aa0129023c1915ee12c6f10c8380ffcc2c35123e7724c2e260150caf01dcae0ab160c2ee007511cb3308526104141e2a1072ee0972a0eb2f21b38031011c83207c692642f),
  (5944, 40, 47721499, 0x25a922e4310b423085d31c4e31fb5701d06245d90820f09d4e1d3721f906287ab29fc526f4d039e90700b19341027942adae22a741376818bc930c2c037911cc2f27ce521a03105651baf21d4a7228082ed4c2c1262fe0524d13104d703c6a00df11c128),
  (5985, 64, 48038245, 0x3177916e4300e4e276031c4c82ba240d2122ed4619a382872d1d4560f48d016991109719d981b9c9307c817f012a42330db72a6431e935106f01396f236c2316f41fa0c09f421ef6301393258612db512a308262141ba2d07ccd042d425370095d40b3822df911b85219408286d12df952d29720cb32357724b8e1882d149373134103bd5204ca248731aef706ed10bb040ad4c139820967909f900212d259c9),
  (6049, 24, 48572876, 0xe22203d0c20ff109a222474c146ed2ba0517dc3252452ba28110ae04ea40ecd40510213c4c07a4417de90ee6229f56236e62ac8d22d50126c318fb2),
  (6074, 64, 48767970, 0xc0d9252c21e68327c21138d022db721c722d3f719e4f1da09228182619318c1328ff21e8060118f1eac91754e2dba81b58d31c3003e8a22138097560d25508e8d0a34b1843821ad2184af068062b17523db4250c1005f90a2630d5b01f2511f28c1ee4b1d336211d3126921237200a2404ea1085b50fe8a230190ea902fd72259391cdb90276812a8213b170a2181ff5224655283941400a0db3528ae10f708),
  (6138, 64, 49300916, 0x1525512c312b0832c4ea20a16081542342f2bccb24b231e4e92936605f2c0b131253090a5430d0d819352062772f96b11dd42e68e2da4a260f004cd12676a09b51235e923b84086e32391104e0d095352444a19ae72f5f921a5124cf422b192398219f380c96f24c380040f0754b26f6210ef022aa93060625b72250081ea0b2e4592d19624cc50d61113bc3234740fd9927eb8214e210435295a90e561061f3),
  (6202, 3, 49830574, 0x10e2041e608d8b),
  (6206, 64, 49848946, 0x5caa1e6731b62322ca717449245651ab0708163213540abb30d55610e521d20224d070b4760ee90069841cad81e2120d46d0fec50ab702ffa90e3020e5541f14d0d4240a70a280b826b892d98f0e1d6237e21cd221854f22904246b62e03416d1508c8c252810b8382454623321085f20a0e81f5640ac7707686195740a76f24dc31c9961fb901302a23517083120601624dd006e57046460042c18c051b715),
  (6270, 24, 50381962, 0x2da47323100b37501470129c1093320120e1d287188760b3a32386a046b02caf42b3a6121d71b5e307b5419d322c0e929f951f1d501c2605f4a08967),
  (6295, 64, 50578114, 0x266eb0f01104e891e22a0c9b109e012040402f71172262186f29c461422f20fa522a8f00d590a74c2fa2c0a56c31e180c82e200162a6070f2ab042a804e2c029950f7e31b7ad1d6a81408529f6e140042dc66313f40b84118927307740d04a1b92224b7527e682247825c8b09063098d02612a1490e0362225aa62cab62c0c72d9700e7880fa360b5af24a0513bf3190681879217c30047ea05ea50e27330ccf),
  (6359, 64, 51112868, 0x139ce010110133024be60d8e62a7b60eaf72e46c0852a23ff52370f0a28f231ed1e963213a808a0c244211f25410f630048e13eed091d40346626f0c0ad94012633108f2a28e1f734235a6106d91f0c82da982820524d8c23f610ae942a65722441025ab0a6ab25e7923f8b09231007cc107c92468f1e8312b7d0182b0307af0d5d207c1700f250eaa704ce724b700cbb0053e730d360d309215cf0d6442d1d5),
  (6423, 64, 51634778, 0xfcb92221521782044281e00a1f2d90eeea018d40ba73225b82fe580ae8d27f7603be9242ea05d370c88702c510ae7114ba524bf7132d32fb8f0adcd12f0d2c1940dca518401246f809b9727da9236151905328fa60e123237cf1e6010b8a51b0950ee79174833068e258ea0ef941fdc80bad8178d8062170ca861fe3327c77142590912a1ee251f1e81104b1d4aa0e493111eb2324f2b8642fe95017af1338e),
  (6487, 64, 52159524, 0xb2b90b1980ffe51433507b8603e780a6392ff54185d70c2ed1d9f231f6d1712a1f39002d4f24a830456d24048044f62c8a705cec0fb950f60120c3426c2c14247223f90bb18207e405bd9293c92fff22154d2652a0cb6e0daac2f5b80d9cc0afb820a310ea262468a0a194096250b8160e8a91f93208e3426d33227a330c4800acd0ed332c9702384d0b2cb290e5237820da141e4890e9ac165d9174f53184b),
  (6551, 64, 52684319, 0x22d110932e1f2150e7b9293a428d701f3f913bf615819156ac1e16710528077ae13b5321f2e2418316d24195e12006c2bcee29d3905cc71f84729b771ed64007f725c311054d266b72c1c810462069570c4a32858c262d529fcb2c2c2170272a5582378c2156f01273259131c0f01cfd208ecc2e0a608412192371cb6f102972c37603baf274d4010e627e4d0cf9413a8630ad006cf723027165a509758127c5),
  (6615, 64, 53208097, 0x25bf50d7990cd96210cf18c252af830b505265131dfcc187f72f86116e741ec4c162252cb90239e51a2d50634d22f643172726e631068707812143d12999529c8817eaa0ba26259af0e0140652a1dc12094f12c02c1070823f411975308e670a8b8294f40fdf20d8e90e3d52754319e8b2d38819e9909f541b2392d9161d74410e6f1c9e923735133f000aa91d7b731ac102ea309e0b2e562269730f6892a4a1),
  (6679, 64, 53731780, 0xa7160ced71f047132241d0e40dbc1215ca0d2f831a840aca81117931b761e5ae26a8708a27013880ad8c10eca0a7cb164d623a4807a6f131460ee162cd220ec7628e971c5890a759319091e4f101172105b013baf2234221f45212032d14322ca9212d20ca142d20d080a21ef391056c244a926f4c1ed112e19524d8d27e42028452af781eae108e0f293761c55005c4b0c0cc107e10add00e8b9039d126bd5),
  (6743, 64, 54256895, 0x2d2c08c572e06b2d0e821f10139ea28442104ad0314d1a5ab098e20b15911072212c8234ef1bbc20d39014ce8168f017b251ebd9288140c8d420d5405fc1277d7099cc024782c7b80c0a40d02f31fc61ac461f8061e44a13a331a7881cf79236f30ffe623fc9004642b0110e2f82862618d54224ee0631831e702c7c72dc28136091774f21d5503cec1f76903d55277042ab411ae3602592178891a94d2cf96),
  (6807, 64, 54790969, 0x2fd832741026886246c915a742e44e244f309dd6143500d9972114e21e872ad6526026259272d1a808d471ffb4315ec24b412335509745119d32aa6806c6f28b4900dad092611f7e21eb38314d50fd731f60f006390a0e20e45819e3818dcf195ae0d7510ad640e10a307e904c661ce28099591a1a72d3b60f6d42f9a22bb022ef6716aae245940e3c1165b303c6e12b730b8d02cdee0854f0f7460ae312de04),
  (6871, 64, 55307514, 0x4c0f098961e2d62cc98035b116fd70ef3614dc42cbad0e266145240ba810c7762df612fe64150582d922078142a6f8075ac263583000824c492c3d919ab705d210f5ce1ac4f13e482ebaf314a623db104a941abe71648a23baf0d7010ded71315630d22235f824070298861f6990e1951ee84221f70fe6805e14199af2349220cc90502a2c3081edf623e060abd123c660b705232ee1eec31f04a2293131cf1),
  (6935, 64, 55829514, 0xace21d17910e081f6a12d0e10450e1dc8422ef109f3625c57223e417d41097b10cdf903ff125bf00d59313a010f44f17049143b7283b70d21409e271bad626c531b09926aa41b996159071ebaa187c20e3b21d19814cf91424909b532081315b91252562afec016ad0dbc40ebe62a66120ee62914404d352a7cd06a3125b4204e75237990b8d529ee601f760b4e81c8591eb450fe54258d021c2c2542408c78),
  (6999, 64, 56353464, 0x133ee1cc6623e70012852d3d4304d905d740556508895260161ce090128d0d1a62882a02ee2041c70e45515418233b308c810bb4a0eccd2422b2526c1d870247e921e4c18b932217119d0909ec5209430ab66056110e6f7005d5015462308c034190f5552ed511a6412155608baf17bec1b26507e1813ba22229030ea405eb03048f1e4910958c2620f0145504d8a1db4a260b12a6b11f338225b4225c230dc9),
  (7063, 64, 56877544, 0x115313c4f20a620ff4b21de70f7aa066ae27f6b241470ccc81f22800e630b9ac202e81d6830ab982476d01614235b30a14e1074523af70385310e3300de2056892a4aa00f15140c11d1ee0ff012a50615cc50b2ae2866520e270f8351c91028f4f1db540fd8f05ff131b572366108fc121f8432036139cb05ecd0102110599216ce2b942247b4219cb09cc90e60c185a41bfa805fd823f0d2e1321ade71f426),
  (7127, 64, 57401804, 0x73090e0b831d081ead409d6716bb50fd280e7630aed01c7a60ece708e960f6d80db5007daa17d360ce211a22b160572e73505e51187eb0dfa704ea617fea0980723ec50e9f11008c1d9140106723d9125a1619cb01e06b0e9852298631ecf13f432c9e80d5470bcce0bd71045340a038042a5287091fe551e2e3261591c646157e2265980eaca0ea8830e632c92e220d426e99174c704c430e0672bb411f335),
  (7191, 15, 57929772, 0xee8a082912650f072780900a05b9821a101f8492b050304721f63501268250f821326302e3),
  (7207, 64, 58049667, 0xe9d80858e0f66c01394233f22a7a602fd00edc3170790c8f1228642a7180a3d50459625b77206cf10ca7319e82ffae0d6621b6ab0d40f07c3508b6a2dbe51f8b80aee21af86288d12538608c14311111c6370dd9724d4b045ab0e4490445128d520176c1efcd2adc60a579143ad0a58d28b2520e240aaf50872d027451c7ab00b740d61823e981044a23ab52cb2a262871b0082ad5304ad81b9a10ad0e0cc25),
  (7271, 24, 58581189, 0x31d2e2e0c9283160a1a41208928cd41f9a224bf20eb411190127d6d154ef0ff77269441e8050948300df20e89428406067140f652222691c6112e0e3),
  (7296, 64, 58780159, 0x2a58e12c220afc118bac08e860aa790e10615303086371399127e2f1dc901fc550f425035052637101fd3091eb205672216607e640ef8d0f25009e9521934235702dc41093901384c099032138e03e8e0d1d726eb21b02905e020271505d620c837287192691529c702599510f1324daf0d281251190938404d970cfa4189610a489117091a6e70a222012a409b662346b065822e407191182642c09fae0a016),
  (7360, 64, 59310453, 0x23ba31e3392632e0455713a0b2c2aa1d9342256104b851507112fa327b38274222dbe12c24b0256723d1623893304c503d132d22f1df881fdad31751290871ea021e2a827d4400c8a2c1b30132d280ee2e4d1175191e52c0daf31f1c3319f3275380a36c230ea218282cfef1fc392fcf627604243912d2452d1b0054f00e0f40970420292245631cff111090090d30472303c6121d430f78f0e4a2294c606d50),
  (7424, 3, 59836484, 0xec59107a722f10),
  (7428, 64, 59859732, 0xe2250afca05d88280b90e7ad21ea225b712c949139941e05117d6716eb81488203612047d421515285a52d8550b5102db0217ced22e042cfb00d26f261232fe0a0ec42076971e6482bf6b0150e0d1d826675105ef09dc404ca521879024b51a82405d380c8922a6cc2acb9282ed2da320a8eb236471ecc4048e40ee0f061672a66a263441fb3205f2f0b36a0cbd70dd6d0ee230c8a51c6ce1cc02264cc24ff6),
  (7492, 64, 60392418, 0xd115076991076e1a048239960af6e0b0472473327cb31dd190eb4327779295152dad30d333068310d8a70788a0f2e92599003e811a4ed220041e8322ed9009f512a62e2342822d95116180e48e230080e02623168294051c6990ebd20810e0d15026cf10b40a0f6371d943123612b94c0c027208b7026d80a8ce283e817e100ca91298d122b5616f6c2aa0b24d48259d62a6cf130ce0db3222a3806f5300408),
  (7556, 64, 60916481, 0x2cee705fe51c4ed264e90eaa40ff90295f90a4f424b2213b74166b715e17143e40ae4f20c88186131312500b211ee160bd55238a602cb0217641e7900e1ea2d292122421f41531c812db370a792047e40e079119752aa420c088186441d2f70fe022ffa624c671d14201235317411c08c0d8e3296a600e782b0c4213c2014832c80221d962aaa92bb4f10f6206958069b817a0d2d94f0466c2340b083ad27f71),
  (7620, 64, 61445550, 0x1b8152c78a0b1030bb1321b462b1392e3c204dc2088d80a2e409a1504e020fc0d079ce0ca6322aa60ab732d0410e3050106f28c3304c2d2e0b922bc827c8326eae0e1c9198480ff570d0410da151e86a1d82e0fc2c30d8308d2925685130331c3e203625107aa00791006b12da0b22c322a9570fed92a49329c852a533235100bc4603d6424dd127ba928c18007812da58006a10b376017340e1a82375700cd2),
  (7684, 64, 61967927, 0x29f6116eb21cf262db722d6cb0b2ca0a0e1244e7133aa24cca18c262c2931aed93141020f510b0eb2442c0cf2a25aa52cba31fde90a30c2a5752d9392302a2fc2723b79315c5096c20cbf12415109c05035eb087e8294f5026eb0e44c106a42bcf41c0930e2c80265513a2d2ca48184c5275ec186e51e3a43124d04cec253042506b19d3121a2923ed52d1d22241119875260f507f612a5d009e0209d1804ef9),
  (7748, 64, 62490016, 0x8c1304f44202900abf2263e3202661960f31ff60a8450934d0c3af2e72a21b8b1dcf21e92c24cb500c6e0b883201cb24b2e0eab42b96e2d38b24c1025d7530d2f2c602237c80156724a821b8f60b13013135044ac266e8063430b0151fe38253922c4d91c4831308d16ec6133220fe871f6f0227731ab62264911df901e0d4212e50162e2c84b0ea211f9ee04cf3285f12acae22028142cb1eab003f6523a73),
  (7812, 64, 63014390, 0x1cae1fcb02c0502f78e2c1c60d62b0a51423de70dee506dee093f92442b258e90d22e012f831ad40d7581efb616f7018e4c18b4f30d0b08cce287f20eacb30a16227891f2ec24d040f2e2193251d5c6107cf0340b2e1aa0b1ad24198073a727c1213a690cd07227ac044ce0ed302370828e8d2384c175f325908213e20fc773206d0b186043ec106420b90a03469107900ea0d1940e2518504d04005660c3ee),
  (7876, 64, 63541097, 0x804a0ce850a5e525d2b1096c29744224082c38a146520e46109f651173604f411f3040c1f21f4b425103007f008d481c8d11f4742cd32077ca2bdae1ca381e70d2eb0224555252d922e5522e0a1ea2d07e0b08427293582eeef29e312a489037ce2352b222a52cac30e14704bf2005d912d640ddc71f3b101d8c26c8f0db9826e4d30e4e187631012b0c69408e3003ed12b82b0dd0321fea0997220f610e502),
  (7940, 32, 64065591, 0x15d2312b832113411a211d8900fd2207b951a50510f8124a8e1892d14a3704c52176ea306270ec6f077452912f25ae40ed841e04c044f5101a22f92d314aa15b0f00c2c08261201340a61327dcc083b0),
  (7973, 2, 64329271, 0xa5b22fa6b),
  (7976, 64, 64349131, 0xab100f3170f60829e2e23b94302a222d1221ee8276b623d731326509a2f04d762269922219036e1207f5290ad1cfa40db0d0f7d00d435133d410dad10889061e529d2600f83132e70a7220b3e11e9082d64323191266b42651010465221ed2862d1af6c0d2c831dcc260a8265f804ed709a410bac81c9862e30c2288924d2e301f22ced725a72317f41056a156ed058682db4b1eff0013d22f3f003bea21993),
  (8040, 64, 64890481, 0x17b90294a90add31f468074661f06b0439027d211228b086d50eb901c3121ab233062c2b3e32130d19b38235070f7720b4420dba6244750ef2f2472729d04012741c27320613143d20ec8e29c8b0d38a2a5290dbce2e0410d48a0652d2251809910275700e26431e8e01f6c0cb5113e450c339180210a8e11abea247a31bead24ba51cf670c9f2172d00ad26216771334c0fe32112f2274ac196461b2c12230e),
  (8104, 64, 65410859, 0xe9ad2d9230e8cd0424c26e62013990e10d313941d1cb09aaa1d0eb2d3a925345013810d2a629154203b014f970d21911c011952c20d1907e6d029782af8d0cde200ee81ea4c120d91faa6064880f52b0f4c22e6ed0d31224ef01c8950f4060519006df02c026234e830495212ab036c41759405cef2876e2b80920ef11e0d826c662e3c82ada80a49806b0624596153a20832a1da8c0dc0a140112c83805c4a),
  (8168, 64, 65929393, 0x8a461d882188ae0ec06107f92d870163d00ff8a2ec6d249050c95227de50a862214e61e0460dba90d7ec0b15803fb40d56d1d1f00dac606ef923fa7240821f04d07df72169105f361e50f24d8108c8a080192ab921f3b424dc5251c129bc208e0e23f162236c07ef523fd22e4ee132f710e8d18fa8253c2260d7087a3059690756e10e940fe310c00c274af0ed6c24aca03d522c2b02840d0072c28fc32ad0b),
  (8232, 64, 66457321, 0xbba4034e422743276ed030772b1832962e18115189762d20c2bee90dbf4275730d91410e7925b0e1c7c41dbf925bea1925227c180b2d626ccf083ac200971a93307586046070b20413c090dce42424a2bc072f5f407d2f151291e02f04dd031c840ac2916f891b3a126e78194a21a1b31c45624d380c52e0d355215f812987013e9224c42a74910a740114530a49089c4247f90a8092366e16644037572ac49),
  (8296, 64, 66979124, 0x2f72c1314c258cf01c422622d06f8801b8204c14286a3027a706cb2035232f3af2a55702a852466a21c0e2a50717fd50ffc52232e2458f23332005aa2a5432684d1be55013181e9550eba727cb92af721cc220450d01d5922ef21077423ec22ec8e19d1709f3301f431450125bef1de1824b842a2ca026740890f29f46203e5231420980d224b30fd6929434244500a9b40ba1530fcf0bed121ee60ea89106c9),
  (8360, 64, 67514751, 0x260b226930306192035805ff027ea90f5d30c2142cbf42dbb529ecb1c7c30c11328de81fd0415df90d67100fc4183e12758a0c04705aa51d3d60cc8118953138592b4ac172810d213008cb0cab9248e52fd522591923e6d21f522ff95297f40e3b51ff320f6960c1890a6c10ecf72ef8b08213102ea0a7100b4d420e11133d02a7900d030234cf1031209aef25b411104e222f3174f129ef90e8a60a40718826),
  (8424, 64, 68026597, 0x19f663111025230019d4253971b6ce09ff60453305b64045a62d3d71b0580a029291720fcc61f14122cb624df41dbd2295d002895071881b259185010edd330f481a9e72d5492422c2d36c1d877238050d14a0c810062f02414805e8c213d20ab6920718232ca0ae6711f37146210d7c70efea2d96a2aa2f247c31f94e274e610428315d61cb831a0381409823d090842b0dac9192141baa3155682429701397),
  (8488, 64, 68556671, 0xe4540f531226951deec1e7061f28d1772b03f5903fc729fd11b3c6038e5153b818f6c1f56e0dc42087f9067f2181720cccd2456610531282cc258861e9a40f3911be090b6ed0a68f216d71bd9608de32986c0cb87140c20df8b1f989069e409b09175682535123f7414333027392a6b60cbc803ef71f6b20433009ecf05ed224a703203509fc628daf29b112d0e42e00d150622360e0cb8219cb72daee20cb9),
  (8552, 64, 69076131, 0x9574049d51cc76188b329d520db77050690e801299f4243ea242831ce191e9252ed952c928140f703ca60dcb3285c6138271eb14250c724c982105119eaa0459510762226a52b1ab14bef2ca140840d04477261cb07ab4175832661223e22244422694a1f1a7300811e2100344205e0d0fec32f902310ab1bc8d07d281e60e193d501773218501442e08a79217862d4280fce61e5d81670f215cc21ea908f68),
  (8616, 64, 69600984, 0x175d82520f0b8b12d8162a7030662c10ca40112c1f290112c40e20f052872a4580f6170ec5229fef0c87510f510a6a821a5307d8d094870a20800e9312f280814b0d58e0af8d1fd632966722aaf10a592d8292500e0dd4e201162458a30c2228f2d0d45706f911403528e28082581044d0e1c20ee330a7302bd592b0b1138af091f502c4f252c81d0af0fa6714cd222c6409b7422a2e20f2b09e6e0f5991e10a),
  (8680, 64, 70128032, 0x1b7d72c1ee1ff13084610988825a4229c7324c28106081a2cd2d9810e30c106e11caee18549307e503e22140ae2656d26e9803ce226288234641c68931e8b2752b004840b1b90a0190b259227ce21b050c6120042a12fc91ccad165e31e7650df2216d552cb5508355110911de462cad60a3280d3f815d982fc481e26716983190d1078551e8f705c970feb42c3322fef5233f52a7a70e590060af11faa24c0f),
  (8744, 64, 70661587, 0x1b3390e567319f82db03200830b4b318a2721604210e30b5a924a070e9b61eca322da922554266722868b0c2f5088e230cc91f9e60ae2727fb42be53129c3041af22ff110d510248809c84176722963121cf5143782ccee1a96f2a08d02baf03dc60db5127ca70ebd3284b023b100b4052512f28997205660d9a50d41421d210c3031e8ce0736823a980e24a1cdb7253812c1292caaf060861046c2676216789),
  (8808, 64, 71175973, 0x13c7104c352c4b8104b92c35628c790a9060a4af1ef98208d40ea65230312dc6b24e3919a51010340f5cd30103177f71b2852156c0562910502138a205e50260f62c8ad2c8903122209c0f235ef0a8d130ed61c48e29817237ac225620fdef0577410fb10ba622376108235096270bbb8017612058b050641a0d62ffd22f52b0e845076090053513a662e3361dc560135524a41030a417df5297b01d9641a030),
  (8872, 15, 71703062, 0x1e74f2a4061796d1b0a61c23904ba32a5f82ba882eff32354c0ad822f3101398526e4c2c3c3),
  (8888, 64, 71822325, 0x149a927cc122c570cea304d012b3b017df013f23309e6131190adeb015700b5060da712900f0cce92a09121d3131c9001ca40fc610e1ed237d5088492c0d80ea922a1e7305c32c3380488f01fe10410e23221259aa23a6a011410c3b50f7d92515022e67139562754e26ea90d8e818ef72e7530ae742d4b60aaa20088e2bb8408a122bcce10f6503615133a12f26c23f3921e10182d00c3ed0844a305071a245),
  (8952, 64, 72359674, 0x31d8d267c82d2951e7a11f4492158314bac2223005f9115e3920ce3090140a7c8139322d2811f34e2e0950e688157762d2180d89720a0f1ea0119c100bb871e5ea2ba52013282c8050da120b1c52b2f40d04c046710d5f931059157331ceb02340404a171f197083e5044220614e131880ede712c011bf191d6090ba0e27fb803d6b295121f2ea04728142b103ae301d99104d50a0322598f237501adb5252a2),
  (9016, 46, 72878752, 0x1f7d813ee7228b0233441f0c62302d06d2c04c8a0edb5199ed1ae561e41404f431ce6d0a3430e6b90d0a7248b124cb221e6f12d93146aa30db10b5472d60a0906a179352d86d15cea239242a7170a2732c06b0351930ec20a50b0f836182d50ae480b5573142b2b3f20b12f212910a4502238d),
  (9063, 64, 73255714, 0x31c492d0f60e8152ef0724c1108f29058a4224d0305ec15e8a22bf81f4c30478a011ce07fb11eb662674d13aee01984059230a8c70ab391b8960b0d027c690968c0ca8c234f51f1e606df1080410be350ad853132e06b0b017ad0f7c92a5611d07916024238c30fc4b24c6404262120a9242470d46f10dae21e2e2ad8e2874a1e9172feb10c265133b1132032e0322076c238e10d3142ca660b0ea0ea0c107ad),
  (9127, 64, 73788004, 0x2013525f4c234b21332927e441f6ef03a4625e811ab6521e850e75518cd122e6913978229d1240391b108174e40a98e1fe6b246e923fe1010d6227a116c2c23bf2245ae01da401418254a325907105410e0cc0f7221f381296c31064522e56258b5104331c3e12a48e0f703085700eee40e6630b14626b720abf501555094f30912f077d62a5b1175c70a12c1d355294f2090431eacf1dbac13f161a1872a6cd),
  (9191, 3, 74313961, 0x1b1c53173101e2d),
  (9195, 64, 74338268, 0x1d3191ec99044d3204230eaf108faa25b2203f232ef271f032227e70c2e807fef1a8042466d1c7372ab470b02907e080a005069e9204b02ec97215f92acc6266d822c6a0127915c4d0c07000e5009f6f0f5d80586b2fe442dac22a6181074a18e870aed5189cb2d8f913e52247a608c711f0711e5a80c9841c8cf2200b105cb2d8931d9ec0b975203e813bc60ccf7299592944b214d310736044ab045671b365),
  (9259, 64, 74869849, 0x29e6a0e0ae15c1302eb42352414ecb317750d4892d3870c1462e04c09d06276c8296e51286f05b6f1ee7231434162b7129700278a07e2928f8a0a8ee16d8f230700e34b180772dae5237b904d450c0120af4203f11296c825bd025ae31c0b30b4520ea0b0f68f09e111fdd6224aa00e8d23d6c0e2460ead810fab1fb99305a406fad1492f2278a0eec31aa8803a68160a114655090cb1c2c42879422af70236f),
  (9323, 3, 75400300, 0xad6a0a0f41dea8),
  (9327, 64, 75416451, 0x8c6115cf60ed340618a0fe39288ab1f697067ae12c331bb132b6d622ab60e92331f730926227e6d1c56500b2e06f172c14b0343928fd328b640dac32d2e606f4320cad25f7224d86304e81660204c9703be6295580b4c3207ae1a191072c418fc2257f009cd82280d04496058af13ad801372138921b8a1247c6247091d6a61c1aa0b50b28dd40b3a208658247ce27f160d2d71302e261b72cb251448624821),
  (9391, 64, 75949432, 0xea82302a523c76216960dbc22c3342adeb2b9531fe350dbf523f6a15ef71c072231770c1c30db0a098330a9840d250244c42a7710069123fcf2453722d3106ee516b2d105071af6b0d4261dc3922316156cc1f38b0ff61105c81fd171ea2816e960d5f327fca0fe89214730c34513b4d1aad4229280b08a1322225a711e2481056d1cc230df6d23da32a6a620e6c23f6323db72c302105a6316ee1e5b4238c6),
  (9455, 64, 76472659, 0xc0ce2fe810b1d12ceef0c4af2a178102b2143f413b0b01ff4089f90eb55104ef1be9222e170b45104ff3180a40e3ec066841e8900f7950e7a218eb42d932204901e9f4127e10d3812150825e2c1336d1423619c310cad727f2f0cd36217232744915d280e1313042a1bbb122f041e8c7106a726d690ae0e09f9517e831038c0a672059e228a5016dcc1fe5728fb80480d0fd0d2a5cf3049210c350b05329e21),
  (9519, 64, 76998072, 0x621913c87260a111f190e6ad0eba42eeac0dbcf2a56a0c1c221c961e16c0dde603712204cd1592c181260d6780a9d610ecc21d0d0afb5289a22b79205397234210e5590704d1f3c7246330c2ef0d2d81de011e8f321dc40c0321438f187441d1f72d1452b22e2f594151161df0703f560c27621bb13154b0cb641b5712e1830786208d6b1db0e2d9ac0ebea010b80d066140122ad670d9f3294b62341124cf6),
  (9583, 64, 77525636, 0x2b7c82c9ea0dc35061aa00ea40d65409ef511d891f10f11ca911be6147f6076d31efd1258d6091861e4b51efa121f0a24d672274c0f766261250f7e408af61f333229550ef0f0fc9020642214a8012ae09e50188c1016710af4f25be9013c40b4ee1b503208210054616c26133020759924be804c090fd6b284042159410e350160e2c7d82d9851392c0b06d240430f5070e82e08df42fe622d924027f520dc1),
  (9647, 64, 78053182, 0x1ae2704f2d0e40230b742d6682d20f1fe8d1a8b10166707f7010e7825b0d09ec30ca370c1e32c6e1226cd21a12106aa0a8361f633235311a9300c127164720a5960f4902319422e940df962d3a5251ed083d11a3a92a80f184310ece132017009f627b4f1f216143cb168a40c99708f621d6961ce262a52e131c92cb212baf30e78e18cb0045d919671140e40e3cf23d9720acd2056900ef721064246522bcb2),
  (9711, 64, 78575186, 0x2260b322460b2032a2d02fe6a1f9eb0acf81ca641e1d4240072355908de40a8972f483277c627702242981d6ea2a5cc1d04228f412586c2cb481c5ed27d83236673054b1d0ea0c49701144132aa0102f155341c24825fae131e80fef30c6562fe90157112607801e0321901263382a4750ff870ffd9231451fcd401283011080444b0357820a4f0a9b704e611f3640128b0e74c0ff021ce072c3ab130b628d33),
  (9775, 64, 79103071, 0x19f0a1f3361e166187e50066c2a74e1162608e1400d8a1a0741d5932d0e71882c1c1751de070b1eb1e6cc10d6829fa305b2826f3128c151d7d00efb80ebcb0978e239b0316c510f150452e05a82024462c94b04d9124d23212ce27b422c9f20718f1464e202cb027550edd01ae2e0a1ae21b911b32e22ae30a6ee234c80d14124dca0c61317d072f88d130350e392232b724bf42a4d025092245e40a7780c053),
  (9839, 64, 79640485, 0x80b019d922690110b4c09810045a51a3ac28e042f473217872184f222470148110bb228b9117a5225246231e21f105112481cc5917fd90bc371e8520dc132d36f24fe608f47210e226d5821ed81ed890c30d10078068b8232cd056462208e08b811d9f519b892dcf424a351f3ca2449602015286f2141c7315d70b16c27fd0242511bf37098e30c18b1abca2e0aa284f10de32226b227d12225c81040417401),
  (9903, 64, 80146222, 0x2496a08e42295190984529f100d3c80b864253d9037902613905e8f0dc4113c64067f50ff7504ca71d6810fa422e927028ad258850a6c529d550ac8f0a356045e90d6a20b096264eb0172e1774d1038b106cf18d04024830879507654231af10d1522ad82286a1d36200ea71f6b11076509ec81430e04590111772057723ba52606422f0a21a76232321c0630aa880c8972445109bca0a14b13a752494f1e8b9),
  (9967, 64, 80667507, 0x24995105e32cd2928b47041e31396821c190ad192604d24c6d0c0390350b077662630d0cac314286263772bcd4277552ad94211ed0d0d32cb680e1782c9530e098130e90f84115de61640624f2a26573232481ea4d0e2ef17f151131324a3007d8a0edab27cd109d782da311202c06c62037e10bbb32e2c22a4332370e2055611ec91f24f287d3143992df230848323e8409b4d20c052d1a122696220b206436),
  (10031, 64, 81191779, 0x24ff00662f29cec264160f672175860e54d0c290106d71fc3809e99100a205f9013d54032902d4d81ff1815366084cd04c760f0c11fcf22e8ac062e20a6230a06331fa121e2b1e059224d61c1c7297f50b4580248a12e630aecd2656a0cef214366005e926f4a0e1c529b041bcac2beae20b1128df21cd500b3f20b5ae22f550fd170f5081f1ad2c2f30cc5516e4e005d71a70e1e9a30e00324b431046a0c273),
  (10095, 64, 81715203, 0x2152f29caf25a41093340d3192c9382015328c770a1d2251700c1cf307e201f670e4851df4f1f4832a78f0b839065470b5162db040366c0e87908d371644f294f9181672e0d70b9040e9b71faf6088a40c32d0df21035520b0790464500783128d5004661e80b25045059680df98106142905422ff2123d82901727357200a9004a624b24058c22ea8f1f1121192109ee424ac9173301860d1c6c816c121af47),
  (10159, 64, 82241689, 0x22d571e12f2b1e81e5622b91723e192760224a06213ab037c40d9c600d75277672eb9427ecf29c912f4211d3eb1589901a921874f025e509f572308a0a9092b9b408e8c02e280fd360ec2a2dc6c05a992db500342b0ff582530a0d5b71fc530f42b0ea4f2bd070a962091e50ff320daa923d2b2f7ae275830fc25235e81de63012e22532b095360c37701e50138040e98721ca60d9591bd6a2c8f42c1f513d90),
  (10223, 18, 82773058, 0x2d3d226014138c81a6960aaa52e4581dde40852124b760132b06541211540cdd4164f52378929f771b9ec29734),
  (10242, 64, 82912427, 0x216052a4070d50b1dd652deb621e11184612a5b609499281831d2180af361e40f155820e3d620b61193d81f2b402de42213924c2500de41156f14cb70acb42a7f31daa309f4d01565108a92abd4284f71058f077741ba2c0cd120aeb41eb6518a2d2b9c7014b40cc322d0cb30ecf09c080ac6d1f44a2266f181d90b0cf26324262f91b0390d70305e12239a62a42927db9088ec123d71ed63147090d3a626f67),
  (10306, 64, 83446317, 0x107111c010216e228fa513ba82ce3326fcf0cbb115301214d00ef650af2d1ff8307f232434a2d1d421d2a2a45702f7607d4c24a171129212213157882c206235761f1620d705241822a44309239305af16eee259a9249902a6900d1300e68f23fb418f8c2f4d20340110d0e175f12a2e1093d40e1d729f28028c22d5ee0ed0609d9628e780d04b1f9012174d034670d88c08d272af7406044267940348c0c9a1),
  (10370, 46, 83968527, 0x123325a0e2f98a0a7430dcea2dd4d0a56317f8917ce523ece0df592cb2410f640db57105120d3131198a2d94116e8316441004330850f1491707687262811f0c9202e41b0a10b0411fbce0f5e32cac929e8e09c031f2ed03c2c142b2132d0276d724ce10440c146ad03e8b0d4ea246f909b94),
  (10417, 64, 84345620, 0x1522d29ed706d210ba7422db6009711d46f229c31ef77231b62dac30d0212eff40eed30ded405b6605da410b0d2a9051d08b2d3891a7392d0e92d737229f1306292361409bab106350e124011c91f36f24a84250c21c00e008442c1851f252314a404e880bad9125292e68d2e0161e23504cd013bf71d60f1ee240ea932f9e90d5570fea803c8a212eb31e6b10f0f0fdb30d7752432c2aca82a6492cb14109e7),
  (10481, 64, 84892339, 0xc9832742d247d62176f1665209303312431aa261c2f018f832c8b618a531f5441a978187282674a081081c570137990c9b215d3407ba101e2a209d420e762c290193e71f1e9282342c36627da728f020e7540de74195e6013391cb01139cf04ee7260d50c3ca080f90040a286a10fe2f0756c13ba310e712d8261050c2b67305ba52e48e1db430ffc313bcc0a9ea09cf6138b02ca79107280df4f0a4b505deb),
  (10545, 3, 85402224, 0x305742a7e917c72),
  (10549, 2, 85429382, 0xa08f1dbb3),
  (10552, 64, 85452916, 0x6f009e121b88b044a608a870e945308d032304095382456a245902f6250c9ca30d0f0cb6f24d0f1b359186010c0cd17ec11d5442a35605e961e6af2dab51ddf02aa65316232745328a0208fb12c1c91db99317532858b1ed390b8d80b2f6281b6182c520b860089314485160c90c50c170e118d171c7501eb851cd190dc770ac702124d04bf424c8b159ef09f6823db004e0f0bb441338a1074d30e481b8c3),
  (10616, 64, 85985926, 0x1742b10073197272478c1b0c60cb101db8f1e1f725b2103521222930d5350c4a21d442275e50bcb82f7cc281cc322e711e2521470045610ff180e0a113a102b98b28de40a76c2ba642958b2c32416368219a32a6a7094f224595131b0235161d4a805db41d354092d92a603170ca03e95107b008c6a09cc60e8962d8820eab62047027cc829ff52d03204d062751701ea32413925bcf3194f0b8261930126972),
  (10680, 64, 86511919, 0x29ea61aac72e0d11600717772317a8158f00c8c420216250b3240d024c54005ed2646d2f5eb136b5252b9314cf225a3040a6061111e93823ee810ec704d4a1a0ab23be218406082a604c0324f5603e302ff192342e1ccc81f391111952a2661d1f601cd822d1014e490e9e30dac81fe6331c3300e8e0ba790ca870bb190ffb42cfee077a72fff51e0c410a710e49015f260db0b17e590f748140011088f1c5d2),
  (10744, 64, 87032972, 0x23a4d1d8921d85325b320749609e26211b2087462d0c41c8931d9272373430d660d0981302423e0501037154ca0bba21c2ee22e4829353076130258820caa1c26c293a31fad1166010dbf21327930f221101310a8b23912098b6013373158b0c82f0e4670449500d111db250b30a0c3342d34c240ec05a51210c81d6a90ce613174326fc8259ce0f4012dc2d164e92e7b7192120cc650ef290edca0932a0da77),
  (10808, 64, 87558441, 0x12e623fb1284f80b56c268870a5f50aba20786130d0531e5821e922e8182e7b21fef20f7d608f4808f031c7891f8562468b2d1840d5120c9b612dc50e1c306c270e0e30072a2b28c190cf250812e0f425aca0df952232c0b8780c911287b204ed1060a5174f60d5ee28f4e1e8e124d2811219013060d49606232114aa1e772233072154928f3204d2f1d5cf105a923d9008901216a126ff00854e03e17233e4),
  (10872, 64, 88081273, 0x2bd390b32a124712a1c72e7111736e2e6b10fbc716ccd2505623d0f2d7a61076c2ee191f7681f0ae0b02804f35260b02674f18dd22d9452332227dc1299942866a2438308bf22e04f1cfaf19b511b44e284c62d8f2217560b46201f6a0af0107c182ed4b1bbaa073b72c9ad2c99015c250c0030e196249070ed6319fa91ac360f8ae137c525d6d0110d1a546261ea20a5814954035621d2960ecf129ccd22cf1),
  (10936, 64, 88604744, 0x260a21d6990882309aa41cb7617d542a6170138f18e5301e480bcee027891b3852ed451409529c230a9d91bb0e2ad352bcb1188210cc071642830d352600f21003276452180e2a4f82d9c22ecf30d5842392b237ce0d1f90a9ae298b509d4a21c433089322741252571bd491e3472b6d219f10244ae0eb650f4e2206452976b0f546049142af790d14c18796296b00af482930f294b71434d26c102018313309),
  (11000, 64, 89129190, 0x211a829f64061940c0f40e0b62d91522bcd3076a147e90e30a2e2942e8b11c7f329d010d1a72097805c6d3068d307370adab10799170750144a2278717dae0da47137af1674d1a2e131d371435708e57252732a96e03f8f2d2e8287290a2aa236f22a7760a8390e8b8235b2094900cd911aaf32d645174d91e0a5124221dd0e18554089b11cd6d074a130cf4075370b91808db51eda722f670858502642253a2),
  (11064, 64, 89656705, 0x87380fe4d23f9113b66291430ff4224e0c03f4920a711f28109ecc0daa30d6f90b85601a842e0c4106ad246180a7790b1d023977016831647128fcb0eb9223e6621323077c82213024008105f828e14258aa2a46122f7908e910f6d90c1d51f219071790ce262586b0508404427094e4052a8119b90d967228730114331d6a131031d4ae0d8f617c8f29cf5241570e2b81a7cf199f408fe321391010151ea58),
  (11128, 64, 90179698, 0x2d65308ce91250b0a6891bd900528d1e48c04d5918baf1f42e29eac04bee16e950ee340e9af0e7f9025930272f1a94c0aa2a1aed5176c931f222a7cb01518277aa06cd21d4d2132b10f6221f4b92bcad27fe3296e60f1cb108cb1f9720732924bf80876e0b1a60dd940b2460b881133ef2a5a621cab0ac411892b0452d1916f315941ea072356c10431234ee2092b0afae23c6524d64024d80acc60b4472bfd9),
  (11192, 64, 90706822, 0x8f6d17a14105240458f2414325c4805ec618412092d3238b31df21147d11b6852d16c1e8d40cc090f12413a0203b54086900f46c0e3061830b04450239b3248e72c11828c28052f4209ea1dae227171157e90128c0dda7246a217118231e52fd482c22e1ddf50ae0b2c24723908010b104db30cec325186104410cc241952131ef82379828cd30e395236a30a4012344313c771cff82023501c761e9aa1f3cd),
  (11256, 64, 91244386, 0x5f0930fd500da52f52d28e031db6a2a518044010f7572c3092ad96224a50872c269372d2e13178217e6a2b9e625210245c51c74f085a8297350115403c8e0d3d728727252ce2db090de0c150f60c04c22f5624bf33074701cb53152b04cac16d45097cb0efe42d96c1c092192ca0165505e691c8250b6692a4b11b9821064a0e2670f6c9163b71bb481f25521886153c526ca4007091f3390cd46094a203ea4),
  (11320, 64, 91751310, 0x120d2039d221bcb00a2b1ad8601a7829f1320d920d6f30cccb23a931ea8620c0d202ef160ea0df280fdf0292870c8d90a46a0fe6c0962c0a3590975027696254b80ed950806d02db72a9720afd5072e115cc40a65613992238b90e8cf01ecc0e45920771142c30c9ad03b32126c40116e0112a27f6d0d66101d5728da10b1290a511232351384d068e90aa8b0626f014390e9840eda814bb221a4d080b723d15)]

/-- group 3 -/
def seg3 : List (Nat × Nat × Nat × Nat) := [
  (11384, 64, 92289080, 0x28d2b29018088081867321715252a81e92b02c820cad422c04077792a8770cbd80dc070f5aa0deee0c8a60ea4e0b40b26ec924ff113a7600d9907c6c0b38c2c037164150a96f10e373064c0ca9227acb13bee2adf10a21402cc62538720fcd2a42e1bcc20b0f0197d11c826309b52359501771218522774916f4a0d35003cf0252412e56b093eb086b3140a80c9480548b28a94185f52346a3044d0c3ef01267),
  (11448, 15, 92800916, 0x97b5310b2088ab0e64924030097052d1b72c00d0b92d154a524b421046d04f970ac4408025),
  (11464, 64, 92923552, 0x317ee085890aed3194aa02d532ddd0220ef0a4761707823b9926dd52a3852d1c90a9650a8570d3d820fd721cc431d932091430d4129de22478d0ac590ec4c0778a0d9c804d122ca931edcd3164b04e5226f30240730a78d11432294580c3900f4d812b6e224b1104a60bb850caa5261581399508b7023aa60ea8b173b70708a0134320fb417a0a0b3530466b0992308e4d16b6e2ad50066a11658e31ccf2a4cf),
  (11528, 64, 93456818, 0x138e113d471f7830a531254d2047e30f6e40d1d40a14a0ca6427bb92886e0ba911b956198510123420d6c2e1a52870c0580b2c2780b4f4306230a1d52088a06a56268c11fb41207b50df4a143672ca78140f40d56f1d86325b020ca750ed460f8cc22b342a1290e830228a625ab0231cc27caa21c6c1c9e70b4e90b0780a3451ffad2aceb121f71e2c32a88d295ae08d8f2c3480a0221c94d027f630b5216687),
  (11592, 46, 93978998, 0x977123999321172deb510e4124b4e0eb8203d6504502005d62afd12048a2c16d0e3c904722223502db682b2cf09f5030de80248e30f8309d66009942e4710f1132a6712e8230a16c284f421a281bf53272f71040705f4e1838e1228922031140a311e902ecc71f5e722f17120991ba4f103b1),
  (11639, 64, 94357119, 0x138710be0b2d72e178f72080121a2e18c672506c0e02710dc308e13275b0241b221fc40fb580fd8e02dd609e0d037691ed1530b611f2681853131c0226329226681f1650ae660240c1e8b01ad27075d82d2c62597523767110d72e0832a46a261440a5902f4d114c2f1c0830d1662ce25072e41fd35261712338e0e5950e0ca2db112d0510a508241eb09d930153203f4d09cf310d6a236ad2ae4d20b4f08543),
  (11703, 64, 94888594, 0x1f7c707434024eb295c7032670d7062236703c812796b19d8d1efc623a6c0114f22d6a22029238c51ff1506d0e120af12be5044cd10db00dce91762c2d4b829f2b0f437244e41c68330491121cc1f375047d3246772e6701f2c70d7a204fc222e072410713ef9075262628212ec31e7e32a0c92439821e0a09a920cbf20386729e810d4c8229c81338115339319c2283d40fa531c6b4152c72814e1cc6a0a4a9),
  (11767, 64, 95415075, 0xe8472cca101fb82ce7705a4617264236312cb270e3ea26247265cb2ad042dbd929564168ed104cb0366f2352a2344d2b9820cf6f2f5831fcf7131c723b76091290db4c31e970cf0709c0c025f02dad20a334074d525a282c24d3114c2c54f24d780e4a31da2e0e50325eae30626261ef1d2510083417df623f6c0919817f8d2316922ec41c90b0993012826261e30f7ea0c8d0050f20e00b1fe370c119107ef),
  (11831, 64, 95936730, 0x2302b25bb625346231b904e142dac4133910eed0264b4220240decb27e831b39010ec60d9860a90c0e8971e1b108c6f2966e09f992a7662c0511d72121dc602c232608713b75227391b0552cd492b47207f242876f0310620b0b22a6131df62bd46080d118b4e0fd150bab511bc1090a21c9d608cc32a4cc288642f5b40de6b0e70203f760e58903ff4130c90b57725db22510423fe708d4b25a0d0d24c17c6c),
  (11895, 64, 96463188, 0xcb970ff93129e72020a220b41f4c10c15309e1719302037732da2b01c66189a305cae200b31d94221c540a7b22a90f226981ef7106fab084950c9c9067d31856d203cb25b7017a872c8480fc121cb020ce4c2da072a64e25d040c7cd1df8305c191429628d871be8624408254ca24628181460db39245522e7e20820d04f760a9ed05b552072a14051196ab1fcf9200090a0e42248c0ac730b578076461f172),
  (11959, 52, 96985982, 0x11d1227af07ae61e8711b7ed1c46923dc70e1d00e0f003fa819fb71436930770124c20eeab20b95235d104a5124895219372612e2eeee0f31005dea0f5d009fc1131d72f8062014d1a389298070ede1130e71d097107041056105b6104e2d033362486a106650e16e2c70b24ce606a060fd250d241215c12c92200f6a2850e16651),
  (12012, 64, 97411644, 0x247970972e1b24a240551f7d6314e9029a21e9e4161890258a215f709057143861584924cac2f6d5140d81ca8e0fe062af8205da723a4c06f2a0e7ed24ba628dc300f350eab722a1003e371bb192ff160ea6713ab109aca0b23504f042484f1076a2d93129f4f2cc29292e90214c044a52d9ae1c2630451709a2c20f8e0d8c408dc4025830bb14282452ba2b1ff91087f80e6a223ead1ad74104d6058a12e1b3),
  (12076, 64, 97943783, 0xadc927c552a7ee275082d88324c2a124610b8c82d0c72fc860de460efae2493029f91248900b4ca2df4924792316c7100010d22f1042e0fae329de823d72133681e23427c73235791682e00973012110e4972c7e82a68f224090881921e4a140020aeb10d98924bb71400e304270c3c913a6a143730e2262d5f11d8b6263d90ed730e5d1227e52c2b1251922fef003d59244720a69810e23104e31667029eb9),
  (12140, 3, 98468401, 0x19f2d0b5721506b),
  (12144, 64, 98506655, 0x1c83329cca0744c1fea111ac72de6d07730069232da4e0aba5207a418aae14f0924a761e84c010a6230e21720f1fe71133d510daa2341724cf00672f21c2e177c82d8270a7142260f0f49624cd8277810c00d1e7c6259cd25ac9124d00164401c141306524a4313ad5248231fdf20a7e521c172b5630ba8b216421bde50f0e21e12e0e661130f705b99142300ae892e04a0afe927e1205d2b1bfb6225ac00613),
  (12208, 64, 99028430, 0x5c451ed541f1a12d1f306ee30fb37287100a42e1faaa1f062105b72fb2a29a821d4e40c2ea05d442bf132e1c81d98b0d23009fcb2e5a2269330ba4905a6a24d291eff9105270964a0a607076821e7730f96a15452190e12318b1f3b20940f239cc314b62efaa13e441d30221e79097030c2411d6af0f57225b310e18924906220050aa4c26e2b2d6d51b6c1036520f6f31596c276ec1044627eb92c8c322be4),
  (12272, 64, 99550372, 0x2674c0cbc9035012854b0ee2d284ab0ad07167c9034982d0e50fc230d2a7072020b2851048f129f30b4711bbaf1062803e922336c2110d1e0e222aa20b37908d1705b322375607bc62100216f291d7481334d29d8e1a8c705f1227fcf21c50238f82c9f40ed8b2635109721227420b4cd24d2521f4b276b121b930df0e2a6f310fad2ac8a11ee90712b1ab580e7850d14b1798b307c119f621870d27fe505cd7),
  (12336, 64, 100076280, 0x12b8201e8823f0916ef223b572342705f08259c80906428ec8274f609ef914471107020b94a05c720a9b1269781538625145277c12be25308492d2e4087d9317331c5b3139c83002100f4b150ee09d0105fad0cfe225197111b917081153f10ddf916e48013480adcc2070510e8a1b2b705396084b41e3e406c260eb93027a40f40801ff20b1cf3224a22850011321345013a11082c11e5971da7701b9223333),
  (12400, 4, 100603929, 0x316e8199f716cb22a72c),
  (12405, 64, 100632877, 0x29d0e014912c8142de293068a0ada41fe76133b82db06167521d7e20ef09079290a4d2077a201076251c22911327f7701f471d04c2a72f1fc330a2ad177ce216e6018442fa67249172de441c5982152c29ac10d8350a54e185612a4b624acb1f42f1eaca258a90b11903ca72a590253521a2950a4b819b051230c0cfa51eb19121ad172ad18fb627e1824a711e0140194823ba731a4f0e5f6249c929cf215d6e),
  (12469, 64, 101172169, 0xafb404dc1047273186e235370e5420b19720d7622a42005cd1b1a11ee4431d0c13ab42adc129e940117128e1331c8b0c30a261b508e8a24de1093f523a021c4510186d2434819ea92c1ef1b798142f10712e2bbb1205251f66c2bb0629b0a10e360e9c326d45113460cb832b86b0a3b711a2e2bce70344326619253981b31729f671eab203ed4322592449518ef024747191700e30d0abc30b0662f9c11e238),
  (12533, 64, 101688264, 0x24041255051f9d9074882b2ec0aa2d2cb4a185b40882221bd71718d0d9a41de6f25f05044760820c07c2928fb40be3404cae00fc3118e11e5aa09bc4237a9015b40b0c9245702d02b099f62708209c6814f351ac37130b0125f41328a023062cbed014871a2e208989246b10c0342a549142891f24323e942d6370a71724c5615bc11a58908c952e349087ec138a80d9a11435408e560cdf00daa80612829787),
  (12597, 64, 102213124, 0x11101ea572d1342ca4505e060e9990902519beb28ed22a5a70e79026c5727ea725ba40fc48209e91984c09439219a92a5032fb6e16708009a909b930ea8c2c2351e2f70ae042496c1c3752db2630c291d794099672423906a351492d25030009441430307dd10e5c5274910cccc228af2b8390d4281614c02cd6034ac2331108ce21c6f80f0cc209a90d74b0d1211d3831064d2466b21c092f2420e8281c22b),
  (12661, 64, 102736389, 0xc947105100ca10082590a27508c85079232973210ac52c8af0a4830062222941023d109aec1b9ad2cb441f1ab2cacb232cb20c0a2208816107231822dcea1e7d21cc792031621eb91a58128c3210d50027f10df8800fd8292f90f6480842a2c3333006226a321752b02eb026d270d34a317230db931f363142cc0594f0816a2f8182c955043781f2912a7c2288c30918d18b531806111301139b00ab2621fa7),
  (12725, 64, 103260798, 0x255f60df2f1de451ca4e21c711e115248f71dc6c02dea018c30a3581623302539253b921d510785807e79221f81c447264d80b36e2c86e04c4a1ba220a5d81d7eb1eb6b138a3126912a7c8143080458a1956c0fe8b05ec123b8706e210d0b91d201253820f8962694d0a6af17e971d6c310179292a331f9412f270dbb6139572ee8507de210ef31a3aa0e8443041922eca03cf70a2301454821f410d3150e5eb),
  (12789, 64, 103792117, 0x225ce1d3ab0372f17c123142e2d1d6247f62647212c4413c150a1430840c0706e02dcb2602d0eeca23646106b930fb110f4e14ba921a500ba6320fca295080d9470b5cb2f10f05bf30d72c13c382a931104a92c34609d2717fd10fd68240422458b0c0b00aab523e8a070890db101ae64285a10b3540d8502af762518106ae906c820cdee315a20b86211ed70ae920e9b12ea69175f609a631d9e52cb522ac10),
  (12853, 64, 104309978, 0xa14d29e4224d15240742901213179218550e85404c2f1ed6d01770114c22fda52500f3062817ceb00e110135418155275120c186133a627c792a709245412368c15b6b1e510258ce253c910d670d1980e5320b5a81b6eb04a0225e450c2042dba529fb208618053e40b46c1398606835258f91110307def2449030e220dad62db6729e2a0d4ad2222a2ef411e9220e76724c930aa2323de3040901fd4a20774),
  (12917, 64, 104835177, 0x2bd0c18d991b4cb14fe10458425b01249cc2c65022e431066c0d2f9004b81c99725aaf0cc9322c670aaca0eae33212720dd30fead007850d0a42c5e42dac9063040a4ac2c1041f2e105e6816b6230b591fff20aee51063320622075e40c958208040136e0cba10fe240e968250c805f55075a828fc829f03140ac13a0315db6319ec30c66188d430ec929de50b1280a1282a4cd0e22b026b424bb22c0c5096cf),
  (12981, 64, 105365559, 0x235492aa102dba130c051e9d00c9ee238d308b0b1480823ae11e0b2242570b88d0ec240e3c21055710327293d510dc228eb40a3cf2806a175d91de7117ca31e6741a3cb03e500d5b10d415218682ef1929d1709e5511e77194971ced60d707154f2267af0ac3510fae1ed981c425110d0178a42a51705ca226f962ffd526eb60dd021e9662dc671b16528629261720a4c6143e10642c0a6502a7a3127f008d2d),
  (13045, 64, 105881842, 0x1b72a013842d8151d8952cd90037660a45708689237d424582234f41e16a05c21147e12b94621f3718cd2218a2244c524912244b4139332fc4e00dce02bd92b06e200eb0745025d030a06505cc82ce222af8601b841b475247cf03f26133b60512b02c3326d14046702262a259122378f0f417044211322d2148424108259ae04bb021f6b0d7d02adf300d8b23ac300b170bb4205b6e225a11ced50154a22470),
  (13109, 35, 106411158, 0x234ce0c067222d50b9020f5d920f06048290c32f2f6d21c66f0c3ab1e80105b7802e76016180d4f605e78107410b78b145d02b9a4171b40c2b600831140932caf70b3d52a67626f101f4c21dbce0ff4c029931c9140ffc4),
  (13145, 64, 106693137, 0x247d01e48d0b5812ff170ea6418f8502cd40f50309181285150ade41f2cd3016901def01894037382d90f264123154e183260bb172e194057d810731235ee1f1e728f450b0070edf1298cd0fdee0eb030926a2218c2f6cb2a6cb190280d867078ca24c391972d0754a216d3286392a968148962e7522e83308f270e5941c3041adc220335096b610e222368221511214e30e69130d872a8a1188cf07cf207e65),
  (13209, 24, 107225283, 0x2628b238e61b2510d791106d80f54122c79284c410df5184d51c32f186f50c0c414baa211c5105320c0c825a2710ec9253a30a90f10ed700bf50c94e),
  (13234, 64, 107430011, 0x131aa0a5cc2c264079e508f222a76719a821c3010af45220ea0fe9730d330e18209e102cd46232240b2622a4a61b97005cb503d881fb8c2bd451ec7204871094f729dac1ba4828f31106d509447178aa19dc125b6f250a212a03228b61dd52248f22da180448f0fc4206eb730f3018b220254b0d24b21a1528dd321f0613a670502e2d3c81757213b021c6540e3ed19daf265c825282038461c0a3168ea0b80e),
  (13298, 64, 107955008, 0xd22a114031bb982ebb11b811122012c78e1aa06207af05fca1720e2d2f625926139790826b0f3f50188c13ad91a793227a8044d22a7b71f85818512130031d6270756a03faf0e5d00b3ab147673105600b2a189650d450011b52b4c503fc829fc401f4f21783107a614c0109fc20bf8c2dad10f5c91d61025b8a2b5e41052c0b9b80ac380ef4211f541d4a606265206711c02d0e161225e7107c80a2971e828),
  (13362, 3, 108487575, 0x932f08be50ee95),
  (13366, 64, 108506420, 0x85550cf19133b2093860f5222d3420e1d30f7860e0f30ab8b0ff660c2e9015390e5262443824a4205d590b1f001c512136c069e22258a20f2704c671dfa62d18322c690e33116e0d0b0b1159e924a08227b32a0582f5ed05d2a122a9227f71f2eb05ab903a32145b720be304cb30e8101d62a0e2cc1ce8f21d16113d41b3b81bb121e9920d5d93048b13bc731e35299580b4c51076d28857223ad0318521d61),
  (13430, 64, 109037257, 0x12b8257b824056167871772c0eeeb2534129c580961727be904d290ec142c3030e7592d99723fc11d048138961aef5224761754f0e0812d7311f69807d672d88408866176ee23653237b82c866260881ca6215e132634818ff405f231e3c30b134266b317e6413aef04e8a0bad71e78c09b0a3169404dc424b0f2822418bcb04e040abb210997202a608e7127bae0feb62d96e16b33116cc24cf1314f9246d4),
  (13494, 3, 109560708, 0x20c890de291ebd5),
  (13498, 64, 109587065, 0x9f2520ed72b1b720a8322c172eeb80e9301ede5139e10aa4f0bb2c2d6d21920d036550110b06e2f2d14c0128a2e6231df022cb6223fa318d462a9a90d1f523fb729deb2678320c4711d4b24a19285a82d8f1176032326109a7024024230e521ecf1f2271fc2c21747105790fe552ca5131d7325bf423dc4140c6226081db891c2b331e771c72c0ed702764e2acf125a95284092346312bd2088930f76804e97),
  (13562, 64, 110118430, 0x1bdd5233841ff050258e1dad81f4092266d1f9082a6b804d360e2511de922db0b0e4e4041150ca380286b1f08e2051607f0d23410245e50bbcb057632182b0b8150cef40fd620996d143eb1b61624a4e0eb94323f30d00c0f5e429fca01c150e8290ec962bf540edc41f1d7137a90ff0c28d461b84624a14094e61842a02e4307685215cb2c369199891f22a115122efd904e09147d31bea516949295092202b),
  (13626, 64, 110646236, 0xc3791b3961f4e71ada604c081a06d1cf2c10e321f06501ff50f48f2e0f21392d08cf70d2d40c3091b12e26d9320bc907df8216a80d75223bd40b5532e0a52306d1eae3289ea16c4e0ba2520262226d901e4626327024740e6f9242eb22391214f41af8b0eda229f162ad3729d2d2ac181d88c283850740e26d7607bd5103830d5d325a9027a820c36c055641a8d423c6b104490b5171dd770ed881765805cb9),
  (13690, 64, 111174612, 0xe7a3211ab1cfd3235b52b6ef2c178116772c2582a57130ae41ee23138b80b28614f4d107070cbed12b261e40b314b72e175294e92592b01013308611668e00ea316c96291f6174652aa6c31faa0444a29d810bcd724ee2183152afef216990db662a54e2635200c550821723c75083851f82b063540ecce0e17600f4c20ee7158d103c101f1780b4d00042e1da4c1bd780d06720bb828bb416d2f0d80d216e7),
  (13754, 64, 111691141, 0x106ef21a4f28c141f0721d0f30cd14259c70fe71120ee2d9c418e731f7791070506cc72400d19b4e292711424a0e0a21e3510ea8d322ee2d2e7013591f6af23f9729c511574906c462ad5224aef013411d470206472aea4018b9098300163205c4e0c2f100d6816b13269491ddcb2b14e246ee266aa17a72284070d8321278921370310921f3c11ac272351322e162587522e81180a324de626f50260b60c8ee),
  (13818, 64, 112214713, 0x204b406a580aba8142440e4d10da450a0ab02f23307430d9ae25e861b15519ca82208f2dac607ee929d6121c39107cb13beb315e90ee4624a360eca61dc28215571e0ab2504622e8b08de72242129e97235580db6905d470b118118d81662f04d8b260811e123251d91eb8d042d62ea86025891ce29142f20da190c3ea1bf0e09b4f20382276061008d30e0b2ff2308c4c089070daed24f520dd9622f0718ab8),
  (13882, 64, 112741526, 0x9c561c04e28fcd2470e0730a2fe6d035b0107122254c29474105f605ee50afb130974122d315c502c14d1f9d20a4b91666b0748330ce81f2170c60e0af76027853045002f820c2c6040e71209727ed110e391d23522e39107ce0c8982ffee232250f6ea2a72d213972c08a0b4782da30284912c0ac07d2c16e361ac301eba5051d316f4419c8d19be631b8e133730e378269792524731ce810d0125d8c090e1),
  (13946, 64, 113264062, 0x1c569142c513761185421718a21cc6105661d4810702404511152d807c36107e3131eb0a1560a5b622c9424a3104b090df76130d7240712024d128b4270850af891c8d60ac472617725ba3235850e0682c94804d9027f832cc6d1b0900ff05292a7151981fef509b61143960e1c605f302a6662e00c0eb67095d322a922fe130ce8130cd904e76138181430c03d2d0a796097072e0c223074011892353024b44),
  (14010, 64, 113799831, 0x1ff1717a34305e525ab60e7971d4ea1060406e040d766224d71ac740fd120d889288091efe40f6921488330b34130b1286c22818a0e403099d722d5630a4c1a7422219407c331c15821b0128315285611f6280edb92202622df104ae718aa331da105b652318512ca804644259c22499624ea8123072308b0596d248a5104610ad18149b310bb61cd6b25f14260ac2fe2c0cac40aa301c35819ba7178cf2d4f1),
  (14074, 64, 114314216, 0x2cb2d1e84d05fb229b461d87301f18097731fcf513f6a0f7772ffe12cb472172f1a3282ade40ae631e27930ccd011a8048221dc042346d1b60e21baf1bed228d2d0d6a12a58f1cbc3252ae279b82c50c09c6c2648e2e0b31f25318c2a25a080d341258e80a5d9139d4034ed17d270acf112ed022161035891d2710f842304b423d381066a22fc40b4ed0dd980d32f0cb4d1e5ab0aea720c701c8041e3342c1ea),
  (14138, 64, 114836744, 0x99e8214300ac882db7802e6513969072af08da303d560aff80ff0626594220c41e598075ef0e6ed170762ddd601eca226d51683521cd6010f91021805ed62c1b111625275842fff02330d0d5b806cb52532c274581d85913805276cb1b34a239a72e1a927db00fe030d298284971d14124869223552510a28e05036d005d771144a1fef90417224df023aa824ccb03f1400e021f4820cdd5010c20761108d26),
  (14202, 64, 115362041, 0xee73140a503714169f40d965220ae06fa9092d506cce0d8f42324903c8b22b512a99728e0b034d30d594185990b0c827d73169d30d76a01ee20d5cd00cb9017772184c0580d294912f4781e965286b62c968219e3084820f7241f3732a6ee0a0010a43424d2a24e732496b1c4c60fe81245282b1eb10d8721fb30e83209f6b0d33009ccb04a8a0831029fb51b10704dc607b692745724072028a2055cc30c0a),
  (14266, 64, 115884927, 0xd3a7181e929e662ff4d11a8124dac2fda20719105dd71696423da90ece50e44224d941dde92bd030e74d119851756521461036b01ce2a2756b258cd10d64293e10804e07fb207e210ee8b26138237f12d1ea1ffa12d07810f111d6822336a16bcd2c7930ea250440b2af8a10ed62c924294c729e2d129e9074a931daf132d5206252ce320c9571f69114b172e9ce0a3740e9692740822d5528ea91432d04599),
  (14330, 64, 116409438, 0x27b6c004c422e4c2c530232f72e0c82a49003d79208b32fc500aacd16e060944d1882a0ded52dbb427c0e29e481b717045ee2a89817c73225391802a12d83244c32d3ae2425829c360e3c50cbb21e985108a810dc50c8b628eb31b1c11120a2ccf80178c2b47811dd20437307ea203e570628705e440b2192b42a21b451f4b7237cb2dbe2157cd322f1306ee2ca950e9861fcd921d04230f81a2721f6c912aca),
  (14394, 64, 116940108, 0x255f329c7200de307db12654a092e62a62f0b3d6064a428ea5261e50478e29523029e4271b6123e4299c12746805ff42539911283246472846e2456b0ef8e2459129d141b8101a12626e510ea6c1fa770a04c0df78060820c3352e8f5084cc28da5241990c1f50bccf19bea0d72d1429010d11216731bc1217632231ef296711da96143e22dd9230725220e4143ee0db111f64e2a70e05a6c047cd045830850e),
  (14458, 40, 117464567, 0xabc628a51138c91fd330b8d91f1452a62c236370512424e2b241740b185219310b63423788183d900dca261241fa922da0c259ad16cee0e86a09dcf1dc1021256005e200b1418f511fdd2225a21aa812afd30b92b203530e3d71e1b904f91213251bf77),
  (14499, 64, 117786191, 0x10a8f1c9c93192117ed52a44918bd527cac247b208359082f00bae919289307132c3cf2aa132b1b008c751ed670e891162e9220070e4f6099a81c0170ac030fd3113ba90aa7820605297ab0872f31807215932bb172d1d321fc20d66b07708207e205e5422fca172281c5f21f2661318129c0e03c95179171c3791c54e1d68b233930e00700d340adc22fdaa2d23224d12095ea01f0b104eb0d8a1116c104d4e),
  (14563, 24, 118323868, 0x1f38f1078f2b862296a710e6e2dd4e166ca323b70db272bbc721d912d2cb0152210e2528fd21562f0346822d0a0a5541dec324382260f91e08c1a205),
  (14588, 64, 118514664, 0xfd48055810f54822870208a50345425b89007962c9140e3c30eb8c1d4a91ff76035ea24d561b0680ec0d0eba608c512b3530fd2330b4e0e4a12ad3828cb418ef20b5820694c0e2a116c832bb8b03eb21a2a10deec0e1850b87426cee0db632a4a70373907f6e03d8f2acc1250b92d8e80a8c304d7715de51a003247682bc36218a51f7811e3972348b02c4416fa62c84a241551ef0f2a5f301dd9316a21a868),
  (14652, 64, 119047173, 0xaf9208741072f4316e612c2309c44284980a6b504e652b22a31d22104321e2a62956f0dab61b8e70fb971c7f80918c14c552c8c9131913230d1b80a0d8c2157b70e20320cb10d8ce2266e0eff5077883158e259250d062047211c6b32a6c804f0616b57232c52a92a2610d169a90ce6614c29184c3111590a8262d82d0cd39280011bd431447425bf913bcd2c03203d49283f729fc70e690239ef19fc21780f),
  (14716, 3, 119571467, 0x10ec80e4320ff8b),
  (14720, 64, 119603432, 0xb5021b185213420d2210b0d41d2a30dcd40b1061e3380abb524141047b40ad810e3962d2e902b8d18a7924619076f820418140080dfe7189d42a6c20cb111fdae21b740d1b909c850eaf50e5d70c4a50b3ac3061222b260b8792e9852e0361d6ee01c4e03fcf2628c1568f1f773107a9285c926ad620ae91bdc61e9ea1d613118cd0ef59160b629c8412a152127612a8b098a60d4ca095ed1126108c651070c),
  (14784, 64, 120127600, 0x260d417dd72e7102f4d31b8ad29b2a13bac22541014c62384b1f1082b2f01f55428fc40cc64235d7098091e08617f73006370ab4b277cc04c6c109782aff50eee80e667301511e7512cb0d2db4c0419023ea630e4725f930da93227f00c04e2486c25bee0a7630ae2313f12122ed0714e26d6d2b8c22d9570e9d508f2d0356b2c8792f6991eaac1ce51107241eb1001c9705e4222d17269750b91401d2e296d0),
  (14848, 64, 120660214, 0xec8f177731dfa5222aa134992a57623ba90b0b00f733015910ff24131b31ef8c0d0f02aad2004b527ec82af8c127c7049391e2c115c241ec590e1970830c0eab1015ae140032591818cc810167190d509ac4160d900fee1b8f70b8270b0e91316322e4f07e97263412b8571a9f60b9442e2b7180191c41405bc70ad10219f62c3f109f2f128c72a5e927d79272242fcab10dac0d366127910edb22d8b90448a),
  (14912, 64, 121176776, 0x61a62e5b71db8b2cee80876525a8f11af509fe504d050eb0127fc11b96f224a61f7eb2cb652a417316c1217492525804f2f29d1816b5931fe4222ee02ef424a1802ec62a40318a652a6a324ff704f4a2144302b152f2b807f0a0b4ea0448413ec61296f0c3b1013320b32d1ef2227cd81c8970fe2e1f0af0af4b1c60f027b40d00b2dc2e29fcd0ccec0c9120c3412bcca2234b0b5010ac8b285d909fd10ad96),
  (14976, 4, 121705582, 0xd0b5107f8104d122102),
  (14981, 64, 121733839, 0x2944f0c3852962f1e2240144b23f900e169246cf1731816742140e10cfe40af70086ed0e4eb2e9391da531f4772a6093152e0d80a0340a30128006d130f660d1310fe792303803e6d15321207c33048d070421baa8266af2ba560d2d323082027e716fc304ed01a4850bac71c98715bd80d88329e30110f80f5d6026e431e4c034962021517ee121452295981f22d0d6b5242ec23d930e2e3169462951603334),
  (15045, 64, 122267186, 0x2694621c221e8072a334106312ce6b09f550e0e423e652d7a5252f0126e831f721dc72105c42258722e820a7f529da20b0131847231c58115c131cf8306870b08e094e50afe50a60128e42215c810457132b623b8905f6f08b4825faa1ad640a8441af841a7d62a0a206dcf29d2a23f0f2456221e6b035a623be307d2d2bbd8218b82392c2daa506ce107b4c097cf0f667165ce0d1a40abd3145941bb97277cf),
  (15109, 64, 122789894, 0x153561df4c1050124a131499629c8a007ac015191e9420e49417714176c21fd050316514f961fd2a1bfb025df330c87294f62d13604f590bb012d9d12e46f2acf31c64401d462412423d011d7460b596024420eb15274b9125e42400e0fbab01718106c80e0a500c560ad99007482832d080e906ea7239092c3302d4eb27d6730d041f0420096d1de2c097b628c91004b6071a91e9b50d02d080740354e0d42a),
  (15173, 64, 123321139, 0x1e86086930d58f24ba815ec42ee830e0b7224d20c2eb039691f6d403ca42717006cc407de8315f92697600ece243431cfd9110e80a22e1e0550d34b0abab1ed8d094b22adab132f024d932db360a5e6274120de0d1817521e810ab68095a905c5509a2a2456110e8c2f7692344c136a50838f24482227531324400f6b1e150199f8227972505721238212730164a0c0721bb4b0456608db430f0524d390ce27),
  (15237, 64, 123841977, 0x1fe68245ca236e52a6670e4d006c4f0a0aa251870728c2119130c332c8420791723f152240f2bcec2808a234422cf3727fb324bb9296122bd2822353275c5060692d8861275609eb52c1ce27c86034a22066b2975528f590d6d70c7781e4750cbd91206b2608223211250ce1a62d25073076980dde21e8862cbf710ca9024790829821c8a1f87904555097190cf8a00fc513bef0daea096c9127d51f09418fac),
  (15301, 64, 124365633, 0xb1910a0312598e05a5009970231981278c244c60a34804c381d2560feb51b72e04be52f7cb086311399323a0424c0c2a6b724c991cb2709618240901e00421e06148f63189531eec2ecb406d62240d310e380a66a0939619d160a1591f0d0014e421a523164e0a8f6188240271716ab0286520c16707bc40f4d923ab91b50a0da380d767251a22e8b22c2b6296cc21ee7135e91af0d292a83068c242d01fb58),
  (15365, 64, 124888446, 0x262132fad91a49421bd130547105692ca170b3f51f975195b01066d140d60ec5324cae068e224bb41e285237af2f5d701c6c2cbe329ff80c12e105f40de8a034c6235942bec5203a61d1841df860caa60a86125242244e50898f28f2c02747235692d631130aa0122f222161e70724c5017de610acb0a2a501310247ef13090252cf2c1a10e5a7033580ce040221322a292872c0b2d5106a6285680c9300f557),
  (15429, 64, 125411386, 0xbbb726da30d7f122b8e1042c261aa26f8c1fe4b16e2b0cf462617013996076060c1cb221ac2a5cb062411e24b12bb30f4222f5862216d2c2440fe52077b81d53617bcc0ff451beeb14dab26c931f2821d5d3143052b639236a221e481c636046491f9e709cc20625024919259c120d0325a8a0c99530c090b9a2105b50252f24acd250101290312b541eb24012b109bd102fd60aa33132b2085840c8a7218c7),
  (15493, 64, 125936944, 0x466a097b818d7304f120c9b310d862d3280e83309f7416e1709cd40c04d083170d5420d2f5264a31be79105302c1621afc8247a1163ce0d246252892d76605a0a315d31f0ee2d86e3224804ce2207840b9532e05813deb2fd121556b238b625a07258e71c27203ea5168320c9ae247f01580c0d10c2d8c71d2700db4622f811a891138e229c24004af0b4730c9762ea74276cc29df10d32a08769190261a0cf),
  (15557, 64, 126468133, 0x29f5808d8e2c9270e7e40a7080161229875017320a07230b5310f6d0ab411156c2b996201650fe2a22a0f01ecd26dd2226d61732c0fd8926ed60ee700d9a2045942ea0e0e4262f6210c9c610d570ea6d1d2070a790047e208dc90ae96290451d6c126683155b100ee91ec922849423d420accf1d3920ed1422d670e659046a81fd2c2c30e0148524df125362074f4140af2c26508c830eb2e1cd8f2bbc409ab2),
  (15621, 64, 126985459, 0x81642ec11252331f5e60d639305ab0b9cd0da66237c40eec431a9829fee0c86210f501cdc910fb018cc21852a2fd2f20de31ae961b3152495510fc329e792ecd90d1672440926eac1cb522e0752590609c250c0790b2a51efa5094a408f6b303aa03147140eb3044c2a8a7085ab0db490b31922e450d3d418d652cf6d00ced134af188c50732d2897714d1103fe80e2b60a3420dbf903da80efeb0bb4e04c36),
  (15685, 35, 127512490, 0xc2d018f500ba0d168b12234d01a871c283238cd133862354f051670add2221f0315c310ed919c08253a9181091387201a6d2e470083d51e49331c8909c612430710dc4064a12224c28e790af2923b96029e32d1c802dd1),
  (15721, 64, 127796221, 0x140c71fc510f66e22c0726ce922738129940cad51eb6124b651ce2c017930b8b0095d519461236731fad52c89322f162de841382e2d008106d30d8f52dbe309e5921b960c82b282f1249142a566250a81d521227792a471247c10a5970dfd805c6c0fd39106070dcee2c2790eea22d3d6297e9245530e20b307220aec9246f409ea42fd911f64d2fef120c3210d6d131592977405e8502dcc20dad0b2ee0b417),
  (15785, 24, 128327809, 0x2cbb32e0cb1a8e32a44e0c926276c1239d3184570944c195e3309521af52306f40d9191ea4e045ed1f07818b640910b08c6e240f916fd5072aa2c878),
  (15810, 64, 128525685, 0x29c7514c6d00cab20cd41b8330f6f01ee910946208f3628a59149c91aca61d3f32c5cd10f54087d82d3b00ab3813a770b1b7296541332e1ca180e36e0a8d023e592e7c30f6432981826737101580808530426313540ba6122d692218e02e230d0ea07fd30d8ae0072e0a6760abc90caed0fc56246290fd760ec6a1cef60c80d2db1013ad612dd92a78b2ad052ee22193080ea0f0827227fa7256d21ddd60c281),
  (15874, 64, 129074194, 0x85620ac691b1900d8cf1692b1cdb4048772348408e6f228101edcc05f842d23515951019d7084b7249ef11a88139b82b808261512167021b370e52420fc60f5ea0f7742a62d23630323c718c24223440b8b5038b92ee5807faf08ec31dec425aa32248d238e80dc6b29fd009772131c60acad04c8b225af285e20eb8d13396082f70e3d00ef523148d05f7609aea1c1780e795197c91e5a92c349172d204852),
  (15938, 64, 129582897, 0x2edf91d7f80a8291b8611daeb09df5227e422d940494710e24047d231fb3261292bd4225c880984d20d5203679075270112e0f5cf08cd71fd9613b8e1a5e42534728e1731ff0323ee0a5b00ad912486b215b80e7d12495008c4a30de7044d702de830fd9189c423855243eb0ed6d0cb982e4a6156120e599249310fe6325ae20e5e82d9302156d0ffca212a1080a7224a907e27107610ae180fc6603c9223ac8),
  (16002, 64, 130109754, 0x106d62bf2d23ac528730267f60fee8275360b0af035ed10ecf0fdf3252620e132104660e8122c3b8275010dad414c720eeb9106e32b3e2236c10ea661d8d00c0351bad319b520b4cb2cb64037720db172bcd0217f7037361ea772d901182512d0901fe342e19204c900a1340b2182bc350e28e0b00103f932a5ee0e6a329d4e0e7030826519a3428f6b025b715888227ae2a8c106c6e0e227168702148f15cb9),
  (16066, 64, 130646731, 0x294361d7222ace430fcd1a6b603d431d30823c612159009cb62e63301d311fdd722f8b0b51109b041318a157570fed4235780393126b3525b551d4af1da920e4ea2662105f9429e540e1622d2c71db21248f40c05426cd906fd0142c909398169a61ee4322cc4129eb0e846026aa089a3105c70afa71784a0ea0524473005f10d3980470b247141e52e0ba8c239ec2a48f06ed72d185131d61f4591ac470e789),
  (16130, 64, 131163405, 0x849409f28154b306d4b2ad66226831108f0b4e500f95004240d94507a280ab75013c92384223af8075480902726ee301ff321c18087b91062e237e11f98b22861026cf23e0e220eb241710b74d149ca1f5a7258b4297b11b6f731f26245cd198e6063392deb21cc4b1b3d709b491fc7629c872227723d8c2403323fc71d04e1571425bed196c70b2b8210670f4f32db6f17f9609c6b0b6e520fc322ab12c46a),
  (16194, 64, 131680200, 0x19fb60616a2fdce0718d2e0a92bcc9235d010d43272f326932095910d9d609fd201ef213392184240ac6c15c820f6d50f7a630a4f0f624130e6259352c2ad1a44f25f922951722e33261d91e4110e2f0282b109c8f28e901e7f7301d2129ee22c090ea76105ca259172d5ed03d4d1c653202092afe9247690d4af0c2242da2a2d1d02174e1df0820b10216970b56831548242302f17527c6a19bc62a12d24dcb),
  (16258, 64, 132208611, 0xcf6c1786c264ad1ad65056090626b025a406dce1e2c819f64225e50e08f19c5920a0d1942e03742070442b02c1400c10c8f0b8491775128f0b241722b393043aa27eb01058b322a72d2e52ebad098c800db92634203eee00555015c611bce1e7922fd7706ff30c0a50ede526dce1b2e51dce90b6d4319822d7960a4ed07f82006922d3270dc461d3180b32e106461f74b2a77808fb50e3110af442254216423),
  (16322, 32, 132729843, 0x2e09423dca04c0a0ec3523a221a2260c9393146e1dd0a27758275ca1892a2cb951f7371f20730dd804d951382b036a9248961d9940a9e60d888260a61ea9723a0f2b267235a52f0551bf08142370d408),
  (16355, 64, 132989094, 0x1d36129e331600b2c1ec2a52f31e4f193ad130f60840f01502012152e053031640db4331e882c38d314cb1df2d0fda81bfaf09f23323652457108d16035a90e9320132400c09246242dae2051d10f0c8224d513ab20cbad1fbf3261a30f72a0aed2263501051920b8f2da6504f3409de42de6e21b9016f76219f91edc61674118091140b8215f31e20d2aac831d07132c1272b9306590a2a6044830340d21fb5),
  (16419, 64, 133524585, 0x2c9ed075b22c191133eb2ffd020247260472392f0c39804aaa263071d0f9011cd296cd248911009230e6622ec714bd91fef7254f31439006ea40ea2311259139c929e0210faa1f045140e20eb790e7422427428d8c111e6142752380f095a81e063044991e1f1155f40d20c08fe409fef1d813007f6074561f9e829573090d82ffc101a8b266ac2cbef035d3237811869908e95101ec248240af3216eac08421),
  (16483, 3, 134047376, 0x15d213204a22bcb),
  (16487, 64, 134075959, 0x224d90938d2d541204b204c4e190010ead5276b008c9417a19285b605fa6017b40b4d60d99627e5504def0f7d22a60e0355122089250990851005e900b2b10b1900c3c612a712466825dd600f6c2cf49079f400ac813ab50fd2f120e107fe40d0471a0070456529da5044ee13ee82b3cd07db514c13012a62306b25b7626847307f224d5525fcf03d7603ee112d1224f2b1fc2128cd2091a80cb8408f08178af),
  (16551, 64, 134604037, 0x10d2b26947263c424ce20a030244911d979287c50f0cd1d9ab2c1d50eb962d98216137297522d05813a121b12a2a4f3200461d59424299263ae1c94f077542c9440bb5429c8d31b190278b104c42dd0a149d82ba39044750b64723cf60e12e06dd00a62e16726096c8294f708d060c8530c242014230ffa10cb57168e5044541fcd52e6f11d749064020244103cab244d60c18710727245d7198b62d14e24793),
  (16615, 46, 135127110, 0x140d331036211220dd88251b91e8ca011d50e0b00e96a2d1192c2f12b40a2448c2844118c8c1f6d32358b2c94a14e051ae382a5c822e541f32c0df1119df327c701c10a1068f18e442db0d1d6d9014b81da15016e6071b11e8570134f0be4e25b0c0d472297460ab6b2bce3277680496414341),
  (16662, 64, 135503997, 0x5cf30ef2a05c610f60a208421f28f0e7f628db41056f0ebe10e4d70c7a50a0ad1b1530728328a761434b0162208f17096c331ca40d541320592d7c41a70f08fa3319c622cca2bd2f28ead2b2881c39928c312159507c4a131a51630118706149b118b792b9cc306111c7b30a0a30d0831da301ed71179d0307770880a17aa627dd7138ac136c410ca61186a2d0ee1636c21c910d2a42099907ea807e7723b21),
  (16726, 64, 136037566, 0x2c42b18948106a931f390e8780b1d430cd7214b22598d25a8925c2e10d5301808213760b48a29472314d413ea6291a60b1511d5e2251c92ab4a0ab4e1e099012760e7a10283825553295951f044317a42b1a52a74f31eef10732240d42641910596228420c2f60da630e04e2694c0a74e237a8259a806725317cf238c916e3826da204a322bd36251521d18b12915247440a7d80bcd5105a31e2a922ed91f690),
  (16790, 64, 136566545, 0xff590d6c20e732108ec2b2ed2d857317e6046642fd8b0e7c52c95223d24197a12330b045d81bbf7230ac28fb30ec5022f4f25e1520acc194860fc10244b501c6d0de850e9982bbcf240e50de8911b240bbb203cb50d7f825e933168e04c190d1621fc6923daf29948096ee00ecf0ee741d64d0ca11276ef19305267ef31fe50366b2e00a253ca138a908f462527922bb82a74c1f28521fa307b2521c6e0ceb1),
  (16854, 64, 137085514, 0x81e925cd20d3210a56e266180813808750285350988e2276a29f840ee07130b30f393234910b4f028dc80c2d32c96a0ba892664b2882718ad42a5c21f64c007492c22a026c624c511ab180ebf521b0b229d410d8906c8b063882302f20c412d22b04a8c2cac808c180f6b21a92f0a3411398713091258841057701cc40c66e131b51250f2478821ef32a4e91ef960d1f00d9ea1daa229eb82608b2c2cf0ee38),
  (16918, 64, 137613294, 0xea5913dac0ea8f2162a1d6e61ca842aa14185c31a76a2aff711dcd0d3d30cd590c812300f031d940b1e90762a17d5903d690747823c4b234160078c28d630efe8176782031521ba9241d3138f10e7eb0d0060b09503dc800990209f50ec2b217e4221f923b060350a18a8b0eeb2116a8075a108d31043f41b4cf0d2672d3ea137d01430f045931d2772410e22f820c9c52968b1c1e904cad0868426e0e24bb3),
  (16982, 64, 138134165, 0x238cc284c91943803daf15379242421858e0e2cd2528a045e820cd10ed2e298722a5090a075004a72e02118acf133a2317d822c431206a2c9cf11cd706ded26f0f1dd24186d52c8cb0e53616c482d3b31f292109d21e4d51ed0510d5409bf20a20e29fe10c085176572d5b21e32421d022e1b70f4480fba62a476136321d1472a3e316f2e04e4a1ea03245ac0edd50a9b61f0f4259052530c0d1b52c4051e3c1)]

/-- group 4 -/
def seg4 : List (Nat × Nat × Nat × Nat) := [
  (17046, 64, 138659803, 0xa4a32dcc213ae820d790b31308af826ecd1cd010a8171d10c287710fd4d024e70a2f712b4d0d8f21c85103c850c8610b9b428e0d153eb17473267962c8f719ec5247872bec20426c26cc2169c530d23167711b9d006fc926ee61e96b297f60d52a0ae571c7350b2a6143e82dd9827dd80de2e1e05402ca81fe8e251822a7d408fc91e563262860b86329096181b1292431d0c20cccf031b62f6d10f7441c54d),
  (17110, 64, 139183186, 0x5f872b4692acab0a9901b3141075723fe308d4f1c1a828d912617524dae014c41e5ec2d3c91f3831db421530f2d7f72080e0a65700e042a27023bd92309828fe22bb460af7907ce90cb2a109e408a831d22c2efcd1fcf3145381b117237f700e272116d1f7d02716c0154b2742c2354804e1224918253a4045b910ed80452c0c3d00ad2f25eaa1cb8d216e307e0110cc809c621d06f08c9323ae60a6830c1d1),
  (17174, 64, 139707212, 0x24fa92628a0e6e42a7822496d29ed61652c1b6672dad029fd30d7d71be2d0b9032318f2bcaa18572239d0284d90eb420feb23095916a6f2f678321b027e6729e692510b1f2e21d01428c6716f8111b8d2d3ac00cac0364e010692a7a902d571302d11a6c154d50fe271e12108889063460530c21aa5176cd301b313a0c04fe204ad00b22d13bf01907504eb30e9f008dc82dbe4267341e1e61ca270d70c1c9b8),
  (17238, 64, 140238710, 0xe7d001619131f00e813034b60f7882a5a3211b10a6701071014cb61ac1200cc504d0706e2219e6430ae925ae10afb70e6950e96b2f37009d531d8ea09cb31b6f527d861526e2d0ca04d7129ecd133640e361239d9084430df720a6ac243d024bea047ae0b077249132a567248f306c5131f950d0e125379007ef10fc21c2b226152228090d12d2400129d740c2e61cae820e2f2b28101d860ce3321a6809b90),
  (17302, 64, 140756330, 0x2bcd72aa331f00c05b051125625e25143190a961287772472331c06087311f4140eb0e1c548052812bba429d4112a020f5860d77631e04246d52b549246ef0dbb50d8af25dd123dc30e2a20a1cf1db98317500e52b247cc2f7371842f03c502451610d832a3882a78803b6a035c60708e13a4804eae0d93823766070620348b28c592e04e20af91c8760cad9225a8276742a5b72a1e4133cc03e960759829c90),
  (17366, 35, 141287447, 0x253422adf0046870c55420e6a10df22ec8d2b5e12e1f612a8d1c7cc13897307a7308390e1351ea493041517f1910d7731cb003e0a2d251194f51a6a20dc292a7f01d8d71afa41e98b1e037284480e5ef25141269610ffc7),
  (17402, 64, 141566371, 0x2967823652217111c2a31e9d530f870cad02d92f17cd22312e2cb670bba1104f41d3f20c8a22db992146217f6e24fed13374225f70ffb530d0e2fe122f5302a8620e281251a30feb12662e255c80e165244ca1b4a12fccf323a222aa31a552256f908662010622e4230068f26ee209c8310e701e058126af079f10346e273f20566228e302774d2b036047d7240840ff192bd4109fb5011291322c249cd004c6),
  (17466, 64, 142100133, 0x2f8501a8b32d8f0074ee1e38702ed61cdcc21ece0fde90094e11088322842b003018831e29204494232c32d6030794b0e85711b171a18e1b86a3157209f592862c03f2721c0b0c3061f0a3171472a4b82346c06f42164b2258b31f9cf1e2501f3ee08b1408cd20c24f2c1b610779305132a4cb0832804d281fc821fb1030e4120e01240341c96a1e1af24d5003a35006ac104691b2212ef012fd290e4a7139e2),
  (17530, 46, 142629614, 0x1d90207d0d114ad1791417c18226d8082cb202652a053105a82243318712038d60a9d805d2500b870e2f30d8a22dfa40630f2eeb723be50dad51a334247cb140050d6480c87621d48046301de621e4e12e8630103601cd9080aa1deab26c2830d141072c10ff530b6d16f0206927224cc1e793),
  (17577, 64, 143002168, 0x22c810f1041bace23d070fd6c133492d1241c3540110c2bb851e8e317d630145617df231f112bd082485521977225b3316d31e66b2678221c481a24c2af6a0d62e2582f2b0ae2506220c85135c90ad870a5352268c2749500f9631e98245ea2f38806f67099850fc45106490fd6507cd82c96228ec105d83096b929eee2a76308cf629345234621b9300e376119232fbf009fd7027f722e0330f090d2b9313d1),
  (17641, 64, 143532891, 0xe177131cc0c6b521f77267c61ee2719a6b26dc10598924d0c10f74232cf306561c7881e9a5131430edac1330e1f4e603d2628ca32470f1e3762d3432c181171332774b23e750f7531f1061f5520b2f52c06204fc42aae104f360d3460d5ef1986d2378e0a5e30cf3705dee0fd561dfea1b4a2015851f7c42c29606e721e77919335264aa1a4481cb030af0631c77166052247725ef9225e60788f24fd40a8f0),
  (17705, 3, 144056857, 0xd7100ea220b942),
  (17709, 64, 144082724, 0x22f452c270218041a2542754808fb426cb308de608ae4241332249418a4720bd61f8e40e6d10879724850176670c0b316dad26fc30efd80d85701ef3184ab302581e08a2c20e063131848826fe91aa4e013d10ff2a23fc40cbee24a6505db71dab6214061305920be82533308ef7296390e726037430cd150c94f0ea772cbe91f88c2bc442d08c0d4b404e67131931c19809af82caee0b82510ee3270ee1198c),
  (17773, 64, 144614202, 0x5a2a1d69822c39247e22da0e1bb330cf6b09b4c2c8512c3f602ecd0db4828dcd2198c14e74138060a3b31bb0f1b6362b047010142c9930dc3321d460e93308fe8239ae076632dae32e7560c36d1005811ec72e6f61337009175149550848d29ba2316c30b912214ef29e6f107980a8c92278419b8101168086880ff43231b011a952db0a1b2042aea52a68b25be7219d00a2d70d84c0af382210d25e4307e71),
  (17837, 3, 145141639, 0x7f252948115d19),
  (17841, 64, 145164318, 0x2ad340a9141aaef15ad31d85222c16168e2236032b7b50946b284e2266371329602f4a289ce186a21e3132571819f4b25248217cb122970dab42092a0a387219571d3b209b0b0e9461e1901dec628df01f179259e6084e1122061989704df409f722380c04e34174ee132ea285760bbcc0d20b2010c09fe81432e230361324214ee30c82616eb72add52c048317922ba502840c2a466141091e4812c1422624b),
  (17905, 64, 145694894, 0x1ec2302757281791900225b4a0ee6d2a2212452918a2a0b7561ef750b5b6229c50d3310b64d21c242dacd142a604b8805ccb143423056c27c05179870464323e6b1392e0d51928e6122591164661d9a80b4851c8c6099f7129050db250b87700fe52b2c621885044ed0bbee02ceb2f60315b07211a42c947277f1317a529e080e0c40f6742c36e252d00e09402bc50e4e826fe10e121307010c8992a7c42538e),
  (17969, 64, 146222311, 0x22af3237732b1490a46b261482f835286a62319603b8528f172f0b20b18f09eb90e3c6217e51dc540e82a0c15421fd3153c60bac50f79721d6d2a14817aa5235b4289940ce570ad030c7ab1f2670da412154a138b9135162e4411de61246141bbab04506014ea2419010661206c52c08b1df670e0b30cd831e6c21ede421d090ecf616c850b5902358430ee80a1d0157ee189a70c4c31f7e90a8710b54320c03),
  (18033, 64, 146745980, 0x30ed9226d410caf2512c1cf4822d48222c624d520246f1922e27ca62d01626e09140d0045c124ca80e0410cb4e22c8b0e8e50b850250ae2dbe90f7c6313e12c8b3305e40260907de626308129120c3972ca0921ced1eab820f491043001f2205de426938240161bb42208412a9b2035d70dfb82e34d056f40ca9806fa509bc70e4992a52d03a890d96125b0b217ae09fa4240632930c16c3609a241a2180a838),
  (18097, 64, 147270437, 0x130d628c130b2452155304a332bd3500da61fe041e30d07ac206d8229d5401131174cf007241f68f10ea723e8600fa1094a62fe2815738193061cc0d0f9e6236eb050f62d4ed2fd03041d51fac8181651bee50ec4a08f1602fad0a9862a72b2ade5296b123b2f164811a4d0062563156c1c8ca231d51d1e60a354250471bf2b2a4ee226752af810ee170e6032c92d225851d5e50b917179ed1da3711c8b2de69),
  (18161, 64, 147792746, 0x7448267ec1eff2014490da440eb660b3cd10d8824f32222cb2a74d08e4a2402725222083110b8550e8a10cd230b4681ffac13b210e26816fe407de32c58308df80f49209c28286301396a28410125b4252af235120b150042d928bee09d8f1458924c21143c90b6852a678139d5026370418e295922846f1a5c90f4ea20e74048821cca51adcf237ca0a664314260da6820ac3287780c048259a705c2b24330),
  (18225, 64, 148327390, 0x1f3562ea9823fa928f191388e0e7ea037ac105b303dcf301660ff8830a670d6921eb2a219e92b9902e02c30ce708d2a24b6707c2102d48276661dad42d3ed0e4241b29204fc630ecd1e4d6104550dc830bcef2adf822e280375426e010969105a2403f711329201c6a2398714bb319f27240e60c1a525a5529f87237230a86710db31dd4207f190972b1bd150d529187420e9e8096b006dac253681f64b0810d),
  (18289, 64, 148841705, 0x24524036f70796325269274ca0d964104c72472627e0e12d131048b0df792ca840ad8a226812bcb0276ca011d026765185240aa022c1eb1ff140d7691a5c1185160cab60d0ec2bc153060b03fb31a871261760a4ca09c230b413175eb20654131281e6f703fcc26127220b01c3ea0a1ac0590f1d0d50a7b60ed4d0c7ef1f637098b92820c2427105032011a1234191f4a70698c1b7531201607b6a0e90525883),
  (18353, 64, 149365322, 0x294cb234330a59102d2a02e332cae60669414273138ca0a9b91c1c5297f7012f909df91f257066d522001221b41b64a2ee56155d10eb76104ca0d22d29772175550ac6208f4105fa11d2040102223ac704c95199ea1b6870e8b509cd21c1370b92c048a115c0a0d51314fca0440a266b90db762814d016900b4e6248a61e0b620e2d31e101bf620ec280350d133a91364122c4c2dcb1172992c3a20cbc52d942),
  (18417, 64, 149890541, 0x4fc308e4c07cf60ca2b22a77138e50d1471fd940ae8e27f7321fac106eb31ca5308212353910f0e2dbb30dbe71958d0d9070b033276471f07625b300452b045e70ad2819d232242a2608c0cef52c50f0a8991d06e1ebd80478d0075920f4c276e51cee91c5392d4f00cfa10b3140904b17b4905ed11a881242720a80e1af11096c731fc922fc72eaa9052820cb951d9a5316e427cb62ca922a42f228060fba5),
  (18481, 64, 150414534, 0xb0a9104b6219950b54405da828dd22d3af0b4370365122f3324c732b9d32a1960d30c0132e10f87303e802e50265c72dcc10ac652ff6827eac045160eef21c7531965222fd92db4e23265282320be860c0442360d0b4381a5f81e6ce1f1a41c3cc05219230f927d6a0ba9013a61206ec26cc51429723b411ed2d1fe4d013f7261412e063251991bd420ae50320652ccec1fa8b2dd97095c62ad070976618ca7),
  (18545, 64, 150938727, 0xc098097772d0cd207e70dcd507025036f322f5428c571392b218f82d578188d822a360aa8a0ea3503e0e015b82d28e26237169d21af630d3a41cbc725a0c04cef22aa80af880a947004cb0be442738b0aaa71e2f101d892bf500a5090fe64143640d9d4295651722e03a852fe53165231910b19198265ac07fa90cc2d0d6f42e0492bca9237f02ba8d1a1e9322b20ae6201b710ef4c059c4317b6104d204f90),
  (18609, 64, 151463337, 0xcb1210fc5040320f9532ee061442311bf8142d50938c0ec641726703bb40e44310d822c03323e08016f5118f622d092207417d561d8621dc4325da61e2491058e2cbb50e82b30cd80b127194840d7c2020d1240312f6882ba620ac75277310e7d71d145107c40a293034b90e0281cf2b0910508b4b17bd609c712a50e04d0c216610af410326a140210e1860afb003eb92072e0c343222541fdd5070640bb05),
  (18673, 64, 151987133, 0x2d18729ce72cc3008eb3243552a4c805df32439923ea501017247b320d4e1fed72da051dac729c93039d909ae415704072b12a42c0add92a64c2ad39013b525eb51c016236c72284c097c80b3951e9822f1d20100f140b622d1617fcc2806e1282707df32ec7600bc82464416c0622fc9316180b2510383515de420d620d18305fce0ccc51e1742c12a2372d218e22e06728f6d1ef0e221c322188155cf05ca6),
  (18737, 18, 152511427, 0xaf4a21b31111860718729390258a81428d0de5014f6b24de21b01408fc403592035c91b76a0cb250cc7829736),
  (18756, 64, 152658902, 0x1116e305182adb30832f1fc742be0109e75239d10c32b1e7681e973085480fa4c2c3cc23a4b0ded208c742db6110d7410e9724c2b1a46d28b841fd500acb61eac62a7ae1afa50fd1018a8c2d9f630fd70e0a610ee204b320f5330daf02ff302d8cf30d190a85604f19225f0150ef0964e0c25526997097ee0ea6f047b32dab70897917756267f51046f2597409097013712a64f1fe6c0dbb211a8e0ce6704d4d),
  (18820, 64, 153197252, 0x2f727058012e11306ca313baa3176b15485205c229f090cbb31f3772da2c284350372b0e1122216e0b56e1f3301a4f618018296521b21110683244f60b9cb086ec198960e632019d3223640b4eb0c1040e0f91a129323a11400f0dfc43209724c351cb9121b270fe2921793097c31360a25d15005761436a0347123083014030c34218dc6196f10dd6625ce117b2d10b9025db6257b407fea1f5610e2070b8e9),
  (18884, 46, 153719170, 0xe38524cd91a9d91e7c722c4f0e52a17dc218a480e48d2114212f8a3210d04f7709fd00cd991d0471d2d824df72bfc62164327f79260f81ba70193ab106d4263b82abd71841021a2a1e7162c4530940a160ed0eb8f04cf824d51191a1024a3248b2281a52dfa30ff822750f03e890dad228cb3),
  (18931, 64, 154092342, 0x1ea230eed51f90307d0a19416179131c98b230aa060ca2a4c223d921ffae2156723bae186c308c64087682a6d42460330de10a8f307a331b1b70e3480056925bd9051980e922184452392921dc131016024e4189251cd980e5ee2bd0f242d305f4917ef52c0d10ae2f244ac3234f0d2f02bee129db808e65146a41d3b9106d106cac032862f5b72348a13a6b206310d367142b917f0904f050fdad044931ef21),
  (18995, 64, 154625492, 0x2de1510e21089a6261a50444e09fec0f6443048704e6c22bf51055305e392725526356261b9130b5174c211ce40d1060a9640f705039212c65920af50292d1fc92132a220c82067d204de91375324184142a7306ed227371f85405b79024aa0e0192e092153242420e2f10b1fdaf26eaa2f86c13bad2ef2629ee11e5ed237e71f60e124c10e369090a422a9930f0407a570858722e0c044e81bb7105df508825),
  (19059, 3, 155153477, 0x1bc522a7ef22c82),
  (19063, 64, 155177836, 0xd5a33173023f932d8ef1ee3610fac1beb418bcf0c06e19a6c2dc10014b20ee5426f75095aa19ae423f011d546219cf256c9140191e46324be9106322b9ab10d3425d0f2a7ec264b02d30b250582874d1dc730164b1c0eb25b8806e6717778260e4230d221bf626fc20ba8a2bd16012781bcaa29db10bfd92c2151cd420ae152ba6c01213005e312fe41abe20fef6241590a4120a9c51b8cd008e420bef272c1),
  (19127, 64, 155707301, 0x896f229f408e2b0eaf01eda5207c83048c08aeb0eb541e14f29f2a31de41c7ad1dc5322dca253590a9ec036a70ac8407e8b18ac51bb831256f31b542a4091342b235ab309091b3d52d8b1176c3134a50ec182c30f31fee02ec82e4b01a8282486d189ce20c1803e8326c851a18416b7628dc40143322a580dd1121dd120219036cc06d560b3d9011cb1d8f70d5ab2c6cf23c672434224faa22e4e1e44601791),
  (19191, 64, 156233042, 0x1600531082247f103de800e81317742c3751390305ae810594235411ed22165b213be81694d04da21e1ae2259704e3804ee20271427c56099f130621034c7239b10df4c2dae426634254c8218b51c64d07acf189a80ecef0e9e90ecd6017871065721652094f909d1010e1010a4a3154a2e2a821296234b111ee80ad13259e509f770ce052411509a9027ed80e3970f74a29549177cd216020e4360ca2a0130b),
  (19255, 64, 156760050, 0x2d39301d4924a251cfe70eb101867229ff71e2e6132cc073c20b23825d553205410ea60274420549250790f6881504306fd916fb303d8c26ba9184982a6f00854d1f28302c5713d100d0220366122d4c2a6881db790db8d04b890efe2260cd10d2d142e30636530cd10f467283c50ad69287c3225920c82510f012a4b7259cc0fa0828e12286ad23787236361d984130f00edc8044b9250cf2a4a30d1ec130c1),
  (19319, 64, 157279434, 0x1ed8c241010a3cb0aba41bae20a51802ca224b1525aae0a2cc1fef0220222298e04e292a6821b4e225d251536e2d5a10794c250422462309e641230b231991b92f105e41d0e22e0f6149b7007b308db72ad910f7f226d970d08524c260d7a50a7e6315b2201b800f510ee2e285cc11f2429e0b2a6a9076450da4e0a2b50d40a0e4ef02a221da0c24ca90e2e42a7c51dbab28ff70e47205eca09875011d316070),
  (19383, 52, 157805725, 0x1ffe9235d610f863054826e8b0b14f0dc0d0ea4825555160542049300e5724b10140a904de424aaf23d34138e31739505eac22553314b31b46a28ee40fdb6250f00945405a420cd62227781e9cc2acf01d0cc1fcd310e14203eb18e2e1e8f003ca5158381e2af0e10e01f2501719235680d1e113a5429ccb29cb40a270287ee25b49),
  (19436, 64, 158231424, 0x25e0b0a083175471edcb03c6326e4f054ac1f4e42d9d02849313950190952d0f32498517c6e1d2c9258b929d57223d8139972634c2630111fee269391428a23df92fe290fcb72f4910c818013192c33105fb600477228b20b7ea2d32914f080d96e0de0218f5513f4d250892256922e741f30c2c00324ced132771f80d1d88d1e8042b19418d572d88d127572d07408e8309ad22d98412fe7131b9315ac22586),
  (19500, 64, 158764818, 0x1af0c2bdf5221ea086740bb24074430346409a37236e4097b90adb6238ed132f32518812ec11584b19aa50d99424af529cf00a9892d8340e2b7192d2046482a722209a2296092340630c0e1f9371912e2152d217cd0b9a3089f8226761d38207daf0858b0f2c3023870ccb20b954153c909d8824177021f7228670c122246cb109ef27dc90dd21307860da050c02a01389077651b0b525fcd04e360cd2521630),
  (19564, 64, 159290853, 0x51222d8a627fac1d9512fbc825a2601cf8198c5034ab14ea92d689253aa16e6327df220e5314554034a323047213ad03eb629c0c2ee651c0192c86111c8a024d9074b12158112db1211d12a6630e42b273b61a5ca169f8099180b4aa05367295c10c8492144f106b803c6d251a9294a409e2a188a6321f201d941c0272d02a01d7004a340adad1f3c41bc362280f0ba4f234970b4f6244d020bc8076070b117),
  (19628, 64, 159815673, 0x28666238b72d4ab24b660188930779253cb2d3b1105822bd4402ca723d2a26e062b2261e4b72632b2835516dea0eff90a7970d0f12bcb71457616449132991ee6b264af0cc0128d591e924249560978f1e4ee04c28104a8305360caa725b990abc20a4ec1842923de905de71efa4246f512a642cdd80f76321a990eb7710d6c3167205fc411bc40d262247ec1d4c10cb301442d225791b115107f40d6ef2a728),
  (19692, 64, 160335813, 0xd3b90aea328f6a17f0e0aa05014210f46e0fc4321bef2fe720d0eb2caf905be40caee087b806292260132232b09c2c244ea212cd1987924cd40e626013172ee21245580ca480d8112390a09ce31fdea0c9b405d522adf21d20b0af73178051b9a224ca521c62133971062c09283246c2107b5317b70e5411f3592bcf301a541858830525018f50169713873241630ad1420a471cd6f142180a9340f1a30a0a5),
  (19756, 64, 160859228, 0x1424e31f44247150d9d50f46803ef80cf29104cd085aa1f00d0a30f0062303f47269d80378f2480f1f0d4082260bb411e74516c351d8190877911a0b0c931249510b032016850d2470d50e2b8c60f3870a70f2a58b0452600f0e05eb725eb02d2a210f6a23b080eeac23ae810beb28250075af1124a2d943034842ff692cb6d23672072931a88e1332f24af018cb90849706df91d32f2ca870feaf25b6e29213),
  (19820, 64, 161390916, 0xd7d1268a627df80ad470ded90f57425b2f251620265409808297071e48e29874294d101fad30b502e02f0fc342a26d0d30b201642fc8222c4509ce8279d425147227151b45621cca045152a799319ed0c3e611629217b80e9f2047f72e7c207b3404aca29781132d8258930ea3429fa8198811e2900dfc3215aa01c5818b6e0acc8081430ff9807c0c17e820fc512a6c410701060e42940b264d424510093b1),
  (19884, 64, 161924936, 0x265c40622f099360ef9620617240932acd5181cc0a7b01e671196590b38a1f0100a9710e28f0eecb1ce620b5850d62408e6e07b3210ed11d6c2062c9152120b0cc1ec9102f512d10d10fc4045e10ee0103e2e2440e0f99714518004d42429023ecd0c80e219232503330966121440eb291654628ea825239082732182d26c702a28c0c9d604a1908cd61872a1c38b010e4253480c1b317b022caca317a726e48),
  (19948, 29, 162434117, 0x2b9c51ac96076282dba2252b623ea22168f11cef1be780f581225e42460604d550d94119ba510e9600da804f9517bd531db30cb992e4a5133f22a677259790258b095d81caf51d6ef),
  (19978, 64, 162673044, 0x316f613ab315cd42d8491402203e2124046295631402e23b97285d015e462ec771b0b90c9af1f2c20bb1602dd02d0ec0df66318f428f301e84e05fd52e3810676215fcb0aa8d010191c3c30d7700c5c20d9440baf83027331170239391294325a0b217902861824da8143a61a14d05dcb18f6e140f8222d61b5ae10d8503fa20140c2c7712d2082309604fef05f34265371dbe12217827144187a207fb61ca41),
  (20042, 64, 163203377, 0x106661bd30004aa0da331d9e30b9b21520228e471802930b4d1379727bb71ff0b1050f0bb38012362da7704d0e0a4e219d70067e12a84b21f07258a7231a70de570eb393166c24ac1077192d1ac295300e6ea06c58217210968b1ebc229ce4200030b22606c890efce12d61037980d2ea1ba42090071f0981d9a7225e21d2b2305690c3752626a1057528388044d6258e622281062d312b632226c09c722210c),
  (20106, 46, 163725899, 0x243560d2b5078282878504d2a2c2a21c50e2a5780a5b70d206261d8230a11b7d82354e0f4f01e0f00922d29cc20d86122352275ce0e8832d9cd2a62b167330e9c504c8123f722d38229be731eb70f4d52c9b32e63205f480b3521431522e411a8510f7a805ed01645730d081382f00ce51e5cf),
  (20153, 64, 164104085, 0x22f2800fd92ff182ace50aff42c7643023930a4b191c401dc8261f310ee504b330f4240e1150e46600c2d31df00a8590c0971c5e601d2415bad194c729de42a347028e1184d319804161c103b97267f208d451f0952597322e23218260e7991075520b260e8512412718f4813ab62e505210a12f86f0fd7122d8b0b4592bb040889213ad70db56011b4035952370306eef2ae061600a297371dc422c0c10c282),
  (20217, 64, 164635398, 0x43d92a04c239d72064e132c60608e1d31122b4d2776123a5510578215a405fd30ee4d294ed0f7c11daf02f3d4289b91078b2acf82532227c822015217dc129f6603cee159c30b5ab1a26131eea19dae2156918d4a22e051140716293048d72a904314ef2d8a83185807bb71c7c61ec6c24c5714b220251718c4f239ce0eb4c0d9f015676211c42ad360e7241cda831442303180731107fcd2c34e259c60efa6),
  (20281, 64, 165165655, 0x315261071924f08213c124c9513a132c4440d6131d82d0470a307850da762cbc62246e1bb6a0b26a2c4d52cb090e3621f458213ac231c401a470e3320ff44225ae285e5214f511f5304de31b918015491ea592fe031aa8d0b37708d1120bf821fef2fb330d0f62462525ac22d7b41182f1e027090c20110a1e897205c508ed915e822c0eb2885604ae5242d41838c0edf60c8d212f0231c880fc880a0a604d37),
  (20345, 64, 165693755, 0xfd8113b8f060ee23fca23a4224a671e40c23bb11f1b816cb01d3d5076b809aeb107c7070ea0a90e024cf2a64d21cb40105626e291f8822ca0b0b88c00ad20cbae104481aa3105f221f5432db892edd1294430e9e204e8b0ae280a96723f8c139ca26a96087ee0b250208a40940c12599235750eb080446931bf009906306ea282b5037f71cff70bbca2dbe60130c2235124c3227f0e1fd111fd7322cc720e97),
  (20409, 64, 166208400, 0x25ba21f0a823d1111d182d921261e90cc7705e461c7b72b38e0f8301ce2b2a8911907629dea1a8a30cc891a353200b5305cb1efa9132a92db0c067d505bd10e94a0d029059112749304dd9107ca17e580ae551d5220c1f1139e524626133e70bff314294029572cb8409c450d1f12462e27db6095841921125b872aaac0e14c18291230d52693526fc5044e72bd15125211e9542a40e2660126e900768425fcc),
  (20473, 52, 166740121, 0x207552437205d9320c94286a421a852a7ed08f2a2add720e371aa2e25a94164ee0d04416d7608e9405d581cf0f08c8819ba6026432956629c150e32e31f2718e142ad4622c330ba712c2881bc752c3e8130e1038c6079082672305d3528fa828ccf0726b08d0105f710eff210877174642c3b919a171df11306b7071901437424745),
  (20526, 64, 167160622, 0x21fc31a6212af712ac8f058d203def235a41c26410f2b0abe30d409078770bbc92351502feb096932694f05bef18766225900c85414bb10e5840a4680cb58097c7044531c8d70ea7103f240396d0e52802c591f58724b7207dec1369431c4f2524e192641800d017020accb0b4441eb060b4d7237c316198234e310ecb17e560ad0c0a5ea09f702562a241162062e276162c4391ef4c081ed02d370d32d03417),
  (20590, 64, 167700645, 0x107a306a042331808e210f52a31ce1151610b3a90580e044042fa1916aee2aae21b96b1862410ea9165952b5661be43066041cab51079621c8503d930055611402267d60e24e18090077a4287f50e74322d4528cab0cf8d02776219d203fec2955612e0930c19142ec28ef421c772d1f122cd91b82122c54247891d6262c1ca0b48b0ab8a0fb3129f2d2952c213e10e6d729448276e30d8271ba6f02ce5006e8),
  (20654, 3, 168215150, 0x2c02307a31ef08),
  (20658, 64, 168242116, 0x2536e29cc823e9629623235f30b56925b150da421e1962e34b0aba7138aa222c519a6d23ac91b11421916220210db8a099b3252281e9ab2a0e212b8b2f8331b2b109d2e1432828f1123a2328c3010d52206f10a344259cb0e0740cc682b13701d04006c521bf9125ed0fcf40d7a60d7532948f0d1eb00f52277a90f5d231b620dea82d3b4130f10840e1cca301214261c4193331da13165b12c3822179521ab8),
  (20722, 24, 168772108, 0x2a99628ee31df630e1b1244b21f30a0a3ec2db9111788037f30af8e2b09928d902caf80d64a1dd442342d266f523c640e1012db5322e4b2a54f071ef),
  (20747, 64, 168973699, 0xc0b2106c43219705cb82fe2629cb724d2b1cc0b04582076ec05fc71fe2d21419013d01438d0b5b026c9725aad1684c1560e017f50ceb62ade70ca2530cd20a95622cc904e192542626d7422a1713b452acb330c0d28d570b3d327e70241311ffd7265ef235d9258742c2cc2b2d027fd2226d21dee40c8ef29999218c304663184a51cbf80e42a12da2190071a0d912fd50b4a5087301d4b31da8e30ed723e37),
  (20811, 64, 169510031, 0x2d0790b6c90b46e08513209a121e8d2a0b92de50272e409f8e138f22d3410f40a0950a0eb91318d20fd2e22ad61076f3149908a63084f50e9ae10f8924d351fc4b09b12094a318df31ca552866d1ed4d1dd2921d220ef8f0da4f31f5022ef32317220c152eb8b054f30ab280eda3109a62bd2b224750f7b70c3b80af3513a381b612202702f0a520246261ae1f5951388b0c36f1dceb1fd430a4c429f932afee),
  (20875, 64, 170025969, 0x297ec260860780a1c95619b030aa2f12db2138ad1350a0dd221cea62a6ae2dd0b303262d9e821428045591d32e296b8009c50e04f08dcd176ac207e929d690d3f0246d201ec61f6c82d02d0e92b0704503413015b210db5036cf2349011c291893827fd704a4e2630215004269362d2ee2df352ec6a26285259100c8170a00e09b0529c50238ec10d6901f171578521fb00d96f2629909cd0189410e0f22256a),
  (20939, 64, 170551016, 0xdd4d12f6c108c622b12264ac27d6c1b311304110ec390ccb41b6d92e6f018ef62dc6909fe12358a034f820bcf237cd1b76e2b8022530d11fb81fe310e5ac2c22b1756630c8223ef6059012e0130b4a620a6c07c3028ba90ec441dd6d13bf40698e011af31cab2f2a42808e2206e1e803307140b6a529616235b130deb23faf0c8eb26551233aa1d9aa0b2c722428095421d4e60d60d187c3074a60972428511),
  (21003, 64, 171075365, 0xc9490b50822d82276ee222123069624a0a0257009cec02f582ed300e78d293b00a76e0af6c05f391a2f4096cc21c693158a28bb32626f21176059c625c1625a250ea2428eaa0c16e2d6860deca0880d105e72626326e7529e961440a05b020a9371b9740cfef089cf19acf0d6c1024951120b307762a54c2a6ec131f21058513df70f5441c74d0c029220a90edef1b0b41077705eaf1ec092236a22f0c2f764),
  (21067, 64, 171598462, 0x27d6f11bb60d7d826107119310a2952510c06d082253813a250d00718923045252920e0ee1128de22ca7618ace2246c251ca2e02a090220deb20862313ae905704027d51cbaa2c8c81fd30029a4035882ffac104530898e0dc8524ff830e04251a41e8ad25b6d280781554616d811dd50038211f2f816ef02f0f309feb1d7501cc640b54f04ce92393005e0a143a7323b219d2610dcd0ac371d121085e323f24),
  (21131, 64, 172124013, 0x17297309f82e7452d944227162ff6604bad242342a7920d96207d82045100bb110e9f309f3408dcb13b5404acb2758b19d8c0374b247a829fab0cc8209b4a00c3407b1405fec291462ec6802c90228570cf9810aec2d82e3220829449174cd31dd2234ed2d2ca2ad0d143ef0dfa40ce341420615c672f19531b072390d2040c004760cecc03fc2156ef181b00db0607e2e2414522273296ee316b216d2e246d1),
  (21195, 64, 172652641, 0x457213962a5f0095e11ddf801ee32d10a29dcf0e7ef0ed180bb3321b3329c681684d234aa02c3124ded0ab011efe70620c27d560fe6a25d8728e760d9d20729504ead037cc258cc08fc22d0a6285ad18aa801d551d20a0d9950e2b005dc32d1eb12cea02f2a0b0c20aed6290052dcec1abe823978253a5213241c0cf01656227a924215248a827fd8242590f64a2b1011bbcd269a920077285172fc852c9cc),
  (21259, 64, 173173742, 0x2c77223bd623469277d51435801190257c805a212bc2e263e1265961cdd00f7360b1210d47324caa0aacc323ea062672ba0f19f2c101330dbe5174300e0832aa321862f0d94e10e9910f83205192e350181f72fc8721d99096e201eab0cad10fd952a5d430fd11a96a0ae4d292962492509aad004690d2641e00213a0d0db0923e4b23acc2facf1306903d82084420f1973198622f4e24beb047ad18e8f0e8e7),
  (21323, 64, 173700726, 0xff331ac840adce0b54a0ae13226190db74084a6013b32a58814e170dc2e31e0e1cbac09c6d28bec2a26e1284a140b028eb228ac8101aa185ed0ce7217558240942a70c2c69200d9204d702d0ef0d48112765232630d1850eec8220850fba90e6a70d2ec0d8430dfc63164a2e1a823ef325bf224784104ea2471226cc71c2b122e990a6a315dd10d0430f7500e7723105009c210e7361714610d841f1840946f),
  (21387, 64, 174220168, 0xc8a31fdd32488518772045980e00816283207f906b0423dab194c62277102f2f106691d3431d936238130e16625455240a5034d2212e704f0708557098180c12a0988f0d122294c12bd77105ae1cf240caa2283cf30d6d1e2ae2e56e1317725bf80b365192b70141303b6d2a70f2eeed13a4925def0af78210ea313a8323091b9a701a831ca4229aa12e0570d2e1076232dba31e7461f7cf286ee0b92a08976),
  (21451, 64, 174744395, 0x22e2c2e2482a5a91c76320b351324d24128249f50a58524da925d0b2a6c528cf71f60c07602321480e4410e596161691025507706215170cd542cd03107a822e061c8f11e24f2552831c980de731440308329242772c9170d8462ad6128f7623fc300d2a27ec9284cc0e9071d14b21c2629e111f421258e50d86e147890b54d2c7c91fff01409122f742a582208981302c26ced29bea0ed862105826ca5266ea),
  (21515, 64, 175268483, 0x7fa327ef2234091e512189b72aff4259ac22f0f2a15731c040aca91b15031d95037990f5880eb4d2dce809e791dac1241930e72b24d0e131f300db7249f0249af2c355139e323ce22a1882b9ac2cfd603031243f9049a20aa2526b0230aee28b8c215ce009a4123e7075f419db40dd7922e4205e5730501224cd313c102287133651e4b80b4c21e8491988827682191830b24f125861d704132f5267670d595),
  (21579, 64, 175794228, 0x26c8728d0b0b37807fca178c2259c525ac125a8e2404f22c0315b412272419e2c2a62208ed205f2d011c1181c12a794064c104b342634610ff200c2e11aea0b61120b47217662a9150aff121c8e1d0ad1e16429de71f4131dce5086872925929e0e0add11f466219c92d28c01269246ec0d8f9248b9287c11e21731d1128ece274f01e3012d9862a361290e424c9206b27089f018c282add81040f18d4d1f048),
  (21643, 15, 176319313, 0x1bf0c0b2172b3d10e33528566152990150c2461511f522dc1518de621c3605f7003dac0ec0e),
  (21659, 64, 176444436, 0x31c23296a12e7552a6282842f0a7e30300b07ded20c390ece90db212514201b5422dd91ddb204f282cbf920d8a00434133751eb052e19629694158181397709a7621f6626db70eb09072081a13303c0a0b16f229d0169b110e8f20ec8294ea23dc61daf71f310275410d8940688f106f405c0c0a7c329f7921b5709b2b0c0752f0ce103280b18828eb1047d63146629fc61f2c4048c830dcc24263164c1006b3),
  (21723, 24, 176974555, 0x235290e36523347316ac161880f0a3228a3212551ffc929d47237f631e8c098a1198ec015481048224333248b40d36208d0a2acf2058260120117467),
  (21748, 64, 177168751, 0x238822a769074080116525fad25ba11329708479089e304c862634a2a3c60dcb61b0560b132036c231fb229dd2017972d0d32d8c12702a17c0e25a990fe14081720fd5220cf61240e2dda41b0210d7eb1d3102d5230162c23f073228d245eb1a4cb2fc4c262350c6231152924c610212809c2b2d07624da5156c9216ef294760eb260de312258400c842c063280a93006d0d347259b82cbd914d2e06f841dcaf),
  (21812, 64, 177702909, 0x15b170eac5234b72518e244f00446e24961154211da521857602771013c52592429557107cd215a513095189563156d013cd29c341e7b72afc718c221b8a20a4f3226742c0492862b2780a1058c0e5d2037a5265e20152123a072156e236261934e1f9ce0fc980e3210a735297d12660e1f48b320840cf680f1ea1a07706e380d6b60be2d2ec8c284d0226c324d181f22200b86127c60d90506f29070e923b58),
  (21876, 3, 178231866, 0x20c2529ded0f70b),
  (21880, 64, 178252614, 0x17e42c271106301ebae03848182a2151382f11301f33034a11aa21099f42952d03606291840b1cc04f7125a06322670d60e217f00ab4a29c12110f91bf16027870fd510b5790b1492a57726ff61e0952f6a5235471b9070cbef23e3006e87071cc1d4282a5631d2270fec1104d00d0ed0b3ee22b64236020e816083d91fa171cd620356a0d5cf1b5a62f3b015e8f099e72f7562d1420f47410d031938102754),
  (21944, 64, 178784558, 0xfb1627c611af4d21bd0322612d3b71c9ce2d7020262825133189f0193341efc42a0d22f6d81ef170fcc82c9e911262178682a6991c6e61e8b82c4f417256011c51c8d02c90303f2b1a36b0e52f0fc4f2770a1d498274652fbab1de3005e4131f1220464248561f5a412dc81795427411193552d8e10a4552fc321d2a203c960a8c2052c124a7704f4b1ff9221f29143b32c6ef253390f7c80f711142e528ef3),
  (22008, 3, 179313893, 0x2bcd3235c62da25),
  (22012, 64, 179331095, 0x307a8250af22078088f70eca71d62c03f351300818e6f237220b8c52daa206fd52e6f521504186ab0c031061c90848c23e850376e2ad4a0ad72212b3044e12fe522f519081680e24117aab0778929588014a22119019d0e013d524dd427ad4033240db0303ff304eef245780fde80edb32118c046421fdca1392f1b7ac0eaf2250481d62923d5800f29253b60a071246b9240442ad930e377049060f679011b7),
  (22076, 64, 179866413, 0x58590e29410439274ce081231e78e28518193f52a5c40614c0de04078e10783619ad114dee2dbe72240e1e9e61d23002b47027190a9590f6a82e4f60bee90a6ca0866d0fea41e1c525c13037af0b3d4101f000a4c0d002265ec253492587318112248512c14310f8811c94062252084b139d6245252a48b0ace32a52b0deaf0d416130ea12fd6013a80579625e23074ca272a21eeed130420cb4f143132538f),
  (22140, 64, 180391868, 0x13b22296172dacc1d84e3178d26f9423d481388f0d3ea185d30d9330eb56207ca0a1870f6690c1c7219e82db141fa530fe2b0deb91cb8f2a54d0c1240263425022277f013a7028da91056824d951cc4f2eb6518b42086ef140d72fce204caf0c87310f532c66610fb319a2929d2b1f30d2dfaf0d5880c8362f10422b8904c2a249870e92c1d2cf16e2a2372c266f22c6d025d4b1a4c610ea820bd809fd5034e2),
  (22204, 64, 180912601, 0xba46206112c0d62c88422d4f1e8811e1272bbb21d7a31faf02976812e7626e162adf926f3623f420ab2b2a9912d26822f41291c710deb31c100cd6415c2d2343216c94039661ce89224d10b9ee2d6d02a47802f4b0ec32276f910551250690e9eb12e2b094a710655250d02590f2df86026c20800b3154403e4e2452e0d03210a792ab9014daa01ba6158d30f5c62eed100d780d4371454f14015107b3205a2),
  (22268, 64, 181437910, 0x31989087f00bbb605fef237550143128c660c1740eb12170992d1231fd2d18f2c1c4b50d04e0a3c32450214248163a42b2930fd632d2161068b223a12d8c525aa229c532e5d310d66286ca0e533167cd1a7c41c75707916081a40e0f505c483193506a8b2f14c1610a2190d237720ea27221180cd87206f41f1460fc44174591def10f5970ef35004d505d110ad75261e716d75180a1006380ba9808d351ec27),
  (22332, 64, 181967009, 0x31dc91fe820e9830850815f2e17cc127eb6138e61dbf5108192b26a13a46249c101375252f315bac29d6f29c380f14b0e5c62c8090e547247b80ab8304c37016031c8942159112d81251682d8950ac051d4e904ce30c18e060ad1e9870c2951fc080ef6a245490b0870cbc60cfa6019140758d087250ad0202ca12c8922fed130652228f327e0531dea03e411d42e0a79122f05154a80d6791b70401b040072b),
  (22396, 64, 182487678, 0x1e3631c5d42c18824f020dec908c691278b0a7092b8d001a9731e63245012e14d0164908c2523aea0f6c12b03724d3220e86194641fdcc2da1720d972c3360d2f10ac951a1642a74b08f061b1c90fdd4295cf0a09322e2f106b606b091e40d2e7d2053980e8e43004c0c3b716ef72a0f60bcc90d7f20d4e21c5d91f684284e50e4b829d83323b104cd907fe505c710b111035262356e01b2d236812012608215),
  (22460, 64, 183011876, 0xf5321f971424322d031ddd224a72096840450f17b8426a902d0e205c8221ff20e2282978f1ba830a085307c72bcf8276890ccce0dfc509ff41e92a104a218b250e38607b112c0b820ca71ef562630b19d252096a0924b1eb790d0d1106c72f470011611feeb025cf14394072902c1e725ed7142f919eb50cf23225670d1442a78425df00c1810b8900ba0c036953004512cb816b3923076234c3030c919582),
  (22524, 64, 183537684, 0x14272f0f221be91ff4a0f478267a812a0c0d12921f0530d27047811fd0d0ec6b23b462d2cd0e4841ee421391220f942628e0e6e8119a2099d5108820e42802ca417a1528c0d03c0e017b81fcae2534e2b70d0de8c0eae2059c118f411ea122dbb229782317b11d14a0b1940b545099ee286f50c982227aa0b9a116fd426623063ae28ca80ba2e1edf22d84b21d82285142590a1078e260832446906342221eb),
  (22588, 64, 184068054, 0x1a9e50590e2cb0b258cb016ea1e5230c0681ed0e03f91141460e2b3213d028976323e90c0c526108168a2228a815f93263c8205290fb730d94f213cc1b1b40ea4a2421620434180e2159c8041f416fca10f6c18d070af5502ea7297ed0a6d60ea1913d6c075f7219730dd720dbd8246452acd7136d60c06f0eba32cb0c045c6172e505e5829c2519dca243d4232b52139925a3522766182e3015b923eec1a1d4),
  (22652, 64, 184586476, 0x1f422096eb0e6430c94b205062a1d53146a2ef240ed6e2e94818d8f1bad0035171d1f5075f90aa32140282ddd80f42a14b812a6ed2f80b221911b53409ca51186624023219ab1f6ed22f4b2892810de1194cd264b90cc4b0d2eb155412a9c82af8f2e1ab26df325bf12a5ae247d807b970b2701caa6230880abc811af229c6b275c904797287c82cf9423def086330404e1312b0ed581ad112cbd801f4c0eb71),
  (22716, 64, 185109244, 0x295890adb90fed52cad131ef3093e206d652277222788047b20ccc42ebca1b4211a8b90d848034d528f6c18645317cb22d332b4a213a62248b80dced03d180ff8c20b362782806e06227ed0624e232ae09c220b5a5139580b36622d080f5a10700a28d30233b4048c9227771d1c809aa308fcd265f50ffed21e472adb02d7872a44f1ba8401cb70aacf183e823538279eb160e219f23266d62c08d0e9040fe37)]

/-- group 5 -/
def seg5 : List (Nat × Nat × Nat × Nat) := [
  (22780, 64, 185640241, 0x91d203c2a28b452f86d28cc630678026a50eea3167071f60b208d30ea0425bf7101ed192b81fac10fe67088c9175670ac9804c621e5131dbe31f00b2ca2b0e2f90b2ed22bb42a1a90e9b00d7c1242e62dba428c610a5b1026230b46927d231b3ce0ae250f4f60c5771e1430ae0c10e9808d0f0c0102c7ca07d251409206e9022b6d106ca1e7341db0206e750b290070812da9130dc60f5300d1f617b8a06362),
  (22844, 64, 186158222, 0x96421e24e098831066f209031789200ff903796030c707c07165e11f096038ca24baa183083138129e4a248b31057307e581143907d7805d0310f8220fc4078571c0152634f2ace7088850132911ba31cb28068c60cbb42db8b2072f24b682bb8326343314252cbf82a70d00b4f1422322ee8296952330f0b9cc0b4d112a2908703236451918405f970eb02240a630b0f1f8552ac5104f0c0130a23583240e9),
  (22908, 64, 186681173, 0xa42d0d0e823d0325a8d1f38622c0c23d172d7ae2c3e22afe826b05020451efa30e0a7261b8230410372a2746a070cd21d2f31fd60df162c6582176704d312e6c108e642d575106d22c74d27cad1611522b532c12b2776f04482267640d0ac090d11a4040896e24c662f3d2174d40839732145261561e6a62f4760afcf135e60405407605221701494c0e14a30ceb0d825230d328e7509767016b21d86b1398b),
  (22972, 40, 187204708, 0x2970e16cd80a82813924177ac03e671dc501032f24b7904d960d1ed272f22692129fd9246f722dc717d2a27dce1dc44304ed01c8f1e94430ae10d84924a090ff4a08615015131c5081ffaf0492118de925bec1aef41ed57133011c00b1e0f62d3940db75),
  (23013, 64, 187540942, 0x234cd21bcf27ca207c710991109bed23a44131ee0fef104f4d1f1b62490a1048503db3323620e58a24cb4288a919ff817bef25159004cf142160444d16bb40b88a24b7424bd007dea1e9cb317d4318052fd012b0762d1d10264a09ab00b55502a9323f920e16b0a6120e08b287730ab21247741f44725b542f0262a5ef0720f09a1203c010f6e629e011c4610ca7622e252b1f60c1292614c08ab32745605c63),
  (23077, 24, 188064273, 0x1b54d23e6721f580568506ad815d9229b260e31209586204a22bd0b09bcf202b4109a321f5408586226932ad8422f991b9e12ac8909ce11d0e8235aa),
  (23102, 64, 188266091, 0x2d18e0c24b144331e7532cb762d8b032238230ab31319285e308c432cda31c668235050854b2b043243341ca9809c480e68d0b4f70a8b022ff30e8170a54d08def1d2ce220131f0a60e9c70578a064751170518d910db2e1058a1b1d52cdc908bb0058100d1071e3991f3312e0090ef110c28f08b3118bce13db11f1e41d2732d7951fb09085582a44c0a2d330c90236f7105760c21628bd203f741ff0d15a48),
  (23166, 64, 188793795, 0x10d700c0a05c992b6d40e92d20218140c40b1c227e6f222142b06630634036c50c1d3246f21b9f129dd51054e2db59036330d6342435900d93234b00de030d66d235ed2fa302dda304de8184cd26f7201633259230e12c2ed2a0d3641f6311fde10d862259d5107531eba923a250d8951b8760dee105c0f00e71244882382a2d0591ebce0dbb92e8a31d82f0db5407db61d96e259b707fa40b44f294e42d0a1),
  (23230, 3, 189317736, 0xe1ee0ff8512c62),
  (23234, 64, 189350408, 0x225f32e65431a080d1432a5c5010281f6691c147200cd24b161ed8128cad134320e4ac1ff11035500ad460266c20870269481cecb31f99078cf24c14069ca220490ecb71794f243e522c4e294770a0700ca172952a0f50522dc91e4771004521881065d80a64505d4c2d1981c92b18a2324384266c2317f7097e202f310f1f12d7010d1d111ee229c862603712fe306ceb226cc05be11f22521d03248ea14bb7),
  (23298, 64, 189875419, 0x1b8a731c3915b230a68e2de560e2a624daa2416208da62e7cc149420afd6036092e0a82a4f01d5610b5500a718307311fc490ab4d0deaa14c0d2a48827a920f54a179a60b148088500e63617f6d138ec20672223d519d1410f342c3d72a5ec1b8cc2a60c0876b2a69207e3703c662d0861b1f024a26011c4011642a3b10356d03fb70d3ec25f8e0c2d4011cc2d9f5323c30afb3248cf1a4c31872f2612b06ee2),
  (23362, 64, 190402075, 0xd817048b801b90240cb22c74209980fe830b4ab28cf42618d259342c30c02fe513be90daec05dab0c1f61e102178672d26b04c70200a4035a8201c42a76e1936724487287ae245a70b848224d42312823c6a0e10f1753025ef60dad90b44a105180c408017560df18224c810cae2af6401e3321c9900514238041f0cf2a4d415fa32257831e66090d72508a2a60f099ad2522e044981fd790edb01afce24a37),
  (23426, 64, 190924087, 0x1d62f0f5f22d0f4143f5249861cd63199032d647261a410eaf0fd1323da8264c307f322df411f37013a55309e91cab3107941719205aea1d6d808843004700e6721beb706fe819aa40c14f2752e24af60db081f224219cc1d23702af204ef410d2a1327602fa12bd2e2d98703fe21e7b80eaf308fa803da20b77003e382e79608a2405d102bc99213e7017c401c9406e2927fd424ac330c7926fc70a4650b9c9),
  (23490, 64, 191450466, 0xc642ec0e158e21d6b430c6d025c6293e42f842231860ee862dbf8075533158422e6b1c281106a814978233ec05cc50fdb222c0f1d812275030997624fcf0a4ae18a4119083252ab1e02c29902200432d192243011d477130f3113a806f4e1ba300da7407bf931c110b80b1ce2430e140628a1841924b111478119f8709a680e4962d6e904cb42172d24038314c82cc033143622f0620f0121ff9011d42024c),
  (23554, 64, 191975294, 0x84341f1491eda41d9a40b2c1165f80f488310a918ce628f470331016e6e2664717779218c5274c41cb88118f124228253cc310ca285cb076aa19ab32a4822414410f2d0150124c4d10d5904f552a694103022444329711107e41e8b70c08c29d2801d950e8f908fb70ceec16c69034c8320f9049f72b766214e10e52e132cd318462d14f165c8162650abd51fb4407fa1034e50e191286c12455909a3424a0c),
  (23618, 64, 192497644, 0x2a52828eeb1b0aa24d9224af10e2190b4d824f24284772eb8d04dce132841f0d21657322f42243630a8f826b991edd423b280ffa6055b20f7840d4e10c76d0eb1322bcc3057922e930878a16967144a80e62b245112a4a90a26b1e5e10a0b523f342a9e1026c10ca492cb6f322ac20ee21394831bab0e4d20da010e7411d0c10cf622daea1f9ae1dcb208f4f241ce28c04205a5319c7266141e2c622922295a3),
  (23682, 64, 193020217, 0xcd11203642c186323d910a580d585247c70457922e0e244eb0ed0e0e02f23f2a0ea580b50e0358e2d2091f8f72f45210d6f1aa0125aa1167d21d76220dab28d6a0cb3123e4e218941a5621070f2117819b392d8330b30103c2e0e8a521faa262652dba90440e2499721844305242957018107275e80a5ce186e10f56326179016481c5720e0d21e58f02c2c2c9ce17fc8246a41f334029ed227142c88729c8c),
  (23746, 32, 193546943, 0x1320110f671d16b092550f1b32cf0c1a7b9272cc0c8cd2c8ca1f730222c2277d001dc32a52222e3420fae0dcd930e0e20dd8258b80a8460f8591d3ec0fdb123a6f299231f2f61fa7801f081fcf00c2e1),
  (23779, 64, 193807085, 0x24540767316c631644a3155609b44054ad08d990b249015a2104a508cb804d4f1d4ef18ef81f7aa2fcc20d0450fdc805ba70b1100140722f2c24d97292a624d610c34a2da62081462e5c202dc41ea99157951d53825deb2160708cd1048c221af2094f408f0a2ff2b2d30a2d2f3320582d8ad0af34230a20b84f1e6b2235b7202f60b20522ac204a7321e662066123ff91fa4e138342af952fc0631deb0ab43),
  (23843, 64, 194340868, 0x30d7713bc400e052d2ec2f93609b130e6ef072972e181025760e42f0fd4f2d8d41048c18e031ec6b29f08037c2207d1323671c3d128c6e07c51069cc0ef500a3370c9321d3e92335122a4a2598c2c0a40c98108c621c778037b92386f261e80bbc42ee740f6c8163b421d8923aed0e9a8259090d6c312c771df0615c2b20eef28e4a1424c185340da040793208ac20b38d290841f1ef047f603e44220871b8d4),
  (23907, 64, 194865644, 0x226c10b1a427d612878a28d641f78b0a6ec21e76044d523fe919b6b215960d7b61867626fd706cf80e9c413211250391f36d1156a3210a297ea2061426ca72450c1a4ae2492712db40b44d189f9250b61657907824220e213184045c52a7421052f18bd319dc9218f42a734251aa0a8a61a5533186300595218ec00e962a4772332c098892fe7509ff10492b1b3a52c2e623496217810e9f8209692a4631d127),
  (23971, 64, 195388413, 0x2197615d050e8c804434059ab2684e013a11d76b1c70e2cd540a7b70aca2116280450a0ede9084961077529c220ad861928106d8a26a0b043d00772d31043202a804da10b479029391b6cf12acd2d6021a17704e4b0abcb10e73014cb2462f294570ec681ef692d2912a599150483166d0e48b11dd62a6692346f0a4581a9e20366a2a7d50348a03c8d0b337252762a78513b8804e711a6911d5d50adca0f1d5),
  (24035, 64, 195914353, 0x2f55210ece1d38c0d7771c80317c2e0b0f3129d7239360f3ca1c46c2630c295e22774c0da8b072f22874919319142810ea072cb8d049b331ced043b12d3cc0db9007616080d9227700d2292aff622179265f208f450dd2b09e8a06026098c7217aa23ea11c06a2ee52252b7010071389019f70048ad2efad1e7ca2ed4d01e170d24422298089680e1d82137531d44009d80c4ad2664110d8b199cc013b926401),
  (24099, 64, 196440146, 0x1569809caf02f90064a6258b216a611ca851d1cf109d41dfeb25b4e22b3710865223ac0d0231f12e16d420ff2b0826c048f82432704f0e046471925528478285ea08c5408c6820ec10dc57248610f4c60e9d4073c61e1d224137013b723d10106cd13198082d3068c123c630aa35077720cdcd00ec1102ec1bab80cf2503b371319404fe306a690c7221cc480df671101505bd0140d40feae05959236c60c84a),
  (24163, 64, 196966338, 0x9bc3227a729e4d2a4c4104680ba8f2132a0a70c045b8295ef0ee052462a2cfd81eef70b4e225f891a544049a4072ec095d9214d2097792d4aa152aa0d2220e1160ac610b56a23bd1069261422c13b83296920980b244e22ef631e38a132c71554a087e52a44d0b4e7322720e9813164411099080830438616f432ef150b16921b231e1f52cf472dae72782721ea60f75614cf52590418bf60ae4c177af26d2e),
  (24227, 7, 197486775, 0x21a263082a3182c218380cc131413925c98),
  (24235, 64, 197544995, 0x31a352f40b018262da882d383287b516bac011cf079b719df1241e92bbc50ec551f86f092070828628da81476925eed0f962104512606a26dcc09cd50b1e72b20d2d5250ea630ae2b2672f07dc401466239a813788019a203cb625b5903c21294cf287591c64c14a360afc8060cf322d4295d91cf1820809291e70eb3810d4527d0f0c8ea0c38318d19130c52340f083b918d7113c5931e51006512776509294),
  (24299, 24, 198080579, 0xb2111826a09e4e007421933223a430368e1f0991ff73237e625beb04945016ca04dd32c5ad241232d3971d3a91cf2f10f8523853305851334e1fbe7),
  (24324, 64, 198272271, 0x22f2f2474a2c9c61bd87242cd0cbaf25e69143cd1a6170db2f143f6205c60ec871a84e15e45214631e66c237c21d4cb1eb0b2ef730a4d71982d30553036262357428caa208e204468323922bac601a140e995212f30d0ab245342e096045e62874722e62102b92006b2acf9190cd3060729d751a8cf0e66622c411ebc90c80f0e4470e14d24c2202cb30eb2a2f6040a9e80eee3013041eaeb17fb217eab1f489),
  (24388, 64, 198804230, 0xd14e234ec25b532064f0c5cb300c109e3524bed2bca61a9890b9332cc932a42b23f112a64b084b10d8e72a684116c4144500b4e12e359286b921b71126ae1e906233762ee170f5a824b782161904f37303e31c9090c9961aa73155a2164472f7b709ce2007d504fd92e04d29a2520d6331a4c1fd0820e6b2c2a31b68b1d68d0bbd8027c20d207267660eba124d0824ce31bc5629e220db720120f0d0f7220cd),
  (24452, 64, 199328546, 0x13ab71c8c70e315015eb060ef1c7b10e4c60821808dab09cf431f4b24c02068022309722ba9186d3188c721bd2242ef06d2f10778217a40262e066b20f5c11f0d521a06215e2184551c3af2a5ed2e03827439115562954c28d0d147260cf432388424d7524c2718ba202eb2253f322c051f0a915b8c06ccf1e3b61fb2e18d901058d21c4d0c2a2275f228f4b270030518f0ea2d216f517b450a816074e5237cc),
  (24516, 64, 199860538, 0x1b56720c830b0430edb426fec0b938244462694e0bae6259a627e820ebb517b790e1e10eca10cb590a8b32bd341da2d231e721769296af2ca081b60512113186a5282942476f1266a2524f0b8711c45918801232a420b16007d61b8f02278d0e24f224c32f6e90be0c2de9021c820a8d20e7840a66812e4b06089013c30f6b404cb8251222ea320e7281602b2c9ec013cb296682a2d32754f0d8922504e1428b),
  (24580, 64, 200382044, 0x44030d3eb24b731386e01390312170a8700afac0b44520c041b9ea23e951838b0d4d41f5f21c5b6265231ea6329b182d103026972da5126c23204f91f411105ac1c9b7315851ca2429e56223722087703aef1b2b6092c223e6410648069d107a732424605d82243e627cc5240061d1862c9e6318152b136150cc28f22144872e910307840280c1eaed1ea351e2532000e297932352f004c70ab760f6d71cced),
  (24644, 64, 200900717, 0x8c53262980eb0b2062f26334236a11cb4c0125625390169b32c80b120522cdea207520e30113b46286a713a261eb702516e0eaf4260852779409b25095850b876037a331eb50152724ac20a7190a7ea1a94a11e271c93405de9088212c09810ca8084f310085247210a2b1087330ff470d6b0235140ef4a2622a10f550916d096d41588519a2b1f30b20b631df682c8b2176a5011c30e34c011631436b1f88d),
  (24708, 64, 201426412, 0x2511302723035d50b4462e0ab0a1ca03dc2294180db551e2430f7e8296d80dea9095d02910101b972d8af2baa52014230e1918b8f0c0ae23173259332281713c6c2c3831fecb2d2761cad211a021014b0cd2f2adcd1f3c82a7eb0e88e0ce7407de717741096352daa4236d303ca90b2a423e8b091311c34d131100ef282d6360c9462ff7421b360e6ee2fa920d0cd0b941291c526d193161419bc424b8f0ca54),
  (24772, 64, 201949835, 0x9f370626d17c0d0723112a86214820c9282218b244b3240e709da5252e200c1920a0327c012d0f70eab0007b02d0c21c8910d6490eb142575206594274630a3c52bcd82a4ae22be7188450dfa50acc41b7612b5250a8c80fe531b2cb0046b174ac286c8073ec1fced0ae970f9a6005990ee5822ee3212e921e4f2e4f0088e60270f0c92d286132c2272d9982ff580feaa138f310d552d0682d3d01766e08a2b),
  (24836, 32, 202475036, 0x28a3904c311432f11dc22fc8a306610c781139612add424ace07da330e820db220cce31e24d01c950e9a90b0e108c8b097eb05d4f137292f96d046621aeb21a495240cc25028201f4305142154b2c3e9),
  (24869, 64, 202741631, 0xd6d22960e315120e2f209770223a230c272ffaf0804d084090916702d9730feb2fe432334130db420f340dd4c2276409f2d10ded0e2740c98d0b32513a391e7f9249092437830ee123745064041ae8323327323730a4cb27e232db523126d1a70419f582536f0b9113238e09fd923ef514564192ea0f6b8234e2193aa1522607ce10ec4b0d744231892d22d253290710a0e5c40d2f61638d0aed9133832ffe7),
  (24933, 64, 203269827, 0x138f60e114005711650e25a54049e8087152ead62032b2d0300a9b821d321fb5502d4c019b613aae12b520a26a24d662c77531045023b329e6e1c2330ee6e155e60ed4e23d332a8f6305a30da0e24a790a1ec1190c0ba0a0fdb90ceb71d3242c8f827ece207040d2431de8e0c38f0a8211ef25246742d1e61a0ed253a601613190841f5030aee60cc6b213b90b2f8006cc2664410f660ab50272f10ffd71f418),
  (24997, 3, 203792750, 0x2a60d038220676e),
  (25001, 2, 203817180, 0x140d10fcd6),
  (25004, 64, 203841661, 0x45740e48a00fa200c4d31d502da630b10f235f2080052752717eef0eac709a780e5f821e45014f60f5b704c962fe01199e91047108f4e099b001363200130fdf631e09101970acd722a452510d1b7b21ea0c2acb000a922a4ef01a6614f272bbe725cc30e9b91c5610d1ac25af52c0ed0ef6422f6112ae12775626099007cf0c9ab311411ed4c1ddd42606f30ed22220e04da406bc610d560d2ed0ae6424a68),
  (25068, 64, 204374363, 0x22e700b1a314347230a5045b71396b315691df4b0a6c40ed26323380fc4a0d0042494525814318d104e4d13aa10164f30105133ae23aec06cca1b010143ca2df76086220fcf70fc8c1bdb52c3281f72f306980dc691332b209d30dd680cf2e203021e4c50b3b0258b72753008dcc225a90a41621ca71378b22d7401425247851050b1f0e82bfe4058a9261a910db209acd305761c7680ec2c0f77504a4511c99),
  (25132, 64, 204898978, 0x29da7201a40e8c92272f07c2e06271091610758b1288522d05222c120a7624a74096861f6eb1b2431048a0e9cc24ab51b1830a8490d9f729ce110fb52af8932356246d329ef62db902d60120277052b601437075b4203a52edf8138c11fd2b25af002c361dde10af310479109d480e3f8220d7035912876224df803c4a1681124a0b1eb8a0ca2c1d7650a3e20c06a0104918ce7011850908b276862daab1ef4b),
  (25196, 64, 205423798, 0x374a0e8e61f6d71d91108d921f556123d402bd8201cd0d2d12521404ce8284e30e7ac2fcc520cd2034f910dca00fb223ec9320622cced2f56510653110f71dcd71fe75155ad082772628405fb01e1932f4162052d08cca2adb20acb2037c5249c3013730caeb1d8542481522c99234410f190297c41e6b30fee30b54b16a4e0c8ec095f12478e27f56037b626e72224290fd291ba2f074a70aed1252d3084f4),
  (25260, 64, 205948475, 0x2d2ef0116f0ac8d225712c5c60d385277ad0366d099570e366231370b3382cbb407cb329f0b0d9d91b111285e10772f1bbb52776a010061f23530c182f76c0f5502a4c5223562598b19e8712834233ab12ee30b0642386c1c2a10bdc12474d0cad22246d237930d4a82d2a60cbd623216068ca24926243451e1310c8ce2cd9509d1903dec138510b38e2cb0e205c92ca2e1dda31a5f9074c8166500bec30922e),
  (25324, 64, 206472516, 0x1f848284cb216b42626e10fcd1d0880ff8310d79169ae29d9221d8431464264ea2a50f036501e47207ec7263450e8d92640e2e0331cf060204122b792c22d2d4f9010420b565142452394a09ca305e3227f6f037090f08d304f0166f41a3c607eaa1f34a315470cb4b107e72606305c2e1ee6f1df310264f0d58a238470e03422d2309ff20fe3828cd821b30187ed31596058530ff54107850e2081efe614a23),
  (25388, 64, 207000286, 0x2b031261e113aea29319255512959724ff319b8f07f0221c5607ba803e552d9ef269981b206047ac13b550e8f6232b30e16705830022cc1c1b00cc8d23ef20af870dbe1129aa27da218c84217ce248e9058491103902ee5072f12a4ec1fd0b2a50c0de4b09bc92a592049b413166193f60c349234680a45924d5802571151970ac712314d05d562721624ab028e231fc752f2f3189441d55028f7524bac265ab),
  (25452, 64, 207532962, 0x219c809b4b0f44a1d9310b2481a9c80c51511b261042f31d1217ac40e84120551261460ea8525903142822d4a42ad02249371428e09ca82d3cf2a66e1ebd405589185c124262262591e12c0b8e8225650dd34075322cad40e9b2209130101621ecd175c3133c2245362c00f2e68f1f46406f6c2d1ee30dea317892ca9616309139ec2132111ef8259162413805eab0ff910a8981e8e50eeb002ea11e3c60fca6),
  (25516, 64, 208046754, 0xb5091f04918d180efd60ec97226632a7ca3078f25b4d1e63120905153a814349260352e7d1106ea30f7902f2b2aeb6243282d1f810e910e9060d5142fc96242441ec5113aab2396310f842a8cf089ab11f02181f606bec0cf542b2e728bed072e30dd0e140b706db607775207210dc7324ccf281270b4d322eb5045191422505af60c0260138d244f1293252481019e582364b28335232c903c0b0e12a07b72),
  (25580, 64, 208576623, 0xbbd30d904262230dc3108d151b1f60adb20e79604e550e2d909d642e4730b4f122b733176822c060258705e38095832034c1c53818f2527dc3143f32216925b48140ad1336a139341dba10074413b3105ec413a912278e0c8450d4c523d981f67303ff023ee22672c011d9188aa2a428231540d76204c150d90113e6814d89083912daf8074531eeb830d211ccce034700e5ec23e0d3150c2add91b33723fab),
  (25644, 64, 209093989, 0x76d902d4128a690ea2c244a71d063246c725655017480b2e62c8502632f240211bfea04dea1f238261d1028ed0ae2406dc81c2151b2f20cf9710e6823dc5045b20b16823a2723499207cb2a59410c910caa31e5ee025d522c42290c82d8091e9052224410d421fdf00f6840db9126f5313a4a1435308e4331b661474f17d47130f50e5311ce732b3082e0482efd61a3a609a662b24c1304d2e92c0dff80dbe4),
  (25708, 64, 209628459, 0x2fd2a04da6045e5283b22471328d220ecb1249f6172520e84329d722d98d029472337909f090aae22a7ac176610d2321c90a28a922e672178410a9eb29b540b3120e42e313a90848a22f0e2a2361c92d05df220e6823fc6195ce260c71e7691d9a3027c12490c303a9317b32954d30f6d02e311e039016010e6412da3725573142100f3272e0ea083d6242ce30fcc104440642405f260e5e92d24b0548402964),
  (25772, 64, 210144500, 0x2658926e8e0bb5128669187e1007a426657240220fc2131c0b0c28a247e8081ae213d61e9ae20d4f2f6892350b0d1cd0ba692c16f24d0905a1723a2a29e252d7b00f78a0e81131bcf25bd8320671bbd4321580942f1da951055218bb7137512952b1756a2bd0e215131ddb331e242488610e130b5b40a81905ed4035f60b331232f2036f213101106d003c150d7182a0a7323912bca515fd90e0872e55529928),
  (25836, 64, 210668646, 0x2475719a932332a269052c34a1e0ee084c5041b1036cb25e020ea61244633233705ad82bb0b28b8d2c8c5036c315e422d0ab26e6e13c9804c4f1f6ae0920c2df8b2ada3251392439331926259e40a8d52a34b21fa828fb12440c095a129d430eb0c2457916b100e72f080cf221c204e862a42209f8a1fe4e06fc12d3452ea89076d43168402da6161eb22a86061010dba72bab911369086af036a82489701530),
  (25900, 15, 211189932, 0xf5c821bc9228f01aeb90d6f51a08320f3107dca0e043317a31d4290c338061100a5a50ad43),
  (25916, 64, 211313834, 0x24c24120e90b4980e5d6285382cf03011ca316562a3c90a8730c22522ec618729024281e4472cb06318e20f63231c8c2e01712774131112518f106820d2ac174af0e78b0e2830c1b41c9b01ea831f0c31b708014e90118c03aec119a72f90e051c313928123421f311021511def81d0e123f442af97089a2075730afa20f50b1d2e50136804f7025a791e126047d52ebb803a1528db20170c1824f0278422f93),
  (25980, 64, 211853493, 0x247e71309816fb826c22204e605fc90061627e0f31bf423a82079c71280b2814413b230a20c07e8430a362614a1b7b72a6421e1f40181719cc931db22a6340b8932c9f92534a0360722ba603c4e22b380b5560d3441c4042948309cf131d791aeb3188c823528071280c3f73208d0b2102decf300e223801273d60354903d352e2080be751ddc3259a52465604b99251b6304c925149249f124d720d4e32b198),
  (26044, 46, 212369587, 0x22d4e317f113a940a7261c3b027ca401a6a07c37212272eecf21c661c9e51ef162da021f1e331f31248ec220791324b1078c288a722f3428c3721ca820fce0dcb9092b02ef520ea75056a81df0f27e610c18806f0b035270c94510516266f9196b40ba940d5ac1b0a51f5f32d5cb193f4190f0),
  (26091, 64, 212755522, 0x1d1521f14c075b7149b9184b51e78803e6425b9802434249321d8f0203a8284ea2ab190377108a72081d20b2692ab55006b70a8cb1eced242370a5f423d2c22d4106ff6143812a499241490c03009daf22eec2a56928485272a40812610d2c147492610b1c3c5013cc0866c2a685138881f02e05d8d1b82d0e581253b7106392d2d32188b1ea2c2f32b0b8ef2866730ce52b3ce25cd40f2ca17ef307d1723b81),
  (26155, 64, 213282000, 0x21cce2c0c6234b629c89014a310feb1840e30c7715e2d2971817b0d071091a32b0da900b46a0d329314f4282e40ce6e2d83910751206f5111150e6842e7c626f8f0dda3049f82d06d2990428e380e5252d9580a655158770db52044b80389607e8c0ea4b139d705de808b16067300d7cb1dd25243cd0f511288c12306809f300d7c3015110473409a130d499294a50b570105232a6d504ee318a0b078992d392),
  (26219, 3, 213821294, 0xef05176d721075),
  (26223, 64, 213828672, 0x25a4e034aa1daec0a1c31db8c2a7251b3e7056831d11604d5828c990e099077f32e02e1f2040879120f4a10f690fe2218d4e0ba470a42c317e12000f0e2f521da617ed100e58140aa0fa2621b0d06bc11e77107f0b1280e20e510c8740c92727ff40a6f30464c04df901d93239890b3262908d22b65238760f4792a7e22826c27c930b846060c5084e8139901e4e326306010302d1410df12252030bb2300628),
  (26287, 64, 214360473, 0x2452a22c2f29db01afd30da020ffb0025190f7a321548078382d3f11e4c61c032214f10d3221764c05ed5210680c43206826067711388331f032a7e8237541e0a10d6500ee0201002206b109fed0766d04fb821a220954f248921d9901f7b4125ad0a26d2422310c7529e61073f402dca1c4cd015cb0eac40e1e9138e7305a80ec480e747013d400946295f32e9b90e5cb062631d32b26f662424f0c0d825881),
  (26351, 3, 214884938, 0xda722016b21e12),
  (26355, 64, 214910047, 0xcdb80a91629a51274f80f469247d921be825a531054c2630a0e92f23d8104aa91ca320d3070c8aa1b2d6019b50457310768056350141705ce622d4b2d2e2223b82c1e419354212951fe890d72b2c32618e052eccb193390990e14f4f28fe708f840c08304e2a098f307f810042719d8518959111052211929f781e7c41ebaf2ceeb063c6314650b39326eaf0bbc22f652259782ad900d1ab0fdcd29ec20a475),
  (26419, 64, 215444125, 0x1d64a2da6424d27075d00ead415229155e11e2320c9d3214d9132700da0f249620c1822ea6b0137423f4822989142a40efe3187d30d4221bd3419736243ef0a29125b2e0fea71098525c2b0e5120528c215d42db7701fb420a462f7481f36b017ca04cd3310f90dc0408d3416a082b2ee2ee350cfa720cb6087241c14c29e0a04ccc06cd10a8100f4a8073610e5f42869522e2e2f3040a04f140d225892034ce),
  (26483, 64, 215977275, 0x30754007c724a392bcf2021b9015f6010d22db79227e9198413190c0eb5116092069a709ac310a820e6281e48331d861bf560e7332a5840cbc717c102514e0442e2464a1c25628eed31f8407d862ef170fd501b2421048d08dcf0cf841b1820cb81225aa29cee1bbf02e8e82403618e9524b2f0ceb313a6326f8824a2804d4915b4e0a4e710e750fc4e25ac625aef060e50d04f0c4c529cd21424f044e600c4e),
  (26547, 64, 216492942, 0x14ed4062721fde6211d0250f323c0903df32d2791e012131821fa2e2216a061582e4a30060f2974e06151079971fc8a0ea37259720c850317ce03ed0215ab1af612537600f2f1c8cb29f992b764195172f4771a3ec06e6123aee27f8212f88246a313ad031cf325f680a3171cbd11438b03c4100e8719d4d237651ed17323d421f692cbc12108f2d9a81b78d23ea71b903296f8016311d81813b6f2e081234c2),
  (26611, 64, 217020562, 0xaa0431714202422d0840b7981e8a70f4c10eeb40ff992ec230ec6229d56047960afd908b7128fd91eaa42065205a69139131e69525683080b210fe12496e0ebf41906d04db2032f303a4c0c06904ff20d0252534f249c22830e11d072f8cd2c6ea190331f4f2307102c0821f80c285e8202f4044cf23fef0ec790fc470d7b0287af102a40acb804d023072d225772d84a29d132944c2232f2962c2321922728),
  (26675, 64, 217540431, 0x225880cb272e18f132232cb083188a1d507187a50062c278b422bb508e540ddc529cf1106a223a740d7d206a8e1c13529785290c518c422296d04d56249990c1ae29ac530de90ac4f104ac0da2d270f305eaa1e47310d8d22ed129c0d1b3b624de32454e2c9b20e8902197022d18013af221960796509d4c0a7b132222096850e7c624775261c81dda205ea307b2b24d02067ec08e6918deb24a3405c3521288),
  (26739, 64, 218064080, 0xb82e1d08f1a14f10d762da6b29d950c4b92226f053c5247421f0a7097d42096621c032c90b07486159731f7261402f15d8717e6210df41633521f960a8582394d0bc7724a730dcd31c8f80916c0a97012b4807c580c3a22474b0cea9100381a1a321fe11314825d5308234264f20dbee083c60bb3722d2c2358c233e12c6172b8d405d6e2af1303422258a60ac332c9b1277192a54b080a82a6eb0def222572),
  (26803, 64, 218588840, 0xe5730621223d6d321e90eef00242300898045142d1cc22507154250e9cd236441664b0fdec2864e0e12d15d7216dd42614f152132660311848246210c5120481123dc2112e5249881f7a82fcc4068830fdd607e8d0ba862c2c70b5a42accd22d0f2c90c23d44285a701f4d26d520dc8c0f7022c3d22119915b7329bc92d84713a472ff650e9b32f2f205cd92713220ac4133c91c023265a827a281b3cb18831),
  (26867, 64, 219112472, 0x2036a2aa61105c30c233315870d00e0a86909ad006fcc2448931537196571baa525b861395924bd60fcf527d0102cf2262891f8e92bd14215e627dc52442d19ced2ca28225660e5300697607535213af2efd71abe41eb510d43024bab1ea0d23415227a50e8a730f27235cf014d614ea8099ef2f9450c94c261a70b0630ed942c9d80c828244660ef2218ea820604285130d68e261e20a5422446e059ad2a624),
  (26931, 64, 219640336, 0x186cd2266c0cde8130d920a680a99421de5176080c289134a7226cf28602106ed0bb8d13629100622b1a31925315f92133062c0f807312153d412037248630e34a087661be98114c91da392f28a1f10e27fce31010043a21c187258ab31f162db8a1b284284310ae491f6e2029632d719274150b4a10f4e604d301e4d823deb1b4510b94d0dae6194c20e8f70aa8c31929208f210ed01faab233ed235e21ba18),
  (26995, 64, 220163722, 0xc16a0bd6c2265904f961d4f008dee27b89257d72284e2c3e320e4624bd12e5ae0cfeb2aeca143f013a56099310372d0d1f70ac6725b47105810adb81337122eef07ff127f23026292f7ee1b0b012a521077322aec099010f74c231040d8032bad0249940d20227c990e4f8176e731fa32a10f26ea80de5821dc230fc6307b30d3f620fb9095872a50d0e36b09bcc0e28b0400421bab1d053214ed2fd111ca83),
  (27059, 64, 220685710, 0x314762bd471c9312250d188c226d05132ae0102b0e3ee323b912fad261d21bea22989803b9423f03021d305fd223f1729dcb20c67045b108aac0730c073ab1dca3315270d0910a949139252c9f813339233a50ecea044b72c8d10edc602e4d26e892a70b2ad8504fe82484525d300afe60a0d325c790fff20c30100c981d3462e04b09ec703de20d8063208e2d4510644c0c3370e6b8235351cda9257980d999),
  (27123, 64, 221218877, 0x249b01b3431eda329701058480f2340e4c42a6c10ca180aec709b590f7f42a7ad25250108c20bbeb0a7e40b8353197622baf0b3c104586249ce1cfcf004f3107761c6612b0a8092d10764f0ec1622c611abab089050b20f133160854a0e0501ed562954a239662b0242c8b4241af1b9c21936610f4305eec249b52608e22f701e58b2d2a12634e28919321082fdc721fd720ff7076c628f4d075ae2d0d708127),
  (27187, 64, 221733957, 0x1e9f729ce52c20b02f36213e6253d32ad6f31d992cb4617ec8057b21af82227f5235042490b27e84248eb22705006430d0e92332d06c2c2987707e53099af0cf932140f025541bf33024c220f54189aa275d723824089302ad982843709b8826e6117ca118df71eb0105e4b03e520d5b30af980a4d103c12259e3176ca0e78a2de961560b18e250a62d0eb0d014e809e393056f20d0c05e042b44e235820bace),
  (27251, 18, 222266911, 0xe2a707fc5107181074e1d7781d3c430f181d2e4089ec3166930cea1dee1202cd015372956726e8114c0201713),
  (27270, 64, 222413773, 0x6c571de242502e0aad40cad60bbc823a450ef44267761ff7521c2a221851f0970ff6d1a82e2252419a942331726902252e80e4f52448410cd313898316470e9c622d99032af0cacd0af27152ae087280b44b20c0e091ca0db97253142d1c607e2f31c8f037641be482d01014258306e50a5eb22c2505c2727cf50046131ff52a56e304b9299b80a52a1c466219090ee4e309b22ece423e6a06606304c304457),
  (27334, 64, 222957052, 0x284e10de2209a542ff412ff831174f23f6d17fca01009077e92d6381733627ea20c8b52cb19224c905949093a90df0f1fe2c1310a1f66a10685223a71dcc102ed305fc809a9623e3922df3267a12522f0e1e205b670df340137917e8f20b76104e62acb20e22f1078a0e07123d5430e79296e12e79510eb11fb4809a47184790c2910a22824ac42e4c1246a5259422e66109cf2247940750922fd82a40f13435),
  (27398, 46, 223463653, 0x3043430c1201810011250feef252ac21d9815fb1167042c96f228e12a30623e8e0dc030b1f20ee26178b402df931c660b80c0af7401b890712f30c21242a6088531f7c321206125ce2f66503f9406bca13bea09c072da0327fad1cbe920ec90558e033f003c670ceed0e43103e870c38a004ca),
  (27445, 64, 223841404, 0x9ec913312037840ba700856f0fd86260650e4e91f0d31da1225bb52c12d24dcf227030fc080c08d0876a1a92a0b49324fd72d3950a9d132175081410e9d62365103e6b0357725b970272a1b5e6104472630311fec0b136246f30c2a40c6a703b1931e25006b010cb121341316962ef980e32c22d42208a71f96d26c252baf5014ac09da827c87012d72ade6240a90b46524cf318e06006a41ff450c1262b068),
  (27509, 64, 224372003, 0x2fe701c21921ac52374b0f8aa2ca0a30d2b251cc2e05013de30eead246a621d6f2c976218182cb962b7f61072f182690a966076ed24238267e50fc910aa82143820fc742a492160a825aac2d2861ab592c6e2236a700f8d31f900a56d0316d1cdaa13011150880f7f825d81095f30e68b07da108f350e3911a3d10ee12261780a4c823461097270d6141d4b416a732156a0d5ea27373221e70d856178d2059a4),
  (27573, 3, 224898347, 0x1f3c60d24e0e8ca),
  (27577, 64, 224920519, 0x1c3ef2af6525b1413087160471c336293e3293c81423823d2913232135ca0ca3622ee51dcb30da912610c2a1b122fb5112a209276217050440d0d8e51b8262adc800c0c0a06b1e7c926d26186e60ff8f1b6582e454071851d4d82b1100c2271b4971040b1f64914d7301c622378d0b726092d70e6ac2d8a104d610d7930b0b3027cc123f5138ed2355304e0b005ad0f5841fecd2c3d41e368243620d0a82e966),
  (27641, 64, 225455398, 0x22a4b23fa8068771db930cd0d3093109b3307cc1014c92ee08015e913bd80c0710b4150f7212dbce09a070ae52311301294a1986a2e0c7125282f51208a8a05b441c22c30ecc10f2a130760cec80b7e72acd902fb3015100286404651176b323f5805f742a6ca1f1b70eff321a8b0a8f5131a8230770eab20cb4528267244122d1270a665231290cbab241351aa3005f211ee8f1312f1d4151868c0581910f56),
  (27705, 64, 225978994, 0x1a67829db30498502e4528438032b2138290abe2041850dde71cb471a9341426e06b0d092280a9c70aea51e0e3250ab07424274eb2c268299220e8880fee401881200a704cea04a632b34c0994601b0b30fcb0a2760de55242cb0ccad1f3710946a2ad0a0d0962359922bb604fce1f33211b010916213949072112a40c1ee2a05f382a6ac054241754824cab1eead0d2e80b4b70cd75216e103db71e07125a4d),
  (27769, 64, 226506218, 0x14336056932d0f5241212bd6605e151d92b010c425ac51c1c40d2cd172682443707f2909e0e13722044b20b268006290e69603c440d5ad31f292cfa31024a080d6103ae22d061fceb3222408ad22191526d4103c8608eb802c412209709f67285691327125a240978c2dfef0b8881cd7321e33246e8181060ec230eaec1383526ef10c01825977224631b3f22c06f182172b03328fd71d2a80d2232d9370b4b8),
  (27833, 64, 227024937, 0x37cb17ee9238eb2314b0e4ec01666297a81e162037c30d332144021cad50e5ca2d8322344719710013250e72e22c93243a52bcf125b2d0d3ac25dce2bc4c21d8612d4c210d62c05520a552b106271110ec72037a120df00ed8d0a9ee28ec40d75421c141bb8d31c120ac6a295c92f66b29e0d2253025fc7104522efca2888d0720312a2d047f52b2b40e1ae21796258910ea3607eee205621430d278c309ff0),
  (27897, 52, 227550625, 0x2cb8f0238f20ab707e15044331f416029e21605206799177d6250b712da30952f0246c1580922e2b1365124ff9218a7108481e39513285047a60e3d82afc61a0ca0076b1c02503ed72d5f524c6227da400f301a29120d6828cb1154690ef7518c0c10dcc03f1023ecf114561afb82fa0e044e513d0c1e6961c0aa19265307f708271),
  (27950, 64, 227976540, 0xc3760dae318dea02d210a7ce2597107c0e2644110f8b2d0872393722d251c8d40efa72eac823e26214b5247c42166323af10c1ce12bcf304930982b14288188430f68a0c1951e2f41f00f234b911ae62a5340eb610b4c8263e6083b60daa706a630d9c70118300b16017a228579252b80686d2660d0d4210ec0f063672da76241220fd212d1af1b7ec17372227ea0c2e32fb2920bcd27d110a6582ee281e899),
  (28014, 64, 228508627, 0x24476299c830b360eef40ad6e17c5724d2409a350ec910e9431ebc40ca4a23e512c5320cfb92766a13b890fd142c74c1f00521f232bced29c2c31c79177d7236f60e8a412db824a3808c6b1ed69261640af9025c6120a4520e880830e294d30ac0116ed02257022ed208d3329d101d562093f408ed12de622408b056231fa2d0b56b0aa6a16c0b1b2930fe0d1f264037070bb10313d61d59203e450ae6a02ff2),
  (28078, 64, 229032402, 0x3082b1c66c1f4f30dbe212b840ae210c0f729f891d02301d440050510382037ab27f0f0da2a2a4691774c323cf0e1510becc29c0a074992c14f1068c2c3af2a585069f428d370380e16c151e9f30e4d625a982fc25300b423da4307920a9730455822fc61d3420fea91b425188d7294a606f2318027243372453528e6907b0b105f72d10b175af034121a8d80bb32035320d7780e3163160e258a51042318734),
  (28142, 64, 229563254, 0x31c5115d042962d0cef830cad0aa2e0e117007c9035580e481303371cfa125ee2045131af1022ef8237c9140cb035e30decc29783086040c20c24a3329faa01c7525d520b9c40f4c82ef14086d023a2909c30011791148824c772abe505d750342529ea331cc32d80b2ad0c163f7080af2322a20eb02a5422658b16fb11fe2e2d0a5275790eb75072060614813ff60ce8327be6230af0c0c10ac39106a51e747),
  (28206, 64, 230091367, 0xc105261c12bad731f640b0ca273620dbef177f80d90f1ee890fe2c1f0ad13ba40cfcd13bd12462c1eaa3115c31d56b25b852325305c1100fa408676106512a6e811b670ef02215e708b2617fb3185432bef9295c82d8581b6b328e25296881b03729ae31c0690e8b42efa6028b0276d4227a6297c221e821a2130dfe806307263d630f770980e0c1300c4b62475102e2b03d48088810a93609f1816f99241e8),
  (28270, 64, 230606231, 0x15d6290771fe901d0522338a2a6e224a0d1f12f0fd4e007a6085e831ef20e537219eb1fd42291162067622bd809b72262250492d158ed011d8192542eb530f556235c8305750f41119ba3262390d0f410f42016112264a0173123d13277092c6d9261eb1e1570d4aa2fc6b075b91e2410e6d21f04c2a62510e1530dca2aa58205b118655225360c725245831f0120b8f928f440ea6e26f2a0c04525b6c0354c),
  (28334, 64, 231131109, 0x17e931e2cf2ca531c38d3066b00db824998258e43052b0e647285951242e209652252f16bb81a60e2272d1f1501fb3702f421a950220190e8cb1e6c40cbc20138303eed1f6ac142b4094b42adad2f75208f490138b287f11d0ac09a712e8c130d0c1f2360aa8f03c050ae2a0d808298932ad3126df723f102b50605fe30fe770b2740453926c420f40c1c60728d4b26c46177b0035ce0072706b261c6552266b),
  (28398, 64, 231657578, 0x2479622ad72f4d01044c295442a75321a381e4d31dba313b8c0cbaa2da50139702d013106680cdf20b88f2d4432e80a2d522075ca322330d5962139505e072be98139e7131701ae691334a23e630c93821dc922fec307b80c6632874c1f89900fb41e6f41009002d130a6d72dc902ff6a0cd180d821130c41de2f25ec509ced29b4a04eb82ca11108642cd0a31a43227b20ff220ccd72074810f771b46104f0d)]

/-- group 6 -/
def seg6 : List (Nat × Nat × Nat × Nat) := [
  (28462, 29, 232186086, 0x5ec0354722c6203691186f21646d2453021835246500586321c2118c38145ef172840ba0429051248622462b30584156c51bab50cef609429009e90954910bd43210f1b37128130),
  (28492, 64, 232418241, 0x5c89024c1276e80f6652b3862ddd40a4332b16f034e104fa40adef04c492b8b4314771089305e4a22717147720b2820269400d83100d50e3e128d8912fae0e9901996b1bfb12339108b8b23e3609b4524993299b30bd040b0a10c513253f930a28207cd1cb8614c6f143a42050d30d7231ab41f9c7315f41eed22493909cf70af37206ef09b1030ce918c4329b0b2a7022d1820f4b41952b013c722fd101ab5),
  (28556, 64, 232948957, 0x316790b0040e633104720b439304b6014ef026680bf172c5e31e33215895151f922e6d13b47304c81dca22822a243e9232920e4cb1dae612d0c1d3cb147ed1d2eb04c6402c221616e304510d60f2a708302770a4431bb2d0458508d7229ce20936d22a961373021b0f146cb190f50f64b2bca2233422a344081b20bae703d252fdb503e1622706320d421e690a910176a6034c4017272050e22f2e1e66620e28),
  (28620, 64, 233474552, 0xea8728f512ad920e0d61e90b27c310d1e917fc4016f61282f0ccf40cb222ad442b69320f190a0d220d9827f661f26f29c130d80920145081a82cb590b93909a0d227f60d20406496008e71ef060d9022ca73229230c1690e88917e9921d110f6510963605eef044022c4b41386f04c871a04611fb6284e818c2c203422a7950242e24928211a92488804ea916de22090220b46100d7071b4306e2287f704fa1),
  (28684, 64, 233996625, 0x171772127423b361b0642695124d193008a0949825f190c0561e538067171e112269032ee8110d410fd370f5e81ecc9236d219499207f3005f70e1031858a0e02317c521ddee277cd05e2c2590e2520917aae01d26217e20f6b909ca108c521bae125d4209e9630c71085a31bfe42b94b0a7950db8c267ae1280d0e1e5251f312c872fc4f212b51fe6923d192c1061be6b25dc914c2b19a902d3d11db6e00bad),
  (28748, 64, 234526853, 0x249341e3b30be270db7915bcb0f4d70db140d0c21b0431c10f2d0d2251290d92d1fa930b0d60c28b007462a40d242e7234a61aa07014b32144d0af492d2f704f540ca2722ee60118a2c8080fcd2017eb06fd1094520ca0f0d1251078d229e72516f08caf126e62a7f905350286ac2587221d8b132050adf204c56047cf25941239142346e0fc991877031ec11f16e06b832db170c2cf2c0360b4a70fdd52a44b),
  (28812, 64, 235045669, 0x2532a0196205f8b15e271c9710aed80a3330c92e248aa1300a12f26240ed2467506ac62c26601809139620eaed276411d254161e5255c50501500c85084f70e3f6011b61f1d8314672bcd2289582d8b4092d42db19189e3133190b8e625190233060b9d31b0b621b6f0d6b704ca82a4843046110f522270c0472e0b57621d5205da5323221b9c70e6c6172591dc651c2180e9d72d0c30de211916c0b4f30b2a3),
  (28876, 64, 235569551, 0x153c8133af2d9b52c0e22410f13daa01c232ee33165c32c0c9066ab246422613420aeb2c1f90542c12094015051f44408c0429d461b384025280d0f2251a60fcd130cc52f2b51164b0fec6138f71f3c90e4302d0b90accd04c2b0d9e6237441721023d87132c919d241fc6a0a38f2476c30e270c8b006db423df81880431287248d50d4d5107ac07ba42602a1685709a792968931cd62f8460d5ae1840807c84),
  (28940, 10, 236100369, 0x1bb6012302478f1e3f6011240e5871d841275cb241a913215),
  (28951, 64, 236182719, 0x106711842b0ac9420eb90b14c2adea31c090c3f92c9d128473015171f9a10c7382fe1124ae52486e1746e0d0b70eff022fef0bbb52478a22ac30c389043011ab8b285021f3021e3a30766b0ec3324c8e105500a3c213113212a81d5a114fa81ad1629fd810f593078e21d2b1d9460ee942ecc323d3229eb601feb0b10818d882d409041042f4e30779403a302348900f8e1dacd0a9581236e130c31908d06ee7),
  (29015, 24, 236708425, 0x120b52c224087c206a9006876253a7166c6244d818fd0014c8081a50f64c2b72530cf50c9560b1cb0f3c1248d00467705b08192af207700d10e10d6e),
  (29040, 64, 236910599, 0x4e96027d726ec80d1912868f22c702b9981e0100b0b20abe50c9c42e0f82776e24ab62c1e51e40e02d542eea2142261048110dea0a8a22adc224be121ce51f0e90e2d51d3900eab32bec708714015ac2392e295e6138c20a27923de810dc725cb329dd11051431ea3098cf10438298e519703169f02a2810b9d81225113327097740edea03a5030fae0922a044670fc182a60b0d2f7098ed238cf078cd2d322),
  (29104, 64, 237438343, 0x1902422d6b1803602729264440484b0e4062cd382d68f18a010eb171d444060eb232e42489407f360dee60479001b572174b1b7291af362ecd30d74f224522d1351ee390eac6068e308cd51fd8c24964250e22ea6d2c307098310751300b1904ee8187cd169b21326a285f605c0504c300aaf40a1c50c99313a2728750249462cfc60ab8c01fb20757110f6f0d522196d90d30212cc523f3309858242af22b24),
  (29168, 3, 237974009, 0xa257242061fb18),
  (29172, 64, 237995825, 0x44b1274040062a22210252361a88613337084190eeed025c2225640600210fed11962239b90e31404e150aeab1e9e122e77297512e08f1bba405e9725a23243a60eca5099e92a3b208d57062af0a06a213cf27d873218e0efb7015e83238a23792236351a5751c9c1238b82c9b41d2af0bb6e17c162dfc50c9ac295d62352e18e8312c0b0e144219a601a452c3ee15e750eec60d4c62dbb80e1a1314c422e22),
  (29236, 64, 238518652, 0x1173127c0d1cecf0acd00f575044d90d3ab154011f46f09071175e613250240090c0172451801822222ed2a3760fe610e9aa0c1d407e121e5a11eb961fdcd029a60a3071f405089b5317f313852202691db501544e1eff520ba6155990c3a42b2091f34b08f0f16d87165b50146a2056531c171ea451ec940f46f07b96184f6252150ed160b3d21d928086471a3ea2cb8929fce27f840c5a33150d1da780fb54),
  (29300, 64, 239049873, 0xe8921eaee2c8d42fbe2235ac0aa6d0ffef304e904d662e0460554b30e180cf2f214ca30fea31a9213b560454117fa125a3410fb222b4622cd83198a095f51d7d22614511f06249571c5d8295b01380e2c1cd0a4e12dd760124203f1708b770c80b13aaf0d08d05c642c90e30ab51a266204b70ead60594827c28262582a5c1172ed0dcce0efc924ab12a6ad23b670c92427e0b10f7620bb92c49609e8404486),
  (29364, 64, 239567101, 0x18484317c82bd270d5890866f250d30f526034151eb72216720d7f90353507b42225141a3701454c0ab03277070dac500d4106ef017b6d2b9e51068a18e4704c632f7a32376b2ae130a616140b10dd371b9011fd4f0244f05d6d1fc87223d22753423eb12660a095e40fdf1118b923231082521737925c70077c706ba40880f25ad5254b90da2b2a46e26ef00f7280f7711e98a1ea380946c235d529e640ea18),
  (29428, 4, 240094540, 0xdae8287f80adc32ec42),
  (29433, 64, 240125049, 0x1eaaa1edec24cd700c5030f43253e826588073f602dc8139980ca741de950f4e10737130d060d2b621aee07f4d249c42ff27229650bb8b04dee1c0d708fef04b010c2122fa6310fca2db690b209262732c703101292f7652927507dd9286b023d0c13aa20fd082d84c082d71ffea0ef3210e27232172272e319a126098317e3193862c32928d750ef1225a972fd712458627cae15b740aef2047ab0af5230a73),
  (29497, 64, 240657809, 0x2d5342481601bb8090420e86530f210dfef0ab82061b92dd3221306139ed27df508aaf01e6815e66297021afa20e9b8031ca1548d3058f0d4a91cf090e73101249276f71cb2509b861dc0e1498c1da540fc8f1efeb175d1206d51d7540992716977132c32364a245a529d6d17175094111e1a729fad243381cf6c03e72211b917a3102c9604b6514d8e04d0f1c738237a3058b20e30921641048170b11407d02),
  (29561, 64, 241193935, 0x27b142962a05b51047502acc80aa310f445274131e9560e00a13b7822503322f613b32045c91f8730fe4b0c84600609261d01996a25b6b2660f29fe601fa41ee6e2c70d175b2088122aa6708ab218e290e7e9029442f5e42d1570caa4089a120ead31531093e41c3f0116aa08245076122322d130a82196530f1203f4c19fc9204970995430c2b1d8741b212233811ec6f2ad691d2841b116094020e23414e73),
  (29625, 64, 241712490, 0x1367261c2089022ac502c0d707cc70d76101c57097152b8c4234982f87402eb3133410e4ca0d3e82d2d410c2b1e3110d1a820924019c71cb261e6ef23d4a2612f09f060ca452d8c21d7ab2a7d13054e21ab70996b242352a7810720d09e4a23fc523a470adc62dc171062f22701011c717e463100304821020c92aa2c1b60f1f74a1f7b91a33710f45016100f48413e291ffcd22f21187c1260842605908b95),
  (29689, 64, 242229980, 0xd822007d9131612338d2ad8707caa294e50ebec314ee0e3672ca2a05d5121bc813c550cb2d1f0872cb581070b236f91e7480d3230af0b235b910e8e2c16c262690c2320d9870c0011831110d370d0f32122625293294222e4721e9d42a86409c671f736143c11a60b1bdf5239410d34e138640264527469224cf1bdce18ed1139351eb07071b82618708f050dd6b04fa624811011a20b3b322d34141f425922),
  (29753, 64, 242754891, 0x676a221872cea30ad4211999294c811446258e3290520886a1ca351531605bac017302e4a8094281cc9029c49204622a5ca0aa632db8c220d30862d233772d4f8219522af6704327236710bc750e32a1cd570afe322e300f6212d3e105c8109e931f2390e8f1095a215fd80a524084582af8e01e841631904e8518870091d3323241313226c4524dab2daa722fe529c6a2120f035d122cb524df30879005c10),
  (29817, 64, 243293377, 0x10d051a735164e825a092fe5021c860437409ed822710166b90174d0b8691bc732e62f0ee8d0e9cf0fbf80438a17c8a069870aa0a08b8a0e9552128e096d1258f60986410752104a113351313b20c9372184327fc31eeb70f7520ea841f89204be4223b00a48d0f76c2624408c8f0c34615c652d1992bd4c0d8541053423a1106966016e92652c22fd2219ea0378a1871928aab0bbc6068a80d19604d1814079),
  (29881, 64, 243802155, 0x22de30adf5144d715eee21b7910644275021fe4f05c6221f591071614cb017b56323b4149430afa51756e0ece41e9022da68293150af300992e23e8801675221d42484706ecd1dbe203df00c8191b9b12d04a0a5e8071a5190a92bca11c8572a4852b24d01a811690e174d62666f0bbd413e55226470e7ec0a91305d022468d0e0a8099a90e88214217261ec074d81e9260de28140ea2db560848e2ebf0279c3),
  (29945, 64, 244327408, 0x28e2d0ecc7035120fb10151171a42a1d86a1e62c1718e0500b23ba60adb51ded40a576081af195cf2622e0f71417f10036581835218ec4251b7249522dbd32b350207361dab12a5ac2b02e2630525a8c1dd072e0f305c8822b7004c8c095480ed0f22d930cbd30e110263190e03014ed62bbc9210271d3b1059b11a596246c42d107214c40d3cd2a4d513a922602328fb028cd723a8328d100598e3074d237ad),
  (30009, 64, 244852320, 0x2354d240aa0252302e362f682209a71095221d0a1d1890785612d321e30621cee06b6d2020f1a059220b72afeb11718242220972c27ea42590d124590ad4f07c730d0c92da4f09ca20f73730fb9232f31933822505011ed0956e1f1ac0dc911c0540354f14bb927d6227d2b13b2c04da504d93316b913929296a807e87013cf2b8672226423295253b8296701eecd1425515f331033608f7926dcb1901914036),
  (30073, 64, 245375218, 0x10ce294132d0d50c3e32e7710d92a1facf1a476169c6107230a7a51c75521cd723d2f0aa9221a46233941e2191bff70b46b03c6431f6506f68062ec080b60de441ae10261062f48a10e170aaaf21713095431c18c163420a234258710e0c90a7f425c2c25a0431795090b6220f328e8704fea138a421f73207690a0d513a9518f670e28729c101ffe1219ca18237189430f58a29d8524bad058342dad7205ab),
  (30137, 35, 245899884, 0x2f7a91318d2efc829dec22de820f021ec0221ec41808e1b5ca1f30f0464b086e504f582acad0ff0d147222ff0d1d3f722ff8259c305c98236572d2ab208d11f6d13164106474039370a3c1096e81262a1a0ee104f72a78a),
  (30173, 64, 246190310, 0x84c40b3a827c8a0eaa21dcec22ac80f6c42b1761f68e0f05708e59252040f5a32536b011f5238b41397120d8816f01179f72452c0ef552969609c180b5b30b90908d130b0032a5e802e9123a790eb0f1ff2e0a3e414fc62ea72090d01b349078ce2966c194212212824fcc1b8770136f296ef0a28e2a7f204d7228c4c234672dd8b04fb2249381b334248982bcd119c6f1a80725dae2bc2c2fea4297d307e61),
  (30237, 24, 246720224, 0x264631e8830782722b2d2caa32da110a00c114f60edb80ba13142682a442314c52350a2490d059d42a4342d26a13d2b1388c0e43722f2b2276822103),
  (30262, 64, 246918161, 0x24f032a76f0bbb0233e222d6203e650e5291178b0c2962493318ac82489312ae81ba361dded0a2661b9f6312861c152174421e3980ef872e0082ef9630c7226e11247e4100c526c270d9c51c80b1ff901c9ab026b805f8a2d8ae23b2e20e6e2fe0b0e7d60c38b259d424483085950e850233af22cc60112327555050182c1920c8f60f43203608010500b1ca0e3e90470d1e1881460f245072434928db10b80a),
  (30326, 64, 247455731, 0x19c76291c102f551ab681f1742ce54223a50e04710d232928d15ea4226890626a069c32bbad23f810c21909ae30252a0caaa197e829c321388914086063c110da12a76c0d1f20364c2f7472bccd287cd017cb2990123f2c0ef68174f8198a32b2ef1fb5230d97036f424651076ab1ddd00be592629110f2c247720af9508a3029e4f29ae81e9af1ffa605dae215341e2ce0e781100373198f20b6f2514a1e82c),
  (30390, 3, 247985914, 0x2caa07d0b03632),
  (30394, 64, 247999488, 0x6a6142631023506068074542d34e25003089d81550c0ab8f1e3ef050b82e0592d1931d8b3322d02b11620b8c196d80a646192b017ef22452b0442d22cec10ab03069418418095291f7c12a8210c9c329e98251a12c2af047332c38f2a5251422730db8143b4248ed22d702204703e030d9e90c1a80feea180310ea701f3050c1e125d6f2d6c80ec302ae820a2782d9072844910dc6183990db15217480d088),
  (30458, 64, 248539820, 0x2514f193f9138d10e7cb28eea12c0c03d681f0500f96309f782d83118aa4035e12dad9012d20d0b82b8aa127d612874204430a8a509da1253ad2aa6620025070461d3970364723931219870fc49267b4089d71f5501ad4c07b4f074f507cd00a50e0ed560170707e9010f580742b18b452d13210aca2cbb02664321872159b9067c20ae9314971079101e0692662b2469704f492a5e22a6531f02f1bd3713f45),
  (30522, 3, 249062062, 0x22e5305d43118b7),
  (30526, 64, 249078451, 0x2cc040f2f8206c40c8510c3cf22cd116c681aaea0b54c0a67507b9310e720a62c30d25084eb0346c052f6196261add31b3702f56106eb82ca220ff171f8f6080b301ef121cc90e2432f06213bb11a50e27764067581f0031f1231ba862517620ca22a6081daf91c1340a6e71a28c031631b675255b32a1650b3e51f3120754e21e672ff42086c3103432af941b93724b6a2b2e32af59039ec2db120f10c10e26),
  (30590, 64, 249631978, 0x7ece035c405c79267e12f1b628de72d5ca222e9012180c9d431bb4210881730527d3124b9527e080aea41fe701074c2610a11cf72a60228b0321c230c239072b42a7f4071d409971123d90a06d21a1917ab9187f20bbc32326c05d4520779210950d5f60b02e216d92c6460e893132510a4660b9c823a941c37313a04223a60ffb308ac524c811e25712e742469204f560cf851b8d52fed90fdf90b42f15ae1),
  (30654, 64, 250136821, 0x2c0830d8b80acd329b6a0cee20cb0a1098421597053a429f220eb8e1c9f908c3925ccf0ec6c1302331bd131eb92cb7329e6722f6d071321c7f42da231d64822c2e295d70692505b4605e361e76c24b90058861422902f221dcee0d2e91d43010b8508f0e314330fc1613ac8011a904f0227c902cb112b4772ef1214330202450a622284472dd752036b18dae047951e3cf0b2f70e20c0e18e04ecc0b542241ed),
  (30718, 64, 250660735, 0xf7961f3620f55117d2b09bb71086f304e62baa90ce16133660c0aa0da79131052e4a22a69507b702d3e41672425a3315d71061e60d0e323eee0a5d20897013a6c243e725b5818c88320f80766e0e5651f59407b410d30407c2f245502c2c4035280b05822d0e0d70b0936c23c790e7f40ead70e1f00850a1ebca267e723e5724d8e157820ca5006571307030c9230de82260cb0cea5084d92da06044850974a),
  (30782, 64, 251192348, 0x4387151ee206a41247609f96199181b22404d140a7420a1170da8c04e540f3090afd80b4410ea06313210580300e0617cd526c372fc781068d0712c1681529c8e07cf7237640b4ce1e8551327302e420c2860b42a17942174e7017f61b14321e4b2e4f42452209d350e6c4133072d1e227c53232061b38c0ed662e7890ad2d27f0114dc20b923266ae2b1f2217e619f4d20076074872218d213b516e8923043),
  (30846, 64, 251714192, 0x195a2307f90abac104972c3d3222d828f27285ac01664321a30acae27e9908f151a539107c31e62523fc230f2615ac100c6f123713236c0e2990ab852368628dd930f712e0ee1ec41073c7319030ac0720cd321d4e10d8a0ab421e03519b18321d4149c80e7302446f292e707df40355613bb4152e318537219490a610224c21cc4921c8b085f71a1ef0c464314232b2b62db710e6f51b70627450217d400590),
  (30910, 64, 252238134, 0x1c8128a0c0cd810ba020c0f90c6311dc3220432223cf01617249e522f2227fc50fe942c908014540fdd21931417fcf168af1eae904f2b225b130dc41cc38133762a6f9131150f6d323daa1d75717d4811f560a5b8045c423d9429d6a2a73514311106ac0d590164c922aa12315825e05211f3049071e8a404aae2e6f313ab00778e16f4821b700457822fe614398026c823e0923c691f2c9212d50faa1170e4),
  (30974, 64, 252759922, 0x3aa5087270e487139c2274cb22eee322f510450132af01fd825b520f333044611890425f2d259212660c1a1680c8822768b2dbee2100924fcd2acea1d7552dd7109ef62148e1b0841d26c2358910ff420eaa05813107810d1b70ea991df0c07615087d40ac892525103f5301f8a2d8c30ebed08cd01dfec0f54c028d308d76252772ab052b30431d032b66b31da32dc1821de213317234142bad40ec09263ca),
  (31038, 64, 253285877, 0x1f3cc0de430c2e4175ad279610d00f323d80fdaa07c8c2a4242d2d7157e70ac2c1c94e244702acc20a6d12b0711f3e92da6724795016ac0d85518b0116522029ac242a90a72a05fa41c9212d9af121653182d1bd74243af0e8b60a4171a82d058f00208c15c0f227041324f1e1100908d05d0d10d3618bee244852a4eb0830802e25260892a50b088872eef50cfe81a61427b130f47510a6b03fd428c23078a6),
  (31102, 64, 253805511, 0xbca2edf41ea222da08016e829ece0ae160104d28deb2a73009ec60b8ce2df09108ce0af040722c29df50d4232eb5528ef10997907c8d0b2080f5f42a5ad251e210f440cf902c7c30173707e0f229af007542d929143c2284f62c828143f7143ce1e5a20ce2c2c7271a22e2fa892954221c4a0046e0e32d0ff410fd530dd74217381092d014b10b3b42b3ec108b40a2d1313aa0266e113852190807a291e330),
  (31166, 64, 254336675, 0x114451ccc51f7142246b1393901e27199170741306d451e14704d212da81204650872b062042ad9900eb218d8121fc609ab621aa72c2461e9510ecd72ad5519c240ab23014a7126100102c092f50f8542b945103a51a32f17e0b1e5c519ec90c9752d4cd2b3620efed0b24c2448627cc60cca130eae10e160abca29ca629c6d2448e296510fdd11baa40f08e0a1c926c7604f3026e960ddb3121c42cd42274c8),
  (31230, 64, 254860703, 0x297222618826ac430e9302bcc02c5026ff40b8f71c20b06d4c0106409b73066e23074a253360826a306ae258ca2daf4081020b962105f501b450445625b661f0ab17bd42171009d240fd38234a92fc6e0e5d31316a12f562444d2d4f2304e523feb17def2bd43228ec130c2131502a7d603df71d3a7220f8271c418722190f31f4b225932106e62c983244411beee0fccf2e6472666c2ca552398d030ab3052d),
  (31294, 64, 255378920, 0x2a3b82fc95062a50c8240d7ee21e2c0a56232201007b42c9191c7b007ca70c1562d3021a1f7265d9246aa1504b15bcc1cc0603d9427e8723a100deb017ae82b69905d5029aef18f2b0d18d0c20304caa24b0704aa3090870e271134570df38235342a4c103b0a2031318c630b16724864250500876122e9125a8b0099222f7718ced0cace1337222dd823827152ed2635310d020e033139ae253151423320849),
  (31358, 64, 255907133, 0x18fb42b0a70e0c231d900b3f10c30205df626c141f62428605005a22c12204b8f1830621fed2074a250ac1abed1095731f01045ea1f0e72229905e6d0d8e1249b6172120e8032c596082e80f66b2634927d0d2b2c721fd62956b0be8e2fd490f6cd02d4510cb0314712ec4131691113f52ad633208a2e7760d712243cc0c7430a2cf2c1d81c339315431d709192cf0b9320dc2222dec0fbf52212f1d6f41f2ae),
  (31422, 64, 256429725, 0x9f4a1eeb10e9d1154762365029d732ab22095111ee98283292a7e40db671654d1a0e113a57251d30f426211af0ad482a91124fef15de9225f50d4040f67120904306e41c9890eaaa24dd7208ed2d4451d9eb28481113161dacf27d282c80a2d5a60af83253e917a380feab0dfd11e5080664e2e1981587913836251141008a1e2a70cfa31e6ea1c4f7139a118ac20bbec205991934d0351531c67248462fea5),
  (31486, 40, 256951786, 0x950214c690ceb004cee10eae2e45319171111d026d920122825a031f1d60ec8522a821b7651390e1600225c09210ef2dfcb1aba4132381c66620d642b5e52b2481d9b930e430f5f80da302d4500636d0d1c9132340945722e24235ce0a6c8315c218679),
  (31527, 64, 257280018, 0xe3e20856e21b0906bc5128611a05128fe61aa4c27c59297130bae5116c224681016c92d26d1d578073af30c0620b2b0d3b620b780dd122374a138992e46113a7928e392c2251a2e4250661fc4e18dce1c6d7211e629b070ebd928e991f9640e570311590b98d19f82074e429fd4073ed21fb8215f20aa95236d50870d0e9922c9d4202a729e031928603c6b045b624d16262672db94007b80c9e826f6c0fde3),
  (31591, 24, 257811217, 0x1fb731e04a26cb520591031a104be70e1d40eb210a4cf2c96c2b3ca1d875289882b2ea23693047d923f290daf606b89017101baea12ecd3078b2502f),
  (31616, 64, 258012044, 0x188880ad010af61262922473800e4a09a6e0b0460e6f8237f5006560b93724ae72c31831fe31936f0d6b12f3c1095f72db661e9cf0e88b0adae0254f013b631d492dc610c571040c403e2324c8824e631a6ab1f68d21d6e0a2690b8701ff94214e90838409cb12cc382e6522e00b2d0c80b4c9095ab01e760a44a08ef00c86b1c8140fcc40d1c2047e927769014ed0f4f71e514319c504bd929cac0986b142c8),
  (31680, 64, 258544582, 0x4e22c2392630e142142d89707199247c52cb8b1cd350156a1eb6c10dc92aaf0322b81a66531d57098c92359829cf903635216f611b180e3ae18363296970e2501ee290ede410d220317829378079880a2ef09446221ce06dd40ebf60f2ad248ac07559259d32614e13f522a1060c3d51fd2f1364b0dcf90ac0a1b6072e7ca014860c1c82c06c287b1083670a37313c480d5e901c6511e262960f294e61ea92),
  (31744, 3, 259066595, 0x2adcc108f722f30),
  (31748, 64, 259096654, 0xc24c1df7619c75130860ed4f2c20d23563204a9199910ae8c0a5701b0341f0d7104702d2f52268a1a9882f5530ace500775101941426c070e12966d2a68105c1320e0605d812226b2a76d2210b140c30eb3502c240b875226e70988403a0929f82236251f64a13ae12234721b1501a7623bc10a88b1ecad22c21223230a76d2efc9176b8082b70a0902eb99046501338f05db52c5b92638b0460110dec2fc54),
  (31812, 64, 259621904, 0x15d4c1062318b661d01904b461ec8f0f8f8139ab2c04a1e3ee0b2a213bd923b0b252d423aeb312960d887036a4260b71974d130320b55210a4822ce50e7ca2aff113a4e03d6f10e4b2db480849021b6918aa51856e0bb4931ecd09c060941307723044172a6d109da207e850d0ee0d24f1bf73255f7095471f6812d0c106ad500fd322011087a50578c294082d918097d10ccac1312e2bd0a0b910258b0292ac),
  (31876, 64, 260158978, 0x296f25564209d21c455095281e016304b513071032ea0ddd01ca2600465294332fed6047a510a062276d2ffa40547815bf11e6502c2691e7f0131ab236010930e1226203e2d12d3309a5504c18047840f8b129535245d428ced011f02d507106522ca25115d82935203c45253931f4060ca961919623e5005bc32d3342a4ca2fc213167523ea3017a30caec1aa1323eb7071c41ebe3172ae0e43502e5504cb9),
  (31940, 64, 260675164, 0x1016d22cd22d8992e10628cb028dd723e252e8290d5ca1c87225902010870fc6d25bf606de50b5512a2732c117253ee233cc18268234b802d0a181d406c4307207142532c36d268041e0c303cd70e1a22d28710f780aeef1cb4d243210625409f661296b1e6b416cd02dff0034b70ec340f5211cdf23093617f8a26fd50cc530f94e229b60d4511b4d421a62248521eb8c2efb810e2920f92235c50d6d31c935),
  (32004, 64, 261200558, 0x2d5d20e1f30e9820e429150f01686b1c3b703b610b4250c0c218c46025290c58301775033c51d2b1095e600b942b825321cf1b8b125216257a60ca0b0874c138c52a0780eaef0f9850efb116db127e620d3912880325af42c14c20b1428ec50443221c152fbe420ae70758a212460d6d918e851b24e2deab27c4706d66114b9142a1235521d4331e81820f6c0c0c305ec905a0b2754909358245320b6252af96),
  (32068, 64, 261731007, 0x286f42623801092037aa29f250f48a2e0e90ff8e12aea2d2a527e2b11a6f2cb8c0ef2c313b92f7820713102d092da2418e931ab4f26025152691c9621fd8131fc71382a036f124c532f35205db92078d0decd2d3e72a7c60a8a8225ea21e7322af21df3820a8a0e3511050a25b57206af0fee72372109f930d64209ef31ae8f1880e1dcc42da850ea011dcc804c931428f241ee035901c0a924df913a412c4c8),
  (32132, 64, 262244494, 0x1086803e56163231e94624c8631f482ca2108a3324322279e3199a31870e0450803e880d20e070e4197ee096d32ebc730eb90971702179037530eaab0c5af01c0604d092d12e2384e0eb1130fca1e3ce10a6921b4f1e443022ee128a922c2b22cf82f58a28fe12fc37181881cbe7267e41eed7099652cbb701f9721f30307081a3940de811fa631e6261b10604eea14344012c40e6cb2095310fcc28f8f23209),
  (32196, 64, 262773199, 0x2b0f614a712b7a31ce171f38e1e3192a42501008187b5226b72d80a180a904f610b6e20867127402025cc2200328ef60abaf23d76224811b0f82d8d22e44805fa707cb0126413119622e751e2880064f21f75145b124531132e82d52e30750323151db820c8791728706c28272722e010129b0275ea0f590215a220cd008886217e71045918743238282f70b261e60e7372f1a61cbd61f365035591bdc81a959),
  (32260, 32, 263295849, 0xc8f72a874088d120612274c61294924ccc193ed0c8cf2a66c250b82ada204c720f5c42d0260c0a904eb201f770a5b92a68a1f1f7140962bca4143122f7e4029960058b1f1b01ea4b246e42343105091),
  (32293, 64, 263553855, 0x15ba40e6f41e5c630c9705c290808104da722b9209a4f04c1624959292211d9ee0eeb822bce2d9d930ead1626d0b06c138eb195af0a9a1121061cd811f37223fa4259b62a66f2c277307f624d5917851015cf25db421ab1286cd18d610d2a813b8a1914708f1402faf09a611ec8921de90fc840cd6a00c70240e122094102a81d8f5153d81f74823369173612ba032abb72a4e80d29623d12038a2323320d056),
  (32357, 64, 264092167, 0x2a30a2356d1a1892322b2d7151fea728d440eb701c23224c472edaa02e41097e30292407fb703f421434a0db86227f103f98107f72753205d8f316321f84b2856c0bbd21e7cc2da752ea231858f0c35310d390afd729d4f09b30228d730e7805eae04572069e70d1e3216872c9f10a88124c232c3ac24c0324bc5225b210e1222192259700eba217cd90fe1227d95037082ff2c0bd240ab301786f1fb0a07b6b),
  (32421, 64, 264615189, 0x12cb5145682870e0c05708c090b24224b30257c51f07424a4f097812d82b23d022494814f770cf1831f6e0942a0fd1631d292d38528f2f0d0d92289627ab324b691ee93086b50f44b0ea2f142ab0d2f2236771b44508f42070272d80725b5122447014b022e2a261d62a72a0c20d22093246081c21405fd623f132b0e60f465129ab2467224b350d28d2f39713ba50fda731593089a71f7f50e61206cd40e6d6),
  (32485, 64, 265140276, 0xff152d24a2620d087830cbc31a221079b3119aa07215252670263513b8d0db8923ecb04466036280ac0d04deb14173061270e5ce306ef16d9323e351a48a0ae562cc011e8a320873218012a2af09c7829d980b9a90abcd1a0280edd404e490e317278120ef6213a4b089d031509142990e6252ff6d0ecc122a4f0d8521d8640dccc129770313625b4c063122527831d64283101975020677175f822f530d188),
  (32549, 64, 265659255, 0xef11f23710d2f03414317ca175b01c05801eeb120f71ebb625b6510e191071413bd222ed020fc20d1b814941142872cf531364616be90a1c831d852c86b0744e153d10b44c0bb5027d8a0fd4907063085eb29ec1184890cc2318f2a1d28a259312e9621a3790e8b72caa9136e42e64c10e900e867049710d44b06f8d07c8a077c51f7131fcc9089a4314c70ed980b4350a1632a4e20f6ca29e7601f2b054cc),
  (32613, 64, 266186647, 0x25a78304e2140302b10e1eb211fe8705f2b262971772e0703517ae70cdab21f633124121195219e40ff25106e90ef48075111362d2156126224163d403452249540bb721be0a29d911b2a32c2f50af9304e5622e922ec882a5082854f13868005f02d84e0dd0f027262ae8a0b5580abf721beb1654e04c482194c085f8224532d8e918cae2574805e4506ff702d8c28cf20b12e0ea690732624407066e527496),
  (32677, 64, 266707325, 0x1e1ac31752242090d51517e3521eb30d6b80e2d61dd0327e310d8ee20b2e0a34c05003085d92c3ef317652a5021c3431f68c06e682c81108f760700202f8d0d1f32520a278f304ea80e168045180e0880e5e21fc9016416261cc011eb18067170840a534191b00d6252522b0e1e62444b258c92690b1b34f1d6f7011761a4111ea0e1f02331e71244d908cae034b31064c2d2d20ea861a38c2fba803ce30a224),
  (32741, 7, 267233483, 0x28786035482650924b06131512695018e86),
  (32749, 64, 267290526, 0x21d4b07852064ab1655205a97287b7152ee09f01250770c4110ade802d4608fcf1d3b722eb80841805ed7301f9061440b2e51f969074ef1f2731af8c295f00ee560ecb62852228ff6057a11d684132752d5a92ee8f04e87131731c138159990b4300c82310f032f4c818fd5250092326a2a55313cef1e6eb1eed126c6d1d6f50c6cc0ca0a0122b1b3242ad452d0ae06ecb2d1810deb70ab781b7810840b2c0d2),
  (32813, 64, 267823159, 0x261811684f2ca860e99322b4c086072273530b0808bc4209ac248ab05f4400db0177f90c9e70b4941a095066512e06123293210b22c5450ec2d0aec3240121f18c084f627d900fe2306f4127d172ac38139d029b530696c0ce12266c50e0c50b8e701f150fc260b9d40b4d91a325081a922c6d21ec2141d52f68a036560fa890ba681da41188350353405e7224a9007f2125a522482f0d3e927f08036ca2db6b),
  (32877, 64, 268345512, 0x3ced30613140f10f4b90e0d73201625d051f1d9072d40e1590884b2bd1001717091e6314e8252c30f20922b331faf8027c8005122ad2f1d32d285e6005a12334324ae6251a730cc4205ad0d0b40a9c3226450fcb30714929e242276e1df58261ab0e88c245b629d700766c2fe3904d2624c892a7e52a7a20c8b127d53218142d0aa2a714063080e5771e66e31a03166f30b9d923c8d18a3729fd70ad1124b17),
  (32941, 64, 268871760, 0xd7cc120e42163202c0f176532719221401045f90df740f44c1e65130de31e038041a22f4c1140891fb2c07c1231ca3138c321ce20a64310f710a4630ed0913aa82bb980ea450dba1192e1005b11c10e2c95909cb20ae2d1460207e23074c9006b42582c200cc24a011e20f03c720651723a852925123488267f7012020ebf72d231045b50ae3602bd3112b2091d50e8520360e1def9175e714cb22a63510638),
  (33005, 64, 269395783, 0x119272d9260c5a210dc8037250cd4b26cef0a3120ee66098a822f91287b80b2242da410a7b505ceb30ec510681223ab2760710d250698d282f71bfc70d76b2d6ef262680a78623f872c6b1028ac012390d76305ca415b26205940cab00c67206698020c80a82d0b89224b6c2775023f76111d11ec3923f3224ccd20c38173f622b250cb6a2d8b3236e911ae12551601eb6235a90e3e50a1333162c1ab5217f53),
  (33069, 64, 269924924, 0x184d618c81186f623eb02fc582d2c32aef50714c2152528c27058b606ea924c17014951b8b00b4e323ff8275530a5730bbc124519286ab2e49425bca132042a7130b1f6046761d96925c2201ca20d10f10d710bd56132271fce222c2222ce61ccef27ca5151490b9741e4c704dcf0da312857026e572eea1259a42fcd30a5a62a5f9069130d9850c1660a8b530db20120923ab80408a0785404b5626b0a04919),
  (33133, 64, 270445952, 0x79a403baa2b7240a4271f2cc011620bf2f0dac12747418df206c0a29fa61c1f721da73028e0158627c3219ce70d1d21c3673174c205152d2b90a84b0908c22e2d247af05b7622b150963922fee1803530ef51520a1650802e22020b60058200fd41e9962a02825aee302092ecae31653096ea09e0a188862bd0927dc609594258af28fee2512a0ef810e3a11024e30c6c0ba6f1bff10e25314f0a047ee1a2f7),
  (33197, 10, 270971106, 0xa1c225dca0886d240f620dcc1f15426d79140cc250360836a),
  (33208, 64, 271050966, 0xc6f4209d122c77138531e74a0db472a827015542667907f0c13b57228c331f282c3d01a1aa2f4eb0fe482efab0934108db00fc4109716004190c2342ad880ecf50ea7227c8c0c133062902771829532280ed1a6661896a04f66320f617ca90c26720f58248d6252372e18e2e693097af0ac630af940a4d503c160b17323e4d026a824af718a701e1721ff120410130b03322740a6e1165380ca28243a909d39),
  (33272, 64, 271588902, 0xed272387728e8a007b62c1c2237a2086460b8450478f1f54e259010af230a8722948d261f4104f5302f3098cc1fbcd2ecd2277af29db2222ef2dbf32640a0a0572d33710fea1bfd10e1a515af81e06f31ff90aee8250150e60601237172af142ed265b7142650a82304d5723fe80c9941b42c21f08213c8102a523dd804d031321402cd924739236340d5f00e3f7131242c2d9168a92a4ad1f3af0fb0430dce),
  (33336, 46, 272106222, 0x16cd71b8aa0d464044d810fc71a4272de570485100f2109ba6014cd1e4742e02d107342a08125af303a0a10e28269650bd9830e711ca0f234460b56718ed22a40b05b5828eec23acf29c421306a03d360ddd70945831a91175082fd780c92a23c4c23f54130502a6d6195701ada21da2521552),
  (33383, 64, 272487072, 0x25a6603482178d417c580828b323012c2c53177613b330312807362142a2047aa2974f245aa05b6c1ee7709db110ed30d0e5137952c75520a892478b1050d0dd460c3862d5e114bcf0352e0ec630eaac1ae881f1181de6b0a10723e0f244620dac40e344238e327eae03462219b8030812d9a53108b212942b9561c2d72876a08cd42a6e425e9022ea614f4e2c304162482f6c50d2f42fd371d2b006ed80e434),
  (33447, 64, 273015166, 0x22d21043061e7f112bb60996e00f6504b8a21dcb0d9300b96e2385104d790d2c925e6d1796929bf205f530edcd316c21d5541e5561a1921fe220e8e31399923a120e7c80518906b0c2ab9909dc92d8c92d7d905d661bd311fc862ee5122e76240ad0b56224cef0e8640950b3156f1313820a040d5080dce623dc81dc3423ae201c8b1bac20d00a11963164f9131342c90a1f1152bf5224782159170b267069e8),
  (33511, 3, 273540113, 0x146b29d2314301),
  (33515, 64, 273565621, 0x267111f3e7286c4216ca0ead10144e27c372da4519aab1d79924d880e4d31ec6e1a9f72d9a1160ac2f2f52227630705133ce0b3042bd231a28a1502c08e391301503d170cee415cad239612e8391e3f32dd3701fef21b65119082446110d8c2ccb40aef5010322cb75044ea0a5470ec8221c0819db30ac661d3b61f4040d6ce1e2471f0081f1281907117fb41f8701366c100391c7d707996095f82a7c70e470),
  (33579, 64, 274098882, 0x2d61306f50e6ca0f52826d733178f0f78c2d1e429a8f2a18b0d57413253251e821223069a6187c63149416e6d1d98e235d410d47143c81877927c38011572c0ce25b462998413936267e624b12024680afe22fe5113a93300501eea60c8472e16f08f570b4e403e8f113592244a1d9170ee4f0c98f2da36246380bb361c88926f140b8970a8681334606d871e8ee29bf8007552d0242712e0ec9921d6b2da94),
  (33643, 46, 274623256, 0x971829cef02d2521d060521823f0c1fbae2100f113950a6792a17611e871380f1c6592428c2358f203a7191cf14e01226b0044b605cf1197432aff31e5e405cb3237010c0d5097341c23102bd72376a2f4ee0120617c412f7d90cb2e1fd4e28c691d5d22f5e60aeaa20ba80af0a04f0f0ac76),
  (33690, 64, 274998870, 0x10094315782accc2598a0936e22c300809528db025818308731a84c25f5713a962e5251cc35229140339222a661216b24ca712e160bb8c1b465027c302669095b206e8a0ad4528e68083980c0022c0a110d380afd03036908de90eb882bbe529705045712161513e222458120727017c930f0623338138652c223289f41d6460ea2e0ecd10e9031eb042ad6d2baf61e4d927e0d01fd60fe4204e300cd27093d3),
  (33754, 64, 275536830, 0x4ded1456b05a4108c021e3ed0d7d900a8a1219718c6524f0a16b0c0f56c1c192011390b92115e6505eb51e58c3238f31ee317cd622f242c82a260910d34f0862c2a58130341262aa0f6342596f236702d27812c080d40624af2094042d0170ab33014b71fb112607301da80ea62257721ba03211cf11c8304dac04f7224be2173220de45133561bac720a440526307b9126e3429dc41855301b17053f406daf),
  (33818, 64, 276055134, 0x1eaf92d24d024940a7e802d12132642e5d01d0a42bae60da582ad57276180817102f242d8182606904546046d2206282b20e211060f6b51df270a52b05c281d0260fcd01d9370dc280c2b01ebb10730d30ea80e3100ebca1a0231328f1f42921b520d8d322bed0eceb2d8d11a846086a9220d51eec215c6423bb926e8c19fc82b2ad2f09407299099551a269094b121de425de804f93227f205dc6106a10d197),
  (33882, 64, 276579826, 0x26105082642e6881c1b60b0ce175b32d0281392a105c23232d2bc4f2822e10f02125f90ef7923495234af1dda60ba85007672fd5423c6f04bf90bbea130ab0122c0baa211d8c0dbcd24c44024b830c2a0782c25b4b0166a253d42ad6e1d5831fc2e1276d2eaea236b30a4112345303d290b324297c61f75928fec0b82d127531b2a21f7b801bc7084c72a2a329425272232354226d9921f930a9f613798246a1),
  (33946, 64, 277102869, 0x216c42938a30aaa0f4212e0061632d215020ebef0a2681d5061de2127599265750104b0378d2978c3083719331236f80cc441ff7421689235b8086e4064140f5520bce41250100ded19e852d7b6298782bf022529428c2b08b082caf0095130e59818d0f2a5d106b660cbd4226ab20c0f290371eaef21bca2c9581cacc2a66d0f5140fc8e1b5b406a6c03e4322e372d1060cb8e254032fe912ccc724bee3074c),
  (34010, 64, 277629407, 0x2d4d2254640ff72285ed2dbd21e1162c8b70e2c9252ef143a1218b608e8f264f80fde4316f01a1c2005eb20e470dd08260581ee8829a6d2631821cd8185f02fcb10712d0b4d52e7702f43304f180ad39247e52646f1d1330263023de4321212c04c007cd10f3717e052102630d620e99418525258950d73929dca05f472495816ee5065a510e1820e891fdaa1f6cf214b12c218014842c3780e73516be60c22e)]

/-- group 7 -/
def seg7 : List (Nat × Nat × Nat × Nat) := [
  (34074, 64, 278156100, 0x9cb70ad77220f50a4080ebab255571269601eac26ce418b5822eb10e5080ec461a4732996717d012e605133522bcea10f4114bb82633305f8515369055921b34e0ecaf105f30a1c105f5907f5903daa0a58a046e22f4c7197870e77116aca1ef6c0aae41f25802d1725a7707a500cdc52e42f03be702ae127c6e1049502f6e07030144930a7240cb752da100b72f1e1e70bbc70dc441d68a13be104b8125890),
  (34138, 64, 278676909, 0x3c6513b2d096d20caf604e8c045b011db50e8530fc5721ef8042761984f07fc22a6c62326d025d7071e424cc12fe33220f0155d808c8e2559013ab82916d2edd905f2a129261dbeb011692c1aa262900980301d501ded329f0d28691242ee2265207c871f7cc0365924a2a0202a2ed1124953274ec119f32132f0b1612727113f8d05eb9128f618a052bdb0228490f63809c6631f0d1f68b08489287b41f378),
  (34202, 64, 279201718, 0x1f64823f2f09d0e2bd172e0981785820fd405b4504cc20d55127f2b126831bbf422def08775239831eb4810e540d7d3246ad1f70a0464a0a08e2eea601936045f420ccd0d3a825a512db762604422f2a23d8321e7503d4c1ffe51cd331b22b099ea320632fdc8028862536c2d0ad0062e02f6d139723147305e4e03e4d04fee1f4f628c02014a51233218f24245f419893253260196e22568125891c2890270c),
  (34266, 64, 279726773, 0xebb4264ae22646044111474c29e2700ccd0a28a22f7505ee324c78288e51b8633072619e210f5181b41030494097d3075a52a791192e22770d03159070c508fce2d8c602a130ed4923d2e0d62a1992a287f309e562618227cf60fcca29ee22a56f2b5782273610fa108bcb0b6a7023c72ee90098650a0781ea092adcb1fe1510cb72611923f4a0750b2c1930d30e0ad76260ef133ab2cb8e0f537080ad2156b),
  (34330, 64, 280248944, 0x1de7213a1822713207f8237c10d3960706d23274133230c30f0fc750acb710d241b2e41afc62d61523a76084d8267f42f4b429c972377724d100adb1252530e06e23d5922129013f025004138742a58a20e290303710eb01fb4b140f210337049032da6f254301040a24c050c0ee0ca6b10f23138a51d3d91c2541fcef0d9780ef9110e4d29af10cf2b2d830173942c2ac262291ffa730e0c096d51835105f77),
  (34394, 35, 280776100, 0xc2cb0d156194cc1b5621c3660b9b504dd41426f0df2408dc32e5c50fda924d470df6b2a5f22aca2256481a0e507313320d01eb292890e1cf830a5cd2743221ce910dcf0cbac28f86275a42db5508e522292d0dbae0a315),
  (34430, 64, 281060348, 0x280870e88d2c8220eaad1692725aed1950303ea80e9670479403722010c9094612ff730cd132bd4822f9207e240604a2d8e60d5b42d10e068e7069391146d1fca310b8904ab0096c4091a21844d04f48017b30d7330e1ac1296d2955425a4c320e226dae0d8e21b555171a42f7612516b106f7012ce140c52d3c70a4c92d335241e125bc90adee1b2c32362b226391934b1b0032db2b06d32138d20e539273b7),
  (34494, 64, 281598451, 0x2338509ec1259e21840c0d9c42e1a711fd8199e2019911ca2310eb40aed427e8a024a721e83109562015624c340794f0e38e0a830010570ed370e2302a62a0fd2c28e2627e641db46293c120df12f70d2454c0af33314630dace04896007ce143512866b0a92929fb91d9910f6d0296c92adaa1b24c092d0055300feb8160f0214f7258b6218b0259a3143ab1155922d771388d0da890cf4c224e71a4e40694a),
  (34558, 46, 282118548, 0x260e320af7277b10f5ca1ca041e13416ae9082b127ceb225f827fa42772624dcc1a1ad0ea312a56c0c85207c0f0d4e71b4811df470cb562360700c0204ceb28cc322c530741126304084ea2bc8414f642bb0912ae70b13509ab823df40ac92219610ccb0172322a4952602e22fd03188807ed5),
  (34605, 64, 282493191, 0x1fd902002401da503cb4199f916c8924fd82462728a8530f97231a80eeae0e18f0d08920b0d087d7248592876109ecb1c3ee0dc820ee982afe411bc70acd4157f2143870b5b2024262ddb12c911105af24d03212ee03fee24aa5070af215a61742e1d1492371725d140fd261b82731cb91b1700a70e243ed1cc94184412cba924b6b0e3f0148c20af561e46f264431a9680d11024504146350d38d31d711d9c7),
  (34669, 64, 283036401, 0xb98b1318b25e8b295cd192290b172049150b42b251ad3136b2d9650db880f74713b691d2b71fd712ffe6265b41114331f0a24ba1262610dff31c8d829b34143752942603fb83124918d862ccf521eb503514265e7074b20d54b269620442c198690e86c318930d0d5244b613a0521948179ae1221117e142477320c8e11fe90ff6429e1225bb4252b4217971ee380fc1113ac91ef0a0cd282212421e63197f4),
  (34733, 3, 283551374, 0x174430ec9229db5),
  (34737, 64, 283578720, 0x157371d6b225b2c10d7826cce21e3026eee09c8719908221051b3f90d00112cd51d82102f0a1893524854256c51307325cd6235cb0daf42d9e20a6e531c91112c5307f305af72a45324b910dfb11ffee2d3e5005912eaad191e129c660c92909db2304c12ffa215a45146b418bd700c1225378201cc206a11c1b90ea7303531096a8130512842207f3003a061e2ac06897244712948a29f8b10546131652cbc3),
  (34801, 64, 284112991, 0x1b5681dc0a0fa6d0de6202e441efef181972a40218a6a2c3ea1b076241112a5f402e8d2a6142e5890e4770e58c04948062c8143020264c08973143372ec662a3f22c973036482365607ac606d862ace11d4481f54f113a728fc70db65050e20f4d31fac41e6970346520ab302cab14a4b0a8cd0e7cf00468246b728c501d63429c48219e602c1124dcd12a183200711d0502c460ca230b57122fb825e471676d),
  (34865, 3, 284636762, 0x2446c24bc725a65),
  (34869, 64, 284656083, 0x2249233ef0a3ad2d88915c221af671bc8c1edea02c6c2372705e080b392026a40a6661b8e9146cf2d027131750999703634312e2099aa06223008d031683130cd16001037ca13362234e113bb2285ab13fef1db10190f206d2d09c012fe4b2074b2b249269542da0d09e44088740ff310ae261c16627c4a1e146229a224901087b421d8104977150192d69908707227e31596b18c66243090d6150ed8e24791),
  (34933, 64, 285195574, 0x23d4603961252523078a2f1b31220c18b04007a7134e50c48f0ca8209b871f22c0ddef03c0324ca4190373070225b38246c31eb411f46303dae253c30accc28f81295ab25cf419d6e084a228ecd2cb860eb892e0f7299e1265e1276e1028911e9ca16fd30e1520b01907e1626d861b366262512c0d50296d1f8771849429e0c0490e0ce17026f80dc0e085f624693128ca0daa10f331140900d9f62c6632d273),
  (34997, 64, 285712510, 0x3012e146781324e28e961a0a12d68806c361e0a615e9008c3820bcc23e7931e0c28cf622e151d0832a26c0456c204f30d88510d4416e8e260b50370e13bb525b450721717ee71b70727bea2224208d6c0dd772a6a21304f05ead06e4122d302db702777423ef1261c60d5970c8831807120d0a1f345176e1133ec1fc702e01901e4e1f59303dd42358810ad80c15730fc406dae0d1b426f8213ae40e0af23faa),
  (35061, 64, 286243878, 0x1a9491bf4a07476087262c335139c3225f42adac08b22238aa1d132097ea0aeee039c231e6927ec6085452e9ef1a7d802d260e8e10cde30c0521d26510f8a23437302ea0606414a77015b02393209ad61e8e91392728450258a403476044b52a4f931d8b0ef7210ee71a5c727b0d1f190235f10e98c27d8c11aac2a5350a0d124d89064f22a6e5228a12a6131ee711bd77026662758e0ca6a04f14211741f344),
  (35125, 64, 286765388, 0x10102315904f2105fe21c3872dd7209a09297031eba629dc70d93119786214b6060e707be21f0a221b4928d27019ea25989071692058e23bd8062c3121a823f9409aa6222d924a6c1efab2edae2da542e4171db300d4751e06e0dc43108c90cf021a24825e3829b730a76203f31239641472e0b8872cc0e22aca1f5100efa508de22252e0d28805972089e1074a4044f92a5d602bac088d71edac1ba750ee27),
  (35189, 64, 287285809, 0xf6a51c9650dbca0a4d8064e20cb2907823097ed03c0d0d0780d6f02ad290c015017a121c63096942ca4404dae08fe92bcf001de409c893052c22de61d02205d062dbc923e690f34a185d621c13123c4249e626d9803009106972476706b611eb9826092135300124d015952a5300edf50418a075881e4d40a3752513602a622748a2c85513104261ca0454526fef1b18c011e12d08a22c911aaaa245e31bfed),
  (35253, 64, 287810610, 0xf590168629f422f00f1295721ea32448a25fa302ef3294d00095822f2d180f90a9f91c18528f2117108265810907915d8507133139af2d6a51d0ab2dd09136d32d0c921af72e7750ac22058850d1d9314a20a84e20942103ac23a872dc572533728c190e8f52768a1f30803ece0f46b28496105c5044550874f0e31310f052726b0f4cd2448f234a80afa1036040ece81efe92d211216c5106500ea8a08929),
  (35317, 64, 288346137, 0x21e080362e297250ebac1ad88131142ca6a0586f0a3a323121118e707eb52ca98131ec26e0f2992d0ad4b107b927d371988e2daf32f0ab0c2722420a0b2731c6f708152249f720e9611c0e044060d3f425115287c909c270e7340ea9822cee04c5707db7276a519f192d4e105a2b25d931f05409c0b0c24e14f05220f92657221b081e0c1075170de110be332172a27c5006b510856518de8178eb0e9010482d),
  (35381, 64, 288868571, 0x9fe915bf70fea22ee950b436151361cb872224d0da8305d68102290581224def25b8430728139a20684126cae0a64a2b9e9013ed2ad470d8140126410ab4230ee0a493315b82c029252c909f6e05c5304b860f5f9187670e8b11d9092f83930cce2fcd5286981c38c03b0d0f0d612d8e2d7b91bed115e62248e12126d245b0159cf0c82a16fc92f6581eb341e8221311817deb1f18d2081229038075f22f084),
  (35445, 64, 289383709, 0x1fdb8182420ca700703704c7901f13304ae222b30c9d5251e9021b50eecd16a170df2319cb31a82c2588f1c04d09b430e9151e53927d320e7d30a9d326904143a20a1732c905219831b98722f761a1c5095120cacf2b1641a4c40e2c22188d09cb02fd940c8a102e1010cb31ab4521ccb1cce2058952265022eb22646c0d5af2d0122c8752ab2a0af4e09e532bce91f2af04dd80b467124e821394317c4253ea),
  (35509, 64, 289909505, 0x2a89920cca2199922fa62a92c2c112199b000f07132ce2fe371a94f29a70136952df73089322da28086700ad70031582526d1df342a750011e51c8f00d10a11863197b61303412321090a3236d40b6ac007c213359115e51ecb126f2f317061d9f407c4406fb20af821937502dad104e804538052e103da123d560e8421dd4c2a6c70e7701dda5143930aae70f7231aca22520b27d091bb27174cb20fd11ca8d),
  (35573, 64, 290436270, 0x217e327e590b4a330c760c9d00d3c91e4b008ef3224450c8422dbf918fc305f8e047e83231200ef30bf142b51725a222228f2db93045af27f0d287c705d78261531c1c907550013f50e07527af419bb92e4520a2612ee612d3030df101e6f11ec29132552a3951390f2d0ac13153210e80d8b317f321ea8b27f28027ce17d4421b6809cce107f50b8021eeb00cc8505a4e0a2522f6c82686b320012ca72138f0),
  (35637, 64, 290957653, 0x2a5e41e26b10fc92ea8a2e06f0f22a2d5e820e3631a2a1696f174971a0190fdd00f4280f60307a4b246ab07cd72a7d9241f61d86617857164c72da0f0a9961f2942e6d90b9d205df12978d011ad195cb238d90c8711ff6b0fcce0bb5818ec80d7ce14bb031459045f320bf90d3b700cce1b997073540cb472456d25e03247ca074981e58d1a9160e96425ee92fdc92d9360dbaf0fd610911908e0428a6607073),
  (35701, 64, 291479967, 0x1f2d018de23069020054170ae082ca1f1ea22c2415f4c1abe604dc927d3829e4518305222b92a56d20d172fd32158931e403249f20df84243aa0a28d252a31cb5103ec12c2720294f1cba21ee9709f11245d52bf8a03e262394531ad8196220d0940108e0c81604eaa2f7a40c02313d0e225352618b182260c0781a9ed0c86c0df75199e129ee53004105b2a2dbf7058f41d2b61e93329555212b4049e526149),
  (35765, 18, 292004942, 0x24da70fee913837106362ee7130c62042c800c8606f5124cc6132021040d22ad9217f20a77006b8206f6921411),
  (35784, 64, 292151413, 0x320311f3a309dd829df808ea52ddf025cad161112ce0f118ab1b70a0ea30128780ba660e3d4278c12db6d21ce4250d4004e11cb161b86410cd5102630a1132c82532013148680156b186252ddcb04e720708c2a7960ebd801ea90d6722d1c41c759051f5224510b0d52c20231de31fbd717ecb290e62d8cb0ea6b184d01fa680d9c1042a728c8a1602d1b58f237700d3b824d111f6c6142cf06d050f9d709c29),
  (35848, 64, 292689279, 0x1420b00e362d72b0ea74047832f7111e8921c3f707d790372327e471aec21a66c212b12bd4f200d82c63401d27209ce20c27296050aa8429b98259e11fca40a577306f12588a0fc1908a290e0041018f01b0523b6e3075713ca625a4b22fb126da102c921cc6c04e930e51319d2a05c022c04b04ced0ee102ce3802c1816a222d2c80b18a26248047d824c0a1934c24d8201d5114352262951b6661e085235af),
  (35912, 46, 293208246, 0xe381138c61fd2e27ccd10e61251ee1aa2f075700c2d600536252d52485326556047110af2c25cd10bb6d10f221fde530dc806ec92bd5612da104d672124317925221d016ae60b97227ce8237f42a481083420fd4b2f4ed10ed504416226f7119af2252c0d0ef2332f22f370050c069511f682),
  (35959, 64, 293585718, 0x2cd57317f01b24b2fecf2ba25276790aad6268f710de32350c1abad25bb30ff6f21fe420ea624d440d9580c05918a0e1da2728cb9027302a76b0e80e263090e92e0b4991d84d2a184047990f8b226d62299461dcc921fc90724922ecd05e231f5a21ed490c24d03d982438c181d32a5c607ed20e49809ec210fec1918f2b08f20f032f5e809b702348e20d141f2ee095e70ebf12fe07175500d72e04d5124c63),
  (36023, 64, 294122544, 0x20831074140c4ca13ba613bd3087a40d5c92f1a807c231930d162620de530100b1bceb238e5252832ca620f7b1125660dc810905901e070b9d723e53295ca1ef761d20f24b19137781003429d580face2d566062661f813246c627d6e20be6248ad2371025217142d926262010d10c1322ee021e7b522b9817cb031f770ba2c0e3f32fbf9226e61f6590a4212f18703d4203fd82c4023202d0dacf21f9510670),
  (36087, 64, 294645458, 0x1e23300517235620baae13c5424a0309f38047af05f0c26227091541ee620cb382d2c120da20e6c813303094c228b500e4081f9420aab711d422a8420b3a10da2c11ab40ff8905d17251930c26c0dba20cc630ef33131222c9b70b26113ae20fd57006af29dee07d970b102131c8261cf2014a0b14b0e63508493178222123229e1522ee424d050ff392c319261c32244817f0a0ae59245332d2582e278083cb),
  (36151, 64, 295168361, 0x750e26ee115ca7049680eb5023ced22ad308364234730fa122ad0f063b513a2e0a54126963235c40daf50e3a2193ec01e310de61307f81f0061e9e326fb9204691a07509a6f2606703bd7087e629c79231c106e4c02d23049490e43922e270ae39246e50b50727cc20fd7528e8c24989285030d6411304a25ac3266f430d70257641c82a097d21d0c610549044b010ee6253ef2c0812f54a0a7b923d7531ccd),
  (36215, 64, 295693199, 0x602e013d8134660abe41bdb92ee961190324b551b8d12245824ae814d57079920fe56144a104eee018c524be41dc350e1941230600a4b2d1662ff9121a591854d090731f1160f662295740b5a71f7e60dac20b0ee129c80c5f72269109352277d614a44037cd0964c0eeee234b50fff323db324dc11c2251e84b24af904e161c06f0bb8a0c5d90fc870c9a81e50b05e8a21e8c004e630304120260128726cc1),
  (36279, 52, 296219517, 0x19a4e2c1142d2141833013a420ee370dccd133690deb4269cb1c3342c36224b502fd840dde809c021070a215ef12ce92906d2610e08d4c15bb420ed421c2714a262e42e0ce6b22ac5256b3210ae037ad2cb992abb92a46f227ec265ee097d531e382488a2382b023810ba9622487272f92c8d72625209b81013a22d9e32872e13a4f),
  (36332, 64, 296645784, 0x448902098164842a9d303c230705026c04258e2161a90914a25ad40b2c401a6e082a719af6245ad0a938138210fe660456b0e1550b0182333606b6a2accb037111e25122c2a1ea8d2a1431eb0a1c2221f126231cd132ab099d804f2428d8f0daae0dec205e6c10f391560423f56245e60adf423f120453709a4c05fed2002d24b361e98c2bd6401e512ec220d09220a542e62d1c8b1210460d1b3281e229dd0),
  (36396, 64, 297173345, 0x205c10f792322eb26fb322c75005182ae810f7ac20ee405e302e04524af40dd702ce01204491b3c32a6910982f0cb940d0ae0a9c90d20f104ce15d31217a2184f921e6c23430200d71b34c25d77015b70b9ec097911b6c41148f1eaa5258a31f7630b41226f8524bd727f952fbaf31d480122a2e2a4287e20e98d18187199310e0c61eed62268502685013a90a1ab1e6211786528601190381018d25b37071c5),
  (36460, 3, 297700297, 0x2a37725353321e2),
  (36464, 64, 297735563, 0x244042d08d23f022e0302759007ae40bb060ada7084b20aa452a1ce2745414ee92e6e124a9623935318d604e4821b4c06cd7034791f0a52a4f21ddb621c452d226259552370711d551cc502a48a091e12056d03aa63216a0737202b9615f3207204087ad2573021a011e9b6089040840605ccc0a528234c12d321240ab265421b6d5096620d50a09f561eeb50ad29213ce20bc30d297085d80f30e165810d057),
  (36528, 64, 298263042, 0x5de50e2882963425f7501e8e06d1017a6c19eb912812051c60796b19aad1cb690e3e6231b7139042ad68229920bbc50d21026c8623f5904996269532e08e2bcf722cd01f75724b3128d500d4662f8222f990126e3122662738501e691afe61d5ea305f60b95027f8a1bf281bb4c279c21df412b3cb27c630cbc41326212c4d28e490aa6c12eca1cce329c5403d6c1dbf8044653216326ed9140c91bc6e30ac4),
  (36592, 64, 298779881, 0x2ca47096d724a2c10d3122b16188341aff12264424c0d2acaa2bd332d82a2e0a7104af28c2d17b5205b24138691bbc407d4729c082c40c0dcb72658e02e5324d3422a8324c94225f1211d526ed30ebad0ef1330e970e5e30db450c25404fa700ca1305b422e29263312a73129d2722c9223b35070e50c84d317c50ee490eca90f6542d109058f90e0b40650a097c41f7a70244b295b1249a51c9d9247cd0e368),
  (36656, 64, 299304182, 0x1ab0f2b1692047908782297f9039d3224ce036311e0031678b00d95231320062421db523dea17aed0a85107eb22094123e3831bb31ead62522c0e1e71de14085b92fc4d2ffce0d582152d22467304b661d9ed27deb1396c1f8851ec932500a0c292035d02a46c03c56089d31cbca0e7e21527628ac41e2460684a0eb7325d920a4d92a52a1e1912ca2d27f6403beb2a7860d0260d18921fa52ac070064a07ef3),
  (36720, 64, 299831326, 0x227340ad44170120e1aa2690a0a5d630eb82f7960de991f14f1e30e2bb2210f042924d22ed702c58091c60e9e522cb825b83024351e865260e51403703ce626895295101566624c4f21f7009c1430c2424a6b0ce091bee6188961b90614489109661b38627fae0cea11b66906b4a26bca2070a2c08f1308b275570b19624a910df83219981df59285970e0391dd08253b425b961e46a20168093e61c186085ef),
  (36784, 64, 300352520, 0x30d422bfc3202cc2d3060052d042922f4ab013050e7ce252c41e0c8275872d04b2a29625dee10e87089ad20c11175f9232ce23c182b8a10fc0f29faf0e86604bd0245b706eec0b20c224e5097821904502f111cd610d937224930e9c10272b0fd1131f130780d0e2c5165411a91925078309eb1e00d1aad921bc405155010f719b871ea620f4e31f66725274045c823d2813be411f8b096c622154236cb2ff53),
  (36848, 64, 300878295, 0x1f708048aa2a4351c3831d2f90d984027f8131af1f7b61444a0a024235192d865138cc28658131072c15729a732c3b730e250c8b21e885186890a3ce1bf8c142ee21aa32af66011e42ec0c1422d2d8d62e44c091f62d1cf28cf1011ec06b4101105093d51f1f026038081f903f7023d621943900ee40b4950f4ca0d2562a5e50cca513a2b24211224ab2e98f180e9168630da880afd4031c808a67220c323e8d),
  (36912, 64, 301402638, 0xe9792037602f9227483280991901421c81275680d1012452730ec40b8681e4b1141b60ee8e0f6580c04311bf603c7907c41188391fb770a14c2c794235e10acc204f2629f4809a8710fc80cab11dce42a4f40ef342a514004d00e777259761a38d1998e1f256222521d16911c912dc920dd670abb406b8d280d5104930cdf508fc32502b1b9b610f2f1307523b8d0df2616d411a9291e80e0386115c0b07468),
  (36976, 29, 301924852, 0x3174d2978a0ba122236602d6f0e876119710a2551fcd22498c1a9810c3870c2350c78f1fcb90453221eac0ee0a01901219822db6a1e9212c3ec090e21207606a4713aa90c1961f376),
  (37006, 64, 302164429, 0xe8d5024c31c11713027233f91ba372fdc60562d0fd940358c011f4308cb070670a96b1a3ce0d3880a45422eea260242d8f614c8407ecb2444823d08078e80a2eb05f950c0ca00ef4161010e99605fd125a211a3690814f25f6b023c30318b09a0c105eb24da414e13216ee2506d2326b028c7201122530609d8925dcf0df170467528e2c2ac39127e52d8b210d700a7340f3a407e6e0ffa8262960840a088b5),
  (37070, 64, 302694726, 0x47ed29b950077913af1154e92a4303236f2398e097412f663295521488b1d399276910d7f42a5a21e6160ad3221a14027662210711d250e66527c961ee58229060eb251a9a425c27230d10862f19c6e2a7d2133052c4cb1322609ce70c50d15b760a9990d14831d6b217251f2770d2ee0ccd1046541338b25cb6237eb0286d1d78b02ad12acac0b82b0a296045a90e2d70feeb2a5131ffce04cf50d0992fdab),
  (37134, 64, 303218835, 0x2aaa6024ca0aec228598084f1091091d83526e8a05d182c6d23064501d4e044262668d1cd101406a1d9d707d8e07d5029c1105df0183f42cc4c077d2061232f1ed2cda503e8c25a3201b723148e026211ada11e0a9247d7007f810a33197840e1cb1546a2d0c5229251166730f9110f6e244e32d38e250c30f00907083128ad275f50d09317db9295462c8863202b236760928c03c8f22f150e50e164170b908),
  (37198, 64, 303748154, 0x26fa2239811b6860eb480d9f4267e30adc527032065e2246d60a4252a2591e3e105ef30bd4a025260265817f850192808641086651dbc724bd228f980af222850a04f6531e220c2a5206e82590c264792523804fcf237c717eec1885223e4c2cbc90d2e52ce552a4d60d9c2233d21a0112b9492256e26da628525297532772127e8c01469305262358122e900d17808d5104b422dee22600d2b0ed2e8ef0b418),
  (37262, 64, 304269965, 0xcbca2609707b4e225101cf51263571d41227ea50346321da30e522277ae2d1332618c1745310b110aa871faea266c1191900e1a60b00627caf258891e2181dcf024aa7236f523b7127df10ca2929cb81fd6122fb20ec380e2240a94e28cb70a4f22f4c90109625a3822d912c7690fe8d1b9320b2ac1fc130a9f3065870707505d4201ca51d9c1236e831df92248a02ca6235a82998126b641fa36136520ddd4),
  (37326, 64, 304792565, 0x2f5e705f0f2d56911fe415baf16be11f84f1dd981ac8802525316b824c3615b2125dcb1300411d4123ae31dfca05c0d0ac060e1f91161619e752109404d732da610b86f08ed4168a82948b10f252960320d9604a132bd550ac9604d6c31771138140e6342120b17f5210de209a8e293380169529d84118d62cc051344b0ebb62b1a620b6e07419104ee0802f00ccf20e30138082c1c323e2127d50191d709f85),
  (37390, 64, 305319931, 0x28eb81d8ac0d5f70ef3003f510a6d502bb91b64f22aea006a81f5f00ef851ebc62f1630fe10059120d6ab0bbe41d3a30aad9094590feac0eb8a1b0660ec072153516cb4217d518d6c1f2f42d88b0af150a545117b21e1c11d1d201fb92a7b31e6681d84806a511670c2d42924e3125e622272704b610cd032322f1b9f70d3d2114182c52c2d00b0d636069292dbf22bc382f75823dac0ede825e911328d2a056),
  (37454, 10, 305841737, 0x205950123211be7208d70aaae2cb9806a151c35113aac009e4),
  (37465, 64, 305925029, 0x31761262411f009309030f6d626fb81422a03624214c80ff6a0f9270ad84175cb0ce4d23ef7247ac1a48e23fd809c981e2d7189d902e672914a2dfb82c975239f60e88f2a7622d1222912e0fdce30fce261ed23b4b1702c2450327e322430a276a32ca65206c807d0c2a9d5286d909ed12a5c72cad331bb50614f10e0b2db0824b18154b427e09107c2294650e16f09dc62a6500ace10e6cf1d14f23a51228cd),
  (37529, 24, 306457035, 0x130141c5d52f8732a7f51e7b026ab306ac42b9b816cc211189184353058d0b362047162caeb191d50f767011b016e880040d0b90f0a68c1ca5129de1),
  (37554, 64, 306652150, 0xe3a52d9e40cf271ab121f18122c761c2211bf07170af0abe70f6232667804f57218f623a8910f380bfd01c5870715309f261305312c541fbb72c2752d02912a6f2a7681eb2f177441713810c92308aa110ad1f11904cd8059a21b4141dd72277ea2aff010ee9197050fcb41eca60ac990ec8c2cec705fc5234e721f260c72d2338307cb424a02160af07f1021752005a50f58c20ed11a3510c9a71314527f59),
  (37618, 64, 307184453, 0x306633218f20a0e247162754d133570cb422daf917cf70eaaf1d196215071f54d143e3193970b5ad1986e2da932b2901bdd6226920c06125ad927c65267900e9421ec7728f261542816f691081825de92fec9193302f4f12ce113070405fa90c1030cd76098730344e0a5f81b5430bfac3030702219227eb058a50dd0b105cc28c2a0ab8e23e01300e41d82321153010471d30c2cb720b02d044f3144ce22866),
  (37682, 3, 307710798, 0x2480725ef30d20a),
  (37686, 64, 307733636, 0x85350c8e829ea22d17410e0124a0e061f6219b50f4b5005161686f0166b0104a2fd8505f99035441070d1427613155081b70b3032048d00b900a2cb08e320754530f76109f40ba010adb70c3d125ad30df8a09f5300e6b09eb3320682269702b34048980848830e6c19275143cf1386628c2422ca620ee121d36244b016c041393724b131f1290d48d02631012102ee4b2b0cc133ca245ab1f67223fc80dd41),
  (37750, 24, 308266680, 0x2fdf4242f6142241e8b512475031ee2792410f8c29f6307b90210120157608716010520fdab0a5671c182320120f4342a46d2c0672251629dd30ef6c),
  (37775, 64, 308464915, 0x265e60c15910c18060a11847122c3711b0a0ca47099d225bb931fd41f487321692268609c1124dc60a1aa070b224af80a4e60f7d10d1941dbee013780c8ca08c0d121301ddc63232309ff80c178258e11cc6d2254b287521234a061691ecc21f20c24b6d04c8213f861411919bb809e1620f6513a502a4e41eb880e90e0b4b90092e063241dc4c246ca2606822a88238ac0bc84263281a5241b3c20daaf0dec1),
  (37839, 64, 308997070, 0xbbd606a821971916b18315ea2270d1840a27c4c24ba306c34307d123e6f0ecf9265111b699245a2297a4063f70f6392f3b40a06825cc21f7e4279c1321e1251d40264721df212c4e084840ffe92d4e8224c12ef712d3f91e72d2d0d90b4c61367528c961df2207e39011ef2a6d909e830d1d531550092351e8c3307d4271f500b6c2152b253f616bb00c8351f59107ac41f3d117d692c2190db3820f1822dd0),
  (37903, 64, 309519716, 0x98231ea240780e0a4a2249291ca16225f20bb4f0737429c570ef1021af1247ea02f180940522e360fe4519cb82a6960fdb7250ef0514b00a2d211c80536a184820a8a429ef10e7981d8b52d1162ee930444f08ed328e181d92623494261b420c990ad79011c80ab050af591e90425a022df3923fe417c54139c61de851c9631288d05fb70eb7405f252f04310bcb028e930a1906d2b2b6a7017a724db817828),
  (37967, 64, 310045204, 0x201d80a78a27c4f0c683130c81b34b2da351f2a32682507bd41e8f92ea8c1a3e22516c2358e260aa3160522b210f3582a0851fee20adf722cb124d632aec5024302a66b068512e40531b4a0ad061cb6a19a67203d91d487253d52aaa810e8627f470dc45229671e9b131112234520b57311aed2cd6128ef01098d27d34229ed1dc6e1908f2e0ed1d9ae0b2c30eb8b137d72d99901c212f6ac04a490bbf802722),
  (38031, 64, 310571341, 0x253172ad4d1eec1082432e1b12290f23a960d812308702ec5513a971b78521a750daa2033931434e22a35107f3094cb13be207d5905ccf11a292b8290b3232a4c62ca74307b00ab842dd3430db6082aa2511626e281f1550d058249e81e46b0b1560955421d831fc47173a91f18b211e50a7ef0c0e80de641397301fcd1c37221bc700d962ad620bcf724af323e0b04fac245f503e462112f2633229d6b29d24),
  (38095, 64, 311091584, 0x24a2b27031094501cec90b0391d7c1053ad1b6110acd21f3d42133208e8e2d2ad25b6a230c129cd71d56d086b9244e622f27178c606205143d90ee210a5c21f1680e4132512624fec2f12f2ad54231350ff4608e02045c719a62068f622fcd01104070ac236c42a736255072754b0e1ad0b2020fcd32cfc1259d203ca82393828d2f0d2890d5c40d7ef2d155318cb0a60820b821e2aa013e329c022a30e0ef2d),
  (38159, 64, 311616160, 0x8c8408bb1284b1024a82146d176d2011e31518506af40fc8914318058610a44b17d4f0ac0924117253270a2ea0ab2c06e960aa0c081250c962124af0efee1d7850b24b02bee177b918c870d98e0c2b3105b8167b00edd81be53245c229ea82e5700a1722d2d607cd5296350d56613ab92fdd82c36505a2d14d621a9b72a7d73054c0a5ec144902c1ab2a7871394e22dee2d22804cab26061236b20f6b10722d),
  (38223, 64, 312141149, 0x266930c92b019ac161450b9611ab25085970c9900bdec2a18f2f5f202b180aee418009234ae2096b005302d80e1f2590e3eb2e4980b407226380892f098b127ef6138a606aa813a062d8a9006530a72b0488d0b4a41264529d780b1ee0b3b227fa5244580966b0e87730cc81ffaa10def1c84d0e2720282121328213632490319046248e324a551f7a5252a909183243f5296840f519143c731c5621d7726090),
  (38287, 64, 312667017, 0x2012d1eb931dd92321b828df8138d3248c525db00af660cdaf21fb20e83909a69026a9011ab1b3812340303d620f7431f5982d4d116bcc03db801d90095f01f0260a6c918678045311444d045a407c162986529c6f25b930a0b606cc52e0260e7391e5930aa651a80c13b76237590cbd50a40f0ae291f869140a628463169320ad380ab2225c431ed0a0b8f600e6614cd82323618fc5294661ead13200e0f7cc),
  (38351, 64, 313192744, 0xa5aa22d761eccc0441014ac2095061e6570afd3044c11060a22fe42483526051306331f395106950c90816709317d70c944220cb2ff720cd1010215228342e7331d48a2410313bb313941287760d629014f422a6201b361412e0d7191bfcb2f6c12c9d7257710e99723f8305fd0204d323157214b829f4b0c354305231afe811803138751d11517623162712594a077f02c379132b92192623f2e1d1680c90d),
  (38415, 64, 313713612, 0x9b0813a19248892d8cd260290d39705ecb08ef90c14c122ce17b8707ec810b8806e981d3e611e2a0d9cf222e30a6ad0b931014680f6ac1da010f4382cb1031d0d24a500ba4e248301cb4823ff40d7240cf13226e210dd1041752894b09df30de4e12bea07442016a5245050bb6b2aff80a5e22e2510d1921f72d1fcee00aee261330d15710e4a0cc7218f01087740e26e2943019e191a6f2286e229df41d6c4),
  (38479, 64, 314239122, 0x90d60fee10fcf31b02b296aa0b62920e07084ad249f90e84c0750c0d1ae09bd40ba2a0ea54226e42ad0926442086a815ff52362a2f92221490240ca1adc61e62e1fa890c50a19fd531d97217a62c28b121150102e1e5f80ccca0368c20f6d0d9f5237e4183501c3c92498b30031054ae0a29905e76129cc03ed52c98e038c511b88285011697007e45274b00ec6d1acf8223b1047933202c09f0d29f7627dc2),
  (38543, 64, 314764300, 0x22ae510f24294e72668a2cbb92554314c9403dee277b02d9e90ab742505330c42077d50bb482cda20eb4925a3126f70246980ebb708d900c98b06f89249f419a14134462b34423b422176b175a70694f1f1ca317c7322961abc61f0b52a7e1185f9233b019a52123542590b23679119a62c89909e0407eaf294b1004f416aa4060190ca522bef523e4913b2e208ec1ebf213a8e2e1a424aa61a27303cca29e4e),
  (38607, 64, 315288183, 0x7e821da210a06202736004e300da103e070d3100a115118e80dea2252d6146c4220af0e966245061ab021fdcf0be8f202813181214fe904ff504fd4253942d8ed2ecc210ba402a5208dd917ec51f6ea0390a233d5096c51c2d911f590c0c913b6a267210a7cd0ec171f8031ceca1fe6a2fc1909f8f08d4a0e5d80e2af261180e0f123dd40fc6f28cf522d92018992b28201d832fd4d0c311075620db610442b),
  (38671, 15, 315812005, 0x19ad625a702766725b500ddcb10de51aa9427d6309a1623eb91ee371344c1e103086e7322cd),
  (38687, 64, 315938011, 0x12025097c625790236d106a4a034f71d2d50cacb205d80db641edef2a3860ae0726e2403f04181d71628902c791010a0fd5822fd7316162e529266ce0b5b113b810a5710cc920aa541484523a771e9290ca242e24423b7024dd823a501991110fcf28d860ca0c1d018012c90c00a2abb61f3981c30e25a371ded2216111ef6b2dd8d1d1f9321d61edab03c431394b235ca209d713bb61a718038720b2e42da01),
  (38751, 24, 316471326, 0xefc10f547242ae2286f22db83116f261c50eb5931f78045c2029c4252b5038d323ef005aa324d4f2a42a0c10d0a5d0200a3083c50c1a60120d2db75),
  (38776, 64, 316662881, 0xe0322b8c525e011794d3214304d0a1b0861d84f281cb0e9761670330a4a0c5ef241ab0bba6087d60358f214ea0d88127eeb2164e04c6e2668f1f3a8193f10e78c27ced0d713234a50244c047b913f4b1ad67077390909105fa8047262d3540c5c9261041283606ba1082572a68622d240d126107460dbd014a2c20895273a8097d72492c28ea703c4d28e352d30109fca2d06e0992c035982625009fb60c8cc),
  (38840, 64, 317194965, 0x2afe50eac10e6771d1a51c3b60db070d7460460a18db325178107c511fe331e07265ad22d2a2878925263253c4260d919a8d2d2271e9781fda5088691eb6e275e9220542c9c321f4d3058a1f60800d491ab8d220c62e70f1f8f30c2a72a4e505d4d26f44049671dc0b07bac2624225a960aca30250c2940c1be282c3eb143b80870f24ab718a3014fd1133c121fe20dec821e7019887218ed22fea088171c592),
  (38904, 3, 317718537, 0x2bd13107af26795),
  (38908, 64, 317743160, 0xfca821f1804d1722acb0e38f09eef17dcc1e7c107556250520080116db024c961045816e7907a432e2e61f9d01e2591b8f31860c13b2b2c0ca2340d2e047127a81cc411be322f55919c30036f02b9991ffef31d0a131b226ec531f2c28b121460c1ea5428ae9258c8225e3078980e4e30a8e302c93291f80ed6730ee3261af0122400f09118c3091d81eaab2957222e8405e330c8ad1bce5260a3130af011f7),
  (38972, 64, 318276639, 0xc244087211e953139cc2855804905284b8180cd2db4104cc12d74f133d1187891ac6e14e2e0ddf50da962e72813aca006cb07eb83066824fd3221b308ab7274520e8081bf211d8ca11af60d59807768228e40c99901569262070942e13ae51b49810ee8269251198b1aeef243112f7e82d13018423075d32d9b302ec51fbc9256161f6b503c76060d930d501c9b51a09728c8c098f6228ac1f4621dd972c70f),
  (39036, 3, 318800912, 0x402068140de63),
  (39040, 64, 318827185, 0x59d2140d50d20119b6716698218cd133ed1db8e06a130c85722bc921e2809fe61b40b0d9732feb3143ec2f3212945203721104270ab1219bb629ea521dac235f00d74a0d1990e1742d8053170427531219ac0cfe324c550fdf42593003de11d68e287992db272626c1e9a610e93034510ad412dbd61b8b6176ef28dc700f311cdf30dd1408ded171f900e6c1f0b83206f069e609ac6275b8305f82c0ef0d884),
  (39104, 64, 319360800, 0x31fae0ecc21f1910f0a21f6a91cbe420f4e01e47025c3150f1135721ce712fd820e5cc0e6e21c79721ec30d1930e4222d36607dc2234c70bbd10efb62c221201552a7ea1f747230720adb02d07204bca00e37224910f4a50942122690237912488c0ecf2189e6260ee034f33184809e131bb93006a9192e50a88a2352d2c844320c127d960195108b6311010091532946305ea623d96140973100b0dd42296f0),
  (39168, 64, 319883665, 0x1f62e18952067b0243ad1606f29b6c184ee02c700e51129f24199152e0e8010440d0d0123a827f8c0a6d828f2e011f21d299044a91cb8b07e95156b20dc1102962059b420451292d7251371f052227c726d4a085f12c39705db81bc680f336095a32a6d20e138263210e0580e72d210220b1aa1408d1391427cc41ede92d12f13b110e9280fc041328b284250d4a51cc822da82186941ff8130e761888a2e390),
  (39232, 64, 320408229, 0x139a80e86f19012276b5212451bf570abea231461e941013c61bc7201558224461304e156142f20f0e5c902e7225338151a22ed100f7b231c0c16dc910e2b265c10843018fc61e9980c76e2d68a0b9ea12d3015f85188072953629fc327ef1099941294f0d1ef10d070c8e92a4a21b88509d0a2636327c332a4140d70d2558e1b2130ca832b0a5251c31996e028f40d847027752481730125285f902f7828039),
  (39296, 64, 320930421, 0xa8a72bd38182f90d3e507b8b138f40c3621752f28e0708ca9044052b079296531fb4f04bef159162a0822df5025a0123aaa0a1a32d21210acc0960a0ee31277ef0a2640eac32fa392287623ed1252ca1eff310e890790a2ff2600d7220d4125e5406c012006f02d65237761ddc514b47199b90e40e077c4256b52d82c295b81d44c20bc5215d1245b12be2b2f3b301d010c0b80c8f8152ef0b0510d095250c9),
  (39360, 64, 321455779, 0x62ca02d8e236ee0e98f0dd2403ee41730d1aa182ce8324ab203d3103cce08b4e106e8228ca22112035ac076301f1e12e039216b61a82f132490a46e24ba20df85252eb1f50f2448b287a201e672bbe90818e266e3053c620d6f0bdd512575245d21bb950918e0124c2c22f2a41310cb22a6b31c26f1b7cf2394c0f92a140b90ac552c85204c7325f2715ae92846a112282ed0a01de808e382c00408d1827c03),
  (39424, 64, 321983248, 0x2a4c7304cb3156b2d6591dc6d282ea286351925914f7625b692c2d129cd41b7310b4542f29309d9804e792289124d362084f20e8228b2728db726411034d827e500ce86193a52ab8f0905028a71319f92d3ee27f32060880854429d682b907113141f4f03212b1ead22daf20af852b4a603caf2cb820f523086500b9a8258442d152017950ed07249a72a5501f761263111320d139a322cb20e70f12f440d3d9),
  (39488, 64, 322511391, 0x26382446d1f26c18535288cc32112072142cbcb1f96e16916011ea0e9ce011030a2ed2978b10ef71aaf20270803c690b3e41f3091d933259d12598804b242dd730d98f21cf623d5502b190caa1245d11e90329eab09a4a0a1752cb2307cd22520c2de3019b132a6680b3571390805f2e2098608b580da1817f330ebe31209202f64283a52ad2e1cd0e14306205e82b24e19d8a04dad1b2782f6c72fcd2176a8),
  (39552, 64, 323028713, 0x1c20d23436299a113d2d22ed5249f81ca660f48c1e3181c6870ec2e30614079a707d012d2c924bd929632244392904a069af290f70ca42014522a6620ca712f84b13f661b5f427f3708568071a6059040ce592eecd2606221f6a24bae0fcc90464e2f5d1093480e27523716156860a06112d5824902292f0231e82c1131b1a2125b900ff0243f604d2720aa1247642850818dcc246f60e1c72bf9724bc8142e8),
  (39616, 64, 323554625, 0x130326294111a41423404fd829bca2b717144450fe951f084086110cd340070d2d40c147580cc842d4481e36f1e0e604dd2125051f0293178b07f2e2130b252a404e570ee0403dd80fc4c059310a0b902cd5260952cf572df741bcb40c26e08d2125bce286721236a229572c898140a70ebaf20fee23b8e0996308e0d192970ffad261860c843073270e8f00ab2f01c770aa0f2106d0c96112de7235e71cab8),
  (39680, 64, 324076302, 0xd7ab2f2cc2d7630afcc045a31060d29862130550d7a33063824bd41a9090096901369008cc0c9431dc2a2a6f50a3112f0850ce9804fc9097aa037651318f122490ab2523666140e313ccb00f030b12d232390dd840cc572d4c322da62d5a22160d2c16414bb60396c2db920d2480a594305281afe9132ca2f5f10ddad219d612ab1246a8287cc0052b19b4823df3081061ee4808f6c204272d304013ec25dab)]

/-- group 8 -/
def seg8 : List (Nat × Nat × Nat × Nat) := [
  (39744, 64, 324601674, 0x2618a1e4cb045d208ef22d1020b8661a0091918e01b35074ce0046c1bcd630fac277832310719f2a0e9542128d26db62adcf2af91308e30fea52228e0815325b6417ac81d1141b98330d37259491da9809c261e6ec0d30a315741312d2f0d31b64d3202613ae30b4af0c7e22cd842cbb82e7e624a6d0d8cd25d180d07925c78251ea0e5050e2612e6450c87208564198eb2490e1d6c72070c246d02cbd30fa57),
  (39808, 64, 325124262, 0x206f715513138c722e8a07fc631db0013f4145082fb7520ea80d2d50774b0fc331946921a6e080e6306830d226048920a7a3186d031f210a4c31f2d104fae08ac609654229161f1eb2b74c08ea40b5cf0b803086550b9af161550aea604415062c42fd35321740b038249f3027310da261408a036440ff97147631bbca26052206932d2ac316500c9071dbd70a69309cf80a4b32baa8258ae040ed2916a104cc),
  (39872, 64, 325651193, 0x285b20f3f001029162120b7120bbe201a7428f351d32c13b501d2cc2efed0e9102d2770bb592299823eb607c0303ed20d9820b0ae0d3b4225272ad8b28d960784b2751624002221b80478215cd2322e310a6d03e27058061e88b2e1c1091c72a715291d40ec5414f170d63027f380ede223e5229fd609ecd2db45074e62b08e0956f312791f3482339921cf21d2e21ebe50146f0d29229e412c152235872848d),
  (39936, 64, 326183242, 0xd4ed092ec013b01814f23e2729d712a5d90479810f7006bf82d38c0e1830cbd00e0a309b8f275f32ca6709ed710fe30a2e32316125a6a17c970c9d10e5e10efd110e0d2d8ca0c88a25d581857127ca12bacb250a3241ca2672e27d6503cc12494a0da290d76c085222eaae1d3ad282142ee010136223f4626a6d19a86097d62fc6c0f7732cc612b72718c2f0e156317942f925132540a7772dbf12c4c518b03),
  (40000, 40, 326699063, 0x2a596228d9251ef0128e2b10310d8f1428412f8525af227c392bd4b1c3450db6e1eaf6010b30dd73047c1244a20d15809fb30378527f6e2cfb3305570ab772c04710de4213d4192950b42c0fd421b1e4029c30bc010ff700328c1e0af07407044c629cd8),
  (40041, 64, 327025013, 0xc2c725a6f0697925b4f00e6822db10e60809e761dfaf24b850e71310ed2008f5045f8039d61e1b5246ea30c4f22f36109510b42201fb70a741092b219e6e0dea123124285ce18c6b28fd11dd741ab052a8852d9352aff22e4d90db9413a432277408bcd207b814bae0a4870b2560c30b14c860acb30b4271ee750aa5720d850c585285230a08d1f810186ad12f16172b00252b252180176b09f880c9ea13002),
  (40105, 24, 327558140, 0x21b241a42410749106f30e84d2c86223e07202d802e780109823f750eb272a7102b0260b8ae0cdc11caa80c193034811b6f810491093540e20412d6b),
  (40130, 64, 327756699, 0x5a700cc94053452b84a0ffb61f12709a6c252b00e1d92e16e1b74e24b562e0b123509322810fe512599923eed026482252d31c3824d741fba72d03919aea18ef411e52269b01041716aec09f8309ee32696b241ac0100c2b384210430d0ca23c780d88e0738c2d58d316070857900cef05cee323ec208b80dfb60b9061b20c2372612fa81947207726150e4019e2177d2306ac05b21232472c9882ff1523685),
  (40194, 64, 328290130, 0x105c106bf61b13013ba72ec5721e71027b92ddc82e456302231c34205f2403f150b13904f670ac8e17a052d17627ee82e18d2613130502036e6234b41d1a423db21ca44311900601318c122d489142702f5d01f0680cb3927ecd24cec30756140180dff7014d424c3006c670f76d19e6b0ac4d204371e2762264f2a63622ad0216160f6cc070930c29428d26047102ae081f82f30cb61326d0edf92f80a2596e),
  (40258, 64, 328818913, 0x26ac61c070226842c363132a719524298d62ca5613876214f0047e70af0d2610902dd42436a06c9206f7709273217062a9f524f0b2b0f1274e3148d6115341a7541becb09c470f5b12492b234722488b098822b12b1c8a12c07801c2b30dc72376c044a429f0f217ef0eed82ada42760b07ba929da82582a094070fe4327cf72501724405012d11f92127ff60decf22449248ee225ec012080fc461c58123658),
  (40322, 64, 329342516, 0x9ee81c90223ae5287d00ed9607c9416db72f6540c26d275ab0fdd30c22a0330e23fb30878d0ec830c0ea0a5f3205f00ecd22f9aa0e8261aba61f2952940d1e09030905084921fec2174e9202d7211051716128ccd1661505f6b258c70c3b61e8a51bc5120ff6247101e6580e35515b4c071d22ec2119542229072ad0330fc8143e51f20d2bcd923c682635529f512692204803216cb0c3b30800a0dcc209c17),
  (40386, 64, 329860425, 0x235ae2380d0a7280c8082932428cf02f8821a01227ec20a84a0ec012e5c92460e30401006d426df21e652233a7040c80e939182a8027a91774a1242626d3000a4a0776307f340c8a8015680f5ac0cc670481916df415268163a5154101fbcc07cb22d9a222ce42e6c721c422052c1cd52076f024b511476a09f6a2592f2e0780472b2c3872db3804f080cf32078d50a2cd2420330f7000bb52c3b2097d830ca2),
  (40450, 64, 330383706, 0x2bc4e08474010c50b96d072532272331aa91cc83053f531a78010cd0edce05cb20936f062ee1e5572d1c31aeb61f12a0684f132b72cad5142513011713d4313db5049552d2360a3b20e39409a0822e71017b70fdb80ace71213611890228d30fe342c18b0ed2508ff71e0440e51013eb304bcb27c272c0742f74a12cd10d054289170e2c62e8d40c52303a0b14b6f256c121fc50b9c50ea290a88d094b72c847),
  (40514, 64, 330923987, 0x2dc0503271222b124c52095a709c0d0f4540da61219c22695200d2e0a52f2d0460ce521f62d09c490f46214eaa0f5f526459082a41080b20dcd1f1530eb532e0a4244780de3024598136891e471115d51927326e94152a607e921d17130f5622c2901a2f0d6cf0cfe52ca2f130eb0db442f54c261ce1b0721502e09dc12d2b803a39269141df2802cc11138626a071fdee06ac300f760ac502d4722a10d30665),
  (40578, 64, 331437389, 0xdbd128c2c2e0eb236231386a22575276210f7f10dcb42c82d13a2f05926216582c158011560c10a310ce2f5c902e0c0abed072182313310f31228ee099d920e6604f512144a2d8771a5220b3450a8aa2632221d070c84e22bc601426230b12cd6e1d7520445911e8626048097c5039730a561262080e9e4295372da831bc351f1170b026189b11801323fea121c50e4d81b8422a49106ed50afe4177152e415),
  (40642, 32, 331957082, 0x10d0406c700243612c8119eb8184a61818617fb6185461d135232a10a2c3142311449219b371a3271cda52fce80c86d0eda61ebb3250940d42c22cd713fb223a2f0a822010a80d509256b201fc806b24),
  (40675, 64, 332218411, 0x1a20802cc402d6604a811f758077a9207c5015f430db01eeb430f4209b360f5920da23292f524e6f29682138221810302a430b05029a6c1ed762674814689292e60628e2306e31763008a8253d62ad6c2099624d962fcf123125261830f65904db52633008f4a10ef604ef52a8a227c41251b40bb07093c627334265ce1a061010d525153240f01274e0b486034b51bc2b278100cc692a1112c2c12e9862ab09),
  (40739, 64, 332756219, 0xb51318f2216548223e204669319f0260271b7c82394f1b44702ec708b622da1404cc620f741898a0e4790dd8322ee7236ca1c391143431de13299272fc4a253e60d581220d62d10805f5814eee203ac0a1ce08ca222ed6130622382f3014c1e3b11959005cf4163f4233c423aad0bb292628f212830baee0abb129c832a5310446f2baa10ef9230d492a6e12bb43087ac098a70ae7231e960cea6258c20ca35),
  (40803, 3, 333275247, 0x250c4218891ea2a),
  (40807, 64, 333300418, 0x1870c1de4e241c709e4523b721ade62690d31716163c72ec18122762d0f00cab218da91396d1f7a6301631eb1210eb30aec528be926312084f0137690e7e3177ef19b140f7780b358222b705f351f2980e94c03eeb2502c1f26a1dbf40a4480d0271018410e88271942d3161b14c0e2b42d5b429ced1945410d2e3227716cd607a6a03e712d6562c2eb02f1621ef228e19215d6253b5036ac2ab042c15427653),
  (40871, 64, 333836014, 0x1d5e8266580df140ff812042620c4c0baa10947309d862fdc42da421e8d613f791ea8702f191ccb205f331434809cca02b4821c672c7f30e87127feb259a22de461f2a82194b04a6d03d0e2aa702dd2a2d1e52d9891d72e1fa152b8d92f4640bbe80457004d2c1069318741246b81c27026096211eb0a7e92a58612be718df91c9a51bdf90d9531a5d90e08a138f82330e03bb10da6404549129661f0ce2b158),
  (40935, 64, 334368531, 0x23779237ea0772e29f12185231f7870b82c1642a25106131ae25a50144b917b91235182b2142aa912178c13106235c31bb8e26cf3260412c40f0ea4725bcd27dc4277e50e9080e41105aeb1ab082846109dcb0c28e25fc608f4c192980a2f613be5006d820e941f1f114094118a20e3cb106af0c89506728258941d9302ece215f0a25987183040cca423733223c725484228830ab0b1d2a60148b15c9300e0d),
  (40999, 64, 334881482, 0x7c6e21e182a096215120122e024ae231f7013ad099d32afe723e1823b91068e621e1413a5822ef909f2e07ea91ec0f2d610232b426e4416d910a7840acea11b0f0f44722b9413ed52852a0687513881135750cf48105b618b300750a15441161e22f718253071eb741e86222cea24cd32cb4d0bf2923f282e0052dc97026c50a0eb076a30eb6c04cc30e3e70e3aa0cb2b072050ddeb0df2729d2104653026af),
  (41063, 64, 335415755, 0x1a352021d12d2c50931021be225254092e20d2571eba80dfd20a39325b63132d117ac7180e805ca82544b290e205ad21dc970d30124bd80a50d0f7ec0862e2d3071d7ec03ef510d7317a2d09ce6099e60952129ec3016691dff50edf20a7d62cc4b2094b0bb4613388035af035b80a6f2084450a5a41e7ce11fa227e9627ded037f00fee20a289114582127903ec50e4c929d0f1fd56259150f1ef013a52b012),
  (41127, 64, 335934575, 0x245471e228069ae15c6d010b41fe8527eaf11c2b011a506c4d0d1d00d8ca304aa03f900b4ad277250ddd522c901f7172fd76231c51f59613a8b046040ff731d978247540e68c1ee0e230cb2f2cb10a320e06c05ee21a60d0e80229c19229a82d2af2648d0fc70284e90620b075a42d6b1309e8258ad0a40920cec21ccf1768c03762045d1059551f043140ec187941f6e808fb32e0f00a096021751cf7201142),
  (41191, 64, 336454249, 0x17e90034cf0d2582dd26274f92f5791ec582132e016580695505eb82b6d5296ab07410012b5306c71f39324bd318c6a317d10b2951e8822a6ea0e190285d50e523031251b56c05e49209ca26d5122ee916866219ae0a60523e4f0cb8b0f974106ee1bfc502458277841e5c80d4f116f3105b2e07b8c0978404f25224b02eb81177c5219d902bf41ca2e27f4a0b7710d5680ca1614523148c32f63828b892dbc8),
  (41255, 7, 336982122, 0x2d9910d2ef035f31e80f2dbb9317a22168a),
  (41263, 64, 337036086, 0x2a5d2284f90f664130262d38f1dcc513aaa0570e1d183203752338823c03220731b186314702556a16de107cf30a05511ba81d9c30c14e0e1a7058652e3860182b2403226c551c0d408cb20dbf82c7970ebc3125030e3f9223153163904f730361029c62301d9175e10b4320e7221a574288320708723dec0eb24313cd1a9772f0d2306880db6f2db2c23f08207531eaf51dbea05a311966e2ffb310e4c22f84),
  (41327, 64, 337568150, 0x4ab1030d9264a21c504245f72e1a20b0c70e991097421da4826dad11b662a88f22e972626618a091d3650cf030abcf07ccf0a82f18ff325038201111ee5731f4725af10e14922d151c3440318a21c162b3350104e045880a9280c06311ecb0378222a8d138150f08127ff110b540ff670c3a700e240ef461347805bea24a2d2bce6186351e8732212729d932970c25b561e535211b41380911b8e25faf24c79),
  (41391, 64, 338097284, 0x13aad0e5821d61627d03319423166b0b36b143211d96f035960bd09294b808487244b106fe607f72099932fd6c2c0350e0d11310d0aef722db2176040b8cb2ee4e2dce21f79509e732bbb804df82042b235cd218cf2b0d70f7870ed611da350076d23b4418144236d717ad1317c11b3782088802c6530af41c3411171018a96220c52a70a09ed018ca6143160b22225a690d9aa2d8d509215199291e5d402421),
  (41455, 64, 338616635, 0x16e462a5f52ba830bb930970e1c97731aeb115e42498d05a5404ed804e820e319224e6094cf0b4310e9d02d0ce06ad42201224fd92166d25aec1aa742c9a605f27010310f4d60a9b015ec1253eb0b351055852c01324fee31690200ce00cf00050b323e320af3234ab1dd4a0a6250111213af21d9e62a56823bf90ac7829c962d325105d90825106ee8253743102a0794e0e4cc227e8280cc1db6d0acb91a8d9),
  (41519, 64, 339145223, 0x21ca0c3161f0b30145904f6c15e49272e20d0c12100b216c8260b90ec932613203674036e905cf51d1ab2d8f51999211b310a7f818bd90d8451d0b90ac0f1e92f0fc8b132ef045f202e69289cc1feb70d76d2670620592132470109110624220831f3961855220807303b41afae220a40fe92191d42e30403309027e4244672b12c1f9911d5132f80d01d670cdea15746296452a4502748922bad27bed183f3),
  (41583, 64, 339672797, 0xa7450064e2930d299682fdea1f2312bbf10ec110d918217070f98a04d1128717054083175931c22242180eaee2b2580ae461b65602fc124c9006b2904cd20c22910d49047c618f211eaf1262561fad217bc82596d1c0e31b6a62760c1e74c1948e2b3c120c8f1a28f21e540b071303e90eb4b065eb1aae2015521e0f90ebb122637018c1098632c4e507d71072a60f567239f92374927c921eb30260a509f8c),
  (41647, 64, 340190380, 0x2ccb22cae80d6162d887195b12bd181386722b2710d17044a31f5ef0ea281d0670d2ae0fe1329dab2940a0a0cb1f441245f204df6225eb079902c12f116522270913558281af2c99801d0c1de100c12f286530a9011ee812c97223d04140061182a21e6a24cc71d1e2035cc2060c2c0642272631ee42aa240d3481d050252590d88f22dcd294ee0dcc10e012131c107ed60d4eb29eb1167c71840f1bfb4233d3),
  (41711, 10, 340718723, 0x15ca3102b521b6b1896908f2b25083063a81f0b63058c2d20b),
  (41722, 64, 340801188, 0x11287282782cd170e36f112930b0b52ce571f919082ce203541e4c90cbe9065ad226f31aa902d2721c1b4025662c10a1e0ae10e2d193c52b9a228d2e00c03166ce035300fda230eac275d5231111d3c90326c131920db620cca32da92037790b9e40892e22fd50ef040fc971376409c1016a942ef6f21f680b10b1846a1ee2c3167427c510c2f32934a12a8f0808f0b4b52a5b32a5621308f0e18b132571f3cf),
  (41786, 64, 341334551, 0x124713fcb306620e405059ed1a02d2d121284230fdc9119540156f2b0632fe350b1382288814e98269230d92626478131d12a496105372c1732301203c8c142521d60111a961476d304630db4e0a3b510463251f62da592fc56187d002d630a76715b2e0f2781572a276580ff952dbca07c9129b332494916cc3159ce1a78529903300aa0471517d7906e772c8d314b6825c841c2cb0b52e3034f07d10310c9),
  (41850, 46, 341853109, 0x73180ecaa24ba4269092a7742b18e0e51727da124b250875519de21715012cd20a9f82d36b198ab2accf2624c0918821659026440a5ae1dfe3274160b948094b600e5113b8420e712380a0c8071e3850ac120a4182e0c102fec0a84d2bf77196b2107cc05f6a08947200291e1b41deb80ac53),
  (41897, 64, 342233131, 0x1d1700fb0625b440ee770a37003df8032f70d795315cd09a380992a2c874235511a92209a8f09dc205dac10a052538928ae711c81200d3317172c26a1bd9706065093702ee921b4720a6a20650802447263172272c0ad7825d4f22dd70e9f90e28c198c8099a5298a10243115413212822af610e94d16987152d51c2d505bc627e4f044742aaa5059062d229223c5025362445922e7224aa80cd770d29905e8e),
  (41961, 64, 342764735, 0x2a7731da232ceb331729253f70cb8a27df7320780fc0a2eced0dc642326f028c32da8407caf225172c1440e118262012c11023e99139c72de36267e929db40fd4c2a4d9090b90d3d523ed7142322db0f27d39143a92fceb0da6e0d3260076e2daf10d0752d352112a431c410c2310fcb60a8252f11908ff600ba42615708423273581ce110f4ab10f140de37237970ecec0848b0dcab2cd4d2f62e1666f0c0e9),
  (42025, 3, 343285884, 0x248080df6a0d8ad),
  (42029, 2, 343311492, 0x10ef90a8ad),
  (42032, 64, 343335164, 0x89f726dd625318085342058117c55322ab25f49235f610a15081331d13409419059161438424ab4144952a6100877710a0e1ca882086d314e72588e12e040826f2786a14c371eccb1a0e7035a21f0ef184e81df5528593210d41ae0d1be0d24a85242ca22576044f81640d16fd20d929246f030f4f0d7560aded039d70e90921f910f5d12410223028190ec0f673227c5169540656609a180d0b028bc223e34),
  (42096, 64, 343870870, 0x258c129cea1a2032772a0a1832750a28c2522921209b81d1562370600f681989824a560da28252aa0b8a305d0b179e4276542a5d70a7ec2ab15029f029d0c2a58721d662c086223ae25127034d61743430c370656c0614b0a84320a25242ac0c9670846d1690621a4108f511ef03239921434c2ed0e250a91daab2adc9320ec011490fea30dfd9171a61b30c1b3a429dc60a7c20afc90624825243298230af58),
  (42160, 64, 344391937, 0x173a62949413b77251d5308191bf470c10907c741cd581f182252cb0e08d1bae71d4c41fcea042513212303e472364f023280454428521049d60270e0a3e7005880e9262b9f8160643209602df6282a900531234262e06e0fef8138300a60f0e6130b94f2b575159101bb5723e892b81500c4705ce7287660052124317138a7051f91fa96307992c2531f26d0cb61186821dbb825dea2ad28115572622b16cea),
  (42224, 64, 344922058, 0x241c81f4ee23b7510df108cec2228c1937228d8509c81199b80a3920c76c007e90ef382f6d01800820f8a1bd1605c6b1d2e92a86c0adf019a981e18f22c3619b791d24d23ef91eff71eb94010820eb6d203d80f5cc27f290db0501bac1394f2b70707fc12d30924819164d40d46a27fe82469921fab0cb022aca418d031ed6b23d4e24904253b00c17917086247432f4631d2ec0456f006342ecad0bbf928516),
  (42288, 64, 345441995, 0xdf0b2ad4224c0b2612823bb7094721aeb72fdc531fd52a53617d4b160b4010b907f6b09e4f05c520221601e580368f1b9b8010a11ea16259a125c0d164d225ceb19f372db6e0f15806d0d22ac11c9ef25117212782140e3114a2a46b1e58e0c2d23134c258992ee7521d76094b824d30237580f66d1f169073f02c1e6012170e4d41b909139422ca6d0ac312e9740a2f92d3ec305b01e5b70d1ca047e1118d1),
  (42352, 64, 345966142, 0xbb5711265133d80c9f510fd128eaf09be70950725a4f1218b1ffc212ea80b9f317b5416a361ffe30e9a52f8a3260420e8c51469017c500466e005b207ccb2e90e30d8f0632f09d47024b92261530c73247eb140e50a7aa0dc860e80a13b2f109ad0e23215bab1ad9609c8b1645927c480c92c31b8c2e7141b30a05fe124a510996c0c3642cb5609b28269f2203d7132a4255960891409a44243031148a1cbce),
  (42416, 64, 346490191, 0x201ec2ff752405003ea20e410253950ee9607f0e0ed5705e340cba8033172a7832d104224441764b0a0990e8f217d030cb9010025246c103ccb1f02a14371188ea2eef926dac2f64c0c9911a1320b9a60dbd7027622c8640a9a60ed01251940d52c253632325105c171d6f20c90e2450a23375148a81dd93079260a0ea010b70fec815b720d8cb0d1540f4ac0af961d58529d2e2ca94234020b84e0cde11e077),
  (42480, 64, 347017501, 0x124e73070e104b40ada303406221b5184c708d55077491ec870220b223812d8250d1af0ea812097024dec315f619ee3063b2143f815ff4244cd192ad1d7ef03c4600dc6142b5011a4130d01dd621162e03d7703f97230641db33011ac28e0a25bb22fd7923c141ba581b4a80440f0d7cf2c0a92840f30de6231d82abaa262740f56e2066413ea81f7a400ca82fcc8314862e0512648a23b4f04792159701bf51),
  (42544, 64, 347544242, 0xa64b22862204190a771280d902d0107a062efc1098812652108cc60818500aed0c9c20b1260eece23b380369823522066620ea330e2f116d4d2dd25090f430da930c492616a20e5909c6a248e423be72986422ec825bc20a7e21edf818c6d16633306321ee862d949094750e193170e923678029a91c7582e7320376328ee21f8b5091f21fbd610fef1c869248140e9c81ad721f5320b2d9108cd1a3551ebeb),
  (42608, 64, 348063028, 0x2352c24eb6225230c5790d018247020064205a8a04e5105eed2792e248361f1cb22721323812f6ab219ec25f8813ae60b55905ff8177a131fb72bd4e2d9e71b8f904eab0d0cc08981316110ffe80f0ef2ade32d8cc2a7392bcb926507014352c0581d07130e560db330e956135d72e0742c98a0c2752af93131a42c34321f0f0c135063330ed710d76e234e61e86110dce0108625bc72b113015260c1d621f56),
  (42672, 64, 348586355, 0x1442248d717234043772a8b10d3940d9ab13cc1207a221db1026f91276a132891fc85094101f34603cd52d4c51a631238d11d7cb006d52ec7329dcc0484e03371023cf22d2729c650de5104cb51db68014ce2c2d60ea951e3c70774d208101f6580c44112be915c6a0442a0bb6c2aff90ac6b23a971f05313a071ed0422f8d0e1421d9162d8b6073370d7882c9100c04a2a4862d74e0ff6e2ba652336e2bce5),
  (42736, 64, 349120464, 0x131b418b3926c0325b2a13cb50d127084ac0ad2e21dc323290210b70af2b274b412cd327d410aae62fd4a0b36c29568143220d609035991308308fd7045871339306fef0cc362606c31d881ba8e00c91004f20aef01c809004b930db501f6f0e9121e96e2d4d0185a6186460d5040c98c05e71091940a9d2098d90c868316e21ed3122fe7236d0252d70d4a620e4502c6619c90257430634c1dea526d1208ec7),
  (42800, 64, 349635391, 0x884a13bb70b5642b6912d18c240d7037832e04407d540e83805df41eea921572174ef1929315f45133c62350f051a70ba6523fd4308a4045361184c2ca4f1f74512bf022ff9270f41794a1334328d422605025aeb2088f28eb9244340100a1edee06ae71fdce291922a79703f0530e42316010d9231828c2cfa2266f61cc300dcc826121251c4234a4047b82d0cc29ee41ab730e163218e51eb4320da30c5c4),
  (42864, 64, 350162220, 0xa5d717f582d951104b10ec782e0e62cf4b0fccb2fb25027af0135624cc40c4f1140f90ea150f9010c8ae105480a9b305e22212b0095951f2010ec90011f822fd60b9d60a4811d1aa028f507cb801ef61e163202a32b3af13a8f0fe441f0660e13630b150146d11642247010c38e28e9429e2c2a5e10caf8248310efa9133f91f399025580c904242c724c91077b31d193051282ad0e1b013269642e70423713),
  (42928, 15, 350684044, 0xae811bf0b146e7085f00eb5827ce92c84d1d68c1808b29e442c2b80adc12c3982a43122630),
  (42944, 64, 350815023, 0x23b4308cf11f107307b7070902f014157ec2feb21ace62cf5904d332da212842a1ff8c318110935310fe50e8e208b2b1336e1fb070acd62e5281e8542adb513b8222b590861015fcd068ae061ee1f66f23ee622d29045f10e7d50d0aa1aff61968a2368b050962204f0caad29d37246691bec5137cb21bb42d8171dd7509f4523e11091c22c0ec1931121bac090b305d4605e82211861e587047030b6010cdf1),
  (43008, 64, 351340617, 0x2052a0e2581d34a2bef40974b0db4f0f6ec1dfd605f890c0c6096d00ee47047251f62b2a2c20f22d033f40ad552611115d44013f229c211524505c01216ea1f0b903e241192f27d4b121520b1cd2d89810d4627eed0d5e1245ed25a63260f30f6351dfa708cd829d152ce021e36d316ab10cab257b117f56133d60fc8122d361ffa5039c61330f20ea723cd32fec406c2f22fe9139f8041ee24d760120c1f3d5),
  (43072, 46, 351874264, 0x139cd29c0f0e33827c352ca1326ff31ab571c3642035504f1723d95095ac30c552d2751a16b07144018b31f95409c5802ed515dcc0ce2e2252518be60c8582d261157d2132880dc63207f1258a21dea1013e71b3b317ce10ef700d357252840db922d16809a3204c6d0c2cc0afea0533129610),
  (43119, 64, 352240214, 0x13b581c6f502f0d13b1222d90010c303fad0e97119b120b2a91abd503bb2266ef1ad06010cb09ca909369174c51cfb92d0d00a8cf23f960e7c91e4ad2beee03c9323ed00dfa8288892ddb30e6e30a4ea1ebed0adc428fab2063402676008f40ee150a8763156e18f071ee081d3f52910a2edb92ff4323836247461d84b0fc6e094220fd0e13f8209ea51a61325354260e907a4a076c2277e310d142c0cb27be2),
  (43183, 64, 352772538, 0x237d3234f31ec371c36113bce11f992ad6b3046807f14078f8218362cda62c3c82fc592e08d26c1905e952fd24260d806f952a7f122c8431cb109c2e106270feb9171f81afeb19de115a900f69411f702476512af41eaec248d22bfcf004011cd2e1f56c30f500b4d20eccc1ad8700e5202d8a0f6d2018e41e096176c62312321dea1efc920ca4284d5073b2230f70ae6f1a3111b8c607f521e8ab0e0b110658),
  (43247, 3, 353305061, 0x131ca2d9a431088),
  (43251, 64, 353321786, 0x15ca80814d090672690623073252ec2b7120cb0d01c8609f150593009bd52492d220ab1402316bee294952248622f9730dc11cab6139a923445228b81f4030e9020e6221aa5407658180cc259f5160f825f240a850199f12f5b114f8f23854116890dd89154e6217a32b9a50d2d020ad3139152fd2126f230874905965083c20dd4b308b61215102cee29bae1d3c825b8202ba50ebd525a76225c72c0b701758),
  (43315, 64, 353867427, 0x1146625b43261850f515038e7219f51f2931020919336015590ee8f0a4192a5ea1b8d62633626199050ea245682a0f50d0e60124409786074050e51502906010d308653053172c1cf237a11e3b9260ae10eb5246a9227d7048d81f20b31ee50178a1eb0c0f68704e73068552d1c52ef6a27c2a23a13009792c443077ec0a2c529c4a32070012d024dd31cda3217282c982085670ca57044882878c0934f23c33),
  (43379, 3, 354385316, 0x3173912829133d2),
  (43383, 64, 354404756, 0x2244f0df6913b242297228a0a320e30802d26b5708b1015f0c244d72dab917631241321556e035cf24e2d1d5e61dc99139ac09fd626202096f1091061e4350dfb22b2ae06ed329db704479259f02876d26d0e31e471c32d110572cba105f03260c42b24f0ce442d3670133822de422ae91e7ac0b195316b4035a506c752bd322d98b207c7005c300f240fdeb2e0a2054d404e6e237900c7d503ce4048100ba95),
  (43447, 64, 354936182, 0x12f431f3e42d6270ead01d76a1f2960ca7218fe9132f2204f82da5223f6218b5222dea28aa91e3282c3012dae80e4232588d0464d10d30132681b2ab2dbd50a32b3178e0aab61b2752258b28d952e190165f205a10230c50b1c70f66a29f962488d09a830a9210c1990fd8d02967180b60e7cc10cb521f8a034d920fd2202f9147770e482227c609dd1065692c394140ca0e60e24ab80fcd701de91dbae23f55),
  (43511, 64, 355465629, 0x1f2a62616f2264d1f9f91f92802d952d1e72ff01231e91e9672654b2a4680818f2616320f501f18f245d319baa1487015d03086722df791edf3223352fa84099cd036302d4e421b072513824d900db4205672273af130490e9c9236480a2e62a60a10ef807e6209e433148a20d08037e9307d02ec162852816c79084331e3a90cc462a4f529dd90fc071fb33024381696d09ee1263102408707cc92e00725074),
  (43575, 64, 355984466, 0x2c22c02e16253c6211d42e4451f1850ce871d7671332c1fc3021b11042522d3ef0c8441aec525384250eb154ad250a4143450882406b4e2304d184f82ff100852d09c82138f50a39509eeb007ea1a2c82af8417ad81a1cc0f770200332db5722e870def62543313b0c2595409b11091222431813909277ee2da44026d524b0a0ef8c055440f5b222a6328154190a71c5422d9630fdf705e99140160d1cc24cee),
  (43639, 64, 356509207, 0xb3e31d3f804f270aa4421bf20cd0123cb821d540e3c710da30b96b01ce6249a82a4b3044f2019b3212170adf32c9cb277d918f8404ec10841518a6921830178592f09503ee50a9982baee0956324ab321c7309e48216b92b5811134b1162327979197581e2cc1c21322b11285ec1388425d160cd82260072c9230c3d32500c0af5724416141d1183d705d0a1345810bec0ed112bcc611f4913bcb04c11250ca),
  (43703, 64, 357041598, 0x1f1920ed4124c4c104922bd5409af204fad032b60d1530edec2959907c82318220e76d2116215ab60d46905cc30fdac059d61ba9925d8e00a850441401e981aae80adb3252a504cf60803023d822bbea1a2a803433016522d92e21d87013a3093cd0ef6d220c724d3107cc8142ef013ab0b5b523ad62756f2261624dc7167451faf51c9270da6224813129680a66e0d1c11bba921d5809c941200f0cd6906822),
  (43767, 64, 357557669, 0xb82a21e680b20b224e40acce27d5112ff41ec482b2162cca906ce20ba33060ea2a4621bb451f4560cbd126bb8296750358b0fcb52a6740e41705aed025751318e06a3423d2d214c625275045cb2632c047e60a09826f330e23522a2c17b4f2eeb41f4ef1f02d1eacd14372014241383107db31bc8a099381a135203a2182130b9292c867085392845222e141d5ad217b41ff8e2d3051a1f22de312ed670ee61),
  (43831, 53, 358082216, 0x1a6942f72e03a772268f286422102b2276300c71297ce05f1018a07034091c90526de61b5501b223105ea248a305f4c292f80a9a91158914765296c4315f708bf41e2b40e7e109de50713425dc22158d0ca4327ea125183011a3274d51422b1e9e5130922efc61b24d2772318ab20ad8d25bb10874222cd522c8a247a729fae23eb501d47),
  (43885, 64, 358520537, 0xe9e6096ae00e0f23df2095ca1e5531312c26cac101ab290090ca8a252342141727d9205fab31d620c3f62f34f213ea036ec0c9c129d6c23eab0c04903d340e5cd0fd451ea1109bc11138721bd6224e20691725c6e044c5140492ce611eb360ee0b29265125f1087a625bc129908285cf02c6328fd0230540a4321f2cf09b8c0c34f1c0ae24d830ad4d1bdb2231620857819ce22b152295d40e50905ec5066af),
  (43949, 64, 359047333, 0x2e0f928606238d72879024b86130d11f1e22a35113058020131d0070f5732970a23ff3094c90e3560d9f91be941e669130541bb551320b1c0b02cf842c9b814207219660cfab11e690ac972338625ad82d9f804fc80d637181d126ac70e1e8071b52b38725c4f0ffb22a73205c87265040e8f30aa9021382190302de081fb7628d670dca11d9320d5832c60e02f350e38304b4325ed30220802eec215af24436),
  (44013, 64, 359579736, 0x10d91260940ae43216542b7ea201a10a55209d811d2c12a14a206cb0d0cb319b930641036e708798207a50b86714c8710e0a1f1210df7330e4f0ccc30cc560b9840ed36238d00e9570e170095190acd1029331d398316cd034b41e61722e890a6b311af12a515315e729e35106cc143912636e13b482a6730814c12034177ed04051185e8167ce2e40902dc61d4ca2951106c4b27f652cfb2304ac2108d2c044),
  (44077, 64, 360095850, 0x2d0cf1f34905f882d4c226df8222ae07b02242022494b2c15316f5303cac13b910982a03d150d1b020b332b6821db6f23de20d1750e1870724420817226240a6870d8382d0622559313aec0f3b12146e2484929bd31f2d22e7e50ffb10e14531cd401f952b5f017d191c80a1760a2a487252b117426225ef119371d6c82a4360858a274e71ae9902e192471112c2c27e3908477262d12f2d3096a1221b922722),
  (44141, 64, 360621094, 0x2e5740aae92334a2acc913a281ef3525d850ec8a1a7470e576091b024643262461fd82294f1175d2253430bbe30b4c1011ee250181ce662c01017e4c0e913026240fa810d7850a4060b9e8045350f4cc045a80a9d510c562a5100e9d2249b9093c70e80c26a2a19b4c133382da862696a13d6f1db9006dad30d8a05e2d2d6650c06427ef70e3d924fe80d3930a6150c9d22612221daa2a4d70ae910244824b97),
  (44205, 64, 361149433, 0x1d68f1216429e472350829a0926661193790ee572d88c2a33619a461a8380252109f4f22852142092d86206d8f07c921e8f61fff62b0220a6c318f36101122b38520d390c8e5302a42cba4143102e090011e70f7a72e38a1796b0736702427232a22d9a90460e0c9210aa140779529ee72cd620e12931f8c13a3427776252860dff4045ec25b29249b41098a1870a1d36b1a0a60a538075080af242447916559),
  (44269, 28, 361672139, 0x26155150181f3c30c90330aa919e2910454275d00ca0201fc317db723fb21dbc30ddb61c8ef08fd61199504fb52376931a83240d82d05408d63305560c0ac00e6727687202ec),
  (44298, 64, 361906488, 0x1fc62231cf318ee0aad8115ee2d74b303d42ddf213fa81e7221e9692c5a72fec527e270bdb207e8610f8f1d32728ca72f3c42fb3809669204c21f88705a8f1306d300e8276a60052f0156d2ddcd25a4a0e0a400eab1d056035c20828c07ca90eee613a4c1f12b0e5450c2880ad342edad1e4b21fd4605f981ee74138771e39209b761f069291391805926c180e7d41061717e320c8781441128dd103c270cead),
  (44362, 64, 362433078, 0x1dc7008cea30eb6275a10a7f3258a1032620e6d52d0b204323263541ba6d299152f656241b9123140dfb92cac41bb9220d2521f27136192a950230020acac121630eb191c781142771845618c012975002671012c505fd40d0a130f731fab9236842611218fcb012cd25ad21b83024b2723e780ea1303e2b2257424599043ad2059830ca92624a036a516da2068081b00c2dbf00d03909e052f7d006c8413930),
  (44426, 46, 362957800, 0x5c160d29529c2e04dca2470c3092c2d9020eb360bf030d1e6059352a7482c8d5035061f2111d9712c9361d17605e8d14db3112810e86329d122760a07baa17e17015062120a0b049039c309a8913f0b0f56d050500e7102460f25f29070f213b940a42605e70211f12a683243ac276570e56b),
  (44473, 64, 363332892, 0x22fc82c0652ada5025081ca03118ca1e38b0bb9921df120296261d325f2301eae2c1702c2502f5d82c3c6197b806c2e140811cb491c384010d420e3123d0a2a7b007ac71843328421161e1068cb18cec006350a1710580522ec32b1d0266e20f77920563250b026acf05bce0cc882476313a901efae1618716f680dfaf25063053c12cf6e0da36304652d23910bf107dc6142b30a761050990a87907ef92c3b3),
  (44537, 64, 363864821, 0x44582762509eaf287a527c942c04220287317c31d3cf25f0d25b81266ec2524903ac70d1180b9e21f32e0e5211826523c81261301bce918e52124040aa860268713906190f11d2891fc26223cb07f8c012d502e7304daf2509513142143b51ebb4109550caa8112b43163507d3723e682a36b28f0a09c461afe42d369056a22b126186a60d8d02594e1eb8f09cee246e2130a405d411326c26e8f085e5076f4),
  (44601, 64, 364388449, 0x235e62cad2093b71ddef287ea2db011ef4102d6930c850472a2c3840bbd52388112f661fd720d42d2fd251426d072b624c13105d72dbcc2a6390e2a303e352264e16427036af23e5804c830470f1040320b8e1d5980c9550a0c31c86c0b52821e0f0b0d20a0a8234c615c1830c312ca2c0a72f0828302e0515cca1bc7623557012a824d0b30ea206e9710a0b0ae6818cc50c84f3140b1e8a20fce80a54626f22),
  (44665, 64, 364912975, 0x141f60c0060106d015352608f24a87236221e46c0b8ee1402c130b4294920902309a0b30f4912946133d92c8560a1b20b9460b99322c7112d682c14510f2e224f00d40c0a85328476119742e0cf21d12074d005bec21536217d60c97324c6f07d342db96087ce2708703f6a0b4330c9360dd5408cad044090ece309d8b058152f7c917523251d623e8f0df15221af1a1c704ec6187e72b1b80c28422ce72db25),
  (44729, 64, 365445108, 0x253d706e32238ab0b5a6261c90786a1362f25959100b92b3ee2ff551ddcc2754c092f1062cf1a10a0af810f0c4040c92acb521e3808157237320e92a2416c18f19182c22cc650d9b0227d01d5e92484c0ef2e24019253690d279062e909fd318b8a21cc3029372040b2d16d259ef1f66629c4d014f825e880a575251e6110830a52c0c86e269550236a04487042e8314f11c381030a90eca42ace32690701fc9),
  (44793, 52, 365969891, 0x1be580def50a0f613d4c075d72164a1f299015ce17716243c70c02b09d041f9610d0241d4a31b113219193103112f761b7ce00f870270923a612b87722c8d215d910d4b2a7f60aab9290552bd3109099070d30eae80f57825b921c87028c48244e1219ee14fa503fd008d731884a034260a5c71f167114651e68831c9601eb413919),
  (44846, 64, 366392617, 0xc33608ea229d3802de12475518d0510eeb0942b0de90317552230d0c9eb30cb52d6941dff1036b8235c22659218746314142bdf21e8872cb4f2a4e107e8918883259ea20f860d68708405230260ef542e44a24b922c3a50af62068f10dae71ed260a2e9244ed1ecb41d52e0b464132930adf61421322b952ec17027f90e93807bcb0fde10c822095102365528f66131d302bae1696a29a7801c0c1b962098d4),
  (44910, 64, 366920649, 0x8d251f645154c71fae8302c11b2470ee710f7ae24dc40c9cd1da872aded0fecd0b8f51860413be60b3b60a3f310e571bd911de4d107b621ca5007772690c253e72ece12231431e6c058e721011138820650c1a2c31b6c6263152c1b83061009ee21d2ef240881f5ae0b011071383133522cf90b9980f4592b1ed276f51c14a0c80430c6e0ce0f0a5020a44f23b8b0de121f6222522324db909695314e122802),
  (44974, 3, 367445513, 0x2bcc5235cc2d851),
  (44978, 64, 367468566, 0xda92067270a08931c780882b251b519a0229ef017a4c0aa471436129fc909ef4132d610da205f4f0bfb00a6092575827af1253082620b0456412beb29e781ea792ad4c259531f2d50a5e710d721472a17a2a1fce70c1441f26b138161ccb50c1481e2071daf5241c32d96416ce4010af294af2bd2d29d791f2a91e7ad1aff72ca77126f325cf11e2632ee4901c04105a226548141d20b8a112d0503cf50480f),
  (45042, 64, 368002115, 0xa97622ce91ceed236912ad162da79062c61fde8169f704ba90e94f28859095220a2f223f7100c931434f04c330699505a38046522d2f00adf9035b9113540460322cd61e9122396928ea127ab01aaeb30db31eb310e06d0f5ec19c1109ace1d5ec31c4d2170315d080d1aa06d1917c562d94b0947726e230f0151ed420ae2e28c0a0aa6e29c5600e531db0824d91064ea1698e04cc503c712444e02a2419713),
  (45106, 64, 368526886, 0x20d1222aaa10eb7044191ba92260082d1ec0168b0b20a23fec1b274264580adac177380a1102cca621ee119d360b15526f190b40316eca2ca632288d166230936b1de74076a70b317245692618e2d8ee2e0d50b4c70c647138f92adb726405179b22f77927fed13af32a73729d251c0290e8f416485212990e5502525504f2c24ea606cb120d2d169eb31a690a4f00feec1904a0a3d914e56077f1044f1212c3),
  (45170, 64, 369052479, 0x1946e0d3d02967222d84095970e90b0ec5828e4f21873024af19eb2301932e778058622d0d80cbf517fe12a98b2de9903e911649319433145700cc0f2276c27a4b09c9104d920b24e284892c18d04ed21b222105ed185ce1f157148c4212ec097d00e6110af6f0e21217ba5224152454426e88133f70bb6a00523267eb0ba220fdcb0da4d03083016ee2d04927e4b2363926c211d1b3011aa2d5b11e9a8175c5),
  (45234, 64, 369580373, 0x220962de0703cc51886d240b00dfd30f4642537518303131a22b7a2240f30e12221712294d8209f210dd007c250ea57226ed1bdd93166e296360c2ae2164414ed22900a232e12e18606ecc246460eb6f23e411d48623ace09fa513af6250542873125174260660e8b023778242f0307cc17af10a5ab161433052f0a294251071e9742387813ced30c53249b826633187ee0e6d82b1020ec6e29e710f1a52c3f8),
  (45298, 64, 370100486, 0x2e5791c523101b4192ab24d852207508bed0f701262431dfe604d6226c64006660567023f5108a310b1ed28e0c0bb470b42822b182450d0fc0913ac11e727164a529ac6203112b0d607c190120a0e3490ee081814323e2307e4219b4d2c6ca1bbc61a04220cc706c31055f8009a1284280442f290f425ad7013ac0ffb92316509d1319ce1172f1214c7098b504ff815d631ac06218ab1cf750726a226880cc97),
  (45362, 64, 370627578, 0x1f1e5048a80e914210c60fa92138ce1d4162ca330fee526f1329e29050262ae2129c6e3044414caf2e025060d41e8f50943301229261f12a6f10e2d10c8b41d7f00e464013122426b2395009c1502fee295d5272130a7a4099830fdf5085c317c81097f10aa93132d213b6110ec11812d284990e173310812cb1322e960ed2f0b497234832bed4248a22942e159c70d5690a0a2307782624f2df2c0ab040c226)]

/-- group 9 -/
def seg9 : List (Nat × Nat × Nat × Nat) := [
  (45426, 64, 371148137, 0x1846f0c9f9253ec0efd9260b81f3f524fe92756a1f00e2476614be12b16108a5825bab0f8910c5871ad262662a2bce22848715fc710dd41bfa31e9302e0720b0370b0f803cb32d1170ba4d0886e0a9502a4ea2fc811508323e0330d68136011439223e17276a8090ef260e70e4150abb6233731f3aa17b89006ae2fea305faa0fed60338608eb22c02a16b932240c107d92d74a14849005ac0369608603225e8),
  (45490, 64, 371674535, 0x212f00ff29182080fee623593295b9258f513246292f11a0b919947275562764d2c2c8148240e15015c920aef630ab226c3926f5900c4918ee724464164f4035572274910535248c820a221af0b130ef1c8e422f87269c90d431287371f2e824b09130472c0971abf11c3c82472d0d6b31f7f91ada702247033b631d47045301e9890e9d3295f81e1d1307b926056156380cacc02f070fc731b3ab0aa64143e9),
  (45554, 64, 372198311, 0x24b631860f10e4328090070781c7040ca6d06fac09f750f6700dc16036ef2a0c5066e32d99004f111aa4a2c12c170c518b691f809029942666e258f00a5d10e7820d6b9045a703e7406bea2604c237482d86325e0c228eb20ea917b2f130210e8c70e4511db97095532d6b026d912a7112cba71010d2dbb1011e62da4612aa60d96d0175223dae0d5aa26a581e8440c8551e5c301dd11f1f20fe4a20796132ee),
  (45618, 64, 372720412, 0x5053295f40b49200db20b50427f0309f48092e810f46171241c6421ce03229270124e0d2cc021f32a7e6284ec01d38181c608fd2229ad010c115deb2fcf01d2b522eb90fd591d6780dfaa0d622232f413b6b237b0297950e6e10a4e4048740aeed0af0923bf60fc8227d2a24dd931c4a094c3045eb04d100b0980e0ee23dd91b3e126001250842a50a0ea1220534274b21ee5606a4e2334d2dbcf224840cd98),
  (45682, 64, 373249870, 0x11f6226b92bd122cac71b9b507ea40376124517165890c3071ce761d9c201c38257331abee09e361ec8125b3624b452d2ce10e920a2c914d47132560c8770176f249ea2949921b6425ad11eaa90d2c1250590a44d0f72c1f60709f1906b222e18c1710a05114036a2227592e6621c8e80ce930848605c4c1b7c607f6929f052e0420b2160c6d50e38b1305728c9408a510f58729d8624ae9286e31b1a42fec2),
  (45746, 64, 373768769, 0xe02c1feb4294d4224b729cd916b0f0745518bb218daa24b26279631a78c0eb370e58328ea609ea32692b015242200e06ea62b6261b6511f18322f89164502602b2294e05a300999022f142fcb609a39243d12dc0c1b3cc2650630ac10bb940e6cc0e7170adc717792090931f7552c10b162a31dc36200d6116d406d901a464195d00fda51e8f10e80d238331d3ce02fb8010582d0b525a490f60508537096f3),
  (45810, 64, 374293204, 0x249cf2dfc922e4431df10dc180d2af048670cf770ac54240d50f7d4245f31988a0d2181b68e293f31238705a4924d4c1a488070f10ae542dfaa140821065624d702f4c41408e0766f1582322149024442854222d8a0346d09b5722dd615b9505f5622ecc14ff9108e623c740e1710a6182d1c70b46d2a4151fb0120d220fff607d5521c8723d8e01ac120f0e0d84408c442469428fad2310b2f20b1fe1103450),
  (45874, 64, 374817844, 0x3ed6259d00ad312c8e82204424b37281902ff8c27cd503977086670dc65005b80052e0e6d42484b03f192b16b0f4731bf8a196ae30d59248d9287e114c0804a0a111a5292d3093b4097ae0447308556138cb219181df2b100ab13bec31f6623f040c9a90de0f25264248ae0c0f606f93013c8024d01f71131ce40ac490e66d0eae92dd562d903076910c18d03eb70ecf32fd960681704714047c52ff7001c6b),
  (45938, 40, 375342934, 0x3224424a211e6181e18d05d8700e3825b6822dd524a862781918d06140252594d25c21246f10bbf21866a2b2e402d0f2344b2a91210663266d209dd713b851d7d8216c2227c421b132e51427cf31b50209b68186e80129110a042538a263261d0252388f),
  (45979, 64, 375690369, 0x97a10a76522c7203781284cf076b00638a2dace09f2a235500db010ef4d10e560c691116412d8e511a01314841cece00414146f828536296b4253f81f02109ea81436e1a36e0edd61544509d94284a231253260a41881609e0f0c26a245c8024320ecc30935529d290e09129ed51297921c971310b251892c36f318e80c327086480de19213852bba21abb52348d253340f7c702d1409349142e62ec2a0c626),
  (46043, 24, 376202910, 0x265451b8b7035a3037ec0ed652a6322d0730f6f21ae0c0e4cd210822bab3217e113b3428801099370cca7248d410b6a0dea61469527f3920c2f29aaa),
  (46068, 64, 376400896, 0x2a41025554247a427a2d1c26e252cc21c782ca152e3700abe91f9ab16fef0f0781b5971ff6e2a57401de70d6ad274511287320bf41a10d221432c26b0866b0261503f610fcb20e56a08d9729bb4236d603ca207f38252441f8d11fb2330e371caa929a752147821cd0212b61a2350d2b0006ea081792d16a1ba5524b0c1d279247370d71418e362bbf8077092ac0a14a590d327035ab0fcd81e9a1216092d32e),
  (46132, 64, 376930788, 0x297f1063010ac4c0cdc823a280109502bf01f0f3237a70f46d10413259481ddad0fc282631607f221e431044ec05cb60e9ea0c19426d061a1a631603090580dbf30fbed243c8235610baab0db04027780dc8e1b032310301df6402706219022dbea09f640948f0f6a71b82f0bb701fd6f26eea143381e1c62efe6045a2184b62a112253b125b910b1c12c9291e0482d84810737062071eaf8044a825cce178b7),
  (46196, 3, 377456356, 0x70e61014a2a7af),
  (46200, 64, 377483102, 0x225c5006f929ea40894d17cc81b0e62b04c308c9230130ffaf099140b60c10ff108eec2aa93087761e28e203c10cfcb2d83714010034cb24ce80e861241d80fcb127c521ef2a26165034c31dcac2511808422199a8215ac21f4222acc0e9a4265610128203fd7092b90b0e6034f20342907e961bb9009a33259e92dea91d60b230292261415142304a930793138480ee892411909dcd20cae27229155832e581),
  (46264, 64, 378012890, 0x27873287382aca51aff025043317880de972d762210ad150c92c0b208db81eb320e0d831ea80b824220a50819322e4a17a0807e4b0466d2cdcc2ee2f0a36b0c3b40a30b1f401222e513582025c52cbca1fed0274d013c6f063aa1f27126d4f1a8e821b941ead30efe6210781ac0d23d712e7130ae3404c410a8e208d871fb780e5c20c8212e1992d15301cc81800703d540fb81226b524302267411f5af2c86d),
  (46328, 64, 378543128, 0xd5e324c972fbee240c12460c0aa7127a6423e1413943015892d2440efd20b4750b28d13b2804bc21cacf06b080af121c28e1d2e102c040077008e2f21e270340731e6f14362046f5084af0650f203ec10da52f3a3100e90ee360a4ce3010f296c20456331eeb0b010277c72c11115bcf2040e0ead22c89427c2c073f90c8031c22a2f05704999167c42d9d42a57301e59286041eef10ddd90e42110eb604eb5),
  (46392, 64, 379062105, 0x10dee0e5572adce0b32c1ead7031880b9f92e7441aa630110e2e50409ef10d9b10e6100f7760066b25364250cb0744412dd11eb6a302e22a5832d5c11e6e1026721322506fe22b36c1f3e30247624aec1ee2b2a6480a3232cc4f0ae6e06a721b42f133942daf0009c429d6600b0711b610c3880a037266a50c1ac29ac329a8c1e042105a50c1e5069490985625cc40cc76036b9216810d1a10b054094b93044f),
  (46456, 4, 379584593, 0xcb91149ad11fa51f02b),
  (46461, 64, 379626362, 0x35840e28d0e7e71728809de32164526bb218cab23d260d3ca0da4a2d802064620a1e725a6e00c941046e1e6242b87420dcb186c7204850a1920b1a8280050d13907aec2466310fce24fd5231d929a141cc6f0bb83017d4213cd1a6010d9362c070091c810f7327f2724435305990d5e51bb8a094762192921fc121da829e042a6b0176900e90c19f8906bcb0cba9064ed1dbb42dba615aa107f15196040e5b2),
  (46525, 64, 380151145, 0x21bd80fd431c16a2e68a2599823d5112504014d801e96104b20ccb72bbe431d1412ea72663008868297a6069a908369237961612a1add72fc6631cf0012b90b086090f91afd909faf1d10b09d461e4cc012a11e8162e5270d2e6297b21d462092f40e9cb3142213a883154229d22251b02e0861260822cc809c92058e42af9020d2a21bec2dd6a1ec862970b086cf0e3930ac0b01dae0af680aec10ea560bac4),
  (46589, 64, 380677038, 0x21fd107241087d0317352ca8d0f7b30c10621f880ef830e016131c51dc18187a62749808e0c2276b00ca4218aa2c84f1e3902c0590b3490b1d21d88927c5703fe3250d70142a2d03330898085910c9922587921cf10e1252239825ed92620c04786008d80fe900e21526c381c005193101eb182450b22a8b16f6103c472dcd72cd852248f06531277b20c2ce2d056229110d03522a370cdf8006181f34c011e2),
  (46653, 64, 381200548, 0x283d604a820ace62c08719858065011a65329f4d185641f850144b8240f42939207cc303d050af2a30f8f29eaa043e8026d123e101b556093f20c16d17e611f6122391710e42207ee2d2cc18e192ada70aca523ad10a5132477613a831b1481096505cd3187d927c58133c70686804ac6076ee0b3e209e6524b321642e27f412516322526188b00d9e707d6f0b48100ca7252d8262c10d6961e994012b72ad06),
  (46717, 64, 381728974, 0x2c5d5075640ca08192ac2a53903ef90cb2113390252700d07020dec316ae0980631f512d577106b40834a2095730f74179b80ec0225a2f1a312028370e8752626d11b5531f021d419015f800641276230e1c80b0692b3f822ecf0ed051e46d296861a0450e8c424d6f070120e34208ec619bac1d2c7295180e46b0cecd2426c27cf909ca6228a4295d22c481165631751102fe730fe630e49179ce0ab2e09cd3),
  (46781, 64, 382252855, 0x11d70d787016ce1d97407cc40974f24a921ae6d0452f292081672a05ee6092b329c6119fb114cf01edf72c1502c3b0242d70aa67261f230d841f1c20959600525131d51029312699239530ede30e336262eb006271dc8e2e08c0a7d70d0b11f531274452bce10e1642452625be620f781dd9517416010c72c0450d2530bc250d12421f0e0a9532a5971db6923dd62b855201390a0e51f8e70ab070ad650a681),
  (46845, 64, 382771771, 0x2a6f626d9003d971eca9241f314f1630fb51336f0d8b02c1a230d070b86510e0c24cb6236cc2592e2364e26074269570b98223ee51014c0e95121fb72ec72090f001e10294d51d3ac2ebc10caae068950bb2f296eb21b6700b322120d2519509a45094653150b1262101f570c90f142cd12ba1142f621aab2274a016350dd2d130d31af041e9eb171ce2ded417f242d74d133d71130c2ad7323b6312caf2c2b9),
  (46909, 64, 383295767, 0x19e12305b7308f31419922b9602a8b1bc8401231087b128fa42600231db714550244302c3e40e153260e806b2d2fd971c277263a80e4140f6832c7221518a280912a759104901dbe620a2125c732f6b71d9151f0140a5332469625e4d05a2522bd715f442385920cf90dc510fe4e258c61f584279210b62d01286226071e659017262cf4a300d02d86409a520e8d41c9950f4350f7ad0c90a22d8d0c8af11746),
  (46973, 64, 383825963, 0xec8429ec90cb680ac641d86e2edef0b2e22f62428dab2bd8627bf11b9f02ac920bb972e93116b300c1e720f6b1f5c82fa771e2ca094c705133258ef03c242d950077132c2a52dfb907e4f10f49242c30fcc224c7531f5420eb6028cf0d2cb08ed809d9113ae703fa60edcf014430c382013ee2b3750f4ec0b383140a414baf0d96a01204047b7287e8053742979208613075d91e6d00dec71f06700eeb06dcd),
  (47037, 64, 384344775, 0xf7b41f754307d7139f90114d1b38908aa3251540c8590784a30fc130eb0115641ffe80959825e192a7e70e450011f106ae62d24828e222a716248d82bd110458c23f9503e481d9d900ae92268d2c28214c810fba7219c12bca81abe10d70f1ba14184500d84109e33012c30a2c827c062d14d0fe352aced133e40e0e12e011320572324223f45242502c9a5024cb23d362401006537042482cb772b5741f82e),
  (47101, 64, 384869388, 0x303460c2301f20213c13102422367514c4c12c050ab241758c18e4201cec087f30ec190a3b11980d1beb80fe47267f11d0040e0840f6ae2494d006461c1ad1ee0729cc60385204f33229e6107481ecc52a6370fc692440d1b5e521c0c275ac02c9812e2626f58230d60dda82371207fb92954e1edc90ffec2376f0cc3107f761e94308b6505a351b8180aef300771276d908d531047429d9903446262341b58a),
  (47165, 35, 385399830, 0xb22b037d82d8b529fe305b680c01318b9920d831e76424b881e96f132e405f6e1d024295f50f494018f413916296b52f4c324454085d50105106ac8274350f4a22d7ab238301926d25e63029692037127ce7214790ee2f),
  (47201, 64, 385680687, 0xb8951e495208940eaae2a364275af3018a29ba72bd0d2850d0d08c0c26910d092d0a822e010e5270a61914703261362f6660d4c205ce91f66407d5209b8a191ef1d28f0aa560c3ae0d805012d32ac4404da908ef120e1921574133f413e651fd622368a18f92093c22212c286310cb0e1a7ac093061ea7024b6e09f4c24bca2476a005b625355248d3036a3132100635824d8a30f532b6d90ecd317ee406c49),
  (47265, 24, 386213653, 0x2a223069780d2750a72902f15240d631ae104c4428caf237ec2509626198121382350e1384523cd20e7d90ee511cc651fcc7104f906c2a00cc81e8ec),
  (47290, 64, 386414084, 0x24d7112c2800f19209b10c1b222d971a36111bf9306811183404bed261b321bf509e080b546250752eac22ef812612c026390f631265331f0572f447194070de0623ed31ca45184d8239b824b991c6232d86b079d0269412206f2218622de7142e710615017ee072b026c49287130caf504f811a14431c261f61825b670b419138610148f0f506037b50ecf002749119130a4a10dbc6139aa03f581f53807ed9),
  (47354, 64, 386941130, 0x297d8044782173113bcf028f60b1751bcd92772409bef09db808ee1236b108566252290a788139f2252650f6992f2141508e24c2d0abd7261102af98079ee28f0c307610fde2159032d2d004e6d31d2a1896d05d0503a1831f150d7b9130a2277e20a36a2344424fea2bd82132f80d6c818b8509dd024b9410f3003d280e0f60ff6b09267132f4016961f2aa14eb7240a42c3990df6e20b221324c259cf25986),
  (47418, 3, 387466954, 0x10ca12fad125184),
  (47422, 64, 387489793, 0x2eee26d750249822c87242871c20626c411ac2621301252a624e6c2d5160fd0904719289161c4130bc572fef70b1f817bac1f6b90a5c107d142a90d2ca6909ed920af21c3332120c0f7b800ce11b0ab21c6b11f930db0e0472f10e592cd692da190a6f60d0e720beb2e5f02d88e2249602a902acb70b487086520aa37287a302b670ceb21432618d8e16ac40a2331aa761c867139ad25a15182cc051ce174c6),
  (47486, 64, 388025575, 0x2ce4d2271109b010e90d1ca460e6230250e304a60ec4e095330ac0e06cad0d06a2a5f11f1f82fb90068ef049d22407907f49146721caec00db3027ef2e71826e69236d91b874275e6312391f6cd1e22b10eb21f54c1f8ca264d00dbc90f76f0f4d20f3122af6f20c4d2e0041390a0c9a60c6f305c3923a541492401f100a2c21ccb309b780db991f0d8158510da34278960ce450a2071dacc24ce90d94d23c32),
  (47550, 3, 388552125, 0x2408d1294802f6f),
  (47554, 64, 388572709, 0x851913b250ffd609d730fcf60d8f809c8d09c4125b620cb5506e52026100f8ac260a9259470ad742d0220a9a22b8840b025044eb225c62cb3329ea72eda1221d724f982b7820b00f234f21c2290d5531c3b430c9523e3324d410626e0e715025321e62913b380b306105712878b314f3246661300b0f57015d551df8e1b26c2dd512500d2466e1991300f2329a870ddb20c0362d3300cc2f1f2410b13722be2),
  (47618, 64, 389105320, 0xa0b40a0f82edd70a5e1234a31f676184212c44224b0b0e14606fed0cb2c31e8d0ddf01c1f801349120170f7172c3c910eb90ab6d260d1243320a1d60d86d24fd203da31fcb12214b31ce528637237f9215d7090370bbe70cdd206e2427e2a31212214261986607e48034f510c65084e2266c9013aa012701cc3401eb2074712f5060d3cc20f0c027d605d3220e670a12b2144b2486f1870f295010b2b010fa3),
  (47682, 64, 389630084, 0x1743103dad2a3a122c141050e1386b1c892184ec0e5681ed35284110f48718ff7036b61cd31261f716401006f3130f20ea4604c101c9820ade91c48a253c713d782f5ca1ab1727a630f62c20db52d24726d480e7510bdf908dca2038a046572a61127f510e26a2dbab07145205781d15909c751f6c129f6821fec2205125e170b4f810da42dd790b96c05b4d24a451c8b92462d2b1b21f5e32674e021470b404),
  (47746, 64, 390156591, 0x93651212420ced1c742231631cd030abec075912618409c191e0932b151047e507f121e4a10cbe508f551e93604ef6294e123f820a5a8139522de0d070ed0f46a08e92264ef2e3b5240f104b3014f731194101ce92bcc22973102ad22ccb901ed523f2d28f9313b0d29ccf111332d1770ead32262f20e0d2a40a099e130c680542e22a902a6e60270510d271786d24ca124a6327581314e3069cf2dab113a98),
  (47810, 64, 390688062, 0xd3af26d2909fea1c90c0ed2903ec30a6322b76b1c1ce17ab42af8525a360e61722e0b2482519b56212100e3e805c6509dec0a8d411f431e442167cf292910d3c11fa8a1e28302e8f013d910e4f20a241eeec05d6410bc6228120bb450cf011ba90286e122f441b6381326b22d711cf323114220ff423ff229ff60a284044c41f24b04a6e172c12178d1fd572c0f7314960d7b30d5e60cbd221e1925bcc1ad14),
  (47874, 64, 391201885, 0xf6a4252351a883128882cd822d80323e470247125a6d0e370157ce28d06207d42daef21f250834123eb8234511e4652e767217af285eb138850ab890ad272616e0dcf627e300efaa080312e0270ef78093220fdd821a3027f921bb4405ef7154d70cfa8211ea025d022863289f229e0728e41176931efb70134224c581332d028f1187970f498217d80f8501ba91239c5097f32fdf31e5c924ce502cb90c84b),
  (47938, 64, 391726130, 0x56d41b7e60e519199562e02901dab23b47175ed284170e0b9249e92c4760f6c71069208c232fe222fc69323440df4b12c7204439076b909fa831f871f3f3250b12e0c3229c722eb32748b12686098370cb8c129672fe8f077240d6381dcf8250a50c9b901b2b0ec121fa0103ecd1c2b00852c26f951f38704aa2036181494a0d3182d1501dc8801b11288310c3120140a1e5721fc0b0adec23697039b124921),
  (48002, 64, 392257110, 0xe4c228c0c059b21318900d8d1e811226552186d2766102f98045480dae5139642223403cd929c29210240c1f32b8212ec08080902214610f913117409939266220360f27df30a7520d64d2358d0ab0a246ae2775129ead30441007142da69262451ef3422b741f6111f2d32ecd0259b50ebe90ce550da4b157452ce0624aeb0b5b909f7905c5620ecc05dc41ebee0b42e2ab320d3b01d6ab205aa2599723fe2),
  (48066, 64, 392783076, 0x13832113d0030eb1e3d927c8e2d9ce206242a81803538224b911ff8200f21ef6e0af540f16e2dbc10e682024872012c13aed10e451e28d0b5662642d0eed6010770fe08253440cb7309fa30ab632a1ec0ca771760b070a40e8b22b6062ceac10065107ea1a16f19e8924417218c8246371fd593191722ed4213370352f188f31cde10e8230ba3425034180f626046156280a8820e345168e4201d6219630ee65),
  (48130, 11, 393298254, 0x22fcc0c2f4029d60ecb505991218e125be527d2c0c2182d111094cd),
  (48142, 64, 393388791, 0x171550888a1edb824de82a6af256961fe6f2d9090878f1f9962a5320dd75032e4105332282c142f31af0529bcc2657700ff51625408a37148a21f2e62622f1e74125e562ff50246120a73805051173ea0dcf8305732d65708aa2279321de0f04d150b06819d73087a115cd81d1e109c64223f526caa242d82c2372289314038229b3258ac215891c3f804d6f1d48f2afe60f0970e3290614726fab2da5614de4),
  (48206, 64, 393926805, 0x3016b076322c0110bb92038d402def26cd11d6c90e9162058a1e1c90b9690906e0c2b5310631bc450c1751be971b1ac05a190d7ad2d7aa10d8e2da8d010462192c1d0c5105441f1c50ac901a037098a911cb127dd508bcf1a74d1a3f40064b08f43264612db432cacd1d28e2592d2b9b01c88123a780f74524b470e8ec3070a1314d29f2f0fcaf1c3152d1d80b50f1caac09c2a24219248a4024061c2ae2a474),
  (48270, 64, 394460271, 0xe77618dc42696d09d920ce63020e91d6e3284360ff14010cf241f40acab1b62523ad7045d026c8b0a4d42b1671cdd42ad751e20c0ff21244c823d8822b49286450aa112083513a35309c90e02a2ec2802ac2294d21a3e9045291bacd1f43504e1128c221b98d05934234ad2c8c410b72232eb1fee713b4913a292dc8a1c2e625c2f21e59044a22d9a702d05186561b90e143552fd6f2114b0c0ad1c3d022233),
  (48334, 64, 394978594, 0x1c7862b2080cc512d4c1082212a5b02134429e43004152d14a1fe01035a11878b2a54804f86025a631522157d511e891f82d1dff801dc7071e61aa2a0ca032d30e28eb62d061072d521c110d2240370c2a7520bd5131fd917b4117da21a0701d1632076226ccb12cf5194950ccc70eaea20f68123851330b1aaa8059d5258c5213640a6850aeb50ac42105d5035732a4731f0ac05ee12140a1978c31acf2abcf),
  (48398, 64, 395498450, 0x2f040f5a70ac832acce2200823629205851eb90274751ec742488114db0263a10e0ce25c720f6760dc08164182d9680aeec039c41bc6f2cccc0874d13a71225ee2182503e0c27b643140e0e38704e83179932ca351427102c721ffc61e4960fda3132941c18a14ca9035cb2634d1e9c10e4571db9125143295a807003035c3026f5143170458b262ec03e4f14ba80d96b2876903c0f1dc8d2d8761e84a2bcaf),
  (48462, 64, 396020809, 0x16ff3086572bcb6241c104fca05f7509b46295f204d990d0e210654296b208ce51408810f4824c720fc0b1e0f41f20f04d78093b01db470ae420e9612c82c24cd51c9192692403f09240541bb6b2d3ab01742238a10d4c10f732232a323ecc0a606250642d4070e6e71ce6a0d8422bac9222e60d84e02772008f01886b105d8247520caa90966d13b920ba4b20e020d00321dc70e4b21508120cce0e72131566),
  (48526, 28, 396546417, 0xe2a4274f70a572013f62baad1c4af19057258982e18a0b18d03507073872a3130ddaf18d6e17aa70362c0ecd0011b829af31d34d175d30e50d0d2a12116b1697504df7202e3),
  (48555, 64, 396780493, 0x29daa3064b1d1300d6e50807328fb600d352440b2f467118a40161531af41de111d02b13b95222851da22042b50b50d2f998082af2604a0dd570c3952c04314aad2b26d1306c1428307ca41d9652524a1888920c2a0ebc5299c3205681f20521d23287792f2e831b11217360ab27066300a5ee01ced087ae0eb181a7cb240651d6cc0f6b323f0a08eea27e942377514d4113e62123082d91119a0c2daa605d73),
  (48619, 24, 397305017, 0x24db62504926154004a208cb12e790208060ddb902746220a72d36a2334b0152a0c1d20c2a831ea21a957235c905e861f4941e00620099321ab1eb52),
  (48644, 64, 397500543, 0x22fcf253d81b8072286801e7531cd5037d903bc82bf622a5f6029d11b0741c4271b1e60ffa42ea28285852690f29ca310e2c0d3e6166632add600da4013b20b3ad243b927d580a7c70440806b680bcb40e975251d70d08b1f1881ba6c10d0622e022bd4a30039115982b9872c09226ac805ce817c460a2c1139071ba0920f7529d890e1302a0d609a0e0eb0a109100a9880948927df91290b20b75196962dff4),
  (48708, 64, 398033653, 0x245b921a88092231c4e41eccf0e80f06d6d23831291ae0c3190776d30e312a75406348262060b9e329488260e231c142a497265302eda626d160cc8b2eaf3067d703a9723e2c0c37024b98241c22a48324153196d51b0220e1ef0ebf2219120d1701df180ecab2e1a1024d60d1351ef5022cc305dd330e740a82e0f5791a2ac207b11382c013a70c8e11436322a541f212034271eae80de6c0c24529aac2596c),
  (48772, 64, 398557529, 0x1c8f52c1f2235670b10e0ca4f237b624d4618db02138b0dc90012d419d8f0ca210aeaf2436c0d94a152531f350237150c6240cb0924288317580d1b10106c28a470a5232b93800f0b268cf0eb31317861bb28023e42956c0f7e71eece2528b238a40a36d0f2490a88f210ed1a15720af10d79613463027d10e0e913be7005930332a20295214480ff7828ee70126d23d772768803f2c1e3771deb92598524676),
  (48836, 64, 399093318, 0xf5691d7301eaaf2a2f03092d00c8f12111140b413ce609af51751604f622478313b70004051cd8c0dc12227121b8170b94712ec70a2ae1f450019231ff721d20d07dd0180990ff620d06107f9010e5826e422195630da31398f26e4609da607e8100db412268131ad08da11abc10ecf4143680fef9301610ed02231181f32f09eed15e181998507094160cb146420ae0221b39232e22cd070c9a5137670a0e9),
  (48900, 64, 399606959, 0x86240d3cb24b930c80a1e9b4217d931e15090c4107d72946e2a439098ee2c25121d01127cf1a10b12c370d4f912f21040ca1797325b61132d72374e2784a01cc614327241a40b3690360223dee29f3203f031930e2230f1d2ac20c4a2f7c229c161466e30e850a1f30eac218b501bae3076181868518e382ad2b27de7252242538b0969612c91242f30407008ead2d32c05e891a40e27509261151f9341538f),
  (48964, 64, 400132168, 0x320a6207872198a18550263143080d03f0d13bc8250701b8ed2c0e72454529f531dcd207d68255d61e559114a62de75105641c149152d61f9760f6ad014f917c35026b10eecf05e1924a6205d792768d0fccc0448c260d20af0f2aca70d86a0d833224b5194362cc100bb810d9e5184b024402164242e4c61320f10f7518385017ce07d692dbc50ea412cb4c0a64f285d10a77506b95085e41cd59222eb0f0aa),
  (49028, 64, 400659812, 0x2ffb525d192a6e70900810d2630b43239980da350a5662f4350ca680a6f0281180a1820a1d923d5717c232ca4e071d718e2c252a10e56f0c9ec0eaeb014d2226e90a7e73180c0c26b24f6d27d061f65420f982d8500d75724bc90e86e09a2d27c720a72c0884631e54030561298220db2229080e7502444f2355606e470fc1730fb319b8c0e26d19f2f0c8810d0ad076cb11a162af92087c91f31429ee301093),
  (49092, 64, 401181872, 0x2ee13275cd0ed191f4c8207380b1871073509ea10d5e7216222378625bcb1f646007ed2748620cea250231d7aa243500abef025cb0c9ce0b34f2da1217f2f2c3900a12a2c30628d162d3e3306f9033d82a6590931610df00c1a32a7702db9529f6b200d424b3908b0c0ad372b3b62ffd9240042d9062bcc117ce92c29925bc62484d0810b0c1d9239e81b0891fea31cd1502d8d10d75195132a5370a44c20239),
  (49156, 32, 401715836, 0x44a1244651112c1d24c026c70fdc220e0a1fa910469524a6e2629305fa513db70db02250551155007fce1ebe90c86f0e42710eb80bb560460226db428d6610fd01d85725108286e824a2300f6916470),
  (49189, 64, 401965436, 0x107a20441820d0922d721db8627c54044c91bf7006e0209147226f90b9f208af00903430d941cf840db2d1207120073032210bb781e88429d0d0c34b1de73134690ad491bdb60a01730ec1012af05e370158f0efcc0fed22236e0c96a0b6ae2226a1c5022a61605da3246d82b2af220380fd440e8872f4d62764c2c18213cb4264ec24401231ae2e06d1c0110b2311b40630f891e3ca1f36e0aef91e57306df5),
  (49253, 64, 402498157, 0x2e0d827419014412c11600551243c32187010ab92efd51cb71166e12ade20f36a0286916ba2218a40c93302ff71e39608f8713b6210fa227c49316f22b9a91d6a51ddf406d51207890d3aa2c86324a99216781d92e2348c16091244222cce429ec522ba1309a5098d5216c7224ac2f40e311ea2c2850b4ac193b50c8c81c0e12f8480ae860ebe202e012363802e8a11e6e2c4310603502b07024590ff3721688),
  (49317, 3, 403021930, 0x16dab29489261f0),
  (49321, 64, 403051075, 0x29d630e00204a840e8ed306af0c21714ea403e68211a3143290b2752c2e22d69022a0404cb60d2c629e95104110e6640d23905c6e0fc362f636094672afea26969227581efb106ff21fe832e13114a491aad12d8040dd8c0089513817247700e22c0d18c0d47724ca60e4a622f0125e5129ceb26cd02e76c0d7c81c12316cd4138cf2604f2a805306741736517d722ba481e8792726828414219f724a8831497),
  (49385, 64, 403579876, 0x20938314a912dd31cfc50ffd52438725a621204723e442c56d086f50fed12760e31ef72c02b0edf002b170a32505d6712e46011111bbae2c09406c59271281936c0746b1e90d19f3628eae266a7185d81b6911bb182e8e71ec122da7129d8f260a716db5225490356617bf81aceb29cb622d1424d2d02602285d7076a61ed410768e2618910ef40d9ac228aa0a842231b5131d92049804547096522ec8526c90),
  (49449, 64, 404106739, 0x1a79228702107ed245f80a40a0c9e2286ae0af1624a94210c32fc831d1d1249832ca830d93424ad50df58265eb0d6900d8d71bb4127c78297e418eb22966919b0b1b36c226b8046672456e07d8c07f0f1e32b22656091f3252710a7ab2e08a0b424140ce18a7230a79246951d9080c05024cea20da431829080970d37523caa28ca61830202b6e0da992d1631866f10e631b1750ab0d0a303048a700d4b1d618),
  (49513, 64, 404633263, 0x28b342d25614aa622d8720d571a0f60d2b11bdc404d742868325a6704fb425e30151cd2db4424cb00f8922fd6923eeb1c07903c742d0880fc850e322215a1113c72682d2f606189d131e6d2a5e618c8f1e5010ac522a4f1247410cab42c9a72f40805dec22cb90bac2005b00beaa1bab309de124b64236aa10e440a442295872642a0ca6e1fd8e13b862256c096552941409fac253b329d2f0ad8921ec60b84d),
  (49577, 64, 405157892, 0x24b4609c541bfa22c1610e02d0c2371b17923435214380b9f70c3d40f405007ee18c910452400988177a31b04724de9221a61e68b01d2c05c0a23fae072d01a8531f3ab0ca552e099083a311d58140260602c2d04808d6700ff613af72469029c391f2e92d9670e8b323fd92d48f0f7c3178ef182e72de4829a10305781ec561b38f016041dfc2119b6112e8225592f47207c961c9931f6050f5010e8c623058),
  (49641, 64, 405676822, 0x28f4a156922624e09d4110d190e4680b3c502d0617da10ce9410fd41fc6e241100a0c921ed60b1252efb1251752c8330e2ee2b60718c541aaab13ac2185210e91730f682396a29dce25297025372d2b51bf390d16a305342e46229c0709d9724de5204ac260432c3f92724d181c528819221ab0ac931d7f122dc30fe182e44909644045cf2a7441542f2646e224f717206014740c20109e68274433208b1ee64),
  (49705, 64, 406210326, 0x2c1f408447226f51f7f80a42a0e3502122c104b01427217739062942ff8f0516d1b9d8043b80e8d62882f048900eced165122233124cd20e41909d8d05f6d2158e2194214a4a081312da4d1fb0620b590fff123665127692adb423b6809be90a4eb097f20cc4a0cc960d84f0276d0ed7631313180632ec090edb71ff0a30f951334f23482193ca30d670444123e741d5f007ec52c8c724bcc072510cb1820c54),
  (49769, 64, 406726333, 0x245c912c730f5d40ecca30a02186c82141017bb41e4ae0490826126175921ce791f4e32d404011ae005d2059432a352285262c7071d00a2b515305b924718215c519691249eb01df00e65129c6421f530842d24da1216eb0e37102f8c22b69297e11316b2692a0c98824786265c2086281a8a50257820cf715b7931ec62bd502e7e914770130ee238af0dc0f213102946b0f64624b57260c81304613a0e21e89),
  (49833, 64, 407249180, 0x2ccf2cea6240b305f14235920b0a60568e0de9406fc6105e6115a50cae52d82230f591fcad153821cc8d22dc81085708202071ed09cea20ef423f8e010b61dfe12cbe40a92a011a70e8212964731d8f03d6e0b9d02d3100d78925ca304f1003c322e9ee2bcb500d26132e203e132ac55303cc096ab0e7830a90331121224241cb1423d061a0662222e2743317527068cf22c4409b54204780cdd70cbcd0edc9),
  (49897, 64, 407784420, 0xd6021113606af5047c4247a5315a6222e431d6631a5622f0b08287259f408d591305627cea276c72a0ad0b4292dce41b1e1235a312a9207f180a64d07f99033b70114b09376156ce05e642ea990076306e50019372880f08666253560709818474277100a4360f470225c402433168892d8f7143142237620e1731d330b9d52513430d011ccee044722d0020864b316ec1984622b821d6cf258d50e76a18343),
  (49961, 64, 408299525, 0x251b12260307d3807404299ef200232d3a72e0e52630f0dd50120a52af8707ca1261b122d891428c2d4a6284eb2ed1910547262032af6916def06848096022dbb022ea80ad0b052561f5272c20c12096296112360520f722cc4e0e133026632406605524253351e8a910d33284900a181091121472f3224d069d31fe451ce131440928e1018a150b43409deb23e54276e60e29125897084392da662c86f17cca),
  (50025, 64, 408822494, 0x1f2872bd4915a300112110499112c111aaf18fe412d190199802927077ed1f1250b00927bd823e292415413bed2aa110a98b045f0135cc295020ff080eca821809261160396b2a2162890a207ce08caa253b2315e32ff8802472095570ed121436c121cd2956d30f4d31462265220370f2344a236ed2ca041cce10961129de60f5c7037d6228ef036841a1e131e6a00d3631ff8153f6045421b9191aa5923d70),
  (50089, 64, 409347181, 0x2c10d2600c1ff551176e19a0d0fc011f3d722ccc10f072213400f0c2a0870bbe5167140067527e2c034972204604713241f21f6b727d8e05e812146a22e472596b05b8e1d9d82c576055110ac2321b10243d80b9702123016a52088b20a04e18ab014d51119330b4661ade50e8840e0e205e740866a0216609c790e0b2166c80b3ae2d76e1c3190a16b1a7c328c4f1ef681f688250cc0ade22c8150a5560bb26),
  (50153, 64, 409872051, 0xf7b0211850362f0ef8a29a31252cd0ef581f124131872c2d725086022542ed02068f51f1f62110a025b024d1404c6f270391d02a03f330a24a16ab5257ac08df0288250e5c315dc515a8208d962d43426cb12382e26fd128e6317dcd02c990c8ab06da90b51505e2102bcb316820262f0d41116f112e6ca2b842246b429eb30baac1ca432a5af0db8723725014e226639251f823c160cb3631e870a3380d94b),
  (50217, 18, 410395655, 0x251641db652d98c066550a5891dfc71d84a1032c08321091cf13b351c34a096f72c4141ce4d053f722e591ed8f),
  (50236, 64, 410542869, 0xc2c41f729046841394c0b14d048851c2972b3ea29e8224dd52eeca04739187092a43222064238c12244e144a30e6cd2ee8c255310b7d027ab922133010941033507a88265471b6ca285452f36d121c8075e82536501ed3289821d5d82e1702e2660d0c70f6aa17eb42fad31d949076ae1e8d304cce2518a222f52db33085511cd472d6e30a2130dc97236b70129528ef90aea8098761308923d50260c125044),
  (50300, 64, 411075579, 0x8d862d86809ef0079f70dca6031a518ccb23aa224a472a4b01dde30360529f35037332c9ca1040e2bf92036732e002243192d1ce21d2c26d0d28eef0e1f4029252c36c10fee1804d02d6d15e2a05f0225bb00d3241adee140170f4f216bcf2d32f106130ce752c26d206621b836238662deef1d73303e3921307138c4013a405d150b2940ade520a530993425c262f2570b40f2528c0cdad238a306b940a0a4),
  (50364, 46, 411600443, 0x1fead01225311b6097481b8691aaf72b694301711708817acf1bf6f21e2524411220ce0d97022e490d44e0ef6e036a105d130920e22fd430d8d18b4a097a2131970e835235ad23bd2298470c809224300e75706cab1d432071031a32105e62049d40ee451ac0c2c74b05a52194100ada5279a3),
  (50411, 64, 411978545, 0x976e0d103240952a91802e091e7e81dd6b0e676109690150a223952c1372868a21959311f10cb9207c4f1b70e2a6520e1b8217ac237471a1702210910d0b1420d22c4a0a3900ad3023921206b40eaa822e8c010250cba505ad50b410081d905f51260eb05cb12cb350844c004820ed420d7421e5481b88d0345805aae1052b2cfb9014a628d182772210d292dae11bfc31f265167962588c0448b133850af08),
  (50475, 64, 412509821, 0x9c5128a091912716c7824b38087b018f462078610e620b96a0eea702baa25e36296c51d9d5188190f101273ec1e2292ca8f2df582d13811b0723d250119732252024e60af6b207ab27e5724b522d9d327b22025b50ba100da321b14d0f2b603f810ea2b1fcd01c096130a60d86b0a6ce01e9708e232d4310eaf823b491f0f706e0d069420fd842d5182feb022bf22443200715186141c5750ed59095ce2a448),
  (50539, 3, 413033918, 0x11c511e9320e2d8),
  (50543, 64, 413064162, 0x2d5572d811176842040f1605125f4b0e7b2209d806fa82d8d7316661ba88036eb17b041a324087711cca724db5133950cde7234570133520ad129d2c02de52e7480f57614ac7210c221e3500a4204cf7300d12c88d087572c0710ba3223f262d84f09ea219ba904c99027a12912615d161066e0a12314901310781052e0d6ca0e6210bf461c5af2e48a0f4a7252f42c9d213b29294a8261d70a84f20be70b4b2),
  (50607, 64, 413594635, 0xe8a20505721bd520d162837001d750b8c424a221904309eb41f58f1e96a15f1708c290cc7110586213f630af10d270098260671129d0a317380a892266cb21e0b18e960cff80edf40818c1dc190c18414383142392b1570c9691ee731dab523f4e15a05195850e3c810fa5097430ec0c08e980142b2d034253712913018a16084ae036160e12615f8d25d61244310478521d73217b527ef93150e1e55401789),
  (50671, 46, 414114104, 0xe0052c8e51e1a20b1932b4b02d08b03e6f1b6d003408031890d3a11f0221eb7109b2e0b928242531eb752251113ad12482703c4800407095c131dc3269660b40d2acd62a394247771e796056e72376e14bad13cc61dda4231c631f520e6450d18b23ea428309017f822f02070f529ce8107a5),
  (50718, 64, 414491336, 0x23e13224551eda81cfc22cf1024388267d10a60310567103e405fae1e07902fe92e521170b50c0af0eb63009d30162a0f6e72418e1d28505e981ebb025a591e1061c8072058c24b33014d90b3eb015f90dce803ac80e56e05a47286b522ece13b71034f42c1511a7ae1c3f413d6e0a0f52949608ec10358a1e0091ca0b2ba7402dd2030060e90f1cb721d7660ce0609d050d2e70f3712a6540f3391aeca05af8),
  (50782, 64, 415031496, 0x1238b2cc0724a2e0fe4923fd60c9e106ba918c610b20e02c862e0372c9772445524982242c22792c1b122034320afaf106900b5aa21655209731f3742e0a1068d01eae704e440738404d690fd0b0e0170d4c3224f20da0d30321078ec24cb1314b9132c42c84c31da2106b2236c916c7206f3323b73216b30344c07b85176280f5ad214390276404aa428e882a4f60b23023dd519c8f0e66b0d0860b115026d2),
  (50846, 64, 415553649, 0x1d0cb2d249296762d0a9244b90baa900f4f09a30229d72578d23a5922ef4227b71d4c61544325f980720b1003507b2e184d12712220d130a8af0e3253070c2b86e159ed1994b23dcb12033127412dd6b2b40624a982470718c900ac040230d13aa4125ef013f812150274090824e12dd409de20ca0929c9825a610349300e840dcc7015d21402724b0d1a8a81a6ae2e7b806a2c229962c6a32ded91e45529788),
  (50910, 64, 416074759, 0x146142bd2a0494120e61250d805f4513d972852d1bc870ed6f012ca0d00525324035360452300ff12f4071d278247281a0022262d23c73080b9307e31dbc20250526f470ae37185b00fff920fd02ba712bb580991504d220f4ae0e5b62d34a04e412d2331eb4c2a0e9146b8237e90cc042de4725cb4132121e1cf283860906805d073076b1d1d02762223ce70e6141eb2d03d58068ce10d90261f50ea170296a),
  (50974, 64, 416602459, 0x10d4810b6e0ec8b22799024b60e46f2d8d90ebeb2a1540e36421ae105d4a24aed27e0613a8c0ac1729c2607c112d9780e2e10e8701ea080dfcc0c3e110e812498e030ec2fb391b60c1b38e105d315e69261a80d1611426105e790947909d900fca418d0b2a035240811f9990c2662e5b91e7f4087d323c022f09720ea20ce180df0a0dfae0acd802f2e047b614de62ad7728f740a8f7218eb131e7232b928643),
  (51038, 64, 417120288, 0x10d941c2122a4371e87023f360e35324a932260617e2c027b106cb81420a13bd40f0cf1bb4a29c040f9073018b0cff6317d0277e8201aa1f20304d641f3230692f22dcc006ee0904e27470131c42a7450455208e722261710caa2244c2d79313870101d5147cb0f74b29136104642988305fd70ebc2203390ccab28e922a5e70e650033a927ee705f1905f432c9c21d5f30c15023d3502fb90d1ad02f8b2a670)]

/-- group 10 -/
def seg10 : List (Nat × Nat × Nat × Nat) := [
  (51102, 64, 417644646, 0x1ba621a7361351301081176b505d2c0acef23674045ca0e3372427923ed21c924131f7070b40f84401af406d4a2e60122c880ca59105722a244305b62e0762100d0731426719133e507d220caaf0d5772466f1bbc911ab729e342d2d105def072450aae80e5ab0c9872293214029201221a8a210d161f4920a1b10b3c6186500cdf70fe1616ce20924d02d960d6e7079cc0f1952e0ce2d313087b523856027c7),
  (51166, 64, 418172587, 0x42e90887825287081120f38a259f921dd3044461fd6929c67105e910838093012d823243f324bcb095560f7f3227452d30c30f07034ee0a5980990f0acf229541206870a92d2bd571e281016f21f08c0f7b907f6d03de30552c28733259582ad70084a31e7232ca592d1f42ed0d226f60b9e71e2d50dc2b0bad42f3c325298159952c46b0a6a108af30d935252f90fdcc2866e1db4101099306d804d872da95),
  (51230, 64, 418699769, 0x84ed24923274732488324975076f5058d00d071147050e5f21792a259f326f6d25c0525e422d1ad07263284d10746e2c752138460851825b391be9108ad92228b139172467005a030c86a281940fcc513d382fda90e8d72c9e22a55906a182c3b106b7821fc82db8f29f710c8e618d2c17b4210e03280d017bb32cd8909af01d6b8130e42c2830dab82606d1f4ad30d51106f92632d18cd7186f10c5d425123),
  (51294, 64, 419219182, 0xff682260c2f0af1944122e8f249aa0e899294d90c8332cb971c6020a7c1075310b2a708daf231a40973914204185020d1e21eb0e2f657168860a73311d931c928106740ad0430c9430e8915aae0a50720d26087f22978909bec15fc3027742ddb90aee924aa916ee308c031862d240b4133f5131392ace20de8b1cbc227967240f710f0602ef72a51609df4138621425626d6e08197108503166a1a96c1dee2),
  (51358, 64, 419742256, 0x308cc0e2f6119a31876f130f406fee0c815084f907aa426d0c0533323e321304c20f380b8d3237a608d042ac45160302522a14799178640e18813e640a94226c560ffd2237050cf0c1e2e42275124da62d5ef0fde50a48623e8727d492a7e32ef8f0c9f6042d119ead186d82cb6e21bc11e19704fb62ca070f7a9240d922f830e284199212017304ac908d521e7132f8d00aac1048ae0eda11dd2f27d720d0e4),
  (51422, 35, 420273085, 0xd7903050d217742d9ee1b0a81ff62184cc08541042f029e4621537245742e031250a62304f1d2691fcc622497211f00b36f251551fb272ed8529bb001097261b21b5ad130f81428506171317f21d83828e7417fc325952),
  (51458, 64, 420554555, 0x19ae2094252d2a80eaa918e4528f280cac8113a308a64220d80701306ae51732912f4129ed1249d006d7923ef80d3c62e7a71c8f31d9072603414cd707d4928d05011e81f0d9253302d86a2a0ea05137206320a78f045ef22b1317f941598a0a32910eea2690824db01e5020f7ed0762f0e7a619e7922c012d3c324d982d3310bbf62bcc426dd40c3141f4d2065c61c118262ab04661164541e689249d51f525),
  (51522, 64, 421090539, 0x25b13157871ca4c0a5270d9d80354205f0d20e58212f829c520125102410294712190c20ed3260c203d162e1af1a41402ee10afd122cc51a6d415cb0252a7293d90243922795051182476b143651bcb50a379047c92497013213039c809fab01d2322a240b9922e0d425aea107710a1360b5a300e2b0b04c119022195825097139f6125880d06b0ffaa0c438147500ffd10e0e516ab2221b6078451dd0c236d8),
  (51586, 46, 421609673, 0x828a0ed52078300e9a622db91f0150e0f70c36716e4b087081f1f900451235462c8e404c74217d713b26139530a5d5252e30852f18b6d2a2ed0d28b085d403f222d86706fca31f55251c724dea2ad830776b073972a71907be80a9b50ebc7077e4066262df812164b07bb42098d2056a234ac),
  (51633, 64, 421990110, 0x2acb426e760eab91dce122d96265442d12c26cb0246af075e32530f143ed1938c059b60f42c1530a189751dcd41f569276652c0c2246412db220d5a423d2207bb22f1302476209a671e20a1786a075c225baf236b02c1762d8a51eee11e50e28d78074e92328226d722510e286f62c232095582af9928d93296b9182b50104531eac0ff4809241207220cdc90a92309fcf0c2aa2a4e627a3101cab253c8101a5),
  (51697, 64, 422518981, 0x23b980fecf0a2f11675026c630a7a81bcd80e04410d2814ba612f730253313b390d3b114b4a13a99040390bdb61a4a8044122a7f723d4d161ac2dd52044c31d8d22c9330694d140332b7352c0f424013047180eeb70a4300c9420a0c209470267871832217439113e80b9450f5172dec509a740158d10e510eded233582cdaf08dd51ec07205e425966026e20e7681e367248090923724c6c0a3571b8a42c4e4),
  (51761, 3, 423061721, 0x1ca501a166193b3),
  (51765, 64, 423071140, 0x1388606a072ff510aab8243b01218a26045096f81301023b17219f10b8ed2e024244f80fc682ca89285ae228902146525cca1c86d00c651be391e7d70d26a1ea9624761226540cf6502e041306b08302222350ddce1ad710465623a671f2ab1a9952dbaa09f2420bf016c871e64a13833242101c12627c851aa6f229e22494103ec60d5990a16a10dd304f6f2c8692d8080d4102100c223ed0f5b80a3192b048),
  (51829, 64, 423600537, 0x20aed240962bae51e9ee30e591f44e125c7231b32db4613dc308eac24dd20e7192a0ae008ef2d09606253307c213a360ff382a7ab0cfd20fcf125b270c3562ba840fc54317ec2079921984095450a9ab2f36c16bab077480960b07f2616014017880c90b242d6049511308807d1208274176872a41106c550af642266229c4c034861661218e630eec91e06a0723527d260dae12588b2c2561f9e5240e31b82b),
  (51893, 3, 424128064, 0x30e950e8aa02f6c),
  (51897, 64, 424151834, 0x15d380a5af0e92109c522d0371912813b932654e0157418f490dbd610e6518cca22e850a3050a10a260ec1a8d12ad012c14120f6421f551feea0d2350b997120452262e23bc20498f18426138552f6a3077ac1f6e52cacf2468204e46025ef1f2e703cc32c3ce1ea132744e08f962d3182dab01cf3522c0b04c0125d9017cf013e2301c05237f80c3210da510b4060a7e10db2b223f40c906311251f2421e88a),
  (51961, 64, 424687159, 0x20123192aa011920eee7234a20ba6e295130bb0e2314e047ef0cb7418a6b0e4a4072710ca781efc2061221e4562e1b523450260d022fa80a4040a582056d51d8510cd8c0d50118fce014c213801261731950829a8625bd52503510589276291a3f32af6329dd42d94c313662c1080a895234d518e99095262cecc19b841d24f2e4020054f2adec224f524064143b1218a6244c9107d5186ec0a332240a710fa4),
  (52025, 64, 425210152, 0x184831e7ae2bd30284d80b3ec1ea170dcef190440e1cc2dc3209ac90fa5209eb10d9712cb660b4570ae4520b892c735251440a550044382124c0e8680fec427c74277f716c0e03e4c3144e099661438c24aac0a24303a310f64130e4d179ca1ae4b0a0842079114e692ad78216b027c020acc30c3c80599826f922464d0c36525ad00a4f10276303d09242540e66a0b74e044f0026cd23e0c0ed9721a6d0b014),
  (52089, 64, 425733452, 0x17c47317ad030851cbb42602f152730da0a1d769244a421db40d2ad165b91f135140c8040b514532245e90c47504f15121a90146e09cc50e9352cfc310f8e24c152c1d72a4af0903315f020d7e930605148c513b0e14e512ab48248260de4820fad0ad610e68312ab605cb020e841cd13235f523e4a2d66e05fb5259ee1b4481f138073eb0ca4b224031ebf90c5991ca9724db227e8e12c930d20322f47316a6),
  (52153, 64, 426258372, 0x2ca31026500b24d0aa4609a8415f8a29d821a8cb23425237b321b631446b096e5192f6071e70140b13b4a06df322cb3269671cb892c8cd0d38c1af120ba212c3220d9502680e119681e85623f70118cc179c91d4a203ccd1222d0710d02ac81ed5021c342461309d360d4712260131564202f227d362aa790eb851f50c213302974b2e50d20555281cd0d16c0afa8107330ea1618d9429497261f6296770358d),
  (52217, 9, 426779863, 0x74c11396523f4d20acb0f6b023ee10b1920e04b2f672),
  (52227, 64, 426855275, 0x2cf071333310cec12f820ca0426c73254312884e02f860fd0105fcf1fe252e18528c460efc320a2d31a500787427f2c26e831e4500ceae227ab207d500d6b1f46d2ca58140140dfe31cfe50493813b960a4240c5781012726169216261a90422ecb2c7cd1f7a32483718bb003435092112170c2ed972f1ac15d132850929cc3007121c7120e01000f5028e4e205b41336b1545012d69227b00c30e2adb6070b8),
  (52291, 64, 427390319, 0x21df70107223401097472ceab133081ba13085a50a7722ac6d16a0e28f8d1f024317840fe6d1d1d7006cd1b1ed142622f5673148126a2c21c0531dd92696c012771cd90322a51c44b025d1286751f2d722dc510e0202577250b205254097e615e8b1d4c925065098340f2f41ef101070e243d51bba121cf9282b21bb0518af32f7680809109e2504c4522a1413f55310960da872d16504e10114ce2732605933),
  (52355, 64, 427910917, 0x25fd429e701e826230562c234143ea27aa3201d515bd60b619240c51740b1bca10e17211b76222d4045512366b226101ef88187142773818db50926e08fa122cd40ee422bd292187813097240b12ae3730b810acf501f8407bca1cdf12fc050de52035392c9c521f431dd76096b2296c62c44b1a00518f6531f19307e80878e0ec880de6d0ae301d76c1a9b51d4cc096130aca12fed32941209fa2107d82d34d),
  (52419, 64, 428437432, 0x1d2152e72f005430c88d1d90a136f30b1a702d6b1994a1ff571d8f828cb8258f40e6571e04b107442b5980b153184322178909423297ef1edb723aa109df112e22215992c3a10a599140a116b6703eaa206862f049139c421e930f5450dde5006670c91923f502dc0d3046e2e0700266a2a72130c5809c951b4b70f70e1380b1437904f78127522ceb9247d4225471eb282858a105a10e0ec027ac2e1d228519),
  (52483, 64, 428960543, 0x2ba350aaeb2274623c6c13a2a2362810eab25d2c024b130f57085e708e4423f8821c300d87021f652bcab02c3522f492480c28fb513bb81ebef2ad332352126917289a70aace0e9112c0aa29ef22e0e7087c817a752a80b1f94522e982c3170d9321e990262050d4a71458b31aae2f5990e2ce04d8c25a482d6b91eb09289250e4c318e462621921aeb032a512aa710baa097b30d8f31f9630c32e29d670b42d),
  (52547, 64, 429486662, 0x207470df351314b1238a01e060dbed18595270931b54f1fcc30a5442ca32258070172a0df4408cf4019290de2410bc110f170f6662a55219c95261a11266e320f01ae2518010279590a5ad277d20fe0c21d7506aee00d901b6ea2ffb00ccf80446c2ccd024bef01aeb111ee05ae513ac52db39201c60e8ef0948a0edb10de961488a2f6081203201246222952504a27f520463214c6a2d82429e370ea941cc8b),
  (52611, 5, 430009132, 0x7f6a0d3701b4231e5f025957)]

/-- where it ends -/
def endF : Nat := 52616
/-- where it ends -/
def endR : Nat := 430049345

end Poplar.FillB
