/-
  Numbers used by `Proof/FillCheck.lean`, found by a search program. Nothing is assumed about them.
-/
namespace Poplar.Fill

/-- the start: `(f, n, r, code)` -/
def seg0 : List (Nat × Nat × Nat × Nat) := [
  (0, 24, 0, 0x10c31ab492c79930f32313510f9e42b9e908a260aa2212a302c2681dfb1007ac047af1c9171a2390cb900b2680f3cd13272243162ceb82dce531cf8)]

/-- group 1 -/
def seg1 : List (Nat × Nat × Nat × Nat) := [
  (24, 22, 79715, 0x30bf50e0471e50418c68208f42ff56069a40ec69175d81b468035c1246ae0b2d01b80c18b54247d51a31218f2803e01121f02212f22bf0),
  (47, 64, 142159, 0x452b1853224523114161e4e1201f12110b03ff21fbc701ff520caf2523712d611068e0e943187a120a632cb5230b4d2d70929ff70f021139820e9cc317262a0c40f8a81c405108f0018722acca2c8aa010aa01f8311f97040b1090e31ede115e640b3651ac862e508048f127708193f6215ae02fc5203390566b1aa011af460fa532bec705a5227cd830eb503802136a708c2d0cac41d8512a66d0cd5210bed),
  (111, 64, 359568, 0x11b622f4f909f53028e131b3723da3247e80ae2f22484130f4281871d0a403a490fb771051125a03104c727b331a4cd0525119a8d039251bf8c14be114eb51dcc12f8790ad1207d48128111624d0d554249621930d28cc32e08e2b1d120bf629803085962c6ef0a4360ac6101b44311b506ef110b452e6381f4b914dc206dd81c6500ff3531ba807cea202cc15ce60b613187a9155cb0710a2ebf60165716b4d),
  (175, 64, 593099, 0xb0662786413aea1ac980e0e82614a256d8118f3250a1306c229243172d7253610d28322a192137021e370684c11a86076f403ad826422055ce0a1e40431828005077300ea2b077a618f221b723197eb2273430c6522a652d8533196e242640d98b15c45225212a263286c10b86a052eb216560770d0c1cb1852528aa1227e10686915ecd05b281d18329b2123ae30a5ec2dfb4074c50f4c7265a11825324408),
  (239, 64, 975885, 0x34720a34c15d832d08c2f72c1acf5265d916b09124e3016851d657127e73130812413202a6135710eff502c440d4590432518dea0348511b2121da2224481db792d39431a2d18c842256d1ed170ae351e2951aeab1555003eaf0ffd81647610b170eeed296ef2250c02dcf12d8829f2f2ad411dfb2297c729434250c32c6e125b4d168ce316552508e0aa7820fa208c0610266032b4066d519a650f41823ec7),
  (303, 64, 1500285, 0x2ba7902748125a41de2f03a0e29f08301302c5740a4d510e2b1362b1da5523b742e07732290203e80f6b71dbe23136f1ad4706dc8305e60e6060e9e2057621308827f2f0522b133812a388308d72d64c02276267a30f3d01590e28f791219725b4b319d4258d7226521ac53257070aa0916c95218a90a36606b750b63802505128ec267581429002a8916209171351f58a2cd4e2e84802c330f582294c61284f),
  (367, 64, 2028927, 0x1e76a00e072c21225eaa08fac2a1b90377929b54179590c616037b00e3c10114b0cfe90e915195312ad96074571baf819c050caf4015b81ea0c14f560b4941e4cd1c75621ecf11ccd1c0a11150517fc3276211112e0e84e0ee700f7d32228312d87253750430820d111d0922c60f266b000f38039f52d7961f4f52d6b611cab1d68c264712af261bd680d7e6037ed29fad1d1551cdad1cd74218cd24bd60ec51),
  (431, 64, 2548424, 0x25f0616f4505ccc221492ea0e2c5ea06750264520f4c2006a12d8ea2186e0b924052cc2ca8b0817926e290784c318a11ac680b1a4063411a5d21ac6c0b897223ef0b90119e4829a2a073cf01bcc2caa8166900240b09bd625770065a31098105b260a5ea14f53157ea0d9c225ae528bd907a0912219123282e1833194d02a4d2af8f1a294266650e42929a8b0213803acf095571973215d4c0d4230add9250e9),
  (495, 53, 3073084, 0xf117282a23016c0740b170782f64217c4215f0531dca31646107541e18925aa8292f61cb78234c419481011252c69409d182caf1317090aeea03586079680e2c1073062bc6e0fd9428fd01e9642e8ce20eb60cc76278830a4b319a77116070e90f2476411ff5291f90a9101aa271d2f016d7205ec81056e170331340f16c85308362d393),
  (549, 64, 3506975, 0x95471e6260880f2c96a1d81819d430159319963320a32c7552a3e606e0f1d6141e4eb2408c29ee711a2f0fcb91d5380dfec1eaaf1315618b822fdd9156d01e909293d702ed519dab267ad12dad079d2265290f0aa2640921fef02a1109e6d2602a151371e8a203d120692a036a903a9626282298b1022cd0b72b31b16285062a4c62cd86226b52830f265902d5c425dc1037a72e17805cb822a261338400aa3),
  (613, 64, 4043534, 0x99421aed911bcb1a7a60e823261441e26515d6e031c80d711063320c5b5198b3259c71e8b4220290de302c78d0366e21362160ec14170128161a12d12be81c9ae0eac20e6b431d92131f70f303272d9243020776f19464265482f64c2bc26251b91315327c7609bc61ad322c3412c6c8283c921f790ef070eed5078652e18f1b1cf2e20c0dc5511379190ab0478c1a06203fc32c50a2bbd101be328cc9027d0),
  (677, 3, 4567290, 0x1dbc8274b306277),
  (681, 64, 4589879, 0xb519294cc0abf81820616e2b0742d2ded022a500deb3250020dd9307342071b513b0d021ee0b8c8004e21ecf010f6e17fb91772c0f525036552161902e8c1d94c25fed257762d14920ceb0aed403c4d319e3226c121ff41a4d1144813163402a43286830d20229e281ae780eb7407fcc215ea133e330979156e4278b5076b1297d1155961d80211a3130854168d802f6619e550f47630097210c806f77064eb),
  (745, 64, 5120588, 0x289f72ef251c3830daa831ee4169501e1931d7e419f59129450619105482262b50ff122be56314d32d101261c50ef501c5122e2a30150e0612902ea10b2852c5e3078430ad5506dc61d72d032d9023091ab541b545079b92cca62cdca234631ea2a1a8830a3c91a90a0ece122473283ce31157241f231ac72a10c1664b30f13119d60b57429f6200c5727e8b0ea08232b8029d514795145ea17d0301ba728db3),
  (809, 3, 5647917, 0x222cf264281c235),
  (813, 64, 5669707, 0x130ae3051915f9714bb91e12d29f961a78d0f1322228830a990ab03221681ab0f1a72f011e2058832dd151a9ef30dd9217222e60e1688a0626427b431e9132938e3058d2652f144ec2a605196cb30c2c135f3254f711c4513d6b2602405ded02a07262e41ec422dc89125ed1520d24c520f3e7076690a54b0e3b62b45402ac10a13511e690b80411eae318e5226ab0e594075c8161f324a9511a341d30131e65),
  (877, 64, 6201771, 0x2576c219e41e8c80791329770127ae126d813036155660741216f021d7132a3d800de12644c062032a1cb0b0af2457720ed8267e916f4f2c9832da700d246208780e28c0a0031eb650b2ca0196e0484c14d9805c6f2dacb216a11e80701b16168971db8903b57291711590716f21043972e29813a630f405027b931f28222aa0956203c103008c04d720d031124422ddd30436409af21eb341f326192e21d443),
  (941, 64, 6727830, 0x67c2228e82b40530fee29759302d52cd8c31fd725a1016d510297401b0805dc70b4ad1a80c09c70149e42c675249752e1e90f22309ce211fa40f6880f9040a113287aa0656c07a78202651aff226e522b86828689169d50d4882856912825037832e7750f33826c1713378123a62c2062ee26212460ed4a1afd028f8929bac149222a50e0b1a12fa441eb51025980b0570df38227cc222d00df6929c6f12ca8),
  (1005, 64, 7252614, 0x1e0d632125157b1307f7171521b69928ca4218d9180291c0281bbc3061c70c5b81d06c1f1821a8b802f4d2948d1a79102e292a444160e316e7515eb81ba531450a171340f3b50300f1996d288e70504c0143412731253f80ec370bc660e5d01e9a3129121aa2b02e140e52604bc72cbc90daad0a942129501a5762a30102ab61dd7824b970d86f29aed069ce129d723ff62dcf3229121d067008e42ff4e25032),
  (1069, 64, 7775814, 0x1a0a512b6b292091224829f45288b6133aa269252278906d8d1bb160b4251688407f6727938101a80e47811f7006fa3109e8245912c9761927101e892610703c0725c6e29390263c712d252856e0a2b7122a504b2c30c532e0af0648a0a32116da8160b50a753137861706906fcc1ab6225622206620e16c197d019fc309964166f205467225432a3b70308b16dc70585912ca73236e0438710a3228e0a22855),
  (1133, 64, 8300408, 0x1a76707a6b251f62dd6c26e431194401e97294b9060282eb85246c328e921b68631903227f622bd11a0f5075f61ada11e1300a9291a3b5133a726712245010c42a05eab303f52c70720a8a313141e28611d8e0f4a8310540d6f70473012dc415f72164b303a61321182beb421f360b7b7121090d14f111520440e0398b1619914c47118752e1cb0f0af1daa429e821a49024a6b2efa22fc89321012dba90db75),
  (1197, 64, 8823820, 0x1d7d92245106258153f70296a21d0120be70a58729bf611f381a888110930b5d90876c0b64b205971a7b70e099197aa3191221e090110c033982d56d264e61326807bd01810f122f41f0720b2e7262681cde919337160a230b731c18a0b1d125c822806c154c826af117124017cb0b8f50ad4f229240f670096ed29cd61cdcc1dd44225482dc6a29b6426677263f329c3116c6e319f22da5508b57142771ca72),
  (1261, 64, 9349963, 0x2b9660d98d207a427f362fbcc0556921cb5129871ac1221c480c0320eaf925feb11c4812b39299530ea440a4940f2011de392dbd707be419fca0780407548215061d8562abef242cd09d5717fca31ad312dc303ca2219a51246b168491f4680ae4c2dc2229b8f09e1412a2f29c270a6840314a31dcb31e950e9512623920cf20d45812c050a86d06f120a20e2983331cea19f8b027841ae2e0d4c10e9280e377),
  (1325, 64, 9876731, 0x17a502ba4f0f3e23032220f50218aa1eb0a0ad980f2d22a2500934a252511a76b22047262d329d510ee4906b5106686164f72a34903bc80e94b09c0b1ca2227fe319e4426a63026d61dd2a061cc1deca09a0928d721eb6b225a5226d60bf552ca0c2dd7819b731e3690f66b222e91ea940a16b1bd4a0b422163ac126e11da831a3ed28bf328ba7160d6252d81e47903a261e7ae2fe610b0c40761920ad508a36),
  (1389, 64, 10402742, 0x2a3cc1cff507ab70b2ec0982f30e9622a2f0770e2cc770c4412882e2fde618a0b1337515b70140ab1236207bad163a602bad2e3d52cff510be3322d11e9711ae2220922200030e813192d31ed4514b010ec632fd190a47209b8a0ff6a2c34f1888331fb624ad00ae41290cb136d90abc60b2761d453314110e2e704da328f641c75329c0e115f220fab0baf112f410f49024d761c8b51ade5217441d288073b3),
  (1453, 64, 10920265, 0x2d4810ed181dd4f26076260f80f5591930a020822651602c6e12c6202606025d40dce519cf62934f164e42ad500c7a91d27716b4a0f5681bed008fe70d02f11032259ea0a6c129ff42227715c0b14f0715f541e4971e0212a4151e79025da52002d0650f0efcb09ea91213008eaa242180c9660716828be22678a07727246ad2dc2e0b1ea06d99120811ae1430f310e2272628b0af76303d4086452184f2d227),
  (1517, 64, 11446107, 0x29b47073d115bc32c859267a60b7f30f2e40b6d30a4581856f2d392165f11d0a8257432614d2032a2cff2023a80a3a22ce241812a15ad8113e130c340542321cd82a42216ef10759518b53030841530403c740af681adc31df77266b31138407b941a23227b090f39603d2a2becb13ab21ece7267ef2ee882e1f02d23904486284420b3282df491acd60a5b711b650862e22ab631d632fab30c4d51da8f1a3f1),
  (1581, 64, 11969841, 0x9ac92ad8a15fcd1a5022e0b6213b803437080442b5f824d110ea2e261ae2ed0311309226b0039022616b30d840d68507238067e1314631ab8c296571bce70ad331d9450b869116c728919225660b4521ecd32670c2ce4310a5831a2a1dfd6266c9143a10b66e11d012cd4412fcf1da992e196275ec055590eeea03b090fc3708f2e2124d29936287c6254a2297c42dfc61e9e7268500aa6b31eac316522d40c),
  (1645, 64, 12504827, 0x394c0dff629faa2d1481933412af32add315ecc1333217df20ca082b36d318f131f540b2430f0b4258a61ed1419be831e711250d316b703eae243e227a141200f250f431366067271a00d12c2b31ba90e9e50add211b430e1f125c2924c7902bc6168c10d65325095072ae072790614b0a06a28a6a19ecc0119015a6b0ec881e4082970924ab216c9201cc61a3692e3c210f4a03374112990b24615fc10f968),
  (1709, 18, 13017821, 0xa4262951225bb901d991edca074742c2872d0cf1fe522ce3002cea2a737265931f88512b8c05916256133130b),
  (1728, 64, 13167144, 0xf15306c4e0f0332d8281e7160f48d2bde1185ed149cb2256e0efce0cb790e12e1e0ec3194a1b3f614e660a6731512729a88123f911c221e4380aeef27793221a41e6f8305e70e609261a5131ed187b423dc120e0406e140f77707771037b7223cb121920282303e9506ab415c1129274170321a7561ab39212760387002336180211548c0a78d1dc4331e741fcd903281267842a1842adb21d5480cacb306b0),
  (1792, 64, 13697856, 0x1a4332ca1407041301f02c6ee195cd17117267d61f61725d490e4a11a9ec022660a9030326e072692a2690b1491d5372e1a11dce628d2f117e7270d7100641f6c60eda1017172dfb6145ac2499229bc21a750264552e66b2c92c12f8d2d8e91e9372187108aca263e112a882078d009772a554025c522a490572b0634e305071c9a1064e512b9631c2105e4a180d1133d7319611669314d2b064012d972076d7),
  (1856, 46, 14222624, 0x1acc10c54715d9831f492d30e09f2d2d0701adcf217d70fb1305b120489518e131eb952273903cf30c22220ce81d7e914ab716ff00a40c0f2e90356c26d2c248ca07866242771df1411d6b2edac249832ca76180f6316430f0e6132591948e31e831feaf0f6392932413298212430342419818),
  (1903, 64, 14598477, 0x2c6cf299031268a220d426cf703867225382dec4265671637911f070f62713a07073392294e0fe671906612e61077c117d1312d502a0a4028080e13219f87122d9157381316e223ad105871d479039e516b4415613195c30726729ee4208571aa772bfd01a88406aa401c041e41217022027f5167aa31331031c32322e2daed1d0781c208045eb2ce98111c716362168b12602d1bf9821c9922076262ed30f02),
  (1967, 64, 15134222, 0x1e6290384303ace0d3f7210f5152d81672306dc910eeb1a9621c8d12cc6b0f47523f2911650038d41ea6e11c111538a11e90227a7077f40302706ecf20a641c9942acb71a32e065ab1640e0c3640ecc42a19205a09128f70ea0316dec28f160d12c1e8a5005441a9300afd407a9631ece21b701ac7712c2631b170b6f82458d0f9e528d821123803769095d421c6500cb92b555225902f1622d9621dce50dd6a),
  (2031, 3, 15664007, 0x2f8e9225010e2c4),
  (2035, 64, 15684822, 0xfe8a0627415d67099450e6c605ae7042e22d06c070361e32f2a399309970d876004901adf909a0216214322790dba706667132951ca0331bb409f92160ef14ba9305a330987228f106c352d37411d8d2c84d308a20a4a31dc240b8cf03b5625c642f64701a61290550e77409bd9241011e647033d924e080782f283970eda4297a730dc83219318de9222b309db502f4c316350df5104ccb0b0b52a2432bbd2),
  (2099, 64, 16219206, 0xc12f19f8412d0a01d51152c70d966262c123be3266a11523516f38115c21635212b460edd801e0e2f7942c34e11f29166121d95118b452cb1919ec912fa41b90c169531d2b40ec4c1102f2a94c0d9921282a0d9c3308b72d62c1bcd9314e8030e51cde22282e1a2062a0752bc192c993033ec089621958c255e812bee1d4692bdcf083070ab0415ea9081f815ac919e520df6e2fa591dbcd304251d72202a65),
  (2163, 46, 16743456, 0x29f8d2de980ab7006136067d21e0100f518046aa10a862d1c121ea20d2c22404e056051a6f325dcf1d963169a807e081ea2d1688d0b8d6167a41e6032204c298d50efed1e8c30b0292652230c2b1b6872614325ae116f4609a0c23e9302b6713216275ef23aaf2d1c42414b0a6250363111b68),
  (2210, 64, 17113916, 0x36452ca6b0ab91061450e1471e7a40f682070261294f12e8802415032ed09da22c024027121ade92c4b930c5224ed8310cd0ea1117e662fd770bf84182012982623362204552233616cc82775730c421c85909014315e22a1620f88d2d04e24930291ec248101408e162b616f2e11f6e25dd62b64a2f40e01ec11daa916c10095650d6d80aae92b9c9024830a4890486f31647161d01a0230f1d7060b306a45),
  (2274, 64, 17654803, 0x5795288ed03250170ad1cead1c4c21eb62032c9019712c4c224e73126a409977156ad257d80e34c2c674069ea210822e08404f700de580439003686154f90e1111ded0284b50e2a20a53603c1726e551ced529cf00e44206af81944f227f826026226d8262b42d0e406e2b125131e2012433201d1502d440f1210480d3081625e381d283131b40f0111eb4e011e5159f809dd82266d1eb01317330ace3149e2),
  (2338, 64, 18182838, 0x184f92105728cee05cf9167161126d1f453243c125cb11f1cf02aef286901202d19aa409c8628950028792948a0ea471e5e827eca229961f28d2724e0a12518a900d55919ea82e3ec1d96f22fd920a5212b1429cd9308550ec341f421169e31cdc52746722551154e4216062989112fa31eb480694c0e6582a4a62b8141f99222a67224032d5a421fb104c8726023079d32606f1286e018b0191c32a2b21c327),
  (2402, 64, 18699813, 0x16e72201d1210eb2175517133057d3223e52a3ab2a2cf25be506d8a0a5cc169b20d72e26552130d40b345175ce06e442031907a35027a9164a9272230827931d72297ef1641800ec708ab92468e06ff12210f10b36295342bf4c1aa160e9d51a3b616da91325210c88242f62370e2475922192297462d9d82e16f302921ad53166f50a8130e5570def00708d0d3062bbb10acb8118d31db8e06a3601903285d6),
  (2466, 64, 19218946, 0x4a3907a68309aa21e1725c750eecd306ea032b52640220144038390e9cf0db6d094560ea0b0320a2374428146033a6227142ac4622a450750b267150e923319c312ad82163628a81016b80930b1e28923ac326581270e90372e154f525081259e3128c12cbf1253411e0d9053cc112730740212e873083428ca3147ed14feb06ae814c0b0406e2e18a24cef037150ff151e9d609ccf21aac07b38074d60250b),
  (2530, 64, 19749279, 0x310f22578f1de231c62a0efd51b2d90b16f22d1413d4f2d0e10681031c89077292e2830689214f2c27d4c0a76703233267383080f0a611229f902aa61dd6806ae603bd8007f8172b10732703b210a5ef31b440e9992a2b9294140d20f2f1041a62a10f820b4c71be310aa580ecd91d20b15965315ae29f4227376306cc31dee1ec381500821d82293f62896c2612a2cf6f134a32d88e263ea0ae151d7750afea),
  (2594, 64, 20269149, 0x11a63203c8164ed23dd00b70b1dfa52aef030db91ed761e5f21a879138b91d02227f0f1602a133282986e0eba816ded255e42678312cce29db329cd325b2b245f21f85006a98226320dd552dc6925ac531ad8059ec2a08208e020b6180f5d802ce52dc21158d309e1702e5729c241d5711264b0794c31e92294a61ea6412c5612d680c32d14337071ca31a64087462b6290b5e6124c32d6c331ec42c7c831fe4),
  (2658, 64, 20794793, 0x15e7425750075570b6742654c227c118b0a194b9134382f965109af253b42da501230816c6f2f88a21f26114e529b8c237232dfd003bcf19cef2226314e9816b8e253552239916db7094462669009ed40707203c882e2780b4cc03a0c11c8b053a12978e26451084d7157d00a6ae2e9901f96c2ddb312542258b712ead0f04e058480a9e9071e5134671a0932b22b063182981908b8e197ad1360b1d5c312e42),
  (2722, 64, 21318227, 0x1957627f781ace32fad519836129d20fab0273d92b5a2151810a06c27863223cf1cb35252b92270a093a81d8f7170680a37724e262162816a9124ba524a1913e6b2e28f163af2e7550c6b525ee614583120d22c1e61bc2d09b8d1e7b1304b513914316532a4ee092672a477009462cf212510219a632cc61169d607ab9250c91f56904b22078a225e8a29fe72e7e53076d044cf165ee2cff3214840e8f507512),
  (2786, 64, 21843123, 0x10be4056ad03d4d1d0150396d0284428cc5218f61ed4202c6d23ea31e0980089219ce9299391e35807bc707cec0fe1727dd30b9041226c224e2261f012d6730954187a328fb028f632d098024510af012bd260187419ec505cc20e8ef247442a2e10b8b31afd924a041d0a30f16f0eeaf1a4c615e6e2c6d31a9a902ee90f2c1024682a00f199f52212924d520f4a219f710ee4613ff3284271e2342184e2f387),
  (2850, 64, 22369630, 0x8ff8221f51945502698072b514ae416ed0076d900b272caea1d18a02e220ac862c77211e391570310f4d2e66631bc71313603d10143af18d1130c330717702a992678d17ea12b5cb08b480f08a0b3061a8d408f6a2600a0fb4206cec074e1262ca1b7250b3ca0f395262622bd6a2a3971c8c12452624e8c07062035aa2269511c062a4092e0aa321052f20925aae028e722a060ba492ba41281990f0f70f636),
  (2914, 35, 22894030, 0x1cf5728e470f456265281070d11a0431f55070ef07bae1d1c6219d510c3031c04283a921f59260692e19907d8e00b0112ef02fc69265090c59515d4a0ed99303af064702a9a210cf82d7ae294ac2280d07943094f03092f),
  (2950, 64, 23179056, 0xe9e825132078812a54428663286f21972e1a3530d64e31fb729cb62e8c41a9e10940a29b440456324f7003ae62988408f090f2e3124952802a30af920d7630b72150b10ec8501f8520e260f4c4215e30d287032821de78257561e4c11f679261241292529a132d1a50b5870a4621d5432dc971e8d5310d52200920c391bc611965820435303d51ac6620ef92a3100b2a11ece40b1810e6940b1572456e0af0c),
  (3014, 64, 23709271, 0x6b2f1f9491d75218a1529c07111c828af50ecc131e75083a60666c168ae121331e2481f54d10ad91d9b3120542e0b901304076f217ac111359074733061228eb30d1e228d9330f8a2d7901d08403a32133d026e06167f20a4f106e8d0de9309c4a29e110282d02ed40848c2de02226c317076156cf0f4c9234812db240f50503d07127d829c89070f1267112d8080a2ce170e123635179621416b0cac129841),
  (3078, 46, 24234015, 0xef090b037099900a5a61e719059d60df172b36c2640827b23193ac0f2131a676196b403a8b205b3245b610ba818cc7075852cf03049a12993303c642b3332df580b72e2dbb71e5d40ef300bf6e23dca0b4f9208580e3830726817d2727eec2d881133cd1da6a06ab71e90716c54011930b184),
  (3125, 64, 24609654, 0xf6b10b3031a12605ef40659931f4320c2a1e9ec1308e1a4e80e1f225c280e26c25ca30310f1e8822226819c0d2a23003ff0086961a4e40d7f729d311eaa302c8617aab2df4b2a32916c93311d60620b17eb72936e038e8048f7153a60e12a247c30e00a213ab254d722bea2600409bf21984c1a5d8262c409f690060426bf102b49064e2028cc1565701a322ce8c1d7ee299b2127e116ff1039532d9712268b),
  (3189, 64, 25141376, 0x30f1106ed416949227ac14da40df491e74a22a6c07491219c42d66d2da442174b0728309eac2fd0f206681624e0ceea0116d0ebf92fdf42642c0c811246770b08f1304c27b042446c17a230e3881ab972d81918c642d6b02a1ea09a64296112f1b50640e2dbcb2c4312a0d7170661f0362410815795098aa072f82295516b301c3ac224170e8b90adf3305171ebb91d66c123f40eea40f3e4320643218811c25),
  (3253, 3, 25667781, 0x15a6c07da3102f6),
  (3257, 64, 25693288, 0x24b772a065092cf31f461b926294d82d1d7228f22cee42501222d580da2f0a4ef1eb920790409a38060d02eb8a03e8530dc3259f01441016c110756c0c86c311540ec1731342190b5197e729c83101cc1a18c2d74d09df123af72a1d60f6680450e185e42e3d02cc570d5582dc432ffc628669309b2074640f17416ea81aea1106ea29597267c91cc6a133581c7b2212260d4b706a6f25c7428f69075632dc0e),
  (3321, 64, 26226388, 0xae982252306e9915070297a4101d22069702c581a4d710a1231632228352b23628b6b030b8194831620a2f24d1936f1996b0b3e71cad929d0e02eb12c6e5305ec0e1ee061aa2c20206dd6048c42ce040160d187b300e441a7212560202a6a1aa2d0de8e258d923e14036922dad40c7f3167ad253d8221470783116c8316401128f22eccf16f43080ec023721a48713a56067c40f3e92ce25170ac12a872f5b2),
  (3385, 64, 26764761, 0x15d0b1c3a60f08f031a51e12128d56227d605ca11c0941ab4e03ce3115c8124b9169ec0e3c41ea710ace4037b619a2201d631a41431bd30b40505d76066d71ffe519d231b4050332e2dd2231d212b4cf09a051e4cb1b3a9076331de34275aa25c4e31bb5218b912d0521d481d1742a7c30659606c3225634163110334129670024a428301251e421b4716a2712b4b2e17629052127641338a238d804bd01e031),
  (3449, 64, 27273984, 0x22528227a20e5610b5b9263d30a9c3073290e0af168b80b2091e2522b39116217261941bf991d553119242a0210a7c10129017248298e923757066ee0972931f342a51506f2125ea5301232e1e7216b101e11223e931962266f20c2230d269159171026f19ed60efb831ee21a10d2d2af2256b2f7071c5f10d6d730dc70d7451e4ce20bd52d5ef314eb21f1632182266c81e24f322a207798263a71ad1210ad2),
  (3513, 64, 27796258, 0x1650e1adca0aac7036f111c2831c3024a4b16355029f2038c416646166152f7aa22431151552e2960fa6221ce102e9222ce31590911f182eef42ec472b9ca0c48504868219411f4480e07915a5505e2f21de9137d915a51226d7264c61324815d111ceb9122d42fda40a5581b81920d18133190d2d12004a0508d28f8525c622804c1ab0526ad125f22133870b8d5166430eb9325ee8298d2151440f3d227d25),
  (3577, 52, 28321496, 0x2e18129f8a1cd15303cd18f462949921c9512967210af2050531def0f1a629ba20a04112b192880911dc112e100f1e1177210622f070d4151ed126461a605214e62a10a0efea1a8c52dd2e0a952022e51f3c4031921e48a2d5d130c5123e8c0ae2c0f0ac0d8b82415412a0f2536303cd90b3ec077d72a4591dad1262191d3a62ded2),
  (3630, 64, 28745793, 0x2a284289b2199ee18998061422a5222188a2609201e9904ab107ec82cd912523103994220270ac511dc970ee2922bcf0b490078b4310ca213680778b31a6f315110da5617e2826a43082cd31ecf05ac90a6e517a893162305c33225850547731e6325d8512dca1a655061f925ef7222c92ae8a06a39199180b40215ec52c6ce112f830b0325cb028b87039c22ab140e44531e0116204161d3037810b073262b7),
  (3694, 24, 29286921, 0x29ab51770f0ae2119d0a2a0ec0aba60b2561e12b078f02a92c0e2c71d6e8226660a17819ea10b1751a9f512f213032c166022b0c91dcf63173829dc1),
  (3719, 64, 29476417, 0x94a413b422e4ac1c35418b4f2ca6a1e8c60a14f30bea1a7a20b5251718519ce212d2b12c511ba641206108ded0b0780e2072626b104481db7409b342a073298e30292302e6b1e8a8227132732b10e6d22a0f081371e5081a59916ee22a3f126d5913355033102c34518cb60a1b419306303521ba770cf7707faf16f2f0f650007e9067b811ab3222a416ab203c161aaf014d78315761cdef0f5e509c992bfb0),
  (3783, 64, 30012091, 0x19b711836c05504070b0165181e5120366c296211a0e71c4cb190542028124a83188590b30819dd41e1b70a5971b72f2bbb21a8982e21127eb706a29199083058315ce1188ce2f9631a533260d81daae197a61d7a31690c06ae919a66071941198a0e1952e18d17f551e9d913065020b11d93230feb123b02e2a106f9819fcc12bf3259ca07eaa1f7c60cc2d2a7812e9af300a929cc629133169b526555070c4),
  (3847, 64, 30534215, 0x2ee3727dc40b22612110169060e61714d741e5381e2221326e2dd991e7f820e8730c582122d055790a19224cf421fea10cd70b8eb2e8d30aa4b03c98240343098516e7311d5903bb5267cf267860b7d32254a215ec06b021f31209c632266e20fd80ac301aa31220411d4b50b471263ed2b64c29ce11a7a81911303bce0a5260afef2c82d0aecf12aac17c140ada327fe52f3411a48b306051170e2182126693),
  (3911, 64, 31062618, 0x15f520af9916dea0a50c112972ee241cf4330da8315af0393923376255f50ec682d1a42136f125d3306f220ac21ea302a0552cba731890121e90f64b0db821e110166081ab42306eb066890b7f82a4671fce410d2619682054480ea0e2618e1306206205226900a7150b5e511b260d66512f4825a0c2da722d24c2d7842dacd0ad132dbed2dfc41dd9128d1112ac9314c82dac5266ec035cd0c1ef1a470078cd),
  (3975, 64, 31582565, 0x19845189e22059230c22239ae0d52429d99315c2153d8294f225b9913d6102da5037052d4a6129d111cd128d740248d222e7265731c36d12b6c03a4a0e7c616d101a7470254714a87248e728a4a2fc4112ad311e6b22b6c2e750133121dc6d31c862de782980607a2525886252d224e0130a8c2d1a1035240b52205fb212d2620ce3250d40a69510feb21aa5290c7222711a87219489074500e1d10ab2524c59),
  (4039, 64, 32107375, 0x133b719fc901f9300fc705be72d566273660f13328a052e1941c247135440f46d257922d4951cdc92cb63067630cb5914b572d3a204a2912f6d154a821e071e7610aeca123d910ff12e3431ced8038291e2f11baa1317131e5f516de40a6d129fe42095712f472cb941a797008b81ab270e3ab171222c3d229db007962164ca319880500b0abf72a16806eeb310ad0430b2c4250eef10a1e50b2230e10e0a0c2),
  (4103, 64, 32628851, 0x1e5c50f61906d25306a321223077b629cb9026c112c061a7f3172b01eaf70ced21da63267b62282b25d290e48119ec2035f41e78e165e10bba1065010b1291dbf20ba571dd922bde6117c71d85026667196190ed812a292025cb198d912d8e120871eb4b264351746c1a8c924b442e3cc0a6440f26a07bc9263c105c0416b8f3180d1d8361aa6222a2912c0b1c32e09ed716f1403c8f12b76036221e0ea31a61),
  (4167, 64, 33153877, 0x7375023ae28af0182030ce3603d170713611bef014260a9341292a04dc4061731100c0359027298156ee132392600d063871acea0889407b922aad21968c2f3880252c2f883193d321b0f245252c94d2d462217b729e521dec400f1324e492f6551a74b25ab52d39120cc80edf7246c9126750792f264540dc2d28d0f03eac13e641bef4168542b0e72496328bf51458c1f5cc136eb1e477293411d5c429926),
  (4231, 64, 33678361, 0x19fb71c9102a4af0da661495521b502db1009449233480b6d82456d28d621607219ecf199422e0ad21c452644e07a0c10a56075021dfd01c3a92640b1b3f0012571df862e16a069610e5422d80d0b552071af261261888d0f60701314243f6287d82c37705b542e34f28473202cd2a38b153c7221ae0e1122cdc21f277194521d90b1e4e21e99820d6715bc90fed700b28108272986b06b34208371744a148ad),
  (4295, 64, 34203732, 0x295f5219d211bf40b6322250331b240ed840413803acc24fd82f0e4019ac0c46816ea9006f9119ac3024c0b0951972131ba32d64505fad25b460cfb81da6f1d408287ac1a381210d530955104591a99316ed116e3619c0607a030171923f090ec8209337164c41e3230f4c31b48d227871d2570d8f30ed4c1cfd5316792bed6198571ac71110432763212307164701d3e2262c331a4e1446f28ef63178e1c88b),
  (4359, 64, 34727920, 0x100ce21b141bd372a3cf0f14e0f11119bce054141a02800f041d1991aaa512b352a0c70387606f8629c041348d034990c20231e72257410712630aa51ade70a2561f54e20f971b6e829a102242a30e251d9a8227d80a9b02b25231fc41acb62ca420b734168c200e171dfb61a4f8016820b26f167f5132b431c690dff02a26231305244051d32d03af22e02810c4f0f4551e8b2291551df8c31f520e754090b6),
  (4423, 64, 35257005, 0xefcd168a1023ea02bef0200a2b7cd2612321b76062cb2e0b4013072d8a32a4c123a8f2412b22a961ac6d29eb3193d9129e5316ae08fe81568118e0f23fa706e8a1eb8909a7726681280d30ef06115a2116c92de0112aef0b48a11f090736e1d1c514a5322cc80b217206d42483112f8401fcf265022d6a40ec2c2e28a0eea1109b31280a2984e1e88f0a4372dca8168d9165d111b962280e1260202f71254a4),
  (4487, 64, 35775450, 0xea321b9180b3911664f1994c13194019870ed3422fb42f86a0a1c31cf502098617df41406e2a45715cd62dc8b25db61de682056c1e367307ea1a3f72ceaa067d40aac91212d1a3a709556075c21a1232604f02c6c0f1b71e76b1030919fb411e0513f2b314f70452412bd812cf91e885023d323cb910fa721e8210aaf299f9117e9095a125daf1002b1e40612f022dfb0090b90df85128f125995038ef07b79),
  (4551, 64, 36300410, 0x284952b78212d560f3e331c450fe79278b61e4362f1a51612a21ee81e6f62d7c3262940ee0c15e591e38c20086243122e26f127b30310c2d4ee0eaac25e181aa26062ad2cb021c2f21768a1dbcb15f132418615d692264d0acc32f367311d9295ab0ab712d2b106be60e7900f6621fe6e2520612e681f3a31be6326a8f0ea99179f70d01509ad51ab191a0d6164b4243032cf282ce3606b810ab5018c6309cb2),
  (4615, 15, 36827373, 0x21e102c350299190e32c188702ec4a01b2e19b301d0a919f8d27dee316c518de5228301ebb6),
  (4631, 64, 36947550, 0x9ac210b161200d2c752289302fb3203b4b31ba710cb21de4d22976100d415a650722b2deb3039432738d043ca0691030af00e564077f21a6410d69428c0101f0a1ac8b031cf180ab170f710f4405f87215e612f8325ec924f190e63829998170ab06be81624122a4727be230ae816c660972c19b172d1d61284e1ad840a34d19ee1167302b25802b882722e03b911e0d729b170f4f801fb82f1b61fc0c23399),
  (4695, 24, 37482236, 0x24e450eaee1b6ce0e5372a982046d10098e0d2e60ec14190b22744702f522194e2103728cce16816306ca087921d7c91e3ee1d96916fd02b57007586),
  (4720, 64, 37678476, 0x2d96f16eb7053f505971131f324ccf03466112cf19fc521a8c0dc632266f16b0d2d9e80f26f169ef2a1b8299f304b922b7ab223c52d2a51ea2131bd82e6f6258880bab5157182653222444118b81adb02dd212a2f01af0629d2402b772bed80b7991e4c426f8e31bb202a8c0d1301d54e18ee825b731ab0902d9031f350dc320e9b52df6d1a1f922a982a6e8296a212cf40ee11221722e17920a2330d422d385),
  (4784, 64, 38216789, 0x1aad08d6f13c551decf1ac5830f6a164872610a1a56d120b11c8b1263ca037522014e0afca2619709e3021df725c5530d2b146782dde22d83509fd40b2c90e9af06d93076f331ad90d1ef18ee22812629c69226f401e10282842bc2516dcc266f511e08322882161628a61006c42fa65242673104b0ac4b26561247f3247a813490259c3128a106f4d0f0790e0b51125306f590c6651620d12e6703be615f88),
  (4848, 3, 38736594, 0x539803563104e6),
  (4852, 64, 38761675, 0x2f564122960e25906d1112c362ded1277491d28a31f470dc642f8a1073430b5c612b920e1b4256a905e110a097127631cdc2162312e2991c9e32adc51aff32df3825fe6307f221f782240804ed330dce1becd0d3291e4d10a7471521316b31022100324b229d915f96164362ae220192830c4f1e627077d92628e2a5090084725ea11f2d51acb5051e62fb4825b0d028960b4a7080c60a4b020f62118cc30d33),
  (4916, 64, 39294413, 0x274ee125222589731f230902b016cd0e44825aa70aed5203d2287f2128242d65416332078e7308cb2d4890ee2312e222c4110b80b3140231ec1123af294862da8f283ef2f0612c991311b601594168852e6ea133080785816b42071f6255c4246b6070d32576f1e64c25b0b03a6d1aaa912ff00b6870f02e129490e02d16c55072ec2d3430e86d16f150d870299922290d0f4922ff4d161c9170f50ff8329deb),
  (4980, 3, 39819630, 0x28164291b7033c9),
  (4984, 64, 39842324, 0x1dbb81a3ab30218250e2161240292d21c921f6690384129b75227c324e371559125d8125299312492255312cb31cb0b21464318e70b4e8216081a91518fb1121542652c227a11a57131d3007c4214bc222a61253941e48d1270608c5001deb2a1ca072011da152ddee0aa1207788218a61d3f61e5e32d8eb298b82237925eac2812a165012bc941b66713b16283ea16f261c0cc2655118f750a8811777226431),
  (5048, 64, 40372518, 0xa3ce289782d00630be920f2f2d1b7260950fff2297771dc1916f05262a5221090a86c0ada4275a50ee26170a515b7324ed2279882182e032442a0ad033b60a5481b8091e7841ac2831d6c0cd430f5562d72d0784b2dd881adc919e080db1606b4b078ce0bb561a4b92cd572ffa61c4f8076850b65403401092a30d1121ac1316ab50d15618c59120b223aea2d9f920b901cec10c3300af5829ab220c14128f6),
  (5112, 64, 40897368, 0x3e3417e3111b6a222ec2450606bb916ad70f16c19ef51b3e1073f8039a8283a5111f225a8e1008310f7730629191a3299a92a0450f6161a0d00a77711d250468917c0212faa28ca52e3c70dc0606af6079c431577060382e3562682119441205aa03cc90621527db319d0d1e3aa224c2261d02dec20380624e6c2dda629e63267c21cc770aee10f2d3223af300a4150431c76f2ce0518dce15f6629dce2dc23),
  (5176, 64, 41426907, 0x201700977121f390a11019d6b0f2742bbcc039841690f30c57071932cdd51e874226c80fb222c7461618c2948c2bc831e5e631bb3100e202794221d5282e602eaa166f609a901143711d942c0b51b31429d07265080ac6611e19079b02630f234a50638c1ea2b037ab1be481d8841e8c9205d901e860e6561cb8a035341807819ce51906b0ed7921faf1a022073282f7b81474514c851a2542d2300b3aa294c3),
  (5240, 64, 41956504, 0xeba22ee2711d0330da721b2a0793102551255ee1afc7270f412352088890ec652f7c101dd4278190f4a4215c30ee4804cb929cee2dd431a76626049261042a4f51241712ed00b567062ef304a80b70e259873146a02db606202025ec089d12041520ed90278531ec2225690b281036732cff016d540b1370aeec15421064661f6a52d5cf1a28c314cb31c87119e425179029f31db8816d89274380e09816774),
  (5304, 64, 42468830, 0x1660b29d860a94d31c101e570071840b2e30a86a196850f70b0183828e9305b652d9192e276125a80224228158133b012deb2374a10e642f401143f30e3b12a8f702aca21638295f8080121566803b0a2a3b60f4a9078970c6040260719cf7127b811f2b1d90c266f1064f723b162a5d5236151e22523dd622f76009561314c251120b2e60bf182864324fb11a20827f01289033149024c15068e71eb2512241),
  (5368, 64, 42993146, 0x766c066a504a9431de10eee9036e22492e0a586191a9299a32024f22e7018dc909b11033830f1f32af9329170188840e10a12113092791d27419f190cd3906d320cc191468305da61baa21f7140dc420b0ab31b422a6c23138a23daa313380e363076632dd0e05cd2153f3133ad2bbaa18a9206fd4279271717102d5824a55051af0b42422935029b7071b11a8ca0c0562243317e1606fa2241b203a302e0c6),
  (5432, 64, 43516642, 0x157b0316d102bd11110b2e1a22c5251a1951eaf41302c1d40331c511840e25d281a07312de62a41425c832d0ea1a74d0650e30ae3297162ce2b2266b164cd08c290d7d714a8d31c8c2ccd9310aa065c11a859070591e8d306e0e314f1064e402fa30538a16dcd247a331fcf2138b254b7032a50794a172f83180a211ee07d730a182310c326bd10ef0331f53267f2227042cfa22da61313b003ba50e7c931fe2),
  (5496, 64, 44043711, 0x17ca25f1405e76032922fed20e9342278c0304e1bfc42467122a4c2572c219a4267c82cf292172b0ae4d1122330169275d62064818e020a6851464f21c6c2014a2d81323f79030612814c021c42444c18f5603c8e167471a2e2160e71e0ed068b10edf41a5140a21103929264570e66119f86216610d6ea079741685716d970df2a1e9ea2200216ee1056f81fc2607a2625d4e05f380ef611f0870ee841a763),
  (5560, 64, 44577817, 0x12ab71238525dcb09912294b82a235228d22e1f12edd31e7170aaf41c4d225c4722ff80b8b819f512b50a2bba30a66816d1129f1231c021f80a2e16d03eb30b421158163236713477130090a88f320a727d562e281068942adcd2ee322c1e4150cb3180b202251afb22604830ab229ca61f27810578067f1045a52b053059c10e484267a93076303a032fd2330bca105101e79125c5428f49083b80e8f30fea9),
  (5624, 64, 45090169, 0x11d91056a326f9016d871e243305981d666218f81a9eb10dc5228151e0961dac61508f0c3881e356052372d9082dfa40310d1dbcc0a2780abc70b2751d02c0e1ce1e4e500c491d2ec1a7511470102457298681e07830a671ba13255e2170f4110aa2d1502dbd430e382ce912f3210b6b903a94221270f8030217107049035972a253031e7060c603c75121aa03608317392a1210acb7123d431f790d52709bc2),
  (5688, 64, 45615903, 0x29a34306d21da642cc6723cb20f32f2a1551b6c20eb270d079170291249906df50f1d1042151a3252a4471f1c914a591b9362da4e1e2461abf00704715fcc12d4c2fdf22d30b25369074351d3e129d582da520aca91577130f882a5592dbcd01e4c218992dfd22e9301c9580f2a631b0e2dbc5267ec1bd780283329650160750a704075ed21b271a8b40a5b60d482290322a334197902dd790ae781c5e10b631)]

/-- group 2 -/
def seg2 : List (Nat × Nat × Nat × Nat) := [
  (5752, 64, 46147069, 0x227822f839130062cc54268f70a9a303dc72da060b1e9075d41208629d902617429eb03178f319680db830a7a11d7e8074f90a7e506feb31c660bbd1226852cef624e56075a129fb71dd6b154921a3751e8b513374266d2317a226cce0d249295f2143620ef982bc1829e32096ae25a842e28d03ad3020140d7250184f068840e88605ca71530e1c096025d52dcad27dc32ed5224b1816d2226387250c72f56f),
  (5816, 64, 46662041, 0x1eb86132f91d9930ad300aaee0ac102010d249171d3280b4510ca0f1086b291c9224110862f153b72656a06bad22cc317d142d48612d5123be12e037247c6113e9219211e287243a8050832d92621dc92866525343211a10e1f00e60232273180cf02d271aca42d40f3141224fad15bc219bc114d2d1f52228f6525c420a4591e4090787625f0229d792499325fe80eb7325ec8118a920a4a0f3b2202ee207c6),
  (5880, 64, 47186119, 0x28b671609613d971e43908ee41612d2e04e1e6f9079ef2629704e0e0db8409f62133d330ea80da363192b21c751538b2108f2d2a421f3515196115610202f299e60344811da11adee12db901f461ddf919d6701e2726156048b2214c60d7540efca1b25103d161ebf730171056791bd0401d880e84a16c342da4231a410f08c313a724134074e7034ad11caf04a2f0cb532e17407b93133d60f3971a6991e228),
  (5944, 40, 47713682, 0x220070ac31223e71ccb3205890b470164b71673317b851fe53265542205801a342fd412a348213871dcea2b3120cd301e2b70756a0eff122565299063199425d650348925ff7306831e9d70d5e12f3951b93500f8b0a2461636c2b24a1d7ce0aea316fd1),
  (5985, 64, 48039072, 0x2b3182840d2c35703c5119d64310711636614a1520d3319f8a2d659307eb0724d2fd0a2de9911a931e3f12a66a033f314ac10b58c287cb0d978170460f5c527d821f093310ee0b6f20d4ed29ef521bf12701016b41038d515e0f2d6762d6482a2682264606825062aa14aab181960dab12214101f0d0ac82031cc21704206922f3682c8d029e992b6c4038ee2c92d2186a26072170aa1dc3308fd907bf525211),
  (6049, 24, 48576665, 0x12c3129a4b25a161add40b0582f4d811c2a15775308530588a02caf0d1f0039f915c6307a62226f302fe229b141de91107e31622e12fa521fe80dc47),
  (6074, 64, 48767867, 0xa40d06c0b2a10f29f73137eb109852f4e30e443017422656409f161ab332195131c93196691dd0f2a242260b827c4813e611596402ea52ff022c1941dacc2c84b0e1750b2d72624b0108611cb41304512e1603ce11239031d040738a1f8d812bd3259aa0b7a60068c01d651e4130eecc2e6f920bc20a578230cf26535065b218f192c0a92a48f069d00a9d313e35299851c1321ade23190d0b5052a1872466d),
  (6138, 64, 49302039, 0x1b7c1016e32120d235e824cd403435266730b8cb26810179af30a85254ad2d6660ff3924f6e2e26a267af2676619d2b2252a215cc1fab318cee1db8111ec5126c22d7052610d12c9814f060c36b263cd0f20e23aae0a78c14e3901a4b28f170afcf1aa0d122911a3ad2e008316c92e1282292b04170310e131f322deef16c63235c91a1f20a316296a52d25816b8612ca9316af17b4831a880510b2026124a63),
  (6202, 3, 49830893, 0x19361254882a0a7),
  (6206, 64, 49852017, 0x1ae0c15a2b2d8832a4a12c3012134f15ceb16c5229e931a3291287316f120a78a30108121c90f48113def0878226036078e91a4c2032570b7d80a9272dde106c2409fd72ec582a42d130421f6ee2dac70a6f50b5c5024aa207d412f28259ec12b972b7ad0eb560a659033ca2e294126832fd6b22ce12fd991a9590ee990eaeb081540c1cf11ec80b32f0f32a27da42470c192170b62d0e5f70b0b4163a7064d8),
  (6270, 24, 50380944, 0x2c41012d062833220cc31d96e176a721a8519d062c9900755021d45163561eb550ab052de0f1f8451246f1ab4819e18026111de92032311ab4c108cd),
  (6295, 64, 50581354, 0x1534f223861b7e816e0103bcc0abd7220932de880aab01c9d32cf08072eb16aab16f591cc542cc4822d75080aa05a082bf491d50805bac2cae229de8173b40da501ea9810fcb1ed8a0ffd71def3129b102c372dc6b2ba07222c7159f6279a606ca806dd11e232188cc0dd2d1bfb00a39328a2a0b4f611e4b30b0116954021561dfaa2c22102c4812d6e0d9912c44c228252215610b75030a8315f406a420b502),
  (6359, 64, 51113890, 0x22db910fd11a5e52218d1492526ba222a0919fcf0cea21e5062967619c72028860e6f80fcae0772c00762299781c0c90ca290ce0315a311cd2e1dca6036590e11000bd51110c03443257722c5a812db400ed71ddb51a7100b5e20b714163351a9d013a06222ae02e2d1f7963040b0912b2a0741a12825b7928e62009690700c25e39261650330b070182267012f27319f6039b808f612cc661dcf00e38b25c2e),
  (6423, 64, 51641819, 0x26434199571dd2902aa708fe31daa831ee8016cc2a4e51b33500419096d61202e07745299cd088ae1bd66093631a635147431ac81063a9066302c5302dec11050f263782d7ca1958d29b72267962280b1de610717002b133124625fc92650b04dd80a22c0110131c25304242176730544270c2309a903c0b1a40a12d7329774263c312c57213921206702b24293d303f452606c204421e3b00a6240f24a11bb7),
  (6487, 64, 52167005, 0x19f471f2570fd021cde11b54f0a8071d43912bef16b041aad029d0419acf0c9b7208171aa3715ac808dd71a84403f6c28ad0008cf3150c0ee4511ff9231ee1290a036901d0381d6c80f2b70906c19e81163222290e0733705458222721286d0f5e4026281a218173a40fbef08a4421aef183f3245051d2991ad8f0b16e078150f555033042a557318a5319cc25a95119ae1dd850376a126551a4b230d4f1cc63),
  (6551, 64, 52684836, 0x2835730be8063cb2bc0d18bd0072af27612122e719b7919fe118e380286f02db528ed61a5e92f143130b12fdea12a090b8ee2a0ef00baf21b301e8a6109221a78213a8e31d6d258b42c4c32480d039af06ca62642e17ca4286b11158615b871db5411dc605907074b818d2d2209405a71074030a2ea23c731d18f1e7f605ed112823072f20a48e168711c40a2d4f000cc11618f0d1d22bc8c192e60b4c6226d1),
  (6615, 64, 53211561, 0x190f3118ed2d323193ea05bf706acc08291081ab0730d0a6b10bee6208f005471290152066c0309519b51167771fa720b612224e3076861f399034021a0c7260912614f29e490c4481ae840a9851198c2e18b1d4901d2e72053504f4b1306b25b261e5e91eb2230bf0255e7188ae15e7719ac930dae12961066b52ed4a2a2ce090471116a21c250ec6203ca61ea2e0b0cd0f4a30789906cef1a8cf05b960ed2c),
  (6679, 64, 53735401, 0x2a4762c9440ee810f3d31b9070798e2438f0cae92ce1707578045b6286cd2a2b8125e21dec3254843149321af41320c0ebee0f12e0f0f10b16b23b781e2021b504079a72a3aa31c8d14d81265452a3f00472305b4f29dcb22930070952572118351261b003a370290e0ae4625eee17b8c2f88118a23050220eab5227b81adb9214f603af02a39818af103b2d2e2790b4c3078b2108f40b24f07a411d32313294),
  (6743, 64, 54255676, 0x1dfcf2aa8226661117c92fed315c24062d5077232ddce2dc2a1a8520df65167640f0c800f392200c1cb9729f2316dca2e0c90b3c9313962610321b5625c6a31bd91294e05158161901568b0a06d227f422a762e0ab267f50f36607a0a1c4cf0678f313b3297572c629296c5165e81c3f21c01216ef8302911aeb00f6b812acf0b46a23c2208dd82db310c1e9024780b1f72481129a982da6f2bfa2264e203687),
  (6807, 64, 54781731, 0x15e432dd6821dcd0dd32227ea31e08286c20144f06ed009831242e31144731f58222e12332207c900ea121cf46183aa1c4c501be2066a21ad582d9d909bf8062901a66d0381229a92136e11e9ed14c7516eee301f804ca90976e25d5510b932d81513604036182d935092662be741210d1c41000c0d205212602f16bc9290d90a5ee2a2250a83711de513f0b307ac05ccd12bb812cd931d10140e6028f719929),
  (6871, 64, 55306819, 0x1267921df01480510c351566d2c12a25798241662900306c6d23bf009854068972a9ad228100c3570d90515e4729b4f12d362873509fb106e93264b91dbc503ae71e5af1b7e31d44f262740edec1932b254450607130bc9060e312793190f8034d01b5e225df808e351e7410ad4b073ec0bea7159b82574b2262d1ba81214cd165d216dc42d3b52a08d310d0154b92f9eb06e4708b531ab07047b40ea302522f),
  (6935, 64, 55830381, 0xfc0b27f3219a6401413289101a9d617f5703f0f10c922ff64065b7031cd0a1d020bcb1d5a406f9619e682e3a704a84017cd1178822508135470d6741bfcd08d50169a31ead7293672d2102a00e215c61d84a1046c1eb083150215b0c0f64d19fa9120c422a272a3130eaaf1dd72077f331d8b036c80644c0af0d0386b116cb2de030974b26563067560e7161706d04a451c482190ae01f9511f81306883114b),
  (6999, 64, 56360028, 0x3144a169720b0191292422424118981e9780d9ae1cdc8264252da5116ca70b779079f129b0b02e181dfb031f762dfd109bc52647025b5331c67294f400ab42e225070630ad77141d622a781b078060a712cd42cfe30e3ae2d397035012bbac224121ad130eace1f2062b8ec062c22d413302e20ed530c9ae095cd1628c0bd900a2d12192e210171f96108b442e4d7292d51e8832934b2438125c71114ed00947),
  (7063, 64, 56878585, 0x3aa80ad6919837102e410c532965329fb4164502e1861bdf12826403365038b131df0030e9197931e6700a3742f0ec0e548242470a2cf193a50ac2b0aea420d193147009844263aa076070f0591e0991fac93036e0c6451e35916729034ee1ad281f11729ef81bb8c1df662bdd324caf03e991afec1e996282ae0dc432264f1ec592dd230f24f06df211e360a201170f316c880266428a4130e3716f4806eac),
  (7127, 64, 57401905, 0x24b693218b09818136af3131803c650a72824fd22db4a156e90e721229b91df6c141e90ae1112ab2040d90394105fef2626e0491928faf25e8107ae6112a8177ec1b8741a5ea16e8929aa92e0a60ce2a29d6601f822970d317d115fc5040ea1bf4603ea3214c31e24907294293b6052cf0a04b247881a973206aa0d173119691d7351860b201a82617730f870ea2a223ec29e431d1520f26c13225201042a396),
  (7191, 15, 57929428, 0xe1941d7e1075ee12743134d90fb6c1c6371c5ea0adf02656d23b3103a840f63518d5931b22),
  (7207, 64, 58051151, 0x21ee62c2032f9e6296f62266903b8209f6531fc1132220e3c716bd701526221b0283cf31415223541b1892e6f431cab0e6c221233124941e86f0ef05255a431faf0ac872574f2614925aeb05e6122af412fd00b667318f8262e90e00d00c242b92f2fa8e0e84d0ec33035961ccac228ed0f47231fc205227260422d0f51acf42dd86282c62dea61ea24224751a6920afe10794b11e8f0dc44065a41d33308d76),
  (7271, 24, 58582381, 0x9aeb0ef08265310a8613034905c891221828ab415e34291970d3ac2e18212517258771566113d020dd060b3e625a87076e4275e802eb630b6612804),
  (7296, 64, 58797836, 0x30b1420b701d599313260af381146e11b531acaf0576321bee212d71aca30a2680efe91699611e9425089227a321f3224e17107ed29d6a07ab019d242253312c9319754170281e74b0b4c80f334104c129e861b50e138f10728422781046a503ac322a41316771a122227c82800c126e6126a80d81424d150188a00605306112d08f03b54265571ecf11de481df65223592ceb92810a09cf430c6431467283ca),
  (7360, 64, 59312857, 0x1caf5075b701af402de71aaf231f590a3382df760de271e36c1a48610de62d2b73190a26075063ef1c0e20600f28b79262850e7d70a84c0ad8411c77084780b08e2f3b927fcc1e1f4304c72d727088c512e0c2d6b1084f91968a18ca114109192a9072700f0250998311d6f226ca20c060daf62818e2c1f60ec521649424de6318b12f39624b651f639249d91636f14e291362a098081662f2f7c92379420547),
  (7424, 3, 59838739, 0x12ed62c6842238f),
  (7428, 64, 59859475, 0x26a0d0dd4213fcf2a7c2042d501b0b301b0114b81ac6b01c7902b4e05a2411b4a16a241c881222cc244e626b811d7b411ce629e1811ab01d906256112838508ae702c4b207f610f570348a202b722ab41179913064007880a75724de40c3af2e2a207a8d2e3d1123a929f97019380b5831850e1a245068191184228d57008572bb350b6f130e1816b0b19f6d0e3552abf4316562f93924e4c0b7a51aaaf1afe8),
  (7492, 64, 60399327, 0x28e071a95202703190681d2f82dc8d31b482a4080f4571a1d9070aa1de3831c9821f192a1d10137606a5507be507e73263a41ed181b7c215d0a0d81924d1223eaa196f8209382df592946c13f212204807354059f20ce442d647118ce0264d0ace507a740356100a7811d7404ece0c952264e8117eb30f68156c3262ef17498043662dfb22ec8c0f5e12c0ac29982170a10db710b3e305ea628b3631a502f5b3),
  (7556, 64, 60918826, 0xb6ed0abf4309b107465156f71eb520659821302039e919ac21a9a112221280822f8192e26d08d2921b0a2cd541c53616e9729aa317036123320a184057f8174441b44929e9029270215a30ee282ab291e253124c71e481260292cc47239d2111352936d1dad6184c52a0641317130c462df541f664317822a514288e31ac262e4a816892038c50de013162c221b5103d6322302ffd225dd2037e22dac613109),
  (7620, 64, 61440127, 0xb404229152ace1250d6076d01ac951098d0dde81c8b72c7a120573172e81f50d01ba6218a82a2030325406547063b90a84a27be418d8a2e927185d81ac38039ae31ad71258825d54281382c12312dcb2372a30351039062e017284eb0e3910e8d8169570314e0256a052e422102071590c83906d780c5e41c5f00774607c8a267f128deb266d126c123094812f4e1a2491462f23db61a295158011312c06809),
  (7684, 64, 61964743, 0x5ac8026e816c3519c751e318226e403317024a51e5d828f291e2351e4b42bd8729a2b071470a8d515916021142e02e0efb7270d42177029ecf22e5007b2227ae30a7190b5e11a6363190b01625315f5261482eab90f0b0162420512115a990b8f4319741afd331a94196e8149231e5941da87094330a306267d23124f2a5472b22a17ce7140c51984628f6e21ace25c351e8c716e0e03bd30468825f311d712),
  (7748, 64, 62492734, 0x2c5af0b7f20dded023272a9161fc0625d2e037190ef410b07222157010eb1474c1d48b108ee2c537250a529498116a52d7c90700b2148e1e9ac2c8b029e791ab5712dc61330e25c6323ee22666a1e84225f231aa28109e716e871310607bcc0aaa314a6d2510d0da77291e20cff616c5305702039952d7361686516f132a32830877245762da6320cc90378d2e7cf1dcd522baa173b31d0f5076a12baf903425),
  (7812, 64, 63016667, 0x267890c81518c392251106b152d254318ed2804d234ab2d88a1f9a8159a9263f60eb5006cf4261b315cec0e9140b52414d6403412032b922a2c0744a21984267a80cf012170b29af406b300375010fd031512194d128c52133f921c4c225b605ac62c16907d522c2891e509116a805885079a905d92242c118c242de7906ca90edd4259ef188cb07bc3264371ff690e641037b43069800bd60714906d680382a),
  (7876, 64, 63537240, 0x16f0319fee13da306b2e2e8c131a68025f20736f1706c218632d50f0721920af802fc40766a272051fad0013f1228b231d6a11801146e116ee531c730c04720bac2392d0db1021ac101b830a6482e1e82fee22e1082bea7128cb0b5210b40108fe40daa92e14e1e7f90a86f00da712d69269590486b24b8b299ca00cc2185a4014981c8f32f66f260282e6d90a3a51da93242ef0212f1d2070abee2737209423),
  (7940, 32, 64061682, 0x1a9c7269910aba70b25515d10267cc03130048090a5590dd8f2ab08248f70b174223a9306f1255c2319f725ee7014b12f7260622e0364901cee2c1740ee4230be7221072decf036972a4661956a0b153),
  (7973, 2, 64324227, 0x1ba5412a58),
  (7976, 64, 64363122, 0x13b941f1a92a287094e703a3618ff702fb325ef519ce312d2c1e56e27e822534918e8106daf0b5a81e48b0ac892553903c8c2e2741d4d830ce10c6282a0722fd790a7ce0f2861e8a9182962850d0616721beb2dd73079720a6e41904b115d626d581a0020d462290121a5d32c63403cb2068ca130c30b61131d452e1370da78007ea029182261920f71218d81e70a17aaf29ff52d5640a453037471944305c58),
  (8040, 64, 64887866, 0x162592d39631c99098e2183a90d6ad1a7462cff61e0e10c42b24e3625e651c3a2306f61eeef2e751315d41335429a85101f112739241692f0f90e09615a64154a9291e83212a2fac40e27516d3424b87297af154011687821aa2222ab05c5619404095e31e20f27da326de324af8086261acd2250a7160f4321592e7f90dd4707805035480f30f0316819acc1ab0e0d0591f9b40230c1e8540f1b11ea310c5d0),
  (8104, 64, 65407021, 0x976110b940338f2c58312d3103113137b8319650b158035352190127770243882cc461dbc6036d8212a120cee211810e5e2090a2035f50621702e2c2de680a50d1c20724f8d11fc504eac1e2053198328f4529cd731c8a21259292042dc291084b2497329dc81ae170360e11889220841cca51eb05207a6227623139912ab11714622a222dfef0e9501314502f06294f103af73003706f172786f0648b0a9d4),
  (8168, 64, 65941859, 0x1d44621c552d2b6309840efcc21f152fbad1024a06d4100d810a6a126664062d212d9915fca165d530599151ad26136105cf2cf2f2cf952455002e41262d60691621f6113e970e94a18a721f7ee2dd95309530403415a15122a424958249110af060a3691a8aa2cc8d25aaa160b0133b60f37729754164ce165eb208790a6780ad1003d510f42601c2d0b551029750f0180e72424a48291a9243f1149e52066d),
  (8232, 64, 66456641, 0x1d843189e111a7816a7204e500f239251f131885319ac0b18d07568244e906f071de850432731e05130610e206265342e2381932f0ddf226a0331ec81e5131862f2c7882a45816d520efd1288a40e5431dd96056b30ead51c3e51c73906c6a0d5c1304b92c5100d8ce060c91208b2d7aa1a8850ae8325c700765104aa713d770b3d700c0e27b98307141f945290c62627726ff81533116205133b327ed62b5e9),
  (8296, 64, 66980397, 0xeb7203d0b1c3a81e4c812f8521fc8295e220ba2148061dd031dc2e109b421eab2bc6c1628f021b316eef2fd18119ad14b56160c71e0cd09269292d229b4c0710c039120b56c13142071182bd2e01da12a3860682b03ab80b6d21e9ca110642a14504b6720b25093361a4ce027592fe6b19a4b22626056751a7430ebeb073eb0da9122121229250ac621ead4214ca2067218f3628972199ae121a42b1eb31737),
  (8360, 64, 67503549, 0x2605213e4106d24168cc23d8d2a3ce02d372c09808c0406ab32622b1e9992db2f2b56212df62311109c8200a0702f500d1d51a8f62598a0b78607a18288ee19bf42c6a819d9412eb416975014290dee72a16b03723199a80ecae0a9b313e150608d06f6c0760930f8e1d9ab28b4819fb619f632a4ae157b32a52d259f61d7f80f188036cf11c0a2c61509442021ca072071d32e1144828d75320c5226d329034),
  (8424, 64, 68027265, 0x1162f29e29215ac073b6186ad1dc2d2a37820f980500a2cd482dc9302eed2520b01d980f1ee075d21a768261a116e1828ef7168c3110c1197701e7b82c29419ff2309591e69405d672290b23e810982e13ed82856f0e32f2e1890b4890b2f3132e52a44c0d5e30478e1c48b05218165190aa4111bf528df810a852e16b0296b0696e234931a858054660984725ee21e6f7219310676224674058cc15e5801cb2),
  (8488, 64, 68554652, 0x122760a9070f26b31e6d00aa51abd02db1103aaf127eb29fab0eaed29a782ef39207b40f32c259cc12b770778207cc12415730aa9075031a50a035430dbec0d16b12d570ee790eacb31d51039711a4300f30a1fc6f263ad0b60d2b679168c63050b0b0940df792dbb91eb4909fa1317c907aa716ed6211ed235c810e4824cb4303d8266531168630e0f2b4a61a9cb16db0017161e07624f4e209962144126746),
  (8552, 64, 69077376, 0x1267431fe81d7c8270b31024d2a20505ea81212e20663046ed22805135820e5cc1c0052db4918a3317aca214a62acd52dfc129ee50da301ae8f015290791512ab62dc0a2c56b21d2503c42188680e6c50aed115f121244f03a012e0a9246952fe110de242970a108ad09baf31bb90e631097c6123e712923072932b9280d16821b790a2c112853236321cb51066f00f4610e1ed227d11ab021546d2228d08e10),
  (8616, 64, 69601132, 0x25b5928e4211d3329b9625e192dc74022ad19bcf2091722650132e21a7572a0c61e4072770206b671e8680333821e911648a20de5027c71d28f22073212160aa85228e62b6d2158452ca850a1ae0642a07596027240cc610188d1035420932074ac310e712cf5129e405e4b31f77073c103e891dce40bec2079480b959214b41e104046d0039c631992247a9171c22d9152be5430b3207a0b2df48035020b4d6),
  (8680, 64, 70125170, 0x12e73266270654c1bad02dde312c3721372120581eb0b293b31c28605f21216351adce05b130e0573109522d991ecee0e8972216d149051aa2201d2a09cf71ebd712fab0302b3042e2a26d193352f64412ecc321980ac56075b909db40cde32732620d77030ea0a3ea306c927b31110ec07a8e123ae073f212d94236393197130b130b5c21dfc32604c0a434154682228e2f0cc1f77621bef061f81dbd616b4f),
  (8744, 64, 70648644, 0xb26e1d6552177712fe21510902c0e0b8391be4c18f0c1d7e229cf11cc9306af106626164973022a03b680a0b328ccf11ba41c510304d728334110161aeb91a1760f7d62e28b1e3a11e437031a9118451a8891c85519cac0f6f50a6091eb4f297c52008702f760af640efe62635815d2406aa721471201f916ed4160761e872066d325fe41e74e264eb15061115aa2c2751dbb20f493126300cb7731d6b12d52),
  (8808, 64, 71173044, 0x307e920f5229f94122d807678232120bc2f17c262c9a9143541acaa2fb3303b4405dd430e170b4a619f6a0b26b16888302c22d6701e4a20bfe2076c711c1312bcf22b520aecb1a70b0a412317161a94406f433083831f562dfb12a2e92d1c725fee0ee2511fd916b21058b80e4d930e36260e624bae316c71f58c0a93716c79228ee0384d0dc311284d0f5c40860a02b4d077612b9ef0aa2c12caf09ce41a7b3),
  (8872, 15, 71699815, 0x25a628a262640e274f1286911156626ce8243d411da6308ce02d02220740737115f910a8f9),
  (8888, 64, 71822352, 0x2d1c60e1730d46c1300f21c23048531304b223f60e4722cdc4255c731d020f0c221769027ac12fa6056521ab46087b51a8c1030242dd2a21c0530f1503196164840b0ad1a40c30374145e41d21701a0f164c51cf951ec872f2b30dcd6037c82e1902d1d92e1661d3a2112c3061a3287982d0e62a6b511c2c1309119f770aa2a168950b8ce0de023162d1f2371adc2109022ffd3024020294507148093d021fe6),
  (8952, 64, 72353972, 0x265250dab32214329764229100d8aa2de8631e4c261901ada7279c229ae721d7125ece08d030766b2f00d1ea960ae7703bf0214d61ed591ac761f04d223e1103052a2c31df761a4b8064791da2f2081219c6e2b90f1dcef2bd4415ab8099182e9481a38d0aaea322b21dfa403c141d1d611f5122ab92df6631f2c1b44d1a1d21fa5203cca2d655196771f3790e50f1462826071121222612f095450a9651b594),
  (9016, 46, 72884704, 0x2490d2c1e31f45029ecc1d94a1d0372aaad0c1c92a6cd195f2038a205627071d81fdf7314030f6321e3ab06bb30f3b31e6af31975319cb0cac924f4f2548a165911d0480d58629b6218850179f32546419ac5131ec0ebce2254e2ceb5118cd1aff70b11916e0f225240e44e0f68312ed1298d6),
  (9063, 64, 73265244, 0x2462415286290b926663062d70a81729e66267d5051e13043631e14225121e8452b50415f61316570a3cf2664130cf42631216aa32d2aa266182c30707414122e12d06f1fa611556c1eb352cdae11f540233102b6624575067810b3a91ab2c09cd131e8b2b56625c4a0e258120170dd432e2861c24322a5616c322563031ef40f346033140476518caa211e30e6440a8c42fa6e3154a14d36077e428e0824266),
  (9127, 64, 73789860, 0x99441e762214ad10182297f6261422b98a02c8a01a0106db41807102b38037570262e3151507a5717f920f12521dad0dd120e7c22186c06d821aad91a3a303810318912f376315e316f3918c231408112b411b8d831e112428a1a9e629a280e39228ce105917086871ea781994d0efb40a3d131b490ac48202a82cdd0322f01daa20771110b731e5a3315f2120b9128f52eab6060eb1a36707be6192d42d96c),
  (9191, 3, 74313978, 0x245d31db8b2572b),
  (9195, 64, 74338675, 0x29f4a1f92b285f72c2c80aeed0742f2ec56166f029bf4125452a3b10e6f60772a2e28214e133236c1e390259a503bc319b981265921dd00f391257781822e0d2730256519faf028620b7f107c8306485021980a99505dea0c3370320e131c929ff81ee36287151d32a027952649903be7031631678e31a950e55109ee32df562c8b715590064761a6f02bca8021ef318ea032212666d02384263e91e8cc0ad2b),
  (9259, 64, 74875676, 0x2b64f243ce0ed332df391bd2103985170b700da8155a429ff22eb110d993151d42ccce1d7892932b262b316f90114cd0225227f5919937143e72ed4819ad7078062da8c27373171282ce382c08c0f17009609059ed2c8cc124691cc662d88925dc60acb41ac6116ff81a60129c252c9b4172b925f302fad4293470f15902f011971621fe51044c0ada524ed91fae50f62d1706b300b422a071d4d70fe240ae69),
  (9323, 3, 75396992, 0x2416a044f128a2c),
  (9327, 64, 75420502, 0x2720f175ef0824502f9924c8f038070cd132a5f21d16f0ed522262f2eb7623d0f0a4651685111e16159a20acae2630c1022518b96037a40fa320e528258482cbf5156d82a4f41d6991e5710eab3062ee26405037091956322023131c6040a31aa172bf7005a0e2dbc61d50e264501c24d2a0ac1674a312d12974731b281d0530e29405ad5256a422a5831c782fb6220bab0e38e188d60c9f82908d25882232d4),
  (9391, 64, 75954869, 0x1eb02060d90cb9130bee127e6069191b94a11a692068a1c8712d1cd0b5af2cc7120188213d703c931ea0e2e9c8237450db370f24c07baf0bcd70fb74193240854119f8521df610c33296331abf20284b19b59072d9282441242516d8c246b20f4ef05b8119b88004e4068cd1e9e124227127680b6830d7a129b4528b891ad70145222638a237e3262a114493095741c86e0e99830b75114d32d4882986f2d0e7),
  (9455, 64, 76472453, 0x2245521a0926a062d00c16d53066e62a3390916528a820f5571ad99099a21273404c6b1cd82161f1149e60add01a39109f3231a740f6151ed2f21f380191213414247a528fa116ed521a370a70816af1221482b6c30e7012e1f703874021d4072090f0762e20e1e5e70ffc6160f7148f828f8f25e61227ca20d060dbf6026b611d9518f351480c02eec2f332109ae09ca82a1e315c2e1176531b540ae42149e3),
  (9519, 64, 77005487, 0xe10d1b9571f4f730ab10114a2110615197095641ad261b7e51b71601dae1afe61298b0db380e5e50b21813202222b005243221902548612fd62233403bb902d4b076b72b8332121329cd416b020eee525584246760ac672572f1e60c054e528018019f8245571d395262c91c7b41327121d8f0e94d2d314319ad18c1215e490a443228cd22e12021c5172af1b944262b01d6c202a0509b7931c960ab7603379),
  (9583, 64, 77532014, 0x2278303ea129e6a2b9690754a25259263ef2a5082aa4522f972142406468173e80f31429f2d06e0117a22249b9067720b64a1cf260690922a212ca9025354227a8197f80d914126881d144196860283005de5069d60307221866167442653716a96160b32233905a4a30566164c112ba3043ee283aa1817516ee6099ac2cf180484e1566b2d16428a9403085035d1291772c5172a01521d4c0a0942d7a90610f),
  (9647, 64, 78045592, 0xf3ce05bc8262650e7b725b0827fe1227e4162f21706511b3803af62e024035e52f919222b50f78512dec2f6591e7442e12e009220a4d6315610f0051b96812e691ad892c459023f50c6e80d6b20ec321e9eb06dcb17e06143511288210dc615ce51a77821d941360a2934d1efb8250c42052716d351ad382be8f20b5009d7804c4d1318307da81e9cd0b74c1a36b0b5b6250a22b5ea1970f03661077940b8b2),
  (9711, 64, 78569926, 0x2d5621f8e90c93906e78137c42bda607973216a30bb4b19163314881e008130441a090285040a7381704d1a35012f790a94a123890b7ed15bc10b56302bd60b27400d6b0669816fef0698a2a1540b6d129c0c2c7631e36a0e335232ad0b497068ec24e2c2a4460266a26782116632921118a91191311e7881dba502bf92816e1b7c315f262a252228ef0de070608a12f74031f02a8111eb930f4ea0c52b16a75),
  (9775, 64, 79095406, 0x1aca52452c0efe32e98e0c147087f10a02614c450eed313f013188916db12370a079d50ce2405cc3082190acc51e8633082108a5903512146b7255f11a627077d019a442abed262cf0281930cc13106d245830f5c11d8440c1b508f310db5112e581cb4a1977318e8a197e81ce0a1322b13faf07aa90f187036ce025a12c6142f706239860086e0aaf531d252e1170cf420362611dea197d21cb242256c02e6f),
  (9839, 64, 79618364, 0x30865220e2033f113ea32f7cc03a95138031e9762158322a940f08d07476124a72d0c926009313a412a330b7a216c68218962a34b119010894201c0714c540702d29fa81e0380eaea21bc12add1287a70f32b1e4d53210a0a871221952dc8725db22978f1a6772bbd0130e929fcf2132c0ed161d50a13b19263a6149b2289620f4370e7272204a30f8c321391cca92c2132ae36164b11eb461bb9826384168cf),
  (9903, 64, 80145477, 0xa7e407ec21e2290b0223042f076c9129862814d2d82e0a1952e09225ff4185eb0e9d407a0824150251980e8b81e66e06e680392a1562804ea227b3602968145480a553278b2006eb171a7031aa1600e179f21bdd1009f112f2e1d1ab25eab29ee2057732d7d725b170de8f0b6cd2dc091c57225d270bf0d27ec125c0719bc203dad1756e146c2215a51e0790536c10f082883121aea078ec117461262f1f0f7),
  (9967, 64, 80669013, 0x1980a0e2c618d892e2f81fc332cc6d0b5c130de52980e1816f2cf93261280e5d50f0901388b106580a0c515fa50b8d40fd6f07a722d081312b627f3430579067f0267b2068322cf751233602c85031d311df3156c925c15299511a62b08a122dd7503b782de9525f110a3ec03ac10b6a831ae40716a0dee4126f01096d0ddc8267d112f330188c1cd8b21ee3074ab21888226b63196317ce210e9812a2d2e931),
  (10031, 64, 81193803, 0x2146e1a41515bcd2c68a1e87520fb9317171e9422664a212781c20e25f03109c72df701e62a1648d130e62e7cd2574d2ce260da572466231de51a819070121ceb52e21805d58152c3298f02616716d8d2c7681a73931092066430eb8f2a73119e4b14ff306a381de96027e81d2b00856231c290598c2e223226c42b9cf289561cc8c0b32e2fa7730a1930b312748319f50073a60f8e331aac321431ea04072c7),
  (10095, 64, 81718033, 0xa00c22a0c1185922a8a267880cee1039ac16734191f423a93170081dd8a0edd628c321db0407905225962da981d68f01d2d2810c1ebd40f118071852a10e1a03318f0b1d1d11b9d50806f2082a29b2c2c68328ded03b6f31a65309462bd0e11f830abb92c7f5305aa291c206eaf0b7d20ddcd2066403c28109b725d0e1580b2c4c10b0522a6a512e171eb4c15e14297c221c2c28b163166e1c76b27eeb283c1),
  (10159, 64, 82242603, 0x240825fe2199950f2b1257e5052f419f110a9c7301e731f2d1e1d41578405e2c06e660b5011563629f8b16fd41966a041341778b160181e012078421581128e7527ea324b6b15a832bc971cc792de0c1c9f8260081d04300e451688b256030abce032680b907063d202a75068221dd271e9540202c224f10344f1e7513045514f0523bcd2a48e074cd2a4171e79214a091ac8311b6e1de370b5042e2f310eb6),
  (10223, 18, 82767003, 0x2a42c1cad52213812e1216dc22972e21843129e31db8c20ad816b992a55803ced2e22f23c72055220dfb52fece),
  (10242, 64, 82911256, 0x26d383034f08ed0105f9189ca07481317a92bfb5078e3314941306a2a3370da58163a41e203225f907a5925329056aa151251d8e613d962866a21d442f1652f4970e5cf1ab512e6e62b9e112a380a22d1e3570d64f25d8b267ac1e4a505e8d1fb830dd6f133cc2dd291094b1a87408f0a25fe7298d925ec70c9940e62e181d02c27419a101f1840ee221ec842f2b40b28d13663070021dad02e16919504143ed),
  (10306, 64, 83451320, 0x2dc2190482b428227d30a9b924ad81d16603222096020c0d90e38a1de181534c140c300e812922115a2a2a26b2fc090bd350aab3167070b32b2acb52ecb00f1820c5b0039d202b6131e4d13e342ddea0166125ed5180f90f288037cf27e62120e822a431d3a10b5882cd490e6eb255192c7120288708dc3098860c6082c6760709103cb01ab9631d311708131a830f526194f02961012e992c6c9199052c7e9),
  (10370, 46, 83970040, 0x3bf7170161ed5606841088172a54c31ef531f4b1904f11b0731fc81e5d61e2330d68d2b90815a303154d01111299b31a95800d340a40217a6d154522ec62078212fb2e101d1127190f5e62615227ae50e0761b8f6138a1291c8307ee0f6692a24d20cc424b67319720954221a822228b19aca),
  (10417, 64, 84345205, 0x27c7719aa81d2e80e70424a28242a230f2a1a2f31a5620f2f923c4610b74015f91a79406e2d137980050a0263829db1218e130aeb2a0a62dda224f5402eb40a17320cce21161061ab011e703ca720557141ac1ac641188b02fa71ab4d2c52c2b7d202a6b07bca0a27928f251ca2b2dc37291e41c9cc2ca23310c725fa81eb321306731f5729c562eb2a0b5e40678e2274205e6709a1410ba20766822a021ea99),
  (10481, 64, 84882694, 0x31a9229d0f125d2062d42ca1611c642651402c7031e151a6162230a2134728ad10efac19e94062671022a30cf320055129532664403c04301a3196c8074131cfea31075261160286c0cf07120b5195662ce2c088752c7a72d82101ba8038f30312b1e8a709d101e24724d0306acf2e033258b1009a60aee6282902deec22a5729be70660c0247903a2b1c0c81e1e80a9f729b8d0a6580e8d61dd2e0f406182f8),
  (10545, 3, 85402538, 0xb3b71224b10d09),
  (10549, 2, 85435128, 0x3040e06a57),
  (10552, 64, 85454376, 0x2e26b0ebcb0ae4703a7122101229051e76525392214aa20652026d7252301a4881218416b381ab37301072a18a1706a124c12a1d00f21903f902878b1a484170060e7c53043402c2616553038170b3f313041311760c0411cdce03888223f81dc220af37180c914ce70f0c42242e127a2113d5126050e523313090656f1fa671e7f72a4e41e99712d6f064821e2f8155f829fe51206b1b2111d78e0db6e16f91),
  (10616, 64, 85983410, 0x28c54259d62d24f2cb210f16812fcc157350429916eb0076b9308ae0a089317442478a0af292e3e502b4c19ceb2d3b9161ee0b0c70dfa80a3901594515a7411fa8074042fb132def831ee30a5340a98414ed91198d3071024fb52d65008b6a030af09cc121b26077c7220311a24f086362a0771d2d2223a7167810096a0984a08bf72a2c916ad021bb1105d30960c2d9e4259a130e1609e4c01b57226061dd2d),
  (10680, 64, 86510756, 0xf40f321242a471307f6234730c6cb1bd222052225ec21aaf3019c20a48f24654078a40f451060702603203e250ea49145e22dd0a29488160a903d4207bb11e3a40afd10a806197870ad562216b2eb790743129cc70285531664144a7072231de512ccd3288ce1d4f4234a912e9406fb2121582308f0a3c10dec72a5c418ed90ec8e20cf308c150d2f926a720b1d92b4f406a0f28b281e3b10bf500ff53281d6),
  (10744, 64, 87032294, 0xe8e106e3924c940ebed0b3f82d7cb302ea05d832a8e611ea623d0816b4606c7331503214210f0c92cdc51f3072158c18cae222d7020d902e5116cac3058c032a9119452c1a2251eb2e187191d715187214f9172ae071cc28ed702a0a069d905b6b31c97313b4322921dd13228eb1674d23e61297442df4616c230a13619d89133e516ee30b2d309d91221660d5c30676414cb015b861704c0aa211fa7320f69),
  (10808, 64, 87557942, 0x2435915ff91541631ed413ab131ff405c411c034246cc1dfe70e1cd227b130db40d1971ea112c706037560d9d40f24b01a4a2fab02a0ee265761b51801ac119f820eacd0e3f91e507148570f30c099a5259ac0f1e5075d31ddd4169f420dc50e64704e43230c52e26612d3726e4f0d7a22cdc329b420afb02614c1fc4f2638d17aa1130380e5e818fe40548f16367303c21a9cd0f0752986c16fd6290ac03632),
  (10872, 64, 88085227, 0xb939050070a512322d004163172c61dd900cf2c315d21e1f21888c2a16c17e051bf7032286222d8126542cce5012301bb991ed2c14fa7189e61e5371e0c13041616ed21de4b1ae850cc4e099c813da201db11d3292d4f330cd420c8311e370a8e82b57815a441f485072851da8d01e7321d052cdb0032961254f09d8e1ab080eee22d58f24675291340de0431e6b2af6d1adcc077380e611077ae1a27612903),
  (10936, 64, 88604744, 0xf4f4166911d14824ce1155b91d5b32602c1a99003c832226e082f00b74321bcf2cb6f0720801ccb314e602e320e54e0b8b131d29153a403d1419c32133e22ba8a0b2d82266706c6330e242a3e908305169b01530f03c792d0c80dfad16dc1193d40b649123d829889228c62ca9718aab315c3319aa02ec81294d31e030af0231df1287f320912069c92786112cd52e23619321147902cab41cc85298b602d0e),
  (11000, 64, 89129210, 0x25d04039621636931da125fc41e664264cb037211158a1a472130970f47329f2a22a933109312d32266072e2900ba2616c690368b3212d213522a3911c8c31303521615162f51568a03864061cf165b5070740e0a4044950e8771b0632f23126b6202122307d11e4c612f8b296361631625c960480823ea52d5711a50c0ac361fb17169e42fb31159f11c60c1f9623036d15cb11ce5931a752934a1238e164ae),
  (11064, 64, 89654775, 0x19e410a9170d6862bc320ddab0dc11285610d1811a1d8316d82ada8022010aa0c12c8f1a0e8007890b24e03ba92c6d4258a308fce24de92eaf108a851de2105eae11ea3323f02880f2cc991aea7280080772b27b0f08ca713cf91930f30fb22da6c12117263830726a2d7ac0e27316d321310f21d2330536118250698d2d8691a5f51c7192cae40b5b5200671a5a5060e2024cc2633807635080e40312407514),
  (11128, 64, 90179841, 0x273281c01119663274d11dc281b3e52d4681db143148b0508f2d92211f2f0f64f11a3925d4a0a8d92cbf32108406e821e4a80de8c231f202bd5086ca00d6c1dce31a7f02c2e51afed14c0929d610b8ad294491e36d0b24b30b8a1f2e1067580bfc201e3912fd108cd4106b52e3e40ad482650e0d1231d13714178248f1078543106a262c20572e2a08c16e061dce9078900e4b917652190831e7b624b8e2a312),
  (11192, 64, 90708458, 0x4fef0f2701d4502e7eb165a21a5a931b34223d62a22425aa5255a70c0740f0a22174929d2512f86034d7026651278c168ac123e11467917295290f5136f70aa95082d91e9790959031a011adc8313ab1bf391030d267d40dcb618fad0b7a1137682c3c80490f275d21268719d742461919df90e7f611c0c07064094440aa0a1d2ab13331119c121c421f2171cda12fde91a7422978c12516258742d56129fcc),
  (11256, 64, 91232016, 0x2edb40da932212321cd7228f00d88a256e103c382a00925d51279a21ae11077772d72403b5526051079062df640ae571dfed214b61dc0d0394d31ace2a3c3102e510c540786d0b70a2bcb90eaf129c811a748190b315e3703b6e193aa302900fa172c78e0aaca0900a2cc510abb2208b011f31163ad24fd92480219b111a88f0ab01070501e4b20e88214f220e4ef313d113221225981abd930a3716cad063d7),
  (11320, 64, 91765270, 0x167f031c26256102de1802da4079c52a1151cb312e0951b5a20a8a408b30034c41c3b205f5228de82240d06e691ae7019622265050e2c9068080d00306eb40aea5165d62d2cb0c4692416102f2f1fdd717c2c2c37222973032632a319038d9317c71d118317b50e2612546a20e42142a6169511e9d0068352723619bc52f5651eaf8020a42252e1e8661fa1605f840b0f91eb2927327308220f6630be70063ee)]

/-- group 3 -/
def seg3 : List (Nat × Nat × Nat × Nat) := [
  (11384, 64, 92292495, 0xac28036e61a0e428bb0074661a08b25d1528e70039ea12099128d512f291cee31ca3419bd7254af204e12460411e95290992664309aa228e1910aae267b50e6c321fe31e945224f21adb3115ac18a130d4c9198e90662906cd5262f225746295b2265f805bb216bf10b6af1a81219429218b325a1202d9311f341cb572678b16d8a0a4ac1a7322d1ec2bb4921b160ee1219fa80e238017e51d7b70d82d0294b),
  (11448, 15, 92800511, 0x12b210f48e132eb028a82e7071df8f291963156215378245681a62d03a852a1221980d2fb37),
  (11464, 64, 92922969, 0xa72b0ac79131a925c6c2604e1cdc4104f32d10c21d8d096152b93308a33039101d40f2a2322d435192eb2cb03319ee00f05030342d3422664d088340d452263c931f6e0b3341e62d14a0a16b2f22c552570b309420a5430a0f10f6aa03bf626122267ce0242d069ac2cb342da0216c771aac72c76f265500109913f630f10502cb91dfa90e7a206cf018f6e0b2320efe51b3c20fa76158251ce8215aa212f18),
  (11528, 64, 93456625, 0x1a869033280df4f25da60ac94077561e79529c5931bb70dcd02c8ed25f102b00a1624c1d6ae20cd421fc52caf012a8b0ad85039b32d33120a5421d52064a130666078cf0fe040ae492bd86285d71b08d182750752f2f08431468073d90c2b9125252e5af12af0257b90ed7510f582a40b13c86259851e7010bb6e239ca21db00f37131aad128f91aa02082982b4851e0150b7d10229803c2f06f26035c21e08a),
  (11592, 46, 93979437, 0x19aa11ced40632731b4331f2a1a63128ab31962c2f328242b51d5091937329f8818d122d40205e772148d318691f7c801a9911803201681d7c2035941d96206f28033152629302891030c71c23027f3927ef2070d6151e30664b0c14417f171ae9918c552d2641b03816e8c176890344c298c6),
  (11639, 64, 94358343, 0x1d97830b110e97815acc026f80db49319212ad4709605316611df2625c2a0a5292d67209aac1eb432826e0ed322260f0cd69251ee06196292773138405af41ac8a12c4d302122a32b1536716f0821e8f2582801d0716868152971e482163f206a8a10fcf19eb0166b229a1116c670172106ad4131a62e872073150234e281af0b76803cb725b1303907233410e39025dd313224309571a0c322a38061530356d),
  (11703, 64, 94898526, 0xd955253971caa324ab9196c105f4d0ae222a44f01a112dde91a3211120624af22a2022b3ab11a490e2563043510ef92c3ee0b58f16eb1213b7079ac31ef208dc40172f0db171e5d9151ee295c32ece431ac411e442216f21dd609d2611ce729613164100dfe32e43016ab0282240eda7246920f4cf1594a1e6302bfb6308b62d2610e8e40b6630d781278ad1620828b690dfc1029300b1252b575079a30fc2a),
  (11767, 64, 95416249, 0x2600226290283a62df5529be432123069eb224351ad870a1f62231405e492e22a2e3f81390330dc51ea760f53725e8d256161e70b0ec4f0fb272d6c5149c624b8a21e941a49804c97016222899321f18096381a3a81afd828f811d2cd14d451328324f922212819acd0b6b6299311df2c125d10e9a10f0562de7516b4319fb50389829dd51165528f6f1ae8920ce619e971b83411d7516e4911a6b246832fe17),
  (11831, 64, 95945566, 0x297a229e5319379062f129fe20c331156211dcd90f1d806e2a1f4d72c66a2c366210e6158ed2932725b342dda129d0c0abf52df500730e034391acb416b14151a22a5462266c221702d66212fb62d6441a9e32560c2584e07a73298d00dd6c0b94612ed71d6cc131441194831072261092c02502f1127d2b24537193782ab9214635132512419521d6f31c090ff8217f94232150600e228ad2e124038161d545),
  (11895, 64, 96462711, 0xb59626517309b4059e32d25125eb231e12040c82e3f3112240e3c616fe61a3470dfe419ce4263cf1b1052a461189520418f2ece50d70f2f98d168621714d2da780074d0b62a09a072d23322a01201920d0b722788077c90a6ab069320c2ca24cd5092c7258b0216a50f3f921846187390b34d0388f1477718f742c7d50a9e612b830f0c3262c82838a06b9812ed210ab70c0242d84307bd81610e168791d944),
  (11959, 52, 96985388, 0x53b025ae827fc10e6ee2792511b1801ace049ac157c9222952dc2b16f27180d406b8612b47256ae1a397073c715a67301171be0312e49037b50756206d37117ef2214a096c231b4716e8d0ced02cdd61286228b85044c409c5221d742932d19442165ef1a9c61624314d19188a220b30311c50efd3088071316305eec1ac6f0b72c),
  (12012, 64, 97416411, 0x31be40b657096cc2f4772d1761590b09f0c0a86e166d015bcb118280a718015e6126c51e07712f592d48e2d4f40b7cd2dd09122461a2050b2542c2f012a861a4c52d92e0b0053098f267c51b28719f2d02469188520b477276e724045169a92b722267621afa8274af1aff1031112a0591bb872fc0c032aa13e8c1be472852e228cf1d8731e32c12f5410aeb2e20f0a4810b4cf0f4ca0ee6e0f3ae22de628c53),
  (12076, 64, 97952514, 0x5a8c0212c227c42bde4112811a8ed1bd012200802ef2036f20488729cc402b17099ee144690b09017e15306aa06cb12e68e255d130cf207bcb0a7e21b14803aac01ff72935931f642456317108015ac06b21071cb31a632de530c9d52d3251a255068b01320b1a515184ce1a5e10f167298b90a2cb1ac2b0a29519d96125813147405f2711c2e0f348167b6308d411dca12c641704b161e103bc10b4b31a919),
  (12140, 3, 98472319, 0x1e62215e416fd5),
  (12144, 64, 98496668, 0xf4ec29cef220c20711229d872a52c1cbd531ed5292300e7f122a740f06d121452d9883172e0af070fdec12a130b782162461621518485118e1265690afcb0525223e6a063b80e00c288a30eaca21ba116852115d70f30b2a5170cf2f27bf5088cc29804169f70a64b02a2c28caa226f506d270ecf6079420211526386153c30e1452c9b90e7072202a0f184205311d1431949717f53188b6187010b0710e78c),
  (12208, 64, 99025145, 0x1a4d0a7c91b6ab312550b0022732922a48129662c8671650c1485020f9425fd4021b019806259292517806893291ef03b8630e591522a2e269024f12ffd12bac6267392789219f652fd2c03aeb2a3810d74d1ad72124980a4500e99625e8b07db823d762f1032e0ac25af71e9c11df992a0af19a9525d070ebea2d71009049096772a66e06b0406eed215850e46a12c632881106ef90ecad0b4b81172616e57),
  (12272, 64, 99553952, 0x31a72289b500bc7159110340616d33217eb16ed3217791445604f030b187261083188720e4b2a144161d1072170f330299c102f89301831a0f831d2627f141da4715c380354f0dbf020df02174a29e3616ad1076f51e4740c593169b321e6e29d9116dce31b520877908cb72e013217302a4a902147127f0172a71ac55051860f189267b112f13199d41de8a21ec308c51095b621868226961932e0878e12a0d),
  (12336, 64, 100082584, 0x5cd32dd3709667302eb19c351e78620f99151772ad4f2662a078872d4291b965207d1268ea0b08a15d8c310902572d07102250cd1da34246423212e25eea0694101c091682531ff5059820998f1d26616ae22cdd712025070731dc951e5ec2e2392506503a0d028e41d3750e7c802d0d079212c2861e1380ea5712d951e3f82eaf41e5980b30e1e1f51a9e8222c32746300606225551308d020c908e411990a),
  (12400, 4, 100601830, 0x28af61e8f023f1909371),
  (12405, 64, 100633935, 0x2617329eb1028cd0364a1e11210e9629b1503e8a0e7eb22a6a267682dfec0e69901c172f1cd095a62d39931ca40edb60e2091a8b5033692257611dec0d66b31ec31c3af1e4c90f0f81a1330651024a450e164137ca1a2412c787071a1259af263b61e0060772802a2208cb81b77216a762985830beb07779291a2164a111d300a27320644109970cece10ed31ed23219432fc8f221171244e12df70b71000a08),
  (12469, 64, 101163700, 0x2cfa31220223c5203d041650623b3528ccc25fc219e2712e6f20b6c257c510287108551704503c691eea50eb0331b53239a13050e09cea21eaa30fb125ef1241682f51016d2328f6a2d6cd29ca70753124b4b0aab90d2b506aeb2ccb31c8b326e9929d6e1e9cb237f71da53255e31f2e22d2450b8e70a5020e6321fa9407513306b20f28208ac22d99901d8b0a9a80130929a522a3b0222c82db4b25fd52a057),
  (12533, 64, 101689951, 0x124f11cb962d7ab24b1906bcf30b9916caa1d569131412f17321d240a1ca0e5af2cda5012f007f0a2f732071d21a9871a07025d6b131cf29d2212b6d158e1034d411139133ac006a430f0a0796410850072c81a6622bf500c9740e60e09ad7228e92fe0d1e34a310d42ee63154620b26d0ae162c3cf1e7b9171162d38719fae18a710a4040b18c2626712df20e6d10786e21823129c3158a60a36e321042c865),
  (12597, 64, 102213639, 0x1a8f1013a41eb261fb790d124168af0bd1502be918fd21e8140f16221b780258c14c252e9d72d1d0071ed13e1425d50267d7036132cf900f268225d912275120c822a2305a761d99209d6b0e6cb254f93042d253562668f25aa10632c02199250670374b1d8240762518256201550f5061cb2a049252dff8197c81900b291c40ebb818c2b106af246611a593014641a1f4125d61a16d19cad1304a027340e885),
  (12661, 64, 102736751, 0x1710606b5905faa2600b057e707398167f3249022d7ed31c271252a07837288c50b709021cb05ed81d8ac29c8e11da7322280fa4701f582c6932a4952e4151424126cc7283333044814a813140a2e2f611ac22c6e60f5c6261321596922044291a81e4b518b4c2c4d12534216cf406f741a724229e2266f0317b22d56f2226b20b9715d2330697227b33149131b352f828065b31714c160b400b651a7061e869),
  (12725, 64, 103260313, 0xe8b6157942283631fe327c57196250eea71a17124a081a3f31dacf113e628fd70f2d923c26076032dcae31d092667607e430ac7201f6f0af65023c629e032959805e832a3c9294622a35620cae1de4620a761a86a035a8205371418c1148329869223d724f4d01e26066361e1c5262f51b3230666f12629212191ea972171108c2a19436218b21add7130472a28a027252442d1eac5107751ef710d1e30760c),
  (12789, 64, 103786261, 0x21d8a0f6171222b092620391729086125b209aa5152f102955264f403323018690b573222ea31264039d03210d1d2140df8b0a62d06cd220035098b2266242cf8427e641abf30513631ae2046b122a841d6a71c9762a6a2245101284c1e0d105c721dd84236a82bb4a1511001bc1264330a906303ea24ce302cf81a22c16bd031acf11af9025a72656f22a372af331607019a0b03def112510a9d717321317a3),
  (12853, 64, 104310299, 0x78ea2ca8c228e51c74b2e2872bacb0ae7418ef62521030c4a14b161928530b262da012e84d0588b124a115ee2038c9066452876b31d81224300e7a50994a133891de45223822d68f0b3d32a26c0315806dae202a9223d8207ab0af171e4d31874d0f0a42240e20d78032452be6831aaa18fd905d411c1342cea41528705933111611e0e20f551075c41a6a50e0432016303b451b58116ca405a2f1065618a32),
  (12917, 64, 104833385, 0xb90c03e5312fac0f23605e593146b296881d2ee036cc0dd760af09079c620114167142906a2215304b631a7030df882d7b820b621b4d12dab32bd321d66f21e6b199682e42c0a9640813503c2e0d29730b6a1e08d1396a168831a8531a4b419ac62201125be919f2603232294af22387033ce154ea29a353104a1e98a0702e1c954105b3146c8132e11a48e2a0c10532a0c2042ee2c2a90124832127970ae27),
  (12981, 64, 105365559, 0x120e312d012a1d50e6ac251cb2a20410ad121a84096e81217919a8e0f4312224d1e8582bb430ea290e5d315773294680510713386206f72d67116fb41a9e4273540dc090ad36319e103ff52c444068341fa621a8b62a4f9115e41c3680e32119bb423489164c229c461686b067c71d6b31b252030011624f302d220cd31dd07166b526a520b1b92342711c2d0685119f760ff332d38d0b76f28c34259b616416),
  (13045, 64, 105884188, 0xebcd0b3d825d8915b88279f01a98b0aec8263c2319ef1e8732d704214011ab3109b6c2df441f8262df7231f6f11b2b295a90379128db600e6c1e4852e19106a8d1aa9007bf60758d1292816dd80cc31112c615395170991973011b0919d8f2a6ea199f02ece7228cb09e4531ea12c1310daa512b840dcf7133c520e1516ab303c1521521039c7316d910df32d8a8132e430a17292a51db6c1df552f2480b630),
  (13109, 35, 106407406, 0x18d260f1c52bb2930f2818fe6217f4317a716330030ad2e8d006213156650d782087ca1620b0af902612c318101e1702f573130182d3210f6b4091ae21d421f001309b52d0f00f0550073730ba32d9ee0e8c125ac903a34),
  (13145, 64, 106697247, 0xebf1095540b6b52325920e2c0d84111e1729592085d119fb23189329dd20964e305851e0c4137f728059150c216fe30aaec1718219ce707150291142d1cc2dc4d028722db6d0d71618a080d218102572d2322433931c060be240ae6e055172cb27235f20ee7521ea70358430da22279106d951542d01ef92a2c222a510d9b402b52013522ef941e1e61ab9014117303930239409d391dd28149571483716d70),
  (13209, 24, 107226624, 0x2d9a629a631610127c061240a02d7929e501c9cf1e2f60b2f2226981d78807499128f4188af06f8b226ce02a5610f86166a225a18219d4317d80e552),
  (13234, 64, 107422843, 0x131382f6651d2c82948431f4e0b72321baf27eed1f3e12bdf116cf61ab4b133430abca25dd90acb5214a90b776133c21eca806aac226470b9450502307574322f40418821fe421e5104de70df8d2615102cc70b6292d3241ac44228a61ab2d11a0831bce033b00dd110a2541c6220aee22c70207816256a7133eb2358227841066f9180d32e4a41477020f23296a42cceb03a6219e4d18d2c2e22d0f94511991),
  (13298, 64, 107954669, 0x264ab15021119942252b130770344d1956422a732706224d781e74f2a2e82ab9316374268a719e742cae31313529986130151df83042c11ad8e0916415ef808010306230e0843174208dc50cf282bd110ab582908c03cb61eb97072341708f1ce8f25c762289911faa1e227257e103d38257730798f04dae07487025e3049cf30e48155a32c941220332932a0aa4e2d4150b4d50f4d40c37524cc1062960cea6),
  (13362, 3, 108478879, 0x62a525fa42d311),
  (13366, 64, 108506471, 0x366d052c5240e431b23230f40342901ad1066e90946b2c8702dd8e264210388e246b32c7d406b4d258831704a1b3cb08f79150c91be0c14d350a23218ca5160cd021511741416e8a166d31d03427aef2bf66095ef0d86327daf282f42d5e8261542d244169ca1e24c1e361130ef1a6a92a0f52d8771c8150316c2548b1eb0f1e9770b59520047129b931662263f22250d0b1e50f09206fa4054e805619299eb),
  (13430, 64, 109036580, 0x74f0274b102e93093d71b2e80582a2439402c4f03c81285300f62f07a0225d2a02f82252aa19ccb2a159107490de6c231d20a8f8159252c2f7223a1164cb3193031011226610442a10806166a829e391ab18099e11f2c121ee21d61503f6d12fb122ca71d8d5264ee0d10303d2f07bc82e8522d3cb0ed6d0fae615e481c9d214998039993172f16ae11c4d01eb700bd0b080e9235e424b6e2bba11dd0d225b4),
  (13494, 3, 109560702, 0x11fb31a912117f4),
  (13498, 64, 109587160, 0x260341266716fd229f130f25012bf017293259cb222852a50b2a42f1aad329bb70e46d16b15217292a1e212f751ab062a8101276c0f4eb07b952e0c81608929d841d6d131ed207aac0102603416132a9126cf12c0816485267b40732a2c0a4167450b7811de311a0b90f24d1d4d413f88235ae245f920126298a62db381392f0ff2f1aeb31685513311119a12d5f90b1e21ad82308d52e3e3117731e39125854),
  (13562, 64, 110117745, 0x29cec222d11ce56201b32210321cb7066cc228d02977516457091cd0545529fb502b2b16b262e20a2e3d82e23418da2104c31d50f18c8e2d5351ed191f92c2c9c20e7c312baa157c20b6ea2b80b0884e0ead11fc7531c332dc9029d59027612b38b064780f9f71a34d1a8812e104239f40ab92037e60b40d18fec036940e1422e7e91abc70aae10f1832d1f80e862315f93164f1206913201225780062c1b5a3),
  (13626, 64, 110642340, 0xe2410ce693125211d0c309c31862114d971d6642e3ef1650f20f9325ea60872231de9078892c3461bd8d069f227bec044b22a047265d8264e5093c71da780f40819f620ae8519bc32e593252a62cf0a2d642032f21fdb71de32075b02ce2d1d8f02d48b259cd1c74a1136c2d1521262e20e220a285255f003134188102721619c2830f3017a811808a276e412b0221eb016347121a816dcf2d5021f10b0f64e),
  (13690, 64, 111168178, 0xbc80cb950f6531210c132a628b9012c0730ab40eaa106c4814d6b2a157025b112f09038750a3332e7a12548f299ce152462a4412de28266231a8a728df92cdb61cfd40354c21fc323a11224d203048315942a54f0046d2596505b4c0acaf262d225726313a50b4ee15a3319f6f0b68f2cbf01fa21259f2017f31eaf511d2e31ff22676b06d710c1cd18c941aaec0d4551ab750edf21adac2fde72d823130f2),
  (13754, 64, 111696469, 0x2971412fd731d271424f1e7892d7c5263ec15d852662d1a9700d4322fac5231380b3142dbb0090cb28dc822c352f9ea256eb2616a1ce880f68a0ad6a261020ea782dc0b267ae09daa091563076a0370a1398d265302368f13f561582f1f37503b6c2dc842182c0b2121892d1a3630ef960fa561f80c239d616ef903ead12d4d0d6b10f46e059a81e88c1e0092592829176299792a01409f641ea381990d0610e),
  (13818, 64, 112215844, 0x29b122f4e721fa512a6b1882d3196c076cc1e03920a34122a80a1cc1a452118b431bc41f403304e42ea3500ba20e8b109a46290790a4d701d450c299282490642312ad0076e5295e622bb42d46e1e350263a918b1919b58239aa0b4eb09ced1b043128d927acc2d90e19ca607aa330a8f00aa6162f6035391d5ad2cdc10a70b0ac591703125c4c2602e1d4970b71723f0421d6d035f9175ac0c4961674e16510),
  (13882, 64, 112739600, 0x72511b2d50900c0a42e20b6b2c12505814122c2068182584228a932e42731b5824295089e40ec7829a9904fa11e7220f4b92d7d427c7305fec1556429ca4318450b5ab03c463188c30f192af702627327ec620d361ae8730cd2198f729ab00e78f148a81da48273332d943097c20a3ed0ed4f29e33095151fd072c83314dd32d3050df2f025c82a16f1ac2125847052240f3420dcb0181ee1d3cd1e1152dea1),
  (13946, 64, 113263846, 0x17e87262611d14e06c461dbca027f81a9d72cce1012f30783906c8f08af3020aa08e2c25c0a30b88158630eb61222f309b7521496067cc3086400a903170e16811072d710beb262cc2b72b12c2d18b5631c8e2bf6b21e6f1e34d28d531bcee1b276189e51d65903b9210faf2938304aac2a4f71d2652dd2b3084a214b01ec4d0db2a085ec2818f0b748074580e8ab089d72594e2b65307662132041a92e02d0c),
  (14010, 64, 113793474, 0x1655419f811e6210d93525377127c5173ed105851b0040d5912ddf71eac209b16260452cba224ad20f2671b4f2305351cff00e2362ecea204792a4701c82e2dad10e53418e851edb5152e1061c12daef058a70f2f6263c80cdf711e2412fd20724f0d783280eb1e92f1abb219b19251ce101780ed8719dd92d062109b82f0e326135061b2303632f9e52a08f1e73401a271cd811076f0b39915fa42934c0b105),
  (14074, 64, 114312951, 0x1695206fed1726f268d32a10928386071c224c0c30dcf182f122415219c9267f0076262394f107930e759189c3060f72fbd229de925e6d2d9680f2842a3380fb0703acd2cb082c7531a3510e88806f36079e12a6a42850312f2f25be82d2c328f610a3cb06655132630b7a42210805c0c0b69624e10054111a5af0e98131b32167581714b2d118160b72a4891670a14f020636b20cc62920e2d276033e215506),
  (14138, 64, 114836707, 0x2cdb71e01328a180a55028509096b60530221d0c1580a036030f1b82dd17266690edd01c3922b179210c6206f81ad2b1ae502d64e076c31afeb1afa624ca807f031e9ce31070035af222702264c29958254463210e20de12a41625fea2582e31fd51b8a728a4216a0e09bb1167d0100130bd44119280ea962e2191496f0785217c21245172f256307722430c17b830d0820ff622d9791d1e4191522a34a19650),
  (14202, 64, 115362487, 0x2a3901e98d1d456107ec264f72527829e91196cf06de729ec3039d71a8ab02c9431336042171e7932dfcc31b790d127117c40300229d0931c842a1c50d6ef14bea30c4929b73079aa1a738261641cee625bf722bf81134106642227682dd812c0102330c062302dac11268116bd10f3d9281420b0211f6ca0b32d0aed6160730a9c62da0f1d1812cb6a0f0a32d8ad319042f245288770466e10a9703beb1562b),
  (14266, 64, 115884329, 0xf6ac228af11856060470a6ed2cf83060831a31030c70034700ee4e281a125084310eb123440b9030426c181170e6ce1322a2377813ed41657206c0d223c30dc13208cc299041007212b272568e25ff128ab5227f5142520ca443156803506263af052862f3ad1b7832212a0554e2da88322e81e0e52c8453074c15a820a0592c3622930d1ff350ee0f186981df6f1acf8057ac1b8d30e10c0efb31e9e229a32),
  (14330, 64, 116408447, 0x1256116d71036d311c0e0f328242ad314a231f6112c44075ef30b79292a20b493008e709f510b637169251ad552d563078f80380b1ae722dda3116f51c5060ef2e311b729a9324932144232146301f351acae131f81222623dd82958519d3512a662c8c628e0903916112a5267a52f97031d332a02d0683719e8316aa9240251cae42de821e8aa2eb2b1cda41e62b1e748077932bccd0b28c1ca0a1a29921759),
  (14394, 64, 116934375, 0x2ff0429e6e0f16424d1319a811f0020630a12dc10b0510e76c1a6111ac65215c400fa40738c307f0227a42d0030dd2e0aaa82d1b025aaf2dc34223c82c44b084162cf70079912c18b1e8231279216a182c9cb27aa92bbc61a5e7212081fcc60f2891c8a220f8617ef71d6a80ec24022992caf6284c4176691700d2d33722792197332dfd81e5d715b81104f4199f30ce11265922838c2c13005d2b30f231622c),
  (14458, 40, 117461274, 0x1d54b0aee70385131d90034a116c28026040a3141534816ee80afab0a9f6290892da99116930f9021095521b812d52915a69075a706ff916c472bb2a316d62864602db81a63705f1928c8a226d521c890f3a515631211d326366069660e1252f80812174),
  (14499, 64, 117787845, 0x2b9f5185ab03b2230f271e2f9313c21e62e16333038e12d74f1d4412a336267192f2733014427db609a8f0e7d121b3514ac71254e2dcc328d120330525e6b0a1a122676137221e61012cb030dd70d9f50e38d152720e2640ebca073c811ff7314102a26a2b7382de8e1b9962d9f112c4320f6d1d86d0ec8d0b49811df0225300f4cc2441123fec2d7cd31c0702be202fcb25aee0700309c2c260b921be812125),
  (14563, 24, 118322493, 0xc2c429a492a0e5128570988901f22218480308913b5117ca231fc30af3425eb71e1e907a641411018d2b22a2815a770db94100393153020f74062b5),
  (14588, 64, 118528562, 0x4d302214411db82f8901d52506c19225352df620574f1306d27c420162428995084c513679032180a5042be930b0f61d2d307a501f6b30d9320b16706eb002c631147520e2b145d12bdf20f31025b022cf641de56100c131898132270b7750cfeb1afb82d4e50268c03c05077f504ecd15824271470c573051c71a5eb2418d0307609f4e0ecc91e9c419f952b4f11d669078eb316881c36b1eb670f16906beb),
  (14652, 64, 119060584, 0x21923302e92e0461eb0c1d9240585015dd40b6f028ad6263f5200420f0811dcb92142e12b4e109503150a02e5630d4a1d6d6171452660a212380a7f21314a0b06a198721e5ea1ac942352d239c52570d250ad18c4109c942d66f1a9c31c7d9193e8056712c5440aa992770a3198b0758e21ac81a6f902c310a08e11ac82658c2504519e0b18e1607a2d0e7a80e1f7072331708e0b40b2e3f611bc2115782cf22),
  (14716, 3, 119572830, 0xe6af30f082a0a1),
  (14720, 64, 119597263, 0x25d880a68608a71312c601ff91294c31f621ac4f250d103af40ade81ac431ddf702b6a154c12ce591637728b6e177950df9222a4a2f561026a71ff86013f0191b4196f4220f70a58528cd80e1e91e31722425295cd11dcc25c2512c6a046451eb941d90f221691e91424a25195361b9952864c13147111981a26d263961f0702cdab1182a0245419b7630e470ddb7300c609750261573140711d10169cd1ce75),
  (14784, 64, 120128730, 0xb16c2dc2d0abb316d82294d0189242c9a4170432c8772dc251cf29271a5121e217ee110e140df6623b150b0c6018d81be0512e4f14ed42c7e61e698108352def91e95816e8b0eae3210cd2d6c7088650a2f221e8a207f725ed12f3260a8eb0acc128f4a1ed5016fd311bf915a430e6792a4d90b673066b315ef60e9a7129b4318512f33620e78255c31f2c21c735194b0022280e6121cb461a271299e80f262),
  (14848, 64, 120652590, 0x1a69318feb2b0141d9032c94e125b602aee072f4024860e8650132f163640e0712edee24af929b2329db826037066612c6242a07621d0426247133e112807158eb31ef931f4f11ea729bb429e2616b12131af21fcc2293619e57319f029f3718caf11b8108d2a1a1e51aca21541725fa7257370ed6a19e422bf7813070228c90ddb8069c81c82131e812610b0adf61698931bc12a1d32bba21ea8a2dbd207937),
  (14912, 64, 121177337, 0x2666f1b6a831ae8223ea08d5606c620704a1ddd81eb532c5852db45104a51ae1618b030a222031010ecb129e41207a70cfa316fb515ff8072a11d3c423d26297720f15502f0523fe629fb2267b71fcd22c0ab26533225b907a141a0b222a0303baa12a9531bcf037cc254d900bed288ea129700e3f804306189b9131b21a1ea31c380908f17041201351a9f80b8ca1a2350061600ce925d97291a40eb9831802),
  (14976, 4, 121700643, 0x126b21d3ee130e802132),
  (14981, 64, 121743244, 0x1d08b0aa640768d0bd2e15e4d1a3821eaf222e161fb84191412440d0ad751c48e08f4d0d1c32e20d2798703782018b32dbc22d98629a432224b1ed161ea08057981cbee0efd21d7c50b6e9318ab105831e596032d8315eb08f26159f0108d81a5d010dca1622630cf705a61317b80226414a611d9190b4f40b2b92a4b41da6b039891ebc5168322d641318730e4892cfb42d5e7315f61e867266d0004cf1474d),
  (15045, 64, 122269302, 0x1aa8b2587107a8f13a4408be30693422a17076e61a5d6200012f24424803223b7156ae31de60fb1629966291e1228160635919a6815e410ee8703aa32fac30f40706e95028211d4511e1062c0c31b52c28f661a75426656038a6119c308cc91a86c0d49402211030ee0ae391520a0712e070f90ffc420c8e2b80d036a826f56205170eb082d3042eb3611d870a9b826ad931bae105ce1adcd2f7252e29111382),
  (15109, 64, 122790628, 0x10bd122ce528f6c234b52f3150f531155b812ab92a4e71e57815d29080780dae11a9c8299cb070e71a4440f5f70c0a21a8f7074d5294911836308f9303d152224607296097d50516b05ee22a2c81cef9315950446b28a590df6b161e2130d922f23064e726604089f42616d247ac0368403d2e0c3c722a641c9890ad6f2caad244f01282c0a2b11de8431ca2277e90bf491ea120cc9203b732fdec24cc305796),
  (15173, 64, 123319629, 0x1651329af827d062eea43170f116671c5551dd9419779108091c6a32da0331c8f24812127770ef6715a342cd07228c52f6451e2701e7b7155320ae54251f02dd6e1aaf73196d254b00b5780244524146218252bcb8029c91863421ae51f37622410108f613257133690abec2236205d471e1360267512ba52dd4d1e3f62d5f6133e40f30d0bc792f3330108b0372d1dc75167310ba222746518ee712e0d2016d),
  (15237, 64, 123848406, 0x1d3c830ea21cab92d5d9057f7293920f4022de191cf0c0386503c522e1880b74f28c1425ae40b8ec25955020b408f840f2162e0ee16e700b9280116111017022c72474a0b84120ea52996a06ad0221330eb441ad4427eb12ffd70e8830ef351d1a729a861e7250d7710afe21e4a9079160582529e191552d1f18c24f751a95306c491dbc321ae61886b0148d25bc900cc325418037541e8ee070e9167410bfc1),
  (15301, 64, 124366175, 0x2d6c630446263a21c8e506ace2c2841e1af16be10730f1fb182feeb28e71071b92c4a510b4411a36120c312ce1030d0253441ae8e2ca252204e29b9719e070927410d7123a383188d0298d1d2f909c580e5b31bb762e0a830cd1133660fb63206d72ccf4036372daa607286097c503e7729e300354d20e370158931a080259230f851700c1c8930a850098820a345227ce1cc622cf962d8851c1ea0764109e12),
  (15365, 64, 124888514, 0x1fbcc1dbcf109060f69421d2230ab5165a31a5731703016f96027101dcd301879020781670d30b870a783028b825d69142580dcd707674165572d1d81d134317d920f4e06d582e21410ee211f351f806130962d515226b429ef316c6c2b66528d962ae4c08b862c3f70b7ea01bd1214b931c132952909bd71810e1d996248d4214f82a11420a71035e921ff31c74e00b39074ce148f322b68058ee2a40605123),
  (15429, 64, 125417622, 0x46a719f8e12d08290f415d031196f042d7293b40d6f6085c61ac791a23616094312322d0890be040ae4e00f7722012235d2017e20ee551dfa7169550dab9227712014701ae722a31254f323e4d247b0315210f2f5281042e0d7312612014b0e5f42fd07313cf1e4c720e282a12d29f95208e41566f1966403c2c169b40f465059b530c81008590f057068c51cb4d251ec182362f58214f6d034e80665213955),
  (15493, 64, 125942772, 0x2e6f11ea77133cb2323912524150b51adb7256580e8ae0686a2968419c9023ae212b280dcd8188f41d7d10b50d21f8501126283351b170127cf0f2830eacc036e72e3ea130931d04f21fd50b2d21b6a32de08128d42288615fb9123931e0810d4e82e3cf259f80326c16b482a52f0ebd10b69519d2e114011ae820106515878313851714a11cd8020a50ab631da4d2b3231d5a22970b31fd2043b4288ef03516),
  (15557, 64, 126467458, 0x45191197410972103ed1ed4700c6225d4115c710c88802dcc2930a31d0727d910d8cf01f710c3552d7a5202d51aff6131181e9e50253329464208d2029831094f27ecd1f3c12523407f0c02de113323115ad21da60ac950b756166241e48305ba32df8f226271e74313ba906d48167d31697003a9921fc4192870988c261311272731c39195470a4ad241b9189a6119e80ee4b1288503cf11de0b29c770f398),
  (15621, 64, 126991488, 0x2546b3127631d382cc62304590c83012999263d2224ed0f0722de8129af2309d9075f129e841632920f4431b761e6240b2501a2920abe1156a706e71152d10a3091ac6922a532ea15226780e85516c290634806cab311f22fb4d131151c8830ffac2330f1090100fb41ba781abd316575130341b82e0dd701d687296552cf350ab382d74a1fc96068b6030b31ff922ddeb0f5082287925f841a4cc1d929159b5),
  (15685, 35, 127510991, 0x316d727ab3132ea11da904df02ca30202b331825013781537912d0712e2417a4f1abe80555531da5305a41abec28bb129a90192cf1aeac1e8562d923261340f22d30a442530516cf2200512ceb6215d518fb9285d30e94c),
  (15721, 64, 127804541, 0x1a896026f903cab0e8c70b0c810b0805615295820738b294a12238112ff82722d27ef719d281fecf2bc0c2264121c0229276075a905c570920921ec2168631e8ad2a44e038b20e62a1d0f72dd0b11f8a0ee6d28a08310f8118e60fac61de2514e6b0216a16dc60ec21078532bd8d126ee19043286b41e46822594310e802ce82bd8526595240c42c13708d6823e47192b70082406c0a26521282232640129a79),
  (15785, 24, 128328509, 0xb1c20d18630f2e067121da0e257eb0a5e71686c11f9311dee033ab163f6211d0088f219a9603a582424125b31071a72612e11ee4076b00e81925d0a),
  (15810, 64, 128525152, 0x31cc524b6f035950472e06b172d256079b82bb7716c6d2db4812a222a3182560f12bd0259ab03bcd2226525cb80e82c25a652a26f1a7082cb8203453156cd12f55189810ddee06cc40f4cb1575327e8c02cd72c03805b7929f4b2f6c422def2450e128521ad882e8630eeb62679402ef026559320571d1f32258a1c348123432c63605f7118081245d92e2d91dca321dd90b2312af2503148316942fd980e3d7),
  (15874, 64, 129065490, 0x12ae221235132e7121881eae909f412a32a073610f62e0ae6a12e23078e831945196b221c9725af529a18228e725d4c092c6287d51add10d9ed03b081072412049051b8263f10d4eb12c651265830cf60eb5915cf41a7b012b8a0591402aa41aa70315330918b2fbc52e431259471240416db82869222d351537512741070ac30a2b180b02c951070b82f2740b6ab1da910e122293262dacf1ed4d0f1631bd92),
  (15938, 64, 129582136, 0x2d88d079ab31748074a319f6813f2c034e331f8816ee90ce490a1f71cf22169110b9422e3f90f4f013ceb11fac062b225e861ad2123aaa236540e3242db5914dac1e6312c947265b8217ee155a902370072101ebf51659625f1629e6b30daf1713107939039a11fd972cb0907722286b712890176ac25eb3223f3130d21dfad0b3471260e20e021176c255d0073d715e85036c32172d1933908ecf13af507572),
  (16002, 64, 130106691, 0xbb2d310872df611db7605deb164921d4d909753235a312cc20f633260e21a0a403d461a6af30f07039662dbef2828f2e04906b07313160f5c82224f30204131a81fdd82180c18f2e1d77726603248840b8d03150d16ff930d4921fa306918224b22fe8a298d71f2a6189d30b4592faee301990ac8f257060ecc631e0d078b524d72033a414de31fa012a20d1eb6411d0e18ea81e8e42674b1a5521e4721a6f2),
  (16066, 64, 130637452, 0xb6f725c212513921a9415583050c2097662130412fb70ef760e3c929b4d02e5531397263cc14a6f2660d13bcf2e8540f2b827aa421fe21e5ed2f9f828da816aef25f0f1a9c22d32a0878f0b24a08f541fb690afc82678e0c5490ea812221916c37241252d8b52bdf406ef3223f419ef3170871df69027671646e2eba123bef023592a1a5280042c4ec1d5301338f123c212d2d026c41d18c154071686624fb3),
  (16130, 64, 131154048, 0x1e7550c2f40f322300b92c1101598d1fccd1e0b41d66e13a41120ec2dbd105511293751397731f410ad8c1228829acf255461296f2c9d62dee831de7295ca088cd0922810dcd07a2e139e81a4f60761828229077e524899257791df6322b941ad732ac65263891056a090332398a0b4cb30e4e0f9c22c8a62cdec15cc4140b91279627d6c0d4d331d1328e2e192d52f5e4153e109bf00b004225152600e1b474),
  (16194, 64, 131678903, 0x2a5162dc922592e1c4b0058580b8c9180cd1a08328cab0a10d2e22b28a2d2a7351591004feb1cfed02157067f91e5ac02aed0b18620272242750ec58195ae1e1d807a470f49906a4727c532dc14166720ea45260700b58b31482219ca0d1ad0e55031ef62816f0ad81016f40672116b130b1b60e76f06f6e0f344228181ae59137a7244360ed2f1e3412a05815cee2d3171a82912d7022525101811eaef07701),
  (16258, 64, 132202639, 0x10b23062f02a147207f80b3792932c2bde3077c32de6e2dcca028f41324d302ee0e51407135168561b2c82dee72df511f7c93086e263a80ab060731115f310f3851eb030822629f340390b1a10a16a7018b9101fe61583931d701ac4a2fad3274b619e450ef0b2b86c21e4f28d33168282da7906b6c0d0a6311022d390073ad293631ea8d1d5561c7410dd130251806d1906ee3321341e923075580346b03c6a),
  (16322, 32, 132732154, 0x77cc2137700bee0a2c80ed8931ecc065c61e5992d72f0f2d602ca218f292f25312fb22e3a502b500f0932d1792ceb7098d1251ae0952f18b470a2702d086109981590a03ae416d281683515bca072f3),
  (16355, 64, 132989494, 0x1ecf90d9062c945243840440924b4a1e1091ebc206419282a131878284e312f0f1a368249531e44230ce625b232d24a0b78412661053e72dd3424df02250b1a36407a9129fc32de2616b0331dec21582267d01a9b92f9213166831e2b0760b0b7330ca21094e529e4e2dea316fb22cbf625357172b81056509a72127e91a458297f7312230b5ae260252768806362266922e9c91aae62dbc1315102045926241),
  (16419, 64, 133521434, 0x25db40e54a214901e78716ad4123eb02eb82262c0aef925426227d50c6f2255cc25fca0e73928857310e9071031c72a03b90160ce2e22629ee60a7ed0ea7629b020b183181d80b15118c4a0f5ab12070242ec0d0622ff452e3d63038218ae416daf132501c9c406a830a3710d3a3098f41fe292df42197cf0c6b7123150c01716ef7071782d5f50f349013192be730eb410ac73238841ea361672e228541cd39),
  (16483, 3, 134046954, 0x1fc3036362a0ae),
  (16487, 64, 134074352, 0x117a416f2d11f670d94426cb21295714bca1710d3196a15fae0644f2ab8516ae52ef3322bd81132131bc21ea1530c942d10304ba512a0c05a4b220e82587027ae80b00106937279d523be91e3f9164780f3f60d5c505856061b41a00c27bf60df361922c2af2d27eb6004b9194ec3196b2e802200c5093d9203c606e9204821321b91557428bd622e54195a80dae2266490edb0314ea12339210a6206d80e203),
  (16551, 64, 134606592, 0x1320a23758076a70e96e2979612d4321f5716ee7019a10dd98306f812acc25fd11e5ca29f98079f70ca241a30703b8725bee1608a1b914265910ed241a3432def6318310afe731583297ad0e06e3157106c5612ecd31db11e86c1a986299c81a1d3188620a0eb0e0ec02f8e198ed270752987627f130a12716d4722622252581916d1da4202b062ce3931592025ce2842f033470608b2db76134a11546303102),
  (16615, 46, 135127295, 0x314981e8f11a48528de918bf7267850192a02545223a3033f21192a1d58d021a615615031ae0ddc9245111d54129eb82dbb229eea2d0881dcb40b26c09d2c302c9217390f68c1be911d8332dc050395131e90283cd2e2220d1c4031c102324281812506428c130e2080b8e3058b711ded06a11),
  (16662, 64, 135505431, 0x1108f318990f26931ac8161191e11328b8f05d29067e831c18284a403025076ca2c86c227721dd2b2d4a32d8292f7491a4d504491077842657220d791125403d050ebe612ba60b92f25fc32306d25c9212ad6025541846830b15133171e34e1004c30054217cf2c6042e3e1027351d0462de0d01a650d8d60cbcd14bd72288f29b9429e060b7f0122a32cdc70218f14403319d0205380a5b303b63131d82e943),
  (16726, 64, 136041019, 0x290692f6582a4941d639313c614fc5185e60ba511fa4808eae26e302e19716bee169b720e31059ae2beef2bb3410c65081e521c6902f39193032634610f6925ace0b4b21822f0ec0412ab402d3124cf315d220fda73188a12da124e0a1d44c025b731cd1215a4294161a5a1020e125e881a8ad1e7022f697208ea30f982521320666315ac0b9361517413ad80a843290f11700b2db660b0890622631baf2a04c),
  (16790, 64, 136563359, 0x1e0cf19f2527d961f77816e821ab92170c80c5391714328cf21dbc401412226560657105b2111c4112c901e9812fe831df5906f550e2440c0a329ae511fd721b610c8e3148f9306b106d491b3f82d7c71dbaa030122862616d942d42805c3900c723150723fcc321272ae6128c35235930cfae00f781e0c80b7e921bc81a7f91e38831951131992668c065a7248cb2f705161d5247b703744219c71aa140a9d6),
  (16854, 64, 137086533, 0x164c301505240291e3b82170a0f2521e2941693231c82169730142b03814276a6071a903f2731c3620429160d816097136591f6521be19278520b0d601b94129070111018ed5199941de4a1d1031283709c48132af0d06c052f731af40686d0af1425e9706079307e3140f03190222a081b4d20aa88164cc1d92e2d16d1ad4f073f401d532e3ed03c330e2c523ea921fd216738011e611b54192c4069f4266f9),
  (16918, 64, 137610933, 0x2ceb2dd2d225930314329c741d22604aa2287ae1c6d80f0260357126bd92656c1f86f019980a0342968707c8b081d01fa540db792df4e1551711ba2006690ad182dff92212430eb80a7d20deb80a3f21e30a149b31d47209b1925eec051e30b9e82897503319211e8144f216cf307657214a802e871f69305fe22d56c315751d10a19d211494b2a1830548517fe125ae20cdee0332c079d612b74132070b755),
  (16982, 64, 138135783, 0xf5071979820db01a2012b3aa126b62d80a21b3306976038421ed440cb040e01516a362e1ae1e85912ee42613704f6e1577212230011030d9080fa240aa6212a7021903047ef132b2208d3179090aab8272a52cce72a2b51e8b01afe10f061060af1c1d412b2e1506d124c6240781e746178aa1f8a40b3a52ab242121802165268aa29bab1180a029a52ea1218354256ed309b31d9f413c69181a7158d103b59)]

/-- group 4 -/
def seg4 : List (Nat × Nat × Nat × Nat) := [
  (17046, 64, 138658057, 0x1e728077700ea6b26606182ad2a3c8224e6129941e98b2c6851714120e582d8650f6d108b2f0532b0c20b0ea0c109c605b6829ff92b82425d6831b771313416ad627ba50bac22e1680ac23250b10ad52128510aad1226b92bd8e16dc32e0ce218420aca106f312f6611511122a2a06e1831be82a4a80b653201010714a0a56506d6b17fad03d762240529a66281071a71812c4a139c2068a9292a4018b231df3),
  (17110, 64, 139182761, 0x19d152d3d431a6d0b6781700521e210ae75228a92e03217d910e6ea12ee3060850e087228ec0f5c20260a02e0f12dc82588c1910807bc219e4c1ce8e0ab932e3f4125232fecb2a1f221e881c10a1a03019262202aa236c71a2f00774d0f4582ca051686f0b0a6178b32ca3713b2a2f111066381193303a8925a191528414c210e6b325f9511289217c11a54416eae1e0072da8603b18170d60560e1a0ce0ea22),
  (17174, 64, 139708860, 0x1b081262d4288ca29a6a30c6116ab42d68c022b6056d519c541e0370ed7120115109c10b8aa1fb3908a0e25d7715b610aa490b3a2094d325f8706bb519a891b8ed2c5b41292c219251543309c2528d1421be5035c6260eb02c7324ad91f6e51288f16c6a19f78104ad317b92160726227133c131ff9231f6264e7314280b188127ee1245328fb21b5af1a489229161caea27d37310f1034c511b610e62d02b76),
  (17238, 64, 140238615, 0x1f6360b4d41abf729e681ed4a2a2071366b031730eeb00a012151b024b74265133043812dc71a6172bb70229e32534d1bf241a5c72e3ca2664f1634a21a6b223ca05c021710c210d607416224ee2d06926e0b2f7621a8b11eae611f5221c4b0ec911ac450278818f9203a4e2b94429f481525801d190a51528ba1318291e55407975267973124105c630e05122167313af2ba5406e0830626163982860a130c8),
  (17302, 64, 140770101, 0x6bce0ebcc081410e94f31c190eae813192298d40244b0a998212320fae1105ae157540a62a29c572a2eb0da02088e2128a907a4912259123681a74522df602a8d2770c1392e005571e475066e81cc3603b0f2dc270a5950d4630788c0ae191177013b4d235c11c22900e471de060efb2037b91dce21dc111056304c162fef921d681d52b2b398313441c9c82865810daa27c44252ab015f8153280e497125e4),
  (17366, 35, 141281394, 0x2239702da812c0e1182c2c5ac291c11344f1d4470d8eb217f11a79501248145e31ebf20679014ccc2b16b21071171301280128f460cd552663625be4119a30c9ed187282df6f1e60e287280b1e421a8f29422074ea0b8d7),
  (17402, 64, 141566894, 0x2fa1716c64313190f6f31a5cb0b76b31b5631a4c2a5061de502d7c600a2f02f78254a3222262cce9229f70269206bd0193cf2ffeb286820f157311d20744b0a0652018a0b0a3130b922f0331e0a07a12218640e8b215d180c3a722a440f502307021a6731201103d522e288317490af2a02d97079a819ef031b2c13b571c1ed16461038ca1e39216b901d6491cdc30a4f31c34b0b9412b56917f681f3c71f906),
  (17466, 64, 142103563, 0x121871eaec29ff3297620ef4702f15239cb1a7491c70b2332a0dc95113b90f0ea1450510e71298252c54a00d4b20d071a8e22412629acc2954821ea62a6ad2fb641258b015d328551320e32c7950f9f00c4e522342271e618e8d037e71e2af05cf80a44a133c4092e8256122c7081a6d90ec19065e32bf652a6d115f501649512ded13e262a1583125631d1816a871e0a22a1d41d78b2cf1528d021b9210f845),
  (17530, 46, 142625036, 0x166d419194062b7027f92c38100579098361e2f7078a5195a1203d50320831754063720c5f51d8ef251d0306390ee38166a330f0e262181a81318550218052a42e12d82072d021ac50eb022946f25e69132370f3431b30d06e4f31d853016629b4a1ce551de940652b215d40440f2c4610f2ed),
  (17577, 64, 143000825, 0xb5591e81830187223e41cc681ac3005dcc29428008862ba8729f2b073821a9a40222e0e6100b9082e843300d716fb320e171fa2202023127aa09d351d8280b4070a8301b87916482227ae1682b03c8d1ab6a08714194901a378316741cb2602a831d3e92198f293721e6780ebb41aeef2163716cb6116ad309b90746d31a051d6a2259351ddd71e1a3154aa23729124f51f9120f4b6149072476711fe403fb8),
  (17641, 64, 143532653, 0x1aaf11615016d62162f01307627e9122694300361c827120b42669508b3119e372ff4a3151318c8f147d5219d01ea0627fcd12a9920a421705931ecd1a9252c6230b30a21fd306e062dc91180c823c65148d3256aa29bf82cce60523005a6719ca726382162a51e6960ed21036951d4e61e9562422f28e512a14c1df151645115cd90b5b42ccc8054c2253240ea482b6d92202e166751462a3068b19a4e1aeb7),
  (17705, 3, 144056755, 0x306a4196d7219f6),
  (17709, 64, 144092707, 0x1150130559049312db3922a110742125c2f03972208060f2d50ab4320790239283035825815058c319cb1279b02d97507fa92b7d0077e609d220bcf21a2270282708d6329fa92a6451afe418999088a813633251cc11c8513dab1e44505e2d222b6070f71fbac2dcc91262d10e2721d021eeb2076a9116691d8e307c2c02b0107883314341e7321a9b231925163440e5d407608079f9193d5150c515a3231ea5),
  (17773, 64, 144617577, 0x1a2ae0b40c06ff3130731d7a52ec611e70f1e576074521d40202f472b8a8314ed124820d4c8062430f5f12199411e721c3b40efcf130ee0e54d310671e3620bd471da4b0a0432479031ded14ee10c0860c4670160105caf2a1ed01e4130f8f16fa3094e203b970a0d612ce8290d4043d7317281c98f321570f40431f68031c20f03703c502a4f80d071092f52e3d92de1318ae309b320b0ef07ba1022531c625),
  (17837, 3, 145139485, 0xdfa91ae881ecf6),
  (17841, 64, 145165338, 0x221960c51829444133b8123e61092f15e2d0d5172521431ef71ab0b2d30a2a54e2fc261adcb21469127710b4ed16696310e62558a2260716f2a2e22902e5408c0c21fa41ded20795331eeb30849052b819143065ac2eb8119d611aaed2bf4112a17128651adad27ff71c5e20f3782ff8e23b39307e8098f72c9c32df412d6d02563801d8a15d9313310019ae1a7342a2cd19e0d099b4025d80b0970df781ea39),
  (17905, 64, 145695751, 0x1ac67257330cfb118d6815fa32dec8017f422a332268a226580e835179d6163340087029525062071582e30c931eda60ff8c187960d3a40e92c02e69197cc1301412be2301790280c29635263b20f3f529bf21fc7616f760a4311704f0ddd3194e92285925bf51e1e70b23012952066542bfd43215800aa70f4090898d297aa25d2116d2902419292ea1ac042c0c10d8af19e3429b2d14c8d24c812986d037c3),
  (17969, 64, 146219291, 0x222452c789321411f4312974512bab0aacb1054b29f85133ea0297825843029e610dc406dcd2fb46186142029307fa712ce714b4f15fa715e0806fe31b53010a282e14928b910ec0103c473045730db607ab826114224ef1698a1e20c0f0ef2e7a2200310a36102f8d285b301e380a7931e8a10dbb512504035530754c155980e1ac222c4224cd29d161700a262c51330d2dbb1030cb270832b7c72f7c405899),
  (18033, 64, 146744424, 0x2da9516e50142b72610e311ac316e40b7f708068287b002aec19c8b1a74a2a3851dccd0332d0a330158e52548c294811648b1e7052fcc92262118a0e2c6a926501133e71aad83002f28ea82ff530304f09c6111d89150931d8951a1ef0f4e8310943166529c7112e0429fa3144f81d2b21fe97301aa2a4f61cfa3121491d9900bd65126ce039cb28694165b0225742e20b323c8270ae03a112657531f50098e7),
  (18097, 64, 147268848, 0x12e7030f9725a450e3b7315ad0b9350716c0bc27029aa11738036f60a5c724a501ad8627e6c2fa500b619318961e3442dee61fcee0e0d931fcc249e91a7f20a029267742dfe82a108132a82256a1ddf1060682cc731a0791b1820a8ad245b931a11160b121db90b211298a11ae7323aee015150e7d2064221d92730442163070f6b00972d266b81ed4124e722dcaa11dce153902a017004e6087ac25ad5291eb),
  (18161, 64, 147792708, 0x228c70765909e542d5d516ae619ff309c4b26263075732cd65263d1129c712c452a2a50a7450eb3916c4c11c880d24c032491a9290a4d407bed19177127c90a42f12ad10784416bef20bb90697905b0b2980c2fb300eef82dd1416f7403ce21d3050b68b2eeb53211416d372b1662672b143c42a393033d806c13205291a70e31e0b2190c123341e9cf1d4942de8308e2b06f522a411158622598b05fc121499),
  (18225, 64, 148316380, 0x3be425e6630eb7073f306c2c236341e30d303620d1a925fd0101af0add8217ce1ff362a08e1b4b315e1619f221e463121160ee891e4a72dfe715567226432b3cc196441068d1ab351699425e93223d316fe90b3272e2061e8ab20de21174c1986112b7914f4d271d62170d1bbeb106b406d560f6ab317d7212152bcc40a1ab08ad01bf2a31c372cb0c035d20ae4a1ce161da382172621c7703a661695632238),
  (18289, 64, 148840820, 0x6c032826f31572266422d2672e4652db56059581ad6c076d8204ec2efb623bcf16a19248640b8b01e4cc12f8124452123a2288e10f2411a55816935257082fbee0b4392c30d069af0ead3256e6161b22278d159f30f312323550eca32097721853259b20ffaa1827429b8b0afb629bcf0ae81216822dc361b8280b2b62af0d1318831af5229180774e1bb391a2162a7032394e2f4f6133b50f4d01ad4a164cf),
  (18353, 64, 149366576, 0x13baf03c232f71327a84070140ed58125861ad9801c6b0046e2042a1a0d43077112ca219b8d03cb42676e22e082216c2838b221f91ced330dc429f782b2d10f5a80382803c190b32c2ed64206960a7010bf8b2b5e1229541a8672d26629037315631336f263ac06d0a26cc305e742d8090e2c8069690bb0d169280c9a62b3021e5421abe60776727d53298560b22a06dd91e22a0a4b20dd251d7b12c5980e267),
  (18417, 64, 149896268, 0x209f4300341a4120ad61076cb11c0f1ac4931033267f931ca831a150b7131a339252ae2d74c31df82a3312487916922048f314f891562a038041ee7818ad9063f021e2f30c74314780f9a20246c02dd2119f31277622eb22c3a7030c40261428e0e0a3c8027ad1a4ac07bd4036c105d6f169842fad103f0129eca2d06821a741756c114d12d279212e416c090b3680e3a929fe61e74915ba531e702a36313bf5),
  (18481, 64, 150425777, 0x7d60b286149750b1661ebe92adca25be71a08827d8116eaf03b490808427c33293430ea6e0ea25317b61534208e89219aa31ff60e3c216ff71ae47269eb2c7e41aab9087092a02c0eae50fae40f32415de60a49812b29244160262f126332120b2575931a6a21c540a3e2217560b6ae11d412e035109f00e6ed177ca06082041b116f24075d50fc77049f1278082d8870b1012605009fb9086591e60403942),
  (18545, 64, 150944874, 0x12bcc3142b0502f158271eb300aae629fea0783012b332618f1aec425c4d1337230e410ca48319311ba4f31f940b283033b40700418d4a0442531eb10a134021a10043214ad930b2a1204f1242825bf401dd91e46612c6b0bb5025eb40ae122e17714ff10e23119e9116ab70aff93100a0944d1e107072b916da62590e0c484024870b8a919023266911d78c28834034982c95730aa80450929078304d610f8a),
  (18609, 64, 151463085, 0x616f2a1c40b58e1aa862600502c36309c732051225840b465276e502605306270e64900e481322d2734316bd41d68d01a73077b13146f319a11f2ef26f75190290286322cf027aa31d3ca0f07331a6b188a9165f4257e92518e1d933094d80a7cd06bb2188a13140431ad41ebef1f6b423c9107d971e6f430b6e0f590266720885115f642930c1472e074b421a8e2d10f2196e2d7a702d2a2ce4e0ed692d408),
  (18673, 64, 151989441, 0x1f3c8054440398a1e86a1adb11b7112d6c42aa76078a6100a411dab0ede1228342dff61a5e3156300fcd6096a905a8d24b2a0780d12fcd2d9291254d1205008b0a1131425ba82624a009b7131ae25b031323016c6b0638e1d1092f9792e3cd16fe71634d0d65728dc331c161710b1ad68121d206441267b00771701c542d896189832c3680ecc80f4cd16c4d19f411e5e1038ed0f00f0cbb9218751e1371f970),
  (18737, 18, 152517823, 0x176a12951605f2418be4070811d1a42c2832dfd92c7942588f1a39407d230d38319e061969205e8a0a112072a9),
  (18756, 64, 152665596, 0xa70f1a6d22d18c279832e0c52ba0919f48125e31870401785317550462b246232f7cf203a60a5050f0f4079651b13222e341b9221f59426629034640b462165c71c85609f6d2a6a7129ec19e562d9ea2e3f21afab0164a214701657603d330c26214d240a98b2260c251e9227b5011c3035ac25faa28a70288372386429c54240321df8d167902cab62dd053168313299190f00b163065190a6ea228e13202c),
  (18820, 64, 153192672, 0x1f12318dd61a6a125ac712c662be0f31b57105c70fa251e9a211278037a9286f12fa992260225238154142bd6e1caf7132f701c44306e6311d527bd61e753142e82795231bc82a4880ab371225411f4720b6909a42073791955725c4b0979212ea1020080a00209fd21ea81028480ed8316d951231931b2d0b73819dd11ae1003a251e39516b9115644316ac072a7279b50fd23074062e18e0f3d60d5a51a10c),
  (18884, 46, 153722408, 0x62c710c380e3040a5840f1aa03b0e2ba041a162180d711dcd1a5cd10f2b03e120a09125d942c6e30f4b52e297039140dfb3246462d9a225fec0ddaa1a86b1768f0103906ed8109c402c5925bce1e1d6050b7265710ed040f6671da4c21f831e0a50b0f52a28329338259d7049690a6b91fef5),
  (18931, 64, 154102805, 0x2d2d12e2ae1e9590e70621942217af04322067142f74c0974307c92140a70d8b616ba21ae321363824f46322b91dbf31228326244053f731bf40f6792721205841205181ac6e1d8071e9b42d3b431a4d2bcd1308e20a4e3267650b90f2e0122238301aa11190a19e430e7b4044082bc302c8551d14506f0f0786f1e5eb1adf5297e7215ab2e3d42c901038b0217192a1d218c820df9104d0b29822162911cd49),
  (18995, 64, 154626007, 0x31ae324dea12d4a2816125252076f61e735308512481329f28116581961011729208ca0ee18198d011f691352616c070a943172a60a823161532908212fe40b0690cd7603af50ec8c070760d9d2065eb1286a0da03308f70aa102d66c3152803125077ca146b10e04e12a45227521142231eca1e59722a12199b32c04d256a52f5192412916f75286f615cb312b861d64e0dfae17f6b25c7206ec61e69916e94),
  (19059, 3, 155148925, 0x29fcd225052666c),
  (19063, 64, 155173725, 0x31120e7ea2dc07286062def50caa230ab31d261030393160122657155f10a4c91aa0a09a4c1eae330d65132560f21706a8516a501ea09131792adb60abb003eb12ded31a5d10f5581d1a8219a72dd8a248e80d3022904915237161a816bd606a2a318092016e14d21299b10b916016c12864b2f43806ec821778125b510c45011970b5722df63038a72d7b6209560e4820b49202ba7312571ab24283a20a665),
  (19127, 64, 155715300, 0x43ed085422307301d55321842d757296aa1296925e7725d82131f429be50df300d0c92134609e18141e20f2322e2682238816e5109d252caab0abd11552208d64016cf067041e57911b3429563024550da0409de227c4327d762b749292f921af501fc51a5190ea512a071125531d8131b6af2daf8158ea1cbea2a2cb0cef82d2011ceaa146ea0f0510c083229e82d08e1f049028d0102b00c2662617619156),
  (19191, 64, 156237132, 0x340712fe314993197af276102a4e62cda60698b1782f2c44f2d5e405de91206d169ce2148823452028b919bab1ba031cd5218b6e0612a11ad61e3651f3a2011710bd980a2d931dea1ec341792d2c6ea26ad8288121a34815a3731897216ea2f7a61ec652e0c40368530465129510dec50153831d360f4032e5a916ae30aed203c5719d6e17a052770f0275206b381cae30a621128e70d3a70fe3112a9406e6b),
  (19255, 64, 156755018, 0x150161d8e40dac7032c82e1af0643212c391dc792d1d30a85301ca7124a6070cd0d346310ef2a8ce171051e27106a762cfac18d771983201c081ac542dd270e698041942c7752ceca2d60202b2f1a9831c20c21ae42cded2257307a13128ae018f01ea8b160ae313b2310120f00608d46180161655101d8d2196b22b6904c370b1af12b541704e242911af780ec74162270acf809bcd134aa29cac319291d4e5),
  (19319, 64, 157290677, 0x227ab1283116ec72535113d780e6d012ec42a11731f6529522040ae300b7263d40dbad0ff55053ad212072a4012c8e811a9524c9728c980816228744106ae263b51c6f531734099a71ad4506dca1e85730619194f60d76e0a0c6068d20b385289b606e8421b1307a7511fae2330d0cae4082b927a38112ad00f070b2f02611729d6f1698d29b2a10b76132530fa0412a501b7d00dba8167d4132921d3b419d54),
  (19383, 52, 157802921, 0x304cf1d4642cfaf1191312111259f90726c2def02108d1e0c3072780aed930538300c511aa60fc863072a2b89025951038790fdb924dee037550ea4b265e623d6f2bc17224c60b5072ac8602ea80754b20e380d9ab31a0312b180304c283f31c88c284211a231161e30f4e70376e257221311422b4316f2b1e91808e5925d2f25091),
  (19436, 64, 158232205, 0x1eb27215e7262072582a0b62612503264c70192c170031a7d91485416ad2015862a7d1228f6038832d42e1b8020685013cb50e60d31cc91ac620d5d40ee4a22cab242d021e012e13221bc62b085258960e6ca0fff81268b06b26228cc2f18e1d7140736712da82586c02a080e9d9239532cd0d0324a1dd110abed10fc212e252a12c297420ed191cee92028a03ad128e7621d4b0f43802313169b12b7d913b0a),
  (19500, 64, 158761108, 0x134a73124721b182bd84191e11a913075211b64130ab912e822677719ff01e2642226726a3730ed91a0721dc0506c510e6261ea1330c9203cc827b39288aa13368223aa2bd3720e2926f5230c4c12d0e02ac806ac1121b71a9b829d571a1f5314891c1652dca91a4b51a1a515fb801e12298590b6580f61802d251b537228893141402e97073d021bc51d57830874260cb0f5a21f6c512c9603b6131e8530684),
  (19564, 64, 159293334, 0x78e207e210b50c2be6d0a54a1cd191e0a82798a0e935075520a96d316ce12c340b6b413475161e62e04c1a85023eb5175812fe781f6160de19063581a88d304222022314fa511525015630aa722a4b724b5412ec3264f31699712da7038382a2262532d0187606cc71e9c8151cf2e2b81b6683213711ccb1bde7053e1030061bcc32a4d82b8320716b0d8111add604ad211f321f8070f08e189180588807225),
  (19628, 64, 159818088, 0x20cc051040f4e21360f1afef164ac31ff72a52e2fc060b9441f64125bc4169d806833018682b6c22f7310b1c42e209024911dd120b8b70ebac1afd531ecb2fccc16e62099260bbb61de2a2aed30f1af1dba41dc3528638192862a3eb161b5195460f3011df3930b50121122fcae1a342053942c26a1e0c631fcd29bcc09e571e3861ad300318b2a3cd09d700a5752cca12f098206541175029c8f09f1419371),
  (19692, 64, 160337683, 0x321450ecc511e791e3b61929430f960f504255f20f13703d5019d0129d0d0658a071b72c713039ad028840b5c71a0982380e02cad2b664008d222a2429b882bea429dd6209f51de4419d721e414122ac213540aff22e6171e2a331af21cdf320f04160b82bfb40af41018b4176b7112522978a2f5370e92f1d9280b8f30a930223771566e2e3eb2b7521a1a924f961e5450872e02f29217d119c732a04f11a37),
  (19756, 64, 160858177, 0x303ef2fbce2200d147a520ce715e932410602aa52952821e860382f029c21256b310300e32722a75051d40771911c46252b5158b108d0c02e62189c721f841abf112ad207bee032c30d96c077d81a3f01692b30c73166f11bdd829961104262fc932212e0f0ca0b3461e22d08faa034ef0fb8206d2c28ce207c070782714fe119ab01a9880d18e23c010b74b16d6e1a8b71eb2d0dcca23bc80e20b2a44925483),
  (19820, 64, 161386362, 0x197d7316c408a8d14a48281d4182922dacc1ad0431c441855205c28161a2033091d16716462220f22fca91fdd92dcd71ab0129925311152ad551872e17159261f81ac0f065351db83128362de8a1aab21e9d20eae22944f1e8ae2638b0f323060a118b742cb2a15752068e11074d23ed731f950712f21db5163f02d33912167199f90701306303026ef29253239ab18f782a00b1e23032121154f20edd920978),
  (19884, 64, 161909900, 0x1e7261176d2d7d00b53903a72223c403c0920a3114c01263c51714f09ab409c8a298c4267b331265084cc31fac2aa66280302d32729c472dfc82db640f545077cb2f16d025190713113a8c213760a30e2278e319f13070c145c6126ed077320a4a21e469078c131f71181e20d22218273302790eb941cecc216171a4ed2a3500944a076c80b6d918aec03b2629e5114b3131a122da751a3321f8f20f49630bb2),
  (19948, 29, 162431657, 0x132ed23c45011d324da72568a30a2e263621c8a5058f1109330ed0103d4720df22cc530780e0296f071721ebe610b192b5c80b5941aead189b003ca4164a60ea28074b31fb5519dc7),
  (19978, 64, 162684944, 0x26675049b312eea222963024309fa921a911260d197a9317b7065220290c0ed661940a31c172594311e892a26e23d69026d425d3611c4325d640ef49099d006b6f30b3916c4a0df57281d71d0f41dfd231feb03928066ac16a94253e71ed8c1116323f931042102c353117729a5314f37034741c34f2df980b76e0dca2219b00ef701db99180ce1a60224894214b81ed370856f19036194e51c70e1cc4f304ae),
  (20042, 64, 163201317, 0x2dea1a6c4255a121f09174d41025619f4e1601607bb717a0c0e8f921c4d314311dcc22420f20a0b1ac3929c2e253e51cad420131317432a423231a2286b331f83295441822a02b89130ce1de4f1abd8156981bd33254b30314f2d17012d620a5311e86d193c4052f12295904b29095ee2d74b165f720de81e7032a3690f5091f2190624b306370cf94194341ebec096a20f67628f58160540e013075c511c65),
  (20106, 46, 163727369, 0xb1c11614927c4e188b40b0770df5824ab8282f50733806d032d247074d115cc31dde6263391d00f31ad5126f82b7c124def226740cf2a011ad147741e8901458f2913721eb90b0cf16b081308c2e3f5164680e3c80abcb30542229f106aaf25cb91710a0b2ea29a360644e164522c4711d562),
  (20153, 64, 164103008, 0x2980928cd9246b9129f7305960f1b42a3430e8921e9a52d9e9294240164d0a52f2160930e540a2ab1f40c251f414af20dd3419e461218120b94075ac156cc165e41ec9524d79302662edef19e291020c167931ac8c09e310f6a825aea0454e1c7d516010195072e3e61e4731016916d9201dc62a511074a425a8b2fbb30660f1ffaf0e4e41ea3713398316ad14e963012f196952561802182026c5075a30c694),
  (20217, 64, 164644420, 0x16c44059cf196c319c0f297e42dfe61998302c98038b7257133167209a450c3a1259d31124f31013298a72263806ee2092c5260f4039702d72c112c70c5d822a4e0e22e0985206e1624f2121d541ab93050d615cf704651323eb1d64729615246450f3d51b901135610fc132c3870686322391189cd2283907871308b81d8e9317522ed0f1fc811136d16be62c15919a9725d012266a2ce6501bf72721301817),
  (20281, 64, 165159498, 0x95cb23fd20f0cf031e516eec2e3e216f7205ce119ce81423503d2311608124f90794419225075640ad24133ca2990c0582b0e70910da40b445065e5022f8067172a1461e1d90336e11f90244ce1aba81ef962a5a62b276030f81da45018091ae6c1e816192cc12d45224cf1ead9252c5065d606c7211cb631a4a033810cdd4024e40a773152272e01512bd11e0821ad770668d127a4224ad162b201da31cb2c),
  (20345, 64, 165687789, 0x24e522ec710e5a125ab213c982ce2e07369291cb299d53140b11d1418d541c8f428e2f29fca079661a8562dbec1b6f42628f06437091b930e2116d4c0976931f742da5306f61196130f7392260131e91198d3264e1133c7292361be4d30b0a16823102af291e70eff82d32d1df531d6ca102ec031d225ff62226c289c82ab901dde50b2491d634260ee18e6d28497076731397630ec82a061052ca0dac310b12),
  (20409, 64, 166219149, 0xed850a88d0ab07255cf0a08121d992754a01b5812e5003904261691d1502ccef102b50e7ed18bd2066cf132f015fa9082f83060711f580232516b270b5f90c4c51d8221ab741a9840e0b931981262f015c352a20c1a8a323fc41e676132882a4990e1342596d186ed1aef90d4672dd89133590d31106767161ab2b1e91a4f1161ef2a1a42400a083901d3c90b9152426e1ae980f69025fef1610c25ecf04dad),
  (20473, 52, 166741010, 0x53b6086a110d452824a2d6d22e0301a46a129a719cb91bc711ebe30f1e60373111c6812b592a1751e4f01aa300f2210626f21343248c1259070caa629ca522cf520b99096c4212a20c57427908180700b5712195309de50e4851da5115cc71ed0d013a6301342bb6212a4f221d403d192f80c20509039671d2cf0bef90e2d10130b),
  (20526, 64, 167163099, 0x29e011c6052cb8401a72236141d18d03ae509ed80adb80f2f2155691ab2f055e3039d4023341ab23120f60ee69170f1078f41a512226230dbe4123f01ad49315511766c0da96263b11afc40304d041e6065c80a7250b1b503f3610341054b72ce320710412e0a07b96062390f68b16d781268606a791c82d0b442170392b40b2c7740eed82d98e21d6500db9217061eb7111d1125ed61dcc8228a70b0b329a03),
  (20590, 64, 167699416, 0x57ce0a3e4311c32220f0fbe4210b32dee402c671e6ef23baf2a3b22528e1f8950dca713395033502bb481b10f288c1192380c3cb256e8094f40a7ec261051ce4127e8122684283872276d19f5203c562fcb72e18426150087450f62509cd92bff00e8b01e8a420f0d0ae61070f02d16c0abe60b2960281202555223b3228f8317351b4221e5cb16d4d1cee20876a12f613036c15e45239b12cd522885331926),
  (20654, 3, 168219351, 0x270af09b741ae68),
  (20658, 64, 168246113, 0x2f9091d08706a693212c29d2121fa2267a11256631d371b6ca1d2a42040a1cdb01aaeb06b292ccf1119ca2e27722de818c45166760f0ec130a51a92f160a12d6c2106b7271d706fd8170472c9c1206760a6e113316074392424b2893424844290171d4f02443221bec0a1f41c5c213b82240c70faa831eee2caaa02d360c9860ac04067f828bd70dd61252a123563224e903a0219ded0e1d50b0b80e24706a4c),
  (20722, 24, 168776933, 0x1174e24366153a11e9c303cd82a0a927f100a54c04518036ac0793019ba40d97616d09195d4212c416314116190b34809e080a5d72485931cb40e4b6),
  (20747, 64, 168971983, 0x360d315042a0950790d16dc8217362e13511d2125ce50e6570e6cd321510d82e132ae18f130ef0a1e07416712150691702f028a9260302394c10d170a7552e28e0aa8b2c8ef12f88074270ebe514fc202583311712a3b9309b7288020f2d725c2d256b61dcb8203f11a3060ac702af961df2321c3431bd40b4b12e801305c31e7f416e95316e208d652bfef0a186308c215c84205390ade3071d415b361ddec),
  (20811, 64, 169501682, 0x3ccf0e2111993205baa0ff940afd903a8a1d78630c4b256ac1b050316cf315ef0084b29d54201371a72a2d1e412ee5086021e301204391239725d4b21acc0a7ea122290b266017b82108a1a0c521aa925bc71557727d6106aed251811eaa21b147293231ad660a1d21eb2411329062450b92b0b62511b6615de82cf860d42d1aeb12d28c133130958f267d91ce6705eb80b6e62293412b09315081e1ec31b6e),
  (20875, 64, 170025094, 0x160c22984617646291ed16e851ae5327a642d1e1171442d5991d90719578266522d06e292ec13da102de50333321a6e0ccc40d36e07490024cd0ab6503a532ded50450812bac0e3eb03c21263681166b072ca289372616f2cf983086d26671133521a0ca171682ff9731cc60d9f10b26307a651a1151adc1274761d26c0dbc22dd6a29dd905ff21252818e841240825bd4238260ded412c4b25e94168a41c701),
  (20939, 64, 170551497, 0x224cb12f8731d1631aa1133f70deaa309c51ceb7267901a97926dea02d591b12d166e51a6ee1a0590f4ad17f650260b2c4652cba3067a3218550e14e19fab151522a4ab1cd710de55235d60a6cc23d2a19af52e3832256403869287f61cdec037450e62909f170a711220352732304d0603662075062bd30197ca26f55315e129df018ee9079a205c3502f220504b2413230f4506f2b310ed0434b1f38d0ef31),
  (21003, 64, 171074287, 0x132792dad809e471e0c9228c10f65913e4f192ab1e389072e507829291492394604c4801af92d4a20cf12319092026e037861da180e4c10e758036340a9232e789033b5157882d5e22d19802acb12ad70a6b325f8a13ea40d30f0330a0edc111b5522814145cc12dce1a0c92f423030d4246f22d93712fad0d9110b56d0f2aa2f3c7112f4309512622a0641816d6f25ae3264ea1a8212e0a41a8a8272ac054cc),
  (21067, 64, 171598127, 0xb3a1157961da02148ed316c1178eb0c04c0a6ef20f9630297279630a5992280a17f362996e1c6ea1104c0209600739211eb275c400fa5034ec214ab15f6e033c807bd2195682d1b3266090ed631eab42c2e60857106992121d61eb2a1c9840fb3312a160936729ab1214501e7472dd072d3d12971525db11d592215f0227950ba9729d0a021a71ab150c9722d42b11d8b293f91fe0b2c5410938c276b721728),
  (21131, 64, 172122871, 0x25c2b2c68c317ce259b705fed28dc512a691e82c2de890f18a1e9d512c460b71809f042c44e2ae51060ae1833027ed3286d116d07225e207a4c1e3b9075420f503163f30dd8a0616103d5703171038152e1aa069a115423125c3071ef16eed256e420b490f64713a27013541cf7415b902e38f1ff6730048309561c2222168431d8911af715af80bec71318e313450a867217ea159d300b681e33427ab531021),
  (21195, 64, 172647813, 0x1ade331f922dff50b3a427d020bac10a16c1d5010542931b64266281080d1dc7403b0c2f124019ec0c4a81a30328f2b28ad23028c0b0d5224362dbf831be301e8d1095413d750a56411459254b41a193304af162a827aed129c12d8ae1a0b42c7e307a430f4950bf5321f17189c40a3a730a540279825fcc2cea61e58a0b6720dc6d07ee108dcc0a2d325bae0359911083151e62ffd9219a81a847299220ea23),
  (21259, 64, 173170815, 0x1ffb41264212a2525bc21dceb314690256825e820b82e0f1512568505454241092e0c3286d61e0b528ab6158e40df8e06fc625c52222f51ad542cd610b2571962716be30e6e6219222212b1aa8328d1515be311b042267320f2630e651d2c60a9f030ba530e2c311121e7290b7742622429586227322d40e264e406982229f2307f931ca9065702a2a21e8b120a782ee5403b32158292e1122adeb2236306b74),
  (21323, 64, 173700721, 0x1ed51013e22249907bb9243a5125951792f15a481605700b0621be4192c3109f3209360630b01347132362a5011746117e1224e0d0d6152664c02fb1237a70a3d92130e1ee4231c2e127ed1714e09ab72c47025e480ef461e6c21170912b750b4ca2057111f4929c440d0b40dfc52862b077c8290b12175812fc41d0560a296293710ec6c1cc3529a502dc241284a1e0d3216e319e991d76c1e39329dd30d231),
  (21387, 64, 174219338, 0x6bc12d0022e2af2a3cb1090a0ea72303032468c164551e6d4019c72f60323eca1d5f915f441b98d31fad17e27140ae017c125d752dccb1d2921ea072cc8116a972420806c2f2e19321c291eb10253b9112c830b2807602035d00676c02cac0f1f70a64e1634e1e34813fb111e450ab902bef72488b1ed340f53818eca194e226bd8248c8290291356a2bf642f8aa095e11006b0cde212f422dff0073ae2a497),
  (21451, 64, 174745714, 0x16fc721c4a071620b00d1601302d86166b32e3e90284e16d932a6ac0e4622155327bf2119a71ab52186e426c3914e472ba68316aa16bd2012711f3821aab80314c2968a2d52e079812a02f131d40f031080671e458257f71f029088a71d8ee2a4101ad0f25af01674c295eb16bb409a8e0ee3731ad20f6a22b7c229e6f12ea82416c2b46c1e08f2a0f926c632fcac1a77626059097621df78171031a5c6154ac),
  (21515, 64, 175268182, 0x2ffd02fef42add91f82f1a69012c192c949307120e5a4176811182d1a4530ec541d18423ae60320f2d5ee272f506f8d1c9c116a8412fc329f111d4320e67822247299d81da4603d882a429035c7075c61e7330976c21468128d81288e09fac0a38d0310622b412e3cb04d2c02bc803bd12c6f305c0d09aa701ff82134a0c038106cb3046b1648325d67299590e36c29db62a2ea01b6e16c4b168f21fa4a05fc7),
  (21579, 64, 175796607, 0x28b6a03ea20a675243691e819198e7218022200b1ead60b436263b402dd031f75143470e9f5211e72dcac2876e10ca831c2412d3430e532e1b90a5210dd671afa1162b50a9530eb2e0a8331502d25565226510d3261975802cc12c9072eb9419e363094f156332bf8a04fc91aa0c0f00801c2130d6f1589527fc2092c22cb0a0ad860a1e9318a4253f62592a1df3429d8903b8b1c22810cf23180729ced0c7b8),
  (21643, 15, 176319889, 0x2dcb710da31a2a5065e2244f40d74e01b32061d029579211512899621af32de6a2507102bb7),
  (21659, 64, 176440132, 0x2de221a84b2d3071a08e0e9ef1e6e82db441a34e05226057691f1a7224a612e052a1652b9321e08520e180668a227a5077f62c30203410189d7028372f02c1a5e81ac971575728d7725702118f81e982128e12a3300f0b90e0f52278b0b7d90d8f712ea730ec716d831dd050397730b1917042312d613233034a61130f0dc7228ea42554e16399184af11a752da280f2af29b1328724149511fc101a6d81f907),
  (21723, 24, 176972456, 0x28e562e14c0a6941610f08daf1863805196081cf3108b30faa2d7b0098ed120f1259d9152440379218d530b00b2a1d72178129e3116e6e10ad3099aa),
  (21748, 64, 177171530, 0x260ab31f01123ef06d5112c762ecd90ed8219f3800887215c731fcb073830b60607898264a719a7428c78127a3071131dd3529a33219f9228d616d65198282df782456c1ac4e1cd6a06dec04f130d5b40c3232c866038b619de321de101663198a60328b2d3af006a602a9021549228ac0e2990758f120041d1ae30a0e2584c0e9b90773323fd72580a296a623bf31cfb90b4e7081060a4f00ecf9192222cf23),
  (21812, 64, 177701811, 0x3aad0518d0b40631f630f06e0170d2bc4b16c980732c277011674312864195f030ec328b611de731aa8812e62228a2254d81e6793144226a17306b42f490162d324cd00b17309ef1311f6015d422298265c61334821eb50a8c11ae1212267100cd12cee1a2a91e6971a2262d2d702d6d25fa51afe51e577305c815b21125b919cd51b8732c4cd0ec930f5f8299d2013a90f4d2214981e5141dbed21ba51266b),
  (21876, 3, 178225713, 0x321a826dcb31723),
  (21880, 64, 178257680, 0x14d0111baa08d582954f2d6d1273711a5d70401915b552813013ee92a2d62a81902b8224eab216b41a38a279b12fd2f210963192727c711cc091d4eb160cb29ca20b69419fa427c0421c0b152e80e48819145015eb0ddf930522300cb01e2b1ed0a07927169c82de2e0aa5206f9924b342a0f7264d32d92b3044a05ee306dc316c302a5491c892190911a5870822802f6b0b4ec1c8422b88101cb72b7a117f6c),
  (21944, 64, 178795343, 0xf18f098291e2212b43324f76116c50e44c2cf040f2e11a7552a38415cd807a0430e341a7052d4850ee66170f01eb2109b770328421db325ba403ac2033f61192e25e64129f224629038812d6ef245152d76d0f313124b0300e42754b31cb52e3f00790e0bb9602a6f0b52812c14211f22a4f11d2671345513e8b03441274b230d77059931c454120f2152ed1eb6e13635103b90c3700ea1302282129361f3f0),
  (22008, 3, 179307004, 0xb8d329e0e1876f),
  (22012, 64, 179331095, 0x11bb32d2700b3ea1550419a4f263ae1a58b2df020b17806bf93036a30f8405f2f2dd8b25295031b80e4ab2be33169ae079f010fb72a73204686299e9227660f65615fa20a02e0a7b703029222612a52312fea079cd218243183806b361702e0a8ac2e39615a171a6330b0ee03d09062550912f1a20d2a070051670afd218d8c0384629d830d34d317321316516d4a0af210788b19dd3112321630a1946f06b8b),
  (22076, 64, 179866860, 0x13b880e0d814b8a037eb127f32d7382060e292332a10b0f2b412f10039c40e06d167150edb92b911262760e717277ec2c7860f0eb1bfd5298ec240e62d6c121e66271c8027d427d4e0e96a1e5ce22a550aad60f1ac242541da3229d47187750aca611e5929a8702a3331bd5063cc1222e1e608097b10b403012ad1d2a802d3518ab00dd6210406090312210e2e5ac0b32619dea060780736830cea1478528cc2),
  (22140, 64, 180395067, 0x69271e8f8307e71b42b0ebe22ed751d6620e3f11a7c424e790cd872cdf91846c1f8d212392279af247270eca501e1417c170f4e40226b1ad3904cf9299090653716e922f2d621bc3306961a70906aea1ac051eaa50e2f21cae609cc904e2502df60624225450261d81dbae18510027c516a0c070051d80d1afc328f94030160a1a82636b1fa8511dd42bc222d60f3150b1634531cc711a242f9ec1910c21594),
  (22204, 64, 180914650, 0x6fe20efa103a702def22b317164111cec91de431a9501ab2a252e41940629ec12bb6b018780b0eb167081174d2e2b61ae770ffc9114ce133f008e340bd101bcc52f4412bbea1316222939267931f1b3283f529bb50b6e5045c82a1ec0f4e9078d702647195341f235127f81df621e9162bfe1213562dd692276e2dd972c43318e83126cd12eca1a338207b21d8af1a21119aee1921309b641e6381593821db8),
  (22268, 64, 181438062, 0x212f10592b30b2304a951e6f21a9721d59131e21084390ef290ac2531b612a173299e3066012c5c41eb0709b5106e4e0f2331d4a600a6c2e1301d222134121c0c329dc6055a617e4919219071c419df731990194d90b74e0dc82045f52a7021ac42239d8125e828c880e3a3076a312e2b14125263a5133ed06968023f82d5f130c712b24604ef505c6a15085119f017f31029f72a01622813033c32a47916110),
  (22332, 64, 181963692, 0x2efac209eb05d35187ed1aaf61eaf3176c2159850b3231adb60a1c22e027317582a2a42cb6422f4511e220e212072411336e223a41a8f303be50916a2cdb12ce6b3156c0e6a111c2320a571904d19c7129ac3166e103b4a1e61215391070991d042315311c5cb0652402fe32cb8531eef28f3829305113c70902f1094e16702266551a99822276169c23110321a710eb670ef4315f981bf4112e26261922daa1),
  (22396, 64, 182491578, 0x20f87083f816d441a6f4197c31d7ca27c2e14ea3037220185321ee90308e1304925b0c070ce1dcf21e22b00fa625aca0be450ae8d1660e06c0224dcf2a3923158b08ec616ab12622d1a5701ad6d2f6c5264ed1306c02204223ce1e9c60e3a80abab1e32216c8f255f825c9928f820654e0a251280a4097d427d0719d0f0258d0d72a079b40288a2db6225bf123e681d38e1e9a82d88400b8d07a661a52e1d2b3),
  (22460, 64, 183012881, 0x15106271f31aff9184121564e28cb916fec099522318209f07220251a9c915de13210c0ab34215e915ded06e3531d170b8f81afcf2649807d111de2429f521ad8b170152e1ad169b8292551c3511f965293e616eea27019320e72d34c21887276f6263191e52f1a956019452676702aab00ff10753931d861b82f2e70f0e5760f19427fb718b2a19a080e4c413f0f1163603a431d8b9076641055021f821e0a6),
  (22524, 64, 183546171, 0xa6a30aeb80616e15669154300d813276a21304603f2b2a677282d51ac27263f016e102859503cb50efa41122f25ce1006540acf725a6d30ab70314d1b5220a2b8036cd0b2b522a2e162ab0648731ca3217ed21d34281031a86603cce04ba1316c2154d81692305805110ea14f882132d16f3631c4211dd126d46306251d92225bb51aa84070890eef72a089032270610627eb2068d403648317792264a093c5),
  (22588, 64, 184060433, 0x2f1e4163d02d9a3199d9214b2123c5288d82cca72a2750f36f318b01e210258251e861315f0124d921c502e4430f2110ad0426cc22798c291c70e6e90b671261212996b070870a815166a91a8972d34b22ee22504615f67153451d1aa2d26c2d7a430fc82d7d200e582dfe42d56809d63224af0102b290d031b4e166d111c960b834028730cdb4142152e1150762d0db6612bb1148aa3213111f8d1278430aa2),
  (22652, 64, 184588322, 0x38051ed0124e321254c16a8d0e5810f5c9036f40a9e31a46f291ab261330b2290761430e2b0b732165ca19fb31afe930e521738c2626f11c152d3c40c15231c2f31ca61082e2944129a2621d63115e51e6c522536189ce078b6264c129db9110a6317e21713919678118e914a990efd8150532c54e00eb91e9b21496903b13020540d7650188f0b4640d9b705ce7297230ee4c284772dced19e0521c7619719),
  (22716, 64, 185106998, 0x12a6e1a98e1e98f1c5270a2e50aae7255af158222618c2d3c2030702a48b2c9c52acf2240a7108ab1bbae092141fcc81e5e21655206bed293ec03d562e284039761712f018812cc94282462cbb4035d701dd61e467262d01c0cd29dd0221b405fa90e6420aa341564330f25262260f3d70ed651894f09822133391cc022d8251cb29075e117b3309db204df7257e817c8d133b4057972424e0ebb31b3b225fcf)]

/-- group 5 -/
def seg5 : List (Nat × Nat × Nat × Nat) := [
  (22780, 64, 185632089, 0x212821d051094270dfd41c6ee02ef3216e60e46508f241691627fc921ad207a2f2b0f1163411d0d4196041341306cf809e8612aa70b4080becc00c112d4b50a70e0f1c6115a1245322dcb8017462d91730a1612df9213231c634248a10d6211ed4e2c4c630a5515a4d1abeb1c6f13193329e6c2bb78020180b4611d2c51e88e0285831a812a6a60f0cc1d357317c12d586034ed11cef2c2241d27807bd31e7ef),
  (22844, 64, 186158298, 0x228d825d2d1a1d6068651caed2d0290b1951486614f0d01f4d1a5f80320c1db6f086231674f303f0295e81abb80ee340a2862d4821d6b504acd08967018191e84d0b5cc312011ed481e4232d3b116618228870b4b020ad6226030dbc4178372622320b860da76194142d40b16fa90fff11ac192b3520c03916c0c19821172ad03488043612dfb3034c901b712aec5196680cf562faa3246250392e09e731ceb0),
  (22908, 64, 186679517, 0x680a1b59612d4b1ae6615a8c1e1ea025c9165c4009b80b098010c62d08b2530612e562660203a391b1502cfad2c144167e52146f0ebd20b7e62dda812fe52276f15f591e48c1444b0536503c91090e91d21516ae8168f50aa1331d692d6990728d2d24e1e29814be4161722274d22c9219c30255411643227582261300f605182341c4a9286b5186e7046470d52d15ff50a10416bd312a2a03915277791ebd9),
  (22972, 40, 187205957, 0x1a92125ea30d1740e1b51d7711df6830a341a46c1308515cb206ce803d211652531d443012d192270094b0982c204ac2d2d6194e70dd63168302e739083220a5b821955317ae101ce2114e2f2632a4cf06f8a312ac2de69211d5260e521f10125081aba6),
  (23013, 64, 187540370, 0x16fed06c4b31192203d1127022d745046241633121c140b49116ba51ee3821ed40a7cc2cc0201a8b2a282226640cb0c01bf9130032e0480adc316c3107591263b73112131f722dfd51e5c4310982946b193c927ef02d2980bf72073ca1ac092c8521b2a819c171b265239440a44d244032a14f11f0524bd32483931bc312cd829c171e98509f5606a101cc8a31cd326781079290f00706a9228bb725be30a3f5),
  (23077, 24, 188064104, 0x16ee4119b82d7542a0e701723312d922135260102392c06ce60b90b2555525eb107527156472d6a618fe912ce913d2307650022751622a1168f29a6e),
  (23102, 64, 188260577, 0x108372d52b016d02a4e1104091c2a329fb32838430fa925d2b0e4832c0d70a7ca122090b66d31c0e0f4c125cc50b0f424df125ba716e6f10ad419a422de2106c640c81425421287d1130820b3171b4250a7350b605024ea16fb712f680a7ef12bd7072722e2aa29a301a7ee2dc04132f60b6c622914031c612ec514a140eb2b22f072c0a5128b30b36f0f36a217160f24e17793087c231e890d506230b506518),
  (23166, 64, 188798512, 0xda90174262a7d013d812862721a4e129f111cf102c772dcab0889225c32039f82a8c906e110e7e61a0cc1e0c703e8825fa12290a1440711e8b0dc4826651186d2055b52b09202c880732b0d9d116ecc1563425ab710bb508b720ccc106a8222628093b31a29312d460a42b30ece27bed238060685620e340d85925e740f17918ee5250180ab45296b91e4ee30fb914e0b11910026510f94823857279b62b5d3),
  (23230, 3, 189320956, 0x228c2f5e326632),
  (23234, 64, 189345433, 0x1ad7126dca1cd351d1062dd241852409aef2d1f61d3c62dae81adea1fcd4155f002b640b62203b6d080b02d50e05a481e92c02e6d259882c3e62cb222a0b428743236381e7c2009a922a0d27fd316d4b22015295cb05b1912f6709e4a007a208fa1170d10e3cb211ac07aa21d38a139992a0d90b5361d1932fc480e5a7257e416c0d05f111d2a32fa0d2ce560ef111886121aad1ebaf030e81ab250050d0d544),
  (23298, 64, 189874234, 0x294d6066700c6ea128062c9c725ac30a015073011a35425d830e85407888028c61630d1da3116224299b81a72c0a26c29042055290ba77132f31bc10036990d2ef03c4b2fb520a981297b41bc5112c9712dae15c94120a70cb66246d22102e30fd029b370a6642a20f19bf5063e90bd8d2620a091a90742815ef02a2ca0704c309cb2067104859070581e4aa29eeb0776c2b882072622b7a20de8a284ef2158f),
  (23362, 64, 190400701, 0x76c229e07316e81590319f08125b403483261591b40225ecd211cb1cec230e330737715e25147862d3a50b7870f624026681f0f91dba70580c165872daf91701409ee102b0514d85078551431903344071b0021ed31a0c1ab0331cb22f26e1e88412695215d027849022a724f37318840a56213e840382c29d69110761df4d2a11631e0427697217081aa150778503f85088ee228a101bad06252147830ef99),
  (23426, 64, 190923184, 0x3106b2b2f92df0125e6719d911c9b1210f80e4ae0830409c3710d881f0042a1ad16589255cd0b10d24f6c2a00611e0605947074f806aa101d6905ab10744331af9192af16c420aed3256c41a5b92da080a4ce26269194d82d10200d01130f11dd162fe2a18bb90b92e2e7161ff883102712c35110011e5d10a8470f1ab1e3550fef71084729d44223f5225c2251e229a840e359194ed31bd203fac00d2720f76),
  (23490, 64, 191449117, 0x257311adb5170272156b0270712db329e890648c0a9c528f0b119cc19ae11c70709b67224160b5032e12c109340cfd819928197851e7d4204d2288f21a55305d8b129a11d7c32d2ca0872f0908712eeb0c60d0eca203ce611e03091080f4e3078d906d2f30cf9161570dc4d0a3d3284ea2b43225b8e0c704092b6217e321988122ee1132307332207f925c0b31337292f82599715a4118bf62de970b5062f00c),
  (23554, 64, 191973495, 0xf1310a96c1e55825e281e1780b1ae15c731ea822ebb8093100476323841222d50222916e54070d501a360210e30e6f2def12210b16e930f692042b72956a2265305062277aa1a496319e729ece03b3010cd91670b0b7542e2b901504078f2271d2264c416a0f1700425494231271e974032cf0d97006b0c1ba8d29bb22a5100734d25bf025e7521ef7054b12d0f10f108030d5167f80a7a62e2930b6520340b),
  (23618, 64, 192496431, 0x2a4b6112f221bc40e44f1a9ca3072916aae2f8921aae40a0ad1e1d724ded0d5f5224c52662c07a4a067cf212ee1324c252122850129705222091e6f508d8a0ef26079e72a3ea028850b4aa19890123412db711eb042d5193142231ee11c6891e919256ee2bfe2293512bb462d94d31d870a95412c9206f0e079ce216c3247b62ce57075b81c5f810c8f158b012622053a21d4d524daa14ba620e2a25e620a933),
  (23682, 64, 193019997, 0xb1ab0f0020ed542da19026ec038522d330253e8069b12f3b52c5cb037732bcaa24606224791976f217610f68d036581210416d30226171214d2a3d60dc160e41925941047461f2a7038ab3190716a100a87711e2513f4b0e7561937012bf812d190a96a0e6a42906410fc71512d248a805c6528e771904a16b9606315077632de0e1a614028940dfa525a89024b82d90b1611329f63296f80f9142a52903c0a),
  (23746, 32, 193545039, 0x2dcd427d55311101e7272fa2b16e830656631d8c2d6cf1714202c420ad6602ab5300c40a839075ab12062172ac0148f09871235771e9c9149341148700b77061231a7d816e652d0e526b2a2466c05296),
  (23779, 64, 193815382, 0x18b2e206d9067961e32521d6c1a3b0053e6035102e3e709d8900424097d71d59615d0d10c7512ee630c862b8b82db6121bf3216e506cad1fa2a289712d0152dee22ee75320d40d94529e830c273247a22a35309ff1316080aff31cc4e03b272d603196390adb729dee2de433238818ae72d026112552c7f31ebf3108ea281d3297971ad4e08e753156d0e3f21a308100072d4651f0092d4971b776290481e615),
  (23843, 64, 194343543, 0x185862d9eb02faa01d2125ef21c7f10768f1f7a51d57200ff21152d0be921c1cc323822640f2590a31089168742f8a817b322e1c60320d100f41bccf0a210158f41f80f00a5606fd61e0a92132a0e5840a80424122161a30d6b430cca161e7069e7070880eef4219a62a04e01a281a0cf104ac0364f3154222227166010e2af1e94a2dd6b2d59520b4e1e7e80602b06af303708128b82a2210548a299c92a265),
  (23907, 64, 194868503, 0x2cb970f28f033a50e3ee0a2410528d188a51c2942506b1ad050f675126b93148a29968228042d0a30688f118d8289760e8c92981630f38184f4068d70b7b907a3129b4b093c209fee16ab81245226e58044140b416045a22639431ca7143272218a21ab916ecd2874e19d142cb9612d141afca06e321651115f4e0354127d0402d490eb0e21d470d4290630222631292520b05903f2421131035d62c54716e11),
  (23971, 64, 195390563, 0xb7311e0830339230fc70ea6a075292288c29b950f2ac29f380b2e90141731b4f1e9d32944e258211ac9109ccc019d7224861486c140f223033099292dd7731e3022785117c501d180a3b4022c430c0d213790a30f0ac6b1e9b50a08b256e2314b016eeb16092076470f099067a52ee472276b0c685187e822a2b30046163d322222132652bd220799709c11213c1112ef0dc522064b2552e0dc8314b670978b),
  (24035, 64, 195911842, 0x1a79929da617ba60425622f0e219d916555031612d4430ec270b42f31b62168471496a314380c3030d3493135807dd10fdd328f2d2f0f5258562bbca1a68b19e020d52e15e92041190e2792034f21fe929e5818e86228d72d0281dc5419147296861f1872815122f44212af0ce6a157c50f3a62024a2974d0ae3021d0b319701c84c16971270b61d4281a17321be2058571d42402f2e0d1b316e56307310d779),
  (24099, 64, 196437019, 0x2ce4b03bc21e68a046500e6450f7e52ed6e1dc102db060ed62061c6032b81d68502ed93183914b300e7021e0b30a8a120de90ef4531fef0d0e81178115cc22cd6705ea10e54c258b80b6a731938010151def912599077240f2d11e8910ec7303ca50a7680f0cb0f4b2319f3052672288219fb01e2240ae51122b6123cf0abd631b410a98f1540e02192026d5215a72ddad2c2e41dcd112bb2264870762e23957),
  (24163, 64, 196963078, 0x1e3280f3740892a1db642be9224b61127cd233ea1a81003b0314be204c610b5c319005127261b1f91b60e1a84d14f6530d031fb5612e512596903b9421314132621de97096ca224e707ab409d3423561081851c6d409b2b2b98d04f470ef4816c41282b41bda71225830c010acc71ac8d0e0f3257141e5e52c5451dccb25f850dd462c8621a4751712e1096b276e1020812a4340f5c327e6828b41174b521eb3),
  (24227, 7, 197485757, 0x18b29216940e4c71e0682514a251c71d9c1),
  (24235, 64, 197546614, 0x1ad420adc421eb826292010c90b0ce1f30529f3231c221f601057792d7671190e25e442146c3142f011862a273072b02d32c099c31e06f229130cc530db3616e220ec921a0f61ddea170e331d66105011cfc9139311c743274921617519506036e42fe231643506ef52cb3530b2e05343135c223d0d0af781d8ce006451e3461acf01e7f21619612e4c09e99273511e387097f000c1228110314a70f0652aecd),
  (24299, 24, 198074767, 0x168330f2f30f9951e456317592a1412c3281d8e8257f5290251f51214e2716bf916bb22a3350f42f2a2550e42c0680d302e8218041a0581d1a90d6e1),
  (24324, 64, 198272078, 0x7c2b0458a1e1ed21ac2262562328801b4b2c24328ca201cb9208c622b4711b8a2638e1cfb6114e921a2121b571eaed0f18c0ff0623b880932d2544303af916c86075f72ba7302e2729c141ada40a8e522746130a41e3b70a79731d2e0dbb117f8112fca0ad820b58a220ee07976060190cad12deee06859118820060924553311f019b5002b8e2ceb121d930e395288cb1d6912810e1ebd626a30022b116078),
  (24388, 64, 198819569, 0x12f161571206ed11ab2926f032dccd215742a4480b8a60e0b8180642d98331cd831e8629ae6292131aa980f29406ee51901821c271200a131b1092d4318a20e6f71cc210d8542df99256ab27a8c14fa10739405a321aa7225b16181592bef50ad2522a3503e981d9942423412ae315871107570274330fa82d7b2030e32c2360f49706d022dff20f6211abf6056a615a850fe611aeb61955031a90136f521fcb),
  (24452, 64, 199328308, 0x2f4681316b31d93074a527bf4028c1065d81a1a103a291a4ad2d814122611dca10394611d230e3d11622d24e590cd672e06e16fea0a4163119529fb02e0c112da9317af31b8821d75224180ee68070ea31c0f12507308f212f8e21ba32cf16220b20cace123e91fd990e2d230e2201852188931a5c8317c22a34221d981884113f610afa3039050de412f9353166c2e2ad135771e4e42634b16d6311db413149),
  (24516, 64, 199857830, 0x119d00b4440c8791df92077102f8d60a759291ca1fc820ef8127c0a2d2b22133601be60a3e51ed4b1ae6d0b9342628c0a88a1d12b0b72d2c9d729f991e6e60b1b4164a71a5c22cf2b271a72cf9112e0b0bcf021e461a7f403e8f2cc740e918267732fe8c0b6c5165b705324055ae1eaa82bb5321d640c62415f0f02b390778618f0211f4b18dee22c4c08fc62d50d043e91ba061a67022f952e0310f42a06849),
  (24580, 64, 200379733, 0x21a51027280ef232fa830a34629ee826172024e51fdc4212d10e7e902a69171150cd641eab2060250a91501953021540eff700993248c919f182a65915d6326654219960b62116ae916a54256d51d6370e0e13168b24499106b829a06312e402c24092c42225614003034652b0a40b0cb04f341db5930a351d4f109e4d1e4f11ecf731913141051ae8b11694155300ea341cc0f164561fa65296cf0086202daf),
  (24644, 64, 200902803, 0x23e4811ec60de2d222b42d7760cf411c0ec1dc822d6681cb2b0b0b21478c037cd2d0091e6772554c1cd8d12d98286731e7c5089ae204cd223ae19769039ee2901612e061334e0f8970a4b514ca817fb0280c910a271a2af311e11314620a37037f4167e11ad2706da816c0a16338189cc2506f2bfe6039d50520b2532f1ebac24484312ad2daa3292e523db21228716eb91a4292663501842221251afc51ac33),
  (24708, 64, 201430494, 0x1abe11e581079e905dd206b5514c6c1cee10aa27264782d8ca004f72b7d529a6b0211806d340953702c130295821ec92d06b0345225aec00de7118b90ec561dda621c0d0375929b34112430379016670252ea29874063f62d8051e8502d925074371ca8b264cd2b88b015982dd85164282d67921d0f1e4ad151f828c6825c790ee14027e21cfe825f391eed127ce71a94b2664e0d70a25561042e81d0720386a),
  (24772, 64, 201949755, 0x28bd42d2781cd630a49319a5715063026322262a28454271d3264c3059292a12f29f93116a1076aa1be6221e6317013220052a6af258050ab1431cb30c0872c5ca0b8d8255c6315052a89009cf80a6882e22820b5421e451290b1ec550b4410782c308732660b13029063211a5b21ac4c31d2406b6e262f92da0d00d022674701bac28f18008f910ef009bb611bac256af12973294d327f972c1a925d4611841),
  (24836, 32, 202476996, 0x13be7311720abe70b29522a0e1454b2c285048490f30e21d141a735151e715cb720132186172a17419461011051d399162722130d131032e1480356629e042f68b18d6c25b95292ab31078222b91e332),
  (24869, 64, 202742892, 0x1e60603a762610102ff30c6cd0ac0501573145b30aaf92c7352502606def1cc441d5f400cc620c81219542e2b401507221932c4010954c2248f309c4290b00a00500d852c1970b814061a710dd8079b20a724116160be0331e6921c300d4a22fb4a151171a88203cf20690a036891fff60b65119a2f1d3c522e172dae731af616af703195263d0184510b5e81544f0ef840378703ccc05c980acd7261911aa8e),
  (24933, 64, 203268982, 0x99220e3ea2450316d0c09672032cc2c46c1a6e9031a8316f41a3183161419893064a913394191f32f7c31834e0f1072f139160cc312c129c721c7ee27cb81c98e2dc3125fb61e199208d4179d50d997247b50774f05c9629aea0ee2c284572eb922d50b21c5609ba61ea8f2c321043ef0c139167d1288b8078450b6e20f34f1b1af13b0625c260d09923eb92384a029f10f1f12772d1277925d90170d0291a7),
  (24997, 3, 203796713, 0x1dba831cd91ad19),
  (25001, 2, 203819302, 0x31496064cb),
  (25004, 64, 203843095, 0x166e80fe022a0942dad925faf218973212f19d300740d0315316ae723fe52de8b282260732208ed7021ce0c5a20107727ff0037182219417f991e636077c2036352624f1e8f60f3b71b4351b8e32c5b61cbf92963403c2d2cc680d5cb1a4b11ea85011e8257c802a231d3893062b29bf91ae580364e118c92d934033cf24e1224f291252c07691130261e52311ec30e8212918b1e7e31afe719e3503b3730077),
  (25068, 64, 204375308, 0x11cc4133f32f3a5218342e441265b90cfd9297942506e1eba31d7c419f3924512061710f4661e4b016be812dd90f0582a1ef248810cf361c4f216088199152cfd502e81259b42c5c3078230c91406da6297ab163c91ab342ce410719507999224ec055ea004c219c471a8630a3a930ce80992c2dd0409cd5133f6189681297816930297020bbe41f16d0ad501ab0a1480f12acd2bd8c029b51330c278441088b),
  (25132, 64, 204901407, 0x15f7714b9928e0131777067b511ab81a76d1e94d05d6c039521aaef0cab3319ec25118075a819c511a9cf172ab1ac07225e3130a10e2461ad091a1c719d17145070de322a5e50a54d187d230c0c0d7d528f5924939166e22237229d1709ad20eb151ec22256e706caa2cd02218891d52d2dee106109120cb2ee4a24b550a1150dfb40695621237216c6318c50b1cd1dc882dc4f120281506e159d231e4530644),
  (25196, 64, 205425013, 0x1148806f93078f3320f70ebb20b7c6143f61a3f912fc52274f1d6f32be25191f92d0e20df2711f3614c692fe0a0ecee1646f1e9a63124b3100721ef027e4105cf723f630e56e22c720714c255210b5ac2611007158308ca01de130f2f168771db690b7120a076158e716f0104ba7316c8114cf2107329f4931f0825d0d2dac816d0d3156a2a4980f9a71442b029790b4350aca20709711b521d42325ef824015),
  (25260, 64, 205959207, 0x1b695267611576d231ac0c4e325bc312aa116d310f27925e8305da718fe50f1c80b2f7310860a8662db6f1e20e2e1c92c39509cc200a472b412287171093719b6403d4b1578b0de6307a580d5cd0a6b02bee10a59829bf321bac1c5cf20018037632de770a9f330f37060cd2b2d90764930fce214751afb031d8d1cab126645224a91d7aa19dad1eb31025780370f2f76404de218ae1252e61ae282ec8b2b5ed),
  (25324, 64, 206478503, 0x12cc91579115b6f06bb71166f126b42f968073f62dbe80f0042a3b8126e22f72d1d04c12cb802f2d23d511a7710f22e0761225a8816e55259680bfa72264417114122b129b922a4f007955250d31ddac0044a2639721ff71a1cb10c931e98316eca065f40b4c927949271971bc830d2152faa11d29316cc929e690aa812a8e8288f4162d42e1ab069ae16fcc1716d0e4632112e1d047303e3320e11976c067a2),
  (25388, 64, 206996431, 0x34f32fb8e129061a345302b12a3ca0f2ab029861ad6b254012db5121aa629feb1668929c0b29ab815f4706f830f36c1fcca1ae712d92d2dc1231d67075431ce272eb212dd8d228f40d1ab0a2970eeb90eb0b0ad87039b131ef00f34a16d88160951eb582f1ec170490ae4b0b0d40dfb92dbf93028b18ed30a94732036166d206d6d0a7f12211516da707f4705839284e630e4f25e911432d212ac265702cba9),
  (25452, 64, 207520959, 0x7a4b2df88171271afc901e7706d4b266312a3251028d2a2451cfc2177c91b66603dc918581075d61ad811ae130dcef1a3952260807bc425b872822c2c2902fef305e8b310821240120e1425e5403ed0185b903c82316050e7052969929f433049403a412a4131ce77313b62a49616a8519de531bf9307090396b1c6f72d2f91a6ea26ea40a2d00e81625d0b247d20a30112893203f8067300f4a10e22d296e5),
  (25516, 64, 208044221, 0x1e68d0623812a241964e1653204e902d4772390327fb31a86822a301b453318361cb2f2fa0b12f0c0ccc825d712257506ba725c53033780e66b25f810b51607bb0180ef0e587257c425fcd29fce24bb319be1319b10646a1760621a8d21fd423c31154a7319f817104074ec3112712d352d1630da70096cd2d310314260fff72dc4a2c5ab1056c27a752faeb3172c16c4e2b6542da3508b372cfb91a7920dd4d),
  (25580, 64, 208569270, 0x1aeb50cbb72c7842bd4d2d5e312eb30a961123ee2de2312c77151b60b59022516171f305f610df2226295202d81de191926b306a811bd71a222075282c14a30c66172a5264aa09d37229ed12feb069972a2ad01db319c030b338320b416cd70ac961cf0409df42a33320f4126daa0312a31dab0b00c215f91a0191e96f1a6b905c3112dd406ef20a1ee160510b60219f6b027640a47424f250de0618e59050d2),
  (25644, 64, 209092832, 0x2fa980aa6c12c15027ec0b2ae1eaea0b18e11c531e2f42040625d3215db62402d031d6119ce25ff206b3106666215b00350b03ba80a0f3113f21aad50f0090deed0155016f8929ba91abe402019099e9216e81204e031e9118852c3e22c9ec213ee0a6491e349196481e7f51ea741b9552358d1052f1638c097f31d0312582f25d632a02e13aa51d9d81e45903a06168f62fe412914213325290222d5750f4d3),
  (25708, 64, 209622095, 0x31e8707a97058f80a939142d61c5880b58921968076b83206d2758418be7158d924ee415b502358703b841638602b8d0b4e624c690b2ab12cef09d242d0831e278106d532156159931ed2530f1806d79223d50a4523175629b2b0e33918863257ee186312dff11255224f1716bb32166b1d4332650f125942fa882228a1c73302dc30beb12cb762a0f81cf342d3b70aef0228810f6041f3060e4b2077a1294b6),
  (25772, 64, 210141594, 0x19689228c82ad6a12fe621522177ae1a0743071102c4e19b2d025e6025b430fa711de31df483022621d721c63629f1811bb016b2a1aa591ba910e54f310691cba3217c3304492e1a6122ce1a8070f434262492d12631e101e770130d105fa631b50153d20b90e0de4208e8a3166d20e1925e47255d718c570f18b0e48e182f018f1710d681e1ca1adf413322255ad0b0ed24f4c0b8a511de62d7cf1178302d42),
  (25836, 64, 210668873, 0xf67215ba3213332263331c4828c840aeb71e84b16fcd2d6ec10cb91e6e91f739103452a303182782946d264a423ef125e42254740f10230c143141801c0b0240c22b4e075750ab2a0306425bd003c54300381ada30a3680f0e831f6c083ac0a786228a303d0a2d69531d2f265e82d00808d430d1351b24512d93044660a9a5035cb23d1631d980d4ac2972d23fd60dc7111c6c1308b25d5725c370c11831d42),
  (25900, 15, 211189854, 0x291480cdaf299162d827089c50a99109f592dfa61a5a41e9c716ba331e8c19a4a19e2e0ae66),
  (25916, 64, 211315475, 0x120573036904ad90ddcc29f8602b151304f1a3490f38603354261751c1e2212ce0e6840a90423f382ffe51eab51a4e20857816ec403417080242276912ecb12321090ac0d06331fe12a106038e21d8b430d6416f97072181ebed18fc9210e109d1106bf30f3f3287452937031a0b1a2d91d72c034382bb652a2d10d5c6044a924eaa1b4b914f292b253319181322c0ec0e1d6960b18b23faa0b159315381f194),
  (25980, 64, 211847624, 0xeff4208d5126cc137010ac88266572768902cca2245915a1616a570f66d058f6129351e0a71ead02537906a942954e259210e2981a7361400c1659430de1262480a85729ea62be721e045290812388b141e31ecf4251f2290440d529162a31a2731914a28e5712ec61a94d1245630ce30745425aef192a42b8ae25a6908e292ef4e11f9402ba61d672312aa1d8120b3e90725921ba4318192b5a60e42f15a4b),
  (26044, 46, 212370412, 0x257e21e4181119014aae1e6d816c0b101c20e453058af2d74716b7421c0a07751156b53140f03797293310ea500280313fc3123aa2d1280a819016e91701206dc20c976038501c9f3318d11546c141e631a0a19090316110326126b472a1642464c1d52803e8e30b0e229041d5240a40606ab1),
  (26091, 64, 212748504, 0x1e6f33193913161203b70af2d15466016f7125c72efc12c0cc31d0e0e7360776a28c36124a92e3f111fa11e917077ed1eece1aab42dece29c6522cb62a534025a5311d021bd3216c510f591c981064c516f870a9d505e2a2b0260d925132090aa8f0c2cc1550e2c6a41dcc60afd32dead2c3e41830d2c3080ad970746f21c281d8d30388d1ddd51123506b521e0cc12b81281b321099149011510729a680e3d2),
  (26155, 64, 213279365, 0x226110702109f0d2df791adaf039c52d98a31e020ec500b5ef0d9d325ed203cd3307982cd0e24b630ea862bbd4204c410fc51150d01163268a807846258010e17827a911988b2f2c92ce781a583171a1180d605a2d1946e064b931a702d8c90ed2703c03117a80340406ff51a41324e1516528112aa2c2232c7341a33402f41259560aaf219da61a9cc21329222070324e07249166731d1361e80a20b2e2a0f6),
  (26219, 3, 213803573, 0x21d271694731882),
  (26223, 64, 213829449, 0x132453117518d4d31183213a1038471a30e1e30f2550e163590e1a12ebb607319308d2194f711e56190460f52f05bc1162751afee23c751dff91269919f670f3d10b0391a5250618d1f3c90d9ce1e33516b24155f33164c07247132062ce54252f110b691a864271d412432090f21700229f90263742e06524c8b31b682a42821a990d596316f5045cb31cb81634231e660e3ce1bf781c34a0acee27ce421ceb),
  (26287, 64, 214360352, 0x7a760382329f791126621bc206c15167032cf0b06da90d193264f6015ea3037100e230e741038b415dec0ea4a1536a1dcc50f28c077d40fbb4030071dad22ba8d26df61def40658b2c8a111dd52db632a172059e9064b6124651c6e72b7c522765117a523a271a9102159118d762135931d731ac5731acd256c231af72676a2aca4119892091103749095b42274b0e9d817cc430bb522a0b05a4e298af22202),
  (26351, 3, 214884558, 0x31b940ae821e609),
  (26355, 64, 214909644, 0x24c8731cd60abb60992518f810a96f17e2b11eaf07016067261c84f309772a54809d95316153166b161f4134f9166eb25723312c40ae100e52c160cf0ecf50f6550b40f2fb430195213454300422d35408c45308820a4831dc040f5ea20159258362e237237e8022141d5120f0b63152f2e24e07bef21fc90780f215481ad950b6e120d45040182966605b151aea419a3402f2c139ab04cab2508c1d30729be6),
  (26419, 64, 215444998, 0x1e95025f652e1310dd2619d330694916c582dfee187ee1521516f18195b027e48185b01cb2821e932c32e129cb0db781e6392f3a618b2513f8d052831e8f9305a619b67255430cad82963716d410e6e21e1761316402b471add22da83127740aca71db93122331a1e6014f101a3825898033cc2190409568132b12a614297a82bdaf1afe21283921a6a0a748172aa19e32292e82fa39228623149902a4516e34),
  (26483, 64, 215966302, 0x25e24036a111eb40b8f2046791c852244d50f04521cd100dc229bea1a34a0c72816be9251a72985427c310f354183961608b24b412d905067b2137f50ad620d6c72dd650d11728b461e7e6107191a6d32b2eb16b7602870169882b7b512e311686d30ce7212f41324225c091ceb3224c71da942ac8712be330c0b03bf91959718a871a9aa099ec29d14161b01c4231aac4119ab030c5036112b5182c557256f4),
  (26547, 64, 216491306, 0x2d24191181ac0e18ab72530b1c4141d26329b851eb2e011c521e98262722a3871eae12e208190f6036252f74b1cd0f1afd420de40612516e630e96607006255f3315a128f95032cd12ea9228f32c49930c32225180ec7221467064a806e0b1e9a92d9e5181e112fb424f3627472267641364a1fe991210a28b922dd940e7f70dc102ab98262b823ced2e2e82d8aa1fb3614cc10b78c1fe321dccc16f0e12e2c),
  (26611, 64, 217016584, 0x21b372a486166b7311c72d5a21481821e6406eb81b1211696e079b331d9928174018902ff6b24059130843124808ce60eceb1a5290e6431c4a20f52a0b56a0714b1326b31e930b5a30b2b40f1c71a2a131837069ca2f7460b7112e06421d7309cc50e375036660b4d70692c0128626a102f2cf223ab116a316d0a2e454307042e8e106ad81942f3174b1e5cf257d51e613267272a011060ca1e1e1032302a851),
  (26675, 64, 217540516, 0x21c790b7e225a661ad33166d52fef801c471cd210706d0b0623108f0e1961db6e2a2a706a16018e32cf4c0ce6425af6227191ed550ad0522a152c71530f0f0355202acf12ac329aca2cc69321c521d0d1a9f630d010f4770a8ce2c50119cf40f6010a77820ca2291f312e9812fb92dd9321fab2fc052930413fef19daa26236291160370e161c7169c3131c31bdea318c90ab350b5f62e1570cf821eb2811e2a),
  (26739, 64, 218064616, 0x3081431bf61266f1ad4831f050f00325e2e1ad4c12d89036f5165c50d09831cb92a6a10f0cd074b6124e716e5228b4c313e41715817113057b3316d425b581194104153131910e2ed169921ac020a0662238d0ef1316ecb0af830f36b07a153214a2fae42dc1101f962dcc72632b26b2808a9906fd11312912ef62e9c30ed562cd8d263f92fb612512a03f66121e314b4a313520bca42fcad04a2a1a95114ff7),
  (26803, 64, 218590223, 0x1ad762626c12a6d224e12077227b8b12186106cf077091d40409369129c6019d91ef8a2e0d21d755238741e0632de6b07a480e8f82675327ba606ea80329525bec27e66038191e9b31dea6094362a6761d770031ea285542ff9922dc12ac2602e4808f7112f6e2c64c2c29708ec80f40a0ce81016980b70d2b7791a1d13060b0bf4d2a274154d5279532d9140a1d51e8b808df90a0b2313b93198523f812e8ed),
  (26867, 64, 219111482, 0x1e299274940efd7248a91a6b20e306266341eac72e871318a80b6011dcb1184a91c4a8293e50e0c1120850f0d00a1051de03079450b914165352feca0d3d221fe70c95514943228d1199d82edd02dcb92cfb51237625e9003213313c1263650ea141655619ccf19de22dbe703bb8240e104fd80730703b0117ef11016d25a9325baa21f91109ad291aa2229312f732cbb821316296e2074eb1b4a7222211634b),
  (26931, 64, 219637195, 0x4949287a1204ad19037058282238e071c51e142311e7062f83175719181278331a8b31978d084c410e7910a072f3d41312603ea6125512dc2f2ce660296c1855131e25306242504f1d0021d8051a5ce272972530f2bcd72446418b0e292c523d922a478066831f1520ebcf29cf706a7816982259052dc4913ec22cce215f581a7e50ab2f12df52f65002cc50b36e158b330a5902e373002118a8d31bcc0792c),
  (26995, 64, 220166796, 0x2d8070b54407a991d42e0a04c2c375078820b59723d840cf211172f0e0852584d052222305212e570ee1611b8c00e850753712d7814946107a6264ad0c2b1188b82fe180f1582a14e21cef2402e16c4f080af25c5928f421be2e088ef25f1903baf31aa5295b12662e117861df851554a2a1c60f42c23e28186ec1e96803c68105c424dc2039ec29f29112360b092187ad1b535084b70f8d60410928c7929bcd),
  (27059, 64, 220685569, 0x8bd10b9470f2ee15da1024480e572215a90206c302f903077255a61af8f31f6d0c24a1fb6d19def1dde406ea60b5411697829215138172928b265eb121280c04d1405729c2f28bb421847262d90fe0b266b9093881d8c828ef812a23034f11652216a712e55919226294b31638f032a825d26118210686230f171d8790448c1cfe130fae0e9971e06626458291cc2a4ce1acd0073700c7cd1617617a9119a43),
  (27123, 64, 221214674, 0x145931eacd0358a2780225acc2e07327e7202087197771896726291165ce261712bbf712a782dbc80a26d0e393288cd09d27127e212bcd028240cd6121cf41ed2202c4d0b194201122838319cc929b2804e2107ba70e66e212ed130e316b2b16be70ee621ba921d8e2310661aa4401bf62dd4f1bef2263b02e1a90243101854233ee2fa8105ca20e73130f36271b3264a31afb91dfb53166a1a4a6229ee1a7e9),
  (27187, 64, 221738582, 0xae1091831e1d025c061b7e2279172382a0b36b2fb6e1cc011275925d702d5ea31e8d07923285b62de2a1aa520296229fcb213301a8570aad90517403d8c247952caca1d16a3132c2843721d56156e325c3322173163900e615070d103cf029cad1f26d18cf130c1331ed007ab22fc330f6c408b2820a3223e991eaa6280210348f2dbd906ccc074c125ab42bff50750d090b5130aa0b6ac0da98303f82824b),
  (27251, 18, 222263776, 0x1a2d219d4701b0f0def202e022972a302840ddd60a9f907b8e2d2d9012340e3ca107a11d7f3288980b6c20cff9),
  (27270, 64, 222406092, 0x298210dec6132ec31f11088640eaf812daf101c7130a70f33929c961a48d0b624167d21dc8105ea71d2d603ac6076a80e80128c830604116fca30ad921425220ef1658a2df680e60f070cf31f8b11b4703262269e71999919e011e4a116d79251f721735104051aece102ae0a4422995707861298c51edee0f1c22dfe1170f90f6261ac460e0b62156e202f91abef0f6a91e9723101408d441512218c28208b4),
  (27334, 64, 222946900, 0x224cc1d317309ce189f50af261df7221fcd0e5d92d1e80664c288c21c88a03a6b233120d2ab062a7006910e9161cae90f44603414076d20edab0f0382a11121d621bb6e21ff02d7700cf4703a1210bb421877292031ebea06e6d170ef09a540267829df10280d0d9aa2a0e6165972aa062d2c70a1b322174237cf059b800e0d03ce72622f261e62a305118cb02fe722a2511fe5319911d14c045690a2b931349),
  (27398, 46, 223462130, 0xb1ad294d5165d82954b29d4f059b6063142ca5611ca42c76402cb0265991e7af0e35831acb163d42504e0efec2488f0a3d0075651083814ed703c4421ec722cf4074531e9411e5b41f3371db39105ef11370120f51abab1ecd717d07267181ae6b217c62a28d0596f1e84e09d502c45509970),
  (27445, 64, 223839055, 0x316e31cd6d0b415292ad0657925ff818aae1e9cc2ba0f1ddef1ab7828de11775030147030ef1e862125012de941e80d03fd016ea71ed0807bf11dba22a7d302c661ad07038572a513130810e226061eb305d7038c80de120cfa60af77167f918e95267632e2ab28f39126452235209bd21c6821a5b82261209f49256c702b29297e521869028ac1563701a1208787120ab1b24e2be630c8f4039332121706a97),
  (27509, 64, 224371857, 0x1658415d0c29d0b023062704f252c62267515fb50747131e670af69286f7099f50726309e8c1a7ea2e386166501bff1116d62573003ab131ff00df0711f16311d32b1890ecce0a9c40cf03119cd121c421ed018c4408baa02a183213602a8607807255010dbb310eb22a0b702d8a07c671ea833085815ea8072d8129f52d1e70be082bfd308e031da301ebd01eb991688e01b97067b70b1071e2ac0f9872a0d8),
  (27573, 3, 224904629, 0x15a4c222432d28f),
  (27577, 64, 224922711, 0xaa6106aae31d78268d531aca1703805aed16c452cec430dcd2d98901a0231d2226741078e42641204d05060b005bab0ea892fbd00f25925e6322f0c2adb40f1a81e559169290a84614d8f15c72301b42ebb91ac2c09dd1028950d1f510917167a5185c41a1192e962095392272f2d1e606ff20b6902a4b121b8c2fb5316e881ae8105f10171491cc4a19c983164d0b2190f49106a4f10b6a2c2e32c40726625),
  (27641, 64, 225470428, 0x298f60e92106e791d3a52e2f701b01296ac02c3825e71280e52d7551e72a225541e5c8030981a7ae298471ba742a6f21aa6e0f1042ac091e94b02e91113cb199012990d2a2e306db6032f025982122ed015ed25a6800e241a7010a24b226240ee330f78331cd7299d603672250b326242263772faf92f00f0781131f4c0f8862942b316f20b4a92d67531d0f2c0f90d603067a410e53229e60de43111560e394),
  (27705, 64, 225978041, 0x16ab929f660f53406c1225ceb30456022ef19c88203d8264e903cc30e20d2b8d1169cc30cee0ea4d128e60379621a010f28b01a8a15a930fac90e2ca21a863018e19d030eb0d0330e0dc692dd870f34c1d5d41e4ab0f2251b8c8076130b10c2e0451c6880e687077ee01d30129430decb0a56d293971c7ea0aff02676d0aed00c48f02484151c80e6280ae2b04df328f081420a150f731518177940f0b5298ac),
  (27769, 64, 226501687, 0x5ee502d4e03d5424f5018a841efc80730922559161b33161219e15161f72a1ac13cf61fb93228ca0dfed126942a001274730127030dc11a907126d70318531f142e70b06f01195b325a77045e10adb41987302a0e225e80d8a130d141832e158f70a928160ac2c3272d2cd222480658515eb6214d71c5d11e179296790f176168980ef220b31319424279760de4431eab2b58627c36077781ea6f1acf22e2a6),
  (27833, 64, 227028537, 0x23e0f1adaa2de852b1f7036d10403624fe401af8029d2038a40dde6239950b78317cc32cbaf12a0411a423152602e7211d530b8f12a92a16d0b22a100a55205eea16d4e12eec2b206223b01709128815083451c7722ef282dbf62d108059022596e1760c1f602257a40e53525fad0b5350ad671e7e9319ea12c4121a6d1a4910af4231e31103740474a15bb80f5f412d151ae381ba4a0050e215aa076751e3f4),
  (27897, 52, 227554748, 0xf4b329f6a1ccf50d7a83191912e932d01912157123ce0dec82f94f1d7a40b570224f62ce47139d1262752f893138b50620f1d0f0070b40e0e4044d50af8429c4511e77294472648a2b00e1b81612fcb2d92703172223b51ab1430c310b31811c700ac76300d432287249ee1a84303cb9008d42de8d2a439215d90b6891d38610aa3),
  (27950, 64, 227975384, 0x2cb240b5f50aa4c14b7925c081be210b28e0a80801e7916a922cd711aacf05583039741a6ef1aac325fd231d961e84407894216e2149f80776b175c808ce71527113d391fe060decd31d480aaa5072aa2d7ec31e983160305c131314f118652cdd2069cd0b74a0a629061d91d78f1bf962ae6a06a19198f80250c012892faf42c7142d96a0755413a85039a21aea3022d412ac4161e40eb4903761133051d2c1),
  (28014, 64, 228510765, 0x2154c11f6f311630a14a158c30a9191c343321290b569122f81a5792a3522a3d10bd642640c24ec42356718c96246570a1940e0770b8ed16f0f0b28b0e8b712ccf233352f2710679803be9251c80a67208d1408c2e1e46a28a51251a221d0a240e824f2c2dbe621b09172360576e2a0cc0c4b22f976078d00e4f9264ef0d7b22226a08bd6128342c2ac2fb82172a1029962144b15de5045b31dcd61ec022a264),
  (28078, 64, 229034885, 0x1332b1e794248a5228a81ed5212fc62150212556127cc1801006ac90717401ad31e5d22104917f352fee815341095d002091285c81d9121272f0f68f23ad70dcf619b441326116c021cab71576b0a98e16ec20f414262291699523bd2125f7070a4130780aa4a18f8a1337111a011ff4802cd621206320f1255b703517210b821cc12d5a106ee41b1781ba441eb11133022558d278072d4a82988f246b809b14),
  (28142, 64, 229556274, 0x3096516e53077b703b952d9361711202c072a5280ae970e8272dd961dc58169c62d1c917b22103253172a1d4952944d264840eb311a0f12545416e3503bae1e518284cc2c80d308621e7d81e0141dbf51e6b40abf22e21711f710bdc927d15194ad2e22e1834c0ab413135507090284aa256f10e52f17d770b7e119034166941a4561883924b5709da80f2b0286041302f31c541a87831b7425d3706a0925c17),
  (28206, 64, 230083431, 0xa8e41a0651ab2205f9231bcd18e24026a506ea929128227492e1921a5d4168441eac4061e511eea1f1f605b4a00a220c4a902f6f1d726220cb21ef621b84032a32758a039192935016a6e317f521d28314a81a1901307515870314a41a450078ad160a614b6620dea251c4284c12a5f42978823f8a0b13920a181f174258b90f6a30cd8f0e55325e350a1720a9711a6a42d4960d8ca31cb603c78228832cf26),
  (28270, 64, 230606967, 0x16cf02dee31e7f304a6b2eb8829bca0e2782cf380d69606ecb1a06a2622813aab1e1450832e0e70307a051a0b5141c30d78b216912d1812cab00350416d5806d1528e371900a1aeaf124362da8a17d0e0581230c75011af0743021f8e02dd311f7415f3214f6417a380a4ec292c224b462535916a65260c71dff429cf4120370456f130320ddac085a20a8381ff5421e4c227b605cc616d681ad612e0d51e0f0),
  (28334, 64, 231129757, 0x18e390b3741ad57308f1257c21b16f03809016ae24370050112e04418b130e4331a848263b31e6e70f9e31a7772bcd0251ed29311171021e88813fa30f145264a62190b027f206d301cdb2039503108d042eb129822c313160622a0231ec460a0a222ab20f4ce187d830c02170e42dd742baa4228e40cd8c2d00e231d00efd403eb22e3e825acf266372766907b08083192243916c2e039f31c34d03a2a1a90b),
  (28398, 64, 231657792, 0x790f0fe440ae891ae95268880668b3080d195f921a632a272125a71256e019c625fab1eb2b0307428c162d8d72a44b231ca08a420acd407ba9103a21a2020beaa22c96129390d29315d530f42b29c2c2c7831f9ea03c6f06f6603602168090276a0acb9131e91e90a00fa705bc720b0e1e68b02cf91cc0e0e7e21e2760b2720d44b20cb221c08296892cb43067432e0c210c4a19f4b12b61058e1154881ad0e)]

/-- group 6 -/
def seg6 : List (Nat × Nat × Nat × Nat) := [
  (28462, 29, 232178041, 0x1e4570edb509de71e0691e5a5318b40ed071e3290779615ccd1ea5431bf71d2d13106f318172f9261da4314be32cf2c037261a08f1e8920adc5035d41a34f1e76e30a41064e106faf),
  (28492, 64, 232416239, 0x1a72b06b14131e62dca71742a073550238e15c150b7a803cf7220c60711603e8c1d413222382060b2d431035701c71331332035ad1eaa916c990348c063670acce31f6a1ada504213317d42fed8303b018e6b225f1292121a7d32d4421eaca0a1311ebe11e2d40b5cf29a51320502bcc71573627fd5165c1033550ea6616a78204a41f7b211914207642460727fa313ed2168342bef21a683252a71abc40f190),
  (28556, 64, 232948713, 0x298c20ede7272e5227451c86b19f97308f6153b2215710e9240b6a32daf01e9750942900eab2674a321351aa85186eb293e80fc6a184b40e9b8079ec14773027380db89195c7221e201237316a1024f5097e30394721381271f00e3d009691132640e1810cda9232e9012f4189cb0b8a215b300f50f12c8d13cc62a36b2b8390bfc30492c10a4b0f3b10b42b2d0742d12e1f3a915ba92228416fcb1ed050f593),
  (28620, 64, 233481899, 0x30a461ad831df370e9e10f096295d52deb527ac9038d8004f81969711e840b6c11ebc72b7e91f7a60198c2a7a52cb98239171398b099962506c2c62c31b83289c92d5e90ae6214a031da4f2de2930799153ad21ba2107cf2b3eb11a89192ca1cea52e0b2079e30b6e4259641658d2930f164a4229eb0176f163932542931ee52960329caa1cfb508d6c1aaaa1c9021ac51229ef11db52ff7912f172cec515f14),
  (28684, 64, 233999324, 0xfb67122130633102f5117a13258783140928dec167d5191371329119bae2a2541e8512e0631d17916052246301b9f6038561980f228420347931bac2df951e9a7042340710608e1324c7019e0e10e4e2289715b83299f0024121cd7909e9508446288d90eed630dcc1ac9617b66257032199900df71df96048ed0ecd52bed31c939274491680731c490c54e2edb0312e52537303ad2204ce0f5ca2013931b65),
  (28748, 64, 234528107, 0x31a85295910b38d038cf07b59224a7288881852c12bc3303e6082a120dce1dc1407ab3012e70c0641c5232827424a361198b301961ac4d08202256d4149cf1de2e25f450b66a0f21800a8406e6a170ee2c6aa14d56298a510ef51228b27e28066ea29d4c21e7321c260734e0db58283f110ca224c6713f6d2ce462a1a62d6a21ebcd1d6901d645035671e02f139431d9051e0732bcb70a41701c851e333165b1),
  (28812, 64, 235045804, 0x1544c12f941c70318c4309c92267442be6c023b321f8b28b72306b911bad080071d504294d226252088471d88e1fb16301b52a4371fe120dc731e30305a2325e041e3471e5c30b8d2067b4259b12fef109e8221cb10d3d5192f4029591a71602c4c251871a94327c111f3380d74f19f9424b2104504274521ecd41e86509e362d2730d0f72a12e15f8d299d931937250b409973182d01cac52a6ae005ce1b358),
  (28876, 64, 235572932, 0x2c298161a90b4b7309141eb962dd2f2b7622238b1ee5623901019160315112f12289e50d6c3240cf1e6d6257b50df032670715e393164a128a216b72012110a4c1030ec2ffca0eeae252eb0f3ee0628d123a414f341ad020b2d90e72e31f4d0b04513f34283f6282d62fbe42dd11074e226f2206bc62142c0964515835255d30740728f750053412e89228d30f2e51c68b224f81aaf91a0b61df18289ce0cf10),
  (28940, 10, 236097895, 0xb2940f1a70f6e601eea1ed4919ea219b10239622c04e1c961),
  (28951, 64, 236176325, 0x12ac0b69725bc121ced20fe51f5271ad640a8ae105a90b1c729c8d0a7580720b293211ae7612f992203625492292e4077d210554263a126216290f63018f0a30b02c61131a32d58e125c1314b40b5d625d090f3881a9ac11e0a0eced12ca42f138166530f52c0b4f31eab330ac816c460970c2f4b72e7062ece109f4c0a32d162ee22414118680eccb1270503b710e6230f50a24b242d5341e8f71324b27e6d),
  (29015, 24, 236713722, 0x13be601ea226df32adb50b042143ea05ad70e1762566b25d59170d702f322de0a11c6e02b57226f90890c144a92dad51a1122dbf516fb0322b807566),
  (29040, 64, 236911724, 0xf1032e2a920f351ea682b2d606d731f9981e2ef31f6b15c86163390f0ad0f1c4084c92c4c8169cf2d48a12a532582b284531cd511afce2dc570da550e3ed1a5882fd4e156f80e04c2236d0eef329e762f8b72a2d01bcb6300d5155d3195832a34d1e4a426b4521fa902a6c173c21d52e18ec80ed361aae92e0582df0c31f152594d1df512dc4c28ff80f5ec1c0b71c06a30df30fe2c1aa580b7c20b0b10e7cc),
  (29104, 64, 237437726, 0x207521d0eb31ef1092931216631295210b5129a62c8a709dc131d9708b1903732008c51072c2d34f09e1029dd103bc627b861dca52276725bcc09fb41f2b92bb061898c076d31ded40f1c903b2b285341e2e809a0b01df0124d80e9d616dac07df81a630137822e0ec1a8f015ea113fc20d80f3102b1ac37063f816d4f096b7296af279332996c06f2d2fca620133170d506f3923f61298440b4f8117661264f),
  (29168, 3, 237965849, 0x537818bea224c1),
  (29172, 64, 237991098, 0x130cd1a95718d28126d22488929d2f1e2f2266140344601c4932386073232240a13dac14496293c505df1120652445931b712cec3207430f37029a0102fc92df1821fc71ed4f06582228b1303f9041ac256a6115d30f175315e9166ec2166e2a1ee154f02a1771ea7202a302597531b92240c11e6072e053309ae2a4e90c984197a425b8a21f712d1c82918a2227312f530548e2c1410a4901f78c095f61ed0b),
  (29236, 64, 238518715, 0x11a4521e2319f4431f030900b2d9692236e16c382812116a88102cb199e91316a1ad4628f22078c72de740b0ca1db8d2feb9068d31646931916071422b2c6265cb1b8cc2c971219471b6471668a305b716d21252ef0783824444071d62b9170a5f0070b30b75016e791a1c603a4d029242a0ab1af85258e502d4d2eed7288f3072cc0ea971afc22c80627a4c0dc6e0b34e07735286b60322b0fb8a1f8811910d),
  (29300, 64, 239046040, 0x2d8cb0290d30a380a14c038211fc1729b5528b580b5770044b23d642c4721a32a2f20d2d3d92e36612e370edf60e2492fe9029c4231fd0294930d6ab2648d2b16907c220f13817bf0131670e1a4300af28c282e9d301dcb071e1169680acea02e0e0776802a622660e25d961e94e0abd90368a077b911fa60f40c23e080a2b32227418a6716f062eec401c5711216284140b74927ff109ba92d3c61e637316c3),
  (29364, 64, 239568230, 0x12242297130b9271a6b816a950d3f62a32419e6e12eaf1eb0e1f88d2d425163121d3591eac12fbb009b170eb432a010216f3258522fbcb05fae0ae561e7641a3d2140371a5720dff20782b02b221ada9130282669906b2b2ccf3078ae12a03182e417e26237ee2a4911455408beb1078603d4425d060e6721aba11c819065501e46d304c20e9770f84225d8f2643815b44291ac203f903224199ef2d26f03396),
  (29428, 4, 240093552, 0xa3ae321441e1c1242f2),
  (29433, 64, 240126791, 0x1134a1308a03e142ba6e125312822b29b113030a30f2416697073d83004a0398819d7310ae51dde9262711c027013301918329989072122a4120e373288ad1320f0466912bad2c1c20dfc60796d133ec06ad6079a41e5d5060181d9f60b43429e250c9b403ca9299b6130d008dd421e051df212fad9208850b2ad310050ac0c316d2263902d3c70fff0054160a44405ab8150231940f0e71118dae15f4626483),
  (29497, 64, 240660707, 0x2d8ac167912d6d82471916a8204a53013e418a5016d4503964100010717321ccf30dd40b34b051b526512170901db4e1261625ef913e54154a40277403653291f51ed35166d60ec09049480c68224775032eb29ce70e70b1040d21d360799021c1625c1316d690e5f50378b30fa11cbad02cd51fa4c01e662a4c30351422b2d06679213e32792420a120ebf83236b0730830c8a18d441a8422988c0bc742c3e3),
  (29561, 64, 241182037, 0x291e30b60427c782aeb40764c24b8c0d4f40253128c631afa7302b4214052a18c1ad2c078770e5ef2a9cc2ede421a6c1acd9269c704c9911de716e32210ab255f931bca1713814281066af1a2d81cc312e195108902bf540f1a211f371e058158d80f606104b102765307871c7ae260c105391189541d602323ea193cd2089406446317f20ac01314ab0ded21d52a0b0360ddb60a9d931b751a37631bcb2514e),
  (29625, 64, 241715715, 0x168f031a912de65317e32dbd31aaca071642733605d8606eb60ed8b278040858405b4521fd02bb6428dc1315062bd1507643311f41972231d490acb21668410bc221dd705fea309581e7a30c569122b927fb003aea08da701199025e72115319cd70aaf31e8b624c8e226d40eba40aa1722a05066762e8eb3063605bed126691ea452da890f8480181808c6a12d8f1a1e8260ea130870f319259a32fcd42c88e),
  (29689, 64, 242230449, 0x3b8500fa81976318a6d3028e0f657036c214e8f133c919189299832fb5118da90719109af103363265790b5b30e338292b9256893214d2f92f092590a66d1dde32bea8023ef2cdb216ba822cd425fc608d55061702cc6f1f3172fee90cf2714eec120d51288c266f805cb20e6132d907211f719caf0afa51eed530c1102d38224ac0518f0bf011fed70299711b3921fad0e5b92a4192370406f822e0d003a10),
  (29753, 64, 242770242, 0xb0e715790127d70ae672bc52302ec2650c2437717eb30b0060aeb42adc80130a15f37220e91e89527289053192e88d058cb30ac3124e1039090668520388164ad042a308c09250d81a98f16d77125f2266501a83916ec102072314d11332131d2802f830af572ee5616dad2674331e7819ef9032850792a30556215f62928d225f2234d421f942cb04111a10a1ef2184907604097382e7681b6560db8e216aa),
  (29817, 64, 243278927, 0xb7af0db93222230327203e9319a2312fec18db405e9907f04226550706e0370c25e4a0af492994725ff32140f2ca6105cd504ba31c0632a3322d7f825710191b90b0032824d1c58f0304122ded29d810a9a41e96603c6e1a05330baa16c2f11c6d1a72d1976d172b70a1f1319691d76a023982e3f71964f00aaa220d02db020ad791a1d7129d5177ef070392d8241a18703a0707a0605f18176392641118792),
  (29881, 64, 243802339, 0x1b4c209ba22344f16f8c098f212d412a2151a969112c22a24410b111972c1c4b2121b930a4729d4519f312c9ed28c690ea6916cf1157a4250931ca6e1d7ed0fbc3023d40aff10f27629a6f1e1ce1a7ec217e22d2ec27823068740ef120b8a12c1c4018e5318b50478b0e3612270f1aeaa16a510b6701212331c341ce662fa8931d54059a107ef7039e32f58a23aca0b1f90f4711e77106891173501ca7126605),
  (29945, 64, 244333859, 0x2da2e0e9010568303a742b6ca1a18b2968c0702925e512a0292cf06012f7225340cc9812ae52d9160e8a2165ae1332419134030ed0f0e411b6b295e9113ab2a3e30580d291d831c432a1232bcd91ed021a80625a481a8940cc711130619ca918e121e58211b49306a705fe525e4326222133c616d671d8c21a7ef12bc413197035770244e031c7060a61694a03c55035e8068e62a101116241d8b730a5719d59),
  (30009, 64, 244851898, 0x2d2721a6790f514123f3260e4282182bbe815a4a0eeb52e0b51e801170091672706dd50d1b731bad2a30230a42219e10c7630f7aa28b0606bc92cfae21a661941502026284a62bd9015f07074151d3c10d5b82bc490f205157512e1452a53909bac2d11930ec5317d5123f8062532836931aee1301900eac0afd02674d0a2941846a1a731035c4075cd2deea091ee28ee801f3916308295470f09502b921c5c1),
  (30073, 64, 245377288, 0x2e22430e55229f0087e524f302cc34119d11e94401d761cf173076630dcb29d701fb7310f0e170e730df21906f180af12787074d91293406fcb31c461455102a9610fc62ced60ceed075812954d0ad941a35510462198d50d8810ddd0170d4256b7295d2086112da6a318d31abcf03aa207027214b71ebc42568d2fef621e520ab2c1f6852164f296c3025b52bb691cec719da527c160d75616d022199516f49),
  (30137, 35, 245899410, 0x2239005063075b4041c82c39224ff7257f105f4904e2710de902d071a1c304286257842ebac0b51519ba10eeab033f012c2117e610bc380af222c965078561c9ec1a4210f5d4196ee06739188451bb41164f22158a11d38),
  (30173, 64, 246186926, 0x1cd4a2a42b091a427bb701f261ddd901e070e0c42c466309f51772a294271015020dd403cf62e292056591da2a223951caef11fea31a211cd242c8d5079cf31761074c70348d0262304a0f25ed322413215b90b6691936325f8d1e208276641a290298a21601100acc1cac91a55027e2b0d88724ee529ac10b7630573730122308d11539705f770ab98133830b8d129e0c1ebca0b7b60740e252a2148331990f),
  (30237, 24, 246722797, 0x1e41916c14168b60eb291e6d9272ef119d4130b7098a31bc9909f421936c1f5f8024d619674121371dcca3126d0f7c1151761d973224d62dc5803428),
  (30262, 64, 246916045, 0x1e42c0530524c8a31b6331f4a21a96031ac06729094ab0b5d51a4a80f387038ce1e2382076a2d42227a2511c18303e725bcf29a3130ac70a6c31702625fb2141980dc1712d64216c2162e1275372dfe32bfa613d190d8a30fdf50966b1a55602be314d071dd581e29722f121312f06c211054e262551a5980b72a01b1119b1325c22017320c766129f9296b80a2261634c0f0d21e11406fe416fb101bd309e85),
  (30326, 64, 247448541, 0x1adb42de872f4b82556d2276c2d02b2469802c8f12c482570c1b0f007a4209e2602fc20bd4b30fe50e9271620e0deac1bfd10a938207990ad8e2012a1ed4603c31310510f2d827ac40b8cd0d9f9241311e5c609a2123315144aa2d10e1b60512ff1033d32390a2672a0a2720f6932164121cea1ea6311946257ae21ae929ed527695039d90c49216b73038b5264cf1eb792d6281ceb2113f606805128140628a),
  (30390, 3, 247971931, 0x18ed71694430d31),
  (30394, 64, 248000559, 0x53b324b3712a8229f530f290285e423f9601ad50172225d170e88c06f2a1330b307791964919b952a2221a0812f8141776e127ac259b007bd5309af182e82914f08aed1df0816909010660b19015c521270f03cc129c8a0f66f0736a2b8a90a8e21324121783123a30f28d0a96e126a72a0f12620921a880d4282db781ae61130582a54b2d33313351119e112346228882d1ee1f724255970ecea2a16721ca1),
  (30458, 64, 248534235, 0x2e1440e53325e152b43112d631e7e72df7512c47297b51a49722863054952c4cf0e0ab1e5a8075f0212f3299d0161ca1b2050d54b0e8071e80b16f8d30b25232860301012bea252851823811dd22942d0eb11100d8184f82dcd01a6e1027a112fb5150d80fa371ce8c037e51b7a1288870abd229dc43215005ae331f1216c4331038276c60ab2128daa0e4c6256d106c9827ab2120a90b7c113e670fcd11836f),
  (30522, 3, 249053567, 0x2d54225899113c5),
  (30526, 64, 249079744, 0x2d4cb16934131322a481130121df8a312920a81815436210b222796155d4055931c05419608239360db1531e29078c914385121e81a4a21bbd518d372ae4f29d2c09fb71e2f51edb10f4480aab511eca0e4181d8740c4890248a2d68229def02b6b21ed62ea312ce6d033aa0a6aa1467621879113ac21d081266e1528c130550813421e2c162d11b47914ee92e1ac166ef251a421b0712b422401123f6a064b8),
  (30590, 64, 249612154, 0x9fa40a3950b52e208951e3d40b40e266171214c2dc4b18a642e777159d61894306c8806db11e2121e06712f491bf900a3731d513258e12224a2be9711eb5021361ed4c2620802c281e5571a3090e6e3290411b1631aea5030882d2530a8c9185ce15b981ea75299b931917313e520ef01768722729183d015ed40753025a641668d21f6e069931102d1e48e2cf4a30f5931fe5025f1032110b757128f0260a7),
  (30654, 64, 250137948, 0x1ad5130c050b252034232106f125981ad8a166b116a8b2000a2c0771e08c21acb0e9e40d47216606150c70b3542dbf00b52b09d2d2fa2a200c3199e216152158c90ed301efa5110331a3c4263930b5eb09dea0399808f411dcd02b910188b111a592d487251962648603bac2dcc4193f42992e03166285020efd61296226c8b072cb12f382cc280c08b2eb370f4ae1696b1aac502e0d1b76a1a2330acef228c4),
  (30718, 64, 250659212, 0x4fe1253102ec0a2d56e311a129b5202c17118231ae8302af30770c161c414c840b0642190f10f961d0f6054c9268391ccd51dd141c67516fc21da9721a430a5172b032013f420a130646312b101947823e72163152d4ae2d5142c8c930cb02354c103823054f2e0431e9511291920b871f3890f40b1a2f40d53326f7012aab028661240b2ce01118260ac992b7422552904cc2182e715a111dc862b57303639),
  (30782, 64, 251189007, 0x2e158036702c9d91e7d60729103eb029e6d0a46e1a9b5073172c87312302068581dcb61a1f82e4671d76f293e408a240ecb824dd51be010f68e0f4f922dce28fed0adaa12c022a53719d70071c603c86227f924b230374a2dbd520484118f41cc4330d121525131824025120e7cf148e82faf224cd82aa8831da43029625f8b09555077250f4302beed2d3450df6f25fd7267242708d25050066100f3820dcf0),
  (30846, 64, 251707780, 0x1a76201fea15ff30b145293c81f1900398f06c8619683178711475316df40af1607879221c2251550749808e6c192481e12f24c4b0eba1132440916824f0b2cdb31c818072d21ad4d30dd3257d42d0a229e2212c6d13ca6192c631cce1ba371aa7419f272d810291f20c7b00b3d903bd22226429e5616ae42dd90229420218d1e44a3088a1eaa7005b81a824282b51bda40b78825ab1220a629da72c9121e516),
  (30910, 64, 252232716, 0x9256061371abf91ae6411a8b238f716bec1e1772504c11b05265151e2c5199ec1b4232de3718b0f09b5630bd0312751888e1ed32260981ad6f1d7632ed2a0b7e4302b50b6c41e5b22d32f292ef1aaac010a2090a80620106ccf30c9905b7606a412bae630bc8130130728f0d7c32ede511d072528712ef71e3e81dd950edc702d9529bb32e04f1fb8f2e0cc0fdd227e7720f222a0cf3100b2fd2e107f910ff5),
  (30974, 64, 252761157, 0x122b5079872a38a1cae80b18a2a3d00c9c51a44b2a1491a6840720207075020ae0e4902e23303a17028ee16e332287717b6c2678f15bf1050021de22240af319871b6f903ad0169a62262e03b0d318a32c793078921434106f7607a2131d461d26912f6f165231e4f821c7805bd725353132a32a4b01b2eb167ec1202c0af080ad7229fb11e0230307531b7219b31123750f3362a4c90766611e64063ab1a0a7),
  (31038, 64, 253282721, 0x1dfd42f1d71617024a16106a9100531c59818e67233b311eec289a9079ea0676f036430f1f8297372dd570ee101d60b21b823028f3004b1226b15c132d68e0770321e531a5b40b06107f432d4b90245807e2724c471e8b909a4a292a63214e036672a45620dae02e702fd4c03ea70796e1884828cd12cdf7225141a1701db53146141e9f02328f149af03e04094712a08b2131904a361e8860ffa22d9301e1e2),
  (31102, 64, 253806371, 0x294b216b362d2d01ba611faf6069c3206101dc8c2a27704c892d8ab1a0ab0aa0610f4c035f829b352599116cd01abe92ca480d3b5146a72c45216ba92dd4c2516731cc4182d20946f0d72f219631b60f05cad25846221362d0850c398124ad199090668216d382b10b16ed82509410d2a277ed21a651140a2ddae0e9851a83225bd60b36d00f1924c19224872886816daa168f302cd4313760df96319441a96a),
  (31166, 64, 254331053, 0x3ac71e58f1fd5825795098112adc9118960d8460a72d2cfc3060c3296f3190d8034b00ee8e0a61308e153112b1ad37073cc0e14c2d4050e70e0395613190283d6065ae16da41fdf216ece310b029944100b216e2308b331aae7255b3170e228f550e3e62a36c228b30f2c529a07224d81cd922142729d8e0c9a81e969183561cea23078c1ec26285530d224216ad21f6b1c4a52a3041a688047b1157f809bd8),
  (31230, 64, 254853342, 0x28d2816983229e92d1f0125a126776037131694d0f3681eae809b300eccd0762f19f8930bb90f50c2a2f318a8c09f91077d3010072af172d5a32a1c10384b2f752165d92150f13c710ef6e126e529d4204a251c462198c801f7510cf11323812266179ea0b9431564d0f6c6244f31326a07028147e21c2ee06c4d1318d09834068770d5e91e0aa12b6726c8e15e272236b2d3a7238e121e2406e7312ef21e3ef),
  (31294, 64, 255380758, 0x69a60704309425121b428bb50f5cc2cb360def12dee91cac2099b212e010b0910e7ac1acf31964c26dd32b8cc1d5291d7a7143ca2d0430f27525e8f1e1d11ebc11b68d25ff92d98b24866226d9079d12c1cb0b0b0318b2143781d13219fd80092716d460b67725ba12250a1a9b61f50716814299690ec640b1a7245590cb4a16eac293012a4a32c3a21e58525472292c421811105342638130fb4290d612aa6),
  (31358, 64, 255903929, 0x4ae52968f098241aa65075e71ac0606745205a512c83115f00e8a50b4d8257ea1ad080f0e329ed82bcc21df462bdb30a5442d8041afcc079381c1271fc38276af0f1a42cb372fd860af2721d5931baa034e11c84b0264412cf0153872efd70afeb2ce4f101551d8cb0e02c195210682f2234d0d570307670e6d329ab630ed82bc4a02f4a29aeb02df81df9005f59317d2163f815d950f3e531c47306b700a94),
  (31422, 64, 256432286, 0x24f982916a1cbeb2e0b00931929a8912897098c9317c32dbb3030c913b91040ca224a131ff11a7f506bd6132670e2a4210950a02b1c98d0dbd4100791ce85311d41d7152daee1cc96165160333225e96304932acf0295b82274725bac27e2624da81e9730054b14be6310291ac3109c6c1a5ca1643015eab124b82d8b8033450389130616170d3137622622c0a35403e830e3cd2da9721b1019385103cb1a7a5),
  (31486, 40, 256953552, 0x22798293a5075ce1e72b1576517b461c617207230f35027f642cfa421ad4318d81c9192876c0b7b520267161872d5251d2ed03c4516df604f0d1bdee2164e1fdb6259521df4c19da2030b62906b0ed090392105fcf1a6723014a224c30c9641aea921f51),
  (31527, 64, 257278362, 0xeb261768e12ae6277a80b0aa03b6209f4531fa10f8ee151c216bb701506265ab09cd4264c2032582a28c31323056b11a58e252cf2a7d21e84f18ace23a4f2a51202c710b7301c1f813235273ea164f52876107a6d167e6167b52e2952289119b8e0ea770640d115b803576160321907211df831993052072ecf12fbd91e1c430df1130ad0fe2a31ae1248691e3f21f28f265f420f5704d4a0b1361950f1dc71),
  (31591, 24, 257811866, 0x10ef3083f32a0e1255470b7291e6a816899215521ac2d11b0820d4f05e411a7a906b8a0f0c1258c523f6723c7924734076c402e9622b95249f41590d),
  (31616, 64, 258011844, 0x2f5981ac1808ab10a9c825d6f0f19216aac29ed20574303b3402494074c90a24802baa1e327097903126a2a20918ad428b38260e32f5a10deb607a900e6b9025962600f0608c0a5c5114b619f742d7d82be3211a25294730726412caa25ce62c80208fb204c0121e420202130ace0e184244a81a94225aa30ed780acca24fe9275281186a265ee25d761de281df452dae22ce9913cc92820811d501b01410be5),
  (31680, 64, 258545118, 0x2fa8c075972667902dc70d31809f2f227d40e9b115e191e34c0889019ff9122222a1f52bd9921fa71c4f425dd811bc11a94812e8f3116a2e056255662c9cd2260d27bd32f0951ac90151c905719258322ab2209e3910bb70ae362f3660a92b0ad01072502d2cc0ea821443215eb1130082a5190b6b31d8881a0962625416ead2f512202911e5c92c4d31abca1634f31d341a3d829f611660f2672d2f56a0f2a2),
  (31744, 3, 259069003, 0x66a10196909963),
  (31748, 64, 259091283, 0x29e810aaa40ebd8124062ffe9187e201aeb1ac4b25a7401c591e2e62da0e215a606a081cf56167d60e0b12b7ca19d111aa8f1620103bea092cd1a9392a0b616c261a2872d752128470346a2f425287d4233f2295c9007682888d131ef2a2d50c6111f91031a30223850b106257a7233591ea66219491764a0b4141ed29008373119019af0130b016aeb19f4d0a332161890e0e72c1511eb760c28511a061afc8),
  (31812, 64, 259621913, 0x1e6b201ac4131281aac92dc6d05d950308310c2d1df3125acd0708a2d252296621d7b315a25251b706a35209e30a262031411ecf8117ac315701e18d2f68a2d6f9318422a2e20ac58297b2267f825ed9073342190e1aa1228c8e2d5eb0262d212f007a5403e382987515a920a6ac0d964121702bd4921d16262510e9ab129b02942a1ceab131f21fcab1de0d18cb1246f9192b9303ec0b90a1c68f111593228c),
  (31876, 64, 260146119, 0x16aa62c9770b5340102a1e3c216d2f065780b2e525983104471a9812e2041dc41170b521ab32cc14161cd2cd340292a16e7716f8a2686b187d1220af2e06129e700f96402eb9089a62d6e81a1b924c6e16acd19dc130892169af255d9216f52bbc8142611cd3128a211d4e325b8530c260a56c31ee9317620403113074039c91049119376038a50e4c91cf8f3160c307a5271c3037c220874065461478d253a6),
  (31940, 64, 260670519, 0x311cb142d70a2cc1df32287d71ac7522ac2309cd164742f284292991127131e26229e5143861311907bc509fa72e0c71d3cc18d6a0da621019829f390f4470398e02861247682cecb2cf311a44d0adb529dec30331038e611a0308d0921db71a28b28c430ae791f248122992624e071391896c2b84d09ee62ca4107726166ae0ab4d0eb482d3440eb840a9f81e46131bee0e8c3032342f7651aa69113c22c722),
  (32004, 64, 261195633, 0x1e901026c81e1581c1d221829197ee1302e0248522ff12168a1e21502a092eb272795507127190ed0f6371db62061662950b133a92106c0a58f1d24a07b0221f8d311f1051ab0b593315e71c84a3124d3162b1b2380dfab0a64d299a615a7906527199e51afb3225d225fa62b0441e57416c151daf9309d50a2e609ded1e4911286c231cb17cc71ae2b154d02f5e72ccf00af8503bb304668169370a80b2248c),
  (32068, 64, 261718591, 0xd6b82d2f829b381e5d3116a71d9f0036f91ed431684e1773218e5531ccf01b86127b71434f25acb1f603264ec12e4d0d7b11e7ec0ae941e98c25a6729e59220c916a680b9ca139d00b5b81e822275a12bcf81cf882857116e671f3ab250b807bac132971acc70254e283af2663003d55056e203975168451330127d162dd840f34d1d5d72da4300cb10376d2e7af2c3f30ba621d0d5215d60768125a6203405),
  (32132, 64, 262246688, 0x1710916ec519c581e44d1c6d62d1ce06af50f442138b403c92150f3265e50b78f2220306cd40212629495244c6075152d00b04bf522635110570742a02307300ad26d8725fd32651106b10037302b4d21661024dc628dcb0efa70ef752dc3831d43227613103122dcd24fe5316902dfea0798905d7227aad18c0411c4d06c8910dab31a692b77507ba31db78203680b92c0379415ccc14ba40712925e6c0380a),
  (32196, 64, 262766747, 0x3eb72d218163e12236f2e8a129bb01e0560734f18d8e2ff2b1ee19158c6071f929f33050d31210312d21013d124b5630ab61a6980882228b5931c53121991caf823444314a5029cd28c4915b3300cc82e1c813b6130d11093a10fba308bed19cc3215050f25616d430e586217c2026b51e46b2cf2d0eef22d9ad2251330fc5014780e3410a89030d0513b4b0a3851da732cfd6161112d8c516c051576a2a52b),
  (32260, 32, 263290909, 0x1a9a72822211b4b0764a2b6a52c225291b8031100a5392ed2d17d730f02a1a5212dcb01e5b51eec91e682010a5114850620e110f8036290b8a426202133a630bc71e5192f02203677131771e7d92d706),
  (32293, 64, 263553650, 0x29c1203a1614ba102f9321a46214970e634284862e5b30b96130ecf06d8f076ef0b817264c82cc2903c6c28a970f4a523465059f51a4630f0971e90b04b8b28349198c108bc62dd5801fed0c531311510f3d81902b167ef1444518c4b28ec8236c6150b72d5221a214068aa252a80f335020b80750e1d3650a7c3028f82966c2979528f031e6ea1b3a12d62629fd50a4330372725a4e0646b246e4133041aa2e),
  (32357, 64, 264086578, 0x1d8cc16a79256f621ef91e52c064f1128c50f65109e52032ac144012952d198331044228603114410ddb0110b425697313c508a071606c154892220812b68312a11aeb416d142566d166b831741168581f665278e92162f12d482400c095c32a2591d4b81db481ea2f2a048276b60438f312721e8891c3d8260c4296e603528066920ee95264a93046309ff631e091e83401b272f7632faea082f52944c22aad),
  (32421, 64, 264612461, 0x2cb910078e030f30b796127d10154203515278e724245223702b6d4010171c73214168257d11a5471a88a098cc2dca4232d227433061f71cbd20a4ed3180e11a280ee8b1e1e503d312eb1729cb70e988250d231d8e2bf09082e3305cb29b992a034035ee0e8ee2d8d430b382a44a16dab1eae53137904250171261ef88072c2215f81617302ee619dd503ad70eb0c06ef731436130d3126ea299ee31c791acb2),
  (32485, 64, 265137251, 0x1a3992b01231d842fb8d1315510ceb00d611c9480a68113d660b02f06ab030c9028e5322ec61518d0c8700b4992e14302e21101301e0f1068f630aaf0acd52de2b0f5481aad42cde10c9221112d15d520558a00462228f51a80330c881c1b52c8f2289772159902e0c19a2b31d471cb99168d020c6b1d764017e62c057163d113158106d4196452fae5029c33060f0d182108b91adf8217f225d340ab7813363),
  (32549, 64, 265659951, 0x1a0ad16a5204e3025baf2262b3198c0116212d4712e6406ee71a96f28eaa0a0161680a061e42e04a0a6f40d8830fdd51b65028d442b3480d94d30eac2a43819ed929c731f2221052e26235056930144523fb12a18f06c4a0eed009837129d929698060a90e3360f0b2315f329b32148a20763104a872ca4f09bee1b4c531c32040140b290119b410a880dee906eb12e80729f872ea551f5d82834e0e89524172),
  (32613, 64, 266184567, 0x201e51a7232c0010a918286090eb992d0820becf0b2712e2ac2bc4c0219331cae177e124111311eb0eaf41e0ad092491ef571a70d25188070ec2670a0e66a19f460f673216210eead3113803a982578e161b71e9aa276752b58d219640ec612930e264af267231bcf4017700326605655311283192e073cb2c1452c85304d3218c560298714c061c70c0ef0f16ecf1a7e10f36729ab90e20c0a4cb2074a06755),
  (32677, 64, 266712280, 0x16cd1217851e6742cec102d172c0781250b2f70431d520b17012892065940f1a311f24009e702f300f88419b040a8c221087079f80f26d19bd428b181ae8a30fb31de9530c6929b932394b228922b4b32fdaa2676930ed71232622868075e90d4570ecca2c9c619f9621c81117d70f50b11e2e033eb1ead109fd001d81293ef2274c0942221ac9071e712c28256ec0c4790e859078930cb8529ee903ceb0e907),
  (32741, 7, 267231885, 0x2515015e3801c922c62d232b02194a06d04),
  (32749, 64, 267291734, 0x1e8930da2d1504f212d315b0f2017729e091911412ca521ce81bb4308e510814e067ea12bca252651414b2940d01d78248d71a0b1160631244427529255a212f9518df2197501e7982a4901dbb520f0c1113318f850b42d06a932063731026149641830c1643302d940e4a60c3012bcc627a9212089170d2253ee01f741572b073962db8812a6211692285c40e7e3189010f53025d2225cf71abc51e6d72a2af),
  (32813, 64, 267821563, 0xe2f71aae20e364121c808df0102591020f2d66e1e3f519a061abb003a8f0f42802bf3086ec23be52d831006b829a58041790cef131a042a436157310060b275913062d14656035230b38720f3731a871568505d301938221e0c1a41003703160661a71108f0f075b221ae712b2212aeb2d9102db99074c81332a2a36a07a8711fd30aeaa048f912e632a12929f9116fce12c2730def11ef02e213093062a6a9),
  (32877, 64, 268347811, 0xf608079eb2df28110d2131e82222a06ceb2dd2c1cab30a7b02a1e50f02f0b91003d69133cf1f4e224e161a0752d065299171a33516df507b64242b82dfa11a2e5170b41ae6f01509227091dcc4033e41366c25a4403c2221f4e2f99511d4e1100d2ef2f039e1152ce1c0562d8cd0b73726087074e3273eb118c42634713112097a631ea40727328e120294f1da242277611fec132f5160350a6d31e0b00daf5),
  (32941, 64, 268869675, 0x3110b291892fa38061d80b50b153770fa021ee6a2d4170b28a1a8081a54b211d42a257263730b5cb205161443821a9829d1509d941e84803318251760b38c0a3ca1e2362f3cd0bfeb2a2c5023990efb620cb81aab50a18e0640a2390707576027042b3290d4412bdab3199813327102150accf228a4297f9310220b50e2d36a27cc512d02265f71212c18d4c315a5316cc039a629ee330c79293a22cf5906b47),
  (33005, 64, 269396080, 0x2bbe61ae5531e2707ced057712d58307a6e13a281dcaa2ddc3076581c69818b381eaeb2e05905f011cd2a1adae2aca51ddb9306481d7592c0a61a1c21b8f51ff912c8e62dae11a3f416be41ebb731d530300b1ceaf255421cacf2f6241a7370e019255090759921d891db921bb4829ea724d4b25556200c9051022ceb30652c12ff7073d2296491a27002e95313d7249eb19f0b0e9c40a414132f816aaf18df9),
  (33069, 64, 269923555, 0x774118e2b0ec9809cc41a7930f66e0f4d9320f61b3eb0ad8a092ca0ea850ae72277c6156f61a30f24d1906ad10660616eaa0adc103b480a0930eb450b1f60e7af148c82a1a12cfd729f6e1ab84162b41e27725f6b1e41712ec10f4102c3821c8351ad6525fb7267042706d10a501ea1402f560f362252f01632c097930292517f4a1929628b271d96d1e8522fa87314c231f810adcc0b0442d84f2bd822a2d3),
  (33133, 64, 270451187, 0x2a5560ab462a1761aa6a0eb8131d351627024eeb067b30991121fa81ea6926cf92fd9415af01e7101ed2631193163260ef4b0733319f4a08e2a1e5a60f5f006bac0b3b90e80e2d3d0073ed1ecc5066ae2d96b1a6eb0dd53316f606d5906f2330818282952deeb034ab25a91220862dcd216b010589815dcf2b9010b90929b492ff2429e8e20f2b2cb1616c59031890382d122e20099505708216c41e2e9293c4),
  (33197, 10, 270966960, 0x1328d1d0e11ad9429acb1e72e30dd10aef629798256b32bca2),
  (33208, 64, 271049025, 0x2d1a624a320918f1e3c5264f50483309ab207f130c455312632191131ce219629063a20278c260780563225333298720b7c4030041df841f12512001031760a3080edc92620b1bc691a1b22d76f16aca147671cf752d60d12ff2272cb310090f0d3229af0394b03fef1d38211fa70618331ee62a69531db02594603b2431af01537220f022da773160d241981ada22387811510023e215b69071282deae1e6b5),
  (33272, 64, 271583395, 0xd3e32da8b2d0b5227d9266331e9672f4c2164772dcc22546d19dce0f389013590c2212676f0acb320c720d1472408f0be99288990f2a41ac562def7256c31cbc2157e212d6a0a322064591da0f318b82740912f4f1dccf00a4921c5816287222441a36d2048e1b7812a0f02d1950aee82b84e05d8e0d6b731f0c166a129c231abe703caa2d635154f11965724f2e312730764b0b77328ee42152729a6928dd8),
  (33336, 46, 272110200, 0x2c1c31a6b43197316ea40b04102558283b109ef9038821d8540a9eb0af39071b81eb8d1d6501de5215b4306b9321acd2e00507143319ab03bd0007f0224f4165711d02809418260cd18830032f42b98c1c94b0b1c6120b0190f71d63630e4a1afd704cd312295314d813290036760b16a0a3b1),
  (33383, 64, 272486659, 0x1a6d60ec080669717d721c99316c1229e461a2e9051c12302222116007161e82515f411248d185ae214861062215f4d1f3ac26da812a4c05a8b126a119f8f1c58e0e96525bb60c72c1eb152cd8e098501f805292860589606761112371ab0c0df7606fae261b91aab6169142008c303090356b1003329f262fe860eab611ecc073240f0342b1f3112190f5eb0db222ffa30edf01da1912379077c42f78e0e243),
  (33447, 64, 273015734, 0x19930131701cea80e9ae19bf00584f2d6e72263006d94100921805112b0c037372559315e9507a3707f762234607bc627cef047b7224b82c1b6211f627caa2f6882dfe91540c0c45816f19315b12853306c962168d31a6629f411d4c815b7700d04190ea1d4c416a8302fce1aa531ea580d670211cd192441e1231ebe80e17121bf7076f102b461e5833124a1fb010338714c62060cb06a34289ea1799703142),
  (33511, 3, 273542113, 0xe12c294922a0aa),
  (33515, 64, 273566590, 0x2bd292de4d10ff31526b0da630f40d2ec361e2f30898113c510ef4e193c62ce07004882a3d531a101e3701e8b7132182d5212aed80b9232070d1db6b0aba41324a311702dace0e5892dbee1316d16464021783006e05dca0c729031ee31be12234b29fd81d4b72dbf21dc662596a11b8f0b2ac1ad31233c906d621ca6601ec909ec30d82616a6b1a6d01c0b31e06c0320112f0d023640a5f3150a70e24814d16),
  (33579, 64, 274101283, 0xf7942b62f116b803d4525e6f039651709731da229fd2315ec0e4210ead725a5525f8928848127b206a240b0c9062661ea731c7743180f318d9224ea0f2a902d632c9b21ded80ec4431d8f2c06c0cb2a0e9830770a1e68514443114820d87115daa10c871ac4116fd806f9529c051ca8d2a4c21897611d090c92312be602ee1267560646512b161a96c021e61e0591335729b432a3f31ee16111ed2d4ac2a096),
  (33643, 46, 274628497, 0xda0630c0619f07093742cbd52e1562232d2e6a40f965062ce16ac403eb615593036e91d2852cdf42a7d71d7691a8042dba61d4ee25971047a70f3c5220541a68e1e4f631b080b4f2310841219428b951b2f531c580ded1131d90fde71c33712de12841321bd41c1c504f57256880e0b231822),
  (33690, 64, 275001017, 0x2a01324d8818ced2e0411976414bc6241f71364912947162f92db0319b39059891dd752877815b3423aeb065b119b6811c811df0b1a8b0303881cfd10aa1621af004be52c6262966f15fd3290671c85131a930fc6905c36216a619b52178511a9f72f3e22dbe20acec266ab0d7781c2362d3cc2d9041c5392038900fb80ac0d1e94f1fc182768f28f7122aa61ad2d1683121d392b76521c190cc54140b512cd0),
  (33754, 64, 275530270, 0x2b5ec1ed0f1d2490b795297482ca4e256660a3e62cf110f2921feb62162e31cc200dc32e1d7038541a5cf071e92904b2e1ee227271fa3204388224a31672a2672604fe721f3124f78309ad2610f1ae440fe911ad7916bcc31e0609c8816d6c29b861c9832e0a7224810af541eae2060b9132470e284319420d129068f90dbb418930211220d1a51e3e6303111c84e26ac603c7331cc10e6f42fe0c1dc651a5cc),
  (33818, 64, 276059982, 0x1b88c264a22d81203b9902d2b16ce1042a208aa629cb402ae72dd921c6872da2304c84035b12b4b813215273ca25444287410d36130b370821012b6e228712df8e08fc53198d115980ad580a4231cac819dd216beb2eb0713466314390def324dc309b5931c7616f700335926170136991f26f1453217b4c0b116157a30caa8222332277802ecc3160b16bcd255250b0352d0971a186239511a3711606f0336c),
  (33882, 64, 276585198, 0x68e9316702ca7031e332662124488055850f80d2b3ea25a831ddd31aa81069b61680d30c872e04d22c681d8d10ddd70364112f2413ca9168d303e811227010bc50d94809fe60998c1a2ea255271564b27fb131caf0f06622a3611ae820d2f12985060b619f040f0a1060ef211c323c59190a51250610a4f22b75249d41ad4b1ad0612ac627788021a51afc629beb1f857029e51e9ee2ea52164290522305a2a),
  (33946, 64, 277105081, 0xace101bc40a2640ea620a409077b02d98d052ab0b6932fef525bcd26234186cf06dab2d985181812d8a50f71108b6f018e20b3310ea4c1c4852670d0a66c1ad1809be12a3e2225042cfcb04c2d0f1722e1a81e9ad094611dc6c29f84109ac0ab112bdce1e724077741a392053c406f712f6a11abc90752a1ad690eaab2a4e810c5716b892b4b2064480a5a511496247f906de129aa631d23067522e0d11cf06),
  (34010, 64, 277628515, 0xb0e62578721e2202bb6219291562d0eeaa16fcf0696a2a1340aeb506dc42c743162890e72a12f230e0c7068cc0ef6d0f6020264a2d6e612e080a68f2bbf315e032c2a41a94e266591e56f1319615f06227b40e991237ae2540512493031d021ff902cc40778d2ba0b16a55035051d20311ba1232e81eace0116525758162d22a32727bb303ad61659201883035c522a992cd141547910b97209e91da290a90b)]

/-- group 7 -/
def seg7 : List (Nat × Nat × Nat × Nat) := [
  (34074, 64, 278152271, 0x229e72d3f816d26139522cc0912ab0262311a9962ffe72940a161940b1c8131d2057152fc4d246d91702d1ce2d0b8ea2595708a4e08cd2209d20aa89224c807a8909fd306bf53102f169631a54d267d82cb0b2ceec2158618479036061eac80e09102cb3295462ba9431167034f20a3cc18a6c317f9131931226909c06128271fff81694e165b9233d21fc8b311e81e1812b68525bcb0c5f11c4420f49822365),
  (34138, 64, 278675471, 0x1fe751ea8c31fe90bd4e2c5460700d1e01813054046b22d8b42a247136ab0e4a90a052208452972b2dc6712e0728435253f51476d157a726dd515d751310803a75294b415d7111aaf29bce1c94a1a3362a028312f207456049ca0edb10478418a10074d72194d16d051acd331794027c82cd621fbf61e54d31485264d20ac38118531db0e2af2b15464079b52f5f53128121eb7212d01ecf51e843166571d112),
  (34202, 64, 279205677, 0x63c12622e186d50b9170a53325143037f90d18f247e41a5aa2c828299141aaa716df2257f01d18b0e8a3170b33175029c97113a20163825b65299d70b514305ab123a8260aa20cd90b2c510be62a42a291a3252c1167242712c049b921a930a5d50d4a3166e9078cc1ace81e7ea1bb4c1acec22b50314160eff216fa11afac0b5662fe150332612d650248b1486b1cb342d0a9170f82cde82ecf716c4828a01),
  (34266, 64, 279727258, 0x270720e8f205d4c023ec0180b0f5422dc592cf551205102c65031b329d120af6a02dd72de0b19c6f31b6c1b8c903b582f3ce1e9e4143d71a65202fb82790330c6825e41287b713d24236c41cbcb292792cb582b1f202de80748b1186c130f905ba617cc2297e63094c0da4225f861e20919d580f427067d029b79247480a55525963128412e0721d6f525c23189af079e80ca2d208811db9128c230ae590b224),
  (34330, 64, 280255297, 0x2838f26610305c41c7f912bc51a56e2e05427cf6124431932c0f32d2dc481eb392a4182570f2bfa50ba4219e2b215b606a1825a421abee18d1931d582cc8202a91247932a2141300e1e9220a6e72166a15853080513135929ea40ff380b7ab09faa31a8c0077825c310e26b2104c0a56f18d692410c1e18b318481d2f317db6184491c4482564916d6d30a641506c0a0a51dda31c5aa15f852d5e523af107a52),
  (34394, 35, 280777161, 0x2fcb227533108292c4a10845712c4e3190e1432f02f5531497264cc12e2d0d7910dcd52a36f0a96925a471a0e21e85509309316f70b59818b1710ac62758109d970a9b214ee31ca2e125cb016131e239132770dd2a2a166),
  (34430, 64, 281064099, 0xd8100ebf413894182861e1b4074ad07310221e32c72b1ac6329475244a62231916958012a10b9480f4f61494724dd714827252390398c11c0b29ec9264f1214040920c28dab215a80ef87078e52499909cc72274119439063b21ebb42fbe50b2c21e9340ee7827a8d083f52796d213e21972d1e6a61289612dc203b4f31a450eb4219b960a2271df250f3832a85306e8f1d694162b72b56d03c08116872e5c1),
  (34494, 64, 281595666, 0x2e4e11d32f30ed62d76319d192db681c3732a53819fd903ccd2cd082c95324b362ff8a0ea8807be12a28f10d430442c10d91052d41e7312954c31f0d2b42216eab106e705e0c06e462246230a4a1abd42f6e431d320226e0e6500e566217a2078221a9030953204eca15a63224f32169910ecd0b4470a870034911d02316a111e5a90b5f415dee032482ebd32be2c02a550680209d16253340200c0deb00f422),
  (34558, 46, 282124092, 0x1b9511119225a2e207b61656e1ec0320277130b6249840a20d300760562d21ab52919808b7105e6d08ea82118e1ecc20f00a262451a85408eea19c6919ef10edc6114652a54a181b00b34a16acb261e22dcd12328d1c841073c224e0c1d6060dc0a1510e194e4291f110fee283452234f0a7f4),
  (34605, 64, 282499921, 0x166e724cd21bb0e2db791d3e41c804039b22a67025288269782ddca300e125ad2214770e61401e8125d9220c71240881d38121bc92cd29264a827bc30e95915ed20f4850986629fe92c6560f07731a6729c4d18c911706113deb02a191e55002a87071370f3b8022931266d1528d088041612805eeb28d170746107c6c2396602b41078c30f31524ea80af321ebd1108cc0764807a391aa6f0568a243511eaaa),
  (34669, 64, 283026697, 0xeaec0b44c2df08130b331f2b1902f215630d207155e61e213256d621ed915a10124c20d508128a50f631218762950d298f7078011312e285e31a125301b9208f8211a6256771ebe51b8d6296b11ab8f27815221752a22d312701e88730fcf06fe70952203bd728dc712d2802da20ec05296ca3022420da60f4442df0d03202095e203c90136731d7931532c2ccf6260a40628309b72263642648927ba42450c),
  (34733, 3, 283551097, 0x1ced72cf390f2a3),
  (34737, 64, 283578093, 0x3803112d9211ca076b2133f80d162163031a2d3217d225d14064752d34a199ed1eb8a2a1ae28f2e127b1026181a88c31126242252a08602c061aaab02e94257ec315361e9480618b1498830889127582ebc1074921ff4b2a3c51e44130e4902a4b12a5707baa18d5630e700e968250b22bd8b2f28c09937125442df811eb12188050e8ce2dcc1133501a961167722a30d2cfc1099f40b52d0b0d70dfb8215d8),
  (34801, 64, 284115864, 0x117ae2d82f0dec93096e16c130583131e0702c500ced41a5f60e87521959120b322aaf10b282132b2545710ccb0ffcc1a93816fc51d0e70b00f02ea9252842faf811d4d28e330284c267920b4791b80d1d76e17ca725a90165cc038d30de130f5280ecb723ce916917077ef249f510ab21d6d2228d5321530bae823401297ea2d188065ec1a1830da0803a0b1e1c83090313e31277f71d0ec313b7298ad2ad65),
  (34865, 3, 284634881, 0x58d929cab0b270),
  (34869, 64, 284660218, 0x3a5131f90321480767601e781e7d730d6d1e96c1bc7612beb1ab17155d70e1ec2ba18029b81e80211dc906e0d2a9aa03f7016e472fe8f1894812d273041412e441653328e8a2a4b331ee7127ea040370a6d403c873199928d242cfb729f4e14cc7118f518c470f12f2f4161f2020a3a102fcd139222baf60a7d3273e102ac9297851abe21e2d829678019b22d5f41b1f12881628ee92de341334d2dbf106a37),
  (34933, 64, 285188607, 0x2160130653293cf15ff229778246580769921e892a5360c4590e839080a8311e902b2c295391f027161ce0336d1bf910cd0a0a370285e90eb79200ea0b2513117331ad00e42408c2f2ba8c240f11554d0ead4163e808b4a0308f2d3b02516802a26150c4169040861625809316a50ee8d1ea23321540982a08bd724611229ec1a7e71e5b30ec41292ee25cee267031682e29b290ee2430b362a8352b1182a078),
  (34997, 64, 285715076, 0x47cd147d10f51025d021aeae30fd731a980d9af315ed0e172078842d203029ea117782dbe11ce4c2997611fb831099179ee0b65907b91124eb168c931eec19767128720457416ec3074111e44b2c099028352a14807203210671702c247430d4d828af80a8ed06f9221a48043b62e1591ae21228722733215548267490e3f706462224d1195d80d437060500976d2346b21c610d385186e61865911e0e2bd2a),
  (35061, 64, 286243623, 0x25358220c70965420f3111ed01e6ca2dfeb0806c0e86f1e568075b319403050a6178b91ba14055e912c8521cc80a78502e310a28e11cc82678c252451412b0a51412e6a248b71e3e90a46f22369071ac2558200472126e42d51731c77219730ef381a9082d17503d2221a251e4f92df2629fe30a116040272d94f1c1562d6150c2e109d710ad7322118264462d68321d3512a070bbac26db22d186116722a451),
  (35125, 64, 286771866, 0x133f522756032c12b1d3045811aace2b4c421ac706c6c1696c0e34411eed20fd003736101ef0ae1828dcd2a0ce14b81161561a7eb1cbcf1c5711d64a27e420b1440995000d722c0550998524ae62b02c0c328145f21ddb431109218390b3672e246232f61db211d36b1ebeb12bb928cd621bab28f052328a048442516403eee28a5212acb059b7165c31a9ad1330a2984c2c3a3036120ae8a12e432da6b2ba2e),
  (35189, 64, 287285396, 0x18568174ea2eece30ee42f52624b501e1d216bca2dc760f5e82782f1618a131c8077180a74128fe41ac921ed0c14f870b8f02107212fc1133af24df624f0a0f2811ae65216311cd461243929be8242981aea20ac640eb130ece60e8930f3521e39407265227220fe431ae9421f2e121560d6c50aff61683821a622dd9119db82710b17de51e1cf2af4d1d4982790a263270778e2e8221df4a29f0628df2103a1),
  (35253, 64, 287814915, 0x31eb0249cb0e516220e131bf003c6307d8b046ea0946e29169260f6071e801cab314c62bcd530e6318bd30b26a1538403cf40afe8263531dff7218c13091806c430f02c05daf082e51c7120386803c590b36c1c6c21c210193b40bfcb29d74083a9116790e3e91e5172dff73198a3159125e25200ad05eb431dd10e308069a9133071bf36150d52b3421589720083077a7313502989612ce206e19121010a4f2),
  (35317, 64, 288334245, 0x2c2ab086990ebd70adac31c2c2a3d3142e41298f0770b161c51cc952de2d0d9d616f82320c91d326148f60b3a81e3f331e381d1282448f284982cde7162d512d90038442f75316595070542cc952d8b9314b81ff7110b9816f7125548127b621f212dbce1e952026542552209ff9271f115c121e44e0370129fb821d692fb11159d12a27624d2b255362d9121ce3924c8224feb2102f1648e31a51242431ad56),
  (35381, 64, 288862580, 0x45491bb6610fca18c361dc7625f972c8e2293a4021e130de631ef32b60f2a6b41d23903b890fcb716a3221c330eaae0ea65317f605e8e0e2711a6442dc6629d2316941262370ada1030382d4b80eb250b1d6192ef31ce80f364117470a4d80724a2d78c1ed532cec716d122886405c210e2cc0696d0f1611a1b80eeb12cac41a3e53132a1a58521d58252d00ef6a07615080c40310431d822d8c70b1411ae43),
  (35445, 64, 289389728, 0x13fa509c191ea67112f71daf42982f256930d190028a30ab26259530787018b7010ded2c8210ad0d1e48810133211d602bb526cd91550c2b7451afcd2f9252316a0cd542edcd206321b9f70cb4b27c2d0f5d0146051a7222d08a01e19093ca12cab1960221ce61e40a2e1b72cdd41dc171d9542ffec07834161972511525a711a1ce02deb0a0ea024c71cf8e0b8e9045061e796225e62a2f22c24c1d2901a975),
  (35509, 64, 289913400, 0x2a3b5264d51a81831b14061af3036818acf218f11a72802c76319221ecf20af6f0b4a52531321171057ab0e6891e65431ea217aa41e5720ce920eda9261eb0957011c540cae3070301bf19123300fa0b3214212b730f0b331aab202012dae3133b2317eb31fe6095181de751dcc331444070440942427e37082d020ee22f58931a020e5972766c2fdc9260581da2e2ac2419f23074f42c0071b9e41326d19643),
  (35573, 64, 290431289, 0x227b9266130a1520b56503c181daa6039ca23ce80f36907757221542674f078e620c521dde22156c28879063b71462c225ee2d1691a7d0253ec316ca0784d0c30b2036d253ab05c681a0911135403b4e1e4b81938a2a2d4222241e7782d974063ce295d62f9b911bc30e52120e840d6970d44a2e1ce211452c82f312f51e49216df324f0e01c941a067170b20b7531abb9243241dfd80466b30a5224a121a3e9),
  (35637, 64, 290955689, 0xf13402d84079a5220f630b170f5cb1e0901ad410b4a21aac205f3212359311f80e22306e4920e072da2a02fe11a5742872629bcb1aa6c179512fd9205aea0a9cb0af19118700a74f2598c29cf807c96032432e105038b929c941d0f83179522f13299d42dd45193622d9651a9b11e9b0068150a72a2636d0b1a6120902dee51e8462df6e23008070c11eb09308021327010ca61e7ed2c8031ca211a40b31419),
  (35701, 64, 291480367, 0x39540b86b1a06b1a9042753416d6a0e746170a206f183190f1ca14289ca063a42a4c8092450c3e411f8731e8f05a8909a82163e2122d7097d2230020a0421cb11121692e0b1028880edc331e1316cf831b6d0b77826d881ae4f03a6524c711dca42bf2730c1521ce50c70c06185074461bf09309d32926612ec80a48c20ff51eb362efb22e1410ba4126199126230f50d163f928db82cc1813d5118e2716931),
  (35765, 18, 292004573, 0x617925bf81e6a9287d3168862224e22dc512ca61db96250542cfab1d4f91ba212da942fb17205d0036c621f6a),
  (35784, 64, 292154562, 0x1a7172bc7015de73134706f4f08db31db72090ed0178911b6f18e69316cb038f009e3530149136780a54501966298622e06203014063072600c12eed154280a5c40f1ea21bf01acf73089116b0f2947225b191a9e203e520a0d1037e901e8e0f4f519b8f226100dff32f6190270a12aec0ddea2d8c61d20e1e8282bbd32232602c991a3ae0e0b02d7c805bb50ed440f6a713a870dfd10ea830b1350b1a30e08e),
  (35848, 64, 292684760, 0x1a8490330819c6c318541960c077362c08d15c6d263410c0c33100f2a9f02f29912bc60b94f2cecc25ce42cad012af61e8320399318bc5133370ed770648130646078af2170704a0b14a0706cce1e3af265e7195992c0e800a59073b92e87919859104381d3a71eacb158540f6b9198880f59921d871e6e107b491d73906cb5103d031a8d0ab842a3070a52316bc40e5691ac0b2961603c0f06f06192f51e06a),
  (35912, 46, 293208860, 0x131b91a28609d872cdc831f0a21bb41e5cc15347256680e0921d4e93078b29f681a7731964d163d21d9e31eb810dfee1eaad1690d0b95612ec70357425f6916561221591e9430b0a92d3d803b352dfa3070b60da12224ca2fae10d8f6180f21ae7918c35162941224516e6c0e9630342c12a85),
  (35959, 64, 293585099, 0x21686289e62990b1e70e026d8072f50b2e42ad271d1d70b9d71df060d8ec0a509048ef2da8d0963116250132962ff1928f5130ae5036b12da85313640abf01ac6a1c80b140951796124ea40d9e63035021ad016848152b52d0142dc3925e4f06a6a0f94a19e90043d216692299f11a6cb017012dc4726ae51df503108e16c9003079040a80b5b2038e72d7f60e4c2128aa0b4d202be7260a60f257312d21cd4d),
  (36023, 64, 294120134, 0x2fd4d056ed2c5cc233e21bd4629e771a478129a9019f12ddc913234016120df7000e4b0d10909e5814d3230415211022d94a23ce22bc670b2e10798c0e2e50e6d40170f27e492f36f0cb2711b7429c4a307a409e2200e622a5f62b789190a709d062c8081e6b30ea912a0b1287580c5551e28123acb204d519f37223b616d480cf3823d591c4b40f0911ebce084b50f90d03fb1290471aa25022a50798303152),
  (36087, 64, 294646515, 0x72ee209451ded72df352e737256c11e2e72d7e625d310a1d62e4f405e29120ad31828194cf260ef1ea5622758092cc187cf1e6eb1ac360b01524ea11258214d8d1df361ebe21811825eb812b941a3012f34b2c790202271e4620e3cc318d716db62e2a829cf20dece077f10ec021df0c31b4c11b710f4431b40d227071fa1203c97224832670619e331ae6910b6c24f5831e392a20816e29065480a6ad06eab),
  (36151, 64, 295166933, 0x2978213ef1296ae129651ddce0647212c79211a31ccf10a89301ce7124e610a2f298453112f242260b3c52ac0f1f4102b1a514a6202d7303419272a3149d30d8692956f2cde626f0e0236a264821c7051d6300c6390ee2107a532bf8d128ee1a80e1e80f1e66827f4a313f211b162bf852c21702ef12542408f680b1ef1bcb716775165cf1ba2e23b431afb70ecb427ce10ad382926c274e71903227cac28656),
  (36215, 64, 295692134, 0x15c561ebc80aaf1059c325cf50e7100b3301ad67145f8192490675416fc61a327094d617977053ed1b0e5237c41a0560e16a30d6c19f34247d91712d2679517ea909c32317741e80509dd62d21306e0a2ce620f527266010a106069120840b25a6306ab616a6c2fdc22e14d31a2511ece22c481dde82ddaf1a2ec2a83312f0431fa52514929b6a1329321af60fa441aa96204c12550707bb82c9281685922a16),
  (36279, 52, 296217242, 0x21d9022f342dd5925101301a70b40a072ac253c1157a902ed222a7907482032f531996209c9185671a377073a715e75300f70fdf90ea19037950ea8b06d172124425bad1b979262140b54716e6d1e30c04c6c0aad0163eb12b580308c0b311023530ea2c1a9a619b4e0a64c037ae0be471315413523281e70982d05ecc0ac432ec0e),
  (36332, 64, 296642075, 0x2783613173007cb0492e03eab1ffd81a6aa109291beb11c1233005620006015c625bab12733038c30f4782234506890310960e64d21e02077a92e0030ee8a1ece9267362a52a0ae95276811595319f0d2dcb112f03237ac180b40ef4d0f5e22518612cd612de80a66f1afd1030f12a039294940328a0b666131761def1227940ed8c15dd90ed591d28b1dea303b11161b114dc92ff6a23f270938b138c615088),
  (36396, 64, 297178872, 0x1a5c11a1132438e264b2121511bce12d56a170770518c2ddaa300c102af721e972fc4b087121e4441702b2db9506c911e6720ea4f27f1907bab319481d3f303a8c29fc92c9990a2cd2a4851ddcd12d4e06b01071ab185410e3030e9b22730d1cc26259370db8f0aa69224a816fb801e521ca6d14fac0f65812941267b8066d61d643215662eb2e1d5f10b197311e61f36b2dccf1e36e161c103ba11ff971a8f9),
  (36460, 3, 297698455, 0xf0ce058c82b584),
  (36464, 64, 297730812, 0x537529ccf09f54070f229d671c5192e15431f0b2ec811666e1a179225ef0a3f705d9112c741696f1c6aa2d42a11d88134b50c22b289e124dc516a6612604052320de59167e70639822e150c3d0118381368b237a3015a306ecd2082506ed9088ac12de730faf0387802a0c1d4ce018b606d07079221e28b27f8f1a66e133a80a13815c261912f22a182962229c2d2a518159e50ed912996d04b122192d226b2),
  (36528, 64, 298259641, 0x1e4225f66146031215221ef80210c0091205feb311e22cfec12821151930d6d92a18e195f62d2ef317651618d03b66230232f7710b2042e2492620e315160b8f70ebec19f4531d593086903acb1c8572c1c1119b524a840f1ef257d015b14246722d4900a64a2e08c22ead1e9a125b45128c919a752fcee1238816cef19ff12edd810bc62634a09e970aab22a2ed1707521a73167e90a5b50d4832370516e37),
  (36592, 64, 298782859, 0xe24b2102c0af811d20a25e2116d1311eb91578322a860f5440b93307176080461d12a29d4d31b11065ca071f705318299a123ad10b607024e81ecef258081e118303990f522276451caa929e16315891e2b418526076d50f4120af4a15f1629d7113b7712a520875915201143b72bff4276c902127109242278a1ac35051662d1681643402816025592c0e11d12308c311184c24a9920fcf2988d0876e02f69),
  (36656, 64, 299305649, 0xdcb50f10a096470ee1908fea2208916a28147e52ad2f1ace62288d1c681091550a9920386f1c941125ab164090e3670af8c0dd0a25e2c11c86248ae2a49302ea231fe716805072c327cd612b1216ac21d5971c667126e307053256ef0447615a39039ed215961b657313531e7ac02ced0b3861a95410e9124773197ae1e3d81e4510a6c7078671e1d52de140a571031cb262700b78b2f7e429c8b0e1d916f50),
  (36720, 64, 299830609, 0x280aa227430f4d60a2531513127502032c21dd89264d112c331a2832a3a528a540b4682158831ef803349179e22497909223258171572a28c250c6151e955120320ee583004f1226f295d92d68a196461d9951aa6112da21db382a1130eb223168516a56305f40f3630775925029164810d793069211078d2c8e4193673040d1ed03119270a8012fc6f121a712c2e1e541260e91935831f70264ac2a04b20178),
  (36784, 64, 300356368, 0x16a3531a78074f310d231857711e822d1e31e6422952c04c1003c492fb50106c713b34222752244209cca25062318b605f4e018e431fec1f50f21782313cc18a51075112a12825f93224d331da82cc930b4271e9ab257d61f9b52a25831a310b5d41cb8922721077720a4e20faaf229e12a2c4253141e40d304620294c0ebd403ab20718111af314199031c40b7191a32b2a0370333625e920ef891e7042dab5),
  (36848, 64, 300876789, 0x2d6d52ed391f8a918a950df970628b0867328a5721663012d00630c1216e071b21a967101f302c7521a952917829d02260151ca702116e0b7ae0dce2262251e5750bfee08ab82ebc616faf1702531c57081840b32a12d6b1e32a310b42326d2e4cd154422cb262c3af1e799267422d36704a83191282232f05a580ed410f293090480784e31b6b1a439158860a34e1a0502a43124d8408b8b24d4a03ce40ea68),
  (36912, 64, 301401537, 0x23d9127b8402bc91152130d7430c6e04e930256c0b02e2940c2cb2c071cd179d4187e614709035f30a4c802e2a25d7216678083720a62621ba9063b40f5492648827ba311964293ee23a841454c1a3160f6b60372b30f412e04b0760511ca504a2104e0b12f2a049050661927977197a81264d10e47317f718c0b1b6d528cf725d232982c06195068672a2ae11aea027140af1211c831cb761979209a1006baf),
  (36976, 29, 301929850, 0x100620dda11e49516cd41936d06f5428f101581531792291d1122d2092521d4ca0e93922e622e1c50f4241c92a1712c276762d84c205111e849147b4260842a4631eb061a65826344),
  (37006, 64, 302176890, 0x168902d28601e0612a37074e41577422ef60664f14fb305fb00e5240daaf08c0a1941624f3125ce71efa9106c20ff090270513330121c10b201075ec10376170e60b0b70df9830ec42556e073781e7ca220a207bf70b42c02935078170ae732b6e11273822a5400ef51d88c320ed011ed1fe14124a223972110d52bbf621856130cc20f381ea6c1310e0b02b125391a188208d828883107e728fe92969116d6b),
  (37070, 64, 302695551, 0x16c911b5e9300b8150f00ec97195ef308f802cd81a5572d7f516bb0228b50f4291a5070258700acd08ac3045c6267912e0701a5431cb59209a3277d7317831e1a50f1f42a38306e5631bd02da29211aa1ccea133d81a3d31a7a10d53712d6625cf4280d8075e33119425fb410de428f0e259090e3312f0af023a61913514e242778605e63246221bbf1257cc1b8111a84a2bf1903588021ab304c904c3901857),
  (37134, 64, 303219307, 0x1d1f4157302a55106cb2256b4295d331a8a05d21025241abce08cf52e0552f82e25ca8256820aed81a6851e9021b5f628ec90e74900f481332d317ac18a121e5a7078b12a78d0924209e6e038f72707409a85023f21e54b02012033030184931cc806f222193912093039b02d76c31e182543731b6a0e26e09892163910d3c4033c129601252642cc0f16aa730e942677211fed2f1f12e708259591e0b12daea),
  (37198, 64, 303746504, 0x4ded05df619f06032120d7570aa43033ae2270c145180b2891e96a0b16921f96076b331a99292ce0bd850adcd0eee123a5324bf72a2d22bbe52c22c03225078ca2ca6c02fa8116451427528381177f30dbc630dc612bcb1e835075a42a694181d72994c0586b1c1ce0648e038a906625225eb2a86d0424330d152dc4605bae30fe42c0ef29a0f22df026df1312e331c4b1f5981628a0f17325cce135d72aca9),
  (37262, 64, 304281448, 0x317cb1ae4a133991684b067a7314241415422852273120394421bc71dce716695224b13204b2fda90c183068310ed7423b8d0a1912d36d15744007532e397215e12ce6e0e8b41e54e1693810e6511d5421e6923b772b12c26748079a623964166f42951905c750647730e611a6e32d798285c91b4b12da93316911d64f0f779280cc0e404116480811503c0e2b5911d1911e06d1aaad1a6cd2c8941a4942b0ae),
  (37326, 64, 304792836, 0x295b60b5b122de41e50a0e4c50f6652b2a60aeac218780b0f3312d512a8f253e32d996039a72d8b60e5820ac3721d15263070edc51db4c204a60ab4715cf90a0c10677123c32163d512e902a1e41a2b825fa21c4520b9552990829ce51e711117582190a0a5e80c5b411f9831e82050e70b639323b03014e16f94041270e0f9206290a80f03fd51b2062a24c28e35068140dad2045972104726299247230d4a7),
  (37390, 64, 305317838, 0x61f3156450b1f51aa7512b991e4652ce72071441a6d107bd6039832d30128a320918e06d750d402309952b44b1102a14de505f85304d100f83212b403a14220a7073a91dd1716253252e91a96b30b24183a71e85303d592d6e41dad41ab1109b4c29e74129e720c692112f295890f2260377111ca82676c2e04211e4106a6d12e4a19e930756d14b341a8342fe852556219ed1126c41902119710306470ef18),
  (37454, 10, 305843460, 0x213e80ac29156f12fa1620be5041782d0b9278110308d25047),
  (37465, 64, 305925166, 0x1dd7912419110302427831b4d17074180b3261120e8730f33203c962fcf72270219e301e0a40acd11213631e3616fc30b51021a420aea10713020b771c28b2e0e52279330d922a6a821819317752f5132d2121a6193177110381133d5054f722b1124dd6166821840a0356430d82166c7132f41540d11ecd20fb003b25008a10adf82da0a25d301ab702cf4e25a040237412ccc162842e3ae27e220eea91d361),
  (37529, 24, 306456393, 0x130e530706218af1c016285e5212411e9281e2d60a9740db0316ca222a8f074790a1f816f622a17115b4212fa1033902bb8824eea0f2611ad6e15412),
  (37554, 64, 306651596, 0x220c106d650ac0215ed71c98c249e81e946260d62bdd11ff5116cd62a9ce309020bcc229dac2e23211a0a2e2b70b0f8113692bf8e0f12c079340f00c23a0830d6b2d702212c8252c30edc82ca0107b130a721133561ac242a3f21e1a81ab0d1b5c62c6b70a6171a68925e050794d13bc206aa91a2f50c98f31ff307c4f1894e066d91170211829209ca22c432da742e1c403a42120e108e6d0e2152340d06a8c),
  (37618, 64, 307193092, 0x2992f309c127b6912fc818d880342d11c2f264d4311b1040820d9b6054ad213073120d28eb82c8f62cac31b10b0acb01aab11a91819aac0b4f127e4416a6f2b4372def401da70e69708da526158311ef162ec2552817c941eb770721426f101a50b2d50417fd52d5361e2072bc5003d180796f3118b07467045580e30b296a12551625a4a2c921024760f31706b820b38819e5419b41298420dbcb31cf40e4f6),
  (37682, 3, 307709657, 0x27bae062850a795),
  (37686, 64, 307738113, 0x90d01eab01a4f031b031b4e3034090b2a6066c90944b127e414df41856e1e2a2283d22c7b406b2d03f4d1b3ab212ad21c130ea8e0a2122874b18928160ad24cd90e3e22892816e6a1beb20d46d0a044133531296a0fb04019b40cf392567502b83225c6169aa126532d2690364d3154402e842d857267291fa27318340ee91130310d5611abc22c4061ad620a1c60ef4a2f2791702a22aa9054c8055f9028e9),
  (37750, 24, 308270304, 0x1a67412a51130e207ba80e251223670b66527a461d8142b03125a8c25a51039791cfc31c96216ac12ab370c4a428014080c91076312f251e23723173),
  (37775, 64, 308462823, 0x314b203f742a0910ef710a2650cbd92db181fd392590627e172d2d320cb3147e31e7e10e5772d18e2d1f426038212711e371305f503373058b21a8f225996074d00250d0aba5093b715fd212bec1c9b22966803c611a7c72cdc9079e209dc612b532cfd819cab2a139133921dced211b630ac52da65290932a0c31ece62def321e4b3080c1cfaa2dfe51668827c0d1e56621a7230070124480fe29275ad31a29),
  (37839, 64, 308995623, 0x2e0e408624228ab1a12f12bf612fc731d560d42a26be52f54f1aba7296250ceb63078412c291654a299702713731e190ece80f4ed18c6e1d4b40264b14a2b067e3107ae264b5321a429e572a4eb188370f18e2dda9307190a70c2e4a31a9450af4f0b4852f7b002e25037851e6751df441606929d642de2731d2c07a8c1c3ed1bc291a17212d96295831a3ec2e9a70730a1c54b02f620508b0b726201e106f6b),
  (37903, 64, 309518669, 0x22ef3313d21f64c0fce11ebcb2608d12c182610c0a70a2634d13e8f27a2b2ff7814db907869163271a4421a98d01b392540810c8629ccc3194908a4f1ce360e5010e798265f32e71716661033f5091ad225422c46f12b1716b062213428a850334a18d8211dcb0ee0111b952a0121460c12e0e121072c7ac253cc157a223b8712fed0d95106eca0b5ad2ab2a2dc700b0342a3d41a021131ce0f7181a32d050b1),
  (37967, 64, 310050078, 0x19f4f2fda228df4320f02de91017d31ead520d48317011aac80c08c29d8f00c671aacc17dc50a5d9261791ad8c168d4249e31108c28d981df2a243191576e14bc707aa51d6440b562220d63195421e87116c1212a331dc90d4461d9d9069d23110f122160a8a70cf5220de716e64093a7287061a7cb19f422dd471d62a29755056b62b990032d219d982aba129d4a075902ce0d0c9b211f79217d42c66123085),
  (38031, 64, 310568995, 0x256f20f68728b191e4f70b115197a1143cb284f32d6890cc01059882222e02dad15b372782112c8620c4329c881ea1810f4b160f22118d108a71920421cc50ed02309740a3e730a940f54306c282a13731f850259114c2203855223062328e0b476299ae265c731097123871ecec2cf651a156174a80352c03e8d1a9491fc191ae4531c2a0f4011cd260eda3214460bf0729a250b7580d9d021ff81fc4424c51),
  (38095, 64, 311093333, 0x7a8330a6f1e932162d603519165440e7d40b3e407bf90bb010a1ac169a41d477159b12672f2a019035d91acf11ce1922013084e6164f030be511a2c1ad3616a2b122b41d57300e9710c582c1492340a0a5a40f1ca21bd016948090ab233c82dd3925af91162228de216eb625db90f4d511c3129711225f01dfd71e3a32f1981cef3036ea2596c0b6b20dcad2d4271dc26198d703b4c2dc6419394282d41890d),
  (38159, 64, 311615709, 0x97a2169591ed330d2712288e169422c81312a651014e09d321a19824c4d0b86e06329052041a5652c36a0ef8629ed62298909b78214112f4c7070072a4cd1880d071662cda11e0190b2972648b1e1b21a43219ea7216e7149e720b0111b4400b8200b552528a1da280a4b701d2530e6c16651064030b7b4076c5295c60f69925bc61e33021d67146c319b382af35065b014aec09ccd2e103262f816f512e152),
  (38223, 64, 312144260, 0x24870195e2264ce1d24509bb425a15286312a3261e3e72db752a246136a4074380b592220141dca91e4b61cf6e2ee611a90e1e77628b550f77610d240a40e11e85126821e6450f7f1046c921b941a5b52e4072564818497089c4312671a0a804f811d2191174912bb512f820dfce11f892ed0e1dde10d0f403c2625f492deaf221390d8170084f182d11ae670ecac0cb1731928224aa1288a2e0f82c97926343),
  (38287, 64, 312668170, 0x165342c6482baa82873819db92d042204b5030282e06c2239630343277b70dda219ec70f0710fc821cd61197950a24331fed1ee37258340c286302a106c262a3ed25e361a9b72da870b2c40781906c6f2cc2a0208a0ab49282d71130818b890764203610067ac132760f2371e7eb0d14b1aced30d732d40a0abd029dc21afad0f56424e8431c6e0eed91e32d1470a0d322135aa20aad1a70203b72100ab0b50a),
  (38351, 64, 313190118, 0x1178d1d1291bbf2208700dee51a58f24f990f4230204e1712b1fea119c6a16893266e60e0c60634b30737189a3119e71ab992273819af919f6116b8c114e715a2e1d4101a5691e1570b6c70dd752ddd7079c125567132141907321709108a22c5ed15f93242061ff042a4500ad43308f915d560b2c10abf10ee770b04d2b6e227e290a6e629eaf05b1628bf82b4ac27936059f118f6d26439120c21e90f10d70),
  (38415, 64, 313724656, 0x167b027f2a229f60c7f830e931e9900f2e6254040783214ae90b1cf0eb6e049d61e82621e902d8d00ec9401f8a0ca4e2171709ba41e7cd02fd206fcd1724f0d81829f51228b001c6119ad1309b82e1d325d11320ee076060bca81208d1a04726011260cf1ddc21ae040a3cd0314616b8d29d2d31af124e813184329a6d299811087406f161318c1aaa61d2092b68415df7100671936a0e3ac29df63156901799),
  (38479, 64, 314238318, 0x16bb12deaa11fce28d4e02bf70f0481628d305d4293eb14eef1e08e2cb4a19ac709b42318e41327302e100464e204a1254e72dcec24eef243560a56e2d34613ed12d52a0cd79052e22a02b12c59211831eaa123c1910de30a8731f9d63022f07cd41ad0b1ae301812b2d62e1afcb1af86305ae05acf021691e9ae0358f323180c42226eee093021f22f0adc60f5d20c61921ad62d3481b887128ce03bcb13b8c),
  (38543, 64, 314762074, 0xb52702d670f82711d652b5921cecd15a621e9052169607c86034500287731f911df4f1acd81e1820be27224c41a5ed09e6131e372c1541e96d1a3ef05c273129431a9629e7113d9806dc730c39039b7145d80b349251af1ab892a30c1134f0dcb219959057a90dce32960e31c641b38228dd929b532677507e9805c4d0798a00af42d02530f2d2dae92994506622265e12ec8624994295b92d66a25a432c0ee),
  (38607, 64, 315286108, 0x276612b16e0a6712d3ef06817126ab09ad02c4d51cac415dc71204430a4e1cd8429e670e9f90777329474073c318f6225b8d2e4e62277405e910aaad0ed392434b162b121fb93239929aa12b2e923cee19377051d62fbd80accb21d702d7f025718256cb1e55129a0c31689253a11f788052c722a5904c29298e425cd5166f71d9e91e6a7264622d347313ac0fdd906e130af33295d0299a719e8b1b7632ba97),
  (38671, 15, 315816146, 0x127131f8b01082a01f1511f011e6c1317ad125f911a570d5f41bf4d29da5267160a7c72a36e),
  (38687, 64, 315934300, 0x7971045901e803318521d0d2229a714f2b16ce62de362354e0161414387133882a1610a90128774229f80a94512d2e16e4c0e1532e14b0e2e30e99225917047411ac93195ec1f186199d32248830f54155ed0d3a90f63806be41620c0f0f92a28e1dc2c10436008130b1771c1b10e5850f5cd21d1212cb62ed190edc209f3124d4f0dce41ad352b6e60b646078d831d4b165790ed6c096cb071531194c257ef),
  (38751, 24, 316465225, 0x1fab50ac070e32e2a4431cdb40b4461a5f10f0ae153271ff4c00f840736c307d0270290ecd312131163b229b361da950f5120eea312ea22fc5921e77),
  (38776, 64, 316668259, 0x166e411bea0f84a2716321a530346e136e9236e5251293023413f2925ad31561102bc20b52c1cca70e52709c0c214762b7e10794e23caf12c541a1500383111d68034811bb38025e40a2f424da50e4c806e2c2cdef1e50d1c796128a4194c121f862be950afd8075870aa9206fd916c270a6b20c5c51e66302d98310a51df301ee0d15c2806e031dee620f2927f6f306572889001cf704fe31cb8b256442d82c),
  (38840, 64, 317195529, 0x682e31ff83176324a7920faf030691170528d252da0913c821e1c921ed807a4430e7424745247080eea62e8e82c80e022900629531174218ae03b0215ee61e2d91db511a6ac1aca8038c1131a5261ee2e6650f35324c2f124f009a6f31cf512d331a56a2e9e2225cf2cad70f1cf1764906d720a181170731ac011e5f022e8d0f32116ec8152522da37249c112786073a827a4d20c990ea530e8092632a1c3a1),
  (38904, 3, 317720917, 0xb9132f4091aa67),
  (38908, 64, 317743160, 0x3d491901227e33295431d5051b2d32fb79115490d46e21baa16b5730fc405f6f2100c2a7c6222d425e010ece5150c311e9907a300f52415fe61eaab06e901e6cb02c111e94931b4a2bdd215f4521e542cf440b5e7084ca26aad1a2e1293360a8ec2bae42d4c5043b10b12e077d524f521bd8e2a0b003eb41c2840fee3262500ad91223f91dee51e9a42d7d51a6120af61078cb177281ae4931233087ed31ea8),
  (38972, 64, 318275784, 0x16e092edd60602c168391d90415db4260c91b48e2a14b21cec1b20f12f501dc99190eb0edf92e2350e8ed02e3630d2a147c5171252992c2286d1e6662d70112d91225e9222551ac74131a20e3470e1b90f1ec299ef11c6628ea71a9a31c7b9312c30a2aa1010302a7312af2192230756e121982a4b20b4432a5311c1981c56a0ad7027ceb162ef07a0d0dc8618cd90b36624ae9060b82b5021a2882f3d114d05),
  (39036, 3, 318800338, 0x251f919ca42a081),
  (39040, 64, 318827334, 0x5be523786062822c96d01fd930c431e1741ac2f0b6f903ad4264d71ac2325e7224466186e3222d93120a1922917775123d22834a16fa601e540dd6d264b1102a4167f428e8b2d94c28d6b2d77805d73292781e2a531db406b2a155e125bd71eb74212aa25a071e8f419516227480266c08a51213a224c952c87426a5818170216651deec0243419b561ddc80af6c154a111e14250092fcd1169ad107b71076d),
  (39104, 64, 319369426, 0x1a94a03403019490f27317e960efe1201f0149960dda72e4e224ae52ab5924d6424d2a0d07214da9304921f794018b80b12b0e75711e6227f811ca562950c0e3e30e30e08e7416e6b151691e04a0a2d212d8c09dd902b4a216b82566e046082a1a9227231ed3002a3707917026872638f2a4b91b0c53183515ed616e4d257b61a7e61e2ec1e56910d662c4731270d22701292ed2a3c42af48043a1252f414cd9),
  (39168, 64, 319882144, 0x3152e12e66309751143825d032c92e2dbea072d421b6e30dd50130f167760ef69271280ac651aa2f2846817b98066411a8d92646809b9106e8e2d6f22e05029e543096d2461611183295690244f19f9921a752bc482a19505e260a8ea123290b78e0dcc2262051a1c50a28f1f5e4126280bd4a2ade4183eb12e6b1b2472942311aca069a81c801180942c0f104f350b72531ba11f4ef213ec1ea6a1afb12a056),
  (39232, 64, 320407150, 0x15caf22e4230d722a6882c9721910f06c421ddb8204f12c5651702117f13173780b3630a202263242cc8429e2130d6216f9524c921a0f33214b1d3a40b00e1a7cd101710aee32b84331a090ab08307452d58b20a8c2b76a064e6079f40a60603b8a146570f52929ef01e9531fca6293ce07aa62d0992ac330f6960702a1a7e30e0330a6d712ece0daf13038c12f0a1a21510cd50fba826c8c0eba71151415fd7),
  (39296, 64, 320932558, 0x31d2d0b93819fd125cd40d13328fc90558b25f9429d8c1f88a063452846b037622ff682dba2030ce130890a90f220822d38c21a241cbce03aa70a1440340a052b722a34155a61e1d31844d1d7532d44d0c32f069d52bb681620621836130ac20f1818fd62a754285a3167c704bb3133ae063ed039691eba516812318532e1a4288f10a8111a284025cd1e84731e1617dcf267222d087291b1313d516f612d8c4),
  (39360, 64, 321454662, 0x1c570142a70b5611a5b6267711b9d404ab8260c831dc60f030218281d0ac31cd409f472e0671d36c250723214c03a831612325cc706e750280131d5729752122d61b50c199ad121a12e21203886258e908ca91a84c291af021f1134f70bce1057760710e257ac2e0011aff5036882c9e1067eb112a31d9572d2e42a3d2124471e4011fdf425e4b0e5b6031d42370b10e383222c0e50413f4f0f3aa0e3e8107c2),
  (39424, 64, 321983425, 0x256621978e18eb209d8d127c42342b061ae0e2d31a9a82eac716e07130860f8831db022be30074b5024ee1bc642289503cf50efe4072763119128b040ad37315870ac17311ed0444b1b1d80370d1694b050a10e24e064c722952089d41a7d1147810366403d0e1e0f80928e2675211fcd2ca8d1112a2ced125a501d97500c681e43411e1127bb52cc9003b53168d7070c90ef372a0c93116b201af1138d06914),
  (39488, 64, 322505075, 0x267281c5351dd741ece3152e611c550270b31c6f01b261d40b1086e1933823d322941811625142551e7972140e19bb32df8a0a6361aad720f591a3a50242515eb3265ea1e1b5029a90b6b114353070c70a8552350d2b3b50d7a5253e9197272cfa629ad8103d3026552d7e4030231e3d62ead225cae0eec11c9460e0210106b18c071dc55211523152418ec72502524fea160f5283612e155170a91a93430a51),
  (39552, 64, 323026982, 0x2d16e0ebf3242091ceec0384503c322036e0ead029bb10e5c10f6091bb490209400f6e08f640690410e45076541210630e6b0b77209fe227e4313d7224b98294f92a1191ad24146cc237b711aec285a9058ad2a0a331ce328fe50f75906e651e489078f61e9352c8ea1550d0c2832a3a22b54b06c290d01330890263760146d1db18225cb149a9037340aa2314b440b4a4164f30b269245d1297630ee8c1e573),
  (39616, 64, 323553405, 0xe68216bc10e5622538e21cf5129d80eda5158662a2710ab271da1315c902c1c5030b01f7472a4cb23af51de79211d919de70f2511a5482aaf8104700a967218ea0a3031ee651bb56039b630cb1018c12de071cb8f19c630361701e1616ce30323921e492438c1e40b22737029520aa740257230f65036d01c8731d94130ca50a325133790d331255a30ab6e076212283209df21d3a821ba725f82133f422491),
  (39680, 64, 324077759, 0x30a951658331a971100a2d4c2026f0130430185919c6d166ed01e08220871cb5611d312e7a9252c907a6f2b1311868c20b151ac1521ce406d380640b0b4480bf0c12aae2110f1e2a8071990f206075ea2e1422674c1fa4f2d95730a560350901bb124877111302dc5009bb70bc2a2154610962014311a1b429288035c90b59128be70b4a10d9f81e4b916cb40da290fcb01e7791ffea1c11629f6f2b9b3253c3)]

/-- group 8 -/
def seg8 : List (Nat × Nat × Nat × Nat) := [
  (39744, 64, 324602874, 0x220d8227731d4582fda7085a60eaf22af6616074312121e82918216148a600f5722af101f8d24db61c8f5017c23193431da9132d4290b20ee7408ac5163ec260f2089a728d8d25d1014b410b60c1fcb22f2100acb122599060d429735034f60b4f016537213c829d2a1226d03c0c0dab62d44b02ab92c6411a403250270a74e20feb0b1d529ded2dcf8034c80bf982dff312e391c28f304032918428a12126a6),
  (39808, 64, 325125381, 0x105991ad97158570dd810684a22c2321d1312cb11da2d0fe0e09b450e1f50b0d824b0730a74104a80110612e9616b8a03a79036c724fee039552738b2998e2be171ac521d86c313480ef4c239550dcc71e0612314f1f48224eca315662b8eb2bab90aa5301ea7110103056b1ae62010452bd4f313651712a193132916818f77226e2253021ae540f6451a6e404394316e118e011599519f6e2910b20b5715ce3),
  (39872, 64, 325654424, 0x29681254f621b8d25a2a2a90502dac199cb30bc524f0d11f450a5f81e1850466412d181afd63090c2d3d306a5002963305af2c570260b628f97096e11180902dc10330f2cb312072630a4f31be50e8ca014e20135811caa0f10c2d0cb130c506d28167b3042ae2d4072ebc41a82a0986c2dc441603013336162ae0a48d1c18724e9723273299420836203cd125de52d669163e614a951ea572dea927d0d1bef6),
  (39936, 64, 326174786, 0x2e1c321d182e0e3193e11a8053159321ee12128d075d129e642c9ef1535906d260a775244691c68d2947106e5112fa82eaa712d29264b4022b51c7eb09c1529aae0f2f72cf3306c8b30e4c1421106cc12ec890ac90295a6265e40b4d1316861c3651abb313d0a2cc420c2ce1d667261381aa8d0e016255081e09129ad203093277c92ddcb150d0034b521881276f0236491a2722ba9024355156920bfb21ed27),
  (40000, 40, 326697059, 0x20d430604910b141200b06ca40c8540f1b9130c20b3570c7a50b94b0b6450252a1abc8261f712d760ffb91abcc1333329a70267e61ae8c0cf190b7061e493225a61d1d4317aa16cd21c5a6154d6128f318f99267091c0f4192970f28e130110e6771cba1),
  (40041, 64, 327036843, 0x1a876026d92902a22113212b61a6c3211962ba320736b2907317c8929da20a80a253320cd012144a2350a205f231c4e093f3075890a46b1684310aca2758d1a04d291270389212a3125976163d609f7022347310d827a262e4e91de051195025a6c27ce61894c2bc6628aaa078331044415aab017101e44812f0511708318ce29c131a3a90e4c3228a51a3f52e24c0b6ad0dd4f1a6b51866e0b1342d99029a59),
  (40105, 24, 327557932, 0x6eec2f6230def9066f225bf919f361ee0a1684c25eb92a6b702cb7215543080a0ab85265d303a382f93109699296482e1b321b5107690259131e06b),
  (40130, 64, 327755241, 0x2d52702ed003575307171707209b2f07998242e4073362db280f3af2c0d31de3502ba41ccd403bad163b52518b0f5010f16e02ead1a6e82feae034332c5cd2220d0ed9329fd61e7382a430157331e6140338b0fa2a05b592d0112cea1007e227314211050718729e8f0e18615ab127d3912c09223981c40b13b272ddac2886e2926505f5112e340ef511374b1dc830b662258e614bf0031280ec2e20c93147c3),
  (40194, 64, 328288172, 0x22e3917d50016eb128461eac92d6ee0a0552d60e0734100a252288b078c80290629f312f38e123d11cff3037ea1fbd711e4623ca81e8331dd262211403ae82098403c8b01db70a9c10db6c11b751b3b512dee120e71a790318231e12c260ec1aa502032d0b58d2a24f0c42616d980b0141a665091e9301cb196f022a8914582110850708c1bb050709824c3412fa7077ac2b8c2072a21ed2d1c149026911bd72),
  (40258, 64, 328818205, 0x7702318c40798b074832f44d14336034c32dccc28d7831e44242f9163a2168f121af9190a616662106262fea921e6701c221ad0122751066b021b6f08c6214d8c263f81ae0f1f8d111cb312a3625d992a2d71ebd502b933092a31cf22dd5508e571bfe90398130acf319a411719083280a5a20c9920386c1a48a1d0b80174c2a15631a2715625097562fff0073b723bab054d8128ed2632d13e6f1a0510efd9),
  (40322, 64, 329335249, 0x7b041e9260617812964297991a3e128dc231e172116d10887216b321ca50ece2225d0116060b14d0f5232646b1468430d3906ae706ed3167ea2a2ec301e4297b021fb5265a7295ee1236719bf9228660a50e29b3316fd907fce30d292a20b0b7c70a6a22d0052912d0e16d0742c0bee712c751104121fd80a8870f1eb078952a5501ab500b8d9080d90b3c1312301aab70e39924fa7247291a5320ce831e452),
  (40386, 64, 329867197, 0x29e4721e111082d21bd629b8712df309746064cc1232e11363306c31062131bf131377293330b5430f6641c54f0180d1e6690dea221bb0189f8006f216acf186a2129e11a9a2316690876f1e1a6111ea12f2b2a1f703d261eaae14d310311507919167f72cef90b6920dc8d09f0b19ed30306a1a147261111644e1c563270330aa050737228af9235b92874d1d5101a6692eec22c322130eb12a890b54625667),
  (40450, 64, 330384378, 0x76e10a9ac0aee41c09224a940b1ee0c0ca028c5192362a1701c90e21593054f1022691d762097ee0d9490b27731f210a7e604d710cd63216c731dc711b2431db5092082526a07a0e2f9c80cb69075f810d19077c50b7941aa911df4303ea41ffd925ba62ac4519c2c19fc71e04d0cdcb017270e81706b4c262d82904c16b840738d17b8725ca42d3cf05bcf2d1310f1480b3c4257a12edd901ec829cb50344b),
  (40514, 64, 330916289, 0xa0332dc722f025058382d9842b8a1180b22606624b2e0a0ed0e2130a8b711e651ea902ac1905d4d0213723f951328c2dbe9256281666808dca12c2f1e28216f7807a2727a9312b950b4ea08f3412381166520dfe52fe4f2d55925f2906ec3183d13183216e4a282a80f4132de161640a05b222faec06f4e2f2772cf77263231ae392a981212f21e3212286e2e0ef215b51a8092ede221b740d2962a4840b84e),
  (40578, 64, 331435068, 0xb1eb2a8021f1b70fc620272c257cb290072981220179102221a8d216f6e2bcea211b01e6ce0fa7830d7108bd3159521214411af00e5ab046d8112e825cea2f36d0e4591621006753038eb319471036918b7101fc631943223611ac2a07d1012d592b3e90a9aa2b84c17970086e4168081358a300eb1a7331d5d52d370077a3313541ea6d264ae1f917167e4024f82d94b3046a0b4091e903075382c9f103c4a),
  (40642, 32, 331957104, 0x1dd2c289a62cac1201eb0ee5722dcf065a6319522d70f0198f02c8215491072f1265390a8792641908206120a229159098b1243632d83828718200e630bb30f3b40900303ac416d0816815072d308eb5),
  (40675, 64, 332220554, 0x1ecd9254c5067d63079611eb62a543280f21eba22c0621316c1fc3504f25230441dc6f1004712f26054792d4d7279731a8411cd2c053c72a090098d42fd5915539228901c3d6016c41ab870c2b30eab0300ca1cf150e0a60e48f31213075eb2d643275720adf729e2e1e67316f922cbd6060f131d2a233a209a521def61a4381cd91312031e7c12a3a40f042216e9108822d4a51aac62dba11fee42154d23ca2),
  (40739, 64, 332750857, 0x264a52da2b220c30368f0f02819b8302e98046c80c40205ff91ce840ada625bd31e32b18df029aa7310c90af8d1c70a03b7010d122a49229ec60a250255b01b24c072c40f2c6046e518c2a297c10e5c40a8441b9ee21e701488530d0a16d8f216f71eb570ef3406a6310fa40a3511d8ca11ed12df221e14a0d82a284f52dc621f9d225cf1287b51d5f0012f92a11206b331d8b0260af1ea161670e29a090d12b),
  (40803, 3, 333283741, 0x36162659816e44),
  (40807, 64, 333300722, 0x2cc850dcc3188ed2d92c265e310925033e526755306b620a830642f16ac5224920bad5148410f6b50a34f17c2a169f20108e0860704b851e9f80da2e0e90919f2f2ee7106917186d407a711e3d916458293cb055a7058362fcb1061940b45609c51304ed2fa0c1aa560e1d817fd7194cc0079024ecf093b912d5406e722966e297932a12b0dd8730063211630eb4e2e2150d4691f9b61d9b90b09923eb8226ad),
  (40871, 64, 333835137, 0x1a9f30d1f307687253810b7710e7a122a391a14b0198125cb510af329bd51a3372a18910f051dfe6223d41a2e703b6720ed20e7421b8f401a17066370ef85141320f80710a4e2ca49197811ceb4273ed12ac131da3023041e84c1a966258e8265c1271290a0cb224a42a04a098c430c231ce480f0d91e11916d271eb8828b501da22311a202ae62ce19311ea132a50b329079d70606b122ea1132f0dc922a261),
  (40935, 64, 334365330, 0x12bf20e4d12e1502cbd72d3d2127c3257cf193660a2810216f22b742fbe9319b02636903b432d4c122468149aa0f311068cf1db0b2a46218bd719c66159131576907c03033d2219060eaaa30e91277ee0e2b931b81224f515e351d4571aaa32a03628577294542d8d22e2301a66a164d00766e1be712df890f3e60393111e68163ab0ae70265ed105463047229ee1215431504824be90a6f628d88256f802f6e),
  (40999, 64, 334881979, 0x1bca12142d30f781d6032feb73158c307251a94f2cd9430c271dfe51eaa422aa7173220b19316aaa29ed02352e318791d3b330f52125140a8e119eb905d091693915136117c10300525b6b2463214d93258f7258022cc640ac3430f42125d9077643150e29ea50ecb303ce50a7a8144a20f4f22ba2331a33064051dfec0e6850ae910e565294e61a94c0a9cf0eda22d44c276c3027150dcc42dded2c32401a45),
  (41063, 64, 335411434, 0x214563193501bb01e7cb315ab15eb42d42d1dd8e065870ac2e163ef14ea9136aa037240e4a8166af0b6031bcae1408a2f638216b221f660afb8170372376331be9057e303bd40b6cc132a20082a0318e0598e262332bb14135ad081c52c4f22d8a41a62e04f870e330212b3272f31a8ee25624297490ad070b3b520b2b11d962b7052baf20b4262e0471216d2c8a21ff2c04ca11a581020c1270092e0f60f603),
  (41127, 64, 335932159, 0x29732011091e2741ad2f073d419fed0e3d503c1331c6102d770ad71167181a56c1144d3134b069d40f333124d0321020d6280db761e8ef1ab72170a8165140b548216681054109c2824a590f46f19b08202583220c1e9611bdcf28bf906f3532231127662c5c61d619084f81cfb00ea330068520c7406d2911bca1db8a12e8c1a99712d6c2db8205c192510907b2f2d8c22d36c0f0a5084c111def25d730e507),
  (41191, 64, 336463667, 0x31567214c40a92523c8f1d0ea1e3ec0a7d724e640dbf10dc6b31cc30adc20330c079b6060590cb11304f0296e806899118c21e3980b10e284672b1301691231c62182a82cc70262301a56f08156223d91603328fa3131851607714878166ca0f9d52274a3137101b740ce6d010f01a6b619ad924a4431da62f0081a5062a37504acf116e5260f50684d3032813c62307c319a350d721318e20ae0411cf70df61),
  (41255, 7, 336979243, 0x292b12569103b3916cd307637323b302e67),
  (41263, 64, 337037928, 0x1204a131f12df6a0e8cd31f892d34e0d8941aceb2b38a269b62284d2daae0de8116aa4222352234c1e98e0a9552ff760f1cc059ca2540612b231f8ab0278302ccb1d3782d7f2031230350a0f4d725e2d12178130e40b42315ad4153ec14966141f41e3100a0142ea010dc66241a7106e617b432df2e08f652ca54231b506ced2630a01cf92504816b8b1bbd20a3d21e2ea2d68b0b19821b8a2be1016f102a2a9),
  (41327, 64, 337570249, 0xa45606f1129ff0318cf12de9317ef2787930e7213d070eea80712a1deb80454b1e50112fce06d8129a46124771a6f82e07125bb70e31230e620189231dd3010ca210862a382091031aca620f39220c81aa21225c9038221ed2408c4d1d87116a16069c4035e111df42982312f56115e3297432e1010978f251d908a460d0f80b8e61a2592d9c331c4f289d821f99260a92ddb82a2952aa911afc130ad70e08d),
  (41391, 64, 338094649, 0xb76d250440b10b1acb80b1f427f6106618294ec2cfd12373819b422e2a4018231aaa81a2eb131821e94716e8e216980b70503af8170b6055ee0a20418a111e708077501b8672636f2d78811f8b28e6b1e96b30c85306c817121128022d8450dad1193ee0d0413159815eed2128a29b4129fd9074e515777029011a39303a6924c751cfec19aad039451d41629b91264b70f7051c7e425e521932d1e6c42b1f1),
  (41455, 64, 338616513, 0x34920a36c1351326fea3022d168e51ad1521623291d0016a50f6612286f20d4918d071dd5521a552dcd802c6412ef92a6ab310d1034a51cd8a261e523d98094b31f5c41260818ca42a2c719e0312e4b1e2b529e8c0ea74275230cec2060650e95811d6a2d18b025ea02def317e118a55190e807ba209f862f2e40a7992b6d302b790efc1201d00e12124be51a01012ef42b625060561a2d00772d0f46a2c9e5),
  (41519, 64, 339141773, 0x1ac25027682de3003a2e0c0c7227641338e25ce30a4f5177f425a6f1e53428e8d0aae83122105c4301ed6153342cb59181cc06de8292622d398255710de6d1374427b630524b0b66128ae41a2d611d55022961dad81e0171392b2848401c35102ce1988c196f3263040708b131ab0eb8716cb519cf50a38612e46033971b8cd02525307b506d6425fa321b4e0cda42322d30b4716a692710802c530ac451d792),
  (41583, 64, 339665145, 0x1e78a220620ec9621a042cfcd0966303799316871128322a1421ba8298b4195511d50b146af21ccc256a30b72223fd919c2518842153081ea2c24ea93078f1abd71c7762d26e208981ed2a2a1e712d7115a2910a67288d11ffe9227e204b2630418299151a5f7267020df8a29191285ef1a5a703a15211932a1d923a44050052d6a8170ec2af461bd880600a24cd31bc770472412dd81eac62c9d32181620c6a),
  (41647, 64, 340189912, 0x6b8516f6515cf81ebd229b190b91831545280cd2c64e02c0520f342cb1110db928ece0b417240d0212a90786c1e5ee125af015ef06361245e2074ca3056406bae10a0d081210fe6b073ef01bec0f00d2caf81242728cd2286a9218082263615734316f014f73094a311881088c21165607a291422505e12243412abf821b4128fa91a2b41894b1e455166c4021581294b03aef197522f44e318c1174d913069),
  (41711, 10, 340715600, 0x1aa4702d880f01025e2b0e583295182978622932273f22d3b3),
  (41722, 64, 340796101, 0xebd003ab6312f929e441a5ab1306609f4a1a7e400718219582d7a600a0f29d750b6280efc429f0703d0c2de240ad1729a8e2b2c81a5032912a091ac0742b14046005952ec692d58524eb60f34e079f2147610d6471e1a92cc221cb980d4e22a1b41a6531110a09d38035651314301959035a60798819ed031b0c0f8631c1cd164411e9841279516b701f6321d6290a4d31c32b11d0400d42026722112726751),
  (41786, 64, 341329391, 0x251271eacc29fd311acc2728502ef53143724a8b0f38f2e22c0a7641c042190cb0ba2e1a0820f2311eab1127b9288d61f2290694a1a4540b6912c9f00faea274030a835015b3239852f358145f3256cd0ab39253c91e50b00d06037c7194c31e28f0a42a25c8e092c820b320e00120490156f01e92900dc52567419dcb04889296b0296671ab8e18cb91fa3431ea902a312564229092011451e8c203d3222104),
  (41850, 46, 341855300, 0x24b78122822a0e8220b70f936237971a7c61e2d7078851e28515d8e031e819b4c063522a30f1cb0615b4d1e8d429805267320f1470368e119091853029cb2263561a14d116c31afe31640d19b3611f03310b80b4840d9d706e2f0778f194840ee6c1ce352670826c562d54b1dbf7218e31ad52),
  (41897, 64, 342232787, 0x1e6d1265ca29fb62a4ea16e4b0744d05dac3038525f75309ea21e4a07362071d50220e15a953090521e291ed1016f93227170e6620aa5415d5109d1502eac0f3f72875931ae71b8591884b1680b2558303c6d28fc51947010a342808c2928425f62133d42cd42166831e658097e1207350e11616c9615529274f5157042a6970f5e9155b631db21e183186c3168f82032428b2e037580b75222a0a1bfd90650b),
  (41961, 64, 342762100, 0x1aad11613021cd52d7031d2421654e1e1b3046f61c80727165061b10f4a619e170df3512e190f0982a22f306af0d64121a2210e9521526061491210b1a90529268078631999006de60b481032f92798e282710da09079d92183824ff4291461ea4a2d507162851a92a0cbb312d921d4c626259129b8129632db08318ae164312e49915cb90ab4e1484f12b0d2bdcc31e2e1334c16655108cb224710fe421ae97),
  (42025, 3, 343286178, 0x30d2831aa427f56),
  (42029, 2, 343313046, 0x1d3212f181),
  (42032, 64, 343338253, 0x2154a0bcb5022332af6319a2e049112db191e14d07401260d22a61028d6d25cf0220d1252710b5ec27e553090a31cd222579120681670103f8807f89077c609d021e9332f9c10280725a4126a83213e731f042a13631e24248f20d5cf2f84d225c51e42505e0d0ace20eb5518c6f30d302916422309098d72a0c2076892c9e72d6ce2ee8a02ae10a1550dff41e712300811ac03163240b20d075e82dc8f193b5),
  (42096, 64, 343870341, 0x224a12e761ecd61a28e20c4e1e8e8301c41e54f0ebf2204d72aa12226a626be416f2211736159b01446b2d12211f7618cf614ca61c9ab0ed2e0aa3316f6f3128b2da9025f28182b71da2b0e5ae191011eb85282762a530226c205c8f252e2312101e82730f6f16f83094c203b770a0b61d3ae0e286043b7317082275321a4b29f890c588031a20701103c301eb1304d921700114886029b918ac309b121eb54),
  (42160, 64, 344395383, 0x2e814234372e511067e215e0d260960f0271694328bc8064152d2ea0b5640f2b90299405de725a760f2081a82c310c622aac30df9183ac2ced902e340b509314d6182d5079330700f25a0a0658c2a3211e5480dd831e1681aacd29d13169f5313571ad8d25dc5037a319a282deb710fa315d2127ced0610d2df212c1b02977915d732dc610aec421cf31a714071ce2cf6109994025b824ae7262ab1ea1909baa),
  (42224, 64, 344923316, 0x2945115d551e552320f312d0931da723d04267c6116af1cef20e3f429eee1f3520d724061e71272214c6d22ee31a8d802f6d2528b21e0b02e49076521a7e808bc50594c1ba730dff90ee93086c7130231694c16f561656c014542a3d7194c92d111218611e1c724c830e3af2e2b32583130bcf00a8704be70d25520a16296611a5962deac152cb1dd9828e780a97711f25069ee1b76f291a112cf8265c4098c7),
  (42288, 64, 345442427, 0xb68d0dd2f0f4e12f8c50e26d17b4a0b11420d232d7ee1fd2409984029c606dad1bb36185f424d340b33727b270e7451844714b2f06fc3223222378112bf71929101ea9217c73082903c2707a980e6b109971225860f04414a342672c2a0182e0cf128d30f38a2b60b01e180f26e2f22c169460ae8b1ab82234e70eaad120352d59421fe1278cc0daee2ddd42c73122aa2030ab1a4040587929c4b10c89043a7),
  (42352, 64, 345964975, 0x16e30296281ca921a7870dea4126b00dd841442702acc19c6b29ac92a3650330d0b0470df280c055319231b846228851e6e5253122142a1e150103d4251b016e980aec31294622e8b08e90310c22d35012441291070f19925b8916aad085b631645223272f0ae29f8329718164d32a45320db52a4d62dc520958c28a8a240b719739039ab161b914c67213af116e80a3100e856039f11a4b031f301fcef23478),
  (42416, 64, 346489313, 0x30f7721e471c6543158d279010aaac12a64221ed277b3036d61bed313b73310392a2700c4530fa0a318761e32412f4c1a7d70cd080acd63193206be70e16607a8b032c61650a0b556071a31ddd1220f321296292451b1621ce09158c51cc220476d1c1aa282d30e64c2d105154e831a3831be6017eb0640229352162e70dab00ed731e3311ed2115064035b22daeb15370215342fb2b2c32b0af511f8a518ba8),
  (42480, 64, 347015416, 0x133651866c2d5b503be819fd32af0128d4f0f049055892a2410a9a10988b01c7012cb7213f216c2c0cb8620bef216b51a9090a4b42030d05b932dbf70a40f19fea0b6c316bcf04c451d8762d4b70e9c91106517fea21fb316f5403cc224c142e48d0b378320f42f442107482d8ef09e342a3730f5130a6a41f81816ba131eb5266a71fad831b2b257d22429912e1406f320b5d014b97320e8233ef027a41ae4e),
  (42544, 64, 347537491, 0xf7750e4f2073d317a70201071e2ed2f6f81f70d263d825c0f217f711c932027925d792da0b1a78b19f021e44311a0e1cd131e48711fd42df8b23c880354b1962409c2b0a58207bf00e559310a9026f629be9061ec1deea09a29120d81eb8b0322913a31118c5128cd2ad450a68906d360efb92364221ce230c2e12826150381aaa21cfe52caec1daa31dc932286b160f6166cd0eb6d03a461e7ce04bae0f3ac),
  (42608, 64, 348069761, 0x11e2630014117c32a3ec220f42d6ad2da84058420984f265870d1b82cc97128832cbb72284615f790435618a2b21ad91311107bcd05e54169150b94e2273119cee12d2f1ae422d0c321fb8161920f1cb192f32b1f02f1f50b8b9044c328aa62cbc129b6b0e379288af066a615975161782bd420f16520be10eea51354800814125d404dc30772e1a1f602e032cbb62fe061208e1a0460af301ad2a1c8d50f644),
  (42672, 64, 348588916, 0x25b861daaf0de820940e17c100e02404415127e80044e1932a259142dc4e02c8e12f0b026261d25625c1611e2316504225e72cff929cc329f5811bf003d4a038082a216192470df2d2d8b21f1ea0b5c9123582630311343059f01e4b71e0412a43521ca306cea1ddcb31b90295d70b52625647231f913ed016908071881e5221abc607747312f019c502f20b06db921c850a492133622c57821f450b12d0b8e5),
  (42736, 64, 349120146, 0x1c66d1e1722d42c0aea60f6b222a132ddcd05ef531c881d9e8312040e475215562d3b231dd81d0c815b8516902236f1254e41a53819b4516bc5277a42d4a10f1422d85905443314582a44216f11075b502070030a41532403c94025f4249c61df970f1281a48c07bb40a7c61a2521696427a42283b71ed070dd5621bb6260f112dd31fea2292ca0a9e50360b0f4741acf631f861c843293131afb6130cb1560a),
  (42800, 64, 349647943, 0x1326c15fe11f411184571ebc902c161a06816e8f2e0d6034572582330f5812f51123611dda12ed23162e930c070d92a0c12517a0f2db261ae270fe702c7c41abac28b713185912cb218f2d1cf2e120970c72124fcf29b4e1ecf32c7252ce632cd87215951dff62b29314e93319581fd3530f2230d86312ca23bd806062041910b1ce03b2910331049d131a132d8673176c0a9d109f9930e711e5e4039222dc06),
  (42864, 64, 350159152, 0x245f50500f04d550e58b0f5cf119b9320e2193540e4392100415eec291391fb4b111110a897245991941922341316511c7ef2e2270a98a29fe10a11402181004122fc631894228e881a6c22d02a01db91e44605b64195a22648e1d0b7155ec08e692074119e7102be6168e12baf40942d11ad00729916d861a3e725cca08173011b0190031404c1e428034780e1f316cb21308f20acf2b6e51c1530339422225),
  (42928, 15, 350687619, 0xa446088312991226698047121270c1682c0749411794197962119002d0a0cb721c5510f6ad),
  (42944, 64, 350808632, 0x265192d876131a12d8481e736074af16c2d12607309f2038cd19d792d0172a3550226f2147912bc13030825a251aa661a6c812c0f318c20cdec111d019755025e51fec42152d1020231e422ec87289862745131c410779122daf3144f13249249c90ea9002843267542f62121e2d0a8590b7212b4c71ab590c9b609f633178b1804120f2a159ee1dc6323382204751ebcf223560bbd52add20ca75319a20f022),
  (43008, 64, 351338960, 0x18bc4070612b44a181cb2d0900ef1417137304910ab32145130221821c571a3eb0092a0328e072892a28922a8729c981ad91146a8318af1a0070788607dca29c34273f32be0106357265c320dc231d4e1a770077aa1e1172e00200e89124e91e94c0ad34217e90118a296c82c9ce12f062a14a1e7e2102e7290630636e29576289cb0650527de71632d228700d80a284d5170eb2670b14d4b2d54c03eb5076f7),
  (43072, 46, 351867595, 0x1ace10d44914aaa31f690b079311981e5f106711265782d9ca264850b62f210771ebb50ae2503d13293350800c30973106b225cd10a42c2bea925bb30358c07c362867725e730e1b82ca521cc2b1df6d167701b3951422625590190391895631ea331ab0192f90a94410038317f0034442df0e),
  (43119, 64, 352239965, 0x132852992329fd02e0e124d0f122ca2542f199192d7681d7372dba319bd91b3420735916fb90e40e15a2206651077e1259020f40e1ea61028280f69531db32e64331b0d095b8256c61adf003a050e8e916b71156243168c0728721833259921aa972e16e213a5293ab124721e4322166227fd9167ca2e0a50ed922db0d2a468311240d5d60e1e1226af0f1f031ea6168d1221b20ba340ad2e1cce62247225e46),
  (43183, 64, 352772417, 0x215230386324aa103aee0a6d628d681382a1a5ad1a9821c8f10a071251480b7510e7812674e038f41ea8e1a00b25c9520b312c835128551766f010191ca851c9b402c391df29065cb1642e11e150b1b21488c05a29064f62d52d16e0c267352638c1e8c52e0510a6993157807ab60615929fb9065a92710919b291db3618aa52cf4b119c92da3403789095f4260a21324628b302ce94115531cad728df030ae4),
  (43247, 3, 353299314, 0xae5022c6d23cae),
  (43251, 64, 353330616, 0x2fea7062940abf60a9af25506118540430220ea1066f40972307c722ab4d091e516b821ae19316ab2e8190c239257af1627106e811ca23265cd058210ed35263490b44f2fb8321e0f06c55270241f9cd232b521ab70a4c3152530f62a03b760063301a812d4c4022540d54e09bf92d16b1e667224d510ef606eef0784f0adc926c2721a5418e0930a4d05b550389009dd5300e902f6c0f3c615bd423e4b1cd29),
  (43315, 64, 353858118, 0x3e912c9b329e171e56c0ac14076d61e715308313072b1956e18c920f5e3163722140d05e6501e2e1663227db830d270e66523df01f0e91301719ee9022ce030471654103ad50cb1807056151630e722212932ff672c0880ef6525604127b4031052d2291e68c257392461211fe11a7f82ec3328a33195ac19993102e2297e80f2f13160216f5528ae90a788161cc1d62e1b5ed0224512a0b15fd602a850ae71),
  (43379, 3, 354377740, 0x291f71464b29058),
  (43383, 64, 354404868, 0x26873213372512212e6c11e6a21cd23102e1d2410b6e821f920f0852cd890a4a90488f0d6081eac3214361a043214a42989416a300f3941a9552deb82d945061560c3d11a5b11368a0d70724d6505ed20b5e3055b72782d161882169221f4606a0a10f4f237431ea4d0b7cc0dbb8167c41e62313282298f5223b91e8e30b93201177040482df4303887258ee16f6609a2c131a418fb502b8712278119eb0ace7),
  (43447, 64, 354942825, 0x610a129021c5770f44f29766260d50482d316981a418019910bd750d7010999720bd0315250df410e1d60b0a52e2482620116e3109d0520c4d24db0155020b5171e7c4066e40e9a62716f1516e0243520d8111dc41ae0920c662da2d281ee2a1a82258f1a4f90f10d216482da2512ff41395124a39316d01cbca06c4516ce81214a22e861ce8a090342fc4a1070f135e2233cc2294d2b0aa2b7f520c54030f2),
  (43511, 64, 355462642, 0xabe80cfc205d431978f24eac312980696b2d7860230a14858256711a6a704ca72cca9291ae2de040bbcb191e31b9e31cd32130c41a1100ed2b03270170cd2d5650d1411eb82032e90b5aa132ab2c6ca2c7301a9412a1941e40231877205ea11bb830c982cbab03665314d90e3b5262100151831aec0cea71def016ac319f3503c37161613074429d1014e1006b180d72331dd92ff9515fa60df6306e4b2a051),
  (43575, 64, 355985216, 0x1afea260890ac0e3141712ab3064120ec151dc5909d76131d101c872f8c3227081fb71310cf170e510c8a2282d06a560ab751e55518519222151ac3405d191673623f48248b5225ec2196912b031a96323a571c1ec2558c079f314a32028990f4b71ea6b1608e0f6411d8c40a7b8206190a1451653112ff928b9619d252a118145b51656f2f2eb0848f1af582fb6a098a114cc509bad13203008ee250280b636),
  (43639, 64, 356507684, 0x319c5264970b2cd21b6a240b0048101480428d4a31f45303260e3462830a12dc927932278591e9f631cf92a0c80d7ed074f6125272e64f0f11012fae1f0c22f343293cd3171425b972a2ef06daa2ce021c5f224ff1210660a0a6068b20ef5320f1929c922583007a55298ab2fb24164c90829925e32164380a966126af032d612f361696d0f04305c7117cf70df642984a0d0d80b8c6167b42b172246032fced),
  (43703, 64, 357032776, 0x1510c1d22b1f56f1e5b00b95412ed92bdac31e0e0b74d2502411aed3064b018ab0b1d41ca162dcf901a193214f0724c2378a0a1231e00a2deab309ca305180e93812ac703bf82562e156a8226e303859029e81a2c7037352634f172270322a1b085033c61ce0b2673131a8e0752b0ec0b28b052ce88197f30f44a11c521c86c2126a1318b161c3122e40374e2a2b42894329c482d95430bb82b66308e392e0ed),
  (43767, 64, 357560635, 0x73b0258e40996e0a93531eb22dc6f1ea84191e903b412178f30664071ea0b5d7127701b0c80b641291b012fb32cbf82284f1a7b9011162190812ed4015660a4010fdef21403204f80683031036121c623d780774923dea2157212a06123b623718267451a55428c460ea542dc510f2c81dd8806b0615eb229bb825f9107347159e7213ac0c89930d082b7d30209524beb0de480e7a7216f92c7d61be510ca78),
  (43831, 53, 358081594, 0x1a5611a0b3227441120125cc323f420b3ae25a4f25f8310a470ba9907a8819fd00bc291c5041650d3182c029ac06c31134251bd831a89903ca8318e81604a153431588b181ef16e0d2dce80a650213cb122a71226e03ec92b52129d371a1d50e70c1106229a771a4951a18505a0c01df22c32a20e901a44502d051b5172962b251d321b2e),
  (43885, 64, 358515813, 0x78c207e012b5162f636321170e0c51e0881122c2c16112e970753215e942410321cac2568331537161c623f6e27f6b13f552198724e893126b16787063381a86d304021986214f8511e732c40328e6d288b11e6aa295f116bae1697730f4f03818266e20946630c8f2204207092151af15c6f2e0f403a2c29f6911276229f42a425283822a4b824cb315ce217ed32510512db812aad22aa120c4a0586831af8),
  (43949, 64, 359047511, 0x19a1525c8730339030b719f912ed781648c098f3182501e254300151cad01292b1ad03068132916f310a6243b31258f0a08c245c22c3b52bd461afb51cb550fe4b12e9216e421d9171708812a632c4081ac0a29cf31dc151299322616236cb30df016195118611df190e197091d3044cc0eb6a0e9d71e7d121b210f3ab1b4cc0892f25f5403bef2cf410316b212890ec2d2f784169f62f7110f46c1d00522a8c),
  (44013, 64, 359574258, 0x2e0ca250162de3213e521e3961927430f7612ab80c9012910a1d0ca20dcb19ce10656a1d0350398d028640f32e1d2f5024881a07802c8d1b5ea1e0b8008b229b681e378216ca07d0c322561312305eac23a410eea231705276661e283187c330594151aa16098024711f612018941769719ee526306322c605ce20c904218c318a79260881d0c31e3d725e0b0e563294f81e5252c4e202f090ddef25e570e5b2),
  (44077, 64, 360096060, 0x2f8a52ae152403810679127992d7ce15e7302be11e175130ea1f0100380f253e2029a2026b829c2b0ab19253a9076f900b47053491589108cec02e422a6b61abd10c3560aa391eca3295d431be703d301a3d01690b153cc071971bdb80e86429690312f30e7482f20c2be2b1a8f40b3ab034cf2907206d0c07be70e6ae1b7450754d1a9682c7111a6ab1c8e11e2ca1342222679070822193829e751bc240b608),
  (44141, 64, 360633523, 0xa1f3114f22dfa827e030e64f24b5811b87032a22a3451de98237772d30616182172f311985292a11644226395214ee1720426f0c1e8f506490249c50f2020f127130e72d62a2bf830e0f60b664031642a3ad1ed042bf1831625305d311ace086f92d9af1cf772a43321a90068c1229ea266e80de160710f07bce2dfad29470251071e2b31c7f8062e3026cf0b70231f1011d6c15aaa13b2605c53154d20ba0e),
  (44205, 64, 361147330, 0x19da71e7060fe2214a450cf8703a52265aa22d031ee250b00a06ead25f5509a9409c6a318560284d2cac6084ac2181817096259313136c189f1226f7059f80e61903d271826d29ca9071112873929fee0aa7717101319d1255631218228fa5066d80a4821e449078a131f5124aa812def1974e1a3731d0f90f379220e4314460ac2a25d0f227c22d2f50ad8803b0622a820e841035ca1e092203042955129502),
  (44269, 28, 361670830, 0x16c742c4950ad962acae06b4f1d7720c4ec20d4e0af6624acb06cf3299670668c24d8b31b0b12d77158261ebc6208d902c1515c501ae8d12aed07712164860edeb1332c2a151),
  (44298, 64, 361898586, 0x1a449049931986c1e7e52ad2509f892f0d202757252b00650225f471f24c29d65120eb0800b068072286925cd02f86428cd40e8050a4680b1ed10acd099b01e7392d8cf16c2a2a55331f8711ce42547910ce1261e71a69616a7403aab0414f1e26821f7518ce7075a5289490e9560f48603c8427cf7110b90f07826ed70e7843176d21a021062f1a5e210810195e6072882924821ba62a24e2b12308c381cc2f),
  (44362, 64, 362431792, 0x1708606ef418547157b5098ca2530d19f2e16b502442a179ec2660f114ef25a211dca20afb71cc12176d60b147224ae239152f4b601ed82a4030b455141c1065b92152a0c21802b6918f521a5082420221af82d2a32d694260b20f0f517fd019c2d220b126757052d11a50411771255110b43302ca6286e82df6b12a35130c10e2660622b27b190390831a391ebcc213c729bc9067f716034248d20d5af2c1cc),
  (44426, 46, 362954838, 0x2d9910d163161291300d06ad929d4b05f2a14dc40731806ce3221eb074b131ea72d68d227332e165072a3204b713d2c2268630bd6235290118d117161e8702310f11f562baec1caab188220ed0e285e11644811a0d1abb70b25912135293320e58e170ea0716d282560642e2dbeb252c20dad3),
  (44473, 64, 363332715, 0x2a08524ecd29fa631f6630576291811d407265a40fe282d9c90ee270d3790a50f1ebb20ccd128f57060f027c8805beb11ba930de30f299265f6035930758c0f1e80aee5313620a8860576729ca31677320eb51a1ac09e112a1f612d721095710e931c7b50de832e3c61e4532dc632d226126850edee074840571015714065ef31b7005f501ea171e5a11c7d23168d0f6660f4d106a8f28ba82c323312d007583),
  (44537, 64, 363864673, 0x16c240b43806eb924d1401b41153192ec9502c78038972943122302321632ea6c221e6030d8214a10e90231c681938f0e3d40f1442b5970f0242dda531db82db1331b0a2d1f706df62526b21deb1ab73050b62498800e6422a04163e702a8a1aa4d03ea5209d529a1606843036b2106ac167cd2fb3920c240785131f8c1642120ee42d79516f632d6b531d4f2f6e1209f629641067e411684170cc1998b14a6c),
  (44601, 64, 364388921, 0x15d2b13af11ded5031c51e1412398b16f5205cc11c0b410b7103d030e24d2b0390792419205129261ea910d3b3086b801d831a43431bf30fb090e30a066f71f316301ce0eb4d0334e133091ab880f38c25a2c2c7a421ca4076531de540b14c1ae4c06ec20e69118d2e005701d1940d6c621f6c0ada721bd915f10033611c6cb024c419257152070e66816a4704e331e062234c731558037d6130101e0512912c),
  (44665, 64, 364915472, 0x25e7925b6905087215141e54322307073490f1b60eb8902b541e27218d341c8d40de841bfb90f1491a8360fa7102ec3027f60eae41dfea0df0816d2c097490786a2956d22865095e7252f20af820adf401e3102a4e070f40228130d2e20d03168032d00a19ef612421110581df33065c5049b4031b22942f0e72520b082ff6c1ddc50ef620b35320d952d4382b0cc0a6821e26f24097077b80aaa12ed96012b0),
  (44729, 64, 365438284, 0x22946309d22e4a203711120631cc94233cf1637523572038e4166661dc87166352cd352d95912a441531511a82221cd02eb22daf4156f3199702042513306041e3300ee12f2c1a96405dd915a7505e4f049070f26515a710e68b1e6562235815d3111564220d32fdc4292253176b0dd71113352d2e90674712c8125ab80e62c161cf0d8e726c530478a319820f63412d55173f42b9c4298f22c83416c7631f02),
  (44793, 52, 365961502, 0xf4f31269008d273195918f662e0101a44a253c72ecb61652e1ebc3213d20b5b02a53520bcf21695260ac1aa101f79013e220624f0b7c3294c9313ca29c8511eb72a12a28ea21a8e52dd4e0b93102305296b619cb2163e92e9e40b3582566a1eced0acb630114083851311709bc303cf927310077f70b02c2668729e1418988257b2),
  (44846, 64, 366387449, 0x1c5e50b6350aa8c21b2f01d4b2a54203ac53118602ad22d9aa31e22319c9055c30b6f61e0441377721d5718e4831ccc078d41a4f219109264742d5581ad2927102267340e53911ed51afa42f2e9101d7065a81f5ec120b829ce622e911e4052ce12070e40b78a1a67506219317d00e12431f9306a591c80d17019263b8313f0259230b6ef304712284b1dea125d160231412b041dca80dc77037a1133452bbf4),
  (44910, 64, 366924806, 0x117a31f1e30294311faf02e8b0f9190decc1e6cf0b5a92db8322654228262c737123332ce870adee033302599830c97193260e0b7133b130e862271112d0f31aed2b002067d8106f52475019f3203c361ab102e1643159628a862ce7409cb931dd6208892888f1e1a728b103139527b8f1a26e2e085079102c599025350d7f2317151868f16d2d155e5317112dae5029d60af10222b2045f314c891a2580e4d2),
  (44974, 3, 367447808, 0xb8c530ac41ae48),
  (44978, 64, 367468566, 0x2e23125b6606a4929404208721336b0e00415eb703bee18662146f01aacb1a6ad1692c1e1662e1d21c0912142920930166562ff281e9f9096101a90f312c711bd0206ef0ca7906fb819fec1a107132a1126c700ed1074190a9ce232720f454119881d4d02b7e51a6290a1d4130b80aa8a1c3740b92d2562721cc202d161e8e61578d1a7c2082d803557296242be3806f24039e219dcd2646e133421504221f25),
  (45042, 64, 368001174, 0x31cf600a62256f30ab8126c7515ed50256303bd50a95904022226182522a0cab6260d421536254ea294e51a2e62d1171aa511df0301a421ff992ec130cfc5277841a7c80f1221fa96300620a546263720aad80f0120ab4a30850071b41ddcc2e25711fb12281925f24225c72e26e03cb805524070d01e5321038d0368c0dd3621b962ad2d260d10241616ce9162f422e4c19df4246992b0ad1b74f31c942c74c),
  (45106, 64, 368525855, 0x1b4832e1510724b017980a9241662830811066a9280f328e6806acd0b16503eed12f312c8a31c5410688826fcd0d083062250d90a248511839115dc82cf66209b41ae9125f2e229f30956f18a632d596032ea09daf120770f1cd2ee011e1cc130b5035ed314e402e24078ed2307430bb72540b1d3631692623124297c82c6a61e2422a3742a48727a5314ea814dc1303271700f0a1b2314b92f3b02f7992fe32),
  (45170, 64, 369057026, 0x309613100e03a6a1295503c01137f22cd69119992ebc80e82b2cf7819c4b1cd2b0b0681dc8d110f118b31245790836e2a06307a452c3a91420330aac225e1140ef0354407be90f2c706d5514e6c245e80a6b5266781f4b01988d1d8551a89230d0703caf11f2a02e1311fb428ac306fa816e0a0a52c260ce2df230f5af1cf6325caa0395929d34246841a70a0d8ad29a7423fb21e2e11306f1ea500ce2620e8f),
  (45234, 64, 369576807, 0x12ba10f50e11a4108a82149211e7810bbee1d9792d19412ef5038492a3a7102c7037250f46b16e04289ab2f6752ddc718f6c0fa230a7ab1460d15e871ab4700fe712fa913fe30798221e0d319a80502b1ddb12a18806f0b3145224323129c22da050a20510066208630a0e2198651ae331162c029282df85100181e6ad09961162c72ddb92578b2e308126ec033132d4c60aca8299710747021170074e603a33),
  (45298, 64, 370099355, 0xacf92c9350652106fef1ce440fe84146880a69327f721318108ab310443166ce1bb3015feb265a33126828d792e102030b41748c1a8e92ba8b0dfcf25a050ad1431eb3258e721e3016baf20b7903177318571aa821a801278e809ef716f34219332fd042672e22850027aa16cf713229266eb1ce972c40f21a67123ca264f9166c51a6ce31db90b2b21d48f1d454125e72a031091d80678312b7021d7915742),
  (45362, 64, 370624099, 0x33a807bb226f132d1932ff180254c306c71e2cd06972310af2aa9001ad91c96429e721dee40b60f1b473220832cb4e21c371fb4529315033950eaa610ff60b7e81c2b029cea2ce89128301aaf525e53263912bf32130722c5210936c31372175e229dad0edf509e271d5e4216cd0bbb825e260d299241ca0b16207809026e104c282792d25f901eb17293a70f5ce23974037661d9f808b890ae050361415b4c)]

/-- group 9 -/
def seg9 : List (Nat × Nat × Nat × Nat) := [
  (45426, 64, 371148155, 0x1dff01c3c92822f31f25303062360f05562221ef0ed722540f132a4071cf310372c8a81ec9900b31013342526e0b8e205b740f54f288a1258e223334153e71f2462cde2258a80f3f10ac2f2bb0f29c281e9b80b46e159b3264652ee782988b0fdd8132262dce71d9e23116f073953112e20eed0e40603d37302770715615263014462982a22393306d72a2a82268f0e7150f1d01570e00f85034cc063a71ad0a),
  (45490, 64, 371672882, 0x1e6b00aea214a43215030f2581a3a11128618acb162881380a1a9b32c4941a0942e0f207a2319b4d31ba51dd8109357126510ea21237a50db9728d831e56a04c021dfa628fef3169919877035790e70f2969311df52ffb912f571a827282a429902291582c66c2636c12ccd2d62917a011c9301e80c24f533056f127c8299c5168e8094692a294113052a6aa19eef1c1610f5d316ce72de3107a2c1e39907522),
  (45554, 64, 372196294, 0x28dd016bc308e531ae0719e471aa63096951b708234ee024522bdd71d9c8084862cbd82b2722569630e0c1e7091c258168e200e37265ad1a5180ed15263293101621f9821def0b46b0f2c22dcd91d34d21a972d6ea03b1225128313e10f60a2c88b1dfac18a69243460f0d6147f70c7a2224b5039181d41717ed23142c0b70121a3403aec2a8c5019cc164901a2e30ef16099d624aaf18df118676197412d665),
  (45618, 64, 372722696, 0x90090b6aa1ee222e5b106eaa1eba921a89123e43120710f35276740e76e24d550672a293032fe622a46d0db981d1e50b3cd012382a2c61c6562a8d301fef0a276223941c579035a7318c8267b92e0981318422ab819e792dcc8168f93176a0fba712253257192cab322b340cbee314491dd592a3ef1c7c52421510c31054341a0482e0a328ac909b181e0952292d05f6c06fa61d0ce034b931bec1ad3429964),
  (45682, 64, 373249501, 0x16a7710fac0b9122e17321f72263481eaf02f616289170f3251a1430674c02c8c28c4b0420f1e78b2c26130a6320aeb31517045441c7cf2e00c2beac194c222a81202120d13703dc3189222b9d1216720f4392a5ce1e4261146a0060e24d48218c61ed31119510390f07b9904fe22a1e606c0f227e3160372568c20ec91a3c72e0d4148280c0a42a7e51a8ae2a405119cb301d6289cd291d72903802f9129d62),
  (45746, 64, 373769238, 0x260b50d5161ffd5079611aa46284832fc6e25b680c6f00130e29d4831f8d0b085153091acef30899301652dd5116b9409a6e2da2731a3618ce1166d829e4f07d690f95206d7711da422d2220c462caed1e8af0336209742164d42294f1a5a60949512fd42d4102abd609cd2096a80b54f27a441666f2ced228cd3019a70dc302c58d0b319292cc1cf70098cd25930301f50b7ac15cf6213170f3c81de881c531),
  (45810, 64, 374293426, 0x1d7f4170cb267e203d681e82a256511b6d11e7130eae12918e0607730f5609f8c0a36d030e630c96118a802ba80ed0b03bb11e0f70f54a0e8080c6af01fd830ecd1328b1bdd61854e0f1e7189650a34b205ca302470b724168d21d0c919fad2ebce16fa70b4f71852812bc73057412ce4162612e3c92677010d6e238cf12f520a5741614a0bf161ab322d7e30df4319f012cf481e3ac128e221835127450a501),
  (45874, 64, 374819675, 0x16f881629527a171ed58265e91500d0fee2226e81fb5119738190d20e1b62d60a19e1602f722de4a11cae2143029ef12084c307b32ff2115bd2043d9244f822775075a62556c0ded62994a2d2e814a12289c203b6b25ded167500b20729ccd0a7980ea161362e12eb812fd90b0f1312d306930020132fa850d00215d971a661301cf165481acab031ef131e3250080ab550b61616a6419dc62230c312860ed2d),
  (45938, 40, 375341366, 0x1ea4131bf8298e50e30d1f6a4210461a5450eb4a1add02dd41220880f38b225892c7ab2a38d02b972fceb3192c0b11006d671268f109080dd692e40e09ae22c86402db00d2f50df44292b02df8d2dc8c245e30162c309040f62c0bcc4096362d4ca06003),
  (45979, 64, 375669123, 0x8d371a82b221423134c0c9c41e6c8077132632f0f209015f0057492a525054ce1251821f432a1d8114cb0a3ee23df6077d6146b525b77006e40ed8f23bb531f31122c415737180970e08c289231e96231dd706f6d21605140c42d2d506f7903e820e905240901f388233830f14328a350f0230e326041970348619fe527839049d70d0a7220aa0d7cd0f20426c522d2e61951717fd312a9304bb2293ad1b8e2),
  (46043, 24, 376207142, 0x53b80358312a8d0c2d808d8f131781deef1ac780b88312968129e61a58d131aa316292a30e0377218d331076c12ce3251f815e0c16e4e2ed6b2560e),
  (46068, 64, 376403163, 0x16a29257ad2494e1271206414217b02a53331f6726faa01c8931fab07363217f92919031ceb19a542282f120a5070f3218e81dd151625118f872ade5227120d3f21ac2e0e297065c206dcc04ef330dee1beed20e700389619dc316b5111e532a22e223432a1b7258c402a701310d2c4750756f052b425f7110832117ea077f92138c309ee25116309092fb680e78704f83216d9080e60a4d02757731bb10cd46),
  (46132, 64, 376931318, 0x3a8d0de710bee3313f319d531e549199730af2b0730c17dc32830c151f72d67423f222088a079071aa683111902e4e046831e659186c83195630694152aa2daaf292221652109ed12ddd6015b4305f716f5331a192b861078781adf21c9330a6302a8b50b7901e66c1d135110e725ba22a0eb0e6ec02c2915b010d97516c7519cb52d3632272416f350dcae0eb8626725077751e4f42f8443066e07fb529e0b),
  (46196, 3, 377455136, 0xe2892e0eb31703),
  (46200, 64, 377481938, 0x1dbd81a3cb08d38212691614429d2b1a5b7241e8157070386121c0900f0d0b5b702b62009d40cf4e312690e0a524b222e3a612e77195111d4cb1a93529c82256632486b23f991a59131d5007c62152c807eeb0a97629009305021616801e0b1ecea0722125a2f0ad2a0b10a2647702aa2302380ae88267373042a02ff406da30f44c182671c872190711a5671fc4602f4b1c82201c9718f950b78921b6830bb6),
  (46264, 64, 378014006, 0x1a550bf9125deb1324f0d00c29753311892966a2d9a91dc3916f25079e40b6f530e142d283257d70aa28170c515b9309b57223482a0502d3f51aff4033d6305c11daf10ae960ac4c12148301d4141842c1f91b9c80786b267e81174431c950e751078ee2e98212a433226d063e331f982a4d11d247225f611e6c0342112c301054a219670e17730ef40e1e4300ef0e9b71fe1121b01193922c427159e914ce1),
  (46328, 64, 378540704, 0x17e51210541a56b276460340e29b512265930f6422aa3162f71d5e9039c80a4840c5b21698e0c8e4234122686320af230ec106e302a4521a0f00a00e31aea0300917c2212bed24757079ad25e371e169131a71700e060582b4a2159f71a61304cb003ce9299f60eb8319d2d1d4a51e3ca2fb1911fe303826310452ddc6317122d77516d2a08836031982c119262e60b0761c78f06b6b31e48218a30c8e11aa07),
  (46392, 64, 379066785, 0x107c12d718272451317519d8b280a729281039a41692f084302e1d52cdf51e8941b775051f5249a530d0e2ccac161ac1f1e90e0c31265613e94027b4253c2301ae1e5ae09ab00aec52998f13c091da122b18c2e52519368253d6079d02e26530649063ac1ea4b18b62097911d8a41e8e926b7901ea62a503035542bbec09011296271908b071b319dca1a0421af38073482193214ca5298cc3096213110130ca),
  (46456, 4, 379590497, 0x19c4416794037cb20873),
  (46461, 64, 379636058, 0xf359220c41e8d80b6441eb4518bcc0acf2190c41557622a62079512ab50287e8260d70ac41294e20df12205a424dae0e62f3033728e840b5f328d64220772d8ec18bf511e271a7861a549306762637506aca0f0010630f1c00209ca92f9ae04e050f1e221bf80260c089f10f6462cbcc027a5139011e5352da911afa31ac1419af62cfee0ec49154410ad76096d02c0d51a2ac145e71cdf5055f127de30ddf6),
  (46525, 64, 380150148, 0x160f006fc229df403a502e0e61662b2dea5066b60e9361e59028e362e1c2139b50edcb0b046018582ccaf05b852d9391ae571c9f6315462658a259b91e15125cef1bca525f350ad68074091dd7702aea0d9ca2c06f045a824fb403b2a1ecd02ef48078b7026270e5f92ec880ab331420c1d92c287190ebe40aa571880b2d2c91e2450842e1216219430161a621299292441a1f124a8812dcf11b421e618130c7),
  (46589, 64, 380676313, 0x211b8128cc03bc532112214781e6d230d7504ab4180392608b27bd8037021a0321282f2b2ef065e1013631eae72545906e2e261c71d4862d0392e1101e55328c5821f551e1732cf4706d52200b5228b619dd727cd72f8b32ea0511b01061b02cd151ac222ff2911390121152bd5507683263162db8a0e653024062d94719fa60afe52152904ed51d6d40a86b15065159c71ea0a029d7071d11a8ea033a31d790),
  (46653, 64, 381201511, 0x5f580af9705d15187cd1a7831ead3316f10aea71f6b53182a1ad961a1b51eb140ec3131c712cb442529030e66241e21ce18053591d8831a8d32c934125212973622091319a9306e521e0a0f697254f10b41331cac166c13145512a150e9c2130681e8f327af913361065042236a213a7018f7047cb1800931eb80900f1266522fc31a978266a41fad90a1a218c2f2cc24207271a16531f7329e650764409778),
  (46717, 64, 381726317, 0x1e08601e831f4a916d240e4091a6d405e96032b20c98d2952f26d62018330adb91bfe4221cb070ae1dcd220c0e00f8624e8b29074321492caa1318f5210762a3722350918e222c7170a6a5069751c54a03174030811c96b021e40a9e40cf230b47414b96320eb1e10d29312068d1190c11a5340a231039490dbd31fc52287eb264b315039079940286a2298330ca42d027313751e9882d864265ef07a461a50e),
  (46781, 64, 382248485, 0x1166411fd531f9920fc9223371654222eaa1a1690993231c742c72c2658411302217911e73724b0d2fd4315dcd229e4313ee26c281afaf2aea40eaa91de040b7ef2d02d2294b2cc30169980cc122ff080f2b629aaf057162052f20e952f113044c229daa0b8e11e50f1a936150eb165590e3a11afd2075191dfd52cc430b6b0192461dc6e045c5142c3199e80d9a21d00b03a231d899121f90b239321111d9eb),
  (46845, 64, 382775228, 0x30a820f0d502bd22910c3030719a70236080b4182b70a2f7792fe1224c4327a702941116df0252751e0b622ab712b252d9561e37623f0f0b372133640f1241dbec0a2981bef72528c130591a3e61e50531c830d88b2524b1230d2155903cae04b810922e28f3716903057e50f7a311b892dbf416f1600c080e9410bec903ab420c041e2631aa6407069035b72a06903207060e603c953210603628069260678b),
  (46909, 64, 383298558, 0x1a54a2c2480d2981617929a5413ad10f5540eee7159b42396b064311fcaf1e1f02e0f5320ec210432df2a06e150d1f7154ad31bed0d3930da3415ca9026c22e1b21baf6185b40706706c14176d11a8772bdd0074550ab6c2cf461532521c84025f520fee11a0f1abb109bec0dfcc163b01c00817eb90100b0deeb168eb2dbe5314c41bd98028532367212d8d2472c036040760d304b0309f12058d01f792a354),
  (46973, 64, 383821236, 0x2b4eb1db43133c31ece125e5916a6d0b7f61e144036d425e0911a1103de70eb6917202075f427c8630e0b165aa19f930f12930e320d796127c70c1641acc4066a809802126f70e803206a30584d228451bea629fd71dd8b0add40789616e582df940d8c10de1025430171190a9482e4e82daaa110381e26630e9512bc81e99203af302034131d7132e916493307a605cc71c0b620d75297032806800fc224077),
  (47037, 64, 384358443, 0x2c6c10b6a901a9028df124bee1eba611a88119b62e0e21c16a233af03050252c40d8c71d348147750b7a305777239e32d17411a622960c06bcd0abd80b9112e26401c0e1710f0744e2dda722919212701e2a701db61e4470b8a8042080f24510f4e05f89295a7223381562302d47220b317a9631432229260b5552274e2f8e22a04312c61075c117b130af621e4292df6529b0120eac0f61424ef5013c518153),
  (47101, 64, 384871954, 0x2547330575259030b6cf2d14d1c6ce160b625cf618d250e5741614d0dc572c91507a0f1b70c04e2e1d0b409f82195e406cd809e663194b1e7cf253a70c3f927e31312e802ee41e3e1120432dc982167513dc62a46b091e401f661c61419d870e1041ed2e12a39221ad3128f1abcb0b26503d3629e4c0ad35056991bd242fce41e86e028382564a2652b050a3313c7317a1130f7034cd026631f9c216b6107bb3),
  (47165, 35, 385395150, 0x1ed281e40321d37296d530a611e6c3164d714a181f36e20864117951ca022671417ad7283742bf12163f41a1b6160142fead2516c0758a06c61034681c6a2319b40b76a1fb4c01b511e9f701772245940f3c7243080a266),
  (47201, 64, 385679420, 0xbd84119680adce03c71090c919d8416ac8168d50b90d19faa226f10726d2d22e2084d255d82deb92473011c5819c10164120a2b232070238c824aa60aab1322632886f3110e1ca5219f0e15fd50a0e42ce6913d59038f51ebf02d45105ea22a2881bad912854253a50d01129d8d1a00614eed1654b31f8a031ec295042ba59108860b615200c71ab980390e30110223840f112170ca127ec0dd6e1e82d132e6),
  (47265, 24, 386219267, 0x1ae4602ed3161092de11009981f9ce229500eded058aa13b291274f12c8803a1915c832cf8d2a1990300323c931deb11301604eb6226342280615f39),
  (47290, 64, 386408625, 0x2d54f2ee250d84f24679180011c803231621ccad2d6091e9652d3731ab531334b2abca0b2621dd2f0caaa06a722c40e2c474258d41a9012ff22309ef31b85041900b48d19fe230a141a44c20da8293c61675303d0129cca0f6af3010d19207167c51328131eb9194c72ca881e4332cee5298e2123131e0011280525a4b065d2130980f3181ce511339111a2121ca2299a51ae022e1633192d1ab863215529604),
  (47354, 64, 386942908, 0x27a3301703207e528aab249860345506cc612c871d8a9179cf075071562726c550e0eb29af00763025cc11a7ce225f825a4d15d86260b406c2b294c501ef1146eb15b452f6223224414f2625d5816b8525c382085219cae12b8229ad931a3712ff52635201bd9214b12cad1223511dfe407571127112c98f05b232dfb5225a70b1d01a2121fc4124aa90e50616ba6073aa1ecc731aa81c170260b12a8a50fd11),
  (47418, 3, 387487390, 0x1938110070103c7),
  (47422, 64, 387493505, 0x25c8a1fe78246640d9680d88d266a320ea216c72256701df2e0ce0616f3219ca82d637221e52e1ec112220db5507909143c51222816e4f2246d2494d2914306c4409ff72fe422a44d1d077270232c9f50e458295ef024ca267eb054d529e2f02bab1ab6c29ec729334033ea1ae2c1a13903d862a0b20f1ad086b7122851d088130951b00c0ff2c14e170c0cb30092192371fcf5087a2124a41da79163c7064f8),
  (47486, 64, 388031926, 0x12ed5116d31d98e2576b0b44e11f133022102c57297b125a722e7b70887213a171cf9306df124989188ec137d20d4d50d96d0a3b303bec186a930b21286340b048055951a92702c680730b294210e72320e6f1cd86195d3030c82d2930a909264a115bd7238c21be0d31957245c81aab3266580683619d261df1311d6e0f4881637611f0a069d32de2f2b8621dda514deb1fe37260ae1deb20b797129301abf5),
  (47550, 3, 388547090, 0x291f629e082c56d),
  (47554, 64, 388573700, 0x2d4c71f48324fc2264d90300a167ce0b2920d46b0a557125d83186e30ef32558f1a7301d61303b4d214391a9f00d4b21e90c02e4d0b394191e51fca82461329d281eab81e7a20a5670702c156d316d2b0332b0703805af90b62b31a16039d808f81185a3170b1306c507a821d36a158af2a0b92550f1d173218ac0e16531137072d60b2c7129a220eea1a6a616f791616b0b1b11eb8f0f4ee05a282e8180e772),
  (47618, 64, 389105530, 0x258c70665020fa3301af2c9a725f70126c12d5ae1e526022f01975607190028a6162ed312660a0a70acd91a70c0a24c10fd6155051d51724aef2863703679309c903c2b1a42a10d820bb0c1bc31265830ead915c7412b501b34e05a260ea242be361e3d0259e512769217a9103c20914b2d8500ec0a0740815ed0137ee0f44b2c06e1803012da32191327da72670e0774c118661eccd2cc8625ccc04d0228755),
  (47682, 64, 389629930, 0x3152c29de720334158e325e3322373034632cdf32dc6c0e6f529ead05dc830e13073570f47010605068982243226ef310221026481f226304f90f3c208c020dd3029f7602ae5072e1078350adea03324078681eb7529ed11aae331c922dcf5228673040a1a4d20b7c802287147c731864128102d2c80380c26371130521df2d2a5050043931de4116ec20beb07765299ed2bf2d093830dfaf25e06011081aca1),
  (47746, 64, 390153838, 0x260c5109902790d1daf619d710ec46112e531db709c170b1ca039cf260623121416569147932832b0af56271d900d0726490074d81c6791ca45221cf0b2cc0ebe1132841d1af2958e24eae0a1772524e0a4ae168910b8c22d5101234212cad17cf32331418b990bfe31e3cd2c963186d70b44b129591e5b12526129e9619f122fcb00ec431b1930fdb81a024215301aa57005f8194cd03f8c2820f20ecd21622),
  (47810, 64, 390677442, 0x76a611ea417007181b5026e72928e1a3e31a476022d90eef60e34924a8f253f711b4513c6b04f6b2c2c228ac50c4b51eb422cfd21e7b40ecf815e97107ef297390f539055a41a68d2a2ee12c420b704201c808df803cc61ea4e0ea0128e83078b91a8ef30cd91613706a812bb262c968063eb21e362b8660e6ef11d472967312f37073121e6a10ee0702dd51330f2634c2a1ab2e10c18bd60efab2eea20e944),
  (47874, 64, 391201538, 0x12faf0ffe210c1109c042114615e89079c731cad1ea62150291206c3064e05b6f022091d702070b528db00e4d00cb7603a572907106e7714f820c2810e7d92d3e8050420f2c41ca8a1add92567603b100ecaf31b9114654225522dcd3078d22658d00b9407a612a4242fd5821dcf24b5202aac0d14606aec21a7715c441e0340732d139c1269532a1970549129ff12432622199167d8167972e2730f37606514),
  (47938, 64, 391725704, 0x2566c1c135280f5288f7148082f2172e466200f7156ab0a08d141af1e2c12e0cb29e62149ef07a2a067af313d30f2382fe4e25ca51e6d521a69123c42ed2629f25122ab0e74e028651c401292e3165f20b0a11eae42d4f90b3ad24c8c306742b2e614f8f09a8a1d746223742ddb61b010258ae2679906eee079ae187c416a8e010540b43228a982b768313ad2e08f1dee3094b12a0cb216f6263092b6b92ba96),
  (48002, 64, 392251763, 0x30ed4047f11b98e26612062b02bf0e038320699123d3425910145a9037532a2b70f3a829c111974f0aa461da89036381a92b21f52263280dfd613972315a42c4920f305047261a0030388b1a08a0c9e8094af0d76f318e328be505ced0a0d9036830ffe82db89124ed1510d1dfef05c452b14b10af8216520f419062f507743312f41ea0d0e9c50adb21678402498198f2160f31cbb71e8a30d633320f802d14),
  (48066, 64, 392775843, 0x9fd11e7c812f321dbe503b07005c32a8f21d46f0bdd92292f289ad0d8862a6b124bea061031ebd331169034f01ffb51ad2e2a344284632e4361a2e8207782d4450b2f90e183146ce29bd6226892a030131cd20c0d24d701e7070f75706e6708b73318f226f15047d402c221e6ab2a3ac22d0202ad031c7531e280c9a10146f09851257890cf3031f780a76d10b4b30b531a7b816e452d0c527a2404a7625104),
  (48130, 11, 393301357, 0xd323098742248b2a9cd2c91812ba712cc42dc021e92a2d3e726750),
  (48142, 64, 393392660, 0xb1e7276770a1f0284691360e2a4e31e08919e882c002300031ce4a132781ee0216183115261bfed30caa069c72c6070706809b2106a0328dae0e4ca204880362f09b7029b311cb64225ac1f7490f54c188153006a1ce2425f4a0eac1036e80646c2a2010546a1fdcb1e0482a4322bd4506776298131708d1a3902100e190ce01fb509d691795304ec5097b712a68261ea0f70611406132aa29aac131d0125e1),
  (48206, 64, 393921393, 0xe7132bc8a068b7225a207a111236b0b0f009fce31f9628d0a09be520f561266a156b117cb71c3eb2e245070830946526139245c30f60c211ab068ce1afaa0fe4c164f1035210b0d11a69102d29013d5153c8227e830ff42d43304c1303f040f2b51298c162ac2c52716df128c4d2d9cb02f8a0eb372082c144c90766f1a6b714a9716a98227550f2c91a6670b6b719a8429a472fb76142cc293b91a6a30eca4),
  (48270, 64, 394454943, 0x124f821f2303385038d12e90b03109197b31e6900a3942daa919a731e2690aa76105621e9950a06b0e06c2e98d098642c8ae307a7076271e0b916cc722c84187c81e3791dbf13114525f8c0f12328a150d2ca07977045820cd98263e625b6e1e9b63232d21bb514b470f1e42cb772fdc60af672bfa831bea12e4116ca80268412d301ace52e1b52c1061c5b2248d3210260bae70686f10567217aa220680c454),
  (48334, 64, 394971142, 0x28c062232321ed71a66b2420d130ed1e6ae0ed4925f51117ca1d4c1049390c9a4250f607b060c1a81ebe72e1d02d2192e0f01a2c31be112df2920eab218c82dbf3317f115fe50410a2fa931c82c1c14f0494a132a7288d2052ef2bb84058371626802f0e100b923c140fcc92db2e12cc303372251d818a490b5182ad3011e70163b306ac32af471b9710555603eb9278f21c9220f1e92cc2529fd41604e2f4a9),
  (48398, 64, 395496578, 0x29b0e02cb10b77020ef315ca205e811f60724d8a0d3c12cc041dd3912bce0b7f51171729e451e8711a405035b60eb6626705320f2319d305247134c619f901ad14030f60a2882578d1ea442750f218e2098051aa4326f8a1fc73065c41d353217d9319b52846e0760e2280f2d3721a7792a5c304236132750f390226f2271b203aa4101410e2772ce8f04411168270eab711d6d2a40203c85236d820ff40b8af),
  (48462, 64, 396018958, 0x31b89211540b8b61ed1116b6e267170de372db2207a94163f70b0092d862177c82d8441dc340cf2e10f331c54320bf20b76921b48296e92a55215e5411b482660c250c52484b1dcab27f2b12cea2c8421a4551710e0770410075020612e0961318a23f0212b260edb825f4308e2e03ba209f851e66a27718295a4274992512d0d04d1d01631435314430fd551100f31ccb1600a2a80c1e093261a72ee76135c5),
  (48526, 28, 396542672, 0x320a204f2719d44025d619774060cc1d9a1203050e269240c31db44225d631e5428d85072a413a6f03ae310a6631697131870f6d4164431a82d1fdf12668a14f451cae50ad0a),
  (48555, 64, 396779502, 0x1ad222c566257b7296d20edea0f1d21e2141accf149c2057592cc101acc30e127085190ae760ac2c011661e052072902d30c0d9a4320e624bab11724041e21c6ab26019170481ddca28d581d0832cc231b26b2b0171cfa92430f1856a2faa9036c408ff2164152f5aa22aa80c0230d0691d5b921ae11487925ab91f9c806cc92d0af1e7d2024d42124909e7902bea169b6097d021d0911ad42a249312eb0c6b2),
  (48619, 24, 397304190, 0x135d91f5d22da16262c60b056266a616e021ab122188312a34170c320b1816bd916b9227225122623192a0f10112c100e6920ed3127521199d50b6d5),
  (48644, 64, 397508295, 0x456a12af40daf9124462c98e2191218a0a30a620bb6201c99130f02ca630250616a441c8a12d62b0e0f1226391d7d4278e60516330ecb1d9262116803ad93186f075d721428128871c163034aa20ad21630e296091e3972b26d2a315286e42c90c0b94a2a143006960b146019580c2b41852e14f54068390b45407c59005e91e33818210168b22114d0de380a3722eb6731c012f95914bf231eb60e2821292f),
  (48708, 64, 398039886, 0x1b1a9296e3027231908830ef231311030c328e64310e429430070ca1de581c7b82a1f101396109581aa78292611fbd9143c330ee2117ec315b02df0a0ded031f29197182d2ee0ac98211110e0a3126360737405a122cfce253a2163e40266d160042bdb003581298b522a8304eee1585121a1125559253b6258ea129f02d1392ca120ea27132321a26a1abd6299a229ac6170c11ae961953006ec52960707c0b),
  (48772, 64, 398564935, 0x2922429ae12ac8a0f48711b221a3331a18103a09220a410487052112e24430e750acd20392608d4922a420d5140054f287c8260b70ac21294c21ea882e0a106d980f9a42c67930e120b5d30076c224661e27311e07148cb2c513105251064e263550a2a2214ae26d272a08430e021a2652df740c99021bd82a322130b40b32527b2522949038e50e509250311ecc429ec4322500e0070ec291a1321bd892b3ef),
  (48836, 64, 399084070, 0x3178119ef8042d811b59076f0265cf22a9730a0d0ab8d1cf792c7c11c1080aa380dfeb28f321ed2b1ae4d22896029530cbd40daa21d10b101d8185f81e6c6039ce2068d1a5a2295ec2cf71259990adf529e2c23f4625f151120927a072821116e2e2286c0aeb90258a170560558e258f120d0e17a882942e28925077661822d10603114f61e3080ebc408fa62d4ed1a2691a65010e4a1a2b52e0112839306829),
  (48900, 64, 399607010, 0x15ae10270802af619c9525f07087110b5f821198128ac2abc4228291e4d41fbea2cd30304050600503bf302134061a6133e9290e61280f29eef244270f88b2d04c21587051eb1a65616a34248833128d28c38312c82cd431626214d372dc7818f670d41927cb731ab41970807c5711ae10b3220945330a151d4d13126f195a621da11670c080f80e6332e2b22f6271ea921e8e721509111772e6d30a84b02d8f),
  (48964, 64, 400132934, 0x2580c16b1019051023471ce0e2884a259e111c6b1dc6204f762aee60110b0d7a6127f71e6570594d09fe71a1061e7a52d7e90b0261e52916706125642ddd0241c21e022255301786e0a49528b21218a51aa48220711a28f21b651a4c40f6771a54f0b6eb0e16206d88183e31bc3216c7313048039b527ad926586133411eb8c0f38d286f9027ab19ab92246e1dcf516e991a40902c042668411ed21afa503445),
  (49028, 64, 400656262, 0x1abc11e5611f5b6121d906b3514c4c2d27402a0d138f40a3a328ec61bbf607be325b6406d142dea7183f93098a075550ad99034320e1ab1109729eaa2b9a92cf6d2a179037393162706b500377021056315322e67030d4529f6d1e8300b023074170a5aa233ca02573278cb0157816408079c9227f1122e8151d8292f21ecca114c531aa9188eb110ee0ee30254981401326493306b82caf9167c12a9690384a),
  (49092, 64, 401179178, 0x20e7516f230cc36221a6162ca29bf00e8cf264671708c1f8862d52f2d0c4072390ee8f0768a2ec09234b3229452d6f7112e22d3530dc151282915c981eb72229c40f482314e51cf8c13fd33067527de50b7cf13ba11f5e1093e107bec072c60780c0f296197c719dc90e5c61a16c0746a1ff33300ed0b8c12d9ed00ce200cb5014b80e3812f68f014f413b8b0a3c5065631214305ae6156d4253c4094430d982),
  (49156, 32, 401706719, 0x2231711b8b1cbcd2526c15d302c26503150201ed12d6d316061a715151c72c4a2215392f18731a1726c081a5f31d37916252111381dd53018f90b8e4133e62c96f0a54709eea036b7310580e6b006301),
  (49189, 64, 401965931, 0x950703a56265b602fd301ea82c9d50e674180191e58e07d590b9a106dcf1d9f22829700ca62ea511de1421f240f4e505a3508646131160f0d7069452438321f2c130392c17721b9900ff7061871fc8f30072079920f06a2dcf031e49232682efb02094d1a86203cd2068ea036690f375020f82b4510754e23d0502938284d1297d51e5472ba10222c202ef82d5840a4730376703cac2ddc420eb21334400a63),
  (49253, 64, 402502380, 0x1a2b6129542b05216cec2272e20683129051a6c91de8b19aec18fef1a2f80fa0f15aed2f0a729aa50ddf02541021d780c50a08a4729c522b6230abe312ba81af830b16117d842d191131b71a54c27cc920ea80772f0f43618e0d246e71e22f1311317bd7190cc0d7762ea6b01e8516114167b1241f6205ce07825297262d9b8031882e1cc21c07304a32102323415029d101b671ea512bb9126198170b002790),
  (49317, 3, 403023644, 0x29a2e127a71acf9),
  (49321, 64, 403047931, 0x307a22cf4f0abb83210f19d1021e26031330dd580de731e503228f921250073021e7c32b7141dbe6036f8169f02d4a721eb11e616194f42dce4062371df221e8d60a52d229060d94f11ab612aa203c0d319a325a78194101ea65011c81d86f02a0320e8c1d36929bd91e5f80362e0e92e184d0133a32cbd1007ce25b290b7d61d622297911a784119f10f2c3021ae02f26308a503b170eb4c06f3731476064ab),
  (49385, 64, 403582277, 0x24dd81d4662034116ca92cfd3172a3166d91eb830a95808022295212165519db716bc8191d82d0c12a1cf3064f0ef1020ed42e2630b4d92c98702e611a8a502125078030ad1506d86166a425cd6162c42ce210b1640797915a35257d3004a21f0cf2817730cc82a2992197615cf130c25160d01fc620aaae164ee3184e30ed315c59120341aaea2af7900c1724d2431dce23bd9165f5145aa166c827f4d1ae37),
  (49449, 64, 404106569, 0xa50b29f5618a010f0f211e2904e7003932207100dd850a6e3011a231c7212ea406f271dea5043470def71f34e062241ace92e2580d8c31934f266f42b3881d1e21e53331dc4302b60556d29cb3266152b2e105dad1ce860148518c0f09c5606c8a2afb5098772a0620f3a7060e92545327f082dc012c24e202191ef8411e6e1dd8c20fc42f30e0b01714eaf3073419a87159b219c2715351186551622531a44),
  (49513, 64, 404630171, 0x78d31276e03d2b0e9471e4e82261405ff11c26a0ebd9261ed1dd2321e590b2b10b06f0f2f823da71644f1e9863122b2da300eb3405cd709289255b8247101e92d0712c280640716e24a860f6b3308aa29a442a3a61e167305ea25bb11404d263021a22e2b4d60eca1093561a4ee0277915e862a9b2032a60f3c42538529e8d11c050f69102d7104324029c707077294e4021d30ef4f1306e282a3199ce18702),
  (49577, 64, 405160280, 0x297191beb51da8e06d44168ec2fea62a3ee19d8d185940b46d166161c3111e9b9293a61e1ee1ae080f1e311f6400a2702f700f8c41e4ef1a9162b84607a380f2ad0d5382eb450a69013d712568f29bd325a2b2a18b03743199c82de572ee821333821c822c1c6076290d4970ed0a2ca06316330a6670f54b157d32a54d01ac80e58a05bf9036ef09c300edcd094620df290722712c682b5cd29fc7320e51e10b),
  (49641, 64, 405677859, 0x6b972938a01e571d1580b3c702ec70e7f51e18c04aec24c011a3c62dcb302f0d25d380e8ac25c182a4041a78812b62058ec2c66d12fd5263320de6e127c12a4d016ef60500c2c6d1126f11fa8129fd10bc26225870b1b0222991604102dd41e4f22bd060da6d2a46c120c90f3c9225d82976e165392a2c11b4e219db42465916fac2f70d07aea209430e83209867303c302de92cfb22a1500b2422ede61574d),
  (49705, 64, 406202449, 0x28e282244d2c6c72d6ae029661854b0cbe21c50127ea72d4d925f962d87126d8e15f272446e15cf5209741ae51077a22b3f629314075231ce071a52a2dd6d27dca12ce5122652b0580c57823919039912e06f0d32430db001db81eb382b699168e622ab112b2b2d9502420e117d31336a317e9113e5291231562912ea32a3770304b2fdcf25b7512c6715be82b4c62e25316dd030b6f0bc722e08a083c825ca1),
  (49769, 64, 406727736, 0x13228196d906d2b185692f852286141dc4d106c51cfa229401318c320e4f30b422d1851adf32db690a8e92648107ba4238a208d0219be905e6b0ed460154926638312d42174e14e630f46803c621ebe41600d1104d12d84267cb03a211fe172608e24bef0b7771291019dc53066d1fe58131521a6ca16f6926683072b30b950256501599429e420a2e12a2ab221c50a7132fe2e1e8210db35034d30e3a412208),
  (49833, 64, 407249167, 0x1962e25f8f1e2d103ea929bb60a93208fd419bef1b4330872c0b60b24ee33120516cb71e42729d5506b8706f73033582a38c204a9254ef07b9019c0b2188c18fae29fae0eff62b6f220eca1586530b33175e6075b62668d225a115487319d82a524133670b8b50ad0f153b82578631f970b54e1ecc124df212d4229b2416a4d0b59913c381e2c4139f7319b220bf1171e22cf991a7720f64807a2b19f731afa9),
  (49897, 64, 407776536, 0x31e552d5c32a1e1114510982b15fab244b606ed21e3c13071612af9299131a8a912df00f1c1259c52db972486110a901ed0e16b6f20b39089381aa4229a8c09d171e0552d86116ef4218f310b501242b266ee1fc6e15eef0509425cac09dd404e1128d471c3990b3cc0a40a15603092a807aae193831d414125b80a82d142af2556f160312e0991dfe321419249cc0a4540e8e80e337050b21e66d0b54b1dbf6),
  (49961, 64, 408297844, 0x1e2580f6ae1d6751e1341d8152a2100930a2d9ab260f018f2c031b629d113050a22847066462df2b0ae0103b880a0d3261e30b2360e7ef1bed4263512289829b891a1960a6c5099c9116cc24919031c9132ef2c3c2174c712daa25de606cd6196281e7d530fd4285f220f8315a0d25f5031eb7112d824b351d011063f51d9b815d96293f5039e6168d60ae0c0b084075d92bdc228308129ef195c41060d182b5),
  (50025, 64, 408823210, 0xebc10b949082a6076ce24e8e076982522e15f1918bc7133352b449123222886103b6405df4168b5073732c0e62ce6f233a40f6302d6900b3f925241076e7306cb293e30ec231a12420a850a43209b4a2151006f63311252f466281ef225c32a3092deb616b93152232da2425e13223532964d2c2d6067f3316e72cb561f8351e44c12f010386d105e51acca297410862a2f0d61063425ed807781193b30f3a2),
  (50089, 64, 409347566, 0x27cc0f51925ba3298b21a8e112c222db0e21a0e025941d7311df280ee091a42c1b46d226ac2ecaf01a2f164e51aa39221af316a421e16037e82e1b03042904e992cc37132f2059902c9c930992219152632c2e65505f8631b300ef8b09e692dab7260a510970168a8278ed28ba91ab662270d1a054093f00a8120b1aa220f508b1830ef10e1e72c2510af361c389297d80cb432bce202d221b1102a1b615fb1),
  (50153, 64, 409881544, 0x768b2f02d1d98815d6616fad06c102d352152ac1e6c915b252253204873217f61a4d8227f22cde42682d19c8e21daf24b32063e22d545099382778530da3313f4250e80304403c3424e700af2821fd7243061e584123952f3701938903cea2fd512f10908fa7269b41dc092926e0b7b3143cc04446288d4115b92df0905ed331f2611b25085ee304ec2110e155aa1ca19272b224f132d4412a8a20ecd82b534),
  (50217, 18, 410395378, 0x36b608eee2d781319b31e1aa19eaf2978430e1124c6c28d9016b83265c21adc72905129b0711d3931543312b3),
  (50236, 64, 410543173, 0x2cd250ec48035ab2a532125b302af501c86193b907364033342b233112590f62b0db6225c851eb6921a49123b9211262e076268762af440fd8925b74292c329eec0b0811d057152c216b54038c22f50231d010af79071f828c2718fa9314231e3cb2588e2677917ff6320091eab6228d41d70c0b4122e6420106d2ce03256d910f5414f092b9cc216d60b206120f02e2b512f8f17fd400a891a008055190e283),
  (50300, 64, 411077588, 0xd6b0237d8258f028d4d31b69089a52cdf00e1b1191ed1c4f12ff2c16a373128a2a229312cb1e0870610b1a3870c404024071a1032ad93165742661128c0b022f6062f704f0f11f0c1e02531e3422d762e1c728e852c822124cd201d2162832d53325b671ea9510ad812a8c066e730cc30743415ef40e9a50ad92166ad08e09296b20989002b861d652058d6067a10726e263080dfb606fee1352126fa7288d7),
  (50364, 46, 411603232, 0x207580654d2a0ea1e782230f0152c90e9ee1d089131ad226a216f6706dd4077311569512b4c037770264e3153507a7717fb22f5c122ce2154e3016c9240d206da22f5a825769038301a566178620a74d0b203190700e0ee1eb6f23c1131aa629f811992c28c931a25306002265f211e6d2e837),
  (50411, 64, 411980313, 0x1e6d306c0e19af7249041dab70f44d016d71671031dcf1fc9431cee2a2f50774a1e0b714e333238c114c210d11077cd0e2881466512a48261ca27bad1a5051328a131b0056eb1a31410c640d303064a519d861d60d05e0a240850322e0de492ca6f06bc329c381d34a027b50f113031831610a167ae31ab50ed612bda12290f1d8b3155b00ef8e06b322bcc81c7880220f12f4d023a41e8ec1aa062844323cca),
  (50475, 64, 412508788, 0x31f09070011a92d0f2951296c039a52580f31de228c2d25d120e4610eb1703cb3008ca20eb1127f229895215902004f13b8402272239f721268078261dec92daac293991df0d171481a5632f1880cb6a0e9c305a0d293d831e431d4cc0f5f902637132583179004d411a62119ea92c9d4178102a502270f511d49309f002f211973628d8e2246b162cd022260a8c3133971708b1f729290020b1092e1612a0d6),
  (50539, 3, 413032568, 0x30fe22949631862),
  (50543, 64, 413059390, 0x289f51426427b562e0811e14f0382725b4e0b5322d70821b952f4730f5e71d9cc308b2194d710f0a159c212e2105ba11625512d101ea01265a9169271aa94248b3198ee09eed1e5911ad9001c632178a0630e0e6f32d9d4307c5225822ce34286a62bf9003fa705a2e1bdc42273521ce929f701110f312f122aaa30ff21926f310c426119245a31daa12118b31e4613219178a6188f61ff07228611866a30ec2),
  (50607, 64, 413593132, 0x7a563056313287288b2165430693922a882ceeb06d892cf5120fd42cc2b2cc91081b600e030389415dcc11bd10e7342fe4c192752a05307bcf19344313eb1ad751daf000ff80656b1e1480c3242db4330089072f921f032d4cd1c6c729aa22832d23d7911cc1068ed0af941a55514935052890e1680aa5607eaf20df918057213e61c04e3043103729095942ebe320fcd2eb7510a3616e1411e5025f6c2d107),
  (50671, 46, 414113981, 0x226d209f5223f0e2b62c29cc127f540dbf928f532374d240a920e301654c3073516b111d5ce0f435169f32cd1021eae0df331e04307229167b80ed2911bd41611704fee0daa41be99301ad1819513689309ed05af51a3c302f0c28ecb0df1120e8b0b07529bc62bb921e2e52e0e706fc52c942),
  (50718, 64, 414490934, 0x2576d1c64905263216f81e8d91b2a909aa3210c10a2a403bd9109932722b0d983261871adb2181440a07810c841db731e62c0550524e8a01a1824d6a033ac172090612f12bae0b7d51a6a82c66625de816ef5139b40a463266e530c380df2e22303134a63147902a251722609b99175cb1595518f611615803399159510ed64096c30b1562a359217b90d83609d750a990099c21c7582cd23166cb1621113255),
  (50782, 64, 415025301, 0x19019067921bd4b30a6c06929316b0150ed1254610a8f0c003055c5286ac03ef1028500cd9505e051e0460309230cc70e76a128d1266f7160d30efad12f64298c3164e129b580ec0c0d82c30d881a98a099cc2694320bd2131d62d1840a5e50f0a6035f111b28265ec2a0351e9300a0b42e11101d1119d1323338221c92ddb0187ce1e7c6151b71959015c3312b060ed981f00501dce198502692a1e619285cb),
  (50846, 64, 415551700, 0x27a2e16e432d8060a94b0ad2112e48225d70d98429cb004417026d20fff52d9cd24e4b0f1971a49906deb0f8ac1e9890b9d12d9c50ab301a798019220b3710ea8c1efd810a461317424a85315a20d049146aa16b5604c6d25a9907dc822308251311a38b11f2e245c60ab512172103681077b4218c204659157f229e8a1557109d622952e15fef01c4c3160711371236572983430d2524dad1a8f52de580da4b),
  (50910, 64, 416085660, 0x1a3700b92a0f4d808a8e0b12615be12f16719d8a2421100d8b1a28120be32f710069aa21bb322929149a21e38a08ced12f630e1070690c012660f6420268a171560f3c326e180eaa21e7a80e402262a7266863172b2953007f4512a140e9d1237f5060aa124d3032101f3221ebb30f0e131638210790354505be811be10e6ad1a2c8011a5314c52e304170850f1b203b1628a87036052f72b29fc41afb42f290),
  (50974, 64, 416597535, 0x2cf31122d1f76522a630353219ff81052d1a647077f025396258ca129d0028390db281ea0b1321219cd42fc8d20d6b1d864047c410a41230ea0d5191cb6a1c00f1ce2a12ad42c6d029c991aef8036ee09c33025c10bb421bdca1a1ad154b32b5ce2101403646276060e0d1221e731238278c6311a71840c2590c2868a06e982bdc6122a90799331d791282e0187026ab11e02822ae1312281a0b008cc61a509),
  (51038, 64, 417122535, 0x26335057931c254283731acc504133126640a58c0c97021bb82c72d130940b3052adf12778c28016079f52984b0c8932976b01f762d171267301a69708a7906fb129fef1a26c131482635427bd92bf0c2fb410e99521a79167542870e09b6330fac1ccc90edf11a931164d1292411fbb9317e6168ef3048320b3321d072cda20704d0d2c60a0460ac78210f11e1f129c321642c16dd12f6351523005ce31c7b1)]

/-- group 10 -/
def seg10 : List (Nat × Nat × Nat × Nat) := [
  (51102, 64, 417645113, 0xd4e32284c0ae990394a0902d258d12ed241e9931de862940e28905031ca27a71105e31602e12da521de831a2e08f51280360e8e32c2771b3632d7f71616601678092cb29a170b5540f46729bb91a7c51058b19be203dcd1342a30b582a46a2e08d1123324bf4187a812e470790c2ba22287a82609712c16294a20402e131d331456036d50fed51b7500b5a62a0682244607496024cb148ab26e8b212b21ca48),
  (51166, 64, 418173338, 0x245af1d4c71892a13ea62d0a10e932185930b302199b82a0422dc9922c2b13c61320ef031f329d52266b602e172de4b1a64b19dc22647303b9814e840b2642cd6a03ae129e150b9570718a2a279265af22a77296460ab6d10f420b4872b2320aa18074cb28f1213139157d42d625228760954331dae13d0f17ee61a1b105eb20184b076e924581134632d84e128810add525caf0afaa2272b11a2307a28279e7),
  (51230, 64, 418697570, 0xb6cb132b70168f30d7917af81982a2d68407032222a613ae3265661ac0c2232a0f36d256922dc8815aeb117920666329c9322f832ca731651506a581deb60f00e22d4528fcc2ccc215f382e243193520b5d821a4a21d813161322809214380a5d12858619f701e1e4073c62efd11095620bc81c40d072e7142f70a5af1387931a24318881c56b1dc9112483248632cfb328c1831fa4310b20a0e52020a07925),
  (51294, 64, 419217517, 0x2dab80a58a233aa01d4d18898211231096f3120b0eeb81a2c21a80d103591a89310dcb1a4f4088cf12e0203b8f25478212d403e860a26724d231552a305ca09406223c2037f82b5ad1bdb003c482e0940a4ca29f09053612a99226ed20849729d733194e1436f1f67515fd01a7c912e6d0d7d1249d72a3af1a435071a51e1222da10062d82551019161201a310b06218852100d2df902c1781e64a0b7eb22470),
  (51358, 64, 419742976, 0x16ff412992205d4245c91e0320f536078621ff13207af04f0a0b2f62e521093681d8a82de2c1ddaa034d11650230fd315d590b6341abea0328819bec063f202a95068421dd471209221a0f293f209b4d2629825979216b71f46916ce4074ed0735025b441e7b2294ef31e522f7241152408d61116d00e18b244b51dc9229fa720e97106cd039cc0448f052021cc99210360e8b518de2308230efc707517314d7),
  (51422, 35, 420266342, 0x2218626fb605c820e8af264472974e2d7a30a8b01b8f91df950ee6f16bb903d0d2e24f1c177055421454124bed1a018128092a130243b810dd10f46221e781e89813fb31c22e2a6b01acb0294a806e8618e4c01653023c9),
  (51458, 64, 420553732, 0x17ad0088440346f27bb43024b2d76e074a1215971e306079030f3552a3570af72163c41e223284b107a790356a23b482d05830b4f2e06a247aa2ddd21a2a71e33620e922ba011f86625572222f70f5f61e3772524c11d0521b631e4c5201cd05ead02804220ae2151902c2d1ea8608f2a15477298f9170d92155807cac1cce80b38a19a300b8c4049032c7d12ffaf310461aa242630b0e6900cd36024110dff7),
  (51522, 64, 421091989, 0x2de2246c7132e8130f33064d2510a18a482df4d2cff728db1136b3241d6205ae22c5100ea1203350916325a462a28b06012210031e1ad064302a9620fb0222a91261782d5ca02b8114f612a6e7265961aa3205d2f18119312b01a837256410b9811514515ab2152e5158313130c0ac4611df91ab710f4c5098a616370130f60f0b703cd01abb621f0c168ab31aa302a5907a921c6af1e1b00f3f80f04a2f845),
  (51586, 46, 421611528, 0x16faa1614119aea0eb2c0ec4501f451ca0f070af0f4840078303242138e71997919de10d0f12270e12502128e507bea2d16521a140a42229937078410b6ee20e6c11461181f31d22d1961515e132dd0124eb11f4a50abc31cfaf0b2612884608d240b117229f51eab920e88241f419d270f416),
  (51633, 64, 421986631, 0x24fc11d30823bb90dc222858c0d1a2116ed30f4a1a582039f2300911a46d1160d1a7b406e4d1f7b7127f125895228d91a2ab1e267124552ddc21f87229d350a193208240f489059982c65203cc71279829c492a2e50bf9902fc711a962bc052b7f202a8b12a970a29917ad324d040e9a80b2c60bef81fad52ac2315ead1e3e21a1610e90e1db031339001a2e067ae29b0405e8709a34315c5076882273022687),
  (51697, 64, 422522096, 0x31ab22d86f05996062f431f27058712c74402c9031e351e78f16a1425367163b4008f010b6819eb4158ae10d0b29501298f31466303c24222161f730074332fb380eef01db190288c296b50b4b91ab8b2c7c7299720c1061ae4b170cf28f3425cb61e82e0eec92560a30c2f06aef1d2f7257b31f0af0c8321df5222ab3085b3012070662c1fc4203a4b13a0c212f61eb66062870c678313f71ae2d0b2c330eb0),
  (51761, 3, 423044026, 0xecf71610d0b2b0),
  (51765, 64, 423077154, 0xf6712a6a305acd1e78501eb81300c18a8e0ef2f1304e1ddcf264611e0020e22c223442a1aa3211611e092a1f0310d903fb00dd651ece80d7b721cf712e841ace72f4462df0b2a4f306c5731196061cb0a714038a8319d91eb6c09622167d929f8e119352cd3606251200b1265f509bb21c6620658f2acc509f292a5041e9b718ef2064a21804e1561824814254331fd842be431c4ee280891338d1869406a77),
  (51829, 64, 423600222, 0x30ed129ceb30ff12768e297b80df09045b415f950a0a931e472d62d2a19631229072431de711a7ca16630225f4126b80a3b00ebb91e810074241650b0b2910b04f0a5540e4642c42914ef921d101ab580eb142080d25598030cf2d3f002a66077e7280441a26f24a66117f02c3110c7f7167a10c82915e8825b91262e22bc741f1992bfb30ec812da041ebb01dc422418f29b690ee640f3a41e28c28c592a0b8),
  (51893, 3, 424126627, 0x2db8b1ce9616564),
  (51897, 64, 424150030, 0x12a472dc03116b231f061701825a0b2d1970f5500e8120b9751ab130d9ef2158916b55078c42d24304ce5060900de4e298920c6141ae0631b93239f0160c907bd13058119fa22926b2938629c431018c301942d70d0745109db1028752498731684167851a0f928ed81d5142cd370a92d06fd22566f0a3e121e392d28518ef9238f231b10048561331819c782a8820d1e60d4772254d1488e1e3d10a6470e8d3),
  (51961, 64, 424699207, 0x1ffb612e832daab1d38501ae125b552d7eb1d8691e5272d73510da5080ac2ea0c06c93315231a78e050e619d0b2936a1aa4e0b3a72a0250a7c502e711f935198e111c360616a06d96226a12e1a7191f7151a71a54112b51071ec0a22b02a2a127242d557127a1313d40ef782fe4d2d1b50c82c0b6991e3c43130206c470a156229471fc0124a690e830267f40da4d111cf067840f3a9225b831c080c504123b4),
  (52025, 64, 425211505, 0x2244f29f460b9301c3f828878022cf16ef205c6119c680a6f303ca31158806cac04dd30e3840660d2c7262242d086582916715a7320b140cbc21dab802d6a3016e2ad2225f7602c1831ce12dd67155e7099c51d5b41b214075f3292f418cc92e02525a0d04e63077ce01d101e92b20e6217d462cde312bf914fcd033012b9ac1654f141b5050560db0614e1612b0b1638711f2d150d71334a16ff60ae5822311),
  (52089, 64, 425738927, 0xed2312d22050270b57930d871efa80a9830e06f1cf530b1c913025188ac1c8740f6282f0d3110f2132080db630a781285f41a29616a991a8e716ccc031650780a2a4d506ee1195932c0e2300e33048819853124791d349238820ca260eb53257660ed261608c0f39224dd2072a50656515e9616336032b62034b0d7051a52c267ab233d12d5af2606e20a6f24bcf1abb5322621adec07758027961ea4f0628c),
  (52153, 64, 426255682, 0x312a40a80d0f1661e7c9184361d5d3140941e4701a9b0038840b43124047248410dcb92d8f91ae1801ceb2a0ca02e52261aa2dcee0b2aa16ceb03d340a5321e4e3113c9032ee072e906c831707105def08325169d028daf03c991e5f616de1175ec10e772620f2fd64298a92f6a8116b91e54c18eb10a677315d12716d31e23225810d461257881e04913347291b6246a826721193411bf73113d830ea319cf0),
  (52217, 9, 426797030, 0x1a8232a2b60b3ac2de6d2d952115512c3d63052929db4),
  (52227, 64, 426853133, 0x30fc22588731f331d4ed061022a4e201269076552b6b8031440753412141039821dd6c31dc10ac111dc480adec037410b45024955129cf0db642f7a101243318f90da162ad732e2b016c891a3b90b3e81eb631d784126b30a00112ad92a3f5200f812dd00f1a1212c31d0d0070942ccd50e76d126063136a1b0830efaa1e155127f61e4e627dcc26733267ee1d1571aaf40bff315c470e0390f06c0d87813da9),
  (52291, 64, 427387180, 0x574e1c6390ab66110a8078b0210332233315e662962d12ba91392c16ccd2c6d73082822fc71fd470297612ee115dc525fd8316f82112a0222130e2614b591a108120cf2d01003bc924b1519ed22baa331dc205563260d01a6cf0e2b11e68431d76228272ccb91a4920ade10774b2d4f81acc91dd090b21630fd2263312287819c390728a297c92f1682cf072128b0d1ac0543721cd4069ad12d8a13b02310a3),
  (52355, 64, 427913876, 0x23058260850e5d7278cd1cdc1124a81a154226ed2f1b931ab30dd2129fec132ad1eaf112c0c0e1c7282eb04db51133709af40cb232d942028e302e2b0a12a158a32b44732109190a30ad4d25ccd035182520e02bf5086ea133152b78521b6c0a1741616f14c2918b591642f1e38d235940cb8b0f61027e01067782522101e5930ff82d9b4254e112c1120a65204b31302209c591ec8d0d20d07874281cf225a3),
  (52419, 64, 428440689, 0x70701cbb31bc4301cd4313f1079260b7930ed481a436288b4063f71e66120371253b729ba618921301762e1d11d0072c9222729224ef31e77402cb60a10f1572d0a4e60b4e52bb8302685057eb2246905824219ee172b52f7e7165f60ede91532111c942268c1ade8313cb222af2e2612218f2507912bb3139362044c16674133f2300690b2c830a9229c8619e19136f1218f50708409464044a5303a80cf37),
  (52483, 64, 428967247, 0x266a924d492dfae2c6462d3ce09fed2d130132b01ea222364a30c18302c7287712d444314592d4760b8ab0b5a50aa0b03c58265a2290310eb650779703b7515b2f18a032d8e811e2b2df8406ac22dd761a6631e16c2d1a92d0b70d9713170a217d62742d186a52b60c1d3032984805a652976803b8e226042a31425b831fc0d153c91dbd52590f2f30118fa52635721fb7242e628e4306366167571602130fab),
  (52547, 64, 429482310, 0x1ce37262e81c0f516a45288b72ed32126630f54d0ec28201251e05326e6412593285492de3802dc42cb672a135312310f60b0db4225c65225c81c3d205f721239918e042a42725b541ae900cfb22e17225e14068281682420aa1061c50a6d52d2eb11ae60af5912f0829d381ae31010b91cb270328326759038f9317e716a4e241cb228b42c83629a142c5f7158500c1af068550788d1608630b571eb18120d0),
  (52611, 3, 430010365, 0x10f41298a30a4cc)]

/-- where it ends -/
def endF : Nat := 52614
/-- where it ends -/
def endR : Nat := 430035702

end Poplar.Fill
