import Mathlib.Data.Nat.Notation

/-
Rows of Monte Carlo density files shipped with the source (`/repo/atmdata`), packed without loss: each row of
the file is one number, `height + 100` in kilometres followed by six digits for each of the columns 1 to 4 (low, mean,
high and total density), four digits of mantissa and two of a decimal exponent.  For instance the row
`1.0000  6.035E+01  6.156E+01  6.279E+01  6.189E+01` is `101_603502_615602_627902_618902`, as `6.035E+01` is
`6035` divided by ten to the power `02`.
-/

namespace AMAT.Data

/-- atmdata/Mars/LAT00N.txt:11078-11233, columns 0 to 4: the 72nd of the 200 profiles of the file (156 heights
each). -/
def marsProfile : List ℕ :=
  [95_203205_207305_211505_209905,
   96_184805_188505_192205_191105,
   97_167905_171305_174705_170905,
   98_152705_155705_158805_156605,
   99_138805_141605_144405_145105,
   100_126205_128705_131305_132005,
   101_118805_121205_123605_123205,
   102_110305_112505_114805_115205,
   103_102505_104505_106605_107105,
   104_952206_971206_990606_988506,
   105_885206_902906_921006_909606,
   106_811806_828506_845406_835306,
   107_744606_760306_776306_773206,
   108_683006_697806_712906_704406,
   109_626706_640606_654906_650306,
   110_575006_588206_601706_597406,
   111_522506_534806_547406_546206,
   112_474806_486306_498106_505406,
   113_431506_442306_453406_469706,
   114_392306_402406_412706_433606,
   115_356606_366106_375806_390606,
   116_322106_330806_339806_354206,
   117_290906_299106_307406_316306,
   118_262806_270406_278206_290306,
   119_237506_244506_251806_265106,
   120_214706_221206_228006_235706,
   121_192306_198306_204506_213606,
   122_172306_177806_183606_187206,
   123_154406_159506_164806_164406,
   124_138406_143106_148006_144106,
   125_124106_128506_133006_124506,
   126_109606_113606_117706_109706,
   127_967607_100406_104106_972707,
   128_854507_887307_921307_835107,
   129_754707_784407_815407_739307,
   130_666607_693607_721807_667807,
   131_582907_607207_632607_592207,
   132_509707_531707_554507_518707,
   133_445807_465507_486107_463907,
   134_389907_407707_426207_406607,
   135_341107_357007_373807_352407,
   136_297907_312307_327307_315507,
   137_260207_273107_286707_271207,
   138_227307_238907_251107_236107,
   139_198507_209007_219907_212807,
   140_173407_182807_192707_185507,
   141_151507_159907_168807_158907,
   142_132307_139907_147907_139507,
   143_115507_122407_129607_122507,
   144_100907_107007_113507_111707,
   145_881308_936308_994608_963708,
   146_775608_825308_878308_881008,
   147_682508_727508_775508_782108,
   148_600508_641308_684908_718208,
   149_528408_565308_604808_630708,
   150_464908_498408_534208_546008,
   151_416008_446708_479808_469008,
   152_372108_400508_430908_437108,
   153_332908_359008_387108_408508,
   154_297908_321908_347808_367508,
   155_266508_288608_312508_322908,
   156_239808_260308_282508_303408,
   157_215808_234808_255408_281508,
   158_194208_211708_230908_264008,
   159_174708_191008_208708_224608,
   160_157208_172308_188708_188108,
   161_139708_153508_168608_168308,
   162_124208_136808_150608_148908,
   163_110408_122008_134708_132608,
   164_982209_108808_120408_117608,
   165_863809_959209_106508_101108,
   166_782909_871809_970809_933109,
   167_709509_792409_885009_833709,
   168_642909_720209_806909_745509,
   169_582609_654709_735709_648809,
   170_541109_610009_687709_591009,
   171_480009_542909_614009_546109,
   172_425809_483209_548409_479609,
   173_377709_430109_489809_471009,
   174_335109_382909_437609_470109,
   175_303609_348209_399309_457409,
   176_263209_303009_348709_386309,
   177_228109_263609_304609_353209,
   178_197809_229409_266109_297709,
   179_171409_199709_232509_251009,
   180_148609_173809_203209_204909,
   181_128809_151309_177709_199709,
   182_111709_131709_155409_180109,
   183_948810_112409_133109_145909,
   184_799510_951310_113209_113109,
   185_673710_805310_962710_859910,
   186_567610_681710_818810_635310,
   187_478210_577110_696510_471110,
   188_401810_487410_591210_317210,
   189_337310_411210_501310_274010,
   190_283110_346910_425210_235210,
   191_237610_292710_360610_209910,
   192_199410_247010_305910_202210,
   193_168710_210210_261810_166510,
   194_143310_179510_224810_113310,
   195_121610_153210_193110_960411,
   196_103210_130810_165910_830111,
   197_876011_111710_142510_746611,
   198_745911_957311_122810_575611,
   199_635911_821311_106110_607611,
   200_542111_704711_916111_520111,
   201_463311_604611_789011_424011,
   202_396011_518811_679611_308611,
   203_339011_445711_586211_280811,
   204_290311_383211_505811_163211,
   205_248611_329511_436511_134211,
   206_213011_283211_376711_140011,
   207_182411_243511_325111_981112,
   208_156111_209211_280311_614312,
   209_133611_179711_241611_359112,
   210_114311_154311_208311_215012,
   211_978112_132511_179611_132512,
   212_837112_113811_154811_163012,
   213_716812_978412_133511_215112,
   214_614012_841212_115211_841213,
   215_526012_723312_994512_108712,
   216_450812_622012_858412_671113,
   217_386312_535012_741012_535013,
   218_332212_461812_641912_641513,
   219_286212_399212_556912_499113,
   220_246512_345112_483212_665213,
   221_212412_298512_419412_949713,
   222_183112_258212_364012_258213,
   223_159412_225612_319212_718613,
   224_139412_197912_281112_536413,
   225_121912_173712_247512_583313,
   226_106612_152512_218112_709713,
   227_933013_133912_192112_448113,
   228_825113_118812_171112_537313,
   229_732713_105912_153012_105913,
   230_650813_943713_136812_943714,
   231_580113_841113_122012_244413,
   232_517113_749813_108712_314713,
   233_468713_679713_985513_155313,
   234_427613_620113_899113_193413,
   235_390213_565713_820313_219813,
   236_356013_516213_748513_281913,
   237_324913_471013_683013_212913,
   238_293213_425213_616513_202913,
   239_263613_382213_554213_112413,
   240_237013_343613_498213_144713,
   241_213013_308913_447913_156313,
   242_191513_277713_402613_102713,
   243_172813_250613_363313_790914,
   244_156213_226513_328413_668714,
   245_141213_204713_296813_122913,
   246_127613_185013_268213_950314,
   247_115313_167213_242513_103513,
   248_104613_151613_219813_141913,
   249_949114_137613_199613_137113,
   250_861614_124913_181213_138613]

/-- atmdata/Venus/LAT80S.txt:2-152, columns 0 to 4. -/
def venusProfile1 : List ℕ :=
  [100_635202_647902_660902_652002,
   101_603502_615602_627902_618902,
   102_573002_584502_596202_587102,
   103_543802_554702_565802_560702,
   104_515902_526202_536702_527502,
   105_488902_498702_508702_498702,
   106_463102_472402_481802_473902,
   107_438302_447102_456002_444702,
   108_414302_422602_431102_421602,
   109_391702_399502_407502_397702,
   110_369802_377202_384702_378102,
   111_348802_355802_362902_354802,
   112_328802_335402_342102_333302,
   113_309802_316002_322302_313402,
   114_291602_297402_303302_293802,
   115_274002_279502_285102_276702,
   116_257502_262702_268002_260302,
   117_242002_246802_251702_244302,
   118_227302_231802_236402_229602,
   119_213102_217402_221702_216002,
   120_199902_203902_208002_202002,
   121_187402_191102_194902_188402,
   122_175302_178802_182402_175902,
   123_163802_167102_170402_163702,
   124_153102_156202_159302_153702,
   125_142802_145702_148602_143402,
   126_133202_135902_138602_133002,
   127_124002_126502_129002_124602,
   128_115402_117702_120102_116002,
   129_107202_109302_111502_107802,
   130_995103_101502_103502_100302,
   131_922203_940603_959403_928203,
   132_853303_870403_887803_859703,
   133_789603_805303_821503_795603,
   134_728803_743303_758203_731303,
   135_671903_685303_699003_676203,
   136_618503_630903_643503_625403,
   137_568603_579903_591503_572903,
   138_521503_531903_542503_523503,
   139_478103_487703_497403_477003,
   140_437203_445903_454903_436703,
   141_399103_407003_415203_398403,
   142_363403_370603_378103_363603,
   143_330003_336603_343403_329903,
   144_299503_305503_311603_303003,
   145_271203_276603_282103_275503,
   146_245003_249903_254903_246203,
   147_220403_224803_229303_221403,
   148_197703_201703_205703_198203,
   149_176803_180303_183903_178503,
   150_158103_161303_164503_159503,
   151_140803_143803_146803_142903,
   152_124703_127503_130403_127103,
   153_110803_113403_116103_113503,
   154_979704_100403_103003_100603,
   155_862704_885504_909004_890904,
   156_757804_778804_800504_793104,
   157_661504_680804_700604_698504,
   158_570204_587504_605404_605704,
   159_479304_494504_510204_520204,
   160_396704_409804_423304_426604,
   161_327704_339004_350604_348704,
   162_270804_280404_290404_288304,
   163_224004_232304_240804_235404,
   164_185304_192404_199704_196504,
   165_153004_159004_165304_165104,
   166_126304_131404_136804_137604,
   167_103904_108304_112804_110804,
   168_854905_892005_930705_891005,
   169_707805_739405_772505_740705,
   170_585905_612905_641105_633805,
   171_487105_510205_534305_527205,
   172_405005_424605_445305_427005,
   173_336805_353705_371305_339805,
   174_280205_294505_309605_277705,
   175_234005_246305_259205_222805,
   176_195405_205905_217005_191905,
   177_164005_173005_182505_157505,
   178_137605_145405_153605_130305,
   179_114505_121105_128105_109705,
   180_952806_100905_106905_894906,
   181_783306_830506_880606_760206,
   182_644306_684006_726106_647306,
   183_525206_558206_593306_534706,
   184_428306_455806_485006_429706,
   185_345706_368306_392406_347906,
   186_279106_297806_317706_274506,
   187_222106_237306_253406_227106,
   188_176806_189106_202206_181606,
   189_139706_149506_160106_150106,
   190_110306_118306_126806_119306,
   191_864307_927707_995707_959107,
   192_677107_727607_781907_721307,
   193_528107_568207_611307_580407,
   194_411907_443707_478007_443607,
   195_319307_344407_371407_359107,
   196_247507_267307_288607_272207,
   197_190907_206407_223107_213807,
   198_147207_159407_172507_166607,
   199_108707_117807_127607_119907,
   200_802208_870408_944408_897508,
   201_609508_662108_719308_669108,
   202_463208_503708_547808_502008,
   203_352008_383208_417308_376608,
   204_267508_291608_317908_288308,
   205_203308_221908_242208_228008,
   206_154208_168508_184208_176108,
   207_117008_128108_140108_127208,
   208_888409_973109_106608_959709,
   209_674409_739609_811209_713209,
   210_512109_562309_617409_531009,
   211_378409_416009_457309_402309,
   212_279609_307709_338709_295609,
   213_206609_227609_250809_204209,
   214_152609_168409_185809_154809,
   215_112809_124609_137609_115809,
   216_825410_912710_100909_882410,
   217_604010_668710_740310_633310,
   218_442010_489910_543010_460210,
   219_323510_359010_398310_352410,
   220_236710_263010_292210_261610,
   221_173410_192810_214510_197710,
   222_127010_141410_157410_141710,
   223_929811_103710_115610_104510,
   224_681011_760111_848511_815911,
   225_498811_557411_622911_628811,
   226_367511_411111_460011_453511,
   227_270711_303311_339711_314711,
   228_199511_223711_250911_250311,
   229_147011_165111_185311_180811,
   230_108311_121811_136911_140011,
   231_807512_908712_102311_111911,
   232_602112_678312_764212_861312,
   233_449012_506512_571212_625512,
   234_335012_378312_427212_454712,
   235_250012_282612_319512_341312,
   236_190512_215612_244012_262712,
   237_145312_164612_186512_213112,
   238_110912_125812_142712_159312,
   239_847513_962513_109312_127912,
   240_648113_736913_837913_965513,
   241_511713_582513_663013_780913,
   242_404613_461113_525513_560713,
   243_320413_365513_417113_435613,
   244_254013_290213_331413_334213,
   245_201713_230613_263713_267813,
   246_171213_196013_224413_230013,
   247_145513_166713_191113_181213,
   248_123713_141913_162813_157813,
   249_105213_120813_138813_123113,
   250_895414_103013_118413_104613]

/-- atmdata/Venus/LAT80S.txt:153-303, columns 0 to 4. -/
def venusProfile2 : List ℕ :=
  [100_635202_647902_660902_665102,
   101_603502_615602_627902_630602,
   102_573002_584502_596202_596902,
   103_543802_554702_565802_567902,
   104_515902_526202_536702_536002,
   105_488902_498702_508702_511002,
   106_463102_472402_481802_481102,
   107_438302_447102_456002_451702,
   108_414302_422602_431102_430402,
   109_391702_399502_407502_405402,
   110_369802_377202_384702_379502,
   111_348802_355802_362902_362802,
   112_328802_335402_342102_341602,
   113_309802_316002_322302_322502,
   114_291602_297402_303302_303102,
   115_274002_279502_285102_283202,
   116_257502_262702_268002_266402,
   117_242002_246802_251702_248002,
   118_227302_231802_236402_235102,
   119_213102_217402_221702_222302,
   120_199902_203902_208002_211302,
   121_187402_191102_194902_197002,
   122_175302_178802_182402_185502,
   123_163802_167102_170402_171602,
   124_153102_156202_159302_160102,
   125_142802_145702_148602_149502,
   126_133202_135902_138602_139802,
   127_124002_126502_129002_131002,
   128_115402_117702_120102_120902,
   129_107202_109302_111502_111202,
   130_995103_101502_103502_103602,
   131_922203_940603_959403_956803,
   132_853303_870403_887803_885103,
   133_789603_805303_821503_824003,
   134_728803_743303_758203_763503,
   135_671903_685303_699003_704103,
   136_618503_630903_643503_644603,
   137_568603_579903_591503_589003,
   138_521503_531903_542503_541903,
   139_478103_487703_497403_495803,
   140_437203_445903_454903_449803,
   141_399103_407003_415203_405303,
   142_363403_370603_378103_369903,
   143_330003_336603_343403_337803,
   144_299503_305503_311603_304403,
   145_271203_276603_282103_274703,
   146_245003_249903_254903_251203,
   147_220403_224803_229303_228203,
   148_197703_201703_205703_204103,
   149_176803_180303_183903_182703,
   150_158103_161303_164503_163403,
   151_140803_143803_146803_145003,
   152_124703_127503_130403_129203,
   153_110803_113403_116103_114103,
   154_979704_100403_103003_100203,
   155_862704_885504_909004_887904,
   156_757804_778804_800504_776004,
   157_661504_680804_700604_659604,
   158_570204_587504_605404_572404,
   159_479304_494504_510204_487204,
   160_396704_409804_423304_403504,
   161_327704_339004_350604_341604,
   162_270804_280404_290404_281104,
   163_224004_232304_240804_235804,
   164_185304_192404_199704_189404,
   165_153004_159004_165304_157104,
   166_126304_131404_136804_130904,
   167_103904_108304_112804_104004,
   168_854905_892005_930705_864605,
   169_707805_739405_772505_717605,
   170_585905_612905_641105_592505,
   171_487105_510205_534305_484105,
   172_405005_424605_445305_407205,
   173_336805_353705_371305_348505,
   174_280205_294505_309605_284905,
   175_234005_246305_259205_237605,
   176_195405_205905_217005_201205,
   177_164005_173005_182505_164905,
   178_137605_145405_153605_135805,
   179_114505_121105_128105_113505,
   180_952806_100905_106905_970606,
   181_783306_830506_880606_797906,
   182_644306_684006_726106_622706,
   183_525206_558206_593306_530606,
   184_428306_455806_485006_419606,
   185_345706_368306_392406_338606,
   186_279106_297806_317706_279706,
   187_222106_237306_253406_226806,
   188_176806_189106_202206_182506,
   189_139706_149506_160106_146006,
   190_110306_118306_126806_115806,
   191_864307_927707_995707_907207,
   192_677107_727607_781907_672207,
   193_528107_568207_611307_523607,
   194_411907_443707_478007_422307,
   195_319307_344407_371407_320207,
   196_247507_267307_288607_248507,
   197_190907_206407_223107_195907,
   198_147207_159407_172507_157607,
   199_108707_117807_127607_116107,
   200_802208_870408_944408_926408,
   201_609508_662108_719308_713708,
   202_463208_503708_547808_533308,
   203_352008_383208_417308_407108,
   204_267508_291608_317908_313108,
   205_203308_221908_242208_240508,
   206_154208_168508_184208_187508,
   207_117008_128108_140108_141508,
   208_888409_973109_106608_103308,
   209_674409_739609_811209_798409,
   210_512109_562309_617409_608409,
   211_378409_416009_457309_467809,
   212_279609_307709_338709_365009,
   213_206609_227609_250809_258209,
   214_152609_168409_185809_186409,
   215_112809_124609_137609_133709,
   216_825410_912710_100909_101609,
   217_604010_668710_740310_738210,
   218_442010_489910_543010_536310,
   219_323510_359010_398310_409410,
   220_236710_263010_292210_299610,
   221_173410_192810_214510_205710,
   222_127010_141410_157410_153110,
   223_929811_103710_115610_103210,
   224_681011_760111_848511_757511,
   225_498811_557411_622911_592011,
   226_367511_411111_460011_456611,
   227_270711_303311_339711_314111,
   228_199511_223711_250911_236711,
   229_147011_165111_185311_157211,
   230_108311_121811_136911_111711,
   231_807512_908712_102311_813712,
   232_602112_678312_764212_620612,
   233_449012_506512_571212_482112,
   234_335012_378312_427212_393512,
   235_250012_282612_319512_294312,
   236_190512_215612_244012_245112,
   237_145312_164612_186512_184512,
   238_110912_125812_142712_133012,
   239_847513_962513_109312_102012,
   240_648113_736913_837913_865613,
   241_511713_582513_663013_637413,
   242_404613_461113_525513_549013,
   243_320413_365513_417113_414913,
   244_254013_290213_331413_339713,
   245_201713_230613_263713_282013,
   246_171213_196013_224413_229313,
   247_145513_166713_191113_206113,
   248_123713_141913_162813_194413,
   249_105213_120813_138813_162713,
   250_895414_103013_118413_135013]

/-- atmdata/Venus/LAT80S.txt:304-454, columns 0 to 4. -/
def venusProfile3 : List ℕ :=
  [100_635202_647902_660902_636802,
   101_603502_615602_627902_604202,
   102_573002_584502_596202_571602,
   103_543802_554702_565802_543502,
   104_515902_526202_536702_514702,
   105_488902_498702_508702_488102,
   106_463102_472402_481802_462902,
   107_438302_447102_456002_435502,
   108_414302_422602_431102_410102,
   109_391702_399502_407502_386602,
   110_369802_377202_384702_363902,
   111_348802_355802_362902_345402,
   112_328802_335402_342102_326802,
   113_309802_316002_322302_305702,
   114_291602_297402_303302_288802,
   115_274002_279502_285102_272502,
   116_257502_262702_268002_256802,
   117_242002_246802_251702_242202,
   118_227302_231802_236402_227402,
   119_213102_217402_221702_212502,
   120_199902_203902_208002_200102,
   121_187402_191102_194902_187002,
   122_175302_178802_182402_175202,
   123_163802_167102_170402_165002,
   124_153102_156202_159302_153602,
   125_142802_145702_148602_144302,
   126_133202_135902_138602_134102,
   127_124002_126502_129002_123502,
   128_115402_117702_120102_115402,
   129_107202_109302_111502_107502,
   130_995103_101502_103502_100502,
   131_922203_940603_959403_929703,
   132_853303_870403_887803_861403,
   133_789603_805303_821503_794803,
   134_728803_743303_758203_732603,
   135_671903_685303_699003_676503,
   136_618503_630903_643503_625503,
   137_568603_579903_591503_571703,
   138_521503_531903_542503_522503,
   139_478103_487703_497403_481103,
   140_437203_445903_454903_442203,
   141_399103_407003_415203_404803,
   142_363403_370603_378103_369903,
   143_330003_336603_343403_334403,
   144_299503_305503_311603_302803,
   145_271203_276603_282103_276303,
   146_245003_249903_254903_251603,
   147_220403_224803_229303_225903,
   148_197703_201703_205703_202303,
   149_176803_180303_183903_180503,
   150_158103_161303_164503_162103,
   151_140803_143803_146803_145203,
   152_124703_127503_130403_129703,
   153_110803_113403_116103_116103,
   154_979704_100403_103003_103503,
   155_862704_885504_909004_917204,
   156_757804_778804_800504_809304,
   157_661504_680804_700604_701204,
   158_570204_587504_605404_606204,
   159_479304_494504_510204_511704,
   160_396704_409804_423304_425904,
   161_327704_339004_350604_353904,
   162_270804_280404_290404_289004,
   163_224004_232304_240804_238304,
   164_185304_192404_199704_195904,
   165_153004_159004_165304_160204,
   166_126304_131404_136804_132904,
   167_103904_108304_112804_112004,
   168_854905_892005_930705_904405,
   169_707805_739405_772505_745605,
   170_585905_612905_641105_627805,
   171_487105_510205_534305_529005,
   172_405005_424605_445305_429905,
   173_336805_353705_371305_362505,
   174_280205_294505_309605_295905,
   175_234005_246305_259205_251905,
   176_195405_205905_217005_210505,
   177_164005_173005_182505_172105,
   178_137605_145405_153605_141305,
   179_114505_121105_128105_117205,
   180_952806_100905_106905_976706,
   181_783306_830506_880606_776306,
   182_644306_684006_726106_627906,
   183_525206_558206_593306_504106,
   184_428306_455806_485006_434406,
   185_345706_368306_392406_347806,
   186_279106_297806_317706_276806,
   187_222106_237306_253406_221406,
   188_176806_189106_202206_179806,
   189_139706_149506_160106_140706,
   190_110306_118306_126806_111506,
   191_864307_927707_995707_847707,
   192_677107_727607_781907_707007,
   193_528107_568207_611307_583207,
   194_411907_443707_478007_446707,
   195_319307_344407_371407_346607,
   196_247507_267307_288607_270807,
   197_190907_206407_223107_211007,
   198_147207_159407_172507_155507,
   199_108707_117807_127607_116807,
   200_802208_870408_944408_849408,
   201_609508_662108_719308_615808,
   202_463208_503708_547808_465708,
   203_352008_383208_417308_369708,
   204_267508_291608_317908_290108,
   205_203308_221908_242208_220608,
   206_154208_168508_184208_177808,
   207_117008_128108_140108_141808,
   208_888409_973109_106608_114308,
   209_674409_739609_811209_828109,
   210_512109_562309_617409_654009,
   211_378409_416009_457309_453009,
   212_279609_307709_338709_332909,
   213_206609_227609_250809_241109,
   214_152609_168409_185809_167309,
   215_112809_124609_137609_115409,
   216_825410_912710_100909_903010,
   217_604010_668710_740310_677910,
   218_442010_489910_543010_502410,
   219_323510_359010_398310_393110,
   220_236710_263010_292210_288210,
   221_173410_192810_214510_208910,
   222_127010_141410_157410_138210,
   223_929811_103710_115610_102110,
   224_681011_760111_848511_708111,
   225_498811_557411_622911_557811,
   226_367511_411111_460011_402711,
   227_270711_303311_339711_276811,
   228_199511_223711_250911_204111,
   229_147011_165111_185311_154611,
   230_108311_121811_136911_114911,
   231_807512_908712_102311_871212,
   232_602112_678312_764212_636912,
   233_449012_506512_571212_436412,
   234_335012_378312_427212_330112,
   235_250012_282612_319512_246312,
   236_190512_215612_244012_182312,
   237_145312_164612_186512_159612,
   238_110912_125812_142712_130012,
   239_847513_962513_109312_943313,
   240_648113_736913_837913_713213,
   241_511713_582513_663013_560413,
   242_404613_461113_525513_473313,
   243_320413_365513_417113_342013,
   244_254013_290213_331413_261013,
   245_201713_230613_263713_192313,
   246_171213_196013_224413_181413,
   247_145513_166713_191113_159713,
   248_123713_141913_162813_132113,
   249_105213_120813_138813_989614,
   250_895414_103013_118413_851714]

/-- atmdata/Venus/LAT80S.txt:455-605, columns 0 to 4. -/
def venusProfile4 : List ℕ :=
  [100_635202_647902_660902_647102,
   101_603502_615602_627902_613302,
   102_573002_584502_596202_578502,
   103_543802_554702_565802_548602,
   104_515902_526202_536702_520302,
   105_488902_498702_508702_490002,
   106_463102_472402_481802_467902,
   107_438302_447102_456002_440402,
   108_414302_422602_431102_416102,
   109_391702_399502_407502_391802,
   110_369802_377202_384702_369502,
   111_348802_355802_362902_349402,
   112_328802_335402_342102_332202,
   113_309802_316002_322302_312802,
   114_291602_297402_303302_296802,
   115_274002_279502_285102_278002,
   116_257502_262702_268002_261902,
   117_242002_246802_251702_245702,
   118_227302_231802_236402_232002,
   119_213102_217402_221702_217602,
   120_199902_203902_208002_203902,
   121_187402_191102_194902_190602,
   122_175302_178802_182402_177202,
   123_163802_167102_170402_166302,
   124_153102_156202_159302_156902,
   125_142802_145702_148602_145002,
   126_133202_135902_138602_136002,
   127_124002_126502_129002_125702,
   128_115402_117702_120102_116802,
   129_107202_109302_111502_108102,
   130_995103_101502_103502_101402,
   131_922203_940603_959403_937103,
   132_853303_870403_887803_868103,
   133_789603_805303_821503_805803,
   134_728803_743303_758203_751003,
   135_671903_685303_699003_692403,
   136_618503_630903_643503_634103,
   137_568603_579903_591503_578403,
   138_521503_531903_542503_532703,
   139_478103_487703_497403_495103,
   140_437203_445903_454903_451603,
   141_399103_407003_415203_410303,
   142_363403_370603_378103_375103,
   143_330003_336603_343403_341403,
   144_299503_305503_311603_309803,
   145_271203_276603_282103_280003,
   146_245003_249903_254903_254203,
   147_220403_224803_229303_230403,
   148_197703_201703_205703_206403,
   149_176803_180303_183903_183203,
   150_158103_161303_164503_164803,
   151_140803_143803_146803_146303,
   152_124703_127503_130403_131003,
   153_110803_113403_116103_116103,
   154_979704_100403_103003_102503,
   155_862704_885504_909004_909404,
   156_757804_778804_800504_785904,
   157_661504_680804_700604_686104,
   158_570204_587504_605404_592804,
   159_479304_494504_510204_498304,
   160_396704_409804_423304_419304,
   161_327704_339004_350604_345604,
   162_270804_280404_290404_279604,
   163_224004_232304_240804_225504,
   164_185304_192404_199704_188304,
   165_153004_159004_165304_161304,
   166_126304_131404_136804_133304,
   167_103904_108304_112804_111304,
   168_854905_892005_930705_923905,
   169_707805_739405_772505_757705,
   170_585905_612905_641105_617905,
   171_487105_510205_534305_510905,
   172_405005_424605_445305_428805,
   173_336805_353705_371305_358805,
   174_280205_294505_309605_293605,
   175_234005_246305_259205_240805,
   176_195405_205905_217005_200105,
   177_164005_173005_182505_164405,
   178_137605_145405_153605_135005,
   179_114505_121105_128105_111905,
   180_952806_100905_106905_910706,
   181_783306_830506_880606_766806,
   182_644306_684006_726106_629706,
   183_525206_558206_593306_517006,
   184_428306_455806_485006_434906,
   185_345706_368306_392406_346206,
   186_279106_297806_317706_287306,
   187_222106_237306_253406_225806,
   188_176806_189106_202206_184506,
   189_139706_149506_160106_157806,
   190_110306_118306_126806_123406,
   191_864307_927707_995707_988307,
   192_677107_727607_781907_799207,
   193_528107_568207_611307_620507,
   194_411907_443707_478007_494007,
   195_319307_344407_371407_390107,
   196_247507_267307_288607_306007,
   197_190907_206407_223107_235107,
   198_147207_159407_172507_177107,
   199_108707_117807_127607_134407,
   200_802208_870408_944408_995008,
   201_609508_662108_719308_746908,
   202_463208_503708_547808_557008,
   203_352008_383208_417308_400308,
   204_267508_291608_317908_317708,
   205_203308_221908_242208_235808,
   206_154208_168508_184208_167908,
   207_117008_128108_140108_125508,
   208_888409_973109_106608_980109,
   209_674409_739609_811209_753009,
   210_512109_562309_617409_553709,
   211_378409_416009_457309_400509,
   212_279609_307709_338709_277509,
   213_206609_227609_250809_207509,
   214_152609_168409_185809_160609,
   215_112809_124609_137609_123509,
   216_825410_912710_100909_998610,
   217_604010_668710_740310_767310,
   218_442010_489910_543010_569410,
   219_323510_359010_398310_362810,
   220_236710_263010_292210_267310,
   221_173410_192810_214510_204410,
   222_127010_141410_157410_146710,
   223_929811_103710_115610_994511,
   224_681011_760111_848511_750211,
   225_498811_557411_622911_592611,
   226_367511_411111_460011_451411,
   227_270711_303311_339711_302111,
   228_199511_223711_250911_213111,
   229_147011_165111_185311_153111,
   230_108311_121811_136911_119111,
   231_807512_908712_102311_949012,
   232_602112_678312_764212_645812,
   233_449012_506512_571212_475412,
   234_335012_378312_427212_323112,
   235_250012_282612_319512_236612,
   236_190512_215612_244012_183412,
   237_145312_164612_186512_142212,
   238_110912_125812_142712_111312,
   239_847513_962513_109312_902813,
   240_648113_736913_837913_727713,
   241_511713_582513_663013_596413,
   242_404613_461113_525513_491613,
   243_320413_365513_417113_410013,
   244_254013_290213_331413_329013,
   245_201713_230613_263713_251513,
   246_171213_196013_224413_213813,
   247_145513_166713_191113_179513,
   248_123713_141913_162813_153713,
   249_105213_120813_138813_129613,
   250_895414_103013_118413_108513]

/-- atmdata/Venus/LAT80S.txt:606-756, columns 0 to 4. -/
def venusProfile5 : List ℕ :=
  [100_635202_647902_660902_657002,
   101_603502_615602_627902_621902,
   102_573002_584502_596202_595702,
   103_543802_554702_565802_563202,
   104_515902_526202_536702_534602,
   105_488902_498702_508702_507602,
   106_463102_472402_481802_479502,
   107_438302_447102_456002_451202,
   108_414302_422602_431102_427302,
   109_391702_399502_407502_401602,
   110_369802_377202_384702_379102,
   111_348802_355802_362902_357402,
   112_328802_335402_342102_335202,
   113_309802_316002_322302_317102,
   114_291602_297402_303302_296902,
   115_274002_279502_285102_280302,
   116_257502_262702_268002_264102,
   117_242002_246802_251702_246002,
   118_227302_231802_236402_230302,
   119_213102_217402_221702_216902,
   120_199902_203902_208002_202202,
   121_187402_191102_194902_189302,
   122_175302_178802_182402_177702,
   123_163802_167102_170402_166302,
   124_153102_156202_159302_156002,
   125_142802_145702_148602_144902,
   126_133202_135902_138602_135002,
   127_124002_126502_129002_125202,
   128_115402_117702_120102_117602,
   129_107202_109302_111502_109902,
   130_995103_101502_103502_101202,
   131_922203_940603_959403_935003,
   132_853303_870403_887803_866403,
   133_789603_805303_821503_795803,
   134_728803_743303_758203_735203,
   135_671903_685303_699003_678103,
   136_618503_630903_643503_626803,
   137_568603_579903_591503_570903,
   138_521503_531903_542503_521703,
   139_478103_487703_497403_476903,
   140_437203_445903_454903_431403,
   141_399103_407003_415203_397503,
   142_363403_370603_378103_364603,
   143_330003_336603_343403_328603,
   144_299503_305503_311603_299803,
   145_271203_276603_282103_268003,
   146_245003_249903_254903_243503,
   147_220403_224803_229303_219003,
   148_197703_201703_205703_196803,
   149_176803_180303_183903_179003,
   150_158103_161303_164503_163703,
   151_140803_143803_146803_146703,
   152_124703_127503_130403_132603,
   153_110803_113403_116103_119003,
   154_979704_100403_103003_103303,
   155_862704_885504_909004_917204,
   156_757804_778804_800504_804604,
   157_661504_680804_700604_706404,
   158_570204_587504_605404_609004,
   159_479304_494504_510204_508804,
   160_396704_409804_423304_414504,
   161_327704_339004_350604_338004,
   162_270804_280404_290404_285104,
   163_224004_232304_240804_237204,
   164_185304_192404_199704_203104,
   165_153004_159004_165304_168704,
   166_126304_131404_136804_138604,
   167_103904_108304_112804_114704,
   168_854905_892005_930705_929105,
   169_707805_739405_772505_758605,
   170_585905_612905_641105_632205,
   171_487105_510205_534305_550505,
   172_405005_424605_445305_447805,
   173_336805_353705_371305_370805,
   174_280205_294505_309605_303205,
   175_234005_246305_259205_254005,
   176_195405_205905_217005_208005,
   177_164005_173005_182505_170605,
   178_137605_145405_153605_139705,
   179_114505_121105_128105_114905,
   180_952806_100905_106905_980606,
   181_783306_830506_880606_801006,
   182_644306_684006_726106_663306,
   183_525206_558206_593306_553606,
   184_428306_455806_485006_457406,
   185_345706_368306_392406_360406,
   186_279106_297806_317706_288106,
   187_222106_237306_253406_221306,
   188_176806_189106_202206_183106,
   189_139706_149506_160106_147206,
   190_110306_118306_126806_115206,
   191_864307_927707_995707_902607,
   192_677107_727607_781907_728707,
   193_528107_568207_611307_545407,
   194_411907_443707_478007_421107,
   195_319307_344407_371407_314807,
   196_247507_267307_288607_257207,
   197_190907_206407_223107_199707,
   198_147207_159407_172507_155207,
   199_108707_117807_127607_109107,
   200_802208_870408_944408_866208,
   201_609508_662108_719308_683808,
   202_463208_503708_547808_513208,
   203_352008_383208_417308_383508,
   204_267508_291608_317908_268508,
   205_203308_221908_242208_196908,
   206_154208_168508_184208_145708,
   207_117008_128108_140108_115008,
   208_888409_973109_106608_884409,
   209_674409_739609_811209_634109,
   210_512109_562309_617409_490109,
   211_378409_416009_457309_365909,
   212_279609_307709_338709_276809,
   213_206609_227609_250809_210709,
   214_152609_168409_185809_157409,
   215_112809_124609_137609_117909,
   216_825410_912710_100909_809610,
   217_604010_668710_740310_566810,
   218_442010_489910_543010_441510,
   219_323510_359010_398310_303610,
   220_236710_263010_292210_227010,
   221_173410_192810_214510_161310,
   222_127010_141410_157410_123610,
   223_929811_103710_115610_923611,
   224_681011_760111_848511_667211,
   225_498811_557411_622911_536911,
   226_367511_411111_460011_384911,
   227_270711_303311_339711_333311,
   228_199511_223711_250911_259711,
   229_147011_165111_185311_199611,
   230_108311_121811_136911_138311,
   231_807512_908712_102311_981612,
   232_602112_678312_764212_754612,
   233_449012_506512_571212_570812,
   234_335012_378312_427212_426112,
   235_250012_282612_319512_298712,
   236_190512_215612_244012_235212,
   237_145312_164612_186512_159712,
   238_110912_125812_142712_118412,
   239_847513_962513_109312_901613,
   240_648113_736913_837913_664913,
   241_511713_582513_663013_475713,
   242_404613_461113_525513_395113,
   243_320413_365513_417113_324713,
   244_254013_290213_331413_239013,
   245_201713_230613_263713_194113,
   246_171213_196013_224413_158213,
   247_145513_166713_191113_130913,
   248_123713_141913_162813_123213,
   249_105213_120813_138813_116613,
   250_895414_103013_118413_982114]

/-- atmdata/Venus/LAT80S.txt:757-907, columns 0 to 4. -/
def venusProfile6 : List ℕ :=
  [100_635202_647902_660902_625902,
   101_603502_615602_627902_592802,
   102_573002_584502_596202_566502,
   103_543802_554702_565802_534702,
   104_515902_526202_536702_509302,
   105_488902_498702_508702_481702,
   106_463102_472402_481802_458302,
   107_438302_447102_456002_432102,
   108_414302_422602_431102_411502,
   109_391702_399502_407502_386802,
   110_369802_377202_384702_366402,
   111_348802_355802_362902_345002,
   112_328802_335402_342102_325202,
   113_309802_316002_322302_304902,
   114_291602_297402_303302_287002,
   115_274002_279502_285102_269402,
   116_257502_262702_268002_254502,
   117_242002_246802_251702_240102,
   118_227302_231802_236402_226502,
   119_213102_217402_221702_210602,
   120_199902_203902_208002_198902,
   121_187402_191102_194902_186402,
   122_175302_178802_182402_174102,
   123_163802_167102_170402_162702,
   124_153102_156202_159302_152202,
   125_142802_145702_148602_142002,
   126_133202_135902_138602_134202,
   127_124002_126502_129002_124602,
   128_115402_117702_120102_116102,
   129_107202_109302_111502_107802,
   130_995103_101502_103502_996303,
   131_922203_940603_959403_921203,
   132_853303_870403_887803_854303,
   133_789603_805303_821503_791303,
   134_728803_743303_758203_725403,
   135_671903_685303_699003_669103,
   136_618503_630903_643503_613603,
   137_568603_579903_591503_556603,
   138_521503_531903_542503_513703,
   139_478103_487703_497403_472203,
   140_437203_445903_454903_433703,
   141_399103_407003_415203_396503,
   142_363403_370603_378103_364503,
   143_330003_336603_343403_331503,
   144_299503_305503_311603_303903,
   145_271203_276603_282103_275703,
   146_245003_249903_254903_249603,
   147_220403_224803_229303_226403,
   148_197703_201703_205703_203303,
   149_176803_180303_183903_182703,
   150_158103_161303_164503_162003,
   151_140803_143803_146803_143803,
   152_124703_127503_130403_126203,
   153_110803_113403_116103_112103,
   154_979704_100403_103003_995604,
   155_862704_885504_909004_885304,
   156_757804_778804_800504_786104,
   157_661504_680804_700604_697604,
   158_570204_587504_605404_600804,
   159_479304_494504_510204_498804,
   160_396704_409804_423304_410704,
   161_327704_339004_350604_345204,
   162_270804_280404_290404_288204,
   163_224004_232304_240804_236104,
   164_185304_192404_199704_193904,
   165_153004_159004_165304_159404,
   166_126304_131404_136804_131004,
   167_103904_108304_112804_108404,
   168_854905_892005_930705_904005,
   169_707805_739405_772505_735505,
   170_585905_612905_641105_593105,
   171_487105_510205_534305_497505,
   172_405005_424605_445305_419205,
   173_336805_353705_371305_346105,
   174_280205_294505_309605_284805,
   175_234005_246305_259205_247805,
   176_195405_205905_217005_199405,
   177_164005_173005_182505_164205,
   178_137605_145405_153605_134405,
   179_114505_121105_128105_110305,
   180_952806_100905_106905_922906,
   181_783306_830506_880606_808506,
   182_644306_684006_726106_676806,
   183_525206_558206_593306_532706,
   184_428306_455806_485006_437106,
   185_345706_368306_392406_342306,
   186_279106_297806_317706_286906,
   187_222106_237306_253406_237106,
   188_176806_189106_202206_198506,
   189_139706_149506_160106_155006,
   190_110306_118306_126806_120206,
   191_864307_927707_995707_909707,
   192_677107_727607_781907_728607,
   193_528107_568207_611307_575907,
   194_411907_443707_478007_463407,
   195_319307_344407_371407_355707,
   196_247507_267307_288607_261907,
   197_190907_206407_223107_202307,
   198_147207_159407_172507_160407,
   199_108707_117807_127607_116007,
   200_802208_870408_944408_843108,
   201_609508_662108_719308_626508,
   202_463208_503708_547808_473908,
   203_352008_383208_417308_365008,
   204_267508_291608_317908_267208,
   205_203308_221908_242208_218208,
   206_154208_168508_184208_162908,
   207_117008_128108_140108_118908,
   208_888409_973109_106608_890809,
   209_674409_739609_811209_682709,
   210_512109_562309_617409_543709,
   211_378409_416009_457309_410309,
   212_279609_307709_338709_291309,
   213_206609_227609_250809_225009,
   214_152609_168409_185809_162209,
   215_112809_124609_137609_117909,
   216_825410_912710_100909_826210,
   217_604010_668710_740310_598010,
   218_442010_489910_543010_475610,
   219_323510_359010_398310_332210,
   220_236710_263010_292210_245710,
   221_173410_192810_214510_182310,
   222_127010_141410_157410_124210,
   223_929811_103710_115610_848811,
   224_681011_760111_848511_678311,
   225_498811_557411_622911_549111,
   226_367511_411111_460011_416811,
   227_270711_303311_339711_335411,
   228_199511_223711_250911_249911,
   229_147011_165111_185311_182911,
   230_108311_121811_136911_133211,
   231_807512_908712_102311_988312,
   232_602112_678312_764212_731912,
   233_449012_506512_571212_603412,
   234_335012_378312_427212_419612,
   235_250012_282612_319512_278012,
   236_190512_215612_244012_191112,
   237_145312_164612_186512_148312,
   238_110912_125812_142712_125512,
   239_847513_962513_109312_880613,
   240_648113_736913_837913_692313,
   241_511713_582513_663013_537413,
   242_404613_461113_525513_433613,
   243_320413_365513_417113_342513,
   244_254013_290213_331413_274013,
   245_201713_230613_263713_226813,
   246_171213_196013_224413_203313,
   247_145513_166713_191113_151813,
   248_123713_141913_162813_123113,
   249_105213_120813_138813_104513,
   250_895414_103013_118413_885014]

/-- atmdata/Venus/LAT80S.txt:908-1058, columns 0 to 4. -/
def venusProfile7 : List ℕ :=
  [100_635202_647902_660902_642102,
   101_603502_615602_627902_607302,
   102_573002_584502_596202_578602,
   103_543802_554702_565802_553502,
   104_515902_526202_536702_527802,
   105_488902_498702_508702_502902,
   106_463102_472402_481802_473602,
   107_438302_447102_456002_446302,
   108_414302_422602_431102_419502,
   109_391702_399502_407502_393402,
   110_369802_377202_384702_373302,
   111_348802_355802_362902_350102,
   112_328802_335402_342102_330902,
   113_309802_316002_322302_311902,
   114_291602_297402_303302_294302,
   115_274002_279502_285102_278302,
   116_257502_262702_268002_262702,
   117_242002_246802_251702_246402,
   118_227302_231802_236402_230202,
   119_213102_217402_221702_215402,
   120_199902_203902_208002_202302,
   121_187402_191102_194902_189602,
   122_175302_178802_182402_178802,
   123_163802_167102_170402_166602,
   124_153102_156202_159302_155002,
   125_142802_145702_148602_144902,
   126_133202_135902_138602_135302,
   127_124002_126502_129002_125702,
   128_115402_117702_120102_116402,
   129_107202_109302_111502_106902,
   130_995103_101502_103502_991003,
   131_922203_940603_959403_916303,
   132_853303_870403_887803_850203,
   133_789603_805303_821503_794103,
   134_728803_743303_758203_735503,
   135_671903_685303_699003_677603,
   136_618503_630903_643503_626203,
   137_568603_579903_591503_582103,
   138_521503_531903_542503_531403,
   139_478103_487703_497403_490203,
   140_437203_445903_454903_446603,
   141_399103_407003_415203_404603,
   142_363403_370603_378103_372803,
   143_330003_336603_343403_342103,
   144_299503_305503_311603_307803,
   145_271203_276603_282103_276803,
   146_245003_249903_254903_250303,
   147_220403_224803_229303_224603,
   148_197703_201703_205703_201903,
   149_176803_180303_183903_180803,
   150_158103_161303_164503_161103,
   151_140803_143803_146803_144403,
   152_124703_127503_130403_127103,
   153_110803_113403_116103_115403,
   154_979704_100403_103003_101503,
   155_862704_885504_909004_902804,
   156_757804_778804_800504_787204,
   157_661504_680804_700604_680304,
   158_570204_587504_605404_585604,
   159_479304_494504_510204_504904,
   160_396704_409804_423304_418404,
   161_327704_339004_350604_347204,
   162_270804_280404_290404_288004,
   163_224004_232304_240804_242204,
   164_185304_192404_199704_201204,
   165_153004_159004_165304_162404,
   166_126304_131404_136804_132904,
   167_103904_108304_112804_109304,
   168_854905_892005_930705_890105,
   169_707805_739405_772505_720205,
   170_585905_612905_641105_598005,
   171_487105_510205_534305_491205,
   172_405005_424605_445305_403305,
   173_336805_353705_371305_330705,
   174_280205_294505_309605_273205,
   175_234005_246305_259205_227705,
   176_195405_205905_217005_197005,
   177_164005_173005_182505_162505,
   178_137605_145405_153605_132805,
   179_114505_121105_128105_108305,
   180_952806_100905_106905_881506,
   181_783306_830506_880606_739906,
   182_644306_684006_726106_635906,
   183_525206_558206_593306_517306,
   184_428306_455806_485006_421306,
   185_345706_368306_392406_325006,
   186_279106_297806_317706_263506,
   187_222106_237306_253406_215406,
   188_176806_189106_202206_164306,
   189_139706_149506_160106_125306,
   190_110306_118306_126806_980507,
   191_864307_927707_995707_803807,
   192_677107_727607_781907_647707,
   193_528107_568207_611307_497207,
   194_411907_443707_478007_387507,
   195_319307_344407_371407_310007,
   196_247507_267307_288607_236307,
   197_190907_206407_223107_183407,
   198_147207_159407_172507_158107,
   199_108707_117807_127607_116607,
   200_802208_870408_944408_872008,
   201_609508_662108_719308_670308,
   202_463208_503708_547808_504308,
   203_352008_383208_417308_397108,
   204_267508_291608_317908_293508,
   205_203308_221908_242208_229808,
   206_154208_168508_184208_172808,
   207_117008_128108_140108_131508,
   208_888409_973109_106608_944609,
   209_674409_739609_811209_768609,
   210_512109_562309_617409_558609,
   211_378409_416009_457309_432609,
   212_279609_307709_338709_325709,
   213_206609_227609_250809_261409,
   214_152609_168409_185809_206409,
   215_112809_124609_137609_142109,
   216_825410_912710_100909_995810,
   217_604010_668710_740310_726610,
   218_442010_489910_543010_493710,
   219_323510_359010_398310_348010,
   220_236710_263010_292210_255910,
   221_173410_192810_214510_199910,
   222_127010_141410_157410_144310,
   223_929811_103710_115610_106310,
   224_681011_760111_848511_778411,
   225_498811_557411_622911_630111,
   226_367511_411111_460011_441411,
   227_270711_303311_339711_346811,
   228_199511_223711_250911_250011,
   229_147011_165111_185311_172911,
   230_108311_121811_136911_132011,
   231_807512_908712_102311_102411,
   232_602112_678312_764212_728612,
   233_449012_506512_571212_526312,
   234_335012_378312_427212_400312,
   235_250012_282612_319512_316812,
   236_190512_215612_244012_232712,
   237_145312_164612_186512_161812,
   238_110912_125812_142712_126512,
   239_847513_962513_109312_992213,
   240_648113_736913_837913_690413,
   241_511713_582513_663013_559213,
   242_404613_461113_525513_443713,
   243_320413_365513_417113_338713,
   244_254013_290213_331413_296113,
   245_201713_230613_263713_259213,
   246_171213_196013_224413_216513,
   247_145513_166713_191113_191013,
   248_123713_141913_162813_160113,
   249_105213_120813_138813_143313,
   250_895414_103013_118413_118013]

/-- atmdata/Venus/LAT80S.txt:1059-1209, columns 0 to 4. -/
def venusProfile8 : List ℕ :=
  [100_635202_647902_660902_651502,
   101_603502_615602_627902_615102,
   102_573002_584502_596202_584902,
   103_543802_554702_565802_557202,
   104_515902_526202_536702_533902,
   105_488902_498702_508702_505402,
   106_463102_472402_481802_478802,
   107_438302_447102_456002_451202,
   108_414302_422602_431102_425602,
   109_391702_399502_407502_397502,
   110_369802_377202_384702_378802,
   111_348802_355802_362902_360202,
   112_328802_335402_342102_341402,
   113_309802_316002_322302_323202,
   114_291602_297402_303302_305902,
   115_274002_279502_285102_286902,
   116_257502_262702_268002_270702,
   117_242002_246802_251702_251802,
   118_227302_231802_236402_236602,
   119_213102_217402_221702_222002,
   120_199902_203902_208002_207402,
   121_187402_191102_194902_194402,
   122_175302_178802_182402_181802,
   123_163802_167102_170402_168702,
   124_153102_156202_159302_158902,
   125_142802_145702_148602_148902,
   126_133202_135902_138602_137902,
   127_124002_126502_129002_128302,
   128_115402_117702_120102_119802,
   129_107202_109302_111502_111302,
   130_995103_101502_103502_103202,
   131_922203_940603_959403_952303,
   132_853303_870403_887803_882203,
   133_789603_805303_821503_813603,
   134_728803_743303_758203_747603,
   135_671903_685303_699003_687803,
   136_618503_630903_643503_629803,
   137_568603_579903_591503_583803,
   138_521503_531903_542503_537403,
   139_478103_487703_497403_488803,
   140_437203_445903_454903_451103,
   141_399103_407003_415203_413203,
   142_363403_370603_378103_371403,
   143_330003_336603_343403_336603,
   144_299503_305503_311603_304503,
   145_271203_276603_282103_276903,
   146_245003_249903_254903_250003,
   147_220403_224803_229303_226503,
   148_197703_201703_205703_203803,
   149_176803_180303_183903_181703,
   150_158103_161303_164503_162203,
   151_140803_143803_146803_144003,
   152_124703_127503_130403_127103,
   153_110803_113403_116103_113203,
   154_979704_100403_103003_101203,
   155_862704_885504_909004_901404,
   156_757804_778804_800504_794404,
   157_661504_680804_700604_691804,
   158_570204_587504_605404_594304,
   159_479304_494504_510204_505304,
   160_396704_409804_423304_421904,
   161_327704_339004_350604_346804,
   162_270804_280404_290404_286104,
   163_224004_232304_240804_236604,
   164_185304_192404_199704_200804,
   165_153004_159004_165304_167804,
   166_126304_131404_136804_136504,
   167_103904_108304_112804_111504,
   168_854905_892005_930705_931305,
   169_707805_739405_772505_739705,
   170_585905_612905_641105_630005,
   171_487105_510205_534305_533605,
   172_405005_424605_445305_448105,
   173_336805_353705_371305_359105,
   174_280205_294505_309605_295405,
   175_234005_246305_259205_250305,
   176_195405_205905_217005_212005,
   177_164005_173005_182505_174105,
   178_137605_145405_153605_141505,
   179_114505_121105_128105_113905,
   180_952806_100905_106905_971606,
   181_783306_830506_880606_789306,
   182_644306_684006_726106_627206,
   183_525206_558206_593306_521306,
   184_428306_455806_485006_419406,
   185_345706_368306_392406_358606,
   186_279106_297806_317706_303106,
   187_222106_237306_253406_241206,
   188_176806_189106_202206_186206,
   189_139706_149506_160106_150506,
   190_110306_118306_126806_115606,
   191_864307_927707_995707_905507,
   192_677107_727607_781907_716907,
   193_528107_568207_611307_574007,
   194_411907_443707_478007_463607,
   195_319307_344407_371407_330807,
   196_247507_267307_288607_255107,
   197_190907_206407_223107_195907,
   198_147207_159407_172507_148007,
   199_108707_117807_127607_111907,
   200_802208_870408_944408_880108,
   201_609508_662108_719308_736208,
   202_463208_503708_547808_550608,
   203_352008_383208_417308_394608,
   204_267508_291608_317908_295508,
   205_203308_221908_242208_226808,
   206_154208_168508_184208_172808,
   207_117008_128108_140108_139008,
   208_888409_973109_106608_109208,
   209_674409_739609_811209_814809,
   210_512109_562309_617409_612609,
   211_378409_416009_457309_423209,
   212_279609_307709_338709_303809,
   213_206609_227609_250809_215409,
   214_152609_168409_185809_163709,
   215_112809_124609_137609_126309,
   216_825410_912710_100909_900010,
   217_604010_668710_740310_678410,
   218_442010_489910_543010_476610,
   219_323510_359010_398310_340010,
   220_236710_263010_292210_250010,
   221_173410_192810_214510_179110,
   222_127010_141410_157410_136110,
   223_929811_103710_115610_929811,
   224_681011_760111_848511_645711,
   225_498811_557411_622911_402911,
   226_367511_411111_460011_314111,
   227_270711_303311_339711_255511,
   228_199511_223711_250911_180211,
   229_147011_165111_185311_140811,
   230_108311_121811_136911_978612,
   231_807512_908712_102311_698712,
   232_602112_678312_764212_587212,
   233_449012_506512_571212_451412,
   234_335012_378312_427212_325212,
   235_250012_282612_319512_256212,
   236_190512_215612_244012_198712,
   237_145312_164612_186512_154312,
   238_110912_125812_142712_116212,
   239_847513_962513_109312_869313,
   240_648113_736913_837913_667613,
   241_511713_582513_663013_578013,
   242_404613_461113_525513_451413,
   243_320413_365513_417113_320213,
   244_254013_290213_331413_252613,
   245_201713_230613_263713_191913,
   246_171213_196013_224413_150713,
   247_145513_166713_191113_133113,
   248_123713_141913_162813_121513,
   249_105213_120813_138813_101913,
   250_895414_103013_118413_857614]

/-- atmdata/Venus/LAT80S.txt:1210-1360, columns 0 to 4. -/
def venusProfile9 : List ℕ :=
  [100_635202_647902_660902_663902,
   101_603502_615602_627902_625602,
   102_573002_584502_596202_593702,
   103_543802_554702_565802_564002,
   104_515902_526202_536702_531602,
   105_488902_498702_508702_499202,
   106_463102_472402_481802_476502,
   107_438302_447102_456002_449302,
   108_414302_422602_431102_425202,
   109_391702_399502_407502_405502,
   110_369802_377202_384702_380402,
   111_348802_355802_362902_360102,
   112_328802_335402_342102_337102,
   113_309802_316002_322302_316202,
   114_291602_297402_303302_295902,
   115_274002_279502_285102_280702,
   116_257502_262702_268002_265302,
   117_242002_246802_251702_249902,
   118_227302_231802_236402_232502,
   119_213102_217402_221702_219302,
   120_199902_203902_208002_207702,
   121_187402_191102_194902_194802,
   122_175302_178802_182402_181002,
   123_163802_167102_170402_170702,
   124_153102_156202_159302_159902,
   125_142802_145702_148602_147302,
   126_133202_135902_138602_137702,
   127_124002_126502_129002_128302,
   128_115402_117702_120102_119102,
   129_107202_109302_111502_110002,
   130_995103_101502_103502_102202,
   131_922203_940603_959403_943203,
   132_853303_870403_887803_874403,
   133_789603_805303_821503_811903,
   134_728803_743303_758203_753403,
   135_671903_685303_699003_692503,
   136_618503_630903_643503_639103,
   137_568603_579903_591503_591103,
   138_521503_531903_542503_539203,
   139_478103_487703_497403_493303,
   140_437203_445903_454903_451203,
   141_399103_407003_415203_410703,
   142_363403_370603_378103_370603,
   143_330003_336603_343403_338603,
   144_299503_305503_311603_307203,
   145_271203_276603_282103_277203,
   146_245003_249903_254903_249903,
   147_220403_224803_229303_224203,
   148_197703_201703_205703_202003,
   149_176803_180303_183903_179403,
   150_158103_161303_164503_160703,
   151_140803_143803_146803_144203,
   152_124703_127503_130403_127503,
   153_110803_113403_116103_112103,
   154_979704_100403_103003_992604,
   155_862704_885504_909004_885504,
   156_757804_778804_800504_797204,
   157_661504_680804_700604_698504,
   158_570204_587504_605404_599004,
   159_479304_494504_510204_506104,
   160_396704_409804_423304_428204,
   161_327704_339004_350604_347104,
   162_270804_280404_290404_284804,
   163_224004_232304_240804_231304,
   164_185304_192404_199704_189804,
   165_153004_159004_165304_157104,
   166_126304_131404_136804_127704,
   167_103904_108304_112804_104204,
   168_854905_892005_930705_854205,
   169_707805_739405_772505_731005,
   170_585905_612905_641105_601805,
   171_487105_510205_534305_500505,
   172_405005_424605_445305_411405,
   173_336805_353705_371305_352905,
   174_280205_294505_309605_291105,
   175_234005_246305_259205_237405,
   176_195405_205905_217005_199905,
   177_164005_173005_182505_165005,
   178_137605_145405_153605_134205,
   179_114505_121105_128105_120405,
   180_952806_100905_106905_100005,
   181_783306_830506_880606_851006,
   182_644306_684006_726106_686906,
   183_525206_558206_593306_585506,
   184_428306_455806_485006_459506,
   185_345706_368306_392406_383906,
   186_279106_297806_317706_309006,
   187_222106_237306_253406_242006,
   188_176806_189106_202206_188506,
   189_139706_149506_160106_148706,
   190_110306_118306_126806_113406,
   191_864307_927707_995707_861507,
   192_677107_727607_781907_681207,
   193_528107_568207_611307_528007,
   194_411907_443707_478007_410507,
   195_319307_344407_371407_315307,
   196_247507_267307_288607_247407,
   197_190907_206407_223107_189607,
   198_147207_159407_172507_146907,
   199_108707_117807_127607_113807,
   200_802208_870408_944408_827008,
   201_609508_662108_719308_625108,
   202_463208_503708_547808_473708,
   203_352008_383208_417308_355908,
   204_267508_291608_317908_271808,
   205_203308_221908_242208_206608,
   206_154208_168508_184208_160608,
   207_117008_128108_140108_120708,
   208_888409_973109_106608_934209,
   209_674409_739609_811209_741009,
   210_512109_562309_617409_581109,
   211_378409_416009_457309_417409,
   212_279609_307709_338709_319309,
   213_206609_227609_250809_230309,
   214_152609_168409_185809_168909,
   215_112809_124609_137609_126009,
   216_825410_912710_100909_906210,
   217_604010_668710_740310_711510,
   218_442010_489910_543010_505810,
   219_323510_359010_398310_361710,
   220_236710_263010_292210_264010,
   221_173410_192810_214510_196610,
   222_127010_141410_157410_135210,
   223_929811_103710_115610_100210,
   224_681011_760111_848511_754611,
   225_498811_557411_622911_500711,
   226_367511_411111_460011_350511,
   227_270711_303311_339711_277711,
   228_199511_223711_250911_218411,
   229_147011_165111_185311_158911,
   230_108311_121811_136911_116311,
   231_807512_908712_102311_865812,
   232_602112_678312_764212_663512,
   233_449012_506512_571212_535412,
   234_335012_378312_427212_411512,
   235_250012_282612_319512_310512,
   236_190512_215612_244012_246112,
   237_145312_164612_186512_173212,
   238_110912_125812_142712_120412,
   239_847513_962513_109312_999213,
   240_648113_736913_837913_810713,
   241_511713_582513_663013_610913,
   242_404613_461113_525513_467313,
   243_320413_365513_417113_389913,
   244_254013_290213_331413_323313,
   245_201713_230613_263713_250913,
   246_171213_196013_224413_218213,
   247_145513_166713_191113_179813,
   248_123713_141913_162813_138813,
   249_105213_120813_138813_124113,
   250_895414_103013_118413_102313]

/-- atmdata/Venus/LAT80S.txt:1361-1511, columns 0 to 4. -/
def venusProfile10 : List ℕ :=
  [100_635202_647902_660902_636102,
   101_603502_615602_627902_597802,
   102_573002_584502_596202_567302,
   103_543802_554702_565802_538602,
   104_515902_526202_536702_509602,
   105_488902_498702_508702_484302,
   106_463102_472402_481802_458202,
   107_438302_447102_456002_432802,
   108_414302_422602_431102_411602,
   109_391702_399502_407502_392302,
   110_369802_377202_384702_369402,
   111_348802_355802_362902_349102,
   112_328802_335402_342102_328602,
   113_309802_316002_322302_310102,
   114_291602_297402_303302_291602,
   115_274002_279502_285102_274202,
   116_257502_262702_268002_259702,
   117_242002_246802_251702_243702,
   118_227302_231802_236402_229002,
   119_213102_217402_221702_213602,
   120_199902_203902_208002_201002,
   121_187402_191102_194902_188902,
   122_175302_178802_182402_177402,
   123_163802_167102_170402_166602,
   124_153102_156202_159302_155602,
   125_142802_145702_148602_144502,
   126_133202_135902_138602_134402,
   127_124002_126502_129002_125502,
   128_115402_117702_120102_118702,
   129_107202_109302_111502_110802,
   130_995103_101502_103502_103002,
   131_922203_940603_959403_950303,
   132_853303_870403_887803_880803,
   133_789603_805303_821503_809303,
   134_728803_743303_758203_745803,
   135_671903_685303_699003_685403,
   136_618503_630903_643503_627603,
   137_568603_579903_591503_580103,
   138_521503_531903_542503_534203,
   139_478103_487703_497403_491103,
   140_437203_445903_454903_446503,
   141_399103_407003_415203_412903,
   142_363403_370603_378103_373403,
   143_330003_336603_343403_337403,
   144_299503_305503_311603_307203,
   145_271203_276603_282103_280403,
   146_245003_249903_254903_252203,
   147_220403_224803_229303_228203,
   148_197703_201703_205703_205603,
   149_176803_180303_183903_186003,
   150_158103_161303_164503_166703,
   151_140803_143803_146803_148003,
   152_124703_127503_130403_131103,
   153_110803_113403_116103_116903,
   154_979704_100403_103003_102303,
   155_862704_885504_909004_912904,
   156_757804_778804_800504_799704,
   157_661504_680804_700604_706004,
   158_570204_587504_605404_604304,
   159_479304_494504_510204_507804,
   160_396704_409804_423304_415404,
   161_327704_339004_350604_347504,
   162_270804_280404_290404_283104,
   163_224004_232304_240804_236304,
   164_185304_192404_199704_196304,
   165_153004_159004_165304_160004,
   166_126304_131404_136804_129004,
   167_103904_108304_112804_104504,
   168_854905_892005_930705_880505,
   169_707805_739405_772505_745305,
   170_585905_612905_641105_626305,
   171_487105_510205_534305_505505,
   172_405005_424605_445305_427205,
   173_336805_353705_371305_361105,
   174_280205_294505_309605_297605,
   175_234005_246305_259205_248705,
   176_195405_205905_217005_206905,
   177_164005_173005_182505_170605,
   178_137605_145405_153605_138105,
   179_114505_121105_128105_119605,
   180_952806_100905_106905_967606,
   181_783306_830506_880606_801006,
   182_644306_684006_726106_658006,
   183_525206_558206_593306_528906,
   184_428306_455806_485006_452406,
   185_345706_368306_392406_375206,
   186_279106_297806_317706_286206,
   187_222106_237306_253406_220906,
   188_176806_189106_202206_174706,
   189_139706_149506_160106_134606,
   190_110306_118306_126806_101706,
   191_864307_927707_995707_829907,
   192_677107_727607_781907_654607,
   193_528107_568207_611307_538407,
   194_411907_443707_478007_438607,
   195_319307_344407_371407_343707,
   196_247507_267307_288607_271507,
   197_190907_206407_223107_205607,
   198_147207_159407_172507_161407,
   199_108707_117807_127607_113707,
   200_802208_870408_944408_850908,
   201_609508_662108_719308_664808,
   202_463208_503708_547808_501608,
   203_352008_383208_417308_383908,
   204_267508_291608_317908_294608,
   205_203308_221908_242208_218308,
   206_154208_168508_184208_171408,
   207_117008_128108_140108_133508,
   208_888409_973109_106608_100208,
   209_674409_739609_811209_743309,
   210_512109_562309_617409_535909,
   211_378409_416009_457309_396409,
   212_279609_307709_338709_289409,
   213_206609_227609_250809_214309,
   214_152609_168409_185809_152509,
   215_112809_124609_137609_111709,
   216_825410_912710_100909_817910,
   217_604010_668710_740310_576210,
   218_442010_489910_543010_422710,
   219_323510_359010_398310_309310,
   220_236710_263010_292210_228510,
   221_173410_192810_214510_191010,
   222_127010_141410_157410_139010,
   223_929811_103710_115610_950611,
   224_681011_760111_848511_684811,
   225_498811_557411_622911_461011,
   226_367511_411111_460011_349911,
   227_270711_303311_339711_275311,
   228_199511_223711_250911_207911,
   229_147011_165111_185311_173011,
   230_108311_121811_136911_131011,
   231_807512_908712_102311_100611,
   232_602112_678312_764212_735012,
   233_449012_506512_571212_525912,
   234_335012_378312_427212_379612,
   235_250012_282612_319512_283612,
   236_190512_215612_244012_201612,
   237_145312_164612_186512_157012,
   238_110912_125812_142712_124612,
   239_847513_962513_109312_959913,
   240_648113_736913_837913_713213,
   241_511713_582513_663013_568013,
   242_404613_461113_525513_430913,
   243_320413_365513_417113_349113,
   244_254013_290213_331413_267613,
   245_201713_230613_263713_217813,
   246_171213_196013_224413_181513,
   247_145513_166713_191113_145013,
   248_123713_141913_162813_122213,
   249_105213_120813_138813_100913,
   250_895414_103013_118413_843114]

/-- atmdata/Venus/LAT80S.txt:1512-1662, columns 0 to 4. -/
def venusProfile11 : List ℕ :=
  [100_635202_647902_660902_646602,
   101_603502_615602_627902_619802,
   102_573002_584502_596202_586502,
   103_543802_554702_565802_555102,
   104_515902_526202_536702_525802,
   105_488902_498702_508702_496402,
   106_463102_472402_481802_471802,
   107_438302_447102_456002_445402,
   108_414302_422602_431102_417902,
   109_391702_399502_407502_397502,
   110_369802_377202_384702_375002,
   111_348802_355802_362902_353402,
   112_328802_335402_342102_333502,
   113_309802_316002_322302_316802,
   114_291602_297402_303302_298602,
   115_274002_279502_285102_278002,
   116_257502_262702_268002_263602,
   117_242002_246802_251702_245202,
   118_227302_231802_236402_232202,
   119_213102_217402_221702_217502,
   120_199902_203902_208002_203702,
   121_187402_191102_194902_191502,
   122_175302_178802_182402_178702,
   123_163802_167102_170402_167302,
   124_153102_156202_159302_155602,
   125_142802_145702_148602_145002,
   126_133202_135902_138602_136002,
   127_124002_126502_129002_127102,
   128_115402_117702_120102_118402,
   129_107202_109302_111502_109802,
   130_995103_101502_103502_102402,
   131_922203_940603_959403_944203,
   132_853303_870403_887803_875603,
   133_789603_805303_821503_810603,
   134_728803_743303_758203_757603,
   135_671903_685303_699003_695303,
   136_618503_630903_643503_641403,
   137_568603_579903_591503_591703,
   138_521503_531903_542503_539703,
   139_478103_487703_497403_500203,
   140_437203_445903_454903_459503,
   141_399103_407003_415203_419403,
   142_363403_370603_378103_379503,
   143_330003_336603_343403_345203,
   144_299503_305503_311603_315403,
   145_271203_276603_282103_284903,
   146_245003_249903_254903_255603,
   147_220403_224803_229303_228903,
   148_197703_201703_205703_206403,
   149_176803_180303_183903_185203,
   150_158103_161303_164503_166703,
   151_140803_143803_146803_149503,
   152_124703_127503_130403_132603,
   153_110803_113403_116103_117103,
   154_979704_100403_103003_104103,
   155_862704_885504_909004_930504,
   156_757804_778804_800504_823104,
   157_661504_680804_700604_707404,
   158_570204_587504_605404_604504,
   159_479304_494504_510204_505304,
   160_396704_409804_423304_416904,
   161_327704_339004_350604_345104,
   162_270804_280404_290404_274504,
   163_224004_232304_240804_226104,
   164_185304_192404_199704_191504,
   165_153004_159004_165304_162104,
   166_126304_131404_136804_127304,
   167_103904_108304_112804_101904,
   168_854905_892005_930705_839305,
   169_707805_739405_772505_709205,
   170_585905_612905_641105_579705,
   171_487105_510205_534305_489205,
   172_405005_424605_445305_403605,
   173_336805_353705_371305_339705,
   174_280205_294505_309605_281605,
   175_234005_246305_259205_242705,
   176_195405_205905_217005_200405,
   177_164005_173005_182505_165705,
   178_137605_145405_153605_133805,
   179_114505_121105_128105_115205,
   180_952806_100905_106905_981106,
   181_783306_830506_880606_790706,
   182_644306_684006_726106_657606,
   183_525206_558206_593306_539706,
   184_428306_455806_485006_451706,
   185_345706_368306_392406_372106,
   186_279106_297806_317706_301906,
   187_222106_237306_253406_249806,
   188_176806_189106_202206_197206,
   189_139706_149506_160106_159806,
   190_110306_118306_126806_133706,
   191_864307_927707_995707_103606,
   192_677107_727607_781907_798907,
   193_528107_568207_611307_618207,
   194_411907_443707_478007_475907,
   195_319307_344407_371407_382707,
   196_247507_267307_288607_304307,
   197_190907_206407_223107_228007,
   198_147207_159407_172507_182007,
   199_108707_117807_127607_130807,
   200_802208_870408_944408_100807,
   201_609508_662108_719308_732708,
   202_463208_503708_547808_549108,
   203_352008_383208_417308_427708,
   204_267508_291608_317908_328608,
   205_203308_221908_242208_234908,
   206_154208_168508_184208_186908,
   207_117008_128108_140108_135608,
   208_888409_973109_106608_991209,
   209_674409_739609_811209_771909,
   210_512109_562309_617409_579009,
   211_378409_416009_457309_434309,
   212_279609_307709_338709_336109,
   213_206609_227609_250809_249709,
   214_152609_168409_185809_191909,
   215_112809_124609_137609_133209,
   216_825410_912710_100909_968710,
   217_604010_668710_740310_694710,
   218_442010_489910_543010_508110,
   219_323510_359010_398310_368710,
   220_236710_263010_292210_267710,
   221_173410_192810_214510_192610,
   222_127010_141410_157410_146310,
   223_929811_103710_115610_107810,
   224_681011_760111_848511_835611,
   225_498811_557411_622911_561911,
   226_367511_411111_460011_382311,
   227_270711_303311_339711_295411,
   228_199511_223711_250911_214711,
   229_147011_165111_185311_161111,
   230_108311_121811_136911_109111,
   231_807512_908712_102311_758712,
   232_602112_678312_764212_538712,
   233_449012_506512_571212_414812,
   234_335012_378312_427212_332912,
   235_250012_282612_319512_247212,
   236_190512_215612_244012_186812,
   237_145312_164612_186512_134912,
   238_110912_125812_142712_104112,
   239_847513_962513_109312_764413,
   240_648113_736913_837913_617613,
   241_511713_582513_663013_525713,
   242_404613_461113_525513_390813,
   243_320413_365513_417113_310113,
   244_254013_290213_331413_257113,
   245_201713_230613_263713_218513,
   246_171213_196013_224413_206813,
   247_145513_166713_191113_188513,
   248_123713_141913_162813_162313,
   249_105213_120813_138813_140813,
   250_895414_103013_118413_114413]

/-- atmdata/Venus/LAT80S.txt:1663-1813, columns 0 to 4. -/
def venusProfile12 : List ℕ :=
  [100_635202_647902_660902_656302,
   101_603502_615602_627902_627502,
   102_573002_584502_596202_592502,
   103_543802_554702_565802_559002,
   104_515902_526202_536702_530202,
   105_488902_498702_508702_504602,
   106_463102_472402_481802_475202,
   107_438302_447102_456002_448602,
   108_414302_422602_431102_422902,
   109_391702_399502_407502_401702,
   110_369802_377202_384702_379602,
   111_348802_355802_362902_356702,
   112_328802_335402_342102_337702,
   113_309802_316002_322302_317202,
   114_291602_297402_303302_300102,
   115_274002_279502_285102_282302,
   116_257502_262702_268002_268402,
   117_242002_246802_251702_252602,
   118_227302_231802_236402_236702,
   119_213102_217402_221702_222302,
   120_199902_203902_208002_207002,
   121_187402_191102_194902_194602,
   122_175302_178802_182402_183302,
   123_163802_167102_170402_171202,
   124_153102_156202_159302_161102,
   125_142802_145702_148602_150302,
   126_133202_135902_138602_139802,
   127_124002_126502_129002_130802,
   128_115402_117702_120102_121002,
   129_107202_109302_111502_113602,
   130_995103_101502_103502_106102,
   131_922203_940603_959403_976503,
   132_853303_870403_887803_904303,
   133_789603_805303_821503_843603,
   134_728803_743303_758203_777703,
   135_671903_685303_699003_712503,
   136_618503_630903_643503_651003,
   137_568603_579903_591503_599603,
   138_521503_531903_542503_551103,
   139_478103_487703_497403_502303,
   140_437203_445903_454903_458303,
   141_399103_407003_415203_415803,
   142_363403_370603_378103_376903,
   143_330003_336603_343403_339203,
   144_299503_305503_311603_305003,
   145_271203_276603_282103_273203,
   146_245003_249903_254903_245003,
   147_220403_224803_229303_222003,
   148_197703_201703_205703_200903,
   149_176803_180303_183903_179803,
   150_158103_161303_164503_158503,
   151_140803_143803_146803_140803,
   152_124703_127503_130403_125203,
   153_110803_113403_116103_112103,
   154_979704_100403_103003_988404,
   155_862704_885504_909004_887004,
   156_757804_778804_800504_772004,
   157_661504_680804_700604_671204,
   158_570204_587504_605404_573304,
   159_479304_494504_510204_477004,
   160_396704_409804_423304_397204,
   161_327704_339004_350604_326504,
   162_270804_280404_290404_274604,
   163_224004_232304_240804_233104,
   164_185304_192404_199704_190904,
   165_153004_159004_165304_158704,
   166_126304_131404_136804_134504,
   167_103904_108304_112804_113604,
   168_854905_892005_930705_956405,
   169_707805_739405_772505_796705,
   170_585905_612905_641105_660705,
   171_487105_510205_534305_541705,
   172_405005_424605_445305_456405,
   173_336805_353705_371305_378105,
   174_280205_294505_309605_311505,
   175_234005_246305_259205_256105,
   176_195405_205905_217005_207805,
   177_164005_173005_182505_171505,
   178_137605_145405_153605_137605,
   179_114505_121105_128105_117405,
   180_952806_100905_106905_976606,
   181_783306_830506_880606_823906,
   182_644306_684006_726106_691806,
   183_525206_558206_593306_578306,
   184_428306_455806_485006_476006,
   185_345706_368306_392406_388306,
   186_279106_297806_317706_301806,
   187_222106_237306_253406_244306,
   188_176806_189106_202206_194406,
   189_139706_149506_160106_153706,
   190_110306_118306_126806_126606,
   191_864307_927707_995707_955007,
   192_677107_727607_781907_735807,
   193_528107_568207_611307_543407,
   194_411907_443707_478007_444207,
   195_319307_344407_371407_336007,
   196_247507_267307_288607_243307,
   197_190907_206407_223107_184007,
   198_147207_159407_172507_137807,
   199_108707_117807_127607_103007,
   200_802208_870408_944408_752408,
   201_609508_662108_719308_581508,
   202_463208_503708_547808_444108,
   203_352008_383208_417308_320708,
   204_267508_291608_317908_257308,
   205_203308_221908_242208_207708,
   206_154208_168508_184208_148208,
   207_117008_128108_140108_114508,
   208_888409_973109_106608_945909,
   209_674409_739609_811209_696209,
   210_512109_562309_617409_544209,
   211_378409_416009_457309_420909,
   212_279609_307709_338709_308909,
   213_206609_227609_250809_235709,
   214_152609_168409_185809_175809,
   215_112809_124609_137609_135309,
   216_825410_912710_100909_989910,
   217_604010_668710_740310_725010,
   218_442010_489910_543010_534910,
   219_323510_359010_398310_389410,
   220_236710_263010_292210_281110,
   221_173410_192810_214510_210310,
   222_127010_141410_157410_144910,
   223_929811_103710_115610_988611,
   224_681011_760111_848511_727811,
   225_498811_557411_622911_497911,
   226_367511_411111_460011_371511,
   227_270711_303311_339711_286511,
   228_199511_223711_250911_199211,
   229_147011_165111_185311_142911,
   230_108311_121811_136911_104711,
   231_807512_908712_102311_779512,
   232_602112_678312_764212_624112,
   233_449012_506512_571212_497012,
   234_335012_378312_427212_365512,
   235_250012_282612_319512_264412,
   236_190512_215612_244012_206012,
   237_145312_164612_186512_160812,
   238_110912_125812_142712_116112,
   239_847513_962513_109312_935313,
   240_648113_736913_837913_670813,
   241_511713_582513_663013_501413,
   242_404613_461113_525513_351813,
   243_320413_365513_417113_270313,
   244_254013_290213_331413_202213,
   245_201713_230613_263713_146813,
   246_171213_196013_224413_133513,
   247_145513_166713_191113_122513,
   248_123713_141913_162813_120213,
   249_105213_120813_138813_975314,
   250_895414_103013_118413_808714]

/-- atmdata/Venus/LAT80S.txt:1814-1964, columns 0 to 4. -/
def venusProfile13 : List ℕ :=
  [100_635202_647902_660902_623202,
   101_603502_615602_627902_596202,
   102_573002_584502_596202_561502,
   103_543802_554702_565802_539002,
   104_515902_526202_536702_512702,
   105_488902_498702_508702_485702,
   106_463102_472402_481802_460702,
   107_438302_447102_456002_435602,
   108_414302_422602_431102_412302,
   109_391702_399502_407502_391602,
   110_369802_377202_384702_371202,
   111_348802_355802_362902_347602,
   112_328802_335402_342102_324802,
   113_309802_316002_322302_307102,
   114_291602_297402_303302_287302,
   115_274002_279502_285102_268602,
   116_257502_262702_268002_250202,
   117_242002_246802_251702_235102,
   118_227302_231802_236402_222302,
   119_213102_217402_221702_210802,
   120_199902_203902_208002_198902,
   121_187402_191102_194902_187602,
   122_175302_178802_182402_175702,
   123_163802_167102_170402_163902,
   124_153102_156202_159302_153702,
   125_142802_145702_148602_144202,
   126_133202_135902_138602_135902,
   127_124002_126502_129002_127802,
   128_115402_117702_120102_119502,
   129_107202_109302_111502_111002,
   130_995103_101502_103502_101602,
   131_922203_940603_959403_937103,
   132_853303_870403_887803_869603,
   133_789603_805303_821503_803003,
   134_728803_743303_758203_736503,
   135_671903_685303_699003_675803,
   136_618503_630903_643503_624203,
   137_568603_579903_591503_575603,
   138_521503_531903_542503_525703,
   139_478103_487703_497403_482603,
   140_437203_445903_454903_437903,
   141_399103_407003_415203_402603,
   142_363403_370603_378103_366003,
   143_330003_336603_343403_332803,
   144_299503_305503_311603_301103,
   145_271203_276603_282103_273403,
   146_245003_249903_254903_244003,
   147_220403_224803_229303_219003,
   148_197703_201703_205703_198703,
   149_176803_180303_183903_177403,
   150_158103_161303_164503_157803,
   151_140803_143803_146803_141603,
   152_124703_127503_130403_126203,
   153_110803_113403_116103_111803,
   154_979704_100403_103003_100403,
   155_862704_885504_909004_905004,
   156_757804_778804_800504_796304,
   157_661504_680804_700604_696204,
   158_570204_587504_605404_592504,
   159_479304_494504_510204_512104,
   160_396704_409804_423304_428504,
   161_327704_339004_350604_343704,
   162_270804_280404_290404_286304,
   163_224004_232304_240804_237304,
   164_185304_192404_199704_196704,
   165_153004_159004_165304_161304,
   166_126304_131404_136804_135604,
   167_103904_108304_112804_113304,
   168_854905_892005_930705_928805,
   169_707805_739405_772505_772405,
   170_585905_612905_641105_617505,
   171_487105_510205_534305_527705,
   172_405005_424605_445305_434005,
   173_336805_353705_371305_358105,
   174_280205_294505_309605_296305,
   175_234005_246305_259205_250005,
   176_195405_205905_217005_216905,
   177_164005_173005_182505_178605,
   178_137605_145405_153605_141605,
   179_114505_121105_128105_119905,
   180_952806_100905_106905_968406,
   181_783306_830506_880606_797306,
   182_644306_684006_726106_685506,
   183_525206_558206_593306_543006,
   184_428306_455806_485006_444706,
   185_345706_368306_392406_362806,
   186_279106_297806_317706_296506,
   187_222106_237306_253406_236806,
   188_176806_189106_202206_190206,
   189_139706_149506_160106_147006,
   190_110306_118306_126806_120406,
   191_864307_927707_995707_966607,
   192_677107_727607_781907_739207,
   193_528107_568207_611307_581307,
   194_411907_443707_478007_450407,
   195_319307_344407_371407_349407,
   196_247507_267307_288607_262707,
   197_190907_206407_223107_196707,
   198_147207_159407_172507_150607,
   199_108707_117807_127607_113807,
   200_802208_870408_944408_850408,
   201_609508_662108_719308_680408,
   202_463208_503708_547808_513108,
   203_352008_383208_417308_382408,
   204_267508_291608_317908_307808,
   205_203308_221908_242208_238108,
   206_154208_168508_184208_173308,
   207_117008_128108_140108_140408,
   208_888409_973109_106608_108508,
   209_674409_739609_811209_828309,
   210_512109_562309_617409_579109,
   211_378409_416009_457309_400009,
   212_279609_307709_338709_323809,
   213_206609_227609_250809_252809,
   214_152609_168409_185809_182109,
   215_112809_124609_137609_135409,
   216_825410_912710_100909_997810,
   217_604010_668710_740310_747810,
   218_442010_489910_543010_557310,
   219_323510_359010_398310_407110,
   220_236710_263010_292210_292410,
   221_173410_192810_214510_199610,
   222_127010_141410_157410_145210,
   223_929811_103710_115610_107110,
   224_681011_760111_848511_736911,
   225_498811_557411_622911_506911,
   226_367511_411111_460011_414011,
   227_270711_303311_339711_314711,
   228_199511_223711_250911_243011,
   229_147011_165111_185311_187111,
   230_108311_121811_136911_139511,
   231_807512_908712_102311_105411,
   232_602112_678312_764212_784612,
   233_449012_506512_571212_554212,
   234_335012_378312_427212_438512,
   235_250012_282612_319512_305012,
   236_190512_215612_244012_245512,
   237_145312_164612_186512_175912,
   238_110912_125812_142712_140512,
   239_847513_962513_109312_105412,
   240_648113_736913_837913_803113,
   241_511713_582513_663013_624613,
   242_404613_461113_525513_530613,
   243_320413_365513_417113_471413,
   244_254013_290213_331413_368713,
   245_201713_230613_263713_279013,
   246_171213_196013_224413_224413,
   247_145513_166713_191113_187613,
   248_123713_141913_162813_151913,
   249_105213_120813_138813_131113,
   250_895414_103013_118413_105913]

/-- atmdata/Venus/LAT80S.txt:1965-2115, columns 0 to 4. -/
def venusProfile14 : List ℕ :=
  [100_635202_647902_660902_641602,
   101_603502_615602_627902_612502,
   102_573002_584502_596202_585602,
   103_543802_554702_565802_558202,
   104_515902_526202_536702_531402,
   105_488902_498702_508702_509402,
   106_463102_472402_481802_485902,
   107_438302_447102_456002_458702,
   108_414302_422602_431102_434802,
   109_391702_399502_407502_412002,
   110_369802_377202_384702_390802,
   111_348802_355802_362902_370502,
   112_328802_335402_342102_347702,
   113_309802_316002_322302_323602,
   114_291602_297402_303302_303602,
   115_274002_279502_285102_285802,
   116_257502_262702_268002_266302,
   117_242002_246802_251702_247502,
   118_227302_231802_236402_231602,
   119_213102_217402_221702_216402,
   120_199902_203902_208002_203002,
   121_187402_191102_194902_191502,
   122_175302_178802_182402_178002,
   123_163802_167102_170402_165602,
   124_153102_156202_159302_154602,
   125_142802_145702_148602_146402,
   126_133202_135902_138602_136602,
   127_124002_126502_129002_126002,
   128_115402_117702_120102_117102,
   129_107202_109302_111502_108202,
   130_995103_101502_103502_998603,
   131_922203_940603_959403_921103,
   132_853303_870403_887803_855703,
   133_789603_805303_821503_795903,
   134_728803_743303_758203_737503,
   135_671903_685303_699003_676203,
   136_618503_630903_643503_619203,
   137_568603_579903_591503_570703,
   138_521503_531903_542503_525803,
   139_478103_487703_497403_485203,
   140_437203_445903_454903_445403,
   141_399103_407003_415203_406303,
   142_363403_370603_378103_369603,
   143_330003_336603_343403_339603,
   144_299503_305503_311603_307903,
   145_271203_276603_282103_277103,
   146_245003_249903_254903_253003,
   147_220403_224803_229303_228603,
   148_197703_201703_205703_207503,
   149_176803_180303_183903_184003,
   150_158103_161303_164503_163803,
   151_140803_143803_146803_145503,
   152_124703_127503_130403_129903,
   153_110803_113403_116103_116603,
   154_979704_100403_103003_103303,
   155_862704_885504_909004_891504,
   156_757804_778804_800504_795704,
   157_661504_680804_700604_700404,
   158_570204_587504_605404_594204,
   159_479304_494504_510204_505504,
   160_396704_409804_423304_408504,
   161_327704_339004_350604_341004,
   162_270804_280404_290404_282504,
   163_224004_232304_240804_230604,
   164_185304_192404_199704_194504,
   165_153004_159004_165304_156304,
   166_126304_131404_136804_131004,
   167_103904_108304_112804_109104,
   168_854905_892005_930705_932005,
   169_707805_739405_772505_772105,
   170_585905_612905_641105_637105,
   171_487105_510205_534305_529605,
   172_405005_424605_445305_448205,
   173_336805_353705_371305_365905,
   174_280205_294505_309605_302705,
   175_234005_246305_259205_243805,
   176_195405_205905_217005_207905,
   177_164005_173005_182505_171805,
   178_137605_145405_153605_153305,
   179_114505_121105_128105_128405,
   180_952806_100905_106905_108305,
   181_783306_830506_880606_858806,
   182_644306_684006_726106_684206,
   183_525206_558206_593306_555406,
   184_428306_455806_485006_449706,
   185_345706_368306_392406_364806,
   186_279106_297806_317706_287906,
   187_222106_237306_253406_227306,
   188_176806_189106_202206_184506,
   189_139706_149506_160106_152006,
   190_110306_118306_126806_123206,
   191_864307_927707_995707_960507,
   192_677107_727607_781907_728807,
   193_528107_568207_611307_552607,
   194_411907_443707_478007_454007,
   195_319307_344407_371407_361807,
   196_247507_267307_288607_275807,
   197_190907_206407_223107_204107,
   198_147207_159407_172507_158907,
   199_108707_117807_127607_122707,
   200_802208_870408_944408_949208,
   201_609508_662108_719308_704408,
   202_463208_503708_547808_530108,
   203_352008_383208_417308_403608,
   204_267508_291608_317908_287508,
   205_203308_221908_242208_219808,
   206_154208_168508_184208_163708,
   207_117008_128108_140108_123008,
   208_888409_973109_106608_940209,
   209_674409_739609_811209_678209,
   210_512109_562309_617409_510809,
   211_378409_416009_457309_370109,
   212_279609_307709_338709_277609,
   213_206609_227609_250809_194809,
   214_152609_168409_185809_135209,
   215_112809_124609_137609_100309,
   216_825410_912710_100909_768510,
   217_604010_668710_740310_624110,
   218_442010_489910_543010_481210,
   219_323510_359010_398310_358210,
   220_236710_263010_292210_259410,
   221_173410_192810_214510_189210,
   222_127010_141410_157410_144510,
   223_929811_103710_115610_987611,
   224_681011_760111_848511_744511,
   225_498811_557411_622911_514511,
   226_367511_411111_460011_379511,
   227_270711_303311_339711_289011,
   228_199511_223711_250911_216311,
   229_147011_165111_185311_159511,
   230_108311_121811_136911_131911,
   231_807512_908712_102311_850812,
   232_602112_678312_764212_622212,
   233_449012_506512_571212_468112,
   234_335012_378312_427212_349812,
   235_250012_282612_319512_296012,
   236_190512_215612_244012_212612,
   237_145312_164612_186512_166312,
   238_110912_125812_142712_127512,
   239_847513_962513_109312_889413,
   240_648113_736913_837913_742913,
   241_511713_582513_663013_608213,
   242_404613_461113_525513_505713,
   243_320413_365513_417113_415413,
   244_254013_290213_331413_360413,
   245_201713_230613_263713_281213,
   246_171213_196013_224413_247913,
   247_145513_166713_191113_199513,
   248_123713_141913_162813_168213,
   249_105213_120813_138813_131013,
   250_895414_103013_118413_105313]

/-- atmdata/Venus/LAT80S.txt:2116-2266, columns 0 to 4. -/
def venusProfile15 : List ℕ :=
  [100_635202_647902_660902_651002,
   101_603502_615602_627902_620702,
   102_573002_584502_596202_591602,
   103_543802_554702_565802_562302,
   104_515902_526202_536702_536602,
   105_488902_498702_508702_508802,
   106_463102_472402_481802_480602,
   107_438302_447102_456002_454102,
   108_414302_422602_431102_423702,
   109_391702_399502_407502_401602,
   110_369802_377202_384702_375302,
   111_348802_355802_362902_355102,
   112_328802_335402_342102_334802,
   113_309802_316002_322302_314902,
   114_291602_297402_303302_296702,
   115_274002_279502_285102_277702,
   116_257502_262702_268002_259402,
   117_242002_246802_251702_244402,
   118_227302_231802_236402_230302,
   119_213102_217402_221702_216002,
   120_199902_203902_208002_201902,
   121_187402_191102_194902_190802,
   122_175302_178802_182402_179102,
   123_163802_167102_170402_165702,
   124_153102_156202_159302_154002,
   125_142802_145702_148602_143102,
   126_133202_135902_138602_132602,
   127_124002_126502_129002_122802,
   128_115402_117702_120102_113202,
   129_107202_109302_111502_105802,
   130_995103_101502_103502_979803,
   131_922203_940603_959403_904203,
   132_853303_870403_887803_840903,
   133_789603_805303_821503_775003,
   134_728803_743303_758203_714203,
   135_671903_685303_699003_655103,
   136_618503_630903_643503_605903,
   137_568603_579903_591503_558703,
   138_521503_531903_542503_510903,
   139_478103_487703_497403_465603,
   140_437203_445903_454903_425803,
   141_399103_407003_415203_386003,
   142_363403_370603_378103_352503,
   143_330003_336603_343403_320503,
   144_299503_305503_311603_292503,
   145_271203_276603_282103_266903,
   146_245003_249903_254903_243403,
   147_220403_224803_229303_218403,
   148_197703_201703_205703_193603,
   149_176803_180303_183903_175603,
   150_158103_161303_164503_157203,
   151_140803_143803_146803_141203,
   152_124703_127503_130403_126403,
   153_110803_113403_116103_112203,
   154_979704_100403_103003_985304,
   155_862704_885504_909004_854704,
   156_757804_778804_800504_748704,
   157_661504_680804_700604_672604,
   158_570204_587504_605404_568204,
   159_479304_494504_510204_481304,
   160_396704_409804_423304_395704,
   161_327704_339004_350604_327704,
   162_270804_280404_290404_270504,
   163_224004_232304_240804_227204,
   164_185304_192404_199704_185904,
   165_153004_159004_165304_155704,
   166_126304_131404_136804_130104,
   167_103904_108304_112804_107704,
   168_854905_892005_930705_888305,
   169_707805_739405_772505_735605,
   170_585905_612905_641105_624605,
   171_487105_510205_534305_508305,
   172_405005_424605_445305_420005,
   173_336805_353705_371305_339805,
   174_280205_294505_309605_282905,
   175_234005_246305_259205_236505,
   176_195405_205905_217005_200005,
   177_164005_173005_182505_165905,
   178_137605_145405_153605_146805,
   179_114505_121105_128105_122905,
   180_952806_100905_106905_101805,
   181_783306_830506_880606_850106,
   182_644306_684006_726106_689106,
   183_525206_558206_593306_570206,
   184_428306_455806_485006_455506,
   185_345706_368306_392406_367406,
   186_279106_297806_317706_302006,
   187_222106_237306_253406_233306,
   188_176806_189106_202206_190406,
   189_139706_149506_160106_151706,
   190_110306_118306_126806_122306,
   191_864307_927707_995707_924107,
   192_677107_727607_781907_696607,
   193_528107_568207_611307_556507,
   194_411907_443707_478007_433707,
   195_319307_344407_371407_324107,
   196_247507_267307_288607_252707,
   197_190907_206407_223107_186307,
   198_147207_159407_172507_149807,
   199_108707_117807_127607_106307,
   200_802208_870408_944408_773108,
   201_609508_662108_719308_604908,
   202_463208_503708_547808_461108,
   203_352008_383208_417308_364608,
   204_267508_291608_317908_268508,
   205_203308_221908_242208_202908,
   206_154208_168508_184208_154008,
   207_117008_128108_140108_121308,
   208_888409_973109_106608_907609,
   209_674409_739609_811209_696109,
   210_512109_562309_617409_540409,
   211_378409_416009_457309_398909,
   212_279609_307709_338709_279309,
   213_206609_227609_250809_202009,
   214_152609_168409_185809_156109,
   215_112809_124609_137609_110309,
   216_825410_912710_100909_843410,
   217_604010_668710_740310_596710,
   218_442010_489910_543010_478110,
   219_323510_359010_398310_358810,
   220_236710_263010_292210_259310,
   221_173410_192810_214510_197910,
   222_127010_141410_157410_138010,
   223_929811_103710_115610_102210,
   224_681011_760111_848511_732211,
   225_498811_557411_622911_508511,
   226_367511_411111_460011_402711,
   227_270711_303311_339711_303411,
   228_199511_223711_250911_219111,
   229_147011_165111_185311_151811,
   230_108311_121811_136911_109911,
   231_807512_908712_102311_807012,
   232_602112_678312_764212_548412,
   233_449012_506512_571212_439612,
   234_335012_378312_427212_376512,
   235_250012_282612_319512_298112,
   236_190512_215612_244012_223712,
   237_145312_164612_186512_162312,
   238_110912_125812_142712_119312,
   239_847513_962513_109312_938213,
   240_648113_736913_837913_704813,
   241_511713_582513_663013_504413,
   242_404613_461113_525513_419813,
   243_320413_365513_417113_339713,
   244_254013_290213_331413_267813,
   245_201713_230613_263713_221213,
   246_171213_196013_224413_188213,
   247_145513_166713_191113_140013,
   248_123713_141913_162813_128713,
   249_105213_120813_138813_111413,
   250_895414_103013_118413_903414]

/-- atmdata/Venus/LAT80S.txt:2267-2417, columns 0 to 4. -/
def venusProfile16 : List ℕ :=
  [100_635202_647902_660902_662902,
   101_603502_615602_627902_631202,
   102_573002_584502_596202_600202,
   103_543802_554702_565802_569202,
   104_515902_526202_536702_534702,
   105_488902_498702_508702_504102,
   106_463102_472402_481802_478902,
   107_438302_447102_456002_452602,
   108_414302_422602_431102_426102,
   109_391702_399502_407502_403502,
   110_369802_377202_384702_379002,
   111_348802_355802_362902_357702,
   112_328802_335402_342102_338202,
   113_309802_316002_322302_319602,
   114_291602_297402_303302_302102,
   115_274002_279502_285102_284702,
   116_257502_262702_268002_266002,
   117_242002_246802_251702_249302,
   118_227302_231802_236402_232602,
   119_213102_217402_221702_219002,
   120_199902_203902_208002_207202,
   121_187402_191102_194902_196502,
   122_175302_178802_182402_183102,
   123_163802_167102_170402_172102,
   124_153102_156202_159302_161802,
   125_142802_145702_148602_150502,
   126_133202_135902_138602_140502,
   127_124002_126502_129002_130102,
   128_115402_117702_120102_121202,
   129_107202_109302_111502_112102,
   130_995103_101502_103502_103802,
   131_922203_940603_959403_955503,
   132_853303_870403_887803_886503,
   133_789603_805303_821503_820603,
   134_728803_743303_758203_761803,
   135_671903_685303_699003_695903,
   136_618503_630903_643503_636103,
   137_568603_579903_591503_584603,
   138_521503_531903_542503_538003,
   139_478103_487703_497403_492103,
   140_437203_445903_454903_457203,
   141_399103_407003_415203_418103,
   142_363403_370603_378103_380603,
   143_330003_336603_343403_347203,
   144_299503_305503_311603_316803,
   145_271203_276603_282103_285503,
   146_245003_249903_254903_258803,
   147_220403_224803_229303_233403,
   148_197703_201703_205703_206903,
   149_176803_180303_183903_185603,
   150_158103_161303_164503_166003,
   151_140803_143803_146803_147503,
   152_124703_127503_130403_132803,
   153_110803_113403_116103_119703,
   154_979704_100403_103003_106603,
   155_862704_885504_909004_926204,
   156_757804_778804_800504_817904,
   157_661504_680804_700604_708204,
   158_570204_587504_605404_624704,
   159_479304_494504_510204_524504,
   160_396704_409804_423304_433004,
   161_327704_339004_350604_353604,
   162_270804_280404_290404_289204,
   163_224004_232304_240804_238204,
   164_185304_192404_199704_197104,
   165_153004_159004_165304_162404,
   166_126304_131404_136804_134804,
   167_103904_108304_112804_110904,
   168_854905_892005_930705_883205,
   169_707805_739405_772505_729005,
   170_585905_612905_641105_599305,
   171_487105_510205_534305_506505,
   172_405005_424605_445305_431505,
   173_336805_353705_371305_370505,
   174_280205_294505_309605_306905,
   175_234005_246305_259205_261005,
   176_195405_205905_217005_217205,
   177_164005_173005_182505_179305,
   178_137605_145405_153605_156705,
   179_114505_121105_128105_130005,
   180_952806_100905_106905_104305,
   181_783306_830506_880606_849006,
   182_644306_684006_726106_696606,
   183_525206_558206_593306_617006,
   184_428306_455806_485006_482806,
   185_345706_368306_392406_385906,
   186_279106_297806_317706_305506,
   187_222106_237306_253406_254106,
   188_176806_189106_202206_208106,
   189_139706_149506_160106_160906,
   190_110306_118306_126806_128406,
   191_864307_927707_995707_102506,
   192_677107_727607_781907_750707,
   193_528107_568207_611307_575007,
   194_411907_443707_478007_474707,
   195_319307_344407_371407_363907,
   196_247507_267307_288607_284707,
   197_190907_206407_223107_205007,
   198_147207_159407_172507_149307,
   199_108707_117807_127607_109007,
   200_802208_870408_944408_816608,
   201_609508_662108_719308_590908,
   202_463208_503708_547808_451608,
   203_352008_383208_417308_324408,
   204_267508_291608_317908_244508,
   205_203308_221908_242208_181808,
   206_154208_168508_184208_141208,
   207_117008_128108_140108_104508,
   208_888409_973109_106608_758509,
   209_674409_739609_811209_645809,
   210_512109_562309_617409_535909,
   211_378409_416009_457309_403909,
   212_279609_307709_338709_303409,
   213_206609_227609_250809_222409,
   214_152609_168409_185809_164809,
   215_112809_124609_137609_128309,
   216_825410_912710_100909_976710,
   217_604010_668710_740310_702510,
   218_442010_489910_543010_481110,
   219_323510_359010_398310_364210,
   220_236710_263010_292210_262110,
   221_173410_192810_214510_184110,
   222_127010_141410_157410_135410,
   223_929811_103710_115610_929911,
   224_681011_760111_848511_730511,
   225_498811_557411_622911_509311,
   226_367511_411111_460011_372711,
   227_270711_303311_339711_281911,
   228_199511_223711_250911_193611,
   229_147011_165111_185311_149111,
   230_108311_121811_136911_112811,
   231_807512_908712_102311_861112,
   232_602112_678312_764212_668512,
   233_449012_506512_571212_471812,
   234_335012_378312_427212_356212,
   235_250012_282612_319512_276112,
   236_190512_215612_244012_216012,
   237_145312_164612_186512_169912,
   238_110912_125812_142712_139412,
   239_847513_962513_109312_102712,
   240_648113_736913_837913_812013,
   241_511713_582513_663013_622013,
   242_404613_461113_525513_499513,
   243_320413_365513_417113_386513,
   244_254013_290213_331413_322713,
   245_201713_230613_263713_274813,
   246_171213_196013_224413_215613,
   247_145513_166713_191113_190213,
   248_123713_141913_162813_150213,
   249_105213_120813_138813_111113,
   250_895414_103013_118413_895614]

/-- atmdata/Venus/LAT80S.txt:2418-2568, columns 0 to 4. -/
def venusProfile17 : List ℕ :=
  [100_635202_647902_660902_635302,
   101_603502_615602_627902_605302,
   102_573002_584502_596202_575502,
   103_543802_554702_565802_545302,
   104_515902_526202_536702_515102,
   105_488902_498702_508702_490202,
   106_463102_472402_481802_462102,
   107_438302_447102_456002_437402,
   108_414302_422602_431102_413602,
   109_391702_399502_407502_391802,
   110_369802_377202_384702_369402,
   111_348802_355802_362902_348102,
   112_328802_335402_342102_331502,
   113_309802_316002_322302_310302,
   114_291602_297402_303302_289802,
   115_274002_279502_285102_271802,
   116_257502_262702_268002_254502,
   117_242002_246802_251702_236702,
   118_227302_231802_236402_222902,
   119_213102_217402_221702_207502,
   120_199902_203902_208002_195402,
   121_187402_191102_194902_181702,
   122_175302_178802_182402_171602,
   123_163802_167102_170402_161202,
   124_153102_156202_159302_151202,
   125_142802_145702_148602_141402,
   126_133202_135902_138602_131602,
   127_124002_126502_129002_122302,
   128_115402_117702_120102_113502,
   129_107202_109302_111502_106602,
   130_995103_101502_103502_990803,
   131_922203_940603_959403_913303,
   132_853303_870403_887803_849303,
   133_789603_805303_821503_799603,
   134_728803_743303_758203_737703,
   135_671903_685303_699003_673803,
   136_618503_630903_643503_622203,
   137_568603_579903_591503_572003,
   138_521503_531903_542503_522503,
   139_478103_487703_497403_480903,
   140_437203_445903_454903_440903,
   141_399103_407003_415203_401503,
   142_363403_370603_378103_366703,
   143_330003_336603_343403_331803,
   144_299503_305503_311603_298303,
   145_271203_276603_282103_273103,
   146_245003_249903_254903_247703,
   147_220403_224803_229303_222003,
   148_197703_201703_205703_197703,
   149_176803_180303_183903_177103,
   150_158103_161303_164503_159303,
   151_140803_143803_146803_143103,
   152_124703_127503_130403_125403,
   153_110803_113403_116103_111603,
   154_979704_100403_103003_986204,
   155_862704_885504_909004_858904,
   156_757804_778804_800504_745704,
   157_661504_680804_700604_651804,
   158_570204_587504_605404_573404,
   159_479304_494504_510204_480504,
   160_396704_409804_423304_400904,
   161_327704_339004_350604_339204,
   162_270804_280404_290404_275404,
   163_224004_232304_240804_220604,
   164_185304_192404_199704_186204,
   165_153004_159004_165304_151704,
   166_126304_131404_136804_126104,
   167_103904_108304_112804_103704,
   168_854905_892005_930705_859605,
   169_707805_739405_772505_708005,
   170_585905_612905_641105_596005,
   171_487105_510205_534305_493905,
   172_405005_424605_445305_409605,
   173_336805_353705_371305_348005,
   174_280205_294505_309605_289905,
   175_234005_246305_259205_238505,
   176_195405_205905_217005_198005,
   177_164005_173005_182505_164505,
   178_137605_145405_153605_144405,
   179_114505_121105_128105_120005,
   180_952806_100905_106905_101705,
   181_783306_830506_880606_786106,
   182_644306_684006_726106_656406,
   183_525206_558206_593306_529806,
   184_428306_455806_485006_452406,
   185_345706_368306_392406_361606,
   186_279106_297806_317706_299606,
   187_222106_237306_253406_243306,
   188_176806_189106_202206_204506,
   189_139706_149506_160106_170406,
   190_110306_118306_126806_134706,
   191_864307_927707_995707_104306,
   192_677107_727607_781907_849007,
   193_528107_568207_611307_675507,
   194_411907_443707_478007_520007,
   195_319307_344407_371407_405307,
   196_247507_267307_288607_318707,
   197_190907_206407_223107_257507,
   198_147207_159407_172507_192207,
   199_108707_117807_127607_140107,
   200_802208_870408_944408_106407,
   201_609508_662108_719308_794708,
   202_463208_503708_547808_594008,
   203_352008_383208_417308_438408,
   204_267508_291608_317908_327108,
   205_203308_221908_242208_223908,
   206_154208_168508_184208_172608,
   207_117008_128108_140108_131908,
   208_888409_973109_106608_104208,
   209_674409_739609_811209_781809,
   210_512109_562309_617409_577909,
   211_378409_416009_457309_444009,
   212_279609_307709_338709_314409,
   213_206609_227609_250809_233509,
   214_152609_168409_185809_166909,
   215_112809_124609_137609_125309,
   216_825410_912710_100909_970410,
   217_604010_668710_740310_714310,
   218_442010_489910_543010_500510,
   219_323510_359010_398310_381610,
   220_236710_263010_292210_273110,
   221_173410_192810_214510_200210,
   222_127010_141410_157410_153010,
   223_929811_103710_115610_112410,
   224_681011_760111_848511_818011,
   225_498811_557411_622911_566711,
   226_367511_411111_460011_437911,
   227_270711_303311_339711_325111,
   228_199511_223711_250911_248411,
   229_147011_165111_185311_178111,
   230_108311_121811_136911_140311,
   231_807512_908712_102311_110811,
   232_602112_678312_764212_813012,
   233_449012_506512_571212_594312,
   234_335012_378312_427212_408212,
   235_250012_282612_319512_307112,
   236_190512_215612_244012_251912,
   237_145312_164612_186512_182712,
   238_110912_125812_142712_140512,
   239_847513_962513_109312_114212,
   240_648113_736913_837913_821513,
   241_511713_582513_663013_655313,
   242_404613_461113_525513_516913,
   243_320413_365513_417113_385113,
   244_254013_290213_331413_293713,
   245_201713_230613_263713_219913,
   246_171213_196013_224413_194613,
   247_145513_166713_191113_167113,
   248_123713_141913_162813_140713,
   249_105213_120813_138813_119513,
   250_895414_103013_118413_954814]

/-- atmdata/Venus/LAT80S.txt:2569-2719, columns 0 to 4. -/
def venusProfile18 : List ℕ :=
  [100_635202_647902_660902_646102,
   101_603502_615602_627902_614902,
   102_573002_584502_596202_583502,
   103_543802_554702_565802_551302,
   104_515902_526202_536702_521702,
   105_488902_498702_508702_493602,
   106_463102_472402_481802_468002,
   107_438302_447102_456002_442902,
   108_414302_422602_431102_420002,
   109_391702_399502_407502_397402,
   110_369802_377202_384702_375202,
   111_348802_355802_362902_352402,
   112_328802_335402_342102_330902,
   113_309802_316002_322302_311702,
   114_291602_297402_303302_292702,
   115_274002_279502_285102_276602,
   116_257502_262702_268002_259102,
   117_242002_246802_251702_244102,
   118_227302_231802_236402_226502,
   119_213102_217402_221702_212102,
   120_199902_203902_208002_198802,
   121_187402_191102_194902_185202,
   122_175302_178802_182402_173502,
   123_163802_167102_170402_162502,
   124_153102_156202_159302_151802,
   125_142802_145702_148602_142402,
   126_133202_135902_138602_133602,
   127_124002_126502_129002_124402,
   128_115402_117702_120102_116502,
   129_107202_109302_111502_108302,
   130_995103_101502_103502_100802,
   131_922203_940603_959403_927803,
   132_853303_870403_887803_862403,
   133_789603_805303_821503_797103,
   134_728803_743303_758203_727003,
   135_671903_685303_699003_662403,
   136_618503_630903_643503_606603,
   137_568603_579903_591503_558003,
   138_521503_531903_542503_514703,
   139_478103_487703_497403_477703,
   140_437203_445903_454903_435503,
   141_399103_407003_415203_402003,
   142_363403_370603_378103_367503,
   143_330003_336603_343403_334903,
   144_299503_305503_311603_302703,
   145_271203_276603_282103_274303,
   146_245003_249903_254903_248403,
   147_220403_224803_229303_224403,
   148_197703_201703_205703_200103,
   149_176803_180303_183903_178503,
   150_158103_161303_164503_161103,
   151_140803_143803_146803_143203,
   152_124703_127503_130403_126003,
   153_110803_113403_116103_110703,
   154_979704_100403_103003_960404,
   155_862704_885504_909004_837904,
   156_757804_778804_800504_737704,
   157_661504_680804_700604_649404,
   158_570204_587504_605404_569404,
   159_479304_494504_510204_474104,
   160_396704_409804_423304_399704,
   161_327704_339004_350604_333104,
   162_270804_280404_290404_281904,
   163_224004_232304_240804_234504,
   164_185304_192404_199704_191104,
   165_153004_159004_165304_161004,
   166_126304_131404_136804_132904,
   167_103904_108304_112804_108304,
   168_854905_892005_930705_871305,
   169_707805_739405_772505_713905,
   170_585905_612905_641105_581905,
   171_487105_510205_534305_508305,
   172_405005_424605_445305_434505,
   173_336805_353705_371305_364405,
   174_280205_294505_309605_302805,
   175_234005_246305_259205_254105,
   176_195405_205905_217005_207605,
   177_164005_173005_182505_172105,
   178_137605_145405_153605_150005,
   179_114505_121105_128105_123905,
   180_952806_100905_106905_102505,
   181_783306_830506_880606_850406,
   182_644306_684006_726106_715406,
   183_525206_558206_593306_585106,
   184_428306_455806_485006_486306,
   185_345706_368306_392406_384506,
   186_279106_297806_317706_306406,
   187_222106_237306_253406_244606,
   188_176806_189106_202206_186306,
   189_139706_149506_160106_149506,
   190_110306_118306_126806_118906,
   191_864307_927707_995707_901207,
   192_677107_727607_781907_733907,
   193_528107_568207_611307_569307,
   194_411907_443707_478007_477707,
   195_319307_344407_371407_342807,
   196_247507_267307_288607_283007,
   197_190907_206407_223107_228307,
   198_147207_159407_172507_174907,
   199_108707_117807_127607_130607,
   200_802208_870408_944408_935108,
   201_609508_662108_719308_730908,
   202_463208_503708_547808_549708,
   203_352008_383208_417308_416808,
   204_267508_291608_317908_315308,
   205_203308_221908_242208_246608,
   206_154208_168508_184208_190908,
   207_117008_128108_140108_154108,
   208_888409_973109_106608_116808,
   209_674409_739609_811209_910009,
   210_512109_562309_617409_686509,
   211_378409_416009_457309_468709,
   212_279609_307709_338709_351309,
   213_206609_227609_250809_262709,
   214_152609_168409_185809_204209,
   215_112809_124609_137609_147209,
   216_825410_912710_100909_114209,
   217_604010_668710_740310_847910,
   218_442010_489910_543010_598410,
   219_323510_359010_398310_451910,
   220_236710_263010_292210_319710,
   221_173410_192810_214510_242110,
   222_127010_141410_157410_168210,
   223_929811_103710_115610_114310,
   224_681011_760111_848511_781411,
   225_498811_557411_622911_545511,
   226_367511_411111_460011_393511,
   227_270711_303311_339711_293511,
   228_199511_223711_250911_218311,
   229_147011_165111_185311_175911,
   230_108311_121811_136911_124811,
   231_807512_908712_102311_897212,
   232_602112_678312_764212_644312,
   233_449012_506512_571212_500212,
   234_335012_378312_427212_379612,
   235_250012_282612_319512_282512,
   236_190512_215612_244012_206912,
   237_145312_164612_186512_163712,
   238_110912_125812_142712_122012,
   239_847513_962513_109312_940713,
   240_648113_736913_837913_729613,
   241_511713_582513_663013_628113,
   242_404613_461113_525513_490813,
   243_320413_365513_417113_426913,
   244_254013_290213_331413_344113,
   245_201713_230613_263713_264913,
   246_171213_196013_224413_218713,
   247_145513_166713_191113_180113,
   248_123713_141913_162813_157513,
   249_105213_120813_138813_144513,
   250_895414_103013_118413_113213]

/-- atmdata/Venus/LAT80S.txt:2720-2870, columns 0 to 4. -/
def venusProfile19 : List ℕ :=
  [100_635202_647902_660902_655702,
   101_603502_615602_627902_623402,
   102_573002_584502_596202_590402,
   103_543802_554702_565802_554302,
   104_515902_526202_536702_525302,
   105_488902_498702_508702_501902,
   106_463102_472402_481802_479002,
   107_438302_447102_456002_453202,
   108_414302_422602_431102_431602,
   109_391702_399502_407502_407802,
   110_369802_377202_384702_385502,
   111_348802_355802_362902_359502,
   112_328802_335402_342102_338402,
   113_309802_316002_322302_320202,
   114_291602_297402_303302_301402,
   115_274002_279502_285102_282602,
   116_257502_262702_268002_264702,
   117_242002_246802_251702_248102,
   118_227302_231802_236402_232802,
   119_213102_217402_221702_218602,
   120_199902_203902_208002_203402,
   121_187402_191102_194902_189602,
   122_175302_178802_182402_176302,
   123_163802_167102_170402_164602,
   124_153102_156202_159302_153102,
   125_142802_145702_148602_144402,
   126_133202_135902_138602_134502,
   127_124002_126502_129002_125302,
   128_115402_117702_120102_116602,
   129_107202_109302_111502_107602,
   130_995103_101502_103502_100302,
   131_922203_940603_959403_923503,
   132_853303_870403_887803_858803,
   133_789603_805303_821503_799303,
   134_728803_743303_758203_739103,
   135_671903_685303_699003_690203,
   136_618503_630903_643503_636503,
   137_568603_579903_591503_583603,
   138_521503_531903_542503_532603,
   139_478103_487703_497403_486103,
   140_437203_445903_454903_448103,
   141_399103_407003_415203_409303,
   142_363403_370603_378103_374303,
   143_330003_336603_343403_337103,
   144_299503_305503_311603_305603,
   145_271203_276603_282103_274203,
   146_245003_249903_254903_248003,
   147_220403_224803_229303_222003,
   148_197703_201703_205703_198303,
   149_176803_180303_183903_176203,
   150_158103_161303_164503_155803,
   151_140803_143803_146803_140103,
   152_124703_127503_130403_123603,
   153_110803_113403_116103_110203,
   154_979704_100403_103003_979604,
   155_862704_885504_909004_855404,
   156_757804_778804_800504_761904,
   157_661504_680804_700604_676204,
   158_570204_587504_605404_590404,
   159_479304_494504_510204_514704,
   160_396704_409804_423304_418904,
   161_327704_339004_350604_345204,
   162_270804_280404_290404_288504,
   163_224004_232304_240804_236104,
   164_185304_192404_199704_195204,
   165_153004_159004_165304_161704,
   166_126304_131404_136804_133004,
   167_103904_108304_112804_107704,
   168_854905_892005_930705_892705,
   169_707805_739405_772505_726605,
   170_585905_612905_641105_605605,
   171_487105_510205_534305_507005,
   172_405005_424605_445305_420505,
   173_336805_353705_371305_350905,
   174_280205_294505_309605_292705,
   175_234005_246305_259205_256705,
   176_195405_205905_217005_204605,
   177_164005_173005_182505_169905,
   178_137605_145405_153605_147905,
   179_114505_121105_128105_121705,
   180_952806_100905_106905_978506,
   181_783306_830506_880606_795906,
   182_644306_684006_726106_701706,
   183_525206_558206_593306_588906,
   184_428306_455806_485006_483706,
   185_345706_368306_392406_380106,
   186_279106_297806_317706_316606,
   187_222106_237306_253406_248706,
   188_176806_189106_202206_192006,
   189_139706_149506_160106_150106,
   190_110306_118306_126806_118806,
   191_864307_927707_995707_955507,
   192_677107_727607_781907_767607,
   193_528107_568207_611307_641407,
   194_411907_443707_478007_496407,
   195_319307_344407_371407_376407,
   196_247507_267307_288607_279807,
   197_190907_206407_223107_224007,
   198_147207_159407_172507_175107,
   199_108707_117807_127607_134207,
   200_802208_870408_944408_987008,
   201_609508_662108_719308_724608,
   202_463208_503708_547808_545508,
   203_352008_383208_417308_424008,
   204_267508_291608_317908_323608,
   205_203308_221908_242208_247608,
   206_154208_168508_184208_195108,
   207_117008_128108_140108_145008,
   208_888409_973109_106608_108308,
   209_674409_739609_811209_801609,
   210_512109_562309_617409_636209,
   211_378409_416009_457309_453309,
   212_279609_307709_338709_325009,
   213_206609_227609_250809_250409,
   214_152609_168409_185809_187109,
   215_112809_124609_137609_131309,
   216_825410_912710_100909_888910,
   217_604010_668710_740310_566010,
   218_442010_489910_543010_416610,
   219_323510_359010_398310_334510,
   220_236710_263010_292210_241110,
   221_173410_192810_214510_172510,
   222_127010_141410_157410_128110,
   223_929811_103710_115610_956511,
   224_681011_760111_848511_723111,
   225_498811_557411_622911_509511,
   226_367511_411111_460011_392411,
   227_270711_303311_339711_291611,
   228_199511_223711_250911_210111,
   229_147011_165111_185311_157411,
   230_108311_121811_136911_117611,
   231_807512_908712_102311_886212,
   232_602112_678312_764212_716912,
   233_449012_506512_571212_493512,
   234_335012_378312_427212_351012,
   235_250012_282612_319512_258412,
   236_190512_215612_244012_198112,
   237_145312_164612_186512_146912,
   238_110912_125812_142712_948413,
   239_847513_962513_109312_698613,
   240_648113_736913_837913_650613,
   241_511713_582513_663013_498413,
   242_404613_461113_525513_391613,
   243_320413_365513_417113_328813,
   244_254013_290213_331413_246713,
   245_201713_230613_263713_201813,
   246_171213_196013_224413_142813,
   247_145513_166713_191113_114913,
   248_123713_141913_162813_852114,
   249_105213_120813_138813_750314,
   250_895414_103013_118413_595714]

/-- atmdata/Venus/LAT80S.txt:2871-3021, columns 0 to 4. -/
def venusProfile20 : List ℕ :=
  [100_635202_647902_660902_618702,
   101_603502_615602_627902_588902,
   102_573002_584502_596202_557702,
   103_543802_554702_565802_533002,
   104_515902_526202_536702_506602,
   105_488902_498702_508702_481002,
   106_463102_472402_481802_455202,
   107_438302_447102_456002_431502,
   108_414302_422602_431102_406402,
   109_391702_399502_407502_384602,
   110_369802_377202_384702_365102,
   111_348802_355802_362902_346602,
   112_328802_335402_342102_327802,
   113_309802_316002_322302_307502,
   114_291602_297402_303302_290902,
   115_274002_279502_285102_275602,
   116_257502_262702_268002_258502,
   117_242002_246802_251702_240002,
   118_227302_231802_236402_227202,
   119_213102_217402_221702_214602,
   120_199902_203902_208002_202202,
   121_187402_191102_194902_188802,
   122_175302_178802_182402_177202,
   123_163802_167102_170402_165102,
   124_153102_156202_159302_155502,
   125_142802_145702_148602_144202,
   126_133202_135902_138602_135902,
   127_124002_126502_129002_126702,
   128_115402_117702_120102_116902,
   129_107202_109302_111502_109002,
   130_995103_101502_103502_101802,
   131_922203_940603_959403_936003,
   132_853303_870403_887803_870003,
   133_789603_805303_821503_801303,
   134_728803_743303_758203_735603,
   135_671903_685303_699003_685103,
   136_618503_630903_643503_626303,
   137_568603_579903_591503_574203,
   138_521503_531903_542503_528903,
   139_478103_487703_497403_485203,
   140_437203_445903_454903_444003,
   141_399103_407003_415203_403003,
   142_363403_370603_378103_369403,
   143_330003_336603_343403_335803,
   144_299503_305503_311603_305503,
   145_271203_276603_282103_277303,
   146_245003_249903_254903_250303,
   147_220403_224803_229303_226003,
   148_197703_201703_205703_201803,
   149_176803_180303_183903_182303,
   150_158103_161303_164503_161903,
   151_140803_143803_146803_144003,
   152_124703_127503_130403_127303,
   153_110803_113403_116103_112303,
   154_979704_100403_103003_988304,
   155_862704_885504_909004_863804,
   156_757804_778804_800504_755104,
   157_661504_680804_700604_652904,
   158_570204_587504_605404_569704,
   159_479304_494504_510204_485804,
   160_396704_409804_423304_400304,
   161_327704_339004_350604_326804,
   162_270804_280404_290404_272204,
   163_224004_232304_240804_229404,
   164_185304_192404_199704_192604,
   165_153004_159004_165304_157704,
   166_126304_131404_136804_129504,
   167_103904_108304_112804_104004,
   168_854905_892005_930705_843105,
   169_707805_739405_772505_683105,
   170_585905_612905_641105_543205,
   171_487105_510205_534305_448605,
   172_405005_424605_445305_389805,
   173_336805_353705_371305_324605,
   174_280205_294505_309605_272705,
   175_234005_246305_259205_227705,
   176_195405_205905_217005_196505,
   177_164005_173005_182505_163705,
   178_137605_145405_153605_142605,
   179_114505_121105_128105_117105,
   180_952806_100905_106905_993706,
   181_783306_830506_880606_848406,
   182_644306_684006_726106_680606,
   183_525206_558206_593306_542206,
   184_428306_455806_485006_443906,
   185_345706_368306_392406_348106,
   186_279106_297806_317706_281106,
   187_222106_237306_253406_218906,
   188_176806_189106_202206_172206,
   189_139706_149506_160106_130606,
   190_110306_118306_126806_104106,
   191_864307_927707_995707_822907,
   192_677107_727607_781907_665307,
   193_528107_568207_611307_525907,
   194_411907_443707_478007_383807,
   195_319307_344407_371407_304707,
   196_247507_267307_288607_234307,
   197_190907_206407_223107_189607,
   198_147207_159407_172507_155907,
   199_108707_117807_127607_110807,
   200_802208_870408_944408_859308,
   201_609508_662108_719308_660108,
   202_463208_503708_547808_500908,
   203_352008_383208_417308_356908,
   204_267508_291608_317908_279808,
   205_203308_221908_242208_213108,
   206_154208_168508_184208_150508,
   207_117008_128108_140108_119208,
   208_888409_973109_106608_879909,
   209_674409_739609_811209_695009,
   210_512109_562309_617409_514509,
   211_378409_416009_457309_380809,
   212_279609_307709_338709_294909,
   213_206609_227609_250809_201209,
   214_152609_168409_185809_148709,
   215_112809_124609_137609_117609,
   216_825410_912710_100909_820710,
   217_604010_668710_740310_584510,
   218_442010_489910_543010_434910,
   219_323510_359010_398310_288010,
   220_236710_263010_292210_209310,
   221_173410_192810_214510_159210,
   222_127010_141410_157410_125710,
   223_929811_103710_115610_866811,
   224_681011_760111_848511_627511,
   225_498811_557411_622911_446911,
   226_367511_411111_460011_323111,
   227_270711_303311_339711_243811,
   228_199511_223711_250911_163911,
   229_147011_165111_185311_118311,
   230_108311_121811_136911_970412,
   231_807512_908712_102311_788212,
   232_602112_678312_764212_609812,
   233_449012_506512_571212_452512,
   234_335012_378312_427212_351112,
   235_250012_282612_319512_253212,
   236_190512_215612_244012_202012,
   237_145312_164612_186512_161212,
   238_110912_125812_142712_126812,
   239_847513_962513_109312_101412,
   240_648113_736913_837913_763113,
   241_511713_582513_663013_604313,
   242_404613_461113_525513_459713,
   243_320413_365513_417113_367413,
   244_254013_290213_331413_294613,
   245_201713_230613_263713_245813,
   246_171213_196013_224413_211913,
   247_145513_166713_191113_192213,
   248_123713_141913_162813_157413,
   249_105213_120813_138813_141013,
   250_895414_103013_118413_108613]

/-- atmdata/Venus/LAT80S.txt:3022-3172, columns 0 to 4. -/
def venusProfile21 : List ℕ :=
  [100_635202_647902_660902_641002,
   101_603502_615602_627902_609102,
   102_573002_584502_596202_574902,
   103_543802_554702_565802_547302,
   104_515902_526202_536702_520702,
   105_488902_498702_508702_490802,
   106_463102_472402_481802_466702,
   107_438302_447102_456002_442202,
   108_414302_422602_431102_417602,
   109_391702_399502_407502_394602,
   110_369802_377202_384702_375602,
   111_348802_355802_362902_355102,
   112_328802_335402_342102_337002,
   113_309802_316002_322302_317602,
   114_291602_297402_303302_295502,
   115_274002_279502_285102_277702,
   116_257502_262702_268002_260502,
   117_242002_246802_251702_245402,
   118_227302_231802_236402_230002,
   119_213102_217402_221702_214502,
   120_199902_203902_208002_201302,
   121_187402_191102_194902_188102,
   122_175302_178802_182402_175602,
   123_163802_167102_170402_163102,
   124_153102_156202_159302_152902,
   125_142802_145702_148602_142502,
   126_133202_135902_138602_133002,
   127_124002_126502_129002_124402,
   128_115402_117702_120102_116102,
   129_107202_109302_111502_107602,
   130_995103_101502_103502_100902,
   131_922203_940603_959403_928003,
   132_853303_870403_887803_863103,
   133_789603_805303_821503_800503,
   134_728803_743303_758203_742003,
   135_671903_685303_699003_689703,
   136_618503_630903_643503_635903,
   137_568603_579903_591503_582103,
   138_521503_531903_542503_531203,
   139_478103_487703_497403_489703,
   140_437203_445903_454903_444903,
   141_399103_407003_415203_408303,
   142_363403_370603_378103_374803,
   143_330003_336603_343403_344203,
   144_299503_305503_311603_313903,
   145_271203_276603_282103_282503,
   146_245003_249903_254903_254303,
   147_220403_224803_229303_227203,
   148_197703_201703_205703_203103,
   149_176803_180303_183903_182303,
   150_158103_161303_164503_162403,
   151_140803_143803_146803_146003,
   152_124703_127503_130403_129303,
   153_110803_113403_116103_115603,
   154_979704_100403_103003_103303,
   155_862704_885504_909004_902804,
   156_757804_778804_800504_796604,
   157_661504_680804_700604_693304,
   158_570204_587504_605404_602504,
   159_479304_494504_510204_509304,
   160_396704_409804_423304_421804,
   161_327704_339004_350604_353904,
   162_270804_280404_290404_292004,
   163_224004_232304_240804_241004,
   164_185304_192404_199704_195604,
   165_153004_159004_165304_167404,
   166_126304_131404_136804_136504,
   167_103904_108304_112804_115604,
   168_854905_892005_930705_955905,
   169_707805_739405_772505_754005,
   170_585905_612905_641105_622205,
   171_487105_510205_534305_527305,
   172_405005_424605_445305_436805,
   173_336805_353705_371305_357905,
   174_280205_294505_309605_298805,
   175_234005_246305_259205_253405,
   176_195405_205905_217005_214105,
   177_164005_173005_182505_177405,
   178_137605_145405_153605_153305,
   179_114505_121105_128105_124605,
   180_952806_100905_106905_102905,
   181_783306_830506_880606_849206,
   182_644306_684006_726106_691006,
   183_525206_558206_593306_562106,
   184_428306_455806_485006_454406,
   185_345706_368306_392406_351206,
   186_279106_297806_317706_299306,
   187_222106_237306_253406_252106,
   188_176806_189106_202206_197806,
   189_139706_149506_160106_158906,
   190_110306_118306_126806_124106,
   191_864307_927707_995707_937307,
   192_677107_727607_781907_744107,
   193_528107_568207_611307_559307,
   194_411907_443707_478007_438307,
   195_319307_344407_371407_355907,
   196_247507_267307_288607_274307,
   197_190907_206407_223107_217307,
   198_147207_159407_172507_161907,
   199_108707_117807_127607_117507,
   200_802208_870408_944408_846608,
   201_609508_662108_719308_696608,
   202_463208_503708_547808_526508,
   203_352008_383208_417308_390808,
   204_267508_291608_317908_308608,
   205_203308_221908_242208_229108,
   206_154208_168508_184208_166808,
   207_117008_128108_140108_122708,
   208_888409_973109_106608_100508,
   209_674409_739609_811209_738009,
   210_512109_562309_617409_562809,
   211_378409_416009_457309_422109,
   212_279609_307709_338709_307409,
   213_206609_227609_250809_219309,
   214_152609_168409_185809_154909,
   215_112809_124609_137609_117409,
   216_825410_912710_100909_830910,
   217_604010_668710_740310_607810,
   218_442010_489910_543010_456410,
   219_323510_359010_398310_314810,
   220_236710_263010_292210_226710,
   221_173410_192810_214510_184310,
   222_127010_141410_157410_130810,
   223_929811_103710_115610_974811,
   224_681011_760111_848511_759611,
   225_498811_557411_622911_536811,
   226_367511_411111_460011_406911,
   227_270711_303311_339711_299111,
   228_199511_223711_250911_229111,
   229_147011_165111_185311_176611,
   230_108311_121811_136911_124111,
   231_807512_908712_102311_883212,
   232_602112_678312_764212_651812,
   233_449012_506512_571212_501012,
   234_335012_378312_427212_361612,
   235_250012_282612_319512_252412,
   236_190512_215612_244012_167812,
   237_145312_164612_186512_126612,
   238_110912_125812_142712_975813,
   239_847513_962513_109312_754713,
   240_648113_736913_837913_626413,
   241_511713_582513_663013_532013,
   242_404613_461113_525513_401613,
   243_320413_365513_417113_315013,
   244_254013_290213_331413_209413,
   245_201713_230613_263713_147313,
   246_171213_196013_224413_124713,
   247_145513_166713_191113_115513,
   248_123713_141913_162813_104313,
   249_105213_120813_138813_884414,
   250_895414_103013_118413_678714]

/-- atmdata/Venus/LAT80S.txt:3173-3323, columns 0 to 4. -/
def venusProfile22 : List ℕ :=
  [100_635202_647902_660902_650402,
   101_603502_615602_627902_617402,
   102_573002_584502_596202_592302,
   103_543802_554702_565802_562102,
   104_515902_526202_536702_535402,
   105_488902_498702_508702_508602,
   106_463102_472402_481802_478902,
   107_438302_447102_456002_453502,
   108_414302_422602_431102_429302,
   109_391702_399502_407502_405002,
   110_369802_377202_384702_379502,
   111_348802_355802_362902_357902,
   112_328802_335402_342102_335402,
   113_309802_316002_322302_318002,
   114_291602_297402_303302_298202,
   115_274002_279502_285102_276202,
   116_257502_262702_268002_259402,
   117_242002_246802_251702_243202,
   118_227302_231802_236402_229502,
   119_213102_217402_221702_215102,
   120_199902_203902_208002_200902,
   121_187402_191102_194902_187902,
   122_175302_178802_182402_177302,
   123_163802_167102_170402_167202,
   124_153102_156202_159302_156002,
   125_142802_145702_148602_145602,
   126_133202_135902_138602_134802,
   127_124002_126502_129002_126202,
   128_115402_117702_120102_117002,
   129_107202_109302_111502_109502,
   130_995103_101502_103502_100802,
   131_922203_940603_959403_926403,
   132_853303_870403_887803_861903,
   133_789603_805303_821503_789303,
   134_728803_743303_758203_727303,
   135_671903_685303_699003_675803,
   136_618503_630903_643503_617903,
   137_568603_579903_591503_565903,
   138_521503_531903_542503_521503,
   139_478103_487703_497403_474503,
   140_437203_445903_454903_436803,
   141_399103_407003_415203_398603,
   142_363403_370603_378103_367803,
   143_330003_336603_343403_333703,
   144_299503_305503_311603_299303,
   145_271203_276603_282103_272903,
   146_245003_249903_254903_245703,
   147_220403_224803_229303_222003,
   148_197703_201703_205703_198903,
   149_176803_180303_183903_178103,
   150_158103_161303_164503_159303,
   151_140803_143803_146803_141703,
   152_124703_127503_130403_125703,
   153_110803_113403_116103_111303,
   154_979704_100403_103003_985004,
   155_862704_885504_909004_862604,
   156_757804_778804_800504_744704,
   157_661504_680804_700604_653704,
   158_570204_587504_605404_568404,
   159_479304_494504_510204_479104,
   160_396704_409804_423304_400904,
   161_327704_339004_350604_333204,
   162_270804_280404_290404_274204,
   163_224004_232304_240804_222604,
   164_185304_192404_199704_184404,
   165_153004_159004_165304_154104,
   166_126304_131404_136804_125804,
   167_103904_108304_112804_105904,
   168_854905_892005_930705_860705,
   169_707805_739405_772505_735005,
   170_585905_612905_641105_622305,
   171_487105_510205_534305_516105,
   172_405005_424605_445305_445805,
   173_336805_353705_371305_360705,
   174_280205_294505_309605_301305,
   175_234005_246305_259205_245705,
   176_195405_205905_217005_206105,
   177_164005_173005_182505_171405,
   178_137605_145405_153605_148305,
   179_114505_121105_128105_119905,
   180_952806_100905_106905_963406,
   181_783306_830506_880606_778806,
   182_644306_684006_726106_645506,
   183_525206_558206_593306_538906,
   184_428306_455806_485006_432106,
   185_345706_368306_392406_370106,
   186_279106_297806_317706_299106,
   187_222106_237306_253406_243606,
   188_176806_189106_202206_192906,
   189_139706_149506_160106_151706,
   190_110306_118306_126806_118306,
   191_864307_927707_995707_951807,
   192_677107_727607_781907_750207,
   193_528107_568207_611307_593407,
   194_411907_443707_478007_436907,
   195_319307_344407_371407_331007,
   196_247507_267307_288607_260007,
   197_190907_206407_223107_205707,
   198_147207_159407_172507_157607,
   199_108707_117807_127607_116807,
   200_802208_870408_944408_867508,
   201_609508_662108_719308_652608,
   202_463208_503708_547808_496108,
   203_352008_383208_417308_378908,
   204_267508_291608_317908_309208,
   205_203308_221908_242208_223908,
   206_154208_168508_184208_166108,
   207_117008_128108_140108_127508,
   208_888409_973109_106608_994709,
   209_674409_739609_811209_767409,
   210_512109_562309_617409_605209,
   211_378409_416009_457309_461609,
   212_279609_307709_338709_356909,
   213_206609_227609_250809_256809,
   214_152609_168409_185809_195709,
   215_112809_124609_137609_141809,
   216_825410_912710_100909_100109,
   217_604010_668710_740310_737110,
   218_442010_489910_543010_551310,
   219_323510_359010_398310_381910,
   220_236710_263010_292210_270410,
   221_173410_192810_214510_193810,
   222_127010_141410_157410_143010,
   223_929811_103710_115610_982711,
   224_681011_760111_848511_722811,
   225_498811_557411_622911_513611,
   226_367511_411111_460011_363411,
   227_270711_303311_339711_268611,
   228_199511_223711_250911_200611,
   229_147011_165111_185311_148411,
   230_108311_121811_136911_110711,
   231_807512_908712_102311_832212,
   232_602112_678312_764212_587412,
   233_449012_506512_571212_388312,
   234_335012_378312_427212_312212,
   235_250012_282612_319512_261612,
   236_190512_215612_244012_194512,
   237_145312_164612_186512_156912,
   238_110912_125812_142712_111812,
   239_847513_962513_109312_778213,
   240_648113_736913_837913_580613,
   241_511713_582513_663013_436413,
   242_404613_461113_525513_320813,
   243_320413_365513_417113_243513,
   244_254013_290213_331413_199313,
   245_201713_230613_263713_156113,
   246_171213_196013_224413_151313,
   247_145513_166713_191113_131013,
   248_123713_141913_162813_124213,
   249_105213_120813_138813_112213,
   250_895414_103013_118413_843814]

/-- atmdata/Venus/LAT80S.txt:3324-3474, columns 0 to 4. -/
def venusProfile23 : List ℕ :=
  [100_635202_647902_660902_662002,
   101_603502_615602_627902_627702,
   102_573002_584502_596202_598802,
   103_543802_554702_565802_567002,
   104_515902_526202_536702_542002,
   105_488902_498702_508702_511902,
   106_463102_472402_481802_484702,
   107_438302_447102_456002_459002,
   108_414302_422602_431102_436102,
   109_391702_399502_407502_411002,
   110_369802_377202_384702_386202,
   111_348802_355802_362902_363202,
   112_328802_335402_342102_341502,
   113_309802_316002_322302_320402,
   114_291602_297402_303302_301402,
   115_274002_279502_285102_283302,
   116_257502_262702_268002_265902,
   117_242002_246802_251702_246102,
   118_227302_231802_236402_230202,
   119_213102_217402_221702_216502,
   120_199902_203902_208002_204702,
   121_187402_191102_194902_191502,
   122_175302_178802_182402_179102,
   123_163802_167102_170402_168202,
   124_153102_156202_159302_156202,
   125_142802_145702_148602_146202,
   126_133202_135902_138602_136702,
   127_124002_126502_129002_128102,
   128_115402_117702_120102_120102,
   129_107202_109302_111502_111402,
   130_995103_101502_103502_102802,
   131_922203_940603_959403_943203,
   132_853303_870403_887803_877103,
   133_789603_805303_821503_810603,
   134_728803_743303_758203_753803,
   135_671903_685303_699003_698603,
   136_618503_630903_643503_643503,
   137_568603_579903_591503_587503,
   138_521503_531903_542503_535903,
   139_478103_487703_497403_490203,
   140_437203_445903_454903_447603,
   141_399103_407003_415203_403803,
   142_363403_370603_378103_363703,
   143_330003_336603_343403_332703,
   144_299503_305503_311603_300603,
   145_271203_276603_282103_271903,
   146_245003_249903_254903_244403,
   147_220403_224803_229303_218803,
   148_197703_201703_205703_196303,
   149_176803_180303_183903_175303,
   150_158103_161303_164503_157403,
   151_140803_143803_146803_141603,
   152_124703_127503_130403_125903,
   153_110803_113403_116103_112903,
   154_979704_100403_103003_987404,
   155_862704_885504_909004_865404,
   156_757804_778804_800504_760004,
   157_661504_680804_700604_671704,
   158_570204_587504_605404_582604,
   159_479304_494504_510204_488104,
   160_396704_409804_423304_413304,
   161_327704_339004_350604_339904,
   162_270804_280404_290404_277604,
   163_224004_232304_240804_231704,
   164_185304_192404_199704_194104,
   165_153004_159004_165304_159704,
   166_126304_131404_136804_129304,
   167_103904_108304_112804_107904,
   168_854905_892005_930705_899405,
   169_707805_739405_772505_759805,
   170_585905_612905_641105_621705,
   171_487105_510205_534305_501705,
   172_405005_424605_445305_417805,
   173_336805_353705_371305_362105,
   174_280205_294505_309605_302705,
   175_234005_246305_259205_253005,
   176_195405_205905_217005_210005,
   177_164005_173005_182505_174405,
   178_137605_145405_153605_150505,
   179_114505_121105_128105_120305,
   180_952806_100905_106905_101805,
   181_783306_830506_880606_858106,
   182_644306_684006_726106_714106,
   183_525206_558206_593306_555906,
   184_428306_455806_485006_437306,
   185_345706_368306_392406_367206,
   186_279106_297806_317706_283406,
   187_222106_237306_253406_228106,
   188_176806_189106_202206_182806,
   189_139706_149506_160106_140306,
   190_110306_118306_126806_109606,
   191_864307_927707_995707_862107,
   192_677107_727607_781907_681207,
   193_528107_568207_611307_523407,
   194_411907_443707_478007_413407,
   195_319307_344407_371407_323207,
   196_247507_267307_288607_258207,
   197_190907_206407_223107_203507,
   198_147207_159407_172507_159007,
   199_108707_117807_127607_120007,
   200_802208_870408_944408_922808,
   201_609508_662108_719308_715308,
   202_463208_503708_547808_540108,
   203_352008_383208_417308_419608,
   204_267508_291608_317908_301608,
   205_203308_221908_242208_242308,
   206_154208_168508_184208_181008,
   207_117008_128108_140108_151408,
   208_888409_973109_106608_113808,
   209_674409_739609_811209_816909,
   210_512109_562309_617409_592409,
   211_378409_416009_457309_402609,
   212_279609_307709_338709_297609,
   213_206609_227609_250809_220709,
   214_152609_168409_185809_164909,
   215_112809_124609_137609_117309,
   216_825410_912710_100909_846810,
   217_604010_668710_740310_650210,
   218_442010_489910_543010_501210,
   219_323510_359010_398310_353110,
   220_236710_263010_292210_251310,
   221_173410_192810_214510_189210,
   222_127010_141410_157410_147510,
   223_929811_103710_115610_108810,
   224_681011_760111_848511_744911,
   225_498811_557411_622911_529711,
   226_367511_411111_460011_398611,
   227_270711_303311_339711_291111,
   228_199511_223711_250911_208611,
   229_147011_165111_185311_143111,
   230_108311_121811_136911_112411,
   231_807512_908712_102311_881412,
   232_602112_678312_764212_694112,
   233_449012_506512_571212_504912,
   234_335012_378312_427212_368912,
   235_250012_282612_319512_290412,
   236_190512_215612_244012_222112,
   237_145312_164612_186512_164812,
   238_110912_125812_142712_131612,
   239_847513_962513_109312_102612,
   240_648113_736913_837913_797413,
   241_511713_582513_663013_620413,
   242_404613_461113_525513_544713,
   243_320413_365513_417113_459613,
   244_254013_290213_331413_377913,
   245_201713_230613_263713_292913,
   246_171213_196013_224413_245013,
   247_145513_166713_191113_197113,
   248_123713_141913_162813_158013,
   249_105213_120813_138813_127913,
   250_895414_103013_118413_126113]

/-- atmdata/Venus/LAT80S.txt:3475-3625, columns 0 to 4. -/
def venusProfile24 : List ℕ :=
  [100_635202_647902_660902_634402,
   101_603502_615602_627902_602002,
   102_573002_584502_596202_573902,
   103_543802_554702_565802_542802,
   104_515902_526202_536702_511802,
   105_488902_498702_508702_488502,
   106_463102_472402_481802_466702,
   107_438302_447102_456002_442702,
   108_414302_422602_431102_416102,
   109_391702_399502_407502_392402,
   110_369802_377202_384702_370202,
   111_348802_355802_362902_347502,
   112_328802_335402_342102_328302,
   113_309802_316002_322302_310002,
   114_291602_297402_303302_292902,
   115_274002_279502_285102_273502,
   116_257502_262702_268002_257102,
   117_242002_246802_251702_242302,
   118_227302_231802_236402_228202,
   119_213102_217402_221702_216302,
   120_199902_203902_208002_203302,
   121_187402_191102_194902_190402,
   122_175302_178802_182402_176902,
   123_163802_167102_170402_165702,
   124_153102_156202_159302_156002,
   125_142802_145702_148602_146802,
   126_133202_135902_138602_136302,
   127_124002_126502_129002_128902,
   128_115402_117702_120102_119802,
   129_107202_109302_111502_110302,
   130_995103_101502_103502_102102,
   131_922203_940603_959403_936103,
   132_853303_870403_887803_871003,
   133_789603_805303_821503_810903,
   134_728803_743303_758203_748003,
   135_671903_685303_699003_692903,
   136_618503_630903_643503_632503,
   137_568603_579903_591503_577203,
   138_521503_531903_542503_531403,
   139_478103_487703_497403_488403,
   140_437203_445903_454903_442303,
   141_399103_407003_415203_404903,
   142_363403_370603_378103_365903,
   143_330003_336603_343403_331103,
   144_299503_305503_311603_300303,
   145_271203_276603_282103_275403,
   146_245003_249903_254903_246803,
   147_220403_224803_229303_222803,
   148_197703_201703_205703_199903,
   149_176803_180303_183903_177403,
   150_158103_161303_164503_159603,
   151_140803_143803_146803_142003,
   152_124703_127503_130403_126503,
   153_110803_113403_116103_112203,
   154_979704_100403_103003_998504,
   155_862704_885504_909004_875604,
   156_757804_778804_800504_777104,
   157_661504_680804_700604_668004,
   158_570204_587504_605404_578604,
   159_479304_494504_510204_481804,
   160_396704_409804_423304_394704,
   161_327704_339004_350604_320804,
   162_270804_280404_290404_258804,
   163_224004_232304_240804_213704,
   164_185304_192404_199704_173804,
   165_153004_159004_165304_141404,
   166_126304_131404_136804_114104,
   167_103904_108304_112804_956405,
   168_854905_892005_930705_785205,
   169_707805_739405_772505_667105,
   170_585905_612905_641105_563405,
   171_487105_510205_534305_476405,
   172_405005_424605_445305_376605,
   173_336805_353705_371305_323405,
   174_280205_294505_309605_273005,
   175_234005_246305_259205_236905,
   176_195405_205905_217005_195605,
   177_164005_173005_182505_163405,
   178_137605_145405_153605_141505,
   179_114505_121105_128105_124605,
   180_952806_100905_106905_102905,
   181_783306_830506_880606_844306,
   182_644306_684006_726106_714706,
   183_525206_558206_593306_575106,
   184_428306_455806_485006_487106,
   185_345706_368306_392406_401806,
   186_279106_297806_317706_324506,
   187_222106_237306_253406_255106,
   188_176806_189106_202206_204006,
   189_139706_149506_160106_164606,
   190_110306_118306_126806_126406,
   191_864307_927707_995707_953807,
   192_677107_727607_781907_743207,
   193_528107_568207_611307_596007,
   194_411907_443707_478007_441907,
   195_319307_344407_371407_353307,
   196_247507_267307_288607_286507,
   197_190907_206407_223107_223007,
   198_147207_159407_172507_177107,
   199_108707_117807_127607_136007,
   200_802208_870408_944408_968408,
   201_609508_662108_719308_703808,
   202_463208_503708_547808_532408,
   203_352008_383208_417308_374608,
   204_267508_291608_317908_276908,
   205_203308_221908_242208_217308,
   206_154208_168508_184208_165608,
   207_117008_128108_140108_124908,
   208_888409_973109_106608_931909,
   209_674409_739609_811209_714809,
   210_512109_562309_617409_543409,
   211_378409_416009_457309_390809,
   212_279609_307709_338709_264109,
   213_206609_227609_250809_201509,
   214_152609_168409_185809_147109,
   215_112809_124609_137609_117309,
   216_825410_912710_100909_853510,
   217_604010_668710_740310_577610,
   218_442010_489910_543010_470010,
   219_323510_359010_398310_336110,
   220_236710_263010_292210_239310,
   221_173410_192810_214510_163810,
   222_127010_141410_157410_117710,
   223_929811_103710_115610_815111,
   224_681011_760111_848511_627811,
   225_498811_557411_622911_452511,
   226_367511_411111_460011_316011,
   227_270711_303311_339711_234211,
   228_199511_223711_250911_202011,
   229_147011_165111_185311_154111,
   230_108311_121811_136911_108411,
   231_807512_908712_102311_764812,
   232_602112_678312_764212_585912,
   233_449012_506512_571212_452112,
   234_335012_378312_427212_361712,
   235_250012_282612_319512_278712,
   236_190512_215612_244012_222812,
   237_145312_164612_186512_178712,
   238_110912_125812_142712_135312,
   239_847513_962513_109312_997313,
   240_648113_736913_837913_699113,
   241_511713_582513_663013_574013,
   242_404613_461113_525513_487113,
   243_320413_365513_417113_397913,
   244_254013_290213_331413_304413,
   245_201713_230613_263713_247513,
   246_171213_196013_224413_196613,
   247_145513_166713_191113_145513,
   248_123713_141913_162813_125313,
   249_105213_120813_138813_111513,
   250_895414_103013_118413_107413]

/-- atmdata/Venus/LAT80S.txt:3626-3776, columns 0 to 4. -/
def venusProfile25 : List ℕ :=
  [100_635202_647902_660902_645602,
   101_603502_615602_627902_611902,
   102_573002_584502_596202_582002,
   103_543802_554702_565802_548002,
   104_515902_526202_536702_518102,
   105_488902_498702_508702_491202,
   106_463102_472402_481802_464502,
   107_438302_447102_456002_440802,
   108_414302_422602_431102_416102,
   109_391702_399502_407502_392202,
   110_369802_377202_384702_370702,
   111_348802_355802_362902_353202,
   112_328802_335402_342102_334702,
   113_309802_316002_322302_318502,
   114_291602_297402_303302_302802,
   115_274002_279502_285102_284902,
   116_257502_262702_268002_267602,
   117_242002_246802_251702_250702,
   118_227302_231802_236402_233702,
   119_213102_217402_221702_218202,
   120_199902_203902_208002_204202,
   121_187402_191102_194902_191302,
   122_175302_178802_182402_179502,
   123_163802_167102_170402_167702,
   124_153102_156202_159302_157002,
   125_142802_145702_148602_145502,
   126_133202_135902_138602_136402,
   127_124002_126502_129002_126002,
   128_115402_117702_120102_116502,
   129_107202_109302_111502_108502,
   130_995103_101502_103502_100702,
   131_922203_940603_959403_922403,
   132_853303_870403_887803_859203,
   133_789603_805303_821503_792403,
   134_728803_743303_758203_724903,
   135_671903_685303_699003_672003,
   136_618503_630903_643503_620103,
   137_568603_579903_591503_565303,
   138_521503_531903_542503_516603,
   139_478103_487703_497403_478903,
   140_437203_445903_454903_439703,
   141_399103_407003_415203_400103,
   142_363403_370603_378103_362503,
   143_330003_336603_343403_330703,
   144_299503_305503_311603_300903,
   145_271203_276603_282103_272903,
   146_245003_249903_254903_242903,
   147_220403_224803_229303_217303,
   148_197703_201703_205703_195503,
   149_176803_180303_183903_176803,
   150_158103_161303_164503_159803,
   151_140803_143803_146803_143803,
   152_124703_127503_130403_128303,
   153_110803_113403_116103_115603,
   154_979704_100403_103003_101903,
   155_862704_885504_909004_893604,
   156_757804_778804_800504_778804,
   157_661504_680804_700604_676704,
   158_570204_587504_605404_585104,
   159_479304_494504_510204_478804,
   160_396704_409804_423304_395704,
   161_327704_339004_350604_331804,
   162_270804_280404_290404_279304,
   163_224004_232304_240804_236304,
   164_185304_192404_199704_194704,
   165_153004_159004_165304_163204,
   166_126304_131404_136804_139004,
   167_103904_108304_112804_114204,
   168_854905_892005_930705_951205,
   169_707805_739405_772505_792305,
   170_585905_612905_641105_640305,
   171_487105_510205_534305_525805,
   172_405005_424605_445305_437205,
   173_336805_353705_371305_367105,
   174_280205_294505_309605_307305,
   175_234005_246305_259205_253305,
   176_195405_205905_217005_205105,
   177_164005_173005_182505_170905,
   178_137605_145405_153605_147205,
   179_114505_121105_128105_126705,
   180_952806_100905_106905_101105,
   181_783306_830506_880606_807806,
   182_644306_684006_726106_638206,
   183_525206_558206_593306_528406,
   184_428306_455806_485006_442706,
   185_345706_368306_392406_365606,
   186_279106_297806_317706_286606,
   187_222106_237306_253406_223606,
   188_176806_189106_202206_182106,
   189_139706_149506_160106_144606,
   190_110306_118306_126806_111306,
   191_864307_927707_995707_899807,
   192_677107_727607_781907_700507,
   193_528107_568207_611307_543607,
   194_411907_443707_478007_428807,
   195_319307_344407_371407_320907,
   196_247507_267307_288607_238807,
   197_190907_206407_223107_188107,
   198_147207_159407_172507_139307,
   199_108707_117807_127607_997908,
   200_802208_870408_944408_751108,
   201_609508_662108_719308_579908,
   202_463208_503708_547808_446108,
   203_352008_383208_417308_334808,
   204_267508_291608_317908_252908,
   205_203308_221908_242208_196608,
   206_154208_168508_184208_153108,
   207_117008_128108_140108_121308,
   208_888409_973109_106608_875009,
   209_674409_739609_811209_595109,
   210_512109_562309_617409_478209,
   211_378409_416009_457309_355709,
   212_279609_307709_338709_268709,
   213_206609_227609_250809_209009,
   214_152609_168409_185809_141909,
   215_112809_124609_137609_109009,
   216_825410_912710_100909_804510,
   217_604010_668710_740310_576410,
   218_442010_489910_543010_400910,
   219_323510_359010_398310_292510,
   220_236710_263010_292210_209510,
   221_173410_192810_214510_155210,
   222_127010_141410_157410_117610,
   223_929811_103710_115610_886811,
   224_681011_760111_848511_640411,
   225_498811_557411_622911_462111,
   226_367511_411111_460011_349711,
   227_270711_303311_339711_255611,
   228_199511_223711_250911_198011,
   229_147011_165111_185311_143811,
   230_108311_121811_136911_106911,
   231_807512_908712_102311_799012,
   232_602112_678312_764212_586112,
   233_449012_506512_571212_484612,
   234_335012_378312_427212_359112,
   235_250012_282612_319512_272112,
   236_190512_215612_244012_192312,
   237_145312_164612_186512_145312,
   238_110912_125812_142712_106412,
   239_847513_962513_109312_892713,
   240_648113_736913_837913_685413,
   241_511713_582513_663013_490313,
   242_404613_461113_525513_414113,
   243_320413_365513_417113_332713,
   244_254013_290213_331413_276013,
   245_201713_230613_263713_236713,
   246_171213_196013_224413_210113,
   247_145513_166713_191113_185913,
   248_123713_141913_162813_164013,
   249_105213_120813_138813_130413,
   250_895414_103013_118413_121313]

/-- atmdata/Venus/LAT80S.txt:3777-3927, columns 0 to 4. -/
def venusProfile26 : List ℕ :=
  [100_635202_647902_660902_655102,
   101_603502_615602_627902_620202,
   102_573002_584502_596202_588802,
   103_543802_554702_565802_562102,
   104_515902_526202_536702_532002,
   105_488902_498702_508702_500402,
   106_463102_472402_481802_475502,
   107_438302_447102_456002_451002,
   108_414302_422602_431102_426702,
   109_391702_399502_407502_401502,
   110_369802_377202_384702_380002,
   111_348802_355802_362902_359902,
   112_328802_335402_342102_336502,
   113_309802_316002_322302_316202,
   114_291602_297402_303302_296402,
   115_274002_279502_285102_277202,
   116_257502_262702_268002_260802,
   117_242002_246802_251702_248502,
   118_227302_231802_236402_233402,
   119_213102_217402_221702_218902,
   120_199902_203902_208002_203502,
   121_187402_191102_194902_190802,
   122_175302_178802_182402_178102,
   123_163802_167102_170402_166002,
   124_153102_156202_159302_154902,
   125_142802_145702_148602_144202,
   126_133202_135902_138602_134302,
   127_124002_126502_129002_124402,
   128_115402_117702_120102_116302,
   129_107202_109302_111502_107702,
   130_995103_101502_103502_100102,
   131_922203_940603_959403_915503,
   132_853303_870403_887803_853303,
   133_789603_805303_821503_792303,
   134_728803_743303_758203_733303,
   135_671903_685303_699003_679003,
   136_618503_630903_643503_620103,
   137_568603_579903_591503_563203,
   138_521503_531903_542503_519203,
   139_478103_487703_497403_474303,
   140_437203_445903_454903_433103,
   141_399103_407003_415203_399103,
   142_363403_370603_378103_362103,
   143_330003_336603_343403_326703,
   144_299503_305503_311603_298703,
   145_271203_276603_282103_268603,
   146_245003_249903_254903_245503,
   147_220403_224803_229303_221603,
   148_197703_201703_205703_199203,
   149_176803_180303_183903_179003,
   150_158103_161303_164503_158403,
   151_140803_143803_146803_141003,
   152_124703_127503_130403_126203,
   153_110803_113403_116103_112203,
   154_979704_100403_103003_100703,
   155_862704_885504_909004_884304,
   156_757804_778804_800504_779404,
   157_661504_680804_700604_681604,
   158_570204_587504_605404_588404,
   159_479304_494504_510204_501404,
   160_396704_409804_423304_416504,
   161_327704_339004_350604_344804,
   162_270804_280404_290404_287404,
   163_224004_232304_240804_238004,
   164_185304_192404_199704_198604,
   165_153004_159004_165304_164004,
   166_126304_131404_136804_138204,
   167_103904_108304_112804_113104,
   168_854905_892005_930705_921305,
   169_707805_739405_772505_766205,
   170_585905_612905_641105_635305,
   171_487105_510205_534305_541105,
   172_405005_424605_445305_433105,
   173_336805_353705_371305_361205,
   174_280205_294505_309605_303005,
   175_234005_246305_259205_255605,
   176_195405_205905_217005_220305,
   177_164005_173005_182505_182805,
   178_137605_145405_153605_156305,
   179_114505_121105_128105_132605,
   180_952806_100905_106905_111205,
   181_783306_830506_880606_923806,
   182_644306_684006_726106_741206,
   183_525206_558206_593306_622706,
   184_428306_455806_485006_509006,
   185_345706_368306_392406_413306,
   186_279106_297806_317706_334906,
   187_222106_237306_253406_247306,
   188_176806_189106_202206_201406,
   189_139706_149506_160106_154806,
   190_110306_118306_126806_117606,
   191_864307_927707_995707_920007,
   192_677107_727607_781907_710807,
   193_528107_568207_611307_584807,
   194_411907_443707_478007_436807,
   195_319307_344407_371407_337207,
   196_247507_267307_288607_256207,
   197_190907_206407_223107_199707,
   198_147207_159407_172507_152107,
   199_108707_117807_127607_111207,
   200_802208_870408_944408_857708,
   201_609508_662108_719308_684008,
   202_463208_503708_547808_519108,
   203_352008_383208_417308_394508,
   204_267508_291608_317908_297508,
   205_203308_221908_242208_224008,
   206_154208_168508_184208_174808,
   207_117008_128108_140108_128308,
   208_888409_973109_106608_101608,
   209_674409_739609_811209_765909,
   210_512109_562309_617409_550909,
   211_378409_416009_457309_412909,
   212_279609_307709_338709_290909,
   213_206609_227609_250809_232909,
   214_152609_168409_185809_176809,
   215_112809_124609_137609_129409,
   216_825410_912710_100909_948210,
   217_604010_668710_740310_688110,
   218_442010_489910_543010_484810,
   219_323510_359010_398310_351310,
   220_236710_263010_292210_248210,
   221_173410_192810_214510_189310,
   222_127010_141410_157410_149010,
   223_929811_103710_115610_102110,
   224_681011_760111_848511_792711,
   225_498811_557411_622911_563811,
   226_367511_411111_460011_378811,
   227_270711_303311_339711_273911,
   228_199511_223711_250911_203311,
   229_147011_165111_185311_162411,
   230_108311_121811_136911_124711,
   231_807512_908712_102311_958612,
   232_602112_678312_764212_643312,
   233_449012_506512_571212_467412,
   234_335012_378312_427212_382512,
   235_250012_282612_319512_283312,
   236_190512_215612_244012_211412,
   237_145312_164612_186512_171712,
   238_110912_125812_142712_138912,
   239_847513_962513_109312_105912,
   240_648113_736913_837913_855713,
   241_511713_582513_663013_653513,
   242_404613_461113_525513_526613,
   243_320413_365513_417113_402713,
   244_254013_290213_331413_300013,
   245_201713_230613_263713_222113,
   246_171213_196013_224413_187113,
   247_145513_166713_191113_161213,
   248_123713_141913_162813_127013,
   249_105213_120813_138813_111313,
   250_895414_103013_118413_104213]

/-- atmdata/Venus/LAT80S.txt:3928-4078, columns 0 to 4. -/
def venusProfile27 : List ℕ :=
  [100_635202_647902_660902_681602,
   101_603502_615602_627902_644102,
   102_573002_584502_596202_610002,
   103_543802_554702_565802_579802,
   104_515902_526202_536702_549102,
   105_488902_498702_508702_520802,
   106_463102_472402_481802_490102,
   107_438302_447102_456002_464602,
   108_414302_422602_431102_440602,
   109_391702_399502_407502_413902,
   110_369802_377202_384702_392302,
   111_348802_355802_362902_370102,
   112_328802_335402_342102_347502,
   113_309802_316002_322302_327802,
   114_291602_297402_303302_307902,
   115_274002_279502_285102_289902,
   116_257502_262702_268002_272402,
   117_242002_246802_251702_256202,
   118_227302_231802_236402_242702,
   119_213102_217402_221702_228202,
   120_199902_203902_208002_214502,
   121_187402_191102_194902_200902,
   122_175302_178802_182402_188902,
   123_163802_167102_170402_175202,
   124_153102_156202_159302_162402,
   125_142802_145702_148602_151302,
   126_133202_135902_138602_142102,
   127_124002_126502_129002_131602,
   128_115402_117702_120102_122002,
   129_107202_109302_111502_113802,
   130_995103_101502_103502_105702,
   131_922203_940603_959403_992603,
   132_853303_870403_887803_921803,
   133_789603_805303_821503_843703,
   134_728803_743303_758203_773403,
   135_671903_685303_699003_713803,
   136_618503_630903_643503_656603,
   137_568603_579903_591503_609103,
   138_521503_531903_542503_554703,
   139_478103_487703_497403_507503,
   140_437203_445903_454903_468203,
   141_399103_407003_415203_426403,
   142_363403_370603_378103_386103,
   143_330003_336603_343403_350103,
   144_299503_305503_311603_311203,
   145_271203_276603_282103_282403,
   146_245003_249903_254903_256503,
   147_220403_224803_229303_228703,
   148_197703_201703_205703_205403,
   149_176803_180303_183903_183503,
   150_158103_161303_164503_163003,
   151_140803_143803_146803_146803,
   152_124703_127503_130403_131903,
   153_110803_113403_116103_115503,
   154_979704_100403_103003_102303,
   155_862704_885504_909004_898604,
   156_757804_778804_800504_805404,
   157_661504_680804_700604_708304,
   158_570204_587504_605404_609804,
   159_479304_494504_510204_515404,
   160_396704_409804_423304_430904,
   161_327704_339004_350604_352904,
   162_270804_280404_290404_292104,
   163_224004_232304_240804_237804,
   164_185304_192404_199704_191504,
   165_153004_159004_165304_156404,
   166_126304_131404_136804_131504,
   167_103904_108304_112804_107404,
   168_854905_892005_930705_902205,
   169_707805_739405_772505_748705,
   170_585905_612905_641105_644805,
   171_487105_510205_534305_535405,
   172_405005_424605_445305_445405,
   173_336805_353705_371305_368105,
   174_280205_294505_309605_308705,
   175_234005_246305_259205_249505,
   176_195405_205905_217005_212105,
   177_164005_173005_182505_176505,
   178_137605_145405_153605_151205,
   179_114505_121105_128105_127905,
   180_952806_100905_106905_105405,
   181_783306_830506_880606_858906,
   182_644306_684006_726106_700906,
   183_525206_558206_593306_559206,
   184_428306_455806_485006_456506,
   185_345706_368306_392406_372106,
   186_279106_297806_317706_293906,
   187_222106_237306_253406_240306,
   188_176806_189106_202206_198606,
   189_139706_149506_160106_162206,
   190_110306_118306_126806_121206,
   191_864307_927707_995707_917107,
   192_677107_727607_781907_704007,
   193_528107_568207_611307_551707,
   194_411907_443707_478007_435507,
   195_319307_344407_371407_344707,
   196_247507_267307_288607_265307,
   197_190907_206407_223107_205407,
   198_147207_159407_172507_159107,
   199_108707_117807_127607_118007,
   200_802208_870408_944408_846808,
   201_609508_662108_719308_633008,
   202_463208_503708_547808_483708,
   203_352008_383208_417308_378808,
   204_267508_291608_317908_289608,
   205_203308_221908_242208_214708,
   206_154208_168508_184208_171108,
   207_117008_128108_140108_131308,
   208_888409_973109_106608_100908,
   209_674409_739609_811209_803309,
   210_512109_562309_617409_601209,
   211_378409_416009_457309_457909,
   212_279609_307709_338709_341509,
   213_206609_227609_250809_239009,
   214_152609_168409_185809_175509,
   215_112809_124609_137609_124509,
   216_825410_912710_100909_923010,
   217_604010_668710_740310_687310,
   218_442010_489910_543010_491610,
   219_323510_359010_398310_358210,
   220_236710_263010_292210_252210,
   221_173410_192810_214510_176610,
   222_127010_141410_157410_126910,
   223_929811_103710_115610_949811,
   224_681011_760111_848511_700311,
   225_498811_557411_622911_504611,
   226_367511_411111_460011_375111,
   227_270711_303311_339711_270111,
   228_199511_223711_250911_193211,
   229_147011_165111_185311_145411,
   230_108311_121811_136911_101011,
   231_807512_908712_102311_693212,
   232_602112_678312_764212_553212,
   233_449012_506512_571212_426212,
   234_335012_378312_427212_323112,
   235_250012_282612_319512_238312,
   236_190512_215612_244012_187512,
   237_145312_164612_186512_142612,
   238_110912_125812_142712_111512,
   239_847513_962513_109312_813713,
   240_648113_736913_837913_612813,
   241_511713_582513_663013_503313,
   242_404613_461113_525513_410113,
   243_320413_365513_417113_305513,
   244_254013_290213_331413_250513,
   245_201713_230613_263713_196613,
   246_171213_196013_224413_151313,
   247_145513_166713_191113_128313,
   248_123713_141913_162813_109713,
   249_105213_120813_138813_866614,
   250_895414_103013_118413_839714]

/-- atmdata/Venus/LAT80S.txt:4079-4229, columns 0 to 4. -/
def venusProfile28 : List ℕ :=
  [100_635202_647902_660902_640502,
   101_603502_615602_627902_605602,
   102_573002_584502_596202_573702,
   103_543802_554702_565802_545302,
   104_515902_526202_536702_518302,
   105_488902_498702_508702_489802,
   106_463102_472402_481802_464502,
   107_438302_447102_456002_441302,
   108_414302_422602_431102_414002,
   109_391702_399502_407502_389202,
   110_369802_377202_384702_372602,
   111_348802_355802_362902_351302,
   112_328802_335402_342102_331502,
   113_309802_316002_322302_309802,
   114_291602_297402_303302_292502,
   115_274002_279502_285102_274102,
   116_257502_262702_268002_258302,
   117_242002_246802_251702_242202,
   118_227302_231802_236402_227402,
   119_213102_217402_221702_211602,
   120_199902_203902_208002_198602,
   121_187402_191102_194902_186702,
   122_175302_178802_182402_174902,
   123_163802_167102_170402_161502,
   124_153102_156202_159302_152102,
   125_142802_145702_148602_142502,
   126_133202_135902_138602_133002,
   127_124002_126502_129002_123702,
   128_115402_117702_120102_116302,
   129_107202_109302_111502_108002,
   130_995103_101502_103502_100802,
   131_922203_940603_959403_945603,
   132_853303_870403_887803_880603,
   133_789603_805303_821503_814103,
   134_728803_743303_758203_754603,
   135_671903_685303_699003_696903,
   136_618503_630903_643503_635403,
   137_568603_579903_591503_588903,
   138_521503_531903_542503_541603,
   139_478103_487703_497403_498503,
   140_437203_445903_454903_456003,
   141_399103_407003_415203_412803,
   142_363403_370603_378103_374903,
   143_330003_336603_343403_344503,
   144_299503_305503_311603_310503,
   145_271203_276603_282103_279703,
   146_245003_249903_254903_253703,
   147_220403_224803_229303_228503,
   148_197703_201703_205703_205403,
   149_176803_180303_183903_182803,
   150_158103_161303_164503_162903,
   151_140803_143803_146803_145003,
   152_124703_127503_130403_126903,
   153_110803_113403_116103_113103,
   154_979704_100403_103003_992404,
   155_862704_885504_909004_872704,
   156_757804_778804_800504_765104,
   157_661504_680804_700604_683904,
   158_570204_587504_605404_588704,
   159_479304_494504_510204_495704,
   160_396704_409804_423304_400204,
   161_327704_339004_350604_320904,
   162_270804_280404_290404_265404,
   163_224004_232304_240804_222904,
   164_185304_192404_199704_184104,
   165_153004_159004_165304_156304,
   166_126304_131404_136804_130804,
   167_103904_108304_112804_106304,
   168_854905_892005_930705_871805,
   169_707805_739405_772505_722505,
   170_585905_612905_641105_597105,
   171_487105_510205_534305_487305,
   172_405005_424605_445305_394805,
   173_336805_353705_371305_326305,
   174_280205_294505_309605_276605,
   175_234005_246305_259205_231905,
   176_195405_205905_217005_196205,
   177_164005_173005_182505_164305,
   178_137605_145405_153605_141505,
   179_114505_121105_128105_119705,
   180_952806_100905_106905_957106,
   181_783306_830506_880606_752706,
   182_644306_684006_726106_627906,
   183_525206_558206_593306_516206,
   184_428306_455806_485006_419906,
   185_345706_368306_392406_342906,
   186_279106_297806_317706_284006,
   187_222106_237306_253406_229106,
   188_176806_189106_202206_197206,
   189_139706_149506_160106_156406,
   190_110306_118306_126806_131106,
   191_864307_927707_995707_104406,
   192_677107_727607_781907_788407,
   193_528107_568207_611307_585607,
   194_411907_443707_478007_439307,
   195_319307_344407_371407_318807,
   196_247507_267307_288607_250207,
   197_190907_206407_223107_194007,
   198_147207_159407_172507_154307,
   199_108707_117807_127607_116807,
   200_802208_870408_944408_865508,
   201_609508_662108_719308_669108,
   202_463208_503708_547808_509208,
   203_352008_383208_417308_355408,
   204_267508_291608_317908_276408,
   205_203308_221908_242208_198608,
   206_154208_168508_184208_137708,
   207_117008_128108_140108_966409,
   208_888409_973109_106608_746209,
   209_674409_739609_811209_570509,
   210_512109_562309_617409_457009,
   211_378409_416009_457309_307209,
   212_279609_307709_338709_224209,
   213_206609_227609_250809_165809,
   214_152609_168409_185809_120709,
   215_112809_124609_137609_100309,
   216_825410_912710_100909_766810,
   217_604010_668710_740310_600010,
   218_442010_489910_543010_440310,
   219_323510_359010_398310_326310,
   220_236710_263010_292210_230010,
   221_173410_192810_214510_170810,
   222_127010_141410_157410_128510,
   223_929811_103710_115610_889511,
   224_681011_760111_848511_614111,
   225_498811_557411_622911_448011,
   226_367511_411111_460011_369211,
   227_270711_303311_339711_264511,
   228_199511_223711_250911_215211,
   229_147011_165111_185311_152011,
   230_108311_121811_136911_111611,
   231_807512_908712_102311_823512,
   232_602112_678312_764212_618212,
   233_449012_506512_571212_496212,
   234_335012_378312_427212_337512,
   235_250012_282612_319512_242512,
   236_190512_215612_244012_199412,
   237_145312_164612_186512_164012,
   238_110912_125812_142712_121312,
   239_847513_962513_109312_970313,
   240_648113_736913_837913_766013,
   241_511713_582513_663013_655113,
   242_404613_461113_525513_514213,
   243_320413_365513_417113_433113,
   244_254013_290213_331413_306213,
   245_201713_230613_263713_244213,
   246_171213_196013_224413_211913,
   247_145513_166713_191113_166813,
   248_123713_141913_162813_146013,
   249_105213_120813_138813_124913,
   250_895414_103013_118413_114013]

/-- atmdata/Venus/LAT80S.txt:4230-4380, columns 0 to 4. -/
def venusProfile29 : List ℕ :=
  [100_635202_647902_660902_649902,
   101_603502_615602_627902_613602,
   102_573002_584502_596202_579902,
   103_543802_554702_565802_549902,
   104_515902_526202_536702_523502,
   105_488902_498702_508702_498702,
   106_463102_472402_481802_476202,
   107_438302_447102_456002_452202,
   108_414302_422602_431102_426102,
   109_391702_399502_407502_399602,
   110_369802_377202_384702_375302,
   111_348802_355802_362902_352902,
   112_328802_335402_342102_334002,
   113_309802_316002_322302_314402,
   114_291602_297402_303302_298302,
   115_274002_279502_285102_281502,
   116_257502_262702_268002_265202,
   117_242002_246802_251702_252002,
   118_227302_231802_236402_237902,
   119_213102_217402_221702_222402,
   120_199902_203902_208002_207402,
   121_187402_191102_194902_194802,
   122_175302_178802_182402_180902,
   123_163802_167102_170402_169902,
   124_153102_156202_159302_159002,
   125_142802_145702_148602_149302,
   126_133202_135902_138602_138002,
   127_124002_126502_129002_128302,
   128_115402_117702_120102_119402,
   129_107202_109302_111502_109802,
   130_995103_101502_103502_102602,
   131_922203_940603_959403_960703,
   132_853303_870403_887803_894303,
   133_789603_805303_821503_832303,
   134_728803_743303_758203_765503,
   135_671903_685303_699003_706003,
   136_618503_630903_643503_649703,
   137_568603_579903_591503_600403,
   138_521503_531903_542503_547103,
   139_478103_487703_497403_496303,
   140_437203_445903_454903_451303,
   141_399103_407003_415203_413403,
   142_363403_370603_378103_375803,
   143_330003_336603_343403_340503,
   144_299503_305503_311603_308303,
   145_271203_276603_282103_280803,
   146_245003_249903_254903_254303,
   147_220403_224803_229303_226603,
   148_197703_201703_205703_204003,
   149_176803_180303_183903_180703,
   150_158103_161303_164503_161603,
   151_140803_143803_146803_145603,
   152_124703_127503_130403_128003,
   153_110803_113403_116103_112803,
   154_979704_100403_103003_100603,
   155_862704_885504_909004_884804,
   156_757804_778804_800504_783604,
   157_661504_680804_700604_678804,
   158_570204_587504_605404_583604,
   159_479304_494504_510204_489104,
   160_396704_409804_423304_401804,
   161_327704_339004_350604_335604,
   162_270804_280404_290404_275404,
   163_224004_232304_240804_227204,
   164_185304_192404_199704_189904,
   165_153004_159004_165304_157904,
   166_126304_131404_136804_131604,
   167_103904_108304_112804_106004,
   168_854905_892005_930705_895505,
   169_707805_739405_772505_738005,
   170_585905_612905_641105_623205,
   171_487105_510205_534305_525105,
   172_405005_424605_445305_438205,
   173_336805_353705_371305_356005,
   174_280205_294505_309605_300105,
   175_234005_246305_259205_256305,
   176_195405_205905_217005_213405,
   177_164005_173005_182505_177705,
   178_137605_145405_153605_151805,
   179_114505_121105_128105_127205,
   180_952806_100905_106905_107005,
   181_783306_830506_880606_886106,
   182_644306_684006_726106_738206,
   183_525206_558206_593306_611706,
   184_428306_455806_485006_486206,
   185_345706_368306_392406_390606,
   186_279106_297806_317706_309606,
   187_222106_237306_253406_244606,
   188_176806_189106_202206_187106,
   189_139706_149506_160106_145606,
   190_110306_118306_126806_120506,
   191_864307_927707_995707_940607,
   192_677107_727607_781907_706807,
   193_528107_568207_611307_559407,
   194_411907_443707_478007_441907,
   195_319307_344407_371407_338107,
   196_247507_267307_288607_267607,
   197_190907_206407_223107_205507,
   198_147207_159407_172507_171707,
   199_108707_117807_127607_132907,
   200_802208_870408_944408_100507,
   201_609508_662108_719308_717408,
   202_463208_503708_547808_543208,
   203_352008_383208_417308_401308,
   204_267508_291608_317908_312708,
   205_203308_221908_242208_246608,
   206_154208_168508_184208_178308,
   207_117008_128108_140108_133808,
   208_888409_973109_106608_978409,
   209_674409_739609_811209_768209,
   210_512109_562309_617409_540909,
   211_378409_416009_457309_388409,
   212_279609_307709_338709_297309,
   213_206609_227609_250809_219109,
   214_152609_168409_185809_172309,
   215_112809_124609_137609_130109,
   216_825410_912710_100909_976810,
   217_604010_668710_740310_664910,
   218_442010_489910_543010_489610,
   219_323510_359010_398310_362110,
   220_236710_263010_292210_253010,
   221_173410_192810_214510_195510,
   222_127010_141410_157410_155610,
   223_929811_103710_115610_114410,
   224_681011_760111_848511_849511,
   225_498811_557411_622911_605611,
   226_367511_411111_460011_439611,
   227_270711_303311_339711_308911,
   228_199511_223711_250911_233511,
   229_147011_165111_185311_178611,
   230_108311_121811_136911_134811,
   231_807512_908712_102311_101811,
   232_602112_678312_764212_722312,
   233_449012_506512_571212_514212,
   234_335012_378312_427212_387512,
   235_250012_282612_319512_266412,
   236_190512_215612_244012_192312,
   237_145312_164612_186512_146712,
   238_110912_125812_142712_124212,
   239_847513_962513_109312_939613,
   240_648113_736913_837913_676913,
   241_511713_582513_663013_517313,
   242_404613_461113_525513_408813,
   243_320413_365513_417113_337913,
   244_254013_290213_331413_268713,
   245_201713_230613_263713_224313,
   246_171213_196013_224413_185613,
   247_145513_166713_191113_170513,
   248_123713_141913_162813_161913,
   249_105213_120813_138813_117413,
   250_895414_103013_118413_107013]

/-- atmdata/Venus/LAT80S.txt:4381-4531, columns 0 to 4. -/
def venusProfile30 : List ℕ :=
  [100_635202_647902_660902_661102,
   101_603502_615602_627902_622802,
   102_573002_584502_596202_586302,
   103_543802_554702_565802_554502,
   104_515902_526202_536702_529102,
   105_488902_498702_508702_501002,
   106_463102_472402_481802_473502,
   107_438302_447102_456002_449902,
   108_414302_422602_431102_425302,
   109_391702_399502_407502_397902,
   110_369802_377202_384702_374702,
   111_348802_355802_362902_351102,
   112_328802_335402_342102_336102,
   113_309802_316002_322302_317802,
   114_291602_297402_303302_297602,
   115_274002_279502_285102_279102,
   116_257502_262702_268002_263102,
   117_242002_246802_251702_247702,
   118_227302_231802_236402_231902,
   119_213102_217402_221702_217802,
   120_199902_203902_208002_205702,
   121_187402_191102_194902_193502,
   122_175302_178802_182402_181502,
   123_163802_167102_170402_170002,
   124_153102_156202_159302_158502,
   125_142802_145702_148602_146702,
   126_133202_135902_138602_137102,
   127_124002_126502_129002_127702,
   128_115402_117702_120102_118102,
   129_107202_109302_111502_109902,
   130_995103_101502_103502_100302,
   131_922203_940603_959403_939203,
   132_853303_870403_887803_875503,
   133_789603_805303_821503_807303,
   134_728803_743303_758203_752003,
   135_671903_685303_699003_693703,
   136_618503_630903_643503_632203,
   137_568603_579903_591503_584403,
   138_521503_531903_542503_537603,
   139_478103_487703_497403_491503,
   140_437203_445903_454903_452303,
   141_399103_407003_415203_411703,
   142_363403_370603_378103_374703,
   143_330003_336603_343403_342203,
   144_299503_305503_311603_310703,
   145_271203_276603_282103_280703,
   146_245003_249903_254903_253803,
   147_220403_224803_229303_228403,
   148_197703_201703_205703_205803,
   149_176803_180303_183903_185303,
   150_158103_161303_164503_165903,
   151_140803_143803_146803_147703,
   152_124703_127503_130403_130203,
   153_110803_113403_116103_116203,
   154_979704_100403_103003_102603,
   155_862704_885504_909004_903104,
   156_757804_778804_800504_785004,
   157_661504_680804_700604_684804,
   158_570204_587504_605404_587704,
   159_479304_494504_510204_489404,
   160_396704_409804_423304_405104,
   161_327704_339004_350604_335004,
   162_270804_280404_290404_272704,
   163_224004_232304_240804_233804,
   164_185304_192404_199704_186204,
   165_153004_159004_165304_153204,
   166_126304_131404_136804_127504,
   167_103904_108304_112804_109404,
   168_854905_892005_930705_898205,
   169_707805_739405_772505_737205,
   170_585905_612905_641105_603605,
   171_487105_510205_534305_499605,
   172_405005_424605_445305_406105,
   173_336805_353705_371305_365005,
   174_280205_294505_309605_307505,
   175_234005_246305_259205_252405,
   176_195405_205905_217005_208405,
   177_164005_173005_182505_173905,
   178_137605_145405_153605_148705,
   179_114505_121105_128105_124305,
   180_952806_100905_106905_102505,
   181_783306_830506_880606_832106,
   182_644306_684006_726106_710606,
   183_525206_558206_593306_558406,
   184_428306_455806_485006_438706,
   185_345706_368306_392406_353506,
   186_279106_297806_317706_294106,
   187_222106_237306_253406_229806,
   188_176806_189106_202206_178906,
   189_139706_149506_160106_150106,
   190_110306_118306_126806_122706,
   191_864307_927707_995707_927107,
   192_677107_727607_781907_679207,
   193_528107_568207_611307_519507,
   194_411907_443707_478007_394407,
   195_319307_344407_371407_312407,
   196_247507_267307_288607_254107,
   197_190907_206407_223107_195207,
   198_147207_159407_172507_147407,
   199_108707_117807_127607_105607,
   200_802208_870408_944408_761108,
   201_609508_662108_719308_582308,
   202_463208_503708_547808_449008,
   203_352008_383208_417308_345208,
   204_267508_291608_317908_277708,
   205_203308_221908_242208_216308,
   206_154208_168508_184208_160608,
   207_117008_128108_140108_126908,
   208_888409_973109_106608_103608,
   209_674409_739609_811209_762009,
   210_512109_562309_617409_568609,
   211_378409_416009_457309_415909,
   212_279609_307709_338709_301509,
   213_206609_227609_250809_225509,
   214_152609_168409_185809_169509,
   215_112809_124609_137609_124709,
   216_825410_912710_100909_950210,
   217_604010_668710_740310_674910,
   218_442010_489910_543010_503110,
   219_323510_359010_398310_374010,
   220_236710_263010_292210_259310,
   221_173410_192810_214510_184110,
   222_127010_141410_157410_132510,
   223_929811_103710_115610_917111,
   224_681011_760111_848511_660111,
   225_498811_557411_622911_481011,
   226_367511_411111_460011_382211,
   227_270711_303311_339711_269911,
   228_199511_223711_250911_199611,
   229_147011_165111_185311_147111,
   230_108311_121811_136911_996512,
   231_807512_908712_102311_843312,
   232_602112_678312_764212_681512,
   233_449012_506512_571212_510212,
   234_335012_378312_427212_358612,
   235_250012_282612_319512_290612,
   236_190512_215612_244012_218012,
   237_145312_164612_186512_180412,
   238_110912_125812_142712_139612,
   239_847513_962513_109312_956513,
   240_648113_736913_837913_736013,
   241_511713_582513_663013_584613,
   242_404613_461113_525513_451213,
   243_320413_365513_417113_358213,
   244_254013_290213_331413_306213,
   245_201713_230613_263713_276013,
   246_171213_196013_224413_249113,
   247_145513_166713_191113_212613,
   248_123713_141913_162813_172013,
   249_105213_120813_138813_143613,
   250_895414_103013_118413_127213]

/-- atmdata/Venus/LAT80S.txt:4532-4682, columns 0 to 4. -/
def venusProfile31 : List ℕ :=
  [100_635202_647902_660902_633602,
   101_603502_615602_627902_594502,
   102_573002_584502_596202_569202,
   103_543802_554702_565802_537102,
   104_515902_526202_536702_504002,
   105_488902_498702_508702_473602,
   106_463102_472402_481802_450902,
   107_438302_447102_456002_429402,
   108_414302_422602_431102_408002,
   109_391702_399502_407502_390202,
   110_369802_377202_384702_368402,
   111_348802_355802_362902_350302,
   112_328802_335402_342102_329102,
   113_309802_316002_322302_308502,
   114_291602_297402_303302_290202,
   115_274002_279502_285102_274702,
   116_257502_262702_268002_259302,
   117_242002_246802_251702_243102,
   118_227302_231802_236402_229302,
   119_213102_217402_221702_216502,
   120_199902_203902_208002_203402,
   121_187402_191102_194902_191602,
   122_175302_178802_182402_178702,
   123_163802_167102_170402_167102,
   124_153102_156202_159302_155102,
   125_142802_145702_148602_144302,
   126_133202_135902_138602_134002,
   127_124002_126502_129002_125102,
   128_115402_117702_120102_117002,
   129_107202_109302_111502_108202,
   130_995103_101502_103502_998403,
   131_922203_940603_959403_934203,
   132_853303_870403_887803_871503,
   133_789603_805303_821503_808903,
   134_728803_743303_758203_746603,
   135_671903_685303_699003_688603,
   136_618503_630903_643503_634303,
   137_568603_579903_591503_585603,
   138_521503_531903_542503_534203,
   139_478103_487703_497403_490703,
   140_437203_445903_454903_448503,
   141_399103_407003_415203_415403,
   142_363403_370603_378103_378303,
   143_330003_336603_343403_341803,
   144_299503_305503_311603_311503,
   145_271203_276603_282103_286503,
   146_245003_249903_254903_258403,
   147_220403_224803_229303_229803,
   148_197703_201703_205703_207203,
   149_176803_180303_183903_185603,
   150_158103_161303_164503_166603,
   151_140803_143803_146803_150203,
   152_124703_127503_130403_132603,
   153_110803_113403_116103_117203,
   154_979704_100403_103003_101603,
   155_862704_885504_909004_895004,
   156_757804_778804_800504_787404,
   157_661504_680804_700604_691204,
   158_570204_587504_605404_592104,
   159_479304_494504_510204_486104,
   160_396704_409804_423304_405304,
   161_327704_339004_350604_331804,
   162_270804_280404_290404_282004,
   163_224004_232304_240804_234404,
   164_185304_192404_199704_192704,
   165_153004_159004_165304_155104,
   166_126304_131404_136804_128504,
   167_103904_108304_112804_108204,
   168_854905_892005_930705_921505,
   169_707805_739405_772505_751805,
   170_585905_612905_641105_627905,
   171_487105_510205_534305_543405,
   172_405005_424605_445305_453205,
   173_336805_353705_371305_383905,
   174_280205_294505_309605_322505,
   175_234005_246305_259205_269705,
   176_195405_205905_217005_219305,
   177_164005_173005_182505_182605,
   178_137605_145405_153605_155305,
   179_114505_121105_128105_128805,
   180_952806_100905_106905_102205,
   181_783306_830506_880606_874306,
   182_644306_684006_726106_694006,
   183_525206_558206_593306_561406,
   184_428306_455806_485006_476206,
   185_345706_368306_392406_379406,
   186_279106_297806_317706_303106,
   187_222106_237306_253406_229306,
   188_176806_189106_202206_180106,
   189_139706_149506_160106_144806,
   190_110306_118306_126806_117806,
   191_864307_927707_995707_947607,
   192_677107_727607_781907_778007,
   193_528107_568207_611307_618107,
   194_411907_443707_478007_485507,
   195_319307_344407_371407_390307,
   196_247507_267307_288607_283407,
   197_190907_206407_223107_215007,
   198_147207_159407_172507_164707,
   199_108707_117807_127607_119807,
   200_802208_870408_944408_884508,
   201_609508_662108_719308_694408,
   202_463208_503708_547808_527608,
   203_352008_383208_417308_409708,
   204_267508_291608_317908_282208,
   205_203308_221908_242208_215808,
   206_154208_168508_184208_162408,
   207_117008_128108_140108_120308,
   208_888409_973109_106608_942509,
   209_674409_739609_811209_731909,
   210_512109_562309_617409_565909,
   211_378409_416009_457309_422909,
   212_279609_307709_338709_326109,
   213_206609_227609_250809_246709,
   214_152609_168409_185809_178809,
   215_112809_124609_137609_127209,
   216_825410_912710_100909_979410,
   217_604010_668710_740310_711310,
   218_442010_489910_543010_535110,
   219_323510_359010_398310_398410,
   220_236710_263010_292210_274310,
   221_173410_192810_214510_202410,
   222_127010_141410_157410_150510,
   223_929811_103710_115610_111010,
   224_681011_760111_848511_853011,
   225_498811_557411_622911_610411,
   226_367511_411111_460011_439111,
   227_270711_303311_339711_304211,
   228_199511_223711_250911_214811,
   229_147011_165111_185311_144811,
   230_108311_121811_136911_106011,
   231_807512_908712_102311_777212,
   232_602112_678312_764212_601612,
   233_449012_506512_571212_478212,
   234_335012_378312_427212_366612,
   235_250012_282612_319512_286912,
   236_190512_215612_244012_223612,
   237_145312_164612_186512_169012,
   238_110912_125812_142712_126112,
   239_847513_962513_109312_986813,
   240_648113_736913_837913_823513,
   241_511713_582513_663013_678213,
   242_404613_461113_525513_509613,
   243_320413_365513_417113_388613,
   244_254013_290213_331413_299113,
   245_201713_230613_263713_226413,
   246_171213_196013_224413_194313,
   247_145513_166713_191113_164313,
   248_123713_141913_162813_141213,
   249_105213_120813_138813_131413,
   250_895414_103013_118413_117113]

/-- atmdata/Venus/LAT80S.txt:4683-4833, columns 0 to 4. -/
def venusProfile32 : List ℕ :=
  [100_635202_647902_660902_645102,
   101_603502_615602_627902_618102,
   102_573002_584502_596202_589402,
   103_543802_554702_565802_563302,
   104_515902_526202_536702_531302,
   105_488902_498702_508702_504102,
   106_463102_472402_481802_474802,
   107_438302_447102_456002_451502,
   108_414302_422602_431102_420202,
   109_391702_399502_407502_400402,
   110_369802_377202_384702_378502,
   111_348802_355802_362902_358202,
   112_328802_335402_342102_337402,
   113_309802_316002_322302_317802,
   114_291602_297402_303302_299602,
   115_274002_279502_285102_281202,
   116_257502_262702_268002_265402,
   117_242002_246802_251702_252002,
   118_227302_231802_236402_235302,
   119_213102_217402_221702_219402,
   120_199902_203902_208002_205202,
   121_187402_191102_194902_193402,
   122_175302_178802_182402_182102,
   123_163802_167102_170402_169802,
   124_153102_156202_159302_159602,
   125_142802_145702_148602_148702,
   126_133202_135902_138602_139202,
   127_124002_126502_129002_129902,
   128_115402_117702_120102_120502,
   129_107202_109302_111502_112402,
   130_995103_101502_103502_103802,
   131_922203_940603_959403_969203,
   132_853303_870403_887803_902903,
   133_789603_805303_821503_828203,
   134_728803_743303_758203_757403,
   135_671903_685303_699003_697703,
   136_618503_630903_643503_635303,
   137_568603_579903_591503_585903,
   138_521503_531903_542503_538903,
   139_478103_487703_497403_498003,
   140_437203_445903_454903_451703,
   141_399103_407003_415203_412703,
   142_363403_370603_378103_376403,
   143_330003_336603_343403_342703,
   144_299503_305503_311603_314503,
   145_271203_276603_282103_284603,
   146_245003_249903_254903_256403,
   147_220403_224803_229303_230603,
   148_197703_201703_205703_208103,
   149_176803_180303_183903_185703,
   150_158103_161303_164503_167403,
   151_140803_143803_146803_149103,
   152_124703_127503_130403_132003,
   153_110803_113403_116103_118103,
   154_979704_100403_103003_104803,
   155_862704_885504_909004_922904,
   156_757804_778804_800504_821704,
   157_661504_680804_700604_726604,
   158_570204_587504_605404_620604,
   159_479304_494504_510204_527704,
   160_396704_409804_423304_442204,
   161_327704_339004_350604_371804,
   162_270804_280404_290404_309804,
   163_224004_232304_240804_252504,
   164_185304_192404_199704_209404,
   165_153004_159004_165304_174004,
   166_126304_131404_136804_142804,
   167_103904_108304_112804_118404,
   168_854905_892005_930705_969805,
   169_707805_739405_772505_785005,
   170_585905_612905_641105_632805,
   171_487105_510205_534305_528105,
   172_405005_424605_445305_429105,
   173_336805_353705_371305_361605,
   174_280205_294505_309605_305605,
   175_234005_246305_259205_242705,
   176_195405_205905_217005_187805,
   177_164005_173005_182505_158105,
   178_137605_145405_153605_136005,
   179_114505_121105_128105_113505,
   180_952806_100905_106905_963006,
   181_783306_830506_880606_799706,
   182_644306_684006_726106_650306,
   183_525206_558206_593306_539306,
   184_428306_455806_485006_450706,
   185_345706_368306_392406_358706,
   186_279106_297806_317706_301306,
   187_222106_237306_253406_246706,
   188_176806_189106_202206_194106,
   189_139706_149506_160106_151506,
   190_110306_118306_126806_122206,
   191_864307_927707_995707_953007,
   192_677107_727607_781907_771707,
   193_528107_568207_611307_592107,
   194_411907_443707_478007_447007,
   195_319307_344407_371407_338307,
   196_247507_267307_288607_255607,
   197_190907_206407_223107_194607,
   198_147207_159407_172507_153307,
   199_108707_117807_127607_114207,
   200_802208_870408_944408_874808,
   201_609508_662108_719308_646508,
   202_463208_503708_547808_494308,
   203_352008_383208_417308_416208,
   204_267508_291608_317908_301508,
   205_203308_221908_242208_225308,
   206_154208_168508_184208_170908,
   207_117008_128108_140108_131508,
   208_888409_973109_106608_998809,
   209_674409_739609_811209_725209,
   210_512109_562309_617409_595709,
   211_378409_416009_457309_453309,
   212_279609_307709_338709_329709,
   213_206609_227609_250809_255509,
   214_152609_168409_185809_177409,
   215_112809_124609_137609_141009,
   216_825410_912710_100909_109209,
   217_604010_668710_740310_803110,
   218_442010_489910_543010_606810,
   219_323510_359010_398310_449710,
   220_236710_263010_292210_307610,
   221_173410_192810_214510_237810,
   222_127010_141410_157410_190810,
   223_929811_103710_115610_130210,
   224_681011_760111_848511_935911,
   225_498811_557411_622911_667211,
   226_367511_411111_460011_504111,
   227_270711_303311_339711_345311,
   228_199511_223711_250911_268311,
   229_147011_165111_185311_198611,
   230_108311_121811_136911_147211,
   231_807512_908712_102311_109411,
   232_602112_678312_764212_794012,
   233_449012_506512_571212_557012,
   234_335012_378312_427212_395312,
   235_250012_282612_319512_301312,
   236_190512_215612_244012_246212,
   237_145312_164612_186512_203212,
   238_110912_125812_142712_140412,
   239_847513_962513_109312_103212,
   240_648113_736913_837913_770313,
   241_511713_582513_663013_570213,
   242_404613_461113_525513_425313,
   243_320413_365513_417113_313313,
   244_254013_290213_331413_263213,
   245_201713_230613_263713_208913,
   246_171213_196013_224413_169913,
   247_145513_166713_191113_139713,
   248_123713_141913_162813_129313,
   249_105213_120813_138813_109213,
   250_895414_103013_118413_986214]

/-- atmdata/Venus/LAT80S.txt:4834-4984, columns 0 to 4. -/
def venusProfile33 : List ℕ :=
  [100_635202_647902_660902_654602,
   101_603502_615602_627902_625802,
   102_573002_584502_596202_595302,
   103_543802_554702_565802_566702,
   104_515902_526202_536702_535602,
   105_488902_498702_508702_505302,
   106_463102_472402_481802_478702,
   107_438302_447102_456002_455402,
   108_414302_422602_431102_428602,
   109_391702_399502_407502_407502,
   110_369802_377202_384702_385802,
   111_348802_355802_362902_363902,
   112_328802_335402_342102_343702,
   113_309802_316002_322302_325302,
   114_291602_297402_303302_307802,
   115_274002_279502_285102_291602,
   116_257502_262702_268002_275102,
   117_242002_246802_251702_258502,
   118_227302_231802_236402_242702,
   119_213102_217402_221702_227002,
   120_199902_203902_208002_210502,
   121_187402_191102_194902_198602,
   122_175302_178802_182402_185502,
   123_163802_167102_170402_172402,
   124_153102_156202_159302_161202,
   125_142802_145702_148602_150602,
   126_133202_135902_138602_140002,
   127_124002_126502_129002_130902,
   128_115402_117702_120102_123202,
   129_107202_109302_111502_114002,
   130_995103_101502_103502_105502,
   131_922203_940603_959403_983303,
   132_853303_870403_887803_915803,
   133_789603_805303_821503_845703,
   134_728803_743303_758203_780703,
   135_671903_685303_699003_717803,
   136_618503_630903_643503_659803,
   137_568603_579903_591503_606803,
   138_521503_531903_542503_552603,
   139_478103_487703_497403_503103,
   140_437203_445903_454903_461303,
   141_399103_407003_415203_418403,
   142_363403_370603_378103_381803,
   143_330003_336603_343403_343603,
   144_299503_305503_311603_309503,
   145_271203_276603_282103_278103,
   146_245003_249903_254903_250503,
   147_220403_224803_229303_222903,
   148_197703_201703_205703_202003,
   149_176803_180303_183903_179903,
   150_158103_161303_164503_159403,
   151_140803_143803_146803_143903,
   152_124703_127503_130403_127603,
   153_110803_113403_116103_113103,
   154_979704_100403_103003_995104,
   155_862704_885504_909004_877904,
   156_757804_778804_800504_768204,
   157_661504_680804_700604_663504,
   158_570204_587504_605404_567004,
   159_479304_494504_510204_480904,
   160_396704_409804_423304_392104,
   161_327704_339004_350604_327004,
   162_270804_280404_290404_272704,
   163_224004_232304_240804_229404,
   164_185304_192404_199704_195704,
   165_153004_159004_165304_161304,
   166_126304_131404_136804_132504,
   167_103904_108304_112804_109904,
   168_854905_892005_930705_872405,
   169_707805_739405_772505_704805,
   170_585905_612905_641105_587005,
   171_487105_510205_534305_482305,
   172_405005_424605_445305_406505,
   173_336805_353705_371305_341205,
   174_280205_294505_309605_290105,
   175_234005_246305_259205_241505,
   176_195405_205905_217005_206805,
   177_164005_173005_182505_173005,
   178_137605_145405_153605_147605,
   179_114505_121105_128105_121905,
   180_952806_100905_106905_100605,
   181_783306_830506_880606_812806,
   182_644306_684006_726106_668206,
   183_525206_558206_593306_573606,
   184_428306_455806_485006_471806,
   185_345706_368306_392406_371706,
   186_279106_297806_317706_299106,
   187_222106_237306_253406_240906,
   188_176806_189106_202206_191206,
   189_139706_149506_160106_143806,
   190_110306_118306_126806_115806,
   191_864307_927707_995707_879407,
   192_677107_727607_781907_710607,
   193_528107_568207_611307_578607,
   194_411907_443707_478007_458207,
   195_319307_344407_371407_355307,
   196_247507_267307_288607_271607,
   197_190907_206407_223107_204807,
   198_147207_159407_172507_165307,
   199_108707_117807_127607_124707,
   200_802208_870408_944408_886608,
   201_609508_662108_719308_678908,
   202_463208_503708_547808_517308,
   203_352008_383208_417308_382708,
   204_267508_291608_317908_283808,
   205_203308_221908_242208_208908,
   206_154208_168508_184208_161408,
   207_117008_128108_140108_114608,
   208_888409_973109_106608_860309,
   209_674409_739609_811209_666809,
   210_512109_562309_617409_499409,
   211_378409_416009_457309_416209,
   212_279609_307709_338709_329209,
   213_206609_227609_250809_227109,
   214_152609_168409_185809_174609,
   215_112809_124609_137609_132109,
   216_825410_912710_100909_884110,
   217_604010_668710_740310_684110,
   218_442010_489910_543010_556610,
   219_323510_359010_398310_419910,
   220_236710_263010_292210_286310,
   221_173410_192810_214510_203910,
   222_127010_141410_157410_146010,
   223_929811_103710_115610_108010,
   224_681011_760111_848511_737711,
   225_498811_557411_622911_536111,
   226_367511_411111_460011_386211,
   227_270711_303311_339711_264611,
   228_199511_223711_250911_201911,
   229_147011_165111_185311_145811,
   230_108311_121811_136911_121611,
   231_807512_908712_102311_971712,
   232_602112_678312_764212_676212,
   233_449012_506512_571212_502912,
   234_335012_378312_427212_389112,
   235_250012_282612_319512_291712,
   236_190512_215612_244012_211912,
   237_145312_164612_186512_161712,
   238_110912_125812_142712_128112,
   239_847513_962513_109312_105112,
   240_648113_736913_837913_831213,
   241_511713_582513_663013_644813,
   242_404613_461113_525513_457513,
   243_320413_365513_417113_388313,
   244_254013_290213_331413_291513,
   245_201713_230613_263713_236913,
   246_171213_196013_224413_212013,
   247_145513_166713_191113_154613,
   248_123713_141913_162813_124613,
   249_105213_120813_138813_114313,
   250_895414_103013_118413_102213]

/-- atmdata/Venus/LAT80S.txt:4985-5135, columns 0 to 4. -/
def venusProfile34 : List ℕ :=
  [100_635202_647902_660902_674502,
   101_603502_615602_627902_643402,
   102_573002_584502_596202_610702,
   103_543802_554702_565802_579502,
   104_515902_526202_536702_548402,
   105_488902_498702_508702_521102,
   106_463102_472402_481802_496802,
   107_438302_447102_456002_472202,
   108_414302_422602_431102_445302,
   109_391702_399502_407502_422302,
   110_369802_377202_384702_400602,
   111_348802_355802_362902_376602,
   112_328802_335402_342102_356902,
   113_309802_316002_322302_334202,
   114_291602_297402_303302_312202,
   115_274002_279502_285102_292902,
   116_257502_262702_268002_276502,
   117_242002_246802_251702_258602,
   118_227302_231802_236402_240502,
   119_213102_217402_221702_225902,
   120_199902_203902_208002_212302,
   121_187402_191102_194902_200802,
   122_175302_178802_182402_186202,
   123_163802_167102_170402_172402,
   124_153102_156202_159302_160602,
   125_142802_145702_148602_150602,
   126_133202_135902_138602_141402,
   127_124002_126502_129002_132502,
   128_115402_117702_120102_123302,
   129_107202_109302_111502_112502,
   130_995103_101502_103502_104302,
   131_922203_940603_959403_972603,
   132_853303_870403_887803_906903,
   133_789603_805303_821503_844603,
   134_728803_743303_758203_774803,
   135_671903_685303_699003_712203,
   136_618503_630903_643503_647403,
   137_568603_579903_591503_595503,
   138_521503_531903_542503_547303,
   139_478103_487703_497403_500903,
   140_437203_445903_454903_456703,
   141_399103_407003_415203_419003,
   142_363403_370603_378103_382803,
   143_330003_336603_343403_347303,
   144_299503_305503_311603_313903,
   145_271203_276603_282103_284903,
   146_245003_249903_254903_255903,
   147_220403_224803_229303_230003,
   148_197703_201703_205703_208703,
   149_176803_180303_183903_184503,
   150_158103_161303_164503_163903,
   151_140803_143803_146803_146003,
   152_124703_127503_130403_129703,
   153_110803_113403_116103_116603,
   154_979704_100403_103003_104103,
   155_862704_885504_909004_918304,
   156_757804_778804_800504_810804,
   157_661504_680804_700604_705204,
   158_570204_587504_605404_600204,
   159_479304_494504_510204_505204,
   160_396704_409804_423304_415504,
   161_327704_339004_350604_342404,
   162_270804_280404_290404_283204,
   163_224004_232304_240804_234004,
   164_185304_192404_199704_192004,
   165_153004_159004_165304_156304,
   166_126304_131404_136804_128204,
   167_103904_108304_112804_106104,
   168_854905_892005_930705_877105,
   169_707805_739405_772505_766105,
   170_585905_612905_641105_653205,
   171_487105_510205_534305_551105,
   172_405005_424605_445305_448105,
   173_336805_353705_371305_370805,
   174_280205_294505_309605_313705,
   175_234005_246305_259205_265505,
   176_195405_205905_217005_223205,
   177_164005_173005_182505_185905,
   178_137605_145405_153605_157405,
   179_114505_121105_128105_128905,
   180_952806_100905_106905_101905,
   181_783306_830506_880606_860806,
   182_644306_684006_726106_712606,
   183_525206_558206_593306_570306,
   184_428306_455806_485006_464706,
   185_345706_368306_392406_363806,
   186_279106_297806_317706_312906,
   187_222106_237306_253406_247606,
   188_176806_189106_202206_197406,
   189_139706_149506_160106_158406,
   190_110306_118306_126806_126006,
   191_864307_927707_995707_100706,
   192_677107_727607_781907_798907,
   193_528107_568207_611307_617807,
   194_411907_443707_478007_466907,
   195_319307_344407_371407_371507,
   196_247507_267307_288607_286907,
   197_190907_206407_223107_214507,
   198_147207_159407_172507_158707,
   199_108707_117807_127607_124707,
   200_802208_870408_944408_916608,
   201_609508_662108_719308_741008,
   202_463208_503708_547808_561008,
   203_352008_383208_417308_422908,
   204_267508_291608_317908_315008,
   205_203308_221908_242208_258508,
   206_154208_168508_184208_198508,
   207_117008_128108_140108_148108,
   208_888409_973109_106608_105608,
   209_674409_739609_811209_739809,
   210_512109_562309_617409_568209,
   211_378409_416009_457309_405709,
   212_279609_307709_338709_300609,
   213_206609_227609_250809_215909,
   214_152609_168409_185809_161109,
   215_112809_124609_137609_119409,
   216_825410_912710_100909_828910,
   217_604010_668710_740310_575710,
   218_442010_489910_543010_402210,
   219_323510_359010_398310_319210,
   220_236710_263010_292210_219210,
   221_173410_192810_214510_167110,
   222_127010_141410_157410_127110,
   223_929811_103710_115610_882811,
   224_681011_760111_848511_672111,
   225_498811_557411_622911_493211,
   226_367511_411111_460011_380311,
   227_270711_303311_339711_255011,
   228_199511_223711_250911_188611,
   229_147011_165111_185311_151111,
   230_108311_121811_136911_109411,
   231_807512_908712_102311_791012,
   232_602112_678312_764212_629512,
   233_449012_506512_571212_492112,
   234_335012_378312_427212_357912,
   235_250012_282612_319512_265812,
   236_190512_215612_244012_202712,
   237_145312_164612_186512_129512,
   238_110912_125812_142712_100312,
   239_847513_962513_109312_787913,
   240_648113_736913_837913_581113,
   241_511713_582513_663013_488913,
   242_404613_461113_525513_431413,
   243_320413_365513_417113_352713,
   244_254013_290213_331413_285813,
   245_201713_230613_263713_242713,
   246_171213_196013_224413_203913,
   247_145513_166713_191113_180913,
   248_123713_141913_162813_151813,
   249_105213_120813_138813_124813,
   250_895414_103013_118413_110513]

/-- atmdata/Venus/LAT80S.txt:5136-5286, columns 0 to 4. -/
def venusProfile35 : List ℕ :=
  [100_635202_647902_660902_639902,
   101_603502_615602_627902_610802,
   102_573002_584502_596202_579902,
   103_543802_554702_565802_550102,
   104_515902_526202_536702_522202,
   105_488902_498702_508702_494302,
   106_463102_472402_481802_467502,
   107_438302_447102_456002_445602,
   108_414302_422602_431102_422402,
   109_391702_399502_407502_401002,
   110_369802_377202_384702_375502,
   111_348802_355802_362902_352802,
   112_328802_335402_342102_331002,
   113_309802_316002_322302_312302,
   114_291602_297402_303302_293502,
   115_274002_279502_285102_273602,
   116_257502_262702_268002_259302,
   117_242002_246802_251702_246202,
   118_227302_231802_236402_231202,
   119_213102_217402_221702_219202,
   120_199902_203902_208002_205402,
   121_187402_191102_194902_190502,
   122_175302_178802_182402_178702,
   123_163802_167102_170402_168402,
   124_153102_156202_159302_156102,
   125_142802_145702_148602_144502,
   126_133202_135902_138602_134802,
   127_124002_126502_129002_124202,
   128_115402_117702_120102_115102,
   129_107202_109302_111502_107202,
   130_995103_101502_103502_997403,
   131_922203_940603_959403_931403,
   132_853303_870403_887803_871003,
   133_789603_805303_821503_803803,
   134_728803_743303_758203_746103,
   135_671903_685303_699003_686703,
   136_618503_630903_643503_632403,
   137_568603_579903_591503_581903,
   138_521503_531903_542503_530903,
   139_478103_487703_497403_489003,
   140_437203_445903_454903_441803,
   141_399103_407003_415203_403203,
   142_363403_370603_378103_369803,
   143_330003_336603_343403_340303,
   144_299503_305503_311603_308903,
   145_271203_276603_282103_278603,
   146_245003_249903_254903_250003,
   147_220403_224803_229303_222103,
   148_197703_201703_205703_196603,
   149_176803_180303_183903_177503,
   150_158103_161303_164503_158603,
   151_140803_143803_146803_143303,
   152_124703_127503_130403_127603,
   153_110803_113403_116103_113403,
   154_979704_100403_103003_100303,
   155_862704_885504_909004_885804,
   156_757804_778804_800504_767804,
   157_661504_680804_700604_673004,
   158_570204_587504_605404_571904,
   159_479304_494504_510204_479804,
   160_396704_409804_423304_398304,
   161_327704_339004_350604_325104,
   162_270804_280404_290404_268204,
   163_224004_232304_240804_217304,
   164_185304_192404_199704_181504,
   165_153004_159004_165304_153504,
   166_126304_131404_136804_125604,
   167_103904_108304_112804_103504,
   168_854905_892005_930705_833305,
   169_707805_739405_772505_713005,
   170_585905_612905_641105_588805,
   171_487105_510205_534305_490105,
   172_405005_424605_445305_413405,
   173_336805_353705_371305_341405,
   174_280205_294505_309605_291105,
   175_234005_246305_259205_238705,
   176_195405_205905_217005_200405,
   177_164005_173005_182505_168305,
   178_137605_145405_153605_143505,
   179_114505_121105_128105_117705,
   180_952806_100905_106905_994606,
   181_783306_830506_880606_819506,
   182_644306_684006_726106_690006,
   183_525206_558206_593306_564806,
   184_428306_455806_485006_456006,
   185_345706_368306_392406_353506,
   186_279106_297806_317706_287306,
   187_222106_237306_253406_225406,
   188_176806_189106_202206_182306,
   189_139706_149506_160106_143906,
   190_110306_118306_126806_114806,
   191_864307_927707_995707_899707,
   192_677107_727607_781907_715907,
   193_528107_568207_611307_527807,
   194_411907_443707_478007_422107,
   195_319307_344407_371407_316507,
   196_247507_267307_288607_251107,
   197_190907_206407_223107_188407,
   198_147207_159407_172507_144607,
   199_108707_117807_127607_104007,
   200_802208_870408_944408_803508,
   201_609508_662108_719308_607108,
   202_463208_503708_547808_467608,
   203_352008_383208_417308_366508,
   204_267508_291608_317908_279008,
   205_203308_221908_242208_220208,
   206_154208_168508_184208_174708,
   207_117008_128108_140108_137508,
   208_888409_973109_106608_108108,
   209_674409_739609_811209_812709,
   210_512109_562309_617409_644609,
   211_378409_416009_457309_466909,
   212_279609_307709_338709_319609,
   213_206609_227609_250809_232609,
   214_152609_168409_185809_167209,
   215_112809_124609_137609_120209,
   216_825410_912710_100909_846810,
   217_604010_668710_740310_609810,
   218_442010_489910_543010_434710,
   219_323510_359010_398310_348310,
   220_236710_263010_292210_236910,
   221_173410_192810_214510_160210,
   222_127010_141410_157410_107910,
   223_929811_103710_115610_824111,
   224_681011_760111_848511_597211,
   225_498811_557411_622911_444111,
   226_367511_411111_460011_320011,
   227_270711_303311_339711_274011,
   228_199511_223711_250911_193011,
   229_147011_165111_185311_144711,
   230_108311_121811_136911_109811,
   231_807512_908712_102311_830112,
   232_602112_678312_764212_629712,
   233_449012_506512_571212_441112,
   234_335012_378312_427212_351012,
   235_250012_282612_319512_256212,
   236_190512_215612_244012_203512,
   237_145312_164612_186512_156612,
   238_110912_125812_142712_113112,
   239_847513_962513_109312_823213,
   240_648113_736913_837913_648913,
   241_511713_582513_663013_464013,
   242_404613_461113_525513_400213,
   243_320413_365513_417113_320013,
   244_254013_290213_331413_233113,
   245_201713_230613_263713_172413,
   246_171213_196013_224413_136113,
   247_145513_166713_191113_121613,
   248_123713_141913_162813_112013,
   249_105213_120813_138813_102613,
   250_895414_103013_118413_922714]

/-- atmdata/Venus/LAT80S.txt:5287-5437, columns 0 to 4. -/
def venusProfile36 : List ℕ :=
  [100_635202_647902_660902_649402,
   101_603502_615602_627902_619202,
   102_573002_584502_596202_586702,
   103_543802_554702_565802_555102,
   104_515902_526202_536702_527802,
   105_488902_498702_508702_505202,
   106_463102_472402_481802_480002,
   107_438302_447102_456002_457502,
   108_414302_422602_431102_435502,
   109_391702_399502_407502_412702,
   110_369802_377202_384702_387602,
   111_348802_355802_362902_362102,
   112_328802_335402_342102_340702,
   113_309802_316002_322302_323202,
   114_291602_297402_303302_304402,
   115_274002_279502_285102_286202,
   116_257502_262702_268002_271202,
   117_242002_246802_251702_254902,
   118_227302_231802_236402_241102,
   119_213102_217402_221702_225002,
   120_199902_203902_208002_209702,
   121_187402_191102_194902_194902,
   122_175302_178802_182402_181702,
   123_163802_167102_170402_170302,
   124_153102_156202_159302_160002,
   125_142802_145702_148602_148602,
   126_133202_135902_138602_137302,
   127_124002_126502_129002_126902,
   128_115402_117702_120102_118702,
   129_107202_109302_111502_109602,
   130_995103_101502_103502_102102,
   131_922203_940603_959403_951803,
   132_853303_870403_887803_889903,
   133_789603_805303_821503_825803,
   134_728803_743303_758203_760103,
   135_671903_685303_699003_698603,
   136_618503_630903_643503_634603,
   137_568603_579903_591503_583403,
   138_521503_531903_542503_536703,
   139_478103_487703_497403_486803,
   140_437203_445903_454903_446403,
   141_399103_407003_415203_403903,
   142_363403_370603_378103_371203,
   143_330003_336603_343403_336603,
   144_299503_305503_311603_306803,
   145_271203_276603_282103_279803,
   146_245003_249903_254903_250303,
   147_220403_224803_229303_225203,
   148_197703_201703_205703_200003,
   149_176803_180303_183903_179503,
   150_158103_161303_164503_160603,
   151_140803_143803_146803_143103,
   152_124703_127503_130403_127603,
   153_110803_113403_116103_111103,
   154_979704_100403_103003_971604,
   155_862704_885504_909004_859404,
   156_757804_778804_800504_755704,
   157_661504_680804_700604_667804,
   158_570204_587504_605404_564804,
   159_479304_494504_510204_471104,
   160_396704_409804_423304_394404,
   161_327704_339004_350604_331904,
   162_270804_280404_290404_271704,
   163_224004_232304_240804_226904,
   164_185304_192404_199704_192504,
   165_153004_159004_165304_159704,
   166_126304_131404_136804_129704,
   167_103904_108304_112804_106204,
   168_854905_892005_930705_880405,
   169_707805_739405_772505_744105,
   170_585905_612905_641105_626605,
   171_487105_510205_534305_504805,
   172_405005_424605_445305_413705,
   173_336805_353705_371305_338405,
   174_280205_294505_309605_289305,
   175_234005_246305_259205_243005,
   176_195405_205905_217005_202005,
   177_164005_173005_182505_169605,
   178_137605_145405_153605_144405,
   179_114505_121105_128105_117805,
   180_952806_100905_106905_974106,
   181_783306_830506_880606_781906,
   182_644306_684006_726106_679706,
   183_525206_558206_593306_570006,
   184_428306_455806_485006_454606,
   185_345706_368306_392406_391406,
   186_279106_297806_317706_302306,
   187_222106_237306_253406_230606,
   188_176806_189106_202206_187506,
   189_139706_149506_160106_143506,
   190_110306_118306_126806_114006,
   191_864307_927707_995707_866207,
   192_677107_727607_781907_687607,
   193_528107_568207_611307_543607,
   194_411907_443707_478007_415707,
   195_319307_344407_371407_322307,
   196_247507_267307_288607_259507,
   197_190907_206407_223107_192907,
   198_147207_159407_172507_150807,
   199_108707_117807_127607_110707,
   200_802208_870408_944408_792108,
   201_609508_662108_719308_621808,
   202_463208_503708_547808_478108,
   203_352008_383208_417308_395208,
   204_267508_291608_317908_302308,
   205_203308_221908_242208_232308,
   206_154208_168508_184208_191708,
   207_117008_128108_140108_140708,
   208_888409_973109_106608_107408,
   209_674409_739609_811209_853509,
   210_512109_562309_617409_623809,
   211_378409_416009_457309_461609,
   212_279609_307709_338709_341709,
   213_206609_227609_250809_251509,
   214_152609_168409_185809_201309,
   215_112809_124609_137609_160509,
   216_825410_912710_100909_112409,
   217_604010_668710_740310_810810,
   218_442010_489910_543010_575410,
   219_323510_359010_398310_382710,
   220_236710_263010_292210_256110,
   221_173410_192810_214510_186010,
   222_127010_141410_157410_134810,
   223_929811_103710_115610_935311,
   224_681011_760111_848511_730311,
   225_498811_557411_622911_534311,
   226_367511_411111_460011_404211,
   227_270711_303311_339711_324511,
   228_199511_223711_250911_251911,
   229_147011_165111_185311_174711,
   230_108311_121811_136911_138011,
   231_807512_908712_102311_106811,
   232_602112_678312_764212_766212,
   233_449012_506512_571212_560012,
   234_335012_378312_427212_407812,
   235_250012_282612_319512_287012,
   236_190512_215612_244012_246312,
   237_145312_164612_186512_169012,
   238_110912_125812_142712_135712,
   239_847513_962513_109312_107412,
   240_648113_736913_837913_718213,
   241_511713_582513_663013_556113,
   242_404613_461113_525513_458513,
   243_320413_365513_417113_351413,
   244_254013_290213_331413_279613,
   245_201713_230613_263713_216713,
   246_171213_196013_224413_191113,
   247_145513_166713_191113_159113,
   248_123713_141913_162813_122513,
   249_105213_120813_138813_100913,
   250_895414_103013_118413_905714]

/-- atmdata/Venus/LAT80S.txt:5438-5588, columns 0 to 4. -/
def venusProfile37 : List ℕ :=
  [100_635202_647902_660902_660302,
   101_603502_615602_627902_628702,
   102_573002_584502_596202_594502,
   103_543802_554702_565802_560702,
   104_515902_526202_536702_533902,
   105_488902_498702_508702_506202,
   106_463102_472402_481802_476802,
   107_438302_447102_456002_455202,
   108_414302_422602_431102_428002,
   109_391702_399502_407502_405602,
   110_369802_377202_384702_382002,
   111_348802_355802_362902_362202,
   112_328802_335402_342102_341802,
   113_309802_316002_322302_320902,
   114_291602_297402_303302_303502,
   115_274002_279502_285102_283402,
   116_257502_262702_268002_271102,
   117_242002_246802_251702_253702,
   118_227302_231802_236402_237702,
   119_213102_217402_221702_222802,
   120_199902_203902_208002_210002,
   121_187402_191102_194902_195502,
   122_175302_178802_182402_184002,
   123_163802_167102_170402_172002,
   124_153102_156202_159302_160802,
   125_142802_145702_148602_149802,
   126_133202_135902_138602_139802,
   127_124002_126502_129002_129402,
   128_115402_117702_120102_120202,
   129_107202_109302_111502_112002,
   130_995103_101502_103502_104402,
   131_922203_940603_959403_972303,
   132_853303_870403_887803_909203,
   133_789603_805303_821503_834603,
   134_728803_743303_758203_777703,
   135_671903_685303_699003_713603,
   136_618503_630903_643503_655803,
   137_568603_579903_591503_601503,
   138_521503_531903_542503_547903,
   139_478103_487703_497403_500303,
   140_437203_445903_454903_455403,
   141_399103_407003_415203_416603,
   142_363403_370603_378103_383903,
   143_330003_336603_343403_350203,
   144_299503_305503_311603_320303,
   145_271203_276603_282103_289003,
   146_245003_249903_254903_264503,
   147_220403_224803_229303_233703,
   148_197703_201703_205703_207503,
   149_176803_180303_183903_185203,
   150_158103_161303_164503_165803,
   151_140803_143803_146803_150003,
   152_124703_127503_130403_134103,
   153_110803_113403_116103_119303,
   154_979704_100403_103003_106003,
   155_862704_885504_909004_936504,
   156_757804_778804_800504_830904,
   157_661504_680804_700604_712304,
   158_570204_587504_605404_629304,
   159_479304_494504_510204_517104,
   160_396704_409804_423304_436104,
   161_327704_339004_350604_361004,
   162_270804_280404_290404_291404,
   163_224004_232304_240804_238804,
   164_185304_192404_199704_195504,
   165_153004_159004_165304_159904,
   166_126304_131404_136804_129104,
   167_103904_108304_112804_105104,
   168_854905_892005_930705_850505,
   169_707805_739405_772505_717105,
   170_585905_612905_641105_586905,
   171_487105_510205_534305_494405,
   172_405005_424605_445305_417605,
   173_336805_353705_371305_334805,
   174_280205_294505_309605_287205,
   175_234005_246305_259205_249105,
   176_195405_205905_217005_204605,
   177_164005_173005_182505_171705,
   178_137605_145405_153605_146005,
   179_114505_121105_128105_118105,
   180_952806_100905_106905_932206,
   181_783306_830506_880606_787306,
   182_644306_684006_726106_633506,
   183_525206_558206_593306_504906,
   184_428306_455806_485006_397806,
   185_345706_368306_392406_338606,
   186_279106_297806_317706_277806,
   187_222106_237306_253406_229906,
   188_176806_189106_202206_188706,
   189_139706_149506_160106_153206,
   190_110306_118306_126806_120506,
   191_864307_927707_995707_967807,
   192_677107_727607_781907_757107,
   193_528107_568207_611307_571107,
   194_411907_443707_478007_455007,
   195_319307_344407_371407_359207,
   196_247507_267307_288607_297907,
   197_190907_206407_223107_217607,
   198_147207_159407_172507_172107,
   199_108707_117807_127607_127207,
   200_802208_870408_944408_932508,
   201_609508_662108_719308_677308,
   202_463208_503708_547808_517308,
   203_352008_383208_417308_382208,
   204_267508_291608_317908_296508,
   205_203308_221908_242208_224408,
   206_154208_168508_184208_162808,
   207_117008_128108_140108_125908,
   208_888409_973109_106608_949709,
   209_674409_739609_811209_714209,
   210_512109_562309_617409_546509,
   211_378409_416009_457309_418109,
   212_279609_307709_338709_296009,
   213_206609_227609_250809_224209,
   214_152609_168409_185809_170009,
   215_112809_124609_137609_129409,
   216_825410_912710_100909_923610,
   217_604010_668710_740310_692810,
   218_442010_489910_543010_503010,
   219_323510_359010_398310_346210,
   220_236710_263010_292210_229310,
   221_173410_192810_214510_176010,
   222_127010_141410_157410_133710,
   223_929811_103710_115610_997011,
   224_681011_760111_848511_731011,
   225_498811_557411_622911_535711,
   226_367511_411111_460011_376811,
   227_270711_303311_339711_299811,
   228_199511_223711_250911_224811,
   229_147011_165111_185311_171911,
   230_108311_121811_136911_122011,
   231_807512_908712_102311_866112,
   232_602112_678312_764212_577312,
   233_449012_506512_571212_452012,
   234_335012_378312_427212_365812,
   235_250012_282612_319512_247712,
   236_190512_215612_244012_184212,
   237_145312_164612_186512_143812,
   238_110912_125812_142712_111712,
   239_847513_962513_109312_851313,
   240_648113_736913_837913_651913,
   241_511713_582513_663013_531513,
   242_404613_461113_525513_434113,
   243_320413_365513_417113_315513,
   244_254013_290213_331413_276013,
   245_201713_230613_263713_221113,
   246_171213_196013_224413_184313,
   247_145513_166713_191113_146813,
   248_123713_141913_162813_123113,
   249_105213_120813_138813_109713,
   250_895414_103013_118413_970014]

/-- atmdata/Venus/LAT80S.txt:5589-5739, columns 0 to 4. -/
def venusProfile38 : List ℕ :=
  [100_635202_647902_660902_632602,
   101_603502_615602_627902_602802,
   102_573002_584502_596202_569302,
   103_543802_554702_565802_545702,
   104_515902_526202_536702_521802,
   105_488902_498702_508702_492202,
   106_463102_472402_481802_466702,
   107_438302_447102_456002_447102,
   108_414302_422602_431102_422102,
   109_391702_399502_407502_399902,
   110_369802_377202_384702_377602,
   111_348802_355802_362902_357102,
   112_328802_335402_342102_338502,
   113_309802_316002_322302_319402,
   114_291602_297402_303302_298502,
   115_274002_279502_285102_281202,
   116_257502_262702_268002_261802,
   117_242002_246802_251702_248302,
   118_227302_231802_236402_234302,
   119_213102_217402_221702_220602,
   120_199902_203902_208002_207102,
   121_187402_191102_194902_193102,
   122_175302_178802_182402_180502,
   123_163802_167102_170402_168602,
   124_153102_156202_159302_157102,
   125_142802_145702_148602_146902,
   126_133202_135902_138602_136302,
   127_124002_126502_129002_126502,
   128_115402_117702_120102_116502,
   129_107202_109302_111502_108002,
   130_995103_101502_103502_101302,
   131_922203_940603_959403_943803,
   132_853303_870403_887803_886303,
   133_789603_805303_821503_820103,
   134_728803_743303_758203_756903,
   135_671903_685303_699003_694903,
   136_618503_630903_643503_630103,
   137_568603_579903_591503_578503,
   138_521503_531903_542503_532403,
   139_478103_487703_497403_489103,
   140_437203_445903_454903_451303,
   141_399103_407003_415203_410503,
   142_363403_370603_378103_369703,
   143_330003_336603_343403_334503,
   144_299503_305503_311603_301503,
   145_271203_276603_282103_269703,
   146_245003_249903_254903_246303,
   147_220403_224803_229303_221703,
   148_197703_201703_205703_197803,
   149_176803_180303_183903_176303,
   150_158103_161303_164503_158803,
   151_140803_143803_146803_141603,
   152_124703_127503_130403_127103,
   153_110803_113403_116103_111903,
   154_979704_100403_103003_986604,
   155_862704_885504_909004_873404,
   156_757804_778804_800504_762904,
   157_661504_680804_700604_663004,
   158_570204_587504_605404_583104,
   159_479304_494504_510204_497504,
   160_396704_409804_423304_407004,
   161_327704_339004_350604_334904,
   162_270804_280404_290404_282404,
   163_224004_232304_240804_238204,
   164_185304_192404_199704_197504,
   165_153004_159004_165304_169504,
   166_126304_131404_136804_134504,
   167_103904_108304_112804_108404,
   168_854905_892005_930705_899605,
   169_707805_739405_772505_752105,
   170_585905_612905_641105_627205,
   171_487105_510205_534305_515505,
   172_405005_424605_445305_422805,
   173_336805_353705_371305_361505,
   174_280205_294505_309605_308805,
   175_234005_246305_259205_255005,
   176_195405_205905_217005_205605,
   177_164005_173005_182505_172605,
   178_137605_145405_153605_146605,
   179_114505_121105_128105_117205,
   180_952806_100905_106905_989706,
   181_783306_830506_880606_811406,
   182_644306_684006_726106_661706,
   183_525206_558206_593306_539006,
   184_428306_455806_485006_457906,
   185_345706_368306_392406_380506,
   186_279106_297806_317706_298006,
   187_222106_237306_253406_240606,
   188_176806_189106_202206_199506,
   189_139706_149506_160106_157106,
   190_110306_118306_126806_122906,
   191_864307_927707_995707_958007,
   192_677107_727607_781907_745807,
   193_528107_568207_611307_592307,
   194_411907_443707_478007_451107,
   195_319307_344407_371407_328107,
   196_247507_267307_288607_246807,
   197_190907_206407_223107_178707,
   198_147207_159407_172507_130207,
   199_108707_117807_127607_100907,
   200_802208_870408_944408_781008,
   201_609508_662108_719308_600108,
   202_463208_503708_547808_463408,
   203_352008_383208_417308_354408,
   204_267508_291608_317908_280508,
   205_203308_221908_242208_209608,
   206_154208_168508_184208_155608,
   207_117008_128108_140108_111508,
   208_888409_973109_106608_825909,
   209_674409_739609_811209_662309,
   210_512109_562309_617409_530409,
   211_378409_416009_457309_429509,
   212_279609_307709_338709_323309,
   213_206609_227609_250809_248309,
   214_152609_168409_185809_181209,
   215_112809_124609_137609_133309,
   216_825410_912710_100909_958310,
   217_604010_668710_740310_741110,
   218_442010_489910_543010_541810,
   219_323510_359010_398310_376310,
   220_236710_263010_292210_307510,
   221_173410_192810_214510_211810,
   222_127010_141410_157410_143610,
   223_929811_103710_115610_993311,
   224_681011_760111_848511_681011,
   225_498811_557411_622911_503211,
   226_367511_411111_460011_379811,
   227_270711_303311_339711_299111,
   228_199511_223711_250911_217411,
   229_147011_165111_185311_158411,
   230_108311_121811_136911_118311,
   231_807512_908712_102311_880812,
   232_602112_678312_764212_680312,
   233_449012_506512_571212_463712,
   234_335012_378312_427212_346812,
   235_250012_282612_319512_279012,
   236_190512_215612_244012_213612,
   237_145312_164612_186512_150912,
   238_110912_125812_142712_111312,
   239_847513_962513_109312_765113,
   240_648113_736913_837913_636013,
   241_511713_582513_663013_555013,
   242_404613_461113_525513_445213,
   243_320413_365513_417113_375213,
   244_254013_290213_331413_290713,
   245_201713_230613_263713_240213,
   246_171213_196013_224413_226213,
   247_145513_166713_191113_203013,
   248_123713_141913_162813_173113,
   249_105213_120813_138813_137313,
   250_895414_103013_118413_118513]

/-- atmdata/Venus/LAT80S.txt:5740-5890, columns 0 to 4. -/
def venusProfile39 : List ℕ :=
  [100_635202_647902_660902_644602,
   101_603502_615602_627902_613502,
   102_573002_584502_596202_590102,
   103_543802_554702_565802_562302,
   104_515902_526202_536702_529202,
   105_488902_498702_508702_503102,
   106_463102_472402_481802_480302,
   107_438302_447102_456002_449402,
   108_414302_422602_431102_425502,
   109_391702_399502_407502_402802,
   110_369802_377202_384702_381002,
   111_348802_355802_362902_359302,
   112_328802_335402_342102_336302,
   113_309802_316002_322302_312702,
   114_291602_297402_303302_293802,
   115_274002_279502_285102_275102,
   116_257502_262702_268002_256702,
   117_242002_246802_251702_241802,
   118_227302_231802_236402_226502,
   119_213102_217402_221702_210902,
   120_199902_203902_208002_197502,
   121_187402_191102_194902_184602,
   122_175302_178802_182402_171702,
   123_163802_167102_170402_160202,
   124_153102_156202_159302_148802,
   125_142802_145702_148602_139902,
   126_133202_135902_138602_131302,
   127_124002_126502_129002_122202,
   128_115402_117702_120102_114102,
   129_107202_109302_111502_107302,
   130_995103_101502_103502_987603,
   131_922203_940603_959403_921403,
   132_853303_870403_887803_840903,
   133_789603_805303_821503_788003,
   134_728803_743303_758203_723103,
   135_671903_685303_699003_664803,
   136_618503_630903_643503_612903,
   137_568603_579903_591503_563103,
   138_521503_531903_542503_514503,
   139_478103_487703_497403_476403,
   140_437203_445903_454903_436603,
   141_399103_407003_415203_403103,
   142_363403_370603_378103_364403,
   143_330003_336603_343403_332403,
   144_299503_305503_311603_301003,
   145_271203_276603_282103_273203,
   146_245003_249903_254903_248603,
   147_220403_224803_229303_227003,
   148_197703_201703_205703_202503,
   149_176803_180303_183903_179203,
   150_158103_161303_164503_162103,
   151_140803_143803_146803_147303,
   152_124703_127503_130403_128603,
   153_110803_113403_116103_114803,
   154_979704_100403_103003_103003,
   155_862704_885504_909004_911104,
   156_757804_778804_800504_803304,
   157_661504_680804_700604_701704,
   158_570204_587504_605404_613404,
   159_479304_494504_510204_518704,
   160_396704_409804_423304_427204,
   161_327704_339004_350604_346004,
   162_270804_280404_290404_288704,
   163_224004_232304_240804_238804,
   164_185304_192404_199704_201304,
   165_153004_159004_165304_167304,
   166_126304_131404_136804_141404,
   167_103904_108304_112804_111504,
   168_854905_892005_930705_902605,
   169_707805_739405_772505_751505,
   170_585905_612905_641105_604905,
   171_487105_510205_534305_517005,
   172_405005_424605_445305_436205,
   173_336805_353705_371305_367805,
   174_280205_294505_309605_314505,
   175_234005_246305_259205_265005,
   176_195405_205905_217005_226805,
   177_164005_173005_182505_189205,
   178_137605_145405_153605_159305,
   179_114505_121105_128105_137805,
   180_952806_100905_106905_112705,
   181_783306_830506_880606_885506,
   182_644306_684006_726106_725806,
   183_525206_558206_593306_598606,
   184_428306_455806_485006_495706,
   185_345706_368306_392406_406006,
   186_279106_297806_317706_330006,
   187_222106_237306_253406_260706,
   188_176806_189106_202206_194206,
   189_139706_149506_160106_149406,
   190_110306_118306_126806_116706,
   191_864307_927707_995707_886107,
   192_677107_727607_781907_690107,
   193_528107_568207_611307_531807,
   194_411907_443707_478007_427207,
   195_319307_344407_371407_327707,
   196_247507_267307_288607_251107,
   197_190907_206407_223107_208307,
   198_147207_159407_172507_157307,
   199_108707_117807_127607_124607,
   200_802208_870408_944408_881908,
   201_609508_662108_719308_700108,
   202_463208_503708_547808_533708,
   203_352008_383208_417308_412908,
   204_267508_291608_317908_328608,
   205_203308_221908_242208_236808,
   206_154208_168508_184208_176608,
   207_117008_128108_140108_133108,
   208_888409_973109_106608_107908,
   209_674409_739609_811209_794609,
   210_512109_562309_617409_577309,
   211_378409_416009_457309_410609,
   212_279609_307709_338709_295409,
   213_206609_227609_250809_194709,
   214_152609_168409_185809_139509,
   215_112809_124609_137609_101809,
   216_825410_912710_100909_754710,
   217_604010_668710_740310_530510,
   218_442010_489910_543010_406310,
   219_323510_359010_398310_290910,
   220_236710_263010_292210_240210,
   221_173410_192810_214510_177110,
   222_127010_141410_157410_129410,
   223_929811_103710_115610_968911,
   224_681011_760111_848511_729311,
   225_498811_557411_622911_536611,
   226_367511_411111_460011_370411,
   227_270711_303311_339711_290511,
   228_199511_223711_250911_202311,
   229_147011_165111_185311_125411,
   230_108311_121811_136911_101911,
   231_807512_908712_102311_805412,
   232_602112_678312_764212_605112,
   233_449012_506512_571212_447212,
   234_335012_378312_427212_383212,
   235_250012_282612_319512_297712,
   236_190512_215612_244012_235712,
   237_145312_164612_186512_180612,
   238_110912_125812_142712_146812,
   239_847513_962513_109312_113012,
   240_648113_736913_837913_825013,
   241_511713_582513_663013_621113,
   242_404613_461113_525513_487013,
   243_320413_365513_417113_392413,
   244_254013_290213_331413_323813,
   245_201713_230613_263713_279913,
   246_171213_196013_224413_237413,
   247_145513_166713_191113_203413,
   248_123713_141913_162813_183413,
   249_105213_120813_138813_155313,
   250_895414_103013_118413_132113]

/-- atmdata/Venus/LAT80S.txt:5891-6041, columns 0 to 4. -/
def venusProfile40 : List ℕ :=
  [100_635202_647902_660902_654002,
   101_603502_615602_627902_621802,
   102_573002_584502_596202_593602,
   103_543802_554702_565802_564102,
   104_515902_526202_536702_532602,
   105_488902_498702_508702_503502,
   106_463102_472402_481802_475902,
   107_438302_447102_456002_446302,
   108_414302_422602_431102_424402,
   109_391702_399502_407502_401502,
   110_369802_377202_384702_380802,
   111_348802_355802_362902_358302,
   112_328802_335402_342102_336902,
   113_309802_316002_322302_316802,
   114_291602_297402_303302_298402,
   115_274002_279502_285102_281502,
   116_257502_262702_268002_262902,
   117_242002_246802_251702_246202,
   118_227302_231802_236402_231902,
   119_213102_217402_221702_217002,
   120_199902_203902_208002_200902,
   121_187402_191102_194902_187802,
   122_175302_178802_182402_176402,
   123_163802_167102_170402_164002,
   124_153102_156202_159302_154202,
   125_142802_145702_148602_142602,
   126_133202_135902_138602_132802,
   127_124002_126502_129002_123702,
   128_115402_117702_120102_114802,
   129_107202_109302_111502_106802,
   130_995103_101502_103502_987303,
   131_922203_940603_959403_920803,
   132_853303_870403_887803_842403,
   133_789603_805303_821503_779103,
   134_728803_743303_758203_722603,
   135_671903_685303_699003_663903,
   136_618503_630903_643503_622203,
   137_568603_579903_591503_570803,
   138_521503_531903_542503_525603,
   139_478103_487703_497403_479503,
   140_437203_445903_454903_436403,
   141_399103_407003_415203_399303,
   142_363403_370603_378103_361803,
   143_330003_336603_343403_326603,
   144_299503_305503_311603_297003,
   145_271203_276603_282103_267703,
   146_245003_249903_254903_243403,
   147_220403_224803_229303_219203,
   148_197703_201703_205703_196103,
   149_176803_180303_183903_177003,
   150_158103_161303_164503_157003,
   151_140803_143803_146803_140003,
   152_124703_127503_130403_123003,
   153_110803_113403_116103_108703,
   154_979704_100403_103003_964304,
   155_862704_885504_909004_855504,
   156_757804_778804_800504_736104,
   157_661504_680804_700604_649204,
   158_570204_587504_605404_568004,
   159_479304_494504_510204_479304,
   160_396704_409804_423304_398804,
   161_327704_339004_350604_334204,
   162_270804_280404_290404_277604,
   163_224004_232304_240804_226204,
   164_185304_192404_199704_185304,
   165_153004_159004_165304_152904,
   166_126304_131404_136804_129204,
   167_103904_108304_112804_109004,
   168_854905_892005_930705_907205,
   169_707805_739405_772505_752205,
   170_585905_612905_641105_622605,
   171_487105_510205_534305_518105,
   172_405005_424605_445305_425705,
   173_336805_353705_371305_356705,
   174_280205_294505_309605_306905,
   175_234005_246305_259205_249005,
   176_195405_205905_217005_211305,
   177_164005_173005_182505_177205,
   178_137605_145405_153605_149905,
   179_114505_121105_128105_128605,
   180_952806_100905_106905_995606,
   181_783306_830506_880606_830306,
   182_644306_684006_726106_691906,
   183_525206_558206_593306_533606,
   184_428306_455806_485006_441206,
   185_345706_368306_392406_362806,
   186_279106_297806_317706_287706,
   187_222106_237306_253406_226306,
   188_176806_189106_202206_174606,
   189_139706_149506_160106_144006,
   190_110306_118306_126806_112306,
   191_864307_927707_995707_906607,
   192_677107_727607_781907_700607,
   193_528107_568207_611307_566907,
   194_411907_443707_478007_434607,
   195_319307_344407_371407_341307,
   196_247507_267307_288607_264307,
   197_190907_206407_223107_214707,
   198_147207_159407_172507_165107,
   199_108707_117807_127607_117807,
   200_802208_870408_944408_868008,
   201_609508_662108_719308_647008,
   202_463208_503708_547808_496608,
   203_352008_383208_417308_405808,
   204_267508_291608_317908_288208,
   205_203308_221908_242208_231908,
   206_154208_168508_184208_175208,
   207_117008_128108_140108_138308,
   208_888409_973109_106608_107008,
   209_674409_739609_811209_824309,
   210_512109_562309_617409_619809,
   211_378409_416009_457309_449409,
   212_279609_307709_338709_340809,
   213_206609_227609_250809_240209,
   214_152609_168409_185809_185809,
   215_112809_124609_137609_124709,
   216_825410_912710_100909_914710,
   217_604010_668710_740310_657510,
   218_442010_489910_543010_499410,
   219_323510_359010_398310_355610,
   220_236710_263010_292210_282710,
   221_173410_192810_214510_215310,
   222_127010_141410_157410_161110,
   223_929811_103710_115610_110710,
   224_681011_760111_848511_783611,
   225_498811_557411_622911_574111,
   226_367511_411111_460011_424511,
   227_270711_303311_339711_326611,
   228_199511_223711_250911_251411,
   229_147011_165111_185311_186411,
   230_108311_121811_136911_130711,
   231_807512_908712_102311_903712,
   232_602112_678312_764212_646712,
   233_449012_506512_571212_495312,
   234_335012_378312_427212_372212,
   235_250012_282612_319512_283712,
   236_190512_215612_244012_198812,
   237_145312_164612_186512_142412,
   238_110912_125812_142712_112012,
   239_847513_962513_109312_836913,
   240_648113_736913_837913_664913,
   241_511713_582513_663013_533113,
   242_404613_461113_525513_417813,
   243_320413_365513_417113_331313,
   244_254013_290213_331413_253613,
   245_201713_230613_263713_192813,
   246_171213_196013_224413_158913,
   247_145513_166713_191113_136813,
   248_123713_141913_162813_112713,
   249_105213_120813_138813_887414,
   250_895414_103013_118413_797114]

/-- atmdata/Venus/LAT80S.txt:6042-6192, columns 0 to 4. -/
def venusProfile41 : List ℕ :=
  [100_635202_647902_660902_671302,
   101_603502_615602_627902_637402,
   102_573002_584502_596202_606602,
   103_543802_554702_565802_574902,
   104_515902_526202_536702_543602,
   105_488902_498702_508702_518302,
   106_463102_472402_481802_492002,
   107_438302_447102_456002_461602,
   108_414302_422602_431102_433302,
   109_391702_399502_407502_409402,
   110_369802_377202_384702_389702,
   111_348802_355802_362902_365402,
   112_328802_335402_342102_344402,
   113_309802_316002_322302_325202,
   114_291602_297402_303302_307202,
   115_274002_279502_285102_287602,
   116_257502_262702_268002_268602,
   117_242002_246802_251702_254402,
   118_227302_231802_236402_237402,
   119_213102_217402_221702_222802,
   120_199902_203902_208002_209402,
   121_187402_191102_194902_195702,
   122_175302_178802_182402_182402,
   123_163802_167102_170402_172502,
   124_153102_156202_159302_161202,
   125_142802_145702_148602_149602,
   126_133202_135902_138602_140402,
   127_124002_126502_129002_130702,
   128_115402_117702_120102_122202,
   129_107202_109302_111502_112602,
   130_995103_101502_103502_104102,
   131_922203_940603_959403_968103,
   132_853303_870403_887803_885103,
   133_789603_805303_821503_822103,
   134_728803_743303_758203_755503,
   135_671903_685303_699003_692103,
   136_618503_630903_643503_636803,
   137_568603_579903_591503_582903,
   138_521503_531903_542503_531703,
   139_478103_487703_497403_487303,
   140_437203_445903_454903_448203,
   141_399103_407003_415203_406703,
   142_363403_370603_378103_368803,
   143_330003_336603_343403_335303,
   144_299503_305503_311603_305503,
   145_271203_276603_282103_277903,
   146_245003_249903_254903_251703,
   147_220403_224803_229303_229003,
   148_197703_201703_205703_204603,
   149_176803_180303_183903_183303,
   150_158103_161303_164503_163003,
   151_140803_143803_146803_142703,
   152_124703_127503_130403_125703,
   153_110803_113403_116103_112603,
   154_979704_100403_103003_987904,
   155_862704_885504_909004_876404,
   156_757804_778804_800504_769104,
   157_661504_680804_700604_685904,
   158_570204_587504_605404_597504,
   159_479304_494504_510204_500604,
   160_396704_409804_423304_419104,
   161_327704_339004_350604_346704,
   162_270804_280404_290404_286004,
   163_224004_232304_240804_238804,
   164_185304_192404_199704_197804,
   165_153004_159004_165304_160004,
   166_126304_131404_136804_134004,
   167_103904_108304_112804_111904,
   168_854905_892005_930705_908705,
   169_707805_739405_772505_750705,
   170_585905_612905_641105_638405,
   171_487105_510205_534305_518405,
   172_405005_424605_445305_438305,
   173_336805_353705_371305_363805,
   174_280205_294505_309605_313705,
   175_234005_246305_259205_261005,
   176_195405_205905_217005_218605,
   177_164005_173005_182505_183005,
   178_137605_145405_153605_154305,
   179_114505_121105_128105_130905,
   180_952806_100905_106905_109605,
   181_783306_830506_880606_886906,
   182_644306_684006_726106_745406,
   183_525206_558206_593306_597006,
   184_428306_455806_485006_484706,
   185_345706_368306_392406_393506,
   186_279106_297806_317706_322806,
   187_222106_237306_253406_246606,
   188_176806_189106_202206_191306,
   189_139706_149506_160106_152006,
   190_110306_118306_126806_117306,
   191_864307_927707_995707_918307,
   192_677107_727607_781907_704207,
   193_528107_568207_611307_547907,
   194_411907_443707_478007_439907,
   195_319307_344407_371407_358107,
   196_247507_267307_288607_279907,
   197_190907_206407_223107_223907,
   198_147207_159407_172507_175007,
   199_108707_117807_127607_127107,
   200_802208_870408_944408_959408,
   201_609508_662108_719308_734208,
   202_463208_503708_547808_558208,
   203_352008_383208_417308_410108,
   204_267508_291608_317908_299008,
   205_203308_221908_242208_232908,
   206_154208_168508_184208_178008,
   207_117008_128108_140108_131408,
   208_888409_973109_106608_998609,
   209_674409_739609_811209_728209,
   210_512109_562309_617409_572209,
   211_378409_416009_457309_426009,
   212_279609_307709_338709_308809,
   213_206609_227609_250809_224009,
   214_152609_168409_185809_167809,
   215_112809_124609_137609_128309,
   216_825410_912710_100909_946410,
   217_604010_668710_740310_693810,
   218_442010_489910_543010_535310,
   219_323510_359010_398310_382410,
   220_236710_263010_292210_298810,
   221_173410_192810_214510_209210,
   222_127010_141410_157410_143410,
   223_929811_103710_115610_106410,
   224_681011_760111_848511_820211,
   225_498811_557411_622911_599811,
   226_367511_411111_460011_390711,
   227_270711_303311_339711_300511,
   228_199511_223711_250911_224311,
   229_147011_165111_185311_160011,
   230_108311_121811_136911_118611,
   231_807512_908712_102311_875612,
   232_602112_678312_764212_704012,
   233_449012_506512_571212_579712,
   234_335012_378312_427212_398512,
   235_250012_282612_319512_297012,
   236_190512_215612_244012_219812,
   237_145312_164612_186512_170412,
   238_110912_125812_142712_126112,
   239_847513_962513_109312_103512,
   240_648113_736913_837913_726913,
   241_511713_582513_663013_607513,
   242_404613_461113_525513_463413,
   243_320413_365513_417113_353013,
   244_254013_290213_331413_287213,
   245_201713_230613_263713_225313,
   246_171213_196013_224413_204313,
   247_145513_166713_191113_165513,
   248_123713_141913_162813_141313,
   249_105213_120813_138813_121113,
   250_895414_103013_118413_104713]

/-- atmdata/Venus/LAT80S.txt:6193-6343, columns 0 to 4. -/
def venusProfile42 : List ℕ :=
  [100_635202_647902_660902_639302,
   101_603502_615602_627902_607502,
   102_573002_584502_596202_578102,
   103_543802_554702_565802_547602,
   104_515902_526202_536702_519402,
   105_488902_498702_508702_492602,
   106_463102_472402_481802_464302,
   107_438302_447102_456002_436802,
   108_414302_422602_431102_412302,
   109_391702_399502_407502_390002,
   110_369802_377202_384702_366302,
   111_348802_355802_362902_350102,
   112_328802_335402_342102_331602,
   113_309802_316002_322302_310302,
   114_291602_297402_303302_289802,
   115_274002_279502_285102_274102,
   116_257502_262702_268002_256702,
   117_242002_246802_251702_241702,
   118_227302_231802_236402_227502,
   119_213102_217402_221702_214902,
   120_199902_203902_208002_201502,
   121_187402_191102_194902_188702,
   122_175302_178802_182402_177802,
   123_163802_167102_170402_167102,
   124_153102_156202_159302_155802,
   125_142802_145702_148602_145202,
   126_133202_135902_138602_135402,
   127_124002_126502_129002_126402,
   128_115402_117702_120102_117602,
   129_107202_109302_111502_109602,
   130_995103_101502_103502_101602,
   131_922203_940603_959403_946003,
   132_853303_870403_887803_866503,
   133_789603_805303_821503_797803,
   134_728803_743303_758203_741303,
   135_671903_685303_699003_679203,
   136_618503_630903_643503_633703,
   137_568603_579903_591503_579703,
   138_521503_531903_542503_533403,
   139_478103_487703_497403_491103,
   140_437203_445903_454903_448603,
   141_399103_407003_415203_411603,
   142_363403_370603_378103_373403,
   143_330003_336603_343403_343803,
   144_299503_305503_311603_314403,
   145_271203_276603_282103_283403,
   146_245003_249903_254903_256003,
   147_220403_224803_229303_229703,
   148_197703_201703_205703_205403,
   149_176803_180303_183903_183303,
   150_158103_161303_164503_163503,
   151_140803_143803_146803_145803,
   152_124703_127503_130403_128703,
   153_110803_113403_116103_114003,
   154_979704_100403_103003_101603,
   155_862704_885504_909004_901704,
   156_757804_778804_800504_799204,
   157_661504_680804_700604_691604,
   158_570204_587504_605404_601204,
   159_479304_494504_510204_500604,
   160_396704_409804_423304_403104,
   161_327704_339004_350604_330904,
   162_270804_280404_290404_272104,
   163_224004_232304_240804_224404,
   164_185304_192404_199704_189304,
   165_153004_159004_165304_159004,
   166_126304_131404_136804_132704,
   167_103904_108304_112804_110204,
   168_854905_892005_930705_919605,
   169_707805_739405_772505_756205,
   170_585905_612905_641105_621005,
   171_487105_510205_534305_523305,
   172_405005_424605_445305_430505,
   173_336805_353705_371305_355105,
   174_280205_294505_309605_308905,
   175_234005_246305_259205_263905,
   176_195405_205905_217005_218905,
   177_164005_173005_182505_183405,
   178_137605_145405_153605_154405,
   179_114505_121105_128105_130305,
   180_952806_100905_106905_106905,
   181_783306_830506_880606_914806,
   182_644306_684006_726106_712906,
   183_525206_558206_593306_583806,
   184_428306_455806_485006_470106,
   185_345706_368306_392406_380806,
   186_279106_297806_317706_302806,
   187_222106_237306_253406_249806,
   188_176806_189106_202206_195306,
   189_139706_149506_160106_151306,
   190_110306_118306_126806_116106,
   191_864307_927707_995707_881407,
   192_677107_727607_781907_671807,
   193_528107_568207_611307_565007,
   194_411907_443707_478007_434307,
   195_319307_344407_371407_329607,
   196_247507_267307_288607_263307,
   197_190907_206407_223107_210407,
   198_147207_159407_172507_170907,
   199_108707_117807_127607_126507,
   200_802208_870408_944408_892908,
   201_609508_662108_719308_637708,
   202_463208_503708_547808_490708,
   203_352008_383208_417308_373008,
   204_267508_291608_317908_278208,
   205_203308_221908_242208_214008,
   206_154208_168508_184208_166808,
   207_117008_128108_140108_128908,
   208_888409_973109_106608_959509,
   209_674409_739609_811209_737709,
   210_512109_562309_617409_533409,
   211_378409_416009_457309_408309,
   212_279609_307709_338709_317509,
   213_206609_227609_250809_233609,
   214_152609_168409_185809_169309,
   215_112809_124609_137609_125609,
   216_825410_912710_100909_935910,
   217_604010_668710_740310_703810,
   218_442010_489910_543010_462910,
   219_323510_359010_398310_337110,
   220_236710_263010_292210_265110,
   221_173410_192810_214510_195710,
   222_127010_141410_157410_142310,
   223_929811_103710_115610_986911,
   224_681011_760111_848511_723711,
   225_498811_557411_622911_535911,
   226_367511_411111_460011_395311,
   227_270711_303311_339711_302111,
   228_199511_223711_250911_218411,
   229_147011_165111_185311_170511,
   230_108311_121811_136911_131611,
   231_807512_908712_102311_100211,
   232_602112_678312_764212_755612,
   233_449012_506512_571212_544112,
   234_335012_378312_427212_410212,
   235_250012_282612_319512_299912,
   236_190512_215612_244012_230112,
   237_145312_164612_186512_164412,
   238_110912_125812_142712_148312,
   239_847513_962513_109312_112312,
   240_648113_736913_837913_847513,
   241_511713_582513_663013_624213,
   242_404613_461113_525513_467013,
   243_320413_365513_417113_332413,
   244_254013_290213_331413_245213,
   245_201713_230613_263713_201813,
   246_171213_196013_224413_173413,
   247_145513_166713_191113_124113,
   248_123713_141913_162813_115813,
   249_105213_120813_138813_734914,
   250_895414_103013_118413_672114]

/-- atmdata/Venus/LAT80S.txt:6344-6494, columns 0 to 4. -/
def venusProfile43 : List ℕ :=
  [100_635202_647902_660902_648902,
   101_603502_615602_627902_616002,
   102_573002_584502_596202_585102,
   103_543802_554702_565802_552602,
   104_515902_526202_536702_524902,
   105_488902_498702_508702_494502,
   106_463102_472402_481802_468802,
   107_438302_447102_456002_441202,
   108_414302_422602_431102_417602,
   109_391702_399502_407502_394602,
   110_369802_377202_384702_371602,
   111_348802_355802_362902_352302,
   112_328802_335402_342102_328902,
   113_309802_316002_322302_309902,
   114_291602_297402_303302_291002,
   115_274002_279502_285102_273302,
   116_257502_262702_268002_256102,
   117_242002_246802_251702_240102,
   118_227302_231802_236402_223402,
   119_213102_217402_221702_208602,
   120_199902_203902_208002_194802,
   121_187402_191102_194902_182802,
   122_175302_178802_182402_171302,
   123_163802_167102_170402_160802,
   124_153102_156202_159302_149202,
   125_142802_145702_148602_139702,
   126_133202_135902_138602_129302,
   127_124002_126502_129002_121202,
   128_115402_117702_120102_112002,
   129_107202_109302_111502_103902,
   130_995103_101502_103502_967803,
   131_922203_940603_959403_902803,
   132_853303_870403_887803_829003,
   133_789603_805303_821503_770003,
   134_728803_743303_758203_711503,
   135_671903_685303_699003_652203,
   136_618503_630903_643503_601703,
   137_568603_579903_591503_551203,
   138_521503_531903_542503_504103,
   139_478103_487703_497403_457903,
   140_437203_445903_454903_416403,
   141_399103_407003_415203_381003,
   142_363403_370603_378103_347503,
   143_330003_336603_343403_316403,
   144_299503_305503_311603_285703,
   145_271203_276603_282103_262003,
   146_245003_249903_254903_237503,
   147_220403_224803_229303_216503,
   148_197703_201703_205703_194503,
   149_176803_180303_183903_173503,
   150_158103_161303_164503_155603,
   151_140803_143803_146803_136603,
   152_124703_127503_130403_120903,
   153_110803_113403_116103_108703,
   154_979704_100403_103003_960904,
   155_862704_885504_909004_854604,
   156_757804_778804_800504_745104,
   157_661504_680804_700604_650904,
   158_570204_587504_605404_566204,
   159_479304_494504_510204_467204,
   160_396704_409804_423304_384304,
   161_327704_339004_350604_306404,
   162_270804_280404_290404_250804,
   163_224004_232304_240804_215104,
   164_185304_192404_199704_176204,
   165_153004_159004_165304_146704,
   166_126304_131404_136804_122704,
   167_103904_108304_112804_102004,
   168_854905_892005_930705_835605,
   169_707805_739405_772505_688705,
   170_585905_612905_641105_582205,
   171_487105_510205_534305_483005,
   172_405005_424605_445305_411605,
   173_336805_353705_371305_337605,
   174_280205_294505_309605_262405,
   175_234005_246305_259205_218105,
   176_195405_205905_217005_181605,
   177_164005_173005_182505_154405,
   178_137605_145405_153605_131705,
   179_114505_121105_128105_112105,
   180_952806_100905_106905_997806,
   181_783306_830506_880606_827306,
   182_644306_684006_726106_667306,
   183_525206_558206_593306_563406,
   184_428306_455806_485006_449706,
   185_345706_368306_392406_363706,
   186_279106_297806_317706_302806,
   187_222106_237306_253406_244706,
   188_176806_189106_202206_192906,
   189_139706_149506_160106_160206,
   190_110306_118306_126806_121406,
   191_864307_927707_995707_974207,
   192_677107_727607_781907_728207,
   193_528107_568207_611307_570907,
   194_411907_443707_478007_458607,
   195_319307_344407_371407_355707,
   196_247507_267307_288607_289507,
   197_190907_206407_223107_228007,
   198_147207_159407_172507_169307,
   199_108707_117807_127607_127907,
   200_802208_870408_944408_935108,
   201_609508_662108_719308_702808,
   202_463208_503708_547808_536708,
   203_352008_383208_417308_414508,
   204_267508_291608_317908_310208,
   205_203308_221908_242208_232608,
   206_154208_168508_184208_182908,
   207_117008_128108_140108_130608,
   208_888409_973109_106608_937409,
   209_674409_739609_811209_670209,
   210_512109_562309_617409_509209,
   211_378409_416009_457309_410009,
   212_279609_307709_338709_301509,
   213_206609_227609_250809_226409,
   214_152609_168409_185809_157109,
   215_112809_124609_137609_114109,
   216_825410_912710_100909_864410,
   217_604010_668710_740310_681610,
   218_442010_489910_543010_474010,
   219_323510_359010_398310_346910,
   220_236710_263010_292210_271010,
   221_173410_192810_214510_211510,
   222_127010_141410_157410_159310,
   223_929811_103710_115610_117110,
   224_681011_760111_848511_793011,
   225_498811_557411_622911_583811,
   226_367511_411111_460011_460811,
   227_270711_303311_339711_345911,
   228_199511_223711_250911_235511,
   229_147011_165111_185311_172711,
   230_108311_121811_136911_120311,
   231_807512_908712_102311_807712,
   232_602112_678312_764212_598912,
   233_449012_506512_571212_458912,
   234_335012_378312_427212_327512,
   235_250012_282612_319512_238912,
   236_190512_215612_244012_196112,
   237_145312_164612_186512_154212,
   238_110912_125812_142712_121812,
   239_847513_962513_109312_882913,
   240_648113_736913_837913_729613,
   241_511713_582513_663013_572213,
   242_404613_461113_525513_421913,
   243_320413_365513_417113_354913,
   244_254013_290213_331413_283213,
   245_201713_230613_263713_238713,
   246_171213_196013_224413_189113,
   247_145513_166713_191113_168613,
   248_123713_141913_162813_133613,
   249_105213_120813_138813_113713,
   250_895414_103013_118413_981614]

/-- atmdata/Venus/LAT80S.txt:6495-6645, columns 0 to 4. -/
def venusProfile44 : List ℕ :=
  [100_635202_647902_660902_659502,
   101_603502_615602_627902_625402,
   102_573002_584502_596202_592902,
   103_543802_554702_565802_555002,
   104_515902_526202_536702_528102,
   105_488902_498702_508702_501702,
   106_463102_472402_481802_479102,
   107_438302_447102_456002_450802,
   108_414302_422602_431102_428002,
   109_391702_399502_407502_403802,
   110_369802_377202_384702_380802,
   111_348802_355802_362902_359702,
   112_328802_335402_342102_337802,
   113_309802_316002_322302_319602,
   114_291602_297402_303302_300802,
   115_274002_279502_285102_284802,
   116_257502_262702_268002_266702,
   117_242002_246802_251702_252502,
   118_227302_231802_236402_236902,
   119_213102_217402_221702_221802,
   120_199902_203902_208002_209002,
   121_187402_191102_194902_195802,
   122_175302_178802_182402_181702,
   123_163802_167102_170402_169802,
   124_153102_156202_159302_159302,
   125_142802_145702_148602_149302,
   126_133202_135902_138602_139302,
   127_124002_126502_129002_130402,
   128_115402_117702_120102_121502,
   129_107202_109302_111502_113602,
   130_995103_101502_103502_105502,
   131_922203_940603_959403_980003,
   132_853303_870403_887803_897603,
   133_789603_805303_821503_817303,
   134_728803_743303_758203_743203,
   135_671903_685303_699003_679103,
   136_618503_630903_643503_632703,
   137_568603_579903_591503_577503,
   138_521503_531903_542503_531403,
   139_478103_487703_497403_485803,
   140_437203_445903_454903_446003,
   141_399103_407003_415203_402703,
   142_363403_370603_378103_366703,
   143_330003_336603_343403_335403,
   144_299503_305503_311603_303403,
   145_271203_276603_282103_274703,
   146_245003_249903_254903_247903,
   147_220403_224803_229303_222803,
   148_197703_201703_205703_199903,
   149_176803_180303_183903_176803,
   150_158103_161303_164503_158903,
   151_140803_143803_146803_141703,
   152_124703_127503_130403_125603,
   153_110803_113403_116103_111603,
   154_979704_100403_103003_966404,
   155_862704_885504_909004_860104,
   156_757804_778804_800504_758404,
   157_661504_680804_700604_666404,
   158_570204_587504_605404_578204,
   159_479304_494504_510204_493804,
   160_396704_409804_423304_408504,
   161_327704_339004_350604_340804,
   162_270804_280404_290404_292204,
   163_224004_232304_240804_242104,
   164_185304_192404_199704_200104,
   165_153004_159004_165304_163004,
   166_126304_131404_136804_134904,
   167_103904_108304_112804_110804,
   168_854905_892005_930705_927805,
   169_707805_739405_772505_756205,
   170_585905_612905_641105_615405,
   171_487105_510205_534305_532605,
   172_405005_424605_445305_438605,
   173_336805_353705_371305_352905,
   174_280205_294505_309605_281505,
   175_234005_246305_259205_238205,
   176_195405_205905_217005_194705,
   177_164005_173005_182505_164705,
   178_137605_145405_153605_139605,
   179_114505_121105_128105_117705,
   180_952806_100905_106905_992206,
   181_783306_830506_880606_803706,
   182_644306_684006_726106_658206,
   183_525206_558206_593306_526206,
   184_428306_455806_485006_413206,
   185_345706_368306_392406_334806,
   186_279106_297806_317706_270606,
   187_222106_237306_253406_217506,
   188_176806_189106_202206_174306,
   189_139706_149506_160106_140406,
   190_110306_118306_126806_105806,
   191_864307_927707_995707_834907,
   192_677107_727607_781907_604607,
   193_528107_568207_611307_459307,
   194_411907_443707_478007_359407,
   195_319307_344407_371407_294307,
   196_247507_267307_288607_220707,
   197_190907_206407_223107_177807,
   198_147207_159407_172507_137707,
   199_108707_117807_127607_112607,
   200_802208_870408_944408_857308,
   201_609508_662108_719308_673508,
   202_463208_503708_547808_516508,
   203_352008_383208_417308_417708,
   204_267508_291608_317908_315708,
   205_203308_221908_242208_232008,
   206_154208_168508_184208_188508,
   207_117008_128108_140108_141708,
   208_888409_973109_106608_110908,
   209_674409_739609_811209_834809,
   210_512109_562309_617409_642709,
   211_378409_416009_457309_453509,
   212_279609_307709_338709_359409,
   213_206609_227609_250809_270509,
   214_152609_168409_185809_203309,
   215_112809_124609_137609_138609,
   216_825410_912710_100909_104109,
   217_604010_668710_740310_723010,
   218_442010_489910_543010_510010,
   219_323510_359010_398310_373610,
   220_236710_263010_292210_288510,
   221_173410_192810_214510_204810,
   222_127010_141410_157410_141610,
   223_929811_103710_115610_983711,
   224_681011_760111_848511_738711,
   225_498811_557411_622911_548011,
   226_367511_411111_460011_400211,
   227_270711_303311_339711_302611,
   228_199511_223711_250911_233511,
   229_147011_165111_185311_161311,
   230_108311_121811_136911_118711,
   231_807512_908712_102311_868712,
   232_602112_678312_764212_609212,
   233_449012_506512_571212_493812,
   234_335012_378312_427212_379512,
   235_250012_282612_319512_267612,
   236_190512_215612_244012_192212,
   237_145312_164612_186512_140412,
   238_110912_125812_142712_107112,
   239_847513_962513_109312_868213,
   240_648113_736913_837913_652513,
   241_511713_582513_663013_540413,
   242_404613_461113_525513_510313,
   243_320413_365513_417113_407713,
   244_254013_290213_331413_350013,
   245_201713_230613_263713_251613,
   246_171213_196013_224413_220413,
   247_145513_166713_191113_187213,
   248_123713_141913_162813_155713,
   249_105213_120813_138813_142413,
   250_895414_103013_118413_120213]

/-- atmdata/Venus/LAT80S.txt:6646-6796, columns 0 to 4. -/
def venusProfile45 : List ℕ :=
  [100_635202_647902_660902_631502,
   101_603502_615602_627902_599202,
   102_573002_584502_596202_567902,
   103_543802_554702_565802_542202,
   104_515902_526202_536702_517402,
   105_488902_498702_508702_489302,
   106_463102_472402_481802_462902,
   107_438302_447102_456002_436302,
   108_414302_422602_431102_409302,
   109_391702_399502_407502_386602,
   110_369802_377202_384702_365702,
   111_348802_355802_362902_345202,
   112_328802_335402_342102_325702,
   113_309802_316002_322302_305602,
   114_291602_297402_303302_289202,
   115_274002_279502_285102_271902,
   116_257502_262702_268002_255202,
   117_242002_246802_251702_240402,
   118_227302_231802_236402_227602,
   119_213102_217402_221702_214302,
   120_199902_203902_208002_201202,
   121_187402_191102_194902_188902,
   122_175302_178802_182402_177302,
   123_163802_167102_170402_165502,
   124_153102_156202_159302_154802,
   125_142802_145702_148602_142902,
   126_133202_135902_138602_132702,
   127_124002_126502_129002_125102,
   128_115402_117702_120102_116102,
   129_107202_109302_111502_107902,
   130_995103_101502_103502_100602,
   131_922203_940603_959403_936403,
   132_853303_870403_887803_859703,
   133_789603_805303_821503_794803,
   134_728803_743303_758203_735003,
   135_671903_685303_699003_670503,
   136_618503_630903_643503_617603,
   137_568603_579903_591503_563303,
   138_521503_531903_542503_514603,
   139_478103_487703_497403_473403,
   140_437203_445903_454903_432603,
   141_399103_407003_415203_396603,
   142_363403_370603_378103_361703,
   143_330003_336603_343403_327703,
   144_299503_305503_311603_297803,
   145_271203_276603_282103_267203,
   146_245003_249903_254903_241203,
   147_220403_224803_229303_219403,
   148_197703_201703_205703_197203,
   149_176803_180303_183903_177803,
   150_158103_161303_164503_160203,
   151_140803_143803_146803_140903,
   152_124703_127503_130403_125103,
   153_110803_113403_116103_113203,
   154_979704_100403_103003_100503,
   155_862704_885504_909004_894604,
   156_757804_778804_800504_800204,
   157_661504_680804_700604_707904,
   158_570204_587504_605404_612004,
   159_479304_494504_510204_517704,
   160_396704_409804_423304_430304,
   161_327704_339004_350604_354804,
   162_270804_280404_290404_296904,
   163_224004_232304_240804_242104,
   164_185304_192404_199704_202804,
   165_153004_159004_165304_171104,
   166_126304_131404_136804_140804,
   167_103904_108304_112804_114804,
   168_854905_892005_930705_936405,
   169_707805_739405_772505_758605,
   170_585905_612905_641105_631305,
   171_487105_510205_534305_526805,
   172_405005_424605_445305_447205,
   173_336805_353705_371305_381805,
   174_280205_294505_309605_305105,
   175_234005_246305_259205_245005,
   176_195405_205905_217005_214405,
   177_164005_173005_182505_180105,
   178_137605_145405_153605_151505,
   179_114505_121105_128105_126405,
   180_952806_100905_106905_103805,
   181_783306_830506_880606_877506,
   182_644306_684006_726106_722006,
   183_525206_558206_593306_586006,
   184_428306_455806_485006_493806,
   185_345706_368306_392406_392906,
   186_279106_297806_317706_328606,
   187_222106_237306_253406_256606,
   188_176806_189106_202206_204306,
   189_139706_149506_160106_158806,
   190_110306_118306_126806_132706,
   191_864307_927707_995707_999307,
   192_677107_727607_781907_813807,
   193_528107_568207_611307_638707,
   194_411907_443707_478007_508807,
   195_319307_344407_371407_377807,
   196_247507_267307_288607_285207,
   197_190907_206407_223107_222907,
   198_147207_159407_172507_172807,
   199_108707_117807_127607_123307,
   200_802208_870408_944408_868708,
   201_609508_662108_719308_641508,
   202_463208_503708_547808_494008,
   203_352008_383208_417308_365608,
   204_267508_291608_317908_282408,
   205_203308_221908_242208_201608,
   206_154208_168508_184208_146508,
   207_117008_128108_140108_118308,
   208_888409_973109_106608_916809,
   209_674409_739609_811209_746409,
   210_512109_562309_617409_528509,
   211_378409_416009_457309_387509,
   212_279609_307709_338709_289209,
   213_206609_227609_250809_229509,
   214_152609_168409_185809_169809,
   215_112809_124609_137609_130109,
   216_825410_912710_100909_995310,
   217_604010_668710_740310_712910,
   218_442010_489910_543010_510710,
   219_323510_359010_398310_376810,
   220_236710_263010_292210_289610,
   221_173410_192810_214510_214210,
   222_127010_141410_157410_155210,
   223_929811_103710_115610_114510,
   224_681011_760111_848511_808611,
   225_498811_557411_622911_596511,
   226_367511_411111_460011_460811,
   227_270711_303311_339711_342911,
   228_199511_223711_250911_252011,
   229_147011_165111_185311_189311,
   230_108311_121811_136911_143111,
   231_807512_908712_102311_107111,
   232_602112_678312_764212_823412,
   233_449012_506512_571212_585512,
   234_335012_378312_427212_417712,
   235_250012_282612_319512_366812,
   236_190512_215612_244012_270612,
   237_145312_164612_186512_207412,
   238_110912_125812_142712_145912,
   239_847513_962513_109312_108812,
   240_648113_736913_837913_850113,
   241_511713_582513_663013_601513,
   242_404613_461113_525513_510713,
   243_320413_365513_417113_396513,
   244_254013_290213_331413_307413,
   245_201713_230613_263713_234713,
   246_171213_196013_224413_195513,
   247_145513_166713_191113_162513,
   248_123713_141913_162813_142813,
   249_105213_120813_138813_119513,
   250_895414_103013_118413_102013]

/-- atmdata/Venus/LAT80S.txt:6797-6947, columns 0 to 4. -/
def venusProfile46 : List ℕ :=
  [100_635202_647902_660902_644102,
   101_603502_615602_627902_610402,
   102_573002_584502_596202_577102,
   103_543802_554702_565802_549202,
   104_515902_526202_536702_526902,
   105_488902_498702_508702_502302,
   106_463102_472402_481802_477302,
   107_438302_447102_456002_449602,
   108_414302_422602_431102_423702,
   109_391702_399502_407502_399502,
   110_369802_377202_384702_378302,
   111_348802_355802_362902_355802,
   112_328802_335402_342102_336502,
   113_309802_316002_322302_317102,
   114_291602_297402_303302_295202,
   115_274002_279502_285102_274102,
   116_257502_262702_268002_257402,
   117_242002_246802_251702_241202,
   118_227302_231802_236402_226202,
   119_213102_217402_221702_214802,
   120_199902_203902_208002_200902,
   121_187402_191102_194902_188702,
   122_175302_178802_182402_176102,
   123_163802_167102_170402_164002,
   124_153102_156202_159302_152902,
   125_142802_145702_148602_142202,
   126_133202_135902_138602_133302,
   127_124002_126502_129002_123102,
   128_115402_117702_120102_115502,
   129_107202_109302_111502_106602,
   130_995103_101502_103502_997603,
   131_922203_940603_959403_928403,
   132_853303_870403_887803_853003,
   133_789603_805303_821503_794403,
   134_728803_743303_758203_729303,
   135_671903_685303_699003_684703,
   136_618503_630903_643503_637003,
   137_568603_579903_591503_578403,
   138_521503_531903_542503_532203,
   139_478103_487703_497403_491603,
   140_437203_445903_454903_456503,
   141_399103_407003_415203_414603,
   142_363403_370603_378103_377703,
   143_330003_336603_343403_343903,
   144_299503_305503_311603_312703,
   145_271203_276603_282103_283403,
   146_245003_249903_254903_254503,
   147_220403_224803_229303_228303,
   148_197703_201703_205703_204903,
   149_176803_180303_183903_183403,
   150_158103_161303_164503_165903,
   151_140803_143803_146803_148003,
   152_124703_127503_130403_131703,
   153_110803_113403_116103_117103,
   154_979704_100403_103003_103003,
   155_862704_885504_909004_916704,
   156_757804_778804_800504_802204,
   157_661504_680804_700604_691604,
   158_570204_587504_605404_597704,
   159_479304_494504_510204_503404,
   160_396704_409804_423304_422804,
   161_327704_339004_350604_345404,
   162_270804_280404_290404_287504,
   163_224004_232304_240804_240804,
   164_185304_192404_199704_195704,
   165_153004_159004_165304_162604,
   166_126304_131404_136804_133704,
   167_103904_108304_112804_108804,
   168_854905_892005_930705_916205,
   169_707805_739405_772505_736905,
   170_585905_612905_641105_590905,
   171_487105_510205_534305_485105,
   172_405005_424605_445305_402805,
   173_336805_353705_371305_342405,
   174_280205_294505_309605_276405,
   175_234005_246305_259205_231305,
   176_195405_205905_217005_198505,
   177_164005_173005_182505_167805,
   178_137605_145405_153605_141805,
   179_114505_121105_128105_118405,
   180_952806_100905_106905_104005,
   181_783306_830506_880606_855106,
   182_644306_684006_726106_713406,
   183_525206_558206_593306_591406,
   184_428306_455806_485006_490006,
   185_345706_368306_392406_388106,
   186_279106_297806_317706_311906,
   187_222106_237306_253406_239706,
   188_176806_189106_202206_193206,
   189_139706_149506_160106_144606,
   190_110306_118306_126806_119606,
   191_864307_927707_995707_961507,
   192_677107_727607_781907_777007,
   193_528107_568207_611307_591007,
   194_411907_443707_478007_454507,
   195_319307_344407_371407_350007,
   196_247507_267307_288607_269407,
   197_190907_206407_223107_210807,
   198_147207_159407_172507_168207,
   199_108707_117807_127607_122707,
   200_802208_870408_944408_898708,
   201_609508_662108_719308_686608,
   202_463208_503708_547808_526208,
   203_352008_383208_417308_397308,
   204_267508_291608_317908_308408,
   205_203308_221908_242208_243108,
   206_154208_168508_184208_178208,
   207_117008_128108_140108_131808,
   208_888409_973109_106608_990209,
   209_674409_739609_811209_743509,
   210_512109_562309_617409_556509,
   211_378409_416009_457309_414509,
   212_279609_307709_338709_289309,
   213_206609_227609_250809_203709,
   214_152609_168409_185809_147309,
   215_112809_124609_137609_111009,
   216_825410_912710_100909_877710,
   217_604010_668710_740310_649610,
   218_442010_489910_543010_475110,
   219_323510_359010_398310_355010,
   220_236710_263010_292210_273710,
   221_173410_192810_214510_180210,
   222_127010_141410_157410_138410,
   223_929811_103710_115610_963311,
   224_681011_760111_848511_747311,
   225_498811_557411_622911_555811,
   226_367511_411111_460011_402011,
   227_270711_303311_339711_301411,
   228_199511_223711_250911_216911,
   229_147011_165111_185311_157411,
   230_108311_121811_136911_109111,
   231_807512_908712_102311_892912,
   232_602112_678312_764212_671712,
   233_449012_506512_571212_505012,
   234_335012_378312_427212_393512,
   235_250012_282612_319512_310812,
   236_190512_215612_244012_239712,
   237_145312_164612_186512_173612,
   238_110912_125812_142712_137712,
   239_847513_962513_109312_933313,
   240_648113_736913_837913_675213,
   241_511713_582513_663013_525013,
   242_404613_461113_525513_440813,
   243_320413_365513_417113_335013,
   244_254013_290213_331413_281913,
   245_201713_230613_263713_224513,
   246_171213_196013_224413_166313,
   247_145513_166713_191113_132713,
   248_123713_141913_162813_136113,
   249_105213_120813_138813_123513,
   250_895414_103013_118413_104713]

/-- atmdata/Venus/LAT80S.txt:6948-7098, columns 0 to 4. -/
def venusProfile47 : List ℕ :=
  [100_635202_647902_660902_653502,
   101_603502_615602_627902_618502,
   102_573002_584502_596202_582802,
   103_543802_554702_565802_553302,
   104_515902_526202_536702_521802,
   105_488902_498702_508702_494502,
   106_463102_472402_481802_466102,
   107_438302_447102_456002_439702,
   108_414302_422602_431102_415902,
   109_391702_399502_407502_392102,
   110_369802_377202_384702_372602,
   111_348802_355802_362902_349402,
   112_328802_335402_342102_332602,
   113_309802_316002_322302_315402,
   114_291602_297402_303302_295902,
   115_274002_279502_285102_278302,
   116_257502_262702_268002_261302,
   117_242002_246802_251702_247602,
   118_227302_231802_236402_233502,
   119_213102_217402_221702_218102,
   120_199902_203902_208002_206902,
   121_187402_191102_194902_194402,
   122_175302_178802_182402_182902,
   123_163802_167102_170402_169302,
   124_153102_156202_159302_156702,
   125_142802_145702_148602_146002,
   126_133202_135902_138602_135802,
   127_124002_126502_129002_125702,
   128_115402_117702_120102_117002,
   129_107202_109302_111502_109002,
   130_995103_101502_103502_102702,
   131_922203_940603_959403_954603,
   132_853303_870403_887803_876303,
   133_789603_805303_821503_807003,
   134_728803_743303_758203_747703,
   135_671903_685303_699003_696503,
   136_618503_630903_643503_640203,
   137_568603_579903_591503_595303,
   138_521503_531903_542503_542403,
   139_478103_487703_497403_493803,
   140_437203_445903_454903_452203,
   141_399103_407003_415203_415803,
   142_363403_370603_378103_379203,
   143_330003_336603_343403_341503,
   144_299503_305503_311603_312103,
   145_271203_276603_282103_280803,
   146_245003_249903_254903_251703,
   147_220403_224803_229303_228103,
   148_197703_201703_205703_204903,
   149_176803_180303_183903_182903,
   150_158103_161303_164503_162003,
   151_140803_143803_146803_142703,
   152_124703_127503_130403_127203,
   153_110803_113403_116103_111803,
   154_979704_100403_103003_999504,
   155_862704_885504_909004_891604,
   156_757804_778804_800504_789004,
   157_661504_680804_700604_686404,
   158_570204_587504_605404_592504,
   159_479304_494504_510204_496704,
   160_396704_409804_423304_404304,
   161_327704_339004_350604_341504,
   162_270804_280404_290404_282804,
   163_224004_232304_240804_233404,
   164_185304_192404_199704_192904,
   165_153004_159004_165304_158404,
   166_126304_131404_136804_130204,
   167_103904_108304_112804_105304,
   168_854905_892005_930705_866305,
   169_707805_739405_772505_750105,
   170_585905_612905_641105_620105,
   171_487105_510205_534305_525205,
   172_405005_424605_445305_447505,
   173_336805_353705_371305_374205,
   174_280205_294505_309605_301405,
   175_234005_246305_259205_256505,
   176_195405_205905_217005_215905,
   177_164005_173005_182505_181505,
   178_137605_145405_153605_152405,
   179_114505_121105_128105_126005,
   180_952806_100905_106905_105605,
   181_783306_830506_880606_845206,
   182_644306_684006_726106_718206,
   183_525206_558206_593306_561106,
   184_428306_455806_485006_461906,
   185_345706_368306_392406_365006,
   186_279106_297806_317706_277006,
   187_222106_237306_253406_231506,
   188_176806_189106_202206_188506,
   189_139706_149506_160106_151806,
   190_110306_118306_126806_123906,
   191_864307_927707_995707_965607,
   192_677107_727607_781907_773407,
   193_528107_568207_611307_617207,
   194_411907_443707_478007_495007,
   195_319307_344407_371407_388007,
   196_247507_267307_288607_300107,
   197_190907_206407_223107_231807,
   198_147207_159407_172507_169307,
   199_108707_117807_127607_125607,
   200_802208_870408_944408_946008,
   201_609508_662108_719308_757508,
   202_463208_503708_547808_576008,
   203_352008_383208_417308_441408,
   204_267508_291608_317908_343708,
   205_203308_221908_242208_262508,
   206_154208_168508_184208_194108,
   207_117008_128108_140108_148408,
   208_888409_973109_106608_108008,
   209_674409_739609_811209_844609,
   210_512109_562309_617409_645309,
   211_378409_416009_457309_484609,
   212_279609_307709_338709_358309,
   213_206609_227609_250809_255509,
   214_152609_168409_185809_200009,
   215_112809_124609_137609_143209,
   216_825410_912710_100909_931810,
   217_604010_668710_740310_703910,
   218_442010_489910_543010_517710,
   219_323510_359010_398310_387210,
   220_236710_263010_292210_294710,
   221_173410_192810_214510_211110,
   222_127010_141410_157410_146810,
   223_929811_103710_115610_108910,
   224_681011_760111_848511_791311,
   225_498811_557411_622911_587211,
   226_367511_411111_460011_448711,
   227_270711_303311_339711_332011,
   228_199511_223711_250911_222411,
   229_147011_165111_185311_180211,
   230_108311_121811_136911_130511,
   231_807512_908712_102311_937012,
   232_602112_678312_764212_676312,
   233_449012_506512_571212_535112,
   234_335012_378312_427212_388512,
   235_250012_282612_319512_299812,
   236_190512_215612_244012_243812,
   237_145312_164612_186512_189612,
   238_110912_125812_142712_142912,
   239_847513_962513_109312_110212,
   240_648113_736913_837913_839813,
   241_511713_582513_663013_668513,
   242_404613_461113_525513_538913,
   243_320413_365513_417113_487713,
   244_254013_290213_331413_366913,
   245_201713_230613_263713_294213,
   246_171213_196013_224413_249713,
   247_145513_166713_191113_221113,
   248_123713_141913_162813_179313,
   249_105213_120813_138813_146013,
   250_895414_103013_118413_121913]

/-- atmdata/Venus/LAT80S.txt:7099-7249, columns 0 to 4. -/
def venusProfile48 : List ℕ :=
  [100_635202_647902_660902_669102,
   101_603502_615602_627902_632502,
   102_573002_584502_596202_604602,
   103_543802_554702_565802_572202,
   104_515902_526202_536702_540502,
   105_488902_498702_508702_508002,
   106_463102_472402_481802_481202,
   107_438302_447102_456002_453602,
   108_414302_422602_431102_430102,
   109_391702_399502_407502_404702,
   110_369802_377202_384702_378102,
   111_348802_355802_362902_359502,
   112_328802_335402_342102_337202,
   113_309802_316002_322302_316502,
   114_291602_297402_303302_297802,
   115_274002_279502_285102_278002,
   116_257502_262702_268002_261102,
   117_242002_246802_251702_245702,
   118_227302_231802_236402_229902,
   119_213102_217402_221702_215802,
   120_199902_203902_208002_203002,
   121_187402_191102_194902_191002,
   122_175302_178802_182402_178702,
   123_163802_167102_170402_168202,
   124_153102_156202_159302_157902,
   125_142802_145702_148602_147402,
   126_133202_135902_138602_138402,
   127_124002_126502_129002_128302,
   128_115402_117702_120102_118502,
   129_107202_109302_111502_109602,
   130_995103_101502_103502_101102,
   131_922203_940603_959403_939403,
   132_853303_870403_887803_863403,
   133_789603_805303_821503_800903,
   134_728803_743303_758203_737303,
   135_671903_685303_699003_685903,
   136_618503_630903_643503_637603,
   137_568603_579903_591503_591103,
   138_521503_531903_542503_543303,
   139_478103_487703_497403_497203,
   140_437203_445903_454903_452303,
   141_399103_407003_415203_412703,
   142_363403_370603_378103_377003,
   143_330003_336603_343403_342403,
   144_299503_305503_311603_307603,
   145_271203_276603_282103_279803,
   146_245003_249903_254903_250103,
   147_220403_224803_229303_224503,
   148_197703_201703_205703_202003,
   149_176803_180303_183903_179703,
   150_158103_161303_164503_160003,
   151_140803_143803_146803_142803,
   152_124703_127503_130403_127603,
   153_110803_113403_116103_113903,
   154_979704_100403_103003_100703,
   155_862704_885504_909004_899604,
   156_757804_778804_800504_781304,
   157_661504_680804_700604_684304,
   158_570204_587504_605404_589904,
   159_479304_494504_510204_491804,
   160_396704_409804_423304_404904,
   161_327704_339004_350604_337104,
   162_270804_280404_290404_277804,
   163_224004_232304_240804_223904,
   164_185304_192404_199704_188104,
   165_153004_159004_165304_151704,
   166_126304_131404_136804_124504,
   167_103904_108304_112804_996105,
   168_854905_892005_930705_851505,
   169_707805_739405_772505_726205,
   170_585905_612905_641105_616905,
   171_487105_510205_534305_511605,
   172_405005_424605_445305_423905,
   173_336805_353705_371305_353305,
   174_280205_294505_309605_286405,
   175_234005_246305_259205_235605,
   176_195405_205905_217005_197805,
   177_164005_173005_182505_167505,
   178_137605_145405_153605_141305,
   179_114505_121105_128105_117005,
   180_952806_100905_106905_965806,
   181_783306_830506_880606_814306,
   182_644306_684006_726106_647506,
   183_525206_558206_593306_525506,
   184_428306_455806_485006_430606,
   185_345706_368306_392406_339306,
   186_279106_297806_317706_277206,
   187_222106_237306_253406_226206,
   188_176806_189106_202206_186406,
   189_139706_149506_160106_146706,
   190_110306_118306_126806_119206,
   191_864307_927707_995707_903407,
   192_677107_727607_781907_722407,
   193_528107_568207_611307_558907,
   194_411907_443707_478007_432807,
   195_319307_344407_371407_316507,
   196_247507_267307_288607_252607,
   197_190907_206407_223107_197107,
   198_147207_159407_172507_150107,
   199_108707_117807_127607_114807,
   200_802208_870408_944408_811508,
   201_609508_662108_719308_612008,
   202_463208_503708_547808_474208,
   203_352008_383208_417308_384508,
   204_267508_291608_317908_312408,
   205_203308_221908_242208_236608,
   206_154208_168508_184208_178208,
   207_117008_128108_140108_128008,
   208_888409_973109_106608_104308,
   209_674409_739609_811209_771509,
   210_512109_562309_617409_630809,
   211_378409_416009_457309_492409,
   212_279609_307709_338709_347009,
   213_206609_227609_250809_252109,
   214_152609_168409_185809_188509,
   215_112809_124609_137609_129809,
   216_825410_912710_100909_890910,
   217_604010_668710_740310_712310,
   218_442010_489910_543010_530210,
   219_323510_359010_398310_398910,
   220_236710_263010_292210_301710,
   221_173410_192810_214510_224610,
   222_127010_141410_157410_162710,
   223_929811_103710_115610_112110,
   224_681011_760111_848511_757711,
   225_498811_557411_622911_565711,
   226_367511_411111_460011_404511,
   227_270711_303311_339711_300611,
   228_199511_223711_250911_230511,
   229_147011_165111_185311_171611,
   230_108311_121811_136911_130011,
   231_807512_908712_102311_973712,
   232_602112_678312_764212_633012,
   233_449012_506512_571212_452912,
   234_335012_378312_427212_362312,
   235_250012_282612_319512_275812,
   236_190512_215612_244012_200812,
   237_145312_164612_186512_148312,
   238_110912_125812_142712_108512,
   239_847513_962513_109312_810913,
   240_648113_736913_837913_698413,
   241_511713_582513_663013_602413,
   242_404613_461113_525513_484013,
   243_320413_365513_417113_400113,
   244_254013_290213_331413_323513,
   245_201713_230613_263713_275813,
   246_171213_196013_224413_223613,
   247_145513_166713_191113_192613,
   248_123713_141913_162813_164013,
   249_105213_120813_138813_143613,
   250_895414_103013_118413_119613]

/-- atmdata/Venus/LAT80S.txt:7250-7400, columns 0 to 4. -/
def venusProfile49 : List ℕ :=
  [100_635202_647902_660902_638602,
   101_603502_615602_627902_603902,
   102_573002_584502_596202_576402,
   103_543802_554702_565802_545002,
   104_515902_526202_536702_516502,
   105_488902_498702_508702_490802,
   106_463102_472402_481802_469002,
   107_438302_447102_456002_442602,
   108_414302_422602_431102_424002,
   109_391702_399502_407502_398802,
   110_369802_377202_384702_374802,
   111_348802_355802_362902_354902,
   112_328802_335402_342102_334302,
   113_309802_316002_322302_315402,
   114_291602_297402_303302_297902,
   115_274002_279502_285102_280402,
   116_257502_262702_268002_263502,
   117_242002_246802_251702_246702,
   118_227302_231802_236402_232302,
   119_213102_217402_221702_218802,
   120_199902_203902_208002_204902,
   121_187402_191102_194902_192902,
   122_175302_178802_182402_179102,
   123_163802_167102_170402_168002,
   124_153102_156202_159302_157102,
   125_142802_145702_148602_147202,
   126_133202_135902_138602_137102,
   127_124002_126502_129002_127302,
   128_115402_117702_120102_118802,
   129_107202_109302_111502_111102,
   130_995103_101502_103502_102602,
   131_922203_940603_959403_953103,
   132_853303_870403_887803_875703,
   133_789603_805303_821503_801903,
   134_728803_743303_758203_745803,
   135_671903_685303_699003_692603,
   136_618503_630903_643503_636703,
   137_568603_579903_591503_589203,
   138_521503_531903_542503_537103,
   139_478103_487703_497403_494103,
   140_437203_445903_454903_455003,
   141_399103_407003_415203_412103,
   142_363403_370603_378103_376903,
   143_330003_336603_343403_347403,
   144_299503_305503_311603_313503,
   145_271203_276603_282103_282803,
   146_245003_249903_254903_258503,
   147_220403_224803_229303_233703,
   148_197703_201703_205703_210003,
   149_176803_180303_183903_185003,
   150_158103_161303_164503_164903,
   151_140803_143803_146803_145403,
   152_124703_127503_130403_130303,
   153_110803_113403_116103_115003,
   154_979704_100403_103003_100503,
   155_862704_885504_909004_899504,
   156_757804_778804_800504_790904,
   157_661504_680804_700604_697404,
   158_570204_587504_605404_600004,
   159_479304_494504_510204_494904,
   160_396704_409804_423304_410204,
   161_327704_339004_350604_338204,
   162_270804_280404_290404_277004,
   163_224004_232304_240804_230804,
   164_185304_192404_199704_187504,
   165_153004_159004_165304_157004,
   166_126304_131404_136804_128104,
   167_103904_108304_112804_108404,
   168_854905_892005_930705_892505,
   169_707805_739405_772505_753305,
   170_585905_612905_641105_617705,
   171_487105_510205_534305_497805,
   172_405005_424605_445305_427805,
   173_336805_353705_371305_353605,
   174_280205_294505_309605_287405,
   175_234005_246305_259205_241905,
   176_195405_205905_217005_200905,
   177_164005_173005_182505_170005,
   178_137605_145405_153605_143105,
   179_114505_121105_128105_117905,
   180_952806_100905_106905_103105,
   181_783306_830506_880606_844106,
   182_644306_684006_726106_682406,
   183_525206_558206_593306_562606,
   184_428306_455806_485006_454006,
   185_345706_368306_392406_353106,
   186_279106_297806_317706_275806,
   187_222106_237306_253406_221806,
   188_176806_189106_202206_186006,
   189_139706_149506_160106_142006,
   190_110306_118306_126806_115106,
   191_864307_927707_995707_927007,
   192_677107_727607_781907_735607,
   193_528107_568207_611307_602307,
   194_411907_443707_478007_486107,
   195_319307_344407_371407_369607,
   196_247507_267307_288607_296507,
   197_190907_206407_223107_227507,
   198_147207_159407_172507_174807,
   199_108707_117807_127607_118307,
   200_802208_870408_944408_867908,
   201_609508_662108_719308_674908,
   202_463208_503708_547808_518908,
   203_352008_383208_417308_381608,
   204_267508_291608_317908_275808,
   205_203308_221908_242208_207408,
   206_154208_168508_184208_159808,
   207_117008_128108_140108_121908,
   208_888409_973109_106608_953809,
   209_674409_739609_811209_744309,
   210_512109_562309_617409_553409,
   211_378409_416009_457309_393509,
   212_279609_307709_338709_299409,
   213_206609_227609_250809_223609,
   214_152609_168409_185809_164109,
   215_112809_124609_137609_126409,
   216_825410_912710_100909_884710,
   217_604010_668710_740310_624910,
   218_442010_489910_543010_477610,
   219_323510_359010_398310_366710,
   220_236710_263010_292210_279310,
   221_173410_192810_214510_191810,
   222_127010_141410_157410_147610,
   223_929811_103710_115610_109510,
   224_681011_760111_848511_814311,
   225_498811_557411_622911_605111,
   226_367511_411111_460011_456011,
   227_270711_303311_339711_334311,
   228_199511_223711_250911_245211,
   229_147011_165111_185311_172611,
   230_108311_121811_136911_116311,
   231_807512_908712_102311_924312,
   232_602112_678312_764212_711412,
   233_449012_506512_571212_528412,
   234_335012_378312_427212_388512,
   235_250012_282612_319512_289112,
   236_190512_215612_244012_218312,
   237_145312_164612_186512_172812,
   238_110912_125812_142712_139612,
   239_847513_962513_109312_112712,
   240_648113_736913_837913_838313,
   241_511713_582513_663013_630713,
   242_404613_461113_525513_497913,
   243_320413_365513_417113_397013,
   244_254013_290213_331413_291913,
   245_201713_230613_263713_219013,
   246_171213_196013_224413_201113,
   247_145513_166713_191113_169213,
   248_123713_141913_162813_154413,
   249_105213_120813_138813_124913,
   250_895414_103013_118413_104713]

/-- atmdata/Venus/LAT80S.txt:7401-7551, columns 0 to 4. -/
def venusProfile50 : List ℕ :=
  [100_635202_647902_660902_648402,
   101_603502_615602_627902_612202,
   102_573002_584502_596202_582902,
   103_543802_554702_565802_548502,
   104_515902_526202_536702_520602,
   105_488902_498702_508702_491902,
   106_463102_472402_481802_465202,
   107_438302_447102_456002_439402,
   108_414302_422602_431102_414002,
   109_391702_399502_407502_389302,
   110_369802_377202_384702_367002,
   111_348802_355802_362902_346902,
   112_328802_335402_342102_328002,
   113_309802_316002_322302_312202,
   114_291602_297402_303302_297102,
   115_274002_279502_285102_277902,
   116_257502_262702_268002_261302,
   117_242002_246802_251702_247502,
   118_227302_231802_236402_230902,
   119_213102_217402_221702_214902,
   120_199902_203902_208002_200402,
   121_187402_191102_194902_189002,
   122_175302_178802_182402_177402,
   123_163802_167102_170402_166102,
   124_153102_156202_159302_154802,
   125_142802_145702_148602_141802,
   126_133202_135902_138602_131002,
   127_124002_126502_129002_122002,
   128_115402_117702_120102_113402,
   129_107202_109302_111502_105502,
   130_995103_101502_103502_978703,
   131_922203_940603_959403_910703,
   132_853303_870403_887803_838703,
   133_789603_805303_821503_776803,
   134_728803_743303_758203_717903,
   135_671903_685303_699003_667203,
   136_618503_630903_643503_620703,
   137_568603_579903_591503_574403,
   138_521503_531903_542503_528703,
   139_478103_487703_497403_478303,
   140_437203_445903_454903_438003,
   141_399103_407003_415203_402003,
   142_363403_370603_378103_368803,
   143_330003_336603_343403_334603,
   144_299503_305503_311603_303603,
   145_271203_276603_282103_277803,
   146_245003_249903_254903_253003,
   147_220403_224803_229303_226803,
   148_197703_201703_205703_204403,
   149_176803_180303_183903_183803,
   150_158103_161303_164503_164303,
   151_140803_143803_146803_146703,
   152_124703_127503_130403_127203,
   153_110803_113403_116103_113803,
   154_979704_100403_103003_101203,
   155_862704_885504_909004_907704,
   156_757804_778804_800504_807904,
   157_661504_680804_700604_691704,
   158_570204_587504_605404_594404,
   159_479304_494504_510204_507504,
   160_396704_409804_423304_423204,
   161_327704_339004_350604_344504,
   162_270804_280404_290404_279204,
   163_224004_232304_240804_229204,
   164_185304_192404_199704_189404,
   165_153004_159004_165304_156504,
   166_126304_131404_136804_127004,
   167_103904_108304_112804_106604,
   168_854905_892005_930705_840205,
   169_707805_739405_772505_708705,
   170_585905_612905_641105_596505,
   171_487105_510205_534305_501705,
   172_405005_424605_445305_417105,
   173_336805_353705_371305_342505,
   174_280205_294505_309605_279405,
   175_234005_246305_259205_244705,
   176_195405_205905_217005_201005,
   177_164005_173005_182505_170205,
   178_137605_145405_153605_143205,
   179_114505_121105_128105_117405,
   180_952806_100905_106905_988506,
   181_783306_830506_880606_785606,
   182_644306_684006_726106_646606,
   183_525206_558206_593306_551906,
   184_428306_455806_485006_440906,
   185_345706_368306_392406_331406,
   186_279106_297806_317706_272906,
   187_222106_237306_253406_216506,
   188_176806_189106_202206_164406,
   189_139706_149506_160106_135106,
   190_110306_118306_126806_109406,
   191_864307_927707_995707_861207,
   192_677107_727607_781907_683507,
   193_528107_568207_611307_536707,
   194_411907_443707_478007_417807,
   195_319307_344407_371407_329407,
   196_247507_267307_288607_242907,
   197_190907_206407_223107_188707,
   198_147207_159407_172507_150407,
   199_108707_117807_127607_108607,
   200_802208_870408_944408_827408,
   201_609508_662108_719308_604708,
   202_463208_503708_547808_469608,
   203_352008_383208_417308_357508,
   204_267508_291608_317908_264708,
   205_203308_221908_242208_195108,
   206_154208_168508_184208_153308,
   207_117008_128108_140108_123408,
   208_888409_973109_106608_942509,
   209_674409_739609_811209_693409,
   210_512109_562309_617409_535609,
   211_378409_416009_457309_391809,
   212_279609_307709_338709_283809,
   213_206609_227609_250809_216909,
   214_152609_168409_185809_153609,
   215_112809_124609_137609_115509,
   216_825410_912710_100909_822710,
   217_604010_668710_740310_600510,
   218_442010_489910_543010_471710,
   219_323510_359010_398310_367610,
   220_236710_263010_292210_279210,
   221_173410_192810_214510_202710,
   222_127010_141410_157410_142010,
   223_929811_103710_115610_988411,
   224_681011_760111_848511_705611,
   225_498811_557411_622911_532111,
   226_367511_411111_460011_378111,
   227_270711_303311_339711_280511,
   228_199511_223711_250911_201711,
   229_147011_165111_185311_157611,
   230_108311_121811_136911_114711,
   231_807512_908712_102311_822912,
   232_602112_678312_764212_616312,
   233_449012_506512_571212_485212,
   234_335012_378312_427212_396412,
   235_250012_282612_319512_289312,
   236_190512_215612_244012_226812,
   237_145312_164612_186512_166612,
   238_110912_125812_142712_128412,
   239_847513_962513_109312_982313,
   240_648113_736913_837913_785213,
   241_511713_582513_663013_620213,
   242_404613_461113_525513_483813,
   243_320413_365513_417113_375313,
   244_254013_290213_331413_299413,
   245_201713_230613_263713_232613,
   246_171213_196013_224413_198413,
   247_145513_166713_191113_161413,
   248_123713_141913_162813_130613,
   249_105213_120813_138813_115413,
   250_895414_103013_118413_971614]

/-- atmdata/Venus/LAT80S.txt:7552-7702, columns 0 to 4. -/
def venusProfile51 : List ℕ :=
  [100_635202_647902_660902_658802,
   101_603502_615602_627902_620502,
   102_573002_584502_596202_589702,
   103_543802_554702_565802_562702,
   104_515902_526202_536702_534602,
   105_488902_498702_508702_508802,
   106_463102_472402_481802_483302,
   107_438302_447102_456002_456002,
   108_414302_422602_431102_430502,
   109_391702_399502_407502_403902,
   110_369802_377202_384702_381102,
   111_348802_355802_362902_358902,
   112_328802_335402_342102_340402,
   113_309802_316002_322302_319802,
   114_291602_297402_303302_299602,
   115_274002_279502_285102_282402,
   116_257502_262702_268002_265502,
   117_242002_246802_251702_249702,
   118_227302_231802_236402_234602,
   119_213102_217402_221702_219402,
   120_199902_203902_208002_206802,
   121_187402_191102_194902_195102,
   122_175302_178802_182402_181902,
   123_163802_167102_170402_169702,
   124_153102_156202_159302_156802,
   125_142802_145702_148602_145502,
   126_133202_135902_138602_135902,
   127_124002_126502_129002_126602,
   128_115402_117702_120102_118902,
   129_107202_109302_111502_109402,
   130_995103_101502_103502_101502,
   131_922203_940603_959403_942803,
   132_853303_870403_887803_867203,
   133_789603_805303_821503_807703,
   134_728803_743303_758203_737903,
   135_671903_685303_699003_684203,
   136_618503_630903_643503_629203,
   137_568603_579903_591503_581203,
   138_521503_531903_542503_530103,
   139_478103_487703_497403_484503,
   140_437203_445903_454903_440503,
   141_399103_407003_415203_401503,
   142_363403_370603_378103_369303,
   143_330003_336603_343403_337703,
   144_299503_305503_311603_307303,
   145_271203_276603_282103_278203,
   146_245003_249903_254903_252703,
   147_220403_224803_229303_228703,
   148_197703_201703_205703_206203,
   149_176803_180303_183903_184503,
   150_158103_161303_164503_165403,
   151_140803_143803_146803_145903,
   152_124703_127503_130403_128003,
   153_110803_113403_116103_113303,
   154_979704_100403_103003_998704,
   155_862704_885504_909004_900204,
   156_757804_778804_800504_786704,
   157_661504_680804_700604_682804,
   158_570204_587504_605404_586104,
   159_479304_494504_510204_497004,
   160_396704_409804_423304_419804,
   161_327704_339004_350604_352004,
   162_270804_280404_290404_296704,
   163_224004_232304_240804_248904,
   164_185304_192404_199704_207404,
   165_153004_159004_165304_168204,
   166_126304_131404_136804_134904,
   167_103904_108304_112804_112004,
   168_854905_892005_930705_922305,
   169_707805_739405_772505_769205,
   170_585905_612905_641105_624005,
   171_487105_510205_534305_512805,
   172_405005_424605_445305_443005,
   173_336805_353705_371305_357905,
   174_280205_294505_309605_291605,
   175_234005_246305_259205_242205,
   176_195405_205905_217005_195205,
   177_164005_173005_182505_165705,
   178_137605_145405_153605_139605,
   179_114505_121105_128105_113905,
   180_952806_100905_106905_941306,
   181_783306_830506_880606_790206,
   182_644306_684006_726106_657706,
   183_525206_558206_593306_528106,
   184_428306_455806_485006_414006,
   185_345706_368306_392406_351706,
   186_279106_297806_317706_277806,
   187_222106_237306_253406_216006,
   188_176806_189106_202206_167606,
   189_139706_149506_160106_133806,
   190_110306_118306_126806_107906,
   191_864307_927707_995707_822607,
   192_677107_727607_781907_651807,
   193_528107_568207_611307_488407,
   194_411907_443707_478007_405007,
   195_319307_344407_371407_332607,
   196_247507_267307_288607_252107,
   197_190907_206407_223107_194507,
   198_147207_159407_172507_162007,
   199_108707_117807_127607_118707,
   200_802208_870408_944408_834108,
   201_609508_662108_719308_636508,
   202_463208_503708_547808_492108,
   203_352008_383208_417308_381708,
   204_267508_291608_317908_285408,
   205_203308_221908_242208_234408,
   206_154208_168508_184208_183708,
   207_117008_128108_140108_136008,
   208_888409_973109_106608_100708,
   209_674409_739609_811209_773709,
   210_512109_562309_617409_618109,
   211_378409_416009_457309_455909,
   212_279609_307709_338709_346609,
   213_206609_227609_250809_265809,
   214_152609_168409_185809_202109,
   215_112809_124609_137609_145009,
   216_825410_912710_100909_102709,
   217_604010_668710_740310_752410,
   218_442010_489910_543010_501510,
   219_323510_359010_398310_398210,
   220_236710_263010_292210_299010,
   221_173410_192810_214510_225410,
   222_127010_141410_157410_163810,
   223_929811_103710_115610_120410,
   224_681011_760111_848511_912011,
   225_498811_557411_622911_673111,
   226_367511_411111_460011_497811,
   227_270711_303311_339711_359811,
   228_199511_223711_250911_304711,
   229_147011_165111_185311_218711,
   230_108311_121811_136911_160811,
   231_807512_908712_102311_117511,
   232_602112_678312_764212_827412,
   233_449012_506512_571212_575712,
   234_335012_378312_427212_425212,
   235_250012_282612_319512_302912,
   236_190512_215612_244012_252812,
   237_145312_164612_186512_197912,
   238_110912_125812_142712_144412,
   239_847513_962513_109312_103212,
   240_648113_736913_837913_749513,
   241_511713_582513_663013_624813,
   242_404613_461113_525513_480313,
   243_320413_365513_417113_359813,
   244_254013_290213_331413_321713,
   245_201713_230613_263713_256613,
   246_171213_196013_224413_204113,
   247_145513_166713_191113_136513,
   248_123713_141913_162813_117913,
   249_105213_120813_138813_953314,
   250_895414_103013_118413_812514]

/-- atmdata/Venus/LAT80S.txt:7703-7853, columns 0 to 4. -/
def venusProfile52 : List ℕ :=
  [100_635202_647902_660902_630302,
   101_603502_615602_627902_607702,
   102_573002_584502_596202_577102,
   103_543802_554702_565802_549402,
   104_515902_526202_536702_523302,
   105_488902_498702_508702_495602,
   106_463102_472402_481802_467202,
   107_438302_447102_456002_441402,
   108_414302_422602_431102_418502,
   109_391702_399502_407502_392102,
   110_369802_377202_384702_371102,
   111_348802_355802_362902_348902,
   112_328802_335402_342102_327202,
   113_309802_316002_322302_309302,
   114_291602_297402_303302_291102,
   115_274002_279502_285102_272902,
   116_257502_262702_268002_257102,
   117_242002_246802_251702_240902,
   118_227302_231802_236402_229402,
   119_213102_217402_221702_215602,
   120_199902_203902_208002_202402,
   121_187402_191102_194902_191602,
   122_175302_178802_182402_180502,
   123_163802_167102_170402_168002,
   124_153102_156202_159302_157702,
   125_142802_145702_148602_146802,
   126_133202_135902_138602_136202,
   127_124002_126502_129002_127002,
   128_115402_117702_120102_118202,
   129_107202_109302_111502_110002,
   130_995103_101502_103502_102202,
   131_922203_940603_959403_949103,
   132_853303_870403_887803_873003,
   133_789603_805303_821503_804703,
   134_728803_743303_758203_744103,
   135_671903_685303_699003_689203,
   136_618503_630903_643503_639803,
   137_568603_579903_591503_589903,
   138_521503_531903_542503_542203,
   139_478103_487703_497403_497303,
   140_437203_445903_454903_456603,
   141_399103_407003_415203_405403,
   142_363403_370603_378103_374903,
   143_330003_336603_343403_339103,
   144_299503_305503_311603_309703,
   145_271203_276603_282103_277703,
   146_245003_249903_254903_251903,
   147_220403_224803_229303_225803,
   148_197703_201703_205703_204103,
   149_176803_180303_183903_182103,
   150_158103_161303_164503_163903,
   151_140803_143803_146803_146303,
   152_124703_127503_130403_128803,
   153_110803_113403_116103_115503,
   154_979704_100403_103003_103603,
   155_862704_885504_909004_894004,
   156_757804_778804_800504_789604,
   157_661504_680804_700604_689804,
   158_570204_587504_605404_591004,
   159_479304_494504_510204_498304,
   160_396704_409804_423304_407404,
   161_327704_339004_350604_338204,
   162_270804_280404_290404_282904,
   163_224004_232304_240804_234104,
   164_185304_192404_199704_189204,
   165_153004_159004_165304_159604,
   166_126304_131404_136804_136704,
   167_103904_108304_112804_112804,
   168_854905_892005_930705_901905,
   169_707805_739405_772505_750505,
   170_585905_612905_641105_624105,
   171_487105_510205_534305_531805,
   172_405005_424605_445305_441105,
   173_336805_353705_371305_379005,
   174_280205_294505_309605_308305,
   175_234005_246305_259205_260605,
   176_195405_205905_217005_222805,
   177_164005_173005_182505_187405,
   178_137605_145405_153605_156405,
   179_114505_121105_128105_125805,
   180_952806_100905_106905_109005,
   181_783306_830506_880606_883906,
   182_644306_684006_726106_738306,
   183_525206_558206_593306_600006,
   184_428306_455806_485006_503806,
   185_345706_368306_392406_415406,
   186_279106_297806_317706_337606,
   187_222106_237306_253406_278506,
   188_176806_189106_202206_215106,
   189_139706_149506_160106_164406,
   190_110306_118306_126806_129806,
   191_864307_927707_995707_103506,
   192_677107_727607_781907_800707,
   193_528107_568207_611307_627007,
   194_411907_443707_478007_483407,
   195_319307_344407_371407_364207,
   196_247507_267307_288607_278407,
   197_190907_206407_223107_212207,
   198_147207_159407_172507_159007,
   199_108707_117807_127607_118807,
   200_802208_870408_944408_869608,
   201_609508_662108_719308_689908,
   202_463208_503708_547808_530208,
   203_352008_383208_417308_423908,
   204_267508_291608_317908_317808,
   205_203308_221908_242208_247508,
   206_154208_168508_184208_197808,
   207_117008_128108_140108_151208,
   208_888409_973109_106608_107708,
   209_674409_739609_811209_769309,
   210_512109_562309_617409_565509,
   211_378409_416009_457309_429709,
   212_279609_307709_338709_312409,
   213_206609_227609_250809_215009,
   214_152609_168409_185809_161209,
   215_112809_124609_137609_112909,
   216_825410_912710_100909_820710,
   217_604010_668710_740310_630110,
   218_442010_489910_543010_441810,
   219_323510_359010_398310_298910,
   220_236710_263010_292210_230910,
   221_173410_192810_214510_163710,
   222_127010_141410_157410_129110,
   223_929811_103710_115610_902711,
   224_681011_760111_848511_666411,
   225_498811_557411_622911_508111,
   226_367511_411111_460011_356611,
   227_270711_303311_339711_263611,
   228_199511_223711_250911_203711,
   229_147011_165111_185311_140511,
   230_108311_121811_136911_118011,
   231_807512_908712_102311_923412,
   232_602112_678312_764212_737412,
   233_449012_506512_571212_542212,
   234_335012_378312_427212_366412,
   235_250012_282612_319512_256712,
   236_190512_215612_244012_189912,
   237_145312_164612_186512_142412,
   238_110912_125812_142712_121012,
   239_847513_962513_109312_964613,
   240_648113_736913_837913_750713,
   241_511713_582513_663013_557813,
   242_404613_461113_525513_426613,
   243_320413_365513_417113_378313,
   244_254013_290213_331413_295613,
   245_201713_230613_263713_246713,
   246_171213_196013_224413_218213,
   247_145513_166713_191113_191913,
   248_123713_141913_162813_168013,
   249_105213_120813_138813_143313,
   250_895414_103013_118413_117913]

/-- atmdata/Venus/LAT80S.txt:7854-8004, columns 0 to 4. -/
def venusProfile53 : List ℕ :=
  [100_635202_647902_660902_643602,
   101_603502_615602_627902_616502,
   102_573002_584502_596202_584302,
   103_543802_554702_565802_554902,
   104_515902_526202_536702_529902,
   105_488902_498702_508702_496702,
   106_463102_472402_481802_470902,
   107_438302_447102_456002_445002,
   108_414302_422602_431102_423902,
   109_391702_399502_407502_405302,
   110_369802_377202_384702_384002,
   111_348802_355802_362902_359202,
   112_328802_335402_342102_337902,
   113_309802_316002_322302_315302,
   114_291602_297402_303302_297602,
   115_274002_279502_285102_281002,
   116_257502_262702_268002_264602,
   117_242002_246802_251702_250402,
   118_227302_231802_236402_234802,
   119_213102_217402_221702_221602,
   120_199902_203902_208002_206902,
   121_187402_191102_194902_191702,
   122_175302_178802_182402_179302,
   123_163802_167102_170402_166502,
   124_153102_156202_159302_155702,
   125_142802_145702_148602_145402,
   126_133202_135902_138602_136102,
   127_124002_126502_129002_127102,
   128_115402_117702_120102_117602,
   129_107202_109302_111502_108802,
   130_995103_101502_103502_101302,
   131_922203_940603_959403_940903,
   132_853303_870403_887803_866103,
   133_789603_805303_821503_803703,
   134_728803_743303_758203_738103,
   135_671903_685303_699003_683403,
   136_618503_630903_643503_628403,
   137_568603_579903_591503_579403,
   138_521503_531903_542503_528603,
   139_478103_487703_497403_488103,
   140_437203_445903_454903_445803,
   141_399103_407003_415203_407703,
   142_363403_370603_378103_367503,
   143_330003_336603_343403_335203,
   144_299503_305503_311603_300903,
   145_271203_276603_282103_273503,
   146_245003_249903_254903_247903,
   147_220403_224803_229303_224403,
   148_197703_201703_205703_203303,
   149_176803_180303_183903_180703,
   150_158103_161303_164503_164003,
   151_140803_143803_146803_144703,
   152_124703_127503_130403_127703,
   153_110803_113403_116103_113403,
   154_979704_100403_103003_100503,
   155_862704_885504_909004_871204,
   156_757804_778804_800504_754204,
   157_661504_680804_700604_664304,
   158_570204_587504_605404_568904,
   159_479304_494504_510204_477904,
   160_396704_409804_423304_394804,
   161_327704_339004_350604_325304,
   162_270804_280404_290404_270904,
   163_224004_232304_240804_220504,
   164_185304_192404_199704_182304,
   165_153004_159004_165304_151804,
   166_126304_131404_136804_128804,
   167_103904_108304_112804_106204,
   168_854905_892005_930705_879905,
   169_707805_739405_772505_730705,
   170_585905_612905_641105_579305,
   171_487105_510205_534305_484505,
   172_405005_424605_445305_381505,
   173_336805_353705_371305_326705,
   174_280205_294505_309605_268605,
   175_234005_246305_259205_220405,
   176_195405_205905_217005_188705,
   177_164005_173005_182505_160905,
   178_137605_145405_153605_135605,
   179_114505_121105_128105_108505,
   180_952806_100905_106905_919506,
   181_783306_830506_880606_807206,
   182_644306_684006_726106_695106,
   183_525206_558206_593306_580006,
   184_428306_455806_485006_481206,
   185_345706_368306_392406_395606,
   186_279106_297806_317706_312506,
   187_222106_237306_253406_253106,
   188_176806_189106_202206_198006,
   189_139706_149506_160106_161106,
   190_110306_118306_126806_126906,
   191_864307_927707_995707_986907,
   192_677107_727607_781907_761907,
   193_528107_568207_611307_577207,
   194_411907_443707_478007_473107,
   195_319307_344407_371407_366307,
   196_247507_267307_288607_283507,
   197_190907_206407_223107_215007,
   198_147207_159407_172507_164607,
   199_108707_117807_127607_125207,
   200_802208_870408_944408_940208,
   201_609508_662108_719308_695408,
   202_463208_503708_547808_534308,
   203_352008_383208_417308_391508,
   204_267508_291608_317908_298508,
   205_203308_221908_242208_229408,
   206_154208_168508_184208_164808,
   207_117008_128108_140108_119708,
   208_888409_973109_106608_952309,
   209_674409_739609_811209_727009,
   210_512109_562309_617409_555709,
   211_378409_416009_457309_438809,
   212_279609_307709_338709_340909,
   213_206609_227609_250809_241809,
   214_152609_168409_185809_174209,
   215_112809_124609_137609_134109,
   216_825410_912710_100909_969010,
   217_604010_668710_740310_632310,
   218_442010_489910_543010_451810,
   219_323510_359010_398310_313710,
   220_236710_263010_292210_240210,
   221_173410_192810_214510_178410,
   222_127010_141410_157410_127010,
   223_929811_103710_115610_955711,
   224_681011_760111_848511_651011,
   225_498811_557411_622911_499011,
   226_367511_411111_460011_376011,
   227_270711_303311_339711_275511,
   228_199511_223711_250911_204611,
   229_147011_165111_185311_156111,
   230_108311_121811_136911_112811,
   231_807512_908712_102311_798012,
   232_602112_678312_764212_614212,
   233_449012_506512_571212_479012,
   234_335012_378312_427212_363112,
   235_250012_282612_319512_300712,
   236_190512_215612_244012_228212,
   237_145312_164612_186512_181912,
   238_110912_125812_142712_140612,
   239_847513_962513_109312_105012,
   240_648113_736913_837913_717513,
   241_511713_582513_663013_563413,
   242_404613_461113_525513_422413,
   243_320413_365513_417113_351413,
   244_254013_290213_331413_296313,
   245_201713_230613_263713_210613,
   246_171213_196013_224413_178313,
   247_145513_166713_191113_154213,
   248_123713_141913_162813_120413,
   249_105213_120813_138813_944614,
   250_895414_103013_118413_798814]

/-- atmdata/Venus/LAT80S.txt:8005-8155, columns 0 to 4. -/
def venusProfile54 : List ℕ :=
  [100_635202_647902_660902_652902,
   101_603502_615602_627902_624102,
   102_573002_584502_596202_590302,
   103_543802_554702_565802_559302,
   104_515902_526202_536702_525902,
   105_488902_498702_508702_499102,
   106_463102_472402_481802_476702,
   107_438302_447102_456002_450502,
   108_414302_422602_431102_423602,
   109_391702_399502_407502_403702,
   110_369802_377202_384702_383902,
   111_348802_355802_362902_364202,
   112_328802_335402_342102_343402,
   113_309802_316002_322302_322902,
   114_291602_297402_303302_306102,
   115_274002_279502_285102_286802,
   116_257502_262702_268002_270002,
   117_242002_246802_251702_253702,
   118_227302_231802_236402_239502,
   119_213102_217402_221702_223202,
   120_199902_203902_208002_211002,
   121_187402_191102_194902_196002,
   122_175302_178802_182402_181902,
   123_163802_167102_170402_171602,
   124_153102_156202_159302_159702,
   125_142802_145702_148602_149502,
   126_133202_135902_138602_138902,
   127_124002_126502_129002_129802,
   128_115402_117702_120102_121202,
   129_107202_109302_111502_113002,
   130_995103_101502_103502_105302,
   131_922203_940603_959403_975903,
   132_853303_870403_887803_897203,
   133_789603_805303_821503_822303,
   134_728803_743303_758203_761603,
   135_671903_685303_699003_703603,
   136_618503_630903_643503_652103,
   137_568603_579903_591503_599703,
   138_521503_531903_542503_550703,
   139_478103_487703_497403_500803,
   140_437203_445903_454903_452903,
   141_399103_407003_415203_411203,
   142_363403_370603_378103_371503,
   143_330003_336603_343403_335103,
   144_299503_305503_311603_302803,
   145_271203_276603_282103_273003,
   146_245003_249903_254903_247103,
   147_220403_224803_229303_221603,
   148_197703_201703_205703_201503,
   149_176803_180303_183903_177503,
   150_158103_161303_164503_157703,
   151_140803_143803_146803_140803,
   152_124703_127503_130403_124603,
   153_110803_113403_116103_112403,
   154_979704_100403_103003_986104,
   155_862704_885504_909004_857204,
   156_757804_778804_800504_753604,
   157_661504_680804_700604_671504,
   158_570204_587504_605404_573904,
   159_479304_494504_510204_479104,
   160_396704_409804_423304_398604,
   161_327704_339004_350604_323404,
   162_270804_280404_290404_268004,
   163_224004_232304_240804_224404,
   164_185304_192404_199704_187804,
   165_153004_159004_165304_154104,
   166_126304_131404_136804_129804,
   167_103904_108304_112804_106504,
   168_854905_892005_930705_859705,
   169_707805_739405_772505_712505,
   170_585905_612905_641105_590305,
   171_487105_510205_534305_481405,
   172_405005_424605_445305_402905,
   173_336805_353705_371305_340105,
   174_280205_294505_309605_279405,
   175_234005_246305_259205_234805,
   176_195405_205905_217005_197905,
   177_164005_173005_182505_168205,
   178_137605_145405_153605_141205,
   179_114505_121105_128105_123105,
   180_952806_100905_106905_101105,
   181_783306_830506_880606_838706,
   182_644306_684006_726106_670606,
   183_525206_558206_593306_530806,
   184_428306_455806_485006_438706,
   185_345706_368306_392406_361306,
   186_279106_297806_317706_299106,
   187_222106_237306_253406_239406,
   188_176806_189106_202206_189406,
   189_139706_149506_160106_150506,
   190_110306_118306_126806_118506,
   191_864307_927707_995707_899007,
   192_677107_727607_781907_694707,
   193_528107_568207_611307_556807,
   194_411907_443707_478007_434007,
   195_319307_344407_371407_348007,
   196_247507_267307_288607_274307,
   197_190907_206407_223107_207507,
   198_147207_159407_172507_162507,
   199_108707_117807_127607_112207,
   200_802208_870408_944408_787308,
   201_609508_662108_719308_612508,
   202_463208_503708_547808_476108,
   203_352008_383208_417308_361608,
   204_267508_291608_317908_280608,
   205_203308_221908_242208_213108,
   206_154208_168508_184208_157408,
   207_117008_128108_140108_120408,
   208_888409_973109_106608_931909,
   209_674409_739609_811209_767509,
   210_512109_562309_617409_606309,
   211_378409_416009_457309_426809,
   212_279609_307709_338709_313709,
   213_206609_227609_250809_228009,
   214_152609_168409_185809_155809,
   215_112809_124609_137609_117309,
   216_825410_912710_100909_863810,
   217_604010_668710_740310_613810,
   218_442010_489910_543010_446010,
   219_323510_359010_398310_314510,
   220_236710_263010_292210_240110,
   221_173410_192810_214510_188210,
   222_127010_141410_157410_139410,
   223_929811_103710_115610_972511,
   224_681011_760111_848511_730111,
   225_498811_557411_622911_553211,
   226_367511_411111_460011_378911,
   227_270711_303311_339711_276211,
   228_199511_223711_250911_197611,
   229_147011_165111_185311_143811,
   230_108311_121811_136911_109211,
   231_807512_908712_102311_816112,
   232_602112_678312_764212_603812,
   233_449012_506512_571212_417912,
   234_335012_378312_427212_296112,
   235_250012_282612_319512_240512,
   236_190512_215612_244012_194112,
   237_145312_164612_186512_146112,
   238_110912_125812_142712_110412,
   239_847513_962513_109312_743913,
   240_648113_736913_837913_578413,
   241_511713_582513_663013_486913,
   242_404613_461113_525513_353813,
   243_320413_365513_417113_290813,
   244_254013_290213_331413_227013,
   245_201713_230613_263713_176313,
   246_171213_196013_224413_136413,
   247_145513_166713_191113_116513,
   248_123713_141913_162813_100213,
   249_105213_120813_138813_890014,
   250_895414_103013_118413_752814]

/-- atmdata/Venus/LAT80S.txt:8156-8306, columns 0 to 4. -/
def venusProfile55 : List ℕ :=
  [100_635202_647902_660902_667402,
   101_603502_615602_627902_636802,
   102_573002_584502_596202_600702,
   103_543802_554702_565802_567602,
   104_515902_526202_536702_535602,
   105_488902_498702_508702_505102,
   106_463102_472402_481802_477402,
   107_438302_447102_456002_451202,
   108_414302_422602_431102_425902,
   109_391702_399502_407502_405102,
   110_369802_377202_384702_379602,
   111_348802_355802_362902_359002,
   112_328802_335402_342102_340002,
   113_309802_316002_322302_321302,
   114_291602_297402_303302_300802,
   115_274002_279502_285102_284402,
   116_257502_262702_268002_268002,
   117_242002_246802_251702_250702,
   118_227302_231802_236402_234702,
   119_213102_217402_221702_219902,
   120_199902_203902_208002_206602,
   121_187402_191102_194902_192402,
   122_175302_178802_182402_180402,
   123_163802_167102_170402_169402,
   124_153102_156202_159302_156202,
   125_142802_145702_148602_147302,
   126_133202_135902_138602_138202,
   127_124002_126502_129002_129602,
   128_115402_117702_120102_120202,
   129_107202_109302_111502_111402,
   130_995103_101502_103502_104302,
   131_922203_940603_959403_966403,
   132_853303_870403_887803_889003,
   133_789603_805303_821503_821703,
   134_728803_743303_758203_756003,
   135_671903_685303_699003_698203,
   136_618503_630903_643503_641303,
   137_568603_579903_591503_589703,
   138_521503_531903_542503_537503,
   139_478103_487703_497403_492003,
   140_437203_445903_454903_451103,
   141_399103_407003_415203_414303,
   142_363403_370603_378103_374803,
   143_330003_336603_343403_340603,
   144_299503_305503_311603_308603,
   145_271203_276603_282103_280903,
   146_245003_249903_254903_253503,
   147_220403_224803_229303_229003,
   148_197703_201703_205703_202303,
   149_176803_180303_183903_182003,
   150_158103_161303_164503_162003,
   151_140803_143803_146803_143103,
   152_124703_127503_130403_126803,
   153_110803_113403_116103_112803,
   154_979704_100403_103003_100503,
   155_862704_885504_909004_875204,
   156_757804_778804_800504_777604,
   157_661504_680804_700604_673104,
   158_570204_587504_605404_573904,
   159_479304_494504_510204_474604,
   160_396704_409804_423304_398204,
   161_327704_339004_350604_333504,
   162_270804_280404_290404_274404,
   163_224004_232304_240804_226004,
   164_185304_192404_199704_181704,
   165_153004_159004_165304_158804,
   166_126304_131404_136804_132904,
   167_103904_108304_112804_108304,
   168_854905_892005_930705_898305,
   169_707805_739405_772505_739405,
   170_585905_612905_641105_625705,
   171_487105_510205_534305_526805,
   172_405005_424605_445305_421905,
   173_336805_353705_371305_352305,
   174_280205_294505_309605_289205,
   175_234005_246305_259205_249205,
   176_195405_205905_217005_207305,
   177_164005_173005_182505_175705,
   178_137605_145405_153605_146805,
   179_114505_121105_128105_126005,
   180_952806_100905_106905_108905,
   181_783306_830506_880606_878006,
   182_644306_684006_726106_710806,
   183_525206_558206_593306_574706,
   184_428306_455806_485006_467506,
   185_345706_368306_392406_381006,
   186_279106_297806_317706_303606,
   187_222106_237306_253406_239406,
   188_176806_189106_202206_190606,
   189_139706_149506_160106_147806,
   190_110306_118306_126806_116106,
   191_864307_927707_995707_935107,
   192_677107_727607_781907_715407,
   193_528107_568207_611307_551807,
   194_411907_443707_478007_457907,
   195_319307_344407_371407_341907,
   196_247507_267307_288607_274607,
   197_190907_206407_223107_206807,
   198_147207_159407_172507_166507,
   199_108707_117807_127607_119507,
   200_802208_870408_944408_873108,
   201_609508_662108_719308_621308,
   202_463208_503708_547808_482608,
   203_352008_383208_417308_374608,
   204_267508_291608_317908_293208,
   205_203308_221908_242208_218008,
   206_154208_168508_184208_163108,
   207_117008_128108_140108_131108,
   208_888409_973109_106608_984709,
   209_674409_739609_811209_741709,
   210_512109_562309_617409_542909,
   211_378409_416009_457309_396109,
   212_279609_307709_338709_264709,
   213_206609_227609_250809_198709,
   214_152609_168409_185809_153409,
   215_112809_124609_137609_112609,
   216_825410_912710_100909_838610,
   217_604010_668710_740310_613210,
   218_442010_489910_543010_451510,
   219_323510_359010_398310_321710,
   220_236710_263010_292210_244410,
   221_173410_192810_214510_175110,
   222_127010_141410_157410_137810,
   223_929811_103710_115610_102810,
   224_681011_760111_848511_731911,
   225_498811_557411_622911_555611,
   226_367511_411111_460011_411011,
   227_270711_303311_339711_296511,
   228_199511_223711_250911_239511,
   229_147011_165111_185311_188911,
   230_108311_121811_136911_147611,
   231_807512_908712_102311_111711,
   232_602112_678312_764212_771512,
   233_449012_506512_571212_561312,
   234_335012_378312_427212_424312,
   235_250012_282612_319512_322912,
   236_190512_215612_244012_221612,
   237_145312_164612_186512_178412,
   238_110912_125812_142712_123312,
   239_847513_962513_109312_961913,
   240_648113_736913_837913_781313,
   241_511713_582513_663013_555413,
   242_404613_461113_525513_487213,
   243_320413_365513_417113_376213,
   244_254013_290213_331413_307613,
   245_201713_230613_263713_242013,
   246_171213_196013_224413_210413,
   247_145513_166713_191113_165413,
   248_123713_141913_162813_144313,
   249_105213_120813_138813_142213,
   250_895414_103013_118413_115813]

/-- atmdata/Venus/LAT80S.txt:8307-8457, columns 0 to 4. -/
def venusProfile56 : List ℕ :=
  [100_635202_647902_660902_638002,
   101_603502_615602_627902_609002,
   102_573002_584502_596202_571802,
   103_543802_554702_565802_539202,
   104_515902_526202_536702_510602,
   105_488902_498702_508702_486402,
   106_463102_472402_481802_462702,
   107_438302_447102_456002_437902,
   108_414302_422602_431102_415002,
   109_391702_399502_407502_394602,
   110_369802_377202_384702_371402,
   111_348802_355802_362902_350702,
   112_328802_335402_342102_328002,
   113_309802_316002_322302_307402,
   114_291602_297402_303302_289302,
   115_274002_279502_285102_271902,
   116_257502_262702_268002_256802,
   117_242002_246802_251702_243302,
   118_227302_231802_236402_229402,
   119_213102_217402_221702_215902,
   120_199902_203902_208002_202202,
   121_187402_191102_194902_188702,
   122_175302_178802_182402_176102,
   123_163802_167102_170402_165002,
   124_153102_156202_159302_154902,
   125_142802_145702_148602_143802,
   126_133202_135902_138602_134102,
   127_124002_126502_129002_123202,
   128_115402_117702_120102_116202,
   129_107202_109302_111502_106702,
   130_995103_101502_103502_982503,
   131_922203_940603_959403_912803,
   132_853303_870403_887803_842003,
   133_789603_805303_821503_786403,
   134_728803_743303_758203_733003,
   135_671903_685303_699003_677603,
   136_618503_630903_643503_628903,
   137_568603_579903_591503_578503,
   138_521503_531903_542503_532203,
   139_478103_487703_497403_489703,
   140_437203_445903_454903_446403,
   141_399103_407003_415203_407303,
   142_363403_370603_378103_369403,
   143_330003_336603_343403_327503,
   144_299503_305503_311603_298303,
   145_271203_276603_282103_270003,
   146_245003_249903_254903_243803,
   147_220403_224803_229303_218703,
   148_197703_201703_205703_194603,
   149_176803_180303_183903_174703,
   150_158103_161303_164503_156303,
   151_140803_143803_146803_139703,
   152_124703_127503_130403_124003,
   153_110803_113403_116103_108803,
   154_979704_100403_103003_961504,
   155_862704_885504_909004_838704,
   156_757804_778804_800504_732804,
   157_661504_680804_700604_640204,
   158_570204_587504_605404_544804,
   159_479304_494504_510204_467504,
   160_396704_409804_423304_375204,
   161_327704_339004_350604_312104,
   162_270804_280404_290404_255704,
   163_224004_232304_240804_218104,
   164_185304_192404_199704_180204,
   165_153004_159004_165304_150904,
   166_126304_131404_136804_126304,
   167_103904_108304_112804_102504,
   168_854905_892005_930705_833405,
   169_707805_739405_772505_686605,
   170_585905_612905_641105_565605,
   171_487105_510205_534305_470005,
   172_405005_424605_445305_394705,
   173_336805_353705_371305_328705,
   174_280205_294505_309605_271405,
   175_234005_246305_259205_225505,
   176_195405_205905_217005_187105,
   177_164005_173005_182505_160005,
   178_137605_145405_153605_134505,
   179_114505_121105_128105_115405,
   180_952806_100905_106905_972606,
   181_783306_830506_880606_828806,
   182_644306_684006_726106_681706,
   183_525206_558206_593306_564006,
   184_428306_455806_485006_454806,
   185_345706_368306_392406_369606,
   186_279106_297806_317706_308406,
   187_222106_237306_253406_238906,
   188_176806_189106_202206_191506,
   189_139706_149506_160106_158606,
   190_110306_118306_126806_123306,
   191_864307_927707_995707_961607,
   192_677107_727607_781907_727107,
   193_528107_568207_611307_590707,
   194_411907_443707_478007_459207,
   195_319307_344407_371407_353507,
   196_247507_267307_288607_250707,
   197_190907_206407_223107_189207,
   198_147207_159407_172507_141007,
   199_108707_117807_127607_104607,
   200_802208_870408_944408_798008,
   201_609508_662108_719308_606608,
   202_463208_503708_547808_472608,
   203_352008_383208_417308_380608,
   204_267508_291608_317908_303008,
   205_203308_221908_242208_218608,
   206_154208_168508_184208_165408,
   207_117008_128108_140108_123708,
   208_888409_973109_106608_910409,
   209_674409_739609_811209_727109,
   210_512109_562309_617409_552409,
   211_378409_416009_457309_410709,
   212_279609_307709_338709_305809,
   213_206609_227609_250809_230509,
   214_152609_168409_185809_169909,
   215_112809_124609_137609_119409,
   216_825410_912710_100909_891110,
   217_604010_668710_740310_662910,
   218_442010_489910_543010_490610,
   219_323510_359010_398310_350810,
   220_236710_263010_292210_263410,
   221_173410_192810_214510_196110,
   222_127010_141410_157410_139310,
   223_929811_103710_115610_972911,
   224_681011_760111_848511_752111,
   225_498811_557411_622911_572011,
   226_367511_411111_460011_467611,
   227_270711_303311_339711_332511,
   228_199511_223711_250911_249711,
   229_147011_165111_185311_183811,
   230_108311_121811_136911_130111,
   231_807512_908712_102311_891712,
   232_602112_678312_764212_698212,
   233_449012_506512_571212_533712,
   234_335012_378312_427212_379512,
   235_250012_282612_319512_286812,
   236_190512_215612_244012_212512,
   237_145312_164612_186512_159712,
   238_110912_125812_142712_126512,
   239_847513_962513_109312_935013,
   240_648113_736913_837913_693913,
   241_511713_582513_663013_538513,
   242_404613_461113_525513_456113,
   243_320413_365513_417113_341713,
   244_254013_290213_331413_256613,
   245_201713_230613_263713_212113,
   246_171213_196013_224413_176413,
   247_145513_166713_191113_162513,
   248_123713_141913_162813_152913,
   249_105213_120813_138813_128513,
   250_895414_103013_118413_104713]

/-- atmdata/Venus/LAT80S.txt:8458-8608, columns 0 to 4. -/
def venusProfile57 : List ℕ :=
  [100_635202_647902_660902_647902,
   101_603502_615602_627902_617702,
   102_573002_584502_596202_590102,
   103_543802_554702_565802_563602,
   104_515902_526202_536702_534002,
   105_488902_498702_508702_505102,
   106_463102_472402_481802_475802,
   107_438302_447102_456002_450102,
   108_414302_422602_431102_427802,
   109_391702_399502_407502_406002,
   110_369802_377202_384702_382602,
   111_348802_355802_362902_360102,
   112_328802_335402_342102_338302,
   113_309802_316002_322302_318602,
   114_291602_297402_303302_300402,
   115_274002_279502_285102_285102,
   116_257502_262702_268002_269002,
   117_242002_246802_251702_252702,
   118_227302_231802_236402_236102,
   119_213102_217402_221702_224002,
   120_199902_203902_208002_208302,
   121_187402_191102_194902_194402,
   122_175302_178802_182402_182902,
   123_163802_167102_170402_170802,
   124_153102_156202_159302_159502,
   125_142802_145702_148602_148402,
   126_133202_135902_138602_136602,
   127_124002_126502_129002_126202,
   128_115402_117702_120102_117602,
   129_107202_109302_111502_109402,
   130_995103_101502_103502_101002,
   131_922203_940603_959403_937203,
   132_853303_870403_887803_863803,
   133_789603_805303_821503_797103,
   134_728803_743303_758203_736103,
   135_671903_685303_699003_680003,
   136_618503_630903_643503_625203,
   137_568603_579903_591503_574803,
   138_521503_531903_542503_524503,
   139_478103_487703_497403_489303,
   140_437203_445903_454903_452303,
   141_399103_407003_415203_409203,
   142_363403_370603_378103_371403,
   143_330003_336603_343403_336903,
   144_299503_305503_311603_307603,
   145_271203_276603_282103_281903,
   146_245003_249903_254903_253603,
   147_220403_224803_229303_229003,
   148_197703_201703_205703_203603,
   149_176803_180303_183903_181603,
   150_158103_161303_164503_162603,
   151_140803_143803_146803_143603,
   152_124703_127503_130403_127703,
   153_110803_113403_116103_113803,
   154_979704_100403_103003_984504,
   155_862704_885504_909004_859604,
   156_757804_778804_800504_758804,
   157_661504_680804_700604_666504,
   158_570204_587504_605404_564204,
   159_479304_494504_510204_479404,
   160_396704_409804_423304_393804,
   161_327704_339004_350604_323604,
   162_270804_280404_290404_260504,
   163_224004_232304_240804_217104,
   164_185304_192404_199704_181804,
   165_153004_159004_165304_150304,
   166_126304_131404_136804_125304,
   167_103904_108304_112804_100704,
   168_854905_892005_930705_842705,
   169_707805_739405_772505_690505,
   170_585905_612905_641105_581405,
   171_487105_510205_534305_504505,
   172_405005_424605_445305_408005,
   173_336805_353705_371305_336205,
   174_280205_294505_309605_277505,
   175_234005_246305_259205_235605,
   176_195405_205905_217005_192205,
   177_164005_173005_182505_164105,
   178_137605_145405_153605_137605,
   179_114505_121105_128105_117105,
   180_952806_100905_106905_964406,
   181_783306_830506_880606_798706,
   182_644306_684006_726106_666406,
   183_525206_558206_593306_576906,
   184_428306_455806_485006_458906,
   185_345706_368306_392406_370906,
   186_279106_297806_317706_297806,
   187_222106_237306_253406_252906,
   188_176806_189106_202206_203306,
   189_139706_149506_160106_161506,
   190_110306_118306_126806_124806,
   191_864307_927707_995707_942407,
   192_677107_727607_781907_705507,
   193_528107_568207_611307_550507,
   194_411907_443707_478007_465807,
   195_319307_344407_371407_367307,
   196_247507_267307_288607_274707,
   197_190907_206407_223107_204707,
   198_147207_159407_172507_156107,
   199_108707_117807_127607_116907,
   200_802208_870408_944408_815208,
   201_609508_662108_719308_642108,
   202_463208_503708_547808_497608,
   203_352008_383208_417308_366308,
   204_267508_291608_317908_311908,
   205_203308_221908_242208_247808,
   206_154208_168508_184208_187808,
   207_117008_128108_140108_144608,
   208_888409_973109_106608_115808,
   209_674409_739609_811209_853809,
   210_512109_562309_617409_660909,
   211_378409_416009_457309_493709,
   212_279609_307709_338709_343809,
   213_206609_227609_250809_261309,
   214_152609_168409_185809_185109,
   215_112809_124609_137609_142109,
   216_825410_912710_100909_105209,
   217_604010_668710_740310_791510,
   218_442010_489910_543010_584310,
   219_323510_359010_398310_415710,
   220_236710_263010_292210_307010,
   221_173410_192810_214510_243110,
   222_127010_141410_157410_176810,
   223_929811_103710_115610_129210,
   224_681011_760111_848511_926711,
   225_498811_557411_622911_691311,
   226_367511_411111_460011_499011,
   227_270711_303311_339711_352111,
   228_199511_223711_250911_255111,
   229_147011_165111_185311_178311,
   230_108311_121811_136911_131811,
   231_807512_908712_102311_960912,
   232_602112_678312_764212_717912,
   233_449012_506512_571212_464212,
   234_335012_378312_427212_361512,
   235_250012_282612_319512_269712,
   236_190512_215612_244012_208312,
   237_145312_164612_186512_170012,
   238_110912_125812_142712_128312,
   239_847513_962513_109312_104712,
   240_648113_736913_837913_815413,
   241_511713_582513_663013_650913,
   242_404613_461113_525513_531013,
   243_320413_365513_417113_450513,
   244_254013_290213_331413_355113,
   245_201713_230613_263713_295913,
   246_171213_196013_224413_265313,
   247_145513_166713_191113_224913,
   248_123713_141913_162813_181013,
   249_105213_120813_138813_161813,
   250_895414_103013_118413_130113]

/-- atmdata/Venus/LAT80S.txt:8609-8759, columns 0 to 4. -/
def venusProfile58 : List ℕ :=
  [100_635202_647902_660902_658102,
   101_603502_615602_627902_626702,
   102_573002_584502_596202_596902,
   103_543802_554702_565802_568002,
   104_515902_526202_536702_538902,
   105_488902_498702_508702_514902,
   106_463102_472402_481802_487602,
   107_438302_447102_456002_461002,
   108_414302_422602_431102_432602,
   109_391702_399502_407502_410202,
   110_369802_377202_384702_387102,
   111_348802_355802_362902_363202,
   112_328802_335402_342102_342202,
   113_309802_316002_322302_323802,
   114_291602_297402_303302_306502,
   115_274002_279502_285102_287802,
   116_257502_262702_268002_271702,
   117_242002_246802_251702_254002,
   118_227302_231802_236402_238802,
   119_213102_217402_221702_222902,
   120_199902_203902_208002_209802,
   121_187402_191102_194902_195902,
   122_175302_178802_182402_183102,
   123_163802_167102_170402_170602,
   124_153102_156202_159302_158702,
   125_142802_145702_148602_148102,
   126_133202_135902_138602_138202,
   127_124002_126502_129002_127902,
   128_115402_117702_120102_118402,
   129_107202_109302_111502_109402,
   130_995103_101502_103502_101202,
   131_922203_940603_959403_938903,
   132_853303_870403_887803_865503,
   133_789603_805303_821503_803703,
   134_728803_743303_758203_735703,
   135_671903_685303_699003_679203,
   136_618503_630903_643503_630003,
   137_568603_579903_591503_578603,
   138_521503_531903_542503_532303,
   139_478103_487703_497403_486303,
   140_437203_445903_454903_445403,
   141_399103_407003_415203_408003,
   142_363403_370603_378103_370903,
   143_330003_336603_343403_339203,
   144_299503_305503_311603_303503,
   145_271203_276603_282103_275103,
   146_245003_249903_254903_247403,
   147_220403_224803_229303_221703,
   148_197703_201703_205703_197703,
   149_176803_180303_183903_176003,
   150_158103_161303_164503_158303,
   151_140803_143803_146803_141403,
   152_124703_127503_130403_126003,
   153_110803_113403_116103_111103,
   154_979704_100403_103003_987204,
   155_862704_885504_909004_862904,
   156_757804_778804_800504_782704,
   157_661504_680804_700604_692604,
   158_570204_587504_605404_614704,
   159_479304_494504_510204_517604,
   160_396704_409804_423304_427204,
   161_327704_339004_350604_365104,
   162_270804_280404_290404_305504,
   163_224004_232304_240804_248504,
   164_185304_192404_199704_211804,
   165_153004_159004_165304_170904,
   166_126304_131404_136804_140904,
   167_103904_108304_112804_118804,
   168_854905_892005_930705_961105,
   169_707805_739405_772505_777105,
   170_585905_612905_641105_628505,
   171_487105_510205_534305_524505,
   172_405005_424605_445305_437705,
   173_336805_353705_371305_355105,
   174_280205_294505_309605_292405,
   175_234005_246305_259205_236805,
   176_195405_205905_217005_206305,
   177_164005_173005_182505_175205,
   178_137605_145405_153605_146105,
   179_114505_121105_128105_123205,
   180_952806_100905_106905_106505,
   181_783306_830506_880606_853406,
   182_644306_684006_726106_718406,
   183_525206_558206_593306_575406,
   184_428306_455806_485006_448106,
   185_345706_368306_392406_361206,
   186_279106_297806_317706_306306,
   187_222106_237306_253406_249206,
   188_176806_189106_202206_202106,
   189_139706_149506_160106_157006,
   190_110306_118306_126806_120906,
   191_864307_927707_995707_970807,
   192_677107_727607_781907_820507,
   193_528107_568207_611307_598207,
   194_411907_443707_478007_465507,
   195_319307_344407_371407_339507,
   196_247507_267307_288607_259907,
   197_190907_206407_223107_193207,
   198_147207_159407_172507_150907,
   199_108707_117807_127607_115907,
   200_802208_870408_944408_848108,
   201_609508_662108_719308_626008,
   202_463208_503708_547808_486608,
   203_352008_383208_417308_368608,
   204_267508_291608_317908_269008,
   205_203308_221908_242208_211108,
   206_154208_168508_184208_164108,
   207_117008_128108_140108_119708,
   208_888409_973109_106608_937909,
   209_674409_739609_811209_735109,
   210_512109_562309_617409_532209,
   211_378409_416009_457309_419409,
   212_279609_307709_338709_315209,
   213_206609_227609_250809_253509,
   214_152609_168409_185809_196609,
   215_112809_124609_137609_145509,
   216_825410_912710_100909_108409,
   217_604010_668710_740310_728610,
   218_442010_489910_543010_550310,
   219_323510_359010_398310_395710,
   220_236710_263010_292210_293010,
   221_173410_192810_214510_209410,
   222_127010_141410_157410_163410,
   223_929811_103710_115610_112910,
   224_681011_760111_848511_759111,
   225_498811_557411_622911_580311,
   226_367511_411111_460011_455611,
   227_270711_303311_339711_321111,
   228_199511_223711_250911_225511,
   229_147011_165111_185311_173511,
   230_108311_121811_136911_135111,
   231_807512_908712_102311_102211,
   232_602112_678312_764212_733312,
   233_449012_506512_571212_530912,
   234_335012_378312_427212_383212,
   235_250012_282612_319512_279412,
   236_190512_215612_244012_224612,
   237_145312_164612_186512_168512,
   238_110912_125812_142712_121012,
   239_847513_962513_109312_930013,
   240_648113_736913_837913_663413,
   241_511713_582513_663013_574713,
   242_404613_461113_525513_467413,
   243_320413_365513_417113_383913,
   244_254013_290213_331413_265313,
   245_201713_230613_263713_198113,
   246_171213_196013_224413_172613,
   247_145513_166713_191113_147313,
   248_123713_141913_162813_127613,
   249_105213_120813_138813_107713,
   250_895414_103013_118413_882114]

/-- atmdata/Venus/LAT80S.txt:8760-8910, columns 0 to 4. -/
def venusProfile59 : List ℕ :=
  [100_635202_647902_660902_629002,
   101_603502_615602_627902_599402,
   102_573002_584502_596202_570802,
   103_543802_554702_565802_542702,
   104_515902_526202_536702_516602,
   105_488902_498702_508702_490202,
   106_463102_472402_481802_468602,
   107_438302_447102_456002_443702,
   108_414302_422602_431102_418702,
   109_391702_399502_407502_397102,
   110_369802_377202_384702_375902,
   111_348802_355802_362902_350602,
   112_328802_335402_342102_331902,
   113_309802_316002_322302_311402,
   114_291602_297402_303302_291602,
   115_274002_279502_285102_271902,
   116_257502_262702_268002_257502,
   117_242002_246802_251702_243802,
   118_227302_231802_236402_227402,
   119_213102_217402_221702_213502,
   120_199902_203902_208002_200402,
   121_187402_191102_194902_187602,
   122_175302_178802_182402_174302,
   123_163802_167102_170402_162202,
   124_153102_156202_159302_154002,
   125_142802_145702_148602_144302,
   126_133202_135902_138602_133902,
   127_124002_126502_129002_124302,
   128_115402_117702_120102_116302,
   129_107202_109302_111502_108602,
   130_995103_101502_103502_100702,
   131_922203_940603_959403_934303,
   132_853303_870403_887803_861603,
   133_789603_805303_821503_792103,
   134_728803_743303_758203_733503,
   135_671903_685303_699003_676903,
   136_618503_630903_643503_622303,
   137_568603_579903_591503_571403,
   138_521503_531903_542503_521503,
   139_478103_487703_497403_479103,
   140_437203_445903_454903_436403,
   141_399103_407003_415203_397703,
   142_363403_370603_378103_362403,
   143_330003_336603_343403_328403,
   144_299503_305503_311603_296803,
   145_271203_276603_282103_267103,
   146_245003_249903_254903_240003,
   147_220403_224803_229303_217403,
   148_197703_201703_205703_194403,
   149_176803_180303_183903_177503,
   150_158103_161303_164503_160103,
   151_140803_143803_146803_141503,
   152_124703_127503_130403_126403,
   153_110803_113403_116103_112903,
   154_979704_100403_103003_993604,
   155_862704_885504_909004_869104,
   156_757804_778804_800504_762504,
   157_661504_680804_700604_657704,
   158_570204_587504_605404_579004,
   159_479304_494504_510204_486304,
   160_396704_409804_423304_405204,
   161_327704_339004_350604_338104,
   162_270804_280404_290404_282004,
   163_224004_232304_240804_236204,
   164_185304_192404_199704_193904,
   165_153004_159004_165304_162604,
   166_126304_131404_136804_134104,
   167_103904_108304_112804_112304,
   168_854905_892005_930705_934605,
   169_707805_739405_772505_749805,
   170_585905_612905_641105_622605,
   171_487105_510205_534305_509105,
   172_405005_424605_445305_413405,
   173_336805_353705_371305_360805,
   174_280205_294505_309605_297105,
   175_234005_246305_259205_247605,
   176_195405_205905_217005_211005,
   177_164005_173005_182505_179005,
   178_137605_145405_153605_148905,
   179_114505_121105_128105_124805,
   180_952806_100905_106905_104405,
   181_783306_830506_880606_876706,
   182_644306_684006_726106_672406,
   183_525206_558206_593306_552006,
   184_428306_455806_485006_466806,
   185_345706_368306_392406_373206,
   186_279106_297806_317706_301306,
   187_222106_237306_253406_241606,
   188_176806_189106_202206_198506,
   189_139706_149506_160106_147406,
   190_110306_118306_126806_113306,
   191_864307_927707_995707_889507,
   192_677107_727607_781907_731107,
   193_528107_568207_611307_574807,
   194_411907_443707_478007_420007,
   195_319307_344407_371407_322907,
   196_247507_267307_288607_251507,
   197_190907_206407_223107_185307,
   198_147207_159407_172507_148807,
   199_108707_117807_127607_103907,
   200_802208_870408_944408_791408,
   201_609508_662108_719308_610508,
   202_463208_503708_547808_476108,
   203_352008_383208_417308_369708,
   204_267508_291608_317908_274508,
   205_203308_221908_242208_211108,
   206_154208_168508_184208_166608,
   207_117008_128108_140108_127108,
   208_888409_973109_106608_967709,
   209_674409_739609_811209_713509,
   210_512109_562309_617409_539709,
   211_378409_416009_457309_382309,
   212_279609_307709_338709_274809,
   213_206609_227609_250809_195609,
   214_152609_168409_185809_149309,
   215_112809_124609_137609_110109,
   216_825410_912710_100909_854010,
   217_604010_668710_740310_610010,
   218_442010_489910_543010_480210,
   219_323510_359010_398310_351510,
   220_236710_263010_292210_262310,
   221_173410_192810_214510_197410,
   222_127010_141410_157410_140710,
   223_929811_103710_115610_105010,
   224_681011_760111_848511_783111,
   225_498811_557411_622911_598211,
   226_367511_411111_460011_432511,
   227_270711_303311_339711_303611,
   228_199511_223711_250911_240911,
   229_147011_165111_185311_174911,
   230_108311_121811_136911_123011,
   231_807512_908712_102311_103111,
   232_602112_678312_764212_857912,
   233_449012_506512_571212_638312,
   234_335012_378312_427212_487912,
   235_250012_282612_319512_344212,
   236_190512_215612_244012_242712,
   237_145312_164612_186512_196412,
   238_110912_125812_142712_154712,
   239_847513_962513_109312_110212,
   240_648113_736913_837913_835013,
   241_511713_582513_663013_628313,
   242_404613_461113_525513_500113,
   243_320413_365513_417113_395413,
   244_254013_290213_331413_309213,
   245_201713_230613_263713_238613,
   246_171213_196013_224413_192513,
   247_145513_166713_191113_157013,
   248_123713_141913_162813_142013,
   249_105213_120813_138813_128513,
   250_895414_103013_118413_103213]

/-- atmdata/Venus/LAT80S.txt:8911-9061, columns 0 to 4. -/
def venusProfile60 : List ℕ :=
  [100_635202_647902_660902_643102,
   101_603502_615602_627902_612002,
   102_573002_584502_596202_581502,
   103_543802_554702_565802_551502,
   104_515902_526202_536702_525702,
   105_488902_498702_508702_495702,
   106_463102_472402_481802_468802,
   107_438302_447102_456002_444102,
   108_414302_422602_431102_420302,
   109_391702_399502_407502_398302,
   110_369802_377202_384702_378002,
   111_348802_355802_362902_358402,
   112_328802_335402_342102_341802,
   113_309802_316002_322302_322102,
   114_291602_297402_303302_302402,
   115_274002_279502_285102_284402,
   116_257502_262702_268002_269302,
   117_242002_246802_251702_253002,
   118_227302_231802_236402_237402,
   119_213102_217402_221702_223502,
   120_199902_203902_208002_208602,
   121_187402_191102_194902_195102,
   122_175302_178802_182402_182802,
   123_163802_167102_170402_169102,
   124_153102_156202_159302_158502,
   125_142802_145702_148602_149102,
   126_133202_135902_138602_139402,
   127_124002_126502_129002_129402,
   128_115402_117702_120102_120202,
   129_107202_109302_111502_111302,
   130_995103_101502_103502_103302,
   131_922203_940603_959403_956803,
   132_853303_870403_887803_881603,
   133_789603_805303_821503_815603,
   134_728803_743303_758203_749103,
   135_671903_685303_699003_690203,
   136_618503_630903_643503_639503,
   137_568603_579903_591503_586003,
   138_521503_531903_542503_538703,
   139_478103_487703_497403_496703,
   140_437203_445903_454903_456903,
   141_399103_407003_415203_420903,
   142_363403_370603_378103_382803,
   143_330003_336603_343403_348303,
   144_299503_305503_311603_315003,
   145_271203_276603_282103_285703,
   146_245003_249903_254903_254803,
   147_220403_224803_229303_227803,
   148_197703_201703_205703_203403,
   149_176803_180303_183903_182803,
   150_158103_161303_164503_160303,
   151_140803_143803_146803_143303,
   152_124703_127503_130403_128403,
   153_110803_113403_116103_113503,
   154_979704_100403_103003_101503,
   155_862704_885504_909004_887904,
   156_757804_778804_800504_786904,
   157_661504_680804_700604_684404,
   158_570204_587504_605404_599304,
   159_479304_494504_510204_499804,
   160_396704_409804_423304_419704,
   161_327704_339004_350604_346404,
   162_270804_280404_290404_286904,
   163_224004_232304_240804_236404,
   164_185304_192404_199704_196604,
   165_153004_159004_165304_162504,
   166_126304_131404_136804_133504,
   167_103904_108304_112804_111104,
   168_854905_892005_930705_904705,
   169_707805_739405_772505_777405,
   170_585905_612905_641105_666605,
   171_487105_510205_534305_561005,
   172_405005_424605_445305_466805,
   173_336805_353705_371305_393905,
   174_280205_294505_309605_323105,
   175_234005_246305_259205_273905,
   176_195405_205905_217005_229105,
   177_164005_173005_182505_193205,
   178_137605_145405_153605_159905,
   179_114505_121105_128105_132705,
   180_952806_100905_106905_108305,
   181_783306_830506_880606_884506,
   182_644306_684006_726106_708606,
   183_525206_558206_593306_593106,
   184_428306_455806_485006_490806,
   185_345706_368306_392406_389006,
   186_279106_297806_317706_297806,
   187_222106_237306_253406_235706,
   188_176806_189106_202206_197806,
   189_139706_149506_160106_158406,
   190_110306_118306_126806_120106,
   191_864307_927707_995707_909607,
   192_677107_727607_781907_737807,
   193_528107_568207_611307_557507,
   194_411907_443707_478007_437107,
   195_319307_344407_371407_343407,
   196_247507_267307_288607_269707,
   197_190907_206407_223107_194607,
   198_147207_159407_172507_140907,
   199_108707_117807_127607_102507,
   200_802208_870408_944408_712608,
   201_609508_662108_719308_588208,
   202_463208_503708_547808_460808,
   203_352008_383208_417308_371308,
   204_267508_291608_317908_279208,
   205_203308_221908_242208_210808,
   206_154208_168508_184208_170508,
   207_117008_128108_140108_137308,
   208_888409_973109_106608_101608,
   209_674409_739609_811209_781909,
   210_512109_562309_617409_606109,
   211_378409_416009_457309_437609,
   212_279609_307709_338709_331209,
   213_206609_227609_250809_238309,
   214_152609_168409_185809_173209,
   215_112809_124609_137609_122109,
   216_825410_912710_100909_950910,
   217_604010_668710_740310_690310,
   218_442010_489910_543010_467210,
   219_323510_359010_398310_345210,
   220_236710_263010_292210_257610,
   221_173410_192810_214510_177110,
   222_127010_141410_157410_132910,
   223_929811_103710_115610_931311,
   224_681011_760111_848511_666111,
   225_498811_557411_622911_518611,
   226_367511_411111_460011_404211,
   227_270711_303311_339711_284211,
   228_199511_223711_250911_215411,
   229_147011_165111_185311_146211,
   230_108311_121811_136911_109311,
   231_807512_908712_102311_801212,
   232_602112_678312_764212_624212,
   233_449012_506512_571212_509112,
   234_335012_378312_427212_373712,
   235_250012_282612_319512_259012,
   236_190512_215612_244012_195412,
   237_145312_164612_186512_149112,
   238_110912_125812_142712_115312,
   239_847513_962513_109312_923213,
   240_648113_736913_837913_764613,
   241_511713_582513_663013_605413,
   242_404613_461113_525513_477013,
   243_320413_365513_417113_367013,
   244_254013_290213_331413_311413,
   245_201713_230613_263713_248013,
   246_171213_196013_224413_221013,
   247_145513_166713_191113_214913,
   248_123713_141913_162813_169413,
   249_105213_120813_138813_138213,
   250_895414_103013_118413_110213]

/-- atmdata/Venus/LAT80S.txt:9062-9212, columns 0 to 4. -/
def venusProfile61 : List ℕ :=
  [100_635202_647902_660902_652402,
   101_603502_615602_627902_620202,
   102_573002_584502_596202_588202,
   103_543802_554702_565802_556502,
   104_515902_526202_536702_532502,
   105_488902_498702_508702_506102,
   106_463102_472402_481802_480802,
   107_438302_447102_456002_455302,
   108_414302_422602_431102_432002,
   109_391702_399502_407502_408802,
   110_369802_377202_384702_390502,
   111_348802_355802_362902_368702,
   112_328802_335402_342102_345802,
   113_309802_316002_322302_327702,
   114_291602_297402_303302_308502,
   115_274002_279502_285102_288002,
   116_257502_262702_268002_273102,
   117_242002_246802_251702_255202,
   118_227302_231802_236402_241502,
   119_213102_217402_221702_224602,
   120_199902_203902_208002_212002,
   121_187402_191102_194902_198302,
   122_175302_178802_182402_184702,
   123_163802_167102_170402_173502,
   124_153102_156202_159302_161902,
   125_142802_145702_148602_149902,
   126_133202_135902_138602_139302,
   127_124002_126502_129002_129502,
   128_115402_117702_120102_119002,
   129_107202_109302_111502_111802,
   130_995103_101502_103502_103902,
   131_922203_940603_959403_962103,
   132_853303_870403_887803_886403,
   133_789603_805303_821503_827003,
   134_728803_743303_758203_766303,
   135_671903_685303_699003_704903,
   136_618503_630903_643503_646803,
   137_568603_579903_591503_591703,
   138_521503_531903_542503_539103,
   139_478103_487703_497403_490503,
   140_437203_445903_454903_448303,
   141_399103_407003_415203_409603,
   142_363403_370603_378103_373503,
   143_330003_336603_343403_336803,
   144_299503_305503_311603_306103,
   145_271203_276603_282103_276003,
   146_245003_249903_254903_252403,
   147_220403_224803_229303_227703,
   148_197703_201703_205703_203503,
   149_176803_180303_183903_182103,
   150_158103_161303_164503_161603,
   151_140803_143803_146803_143003,
   152_124703_127503_130403_129003,
   153_110803_113403_116103_115603,
   154_979704_100403_103003_102203,
   155_862704_885504_909004_894904,
   156_757804_778804_800504_778904,
   157_661504_680804_700604_682004,
   158_570204_587504_605404_595704,
   159_479304_494504_510204_492504,
   160_396704_409804_423304_400804,
   161_327704_339004_350604_328104,
   162_270804_280404_290404_271004,
   163_224004_232304_240804_216704,
   164_185304_192404_199704_185004,
   165_153004_159004_165304_151504,
   166_126304_131404_136804_124604,
   167_103904_108304_112804_103604,
   168_854905_892005_930705_871005,
   169_707805_739405_772505_740505,
   170_585905_612905_641105_610905,
   171_487105_510205_534305_506905,
   172_405005_424605_445305_413105,
   173_336805_353705_371305_348605,
   174_280205_294505_309605_288505,
   175_234005_246305_259205_237705,
   176_195405_205905_217005_199205,
   177_164005_173005_182505_169905,
   178_137605_145405_153605_141705,
   179_114505_121105_128105_118205,
   180_952806_100905_106905_102305,
   181_783306_830506_880606_814206,
   182_644306_684006_726106_665206,
   183_525206_558206_593306_529806,
   184_428306_455806_485006_437806,
   185_345706_368306_392406_347706,
   186_279106_297806_317706_283906,
   187_222106_237306_253406_221906,
   188_176806_189106_202206_169506,
   189_139706_149506_160106_134206,
   190_110306_118306_126806_101206,
   191_864307_927707_995707_827107,
   192_677107_727607_781907_671707,
   193_528107_568207_611307_537807,
   194_411907_443707_478007_398907,
   195_319307_344407_371407_328807,
   196_247507_267307_288607_263207,
   197_190907_206407_223107_217307,
   198_147207_159407_172507_163407,
   199_108707_117807_127607_119907,
   200_802208_870408_944408_873608,
   201_609508_662108_719308_654408,
   202_463208_503708_547808_507608,
   203_352008_383208_417308_372408,
   204_267508_291608_317908_283008,
   205_203308_221908_242208_209308,
   206_154208_168508_184208_150508,
   207_117008_128108_140108_113608,
   208_888409_973109_106608_819209,
   209_674409_739609_811209_597709,
   210_512109_562309_617409_426609,
   211_378409_416009_457309_324909,
   212_279609_307709_338709_239609,
   213_206609_227609_250809_180409,
   214_152609_168409_185809_127809,
   215_112809_124609_137609_103309,
   216_825410_912710_100909_853010,
   217_604010_668710_740310_639510,
   218_442010_489910_543010_449410,
   219_323510_359010_398310_335710,
   220_236710_263010_292210_250710,
   221_173410_192810_214510_183210,
   222_127010_141410_157410_147810,
   223_929811_103710_115610_109910,
   224_681011_760111_848511_839511,
   225_498811_557411_622911_639611,
   226_367511_411111_460011_456511,
   227_270711_303311_339711_315311,
   228_199511_223711_250911_229211,
   229_147011_165111_185311_172411,
   230_108311_121811_136911_132911,
   231_807512_908712_102311_998212,
   232_602112_678312_764212_734712,
   233_449012_506512_571212_527212,
   234_335012_378312_427212_420312,
   235_250012_282612_319512_336012,
   236_190512_215612_244012_256712,
   237_145312_164612_186512_208612,
   238_110912_125812_142712_150812,
   239_847513_962513_109312_112012,
   240_648113_736913_837913_828113,
   241_511713_582513_663013_681513,
   242_404613_461113_525513_525413,
   243_320413_365513_417113_386113,
   244_254013_290213_331413_296213,
   245_201713_230613_263713_245713,
   246_171213_196013_224413_206513,
   247_145513_166713_191113_182713,
   248_123713_141913_162813_152713,
   249_105213_120813_138813_134713,
   250_895414_103013_118413_106813]

/-- atmdata/Venus/LAT80S.txt:9213-9363, columns 0 to 4. -/
def venusProfile62 : List ℕ :=
  [100_635202_647902_660902_666002,
   101_603502_615602_627902_632402,
   102_573002_584502_596202_598502,
   103_543802_554702_565802_564302,
   104_515902_526202_536702_531502,
   105_488902_498702_508702_502502,
   106_463102_472402_481802_473402,
   107_438302_447102_456002_448602,
   108_414302_422602_431102_420502,
   109_391702_399502_407502_398002,
   110_369802_377202_384702_373802,
   111_348802_355802_362902_352602,
   112_328802_335402_342102_332302,
   113_309802_316002_322302_312302,
   114_291602_297402_303302_295702,
   115_274002_279502_285102_278602,
   116_257502_262702_268002_258802,
   117_242002_246802_251702_244902,
   118_227302_231802_236402_229802,
   119_213102_217402_221702_215202,
   120_199902_203902_208002_202302,
   121_187402_191102_194902_189702,
   122_175302_178802_182402_178702,
   123_163802_167102_170402_167602,
   124_153102_156202_159302_156002,
   125_142802_145702_148602_145102,
   126_133202_135902_138602_136202,
   127_124002_126502_129002_126902,
   128_115402_117702_120102_118302,
   129_107202_109302_111502_110002,
   130_995103_101502_103502_102502,
   131_922203_940603_959403_949303,
   132_853303_870403_887803_875403,
   133_789603_805303_821503_807803,
   134_728803_743303_758203_744203,
   135_671903_685303_699003_685203,
   136_618503_630903_643503_634903,
   137_568603_579903_591503_580903,
   138_521503_531903_542503_534203,
   139_478103_487703_497403_489003,
   140_437203_445903_454903_443903,
   141_399103_407003_415203_403103,
   142_363403_370603_378103_368203,
   143_330003_336603_343403_335003,
   144_299503_305503_311603_305703,
   145_271203_276603_282103_278703,
   146_245003_249903_254903_253703,
   147_220403_224803_229303_226703,
   148_197703_201703_205703_202803,
   149_176803_180303_183903_180903,
   150_158103_161303_164503_161203,
   151_140803_143803_146803_144103,
   152_124703_127503_130403_126303,
   153_110803_113403_116103_112103,
   154_979704_100403_103003_979704,
   155_862704_885504_909004_859404,
   156_757804_778804_800504_757404,
   157_661504_680804_700604_668504,
   158_570204_587504_605404_583004,
   159_479304_494504_510204_498904,
   160_396704_409804_423304_410304,
   161_327704_339004_350604_346204,
   162_270804_280404_290404_283504,
   163_224004_232304_240804_235804,
   164_185304_192404_199704_193204,
   165_153004_159004_165304_163804,
   166_126304_131404_136804_133604,
   167_103904_108304_112804_110004,
   168_854905_892005_930705_899205,
   169_707805_739405_772505_758005,
   170_585905_612905_641105_638505,
   171_487105_510205_534305_512705,
   172_405005_424605_445305_430205,
   173_336805_353705_371305_359305,
   174_280205_294505_309605_297005,
   175_234005_246305_259205_249805,
   176_195405_205905_217005_206605,
   177_164005_173005_182505_176005,
   178_137605_145405_153605_146205,
   179_114505_121105_128105_121105,
   180_952806_100905_106905_101505,
   181_783306_830506_880606_848706,
   182_644306_684006_726106_699106,
   183_525206_558206_593306_567706,
   184_428306_455806_485006_462006,
   185_345706_368306_392406_363006,
   186_279106_297806_317706_284306,
   187_222106_237306_253406_213806,
   188_176806_189106_202206_166406,
   189_139706_149506_160106_127506,
   190_110306_118306_126806_109306,
   191_864307_927707_995707_860307,
   192_677107_727607_781907_690707,
   193_528107_568207_611307_531907,
   194_411907_443707_478007_419607,
   195_319307_344407_371407_319607,
   196_247507_267307_288607_264007,
   197_190907_206407_223107_214407,
   198_147207_159407_172507_164807,
   199_108707_117807_127607_123107,
   200_802208_870408_944408_921608,
   201_609508_662108_719308_711708,
   202_463208_503708_547808_548408,
   203_352008_383208_417308_411008,
   204_267508_291608_317908_313108,
   205_203308_221908_242208_220408,
   206_154208_168508_184208_162008,
   207_117008_128108_140108_126608,
   208_888409_973109_106608_100308,
   209_674409_739609_811209_764409,
   210_512109_562309_617409_570909,
   211_378409_416009_457309_431909,
   212_279609_307709_338709_331909,
   213_206609_227609_250809_246809,
   214_152609_168409_185809_188209,
   215_112809_124609_137609_140109,
   216_825410_912710_100909_952210,
   217_604010_668710_740310_728110,
   218_442010_489910_543010_515610,
   219_323510_359010_398310_383310,
   220_236710_263010_292210_282510,
   221_173410_192810_214510_213510,
   222_127010_141410_157410_152110,
   223_929811_103710_115610_105510,
   224_681011_760111_848511_766911,
   225_498811_557411_622911_592911,
   226_367511_411111_460011_451111,
   227_270711_303311_339711_308611,
   228_199511_223711_250911_216311,
   229_147011_165111_185311_155711,
   230_108311_121811_136911_109411,
   231_807512_908712_102311_886012,
   232_602112_678312_764212_632512,
   233_449012_506512_571212_479812,
   234_335012_378312_427212_357912,
   235_250012_282612_319512_281112,
   236_190512_215612_244012_229412,
   237_145312_164612_186512_173412,
   238_110912_125812_142712_141612,
   239_847513_962513_109312_934513,
   240_648113_736913_837913_742313,
   241_511713_582513_663013_552513,
   242_404613_461113_525513_426913,
   243_320413_365513_417113_367013,
   244_254013_290213_331413_302513,
   245_201713_230613_263713_276513,
   246_171213_196013_224413_215313,
   247_145513_166713_191113_183013,
   248_123713_141913_162813_159913,
   249_105213_120813_138813_129013,
   250_895414_103013_118413_101813]

/-- atmdata/Venus/LAT80S.txt:9364-9514, columns 0 to 4. -/
def venusProfile63 : List ℕ :=
  [100_635202_647902_660902_637302,
   101_603502_615602_627902_605602,
   102_573002_584502_596202_572802,
   103_543802_554702_565802_548602,
   104_515902_526202_536702_518602,
   105_488902_498702_508702_495202,
   106_463102_472402_481802_469502,
   107_438302_447102_456002_445202,
   108_414302_422602_431102_419602,
   109_391702_399502_407502_397002,
   110_369802_377202_384702_373902,
   111_348802_355802_362902_351902,
   112_328802_335402_342102_332702,
   113_309802_316002_322302_314102,
   114_291602_297402_303302_293702,
   115_274002_279502_285102_275102,
   116_257502_262702_268002_256502,
   117_242002_246802_251702_241402,
   118_227302_231802_236402_228102,
   119_213102_217402_221702_214402,
   120_199902_203902_208002_200802,
   121_187402_191102_194902_188502,
   122_175302_178802_182402_176402,
   123_163802_167102_170402_165102,
   124_153102_156202_159302_156202,
   125_142802_145702_148602_145802,
   126_133202_135902_138602_135802,
   127_124002_126502_129002_126702,
   128_115402_117702_120102_117402,
   129_107202_109302_111502_108502,
   130_995103_101502_103502_101402,
   131_922203_940603_959403_939503,
   132_853303_870403_887803_867003,
   133_789603_805303_821503_805603,
   134_728803_743303_758203_751503,
   135_671903_685303_699003_691203,
   136_618503_630903_643503_634603,
   137_568603_579903_591503_579903,
   138_521503_531903_542503_528903,
   139_478103_487703_497403_486603,
   140_437203_445903_454903_447003,
   141_399103_407003_415203_410303,
   142_363403_370603_378103_374903,
   143_330003_336603_343403_335003,
   144_299503_305503_311603_308603,
   145_271203_276603_282103_278903,
   146_245003_249903_254903_253303,
   147_220403_224803_229303_228403,
   148_197703_201703_205703_204403,
   149_176803_180303_183903_181503,
   150_158103_161303_164503_162103,
   151_140803_143803_146803_143403,
   152_124703_127503_130403_126203,
   153_110803_113403_116103_113603,
   154_979704_100403_103003_101003,
   155_862704_885504_909004_886404,
   156_757804_778804_800504_792004,
   157_661504_680804_700604_676704,
   158_570204_587504_605404_588804,
   159_479304_494504_510204_499604,
   160_396704_409804_423304_413804,
   161_327704_339004_350604_344104,
   162_270804_280404_290404_279604,
   163_224004_232304_240804_229204,
   164_185304_192404_199704_190604,
   165_153004_159004_165304_158604,
   166_126304_131404_136804_129104,
   167_103904_108304_112804_106004,
   168_854905_892005_930705_893305,
   169_707805_739405_772505_749705,
   170_585905_612905_641105_612805,
   171_487105_510205_534305_514305,
   172_405005_424605_445305_419905,
   173_336805_353705_371305_348705,
   174_280205_294505_309605_289205,
   175_234005_246305_259205_227105,
   176_195405_205905_217005_187005,
   177_164005_173005_182505_160705,
   178_137605_145405_153605_134205,
   179_114505_121105_128105_111505,
   180_952806_100905_106905_919606,
   181_783306_830506_880606_755906,
   182_644306_684006_726106_636306,
   183_525206_558206_593306_531406,
   184_428306_455806_485006_430306,
   185_345706_368306_392406_336306,
   186_279106_297806_317706_277006,
   187_222106_237306_253406_228006,
   188_176806_189106_202206_178606,
   189_139706_149506_160106_145306,
   190_110306_118306_126806_120106,
   191_864307_927707_995707_909707,
   192_677107_727607_781907_722107,
   193_528107_568207_611307_582707,
   194_411907_443707_478007_433507,
   195_319307_344407_371407_338107,
   196_247507_267307_288607_252707,
   197_190907_206407_223107_204007,
   198_147207_159407_172507_160507,
   199_108707_117807_127607_123007,
   200_802208_870408_944408_840508,
   201_609508_662108_719308_612308,
   202_463208_503708_547808_478508,
   203_352008_383208_417308_370908,
   204_267508_291608_317908_288008,
   205_203308_221908_242208_228108,
   206_154208_168508_184208_169608,
   207_117008_128108_140108_123808,
   208_888409_973109_106608_955209,
   209_674409_739609_811209_835409,
   210_512109_562309_617409_639309,
   211_378409_416009_457309_492409,
   212_279609_307709_338709_355909,
   213_206609_227609_250809_267509,
   214_152609_168409_185809_196309,
   215_112809_124609_137609_142209,
   216_825410_912710_100909_983910,
   217_604010_668710_740310_670410,
   218_442010_489910_543010_484610,
   219_323510_359010_398310_365210,
   220_236710_263010_292210_269810,
   221_173410_192810_214510_188610,
   222_127010_141410_157410_141110,
   223_929811_103710_115610_105410,
   224_681011_760111_848511_711811,
   225_498811_557411_622911_554611,
   226_367511_411111_460011_396411,
   227_270711_303311_339711_270311,
   228_199511_223711_250911_214211,
   229_147011_165111_185311_169311,
   230_108311_121811_136911_124011,
   231_807512_908712_102311_890812,
   232_602112_678312_764212_711812,
   233_449012_506512_571212_562812,
   234_335012_378312_427212_468712,
   235_250012_282612_319512_351912,
   236_190512_215612_244012_251812,
   237_145312_164612_186512_209512,
   238_110912_125812_142712_159112,
   239_847513_962513_109312_121312,
   240_648113_736913_837913_868213,
   241_511713_582513_663013_671513,
   242_404613_461113_525513_503013,
   243_320413_365513_417113_407813,
   244_254013_290213_331413_304213,
   245_201713_230613_263713_229813,
   246_171213_196013_224413_202213,
   247_145513_166713_191113_167013,
   248_123713_141913_162813_126113,
   249_105213_120813_138813_111813,
   250_895414_103013_118413_886314]

/-- atmdata/Venus/LAT80S.txt:9515-9665, columns 0 to 4. -/
def venusProfile64 : List ℕ :=
  [100_635202_647902_660902_647402,
   101_603502_615602_627902_614602,
   102_573002_584502_596202_579502,
   103_543802_554702_565802_552302,
   104_515902_526202_536702_523102,
   105_488902_498702_508702_495902,
   106_463102_472402_481802_473802,
   107_438302_447102_456002_449302,
   108_414302_422602_431102_424702,
   109_391702_399502_407502_401402,
   110_369802_377202_384702_378702,
   111_348802_355802_362902_355102,
   112_328802_335402_342102_337302,
   113_309802_316002_322302_322102,
   114_291602_297402_303302_302302,
   115_274002_279502_285102_285002,
   116_257502_262702_268002_265802,
   117_242002_246802_251702_248602,
   118_227302_231802_236402_232702,
   119_213102_217402_221702_219802,
   120_199902_203902_208002_204302,
   121_187402_191102_194902_191802,
   122_175302_178802_182402_178102,
   123_163802_167102_170402_166202,
   124_153102_156202_159302_156002,
   125_142802_145702_148602_146002,
   126_133202_135902_138602_133102,
   127_124002_126502_129002_124502,
   128_115402_117702_120102_116602,
   129_107202_109302_111502_108802,
   130_995103_101502_103502_102402,
   131_922203_940603_959403_947803,
   132_853303_870403_887803_874403,
   133_789603_805303_821503_804103,
   134_728803_743303_758203_742703,
   135_671903_685303_699003_683103,
   136_618503_630903_643503_632803,
   137_568603_579903_591503_577703,
   138_521503_531903_542503_531403,
   139_478103_487703_497403_493503,
   140_437203_445903_454903_450203,
   141_399103_407003_415203_410303,
   142_363403_370603_378103_375503,
   143_330003_336603_343403_340403,
   144_299503_305503_311603_306903,
   145_271203_276603_282103_273203,
   146_245003_249903_254903_247903,
   147_220403_224803_229303_221703,
   148_197703_201703_205703_199003,
   149_176803_180303_183903_180503,
   150_158103_161303_164503_161703,
   151_140803_143803_146803_144603,
   152_124703_127503_130403_127603,
   153_110803_113403_116103_113403,
   154_979704_100403_103003_999504,
   155_862704_885504_909004_877604,
   156_757804_778804_800504_768504,
   157_661504_680804_700604_667204,
   158_570204_587504_605404_579904,
   159_479304_494504_510204_489504,
   160_396704_409804_423304_408704,
   161_327704_339004_350604_337004,
   162_270804_280404_290404_285804,
   163_224004_232304_240804_240104,
   164_185304_192404_199704_202504,
   165_153004_159004_165304_165904,
   166_126304_131404_136804_133804,
   167_103904_108304_112804_109104,
   168_854905_892005_930705_894705,
   169_707805_739405_772505_747505,
   170_585905_612905_641105_624605,
   171_487105_510205_534305_513105,
   172_405005_424605_445305_431405,
   173_336805_353705_371305_354705,
   174_280205_294505_309605_294105,
   175_234005_246305_259205_244505,
   176_195405_205905_217005_195605,
   177_164005_173005_182505_167505,
   178_137605_145405_153605_139405,
   179_114505_121105_128105_114905,
   180_952806_100905_106905_995506,
   181_783306_830506_880606_772406,
   182_644306_684006_726106_659606,
   183_525206_558206_593306_513906,
   184_428306_455806_485006_411806,
   185_345706_368306_392406_315106,
   186_279106_297806_317706_251306,
   187_222106_237306_253406_205306,
   188_176806_189106_202206_163406,
   189_139706_149506_160106_130606,
   190_110306_118306_126806_108206,
   191_864307_927707_995707_877307,
   192_677107_727607_781907_694707,
   193_528107_568207_611307_540807,
   194_411907_443707_478007_426907,
   195_319307_344407_371407_342907,
   196_247507_267307_288607_261207,
   197_190907_206407_223107_208807,
   198_147207_159407_172507_169407,
   199_108707_117807_127607_118007,
   200_802208_870408_944408_860008,
   201_609508_662108_719308_653908,
   202_463208_503708_547808_508108,
   203_352008_383208_417308_404908,
   204_267508_291608_317908_316308,
   205_203308_221908_242208_243008,
   206_154208_168508_184208_182108,
   207_117008_128108_140108_138208,
   208_888409_973109_106608_103408,
   209_674409_739609_811209_778209,
   210_512109_562309_617409_637709,
   211_378409_416009_457309_445909,
   212_279609_307709_338709_348509,
   213_206609_227609_250809_269409,
   214_152609_168409_185809_192209,
   215_112809_124609_137609_135209,
   216_825410_912710_100909_949210,
   217_604010_668710_740310_674610,
   218_442010_489910_543010_493410,
   219_323510_359010_398310_374810,
   220_236710_263010_292210_275810,
   221_173410_192810_214510_201810,
   222_127010_141410_157410_132310,
   223_929811_103710_115610_928311,
   224_681011_760111_848511_699511,
   225_498811_557411_622911_548511,
   226_367511_411111_460011_416011,
   227_270711_303311_339711_275711,
   228_199511_223711_250911_208711,
   229_147011_165111_185311_155411,
   230_108311_121811_136911_119711,
   231_807512_908712_102311_899212,
   232_602112_678312_764212_682912,
   233_449012_506512_571212_488812,
   234_335012_378312_427212_367912,
   235_250012_282612_319512_277512,
   236_190512_215612_244012_210012,
   237_145312_164612_186512_160712,
   238_110912_125812_142712_119812,
   239_847513_962513_109312_887713,
   240_648113_736913_837913_690913,
   241_511713_582513_663013_568013,
   242_404613_461113_525513_421513,
   243_320413_365513_417113_336913,
   244_254013_290213_331413_273513,
   245_201713_230613_263713_216513,
   246_171213_196013_224413_180913,
   247_145513_166713_191113_143813,
   248_123713_141913_162813_120413,
   249_105213_120813_138813_970714,
   250_895414_103013_118413_764114]

/-- atmdata/Venus/LAT80S.txt:9666-9816, columns 0 to 4. -/
def venusProfile65 : List ℕ :=
  [100_635202_647902_660902_657402,
   101_603502_615602_627902_623402,
   102_573002_584502_596202_596702,
   103_543802_554702_565802_566802,
   104_515902_526202_536702_537302,
   105_488902_498702_508702_505602,
   106_463102_472402_481802_477902,
   107_438302_447102_456002_453202,
   108_414302_422602_431102_429602,
   109_391702_399502_407502_405702,
   110_369802_377202_384702_383302,
   111_348802_355802_362902_364602,
   112_328802_335402_342102_341702,
   113_309802_316002_322302_321102,
   114_291602_297402_303302_302302,
   115_274002_279502_285102_283202,
   116_257502_262702_268002_264502,
   117_242002_246802_251702_250102,
   118_227302_231802_236402_235502,
   119_213102_217402_221702_219602,
   120_199902_203902_208002_206802,
   121_187402_191102_194902_194202,
   122_175302_178802_182402_182002,
   123_163802_167102_170402_169402,
   124_153102_156202_159302_158202,
   125_142802_145702_148602_148602,
   126_133202_135902_138602_138702,
   127_124002_126502_129002_129702,
   128_115402_117702_120102_120502,
   129_107202_109302_111502_111602,
   130_995103_101502_103502_102802,
   131_922203_940603_959403_950903,
   132_853303_870403_887803_877303,
   133_789603_805303_821503_812303,
   134_728803_743303_758203_744103,
   135_671903_685303_699003_683903,
   136_618503_630903_643503_628003,
   137_568603_579903_591503_572603,
   138_521503_531903_542503_522503,
   139_478103_487703_497403_477603,
   140_437203_445903_454903_431803,
   141_399103_407003_415203_390703,
   142_363403_370603_378103_359203,
   143_330003_336603_343403_329203,
   144_299503_305503_311603_298503,
   145_271203_276603_282103_271003,
   146_245003_249903_254903_245703,
   147_220403_224803_229303_221803,
   148_197703_201703_205703_199203,
   149_176803_180303_183903_179203,
   150_158103_161303_164503_161003,
   151_140803_143803_146803_142503,
   152_124703_127503_130403_126003,
   153_110803_113403_116103_110103,
   154_979704_100403_103003_988704,
   155_862704_885504_909004_869004,
   156_757804_778804_800504_769104,
   157_661504_680804_700604_672204,
   158_570204_587504_605404_583204,
   159_479304_494504_510204_489704,
   160_396704_409804_423304_413604,
   161_327704_339004_350604_336804,
   162_270804_280404_290404_282204,
   163_224004_232304_240804_233304,
   164_185304_192404_199704_191004,
   165_153004_159004_165304_154004,
   166_126304_131404_136804_123304,
   167_103904_108304_112804_100404,
   168_854905_892005_930705_855705,
   169_707805_739405_772505_714405,
   170_585905_612905_641105_578905,
   171_487105_510205_534305_496005,
   172_405005_424605_445305_406905,
   173_336805_353705_371305_332705,
   174_280205_294505_309605_277405,
   175_234005_246305_259205_237005,
   176_195405_205905_217005_203705,
   177_164005_173005_182505_174005,
   178_137605_145405_153605_144305,
   179_114505_121105_128105_118105,
   180_952806_100905_106905_991206,
   181_783306_830506_880606_824606,
   182_644306_684006_726106_652506,
   183_525206_558206_593306_528106,
   184_428306_455806_485006_412506,
   185_345706_368306_392406_351606,
   186_279106_297806_317706_290306,
   187_222106_237306_253406_230706,
   188_176806_189106_202206_183306,
   189_139706_149506_160106_141306,
   190_110306_118306_126806_115206,
   191_864307_927707_995707_903107,
   192_677107_727607_781907_709407,
   193_528107_568207_611307_590707,
   194_411907_443707_478007_441107,
   195_319307_344407_371407_331007,
   196_247507_267307_288607_256307,
   197_190907_206407_223107_204007,
   198_147207_159407_172507_152507,
   199_108707_117807_127607_110607,
   200_802208_870408_944408_835008,
   201_609508_662108_719308_662108,
   202_463208_503708_547808_514708,
   203_352008_383208_417308_376308,
   204_267508_291608_317908_302008,
   205_203308_221908_242208_229108,
   206_154208_168508_184208_174508,
   207_117008_128108_140108_141008,
   208_888409_973109_106608_102708,
   209_674409_739609_811209_815309,
   210_512109_562309_617409_602309,
   211_378409_416009_457309_434409,
   212_279609_307709_338709_319809,
   213_206609_227609_250809_222509,
   214_152609_168409_185809_184809,
   215_112809_124609_137609_143309,
   216_825410_912710_100909_101309,
   217_604010_668710_740310_734310,
   218_442010_489910_543010_539910,
   219_323510_359010_398310_410210,
   220_236710_263010_292210_298910,
   221_173410_192810_214510_227810,
   222_127010_141410_157410_162310,
   223_929811_103710_115610_119610,
   224_681011_760111_848511_840611,
   225_498811_557411_622911_649511,
   226_367511_411111_460011_453911,
   227_270711_303311_339711_364111,
   228_199511_223711_250911_261011,
   229_147011_165111_185311_181211,
   230_108311_121811_136911_124211,
   231_807512_908712_102311_976712,
   232_602112_678312_764212_711012,
   233_449012_506512_571212_529912,
   234_335012_378312_427212_366212,
   235_250012_282612_319512_271812,
   236_190512_215612_244012_213412,
   237_145312_164612_186512_145312,
   238_110912_125812_142712_130012,
   239_847513_962513_109312_105712,
   240_648113_736913_837913_889513,
   241_511713_582513_663013_629713,
   242_404613_461113_525513_440713,
   243_320413_365513_417113_340413,
   244_254013_290213_331413_244513,
   245_201713_230613_263713_202413,
   246_171213_196013_224413_195213,
   247_145513_166713_191113_178413,
   248_123713_141913_162813_153513,
   249_105213_120813_138813_131913,
   250_895414_103013_118413_101413]

/-- atmdata/Venus/LAT80S.txt:9817-9967, columns 0 to 4. -/
def venusProfile66 : List ℕ :=
  [100_635202_647902_660902_627302,
   101_603502_615602_627902_595302,
   102_573002_584502_596202_568702,
   103_543802_554702_565802_540002,
   104_515902_526202_536702_513502,
   105_488902_498702_508702_488202,
   106_463102_472402_481802_464402,
   107_438302_447102_456002_441002,
   108_414302_422602_431102_421902,
   109_391702_399502_407502_398402,
   110_369802_377202_384702_377502,
   111_348802_355802_362902_357502,
   112_328802_335402_342102_336502,
   113_309802_316002_322302_317902,
   114_291602_297402_303302_300602,
   115_274002_279502_285102_283902,
   116_257502_262702_268002_265402,
   117_242002_246802_251702_249402,
   118_227302_231802_236402_232902,
   119_213102_217402_221702_218302,
   120_199902_203902_208002_204602,
   121_187402_191102_194902_192402,
   122_175302_178802_182402_179402,
   123_163802_167102_170402_166502,
   124_153102_156202_159302_155002,
   125_142802_145702_148602_143602,
   126_133202_135902_138602_133202,
   127_124002_126502_129002_125302,
   128_115402_117702_120102_115602,
   129_107202_109302_111502_108402,
   130_995103_101502_103502_100302,
   131_922203_940603_959403_928903,
   132_853303_870403_887803_858103,
   133_789603_805303_821503_804003,
   134_728803_743303_758203_744403,
   135_671903_685303_699003_683703,
   136_618503_630903_643503_633203,
   137_568603_579903_591503_575503,
   138_521503_531903_542503_529503,
   139_478103_487703_497403_486003,
   140_437203_445903_454903_445603,
   141_399103_407003_415203_407903,
   142_363403_370603_378103_375003,
   143_330003_336603_343403_339203,
   144_299503_305503_311603_308103,
   145_271203_276603_282103_276903,
   146_245003_249903_254903_250403,
   147_220403_224803_229303_223703,
   148_197703_201703_205703_201003,
   149_176803_180303_183903_179903,
   150_158103_161303_164503_162303,
   151_140803_143803_146803_145103,
   152_124703_127503_130403_128503,
   153_110803_113403_116103_114503,
   154_979704_100403_103003_101403,
   155_862704_885504_909004_891704,
   156_757804_778804_800504_774004,
   157_661504_680804_700604_680704,
   158_570204_587504_605404_589504,
   159_479304_494504_510204_492104,
   160_396704_409804_423304_402404,
   161_327704_339004_350604_338004,
   162_270804_280404_290404_281204,
   163_224004_232304_240804_228004,
   164_185304_192404_199704_189404,
   165_153004_159004_165304_158604,
   166_126304_131404_136804_134904,
   167_103904_108304_112804_108304,
   168_854905_892005_930705_890805,
   169_707805_739405_772505_738805,
   170_585905_612905_641105_613205,
   171_487105_510205_534305_510505,
   172_405005_424605_445305_430205,
   173_336805_353705_371305_342405,
   174_280205_294505_309605_285205,
   175_234005_246305_259205_233905,
   176_195405_205905_217005_198905,
   177_164005_173005_182505_170305,
   178_137605_145405_153605_141305,
   179_114505_121105_128105_115105,
   180_952806_100905_106905_946806,
   181_783306_830506_880606_771906,
   182_644306_684006_726106_626906,
   183_525206_558206_593306_519406,
   184_428306_455806_485006_441306,
   185_345706_368306_392406_368706,
   186_279106_297806_317706_293306,
   187_222106_237306_253406_229406,
   188_176806_189106_202206_183606,
   189_139706_149506_160106_150106,
   190_110306_118306_126806_121106,
   191_864307_927707_995707_916507,
   192_677107_727607_781907_715207,
   193_528107_568207_611307_561107,
   194_411907_443707_478007_442407,
   195_319307_344407_371407_341807,
   196_247507_267307_288607_267407,
   197_190907_206407_223107_211207,
   198_147207_159407_172507_161207,
   199_108707_117807_127607_118607,
   200_802208_870408_944408_784208,
   201_609508_662108_719308_586808,
   202_463208_503708_547808_461508,
   203_352008_383208_417308_350208,
   204_267508_291608_317908_249908,
   205_203308_221908_242208_189008,
   206_154208_168508_184208_148508,
   207_117008_128108_140108_112408,
   208_888409_973109_106608_926909,
   209_674409_739609_811209_696109,
   210_512109_562309_617409_537809,
   211_378409_416009_457309_399709,
   212_279609_307709_338709_275209,
   213_206609_227609_250809_199209,
   214_152609_168409_185809_153109,
   215_112809_124609_137609_116509,
   216_825410_912710_100909_842710,
   217_604010_668710_740310_634910,
   218_442010_489910_543010_479010,
   219_323510_359010_398310_374010,
   220_236710_263010_292210_274210,
   221_173410_192810_214510_193910,
   222_127010_141410_157410_145610,
   223_929811_103710_115610_101510,
   224_681011_760111_848511_781211,
   225_498811_557411_622911_612811,
   226_367511_411111_460011_456011,
   227_270711_303311_339711_358611,
   228_199511_223711_250911_247211,
   229_147011_165111_185311_187211,
   230_108311_121811_136911_135311,
   231_807512_908712_102311_953812,
   232_602112_678312_764212_660212,
   233_449012_506512_571212_518912,
   234_335012_378312_427212_393112,
   235_250012_282612_319512_284412,
   236_190512_215612_244012_237312,
   237_145312_164612_186512_180512,
   238_110912_125812_142712_140512,
   239_847513_962513_109312_106612,
   240_648113_736913_837913_797113,
   241_511713_582513_663013_611113,
   242_404613_461113_525513_521113,
   243_320413_365513_417113_379413,
   244_254013_290213_331413_298913,
   245_201713_230613_263713_252913,
   246_171213_196013_224413_216613,
   247_145513_166713_191113_187013,
   248_123713_141913_162813_169413,
   249_105213_120813_138813_130813,
   250_895414_103013_118413_992514]

/-- atmdata/Venus/LAT80S.txt:9968-10118, columns 0 to 4. -/
def venusProfile67 : List ℕ :=
  [100_635202_647902_660902_642502,
   101_603502_615602_627902_608902,
   102_573002_584502_596202_580002,
   103_543802_554702_565802_549302,
   104_515902_526202_536702_523002,
   105_488902_498702_508702_494302,
   106_463102_472402_481802_466002,
   107_438302_447102_456002_442602,
   108_414302_422602_431102_416902,
   109_391702_399502_407502_393602,
   110_369802_377202_384702_374302,
   111_348802_355802_362902_353602,
   112_328802_335402_342102_334002,
   113_309802_316002_322302_312402,
   114_291602_297402_303302_291702,
   115_274002_279502_285102_274002,
   116_257502_262702_268002_256602,
   117_242002_246802_251702_240302,
   118_227302_231802_236402_226202,
   119_213102_217402_221702_213002,
   120_199902_203902_208002_199002,
   121_187402_191102_194902_187602,
   122_175302_178802_182402_176702,
   123_163802_167102_170402_166802,
   124_153102_156202_159302_157502,
   125_142802_145702_148602_146402,
   126_133202_135902_138602_137002,
   127_124002_126502_129002_126202,
   128_115402_117702_120102_117802,
   129_107202_109302_111502_109402,
   130_995103_101502_103502_101402,
   131_922203_940603_959403_938203,
   132_853303_870403_887803_866503,
   133_789603_805303_821503_800503,
   134_728803_743303_758203_736403,
   135_671903_685303_699003_676203,
   136_618503_630903_643503_621203,
   137_568603_579903_591503_579203,
   138_521503_531903_542503_528203,
   139_478103_487703_497403_487303,
   140_437203_445903_454903_444103,
   141_399103_407003_415203_404103,
   142_363403_370603_378103_361503,
   143_330003_336603_343403_330003,
   144_299503_305503_311603_301303,
   145_271203_276603_282103_274103,
   146_245003_249903_254903_247603,
   147_220403_224803_229303_223403,
   148_197703_201703_205703_200903,
   149_176803_180303_183903_179303,
   150_158103_161303_164503_158203,
   151_140803_143803_146803_140103,
   152_124703_127503_130403_124303,
   153_110803_113403_116103_109503,
   154_979704_100403_103003_961104,
   155_862704_885504_909004_846404,
   156_757804_778804_800504_745104,
   157_661504_680804_700604_663504,
   158_570204_587504_605404_574304,
   159_479304_494504_510204_475804,
   160_396704_409804_423304_393104,
   161_327704_339004_350604_326904,
   162_270804_280404_290404_270904,
   163_224004_232304_240804_226504,
   164_185304_192404_199704_191204,
   165_153004_159004_165304_157904,
   166_126304_131404_136804_133204,
   167_103904_108304_112804_113604,
   168_854905_892005_930705_972905,
   169_707805_739405_772505_799605,
   170_585905_612905_641105_678905,
   171_487105_510205_534305_549205,
   172_405005_424605_445305_448805,
   173_336805_353705_371305_381105,
   174_280205_294505_309605_315405,
   175_234005_246305_259205_263205,
   176_195405_205905_217005_219705,
   177_164005_173005_182505_186805,
   178_137605_145405_153605_153905,
   179_114505_121105_128105_123705,
   180_952806_100905_106905_106305,
   181_783306_830506_880606_902206,
   182_644306_684006_726106_734306,
   183_525206_558206_593306_616106,
   184_428306_455806_485006_507906,
   185_345706_368306_392406_416006,
   186_279106_297806_317706_341006,
   187_222106_237306_253406_257506,
   188_176806_189106_202206_205606,
   189_139706_149506_160106_162106,
   190_110306_118306_126806_129206,
   191_864307_927707_995707_103106,
   192_677107_727607_781907_793107,
   193_528107_568207_611307_592507,
   194_411907_443707_478007_444207,
   195_319307_344407_371407_352107,
   196_247507_267307_288607_279007,
   197_190907_206407_223107_218507,
   198_147207_159407_172507_169607,
   199_108707_117807_127607_126507,
   200_802208_870408_944408_915708,
   201_609508_662108_719308_702108,
   202_463208_503708_547808_543208,
   203_352008_383208_417308_416108,
   204_267508_291608_317908_302908,
   205_203308_221908_242208_220608,
   206_154208_168508_184208_173208,
   207_117008_128108_140108_135008,
   208_888409_973109_106608_104608,
   209_674409_739609_811209_815109,
   210_512109_562309_617409_647809,
   211_378409_416009_457309_483409,
   212_279609_307709_338709_356309,
   213_206609_227609_250809_257909,
   214_152609_168409_185809_187909,
   215_112809_124609_137609_136809,
   216_825410_912710_100909_985110,
   217_604010_668710_740310_754610,
   218_442010_489910_543010_569110,
   219_323510_359010_398310_446610,
   220_236710_263010_292210_322410,
   221_173410_192810_214510_235110,
   222_127010_141410_157410_157910,
   223_929811_103710_115610_116710,
   224_681011_760111_848511_841811,
   225_498811_557411_622911_657111,
   226_367511_411111_460011_452611,
   227_270711_303311_339711_352311,
   228_199511_223711_250911_269111,
   229_147011_165111_185311_193311,
   230_108311_121811_136911_144711,
   231_807512_908712_102311_106211,
   232_602112_678312_764212_814712,
   233_449012_506512_571212_570312,
   234_335012_378312_427212_401212,
   235_250012_282612_319512_283312,
   236_190512_215612_244012_207812,
   237_145312_164612_186512_145512,
   238_110912_125812_142712_110712,
   239_847513_962513_109312_800713,
   240_648113_736913_837913_656213,
   241_511713_582513_663013_534513,
   242_404613_461113_525513_449413,
   243_320413_365513_417113_382013,
   244_254013_290213_331413_324913,
   245_201713_230613_263713_236913,
   246_171213_196013_224413_192713,
   247_145513_166713_191113_162813,
   248_123713_141913_162813_132413,
   249_105213_120813_138813_113913,
   250_895414_103013_118413_845814]

/-- atmdata/Venus/LAT80S.txt:10119-10269, columns 0 to 4. -/
def venusProfile68 : List ℕ :=
  [100_635202_647902_660902_651802,
   101_603502_615602_627902_617002,
   102_573002_584502_596202_586602,
   103_543802_554702_565802_553802,
   104_515902_526202_536702_528502,
   105_488902_498702_508702_503702,
   106_463102_472402_481802_477302,
   107_438302_447102_456002_453102,
   108_414302_422602_431102_427902,
   109_391702_399502_407502_403402,
   110_369802_377202_384702_377602,
   111_348802_355802_362902_355802,
   112_328802_335402_342102_337302,
   113_309802_316002_322302_317402,
   114_291602_297402_303302_297902,
   115_274002_279502_285102_282202,
   116_257502_262702_268002_264202,
   117_242002_246802_251702_249802,
   118_227302_231802_236402_232302,
   119_213102_217402_221702_221102,
   120_199902_203902_208002_208702,
   121_187402_191102_194902_196502,
   122_175302_178802_182402_183602,
   123_163802_167102_170402_172202,
   124_153102_156202_159302_161202,
   125_142802_145702_148602_150202,
   126_133202_135902_138602_139502,
   127_124002_126502_129002_128902,
   128_115402_117702_120102_119502,
   129_107202_109302_111502_110102,
   130_995103_101502_103502_102202,
   131_922203_940603_959403_945103,
   132_853303_870403_887803_872703,
   133_789603_805303_821503_811303,
   134_728803_743303_758203_753203,
   135_671903_685303_699003_690303,
   136_618503_630903_643503_638803,
   137_568603_579903_591503_592403,
   138_521503_531903_542503_544203,
   139_478103_487703_497403_494703,
   140_437203_445903_454903_456103,
   141_399103_407003_415203_419403,
   142_363403_370603_378103_377703,
   143_330003_336603_343403_340503,
   144_299503_305503_311603_312303,
   145_271203_276603_282103_281503,
   146_245003_249903_254903_253503,
   147_220403_224803_229303_226103,
   148_197703_201703_205703_203403,
   149_176803_180303_183903_180603,
   150_158103_161303_164503_160403,
   151_140803_143803_146803_143503,
   152_124703_127503_130403_127603,
   153_110803_113403_116103_113903,
   154_979704_100403_103003_101503,
   155_862704_885504_909004_893704,
   156_757804_778804_800504_795204,
   157_661504_680804_700604_687504,
   158_570204_587504_605404_593504,
   159_479304_494504_510204_508004,
   160_396704_409804_423304_421404,
   161_327704_339004_350604_346104,
   162_270804_280404_290404_284504,
   163_224004_232304_240804_233604,
   164_185304_192404_199704_190904,
   165_153004_159004_165304_155504,
   166_126304_131404_136804_130604,
   167_103904_108304_112804_109804,
   168_854905_892005_930705_904805,
   169_707805_739405_772505_744105,
   170_585905_612905_641105_612605,
   171_487105_510205_534305_516405,
   172_405005_424605_445305_435705,
   173_336805_353705_371305_367005,
   174_280205_294505_309605_304905,
   175_234005_246305_259205_262705,
   176_195405_205905_217005_217505,
   177_164005_173005_182505_185205,
   178_137605_145405_153605_152505,
   179_114505_121105_128105_120705,
   180_952806_100905_106905_101105,
   181_783306_830506_880606_835306,
   182_644306_684006_726106_691206,
   183_525206_558206_593306_551606,
   184_428306_455806_485006_454006,
   185_345706_368306_392406_373406,
   186_279106_297806_317706_298406,
   187_222106_237306_253406_245006,
   188_176806_189106_202206_197706,
   189_139706_149506_160106_152706,
   190_110306_118306_126806_121806,
   191_864307_927707_995707_950407,
   192_677107_727607_781907_730207,
   193_528107_568207_611307_578207,
   194_411907_443707_478007_456007,
   195_319307_344407_371407_334007,
   196_247507_267307_288607_271407,
   197_190907_206407_223107_212207,
   198_147207_159407_172507_169107,
   199_108707_117807_127607_129107,
   200_802208_870408_944408_960008,
   201_609508_662108_719308_672708,
   202_463208_503708_547808_523108,
   203_352008_383208_417308_414408,
   204_267508_291608_317908_306308,
   205_203308_221908_242208_247608,
   206_154208_168508_184208_196008,
   207_117008_128108_140108_142208,
   208_888409_973109_106608_107308,
   209_674409_739609_811209_787709,
   210_512109_562309_617409_578609,
   211_378409_416009_457309_449809,
   212_279609_307709_338709_316009,
   213_206609_227609_250809_234509,
   214_152609_168409_185809_166209,
   215_112809_124609_137609_118609,
   216_825410_912710_100909_870610,
   217_604010_668710_740310_604410,
   218_442010_489910_543010_479010,
   219_323510_359010_398310_325810,
   220_236710_263010_292210_240810,
   221_173410_192810_214510_192910,
   222_127010_141410_157410_139710,
   223_929811_103710_115610_979011,
   224_681011_760111_848511_660411,
   225_498811_557411_622911_535011,
   226_367511_411111_460011_399411,
   227_270711_303311_339711_312611,
   228_199511_223711_250911_232911,
   229_147011_165111_185311_153111,
   230_108311_121811_136911_103711,
   231_807512_908712_102311_820212,
   232_602112_678312_764212_620712,
   233_449012_506512_571212_464612,
   234_335012_378312_427212_359512,
   235_250012_282612_319512_245712,
   236_190512_215612_244012_189512,
   237_145312_164612_186512_147812,
   238_110912_125812_142712_105312,
   239_847513_962513_109312_852413,
   240_648113_736913_837913_630313,
   241_511713_582513_663013_550813,
   242_404613_461113_525513_453313,
   243_320413_365513_417113_369213,
   244_254013_290213_331413_286013,
   245_201713_230613_263713_221413,
   246_171213_196013_224413_201313,
   247_145513_166713_191113_163213,
   248_123713_141913_162813_139113,
   249_105213_120813_138813_136013,
   250_895414_103013_118413_129813]

/-- atmdata/Venus/LAT80S.txt:10270-10420, columns 0 to 4. -/
def venusProfile69 : List ℕ :=
  [100_635202_647902_660902_664702,
   101_603502_615602_627902_628402,
   102_573002_584502_596202_596202,
   103_543802_554702_565802_572002,
   104_515902_526202_536702_536602,
   105_488902_498702_508702_508002,
   106_463102_472402_481802_485002,
   107_438302_447102_456002_460402,
   108_414302_422602_431102_435902,
   109_391702_399502_407502_410402,
   110_369802_377202_384702_385502,
   111_348802_355802_362902_362202,
   112_328802_335402_342102_338802,
   113_309802_316002_322302_320502,
   114_291602_297402_303302_301602,
   115_274002_279502_285102_283302,
   116_257502_262702_268002_265402,
   117_242002_246802_251702_249402,
   118_227302_231802_236402_234102,
   119_213102_217402_221702_218702,
   120_199902_203902_208002_205402,
   121_187402_191102_194902_193802,
   122_175302_178802_182402_179802,
   123_163802_167102_170402_168302,
   124_153102_156202_159302_157202,
   125_142802_145702_148602_147002,
   126_133202_135902_138602_137902,
   127_124002_126502_129002_127702,
   128_115402_117702_120102_119702,
   129_107202_109302_111502_111402,
   130_995103_101502_103502_103502,
   131_922203_940603_959403_956503,
   132_853303_870403_887803_883003,
   133_789603_805303_821503_812403,
   134_728803_743303_758203_748603,
   135_671903_685303_699003_685803,
   136_618503_630903_643503_629503,
   137_568603_579903_591503_583003,
   138_521503_531903_542503_531403,
   139_478103_487703_497403_486503,
   140_437203_445903_454903_445303,
   141_399103_407003_415203_406703,
   142_363403_370603_378103_367803,
   143_330003_336603_343403_334603,
   144_299503_305503_311603_301803,
   145_271203_276603_282103_275603,
   146_245003_249903_254903_248103,
   147_220403_224803_229303_223703,
   148_197703_201703_205703_201603,
   149_176803_180303_183903_182403,
   150_158103_161303_164503_162503,
   151_140803_143803_146803_143903,
   152_124703_127503_130403_128203,
   153_110803_113403_116103_113303,
   154_979704_100403_103003_100003,
   155_862704_885504_909004_881304,
   156_757804_778804_800504_770304,
   157_661504_680804_700604_671704,
   158_570204_587504_605404_579504,
   159_479304_494504_510204_492104,
   160_396704_409804_423304_412004,
   161_327704_339004_350604_333704,
   162_270804_280404_290404_273004,
   163_224004_232304_240804_231104,
   164_185304_192404_199704_191604,
   165_153004_159004_165304_161504,
   166_126304_131404_136804_134804,
   167_103904_108304_112804_112204,
   168_854905_892005_930705_895305,
   169_707805_739405_772505_733905,
   170_585905_612905_641105_618405,
   171_487105_510205_534305_510505,
   172_405005_424605_445305_420005,
   173_336805_353705_371305_351905,
   174_280205_294505_309605_293505,
   175_234005_246305_259205_243105,
   176_195405_205905_217005_200405,
   177_164005_173005_182505_171805,
   178_137605_145405_153605_142105,
   179_114505_121105_128105_123505,
   180_952806_100905_106905_101005,
   181_783306_830506_880606_814006,
   182_644306_684006_726106_683106,
   183_525206_558206_593306_557406,
   184_428306_455806_485006_454106,
   185_345706_368306_392406_371306,
   186_279106_297806_317706_310706,
   187_222106_237306_253406_249606,
   188_176806_189106_202206_202806,
   189_139706_149506_160106_166306,
   190_110306_118306_126806_131206,
   191_864307_927707_995707_988207,
   192_677107_727607_781907_752207,
   193_528107_568207_611307_572707,
   194_411907_443707_478007_432607,
   195_319307_344407_371407_332107,
   196_247507_267307_288607_246007,
   197_190907_206407_223107_193107,
   198_147207_159407_172507_142207,
   199_108707_117807_127607_100507,
   200_802208_870408_944408_817208,
   201_609508_662108_719308_619308,
   202_463208_503708_547808_485108,
   203_352008_383208_417308_355508,
   204_267508_291608_317908_269108,
   205_203308_221908_242208_212508,
   206_154208_168508_184208_151708,
   207_117008_128108_140108_117208,
   208_888409_973109_106608_877609,
   209_674409_739609_811209_686409,
   210_512109_562309_617409_527709,
   211_378409_416009_457309_372009,
   212_279609_307709_338709_283609,
   213_206609_227609_250809_216209,
   214_152609_168409_185809_169109,
   215_112809_124609_137609_133709,
   216_825410_912710_100909_978810,
   217_604010_668710_740310_697210,
   218_442010_489910_543010_474610,
   219_323510_359010_398310_329910,
   220_236710_263010_292210_243110,
   221_173410_192810_214510_175710,
   222_127010_141410_157410_133710,
   223_929811_103710_115610_100310,
   224_681011_760111_848511_749411,
   225_498811_557411_622911_605811,
   226_367511_411111_460011_407311,
   227_270711_303311_339711_316111,
   228_199511_223711_250911_227611,
   229_147011_165111_185311_170611,
   230_108311_121811_136911_123111,
   231_807512_908712_102311_861612,
   232_602112_678312_764212_625312,
   233_449012_506512_571212_488612,
   234_335012_378312_427212_353312,
   235_250012_282612_319512_284712,
   236_190512_215612_244012_225212,
   237_145312_164612_186512_159112,
   238_110912_125812_142712_127012,
   239_847513_962513_109312_953913,
   240_648113_736913_837913_744213,
   241_511713_582513_663013_565213,
   242_404613_461113_525513_457313,
   243_320413_365513_417113_361413,
   244_254013_290213_331413_299613,
   245_201713_230613_263713_238413,
   246_171213_196013_224413_202013,
   247_145513_166713_191113_197713,
   248_123713_141913_162813_173213,
   249_105213_120813_138813_144313,
   250_895414_103013_118413_133213]

/-- atmdata/Venus/LAT80S.txt:10421-10571, columns 0 to 4. -/
def venusProfile70 : List ℕ :=
  [100_635202_647902_660902_636602,
   101_603502_615602_627902_601902,
   102_573002_584502_596202_571002,
   103_543802_554702_565802_544902,
   104_515902_526202_536702_514502,
   105_488902_498702_508702_483902,
   106_463102_472402_481802_458002,
   107_438302_447102_456002_435902,
   108_414302_422602_431102_415402,
   109_391702_399502_407502_391402,
   110_369802_377202_384702_369102,
   111_348802_355802_362902_346002,
   112_328802_335402_342102_325702,
   113_309802_316002_322302_305502,
   114_291602_297402_303302_289102,
   115_274002_279502_285102_268902,
   116_257502_262702_268002_252502,
   117_242002_246802_251702_236602,
   118_227302_231802_236402_224302,
   119_213102_217402_221702_210802,
   120_199902_203902_208002_197402,
   121_187402_191102_194902_187002,
   122_175302_178802_182402_175602,
   123_163802_167102_170402_164202,
   124_153102_156202_159302_152902,
   125_142802_145702_148602_143702,
   126_133202_135902_138602_134002,
   127_124002_126502_129002_124502,
   128_115402_117702_120102_115902,
   129_107202_109302_111502_107402,
   130_995103_101502_103502_100102,
   131_922203_940603_959403_926203,
   132_853303_870403_887803_856403,
   133_789603_805303_821503_794303,
   134_728803_743303_758203_746103,
   135_671903_685303_699003_682903,
   136_618503_630903_643503_632103,
   137_568603_579903_591503_584603,
   138_521503_531903_542503_537403,
   139_478103_487703_497403_493903,
   140_437203_445903_454903_448903,
   141_399103_407003_415203_406903,
   142_363403_370603_378103_368603,
   143_330003_336603_343403_330103,
   144_299503_305503_311603_299103,
   145_271203_276603_282103_271003,
   146_245003_249903_254903_243803,
   147_220403_224803_229303_217703,
   148_197703_201703_205703_196703,
   149_176803_180303_183903_177003,
   150_158103_161303_164503_158403,
   151_140803_143803_146803_141803,
   152_124703_127503_130403_126603,
   153_110803_113403_116103_113303,
   154_979704_100403_103003_977304,
   155_862704_885504_909004_862004,
   156_757804_778804_800504_761804,
   157_661504_680804_700604_668704,
   158_570204_587504_605404_576304,
   159_479304_494504_510204_486804,
   160_396704_409804_423304_418204,
   161_327704_339004_350604_349404,
   162_270804_280404_290404_282004,
   163_224004_232304_240804_233704,
   164_185304_192404_199704_196504,
   165_153004_159004_165304_162804,
   166_126304_131404_136804_135304,
   167_103904_108304_112804_112004,
   168_854905_892005_930705_924005,
   169_707805_739405_772505_752305,
   170_585905_612905_641105_613605,
   171_487105_510205_534305_529505,
   172_405005_424605_445305_446805,
   173_336805_353705_371305_370105,
   174_280205_294505_309605_307905,
   175_234005_246305_259205_259705,
   176_195405_205905_217005_210005,
   177_164005_173005_182505_179705,
   178_137605_145405_153605_147905,
   179_114505_121105_128105_126605,
   180_952806_100905_106905_108405,
   181_783306_830506_880606_909106,
   182_644306_684006_726106_770406,
   183_525206_558206_593306_635306,
   184_428306_455806_485006_508106,
   185_345706_368306_392406_409806,
   186_279106_297806_317706_327406,
   187_222106_237306_253406_258406,
   188_176806_189106_202206_211506,
   189_139706_149506_160106_167306,
   190_110306_118306_126806_131306,
   191_864307_927707_995707_104606,
   192_677107_727607_781907_787207,
   193_528107_568207_611307_626607,
   194_411907_443707_478007_491807,
   195_319307_344407_371407_382907,
   196_247507_267307_288607_288007,
   197_190907_206407_223107_222307,
   198_147207_159407_172507_167607,
   199_108707_117807_127607_120907,
   200_802208_870408_944408_876208,
   201_609508_662108_719308_685308,
   202_463208_503708_547808_532508,
   203_352008_383208_417308_399008,
   204_267508_291608_317908_302508,
   205_203308_221908_242208_231908,
   206_154208_168508_184208_169108,
   207_117008_128108_140108_138508,
   208_888409_973109_106608_987609,
   209_674409_739609_811209_717709,
   210_512109_562309_617409_570709,
   211_378409_416009_457309_412609,
   212_279609_307709_338709_296609,
   213_206609_227609_250809_230109,
   214_152609_168409_185809_172309,
   215_112809_124609_137609_130109,
   216_825410_912710_100909_962210,
   217_604010_668710_740310_702510,
   218_442010_489910_543010_490810,
   219_323510_359010_398310_345110,
   220_236710_263010_292210_252810,
   221_173410_192810_214510_190110,
   222_127010_141410_157410_130610,
   223_929811_103710_115610_919111,
   224_681011_760111_848511_656711,
   225_498811_557411_622911_551611,
   226_367511_411111_460011_407311,
   227_270711_303311_339711_314111,
   228_199511_223711_250911_215711,
   229_147011_165111_185311_154611,
   230_108311_121811_136911_117311,
   231_807512_908712_102311_868212,
   232_602112_678312_764212_728412,
   233_449012_506512_571212_503512,
   234_335012_378312_427212_392512,
   235_250012_282612_319512_304612,
   236_190512_215612_244012_206412,
   237_145312_164612_186512_160312,
   238_110912_125812_142712_122412,
   239_847513_962513_109312_110312,
   240_648113_736913_837913_760413,
   241_511713_582513_663013_602313,
   242_404613_461113_525513_478613,
   243_320413_365513_417113_364713,
   244_254013_290213_331413_276613,
   245_201713_230613_263713_229013,
   246_171213_196013_224413_182713,
   247_145513_166713_191113_163113,
   248_123713_141913_162813_128613,
   249_105213_120813_138813_119513,
   250_895414_103013_118413_112313]

/-- atmdata/Venus/LAT80S.txt:10572-10722, columns 0 to 4. -/
def venusProfile71 : List ℕ :=
  [100_635202_647902_660902_647002,
   101_603502_615602_627902_610702,
   102_573002_584502_596202_578102,
   103_543802_554702_565802_550002,
   104_515902_526202_536702_520402,
   105_488902_498702_508702_494302,
   106_463102_472402_481802_470002,
   107_438302_447102_456002_447002,
   108_414302_422602_431102_420502,
   109_391702_399502_407502_395702,
   110_369802_377202_384702_373802,
   111_348802_355802_362902_355102,
   112_328802_335402_342102_335002,
   113_309802_316002_322302_315702,
   114_291602_297402_303302_294102,
   115_274002_279502_285102_276702,
   116_257502_262702_268002_259702,
   117_242002_246802_251702_245602,
   118_227302_231802_236402_230302,
   119_213102_217402_221702_217102,
   120_199902_203902_208002_201702,
   121_187402_191102_194902_186702,
   122_175302_178802_182402_174302,
   123_163802_167102_170402_162702,
   124_153102_156202_159302_153602,
   125_142802_145702_148602_142302,
   126_133202_135902_138602_134502,
   127_124002_126502_129002_125102,
   128_115402_117702_120102_115602,
   129_107202_109302_111502_108302,
   130_995103_101502_103502_101102,
   131_922203_940603_959403_935003,
   132_853303_870403_887803_864403,
   133_789603_805303_821503_790003,
   134_728803_743303_758203_730603,
   135_671903_685303_699003_668503,
   136_618503_630903_643503_614203,
   137_568603_579903_591503_568203,
   138_521503_531903_542503_518503,
   139_478103_487703_497403_481403,
   140_437203_445903_454903_443103,
   141_399103_407003_415203_406503,
   142_363403_370603_378103_368703,
   143_330003_336603_343403_334703,
   144_299503_305503_311603_304003,
   145_271203_276603_282103_272103,
   146_245003_249903_254903_244103,
   147_220403_224803_229303_220203,
   148_197703_201703_205703_199103,
   149_176803_180303_183903_178303,
   150_158103_161303_164503_159903,
   151_140803_143803_146803_141703,
   152_124703_127503_130403_126803,
   153_110803_113403_116103_112403,
   154_979704_100403_103003_998104,
   155_862704_885504_909004_880504,
   156_757804_778804_800504_760904,
   157_661504_680804_700604_673404,
   158_570204_587504_605404_579304,
   159_479304_494504_510204_486804,
   160_396704_409804_423304_399604,
   161_327704_339004_350604_331204,
   162_270804_280404_290404_279204,
   163_224004_232304_240804_227704,
   164_185304_192404_199704_185904,
   165_153004_159004_165304_152604,
   166_126304_131404_136804_127004,
   167_103904_108304_112804_105104,
   168_854905_892005_930705_847705,
   169_707805_739405_772505_689605,
   170_585905_612905_641105_578805,
   171_487105_510205_534305_485805,
   172_405005_424605_445305_401705,
   173_336805_353705_371305_332605,
   174_280205_294505_309605_279305,
   175_234005_246305_259205_227605,
   176_195405_205905_217005_198205,
   177_164005_173005_182505_170405,
   178_137605_145405_153605_140705,
   179_114505_121105_128105_120105,
   180_952806_100905_106905_100505,
   181_783306_830506_880606_826406,
   182_644306_684006_726106_659806,
   183_525206_558206_593306_520106,
   184_428306_455806_485006_416206,
   185_345706_368306_392406_339406,
   186_279106_297806_317706_292106,
   187_222106_237306_253406_229206,
   188_176806_189106_202206_194506,
   189_139706_149506_160106_151306,
   190_110306_118306_126806_119106,
   191_864307_927707_995707_931307,
   192_677107_727607_781907_696607,
   193_528107_568207_611307_540107,
   194_411907_443707_478007_410807,
   195_319307_344407_371407_337807,
   196_247507_267307_288607_260107,
   197_190907_206407_223107_201707,
   198_147207_159407_172507_156307,
   199_108707_117807_127607_115507,
   200_802208_870408_944408_865508,
   201_609508_662108_719308_637108,
   202_463208_503708_547808_498108,
   203_352008_383208_417308_383808,
   204_267508_291608_317908_295108,
   205_203308_221908_242208_222808,
   206_154208_168508_184208_165808,
   207_117008_128108_140108_124708,
   208_888409_973109_106608_988009,
   209_674409_739609_811209_756009,
   210_512109_562309_617409_552409,
   211_378409_416009_457309_409009,
   212_279609_307709_338709_312609,
   213_206609_227609_250809_212309,
   214_152609_168409_185809_155309,
   215_112809_124609_137609_115109,
   216_825410_912710_100909_867710,
   217_604010_668710_740310_654010,
   218_442010_489910_543010_468310,
   219_323510_359010_398310_333410,
   220_236710_263010_292210_244510,
   221_173410_192810_214510_166810,
   222_127010_141410_157410_122610,
   223_929811_103710_115610_929811,
   224_681011_760111_848511_720911,
   225_498811_557411_622911_473511,
   226_367511_411111_460011_389211,
   227_270711_303311_339711_299111,
   228_199511_223711_250911_231211,
   229_147011_165111_185311_180011,
   230_108311_121811_136911_146311,
   231_807512_908712_102311_110411,
   232_602112_678312_764212_832512,
   233_449012_506512_571212_604712,
   234_335012_378312_427212_436112,
   235_250012_282612_319512_328412,
   236_190512_215612_244012_240512,
   237_145312_164612_186512_170812,
   238_110912_125812_142712_123612,
   239_847513_962513_109312_962113,
   240_648113_736913_837913_732313,
   241_511713_582513_663013_611813,
   242_404613_461113_525513_479013,
   243_320413_365513_417113_347113,
   244_254013_290213_331413_282113,
   245_201713_230613_263713_249513,
   246_171213_196013_224413_219113,
   247_145513_166713_191113_185913,
   248_123713_141913_162813_154213,
   249_105213_120813_138813_127913,
   250_895414_103013_118413_117813]

/-- atmdata/Venus/LAT80S.txt:10723-10873, columns 0 to 4. -/
def venusProfile72 : List ℕ :=
  [100_635202_647902_660902_656802,
   101_603502_615602_627902_618402,
   102_573002_584502_596202_584002,
   103_543802_554702_565802_554302,
   104_515902_526202_536702_525302,
   105_488902_498702_508702_496002,
   106_463102_472402_481802_467602,
   107_438302_447102_456002_445102,
   108_414302_422602_431102_420202,
   109_391702_399502_407502_395102,
   110_369802_377202_384702_374002,
   111_348802_355802_362902_354002,
   112_328802_335402_342102_335202,
   113_309802_316002_322302_317702,
   114_291602_297402_303302_297902,
   115_274002_279502_285102_278102,
   116_257502_262702_268002_261202,
   117_242002_246802_251702_245502,
   118_227302_231802_236402_231702,
   119_213102_217402_221702_215802,
   120_199902_203902_208002_203202,
   121_187402_191102_194902_188902,
   122_175302_178802_182402_177902,
   123_163802_167102_170402_165402,
   124_153102_156202_159302_155202,
   125_142802_145702_148602_144302,
   126_133202_135902_138602_134702,
   127_124002_126502_129002_125502,
   128_115402_117702_120102_117202,
   129_107202_109302_111502_108802,
   130_995103_101502_103502_101902,
   131_922203_940603_959403_942203,
   132_853303_870403_887803_870903,
   133_789603_805303_821503_804903,
   134_728803_743303_758203_738403,
   135_671903_685303_699003_674203,
   136_618503_630903_643503_624303,
   137_568603_579903_591503_576403,
   138_521503_531903_542503_530203,
   139_478103_487703_497403_484203,
   140_437203_445903_454903_442603,
   141_399103_407003_415203_403403,
   142_363403_370603_378103_366603,
   143_330003_336603_343403_335603,
   144_299503_305503_311603_305803,
   145_271203_276603_282103_277403,
   146_245003_249903_254903_247503,
   147_220403_224803_229303_220603,
   148_197703_201703_205703_199703,
   149_176803_180303_183903_178203,
   150_158103_161303_164503_160203,
   151_140803_143803_146803_143403,
   152_124703_127503_130403_129103,
   153_110803_113403_116103_116003,
   154_979704_100403_103003_102003,
   155_862704_885504_909004_899504,
   156_757804_778804_800504_789304,
   157_661504_680804_700604_679604,
   158_570204_587504_605404_583704,
   159_479304_494504_510204_487704,
   160_396704_409804_423304_403404,
   161_327704_339004_350604_331104,
   162_270804_280404_290404_276704,
   163_224004_232304_240804_231704,
   164_185304_192404_199704_191804,
   165_153004_159004_165304_152104,
   166_126304_131404_136804_126104,
   167_103904_108304_112804_103904,
   168_854905_892005_930705_863905,
   169_707805_739405_772505_695005,
   170_585905_612905_641105_561705,
   171_487105_510205_534305_462105,
   172_405005_424605_445305_395505,
   173_336805_353705_371305_324705,
   174_280205_294505_309605_273505,
   175_234005_246305_259205_229705,
   176_195405_205905_217005_196505,
   177_164005_173005_182505_169305,
   178_137605_145405_153605_139605,
   179_114505_121105_128105_118605,
   180_952806_100905_106905_971906,
   181_783306_830506_880606_778306,
   182_644306_684006_726106_634506,
   183_525206_558206_593306_516306,
   184_428306_455806_485006_402706,
   185_345706_368306_392406_327606,
   186_279106_297806_317706_267806,
   187_222106_237306_253406_206006,
   188_176806_189106_202206_158606,
   189_139706_149506_160106_117306,
   190_110306_118306_126806_938907,
   191_864307_927707_995707_721507,
   192_677107_727607_781907_627307,
   193_528107_568207_611307_521507,
   194_411907_443707_478007_416807,
   195_319307_344407_371407_317707,
   196_247507_267307_288607_249207,
   197_190907_206407_223107_193207,
   198_147207_159407_172507_153407,
   199_108707_117807_127607_115607,
   200_802208_870408_944408_914108,
   201_609508_662108_719308_695808,
   202_463208_503708_547808_540508,
   203_352008_383208_417308_425708,
   204_267508_291608_317908_328008,
   205_203308_221908_242208_241608,
   206_154208_168508_184208_180808,
   207_117008_128108_140108_140608,
   208_888409_973109_106608_107308,
   209_674409_739609_811209_750009,
   210_512109_562309_617409_568509,
   211_378409_416009_457309_429009,
   212_279609_307709_338709_310609,
   213_206609_227609_250809_221109,
   214_152609_168409_185809_154009,
   215_112809_124609_137609_110709,
   216_825410_912710_100909_846110,
   217_604010_668710_740310_662610,
   218_442010_489910_543010_480310,
   219_323510_359010_398310_344410,
   220_236710_263010_292210_251510,
   221_173410_192810_214510_183210,
   222_127010_141410_157410_139310,
   223_929811_103710_115610_978011,
   224_681011_760111_848511_714911,
   225_498811_557411_622911_478811,
   226_367511_411111_460011_355111,
   227_270711_303311_339711_274611,
   228_199511_223711_250911_206011,
   229_147011_165111_185311_153011,
   230_108311_121811_136911_110711,
   231_807512_908712_102311_753512,
   232_602112_678312_764212_567512,
   233_449012_506512_571212_444812,
   234_335012_378312_427212_356912,
   235_250012_282612_319512_269012,
   236_190512_215612_244012_207412,
   237_145312_164612_186512_161712,
   238_110912_125812_142712_131412,
   239_847513_962513_109312_963713,
   240_648113_736913_837913_785613,
   241_511713_582513_663013_579813,
   242_404613_461113_525513_450413,
   243_320413_365513_417113_379913,
   244_254013_290213_331413_276113,
   245_201713_230613_263713_209313,
   246_171213_196013_224413_176513,
   247_145513_166713_191113_147513,
   248_123713_141913_162813_130613,
   249_105213_120813_138813_118513,
   250_895414_103013_118413_109313]

/-- atmdata/Venus/LAT80S.txt:10874-11024, columns 0 to 4. -/
def venusProfile73 : List ℕ :=
  [100_635202_647902_660902_625202,
   101_603502_615602_627902_601702,
   102_573002_584502_596202_566102,
   103_543802_554702_565802_536702,
   104_515902_526202_536702_510002,
   105_488902_498702_508702_486102,
   106_463102_472402_481802_461202,
   107_438302_447102_456002_439502,
   108_414302_422602_431102_416402,
   109_391702_399502_407502_391102,
   110_369802_377202_384702_371202,
   111_348802_355802_362902_350602,
   112_328802_335402_342102_327202,
   113_309802_316002_322302_307302,
   114_291602_297402_303302_289602,
   115_274002_279502_285102_272902,
   116_257502_262702_268002_256602,
   117_242002_246802_251702_240202,
   118_227302_231802_236402_225002,
   119_213102_217402_221702_210802,
   120_199902_203902_208002_197902,
   121_187402_191102_194902_184502,
   122_175302_178802_182402_172802,
   123_163802_167102_170402_159802,
   124_153102_156202_159302_149502,
   125_142802_145702_148602_139702,
   126_133202_135902_138602_129602,
   127_124002_126502_129002_121102,
   128_115402_117702_120102_112602,
   129_107202_109302_111502_103902,
   130_995103_101502_103502_956903,
   131_922203_940603_959403_886803,
   132_853303_870403_887803_822103,
   133_789603_805303_821503_767303,
   134_728803_743303_758203_712503,
   135_671903_685303_699003_649203,
   136_618503_630903_643503_597103,
   137_568603_579903_591503_552203,
   138_521503_531903_542503_504503,
   139_478103_487703_497403_464103,
   140_437203_445903_454903_421803,
   141_399103_407003_415203_380203,
   142_363403_370603_378103_346903,
   143_330003_336603_343403_315203,
   144_299503_305503_311603_290003,
   145_271203_276603_282103_261803,
   146_245003_249903_254903_239903,
   147_220403_224803_229303_216603,
   148_197703_201703_205703_196603,
   149_176803_180303_183903_174803,
   150_158103_161303_164503_158003,
   151_140803_143803_146803_140103,
   152_124703_127503_130403_122703,
   153_110803_113403_116103_109003,
   154_979704_100403_103003_975204,
   155_862704_885504_909004_861804,
   156_757804_778804_800504_765604,
   157_661504_680804_700604_666204,
   158_570204_587504_605404_571604,
   159_479304_494504_510204_474104,
   160_396704_409804_423304_395404,
   161_327704_339004_350604_338004,
   162_270804_280404_290404_280604,
   163_224004_232304_240804_231304,
   164_185304_192404_199704_194104,
   165_153004_159004_165304_161804,
   166_126304_131404_136804_133204,
   167_103904_108304_112804_108804,
   168_854905_892005_930705_880405,
   169_707805_739405_772505_756105,
   170_585905_612905_641105_625605,
   171_487105_510205_534305_529105,
   172_405005_424605_445305_435805,
   173_336805_353705_371305_349905,
   174_280205_294505_309605_293205,
   175_234005_246305_259205_251405,
   176_195405_205905_217005_211405,
   177_164005_173005_182505_181205,
   178_137605_145405_153605_148505,
   179_114505_121105_128105_125005,
   180_952806_100905_106905_107005,
   181_783306_830506_880606_891706,
   182_644306_684006_726106_728606,
   183_525206_558206_593306_598106,
   184_428306_455806_485006_501106,
   185_345706_368306_392406_399106,
   186_279106_297806_317706_307406,
   187_222106_237306_253406_252506,
   188_176806_189106_202206_194906,
   189_139706_149506_160106_156106,
   190_110306_118306_126806_121506,
   191_864307_927707_995707_975407,
   192_677107_727607_781907_793907,
   193_528107_568207_611307_615607,
   194_411907_443707_478007_465607,
   195_319307_344407_371407_361207,
   196_247507_267307_288607_284207,
   197_190907_206407_223107_217107,
   198_147207_159407_172507_177907,
   199_108707_117807_127607_135407,
   200_802208_870408_944408_973508,
   201_609508_662108_719308_771008,
   202_463208_503708_547808_593408,
   203_352008_383208_417308_429008,
   204_267508_291608_317908_334708,
   205_203308_221908_242208_239708,
   206_154208_168508_184208_181608,
   207_117008_128108_140108_132608,
   208_888409_973109_106608_994809,
   209_674409_739609_811209_752709,
   210_512109_562309_617409_590809,
   211_378409_416009_457309_456809,
   212_279609_307709_338709_350509,
   213_206609_227609_250809_252409,
   214_152609_168409_185809_191209,
   215_112809_124609_137609_150009,
   216_825410_912710_100909_112309,
   217_604010_668710_740310_774610,
   218_442010_489910_543010_561310,
   219_323510_359010_398310_400810,
   220_236710_263010_292210_288510,
   221_173410_192810_214510_216910,
   222_127010_141410_157410_149010,
   223_929811_103710_115610_110910,
   224_681011_760111_848511_739811,
   225_498811_557411_622911_500811,
   226_367511_411111_460011_396811,
   227_270711_303311_339711_301311,
   228_199511_223711_250911_217111,
   229_147011_165111_185311_151411,
   230_108311_121811_136911_114311,
   231_807512_908712_102311_840512,
   232_602112_678312_764212_600312,
   233_449012_506512_571212_406812,
   234_335012_378312_427212_306212,
   235_250012_282612_319512_229912,
   236_190512_215612_244012_188412,
   237_145312_164612_186512_137012,
   238_110912_125812_142712_107612,
   239_847513_962513_109312_890513,
   240_648113_736913_837913_664513,
   241_511713_582513_663013_525213,
   242_404613_461113_525513_404513,
   243_320413_365513_417113_332013,
   244_254013_290213_331413_265813,
   245_201713_230613_263713_209913,
   246_171213_196013_224413_157513,
   247_145513_166713_191113_125413,
   248_123713_141913_162813_125113,
   249_105213_120813_138813_104213,
   250_895414_103013_118413_966814]

/-- atmdata/Venus/LAT80S.txt:11025-11175, columns 0 to 4. -/
def venusProfile74 : List ℕ :=
  [100_635202_647902_660902_642002,
   101_603502_615602_627902_614802,
   102_573002_584502_596202_587602,
   103_543802_554702_565802_555102,
   104_515902_526202_536702_527802,
   105_488902_498702_508702_499602,
   106_463102_472402_481802_477402,
   107_438302_447102_456002_454702,
   108_414302_422602_431102_432002,
   109_391702_399502_407502_404602,
   110_369802_377202_384702_385302,
   111_348802_355802_362902_362602,
   112_328802_335402_342102_340502,
   113_309802_316002_322302_321002,
   114_291602_297402_303302_303002,
   115_274002_279502_285102_283202,
   116_257502_262702_268002_266102,
   117_242002_246802_251702_251302,
   118_227302_231802_236402_236502,
   119_213102_217402_221702_222002,
   120_199902_203902_208002_207002,
   121_187402_191102_194902_192902,
   122_175302_178802_182402_179002,
   123_163802_167102_170402_168302,
   124_153102_156202_159302_156502,
   125_142802_145702_148602_146302,
   126_133202_135902_138602_136902,
   127_124002_126502_129002_127702,
   128_115402_117702_120102_119802,
   129_107202_109302_111502_111502,
   130_995103_101502_103502_102802,
   131_922203_940603_959403_949803,
   132_853303_870403_887803_877903,
   133_789603_805303_821503_808603,
   134_728803_743303_758203_743903,
   135_671903_685303_699003_694103,
   136_618503_630903_643503_641603,
   137_568603_579903_591503_590603,
   138_521503_531903_542503_542603,
   139_478103_487703_497403_499703,
   140_437203_445903_454903_458103,
   141_399103_407003_415203_418403,
   142_363403_370603_378103_380303,
   143_330003_336603_343403_346303,
   144_299503_305503_311603_311403,
   145_271203_276603_282103_283003,
   146_245003_249903_254903_257203,
   147_220403_224803_229303_228503,
   148_197703_201703_205703_207403,
   149_176803_180303_183903_187103,
   150_158103_161303_164503_165003,
   151_140803_143803_146803_147703,
   152_124703_127503_130403_129903,
   153_110803_113403_116103_117703,
   154_979704_100403_103003_104103,
   155_862704_885504_909004_919204,
   156_757804_778804_800504_801004,
   157_661504_680804_700604_700404,
   158_570204_587504_605404_599104,
   159_479304_494504_510204_512904,
   160_396704_409804_423304_430004,
   161_327704_339004_350604_357604,
   162_270804_280404_290404_294504,
   163_224004_232304_240804_250804,
   164_185304_192404_199704_203204,
   165_153004_159004_165304_166904,
   166_126304_131404_136804_136704,
   167_103904_108304_112804_110804,
   168_854905_892005_930705_920005,
   169_707805_739405_772505_778305,
   170_585905_612905_641105_659605,
   171_487105_510205_534305_544405,
   172_405005_424605_445305_460805,
   173_336805_353705_371305_391605,
   174_280205_294505_309605_325905,
   175_234005_246305_259205_267005,
   176_195405_205905_217005_221605,
   177_164005_173005_182505_189305,
   178_137605_145405_153605_154705,
   179_114505_121105_128105_129205,
   180_952806_100905_106905_107505,
   181_783306_830506_880606_874706,
   182_644306_684006_726106_723706,
   183_525206_558206_593306_613606,
   184_428306_455806_485006_505806,
   185_345706_368306_392406_400606,
   186_279106_297806_317706_323906,
   187_222106_237306_253406_259906,
   188_176806_189106_202206_202106,
   189_139706_149506_160106_157806,
   190_110306_118306_126806_122106,
   191_864307_927707_995707_953007,
   192_677107_727607_781907_769207,
   193_528107_568207_611307_569707,
   194_411907_443707_478007_453007,
   195_319307_344407_371407_362707,
   196_247507_267307_288607_290207,
   197_190907_206407_223107_220607,
   198_147207_159407_172507_164807,
   199_108707_117807_127607_116007,
   200_802208_870408_944408_867508,
   201_609508_662108_719308_649508,
   202_463208_503708_547808_508108,
   203_352008_383208_417308_381608,
   204_267508_291608_317908_309408,
   205_203308_221908_242208_245408,
   206_154208_168508_184208_187708,
   207_117008_128108_140108_142608,
   208_888409_973109_106608_103808,
   209_674409_739609_811209_827709,
   210_512109_562309_617409_594809,
   211_378409_416009_457309_414209,
   212_279609_307709_338709_304209,
   213_206609_227609_250809_225009,
   214_152609_168409_185809_166909,
   215_112809_124609_137609_126709,
   216_825410_912710_100909_979510,
   217_604010_668710_740310_700210,
   218_442010_489910_543010_517910,
   219_323510_359010_398310_374510,
   220_236710_263010_292210_270310,
   221_173410_192810_214510_188110,
   222_127010_141410_157410_137410,
   223_929811_103710_115610_965911,
   224_681011_760111_848511_723711,
   225_498811_557411_622911_493911,
   226_367511_411111_460011_361911,
   227_270711_303311_339711_276511,
   228_199511_223711_250911_188011,
   229_147011_165111_185311_145911,
   230_108311_121811_136911_117511,
   231_807512_908712_102311_896712,
   232_602112_678312_764212_714512,
   233_449012_506512_571212_520012,
   234_335012_378312_427212_422312,
   235_250012_282612_319512_303012,
   236_190512_215612_244012_213012,
   237_145312_164612_186512_166612,
   238_110912_125812_142712_122912,
   239_847513_962513_109312_941413,
   240_648113_736913_837913_741713,
   241_511713_582513_663013_607313,
   242_404613_461113_525513_453813,
   243_320413_365513_417113_357513,
   244_254013_290213_331413_309613,
   245_201713_230613_263713_249113,
   246_171213_196013_224413_214913,
   247_145513_166713_191113_193613,
   248_123713_141913_162813_157413,
   249_105213_120813_138813_138213,
   250_895414_103013_118413_123413]

/-- atmdata/Venus/LAT80S.txt:11176-11326, columns 0 to 4. -/
def venusProfile75 : List ℕ :=
  [100_635202_647902_660902_651302,
   101_603502_615602_627902_622602,
   102_573002_584502_596202_593202,
   103_543802_554702_565802_557502,
   104_515902_526202_536702_531002,
   105_488902_498702_508702_496102,
   106_463102_472402_481802_469102,
   107_438302_447102_456002_447502,
   108_414302_422602_431102_420302,
   109_391702_399502_407502_404902,
   110_369802_377202_384702_379802,
   111_348802_355802_362902_356702,
   112_328802_335402_342102_336102,
   113_309802_316002_322302_319402,
   114_291602_297402_303302_303802,
   115_274002_279502_285102_286202,
   116_257502_262702_268002_268902,
   117_242002_246802_251702_252602,
   118_227302_231802_236402_235602,
   119_213102_217402_221702_222402,
   120_199902_203902_208002_209702,
   121_187402_191102_194902_195602,
   122_175302_178802_182402_183302,
   123_163802_167102_170402_171602,
   124_153102_156202_159302_161602,
   125_142802_145702_148602_151402,
   126_133202_135902_138602_140502,
   127_124002_126502_129002_131202,
   128_115402_117702_120102_122002,
   129_107202_109302_111502_112702,
   130_995103_101502_103502_104202,
   131_922203_940603_959403_961303,
   132_853303_870403_887803_888303,
   133_789603_805303_821503_823003,
   134_728803_743303_758203_764103,
   135_671903_685303_699003_710103,
   136_618503_630903_643503_650303,
   137_568603_579903_591503_597703,
   138_521503_531903_542503_544103,
   139_478103_487703_497403_494303,
   140_437203_445903_454903_450603,
   141_399103_407003_415203_409303,
   142_363403_370603_378103_372903,
   143_330003_336603_343403_336403,
   144_299503_305503_311603_304303,
   145_271203_276603_282103_274903,
   146_245003_249903_254903_249703,
   147_220403_224803_229303_224803,
   148_197703_201703_205703_198703,
   149_176803_180303_183903_178603,
   150_158103_161303_164503_158903,
   151_140803_143803_146803_140903,
   152_124703_127503_130403_124203,
   153_110803_113403_116103_110703,
   154_979704_100403_103003_967404,
   155_862704_885504_909004_856304,
   156_757804_778804_800504_755704,
   157_661504_680804_700604_666704,
   158_570204_587504_605404_570004,
   159_479304_494504_510204_484704,
   160_396704_409804_423304_394304,
   161_327704_339004_350604_326304,
   162_270804_280404_290404_268304,
   163_224004_232304_240804_223604,
   164_185304_192404_199704_185204,
   165_153004_159004_165304_150504,
   166_126304_131404_136804_123604,
   167_103904_108304_112804_100004,
   168_854905_892005_930705_816605,
   169_707805_739405_772505_693205,
   170_585905_612905_641105_572605,
   171_487105_510205_534305_461905,
   172_405005_424605_445305_384805,
   173_336805_353705_371305_328205,
   174_280205_294505_309605_277105,
   175_234005_246305_259205_234705,
   176_195405_205905_217005_194705,
   177_164005_173005_182505_168405,
   178_137605_145405_153605_138405,
   179_114505_121105_128105_116105,
   180_952806_100905_106905_951506,
   181_783306_830506_880606_749206,
   182_644306_684006_726106_636806,
   183_525206_558206_593306_513106,
   184_428306_455806_485006_424806,
   185_345706_368306_392406_338506,
   186_279106_297806_317706_266906,
   187_222106_237306_253406_214506,
   188_176806_189106_202206_170406,
   189_139706_149506_160106_130106,
   190_110306_118306_126806_101506,
   191_864307_927707_995707_776307,
   192_677107_727607_781907_634407,
   193_528107_568207_611307_506707,
   194_411907_443707_478007_389407,
   195_319307_344407_371407_294407,
   196_247507_267307_288607_214507,
   197_190907_206407_223107_166207,
   198_147207_159407_172507_129907,
   199_108707_117807_127607_957008,
   200_802208_870408_944408_770308,
   201_609508_662108_719308_604108,
   202_463208_503708_547808_476408,
   203_352008_383208_417308_368108,
   204_267508_291608_317908_265908,
   205_203308_221908_242208_208708,
   206_154208_168508_184208_164108,
   207_117008_128108_140108_137608,
   208_888409_973109_106608_110808,
   209_674409_739609_811209_823309,
   210_512109_562309_617409_616009,
   211_378409_416009_457309_442409,
   212_279609_307709_338709_350509,
   213_206609_227609_250809_260409,
   214_152609_168409_185809_185409,
   215_112809_124609_137609_135809,
   216_825410_912710_100909_106509,
   217_604010_668710_740310_773510,
   218_442010_489910_543010_574210,
   219_323510_359010_398310_414910,
   220_236710_263010_292210_296910,
   221_173410_192810_214510_215510,
   222_127010_141410_157410_162210,
   223_929811_103710_115610_119810,
   224_681011_760111_848511_840411,
   225_498811_557411_622911_571111,
   226_367511_411111_460011_440211,
   227_270711_303311_339711_328611,
   228_199511_223711_250911_249911,
   229_147011_165111_185311_179611,
   230_108311_121811_136911_127311,
   231_807512_908712_102311_103411,
   232_602112_678312_764212_774612,
   233_449012_506512_571212_583412,
   234_335012_378312_427212_430512,
   235_250012_282612_319512_301412,
   236_190512_215612_244012_223812,
   237_145312_164612_186512_162212,
   238_110912_125812_142712_135912,
   239_847513_962513_109312_967413,
   240_648113_736913_837913_692513,
   241_511713_582513_663013_495113,
   242_404613_461113_525513_363313,
   243_320413_365513_417113_281113,
   244_254013_290213_331413_223713,
   245_201713_230613_263713_194713,
   246_171213_196013_224413_161913,
   247_145513_166713_191113_144013,
   248_123713_141913_162813_125513,
   249_105213_120813_138813_102913,
   250_895414_103013_118413_945714]

/-- atmdata/Venus/LAT80S.txt:11327-11477, columns 0 to 4. -/
def venusProfile76 : List ℕ :=
  [100_635202_647902_660902_663602,
   101_603502_615602_627902_633202,
   102_573002_584502_596202_602002,
   103_543802_554702_565802_573902,
   104_515902_526202_536702_547902,
   105_488902_498702_508702_519202,
   106_463102_472402_481802_492902,
   107_438302_447102_456002_469802,
   108_414302_422602_431102_442502,
   109_391702_399502_407502_421102,
   110_369802_377202_384702_395702,
   111_348802_355802_362902_369302,
   112_328802_335402_342102_348702,
   113_309802_316002_322302_327302,
   114_291602_297402_303302_306502,
   115_274002_279502_285102_286802,
   116_257502_262702_268002_269602,
   117_242002_246802_251702_251902,
   118_227302_231802_236402_236602,
   119_213102_217402_221702_220702,
   120_199902_203902_208002_207102,
   121_187402_191102_194902_193402,
   122_175302_178802_182402_180302,
   123_163802_167102_170402_168502,
   124_153102_156202_159302_157902,
   125_142802_145702_148602_145902,
   126_133202_135902_138602_136902,
   127_124002_126502_129002_128302,
   128_115402_117702_120102_118602,
   129_107202_109302_111502_110702,
   130_995103_101502_103502_102602,
   131_922203_940603_959403_947403,
   132_853303_870403_887803_876103,
   133_789603_805303_821503_802703,
   134_728803_743303_758203_740603,
   135_671903_685303_699003_688303,
   136_618503_630903_643503_636303,
   137_568603_579903_591503_585103,
   138_521503_531903_542503_537803,
   139_478103_487703_497403_491803,
   140_437203_445903_454903_456403,
   141_399103_407003_415203_419003,
   142_363403_370603_378103_381603,
   143_330003_336603_343403_346603,
   144_299503_305503_311603_314103,
   145_271203_276603_282103_286503,
   146_245003_249903_254903_259203,
   147_220403_224803_229303_229803,
   148_197703_201703_205703_203903,
   149_176803_180303_183903_182303,
   150_158103_161303_164503_162403,
   151_140803_143803_146803_145503,
   152_124703_127503_130403_128603,
   153_110803_113403_116103_113003,
   154_979704_100403_103003_100603,
   155_862704_885504_909004_889804,
   156_757804_778804_800504_799304,
   157_661504_680804_700604_679904,
   158_570204_587504_605404_579704,
   159_479304_494504_510204_489704,
   160_396704_409804_423304_403004,
   161_327704_339004_350604_329704,
   162_270804_280404_290404_268904,
   163_224004_232304_240804_220604,
   164_185304_192404_199704_185304,
   165_153004_159004_165304_155904,
   166_126304_131404_136804_127304,
   167_103904_108304_112804_100404,
   168_854905_892005_930705_842105,
   169_707805_739405_772505_709305,
   170_585905_612905_641105_598005,
   171_487105_510205_534305_502605,
   172_405005_424605_445305_429705,
   173_336805_353705_371305_360105,
   174_280205_294505_309605_302205,
   175_234005_246305_259205_242105,
   176_195405_205905_217005_198105,
   177_164005_173005_182505_171205,
   178_137605_145405_153605_140405,
   179_114505_121105_128105_117105,
   180_952806_100905_106905_100705,
   181_783306_830506_880606_837906,
   182_644306_684006_726106_727606,
   183_525206_558206_593306_592606,
   184_428306_455806_485006_480406,
   185_345706_368306_392406_377006,
   186_279106_297806_317706_308206,
   187_222106_237306_253406_241306,
   188_176806_189106_202206_191306,
   189_139706_149506_160106_154506,
   190_110306_118306_126806_118306,
   191_864307_927707_995707_951807,
   192_677107_727607_781907_757107,
   193_528107_568207_611307_573307,
   194_411907_443707_478007_456707,
   195_319307_344407_371407_352107,
   196_247507_267307_288607_264707,
   197_190907_206407_223107_200907,
   198_147207_159407_172507_157607,
   199_108707_117807_127607_116507,
   200_802208_870408_944408_845308,
   201_609508_662108_719308_614008,
   202_463208_503708_547808_483608,
   203_352008_383208_417308_383908,
   204_267508_291608_317908_282808,
   205_203308_221908_242208_216708,
   206_154208_168508_184208_173308,
   207_117008_128108_140108_130108,
   208_888409_973109_106608_101208,
   209_674409_739609_811209_793909,
   210_512109_562309_617409_614909,
   211_378409_416009_457309_450809,
   212_279609_307709_338709_331909,
   213_206609_227609_250809_252509,
   214_152609_168409_185809_198709,
   215_112809_124609_137609_141109,
   216_825410_912710_100909_951210,
   217_604010_668710_740310_714510,
   218_442010_489910_543010_543610,
   219_323510_359010_398310_397010,
   220_236710_263010_292210_284410,
   221_173410_192810_214510_217010,
   222_127010_141410_157410_150210,
   223_929811_103710_115610_104710,
   224_681011_760111_848511_802311,
   225_498811_557411_622911_549411,
   226_367511_411111_460011_395711,
   227_270711_303311_339711_296811,
   228_199511_223711_250911_220011,
   229_147011_165111_185311_180011,
   230_108311_121811_136911_132911,
   231_807512_908712_102311_955712,
   232_602112_678312_764212_695912,
   233_449012_506512_571212_570712,
   234_335012_378312_427212_384712,
   235_250012_282612_319512_255212,
   236_190512_215612_244012_199512,
   237_145312_164612_186512_157612,
   238_110912_125812_142712_123412,
   239_847513_962513_109312_979413,
   240_648113_736913_837913_750613,
   241_511713_582513_663013_578213,
   242_404613_461113_525513_514113,
   243_320413_365513_417113_363513,
   244_254013_290213_331413_303013,
   245_201713_230613_263713_219613,
   246_171213_196013_224413_202213,
   247_145513_166713_191113_169813,
   248_123713_141913_162813_154013,
   249_105213_120813_138813_133813,
   250_895414_103013_118413_118813]

/-- atmdata/Venus/LAT80S.txt:11478-11628, columns 0 to 4. -/
def venusProfile77 : List ℕ :=
  [100_635202_647902_660902_635802,
   101_603502_615602_627902_607002,
   102_573002_584502_596202_577002,
   103_543802_554702_565802_549302,
   104_515902_526202_536702_517402,
   105_488902_498702_508702_488402,
   106_463102_472402_481802_460702,
   107_438302_447102_456002_441302,
   108_414302_422602_431102_417702,
   109_391702_399502_407502_397702,
   110_369802_377202_384702_375102,
   111_348802_355802_362902_355902,
   112_328802_335402_342102_338402,
   113_309802_316002_322302_319502,
   114_291602_297402_303302_300402,
   115_274002_279502_285102_283502,
   116_257502_262702_268002_266802,
   117_242002_246802_251702_251902,
   118_227302_231802_236402_233302,
   119_213102_217402_221702_218602,
   120_199902_203902_208002_204402,
   121_187402_191102_194902_191202,
   122_175302_178802_182402_180002,
   123_163802_167102_170402_167902,
   124_153102_156202_159302_156802,
   125_142802_145702_148602_145702,
   126_133202_135902_138602_135702,
   127_124002_126502_129002_127902,
   128_115402_117702_120102_119402,
   129_107202_109302_111502_110702,
   130_995103_101502_103502_102802,
   131_922203_940603_959403_948703,
   132_853303_870403_887803_877403,
   133_789603_805303_821503_811103,
   134_728803_743303_758203_740203,
   135_671903_685303_699003_687203,
   136_618503_630903_643503_630103,
   137_568603_579903_591503_579103,
   138_521503_531903_542503_528003,
   139_478103_487703_497403_485503,
   140_437203_445903_454903_445003,
   141_399103_407003_415203_406103,
   142_363403_370603_378103_370903,
   143_330003_336603_343403_332503,
   144_299503_305503_311603_303003,
   145_271203_276603_282103_274503,
   146_245003_249903_254903_248603,
   147_220403_224803_229303_223703,
   148_197703_201703_205703_199203,
   149_176803_180303_183903_177703,
   150_158103_161303_164503_159003,
   151_140803_143803_146803_141003,
   152_124703_127503_130403_124903,
   153_110803_113403_116103_111503,
   154_979704_100403_103003_982804,
   155_862704_885504_909004_870704,
   156_757804_778804_800504_763504,
   157_661504_680804_700604_662604,
   158_570204_587504_605404_563804,
   159_479304_494504_510204_474404,
   160_396704_409804_423304_393804,
   161_327704_339004_350604_332704,
   162_270804_280404_290404_284204,
   163_224004_232304_240804_238504,
   164_185304_192404_199704_192904,
   165_153004_159004_165304_159704,
   166_126304_131404_136804_129604,
   167_103904_108304_112804_109304,
   168_854905_892005_930705_889905,
   169_707805_739405_772505_743405,
   170_585905_612905_641105_605805,
   171_487105_510205_534305_498705,
   172_405005_424605_445305_414005,
   173_336805_353705_371305_345305,
   174_280205_294505_309605_291005,
   175_234005_246305_259205_242405,
   176_195405_205905_217005_187805,
   177_164005_173005_182505_163305,
   178_137605_145405_153605_134005,
   179_114505_121105_128105_111805,
   180_952806_100905_106905_939906,
   181_783306_830506_880606_767906,
   182_644306_684006_726106_619406,
   183_525206_558206_593306_523106,
   184_428306_455806_485006_423706,
   185_345706_368306_392406_332106,
   186_279106_297806_317706_264606,
   187_222106_237306_253406_204906,
   188_176806_189106_202206_165806,
   189_139706_149506_160106_132206,
   190_110306_118306_126806_101306,
   191_864307_927707_995707_802907,
   192_677107_727607_781907_644607,
   193_528107_568207_611307_520407,
   194_411907_443707_478007_400307,
   195_319307_344407_371407_320507,
   196_247507_267307_288607_246807,
   197_190907_206407_223107_187307,
   198_147207_159407_172507_152007,
   199_108707_117807_127607_114807,
   200_802208_870408_944408_858408,
   201_609508_662108_719308_652008,
   202_463208_503708_547808_511108,
   203_352008_383208_417308_371708,
   204_267508_291608_317908_278208,
   205_203308_221908_242208_209808,
   206_154208_168508_184208_148608,
   207_117008_128108_140108_118108,
   208_888409_973109_106608_905009,
   209_674409_739609_811209_674509,
   210_512109_562309_617409_481309,
   211_378409_416009_457309_368509,
   212_279609_307709_338709_257609,
   213_206609_227609_250809_209509,
   214_152609_168409_185809_159509,
   215_112809_124609_137609_130409,
   216_825410_912710_100909_902510,
   217_604010_668710_740310_711110,
   218_442010_489910_543010_557410,
   219_323510_359010_398310_409010,
   220_236710_263010_292210_291910,
   221_173410_192810_214510_205010,
   222_127010_141410_157410_149310,
   223_929811_103710_115610_111210,
   224_681011_760111_848511_803511,
   225_498811_557411_622911_552411,
   226_367511_411111_460011_422111,
   227_270711_303311_339711_313711,
   228_199511_223711_250911_223611,
   229_147011_165111_185311_167111,
   230_108311_121811_136911_130811,
   231_807512_908712_102311_980912,
   232_602112_678312_764212_674712,
   233_449012_506512_571212_490112,
   234_335012_378312_427212_370712,
   235_250012_282612_319512_295512,
   236_190512_215612_244012_238512,
   237_145312_164612_186512_173212,
   238_110912_125812_142712_128912,
   239_847513_962513_109312_965513,
   240_648113_736913_837913_802513,
   241_511713_582513_663013_641513,
   242_404613_461113_525513_536913,
   243_320413_365513_417113_441013,
   244_254013_290213_331413_331813,
   245_201713_230613_263713_252613,
   246_171213_196013_224413_214113,
   247_145513_166713_191113_172613,
   248_123713_141913_162813_138113,
   249_105213_120813_138813_110613,
   250_895414_103013_118413_996114]

/-- atmdata/Venus/LAT80S.txt:11629-11779, columns 0 to 4. -/
def venusProfile78 : List ℕ :=
  [100_635202_647902_660902_646502,
   101_603502_615602_627902_616302,
   102_573002_584502_596202_584702,
   103_543802_554702_565802_555202,
   104_515902_526202_536702_524502,
   105_488902_498702_508702_499002,
   106_463102_472402_481802_473102,
   107_438302_447102_456002_442602,
   108_414302_422602_431102_420302,
   109_391702_399502_407502_399702,
   110_369802_377202_384702_377702,
   111_348802_355802_362902_357102,
   112_328802_335402_342102_335102,
   113_309802_316002_322302_312602,
   114_291602_297402_303302_295202,
   115_274002_279502_285102_276902,
   116_257502_262702_268002_260902,
   117_242002_246802_251702_245302,
   118_227302_231802_236402_230302,
   119_213102_217402_221702_216702,
   120_199902_203902_208002_201002,
   121_187402_191102_194902_188202,
   122_175302_178802_182402_176102,
   123_163802_167102_170402_164002,
   124_153102_156202_159302_152602,
   125_142802_145702_148602_142402,
   126_133202_135902_138602_134402,
   127_124002_126502_129002_124202,
   128_115402_117702_120102_115402,
   129_107202_109302_111502_106202,
   130_995103_101502_103502_989103,
   131_922203_940603_959403_914103,
   132_853303_870403_887803_847003,
   133_789603_805303_821503_790103,
   134_728803_743303_758203_731103,
   135_671903_685303_699003_678503,
   136_618503_630903_643503_627603,
   137_568603_579903_591503_576503,
   138_521503_531903_542503_530303,
   139_478103_487703_497403_491103,
   140_437203_445903_454903_447103,
   141_399103_407003_415203_404803,
   142_363403_370603_378103_370303,
   143_330003_336603_343403_336103,
   144_299503_305503_311603_307603,
   145_271203_276603_282103_275703,
   146_245003_249903_254903_249203,
   147_220403_224803_229303_220803,
   148_197703_201703_205703_197003,
   149_176803_180303_183903_175003,
   150_158103_161303_164503_157203,
   151_140803_143803_146803_140903,
   152_124703_127503_130403_125003,
   153_110803_113403_116103_110403,
   154_979704_100403_103003_990504,
   155_862704_885504_909004_878004,
   156_757804_778804_800504_777904,
   157_661504_680804_700604_679304,
   158_570204_587504_605404_575304,
   159_479304_494504_510204_481104,
   160_396704_409804_423304_402004,
   161_327704_339004_350604_334604,
   162_270804_280404_290404_280804,
   163_224004_232304_240804_232004,
   164_185304_192404_199704_191404,
   165_153004_159004_165304_156504,
   166_126304_131404_136804_126204,
   167_103904_108304_112804_105804,
   168_854905_892005_930705_886405,
   169_707805_739405_772505_737805,
   170_585905_612905_641105_615105,
   171_487105_510205_534305_524205,
   172_405005_424605_445305_448605,
   173_336805_353705_371305_369405,
   174_280205_294505_309605_310105,
   175_234005_246305_259205_263105,
   176_195405_205905_217005_223805,
   177_164005_173005_182505_191705,
   178_137605_145405_153605_155705,
   179_114505_121105_128105_127905,
   180_952806_100905_106905_104105,
   181_783306_830506_880606_888806,
   182_644306_684006_726106_720606,
   183_525206_558206_593306_568606,
   184_428306_455806_485006_452006,
   185_345706_368306_392406_347406,
   186_279106_297806_317706_287806,
   187_222106_237306_253406_238706,
   188_176806_189106_202206_192006,
   189_139706_149506_160106_147306,
   190_110306_118306_126806_110706,
   191_864307_927707_995707_842807,
   192_677107_727607_781907_669407,
   193_528107_568207_611307_518407,
   194_411907_443707_478007_417807,
   195_319307_344407_371407_308007,
   196_247507_267307_288607_241307,
   197_190907_206407_223107_182407,
   198_147207_159407_172507_136007,
   199_108707_117807_127607_107007,
   200_802208_870408_944408_842508,
   201_609508_662108_719308_666508,
   202_463208_503708_547808_522208,
   203_352008_383208_417308_390808,
   204_267508_291608_317908_294508,
   205_203308_221908_242208_216808,
   206_154208_168508_184208_158708,
   207_117008_128108_140108_117408,
   208_888409_973109_106608_878809,
   209_674409_739609_811209_689309,
   210_512109_562309_617409_519609,
   211_378409_416009_457309_405509,
   212_279609_307709_338709_304109,
   213_206609_227609_250809_214609,
   214_152609_168409_185809_158109,
   215_112809_124609_137609_120909,
   216_825410_912710_100909_854010,
   217_604010_668710_740310_601510,
   218_442010_489910_543010_414810,
   219_323510_359010_398310_315510,
   220_236710_263010_292210_229210,
   221_173410_192810_214510_171810,
   222_127010_141410_157410_133110,
   223_929811_103710_115610_937911,
   224_681011_760111_848511_627011,
   225_498811_557411_622911_439211,
   226_367511_411111_460011_317511,
   227_270711_303311_339711_241711,
   228_199511_223711_250911_157211,
   229_147011_165111_185311_114411,
   230_108311_121811_136911_827812,
   231_807512_908712_102311_697312,
   232_602112_678312_764212_561412,
   233_449012_506512_571212_432912,
   234_335012_378312_427212_306412,
   235_250012_282612_319512_243212,
   236_190512_215612_244012_176612,
   237_145312_164612_186512_142512,
   238_110912_125812_142712_992113,
   239_847513_962513_109312_894913,
   240_648113_736913_837913_674413,
   241_511713_582513_663013_582613,
   242_404613_461113_525513_483513,
   243_320413_365513_417113_388413,
   244_254013_290213_331413_314113,
   245_201713_230613_263713_247913,
   246_171213_196013_224413_197713,
   247_145513_166713_191113_192813,
   248_123713_141913_162813_161113,
   249_105213_120813_138813_137713,
   250_895414_103013_118413_120913]

/-- atmdata/Venus/LAT80S.txt:11780-11930, columns 0 to 4. -/
def venusProfile79 : List ℕ :=
  [100_635202_647902_660902_656202,
   101_603502_615602_627902_624802,
   102_573002_584502_596202_591702,
   103_543802_554702_565802_560502,
   104_515902_526202_536702_530402,
   105_488902_498702_508702_501702,
   106_463102_472402_481802_479402,
   107_438302_447102_456002_449402,
   108_414302_422602_431102_421002,
   109_391702_399502_407502_399902,
   110_369802_377202_384702_378702,
   111_348802_355802_362902_357202,
   112_328802_335402_342102_336302,
   113_309802_316002_322302_316402,
   114_291602_297402_303302_300302,
   115_274002_279502_285102_284002,
   116_257502_262702_268002_267502,
   117_242002_246802_251702_249902,
   118_227302_231802_236402_236202,
   119_213102_217402_221702_218302,
   120_199902_203902_208002_205402,
   121_187402_191102_194902_192302,
   122_175302_178802_182402_178402,
   123_163802_167102_170402_165502,
   124_153102_156202_159302_156002,
   125_142802_145702_148602_145802,
   126_133202_135902_138602_136102,
   127_124002_126502_129002_126002,
   128_115402_117702_120102_118602,
   129_107202_109302_111502_110302,
   130_995103_101502_103502_102802,
   131_922203_940603_959403_947903,
   132_853303_870403_887803_877103,
   133_789603_805303_821503_808403,
   134_728803_743303_758203_742103,
   135_671903_685303_699003_687603,
   136_618503_630903_643503_630303,
   137_568603_579903_591503_578403,
   138_521503_531903_542503_527403,
   139_478103_487703_497403_481503,
   140_437203_445903_454903_444003,
   141_399103_407003_415203_406903,
   142_363403_370603_378103_372603,
   143_330003_336603_343403_340903,
   144_299503_305503_311603_306503,
   145_271203_276603_282103_278203,
   146_245003_249903_254903_251003,
   147_220403_224803_229303_225703,
   148_197703_201703_205703_201403,
   149_176803_180303_183903_181903,
   150_158103_161303_164503_163403,
   151_140803_143803_146803_145003,
   152_124703_127503_130403_128803,
   153_110803_113403_116103_115203,
   154_979704_100403_103003_102103,
   155_862704_885504_909004_904604,
   156_757804_778804_800504_786704,
   157_661504_680804_700604_691304,
   158_570204_587504_605404_575304,
   159_479304_494504_510204_477404,
   160_396704_409804_423304_403404,
   161_327704_339004_350604_332704,
   162_270804_280404_290404_277304,
   163_224004_232304_240804_224404,
   164_185304_192404_199704_187904,
   165_153004_159004_165304_159704,
   166_126304_131404_136804_137704,
   167_103904_108304_112804_114004,
   168_854905_892005_930705_929005,
   169_707805_739405_772505_768105,
   170_585905_612905_641105_613805,
   171_487105_510205_534305_510905,
   172_405005_424605_445305_424105,
   173_336805_353705_371305_347605,
   174_280205_294505_309605_293505,
   175_234005_246305_259205_240905,
   176_195405_205905_217005_204005,
   177_164005_173005_182505_176505,
   178_137605_145405_153605_143605,
   179_114505_121105_128105_118105,
   180_952806_100905_106905_101305,
   181_783306_830506_880606_838406,
   182_644306_684006_726106_690306,
   183_525206_558206_593306_559906,
   184_428306_455806_485006_434306,
   185_345706_368306_392406_369306,
   186_279106_297806_317706_294306,
   187_222106_237306_253406_238506,
   188_176806_189106_202206_193306,
   189_139706_149506_160106_157206,
   190_110306_118306_126806_131306,
   191_864307_927707_995707_104606,
   192_677107_727607_781907_812207,
   193_528107_568207_611307_651107,
   194_411907_443707_478007_494707,
   195_319307_344407_371407_376307,
   196_247507_267307_288607_293707,
   197_190907_206407_223107_217907,
   198_147207_159407_172507_165207,
   199_108707_117807_127607_116607,
   200_802208_870408_944408_844608,
   201_609508_662108_719308_628008,
   202_463208_503708_547808_494408,
   203_352008_383208_417308_380308,
   204_267508_291608_317908_290308,
   205_203308_221908_242208_203508,
   206_154208_168508_184208_152108,
   207_117008_128108_140108_117908,
   208_888409_973109_106608_848409,
   209_674409_739609_811209_624809,
   210_512109_562309_617409_491909,
   211_378409_416009_457309_345009,
   212_279609_307709_338709_247909,
   213_206609_227609_250809_181809,
   214_152609_168409_185809_130109,
   215_112809_124609_137609_986410,
   216_825410_912710_100909_713710,
   217_604010_668710_740310_525510,
   218_442010_489910_543010_375610,
   219_323510_359010_398310_291910,
   220_236710_263010_292210_212910,
   221_173410_192810_214510_172210,
   222_127010_141410_157410_121710,
   223_929811_103710_115610_925411,
   224_681011_760111_848511_696111,
   225_498811_557411_622911_487411,
   226_367511_411111_460011_373211,
   227_270711_303311_339711_278011,
   228_199511_223711_250911_213611,
   229_147011_165111_185311_166111,
   230_108311_121811_136911_122711,
   231_807512_908712_102311_879312,
   232_602112_678312_764212_660312,
   233_449012_506512_571212_530112,
   234_335012_378312_427212_403112,
   235_250012_282612_319512_304612,
   236_190512_215612_244012_228112,
   237_145312_164612_186512_167012,
   238_110912_125812_142712_132012,
   239_847513_962513_109312_102212,
   240_648113_736913_837913_808213,
   241_511713_582513_663013_608913,
   242_404613_461113_525513_494413,
   243_320413_365513_417113_384913,
   244_254013_290213_331413_282213,
   245_201713_230613_263713_232113,
   246_171213_196013_224413_207113,
   247_145513_166713_191113_183013,
   248_123713_141913_162813_160513,
   249_105213_120813_138813_123513,
   250_895414_103013_118413_109313]

/-- atmdata/Venus/LAT80S.txt:11931-12081, columns 0 to 4. -/
def venusProfile80 : List ℕ :=
  [100_635202_647902_660902_622302,
   101_603502_615602_627902_593202,
   102_573002_584502_596202_561602,
   103_543802_554702_565802_531602,
   104_515902_526202_536702_504802,
   105_488902_498702_508702_483202,
   106_463102_472402_481802_457302,
   107_438302_447102_456002_429902,
   108_414302_422602_431102_405602,
   109_391702_399502_407502_385502,
   110_369802_377202_384702_366602,
   111_348802_355802_362902_345402,
   112_328802_335402_342102_326602,
   113_309802_316002_322302_309102,
   114_291602_297402_303302_289702,
   115_274002_279502_285102_272302,
   116_257502_262702_268002_257102,
   117_242002_246802_251702_243102,
   118_227302_231802_236402_227902,
   119_213102_217402_221702_213202,
   120_199902_203902_208002_199902,
   121_187402_191102_194902_187502,
   122_175302_178802_182402_176002,
   123_163802_167102_170402_166002,
   124_153102_156202_159302_155602,
   125_142802_145702_148602_145902,
   126_133202_135902_138602_135202,
   127_124002_126502_129002_125402,
   128_115402_117702_120102_116902,
   129_107202_109302_111502_108102,
   130_995103_101502_103502_101102,
   131_922203_940603_959403_932603,
   132_853303_870403_887803_863703,
   133_789603_805303_821503_801803,
   134_728803_743303_758203_743303,
   135_671903_685303_699003_688203,
   136_618503_630903_643503_636003,
   137_568603_579903_591503_582903,
   138_521503_531903_542503_535903,
   139_478103_487703_497403_491203,
   140_437203_445903_454903_449203,
   141_399103_407003_415203_408803,
   142_363403_370603_378103_375003,
   143_330003_336603_343403_339303,
   144_299503_305503_311603_306603,
   145_271203_276603_282103_276203,
   146_245003_249903_254903_248903,
   147_220403_224803_229303_227303,
   148_197703_201703_205703_202903,
   149_176803_180303_183903_182103,
   150_158103_161303_164503_164303,
   151_140803_143803_146803_147303,
   152_124703_127503_130403_131103,
   153_110803_113403_116103_116003,
   154_979704_100403_103003_101703,
   155_862704_885504_909004_902704,
   156_757804_778804_800504_794204,
   157_661504_680804_700604_704604,
   158_570204_587504_605404_618804,
   159_479304_494504_510204_529504,
   160_396704_409804_423304_431704,
   161_327704_339004_350604_350904,
   162_270804_280404_290404_290104,
   163_224004_232304_240804_241304,
   164_185304_192404_199704_194204,
   165_153004_159004_165304_161504,
   166_126304_131404_136804_136504,
   167_103904_108304_112804_112604,
   168_854905_892005_930705_943005,
   169_707805_739405_772505_776105,
   170_585905_612905_641105_640105,
   171_487105_510205_534305_518905,
   172_405005_424605_445305_447605,
   173_336805_353705_371305_360705,
   174_280205_294505_309605_304205,
   175_234005_246305_259205_254805,
   176_195405_205905_217005_213005,
   177_164005_173005_182505_183805,
   178_137605_145405_153605_148905,
   179_114505_121105_128105_121505,
   180_952806_100905_106905_101405,
   181_783306_830506_880606_818806,
   182_644306_684006_726106_683106,
   183_525206_558206_593306_565806,
   184_428306_455806_485006_476306,
   185_345706_368306_392406_396206,
   186_279106_297806_317706_327006,
   187_222106_237306_253406_259106,
   188_176806_189106_202206_210206,
   189_139706_149506_160106_165406,
   190_110306_118306_126806_135006,
   191_864307_927707_995707_104606,
   192_677107_727607_781907_807607,
   193_528107_568207_611307_623407,
   194_411907_443707_478007_495207,
   195_319307_344407_371407_385507,
   196_247507_267307_288607_304807,
   197_190907_206407_223107_224307,
   198_147207_159407_172507_173007,
   199_108707_117807_127607_124907,
   200_802208_870408_944408_926708,
   201_609508_662108_719308_708908,
   202_463208_503708_547808_552608,
   203_352008_383208_417308_432508,
   204_267508_291608_317908_330208,
   205_203308_221908_242208_257308,
   206_154208_168508_184208_191508,
   207_117008_128108_140108_132708,
   208_888409_973109_106608_104508,
   209_674409_739609_811209_798109,
   210_512109_562309_617409_654409,
   211_378409_416009_457309_467709,
   212_279609_307709_338709_350109,
   213_206609_227609_250809_254709,
   214_152609_168409_185809_194809,
   215_112809_124609_137609_138909,
   216_825410_912710_100909_989410,
   217_604010_668710_740310_725410,
   218_442010_489910_543010_515810,
   219_323510_359010_398310_390510,
   220_236710_263010_292210_277810,
   221_173410_192810_214510_198010,
   222_127010_141410_157410_145110,
   223_929811_103710_115610_101710,
   224_681011_760111_848511_720811,
   225_498811_557411_622911_505711,
   226_367511_411111_460011_357611,
   227_270711_303311_339711_266311,
   228_199511_223711_250911_198611,
   229_147011_165111_185311_147411,
   230_108311_121811_136911_115411,
   231_807512_908712_102311_866912,
   232_602112_678312_764212_628012,
   233_449012_506512_571212_453912,
   234_335012_378312_427212_327112,
   235_250012_282612_319512_247612,
   236_190512_215612_244012_196012,
   237_145312_164612_186512_156912,
   238_110912_125812_142712_119312,
   239_847513_962513_109312_882513,
   240_648113_736913_837913_644713,
   241_511713_582513_663013_518513,
   242_404613_461113_525513_421213,
   243_320413_365513_417113_321113,
   244_254013_290213_331413_259013,
   245_201713_230613_263713_226713,
   246_171213_196013_224413_191013,
   247_145513_166713_191113_163913,
   248_123713_141913_162813_126413,
   249_105213_120813_138813_109213,
   250_895414_103013_118413_972914]

/-- atmdata/Venus/LAT80S.txt:12082-12232, columns 0 to 4. -/
def venusProfile81 : List ℕ :=
  [100_635202_647902_660902_641402,
   101_603502_615602_627902_610502,
   102_573002_584502_596202_575902,
   103_543802_554702_565802_542702,
   104_515902_526202_536702_515902,
   105_488902_498702_508702_489502,
   106_463102_472402_481802_465602,
   107_438302_447102_456002_437902,
   108_414302_422602_431102_414302,
   109_391702_399502_407502_393102,
   110_369802_377202_384702_367602,
   111_348802_355802_362902_345202,
   112_328802_335402_342102_327802,
   113_309802_316002_322302_307102,
   114_291602_297402_303302_289002,
   115_274002_279502_285102_275002,
   116_257502_262702_268002_259702,
   117_242002_246802_251702_244102,
   118_227302_231802_236402_230302,
   119_213102_217402_221702_216202,
   120_199902_203902_208002_201602,
   121_187402_191102_194902_189202,
   122_175302_178802_182402_176502,
   123_163802_167102_170402_165702,
   124_153102_156202_159302_154802,
   125_142802_145702_148602_142902,
   126_133202_135902_138602_133802,
   127_124002_126502_129002_124402,
   128_115402_117702_120102_115202,
   129_107202_109302_111502_107702,
   130_995103_101502_103502_101202,
   131_922203_940603_959403_934003,
   132_853303_870403_887803_865103,
   133_789603_805303_821503_794403,
   134_728803_743303_758203_731903,
   135_671903_685303_699003_677703,
   136_618503_630903_643503_621503,
   137_568603_579903_591503_569803,
   138_521503_531903_542503_519803,
   139_478103_487703_497403_479603,
   140_437203_445903_454903_436203,
   141_399103_407003_415203_403203,
   142_363403_370603_378103_371103,
   143_330003_336603_343403_338503,
   144_299503_305503_311603_307003,
   145_271203_276603_282103_279403,
   146_245003_249903_254903_251303,
   147_220403_224803_229303_225803,
   148_197703_201703_205703_201903,
   149_176803_180303_183903_180603,
   150_158103_161303_164503_159803,
   151_140803_143803_146803_141803,
   152_124703_127503_130403_126503,
   153_110803_113403_116103_113503,
   154_979704_100403_103003_101203,
   155_862704_885504_909004_898804,
   156_757804_778804_800504_801604,
   157_661504_680804_700604_692504,
   158_570204_587504_605404_606304,
   159_479304_494504_510204_514404,
   160_396704_409804_423304_423504,
   161_327704_339004_350604_354704,
   162_270804_280404_290404_291504,
   163_224004_232304_240804_238904,
   164_185304_192404_199704_196504,
   165_153004_159004_165304_161304,
   166_126304_131404_136804_135504,
   167_103904_108304_112804_111204,
   168_854905_892005_930705_910205,
   169_707805_739405_772505_747905,
   170_585905_612905_641105_634005,
   171_487105_510205_534305_532805,
   172_405005_424605_445305_441805,
   173_336805_353705_371305_378605,
   174_280205_294505_309605_318405,
   175_234005_246305_259205_274705,
   176_195405_205905_217005_226505,
   177_164005_173005_182505_194605,
   178_137605_145405_153605_157005,
   179_114505_121105_128105_126905,
   180_952806_100905_106905_103205,
   181_783306_830506_880606_871306,
   182_644306_684006_726106_734306,
   183_525206_558206_593306_553706,
   184_428306_455806_485006_460106,
   185_345706_368306_392406_380906,
   186_279106_297806_317706_304606,
   187_222106_237306_253406_239206,
   188_176806_189106_202206_198006,
   189_139706_149506_160106_152706,
   190_110306_118306_126806_124606,
   191_864307_927707_995707_940807,
   192_677107_727607_781907_727507,
   193_528107_568207_611307_531107,
   194_411907_443707_478007_410207,
   195_319307_344407_371407_337907,
   196_247507_267307_288607_279907,
   197_190907_206407_223107_204707,
   198_147207_159407_172507_162607,
   199_108707_117807_127607_120107,
   200_802208_870408_944408_931608,
   201_609508_662108_719308_641708,
   202_463208_503708_547808_504708,
   203_352008_383208_417308_366708,
   204_267508_291608_317908_287408,
   205_203308_221908_242208_222208,
   206_154208_168508_184208_169108,
   207_117008_128108_140108_127408,
   208_888409_973109_106608_980609,
   209_674409_739609_811209_699009,
   210_512109_562309_617409_522709,
   211_378409_416009_457309_387909,
   212_279609_307709_338709_281009,
   213_206609_227609_250809_211509,
   214_152609_168409_185809_159009,
   215_112809_124609_137609_106909,
   216_825410_912710_100909_783710,
   217_604010_668710_740310_602910,
   218_442010_489910_543010_441110,
   219_323510_359010_398310_342910,
   220_236710_263010_292210_245910,
   221_173410_192810_214510_184910,
   222_127010_141410_157410_142810,
   223_929811_103710_115610_107010,
   224_681011_760111_848511_816711,
   225_498811_557411_622911_568811,
   226_367511_411111_460011_425311,
   227_270711_303311_339711_310611,
   228_199511_223711_250911_220511,
   229_147011_165111_185311_152411,
   230_108311_121811_136911_107211,
   231_807512_908712_102311_850412,
   232_602112_678312_764212_707212,
   233_449012_506512_571212_529112,
   234_335012_378312_427212_407412,
   235_250012_282612_319512_297212,
   236_190512_215612_244012_244312,
   237_145312_164612_186512_179312,
   238_110912_125812_142712_127812,
   239_847513_962513_109312_103712,
   240_648113_736913_837913_798113,
   241_511713_582513_663013_659813,
   242_404613_461113_525513_517613,
   243_320413_365513_417113_348513,
   244_254013_290213_331413_306613,
   245_201713_230613_263713_228513,
   246_171213_196013_224413_177613,
   247_145513_166713_191113_148313,
   248_123713_141913_162813_124413,
   249_105213_120813_138813_121613,
   250_895414_103013_118413_107013]

/-- atmdata/Venus/LAT80S.txt:12233-12383, columns 0 to 4. -/
def venusProfile82 : List ℕ :=
  [100_635202_647902_660902_650802,
   101_603502_615602_627902_618702,
   102_573002_584502_596202_592902,
   103_543802_554702_565802_566002,
   104_515902_526202_536702_538202,
   105_488902_498702_508702_507002,
   106_463102_472402_481802_477602,
   107_438302_447102_456002_449102,
   108_414302_422602_431102_425902,
   109_391702_399502_407502_403502,
   110_369802_377202_384702_379002,
   111_348802_355802_362902_361502,
   112_328802_335402_342102_338502,
   113_309802_316002_322302_318702,
   114_291602_297402_303302_300502,
   115_274002_279502_285102_282402,
   116_257502_262702_268002_266602,
   117_242002_246802_251702_249102,
   118_227302_231802_236402_232902,
   119_213102_217402_221702_219502,
   120_199902_203902_208002_207002,
   121_187402_191102_194902_194202,
   122_175302_178802_182402_182702,
   123_163802_167102_170402_170902,
   124_153102_156202_159302_158702,
   125_142802_145702_148602_147302,
   126_133202_135902_138602_136802,
   127_124002_126502_129002_127202,
   128_115402_117702_120102_118902,
   129_107202_109302_111502_110202,
   130_995103_101502_103502_101602,
   131_922203_940603_959403_936503,
   132_853303_870403_887803_867503,
   133_789603_805303_821503_802803,
   134_728803_743303_758203_747303,
   135_671903_685303_699003_690803,
   136_618503_630903_643503_638103,
   137_568603_579903_591503_583703,
   138_521503_531903_542503_536503,
   139_478103_487703_497403_487303,
   140_437203_445903_454903_447903,
   141_399103_407003_415203_409303,
   142_363403_370603_378103_367303,
   143_330003_336603_343403_331703,
   144_299503_305503_311603_302203,
   145_271203_276603_282103_273203,
   146_245003_249903_254903_245503,
   147_220403_224803_229303_223703,
   148_197703_201703_205703_200303,
   149_176803_180303_183903_178603,
   150_158103_161303_164503_158903,
   151_140803_143803_146803_142503,
   152_124703_127503_130403_127503,
   153_110803_113403_116103_113203,
   154_979704_100403_103003_999304,
   155_862704_885504_909004_888404,
   156_757804_778804_800504_777304,
   157_661504_680804_700604_677404,
   158_570204_587504_605404_591904,
   159_479304_494504_510204_499904,
   160_396704_409804_423304_414904,
   161_327704_339004_350604_344004,
   162_270804_280404_290404_281404,
   163_224004_232304_240804_237304,
   164_185304_192404_199704_197804,
   165_153004_159004_165304_159304,
   166_126304_131404_136804_133304,
   167_103904_108304_112804_109004,
   168_854905_892005_930705_920905,
   169_707805_739405_772505_753105,
   170_585905_612905_641105_617505,
   171_487105_510205_534305_509705,
   172_405005_424605_445305_398305,
   173_336805_353705_371305_339305,
   174_280205_294505_309605_288205,
   175_234005_246305_259205_239405,
   176_195405_205905_217005_197205,
   177_164005_173005_182505_171705,
   178_137605_145405_153605_139105,
   179_114505_121105_128105_112305,
   180_952806_100905_106905_967206,
   181_783306_830506_880606_798706,
   182_644306_684006_726106_629106,
   183_525206_558206_593306_509306,
   184_428306_455806_485006_421706,
   185_345706_368306_392406_349406,
   186_279106_297806_317706_294906,
   187_222106_237306_253406_228006,
   188_176806_189106_202206_167106,
   189_139706_149506_160106_139506,
   190_110306_118306_126806_113906,
   191_864307_927707_995707_918607,
   192_677107_727607_781907_707707,
   193_528107_568207_611307_557307,
   194_411907_443707_478007_448507,
   195_319307_344407_371407_340307,
   196_247507_267307_288607_255007,
   197_190907_206407_223107_184007,
   198_147207_159407_172507_132507,
   199_108707_117807_127607_101707,
   200_802208_870408_944408_742408,
   201_609508_662108_719308_566408,
   202_463208_503708_547808_452508,
   203_352008_383208_417308_342208,
   204_267508_291608_317908_274908,
   205_203308_221908_242208_209808,
   206_154208_168508_184208_162408,
   207_117008_128108_140108_128108,
   208_888409_973109_106608_964109,
   209_674409_739609_811209_733309,
   210_512109_562309_617409_564109,
   211_378409_416009_457309_424709,
   212_279609_307709_338709_325109,
   213_206609_227609_250809_245909,
   214_152609_168409_185809_177209,
   215_112809_124609_137609_134609,
   216_825410_912710_100909_975810,
   217_604010_668710_740310_773410,
   218_442010_489910_543010_561410,
   219_323510_359010_398310_431410,
   220_236710_263010_292210_304010,
   221_173410_192810_214510_202510,
   222_127010_141410_157410_142210,
   223_929811_103710_115610_999511,
   224_681011_760111_848511_728311,
   225_498811_557411_622911_513911,
   226_367511_411111_460011_356611,
   227_270711_303311_339711_263311,
   228_199511_223711_250911_216511,
   229_147011_165111_185311_164311,
   230_108311_121811_136911_120811,
   231_807512_908712_102311_855212,
   232_602112_678312_764212_659312,
   233_449012_506512_571212_521012,
   234_335012_378312_427212_376712,
   235_250012_282612_319512_271712,
   236_190512_215612_244012_199112,
   237_145312_164612_186512_160012,
   238_110912_125812_142712_128812,
   239_847513_962513_109312_981713,
   240_648113_736913_837913_857513,
   241_511713_582513_663013_631413,
   242_404613_461113_525513_490513,
   243_320413_365513_417113_405113,
   244_254013_290213_331413_314013,
   245_201713_230613_263713_243413,
   246_171213_196013_224413_211713,
   247_145513_166713_191113_165913,
   248_123713_141913_162813_144213,
   249_105213_120813_138813_121613,
   250_895414_103013_118413_106513]

/-- atmdata/Venus/LAT80S.txt:12384-12534, columns 0 to 4. -/
def venusProfile83 : List ℕ :=
  [100_635202_647902_660902_662602,
   101_603502_615602_627902_629302,
   102_573002_584502_596202_600102,
   103_543802_554702_565802_570902,
   104_515902_526202_536702_543902,
   105_488902_498702_508702_516502,
   106_463102_472402_481802_489102,
   107_438302_447102_456002_459902,
   108_414302_422602_431102_438902,
   109_391702_399502_407502_415102,
   110_369802_377202_384702_390502,
   111_348802_355802_362902_369602,
   112_328802_335402_342102_347302,
   113_309802_316002_322302_328402,
   114_291602_297402_303302_310702,
   115_274002_279502_285102_289302,
   116_257502_262702_268002_273102,
   117_242002_246802_251702_257502,
   118_227302_231802_236402_242002,
   119_213102_217402_221702_225102,
   120_199902_203902_208002_211002,
   121_187402_191102_194902_198002,
   122_175302_178802_182402_184902,
   123_163802_167102_170402_172502,
   124_153102_156202_159302_162202,
   125_142802_145702_148602_150902,
   126_133202_135902_138602_141202,
   127_124002_126502_129002_131302,
   128_115402_117702_120102_121902,
   129_107202_109302_111502_110802,
   130_995103_101502_103502_102302,
   131_922203_940603_959403_942803,
   132_853303_870403_887803_873203,
   133_789603_805303_821503_814303,
   134_728803_743303_758203_751203,
   135_671903_685303_699003_693803,
   136_618503_630903_643503_635403,
   137_568603_579903_591503_580703,
   138_521503_531903_542503_529303,
   139_478103_487703_497403_484303,
   140_437203_445903_454903_442503,
   141_399103_407003_415203_402003,
   142_363403_370603_378103_363003,
   143_330003_336603_343403_330603,
   144_299503_305503_311603_302503,
   145_271203_276603_282103_277003,
   146_245003_249903_254903_248203,
   147_220403_224803_229303_223103,
   148_197703_201703_205703_200003,
   149_176803_180303_183903_177403,
   150_158103_161303_164503_158403,
   151_140803_143803_146803_140603,
   152_124703_127503_130403_126403,
   153_110803_113403_116103_114103,
   154_979704_100403_103003_103903,
   155_862704_885504_909004_923204,
   156_757804_778804_800504_815204,
   157_661504_680804_700604_713804,
   158_570204_587504_605404_621104,
   159_479304_494504_510204_520904,
   160_396704_409804_423304_434804,
   161_327704_339004_350604_356504,
   162_270804_280404_290404_288504,
   163_224004_232304_240804_238604,
   164_185304_192404_199704_189404,
   165_153004_159004_165304_158604,
   166_126304_131404_136804_132304,
   167_103904_108304_112804_107704,
   168_854905_892005_930705_885205,
   169_707805_739405_772505_722405,
   170_585905_612905_641105_607005,
   171_487105_510205_534305_523405,
   172_405005_424605_445305_435305,
   173_336805_353705_371305_365105,
   174_280205_294505_309605_308805,
   175_234005_246305_259205_260805,
   176_195405_205905_217005_210205,
   177_164005_173005_182505_182405,
   178_137605_145405_153605_146605,
   179_114505_121105_128105_115805,
   180_952806_100905_106905_970006,
   181_783306_830506_880606_778906,
   182_644306_684006_726106_631106,
   183_525206_558206_593306_521406,
   184_428306_455806_485006_426706,
   185_345706_368306_392406_351106,
   186_279106_297806_317706_284106,
   187_222106_237306_253406_237306,
   188_176806_189106_202206_182306,
   189_139706_149506_160106_145806,
   190_110306_118306_126806_117806,
   191_864307_927707_995707_921807,
   192_677107_727607_781907_704907,
   193_528107_568207_611307_533807,
   194_411907_443707_478007_413107,
   195_319307_344407_371407_323807,
   196_247507_267307_288607_248007,
   197_190907_206407_223107_205507,
   198_147207_159407_172507_155107,
   199_108707_117807_127607_120507,
   200_802208_870408_944408_895808,
   201_609508_662108_719308_697908,
   202_463208_503708_547808_546108,
   203_352008_383208_417308_416208,
   204_267508_291608_317908_341508,
   205_203308_221908_242208_252308,
   206_154208_168508_184208_194608,
   207_117008_128108_140108_142308,
   208_888409_973109_106608_103608,
   209_674409_739609_811209_832309,
   210_512109_562309_617409_660609,
   211_378409_416009_457309_501809,
   212_279609_307709_338709_361009,
   213_206609_227609_250809_276609,
   214_152609_168409_185809_188309,
   215_112809_124609_137609_138409,
   216_825410_912710_100909_100909,
   217_604010_668710_740310_705910,
   218_442010_489910_543010_522710,
   219_323510_359010_398310_420410,
   220_236710_263010_292210_296010,
   221_173410_192810_214510_212410,
   222_127010_141410_157410_155310,
   223_929811_103710_115610_115410,
   224_681011_760111_848511_759911,
   225_498811_557411_622911_536511,
   226_367511_411111_460011_399511,
   227_270711_303311_339711_291011,
   228_199511_223711_250911_221211,
   229_147011_165111_185311_160011,
   230_108311_121811_136911_122811,
   231_807512_908712_102311_909912,
   232_602112_678312_764212_673412,
   233_449012_506512_571212_479712,
   234_335012_378312_427212_377512,
   235_250012_282612_319512_265212,
   236_190512_215612_244012_202612,
   237_145312_164612_186512_151612,
   238_110912_125812_142712_117012,
   239_847513_962513_109312_841513,
   240_648113_736913_837913_643413,
   241_511713_582513_663013_510013,
   242_404613_461113_525513_397513,
   243_320413_365513_417113_324013,
   244_254013_290213_331413_274413,
   245_201713_230613_263713_222113,
   246_171213_196013_224413_184313,
   247_145513_166713_191113_168513,
   248_123713_141913_162813_156413,
   249_105213_120813_138813_142213,
   250_895414_103013_118413_122213]

/-- atmdata/Venus/LAT80S.txt:12535-12685, columns 0 to 4. -/
def venusProfile84 : List ℕ :=
  [100_635202_647902_660902_635102,
   101_603502_615602_627902_603502,
   102_573002_584502_596202_575202,
   103_543802_554702_565802_546702,
   104_515902_526202_536702_525502,
   105_488902_498702_508702_496902,
   106_463102_472402_481802_475002,
   107_438302_447102_456002_447202,
   108_414302_422602_431102_421102,
   109_391702_399502_407502_398602,
   110_369802_377202_384702_376302,
   111_348802_355802_362902_355602,
   112_328802_335402_342102_335602,
   113_309802_316002_322302_314702,
   114_291602_297402_303302_294602,
   115_274002_279502_285102_277302,
   116_257502_262702_268002_262502,
   117_242002_246802_251702_246702,
   118_227302_231802_236402_230002,
   119_213102_217402_221702_215402,
   120_199902_203902_208002_201502,
   121_187402_191102_194902_189502,
   122_175302_178802_182402_175902,
   123_163802_167102_170402_164102,
   124_153102_156202_159302_153802,
   125_142802_145702_148602_143802,
   126_133202_135902_138602_134002,
   127_124002_126502_129002_125102,
   128_115402_117702_120102_115002,
   129_107202_109302_111502_107102,
   130_995103_101502_103502_992603,
   131_922203_940603_959403_915603,
   132_853303_870403_887803_849303,
   133_789603_805303_821503_784503,
   134_728803_743303_758203_718503,
   135_671903_685303_699003_664603,
   136_618503_630903_643503_615003,
   137_568603_579903_591503_562303,
   138_521503_531903_542503_517803,
   139_478103_487703_497403_476503,
   140_437203_445903_454903_431903,
   141_399103_407003_415203_397303,
   142_363403_370603_378103_359803,
   143_330003_336603_343403_323203,
   144_299503_305503_311603_291003,
   145_271203_276603_282103_264303,
   146_245003_249903_254903_235703,
   147_220403_224803_229303_215003,
   148_197703_201703_205703_193403,
   149_176803_180303_183903_175003,
   150_158103_161303_164503_156803,
   151_140803_143803_146803_140603,
   152_124703_127503_130403_122903,
   153_110803_113403_116103_109403,
   154_979704_100403_103003_972204,
   155_862704_885504_909004_866804,
   156_757804_778804_800504_752004,
   157_661504_680804_700604_665404,
   158_570204_587504_605404_579504,
   159_479304_494504_510204_484704,
   160_396704_409804_423304_414004,
   161_327704_339004_350604_335004,
   162_270804_280404_290404_282904,
   163_224004_232304_240804_230204,
   164_185304_192404_199704_189404,
   165_153004_159004_165304_156604,
   166_126304_131404_136804_130304,
   167_103904_108304_112804_105404,
   168_854905_892005_930705_901605,
   169_707805_739405_772505_730205,
   170_585905_612905_641105_594405,
   171_487105_510205_534305_497705,
   172_405005_424605_445305_399905,
   173_336805_353705_371305_334905,
   174_280205_294505_309605_285705,
   175_234005_246305_259205_233405,
   176_195405_205905_217005_202005,
   177_164005_173005_182505_176305,
   178_137605_145405_153605_141405,
   179_114505_121105_128105_122605,
   180_952806_100905_106905_998906,
   181_783306_830506_880606_838606,
   182_644306_684006_726106_684806,
   183_525206_558206_593306_576306,
   184_428306_455806_485006_463206,
   185_345706_368306_392406_376706,
   186_279106_297806_317706_279706,
   187_222106_237306_253406_228306,
   188_176806_189106_202206_177906,
   189_139706_149506_160106_139206,
   190_110306_118306_126806_112406,
   191_864307_927707_995707_855207,
   192_677107_727607_781907_650407,
   193_528107_568207_611307_522207,
   194_411907_443707_478007_424307,
   195_319307_344407_371407_341607,
   196_247507_267307_288607_264207,
   197_190907_206407_223107_214507,
   198_147207_159407_172507_164707,
   199_108707_117807_127607_116607,
   200_802208_870408_944408_904308,
   201_609508_662108_719308_661208,
   202_463208_503708_547808_520808,
   203_352008_383208_417308_409508,
   204_267508_291608_317908_296008,
   205_203308_221908_242208_215708,
   206_154208_168508_184208_171908,
   207_117008_128108_140108_132108,
   208_888409_973109_106608_106908,
   209_674409_739609_811209_798009,
   210_512109_562309_617409_586209,
   211_378409_416009_457309_405809,
   212_279609_307709_338709_317309,
   213_206609_227609_250809_219609,
   214_152609_168409_185809_167709,
   215_112809_124609_137609_121209,
   216_825410_912710_100909_899310,
   217_604010_668710_740310_652210,
   218_442010_489910_543010_492710,
   219_323510_359010_398310_336310,
   220_236710_263010_292210_239910,
   221_173410_192810_214510_182910,
   222_127010_141410_157410_142410,
   223_929811_103710_115610_100110,
   224_681011_760111_848511_746511,
   225_498811_557411_622911_528911,
   226_367511_411111_460011_353211,
   227_270711_303311_339711_258611,
   228_199511_223711_250911_192411,
   229_147011_165111_185311_156511,
   230_108311_121811_136911_108411,
   231_807512_908712_102311_848512,
   232_602112_678312_764212_604612,
   233_449012_506512_571212_455212,
   234_335012_378312_427212_337212,
   235_250012_282612_319512_284212,
   236_190512_215612_244012_224312,
   237_145312_164612_186512_179612,
   238_110912_125812_142712_130512,
   239_847513_962513_109312_103112,
   240_648113_736913_837913_823813,
   241_511713_582513_663013_666513,
   242_404613_461113_525513_501313,
   243_320413_365513_417113_388213,
   244_254013_290213_331413_295213,
   245_201713_230613_263713_246613,
   246_171213_196013_224413_227813,
   247_145513_166713_191113_195613,
   248_123713_141913_162813_157613,
   249_105213_120813_138813_130513,
   250_895414_103013_118413_112713]

/-- atmdata/Venus/LAT80S.txt:12686-12836, columns 0 to 4. -/
def venusProfile85 : List ℕ :=
  [100_635202_647902_660902_646002,
   101_603502_615602_627902_613202,
   102_573002_584502_596202_583102,
   103_543802_554702_565802_552902,
   104_515902_526202_536702_521602,
   105_488902_498702_508702_497702,
   106_463102_472402_481802_470702,
   107_438302_447102_456002_443602,
   108_414302_422602_431102_419102,
   109_391702_399502_407502_396602,
   110_369802_377202_384702_375202,
   111_348802_355802_362902_353802,
   112_328802_335402_342102_335102,
   113_309802_316002_322302_315902,
   114_291602_297402_303302_296902,
   115_274002_279502_285102_277502,
   116_257502_262702_268002_263102,
   117_242002_246802_251702_245902,
   118_227302_231802_236402_231102,
   119_213102_217402_221702_217202,
   120_199902_203902_208002_206502,
   121_187402_191102_194902_194202,
   122_175302_178802_182402_182002,
   123_163802_167102_170402_169002,
   124_153102_156202_159302_157702,
   125_142802_145702_148602_147802,
   126_133202_135902_138602_139102,
   127_124002_126502_129002_129802,
   128_115402_117702_120102_120902,
   129_107202_109302_111502_111502,
   130_995103_101502_103502_103402,
   131_922203_940603_959403_951803,
   132_853303_870403_887803_881503,
   133_789603_805303_821503_818103,
   134_728803_743303_758203_756203,
   135_671903_685303_699003_697403,
   136_618503_630903_643503_638403,
   137_568603_579903_591503_581703,
   138_521503_531903_542503_530103,
   139_478103_487703_497403_490603,
   140_437203_445903_454903_449903,
   141_399103_407003_415203_410103,
   142_363403_370603_378103_371403,
   143_330003_336603_343403_337003,
   144_299503_305503_311603_304503,
   145_271203_276603_282103_273503,
   146_245003_249903_254903_249703,
   147_220403_224803_229303_224303,
   148_197703_201703_205703_201303,
   149_176803_180303_183903_180703,
   150_158103_161303_164503_162003,
   151_140803_143803_146803_143803,
   152_124703_127503_130403_126403,
   153_110803_113403_116103_111003,
   154_979704_100403_103003_976504,
   155_862704_885504_909004_871604,
   156_757804_778804_800504_766304,
   157_661504_680804_700604_659804,
   158_570204_587504_605404_573804,
   159_479304_494504_510204_476604,
   160_396704_409804_423304_391304,
   161_327704_339004_350604_327904,
   162_270804_280404_290404_274604,
   163_224004_232304_240804_229804,
   164_185304_192404_199704_191604,
   165_153004_159004_165304_156104,
   166_126304_131404_136804_129504,
   167_103904_108304_112804_103304,
   168_854905_892005_930705_854105,
   169_707805_739405_772505_685905,
   170_585905_612905_641105_574105,
   171_487105_510205_534305_471605,
   172_405005_424605_445305_395905,
   173_336805_353705_371305_329405,
   174_280205_294505_309605_281905,
   175_234005_246305_259205_236605,
   176_195405_205905_217005_201605,
   177_164005_173005_182505_176305,
   178_137605_145405_153605_140405,
   179_114505_121105_128105_120505,
   180_952806_100905_106905_103105,
   181_783306_830506_880606_842406,
   182_644306_684006_726106_695706,
   183_525206_558206_593306_553206,
   184_428306_455806_485006_440606,
   185_345706_368306_392406_357906,
   186_279106_297806_317706_290806,
   187_222106_237306_253406_233006,
   188_176806_189106_202206_182906,
   189_139706_149506_160106_156606,
   190_110306_118306_126806_124606,
   191_864307_927707_995707_997807,
   192_677107_727607_781907_740607,
   193_528107_568207_611307_566607,
   194_411907_443707_478007_437607,
   195_319307_344407_371407_329007,
   196_247507_267307_288607_258607,
   197_190907_206407_223107_208207,
   198_147207_159407_172507_163607,
   199_108707_117807_127607_118707,
   200_802208_870408_944408_855808,
   201_609508_662108_719308_654108,
   202_463208_503708_547808_515808,
   203_352008_383208_417308_372808,
   204_267508_291608_317908_276508,
   205_203308_221908_242208_224608,
   206_154208_168508_184208_156308,
   207_117008_128108_140108_110908,
   208_888409_973109_106608_876009,
   209_674409_739609_811209_699609,
   210_512109_562309_617409_537109,
   211_378409_416009_457309_388509,
   212_279609_307709_338709_287709,
   213_206609_227609_250809_207009,
   214_152609_168409_185809_154209,
   215_112809_124609_137609_105909,
   216_825410_912710_100909_804110,
   217_604010_668710_740310_602710,
   218_442010_489910_543010_467710,
   219_323510_359010_398310_326110,
   220_236710_263010_292210_232410,
   221_173410_192810_214510_162210,
   222_127010_141410_157410_116410,
   223_929811_103710_115610_891011,
   224_681011_760111_848511_636011,
   225_498811_557411_622911_456211,
   226_367511_411111_460011_342211,
   227_270711_303311_339711_249811,
   228_199511_223711_250911_178811,
   229_147011_165111_185311_136211,
   230_108311_121811_136911_101011,
   231_807512_908712_102311_704312,
   232_602112_678312_764212_577712,
   233_449012_506512_571212_458312,
   234_335012_378312_427212_370312,
   235_250012_282612_319512_293012,
   236_190512_215612_244012_262112,
   237_145312_164612_186512_193412,
   238_110912_125812_142712_155512,
   239_847513_962513_109312_115012,
   240_648113_736913_837913_836413,
   241_511713_582513_663013_591213,
   242_404613_461113_525513_439813,
   243_320413_365513_417113_332513,
   244_254013_290213_331413_273913,
   245_201713_230613_263713_195613,
   246_171213_196013_224413_170813,
   247_145513_166713_191113_145713,
   248_123713_141913_162813_126013,
   249_105213_120813_138813_114813,
   250_895414_103013_118413_998614]

/-- atmdata/Venus/LAT80S.txt:12837-12987, columns 0 to 4. -/
def venusProfile86 : List ℕ :=
  [100_635202_647902_660902_655602,
   101_603502_615602_627902_621602,
   102_573002_584502_596202_590102,
   103_543802_554702_565802_558102,
   104_515902_526202_536702_527602,
   105_488902_498702_508702_500002,
   106_463102_472402_481802_475302,
   107_438302_447102_456002_447902,
   108_414302_422602_431102_424402,
   109_391702_399502_407502_401202,
   110_369802_377202_384702_380302,
   111_348802_355802_362902_357502,
   112_328802_335402_342102_334102,
   113_309802_316002_322302_317002,
   114_291602_297402_303302_298802,
   115_274002_279502_285102_281502,
   116_257502_262702_268002_267502,
   117_242002_246802_251702_252502,
   118_227302_231802_236402_239302,
   119_213102_217402_221702_225802,
   120_199902_203902_208002_212102,
   121_187402_191102_194902_199502,
   122_175302_178802_182402_185702,
   123_163802_167102_170402_176102,
   124_153102_156202_159302_163302,
   125_142802_145702_148602_150002,
   126_133202_135902_138602_139802,
   127_124002_126502_129002_130702,
   128_115402_117702_120102_120902,
   129_107202_109302_111502_112602,
   130_995103_101502_103502_104602,
   131_922203_940603_959403_961803,
   132_853303_870403_887803_890503,
   133_789603_805303_821503_817703,
   134_728803_743303_758203_750803,
   135_671903_685303_699003_692203,
   136_618503_630903_643503_639003,
   137_568603_579903_591503_581003,
   138_521503_531903_542503_534103,
   139_478103_487703_497403_487103,
   140_437203_445903_454903_444203,
   141_399103_407003_415203_401603,
   142_363403_370603_378103_364603,
   143_330003_336603_343403_334103,
   144_299503_305503_311603_303103,
   145_271203_276603_282103_275403,
   146_245003_249903_254903_250503,
   147_220403_224803_229303_227403,
   148_197703_201703_205703_204103,
   149_176803_180303_183903_182303,
   150_158103_161303_164503_163903,
   151_140803_143803_146803_147003,
   152_124703_127503_130403_129603,
   153_110803_113403_116103_115503,
   154_979704_100403_103003_103203,
   155_862704_885504_909004_920504,
   156_757804_778804_800504_817504,
   157_661504_680804_700604_709704,
   158_570204_587504_605404_614704,
   159_479304_494504_510204_526804,
   160_396704_409804_423304_434304,
   161_327704_339004_350604_358504,
   162_270804_280404_290404_297004,
   163_224004_232304_240804_243904,
   164_185304_192404_199704_207004,
   165_153004_159004_165304_173604,
   166_126304_131404_136804_142604,
   167_103904_108304_112804_119604,
   168_854905_892005_930705_949205,
   169_707805_739405_772505_808005,
   170_585905_612905_641105_636905,
   171_487105_510205_534305_537605,
   172_405005_424605_445305_432905,
   173_336805_353705_371305_354905,
   174_280205_294505_309605_302505,
   175_234005_246305_259205_259405,
   176_195405_205905_217005_217405,
   177_164005_173005_182505_189205,
   178_137605_145405_153605_168305,
   179_114505_121105_128105_141405,
   180_952806_100905_106905_116605,
   181_783306_830506_880606_915506,
   182_644306_684006_726106_759906,
   183_525206_558206_593306_614106,
   184_428306_455806_485006_472506,
   185_345706_368306_392406_379906,
   186_279106_297806_317706_294806,
   187_222106_237306_253406_232806,
   188_176806_189106_202206_184106,
   189_139706_149506_160106_148006,
   190_110306_118306_126806_117706,
   191_864307_927707_995707_921307,
   192_677107_727607_781907_769807,
   193_528107_568207_611307_616807,
   194_411907_443707_478007_494907,
   195_319307_344407_371407_379507,
   196_247507_267307_288607_299007,
   197_190907_206407_223107_235907,
   198_147207_159407_172507_188407,
   199_108707_117807_127607_137807,
   200_802208_870408_944408_101207,
   201_609508_662108_719308_795308,
   202_463208_503708_547808_615308,
   203_352008_383208_417308_455008,
   204_267508_291608_317908_337008,
   205_203308_221908_242208_260108,
   206_154208_168508_184208_187808,
   207_117008_128108_140108_140608,
   208_888409_973109_106608_106208,
   209_674409_739609_811209_784409,
   210_512109_562309_617409_619209,
   211_378409_416009_457309_452509,
   212_279609_307709_338709_290009,
   213_206609_227609_250809_212709,
   214_152609_168409_185809_152909,
   215_112809_124609_137609_118209,
   216_825410_912710_100909_893610,
   217_604010_668710_740310_680610,
   218_442010_489910_543010_541510,
   219_323510_359010_398310_378210,
   220_236710_263010_292210_265710,
   221_173410_192810_214510_194010,
   222_127010_141410_157410_143510,
   223_929811_103710_115610_100910,
   224_681011_760111_848511_772911,
   225_498811_557411_622911_548311,
   226_367511_411111_460011_438411,
   227_270711_303311_339711_312311,
   228_199511_223711_250911_247411,
   229_147011_165111_185311_173511,
   230_108311_121811_136911_131311,
   231_807512_908712_102311_959412,
   232_602112_678312_764212_723212,
   233_449012_506512_571212_503812,
   234_335012_378312_427212_374312,
   235_250012_282612_319512_289012,
   236_190512_215612_244012_212812,
   237_145312_164612_186512_172712,
   238_110912_125812_142712_133312,
   239_847513_962513_109312_113612,
   240_648113_736913_837913_874413,
   241_511713_582513_663013_666913,
   242_404613_461113_525513_473313,
   243_320413_365513_417113_417013,
   244_254013_290213_331413_307013,
   245_201713_230613_263713_233313,
   246_171213_196013_224413_189113,
   247_145513_166713_191113_154113,
   248_123713_141913_162813_139113,
   249_105213_120813_138813_115013,
   250_895414_103013_118413_996914]

/-- atmdata/Venus/LAT80S.txt:12988-13138, columns 0 to 4. -/
def venusProfile87 : List ℕ :=
  [100_635202_647902_660902_616402,
   101_603502_615602_627902_585202,
   102_573002_584502_596202_555702,
   103_543802_554702_565802_524802,
   104_515902_526202_536702_498002,
   105_488902_498702_508702_469502,
   106_463102_472402_481802_443402,
   107_438302_447102_456002_419002,
   108_414302_422602_431102_399902,
   109_391702_399502_407502_378602,
   110_369802_377202_384702_360902,
   111_348802_355802_362902_338802,
   112_328802_335402_342102_318902,
   113_309802_316002_322302_300002,
   114_291602_297402_303302_284602,
   115_274002_279502_285102_266802,
   116_257502_262702_268002_248502,
   117_242002_246802_251702_233902,
   118_227302_231802_236402_219902,
   119_213102_217402_221702_205702,
   120_199902_203902_208002_193102,
   121_187402_191102_194902_182602,
   122_175302_178802_182402_172202,
   123_163802_167102_170402_162102,
   124_153102_156202_159302_152802,
   125_142802_145702_148602_142002,
   126_133202_135902_138602_131602,
   127_124002_126502_129002_123702,
   128_115402_117702_120102_115902,
   129_107202_109302_111502_107502,
   130_995103_101502_103502_100102,
   131_922203_940603_959403_922303,
   132_853303_870403_887803_855703,
   133_789603_805303_821503_792903,
   134_728803_743303_758203_736103,
   135_671903_685303_699003_679003,
   136_618503_630903_643503_622103,
   137_568603_579903_591503_581303,
   138_521503_531903_542503_529703,
   139_478103_487703_497403_485803,
   140_437203_445903_454903_449103,
   141_399103_407003_415203_411103,
   142_363403_370603_378103_373203,
   143_330003_336603_343403_337803,
   144_299503_305503_311603_307203,
   145_271203_276603_282103_276903,
   146_245003_249903_254903_251303,
   147_220403_224803_229303_225603,
   148_197703_201703_205703_202803,
   149_176803_180303_183903_180603,
   150_158103_161303_164503_163203,
   151_140803_143803_146803_144903,
   152_124703_127503_130403_128003,
   153_110803_113403_116103_112903,
   154_979704_100403_103003_999004,
   155_862704_885504_909004_893804,
   156_757804_778804_800504_780504,
   157_661504_680804_700604_682804,
   158_570204_587504_605404_591304,
   159_479304_494504_510204_502504,
   160_396704_409804_423304_417904,
   161_327704_339004_350604_342304,
   162_270804_280404_290404_282704,
   163_224004_232304_240804_240204,
   164_185304_192404_199704_196804,
   165_153004_159004_165304_163104,
   166_126304_131404_136804_134104,
   167_103904_108304_112804_112004,
   168_854905_892005_930705_923505,
   169_707805_739405_772505_780305,
   170_585905_612905_641105_642405,
   171_487105_510205_534305_531005,
   172_405005_424605_445305_442705,
   173_336805_353705_371305_358305,
   174_280205_294505_309605_305805,
   175_234005_246305_259205_251905,
   176_195405_205905_217005_209605,
   177_164005_173005_182505_183805,
   178_137605_145405_153605_161305,
   179_114505_121105_128105_135305,
   180_952806_100905_106905_109505,
   181_783306_830506_880606_906806,
   182_644306_684006_726106_766206,
   183_525206_558206_593306_630606,
   184_428306_455806_485006_524806,
   185_345706_368306_392406_417106,
   186_279106_297806_317706_336806,
   187_222106_237306_253406_259206,
   188_176806_189106_202206_204706,
   189_139706_149506_160106_159606,
   190_110306_118306_126806_125706,
   191_864307_927707_995707_948807,
   192_677107_727607_781907_773507,
   193_528107_568207_611307_596707,
   194_411907_443707_478007_459807,
   195_319307_344407_371407_363707,
   196_247507_267307_288607_294307,
   197_190907_206407_223107_231307,
   198_147207_159407_172507_171307,
   199_108707_117807_127607_128507,
   200_802208_870408_944408_982808,
   201_609508_662108_719308_728408,
   202_463208_503708_547808_569008,
   203_352008_383208_417308_431808,
   204_267508_291608_317908_324208,
   205_203308_221908_242208_246708,
   206_154208_168508_184208_181508,
   207_117008_128108_140108_142208,
   208_888409_973109_106608_105008,
   209_674409_739609_811209_812109,
   210_512109_562309_617409_590909,
   211_378409_416009_457309_442209,
   212_279609_307709_338709_327109,
   213_206609_227609_250809_241509,
   214_152609_168409_185809_189009,
   215_112809_124609_137609_139209,
   216_825410_912710_100909_104709,
   217_604010_668710_740310_687510,
   218_442010_489910_543010_473410,
   219_323510_359010_398310_337410,
   220_236710_263010_292210_238710,
   221_173410_192810_214510_184610,
   222_127010_141410_157410_145010,
   223_929811_103710_115610_108510,
   224_681011_760111_848511_784611,
   225_498811_557411_622911_556611,
   226_367511_411111_460011_406611,
   227_270711_303311_339711_290411,
   228_199511_223711_250911_219811,
   229_147011_165111_185311_169711,
   230_108311_121811_136911_114611,
   231_807512_908712_102311_881712,
   232_602112_678312_764212_646212,
   233_449012_506512_571212_480012,
   234_335012_378312_427212_411412,
   235_250012_282612_319512_309112,
   236_190512_215612_244012_235012,
   237_145312_164612_186512_175312,
   238_110912_125812_142712_129512,
   239_847513_962513_109312_100412,
   240_648113_736913_837913_702513,
   241_511713_582513_663013_567913,
   242_404613_461113_525513_492413,
   243_320413_365513_417113_404313,
   244_254013_290213_331413_320713,
   245_201713_230613_263713_251613,
   246_171213_196013_224413_224113,
   247_145513_166713_191113_212213,
   248_123713_141913_162813_166413,
   249_105213_120813_138813_145113,
   250_895414_103013_118413_122913]

/-- atmdata/Venus/LAT80S.txt:13139-13289, columns 0 to 4. -/
def venusProfile88 : List ℕ :=
  [100_635202_647902_660902_640902,
   101_603502_615602_627902_607302,
   102_573002_584502_596202_575102,
   103_543802_554702_565802_550402,
   104_515902_526202_536702_522402,
   105_488902_498702_508702_496302,
   106_463102_472402_481802_470602,
   107_438302_447102_456002_444102,
   108_414302_422602_431102_417702,
   109_391702_399502_407502_394602,
   110_369802_377202_384702_370102,
   111_348802_355802_362902_352002,
   112_328802_335402_342102_332002,
   113_309802_316002_322302_313502,
   114_291602_297402_303302_293202,
   115_274002_279502_285102_276802,
   116_257502_262702_268002_258102,
   117_242002_246802_251702_241402,
   118_227302_231802_236402_228202,
   119_213102_217402_221702_214102,
   120_199902_203902_208002_199602,
   121_187402_191102_194902_188902,
   122_175302_178802_182402_176702,
   123_163802_167102_170402_165702,
   124_153102_156202_159302_155202,
   125_142802_145702_148602_144602,
   126_133202_135902_138602_135302,
   127_124002_126502_129002_124502,
   128_115402_117702_120102_115802,
   129_107202_109302_111502_108702,
   130_995103_101502_103502_101502,
   131_922203_940603_959403_933703,
   132_853303_870403_887803_866003,
   133_789603_805303_821503_809303,
   134_728803_743303_758203_745403,
   135_671903_685303_699003_686703,
   136_618503_630903_643503_634103,
   137_568603_579903_591503_588503,
   138_521503_531903_542503_540603,
   139_478103_487703_497403_497603,
   140_437203_445903_454903_455203,
   141_399103_407003_415203_413703,
   142_363403_370603_378103_375903,
   143_330003_336603_343403_342603,
   144_299503_305503_311603_312603,
   145_271203_276603_282103_284403,
   146_245003_249903_254903_257403,
   147_220403_224803_229303_232903,
   148_197703_201703_205703_209103,
   149_176803_180303_183903_184903,
   150_158103_161303_164503_163503,
   151_140803_143803_146803_146803,
   152_124703_127503_130403_129903,
   153_110803_113403_116103_116103,
   154_979704_100403_103003_101403,
   155_862704_885504_909004_909004,
   156_757804_778804_800504_801704,
   157_661504_680804_700604_705604,
   158_570204_587504_605404_609504,
   159_479304_494504_510204_514204,
   160_396704_409804_423304_430804,
   161_327704_339004_350604_365504,
   162_270804_280404_290404_299304,
   163_224004_232304_240804_247704,
   164_185304_192404_199704_205304,
   165_153004_159004_165304_167704,
   166_126304_131404_136804_137104,
   167_103904_108304_112804_113704,
   168_854905_892005_930705_911805,
   169_707805_739405_772505_766705,
   170_585905_612905_641105_646705,
   171_487105_510205_534305_517805,
   172_405005_424605_445305_419705,
   173_336805_353705_371305_363805,
   174_280205_294505_309605_310705,
   175_234005_246305_259205_261305,
   176_195405_205905_217005_214905,
   177_164005_173005_182505_188805,
   178_137605_145405_153605_164305,
   179_114505_121105_128105_137005,
   180_952806_100905_106905_115705,
   181_783306_830506_880606_933806,
   182_644306_684006_726106_738006,
   183_525206_558206_593306_574206,
   184_428306_455806_485006_475506,
   185_345706_368306_392406_378406,
   186_279106_297806_317706_297006,
   187_222106_237306_253406_249706,
   188_176806_189106_202206_199006,
   189_139706_149506_160106_150106,
   190_110306_118306_126806_118306,
   191_864307_927707_995707_951907,
   192_677107_727607_781907_767607,
   193_528107_568207_611307_631307,
   194_411907_443707_478007_507307,
   195_319307_344407_371407_371107,
   196_247507_267307_288607_273907,
   197_190907_206407_223107_215807,
   198_147207_159407_172507_164307,
   199_108707_117807_127607_127507,
   200_802208_870408_944408_912708,
   201_609508_662108_719308_703708,
   202_463208_503708_547808_552308,
   203_352008_383208_417308_430808,
   204_267508_291608_317908_326808,
   205_203308_221908_242208_244608,
   206_154208_168508_184208_182408,
   207_117008_128108_140108_134108,
   208_888409_973109_106608_957509,
   209_674409_739609_811209_703509,
   210_512109_562309_617409_536609,
   211_378409_416009_457309_415009,
   212_279609_307709_338709_291509,
   213_206609_227609_250809_221009,
   214_152609_168409_185809_166709,
   215_112809_124609_137609_120809,
   216_825410_912710_100909_933410,
   217_604010_668710_740310_659610,
   218_442010_489910_543010_466510,
   219_323510_359010_398310_335610,
   220_236710_263010_292210_236810,
   221_173410_192810_214510_168110,
   222_127010_141410_157410_121010,
   223_929811_103710_115610_860011,
   224_681011_760111_848511_566011,
   225_498811_557411_622911_413011,
   226_367511_411111_460011_335711,
   227_270711_303311_339711_241111,
   228_199511_223711_250911_179711,
   229_147011_165111_185311_134111,
   230_108311_121811_136911_987912,
   231_807512_908712_102311_641612,
   232_602112_678312_764212_446612,
   233_449012_506512_571212_364212,
   234_335012_378312_427212_283012,
   235_250012_282612_319512_216512,
   236_190512_215612_244012_178412,
   237_145312_164612_186512_149112,
   238_110912_125812_142712_131712,
   239_847513_962513_109312_963313,
   240_648113_736913_837913_734513,
   241_511713_582513_663013_631913,
   242_404613_461113_525513_525113,
   243_320413_365513_417113_415313,
   244_254013_290213_331413_365513,
   245_201713_230613_263713_292113,
   246_171213_196013_224413_242713,
   247_145513_166713_191113_210513,
   248_123713_141913_162813_173813,
   249_105213_120813_138813_139613,
   250_895414_103013_118413_118213]

/-- atmdata/Venus/LAT80S.txt:13290-13440, columns 0 to 4. -/
def venusProfile89 : List ℕ :=
  [100_635202_647902_660902_650302,
   101_603502_615602_627902_615502,
   102_573002_584502_596202_581502,
   103_543802_554702_565802_554102,
   104_515902_526202_536702_526602,
   105_488902_498702_508702_497602,
   106_463102_472402_481802_475702,
   107_438302_447102_456002_448902,
   108_414302_422602_431102_423602,
   109_391702_399502_407502_399802,
   110_369802_377202_384702_376002,
   111_348802_355802_362902_356002,
   112_328802_335402_342102_336802,
   113_309802_316002_322302_320902,
   114_291602_297402_303302_301202,
   115_274002_279502_285102_282202,
   116_257502_262702_268002_263402,
   117_242002_246802_251702_248702,
   118_227302_231802_236402_232802,
   119_213102_217402_221702_219102,
   120_199902_203902_208002_206502,
   121_187402_191102_194902_196802,
   122_175302_178802_182402_182402,
   123_163802_167102_170402_170402,
   124_153102_156202_159302_158902,
   125_142802_145702_148602_148302,
   126_133202_135902_138602_137602,
   127_124002_126502_129002_127202,
   128_115402_117702_120102_117302,
   129_107202_109302_111502_109002,
   130_995103_101502_103502_102002,
   131_922203_940603_959403_938203,
   132_853303_870403_887803_870103,
   133_789603_805303_821503_803403,
   134_728803_743303_758203_749003,
   135_671903_685303_699003_689603,
   136_618503_630903_643503_631203,
   137_568603_579903_591503_584703,
   138_521503_531903_542503_532603,
   139_478103_487703_497403_483603,
   140_437203_445903_454903_440303,
   141_399103_407003_415203_405803,
   142_363403_370603_378103_369503,
   143_330003_336603_343403_333603,
   144_299503_305503_311603_299303,
   145_271203_276603_282103_270903,
   146_245003_249903_254903_245503,
   147_220403_224803_229303_220503,
   148_197703_201703_205703_198903,
   149_176803_180303_183903_179503,
   150_158103_161303_164503_159703,
   151_140803_143803_146803_141903,
   152_124703_127503_130403_125803,
   153_110803_113403_116103_111403,
   154_979704_100403_103003_990904,
   155_862704_885504_909004_892904,
   156_757804_778804_800504_769504,
   157_661504_680804_700604_691404,
   158_570204_587504_605404_596904,
   159_479304_494504_510204_501504,
   160_396704_409804_423304_407104,
   161_327704_339004_350604_339504,
   162_270804_280404_290404_277004,
   163_224004_232304_240804_226604,
   164_185304_192404_199704_192204,
   165_153004_159004_165304_153104,
   166_126304_131404_136804_125404,
   167_103904_108304_112804_104104,
   168_854905_892005_930705_865105,
   169_707805_739405_772505_726705,
   170_585905_612905_641105_596405,
   171_487105_510205_534305_501205,
   172_405005_424605_445305_420305,
   173_336805_353705_371305_357405,
   174_280205_294505_309605_306605,
   175_234005_246305_259205_246905,
   176_195405_205905_217005_201505,
   177_164005_173005_182505_179705,
   178_137605_145405_153605_156605,
   179_114505_121105_128105_130505,
   180_952806_100905_106905_108205,
   181_783306_830506_880606_925506,
   182_644306_684006_726106_744706,
   183_525206_558206_593306_597906,
   184_428306_455806_485006_488506,
   185_345706_368306_392406_386006,
   186_279106_297806_317706_315506,
   187_222106_237306_253406_255506,
   188_176806_189106_202206_204606,
   189_139706_149506_160106_164106,
   190_110306_118306_126806_127906,
   191_864307_927707_995707_994607,
   192_677107_727607_781907_792507,
   193_528107_568207_611307_616407,
   194_411907_443707_478007_474907,
   195_319307_344407_371407_362307,
   196_247507_267307_288607_273807,
   197_190907_206407_223107_214807,
   198_147207_159407_172507_166807,
   199_108707_117807_127607_118307,
   200_802208_870408_944408_877908,
   201_609508_662108_719308_634408,
   202_463208_503708_547808_502708,
   203_352008_383208_417308_363308,
   204_267508_291608_317908_282608,
   205_203308_221908_242208_210008,
   206_154208_168508_184208_160308,
   207_117008_128108_140108_124108,
   208_888409_973109_106608_982809,
   209_674409_739609_811209_756409,
   210_512109_562309_617409_593909,
   211_378409_416009_457309_408609,
   212_279609_307709_338709_307109,
   213_206609_227609_250809_237209,
   214_152609_168409_185809_172709,
   215_112809_124609_137609_119409,
   216_825410_912710_100909_942310,
   217_604010_668710_740310_682510,
   218_442010_489910_543010_488310,
   219_323510_359010_398310_352810,
   220_236710_263010_292210_247510,
   221_173410_192810_214510_183710,
   222_127010_141410_157410_137010,
   223_929811_103710_115610_103010,
   224_681011_760111_848511_765511,
   225_498811_557411_622911_547511,
   226_367511_411111_460011_397111,
   227_270711_303311_339711_280711,
   228_199511_223711_250911_198211,
   229_147011_165111_185311_135511,
   230_108311_121811_136911_104411,
   231_807512_908712_102311_769912,
   232_602112_678312_764212_609812,
   233_449012_506512_571212_420412,
   234_335012_378312_427212_293512,
   235_250012_282612_319512_219112,
   236_190512_215612_244012_154912,
   237_145312_164612_186512_120512,
   238_110912_125812_142712_981913,
   239_847513_962513_109312_822113,
   240_648113_736913_837913_683713,
   241_511713_582513_663013_522113,
   242_404613_461113_525513_434013,
   243_320413_365513_417113_338913,
   244_254013_290213_331413_267813,
   245_201713_230613_263713_230613,
   246_171213_196013_224413_182113,
   247_145513_166713_191113_156913,
   248_123713_141913_162813_138513,
   249_105213_120813_138813_121213,
   250_895414_103013_118413_103613]

/-- atmdata/Venus/LAT80S.txt:13441-13591, columns 0 to 4. -/
def venusProfile90 : List ℕ :=
  [100_635202_647902_660902_661702,
   101_603502_615602_627902_625502,
   102_573002_584502_596202_588402,
   103_543802_554702_565802_559202,
   104_515902_526202_536702_532402,
   105_488902_498702_508702_507002,
   106_463102_472402_481802_479202,
   107_438302_447102_456002_452302,
   108_414302_422602_431102_428002,
   109_391702_399502_407502_403502,
   110_369802_377202_384702_380302,
   111_348802_355802_362902_359002,
   112_328802_335402_342102_342002,
   113_309802_316002_322302_321402,
   114_291602_297402_303302_302602,
   115_274002_279502_285102_285802,
   116_257502_262702_268002_267002,
   117_242002_246802_251702_250602,
   118_227302_231802_236402_236002,
   119_213102_217402_221702_218602,
   120_199902_203902_208002_205102,
   121_187402_191102_194902_190502,
   122_175302_178802_182402_178702,
   123_163802_167102_170402_166702,
   124_153102_156202_159302_154802,
   125_142802_145702_148602_145102,
   126_133202_135902_138602_136002,
   127_124002_126502_129002_126002,
   128_115402_117702_120102_117602,
   129_107202_109302_111502_108502,
   130_995103_101502_103502_997503,
   131_922203_940603_959403_917503,
   132_853303_870403_887803_852103,
   133_789603_805303_821503_792603,
   134_728803_743303_758203_732403,
   135_671903_685303_699003_674603,
   136_618503_630903_643503_623303,
   137_568603_579903_591503_576903,
   138_521503_531903_542503_530503,
   139_478103_487703_497403_485303,
   140_437203_445903_454903_446803,
   141_399103_407003_415203_408103,
   142_363403_370603_378103_371803,
   143_330003_336603_343403_338303,
   144_299503_305503_311603_305403,
   145_271203_276603_282103_280403,
   146_245003_249903_254903_253203,
   147_220403_224803_229303_229203,
   148_197703_201703_205703_206403,
   149_176803_180303_183903_184903,
   150_158103_161303_164503_164703,
   151_140803_143803_146803_147903,
   152_124703_127503_130403_131303,
   153_110803_113403_116103_117703,
   154_979704_100403_103003_103603,
   155_862704_885504_909004_894004,
   156_757804_778804_800504_784304,
   157_661504_680804_700604_679804,
   158_570204_587504_605404_586404,
   159_479304_494504_510204_490404,
   160_396704_409804_423304_403404,
   161_327704_339004_350604_333404,
   162_270804_280404_290404_267504,
   163_224004_232304_240804_225004,
   164_185304_192404_199704_184704,
   165_153004_159004_165304_154504,
   166_126304_131404_136804_126004,
   167_103904_108304_112804_104104,
   168_854905_892005_930705_843205,
   169_707805_739405_772505_706805,
   170_585905_612905_641105_594005,
   171_487105_510205_534305_489405,
   172_405005_424605_445305_399505,
   173_336805_353705_371305_337805,
   174_280205_294505_309605_292005,
   175_234005_246305_259205_243505,
   176_195405_205905_217005_213205,
   177_164005_173005_182505_168405,
   178_137605_145405_153605_147105,
   179_114505_121105_128105_122705,
   180_952806_100905_106905_997706,
   181_783306_830506_880606_827306,
   182_644306_684006_726106_678806,
   183_525206_558206_593306_559206,
   184_428306_455806_485006_454806,
   185_345706_368306_392406_359006,
   186_279106_297806_317706_285306,
   187_222106_237306_253406_229406,
   188_176806_189106_202206_186806,
   189_139706_149506_160106_147406,
   190_110306_118306_126806_115206,
   191_864307_927707_995707_875607,
   192_677107_727607_781907_700707,
   193_528107_568207_611307_526907,
   194_411907_443707_478007_433107,
   195_319307_344407_371407_341007,
   196_247507_267307_288607_262807,
   197_190907_206407_223107_205907,
   198_147207_159407_172507_164307,
   199_108707_117807_127607_119407,
   200_802208_870408_944408_919008,
   201_609508_662108_719308_693408,
   202_463208_503708_547808_546008,
   203_352008_383208_417308_406008,
   204_267508_291608_317908_316908,
   205_203308_221908_242208_226308,
   206_154208_168508_184208_173808,
   207_117008_128108_140108_123708,
   208_888409_973109_106608_954009,
   209_674409_739609_811209_686709,
   210_512109_562309_617409_499709,
   211_378409_416009_457309_362409,
   212_279609_307709_338709_261109,
   213_206609_227609_250809_227609,
   214_152609_168409_185809_160109,
   215_112809_124609_137609_123509,
   216_825410_912710_100909_829910,
   217_604010_668710_740310_622110,
   218_442010_489910_543010_454810,
   219_323510_359010_398310_332910,
   220_236710_263010_292210_233410,
   221_173410_192810_214510_184510,
   222_127010_141410_157410_146910,
   223_929811_103710_115610_103010,
   224_681011_760111_848511_728411,
   225_498811_557411_622911_524111,
   226_367511_411111_460011_405111,
   227_270711_303311_339711_284211,
   228_199511_223711_250911_224111,
   229_147011_165111_185311_169211,
   230_108311_121811_136911_139111,
   231_807512_908712_102311_104311,
   232_602112_678312_764212_771212,
   233_449012_506512_571212_560512,
   234_335012_378312_427212_421612,
   235_250012_282612_319512_299612,
   236_190512_215612_244012_222012,
   237_145312_164612_186512_182912,
   238_110912_125812_142712_136512,
   239_847513_962513_109312_103412,
   240_648113_736913_837913_764113,
   241_511713_582513_663013_604913,
   242_404613_461113_525513_488613,
   243_320413_365513_417113_363213,
   244_254013_290213_331413_306613,
   245_201713_230613_263713_226813,
   246_171213_196013_224413_199913,
   247_145513_166713_191113_165113,
   248_123713_141913_162813_168113,
   249_105213_120813_138813_132813,
   250_895414_103013_118413_112213]

/-- atmdata/Venus/LAT80S.txt:13592-13742, columns 0 to 4. -/
def venusProfile91 : List ℕ :=
  [100_635202_647902_660902_634202,
   101_603502_615602_627902_599602,
   102_573002_584502_596202_573802,
   103_543802_554702_565802_544602,
   104_515902_526202_536702_520502,
   105_488902_498702_508702_493102,
   106_463102_472402_481802_469002,
   107_438302_447102_456002_443102,
   108_414302_422602_431102_421202,
   109_391702_399502_407502_397102,
   110_369802_377202_384702_375202,
   111_348802_355802_362902_353502,
   112_328802_335402_342102_332002,
   113_309802_316002_322302_313802,
   114_291602_297402_303302_296802,
   115_274002_279502_285102_278602,
   116_257502_262702_268002_260702,
   117_242002_246802_251702_243602,
   118_227302_231802_236402_227802,
   119_213102_217402_221702_213102,
   120_199902_203902_208002_199302,
   121_187402_191102_194902_185702,
   122_175302_178802_182402_173302,
   123_163802_167102_170402_161502,
   124_153102_156202_159302_152202,
   125_142802_145702_148602_143702,
   126_133202_135902_138602_133902,
   127_124002_126502_129002_124302,
   128_115402_117702_120102_115402,
   129_107202_109302_111502_107602,
   130_995103_101502_103502_994203,
   131_922203_940603_959403_914003,
   132_853303_870403_887803_849103,
   133_789603_805303_821503_782103,
   134_728803_743303_758203_717303,
   135_671903_685303_699003_661003,
   136_618503_630903_643503_606003,
   137_568603_579903_591503_561103,
   138_521503_531903_542503_512103,
   139_478103_487703_497403_471403,
   140_437203_445903_454903_431803,
   141_399103_407003_415203_392303,
   142_363403_370603_378103_358603,
   143_330003_336603_343403_322403,
   144_299503_305503_311603_292903,
   145_271203_276603_282103_266103,
   146_245003_249903_254903_240703,
   147_220403_224803_229303_216403,
   148_197703_201703_205703_195803,
   149_176803_180303_183903_175403,
   150_158103_161303_164503_157203,
   151_140803_143803_146803_139703,
   152_124703_127503_130403_124303,
   153_110803_113403_116103_110303,
   154_979704_100403_103003_990104,
   155_862704_885504_909004_858404,
   156_757804_778804_800504_762304,
   157_661504_680804_700604_665904,
   158_570204_587504_605404_574004,
   159_479304_494504_510204_477004,
   160_396704_409804_423304_395804,
   161_327704_339004_350604_323904,
   162_270804_280404_290404_272804,
   163_224004_232304_240804_225604,
   164_185304_192404_199704_187704,
   165_153004_159004_165304_154904,
   166_126304_131404_136804_125504,
   167_103904_108304_112804_103204,
   168_854905_892005_930705_860205,
   169_707805_739405_772505_717305,
   170_585905_612905_641105_582805,
   171_487105_510205_534305_498505,
   172_405005_424605_445305_419005,
   173_336805_353705_371305_350205,
   174_280205_294505_309605_303205,
   175_234005_246305_259205_258305,
   176_195405_205905_217005_219605,
   177_164005_173005_182505_174805,
   178_137605_145405_153605_151905,
   179_114505_121105_128105_125905,
   180_952806_100905_106905_107105,
   181_783306_830506_880606_862606,
   182_644306_684006_726106_713506,
   183_525206_558206_593306_602006,
   184_428306_455806_485006_482306,
   185_345706_368306_392406_375806,
   186_279106_297806_317706_310006,
   187_222106_237306_253406_244306,
   188_176806_189106_202206_199706,
   189_139706_149506_160106_152506,
   190_110306_118306_126806_118306,
   191_864307_927707_995707_951807,
   192_677107_727607_781907_752007,
   193_528107_568207_611307_593507,
   194_411907_443707_478007_459507,
   195_319307_344407_371407_375107,
   196_247507_267307_288607_290607,
   197_190907_206407_223107_224907,
   198_147207_159407_172507_163807,
   199_108707_117807_127607_121207,
   200_802208_870408_944408_868708,
   201_609508_662108_719308_685008,
   202_463208_503708_547808_540608,
   203_352008_383208_417308_411508,
   204_267508_291608_317908_326608,
   205_203308_221908_242208_256708,
   206_154208_168508_184208_197308,
   207_117008_128108_140108_147508,
   208_888409_973109_106608_109908,
   209_674409_739609_811209_829009,
   210_512109_562309_617409_620209,
   211_378409_416009_457309_452709,
   212_279609_307709_338709_341109,
   213_206609_227609_250809_240309,
   214_152609_168409_185809_184109,
   215_112809_124609_137609_136209,
   216_825410_912710_100909_936210,
   217_604010_668710_740310_714010,
   218_442010_489910_543010_522410,
   219_323510_359010_398310_380610,
   220_236710_263010_292210_263110,
   221_173410_192810_214510_188010,
   222_127010_141410_157410_135010,
   223_929811_103710_115610_101710,
   224_681011_760111_848511_777911,
   225_498811_557411_622911_557211,
   226_367511_411111_460011_399911,
   227_270711_303311_339711_278411,
   228_199511_223711_250911_210711,
   229_147011_165111_185311_152211,
   230_108311_121811_136911_110211,
   231_807512_908712_102311_895612,
   232_602112_678312_764212_646712,
   233_449012_506512_571212_496512,
   234_335012_378312_427212_353312,
   235_250012_282612_319512_246312,
   236_190512_215612_244012_192812,
   237_145312_164612_186512_147612,
   238_110912_125812_142712_105112,
   239_847513_962513_109312_756813,
   240_648113_736913_837913_613913,
   241_511713_582513_663013_522813,
   242_404613_461113_525513_422013,
   243_320413_365513_417113_368413,
   244_254013_290213_331413_283313,
   245_201713_230613_263713_220613,
   246_171213_196013_224413_184313,
   247_145513_166713_191113_146013,
   248_123713_141913_162813_121613,
   249_105213_120813_138813_106713,
   250_895414_103013_118413_916214]

/-- atmdata/Venus/LAT80S.txt:13743-13893, columns 0 to 4. -/
def venusProfile92 : List ℕ :=
  [100_635202_647902_660902_645502,
   101_603502_615602_627902_609202,
   102_573002_584502_596202_581002,
   103_543802_554702_565802_550102,
   104_515902_526202_536702_517702,
   105_488902_498702_508702_486502,
   106_463102_472402_481802_459002,
   107_438302_447102_456002_434102,
   108_414302_422602_431102_408002,
   109_391702_399502_407502_384702,
   110_369802_377202_384702_364602,
   111_348802_355802_362902_343002,
   112_328802_335402_342102_323502,
   113_309802_316002_322302_302802,
   114_291602_297402_303302_283102,
   115_274002_279502_285102_268802,
   116_257502_262702_268002_252002,
   117_242002_246802_251702_238302,
   118_227302_231802_236402_224502,
   119_213102_217402_221702_211002,
   120_199902_203902_208002_200102,
   121_187402_191102_194902_186702,
   122_175302_178802_182402_175902,
   123_163802_167102_170402_163102,
   124_153102_156202_159302_152902,
   125_142802_145702_148602_142002,
   126_133202_135902_138602_133702,
   127_124002_126502_129002_124402,
   128_115402_117702_120102_116602,
   129_107202_109302_111502_108102,
   130_995103_101502_103502_100002,
   131_922203_940603_959403_918903,
   132_853303_870403_887803_853703,
   133_789603_805303_821503_791503,
   134_728803_743303_758203_733303,
   135_671903_685303_699003_674503,
   136_618503_630903_643503_623103,
   137_568603_579903_591503_575503,
   138_521503_531903_542503_529203,
   139_478103_487703_497403_489403,
   140_437203_445903_454903_444203,
   141_399103_407003_415203_407503,
   142_363403_370603_378103_372203,
   143_330003_336603_343403_337803,
   144_299503_305503_311603_307103,
   145_271203_276603_282103_276003,
   146_245003_249903_254903_248703,
   147_220403_224803_229303_225203,
   148_197703_201703_205703_203603,
   149_176803_180303_183903_181203,
   150_158103_161303_164503_162503,
   151_140803_143803_146803_145903,
   152_124703_127503_130403_130103,
   153_110803_113403_116103_117103,
   154_979704_100403_103003_103703,
   155_862704_885504_909004_900904,
   156_757804_778804_800504_784804,
   157_661504_680804_700604_689404,
   158_570204_587504_605404_592804,
   159_479304_494504_510204_509904,
   160_396704_409804_423304_424704,
   161_327704_339004_350604_357104,
   162_270804_280404_290404_296904,
   163_224004_232304_240804_238504,
   164_185304_192404_199704_201004,
   165_153004_159004_165304_162704,
   166_126304_131404_136804_130204,
   167_103904_108304_112804_106204,
   168_854905_892005_930705_863405,
   169_707805_739405_772505_717105,
   170_585905_612905_641105_597205,
   171_487105_510205_534305_497905,
   172_405005_424605_445305_407305,
   173_336805_353705_371305_338705,
   174_280205_294505_309605_296105,
   175_234005_246305_259205_243305,
   176_195405_205905_217005_205605,
   177_164005_173005_182505_165105,
   178_137605_145405_153605_143805,
   179_114505_121105_128105_119205,
   180_952806_100905_106905_994306,
   181_783306_830506_880606_844006,
   182_644306_684006_726106_708506,
   183_525206_558206_593306_565006,
   184_428306_455806_485006_448906,
   185_345706_368306_392406_346706,
   186_279106_297806_317706_278006,
   187_222106_237306_253406_217206,
   188_176806_189106_202206_182006,
   189_139706_149506_160106_148506,
   190_110306_118306_126806_114906,
   191_864307_927707_995707_900707,
   192_677107_727607_781907_710707,
   193_528107_568207_611307_543307,
   194_411907_443707_478007_447907,
   195_319307_344407_371407_340107,
   196_247507_267307_288607_269307,
   197_190907_206407_223107_209007,
   198_147207_159407_172507_158107,
   199_108707_117807_127607_119707,
   200_802208_870408_944408_886308,
   201_609508_662108_719308_655408,
   202_463208_503708_547808_520008,
   203_352008_383208_417308_407608,
   204_267508_291608_317908_287608,
   205_203308_221908_242208_223608,
   206_154208_168508_184208_177308,
   207_117008_128108_140108_139608,
   208_888409_973109_106608_101708,
   209_674409_739609_811209_828109,
   210_512109_562309_617409_639109,
   211_378409_416009_457309_474309,
   212_279609_307709_338709_339909,
   213_206609_227609_250809_244709,
   214_152609_168409_185809_181009,
   215_112809_124609_137609_130709,
   216_825410_912710_100909_912810,
   217_604010_668710_740310_620510,
   218_442010_489910_543010_465510,
   219_323510_359010_398310_344810,
   220_236710_263010_292210_239510,
   221_173410_192810_214510_180110,
   222_127010_141410_157410_135110,
   223_929811_103710_115610_955611,
   224_681011_760111_848511_697911,
   225_498811_557411_622911_505911,
   226_367511_411111_460011_388511,
   227_270711_303311_339711_267711,
   228_199511_223711_250911_196711,
   229_147011_165111_185311_157511,
   230_108311_121811_136911_118411,
   231_807512_908712_102311_856612,
   232_602112_678312_764212_706612,
   233_449012_506512_571212_598912,
   234_335012_378312_427212_452512,
   235_250012_282612_319512_359812,
   236_190512_215612_244012_282312,
   237_145312_164612_186512_227912,
   238_110912_125812_142712_175512,
   239_847513_962513_109312_134412,
   240_648113_736913_837913_953213,
   241_511713_582513_663013_700413,
   242_404613_461113_525513_544413,
   243_320413_365513_417113_440013,
   244_254013_290213_331413_354213,
   245_201713_230613_263713_279313,
   246_171213_196013_224413_259913,
   247_145513_166713_191113_228313,
   248_123713_141913_162813_191813,
   249_105213_120813_138813_147513,
   250_895414_103013_118413_122913]

/-- atmdata/Venus/LAT80S.txt:13894-14044, columns 0 to 4. -/
def venusProfile93 : List ℕ :=
  [100_635202_647902_660902_655002,
   101_603502_615602_627902_616502,
   102_573002_584502_596202_586702,
   103_543802_554702_565802_553802,
   104_515902_526202_536702_523002,
   105_488902_498702_508702_496602,
   106_463102_472402_481802_470902,
   107_438302_447102_456002_445102,
   108_414302_422602_431102_419802,
   109_391702_399502_407502_395202,
   110_369802_377202_384702_375202,
   111_348802_355802_362902_351102,
   112_328802_335402_342102_332002,
   113_309802_316002_322302_312602,
   114_291602_297402_303302_293502,
   115_274002_279502_285102_275902,
   116_257502_262702_268002_258602,
   117_242002_246802_251702_243002,
   118_227302_231802_236402_226402,
   119_213102_217402_221702_213702,
   120_199902_203902_208002_201102,
   121_187402_191102_194902_187702,
   122_175302_178802_182402_175702,
   123_163802_167102_170402_165502,
   124_153102_156202_159302_154502,
   125_142802_145702_148602_143902,
   126_133202_135902_138602_134302,
   127_124002_126502_129002_125102,
   128_115402_117702_120102_116402,
   129_107202_109302_111502_109002,
   130_995103_101502_103502_101102,
   131_922203_940603_959403_927303,
   132_853303_870403_887803_861303,
   133_789603_805303_821503_808003,
   134_728803_743303_758203_742803,
   135_671903_685303_699003_682503,
   136_618503_630903_643503_624603,
   137_568603_579903_591503_576303,
   138_521503_531903_542503_525303,
   139_478103_487703_497403_479303,
   140_437203_445903_454903_440603,
   141_399103_407003_415203_401803,
   142_363403_370603_378103_367703,
   143_330003_336603_343403_336803,
   144_299503_305503_311603_307403,
   145_271203_276603_282103_279303,
   146_245003_249903_254903_251103,
   147_220403_224803_229303_225103,
   148_197703_201703_205703_203803,
   149_176803_180303_183903_180303,
   150_158103_161303_164503_162203,
   151_140803_143803_146803_144203,
   152_124703_127503_130403_128903,
   153_110803_113403_116103_114603,
   154_979704_100403_103003_100503,
   155_862704_885504_909004_875004,
   156_757804_778804_800504_771304,
   157_661504_680804_700604_684404,
   158_570204_587504_605404_587704,
   159_479304_494504_510204_499804,
   160_396704_409804_423304_421204,
   161_327704_339004_350604_349704,
   162_270804_280404_290404_289504,
   163_224004_232304_240804_240604,
   164_185304_192404_199704_196504,
   165_153004_159004_165304_164704,
   166_126304_131404_136804_139904,
   167_103904_108304_112804_112904,
   168_854905_892005_930705_938105,
   169_707805_739405_772505_771905,
   170_585905_612905_641105_662105,
   171_487105_510205_534305_535705,
   172_405005_424605_445305_448705,
   173_336805_353705_371305_367905,
   174_280205_294505_309605_288305,
   175_234005_246305_259205_242805,
   176_195405_205905_217005_203405,
   177_164005_173005_182505_164005,
   178_137605_145405_153605_142705,
   179_114505_121105_128105_117905,
   180_952806_100905_106905_959906,
   181_783306_830506_880606_794306,
   182_644306_684006_726106_686506,
   183_525206_558206_593306_560506,
   184_428306_455806_485006_431806,
   185_345706_368306_392406_369106,
   186_279106_297806_317706_307606,
   187_222106_237306_253406_269406,
   188_176806_189106_202206_201406,
   189_139706_149506_160106_158906,
   190_110306_118306_126806_121406,
   191_864307_927707_995707_918707,
   192_677107_727607_781907_719707,
   193_528107_568207_611307_577207,
   194_411907_443707_478007_448707,
   195_319307_344407_371407_349507,
   196_247507_267307_288607_281607,
   197_190907_206407_223107_216907,
   198_147207_159407_172507_167007,
   199_108707_117807_127607_129907,
   200_802208_870408_944408_987908,
   201_609508_662108_719308_750908,
   202_463208_503708_547808_587608,
   203_352008_383208_417308_419608,
   204_267508_291608_317908_305008,
   205_203308_221908_242208_231908,
   206_154208_168508_184208_192308,
   207_117008_128108_140108_141408,
   208_888409_973109_106608_113308,
   209_674409_739609_811209_844609,
   210_512109_562309_617409_597409,
   211_378409_416009_457309_456909,
   212_279609_307709_338709_348509,
   213_206609_227609_250809_254509,
   214_152609_168409_185809_182309,
   215_112809_124609_137609_126409,
   216_825410_912710_100909_896410,
   217_604010_668710_740310_638810,
   218_442010_489910_543010_484510,
   219_323510_359010_398310_360110,
   220_236710_263010_292210_248710,
   221_173410_192810_214510_160810,
   222_127010_141410_157410_133810,
   223_929811_103710_115610_100910,
   224_681011_760111_848511_658411,
   225_498811_557411_622911_480511,
   226_367511_411111_460011_344111,
   227_270711_303311_339711_233511,
   228_199511_223711_250911_164811,
   229_147011_165111_185311_126111,
   230_108311_121811_136911_104211,
   231_807512_908712_102311_795212,
   232_602112_678312_764212_617612,
   233_449012_506512_571212_452912,
   234_335012_378312_427212_329112,
   235_250012_282612_319512_262112,
   236_190512_215612_244012_188912,
   237_145312_164612_186512_145612,
   238_110912_125812_142712_112112,
   239_847513_962513_109312_848613,
   240_648113_736913_837913_660413,
   241_511713_582513_663013_522213,
   242_404613_461113_525513_410113,
   243_320413_365513_417113_330313,
   244_254013_290213_331413_248713,
   245_201713_230613_263713_210113,
   246_171213_196013_224413_183213,
   247_145513_166713_191113_160313,
   248_123713_141913_162813_146913,
   249_105213_120813_138813_125113,
   250_895414_103013_118413_105113]

/-- atmdata/Venus/LAT80S.txt:14045-14195, columns 0 to 4. -/
def venusProfile94 : List ℕ :=
  [100_635202_647902_660902_678702,
   101_603502_615602_627902_650502,
   102_573002_584502_596202_617102,
   103_543802_554702_565802_590302,
   104_515902_526202_536702_557602,
   105_488902_498702_508702_525502,
   106_463102_472402_481802_501402,
   107_438302_447102_456002_473202,
   108_414302_422602_431102_446802,
   109_391702_399502_407502_419402,
   110_369802_377202_384702_400102,
   111_348802_355802_362902_378902,
   112_328802_335402_342102_358802,
   113_309802_316002_322302_338602,
   114_291602_297402_303302_318102,
   115_274002_279502_285102_295402,
   116_257502_262702_268002_276402,
   117_242002_246802_251702_257802,
   118_227302_231802_236402_241702,
   119_213102_217402_221702_224902,
   120_199902_203902_208002_210302,
   121_187402_191102_194902_196302,
   122_175302_178802_182402_181902,
   123_163802_167102_170402_170502,
   124_153102_156202_159302_158202,
   125_142802_145702_148602_147602,
   126_133202_135902_138602_136502,
   127_124002_126502_129002_127202,
   128_115402_117702_120102_117502,
   129_107202_109302_111502_109102,
   130_995103_101502_103502_101302,
   131_922203_940603_959403_928303,
   132_853303_870403_887803_862303,
   133_789603_805303_821503_797003,
   134_728803_743303_758203_740203,
   135_671903_685303_699003_679803,
   136_618503_630903_643503_627603,
   137_568603_579903_591503_578403,
   138_521503_531903_542503_531703,
   139_478103_487703_497403_487403,
   140_437203_445903_454903_444903,
   141_399103_407003_415203_400803,
   142_363403_370603_378103_367403,
   143_330003_336603_343403_332903,
   144_299503_305503_311603_297303,
   145_271203_276603_282103_268603,
   146_245003_249903_254903_241503,
   147_220403_224803_229303_219003,
   148_197703_201703_205703_199203,
   149_176803_180303_183903_179703,
   150_158103_161303_164503_162603,
   151_140803_143803_146803_146103,
   152_124703_127503_130403_131003,
   153_110803_113403_116103_114703,
   154_979704_100403_103003_102203,
   155_862704_885504_909004_890804,
   156_757804_778804_800504_797904,
   157_661504_680804_700604_689004,
   158_570204_587504_605404_590604,
   159_479304_494504_510204_499104,
   160_396704_409804_423304_407504,
   161_327704_339004_350604_335804,
   162_270804_280404_290404_277004,
   163_224004_232304_240804_227404,
   164_185304_192404_199704_188804,
   165_153004_159004_165304_156504,
   166_126304_131404_136804_132204,
   167_103904_108304_112804_105904,
   168_854905_892005_930705_863805,
   169_707805_739405_772505_711905,
   170_585905_612905_641105_588905,
   171_487105_510205_534305_497405,
   172_405005_424605_445305_408005,
   173_336805_353705_371305_333005,
   174_280205_294505_309605_266405,
   175_234005_246305_259205_237005,
   176_195405_205905_217005_197105,
   177_164005_173005_182505_159605,
   178_137605_145405_153605_139005,
   179_114505_121105_128105_114405,
   180_952806_100905_106905_979706,
   181_783306_830506_880606_788206,
   182_644306_684006_726106_633306,
   183_525206_558206_593306_532006,
   184_428306_455806_485006_449206,
   185_345706_368306_392406_376506,
   186_279106_297806_317706_301806,
   187_222106_237306_253406_246106,
   188_176806_189106_202206_188906,
   189_139706_149506_160106_146106,
   190_110306_118306_126806_111406,
   191_864307_927707_995707_900807,
   192_677107_727607_781907_702907,
   193_528107_568207_611307_544307,
   194_411907_443707_478007_452907,
   195_319307_344407_371407_363207,
   196_247507_267307_288607_264807,
   197_190907_206407_223107_204207,
   198_147207_159407_172507_161307,
   199_108707_117807_127607_115007,
   200_802208_870408_944408_826808,
   201_609508_662108_719308_686908,
   202_463208_503708_547808_543508,
   203_352008_383208_417308_403808,
   204_267508_291608_317908_298708,
   205_203308_221908_242208_223608,
   206_154208_168508_184208_162408,
   207_117008_128108_140108_125808,
   208_888409_973109_106608_980209,
   209_674409_739609_811209_778309,
   210_512109_562309_617409_581209,
   211_378409_416009_457309_398209,
   212_279609_307709_338709_292209,
   213_206609_227609_250809_220009,
   214_152609_168409_185809_146309,
   215_112809_124609_137609_114609,
   216_825410_912710_100909_826310,
   217_604010_668710_740310_607510,
   218_442010_489910_543010_472410,
   219_323510_359010_398310_354510,
   220_236710_263010_292210_243810,
   221_173410_192810_214510_177110,
   222_127010_141410_157410_128210,
   223_929811_103710_115610_909411,
   224_681011_760111_848511_683811,
   225_498811_557411_622911_498611,
   226_367511_411111_460011_379811,
   227_270711_303311_339711_245811,
   228_199511_223711_250911_196311,
   229_147011_165111_185311_138911,
   230_108311_121811_136911_100311,
   231_807512_908712_102311_811212,
   232_602112_678312_764212_605512,
   233_449012_506512_571212_464512,
   234_335012_378312_427212_364412,
   235_250012_282612_319512_280312,
   236_190512_215612_244012_211012,
   237_145312_164612_186512_186312,
   238_110912_125812_142712_134012,
   239_847513_962513_109312_113312,
   240_648113_736913_837913_924913,
   241_511713_582513_663013_739513,
   242_404613_461113_525513_558913,
   243_320413_365513_417113_426613,
   244_254013_290213_331413_338113,
   245_201713_230613_263713_312313,
   246_171213_196013_224413_251113,
   247_145513_166713_191113_207713,
   248_123713_141913_162813_165613,
   249_105213_120813_138813_154813,
   250_895414_103013_118413_127813]

/-- atmdata/Venus/LAT80S.txt:14196-14346, columns 0 to 4. -/
def venusProfile95 : List ℕ :=
  [100_635202_647902_660902_640302,
   101_603502_615602_627902_613102,
   102_573002_584502_596202_581902,
   103_543802_554702_565802_554802,
   104_515902_526202_536702_525902,
   105_488902_498702_508702_500602,
   106_463102_472402_481802_473302,
   107_438302_447102_456002_447602,
   108_414302_422602_431102_424902,
   109_391702_399502_407502_399002,
   110_369802_377202_384702_374702,
   111_348802_355802_362902_354502,
   112_328802_335402_342102_332502,
   113_309802_316002_322302_311602,
   114_291602_297402_303302_294602,
   115_274002_279502_285102_277202,
   116_257502_262702_268002_260102,
   117_242002_246802_251702_245602,
   118_227302_231802_236402_232602,
   119_213102_217402_221702_217802,
   120_199902_203902_208002_202802,
   121_187402_191102_194902_189702,
   122_175302_178802_182402_177902,
   123_163802_167102_170402_166502,
   124_153102_156202_159302_156602,
   125_142802_145702_148602_146702,
   126_133202_135902_138602_137102,
   127_124002_126502_129002_127902,
   128_115402_117702_120102_119302,
   129_107202_109302_111502_109902,
   130_995103_101502_103502_102202,
   131_922203_940603_959403_934103,
   132_853303_870403_887803_867603,
   133_789603_805303_821503_807003,
   134_728803_743303_758203_743803,
   135_671903_685303_699003_682403,
   136_618503_630903_643503_624303,
   137_568603_579903_591503_575103,
   138_521503_531903_542503_524203,
   139_478103_487703_497403_483103,
   140_437203_445903_454903_436503,
   141_399103_407003_415203_399803,
   142_363403_370603_378103_367303,
   143_330003_336603_343403_335203,
   144_299503_305503_311603_302603,
   145_271203_276603_282103_276103,
   146_245003_249903_254903_247203,
   147_220403_224803_229303_221703,
   148_197703_201703_205703_196103,
   149_176803_180303_183903_176103,
   150_158103_161303_164503_156303,
   151_140803_143803_146803_139003,
   152_124703_127503_130403_121103,
   153_110803_113403_116103_108003,
   154_979704_100403_103003_954804,
   155_862704_885504_909004_834004,
   156_757804_778804_800504_731804,
   157_661504_680804_700604_638604,
   158_570204_587504_605404_547804,
   159_479304_494504_510204_462004,
   160_396704_409804_423304_381904,
   161_327704_339004_350604_311604,
   162_270804_280404_290404_256404,
   163_224004_232304_240804_217204,
   164_185304_192404_199704_183704,
   165_153004_159004_165304_150604,
   166_126304_131404_136804_126904,
   167_103904_108304_112804_107804,
   168_854905_892005_930705_901705,
   169_707805_739405_772505_737905,
   170_585905_612905_641105_622905,
   171_487105_510205_534305_513705,
   172_405005_424605_445305_432605,
   173_336805_353705_371305_337305,
   174_280205_294505_309605_271505,
   175_234005_246305_259205_226805,
   176_195405_205905_217005_187105,
   177_164005_173005_182505_152205,
   178_137605_145405_153605_133005,
   179_114505_121105_128105_109205,
   180_952806_100905_106905_916606,
   181_783306_830506_880606_777106,
   182_644306_684006_726106_635006,
   183_525206_558206_593306_502906,
   184_428306_455806_485006_421206,
   185_345706_368306_392406_351806,
   186_279106_297806_317706_298206,
   187_222106_237306_253406_239506,
   188_176806_189106_202206_186406,
   189_139706_149506_160106_153406,
   190_110306_118306_126806_114906,
   191_864307_927707_995707_901107,
   192_677107_727607_781907_699007,
   193_528107_568207_611307_572307,
   194_411907_443707_478007_446207,
   195_319307_344407_371407_335207,
   196_247507_267307_288607_253607,
   197_190907_206407_223107_195507,
   198_147207_159407_172507_161207,
   199_108707_117807_127607_117507,
   200_802208_870408_944408_870308,
   201_609508_662108_719308_654908,
   202_463208_503708_547808_521308,
   203_352008_383208_417308_397508,
   204_267508_291608_317908_298008,
   205_203308_221908_242208_218608,
   206_154208_168508_184208_162008,
   207_117008_128108_140108_116508,
   208_888409_973109_106608_893809,
   209_674409_739609_811209_670909,
   210_512109_562309_617409_524309,
   211_378409_416009_457309_378409,
   212_279609_307709_338709_300309,
   213_206609_227609_250809_229909,
   214_152609_168409_185809_174509,
   215_112809_124609_137609_130009,
   216_825410_912710_100909_935910,
   217_604010_668710_740310_696610,
   218_442010_489910_543010_560010,
   219_323510_359010_398310_417210,
   220_236710_263010_292210_282410,
   221_173410_192810_214510_211410,
   222_127010_141410_157410_157010,
   223_929811_103710_115610_116810,
   224_681011_760111_848511_817011,
   225_498811_557411_622911_588111,
   226_367511_411111_460011_409411,
   227_270711_303311_339711_331311,
   228_199511_223711_250911_245711,
   229_147011_165111_185311_186611,
   230_108311_121811_136911_137411,
   231_807512_908712_102311_971012,
   232_602112_678312_764212_682712,
   233_449012_506512_571212_551912,
   234_335012_378312_427212_400112,
   235_250012_282612_319512_300212,
   236_190512_215612_244012_232712,
   237_145312_164612_186512_176812,
   238_110912_125812_142712_142212,
   239_847513_962513_109312_109212,
   240_648113_736913_837913_811713,
   241_511713_582513_663013_574413,
   242_404613_461113_525513_434013,
   243_320413_365513_417113_323613,
   244_254013_290213_331413_226713,
   245_201713_230613_263713_175013,
   246_171213_196013_224413_165013,
   247_145513_166713_191113_135313,
   248_123713_141913_162813_117113,
   249_105213_120813_138813_100613,
   250_895414_103013_118413_855414]

/-- atmdata/Venus/LAT80S.txt:14347-14497, columns 0 to 4. -/
def venusProfile96 : List ℕ :=
  [100_635202_647902_660902_649802,
   101_603502_615602_627902_621002,
   102_573002_584502_596202_588302,
   103_543802_554702_565802_559302,
   104_515902_526202_536702_530902,
   105_488902_498702_508702_502402,
   106_463102_472402_481802_477502,
   107_438302_447102_456002_451602,
   108_414302_422602_431102_422902,
   109_391702_399502_407502_396602,
   110_369802_377202_384702_373502,
   111_348802_355802_362902_352602,
   112_328802_335402_342102_331902,
   113_309802_316002_322302_312902,
   114_291602_297402_303302_291602,
   115_274002_279502_285102_272502,
   116_257502_262702_268002_255902,
   117_242002_246802_251702_240602,
   118_227302_231802_236402_225802,
   119_213102_217402_221702_212402,
   120_199902_203902_208002_200402,
   121_187402_191102_194902_187602,
   122_175302_178802_182402_175102,
   123_163802_167102_170402_163602,
   124_153102_156202_159302_153302,
   125_142802_145702_148602_144502,
   126_133202_135902_138602_134202,
   127_124002_126502_129002_125502,
   128_115402_117702_120102_116502,
   129_107202_109302_111502_108602,
   130_995103_101502_103502_101202,
   131_922203_940603_959403_952303,
   132_853303_870403_887803_884003,
   133_789603_805303_821503_813403,
   134_728803_743303_758203_760403,
   135_671903_685303_699003_696403,
   136_618503_630903_643503_642003,
   137_568603_579903_591503_590103,
   138_521503_531903_542503_542003,
   139_478103_487703_497403_491103,
   140_437203_445903_454903_450103,
   141_399103_407003_415203_408903,
   142_363403_370603_378103_376403,
   143_330003_336603_343403_339603,
   144_299503_305503_311603_307503,
   145_271203_276603_282103_278003,
   146_245003_249903_254903_255303,
   147_220403_224803_229303_230603,
   148_197703_201703_205703_204503,
   149_176803_180303_183903_182603,
   150_158103_161303_164503_162403,
   151_140803_143803_146803_146003,
   152_124703_127503_130403_128203,
   153_110803_113403_116103_112903,
   154_979704_100403_103003_102403,
   155_862704_885504_909004_894604,
   156_757804_778804_800504_791804,
   157_661504_680804_700604_693704,
   158_570204_587504_605404_592504,
   159_479304_494504_510204_495504,
   160_396704_409804_423304_411304,
   161_327704_339004_350604_344904,
   162_270804_280404_290404_280004,
   163_224004_232304_240804_231804,
   164_185304_192404_199704_189204,
   165_153004_159004_165304_160904,
   166_126304_131404_136804_134404,
   167_103904_108304_112804_112504,
   168_854905_892005_930705_916705,
   169_707805_739405_772505_745705,
   170_585905_612905_641105_609805,
   171_487105_510205_534305_525105,
   172_405005_424605_445305_430005,
   173_336805_353705_371305_366005,
   174_280205_294505_309605_294305,
   175_234005_246305_259205_250105,
   176_195405_205905_217005_201105,
   177_164005_173005_182505_163405,
   178_137605_145405_153605_141505,
   179_114505_121105_128105_115005,
   180_952806_100905_106905_937206,
   181_783306_830506_880606_772806,
   182_644306_684006_726106_639506,
   183_525206_558206_593306_520706,
   184_428306_455806_485006_430006,
   185_345706_368306_392406_356006,
   186_279106_297806_317706_288306,
   187_222106_237306_253406_228906,
   188_176806_189106_202206_180206,
   189_139706_149506_160106_144206,
   190_110306_118306_126806_121406,
   191_864307_927707_995707_919007,
   192_677107_727607_781907_707407,
   193_528107_568207_611307_553207,
   194_411907_443707_478007_472507,
   195_319307_344407_371407_363707,
   196_247507_267307_288607_277707,
   197_190907_206407_223107_211607,
   198_147207_159407_172507_158307,
   199_108707_117807_127607_117707,
   200_802208_870408_944408_902508,
   201_609508_662108_719308_701708,
   202_463208_503708_547808_554908,
   203_352008_383208_417308_431408,
   204_267508_291608_317908_324908,
   205_203308_221908_242208_274508,
   206_154208_168508_184208_202908,
   207_117008_128108_140108_151708,
   208_888409_973109_106608_111508,
   209_674409_739609_811209_860409,
   210_512109_562309_617409_701709,
   211_378409_416009_457309_507309,
   212_279609_307709_338709_369109,
   213_206609_227609_250809_284609,
   214_152609_168409_185809_206209,
   215_112809_124609_137609_148109,
   216_825410_912710_100909_106509,
   217_604010_668710_740310_804010,
   218_442010_489910_543010_551910,
   219_323510_359010_398310_415410,
   220_236710_263010_292210_279110,
   221_173410_192810_214510_191310,
   222_127010_141410_157410_127810,
   223_929811_103710_115610_907711,
   224_681011_760111_848511_702411,
   225_498811_557411_622911_513111,
   226_367511_411111_460011_386211,
   227_270711_303311_339711_308111,
   228_199511_223711_250911_222611,
   229_147011_165111_185311_162411,
   230_108311_121811_136911_127411,
   231_807512_908712_102311_946012,
   232_602112_678312_764212_745812,
   233_449012_506512_571212_534212,
   234_335012_378312_427212_420712,
   235_250012_282612_319512_309212,
   236_190512_215612_244012_251112,
   237_145312_164612_186512_171812,
   238_110912_125812_142712_131912,
   239_847513_962513_109312_963613,
   240_648113_736913_837913_769613,
   241_511713_582513_663013_591213,
   242_404613_461113_525513_435013,
   243_320413_365513_417113_374313,
   244_254013_290213_331413_294213,
   245_201713_230613_263713_231413,
   246_171213_196013_224413_196713,
   247_145513_166713_191113_190113,
   248_123713_141913_162813_166713,
   249_105213_120813_138813_149913,
   250_895414_103013_118413_123313]

/-- atmdata/Venus/LAT80S.txt:14498-14648, columns 0 to 4. -/
def venusProfile97 : List ℕ :=
  [100_635202_647902_660902_660902,
   101_603502_615602_627902_630602,
   102_573002_584502_596202_596002,
   103_543802_554702_565802_565302,
   104_515902_526202_536702_537402,
   105_488902_498702_508702_514702,
   106_463102_472402_481802_484802,
   107_438302_447102_456002_458402,
   108_414302_422602_431102_431702,
   109_391702_399502_407502_403102,
   110_369802_377202_384702_380202,
   111_348802_355802_362902_357902,
   112_328802_335402_342102_337802,
   113_309802_316002_322302_320002,
   114_291602_297402_303302_300102,
   115_274002_279502_285102_282502,
   116_257502_262702_268002_265202,
   117_242002_246802_251702_247602,
   118_227302_231802_236402_233602,
   119_213102_217402_221702_220802,
   120_199902_203902_208002_207002,
   121_187402_191102_194902_193702,
   122_175302_178802_182402_182202,
   123_163802_167102_170402_169702,
   124_153102_156202_159302_158202,
   125_142802_145702_148602_146602,
   126_133202_135902_138602_137302,
   127_124002_126502_129002_128602,
   128_115402_117702_120102_120502,
   129_107202_109302_111502_111502,
   130_995103_101502_103502_104002,
   131_922203_940603_959403_974603,
   132_853303_870403_887803_903903,
   133_789603_805303_821503_836403,
   134_728803_743303_758203_771303,
   135_671903_685303_699003_705303,
   136_618503_630903_643503_644203,
   137_568603_579903_591503_591503,
   138_521503_531903_542503_538403,
   139_478103_487703_497403_492003,
   140_437203_445903_454903_448103,
   141_399103_407003_415203_411903,
   142_363403_370603_378103_370103,
   143_330003_336603_343403_336803,
   144_299503_305503_311603_306103,
   145_271203_276603_282103_273203,
   146_245003_249903_254903_249203,
   147_220403_224803_229303_223303,
   148_197703_201703_205703_198803,
   149_176803_180303_183903_177103,
   150_158103_161303_164503_158303,
   151_140803_143803_146803_140803,
   152_124703_127503_130403_124003,
   153_110803_113403_116103_110803,
   154_979704_100403_103003_984404,
   155_862704_885504_909004_861204,
   156_757804_778804_800504_749104,
   157_661504_680804_700604_662604,
   158_570204_587504_605404_565504,
   159_479304_494504_510204_470504,
   160_396704_409804_423304_394504,
   161_327704_339004_350604_327804,
   162_270804_280404_290404_278104,
   163_224004_232304_240804_226004,
   164_185304_192404_199704_187504,
   165_153004_159004_165304_156304,
   166_126304_131404_136804_130304,
   167_103904_108304_112804_108504,
   168_854905_892005_930705_911005,
   169_707805_739405_772505_736505,
   170_585905_612905_641105_615905,
   171_487105_510205_534305_514305,
   172_405005_424605_445305_434005,
   173_336805_353705_371305_365405,
   174_280205_294505_309605_294705,
   175_234005_246305_259205_241005,
   176_195405_205905_217005_207405,
   177_164005_173005_182505_168505,
   178_137605_145405_153605_145305,
   179_114505_121105_128105_116905,
   180_952806_100905_106905_997706,
   181_783306_830506_880606_792906,
   182_644306_684006_726106_662406,
   183_525206_558206_593306_548606,
   184_428306_455806_485006_446706,
   185_345706_368306_392406_366406,
   186_279106_297806_317706_280806,
   187_222106_237306_253406_219906,
   188_176806_189106_202206_174906,
   189_139706_149506_160106_136906,
   190_110306_118306_126806_113906,
   191_864307_927707_995707_918407,
   192_677107_727607_781907_701807,
   193_528107_568207_611307_522107,
   194_411907_443707_478007_411007,
   195_319307_344407_371407_328507,
   196_247507_267307_288607_256307,
   197_190907_206407_223107_195807,
   198_147207_159407_172507_150807,
   199_108707_117807_127607_114807,
   200_802208_870408_944408_823408,
   201_609508_662108_719308_605408,
   202_463208_503708_547808_486308,
   203_352008_383208_417308_349208,
   204_267508_291608_317908_270508,
   205_203308_221908_242208_214508,
   206_154208_168508_184208_163208,
   207_117008_128108_140108_129908,
   208_888409_973109_106608_930309,
   209_674409_739609_811209_687209,
   210_512109_562309_617409_514809,
   211_378409_416009_457309_388909,
   212_279609_307709_338709_266909,
   213_206609_227609_250809_188409,
   214_152609_168409_185809_135709,
   215_112809_124609_137609_962010,
   216_825410_912710_100909_723610,
   217_604010_668710_740310_501210,
   218_442010_489910_543010_361510,
   219_323510_359010_398310_290310,
   220_236710_263010_292210_194810,
   221_173410_192810_214510_146010,
   222_127010_141410_157410_107910,
   223_929811_103710_115610_836411,
   224_681011_760111_848511_617611,
   225_498811_557411_622911_457311,
   226_367511_411111_460011_316111,
   227_270711_303311_339711_257211,
   228_199511_223711_250911_178711,
   229_147011_165111_185311_119311,
   230_108311_121811_136911_861112,
   231_807512_908712_102311_702312,
   232_602112_678312_764212_545912,
   233_449012_506512_571212_420312,
   234_335012_378312_427212_315412,
   235_250012_282612_319512_232912,
   236_190512_215612_244012_171412,
   237_145312_164612_186512_134812,
   238_110912_125812_142712_100812,
   239_847513_962513_109312_839013,
   240_648113_736913_837913_616613,
   241_511713_582513_663013_505913,
   242_404613_461113_525513_491813,
   243_320413_365513_417113_400013,
   244_254013_290213_331413_335813,
   245_201713_230613_263713_269413,
   246_171213_196013_224413_212713,
   247_145513_166713_191113_187213,
   248_123713_141913_162813_144513,
   249_105213_120813_138813_120213,
   250_895414_103013_118413_100113]

/-- atmdata/Venus/LAT80S.txt:14649-14799, columns 0 to 4. -/
def venusProfile98 : List ℕ :=
  [100_635202_647902_660902_633302,
   101_603502_615602_627902_604602,
   102_573002_584502_596202_570802,
   103_543802_554702_565802_540902,
   104_515902_526202_536702_516102,
   105_488902_498702_508702_489902,
   106_463102_472402_481802_464802,
   107_438302_447102_456002_440202,
   108_414302_422602_431102_416402,
   109_391702_399502_407502_397502,
   110_369802_377202_384702_375902,
   111_348802_355802_362902_352902,
   112_328802_335402_342102_334602,
   113_309802_316002_322302_314002,
   114_291602_297402_303302_295602,
   115_274002_279502_285102_276602,
   116_257502_262702_268002_260002,
   117_242002_246802_251702_245402,
   118_227302_231802_236402_229802,
   119_213102_217402_221702_214602,
   120_199902_203902_208002_200602,
   121_187402_191102_194902_188102,
   122_175302_178802_182402_176002,
   123_163802_167102_170402_163602,
   124_153102_156202_159302_151902,
   125_142802_145702_148602_141502,
   126_133202_135902_138602_131902,
   127_124002_126502_129002_124202,
   128_115402_117702_120102_115702,
   129_107202_109302_111502_108302,
   130_995103_101502_103502_101702,
   131_922203_940603_959403_952503,
   132_853303_870403_887803_884503,
   133_789603_805303_821503_808503,
   134_728803_743303_758203_741303,
   135_671903_685303_699003_678303,
   136_618503_630903_643503_626003,
   137_568603_579903_591503_575203,
   138_521503_531903_542503_528903,
   139_478103_487703_497403_486003,
   140_437203_445903_454903_448503,
   141_399103_407003_415203_409203,
   142_363403_370603_378103_369303,
   143_330003_336603_343403_331803,
   144_299503_305503_311603_302903,
   145_271203_276603_282103_274803,
   146_245003_249903_254903_249903,
   147_220403_224803_229303_225903,
   148_197703_201703_205703_201303,
   149_176803_180303_183903_178103,
   150_158103_161303_164503_159503,
   151_140803_143803_146803_143503,
   152_124703_127503_130403_126703,
   153_110803_113403_116103_112003,
   154_979704_100403_103003_985204,
   155_862704_885504_909004_862604,
   156_757804_778804_800504_759604,
   157_661504_680804_700604_653304,
   158_570204_587504_605404_556204,
   159_479304_494504_510204_481004,
   160_396704_409804_423304_409804,
   161_327704_339004_350604_336804,
   162_270804_280404_290404_282104,
   163_224004_232304_240804_235504,
   164_185304_192404_199704_197604,
   165_153004_159004_165304_162204,
   166_126304_131404_136804_134404,
   167_103904_108304_112804_111204,
   168_854905_892005_930705_909205,
   169_707805_739405_772505_726005,
   170_585905_612905_641105_587705,
   171_487105_510205_534305_481905,
   172_405005_424605_445305_397805,
   173_336805_353705_371305_334505,
   174_280205_294505_309605_272005,
   175_234005_246305_259205_229305,
   176_195405_205905_217005_195605,
   177_164005_173005_182505_159705,
   178_137605_145405_153605_138205,
   179_114505_121105_128105_108205,
   180_952806_100905_106905_908006,
   181_783306_830506_880606_765106,
   182_644306_684006_726106_650906,
   183_525206_558206_593306_560306,
   184_428306_455806_485006_450906,
   185_345706_368306_392406_367706,
   186_279106_297806_317706_298706,
   187_222106_237306_253406_225706,
   188_176806_189106_202206_180406,
   189_139706_149506_160106_152406,
   190_110306_118306_126806_124306,
   191_864307_927707_995707_968607,
   192_677107_727607_781907_729407,
   193_528107_568207_611307_575007,
   194_411907_443707_478007_421307,
   195_319307_344407_371407_311707,
   196_247507_267307_288607_247707,
   197_190907_206407_223107_188907,
   198_147207_159407_172507_148907,
   199_108707_117807_127607_117807,
   200_802208_870408_944408_871508,
   201_609508_662108_719308_664508,
   202_463208_503708_547808_530208,
   203_352008_383208_417308_394008,
   204_267508_291608_317908_305608,
   205_203308_221908_242208_234908,
   206_154208_168508_184208_179408,
   207_117008_128108_140108_132708,
   208_888409_973109_106608_104508,
   209_674409_739609_811209_801809,
   210_512109_562309_617409_612609,
   211_378409_416009_457309_466409,
   212_279609_307709_338709_344509,
   213_206609_227609_250809_246009,
   214_152609_168409_185809_190509,
   215_112809_124609_137609_145609,
   216_825410_912710_100909_106309,
   217_604010_668710_740310_751110,
   218_442010_489910_543010_535110,
   219_323510_359010_398310_415110,
   220_236710_263010_292210_270110,
   221_173410_192810_214510_205710,
   222_127010_141410_157410_153810,
   223_929811_103710_115610_107810,
   224_681011_760111_848511_681411,
   225_498811_557411_622911_501111,
   226_367511_411111_460011_374811,
   227_270711_303311_339711_294311,
   228_199511_223711_250911_227911,
   229_147011_165111_185311_171111,
   230_108311_121811_136911_126111,
   231_807512_908712_102311_882712,
   232_602112_678312_764212_646112,
   233_449012_506512_571212_514212,
   234_335012_378312_427212_418612,
   235_250012_282612_319512_295912,
   236_190512_215612_244012_223412,
   237_145312_164612_186512_156812,
   238_110912_125812_142712_131512,
   239_847513_962513_109312_998513,
   240_648113_736913_837913_772613,
   241_511713_582513_663013_659513,
   242_404613_461113_525513_552813,
   243_320413_365513_417113_432213,
   244_254013_290213_331413_330013,
   245_201713_230613_263713_275713,
   246_171213_196013_224413_239713,
   247_145513_166713_191113_201713,
   248_123713_141913_162813_166013,
   249_105213_120813_138813_146613,
   250_895414_103013_118413_119913]

/-- atmdata/Venus/LAT80S.txt:14800-14950, columns 0 to 4. -/
def venusProfile99 : List ℕ :=
  [100_635202_647902_660902_645002,
   101_603502_615602_627902_614902,
   102_573002_584502_596202_590002,
   103_543802_554702_565802_557202,
   104_515902_526202_536702_533502,
   105_488902_498702_508702_503002,
   106_463102_472402_481802_480802,
   107_438302_447102_456002_455102,
   108_414302_422602_431102_431302,
   109_391702_399502_407502_410402,
   110_369802_377202_384702_388402,
   111_348802_355802_362902_361502,
   112_328802_335402_342102_338102,
   113_309802_316002_322302_318802,
   114_291602_297402_303302_301002,
   115_274002_279502_285102_283702,
   116_257502_262702_268002_266602,
   117_242002_246802_251702_250202,
   118_227302_231802_236402_235502,
   119_213102_217402_221702_220702,
   120_199902_203902_208002_208602,
   121_187402_191102_194902_195502,
   122_175302_178802_182402_181102,
   123_163802_167102_170402_171102,
   124_153102_156202_159302_160702,
   125_142802_145702_148602_149802,
   126_133202_135902_138602_140702,
   127_124002_126502_129002_129602,
   128_115402_117702_120102_119702,
   129_107202_109302_111502_111102,
   130_995103_101502_103502_102302,
   131_922203_940603_959403_956503,
   132_853303_870403_887803_888303,
   133_789603_805303_821503_820403,
   134_728803_743303_758203_759103,
   135_671903_685303_699003_692903,
   136_618503_630903_643503_633003,
   137_568603_579903_591503_580903,
   138_521503_531903_542503_529203,
   139_478103_487703_497403_489103,
   140_437203_445903_454903_447503,
   141_399103_407003_415203_405403,
   142_363403_370603_378103_366803,
   143_330003_336603_343403_333203,
   144_299503_305503_311603_306503,
   145_271203_276603_282103_275703,
   146_245003_249903_254903_250203,
   147_220403_224803_229303_224003,
   148_197703_201703_205703_200003,
   149_176803_180303_183903_180203,
   150_158103_161303_164503_161703,
   151_140803_143803_146803_143803,
   152_124703_127503_130403_127303,
   153_110803_113403_116103_114003,
   154_979704_100403_103003_101803,
   155_862704_885504_909004_891804,
   156_757804_778804_800504_794704,
   157_661504_680804_700604_690204,
   158_570204_587504_605404_584504,
   159_479304_494504_510204_497404,
   160_396704_409804_423304_407604,
   161_327704_339004_350604_329804,
   162_270804_280404_290404_274604,
   163_224004_232304_240804_226204,
   164_185304_192404_199704_184404,
   165_153004_159004_165304_149204,
   166_126304_131404_136804_123904,
   167_103904_108304_112804_102604,
   168_854905_892005_930705_869205,
   169_707805_739405_772505_743905,
   170_585905_612905_641105_617105,
   171_487105_510205_534305_522005,
   172_405005_424605_445305_441005,
   173_336805_353705_371305_365305,
   174_280205_294505_309605_296105,
   175_234005_246305_259205_255405,
   176_195405_205905_217005_214005,
   177_164005_173005_182505_173905,
   178_137605_145405_153605_149305,
   179_114505_121105_128105_128605,
   180_952806_100905_106905_103905,
   181_783306_830506_880606_845506,
   182_644306_684006_726106_657406,
   183_525206_558206_593306_529306,
   184_428306_455806_485006_422006,
   185_345706_368306_392406_344306,
   186_279106_297806_317706_270006,
   187_222106_237306_253406_223106,
   188_176806_189106_202206_179706,
   189_139706_149506_160106_144706,
   190_110306_118306_126806_117606,
   191_864307_927707_995707_892807,
   192_677107_727607_781907_665507,
   193_528107_568207_611307_508207,
   194_411907_443707_478007_401907,
   195_319307_344407_371407_310707,
   196_247507_267307_288607_251407,
   197_190907_206407_223107_190507,
   198_147207_159407_172507_154107,
   199_108707_117807_127607_110507,
   200_802208_870408_944408_849508,
   201_609508_662108_719308_678808,
   202_463208_503708_547808_540808,
   203_352008_383208_417308_410708,
   204_267508_291608_317908_321708,
   205_203308_221908_242208_242208,
   206_154208_168508_184208_186808,
   207_117008_128108_140108_143208,
   208_888409_973109_106608_109108,
   209_674409_739609_811209_783209,
   210_512109_562309_617409_627209,
   211_378409_416009_457309_423809,
   212_279609_307709_338709_298909,
   213_206609_227609_250809_219609,
   214_152609_168409_185809_165209,
   215_112809_124609_137609_123909,
   216_825410_912710_100909_923910,
   217_604010_668710_740310_674810,
   218_442010_489910_543010_490610,
   219_323510_359010_398310_313810,
   220_236710_263010_292210_259010,
   221_173410_192810_214510_182310,
   222_127010_141410_157410_124410,
   223_929811_103710_115610_947611,
   224_681011_760111_848511_709011,
   225_498811_557411_622911_520511,
   226_367511_411111_460011_453711,
   227_270711_303311_339711_347111,
   228_199511_223711_250911_255311,
   229_147011_165111_185311_181011,
   230_108311_121811_136911_138711,
   231_807512_908712_102311_101511,
   232_602112_678312_764212_692012,
   233_449012_506512_571212_493712,
   234_335012_378312_427212_369412,
   235_250012_282612_319512_254112,
   236_190512_215612_244012_201912,
   237_145312_164612_186512_156712,
   238_110912_125812_142712_122712,
   239_847513_962513_109312_877813,
   240_648113_736913_837913_588413,
   241_511713_582513_663013_453413,
   242_404613_461113_525513_389113,
   243_320413_365513_417113_303413,
   244_254013_290213_331413_255313,
   245_201713_230613_263713_189113,
   246_171213_196013_224413_161013,
   247_145513_166713_191113_135313,
   248_123713_141913_162813_120713,
   249_105213_120813_138813_100613,
   250_895414_103013_118413_841514]

/-- atmdata/Venus/LAT80S.txt:14951-15101, columns 0 to 4. -/
def venusProfile100 : List ℕ :=
  [100_635202_647902_660902_654402,
   101_603502_615602_627902_623202,
   102_573002_584502_596202_594702,
   103_543802_554702_565802_558202,
   104_515902_526202_536702_526102,
   105_488902_498702_508702_500402,
   106_463102_472402_481802_473102,
   107_438302_447102_456002_448202,
   108_414302_422602_431102_427902,
   109_391702_399502_407502_406702,
   110_369802_377202_384702_386302,
   111_348802_355802_362902_365902,
   112_328802_335402_342102_343702,
   113_309802_316002_322302_326102,
   114_291602_297402_303302_310102,
   115_274002_279502_285102_290202,
   116_257502_262702_268002_272502,
   117_242002_246802_251702_254202,
   118_227302_231802_236402_237102,
   119_213102_217402_221702_223002,
   120_199902_203902_208002_209402,
   121_187402_191102_194902_196302,
   122_175302_178802_182402_183902,
   123_163802_167102_170402_172502,
   124_153102_156202_159302_161302,
   125_142802_145702_148602_150702,
   126_133202_135902_138602_140402,
   127_124002_126502_129002_129802,
   128_115402_117702_120102_121102,
   129_107202_109302_111502_111302,
   130_995103_101502_103502_102802,
   131_922203_940603_959403_960503,
   132_853303_870403_887803_892103,
   133_789603_805303_821503_829403,
   134_728803_743303_758203_762003,
   135_671903_685303_699003_693803,
   136_618503_630903_643503_639503,
   137_568603_579903_591503_586103,
   138_521503_531903_542503_538403,
   139_478103_487703_497403_490503,
   140_437203_445903_454903_445903,
   141_399103_407003_415203_408603,
   142_363403_370603_378103_370203,
   143_330003_336603_343403_339103,
   144_299503_305503_311603_305703,
   145_271203_276603_282103_278003,
   146_245003_249903_254903_251803,
   147_220403_224803_229303_227303,
   148_197703_201703_205703_203003,
   149_176803_180303_183903_181903,
   150_158103_161303_164503_163603,
   151_140803_143803_146803_147203,
   152_124703_127503_130403_130503,
   153_110803_113403_116103_115603,
   154_979704_100403_103003_102203,
   155_862704_885504_909004_896004,
   156_757804_778804_800504_783404,
   157_661504_680804_700604_685004,
   158_570204_587504_605404_574804,
   159_479304_494504_510204_486404,
   160_396704_409804_423304_402204,
   161_327704_339004_350604_336404,
   162_270804_280404_290404_278404,
   163_224004_232304_240804_235904,
   164_185304_192404_199704_194904,
   165_153004_159004_165304_163004,
   166_126304_131404_136804_134204,
   167_103904_108304_112804_110004,
   168_854905_892005_930705_902205,
   169_707805_739405_772505_763205,
   170_585905_612905_641105_650605,
   171_487105_510205_534305_537205,
   172_405005_424605_445305_441205,
   173_336805_353705_371305_362705,
   174_280205_294505_309605_294705,
   175_234005_246305_259205_243805,
   176_195405_205905_217005_203205,
   177_164005_173005_182505_166005,
   178_137605_145405_153605_142805,
   179_114505_121105_128105_122305,
   180_952806_100905_106905_104005,
   181_783306_830506_880606_902906,
   182_644306_684006_726106_723206,
   183_525206_558206_593306_589906,
   184_428306_455806_485006_450106,
   185_345706_368306_392406_363606,
   186_279106_297806_317706_297206,
   187_222106_237306_253406_239306,
   188_176806_189106_202206_193106,
   189_139706_149506_160106_150906,
   190_110306_118306_126806_121706,
   191_864307_927707_995707_976407,
   192_677107_727607_781907_806607,
   193_528107_568207_611307_637307,
   194_411907_443707_478007_469207,
   195_319307_344407_371407_367307,
   196_247507_267307_288607_305107,
   197_190907_206407_223107_227307,
   198_147207_159407_172507_167007,
   199_108707_117807_127607_121607,
   200_802208_870408_944408_866308,
   201_609508_662108_719308_647108,
   202_463208_503708_547808_518408,
   203_352008_383208_417308_405308,
   204_267508_291608_317908_325308,
   205_203308_221908_242208_240608,
   206_154208_168508_184208_188608,
   207_117008_128108_140108_135108,
   208_888409_973109_106608_101208,
   209_674409_739609_811209_770709,
   210_512109_562309_617409_567609,
   211_378409_416009_457309_406709,
   212_279609_307709_338709_306909,
   213_206609_227609_250809_228709,
   214_152609_168409_185809_166509,
   215_112809_124609_137609_121709,
   216_825410_912710_100909_915710,
   217_604010_668710_740310_685610,
   218_442010_489910_543010_504310,
   219_323510_359010_398310_344710,
   220_236710_263010_292210_276510,
   221_173410_192810_214510_202710,
   222_127010_141410_157410_146210,
   223_929811_103710_115610_102910,
   224_681011_760111_848511_726311,
   225_498811_557411_622911_533211,
   226_367511_411111_460011_393211,
   227_270711_303311_339711_302911,
   228_199511_223711_250911_218411,
   229_147011_165111_185311_171411,
   230_108311_121811_136911_119611,
   231_807512_908712_102311_922312,
   232_602112_678312_764212_715912,
   233_449012_506512_571212_532712,
   234_335012_378312_427212_361312,
   235_250012_282612_319512_292112,
   236_190512_215612_244012_247612,
   237_145312_164612_186512_174812,
   238_110912_125812_142712_130012,
   239_847513_962513_109312_102512,
   240_648113_736913_837913_771913,
   241_511713_582513_663013_610613,
   242_404613_461113_525513_497113,
   243_320413_365513_417113_363113,
   244_254013_290213_331413_274213,
   245_201713_230613_263713_213013,
   246_171213_196013_224413_161513,
   247_145513_166713_191113_128113,
   248_123713_141913_162813_125013,
   249_105213_120813_138813_112113,
   250_895414_103013_118413_927614]

/-- atmdata/Venus/LAT80S.txt:15102-15252, columns 0 to 4. -/
def venusProfile101 : List ℕ :=
  [100_635202_647902_660902_673502,
   101_603502_615602_627902_640302,
   102_573002_584502_596202_609202,
   103_543802_554702_565802_580302,
   104_515902_526202_536702_547802,
   105_488902_498702_508702_517602,
   106_463102_472402_481802_491502,
   107_438302_447102_456002_465102,
   108_414302_422602_431102_437402,
   109_391702_399502_407502_415002,
   110_369802_377202_384702_388102,
   111_348802_355802_362902_366502,
   112_328802_335402_342102_345402,
   113_309802_316002_322302_324202,
   114_291602_297402_303302_303602,
   115_274002_279502_285102_286502,
   116_257502_262702_268002_269402,
   117_242002_246802_251702_253902,
   118_227302_231802_236402_238502,
   119_213102_217402_221702_221002,
   120_199902_203902_208002_206802,
   121_187402_191102_194902_194102,
   122_175302_178802_182402_180902,
   123_163802_167102_170402_169402,
   124_153102_156202_159302_157902,
   125_142802_145702_148602_148402,
   126_133202_135902_138602_137102,
   127_124002_126502_129002_127102,
   128_115402_117702_120102_118002,
   129_107202_109302_111502_109802,
   130_995103_101502_103502_101702,
   131_922203_940603_959403_949903,
   132_853303_870403_887803_883003,
   133_789603_805303_821503_813203,
   134_728803_743303_758203_755303,
   135_671903_685303_699003_706003,
   136_618503_630903_643503_644303,
   137_568603_579903_591503_589803,
   138_521503_531903_542503_536803,
   139_478103_487703_497403_491703,
   140_437203_445903_454903_452003,
   141_399103_407003_415203_411303,
   142_363403_370603_378103_373003,
   143_330003_336603_343403_337703,
   144_299503_305503_311603_305703,
   145_271203_276603_282103_276003,
   146_245003_249903_254903_249703,
   147_220403_224803_229303_223503,
   148_197703_201703_205703_199903,
   149_176803_180303_183903_178703,
   150_158103_161303_164503_162003,
   151_140803_143803_146803_144203,
   152_124703_127503_130403_128003,
   153_110803_113403_116103_115103,
   154_979704_100403_103003_100503,
   155_862704_885504_909004_881904,
   156_757804_778804_800504_779404,
   157_661504_680804_700604_686304,
   158_570204_587504_605404_604104,
   159_479304_494504_510204_507704,
   160_396704_409804_423304_421904,
   161_327704_339004_350604_348704,
   162_270804_280404_290404_286404,
   163_224004_232304_240804_237404,
   164_185304_192404_199704_198704,
   165_153004_159004_165304_163804,
   166_126304_131404_136804_134404,
   167_103904_108304_112804_109504,
   168_854905_892005_930705_931005,
   169_707805_739405_772505_781005,
   170_585905_612905_641105_641105,
   171_487105_510205_534305_512705,
   172_405005_424605_445305_434905,
   173_336805_353705_371305_354405,
   174_280205_294505_309605_289105,
   175_234005_246305_259205_244805,
   176_195405_205905_217005_202005,
   177_164005_173005_182505_165305,
   178_137605_145405_153605_142105,
   179_114505_121105_128105_120905,
   180_952806_100905_106905_100605,
   181_783306_830506_880606_834706,
   182_644306_684006_726106_681106,
   183_525206_558206_593306_571306,
   184_428306_455806_485006_479306,
   185_345706_368306_392406_383606,
   186_279106_297806_317706_301606,
   187_222106_237306_253406_239106,
   188_176806_189106_202206_194506,
   189_139706_149506_160106_146606,
   190_110306_118306_126806_117806,
   191_864307_927707_995707_921707,
   192_677107_727607_781907_752407,
   193_528107_568207_611307_577107,
   194_411907_443707_478007_452407,
   195_319307_344407_371407_370807,
   196_247507_267307_288607_276707,
   197_190907_206407_223107_205907,
   198_147207_159407_172507_156707,
   199_108707_117807_127607_116707,
   200_802208_870408_944408_862708,
   201_609508_662108_719308_667508,
   202_463208_503708_547808_534308,
   203_352008_383208_417308_379208,
   204_267508_291608_317908_273108,
   205_203308_221908_242208_199408,
   206_154208_168508_184208_165108,
   207_117008_128108_140108_125508,
   208_888409_973109_106608_921909,
   209_674409_739609_811209_783109,
   210_512109_562309_617409_595909,
   211_378409_416009_457309_434909,
   212_279609_307709_338709_310509,
   213_206609_227609_250809_235409,
   214_152609_168409_185809_163609,
   215_112809_124609_137609_115709,
   216_825410_912710_100909_883710,
   217_604010_668710_740310_685210,
   218_442010_489910_543010_510710,
   219_323510_359010_398310_354310,
   220_236710_263010_292210_281010,
   221_173410_192810_214510_216510,
   222_127010_141410_157410_161710,
   223_929811_103710_115610_120110,
   224_681011_760111_848511_901611,
   225_498811_557411_622911_651711,
   226_367511_411111_460011_505511,
   227_270711_303311_339711_378311,
   228_199511_223711_250911_255511,
   229_147011_165111_185311_186711,
   230_108311_121811_136911_135711,
   231_807512_908712_102311_922312,
   232_602112_678312_764212_688312,
   233_449012_506512_571212_538812,
   234_335012_378312_427212_404512,
   235_250012_282612_319512_313512,
   236_190512_215612_244012_228912,
   237_145312_164612_186512_176612,
   238_110912_125812_142712_121812,
   239_847513_962513_109312_915213,
   240_648113_736913_837913_741113,
   241_511713_582513_663013_618613,
   242_404613_461113_525513_495813,
   243_320413_365513_417113_417313,
   244_254013_290213_331413_332613,
   245_201713_230613_263713_262613,
   246_171213_196013_224413_225613,
   247_145513_166713_191113_201513,
   248_123713_141913_162813_162913,
   249_105213_120813_138813_130913,
   250_895414_103013_118413_106413]

/-- atmdata/Venus/LAT80S.txt:15253-15403, columns 0 to 4. -/
def venusProfile102 : List ℕ :=
  [100_635202_647902_660902_639702,
   101_603502_615602_627902_608802,
   102_573002_584502_596202_579202,
   103_543802_554702_565802_551202,
   104_515902_526202_536702_522102,
   105_488902_498702_508702_498802,
   106_463102_472402_481802_470302,
   107_438302_447102_456002_445902,
   108_414302_422602_431102_421202,
   109_391702_399502_407502_399802,
   110_369802_377202_384702_375902,
   111_348802_355802_362902_354502,
   112_328802_335402_342102_335602,
   113_309802_316002_322302_316902,
   114_291602_297402_303302_298002,
   115_274002_279502_285102_279602,
   116_257502_262702_268002_263202,
   117_242002_246802_251702_247102,
   118_227302_231802_236402_229602,
   119_213102_217402_221702_214802,
   120_199902_203902_208002_200002,
   121_187402_191102_194902_188202,
   122_175302_178802_182402_177202,
   123_163802_167102_170402_165702,
   124_153102_156202_159302_153702,
   125_142802_145702_148602_142502,
   126_133202_135902_138602_133302,
   127_124002_126502_129002_123902,
   128_115402_117702_120102_116602,
   129_107202_109302_111502_107902,
   130_995103_101502_103502_100202,
   131_922203_940603_959403_936303,
   132_853303_870403_887803_871103,
   133_789603_805303_821503_807903,
   134_728803_743303_758203_745003,
   135_671903_685303_699003_693903,
   136_618503_630903_643503_639403,
   137_568603_579903_591503_585003,
   138_521503_531903_542503_537503,
   139_478103_487703_497403_494503,
   140_437203_445903_454903_451603,
   141_399103_407003_415203_417003,
   142_363403_370603_378103_378403,
   143_330003_336603_343403_344803,
   144_299503_305503_311603_312803,
   145_271203_276603_282103_285203,
   146_245003_249903_254903_257203,
   147_220403_224803_229303_231803,
   148_197703_201703_205703_207103,
   149_176803_180303_183903_184003,
   150_158103_161303_164503_163003,
   151_140803_143803_146803_146803,
   152_124703_127503_130403_130503,
   153_110803_113403_116103_116003,
   154_979704_100403_103003_103103,
   155_862704_885504_909004_904404,
   156_757804_778804_800504_783004,
   157_661504_680804_700604_699804,
   158_570204_587504_605404_612604,
   159_479304_494504_510204_512004,
   160_396704_409804_423304_428804,
   161_327704_339004_350604_350804,
   162_270804_280404_290404_286304,
   163_224004_232304_240804_233404,
   164_185304_192404_199704_189404,
   165_153004_159004_165304_154504,
   166_126304_131404_136804_126804,
   167_103904_108304_112804_103104,
   168_854905_892005_930705_852005,
   169_707805_739405_772505_716205,
   170_585905_612905_641105_604505,
   171_487105_510205_534305_507305,
   172_405005_424605_445305_419105,
   173_336805_353705_371305_336105,
   174_280205_294505_309605_275505,
   175_234005_246305_259205_224305,
   176_195405_205905_217005_183505,
   177_164005_173005_182505_151105,
   178_137605_145405_153605_130905,
   179_114505_121105_128105_111705,
   180_952806_100905_106905_909106,
   181_783306_830506_880606_742006,
   182_644306_684006_726106_618306,
   183_525206_558206_593306_493706,
   184_428306_455806_485006_414006,
   185_345706_368306_392406_333206,
   186_279106_297806_317706_276406,
   187_222106_237306_253406_217306,
   188_176806_189106_202206_180006,
   189_139706_149506_160106_145706,
   190_110306_118306_126806_116606,
   191_864307_927707_995707_885607,
   192_677107_727607_781907_717507,
   193_528107_568207_611307_581707,
   194_411907_443707_478007_433207,
   195_319307_344407_371407_330107,
   196_247507_267307_288607_252907,
   197_190907_206407_223107_188007,
   198_147207_159407_172507_147107,
   199_108707_117807_127607_112407,
   200_802208_870408_944408_860908,
   201_609508_662108_719308_620808,
   202_463208_503708_547808_500208,
   203_352008_383208_417308_373208,
   204_267508_291608_317908_275208,
   205_203308_221908_242208_222508,
   206_154208_168508_184208_161108,
   207_117008_128108_140108_128908,
   208_888409_973109_106608_104508,
   209_674409_739609_811209_785509,
   210_512109_562309_617409_620409,
   211_378409_416009_457309_460409,
   212_279609_307709_338709_347609,
   213_206609_227609_250809_266409,
   214_152609_168409_185809_200909,
   215_112809_124609_137609_153309,
   216_825410_912710_100909_115109,
   217_604010_668710_740310_789310,
   218_442010_489910_543010_588210,
   219_323510_359010_398310_410210,
   220_236710_263010_292210_316810,
   221_173410_192810_214510_222910,
   222_127010_141410_157410_152210,
   223_929811_103710_115610_106910,
   224_681011_760111_848511_771711,
   225_498811_557411_622911_565711,
   226_367511_411111_460011_411211,
   227_270711_303311_339711_313111,
   228_199511_223711_250911_239811,
   229_147011_165111_185311_166111,
   230_108311_121811_136911_127411,
   231_807512_908712_102311_929212,
   232_602112_678312_764212_667112,
   233_449012_506512_571212_472112,
   234_335012_378312_427212_333212,
   235_250012_282612_319512_257912,
   236_190512_215612_244012_198812,
   237_145312_164612_186512_143612,
   238_110912_125812_142712_115112,
   239_847513_962513_109312_983913,
   240_648113_736913_837913_724213,
   241_511713_582513_663013_539813,
   242_404613_461113_525513_432013,
   243_320413_365513_417113_353613,
   244_254013_290213_331413_255213,
   245_201713_230613_263713_213613,
   246_171213_196013_224413_176813,
   247_145513_166713_191113_155313,
   248_123713_141913_162813_133913,
   249_105213_120813_138813_117513,
   250_895414_103013_118413_961514]

/-- atmdata/Venus/LAT80S.txt:15404-15554, columns 0 to 4. -/
def venusProfile103 : List ℕ :=
  [100_635202_647902_660902_649302,
   101_603502_615602_627902_617302,
   102_573002_584502_596202_586202,
   103_543802_554702_565802_556502,
   104_515902_526202_536702_527802,
   105_488902_498702_508702_500402,
   106_463102_472402_481802_474402,
   107_438302_447102_456002_449802,
   108_414302_422602_431102_426102,
   109_391702_399502_407502_404002,
   110_369802_377202_384702_380602,
   111_348802_355802_362902_358002,
   112_328802_335402_342102_333502,
   113_309802_316002_322302_310902,
   114_291602_297402_303302_293602,
   115_274002_279502_285102_278002,
   116_257502_262702_268002_262002,
   117_242002_246802_251702_244602,
   118_227302_231802_236402_229702,
   119_213102_217402_221702_215702,
   120_199902_203902_208002_203202,
   121_187402_191102_194902_191302,
   122_175302_178802_182402_178802,
   123_163802_167102_170402_166802,
   124_153102_156202_159302_156802,
   125_142802_145702_148602_145802,
   126_133202_135902_138602_135302,
   127_124002_126502_129002_125902,
   128_115402_117702_120102_117302,
   129_107202_109302_111502_109502,
   130_995103_101502_103502_101802,
   131_922203_940603_959403_950203,
   132_853303_870403_887803_883703,
   133_789603_805303_821503_809803,
   134_728803_743303_758203_738303,
   135_671903_685303_699003_686703,
   136_618503_630903_643503_627103,
   137_568603_579903_591503_573703,
   138_521503_531903_542503_522903,
   139_478103_487703_497403_473903,
   140_437203_445903_454903_430303,
   141_399103_407003_415203_394103,
   142_363403_370603_378103_359103,
   143_330003_336603_343403_324803,
   144_299503_305503_311603_296703,
   145_271203_276603_282103_269003,
   146_245003_249903_254903_243003,
   147_220403_224803_229303_217703,
   148_197703_201703_205703_195403,
   149_176803_180303_183903_172903,
   150_158103_161303_164503_154403,
   151_140803_143803_146803_137403,
   152_124703_127503_130403_122603,
   153_110803_113403_116103_106603,
   154_979704_100403_103003_940104,
   155_862704_885504_909004_827104,
   156_757804_778804_800504_728004,
   157_661504_680804_700604_631904,
   158_570204_587504_605404_554204,
   159_479304_494504_510204_461604,
   160_396704_409804_423304_375304,
   161_327704_339004_350604_320704,
   162_270804_280404_290404_259304,
   163_224004_232304_240804_218304,
   164_185304_192404_199704_180904,
   165_153004_159004_165304_153304,
   166_126304_131404_136804_125404,
   167_103904_108304_112804_101104,
   168_854905_892005_930705_803805,
   169_707805_739405_772505_676105,
   170_585905_612905_641105_555205,
   171_487105_510205_534305_459205,
   172_405005_424605_445305_394405,
   173_336805_353705_371305_339205,
   174_280205_294505_309605_278305,
   175_234005_246305_259205_233305,
   176_195405_205905_217005_203605,
   177_164005_173005_182505_166905,
   178_137605_145405_153605_143005,
   179_114505_121105_128105_120505,
   180_952806_100905_106905_102405,
   181_783306_830506_880606_870006,
   182_644306_684006_726106_724206,
   183_525206_558206_593306_586006,
   184_428306_455806_485006_479206,
   185_345706_368306_392406_379406,
   186_279106_297806_317706_300806,
   187_222106_237306_253406_229206,
   188_176806_189106_202206_191906,
   189_139706_149506_160106_150906,
   190_110306_118306_126806_119906,
   191_864307_927707_995707_963907,
   192_677107_727607_781907_769607,
   193_528107_568207_611307_595807,
   194_411907_443707_478007_466807,
   195_319307_344407_371407_362607,
   196_247507_267307_288607_279607,
   197_190907_206407_223107_204407,
   198_147207_159407_172507_162207,
   199_108707_117807_127607_128707,
   200_802208_870408_944408_911708,
   201_609508_662108_719308_687608,
   202_463208_503708_547808_549908,
   203_352008_383208_417308_416708,
   204_267508_291608_317908_308908,
   205_203308_221908_242208_240008,
   206_154208_168508_184208_176108,
   207_117008_128108_140108_130608,
   208_888409_973109_106608_101508,
   209_674409_739609_811209_806709,
   210_512109_562309_617409_587609,
   211_378409_416009_457309_448509,
   212_279609_307709_338709_323609,
   213_206609_227609_250809_221509,
   214_152609_168409_185809_164709,
   215_112809_124609_137609_123909,
   216_825410_912710_100909_969410,
   217_604010_668710_740310_691310,
   218_442010_489910_543010_532910,
   219_323510_359010_398310_376710,
   220_236710_263010_292210_292810,
   221_173410_192810_214510_215610,
   222_127010_141410_157410_155410,
   223_929811_103710_115610_115910,
   224_681011_760111_848511_940511,
   225_498811_557411_622911_680111,
   226_367511_411111_460011_516511,
   227_270711_303311_339711_382511,
   228_199511_223711_250911_278211,
   229_147011_165111_185311_207611,
   230_108311_121811_136911_142011,
   231_807512_908712_102311_106811,
   232_602112_678312_764212_850912,
   233_449012_506512_571212_620912,
   234_335012_378312_427212_465112,
   235_250012_282612_319512_343512,
   236_190512_215612_244012_267312,
   237_145312_164612_186512_204212,
   238_110912_125812_142712_152112,
   239_847513_962513_109312_116012,
   240_648113_736913_837913_892713,
   241_511713_582513_663013_689213,
   242_404613_461113_525513_533713,
   243_320413_365513_417113_416813,
   244_254013_290213_331413_326313,
   245_201713_230613_263713_283213,
   246_171213_196013_224413_253313,
   247_145513_166713_191113_209313,
   248_123713_141913_162813_183913,
   249_105213_120813_138813_144813,
   250_895414_103013_118413_116213]

/-- atmdata/Venus/LAT80S.txt:15555-15705, columns 0 to 4. -/
def venusProfile104 : List ℕ :=
  [100_635202_647902_660902_660102,
   101_603502_615602_627902_626902,
   102_573002_584502_596202_594102,
   103_543802_554702_565802_562702,
   104_515902_526202_536702_534402,
   105_488902_498702_508702_503302,
   106_463102_472402_481802_481102,
   107_438302_447102_456002_456102,
   108_414302_422602_431102_433802,
   109_391702_399502_407502_410802,
   110_369802_377202_384702_387602,
   111_348802_355802_362902_363202,
   112_328802_335402_342102_340902,
   113_309802_316002_322302_320502,
   114_291602_297402_303302_304002,
   115_274002_279502_285102_285302,
   116_257502_262702_268002_268802,
   117_242002_246802_251702_253302,
   118_227302_231802_236402_239302,
   119_213102_217402_221702_225402,
   120_199902_203902_208002_211102,
   121_187402_191102_194902_198602,
   122_175302_178802_182402_183902,
   123_163802_167102_170402_170902,
   124_153102_156202_159302_159802,
   125_142802_145702_148602_148902,
   126_133202_135902_138602_139302,
   127_124002_126502_129002_129602,
   128_115402_117702_120102_119902,
   129_107202_109302_111502_111102,
   130_995103_101502_103502_103402,
   131_922203_940603_959403_963703,
   132_853303_870403_887803_895903,
   133_789603_805303_821503_827503,
   134_728803_743303_758203_764003,
   135_671903_685303_699003_708403,
   136_618503_630903_643503_652003,
   137_568603_579903_591503_594703,
   138_521503_531903_542503_545903,
   139_478103_487703_497403_498303,
   140_437203_445903_454903_456803,
   141_399103_407003_415203_414403,
   142_363403_370603_378103_377003,
   143_330003_336603_343403_342703,
   144_299503_305503_311603_314003,
   145_271203_276603_282103_280803,
   146_245003_249903_254903_252703,
   147_220403_224803_229303_227903,
   148_197703_201703_205703_204203,
   149_176803_180303_183903_183603,
   150_158103_161303_164503_163803,
   151_140803_143803_146803_147603,
   152_124703_127503_130403_131803,
   153_110803_113403_116103_117303,
   154_979704_100403_103003_105103,
   155_862704_885504_909004_922904,
   156_757804_778804_800504_819004,
   157_661504_680804_700604_713704,
   158_570204_587504_605404_621204,
   159_479304_494504_510204_535604,
   160_396704_409804_423304_439104,
   161_327704_339004_350604_364704,
   162_270804_280404_290404_305504,
   163_224004_232304_240804_251004,
   164_185304_192404_199704_208904,
   165_153004_159004_165304_172504,
   166_126304_131404_136804_139504,
   167_103904_108304_112804_118304,
   168_854905_892005_930705_970905,
   169_707805_739405_772505_802405,
   170_585905_612905_641105_666005,
   171_487105_510205_534305_563105,
   172_405005_424605_445305_462905,
   173_336805_353705_371305_388405,
   174_280205_294505_309605_316605,
   175_234005_246305_259205_269305,
   176_195405_205905_217005_227805,
   177_164005_173005_182505_185705,
   178_137605_145405_153605_157605,
   179_114505_121105_128105_131305,
   180_952806_100905_106905_108405,
   181_783306_830506_880606_890206,
   182_644306_684006_726106_751306,
   183_525206_558206_593306_618006,
   184_428306_455806_485006_498706,
   185_345706_368306_392406_391606,
   186_279106_297806_317706_322506,
   187_222106_237306_253406_263006,
   188_176806_189106_202206_198306,
   189_139706_149506_160106_151306,
   190_110306_118306_126806_119606,
   191_864307_927707_995707_934807,
   192_677107_727607_781907_743707,
   193_528107_568207_611307_537407,
   194_411907_443707_478007_404407,
   195_319307_344407_371407_327907,
   196_247507_267307_288607_258307,
   197_190907_206407_223107_186007,
   198_147207_159407_172507_132507,
   199_108707_117807_127607_961308,
   200_802208_870408_944408_722108,
   201_609508_662108_719308_579808,
   202_463208_503708_547808_473108,
   203_352008_383208_417308_372108,
   204_267508_291608_317908_281508,
   205_203308_221908_242208_216508,
   206_154208_168508_184208_162308,
   207_117008_128108_140108_126208,
   208_888409_973109_106608_961209,
   209_674409_739609_811209_719809,
   210_512109_562309_617409_548209,
   211_378409_416009_457309_366609,
   212_279609_307709_338709_287609,
   213_206609_227609_250809_206309,
   214_152609_168409_185809_149509,
   215_112809_124609_137609_110509,
   216_825410_912710_100909_716910,
   217_604010_668710_740310_538310,
   218_442010_489910_543010_348010,
   219_323510_359010_398310_256710,
   220_236710_263010_292210_209310,
   221_173410_192810_214510_173910,
   222_127010_141410_157410_133310,
   223_929811_103710_115610_946711,
   224_681011_760111_848511_707911,
   225_498811_557411_622911_524811,
   226_367511_411111_460011_380811,
   227_270711_303311_339711_288811,
   228_199511_223711_250911_207811,
   229_147011_165111_185311_151811,
   230_108311_121811_136911_111511,
   231_807512_908712_102311_928412,
   232_602112_678312_764212_709512,
   233_449012_506512_571212_547712,
   234_335012_378312_427212_389212,
   235_250012_282612_319512_286512,
   236_190512_215612_244012_199812,
   237_145312_164612_186512_145512,
   238_110912_125812_142712_105112,
   239_847513_962513_109312_780413,
   240_648113_736913_837913_554613,
   241_511713_582513_663013_469713,
   242_404613_461113_525513_369713,
   243_320413_365513_417113_287713,
   244_254013_290213_331413_254313,
   245_201713_230613_263713_193713,
   246_171213_196013_224413_168613,
   247_145513_166713_191113_138013,
   248_123713_141913_162813_111113,
   249_105213_120813_138813_984514,
   250_895414_103013_118413_804114]

/-- atmdata/Venus/LAT80S.txt:15706-15856, columns 0 to 4. -/
def venusProfile105 : List ℕ :=
  [100_635202_647902_660902_632302,
   101_603502_615602_627902_600902,
   102_573002_584502_596202_569402,
   103_543802_554702_565802_538702,
   104_515902_526202_536702_513302,
   105_488902_498702_508702_488202,
   106_463102_472402_481802_462102,
   107_438302_447102_456002_438802,
   108_414302_422602_431102_412802,
   109_391702_399502_407502_391402,
   110_369802_377202_384702_370602,
   111_348802_355802_362902_352902,
   112_328802_335402_342102_332602,
   113_309802_316002_322302_314502,
   114_291602_297402_303302_294702,
   115_274002_279502_285102_280402,
   116_257502_262702_268002_264502,
   117_242002_246802_251702_248302,
   118_227302_231802_236402_232602,
   119_213102_217402_221702_216702,
   120_199902_203902_208002_202402,
   121_187402_191102_194902_191002,
   122_175302_178802_182402_179002,
   123_163802_167102_170402_165802,
   124_153102_156202_159302_154602,
   125_142802_145702_148602_144702,
   126_133202_135902_138602_134702,
   127_124002_126502_129002_125702,
   128_115402_117702_120102_117502,
   129_107202_109302_111502_107802,
   130_995103_101502_103502_100702,
   131_922203_940603_959403_939203,
   132_853303_870403_887803_874503,
   133_789603_805303_821503_814703,
   134_728803_743303_758203_747403,
   135_671903_685303_699003_693103,
   136_618503_630903_643503_632403,
   137_568603_579903_591503_576803,
   138_521503_531903_542503_525503,
   139_478103_487703_497403_482803,
   140_437203_445903_454903_440703,
   141_399103_407003_415203_405003,
   142_363403_370603_378103_369203,
   143_330003_336603_343403_331903,
   144_299503_305503_311603_299303,
   145_271203_276603_282103_271903,
   146_245003_249903_254903_244703,
   147_220403_224803_229303_219003,
   148_197703_201703_205703_196903,
   149_176803_180303_183903_176703,
   150_158103_161303_164503_158403,
   151_140803_143803_146803_141003,
   152_124703_127503_130403_126403,
   153_110803_113403_116103_111303,
   154_979704_100403_103003_986404,
   155_862704_885504_909004_868104,
   156_757804_778804_800504_758204,
   157_661504_680804_700604_666504,
   158_570204_587504_605404_580604,
   159_479304_494504_510204_494404,
   160_396704_409804_423304_409404,
   161_327704_339004_350604_338004,
   162_270804_280404_290404_282204,
   163_224004_232304_240804_224704,
   164_185304_192404_199704_182004,
   165_153004_159004_165304_149704,
   166_126304_131404_136804_121104,
   167_103904_108304_112804_102404,
   168_854905_892005_930705_824505,
   169_707805_739405_772505_686705,
   170_585905_612905_641105_555205,
   171_487105_510205_534305_465305,
   172_405005_424605_445305_400505,
   173_336805_353705_371305_337105,
   174_280205_294505_309605_277505,
   175_234005_246305_259205_229505,
   176_195405_205905_217005_194605,
   177_164005_173005_182505_160305,
   178_137605_145405_153605_137605,
   179_114505_121105_128105_115305,
   180_952806_100905_106905_935706,
   181_783306_830506_880606_756506,
   182_644306_684006_726106_602106,
   183_525206_558206_593306_467206,
   184_428306_455806_485006_380706,
   185_345706_368306_392406_301406,
   186_279106_297806_317706_244806,
   187_222106_237306_253406_201206,
   188_176806_189106_202206_156906,
   189_139706_149506_160106_130006,
   190_110306_118306_126806_103606,
   191_864307_927707_995707_791907,
   192_677107_727607_781907_635707,
   193_528107_568207_611307_505307,
   194_411907_443707_478007_402507,
   195_319307_344407_371407_304507,
   196_247507_267307_288607_245507,
   197_190907_206407_223107_203507,
   198_147207_159407_172507_153607,
   199_108707_117807_127607_112807,
   200_802208_870408_944408_861608,
   201_609508_662108_719308_638008,
   202_463208_503708_547808_515608,
   203_352008_383208_417308_364908,
   204_267508_291608_317908_279408,
   205_203308_221908_242208_211508,
   206_154208_168508_184208_160808,
   207_117008_128108_140108_116908,
   208_888409_973109_106608_874709,
   209_674409_739609_811209_693109,
   210_512109_562309_617409_548409,
   211_378409_416009_457309_393309,
   212_279609_307709_338709_289809,
   213_206609_227609_250809_212109,
   214_152609_168409_185809_171209,
   215_112809_124609_137609_121209,
   216_825410_912710_100909_836310,
   217_604010_668710_740310_633310,
   218_442010_489910_543010_441910,
   219_323510_359010_398310_322210,
   220_236710_263010_292210_252210,
   221_173410_192810_214510_182210,
   222_127010_141410_157410_127010,
   223_929811_103710_115610_966011,
   224_681011_760111_848511_683611,
   225_498811_557411_622911_509611,
   226_367511_411111_460011_394011,
   227_270711_303311_339711_296511,
   228_199511_223711_250911_196911,
   229_147011_165111_185311_165211,
   230_108311_121811_136911_125711,
   231_807512_908712_102311_908712,
   232_602112_678312_764212_671212,
   233_449012_506512_571212_467112,
   234_335012_378312_427212_363612,
   235_250012_282612_319512_264612,
   236_190512_215612_244012_197712,
   237_145312_164612_186512_156012,
   238_110912_125812_142712_125612,
   239_847513_962513_109312_101712,
   240_648113_736913_837913_773513,
   241_511713_582513_663013_550113,
   242_404613_461113_525513_421113,
   243_320413_365513_417113_307513,
   244_254013_290213_331413_241913,
   245_201713_230613_263713_192713,
   246_171213_196013_224413_156713,
   247_145513_166713_191113_155513,
   248_123713_141913_162813_131813,
   249_105213_120813_138813_102113,
   250_895414_103013_118413_827714]

/-- atmdata/Venus/LAT80S.txt:15857-16007, columns 0 to 4. -/
def venusProfile106 : List ℕ :=
  [100_635202_647902_660902_644502,
   101_603502_615602_627902_611802,
   102_573002_584502_596202_578202,
   103_543802_554702_565802_544602,
   104_515902_526202_536702_520102,
   105_488902_498702_508702_491802,
   106_463102_472402_481802_467902,
   107_438302_447102_456002_444302,
   108_414302_422602_431102_419402,
   109_391702_399502_407502_397102,
   110_369802_377202_384702_376702,
   111_348802_355802_362902_356802,
   112_328802_335402_342102_337302,
   113_309802_316002_322302_315602,
   114_291602_297402_303302_296702,
   115_274002_279502_285102_279002,
   116_257502_262702_268002_263402,
   117_242002_246802_251702_245902,
   118_227302_231802_236402_231902,
   119_213102_217402_221702_217202,
   120_199902_203902_208002_205302,
   121_187402_191102_194902_193902,
   122_175302_178802_182402_180702,
   123_163802_167102_170402_169902,
   124_153102_156202_159302_157402,
   125_142802_145702_148602_147802,
   126_133202_135902_138602_138802,
   127_124002_126502_129002_129502,
   128_115402_117702_120102_120202,
   129_107202_109302_111502_111702,
   130_995103_101502_103502_104502,
   131_922203_940603_959403_972603,
   132_853303_870403_887803_904303,
   133_789603_805303_821503_832503,
   134_728803_743303_758203_770303,
   135_671903_685303_699003_712703,
   136_618503_630903_643503_655603,
   137_568603_579903_591503_595803,
   138_521503_531903_542503_546803,
   139_478103_487703_497403_504203,
   140_437203_445903_454903_466903,
   141_399103_407003_415203_424803,
   142_363403_370603_378103_386803,
   143_330003_336603_343403_350403,
   144_299503_305503_311603_316403,
   145_271203_276603_282103_284403,
   146_245003_249903_254903_254803,
   147_220403_224803_229303_229603,
   148_197703_201703_205703_205903,
   149_176803_180303_183903_183703,
   150_158103_161303_164503_164703,
   151_140803_143803_146803_148503,
   152_124703_127503_130403_134203,
   153_110803_113403_116103_119703,
   154_979704_100403_103003_104903,
   155_862704_885504_909004_922904,
   156_757804_778804_800504_813304,
   157_661504_680804_700604_719604,
   158_570204_587504_605404_623904,
   159_479304_494504_510204_526404,
   160_396704_409804_423304_437804,
   161_327704_339004_350604_356804,
   162_270804_280404_290404_295304,
   163_224004_232304_240804_245004,
   164_185304_192404_199704_201404,
   165_153004_159004_165304_160404,
   166_126304_131404_136804_126904,
   167_103904_108304_112804_106104,
   168_854905_892005_930705_879305,
   169_707805_739405_772505_726405,
   170_585905_612905_641105_602605,
   171_487105_510205_534305_489905,
   172_405005_424605_445305_407205,
   173_336805_353705_371305_339705,
   174_280205_294505_309605_279905,
   175_234005_246305_259205_236705,
   176_195405_205905_217005_198405,
   177_164005_173005_182505_163405,
   178_137605_145405_153605_139905,
   179_114505_121105_128105_116605,
   180_952806_100905_106905_992706,
   181_783306_830506_880606_836906,
   182_644306_684006_726106_676606,
   183_525206_558206_593306_545706,
   184_428306_455806_485006_434006,
   185_345706_368306_392406_336806,
   186_279106_297806_317706_284006,
   187_222106_237306_253406_226706,
   188_176806_189106_202206_177506,
   189_139706_149506_160106_141206,
   190_110306_118306_126806_111306,
   191_864307_927707_995707_900007,
   192_677107_727607_781907_709707,
   193_528107_568207_611307_536707,
   194_411907_443707_478007_405607,
   195_319307_344407_371407_316207,
   196_247507_267307_288607_260607,
   197_190907_206407_223107_211507,
   198_147207_159407_172507_162507,
   199_108707_117807_127607_120907,
   200_802208_870408_944408_858008,
   201_609508_662108_719308_658908,
   202_463208_503708_547808_532408,
   203_352008_383208_417308_394508,
   204_267508_291608_317908_303508,
   205_203308_221908_242208_223708,
   206_154208_168508_184208_171408,
   207_117008_128108_140108_130208,
   208_888409_973109_106608_931309,
   209_674409_739609_811209_690309,
   210_512109_562309_617409_502709,
   211_378409_416009_457309_371609,
   212_279609_307709_338709_299209,
   213_206609_227609_250809_222109,
   214_152609_168409_185809_168109,
   215_112809_124609_137609_131909,
   216_825410_912710_100909_917810,
   217_604010_668710_740310_715710,
   218_442010_489910_543010_504710,
   219_323510_359010_398310_366510,
   220_236710_263010_292210_282410,
   221_173410_192810_214510_210810,
   222_127010_141410_157410_152810,
   223_929811_103710_115610_107310,
   224_681011_760111_848511_815411,
   225_498811_557411_622911_599511,
   226_367511_411111_460011_426011,
   227_270711_303311_339711_317211,
   228_199511_223711_250911_241211,
   229_147011_165111_185311_179311,
   230_108311_121811_136911_120411,
   231_807512_908712_102311_910212,
   232_602112_678312_764212_644112,
   233_449012_506512_571212_476512,
   234_335012_378312_427212_347512,
   235_250012_282612_319512_247412,
   236_190512_215612_244012_193112,
   237_145312_164612_186512_141912,
   238_110912_125812_142712_110212,
   239_847513_962513_109312_849713,
   240_648113_736913_837913_706113,
   241_511713_582513_663013_547213,
   242_404613_461113_525513_410813,
   243_320413_365513_417113_349813,
   244_254013_290213_331413_290413,
   245_201713_230613_263713_235313,
   246_171213_196013_224413_210013,
   247_145513_166713_191113_184913,
   248_123713_141913_162813_161413,
   249_105213_120813_138813_136213,
   250_895414_103013_118413_107813]

/-- atmdata/Venus/LAT80S.txt:16008-16158, columns 0 to 4. -/
def venusProfile107 : List ℕ :=
  [100_635202_647902_660902_653902,
   101_603502_615602_627902_620002,
   102_573002_584502_596202_583802,
   103_543802_554702_565802_557502,
   104_515902_526202_536702_523702,
   105_488902_498702_508702_499502,
   106_463102_472402_481802_470902,
   107_438302_447102_456002_447202,
   108_414302_422602_431102_423402,
   109_391702_399502_407502_400502,
   110_369802_377202_384702_381602,
   111_348802_355802_362902_360302,
   112_328802_335402_342102_342302,
   113_309802_316002_322302_322102,
   114_291602_297402_303302_303602,
   115_274002_279502_285102_283002,
   116_257502_262702_268002_267202,
   117_242002_246802_251702_251902,
   118_227302_231802_236402_235502,
   119_213102_217402_221702_221202,
   120_199902_203902_208002_207702,
   121_187402_191102_194902_196902,
   122_175302_178802_182402_185002,
   123_163802_167102_170402_173302,
   124_153102_156202_159302_162502,
   125_142802_145702_148602_150302,
   126_133202_135902_138602_139902,
   127_124002_126502_129002_130702,
   128_115402_117702_120102_119902,
   129_107202_109302_111502_110802,
   130_995103_101502_103502_101602,
   131_922203_940603_959403_947303,
   132_853303_870403_887803_882303,
   133_789603_805303_821503_818303,
   134_728803_743303_758203_752703,
   135_671903_685303_699003_696703,
   136_618503_630903_643503_635203,
   137_568603_579903_591503_574103,
   138_521503_531903_542503_523203,
   139_478103_487703_497403_477103,
   140_437203_445903_454903_437603,
   141_399103_407003_415203_396103,
   142_363403_370603_378103_362403,
   143_330003_336603_343403_332503,
   144_299503_305503_311603_302103,
   145_271203_276603_282103_275003,
   146_245003_249903_254903_246103,
   147_220403_224803_229303_220003,
   148_197703_201703_205703_198103,
   149_176803_180303_183903_176403,
   150_158103_161303_164503_159103,
   151_140803_143803_146803_141703,
   152_124703_127503_130403_124303,
   153_110803_113403_116103_109803,
   154_979704_100403_103003_979504,
   155_862704_885504_909004_863304,
   156_757804_778804_800504_741004,
   157_661504_680804_700604_640604,
   158_570204_587504_605404_557104,
   159_479304_494504_510204_469804,
   160_396704_409804_423304_396904,
   161_327704_339004_350604_334804,
   162_270804_280404_290404_276504,
   163_224004_232304_240804_226704,
   164_185304_192404_199704_189604,
   165_153004_159004_165304_158404,
   166_126304_131404_136804_134304,
   167_103904_108304_112804_111204,
   168_854905_892005_930705_896405,
   169_707805_739405_772505_736605,
   170_585905_612905_641105_627205,
   171_487105_510205_534305_527205,
   172_405005_424605_445305_450905,
   173_336805_353705_371305_370805,
   174_280205_294505_309605_304105,
   175_234005_246305_259205_242505,
   176_195405_205905_217005_201105,
   177_164005_173005_182505_165605,
   178_137605_145405_153605_141505,
   179_114505_121105_128105_117305,
   180_952806_100905_106905_976706,
   181_783306_830506_880606_803806,
   182_644306_684006_726106_660106,
   183_525206_558206_593306_543906,
   184_428306_455806_485006_411206,
   185_345706_368306_392406_356406,
   186_279106_297806_317706_287406,
   187_222106_237306_253406_226006,
   188_176806_189106_202206_178306,
   189_139706_149506_160106_138306,
   190_110306_118306_126806_108606,
   191_864307_927707_995707_855607,
   192_677107_727607_781907_673807,
   193_528107_568207_611307_538607,
   194_411907_443707_478007_427307,
   195_319307_344407_371407_340407,
   196_247507_267307_288607_253807,
   197_190907_206407_223107_204607,
   198_147207_159407_172507_160707,
   199_108707_117807_127607_122207,
   200_802208_870408_944408_897508,
   201_609508_662108_719308_730408,
   202_463208_503708_547808_583708,
   203_352008_383208_417308_439808,
   204_267508_291608_317908_338908,
   205_203308_221908_242208_240708,
   206_154208_168508_184208_185408,
   207_117008_128108_140108_146808,
   208_888409_973109_106608_114308,
   209_674409_739609_811209_872709,
   210_512109_562309_617409_651009,
   211_378409_416009_457309_480509,
   212_279609_307709_338709_351909,
   213_206609_227609_250809_261809,
   214_152609_168409_185809_190109,
   215_112809_124609_137609_141709,
   216_825410_912710_100909_995110,
   217_604010_668710_740310_689610,
   218_442010_489910_543010_494810,
   219_323510_359010_398310_362510,
   220_236710_263010_292210_278710,
   221_173410_192810_214510_189810,
   222_127010_141410_157410_145010,
   223_929811_103710_115610_109010,
   224_681011_760111_848511_785711,
   225_498811_557411_622911_580711,
   226_367511_411111_460011_439211,
   227_270711_303311_339711_324811,
   228_199511_223711_250911_238211,
   229_147011_165111_185311_168511,
   230_108311_121811_136911_121811,
   231_807512_908712_102311_973912,
   232_602112_678312_764212_763312,
   233_449012_506512_571212_579512,
   234_335012_378312_427212_448012,
   235_250012_282612_319512_299212,
   236_190512_215612_244012_239312,
   237_145312_164612_186512_186412,
   238_110912_125812_142712_135212,
   239_847513_962513_109312_955413,
   240_648113_736913_837913_713313,
   241_511713_582513_663013_575613,
   242_404613_461113_525513_418013,
   243_320413_365513_417113_342013,
   244_254013_290213_331413_260513,
   245_201713_230613_263713_221613,
   246_171213_196013_224413_187313,
   247_145513_166713_191113_160813,
   248_123713_141913_162813_121813,
   249_105213_120813_138813_118113,
   250_895414_103013_118413_940214]

/-- atmdata/Venus/LAT80S.txt:16159-16309, columns 0 to 4. -/
def venusProfile108 : List ℕ :=
  [100_635202_647902_660902_670702,
   101_603502_615602_627902_635102,
   102_573002_584502_596202_606802,
   103_543802_554702_565802_576902,
   104_515902_526202_536702_543902,
   105_488902_498702_508702_514902,
   106_463102_472402_481802_487602,
   107_438302_447102_456002_462802,
   108_414302_422602_431102_439202,
   109_391702_399502_407502_414802,
   110_369802_377202_384702_388802,
   111_348802_355802_362902_366002,
   112_328802_335402_342102_343102,
   113_309802_316002_322302_324502,
   114_291602_297402_303302_307202,
   115_274002_279502_285102_288802,
   116_257502_262702_268002_272802,
   117_242002_246802_251702_255702,
   118_227302_231802_236402_240402,
   119_213102_217402_221702_226902,
   120_199902_203902_208002_212002,
   121_187402_191102_194902_196602,
   122_175302_178802_182402_183602,
   123_163802_167102_170402_171602,
   124_153102_156202_159302_160402,
   125_142802_145702_148602_149002,
   126_133202_135902_138602_137602,
   127_124002_126502_129002_128902,
   128_115402_117702_120102_120102,
   129_107202_109302_111502_111902,
   130_995103_101502_103502_103202,
   131_922203_940603_959403_960703,
   132_853303_870403_887803_894503,
   133_789603_805303_821503_820503,
   134_728803_743303_758203_762603,
   135_671903_685303_699003_704803,
   136_618503_630903_643503_648603,
   137_568603_579903_591503_601503,
   138_521503_531903_542503_551803,
   139_478103_487703_497403_504503,
   140_437203_445903_454903_458703,
   141_399103_407003_415203_419403,
   142_363403_370603_378103_383003,
   143_330003_336603_343403_346303,
   144_299503_305503_311603_315003,
   145_271203_276603_282103_284003,
   146_245003_249903_254903_259603,
   147_220403_224803_229303_233503,
   148_197703_201703_205703_209603,
   149_176803_180303_183903_184503,
   150_158103_161303_164503_167403,
   151_140803_143803_146803_151003,
   152_124703_127503_130403_132903,
   153_110803_113403_116103_118803,
   154_979704_100403_103003_104903,
   155_862704_885504_909004_923304,
   156_757804_778804_800504_809004,
   157_661504_680804_700604_703704,
   158_570204_587504_605404_608904,
   159_479304_494504_510204_509104,
   160_396704_409804_423304_415104,
   161_327704_339004_350604_344904,
   162_270804_280404_290404_282704,
   163_224004_232304_240804_237604,
   164_185304_192404_199704_190504,
   165_153004_159004_165304_157104,
   166_126304_131404_136804_132404,
   167_103904_108304_112804_109204,
   168_854905_892005_930705_905905,
   169_707805_739405_772505_740605,
   170_585905_612905_641105_609105,
   171_487105_510205_534305_503005,
   172_405005_424605_445305_418005,
   173_336805_353705_371305_342505,
   174_280205_294505_309605_282805,
   175_234005_246305_259205_236005,
   176_195405_205905_217005_193805,
   177_164005_173005_182505_160105,
   178_137605_145405_153605_137005,
   179_114505_121105_128105_113405,
   180_952806_100905_106905_920006,
   181_783306_830506_880606_736706,
   182_644306_684006_726106_616506,
   183_525206_558206_593306_525006,
   184_428306_455806_485006_443306,
   185_345706_368306_392406_372606,
   186_279106_297806_317706_316706,
   187_222106_237306_253406_241906,
   188_176806_189106_202206_191206,
   189_139706_149506_160106_156806,
   190_110306_118306_126806_121406,
   191_864307_927707_995707_918707,
   192_677107_727607_781907_715307,
   193_528107_568207_611307_548807,
   194_411907_443707_478007_415907,
   195_319307_344407_371407_308307,
   196_247507_267307_288607_236207,
   197_190907_206407_223107_190807,
   198_147207_159407_172507_155407,
   199_108707_117807_127607_100007,
   200_802208_870408_944408_773508,
   201_609508_662108_719308_586608,
   202_463208_503708_547808_481808,
   203_352008_383208_417308_377708,
   204_267508_291608_317908_300008,
   205_203308_221908_242208_237608,
   206_154208_168508_184208_186008,
   207_117008_128108_140108_137808,
   208_888409_973109_106608_105308,
   209_674409_739609_811209_760709,
   210_512109_562309_617409_592409,
   211_378409_416009_457309_450909,
   212_279609_307709_338709_311009,
   213_206609_227609_250809_239009,
   214_152609_168409_185809_168309,
   215_112809_124609_137609_123609,
   216_825410_912710_100909_884710,
   217_604010_668710_740310_638310,
   218_442010_489910_543010_467210,
   219_323510_359010_398310_346410,
   220_236710_263010_292210_266110,
   221_173410_192810_214510_193210,
   222_127010_141410_157410_135210,
   223_929811_103710_115610_960511,
   224_681011_760111_848511_790411,
   225_498811_557411_622911_585011,
   226_367511_411111_460011_411411,
   227_270711_303311_339711_304711,
   228_199511_223711_250911_217311,
   229_147011_165111_185311_169311,
   230_108311_121811_136911_127511,
   231_807512_908712_102311_910612,
   232_602112_678312_764212_688212,
   233_449012_506512_571212_462812,
   234_335012_378312_427212_342412,
   235_250012_282612_319512_275612,
   236_190512_215612_244012_197412,
   237_145312_164612_186512_145812,
   238_110912_125812_142712_121012,
   239_847513_962513_109312_957313,
   240_648113_736913_837913_758213,
   241_511713_582513_663013_649113,
   242_404613_461113_525513_558013,
   243_320413_365513_417113_432813,
   244_254013_290213_331413_345213,
   245_201713_230613_263713_249113,
   246_171213_196013_224413_192413,
   247_145513_166713_191113_159613,
   248_123713_141913_162813_132713,
   249_105213_120813_138813_112613,
   250_895414_103013_118413_890114]

/-- atmdata/Venus/LAT80S.txt:16310-16460, columns 0 to 4. -/
def venusProfile109 : List ℕ :=
  [100_635202_647902_660902_639102,
   101_603502_615602_627902_605602,
   102_573002_584502_596202_577902,
   103_543802_554702_565802_549102,
   104_515902_526202_536702_519602,
   105_488902_498702_508702_489102,
   106_463102_472402_481802_468102,
   107_438302_447102_456002_445102,
   108_414302_422602_431102_417902,
   109_391702_399502_407502_395102,
   110_369802_377202_384702_372002,
   111_348802_355802_362902_349902,
   112_328802_335402_342102_329602,
   113_309802_316002_322302_309202,
   114_291602_297402_303302_289602,
   115_274002_279502_285102_271002,
   116_257502_262702_268002_256902,
   117_242002_246802_251702_239902,
   118_227302_231802_236402_224002,
   119_213102_217402_221702_209502,
   120_199902_203902_208002_195002,
   121_187402_191102_194902_181702,
   122_175302_178802_182402_168702,
   123_163802_167102_170402_157902,
   124_153102_156202_159302_147502,
   125_142802_145702_148602_137902,
   126_133202_135902_138602_129102,
   127_124002_126502_129002_122502,
   128_115402_117702_120102_113702,
   129_107202_109302_111502_105502,
   130_995103_101502_103502_977903,
   131_922203_940603_959403_912503,
   132_853303_870403_887803_852103,
   133_789603_805303_821503_789303,
   134_728803_743303_758203_729003,
   135_671903_685303_699003_674903,
   136_618503_630903_643503_615803,
   137_568603_579903_591503_571403,
   138_521503_531903_542503_520703,
   139_478103_487703_497403_479803,
   140_437203_445903_454903_442503,
   141_399103_407003_415203_402803,
   142_363403_370603_378103_369203,
   143_330003_336603_343403_337003,
   144_299503_305503_311603_308603,
   145_271203_276603_282103_281903,
   146_245003_249903_254903_256603,
   147_220403_224803_229303_228703,
   148_197703_201703_205703_205803,
   149_176803_180303_183903_184903,
   150_158103_161303_164503_163903,
   151_140803_143803_146803_146003,
   152_124703_127503_130403_128803,
   153_110803_113403_116103_114103,
   154_979704_100403_103003_103303,
   155_862704_885504_909004_910204,
   156_757804_778804_800504_806304,
   157_661504_680804_700604_705704,
   158_570204_587504_605404_609704,
   159_479304_494504_510204_506604,
   160_396704_409804_423304_417104,
   161_327704_339004_350604_343304,
   162_270804_280404_290404_279304,
   163_224004_232304_240804_231004,
   164_185304_192404_199704_190204,
   165_153004_159004_165304_154604,
   166_126304_131404_136804_129704,
   167_103904_108304_112804_106704,
   168_854905_892005_930705_865705,
   169_707805_739405_772505_706405,
   170_585905_612905_641105_595705,
   171_487105_510205_534305_513105,
   172_405005_424605_445305_442805,
   173_336805_353705_371305_356205,
   174_280205_294505_309605_293605,
   175_234005_246305_259205_250005,
   176_195405_205905_217005_199705,
   177_164005_173005_182505_164805,
   178_137605_145405_153605_140605,
   179_114505_121105_128105_115605,
   180_952806_100905_106905_984506,
   181_783306_830506_880606_824506,
   182_644306_684006_726106_692106,
   183_525206_558206_593306_551506,
   184_428306_455806_485006_457406,
   185_345706_368306_392406_380006,
   186_279106_297806_317706_306706,
   187_222106_237306_253406_252406,
   188_176806_189106_202206_200306,
   189_139706_149506_160106_158706,
   190_110306_118306_126806_122106,
   191_864307_927707_995707_979607,
   192_677107_727607_781907_754407,
   193_528107_568207_611307_605107,
   194_411907_443707_478007_476507,
   195_319307_344407_371407_363807,
   196_247507_267307_288607_279307,
   197_190907_206407_223107_220707,
   198_147207_159407_172507_163607,
   199_108707_117807_127607_117207,
   200_802208_870408_944408_832408,
   201_609508_662108_719308_650408,
   202_463208_503708_547808_529708,
   203_352008_383208_417308_370408,
   204_267508_291608_317908_306208,
   205_203308_221908_242208_236508,
   206_154208_168508_184208_190408,
   207_117008_128108_140108_146308,
   208_888409_973109_106608_109008,
   209_674409_739609_811209_826709,
   210_512109_562309_617409_586009,
   211_378409_416009_457309_475409,
   212_279609_307709_338709_351609,
   213_206609_227609_250809_277509,
   214_152609_168409_185809_210609,
   215_112809_124609_137609_148109,
   216_825410_912710_100909_105509,
   217_604010_668710_740310_767510,
   218_442010_489910_543010_560110,
   219_323510_359010_398310_411710,
   220_236710_263010_292210_310010,
   221_173410_192810_214510_231810,
   222_127010_141410_157410_167410,
   223_929811_103710_115610_124110,
   224_681011_760111_848511_905911,
   225_498811_557411_622911_663711,
   226_367511_411111_460011_491011,
   227_270711_303311_339711_357211,
   228_199511_223711_250911_283811,
   229_147011_165111_185311_205011,
   230_108311_121811_136911_163311,
   231_807512_908712_102311_119611,
   232_602112_678312_764212_857212,
   233_449012_506512_571212_616812,
   234_335012_378312_427212_481912,
   235_250012_282612_319512_364812,
   236_190512_215612_244012_268912,
   237_145312_164612_186512_208012,
   238_110912_125812_142712_158012,
   239_847513_962513_109312_116412,
   240_648113_736913_837913_830813,
   241_511713_582513_663013_625213,
   242_404613_461113_525513_522613,
   243_320413_365513_417113_394713,
   244_254013_290213_331413_286213,
   245_201713_230613_263713_220713,
   246_171213_196013_224413_193613,
   247_145513_166713_191113_152913,
   248_123713_141913_162813_133413,
   249_105213_120813_138813_122913,
   250_895414_103013_118413_959814]

/-- atmdata/Venus/LAT80S.txt:16461-16611, columns 0 to 4. -/
def venusProfile110 : List ℕ :=
  [100_635202_647902_660902_648802,
   101_603502_615602_627902_614102,
   102_573002_584502_596202_584602,
   103_543802_554702_565802_554202,
   104_515902_526202_536702_525202,
   105_488902_498702_508702_498802,
   106_463102_472402_481802_471802,
   107_438302_447102_456002_448702,
   108_414302_422602_431102_423002,
   109_391702_399502_407502_399502,
   110_369802_377202_384702_376802,
   111_348802_355802_362902_352902,
   112_328802_335402_342102_333402,
   113_309802_316002_322302_314402,
   114_291602_297402_303302_295502,
   115_274002_279502_285102_278502,
   116_257502_262702_268002_264202,
   117_242002_246802_251702_249102,
   118_227302_231802_236402_234002,
   119_213102_217402_221702_219402,
   120_199902_203902_208002_206502,
   121_187402_191102_194902_192302,
   122_175302_178802_182402_180302,
   123_163802_167102_170402_167902,
   124_153102_156202_159302_155502,
   125_142802_145702_148602_145402,
   126_133202_135902_138602_135002,
   127_124002_126502_129002_124702,
   128_115402_117702_120102_116802,
   129_107202_109302_111502_109702,
   130_995103_101502_103502_101702,
   131_922203_940603_959403_947003,
   132_853303_870403_887803_883103,
   133_789603_805303_821503_823303,
   134_728803_743303_758203_752103,
   135_671903_685303_699003_694703,
   136_618503_630903_643503_639703,
   137_568603_579903_591503_591403,
   138_521503_531903_542503_543003,
   139_478103_487703_497403_489803,
   140_437203_445903_454903_447903,
   141_399103_407003_415203_412603,
   142_363403_370603_378103_378503,
   143_330003_336603_343403_341503,
   144_299503_305503_311603_307203,
   145_271203_276603_282103_278103,
   146_245003_249903_254903_252703,
   147_220403_224803_229303_227603,
   148_197703_201703_205703_205003,
   149_176803_180303_183903_183503,
   150_158103_161303_164503_163303,
   151_140803_143803_146803_147503,
   152_124703_127503_130403_130403,
   153_110803_113403_116103_117103,
   154_979704_100403_103003_103803,
   155_862704_885504_909004_915804,
   156_757804_778804_800504_797104,
   157_661504_680804_700604_703104,
   158_570204_587504_605404_606704,
   159_479304_494504_510204_487604,
   160_396704_409804_423304_404904,
   161_327704_339004_350604_329604,
   162_270804_280404_290404_280904,
   163_224004_232304_240804_227704,
   164_185304_192404_199704_190104,
   165_153004_159004_165304_159804,
   166_126304_131404_136804_133304,
   167_103904_108304_112804_108804,
   168_854905_892005_930705_905905,
   169_707805_739405_772505_731905,
   170_585905_612905_641105_597005,
   171_487105_510205_534305_499505,
   172_405005_424605_445305_416005,
   173_336805_353705_371305_357405,
   174_280205_294505_309605_294905,
   175_234005_246305_259205_241705,
   176_195405_205905_217005_207505,
   177_164005_173005_182505_170905,
   178_137605_145405_153605_145205,
   179_114505_121105_128105_118505,
   180_952806_100905_106905_985306,
   181_783306_830506_880606_806006,
   182_644306_684006_726106_692206,
   183_525206_558206_593306_563706,
   184_428306_455806_485006_462106,
   185_345706_368306_392406_380806,
   186_279106_297806_317706_293406,
   187_222106_237306_253406_237406,
   188_176806_189106_202206_190606,
   189_139706_149506_160106_148106,
   190_110306_118306_126806_113806,
   191_864307_927707_995707_893107,
   192_677107_727607_781907_688207,
   193_528107_568207_611307_535407,
   194_411907_443707_478007_407707,
   195_319307_344407_371407_323307,
   196_247507_267307_288607_253907,
   197_190907_206407_223107_201207,
   198_147207_159407_172507_154007,
   199_108707_117807_127607_113207,
   200_802208_870408_944408_835708,
   201_609508_662108_719308_612708,
   202_463208_503708_547808_502808,
   203_352008_383208_417308_374008,
   204_267508_291608_317908_272008,
   205_203308_221908_242208_208608,
   206_154208_168508_184208_150808,
   207_117008_128108_140108_110408,
   208_888409_973109_106608_816009,
   209_674409_739609_811209_574409,
   210_512109_562309_617409_440209,
   211_378409_416009_457309_319209,
   212_279609_307709_338709_230109,
   213_206609_227609_250809_165209,
   214_152609_168409_185809_127809,
   215_112809_124609_137609_104709,
   216_825410_912710_100909_772310,
   217_604010_668710_740310_593010,
   218_442010_489910_543010_448810,
   219_323510_359010_398310_339110,
   220_236710_263010_292210_259510,
   221_173410_192810_214510_181910,
   222_127010_141410_157410_140110,
   223_929811_103710_115610_993511,
   224_681011_760111_848511_701311,
   225_498811_557411_622911_526611,
   226_367511_411111_460011_368511,
   227_270711_303311_339711_273311,
   228_199511_223711_250911_209611,
   229_147011_165111_185311_145511,
   230_108311_121811_136911_105711,
   231_807512_908712_102311_842512,
   232_602112_678312_764212_578412,
   233_449012_506512_571212_447712,
   234_335012_378312_427212_336112,
   235_250012_282612_319512_258812,
   236_190512_215612_244012_202812,
   237_145312_164612_186512_150412,
   238_110912_125812_142712_112512,
   239_847513_962513_109312_959013,
   240_648113_736913_837913_739313,
   241_511713_582513_663013_587013,
   242_404613_461113_525513_485013,
   243_320413_365513_417113_346113,
   244_254013_290213_331413_276313,
   245_201713_230613_263713_220613,
   246_171213_196013_224413_183413,
   247_145513_166713_191113_167213,
   248_123713_141913_162813_154213,
   249_105213_120813_138813_127613,
   250_895414_103013_118413_980714]

/-- atmdata/Venus/LAT80S.txt:16612-16762, columns 0 to 4. -/
def venusProfile111 : List ℕ :=
  [100_635202_647902_660902_659302,
   101_603502_615602_627902_623202,
   102_573002_584502_596202_592102,
   103_543802_554702_565802_559802,
   104_515902_526202_536702_531302,
   105_488902_498702_508702_501702,
   106_463102_472402_481802_476902,
   107_438302_447102_456002_453702,
   108_414302_422602_431102_428902,
   109_391702_399502_407502_404702,
   110_369802_377202_384702_382202,
   111_348802_355802_362902_362802,
   112_328802_335402_342102_343802,
   113_309802_316002_322302_325802,
   114_291602_297402_303302_306802,
   115_274002_279502_285102_286902,
   116_257502_262702_268002_273202,
   117_242002_246802_251702_256002,
   118_227302_231802_236402_243002,
   119_213102_217402_221702_228302,
   120_199902_203902_208002_213702,
   121_187402_191102_194902_199002,
   122_175302_178802_182402_185202,
   123_163802_167102_170402_171802,
   124_153102_156202_159302_161102,
   125_142802_145702_148602_151002,
   126_133202_135902_138602_141202,
   127_124002_126502_129002_130602,
   128_115402_117702_120102_121202,
   129_107202_109302_111502_112602,
   130_995103_101502_103502_104402,
   131_922203_940603_959403_970403,
   132_853303_870403_887803_904203,
   133_789603_805303_821503_833003,
   134_728803_743303_758203_769203,
   135_671903_685303_699003_709403,
   136_618503_630903_643503_645403,
   137_568603_579903_591503_595703,
   138_521503_531903_542503_541903,
   139_478103_487703_497403_494703,
   140_437203_445903_454903_449103,
   141_399103_407003_415203_410103,
   142_363403_370603_378103_377703,
   143_330003_336603_343403_343403,
   144_299503_305503_311603_310303,
   145_271203_276603_282103_278103,
   146_245003_249903_254903_252203,
   147_220403_224803_229303_224803,
   148_197703_201703_205703_202903,
   149_176803_180303_183903_181103,
   150_158103_161303_164503_161703,
   151_140803_143803_146803_144103,
   152_124703_127503_130403_127703,
   153_110803_113403_116103_113303,
   154_979704_100403_103003_996804,
   155_862704_885504_909004_880404,
   156_757804_778804_800504_775604,
   157_661504_680804_700604_666004,
   158_570204_587504_605404_575004,
   159_479304_494504_510204_490104,
   160_396704_409804_423304_409904,
   161_327704_339004_350604_343704,
   162_270804_280404_290404_287904,
   163_224004_232304_240804_239804,
   164_185304_192404_199704_204804,
   165_153004_159004_165304_169004,
   166_126304_131404_136804_139904,
   167_103904_108304_112804_113304,
   168_854905_892005_930705_919205,
   169_707805_739405_772505_730905,
   170_585905_612905_641105_609605,
   171_487105_510205_534305_498605,
   172_405005_424605_445305_443105,
   173_336805_353705_371305_373905,
   174_280205_294505_309605_307905,
   175_234005_246305_259205_257605,
   176_195405_205905_217005_217305,
   177_164005_173005_182505_178605,
   178_137605_145405_153605_151205,
   179_114505_121105_128105_122205,
   180_952806_100905_106905_985506,
   181_783306_830506_880606_766606,
   182_644306_684006_726106_615206,
   183_525206_558206_593306_516906,
   184_428306_455806_485006_422506,
   185_345706_368306_392406_348706,
   186_279106_297806_317706_284906,
   187_222106_237306_253406_227906,
   188_176806_189106_202206_184806,
   189_139706_149506_160106_154806,
   190_110306_118306_126806_117406,
   191_864307_927707_995707_891607,
   192_677107_727607_781907_681807,
   193_528107_568207_611307_565507,
   194_411907_443707_478007_448907,
   195_319307_344407_371407_369207,
   196_247507_267307_288607_290807,
   197_190907_206407_223107_226807,
   198_147207_159407_172507_175207,
   199_108707_117807_127607_129707,
   200_802208_870408_944408_975408,
   201_609508_662108_719308_736308,
   202_463208_503708_547808_594108,
   203_352008_383208_417308_446608,
   204_267508_291608_317908_327008,
   205_203308_221908_242208_243108,
   206_154208_168508_184208_177908,
   207_117008_128108_140108_134908,
   208_888409_973109_106608_108708,
   209_674409_739609_811209_816409,
   210_512109_562309_617409_627009,
   211_378409_416009_457309_454809,
   212_279609_307709_338709_341109,
   213_206609_227609_250809_244909,
   214_152609_168409_185809_176709,
   215_112809_124609_137609_133009,
   216_825410_912710_100909_968410,
   217_604010_668710_740310_757410,
   218_442010_489910_543010_567910,
   219_323510_359010_398310_423110,
   220_236710_263010_292210_316210,
   221_173410_192810_214510_228810,
   222_127010_141410_157410_159310,
   223_929811_103710_115610_118710,
   224_681011_760111_848511_891111,
   225_498811_557411_622911_656111,
   226_367511_411111_460011_482211,
   227_270711_303311_339711_348511,
   228_199511_223711_250911_253211,
   229_147011_165111_185311_189911,
   230_108311_121811_136911_140511,
   231_807512_908712_102311_987112,
   232_602112_678312_764212_759012,
   233_449012_506512_571212_611012,
   234_335012_378312_427212_505212,
   235_250012_282612_319512_369612,
   236_190512_215612_244012_292012,
   237_145312_164612_186512_225112,
   238_110912_125812_142712_185312,
   239_847513_962513_109312_139112,
   240_648113_736913_837913_111212,
   241_511713_582513_663013_886513,
   242_404613_461113_525513_693713,
   243_320413_365513_417113_554913,
   244_254013_290213_331413_454413,
   245_201713_230613_263713_358013,
   246_171213_196013_224413_315113,
   247_145513_166713_191113_263113,
   248_123713_141913_162813_209413,
   249_105213_120813_138813_180313,
   250_895414_103013_118413_136513]

/-- atmdata/Venus/LAT80S.txt:16763-16913, columns 0 to 4. -/
def venusProfile112 : List ℕ :=
  [100_635202_647902_660902_631202,
   101_603502_615602_627902_596802,
   102_573002_584502_596202_566902,
   103_543802_554702_565802_534902,
   104_515902_526202_536702_509302,
   105_488902_498702_508702_485702,
   106_463102_472402_481802_458302,
   107_438302_447102_456002_436802,
   108_414302_422602_431102_414902,
   109_391702_399502_407502_391602,
   110_369802_377202_384702_371102,
   111_348802_355802_362902_351402,
   112_328802_335402_342102_329302,
   113_309802_316002_322302_309402,
   114_291602_297402_303302_293102,
   115_274002_279502_285102_276802,
   116_257502_262702_268002_257702,
   117_242002_246802_251702_240602,
   118_227302_231802_236402_226002,
   119_213102_217402_221702_210002,
   120_199902_203902_208002_196202,
   121_187402_191102_194902_183502,
   122_175302_178802_182402_173002,
   123_163802_167102_170402_163502,
   124_153102_156202_159302_153002,
   125_142802_145702_148602_141602,
   126_133202_135902_138602_131902,
   127_124002_126502_129002_122502,
   128_115402_117702_120102_113102,
   129_107202_109302_111502_104602,
   130_995103_101502_103502_974903,
   131_922203_940603_959403_909003,
   132_853303_870403_887803_850303,
   133_789603_805303_821503_790603,
   134_728803_743303_758203_726803,
   135_671903_685303_699003_671803,
   136_618503_630903_643503_619403,
   137_568603_579903_591503_572303,
   138_521503_531903_542503_526303,
   139_478103_487703_497403_483403,
   140_437203_445903_454903_444503,
   141_399103_407003_415203_403303,
   142_363403_370603_378103_363103,
   143_330003_336603_343403_326803,
   144_299503_305503_311603_297003,
   145_271203_276603_282103_270103,
   146_245003_249903_254903_245003,
   147_220403_224803_229303_221003,
   148_197703_201703_205703_199903,
   149_176803_180303_183903_177903,
   150_158103_161303_164503_159403,
   151_140803_143803_146803_144303,
   152_124703_127503_130403_128003,
   153_110803_113403_116103_115803,
   154_979704_100403_103003_103403,
   155_862704_885504_909004_913004,
   156_757804_778804_800504_815504,
   157_661504_680804_700604_707404,
   158_570204_587504_605404_608704,
   159_479304_494504_510204_514304,
   160_396704_409804_423304_435804,
   161_327704_339004_350604_360404,
   162_270804_280404_290404_299104,
   163_224004_232304_240804_245004,
   164_185304_192404_199704_200804,
   165_153004_159004_165304_163804,
   166_126304_131404_136804_135504,
   167_103904_108304_112804_109004,
   168_854905_892005_930705_910105,
   169_707805_739405_772505_775105,
   170_585905_612905_641105_619105,
   171_487105_510205_534305_523405,
   172_405005_424605_445305_435205,
   173_336805_353705_371305_364705,
   174_280205_294505_309605_301205,
   175_234005_246305_259205_260605,
   176_195405_205905_217005_217805,
   177_164005_173005_182505_179105,
   178_137605_145405_153605_151405,
   179_114505_121105_128105_121105,
   180_952806_100905_106905_102705,
   181_783306_830506_880606_852506,
   182_644306_684006_726106_690806,
   183_525206_558206_593306_541706,
   184_428306_455806_485006_436606,
   185_345706_368306_392406_357406,
   186_279106_297806_317706_280706,
   187_222106_237306_253406_221506,
   188_176806_189106_202206_181606,
   189_139706_149506_160106_145906,
   190_110306_118306_126806_109606,
   191_864307_927707_995707_887407,
   192_677107_727607_781907_671807,
   193_528107_568207_611307_529207,
   194_411907_443707_478007_404607,
   195_319307_344407_371407_309807,
   196_247507_267307_288607_253307,
   197_190907_206407_223107_199007,
   198_147207_159407_172507_159007,
   199_108707_117807_127607_121207,
   200_802208_870408_944408_855608,
   201_609508_662108_719308_681708,
   202_463208_503708_547808_558308,
   203_352008_383208_417308_431408,
   204_267508_291608_317908_320308,
   205_203308_221908_242208_233508,
   206_154208_168508_184208_173708,
   207_117008_128108_140108_139308,
   208_888409_973109_106608_107608,
   209_674409_739609_811209_853409,
   210_512109_562309_617409_703209,
   211_378409_416009_457309_515309,
   212_279609_307709_338709_366309,
   213_206609_227609_250809_266109,
   214_152609_168409_185809_182009,
   215_112809_124609_137609_133109,
   216_825410_912710_100909_976310,
   217_604010_668710_740310_681010,
   218_442010_489910_543010_528010,
   219_323510_359010_398310_400010,
   220_236710_263010_292210_300010,
   221_173410_192810_214510_228110,
   222_127010_141410_157410_165510,
   223_929811_103710_115610_116110,
   224_681011_760111_848511_832511,
   225_498811_557411_622911_618011,
   226_367511_411111_460011_417811,
   227_270711_303311_339711_303811,
   228_199511_223711_250911_215411,
   229_147011_165111_185311_156311,
   230_108311_121811_136911_124911,
   231_807512_908712_102311_925812,
   232_602112_678312_764212_689812,
   233_449012_506512_571212_499012,
   234_335012_378312_427212_374912,
   235_250012_282612_319512_276212,
   236_190512_215612_244012_200812,
   237_145312_164612_186512_149912,
   238_110912_125812_142712_118712,
   239_847513_962513_109312_873713,
   240_648113_736913_837913_662713,
   241_511713_582513_663013_495413,
   242_404613_461113_525513_403313,
   243_320413_365513_417113_329913,
   244_254013_290213_331413_259213,
   245_201713_230613_263713_227313,
   246_171213_196013_224413_195613,
   247_145513_166713_191113_164713,
   248_123713_141913_162813_140413,
   249_105213_120813_138813_115713,
   250_895414_103013_118413_839014]

/-- atmdata/Venus/LAT80S.txt:16914-17064, columns 0 to 4. -/
def venusProfile113 : List ℕ :=
  [100_635202_647902_660902_644002,
   101_603502_615602_627902_607702,
   102_573002_584502_596202_576102,
   103_543802_554702_565802_551002,
   104_515902_526202_536702_525102,
   105_488902_498702_508702_497302,
   106_463102_472402_481802_471502,
   107_438302_447102_456002_449302,
   108_414302_422602_431102_420602,
   109_391702_399502_407502_396602,
   110_369802_377202_384702_376702,
   111_348802_355802_362902_355602,
   112_328802_335402_342102_334502,
   113_309802_316002_322302_315702,
   114_291602_297402_303302_295202,
   115_274002_279502_285102_276902,
   116_257502_262702_268002_258302,
   117_242002_246802_251702_243802,
   118_227302_231802_236402_230402,
   119_213102_217402_221702_215602,
   120_199902_203902_208002_203602,
   121_187402_191102_194902_190402,
   122_175302_178802_182402_178002,
   123_163802_167102_170402_167202,
   124_153102_156202_159302_155802,
   125_142802_145702_148602_144802,
   126_133202_135902_138602_136102,
   127_124002_126502_129002_126402,
   128_115402_117702_120102_117902,
   129_107202_109302_111502_109902,
   130_995103_101502_103502_102402,
   131_922203_940603_959403_952403,
   132_853303_870403_887803_889403,
   133_789603_805303_821503_817003,
   134_728803_743303_758203_757203,
   135_671903_685303_699003_698003,
   136_618503_630903_643503_634903,
   137_568603_579903_591503_585403,
   138_521503_531903_542503_532803,
   139_478103_487703_497403_491803,
   140_437203_445903_454903_448903,
   141_399103_407003_415203_411703,
   142_363403_370603_378103_371603,
   143_330003_336603_343403_337403,
   144_299503_305503_311603_307203,
   145_271203_276603_282103_276703,
   146_245003_249903_254903_250203,
   147_220403_224803_229303_223003,
   148_197703_201703_205703_202003,
   149_176803_180303_183903_177403,
   150_158103_161303_164503_159503,
   151_140803_143803_146803_142103,
   152_124703_127503_130403_126403,
   153_110803_113403_116103_112503,
   154_979704_100403_103003_995004,
   155_862704_885504_909004_880004,
   156_757804_778804_800504_770804,
   157_661504_680804_700604_674104,
   158_570204_587504_605404_580204,
   159_479304_494504_510204_488704,
   160_396704_409804_423304_400604,
   161_327704_339004_350604_329504,
   162_270804_280404_290404_273204,
   163_224004_232304_240804_231204,
   164_185304_192404_199704_192504,
   165_153004_159004_165304_163704,
   166_126304_131404_136804_135004,
   167_103904_108304_112804_117204,
   168_854905_892005_930705_951805,
   169_707805_739405_772505_800905,
   170_585905_612905_641105_659205,
   171_487105_510205_534305_543705,
   172_405005_424605_445305_434505,
   173_336805_353705_371305_361405,
   174_280205_294505_309605_299005,
   175_234005_246305_259205_247505,
   176_195405_205905_217005_205705,
   177_164005_173005_182505_170005,
   178_137605_145405_153605_144105,
   179_114505_121105_128105_127605,
   180_952806_100905_106905_105405,
   181_783306_830506_880606_852806,
   182_644306_684006_726106_699406,
   183_525206_558206_593306_564406,
   184_428306_455806_485006_447506,
   185_345706_368306_392406_363706,
   186_279106_297806_317706_297806,
   187_222106_237306_253406_229606,
   188_176806_189106_202206_189606,
   189_139706_149506_160106_148306,
   190_110306_118306_126806_124606,
   191_864307_927707_995707_970707,
   192_677107_727607_781907_717407,
   193_528107_568207_611307_538207,
   194_411907_443707_478007_430007,
   195_319307_344407_371407_336407,
   196_247507_267307_288607_248207,
   197_190907_206407_223107_194607,
   198_147207_159407_172507_142607,
   199_108707_117807_127607_980808,
   200_802208_870408_944408_732008,
   201_609508_662108_719308_552508,
   202_463208_503708_547808_468108,
   203_352008_383208_417308_318008,
   204_267508_291608_317908_244708,
   205_203308_221908_242208_206608,
   206_154208_168508_184208_157108,
   207_117008_128108_140108_118108,
   208_888409_973109_106608_904709,
   209_674409_739609_811209_682409,
   210_512109_562309_617409_511809,
   211_378409_416009_457309_394209,
   212_279609_307709_338709_303109,
   213_206609_227609_250809_226909,
   214_152609_168409_185809_173309,
   215_112809_124609_137609_123409,
   216_825410_912710_100909_918410,
   217_604010_668710_740310_662710,
   218_442010_489910_543010_443710,
   219_323510_359010_398310_346110,
   220_236710_263010_292210_262310,
   221_173410_192810_214510_186310,
   222_127010_141410_157410_144310,
   223_929811_103710_115610_108710,
   224_681011_760111_848511_874611,
   225_498811_557411_622911_647511,
   226_367511_411111_460011_472711,
   227_270711_303311_339711_339511,
   228_199511_223711_250911_266511,
   229_147011_165111_185311_209011,
   230_108311_121811_136911_147111,
   231_807512_908712_102311_111811,
   232_602112_678312_764212_793812,
   233_449012_506512_571212_591712,
   234_335012_378312_427212_407212,
   235_250012_282612_319512_291912,
   236_190512_215612_244012_220012,
   237_145312_164612_186512_176012,
   238_110912_125812_142712_131612,
   239_847513_962513_109312_105812,
   240_648113_736913_837913_837713,
   241_511713_582513_663013_649413,
   242_404613_461113_525513_508913,
   243_320413_365513_417113_395613,
   244_254013_290213_331413_326913,
   245_201713_230613_263713_243213,
   246_171213_196013_224413_196113,
   247_145513_166713_191113_159313,
   248_123713_141913_162813_142613,
   249_105213_120813_138813_126313,
   250_895414_103013_118413_121013]

/-- atmdata/Venus/LAT80S.txt:17065-17215, columns 0 to 4. -/
def venusProfile114 : List ℕ :=
  [100_635202_647902_660902_653302,
   101_603502_615602_627902_614702,
   102_573002_584502_596202_581602,
   103_543802_554702_565802_554002,
   104_515902_526202_536702_529802,
   105_488902_498702_508702_497202,
   106_463102_472402_481802_475702,
   107_438302_447102_456002_453402,
   108_414302_422602_431102_427002,
   109_391702_399502_407502_402202,
   110_369802_377202_384702_375702,
   111_348802_355802_362902_353902,
   112_328802_335402_342102_334002,
   113_309802_316002_322302_318002,
   114_291602_297402_303302_298602,
   115_274002_279502_285102_282202,
   116_257502_262702_268002_263502,
   117_242002_246802_251702_247302,
   118_227302_231802_236402_231602,
   119_213102_217402_221702_217502,
   120_199902_203902_208002_204302,
   121_187402_191102_194902_191102,
   122_175302_178802_182402_177102,
   123_163802_167102_170402_165902,
   124_153102_156202_159302_153602,
   125_142802_145702_148602_143302,
   126_133202_135902_138602_133702,
   127_124002_126502_129002_124502,
   128_115402_117702_120102_115502,
   129_107202_109302_111502_107102,
   130_995103_101502_103502_100102,
   131_922203_940603_959403_931903,
   132_853303_870403_887803_871803,
   133_789603_805303_821503_807203,
   134_728803_743303_758203_743403,
   135_671903_685303_699003_685603,
   136_618503_630903_643503_631403,
   137_568603_579903_591503_581803,
   138_521503_531903_542503_534603,
   139_478103_487703_497403_486703,
   140_437203_445903_454903_440703,
   141_399103_407003_415203_401903,
   142_363403_370603_378103_364003,
   143_330003_336603_343403_333903,
   144_299503_305503_311603_305503,
   145_271203_276603_282103_278203,
   146_245003_249903_254903_251203,
   147_220403_224803_229303_226103,
   148_197703_201703_205703_205203,
   149_176803_180303_183903_184403,
   150_158103_161303_164503_165903,
   151_140803_143803_146803_150503,
   152_124703_127503_130403_134003,
   153_110803_113403_116103_117703,
   154_979704_100403_103003_102803,
   155_862704_885504_909004_909004,
   156_757804_778804_800504_803704,
   157_661504_680804_700604_706604,
   158_570204_587504_605404_606404,
   159_479304_494504_510204_507304,
   160_396704_409804_423304_418604,
   161_327704_339004_350604_337904,
   162_270804_280404_290404_278304,
   163_224004_232304_240804_230804,
   164_185304_192404_199704_196104,
   165_153004_159004_165304_163004,
   166_126304_131404_136804_134004,
   167_103904_108304_112804_112704,
   168_854905_892005_930705_941805,
   169_707805_739405_772505_788905,
   170_585905_612905_641105_665505,
   171_487105_510205_534305_530705,
   172_405005_424605_445305_441705,
   173_336805_353705_371305_364305,
   174_280205_294505_309605_301605,
   175_234005_246305_259205_255005,
   176_195405_205905_217005_209505,
   177_164005_173005_182505_172905,
   178_137605_145405_153605_146305,
   179_114505_121105_128105_126105,
   180_952806_100905_106905_101305,
   181_783306_830506_880606_864506,
   182_644306_684006_726106_716306,
   183_525206_558206_593306_588306,
   184_428306_455806_485006_511306,
   185_345706_368306_392406_409606,
   186_279106_297806_317706_321706,
   187_222106_237306_253406_264706,
   188_176806_189106_202206_219606,
   189_139706_149506_160106_164206,
   190_110306_118306_126806_134006,
   191_864307_927707_995707_100906,
   192_677107_727607_781907_827807,
   193_528107_568207_611307_647607,
   194_411907_443707_478007_490107,
   195_319307_344407_371407_390307,
   196_247507_267307_288607_292907,
   197_190907_206407_223107_225707,
   198_147207_159407_172507_169807,
   199_108707_117807_127607_121607,
   200_802208_870408_944408_918808,
   201_609508_662108_719308_706308,
   202_463208_503708_547808_585408,
   203_352008_383208_417308_430508,
   204_267508_291608_317908_326308,
   205_203308_221908_242208_253708,
   206_154208_168508_184208_191908,
   207_117008_128108_140108_147708,
   208_888409_973109_106608_108708,
   209_674409_739609_811209_846209,
   210_512109_562309_617409_643909,
   211_378409_416009_457309_507309,
   212_279609_307709_338709_364509,
   213_206609_227609_250809_273209,
   214_152609_168409_185809_199209,
   215_112809_124609_137609_155109,
   216_825410_912710_100909_114009,
   217_604010_668710_740310_826610,
   218_442010_489910_543010_570610,
   219_323510_359010_398310_440510,
   220_236710_263010_292210_325810,
   221_173410_192810_214510_237210,
   222_127010_141410_157410_165810,
   223_929811_103710_115610_116310,
   224_681011_760111_848511_852711,
   225_498811_557411_622911_634111,
   226_367511_411111_460011_505811,
   227_270711_303311_339711_360411,
   228_199511_223711_250911_267811,
   229_147011_165111_185311_196611,
   230_108311_121811_136911_144111,
   231_807512_908712_102311_995412,
   232_602112_678312_764212_798112,
   233_449012_506512_571212_624512,
   234_335012_378312_427212_465312,
   235_250012_282612_319512_323912,
   236_190512_215612_244012_250712,
   237_145312_164612_186512_185012,
   238_110912_125812_142712_129812,
   239_847513_962513_109312_985313,
   240_648113_736913_837913_719013,
   241_511713_582513_663013_589113,
   242_404613_461113_525513_458913,
   243_320413_365513_417113_348713,
   244_254013_290213_331413_266913,
   245_201713_230613_263713_209913,
   246_171213_196013_224413_190513,
   247_145513_166713_191113_183213,
   248_123713_141913_162813_142913,
   249_105213_120813_138813_115913,
   250_895414_103013_118413_110013]

/-- atmdata/Venus/LAT80S.txt:17216-17366, columns 0 to 4. -/
def venusProfile115 : List ℕ :=
  [100_635202_647902_660902_668602,
   101_603502_615602_627902_640802,
   102_573002_584502_596202_604202,
   103_543802_554702_565802_573602,
   104_515902_526202_536702_539802,
   105_488902_498702_508702_511902,
   106_463102_472402_481802_483802,
   107_438302_447102_456002_461402,
   108_414302_422602_431102_435702,
   109_391702_399502_407502_409702,
   110_369802_377202_384702_384702,
   111_348802_355802_362902_361102,
   112_328802_335402_342102_341802,
   113_309802_316002_322302_321102,
   114_291602_297402_303302_302402,
   115_274002_279502_285102_283702,
   116_257502_262702_268002_265102,
   117_242002_246802_251702_247102,
   118_227302_231802_236402_233002,
   119_213102_217402_221702_219702,
   120_199902_203902_208002_205402,
   121_187402_191102_194902_192302,
   122_175302_178802_182402_180202,
   123_163802_167102_170402_168402,
   124_153102_156202_159302_158002,
   125_142802_145702_148602_147602,
   126_133202_135902_138602_136202,
   127_124002_126502_129002_126902,
   128_115402_117702_120102_118802,
   129_107202_109302_111502_111302,
   130_995103_101502_103502_104302,
   131_922203_940603_959403_969003,
   132_853303_870403_887803_905803,
   133_789603_805303_821503_845003,
   134_728803_743303_758203_785203,
   135_671903_685303_699003_721903,
   136_618503_630903_643503_655003,
   137_568603_579903_591503_602003,
   138_521503_531903_542503_547203,
   139_478103_487703_497403_500503,
   140_437203_445903_454903_458403,
   141_399103_407003_415203_412903,
   142_363403_370603_378103_373903,
   143_330003_336603_343403_338603,
   144_299503_305503_311603_304403,
   145_271203_276603_282103_275103,
   146_245003_249903_254903_248203,
   147_220403_224803_229303_221003,
   148_197703_201703_205703_195303,
   149_176803_180303_183903_175303,
   150_158103_161303_164503_154403,
   151_140803_143803_146803_137703,
   152_124703_127503_130403_123003,
   153_110803_113403_116103_109803,
   154_979704_100403_103003_976904,
   155_862704_885504_909004_865604,
   156_757804_778804_800504_752204,
   157_661504_680804_700604_671704,
   158_570204_587504_605404_576504,
   159_479304_494504_510204_480104,
   160_396704_409804_423304_399904,
   161_327704_339004_350604_334504,
   162_270804_280404_290404_273904,
   163_224004_232304_240804_223504,
   164_185304_192404_199704_183704,
   165_153004_159004_165304_151504,
   166_126304_131404_136804_124704,
   167_103904_108304_112804_104604,
   168_854905_892005_930705_858105,
   169_707805_739405_772505_720605,
   170_585905_612905_641105_592705,
   171_487105_510205_534305_498005,
   172_405005_424605_445305_402805,
   173_336805_353705_371305_331505,
   174_280205_294505_309605_276605,
   175_234005_246305_259205_226005,
   176_195405_205905_217005_184205,
   177_164005_173005_182505_153605,
   178_137605_145405_153605_131105,
   179_114505_121105_128105_113105,
   180_952806_100905_106905_963606,
   181_783306_830506_880606_799306,
   182_644306_684006_726106_675506,
   183_525206_558206_593306_574906,
   184_428306_455806_485006_481406,
   185_345706_368306_392406_385406,
   186_279106_297806_317706_316306,
   187_222106_237306_253406_255006,
   188_176806_189106_202206_193506,
   189_139706_149506_160106_155606,
   190_110306_118306_126806_126706,
   191_864307_927707_995707_101306,
   192_677107_727607_781907_817307,
   193_528107_568207_611307_618607,
   194_411907_443707_478007_489507,
   195_319307_344407_371407_366007,
   196_247507_267307_288607_279807,
   197_190907_206407_223107_215507,
   198_147207_159407_172507_165907,
   199_108707_117807_127607_121407,
   200_802208_870408_944408_854508,
   201_609508_662108_719308_613708,
   202_463208_503708_547808_420908,
   203_352008_383208_417308_325308,
   204_267508_291608_317908_255808,
   205_203308_221908_242208_199608,
   206_154208_168508_184208_156208,
   207_117008_128108_140108_114508,
   208_888409_973109_106608_823009,
   209_674409_739609_811209_617109,
   210_512109_562309_617409_509209,
   211_378409_416009_457309_365209,
   212_279609_307709_338709_288509,
   213_206609_227609_250809_227209,
   214_152609_168409_185809_162909,
   215_112809_124609_137609_123709,
   216_825410_912710_100909_937310,
   217_604010_668710_740310_708510,
   218_442010_489910_543010_501010,
   219_323510_359010_398310_331510,
   220_236710_263010_292210_251310,
   221_173410_192810_214510_200010,
   222_127010_141410_157410_147210,
   223_929811_103710_115610_110710,
   224_681011_760111_848511_773211,
   225_498811_557411_622911_582111,
   226_367511_411111_460011_425011,
   227_270711_303311_339711_304411,
   228_199511_223711_250911_222511,
   229_147011_165111_185311_157811,
   230_108311_121811_136911_123911,
   231_807512_908712_102311_910812,
   232_602112_678312_764212_696612,
   233_449012_506512_571212_498712,
   234_335012_378312_427212_354912,
   235_250012_282612_319512_305212,
   236_190512_215612_244012_253212,
   237_145312_164612_186512_200412,
   238_110912_125812_142712_156212,
   239_847513_962513_109312_109912,
   240_648113_736913_837913_844713,
   241_511713_582513_663013_596913,
   242_404613_461113_525513_457813,
   243_320413_365513_417113_316213,
   244_254013_290213_331413_261113,
   245_201713_230613_263713_212513,
   246_171213_196013_224413_181313,
   247_145513_166713_191113_161613,
   248_123713_141913_162813_135713,
   249_105213_120813_138813_118813,
   250_895414_103013_118413_111213]

/-- atmdata/Venus/LAT80S.txt:17367-17517, columns 0 to 4. -/
def venusProfile116 : List ℕ :=
  [100_635202_647902_660902_638502,
   101_603502_615602_627902_611302,
   102_573002_584502_596202_588702,
   103_543802_554702_565802_558202,
   104_515902_526202_536702_527402,
   105_488902_498702_508702_497702,
   106_463102_472402_481802_473302,
   107_438302_447102_456002_452702,
   108_414302_422602_431102_429002,
   109_391702_399502_407502_403302,
   110_369802_377202_384702_379802,
   111_348802_355802_362902_354702,
   112_328802_335402_342102_331502,
   113_309802_316002_322302_313202,
   114_291602_297402_303302_296402,
   115_274002_279502_285102_281002,
   116_257502_262702_268002_262902,
   117_242002_246802_251702_247902,
   118_227302_231802_236402_231702,
   119_213102_217402_221702_215902,
   120_199902_203902_208002_200502,
   121_187402_191102_194902_188002,
   122_175302_178802_182402_175302,
   123_163802_167102_170402_163602,
   124_153102_156202_159302_153102,
   125_142802_145702_148602_143802,
   126_133202_135902_138602_134402,
   127_124002_126502_129002_125402,
   128_115402_117702_120102_116702,
   129_107202_109302_111502_108502,
   130_995103_101502_103502_999503,
   131_922203_940603_959403_929803,
   132_853303_870403_887803_872503,
   133_789603_805303_821503_805603,
   134_728803_743303_758203_743703,
   135_671903_685303_699003_685103,
   136_618503_630903_643503_630803,
   137_568603_579903_591503_580403,
   138_521503_531903_542503_533303,
   139_478103_487703_497403_490603,
   140_437203_445903_454903_447203,
   141_399103_407003_415203_409103,
   142_363403_370603_378103_371203,
   143_330003_336603_343403_338803,
   144_299503_305503_311603_306103,
   145_271203_276603_282103_280303,
   146_245003_249903_254903_252303,
   147_220403_224803_229303_226903,
   148_197703_201703_205703_201403,
   149_176803_180303_183903_179703,
   150_158103_161303_164503_159603,
   151_140803_143803_146803_139603,
   152_124703_127503_130403_125103,
   153_110803_113403_116103_110403,
   154_979704_100403_103003_973604,
   155_862704_885504_909004_863404,
   156_757804_778804_800504_759904,
   157_661504_680804_700604_658604,
   158_570204_587504_605404_564604,
   159_479304_494504_510204_462604,
   160_396704_409804_423304_389304,
   161_327704_339004_350604_322904,
   162_270804_280404_290404_262004,
   163_224004_232304_240804_220204,
   164_185304_192404_199704_183604,
   165_153004_159004_165304_148604,
   166_126304_131404_136804_122104,
   167_103904_108304_112804_101904,
   168_854905_892005_930705_862705,
   169_707805_739405_772505_721205,
   170_585905_612905_641105_606005,
   171_487105_510205_534305_498305,
   172_405005_424605_445305_417305,
   173_336805_353705_371305_338605,
   174_280205_294505_309605_282305,
   175_234005_246305_259205_236805,
   176_195405_205905_217005_205405,
   177_164005_173005_182505_170105,
   178_137605_145405_153605_143805,
   179_114505_121105_128105_122205,
   180_952806_100905_106905_101205,
   181_783306_830506_880606_816106,
   182_644306_684006_726106_716106,
   183_525206_558206_593306_571606,
   184_428306_455806_485006_472706,
   185_345706_368306_392406_377006,
   186_279106_297806_317706_299606,
   187_222106_237306_253406_239206,
   188_176806_189106_202206_185106,
   189_139706_149506_160106_145906,
   190_110306_118306_126806_118506,
   191_864307_927707_995707_926907,
   192_677107_727607_781907_748007,
   193_528107_568207_611307_597407,
   194_411907_443707_478007_455207,
   195_319307_344407_371407_351707,
   196_247507_267307_288607_273207,
   197_190907_206407_223107_210107,
   198_147207_159407_172507_165407,
   199_108707_117807_127607_123207,
   200_802208_870408_944408_901108,
   201_609508_662108_719308_679408,
   202_463208_503708_547808_473108,
   203_352008_383208_417308_370508,
   204_267508_291608_317908_291108,
   205_203308_221908_242208_220608,
   206_154208_168508_184208_173708,
   207_117008_128108_140108_132208,
   208_888409_973109_106608_104208,
   209_674409_739609_811209_803809,
   210_512109_562309_617409_591009,
   211_378409_416009_457309_429809,
   212_279609_307709_338709_315309,
   213_206609_227609_250809_219509,
   214_152609_168409_185809_174009,
   215_112809_124609_137609_128009,
   216_825410_912710_100909_977410,
   217_604010_668710_740310_777510,
   218_442010_489910_543010_554710,
   219_323510_359010_398310_378210,
   220_236710_263010_292210_282810,
   221_173410_192810_214510_201810,
   222_127010_141410_157410_156310,
   223_929811_103710_115610_110010,
   224_681011_760111_848511_831611,
   225_498811_557411_622911_622611,
   226_367511_411111_460011_483211,
   227_270711_303311_339711_342111,
   228_199511_223711_250911_238711,
   229_147011_165111_185311_183211,
   230_108311_121811_136911_128611,
   231_807512_908712_102311_981712,
   232_602112_678312_764212_719212,
   233_449012_506512_571212_536712,
   234_335012_378312_427212_410212,
   235_250012_282612_319512_321812,
   236_190512_215612_244012_234012,
   237_145312_164612_186512_174212,
   238_110912_125812_142712_131912,
   239_847513_962513_109312_103612,
   240_648113_736913_837913_707813,
   241_511713_582513_663013_548413,
   242_404613_461113_525513_416913,
   243_320413_365513_417113_349913,
   244_254013_290213_331413_259213,
   245_201713_230613_263713_219213,
   246_171213_196013_224413_173813,
   247_145513_166713_191113_150313,
   248_123713_141913_162813_132813,
   249_105213_120813_138813_106113,
   250_895414_103013_118413_993314]

/-- atmdata/Venus/LAT80S.txt:17518-17668, columns 0 to 4. -/
def venusProfile117 : List ℕ :=
  [100_635202_647902_660902_648302,
   101_603502_615602_627902_619602,
   102_573002_584502_596202_591602,
   103_543802_554702_565802_559602,
   104_515902_526202_536702_529702,
   105_488902_498702_508702_504002,
   106_463102_472402_481802_475002,
   107_438302_447102_456002_444002,
   108_414302_422602_431102_423802,
   109_391702_399502_407502_398102,
   110_369802_377202_384702_375802,
   111_348802_355802_362902_356502,
   112_328802_335402_342102_335002,
   113_309802_316002_322302_313002,
   114_291602_297402_303302_292402,
   115_274002_279502_285102_274902,
   116_257502_262702_268002_257602,
   117_242002_246802_251702_241902,
   118_227302_231802_236402_227802,
   119_213102_217402_221702_213502,
   120_199902_203902_208002_201102,
   121_187402_191102_194902_188602,
   122_175302_178802_182402_177602,
   123_163802_167102_170402_165202,
   124_153102_156202_159302_153902,
   125_142802_145702_148602_142202,
   126_133202_135902_138602_132102,
   127_124002_126502_129002_123602,
   128_115402_117702_120102_114202,
   129_107202_109302_111502_105502,
   130_995103_101502_103502_976203,
   131_922203_940603_959403_909003,
   132_853303_870403_887803_827603,
   133_789603_805303_821503_771203,
   134_728803_743303_758203_707403,
   135_671903_685303_699003_652803,
   136_618503_630903_643503_593303,
   137_568603_579903_591503_547103,
   138_521503_531903_542503_499503,
   139_478103_487703_497403_466403,
   140_437203_445903_454903_432303,
   141_399103_407003_415203_393603,
   142_363403_370603_378103_358303,
   143_330003_336603_343403_324303,
   144_299503_305503_311603_294703,
   145_271203_276603_282103_267603,
   146_245003_249903_254903_241003,
   147_220403_224803_229303_214503,
   148_197703_201703_205703_191403,
   149_176803_180303_183903_170603,
   150_158103_161303_164503_152503,
   151_140803_143803_146803_136103,
   152_124703_127503_130403_122703,
   153_110803_113403_116103_109803,
   154_979704_100403_103003_985104,
   155_862704_885504_909004_874004,
   156_757804_778804_800504_778504,
   157_661504_680804_700604_679104,
   158_570204_587504_605404_580704,
   159_479304_494504_510204_495004,
   160_396704_409804_423304_401304,
   161_327704_339004_350604_329204,
   162_270804_280404_290404_278004,
   163_224004_232304_240804_229304,
   164_185304_192404_199704_194004,
   165_153004_159004_165304_162304,
   166_126304_131404_136804_132004,
   167_103904_108304_112804_109104,
   168_854905_892005_930705_894705,
   169_707805_739405_772505_743305,
   170_585905_612905_641105_604305,
   171_487105_510205_534305_514705,
   172_405005_424605_445305_417405,
   173_336805_353705_371305_360505,
   174_280205_294505_309605_299605,
   175_234005_246305_259205_256905,
   176_195405_205905_217005_217805,
   177_164005_173005_182505_179705,
   178_137605_145405_153605_151305,
   179_114505_121105_128105_127405,
   180_952806_100905_106905_102105,
   181_783306_830506_880606_861006,
   182_644306_684006_726106_689906,
   183_525206_558206_593306_563606,
   184_428306_455806_485006_461906,
   185_345706_368306_392406_367006,
   186_279106_297806_317706_304906,
   187_222106_237306_253406_239706,
   188_176806_189106_202206_187206,
   189_139706_149506_160106_143206,
   190_110306_118306_126806_115906,
   191_864307_927707_995707_880407,
   192_677107_727607_781907_707707,
   193_528107_568207_611307_547407,
   194_411907_443707_478007_438707,
   195_319307_344407_371407_349007,
   196_247507_267307_288607_275107,
   197_190907_206407_223107_210607,
   198_147207_159407_172507_172007,
   199_108707_117807_127607_130407,
   200_802208_870408_944408_976908,
   201_609508_662108_719308_758408,
   202_463208_503708_547808_529508,
   203_352008_383208_417308_434508,
   204_267508_291608_317908_342208,
   205_203308_221908_242208_252108,
   206_154208_168508_184208_200108,
   207_117008_128108_140108_158608,
   208_888409_973109_106608_119808,
   209_674409_739609_811209_865309,
   210_512109_562309_617409_653509,
   211_378409_416009_457309_481009,
   212_279609_307709_338709_384909,
   213_206609_227609_250809_272809,
   214_152609_168409_185809_202209,
   215_112809_124609_137609_143409,
   216_825410_912710_100909_109509,
   217_604010_668710_740310_764310,
   218_442010_489910_543010_552410,
   219_323510_359010_398310_382610,
   220_236710_263010_292210_285210,
   221_173410_192810_214510_212010,
   222_127010_141410_157410_149610,
   223_929811_103710_115610_112410,
   224_681011_760111_848511_807011,
   225_498811_557411_622911_607411,
   226_367511_411111_460011_438411,
   227_270711_303311_339711_310211,
   228_199511_223711_250911_243811,
   229_147011_165111_185311_177411,
   230_108311_121811_136911_130311,
   231_807512_908712_102311_871712,
   232_602112_678312_764212_616612,
   233_449012_506512_571212_489512,
   234_335012_378312_427212_354112,
   235_250012_282612_319512_275012,
   236_190512_215612_244012_210212,
   237_145312_164612_186512_171212,
   238_110912_125812_142712_123712,
   239_847513_962513_109312_926913,
   240_648113_736913_837913_706013,
   241_511713_582513_663013_570413,
   242_404613_461113_525513_423313,
   243_320413_365513_417113_342913,
   244_254013_290213_331413_275013,
   245_201713_230613_263713_197113,
   246_171213_196013_224413_176613,
   247_145513_166713_191113_147213,
   248_123713_141913_162813_142513,
   249_105213_120813_138813_122913,
   250_895414_103013_118413_112713]

/-- atmdata/Venus/LAT80S.txt:17669-17819, columns 0 to 4. -/
def venusProfile118 : List ℕ :=
  [100_635202_647902_660902_658602,
   101_603502_615602_627902_628402,
   102_573002_584502_596202_598402,
   103_543802_554702_565802_564302,
   104_515902_526202_536702_534902,
   105_488902_498702_508702_505902,
   106_463102_472402_481802_479502,
   107_438302_447102_456002_449402,
   108_414302_422602_431102_422902,
   109_391702_399502_407502_396802,
   110_369802_377202_384702_375302,
   111_348802_355802_362902_355002,
   112_328802_335402_342102_334702,
   113_309802_316002_322302_315002,
   114_291602_297402_303302_295702,
   115_274002_279502_285102_275302,
   116_257502_262702_268002_258102,
   117_242002_246802_251702_240802,
   118_227302_231802_236402_224602,
   119_213102_217402_221702_211402,
   120_199902_203902_208002_198402,
   121_187402_191102_194902_186402,
   122_175302_178802_182402_174402,
   123_163802_167102_170402_161402,
   124_153102_156202_159302_149302,
   125_142802_145702_148602_139002,
   126_133202_135902_138602_130402,
   127_124002_126502_129002_122302,
   128_115402_117702_120102_114302,
   129_107202_109302_111502_106602,
   130_995103_101502_103502_988603,
   131_922203_940603_959403_919703,
   132_853303_870403_887803_840803,
   133_789603_805303_821503_775003,
   134_728803_743303_758203_718503,
   135_671903_685303_699003_662203,
   136_618503_630903_643503_610703,
   137_568603_579903_591503_561903,
   138_521503_531903_542503_517203,
   139_478103_487703_497403_473103,
   140_437203_445903_454903_433903,
   141_399103_407003_415203_399703,
   142_363403_370603_378103_364003,
   143_330003_336603_343403_331603,
   144_299503_305503_311603_302003,
   145_271203_276603_282103_271503,
   146_245003_249903_254903_243703,
   147_220403_224803_229303_219603,
   148_197703_201703_205703_196003,
   149_176803_180303_183903_178303,
   150_158103_161303_164503_159403,
   151_140803_143803_146803_139903,
   152_124703_127503_130403_122603,
   153_110803_113403_116103_108603,
   154_979704_100403_103003_962804,
   155_862704_885504_909004_855404,
   156_757804_778804_800504_748404,
   157_661504_680804_700604_657904,
   158_570204_587504_605404_561804,
   159_479304_494504_510204_476504,
   160_396704_409804_423304_392104,
   161_327704_339004_350604_333604,
   162_270804_280404_290404_279004,
   163_224004_232304_240804_238304,
   164_185304_192404_199704_194804,
   165_153004_159004_165304_160804,
   166_126304_131404_136804_130204,
   167_103904_108304_112804_107204,
   168_854905_892005_930705_909705,
   169_707805_739405_772505_752105,
   170_585905_612905_641105_625205,
   171_487105_510205_534305_519305,
   172_405005_424605_445305_434405,
   173_336805_353705_371305_368005,
   174_280205_294505_309605_305705,
   175_234005_246305_259205_251605,
   176_195405_205905_217005_211605,
   177_164005_173005_182505_175005,
   178_137605_145405_153605_147505,
   179_114505_121105_128105_123905,
   180_952806_100905_106905_104705,
   181_783306_830506_880606_858206,
   182_644306_684006_726106_697806,
   183_525206_558206_593306_582206,
   184_428306_455806_485006_471406,
   185_345706_368306_392406_371706,
   186_279106_297806_317706_297606,
   187_222106_237306_253406_230306,
   188_176806_189106_202206_181806,
   189_139706_149506_160106_148006,
   190_110306_118306_126806_118806,
   191_864307_927707_995707_955807,
   192_677107_727607_781907_758407,
   193_528107_568207_611307_615607,
   194_411907_443707_478007_469407,
   195_319307_344407_371407_345707,
   196_247507_267307_288607_277607,
   197_190907_206407_223107_211607,
   198_147207_159407_172507_158107,
   199_108707_117807_127607_109807,
   200_802208_870408_944408_774708,
   201_609508_662108_719308_576408,
   202_463208_503708_547808_408108,
   203_352008_383208_417308_306908,
   204_267508_291608_317908_217508,
   205_203308_221908_242208_160008,
   206_154208_168508_184208_116308,
   207_117008_128108_140108_899409,
   208_888409_973109_106608_698109,
   209_674409_739609_811209_555209,
   210_512109_562309_617409_458209,
   211_378409_416009_457309_357209,
   212_279609_307709_338709_269209,
   213_206609_227609_250809_199009,
   214_152609_168409_185809_147209,
   215_112809_124609_137609_120909,
   216_825410_912710_100909_974910,
   217_604010_668710_740310_702410,
   218_442010_489910_543010_517310,
   219_323510_359010_398310_363310,
   220_236710_263010_292210_271610,
   221_173410_192810_214510_183710,
   222_127010_141410_157410_136710,
   223_929811_103710_115610_972611,
   224_681011_760111_848511_788311,
   225_498811_557411_622911_596411,
   226_367511_411111_460011_458311,
   227_270711_303311_339711_321811,
   228_199511_223711_250911_240711,
   229_147011_165111_185311_163611,
   230_108311_121811_136911_126811,
   231_807512_908712_102311_921912,
   232_602112_678312_764212_726412,
   233_449012_506512_571212_512112,
   234_335012_378312_427212_398812,
   235_250012_282612_319512_301012,
   236_190512_215612_244012_237012,
   237_145312_164612_186512_177112,
   238_110912_125812_142712_142312,
   239_847513_962513_109312_117512,
   240_648113_736913_837913_929813,
   241_511713_582513_663013_772913,
   242_404613_461113_525513_541913,
   243_320413_365513_417113_417913,
   244_254013_290213_331413_360113,
   245_201713_230613_263713_272013,
   246_171213_196013_224413_223913,
   247_145513_166713_191113_174513,
   248_123713_141913_162813_142513,
   249_105213_120813_138813_110013,
   250_895414_103013_118413_101013]

/-- atmdata/Venus/LAT80S.txt:17820-17970, columns 0 to 4. -/
def venusProfile119 : List ℕ :=
  [100_635202_647902_660902_630002,
   101_603502_615602_627902_601502,
   102_573002_584502_596202_572602,
   103_543802_554702_565802_548702,
   104_515902_526202_536702_521402,
   105_488902_498702_508702_499202,
   106_463102_472402_481802_477602,
   107_438302_447102_456002_448302,
   108_414302_422602_431102_423402,
   109_391702_399502_407502_396202,
   110_369802_377202_384702_375702,
   111_348802_355802_362902_354402,
   112_328802_335402_342102_335302,
   113_309802_316002_322302_317102,
   114_291602_297402_303302_298602,
   115_274002_279502_285102_280902,
   116_257502_262702_268002_263302,
   117_242002_246802_251702_248202,
   118_227302_231802_236402_233102,
   119_213102_217402_221702_220502,
   120_199902_203902_208002_205602,
   121_187402_191102_194902_193002,
   122_175302_178802_182402_178802,
   123_163802_167102_170402_168102,
   124_153102_156202_159302_157802,
   125_142802_145702_148602_146902,
   126_133202_135902_138602_136602,
   127_124002_126502_129002_128302,
   128_115402_117702_120102_118902,
   129_107202_109302_111502_110102,
   130_995103_101502_103502_102102,
   131_922203_940603_959403_948203,
   132_853303_870403_887803_867203,
   133_789603_805303_821503_803603,
   134_728803_743303_758203_738803,
   135_671903_685303_699003_679503,
   136_618503_630903_643503_635803,
   137_568603_579903_591503_583403,
   138_521503_531903_542503_531003,
   139_478103_487703_497403_487303,
   140_437203_445903_454903_443503,
   141_399103_407003_415203_405003,
   142_363403_370603_378103_368903,
   143_330003_336603_343403_331903,
   144_299503_305503_311603_303503,
   145_271203_276603_282103_275803,
   146_245003_249903_254903_246503,
   147_220403_224803_229303_218403,
   148_197703_201703_205703_195203,
   149_176803_180303_183903_175903,
   150_158103_161303_164503_157803,
   151_140803_143803_146803_140803,
   152_124703_127503_130403_123803,
   153_110803_113403_116103_111203,
   154_979704_100403_103003_975004,
   155_862704_885504_909004_866604,
   156_757804_778804_800504_766004,
   157_661504_680804_700604_678704,
   158_570204_587504_605404_577604,
   159_479304_494504_510204_486704,
   160_396704_409804_423304_403204,
   161_327704_339004_350604_336204,
   162_270804_280404_290404_279404,
   163_224004_232304_240804_232204,
   164_185304_192404_199704_192704,
   165_153004_159004_165304_157104,
   166_126304_131404_136804_126304,
   167_103904_108304_112804_103604,
   168_854905_892005_930705_855405,
   169_707805_739405_772505_707605,
   170_585905_612905_641105_560005,
   171_487105_510205_534305_456605,
   172_405005_424605_445305_374105,
   173_336805_353705_371305_317905,
   174_280205_294505_309605_267305,
   175_234005_246305_259205_227305,
   176_195405_205905_217005_190905,
   177_164005_173005_182505_159205,
   178_137605_145405_153605_135005,
   179_114505_121105_128105_113705,
   180_952806_100905_106905_946406,
   181_783306_830506_880606_759106,
   182_644306_684006_726106_630506,
   183_525206_558206_593306_500706,
   184_428306_455806_485006_405606,
   185_345706_368306_392406_320506,
   186_279106_297806_317706_272906,
   187_222106_237306_253406_229806,
   188_176806_189106_202206_182706,
   189_139706_149506_160106_144906,
   190_110306_118306_126806_116006,
   191_864307_927707_995707_908907,
   192_677107_727607_781907_719607,
   193_528107_568207_611307_561607,
   194_411907_443707_478007_450707,
   195_319307_344407_371407_345507,
   196_247507_267307_288607_247907,
   197_190907_206407_223107_189807,
   198_147207_159407_172507_146507,
   199_108707_117807_127607_106207,
   200_802208_870408_944408_785008,
   201_609508_662108_719308_607208,
   202_463208_503708_547808_431508,
   203_352008_383208_417308_332308,
   204_267508_291608_317908_244808,
   205_203308_221908_242208_200508,
   206_154208_168508_184208_148208,
   207_117008_128108_140108_117208,
   208_888409_973109_106608_863709,
   209_674409_739609_811209_617209,
   210_512109_562309_617409_457909,
   211_378409_416009_457309_374509,
   212_279609_307709_338709_263609,
   213_206609_227609_250809_198809,
   214_152609_168409_185809_140909,
   215_112809_124609_137609_109209,
   216_825410_912710_100909_750210,
   217_604010_668710_740310_566910,
   218_442010_489910_543010_432110,
   219_323510_359010_398310_310710,
   220_236710_263010_292210_235310,
   221_173410_192810_214510_172210,
   222_127010_141410_157410_136910,
   223_929811_103710_115610_103610,
   224_681011_760111_848511_766711,
   225_498811_557411_622911_583311,
   226_367511_411111_460011_418111,
   227_270711_303311_339711_293911,
   228_199511_223711_250911_214511,
   229_147011_165111_185311_162611,
   230_108311_121811_136911_114111,
   231_807512_908712_102311_871912,
   232_602112_678312_764212_660112,
   233_449012_506512_571212_492612,
   234_335012_378312_427212_360712,
   235_250012_282612_319512_270012,
   236_190512_215612_244012_186212,
   237_145312_164612_186512_155312,
   238_110912_125812_142712_120212,
   239_847513_962513_109312_933513,
   240_648113_736913_837913_692613,
   241_511713_582513_663013_528513,
   242_404613_461113_525513_456713,
   243_320413_365513_417113_345013,
   244_254013_290213_331413_271413,
   245_201713_230613_263713_216113,
   246_171213_196013_224413_212213,
   247_145513_166713_191113_190913,
   248_123713_141913_162813_162213,
   249_105213_120813_138813_136813,
   250_895414_103013_118413_122113]

/-- atmdata/Venus/LAT80S.txt:17971-18121, columns 0 to 4. -/
def venusProfile120 : List ℕ :=
  [100_635202_647902_660902_643402,
   101_603502_615602_627902_613402,
   102_573002_584502_596202_582702,
   103_543802_554702_565802_555402,
   104_515902_526202_536702_528502,
   105_488902_498702_508702_501202,
   106_463102_472402_481802_474002,
   107_438302_447102_456002_445402,
   108_414302_422602_431102_422102,
   109_391702_399502_407502_403102,
   110_369802_377202_384702_383402,
   111_348802_355802_362902_360602,
   112_328802_335402_342102_343202,
   113_309802_316002_322302_321302,
   114_291602_297402_303302_303502,
   115_274002_279502_285102_283202,
   116_257502_262702_268002_265602,
   117_242002_246802_251702_249102,
   118_227302_231802_236402_236002,
   119_213102_217402_221702_220202,
   120_199902_203902_208002_207702,
   121_187402_191102_194902_195102,
   122_175302_178802_182402_182802,
   123_163802_167102_170402_171202,
   124_153102_156202_159302_159902,
   125_142802_145702_148602_149302,
   126_133202_135902_138602_140002,
   127_124002_126502_129002_128802,
   128_115402_117702_120102_120702,
   129_107202_109302_111502_112802,
   130_995103_101502_103502_104702,
   131_922203_940603_959403_970803,
   132_853303_870403_887803_888003,
   133_789603_805303_821503_834603,
   134_728803_743303_758203_773203,
   135_671903_685303_699003_709303,
   136_618503_630903_643503_651803,
   137_568603_579903_591503_597003,
   138_521503_531903_542503_547703,
   139_478103_487703_497403_504503,
   140_437203_445903_454903_463503,
   141_399103_407003_415203_419303,
   142_363403_370603_378103_381603,
   143_330003_336603_343403_346003,
   144_299503_305503_311603_310303,
   145_271203_276603_282103_279503,
   146_245003_249903_254903_255403,
   147_220403_224803_229303_229403,
   148_197703_201703_205703_204703,
   149_176803_180303_183903_183103,
   150_158103_161303_164503_164303,
   151_140803_143803_146803_144503,
   152_124703_127503_130403_127403,
   153_110803_113403_116103_113103,
   154_979704_100403_103003_100803,
   155_862704_885504_909004_895704,
   156_757804_778804_800504_774504,
   157_661504_680804_700604_668404,
   158_570204_587504_605404_567004,
   159_479304_494504_510204_475704,
   160_396704_409804_423304_397304,
   161_327704_339004_350604_328504,
   162_270804_280404_290404_271804,
   163_224004_232304_240804_222704,
   164_185304_192404_199704_188304,
   165_153004_159004_165304_159104,
   166_126304_131404_136804_136004,
   167_103904_108304_112804_110404,
   168_854905_892005_930705_865605,
   169_707805_739405_772505_712605,
   170_585905_612905_641105_590205,
   171_487105_510205_534305_498205,
   172_405005_424605_445305_418705,
   173_336805_353705_371305_349805,
   174_280205_294505_309605_292205,
   175_234005_246305_259205_235705,
   176_195405_205905_217005_195605,
   177_164005_173005_182505_163005,
   178_137605_145405_153605_137805,
   179_114505_121105_128105_115405,
   180_952806_100905_106905_929006,
   181_783306_830506_880606_783706,
   182_644306_684006_726106_656906,
   183_525206_558206_593306_534406,
   184_428306_455806_485006_424806,
   185_345706_368306_392406_331006,
   186_279106_297806_317706_269006,
   187_222106_237306_253406_220706,
   188_176806_189106_202206_177206,
   189_139706_149506_160106_137306,
   190_110306_118306_126806_109906,
   191_864307_927707_995707_837507,
   192_677107_727607_781907_664207,
   193_528107_568207_611307_493807,
   194_411907_443707_478007_383607,
   195_319307_344407_371407_306207,
   196_247507_267307_288607_231907,
   197_190907_206407_223107_177607,
   198_147207_159407_172507_140807,
   199_108707_117807_127607_104607,
   200_802208_870408_944408_799108,
   201_609508_662108_719308_653308,
   202_463208_503708_547808_465208,
   203_352008_383208_417308_364508,
   204_267508_291608_317908_271608,
   205_203308_221908_242208_213208,
   206_154208_168508_184208_159508,
   207_117008_128108_140108_117208,
   208_888409_973109_106608_956509,
   209_674409_739609_811209_727709,
   210_512109_562309_617409_553909,
   211_378409_416009_457309_394609,
   212_279609_307709_338709_297509,
   213_206609_227609_250809_225509,
   214_152609_168409_185809_174209,
   215_112809_124609_137609_128509,
   216_825410_912710_100909_893510,
   217_604010_668710_740310_681010,
   218_442010_489910_543010_517910,
   219_323510_359010_398310_370310,
   220_236710_263010_292210_275210,
   221_173410_192810_214510_207710,
   222_127010_141410_157410_147310,
   223_929811_103710_115610_104110,
   224_681011_760111_848511_731411,
   225_498811_557411_622911_558911,
   226_367511_411111_460011_427711,
   227_270711_303311_339711_297611,
   228_199511_223711_250911_208311,
   229_147011_165111_185311_150811,
   230_108311_121811_136911_111611,
   231_807512_908712_102311_911812,
   232_602112_678312_764212_664112,
   233_449012_506512_571212_517812,
   234_335012_378312_427212_409612,
   235_250012_282612_319512_298112,
   236_190512_215612_244012_219712,
   237_145312_164612_186512_165812,
   238_110912_125812_142712_122312,
   239_847513_962513_109312_898213,
   240_648113_736913_837913_709113,
   241_511713_582513_663013_564913,
   242_404613_461113_525513_472813,
   243_320413_365513_417113_418413,
   244_254013_290213_331413_345313,
   245_201713_230613_263713_277613,
   246_171213_196013_224413_236213,
   247_145513_166713_191113_201813,
   248_123713_141913_162813_179013,
   249_105213_120813_138813_163813,
   250_895414_103013_118413_142613]

/-- atmdata/Venus/LAT80S.txt:18122-18272, columns 0 to 4. -/
def venusProfile121 : List ℕ :=
  [100_635202_647902_660902_652802,
   101_603502_615602_627902_621602,
   102_573002_584502_596202_589402,
   103_543802_554702_565802_560202,
   104_515902_526202_536702_534202,
   105_488902_498702_508702_503602,
   106_463102_472402_481802_478702,
   107_438302_447102_456002_450002,
   108_414302_422602_431102_428202,
   109_391702_399502_407502_407702,
   110_369802_377202_384702_382002,
   111_348802_355802_362902_358302,
   112_328802_335402_342102_336202,
   113_309802_316002_322302_316702,
   114_291602_297402_303302_295102,
   115_274002_279502_285102_278102,
   116_257502_262702_268002_261102,
   117_242002_246802_251702_243402,
   118_227302_231802_236402_228402,
   119_213102_217402_221702_214302,
   120_199902_203902_208002_201302,
   121_187402_191102_194902_189502,
   122_175302_178802_182402_176702,
   123_163802_167102_170402_165302,
   124_153102_156202_159302_154102,
   125_142802_145702_148602_144502,
   126_133202_135902_138602_134802,
   127_124002_126502_129002_124702,
   128_115402_117702_120102_116102,
   129_107202_109302_111502_107902,
   130_995103_101502_103502_100502,
   131_922203_940603_959403_933503,
   132_853303_870403_887803_855903,
   133_789603_805303_821503_791403,
   134_728803_743303_758203_729903,
   135_671903_685303_699003_670903,
   136_618503_630903_643503_626303,
   137_568603_579903_591503_574203,
   138_521503_531903_542503_523003,
   139_478103_487703_497403_476403,
   140_437203_445903_454903_436103,
   141_399103_407003_415203_400203,
   142_363403_370603_378103_365603,
   143_330003_336603_343403_335403,
   144_299503_305503_311603_303103,
   145_271203_276603_282103_276303,
   146_245003_249903_254903_251603,
   147_220403_224803_229303_229603,
   148_197703_201703_205703_205103,
   149_176803_180303_183903_182803,
   150_158103_161303_164503_164703,
   151_140803_143803_146803_146903,
   152_124703_127503_130403_129803,
   153_110803_113403_116103_117003,
   154_979704_100403_103003_103203,
   155_862704_885504_909004_917804,
   156_757804_778804_800504_805204,
   157_661504_680804_700604_700204,
   158_570204_587504_605404_588604,
   159_479304_494504_510204_490204,
   160_396704_409804_423304_412904,
   161_327704_339004_350604_337104,
   162_270804_280404_290404_277004,
   163_224004_232304_240804_232704,
   164_185304_192404_199704_190204,
   165_153004_159004_165304_158004,
   166_126304_131404_136804_133604,
   167_103904_108304_112804_107804,
   168_854905_892005_930705_889505,
   169_707805_739405_772505_727905,
   170_585905_612905_641105_616405,
   171_487105_510205_534305_508405,
   172_405005_424605_445305_415305,
   173_336805_353705_371305_344705,
   174_280205_294505_309605_288605,
   175_234005_246305_259205_240805,
   176_195405_205905_217005_197205,
   177_164005_173005_182505_164305,
   178_137605_145405_153605_138705,
   179_114505_121105_128105_115705,
   180_952806_100905_106905_981706,
   181_783306_830506_880606_804406,
   182_644306_684006_726106_683006,
   183_525206_558206_593306_565106,
   184_428306_455806_485006_489806,
   185_345706_368306_392406_428406,
   186_279106_297806_317706_363106,
   187_222106_237306_253406_286406,
   188_176806_189106_202206_226906,
   189_139706_149506_160106_182506,
   190_110306_118306_126806_142406,
   191_864307_927707_995707_112606,
   192_677107_727607_781907_868507,
   193_528107_568207_611307_674607,
   194_411907_443707_478007_533607,
   195_319307_344407_371407_430607,
   196_247507_267307_288607_324707,
   197_190907_206407_223107_242207,
   198_147207_159407_172507_191007,
   199_108707_117807_127607_140807,
   200_802208_870408_944408_978108,
   201_609508_662108_719308_728008,
   202_463208_503708_547808_516008,
   203_352008_383208_417308_420708,
   204_267508_291608_317908_314008,
   205_203308_221908_242208_239008,
   206_154208_168508_184208_179408,
   207_117008_128108_140108_136508,
   208_888409_973109_106608_105608,
   209_674409_739609_811209_845209,
   210_512109_562309_617409_656609,
   211_378409_416009_457309_473609,
   212_279609_307709_338709_335109,
   213_206609_227609_250809_256909,
   214_152609_168409_185809_189409,
   215_112809_124609_137609_135109,
   216_825410_912710_100909_948310,
   217_604010_668710_740310_629810,
   218_442010_489910_543010_493010,
   219_323510_359010_398310_356610,
   220_236710_263010_292210_265310,
   221_173410_192810_214510_184810,
   222_127010_141410_157410_137910,
   223_929811_103710_115610_104410,
   224_681011_760111_848511_793211,
   225_498811_557411_622911_604311,
   226_367511_411111_460011_428011,
   227_270711_303311_339711_295311,
   228_199511_223711_250911_230911,
   229_147011_165111_185311_182511,
   230_108311_121811_136911_138511,
   231_807512_908712_102311_991712,
   232_602112_678312_764212_670612,
   233_449012_506512_571212_470412,
   234_335012_378312_427212_349712,
   235_250012_282612_319512_252512,
   236_190512_215612_244012_196212,
   237_145312_164612_186512_164312,
   238_110912_125812_142712_137212,
   239_847513_962513_109312_109512,
   240_648113_736913_837913_771613,
   241_511713_582513_663013_640613,
   242_404613_461113_525513_520413,
   243_320413_365513_417113_424913,
   244_254013_290213_331413_322113,
   245_201713_230613_263713_272613,
   246_171213_196013_224413_220513,
   247_145513_166713_191113_183713,
   248_123713_141913_162813_146213,
   249_105213_120813_138813_122913,
   250_895414_103013_118413_110113]

/-- atmdata/Venus/LAT80S.txt:18273-18423, columns 0 to 4. -/
def venusProfile122 : List ℕ :=
  [100_635202_647902_660902_667002,
   101_603502_615602_627902_634302,
   102_573002_584502_596202_600202,
   103_543802_554702_565802_569002,
   104_515902_526202_536702_532002,
   105_488902_498702_508702_505702,
   106_463102_472402_481802_476602,
   107_438302_447102_456002_448502,
   108_414302_422602_431102_421602,
   109_391702_399502_407502_401102,
   110_369802_377202_384702_377202,
   111_348802_355802_362902_359602,
   112_328802_335402_342102_338602,
   113_309802_316002_322302_320602,
   114_291602_297402_303302_300602,
   115_274002_279502_285102_281202,
   116_257502_262702_268002_264002,
   117_242002_246802_251702_248802,
   118_227302_231802_236402_234902,
   119_213102_217402_221702_221002,
   120_199902_203902_208002_206602,
   121_187402_191102_194902_194402,
   122_175302_178802_182402_182802,
   123_163802_167102_170402_170402,
   124_153102_156202_159302_157002,
   125_142802_145702_148602_144602,
   126_133202_135902_138602_133302,
   127_124002_126502_129002_123602,
   128_115402_117702_120102_114402,
   129_107202_109302_111502_105502,
   130_995103_101502_103502_986003,
   131_922203_940603_959403_916603,
   132_853303_870403_887803_841503,
   133_789603_805303_821503_784003,
   134_728803_743303_758203_733303,
   135_671903_685303_699003_673403,
   136_618503_630903_643503_620303,
   137_568603_579903_591503_568403,
   138_521503_531903_542503_522803,
   139_478103_487703_497403_479003,
   140_437203_445903_454903_435203,
   141_399103_407003_415203_396903,
   142_363403_370603_378103_363203,
   143_330003_336603_343403_329403,
   144_299503_305503_311603_299003,
   145_271203_276603_282103_270703,
   146_245003_249903_254903_246203,
   147_220403_224803_229303_221603,
   148_197703_201703_205703_198503,
   149_176803_180303_183903_176503,
   150_158103_161303_164503_155903,
   151_140803_143803_146803_137203,
   152_124703_127503_130403_121603,
   153_110803_113403_116103_108203,
   154_979704_100403_103003_980004,
   155_862704_885504_909004_873404,
   156_757804_778804_800504_775904,
   157_661504_680804_700604_679704,
   158_570204_587504_605404_599104,
   159_479304_494504_510204_491804,
   160_396704_409804_423304_401404,
   161_327704_339004_350604_338104,
   162_270804_280404_290404_275904,
   163_224004_232304_240804_228104,
   164_185304_192404_199704_189204,
   165_153004_159004_165304_155404,
   166_126304_131404_136804_130704,
   167_103904_108304_112804_104004,
   168_854905_892005_930705_835205,
   169_707805_739405_772505_682305,
   170_585905_612905_641105_562105,
   171_487105_510205_534305_486505,
   172_405005_424605_445305_410505,
   173_336805_353705_371305_338205,
   174_280205_294505_309605_283905,
   175_234005_246305_259205_242805,
   176_195405_205905_217005_188405,
   177_164005_173005_182505_157605,
   178_137605_145405_153605_133405,
   179_114505_121105_128105_111105,
   180_952806_100905_106905_925306,
   181_783306_830506_880606_729906,
   182_644306_684006_726106_578606,
   183_525206_558206_593306_510806,
   184_428306_455806_485006_432006,
   185_345706_368306_392406_364806,
   186_279106_297806_317706_295806,
   187_222106_237306_253406_233706,
   188_176806_189106_202206_189406,
   189_139706_149506_160106_150606,
   190_110306_118306_126806_118606,
   191_864307_927707_995707_927507,
   192_677107_727607_781907_721307,
   193_528107_568207_611307_547707,
   194_411907_443707_478007_423207,
   195_319307_344407_371407_323307,
   196_247507_267307_288607_251907,
   197_190907_206407_223107_189907,
   198_147207_159407_172507_140807,
   199_108707_117807_127607_109107,
   200_802208_870408_944408_803608,
   201_609508_662108_719308_629508,
   202_463208_503708_547808_451008,
   203_352008_383208_417308_336408,
   204_267508_291608_317908_258408,
   205_203308_221908_242208_196508,
   206_154208_168508_184208_151808,
   207_117008_128108_140108_125308,
   208_888409_973109_106608_954509,
   209_674409_739609_811209_718909,
   210_512109_562309_617409_523209,
   211_378409_416009_457309_391809,
   212_279609_307709_338709_298909,
   213_206609_227609_250809_202709,
   214_152609_168409_185809_147809,
   215_112809_124609_137609_983310,
   216_825410_912710_100909_713510,
   217_604010_668710_740310_513910,
   218_442010_489910_543010_349110,
   219_323510_359010_398310_262810,
   220_236710_263010_292210_201810,
   221_173410_192810_214510_151510,
   222_127010_141410_157410_125010,
   223_929811_103710_115610_895311,
   224_681011_760111_848511_654611,
   225_498811_557411_622911_510311,
   226_367511_411111_460011_389311,
   227_270711_303311_339711_267311,
   228_199511_223711_250911_202411,
   229_147011_165111_185311_151711,
   230_108311_121811_136911_105211,
   231_807512_908712_102311_803812,
   232_602112_678312_764212_630012,
   233_449012_506512_571212_468512,
   234_335012_378312_427212_384412,
   235_250012_282612_319512_268112,
   236_190512_215612_244012_215412,
   237_145312_164612_186512_163712,
   238_110912_125812_142712_127712,
   239_847513_962513_109312_969613,
   240_648113_736913_837913_741913,
   241_511713_582513_663013_552013,
   242_404613_461113_525513_447813,
   243_320413_365513_417113_359213,
   244_254013_290213_331413_293913,
   245_201713_230613_263713_219013,
   246_171213_196013_224413_200013,
   247_145513_166713_191113_161813,
   248_123713_141913_162813_137213,
   249_105213_120813_138813_126113,
   250_895414_103013_118413_112113]

/-- atmdata/Venus/LAT80S.txt:18424-18574, columns 0 to 4. -/
def venusProfile123 : List ℕ :=
  [100_635202_647902_660902_637802,
   101_603502_615602_627902_607002,
   102_573002_584502_596202_574002,
   103_543802_554702_565802_543802,
   104_515902_526202_536702_513402,
   105_488902_498702_508702_485902,
   106_463102_472402_481802_461102,
   107_438302_447102_456002_434602,
   108_414302_422602_431102_410502,
   109_391702_399502_407502_390502,
   110_369802_377202_384702_368402,
   111_348802_355802_362902_349302,
   112_328802_335402_342102_330302,
   113_309802_316002_322302_310102,
   114_291602_297402_303302_292102,
   115_274002_279502_285102_275602,
   116_257502_262702_268002_259102,
   117_242002_246802_251702_243202,
   118_227302_231802_236402_227802,
   119_213102_217402_221702_211702,
   120_199902_203902_208002_195902,
   121_187402_191102_194902_185002,
   122_175302_178802_182402_173202,
   123_163802_167102_170402_161402,
   124_153102_156202_159302_151702,
   125_142802_145702_148602_141002,
   126_133202_135902_138602_131902,
   127_124002_126502_129002_122602,
   128_115402_117702_120102_114702,
   129_107202_109302_111502_106902,
   130_995103_101502_103502_100102,
   131_922203_940603_959403_929603,
   132_853303_870403_887803_853503,
   133_789603_805303_821503_786803,
   134_728803_743303_758203_727603,
   135_671903_685303_699003_667903,
   136_618503_630903_643503_622803,
   137_568603_579903_591503_570003,
   138_521503_531903_542503_519303,
   139_478103_487703_497403_478203,
   140_437203_445903_454903_439703,
   141_399103_407003_415203_407103,
   142_363403_370603_378103_372503,
   143_330003_336603_343403_340003,
   144_299503_305503_311603_309003,
   145_271203_276603_282103_284103,
   146_245003_249903_254903_257203,
   147_220403_224803_229303_233703,
   148_197703_201703_205703_208903,
   149_176803_180303_183903_188703,
   150_158103_161303_164503_167203,
   151_140803_143803_146803_149203,
   152_124703_127503_130403_132303,
   153_110803_113403_116103_116003,
   154_979704_100403_103003_102903,
   155_862704_885504_909004_917104,
   156_757804_778804_800504_799504,
   157_661504_680804_700604_704704,
   158_570204_587504_605404_617004,
   159_479304_494504_510204_524904,
   160_396704_409804_423304_431504,
   161_327704_339004_350604_357704,
   162_270804_280404_290404_285004,
   163_224004_232304_240804_230104,
   164_185304_192404_199704_193604,
   165_153004_159004_165304_154904,
   166_126304_131404_136804_129704,
   167_103904_108304_112804_109604,
   168_854905_892005_930705_905905,
   169_707805_739405_772505_731205,
   170_585905_612905_641105_612705,
   171_487105_510205_534305_511505,
   172_405005_424605_445305_418805,
   173_336805_353705_371305_340905,
   174_280205_294505_309605_286305,
   175_234005_246305_259205_235605,
   176_195405_205905_217005_202205,
   177_164005_173005_182505_168405,
   178_137605_145405_153605_141705,
   179_114505_121105_128105_117005,
   180_952806_100905_106905_938806,
   181_783306_830506_880606_786106,
   182_644306_684006_726106_637106,
   183_525206_558206_593306_514706,
   184_428306_455806_485006_429206,
   185_345706_368306_392406_358906,
   186_279106_297806_317706_279206,
   187_222106_237306_253406_217606,
   188_176806_189106_202206_179106,
   189_139706_149506_160106_139706,
   190_110306_118306_126806_110206,
   191_864307_927707_995707_839307,
   192_677107_727607_781907_653407,
   193_528107_568207_611307_525907,
   194_411907_443707_478007_427207,
   195_319307_344407_371407_334607,
   196_247507_267307_288607_263407,
   197_190907_206407_223107_196807,
   198_147207_159407_172507_150207,
   199_108707_117807_127607_105107,
   200_802208_870408_944408_801308,
   201_609508_662108_719308_587308,
   202_463208_503708_547808_422608,
   203_352008_383208_417308_325708,
   204_267508_291608_317908_253908,
   205_203308_221908_242208_189308,
   206_154208_168508_184208_148708,
   207_117008_128108_140108_112808,
   208_888409_973109_106608_845909,
   209_674409_739609_811209_678309,
   210_512109_562309_617409_516209,
   211_378409_416009_457309_395809,
   212_279609_307709_338709_287209,
   213_206609_227609_250809_205309,
   214_152609_168409_185809_138609,
   215_112809_124609_137609_108009,
   216_825410_912710_100909_786010,
   217_604010_668710_740310_578610,
   218_442010_489910_543010_408210,
   219_323510_359010_398310_304810,
   220_236710_263010_292210_229410,
   221_173410_192810_214510_178910,
   222_127010_141410_157410_129010,
   223_929811_103710_115610_983811,
   224_681011_760111_848511_793011,
   225_498811_557411_622911_607611,
   226_367511_411111_460011_425111,
   227_270711_303311_339711_285311,
   228_199511_223711_250911_207811,
   229_147011_165111_185311_147011,
   230_108311_121811_136911_108311,
   231_807512_908712_102311_868512,
   232_602112_678312_764212_650012,
   233_449012_506512_571212_502312,
   234_335012_378312_427212_375312,
   235_250012_282612_319512_309012,
   236_190512_215612_244012_217712,
   237_145312_164612_186512_184912,
   238_110912_125812_142712_137012,
   239_847513_962513_109312_962413,
   240_648113_736913_837913_795313,
   241_511713_582513_663013_618813,
   242_404613_461113_525513_490613,
   243_320413_365513_417113_379113,
   244_254013_290213_331413_281413,
   245_201713_230613_263713_219413,
   246_171213_196013_224413_187613,
   247_145513_166713_191113_180113,
   248_123713_141913_162813_158313,
   249_105213_120813_138813_130713,
   250_895414_103013_118413_115213]

/-- atmdata/Venus/LAT80S.txt:18575-18725, columns 0 to 4. -/
def venusProfile124 : List ℕ :=
  [100_635202_647902_660902_647802,
   101_603502_615602_627902_615902,
   102_573002_584502_596202_580402,
   103_543802_554702_565802_548302,
   104_515902_526202_536702_518702,
   105_488902_498702_508702_495402,
   106_463102_472402_481802_474202,
   107_438302_447102_456002_446702,
   108_414302_422602_431102_422902,
   109_391702_399502_407502_401502,
   110_369802_377202_384702_379202,
   111_348802_355802_362902_358202,
   112_328802_335402_342102_339902,
   113_309802_316002_322302_320402,
   114_291602_297402_303302_302502,
   115_274002_279502_285102_283202,
   116_257502_262702_268002_266202,
   117_242002_246802_251702_247902,
   118_227302_231802_236402_233502,
   119_213102_217402_221702_218402,
   120_199902_203902_208002_205402,
   121_187402_191102_194902_194002,
   122_175302_178802_182402_179602,
   123_163802_167102_170402_166602,
   124_153102_156202_159302_155702,
   125_142802_145702_148602_145102,
   126_133202_135902_138602_134602,
   127_124002_126502_129002_125202,
   128_115402_117702_120102_116302,
   129_107202_109302_111502_107602,
   130_995103_101502_103502_988103,
   131_922203_940603_959403_918003,
   132_853303_870403_887803_843603,
   133_789603_805303_821503_783303,
   134_728803_743303_758203_719003,
   135_671903_685303_699003_659703,
   136_618503_630903_643503_608103,
   137_568603_579903_591503_556603,
   138_521503_531903_542503_512503,
   139_478103_487703_497403_476503,
   140_437203_445903_454903_435503,
   141_399103_407003_415203_398703,
   142_363403_370603_378103_365803,
   143_330003_336603_343403_330803,
   144_299503_305503_311603_302303,
   145_271203_276603_282103_274203,
   146_245003_249903_254903_248403,
   147_220403_224803_229303_223303,
   148_197703_201703_205703_200303,
   149_176803_180303_183903_180103,
   150_158103_161303_164503_160503,
   151_140803_143803_146803_141503,
   152_124703_127503_130403_125703,
   153_110803_113403_116103_112103,
   154_979704_100403_103003_985904,
   155_862704_885504_909004_880704,
   156_757804_778804_800504_776804,
   157_661504_680804_700604_665904,
   158_570204_587504_605404_582704,
   159_479304_494504_510204_493604,
   160_396704_409804_423304_409504,
   161_327704_339004_350604_337304,
   162_270804_280404_290404_283304,
   163_224004_232304_240804_235904,
   164_185304_192404_199704_192204,
   165_153004_159004_165304_160404,
   166_126304_131404_136804_133604,
   167_103904_108304_112804_111604,
   168_854905_892005_930705_898305,
   169_707805_739405_772505_711005,
   170_585905_612905_641105_578005,
   171_487105_510205_534305_473905,
   172_405005_424605_445305_401605,
   173_336805_353705_371305_351605,
   174_280205_294505_309605_294905,
   175_234005_246305_259205_247905,
   176_195405_205905_217005_209505,
   177_164005_173005_182505_174105,
   178_137605_145405_153605_146005,
   179_114505_121105_128105_119705,
   180_952806_100905_106905_101205,
   181_783306_830506_880606_822806,
   182_644306_684006_726106_673606,
   183_525206_558206_593306_553006,
   184_428306_455806_485006_453506,
   185_345706_368306_392406_374806,
   186_279106_297806_317706_305006,
   187_222106_237306_253406_257006,
   188_176806_189106_202206_210606,
   189_139706_149506_160106_173106,
   190_110306_118306_126806_133906,
   191_864307_927707_995707_106506,
   192_677107_727607_781907_810307,
   193_528107_568207_611307_618307,
   194_411907_443707_478007_474507,
   195_319307_344407_371407_379507,
   196_247507_267307_288607_300107,
   197_190907_206407_223107_220807,
   198_147207_159407_172507_170307,
   199_108707_117807_127607_122407,
   200_802208_870408_944408_850408,
   201_609508_662108_719308_648208,
   202_463208_503708_547808_466108,
   203_352008_383208_417308_364708,
   204_267508_291608_317908_284408,
   205_203308_221908_242208_202608,
   206_154208_168508_184208_160308,
   207_117008_128108_140108_125908,
   208_888409_973109_106608_902209,
   209_674409_739609_811209_674409,
   210_512109_562309_617409_531309,
   211_378409_416009_457309_422309,
   212_279609_307709_338709_324709,
   213_206609_227609_250809_234809,
   214_152609_168409_185809_178009,
   215_112809_124609_137609_131309,
   216_825410_912710_100909_948410,
   217_604010_668710_740310_702910,
   218_442010_489910_543010_498410,
   219_323510_359010_398310_368010,
   220_236710_263010_292210_271510,
   221_173410_192810_214510_191310,
   222_127010_141410_157410_143010,
   223_929811_103710_115610_101510,
   224_681011_760111_848511_751911,
   225_498811_557411_622911_581311,
   226_367511_411111_460011_434411,
   227_270711_303311_339711_358711,
   228_199511_223711_250911_246011,
   229_147011_165111_185311_187111,
   230_108311_121811_136911_140511,
   231_807512_908712_102311_994712,
   232_602112_678312_764212_708312,
   233_449012_506512_571212_483512,
   234_335012_378312_427212_330012,
   235_250012_282612_319512_263412,
   236_190512_215612_244012_198212,
   237_145312_164612_186512_152412,
   238_110912_125812_142712_105712,
   239_847513_962513_109312_848313,
   240_648113_736913_837913_640013,
   241_511713_582513_663013_531313,
   242_404613_461113_525513_421313,
   243_320413_365513_417113_317313,
   244_254013_290213_331413_257613,
   245_201713_230613_263713_209113,
   246_171213_196013_224413_168013,
   247_145513_166713_191113_151213,
   248_123713_141913_162813_116813,
   249_105213_120813_138813_107313,
   250_895414_103013_118413_960514]

/-- atmdata/Venus/LAT80S.txt:18726-18876, columns 0 to 4. -/
def venusProfile125 : List ℕ :=
  [100_635202_647902_660902_657902,
   101_603502_615602_627902_624802,
   102_573002_584502_596202_597602,
   103_543802_554702_565802_559502,
   104_515902_526202_536702_529902,
   105_488902_498702_508702_502202,
   106_463102_472402_481802_474902,
   107_438302_447102_456002_447602,
   108_414302_422602_431102_425302,
   109_391702_399502_407502_403302,
   110_369802_377202_384702_381702,
   111_348802_355802_362902_359702,
   112_328802_335402_342102_337002,
   113_309802_316002_322302_319902,
   114_291602_297402_303302_304702,
   115_274002_279502_285102_287502,
   116_257502_262702_268002_270202,
   117_242002_246802_251702_254402,
   118_227302_231802_236402_237402,
   119_213102_217402_221702_222702,
   120_199902_203902_208002_208502,
   121_187402_191102_194902_197302,
   122_175302_178802_182402_184702,
   123_163802_167102_170402_173902,
   124_153102_156202_159302_161702,
   125_142802_145702_148602_150802,
   126_133202_135902_138602_140902,
   127_124002_126502_129002_131002,
   128_115402_117702_120102_122902,
   129_107202_109302_111502_114602,
   130_995103_101502_103502_105502,
   131_922203_940603_959403_977503,
   132_853303_870403_887803_896403,
   133_789603_805303_821503_819703,
   134_728803_743303_758203_758403,
   135_671903_685303_699003_693503,
   136_618503_630903_643503_644803,
   137_568603_579903_591503_587703,
   138_521503_531903_542503_534603,
   139_478103_487703_497403_488003,
   140_437203_445903_454903_440703,
   141_399103_407003_415203_400503,
   142_363403_370603_378103_368203,
   143_330003_336603_343403_335303,
   144_299503_305503_311603_300403,
   145_271203_276603_282103_270303,
   146_245003_249903_254903_244803,
   147_220403_224803_229303_222703,
   148_197703_201703_205703_200003,
   149_176803_180303_183903_179103,
   150_158103_161303_164503_160103,
   151_140803_143803_146803_142903,
   152_124703_127503_130403_127303,
   153_110803_113403_116103_112203,
   154_979704_100403_103003_100303,
   155_862704_885504_909004_897004,
   156_757804_778804_800504_807904,
   157_661504_680804_700604_700704,
   158_570204_587504_605404_610504,
   159_479304_494504_510204_513504,
   160_396704_409804_423304_428504,
   161_327704_339004_350604_347904,
   162_270804_280404_290404_289504,
   163_224004_232304_240804_237304,
   164_185304_192404_199704_196104,
   165_153004_159004_165304_161504,
   166_126304_131404_136804_134004,
   167_103904_108304_112804_111204,
   168_854905_892005_930705_921005,
   169_707805_739405_772505_782505,
   170_585905_612905_641105_647705,
   171_487105_510205_534305_545405,
   172_405005_424605_445305_445705,
   173_336805_353705_371305_377705,
   174_280205_294505_309605_315505,
   175_234005_246305_259205_273905,
   176_195405_205905_217005_227805,
   177_164005_173005_182505_188505,
   178_137605_145405_153605_157105,
   179_114505_121105_128105_127405,
   180_952806_100905_106905_105005,
   181_783306_830506_880606_896606,
   182_644306_684006_726106_737406,
   183_525206_558206_593306_615006,
   184_428306_455806_485006_495906,
   185_345706_368306_392406_404206,
   186_279106_297806_317706_315906,
   187_222106_237306_253406_256106,
   188_176806_189106_202206_215606,
   189_139706_149506_160106_170606,
   190_110306_118306_126806_131406,
   191_864307_927707_995707_102006,
   192_677107_727607_781907_772607,
   193_528107_568207_611307_621207,
   194_411907_443707_478007_498407,
   195_319307_344407_371407_372607,
   196_247507_267307_288607_303507,
   197_190907_206407_223107_221007,
   198_147207_159407_172507_174007,
   199_108707_117807_127607_127207,
   200_802208_870408_944408_924508,
   201_609508_662108_719308_729008,
   202_463208_503708_547808_521108,
   203_352008_383208_417308_421608,
   204_267508_291608_317908_329008,
   205_203308_221908_242208_257308,
   206_154208_168508_184208_202808,
   207_117008_128108_140108_147308,
   208_888409_973109_106608_114608,
   209_674409_739609_811209_879209,
   210_512109_562309_617409_623509,
   211_378409_416009_457309_439309,
   212_279609_307709_338709_319509,
   213_206609_227609_250809_235309,
   214_152609_168409_185809_172909,
   215_112809_124609_137609_124409,
   216_825410_912710_100909_909010,
   217_604010_668710_740310_696010,
   218_442010_489910_543010_500910,
   219_323510_359010_398310_372510,
   220_236710_263010_292210_274010,
   221_173410_192810_214510_201910,
   222_127010_141410_157410_170810,
   223_929811_103710_115610_126810,
   224_681011_760111_848511_879511,
   225_498811_557411_622911_669711,
   226_367511_411111_460011_460211,
   227_270711_303311_339711_363711,
   228_199511_223711_250911_275811,
   229_147011_165111_185311_198311,
   230_108311_121811_136911_133011,
   231_807512_908712_102311_986312,
   232_602112_678312_764212_789012,
   233_449012_506512_571212_572112,
   234_335012_378312_427212_427312,
   235_250012_282612_319512_324812,
   236_190512_215612_244012_248712,
   237_145312_164612_186512_166412,
   238_110912_125812_142712_131512,
   239_847513_962513_109312_977313,
   240_648113_736913_837913_774713,
   241_511713_582513_663013_550713,
   242_404613_461113_525513_429513,
   243_320413_365513_417113_375513,
   244_254013_290213_331413_341513,
   245_201713_230613_263713_279013,
   246_171213_196013_224413_242513,
   247_145513_166713_191113_203713,
   248_123713_141913_162813_167013,
   249_105213_120813_138813_135813,
   250_895414_103013_118413_118313]

/-- atmdata/Venus/LAT80S.txt:18877-19027, columns 0 to 4. -/
def venusProfile126 : List ℕ :=
  [100_635202_647902_660902_628502,
   101_603502_615602_627902_597402,
   102_573002_584502_596202_570502,
   103_543802_554702_565802_544502,
   104_515902_526202_536702_517102,
   105_488902_498702_508702_487302,
   106_463102_472402_481802_463702,
   107_438302_447102_456002_437602,
   108_414302_422602_431102_411002,
   109_391702_399502_407502_390002,
   110_369802_377202_384702_370402,
   111_348802_355802_362902_348602,
   112_328802_335402_342102_328302,
   113_309802_316002_322302_308602,
   114_291602_297402_303302_289602,
   115_274002_279502_285102_271902,
   116_257502_262702_268002_256202,
   117_242002_246802_251702_240602,
   118_227302_231802_236402_226502,
   119_213102_217402_221702_213802,
   120_199902_203902_208002_199502,
   121_187402_191102_194902_185202,
   122_175302_178802_182402_172802,
   123_163802_167102_170402_162402,
   124_153102_156202_159302_154102,
   125_142802_145702_148602_144502,
   126_133202_135902_138602_134402,
   127_124002_126502_129002_125302,
   128_115402_117702_120102_116802,
   129_107202_109302_111502_108402,
   130_995103_101502_103502_100302,
   131_922203_940603_959403_930903,
   132_853303_870403_887803_855803,
   133_789603_805303_821503_791803,
   134_728803_743303_758203_728803,
   135_671903_685303_699003_666903,
   136_618503_630903_643503_614303,
   137_568603_579903_591503_560003,
   138_521503_531903_542503_515403,
   139_478103_487703_497403_473703,
   140_437203_445903_454903_434903,
   141_399103_407003_415203_400103,
   142_363403_370603_378103_369303,
   143_330003_336603_343403_332303,
   144_299503_305503_311603_300203,
   145_271203_276603_282103_273203,
   146_245003_249903_254903_246803,
   147_220403_224803_229303_221903,
   148_197703_201703_205703_199403,
   149_176803_180303_183903_178003,
   150_158103_161303_164503_159603,
   151_140803_143803_146803_140803,
   152_124703_127503_130403_125703,
   153_110803_113403_116103_112303,
   154_979704_100403_103003_993404,
   155_862704_885504_909004_890904,
   156_757804_778804_800504_780904,
   157_661504_680804_700604_682404,
   158_570204_587504_605404_594104,
   159_479304_494504_510204_497704,
   160_396704_409804_423304_422004,
   161_327704_339004_350604_353104,
   162_270804_280404_290404_292104,
   163_224004_232304_240804_245604,
   164_185304_192404_199704_205304,
   165_153004_159004_165304_166204,
   166_126304_131404_136804_137204,
   167_103904_108304_112804_113204,
   168_854905_892005_930705_914205,
   169_707805_739405_772505_771205,
   170_585905_612905_641105_661205,
   171_487105_510205_534305_545105,
   172_405005_424605_445305_457805,
   173_336805_353705_371305_383405,
   174_280205_294505_309605_320305,
   175_234005_246305_259205_264405,
   176_195405_205905_217005_218505,
   177_164005_173005_182505_181405,
   178_137605_145405_153605_151405,
   179_114505_121105_128105_122205,
   180_952806_100905_106905_976406,
   181_783306_830506_880606_810206,
   182_644306_684006_726106_679606,
   183_525206_558206_593306_540806,
   184_428306_455806_485006_435506,
   185_345706_368306_392406_356906,
   186_279106_297806_317706_293306,
   187_222106_237306_253406_235506,
   188_176806_189106_202206_180506,
   189_139706_149506_160106_141606,
   190_110306_118306_126806_109806,
   191_864307_927707_995707_836507,
   192_677107_727607_781907_634107,
   193_528107_568207_611307_498207,
   194_411907_443707_478007_389607,
   195_319307_344407_371407_305107,
   196_247507_267307_288607_229407,
   197_190907_206407_223107_165207,
   198_147207_159407_172507_111307,
   199_108707_117807_127607_867608,
   200_802208_870408_944408_675508,
   201_609508_662108_719308_512208,
   202_463208_503708_547808_372908,
   203_352008_383208_417308_281308,
   204_267508_291608_317908_236608,
   205_203308_221908_242208_187308,
   206_154208_168508_184208_134308,
   207_117008_128108_140108_105308,
   208_888409_973109_106608_824909,
   209_674409_739609_811209_610909,
   210_512109_562309_617409_465909,
   211_378409_416009_457309_344409,
   212_279609_307709_338709_276709,
   213_206609_227609_250809_209909,
   214_152609_168409_185809_150509,
   215_112809_124609_137609_103109,
   216_825410_912710_100909_772910,
   217_604010_668710_740310_528010,
   218_442010_489910_543010_394910,
   219_323510_359010_398310_303510,
   220_236710_263010_292210_227110,
   221_173410_192810_214510_181310,
   222_127010_141410_157410_131210,
   223_929811_103710_115610_937611,
   224_681011_760111_848511_718611,
   225_498811_557411_622911_560811,
   226_367511_411111_460011_416811,
   227_270711_303311_339711_329711,
   228_199511_223711_250911_243811,
   229_147011_165111_185311_163111,
   230_108311_121811_136911_118311,
   231_807512_908712_102311_926212,
   232_602112_678312_764212_706212,
   233_449012_506512_571212_538012,
   234_335012_378312_427212_375912,
   235_250012_282612_319512_283912,
   236_190512_215612_244012_231112,
   237_145312_164612_186512_176112,
   238_110912_125812_142712_132512,
   239_847513_962513_109312_110212,
   240_648113_736913_837913_790013,
   241_511713_582513_663013_605913,
   242_404613_461113_525513_460813,
   243_320413_365513_417113_379713,
   244_254013_290213_331413_297213,
   245_201713_230613_263713_201813,
   246_171213_196013_224413_171113,
   247_145513_166713_191113_142913,
   248_123713_141913_162813_126113,
   249_105213_120813_138813_112813,
   250_895414_103013_118413_995514]

/-- atmdata/Venus/LAT80S.txt:19028-19178, columns 0 to 4. -/
def venusProfile127 : List ℕ :=
  [100_635202_647902_660902_642902,
   101_603502_615602_627902_610302,
   102_573002_584502_596202_581202,
   103_543802_554702_565802_552902,
   104_515902_526202_536702_525702,
   105_488902_498702_508702_499502,
   106_463102_472402_481802_471002,
   107_438302_447102_456002_444402,
   108_414302_422602_431102_419102,
   109_391702_399502_407502_397202,
   110_369802_377202_384702_379702,
   111_348802_355802_362902_355702,
   112_328802_335402_342102_335802,
   113_309802_316002_322302_317002,
   114_291602_297402_303302_298202,
   115_274002_279502_285102_282302,
   116_257502_262702_268002_265702,
   117_242002_246802_251702_247402,
   118_227302_231802_236402_230202,
   119_213102_217402_221702_214602,
   120_199902_203902_208002_202502,
   121_187402_191102_194902_188402,
   122_175302_178802_182402_177402,
   123_163802_167102_170402_166102,
   124_153102_156202_159302_155902,
   125_142802_145702_148602_147202,
   126_133202_135902_138602_138102,
   127_124002_126502_129002_128802,
   128_115402_117702_120102_119102,
   129_107202_109302_111502_109402,
   130_995103_101502_103502_101402,
   131_922203_940603_959403_940503,
   132_853303_870403_887803_864603,
   133_789603_805303_821503_805203,
   134_728803_743303_758203_748003,
   135_671903_685303_699003_682403,
   136_618503_630903_643503_634503,
   137_568603_579903_591503_575103,
   138_521503_531903_542503_523603,
   139_478103_487703_497403_483303,
   140_437203_445903_454903_440603,
   141_399103_407003_415203_402203,
   142_363403_370603_378103_362403,
   143_330003_336603_343403_329603,
   144_299503_305503_311603_299003,
   145_271203_276603_282103_270103,
   146_245003_249903_254903_243903,
   147_220403_224803_229303_221703,
   148_197703_201703_205703_199403,
   149_176803_180303_183903_177203,
   150_158103_161303_164503_159403,
   151_140803_143803_146803_142303,
   152_124703_127503_130403_127403,
   153_110803_113403_116103_112703,
   154_979704_100403_103003_984204,
   155_862704_885504_909004_886604,
   156_757804_778804_800504_785604,
   157_661504_680804_700604_691004,
   158_570204_587504_605404_600204,
   159_479304_494504_510204_499604,
   160_396704_409804_423304_409004,
   161_327704_339004_350604_339204,
   162_270804_280404_290404_279604,
   163_224004_232304_240804_231604,
   164_185304_192404_199704_188304,
   165_153004_159004_165304_158504,
   166_126304_131404_136804_130804,
   167_103904_108304_112804_107704,
   168_854905_892005_930705_896405,
   169_707805_739405_772505_753405,
   170_585905_612905_641105_620605,
   171_487105_510205_534305_495505,
   172_405005_424605_445305_408305,
   173_336805_353705_371305_342305,
   174_280205_294505_309605_288705,
   175_234005_246305_259205_245405,
   176_195405_205905_217005_201805,
   177_164005_173005_182505_168505,
   178_137605_145405_153605_141405,
   179_114505_121105_128105_113405,
   180_952806_100905_106905_962806,
   181_783306_830506_880606_780206,
   182_644306_684006_726106_669506,
   183_525206_558206_593306_545506,
   184_428306_455806_485006_432906,
   185_345706_368306_392406_353106,
   186_279106_297806_317706_280706,
   187_222106_237306_253406_223106,
   188_176806_189106_202206_173806,
   189_139706_149506_160106_130706,
   190_110306_118306_126806_101106,
   191_864307_927707_995707_826407,
   192_677107_727607_781907_612907,
   193_528107_568207_611307_547007,
   194_411907_443707_478007_445907,
   195_319307_344407_371407_354607,
   196_247507_267307_288607_269307,
   197_190907_206407_223107_221207,
   198_147207_159407_172507_165707,
   199_108707_117807_127607_126607,
   200_802208_870408_944408_872008,
   201_609508_662108_719308_672708,
   202_463208_503708_547808_485008,
   203_352008_383208_417308_368808,
   204_267508_291608_317908_265308,
   205_203308_221908_242208_203708,
   206_154208_168508_184208_150108,
   207_117008_128108_140108_126208,
   208_888409_973109_106608_950609,
   209_674409_739609_811209_732909,
   210_512109_562309_617409_568609,
   211_378409_416009_457309_422209,
   212_279609_307709_338709_311209,
   213_206609_227609_250809_238309,
   214_152609_168409_185809_185709,
   215_112809_124609_137609_140709,
   216_825410_912710_100909_103309,
   217_604010_668710_740310_728910,
   218_442010_489910_543010_536010,
   219_323510_359010_398310_402210,
   220_236710_263010_292210_292910,
   221_173410_192810_214510_208010,
   222_127010_141410_157410_154910,
   223_929811_103710_115610_116210,
   224_681011_760111_848511_831511,
   225_498811_557411_622911_642311,
   226_367511_411111_460011_429511,
   227_270711_303311_339711_335011,
   228_199511_223711_250911_239711,
   229_147011_165111_185311_179311,
   230_108311_121811_136911_134211,
   231_807512_908712_102311_938612,
   232_602112_678312_764212_689012,
   233_449012_506512_571212_576612,
   234_335012_378312_427212_435012,
   235_250012_282612_319512_319412,
   236_190512_215612_244012_228812,
   237_145312_164612_186512_158712,
   238_110912_125812_142712_114312,
   239_847513_962513_109312_891313,
   240_648113_736913_837913_693313,
   241_511713_582513_663013_561213,
   242_404613_461113_525513_422813,
   243_320413_365513_417113_339713,
   244_254013_290213_331413_288013,
   245_201713_230613_263713_219613,
   246_171213_196013_224413_167813,
   247_145513_166713_191113_132613,
   248_123713_141913_162813_127013,
   249_105213_120813_138813_103613,
   250_895414_103013_118413_920714]

/-- atmdata/Venus/LAT80S.txt:19179-19329, columns 0 to 4. -/
def venusProfile128 : List ℕ :=
  [100_635202_647902_660902_652202,
   101_603502_615602_627902_618502,
   102_573002_584502_596202_587802,
   103_543802_554702_565802_557902,
   104_515902_526202_536702_531302,
   105_488902_498702_508702_502002,
   106_463102_472402_481802_475902,
   107_438302_447102_456002_449002,
   108_414302_422602_431102_424702,
   109_391702_399502_407502_402002,
   110_369802_377202_384702_377402,
   111_348802_355802_362902_358702,
   112_328802_335402_342102_339802,
   113_309802_316002_322302_316102,
   114_291602_297402_303302_298402,
   115_274002_279502_285102_280202,
   116_257502_262702_268002_264002,
   117_242002_246802_251702_248802,
   118_227302_231802_236402_233502,
   119_213102_217402_221702_218702,
   120_199902_203902_208002_205202,
   121_187402_191102_194902_191102,
   122_175302_178802_182402_178702,
   123_163802_167102_170402_166902,
   124_153102_156202_159302_156002,
   125_142802_145702_148602_144802,
   126_133202_135902_138602_135002,
   127_124002_126502_129002_126202,
   128_115402_117702_120102_118002,
   129_107202_109302_111502_109802,
   130_995103_101502_103502_101902,
   131_922203_940603_959403_944603,
   132_853303_870403_887803_868403,
   133_789603_805303_821503_800503,
   134_728803_743303_758203_738403,
   135_671903_685303_699003_671203,
   136_618503_630903_643503_618003,
   137_568603_579903_591503_574903,
   138_521503_531903_542503_528403,
   139_478103_487703_497403_480903,
   140_437203_445903_454903_444003,
   141_399103_407003_415203_401803,
   142_363403_370603_378103_363303,
   143_330003_336603_343403_333503,
   144_299503_305503_311603_303303,
   145_271203_276603_282103_276803,
   146_245003_249903_254903_249203,
   147_220403_224803_229303_223803,
   148_197703_201703_205703_201403,
   149_176803_180303_183903_182103,
   150_158103_161303_164503_164203,
   151_140803_143803_146803_144903,
   152_124703_127503_130403_130303,
   153_110803_113403_116103_116703,
   154_979704_100403_103003_103703,
   155_862704_885504_909004_894104,
   156_757804_778804_800504_778004,
   157_661504_680804_700604_692704,
   158_570204_587504_605404_600704,
   159_479304_494504_510204_494104,
   160_396704_409804_423304_408004,
   161_327704_339004_350604_335304,
   162_270804_280404_290404_274904,
   163_224004_232304_240804_223904,
   164_185304_192404_199704_185404,
   165_153004_159004_165304_153904,
   166_126304_131404_136804_126904,
   167_103904_108304_112804_104204,
   168_854905_892005_930705_849005,
   169_707805_739405_772505_713105,
   170_585905_612905_641105_603405,
   171_487105_510205_534305_506105,
   172_405005_424605_445305_428505,
   173_336805_353705_371305_355405,
   174_280205_294505_309605_299305,
   175_234005_246305_259205_244205,
   176_195405_205905_217005_197605,
   177_164005_173005_182505_165405,
   178_137605_145405_153605_138805,
   179_114505_121105_128105_122105,
   180_952806_100905_106905_100805,
   181_783306_830506_880606_853406,
   182_644306_684006_726106_678206,
   183_525206_558206_593306_563306,
   184_428306_455806_485006_486206,
   185_345706_368306_392406_391206,
   186_279106_297806_317706_321206,
   187_222106_237306_253406_248806,
   188_176806_189106_202206_194106,
   189_139706_149506_160106_155906,
   190_110306_118306_126806_118106,
   191_864307_927707_995707_924507,
   192_677107_727607_781907_764107,
   193_528107_568207_611307_597407,
   194_411907_443707_478007_461507,
   195_319307_344407_371407_340907,
   196_247507_267307_288607_263507,
   197_190907_206407_223107_213707,
   198_147207_159407_172507_163907,
   199_108707_117807_127607_114707,
   200_802208_870408_944408_839408,
   201_609508_662108_719308_600008,
   202_463208_503708_547808_435608,
   203_352008_383208_417308_342908,
   204_267508_291608_317908_253808,
   205_203308_221908_242208_191908,
   206_154208_168508_184208_144408,
   207_117008_128108_140108_110008,
   208_888409_973109_106608_812909,
   209_674409_739609_811209_587809,
   210_512109_562309_617409_387909,
   211_378409_416009_457309_308209,
   212_279609_307709_338709_211009,
   213_206609_227609_250809_177709,
   214_152609_168409_185809_136909,
   215_112809_124609_137609_103809,
   216_825410_912710_100909_791610,
   217_604010_668710_740310_584410,
   218_442010_489910_543010_444810,
   219_323510_359010_398310_343310,
   220_236710_263010_292210_252910,
   221_173410_192810_214510_189410,
   222_127010_141410_157410_127710,
   223_929811_103710_115610_914811,
   224_681011_760111_848511_740611,
   225_498811_557411_622911_582711,
   226_367511_411111_460011_428011,
   227_270711_303311_339711_331411,
   228_199511_223711_250911_224711,
   229_147011_165111_185311_161011,
   230_108311_121811_136911_133311,
   231_807512_908712_102311_980112,
   232_602112_678312_764212_684512,
   233_449012_506512_571212_497612,
   234_335012_378312_427212_357112,
   235_250012_282612_319512_261812,
   236_190512_215612_244012_198812,
   237_145312_164612_186512_154212,
   238_110912_125812_142712_124312,
   239_847513_962513_109312_910613,
   240_648113_736913_837913_781113,
   241_511713_582513_663013_665613,
   242_404613_461113_525513_481913,
   243_320413_365513_417113_371113,
   244_254013_290213_331413_285313,
   245_201713_230613_263713_225213,
   246_171213_196013_224413_196313,
   247_145513_166713_191113_178313,
   248_123713_141913_162813_144313,
   249_105213_120813_138813_125813,
   250_895414_103013_118413_109313]

/-- atmdata/Venus/LAT80S.txt:19330-19480, columns 0 to 4. -/
def venusProfile129 : List ℕ :=
  [100_635202_647902_660902_665602,
   101_603502_615602_627902_630402,
   102_573002_584502_596202_598002,
   103_543802_554702_565802_566102,
   104_515902_526202_536702_540502,
   105_488902_498702_508702_514702,
   106_463102_472402_481802_492002,
   107_438302_447102_456002_463902,
   108_414302_422602_431102_439702,
   109_391702_399502_407502_415502,
   110_369802_377202_384702_390802,
   111_348802_355802_362902_369402,
   112_328802_335402_342102_345302,
   113_309802_316002_322302_324402,
   114_291602_297402_303302_307602,
   115_274002_279502_285102_292902,
   116_257502_262702_268002_275702,
   117_242002_246802_251702_258202,
   118_227302_231802_236402_243802,
   119_213102_217402_221702_228802,
   120_199902_203902_208002_213502,
   121_187402_191102_194902_198802,
   122_175302_178802_182402_183902,
   123_163802_167102_170402_171302,
   124_153102_156202_159302_159302,
   125_142802_145702_148602_148202,
   126_133202_135902_138602_136002,
   127_124002_126502_129002_127502,
   128_115402_117702_120102_118402,
   129_107202_109302_111502_109402,
   130_995103_101502_103502_101802,
   131_922203_940603_959403_943103,
   132_853303_870403_887803_867403,
   133_789603_805303_821503_804803,
   134_728803_743303_758203_732803,
   135_671903_685303_699003_683903,
   136_618503_630903_643503_635403,
   137_568603_579903_591503_588803,
   138_521503_531903_542503_535503,
   139_478103_487703_497403_489903,
   140_437203_445903_454903_448303,
   141_399103_407003_415203_410403,
   142_363403_370603_378103_371403,
   143_330003_336603_343403_336503,
   144_299503_305503_311603_307003,
   145_271203_276603_282103_277703,
   146_245003_249903_254903_249403,
   147_220403_224803_229303_226203,
   148_197703_201703_205703_203703,
   149_176803_180303_183903_182803,
   150_158103_161303_164503_161503,
   151_140803_143803_146803_144203,
   152_124703_127503_130403_126203,
   153_110803_113403_116103_111903,
   154_979704_100403_103003_986304,
   155_862704_885504_909004_855004,
   156_757804_778804_800504_753604,
   157_661504_680804_700604_652904,
   158_570204_587504_605404_566604,
   159_479304_494504_510204_484204,
   160_396704_409804_423304_403004,
   161_327704_339004_350604_325504,
   162_270804_280404_290404_264704,
   163_224004_232304_240804_222004,
   164_185304_192404_199704_186404,
   165_153004_159004_165304_152804,
   166_126304_131404_136804_125504,
   167_103904_108304_112804_102604,
   168_854905_892005_930705_859605,
   169_707805_739405_772505_718505,
   170_585905_612905_641105_589005,
   171_487105_510205_534305_485005,
   172_405005_424605_445305_401005,
   173_336805_353705_371305_331505,
   174_280205_294505_309605_281105,
   175_234005_246305_259205_236205,
   176_195405_205905_217005_204205,
   177_164005_173005_182505_170605,
   178_137605_145405_153605_142705,
   179_114505_121105_128105_123005,
   180_952806_100905_106905_979306,
   181_783306_830506_880606_808106,
   182_644306_684006_726106_656606,
   183_525206_558206_593306_512006,
   184_428306_455806_485006_432606,
   185_345706_368306_392406_349506,
   186_279106_297806_317706_279906,
   187_222106_237306_253406_209506,
   188_176806_189106_202206_166806,
   189_139706_149506_160106_132406,
   190_110306_118306_126806_997107,
   191_864307_927707_995707_763907,
   192_677107_727607_781907_635007,
   193_528107_568207_611307_482407,
   194_411907_443707_478007_401507,
   195_319307_344407_371407_310907,
   196_247507_267307_288607_245507,
   197_190907_206407_223107_198607,
   198_147207_159407_172507_156307,
   199_108707_117807_127607_113307,
   200_802208_870408_944408_854308,
   201_609508_662108_719308_646308,
   202_463208_503708_547808_468508,
   203_352008_383208_417308_381008,
   204_267508_291608_317908_284208,
   205_203308_221908_242208_208508,
   206_154208_168508_184208_158008,
   207_117008_128108_140108_124608,
   208_888409_973109_106608_101108,
   209_674409_739609_811209_767709,
   210_512109_562309_617409_570509,
   211_378409_416009_457309_448809,
   212_279609_307709_338709_332409,
   213_206609_227609_250809_232509,
   214_152609_168409_185809_169109,
   215_112809_124609_137609_122309,
   216_825410_912710_100909_924810,
   217_604010_668710_740310_689510,
   218_442010_489910_543010_525010,
   219_323510_359010_398310_403610,
   220_236710_263010_292210_292810,
   221_173410_192810_214510_193710,
   222_127010_141410_157410_140010,
   223_929811_103710_115610_106110,
   224_681011_760111_848511_782911,
   225_498811_557411_622911_616011,
   226_367511_411111_460011_487511,
   227_270711_303311_339711_369411,
   228_199511_223711_250911_278111,
   229_147011_165111_185311_212611,
   230_108311_121811_136911_150611,
   231_807512_908712_102311_113811,
   232_602112_678312_764212_872312,
   233_449012_506512_571212_647112,
   234_335012_378312_427212_488112,
   235_250012_282612_319512_344112,
   236_190512_215612_244012_264212,
   237_145312_164612_186512_185312,
   238_110912_125812_142712_140412,
   239_847513_962513_109312_111712,
   240_648113_736913_837913_832713,
   241_511713_582513_663013_626513,
   242_404613_461113_525513_550013,
   243_320413_365513_417113_404813,
   244_254013_290213_331413_329113,
   245_201713_230613_263713_264713,
   246_171213_196013_224413_215813,
   247_145513_166713_191113_185913,
   248_123713_141913_162813_157313,
   249_105213_120813_138813_123813,
   250_895414_103013_118413_107313]

/-- atmdata/Venus/LAT80S.txt:19481-19631, columns 0 to 4. -/
def venusProfile130 : List ℕ :=
  [100_635202_647902_660902_637102,
   101_603502_615602_627902_603702,
   102_573002_584502_596202_572602,
   103_543802_554702_565802_541502,
   104_515902_526202_536702_510002,
   105_488902_498702_508702_483702,
   106_463102_472402_481802_457902,
   107_438302_447102_456002_432902,
   108_414302_422602_431102_405502,
   109_391702_399502_407502_384002,
   110_369802_377202_384702_362802,
   111_348802_355802_362902_343002,
   112_328802_335402_342102_322902,
   113_309802_316002_322302_305602,
   114_291602_297402_303302_286702,
   115_274002_279502_285102_269902,
   116_257502_262702_268002_255002,
   117_242002_246802_251702_237702,
   118_227302_231802_236402_223102,
   119_213102_217402_221702_211502,
   120_199902_203902_208002_200802,
   121_187402_191102_194902_187602,
   122_175302_178802_182402_176002,
   123_163802_167102_170402_163702,
   124_153102_156202_159302_154902,
   125_142802_145702_148602_144602,
   126_133202_135902_138602_135102,
   127_124002_126502_129002_127202,
   128_115402_117702_120102_116602,
   129_107202_109302_111502_108802,
   130_995103_101502_103502_101402,
   131_922203_940603_959403_940103,
   132_853303_870403_887803_865003,
   133_789603_805303_821503_793803,
   134_728803_743303_758203_734203,
   135_671903_685303_699003_683503,
   136_618503_630903_643503_628603,
   137_568603_579903_591503_581803,
   138_521503_531903_542503_534403,
   139_478103_487703_497403_491303,
   140_437203_445903_454903_446503,
   141_399103_407003_415203_406403,
   142_363403_370603_378103_368403,
   143_330003_336603_343403_336503,
   144_299503_305503_311603_310303,
   145_271203_276603_282103_277103,
   146_245003_249903_254903_248403,
   147_220403_224803_229303_223003,
   148_197703_201703_205703_201103,
   149_176803_180303_183903_180003,
   150_158103_161303_164503_160003,
   151_140803_143803_146803_141303,
   152_124703_127503_130403_124203,
   153_110803_113403_116103_111903,
   154_979704_100403_103003_100303,
   155_862704_885504_909004_871404,
   156_757804_778804_800504_778404,
   157_661504_680804_700604_678804,
   158_570204_587504_605404_587404,
   159_479304_494504_510204_497604,
   160_396704_409804_423304_417104,
   161_327704_339004_350604_348104,
   162_270804_280404_290404_294004,
   163_224004_232304_240804_241504,
   164_185304_192404_199704_195204,
   165_153004_159004_165304_166104,
   166_126304_131404_136804_135304,
   167_103904_108304_112804_109304,
   168_854905_892005_930705_890605,
   169_707805_739405_772505_739705,
   170_585905_612905_641105_618505,
   171_487105_510205_534305_525805,
   172_405005_424605_445305_445005,
   173_336805_353705_371305_361805,
   174_280205_294505_309605_305005,
   175_234005_246305_259205_262005,
   176_195405_205905_217005_221405,
   177_164005_173005_182505_184005,
   178_137605_145405_153605_153005,
   179_114505_121105_128105_130005,
   180_952806_100905_106905_109105,
   181_783306_830506_880606_869906,
   182_644306_684006_726106_711506,
   183_525206_558206_593306_572206,
   184_428306_455806_485006_472706,
   185_345706_368306_392406_377406,
   186_279106_297806_317706_313506,
   187_222106_237306_253406_255106,
   188_176806_189106_202206_201506,
   189_139706_149506_160106_153006,
   190_110306_118306_126806_128006,
   191_864307_927707_995707_102206,
   192_677107_727607_781907_816207,
   193_528107_568207_611307_641207,
   194_411907_443707_478007_493907,
   195_319307_344407_371407_385507,
   196_247507_267307_288607_302907,
   197_190907_206407_223107_238607,
   198_147207_159407_172507_189707,
   199_108707_117807_127607_138007,
   200_802208_870408_944408_941208,
   201_609508_662108_719308_732308,
   202_463208_503708_547808_527208,
   203_352008_383208_417308_387408,
   204_267508_291608_317908_291808,
   205_203308_221908_242208_238608,
   206_154208_168508_184208_180808,
   207_117008_128108_140108_132308,
   208_888409_973109_106608_102708,
   209_674409_739609_811209_833409,
   210_512109_562309_617409_635209,
   211_378409_416009_457309_446209,
   212_279609_307709_338709_312709,
   213_206609_227609_250809_225309,
   214_152609_168409_185809_157609,
   215_112809_124609_137609_109309,
   216_825410_912710_100909_845010,
   217_604010_668710_740310_654110,
   218_442010_489910_543010_513710,
   219_323510_359010_398310_404110,
   220_236710_263010_292210_292610,
   221_173410_192810_214510_209910,
   222_127010_141410_157410_156810,
   223_929811_103710_115610_110710,
   224_681011_760111_848511_770911,
   225_498811_557411_622911_612211,
   226_367511_411111_460011_444311,
   227_270711_303311_339711_338311,
   228_199511_223711_250911_248511,
   229_147011_165111_185311_182211,
   230_108311_121811_136911_135311,
   231_807512_908712_102311_925912,
   232_602112_678312_764212_696912,
   233_449012_506512_571212_560012,
   234_335012_378312_427212_403312,
   235_250012_282612_319512_276812,
   236_190512_215612_244012_230612,
   237_145312_164612_186512_177312,
   238_110912_125812_142712_128812,
   239_847513_962513_109312_976413,
   240_648113_736913_837913_783113,
   241_511713_582513_663013_618613,
   242_404613_461113_525513_520413,
   243_320413_365513_417113_439413,
   244_254013_290213_331413_326013,
   245_201713_230613_263713_273113,
   246_171213_196013_224413_246113,
   247_145513_166713_191113_203513,
   248_123713_141913_162813_178613,
   249_105213_120813_138813_150913,
   250_895414_103013_118413_128013]

/-- atmdata/Venus/LAT80S.txt:19632-19782, columns 0 to 4. -/
def venusProfile131 : List ℕ :=
  [100_635202_647902_660902_647302,
   101_603502_615602_627902_612702,
   102_573002_584502_596202_579802,
   103_543802_554702_565802_545702,
   104_515902_526202_536702_515702,
   105_488902_498702_508702_485302,
   106_463102_472402_481802_461902,
   107_438302_447102_456002_436702,
   108_414302_422602_431102_411702,
   109_391702_399502_407502_389502,
   110_369802_377202_384702_368602,
   111_348802_355802_362902_347502,
   112_328802_335402_342102_328002,
   113_309802_316002_322302_307102,
   114_291602_297402_303302_289002,
   115_274002_279502_285102_269902,
   116_257502_262702_268002_255202,
   117_242002_246802_251702_240702,
   118_227302_231802_236402_227302,
   119_213102_217402_221702_212502,
   120_199902_203902_208002_200002,
   121_187402_191102_194902_187102,
   122_175302_178802_182402_174502,
   123_163802_167102_170402_160902,
   124_153102_156202_159302_151202,
   125_142802_145702_148602_141802,
   126_133202_135902_138602_131602,
   127_124002_126502_129002_121602,
   128_115402_117702_120102_113502,
   129_107202_109302_111502_105402,
   130_995103_101502_103502_986603,
   131_922203_940603_959403_915303,
   132_853303_870403_887803_843403,
   133_789603_805303_821503_781303,
   134_728803_743303_758203_717903,
   135_671903_685303_699003_668203,
   136_618503_630903_643503_621203,
   137_568603_579903_591503_574603,
   138_521503_531903_542503_523203,
   139_478103_487703_497403_485203,
   140_437203_445903_454903_446403,
   141_399103_407003_415203_411503,
   142_363403_370603_378103_373303,
   143_330003_336603_343403_337203,
   144_299503_305503_311603_304203,
   145_271203_276603_282103_276003,
   146_245003_249903_254903_246303,
   147_220403_224803_229303_223303,
   148_197703_201703_205703_201703,
   149_176803_180303_183903_179803,
   150_158103_161303_164503_160403,
   151_140803_143803_146803_143303,
   152_124703_127503_130403_126303,
   153_110803_113403_116103_112303,
   154_979704_100403_103003_994904,
   155_862704_885504_909004_866104,
   156_757804_778804_800504_758504,
   157_661504_680804_700604_666304,
   158_570204_587504_605404_576104,
   159_479304_494504_510204_485904,
   160_396704_409804_423304_393704,
   161_327704_339004_350604_326304,
   162_270804_280404_290404_273604,
   163_224004_232304_240804_232704,
   164_185304_192404_199704_191904,
   165_153004_159004_165304_159804,
   166_126304_131404_136804_129904,
   167_103904_108304_112804_104004,
   168_854905_892005_930705_873905,
   169_707805_739405_772505_724205,
   170_585905_612905_641105_586205,
   171_487105_510205_534305_489005,
   172_405005_424605_445305_404905,
   173_336805_353705_371305_323205,
   174_280205_294505_309605_275505,
   175_234005_246305_259205_228805,
   176_195405_205905_217005_193505,
   177_164005_173005_182505_162505,
   178_137605_145405_153605_136205,
   179_114505_121105_128105_116205,
   180_952806_100905_106905_962706,
   181_783306_830506_880606_810806,
   182_644306_684006_726106_674106,
   183_525206_558206_593306_555106,
   184_428306_455806_485006_454906,
   185_345706_368306_392406_362506,
   186_279106_297806_317706_291306,
   187_222106_237306_253406_234606,
   188_176806_189106_202206_187706,
   189_139706_149506_160106_152206,
   190_110306_118306_126806_125306,
   191_864307_927707_995707_975807,
   192_677107_727607_781907_777107,
   193_528107_568207_611307_591907,
   194_411907_443707_478007_484707,
   195_319307_344407_371407_396907,
   196_247507_267307_288607_317107,
   197_190907_206407_223107_247507,
   198_147207_159407_172507_182407,
   199_108707_117807_127607_135307,
   200_802208_870408_944408_976808,
   201_609508_662108_719308_714808,
   202_463208_503708_547808_515608,
   203_352008_383208_417308_389608,
   204_267508_291608_317908_296608,
   205_203308_221908_242208_232508,
   206_154208_168508_184208_178708,
   207_117008_128108_140108_136508,
   208_888409_973109_106608_103208,
   209_674409_739609_811209_774509,
   210_512109_562309_617409_622909,
   211_378409_416009_457309_449509,
   212_279609_307709_338709_336209,
   213_206609_227609_250809_245209,
   214_152609_168409_185809_186809,
   215_112809_124609_137609_141909,
   216_825410_912710_100909_108109,
   217_604010_668710_740310_737710,
   218_442010_489910_543010_499010,
   219_323510_359010_398310_334110,
   220_236710_263010_292210_245310,
   221_173410_192810_214510_186310,
   222_127010_141410_157410_127710,
   223_929811_103710_115610_976911,
   224_681011_760111_848511_744311,
   225_498811_557411_622911_598911,
   226_367511_411111_460011_464911,
   227_270711_303311_339711_350411,
   228_199511_223711_250911_248911,
   229_147011_165111_185311_172711,
   230_108311_121811_136911_136711,
   231_807512_908712_102311_994612,
   232_602112_678312_764212_717912,
   233_449012_506512_571212_514412,
   234_335012_378312_427212_403612,
   235_250012_282612_319512_324012,
   236_190512_215612_244012_234812,
   237_145312_164612_186512_166612,
   238_110912_125812_142712_136512,
   239_847513_962513_109312_957513,
   240_648113_736913_837913_703513,
   241_511713_582513_663013_588113,
   242_404613_461113_525513_487513,
   243_320413_365513_417113_397113,
   244_254013_290213_331413_317113,
   245_201713_230613_263713_231913,
   246_171213_196013_224413_198613,
   247_145513_166713_191113_160713,
   248_123713_141913_162813_128013,
   249_105213_120813_138813_983814,
   250_895414_103013_118413_866614]

/-- atmdata/Venus/LAT80S.txt:19783-19933, columns 0 to 4. -/
def venusProfile132 : List ℕ :=
  [100_635202_647902_660902_657302,
   101_603502_615602_627902_621202,
   102_573002_584502_596202_586402,
   103_543802_554702_565802_559702,
   104_515902_526202_536702_529602,
   105_488902_498702_508702_502802,
   106_463102_472402_481802_474002,
   107_438302_447102_456002_447902,
   108_414302_422602_431102_423302,
   109_391702_399502_407502_399802,
   110_369802_377202_384702_378802,
   111_348802_355802_362902_355902,
   112_328802_335402_342102_336802,
   113_309802_316002_322302_317002,
   114_291602_297402_303302_299002,
   115_274002_279502_285102_281502,
   116_257502_262702_268002_265902,
   117_242002_246802_251702_249302,
   118_227302_231802_236402_233202,
   119_213102_217402_221702_218602,
   120_199902_203902_208002_204702,
   121_187402_191102_194902_191502,
   122_175302_178802_182402_180102,
   123_163802_167102_170402_169202,
   124_153102_156202_159302_158002,
   125_142802_145702_148602_148802,
   126_133202_135902_138602_139102,
   127_124002_126502_129002_128602,
   128_115402_117702_120102_119102,
   129_107202_109302_111502_112202,
   130_995103_101502_103502_105102,
   131_922203_940603_959403_972303,
   132_853303_870403_887803_893903,
   133_789603_805303_821503_832003,
   134_728803_743303_758203_769703,
   135_671903_685303_699003_713003,
   136_618503_630903_643503_654303,
   137_568603_579903_591503_603003,
   138_521503_531903_542503_552903,
   139_478103_487703_497403_503803,
   140_437203_445903_454903_459603,
   141_399103_407003_415203_419203,
   142_363403_370603_378103_380403,
   143_330003_336603_343403_345903,
   144_299503_305503_311603_312803,
   145_271203_276603_282103_281103,
   146_245003_249903_254903_256503,
   147_220403_224803_229303_229703,
   148_197703_201703_205703_207303,
   149_176803_180303_183903_183703,
   150_158103_161303_164503_164103,
   151_140803_143803_146803_144903,
   152_124703_127503_130403_128003,
   153_110803_113403_116103_111903,
   154_979704_100403_103003_981304,
   155_862704_885504_909004_855604,
   156_757804_778804_800504_757504,
   157_661504_680804_700604_671104,
   158_570204_587504_605404_579304,
   159_479304_494504_510204_486004,
   160_396704_409804_423304_399604,
   161_327704_339004_350604_327704,
   162_270804_280404_290404_272904,
   163_224004_232304_240804_227004,
   164_185304_192404_199704_189904,
   165_153004_159004_165304_156304,
   166_126304_131404_136804_126404,
   167_103904_108304_112804_107404,
   168_854905_892005_930705_878905,
   169_707805_739405_772505_725305,
   170_585905_612905_641105_602705,
   171_487105_510205_534305_489305,
   172_405005_424605_445305_417605,
   173_336805_353705_371305_356705,
   174_280205_294505_309605_302005,
   175_234005_246305_259205_254705,
   176_195405_205905_217005_211905,
   177_164005_173005_182505_176805,
   178_137605_145405_153605_147105,
   179_114505_121105_128105_124105,
   180_952806_100905_106905_983506,
   181_783306_830506_880606_806906,
   182_644306_684006_726106_680006,
   183_525206_558206_593306_575206,
   184_428306_455806_485006_465706,
   185_345706_368306_392406_368006,
   186_279106_297806_317706_310406,
   187_222106_237306_253406_245306,
   188_176806_189106_202206_197006,
   189_139706_149506_160106_155206,
   190_110306_118306_126806_126306,
   191_864307_927707_995707_953507,
   192_677107_727607_781907_756207,
   193_528107_568207_611307_605807,
   194_411907_443707_478007_469407,
   195_319307_344407_371407_356007,
   196_247507_267307_288607_262707,
   197_190907_206407_223107_207507,
   198_147207_159407_172507_158307,
   199_108707_117807_127607_121907,
   200_802208_870408_944408_912308,
   201_609508_662108_719308_695708,
   202_463208_503708_547808_502908,
   203_352008_383208_417308_390008,
   204_267508_291608_317908_300108,
   205_203308_221908_242208_230408,
   206_154208_168508_184208_179808,
   207_117008_128108_140108_124208,
   208_888409_973109_106608_925509,
   209_674409_739609_811209_736809,
   210_512109_562309_617409_546109,
   211_378409_416009_457309_406209,
   212_279609_307709_338709_291709,
   213_206609_227609_250809_218709,
   214_152609_168409_185809_163009,
   215_112809_124609_137609_121709,
   216_825410_912710_100909_967410,
   217_604010_668710_740310_687710,
   218_442010_489910_543010_481310,
   219_323510_359010_398310_332510,
   220_236710_263010_292210_243810,
   221_173410_192810_214510_169510,
   222_127010_141410_157410_124310,
   223_929811_103710_115610_893011,
   224_681011_760111_848511_652011,
   225_498811_557411_622911_541411,
   226_367511_411111_460011_393511,
   227_270711_303311_339711_299711,
   228_199511_223711_250911_200811,
   229_147011_165111_185311_155011,
   230_108311_121811_136911_111211,
   231_807512_908712_102311_857112,
   232_602112_678312_764212_581112,
   233_449012_506512_571212_443812,
   234_335012_378312_427212_329612,
   235_250012_282612_319512_261512,
   236_190512_215612_244012_200312,
   237_145312_164612_186512_156712,
   238_110912_125812_142712_121812,
   239_847513_962513_109312_960113,
   240_648113_736913_837913_749013,
   241_511713_582513_663013_556513,
   242_404613_461113_525513_454813,
   243_320413_365513_417113_361513,
   244_254013_290213_331413_256313,
   245_201713_230613_263713_200213,
   246_171213_196013_224413_162813,
   247_145513_166713_191113_158713,
   248_123713_141913_162813_133913,
   249_105213_120813_138813_114713,
   250_895414_103013_118413_989814]

/-- atmdata/Venus/LAT80S.txt:19934-20084, columns 0 to 4. -/
def venusProfile133 : List ℕ :=
  [100_635202_647902_660902_626802,
   101_603502_615602_627902_592602,
   102_573002_584502_596202_556902,
   103_543802_554702_565802_530902,
   104_515902_526202_536702_504002,
   105_488902_498702_508702_476702,
   106_463102_472402_481802_452702,
   107_438302_447102_456002_428602,
   108_414302_422602_431102_407002,
   109_391702_399502_407502_384702,
   110_369802_377202_384702_366102,
   111_348802_355802_362902_342802,
   112_328802_335402_342102_319202,
   113_309802_316002_322302_302702,
   114_291602_297402_303302_287402,
   115_274002_279502_285102_269002,
   116_257502_262702_268002_254902,
   117_242002_246802_251702_237402,
   118_227302_231802_236402_223902,
   119_213102_217402_221702_211102,
   120_199902_203902_208002_196902,
   121_187402_191102_194902_184602,
   122_175302_178802_182402_172802,
   123_163802_167102_170402_162202,
   124_153102_156202_159302_151102,
   125_142802_145702_148602_140302,
   126_133202_135902_138602_130602,
   127_124002_126502_129002_121302,
   128_115402_117702_120102_113702,
   129_107202_109302_111502_105902,
   130_995103_101502_103502_976603,
   131_922203_940603_959403_906003,
   132_853303_870403_887803_835703,
   133_789603_805303_821503_772203,
   134_728803_743303_758203_712103,
   135_671903_685303_699003_661703,
   136_618503_630903_643503_615303,
   137_568603_579903_591503_568303,
   138_521503_531903_542503_517603,
   139_478103_487703_497403_475403,
   140_437203_445903_454903_431603,
   141_399103_407003_415203_392303,
   142_363403_370603_378103_357603,
   143_330003_336603_343403_322403,
   144_299503_305503_311603_293703,
   145_271203_276603_282103_267703,
   146_245003_249903_254903_244203,
   147_220403_224803_229303_221403,
   148_197703_201703_205703_200603,
   149_176803_180303_183903_181303,
   150_158103_161303_164503_162403,
   151_140803_143803_146803_145103,
   152_124703_127503_130403_128503,
   153_110803_113403_116103_114403,
   154_979704_100403_103003_101903,
   155_862704_885504_909004_889304,
   156_757804_778804_800504_771704,
   157_661504_680804_700604_665604,
   158_570204_587504_605404_574004,
   159_479304_494504_510204_478804,
   160_396704_409804_423304_396804,
   161_327704_339004_350604_336904,
   162_270804_280404_290404_278604,
   163_224004_232304_240804_227804,
   164_185304_192404_199704_183804,
   165_153004_159004_165304_148904,
   166_126304_131404_136804_119004,
   167_103904_108304_112804_100504,
   168_854905_892005_930705_850505,
   169_707805_739405_772505_700605,
   170_585905_612905_641105_601405,
   171_487105_510205_534305_506705,
   172_405005_424605_445305_419305,
   173_336805_353705_371305_354205,
   174_280205_294505_309605_300505,
   175_234005_246305_259205_243105,
   176_195405_205905_217005_201005,
   177_164005_173005_182505_168505,
   178_137605_145405_153605_140605,
   179_114505_121105_128105_118505,
   180_952806_100905_106905_100005,
   181_783306_830506_880606_791906,
   182_644306_684006_726106_686906,
   183_525206_558206_593306_548706,
   184_428306_455806_485006_441206,
   185_345706_368306_392406_347706,
   186_279106_297806_317706_281906,
   187_222106_237306_253406_220906,
   188_176806_189106_202206_180306,
   189_139706_149506_160106_139306,
   190_110306_118306_126806_113706,
   191_864307_927707_995707_917507,
   192_677107_727607_781907_725307,
   193_528107_568207_611307_561807,
   194_411907_443707_478007_467507,
   195_319307_344407_371407_363607,
   196_247507_267307_288607_274407,
   197_190907_206407_223107_215107,
   198_147207_159407_172507_166807,
   199_108707_117807_127607_117007,
   200_802208_870408_944408_782208,
   201_609508_662108_719308_638308,
   202_463208_503708_547808_465308,
   203_352008_383208_417308_377208,
   204_267508_291608_317908_294508,
   205_203308_221908_242208_222608,
   206_154208_168508_184208_177908,
   207_117008_128108_140108_133508,
   208_888409_973109_106608_950909,
   209_674409_739609_811209_710409,
   210_512109_562309_617409_545509,
   211_378409_416009_457309_414309,
   212_279609_307709_338709_316009,
   213_206609_227609_250809_239709,
   214_152609_168409_185809_171809,
   215_112809_124609_137609_124309,
   216_825410_912710_100909_844910,
   217_604010_668710_740310_622310,
   218_442010_489910_543010_446610,
   219_323510_359010_398310_314210,
   220_236710_263010_292210_231010,
   221_173410_192810_214510_170710,
   222_127010_141410_157410_130710,
   223_929811_103710_115610_997611,
   224_681011_760111_848511_797511,
   225_498811_557411_622911_513911,
   226_367511_411111_460011_399111,
   227_270711_303311_339711_302111,
   228_199511_223711_250911_231211,
   229_147011_165111_185311_167511,
   230_108311_121811_136911_124511,
   231_807512_908712_102311_104711,
   232_602112_678312_764212_797612,
   233_449012_506512_571212_619312,
   234_335012_378312_427212_483812,
   235_250012_282612_319512_362012,
   236_190512_215612_244012_278912,
   237_145312_164612_186512_198912,
   238_110912_125812_142712_145812,
   239_847513_962513_109312_107712,
   240_648113_736913_837913_741413,
   241_511713_582513_663013_580213,
   242_404613_461113_525513_466413,
   243_320413_365513_417113_359113,
   244_254013_290213_331413_283713,
   245_201713_230613_263713_227113,
   246_171213_196013_224413_203513,
   247_145513_166713_191113_179613,
   248_123713_141913_162813_156713,
   249_105213_120813_138813_146013,
   250_895414_103013_118413_123113]

/-- atmdata/Venus/LAT80S.txt:20085-20235, columns 0 to 4. -/
def venusProfile134 : List ℕ :=
  [100_635202_647902_660902_642402,
   101_603502_615602_627902_606102,
   102_573002_584502_596202_579302,
   103_543802_554702_565802_550302,
   104_515902_526202_536702_522702,
   105_488902_498702_508702_497902,
   106_463102_472402_481802_476602,
   107_438302_447102_456002_450602,
   108_414302_422602_431102_429702,
   109_391702_399502_407502_405202,
   110_369802_377202_384702_379202,
   111_348802_355802_362902_359802,
   112_328802_335402_342102_337802,
   113_309802_316002_322302_316602,
   114_291602_297402_303302_296302,
   115_274002_279502_285102_279302,
   116_257502_262702_268002_264602,
   117_242002_246802_251702_249202,
   118_227302_231802_236402_232502,
   119_213102_217402_221702_216102,
   120_199902_203902_208002_203702,
   121_187402_191102_194902_190902,
   122_175302_178802_182402_176702,
   123_163802_167102_170402_165402,
   124_153102_156202_159302_156202,
   125_142802_145702_148602_145302,
   126_133202_135902_138602_136402,
   127_124002_126502_129002_126602,
   128_115402_117702_120102_117702,
   129_107202_109302_111502_108802,
   130_995103_101502_103502_100502,
   131_922203_940603_959403_931003,
   132_853303_870403_887803_858003,
   133_789603_805303_821503_797003,
   134_728803_743303_758203_741503,
   135_671903_685303_699003_687003,
   136_618503_630903_643503_631403,
   137_568603_579903_591503_581903,
   138_521503_531903_542503_534503,
   139_478103_487703_497403_492603,
   140_437203_445903_454903_451803,
   141_399103_407003_415203_414303,
   142_363403_370603_378103_377003,
   143_330003_336603_343403_342203,
   144_299503_305503_311603_311703,
   145_271203_276603_282103_281103,
   146_245003_249903_254903_255003,
   147_220403_224803_229303_228403,
   148_197703_201703_205703_207103,
   149_176803_180303_183903_185703,
   150_158103_161303_164503_166603,
   151_140803_143803_146803_147303,
   152_124703_127503_130403_130603,
   153_110803_113403_116103_115003,
   154_979704_100403_103003_101503,
   155_862704_885504_909004_886104,
   156_757804_778804_800504_779004,
   157_661504_680804_700604_677804,
   158_570204_587504_605404_583304,
   159_479304_494504_510204_481104,
   160_396704_409804_423304_401504,
   161_327704_339004_350604_334804,
   162_270804_280404_290404_275504,
   163_224004_232304_240804_231204,
   164_185304_192404_199704_190504,
   165_153004_159004_165304_159604,
   166_126304_131404_136804_135504,
   167_103904_108304_112804_112604,
   168_854905_892005_930705_921105,
   169_707805_739405_772505_751505,
   170_585905_612905_641105_618305,
   171_487105_510205_534305_509605,
   172_405005_424605_445305_435205,
   173_336805_353705_371305_363805,
   174_280205_294505_309605_308405,
   175_234005_246305_259205_256505,
   176_195405_205905_217005_208605,
   177_164005_173005_182505_174505,
   178_137605_145405_153605_145105,
   179_114505_121105_128105_121405,
   180_952806_100905_106905_100205,
   181_783306_830506_880606_835906,
   182_644306_684006_726106_670106,
   183_525206_558206_593306_547606,
   184_428306_455806_485006_434106,
   185_345706_368306_392406_338806,
   186_279106_297806_317706_258806,
   187_222106_237306_253406_197406,
   188_176806_189106_202206_164706,
   189_139706_149506_160106_136606,
   190_110306_118306_126806_111006,
   191_864307_927707_995707_873207,
   192_677107_727607_781907_689507,
   193_528107_568207_611307_569707,
   194_411907_443707_478007_444407,
   195_319307_344407_371407_358407,
   196_247507_267307_288607_274707,
   197_190907_206407_223107_214407,
   198_147207_159407_172507_170107,
   199_108707_117807_127607_122707,
   200_802208_870408_944408_889808,
   201_609508_662108_719308_665508,
   202_463208_503708_547808_484608,
   203_352008_383208_417308_358108,
   204_267508_291608_317908_285308,
   205_203308_221908_242208_212508,
   206_154208_168508_184208_150608,
   207_117008_128108_140108_119808,
   208_888409_973109_106608_951209,
   209_674409_739609_811209_744109,
   210_512109_562309_617409_592709,
   211_378409_416009_457309_462109,
   212_279609_307709_338709_332509,
   213_206609_227609_250809_257109,
   214_152609_168409_185809_204109,
   215_112809_124609_137609_140909,
   216_825410_912710_100909_971510,
   217_604010_668710_740310_723510,
   218_442010_489910_543010_520310,
   219_323510_359010_398310_365910,
   220_236710_263010_292210_264910,
   221_173410_192810_214510_202810,
   222_127010_141410_157410_139410,
   223_929811_103710_115610_994611,
   224_681011_760111_848511_737111,
   225_498811_557411_622911_490811,
   226_367511_411111_460011_355911,
   227_270711_303311_339711_271711,
   228_199511_223711_250911_202611,
   229_147011_165111_185311_128811,
   230_108311_121811_136911_104111,
   231_807512_908712_102311_766412,
   232_602112_678312_764212_579712,
   233_449012_506512_571212_417512,
   234_335012_378312_427212_315612,
   235_250012_282612_319512_241612,
   236_190512_215612_244012_162212,
   237_145312_164612_186512_130812,
   238_110912_125812_142712_116812,
   239_847513_962513_109312_980413,
   240_648113_736913_837913_744313,
   241_511713_582513_663013_609013,
   242_404613_461113_525513_481013,
   243_320413_365513_417113_353313,
   244_254013_290213_331413_301413,
   245_201713_230613_263713_248413,
   246_171213_196013_224413_208013,
   247_145513_166713_191113_176813,
   248_123713_141913_162813_126413,
   249_105213_120813_138813_107513,
   250_895414_103013_118413_928014]

/-- atmdata/Venus/LAT80S.txt:20236-20386, columns 0 to 4. -/
def venusProfile135 : List ℕ :=
  [100_635202_647902_660902_651702,
   101_603502_615602_627902_612902,
   102_573002_584502_596202_584202,
   103_543802_554702_565802_553702,
   104_515902_526202_536702_526802,
   105_488902_498702_508702_498702,
   106_463102_472402_481802_471702,
   107_438302_447102_456002_446302,
   108_414302_422602_431102_420102,
   109_391702_399502_407502_396202,
   110_369802_377202_384702_372602,
   111_348802_355802_362902_352602,
   112_328802_335402_342102_332302,
   113_309802_316002_322302_313302,
   114_291602_297402_303302_294502,
   115_274002_279502_285102_275902,
   116_257502_262702_268002_262002,
   117_242002_246802_251702_245702,
   118_227302_231802_236402_231002,
   119_213102_217402_221702_216202,
   120_199902_203902_208002_202902,
   121_187402_191102_194902_190202,
   122_175302_178802_182402_178402,
   123_163802_167102_170402_166402,
   124_153102_156202_159302_156102,
   125_142802_145702_148602_145702,
   126_133202_135902_138602_135702,
   127_124002_126502_129002_126202,
   128_115402_117702_120102_116302,
   129_107202_109302_111502_108602,
   130_995103_101502_103502_100602,
   131_922203_940603_959403_931203,
   132_853303_870403_887803_858403,
   133_789603_805303_821503_789003,
   134_728803_743303_758203_728703,
   135_671903_685303_699003_675203,
   136_618503_630903_643503_626803,
   137_568603_579903_591503_577403,
   138_521503_531903_542503_525503,
   139_478103_487703_497403_478103,
   140_437203_445903_454903_436603,
   141_399103_407003_415203_398403,
   142_363403_370603_378103_363703,
   143_330003_336603_343403_334003,
   144_299503_305503_311603_306803,
   145_271203_276603_282103_280103,
   146_245003_249903_254903_253803,
   147_220403_224803_229303_229403,
   148_197703_201703_205703_202203,
   149_176803_180303_183903_180903,
   150_158103_161303_164503_163303,
   151_140803_143803_146803_145903,
   152_124703_127503_130403_129603,
   153_110803_113403_116103_115703,
   154_979704_100403_103003_104503,
   155_862704_885504_909004_913104,
   156_757804_778804_800504_811504,
   157_661504_680804_700604_709704,
   158_570204_587504_605404_609004,
   159_479304_494504_510204_519004,
   160_396704_409804_423304_435704,
   161_327704_339004_350604_358704,
   162_270804_280404_290404_292304,
   163_224004_232304_240804_240804,
   164_185304_192404_199704_200404,
   165_153004_159004_165304_165304,
   166_126304_131404_136804_138804,
   167_103904_108304_112804_114504,
   168_854905_892005_930705_964705,
   169_707805_739405_772505_781105,
   170_585905_612905_641105_655005,
   171_487105_510205_534305_558605,
   172_405005_424605_445305_460205,
   173_336805_353705_371305_380405,
   174_280205_294505_309605_321805,
   175_234005_246305_259205_273105,
   176_195405_205905_217005_236205,
   177_164005_173005_182505_196105,
   178_137605_145405_153605_161805,
   179_114505_121105_128105_133805,
   180_952806_100905_106905_105105,
   181_783306_830506_880606_853106,
   182_644306_684006_726106_692906,
   183_525206_558206_593306_576906,
   184_428306_455806_485006_494806,
   185_345706_368306_392406_374506,
   186_279106_297806_317706_303606,
   187_222106_237306_253406_248606,
   188_176806_189106_202206_205106,
   189_139706_149506_160106_161906,
   190_110306_118306_126806_129006,
   191_864307_927707_995707_973507,
   192_677107_727607_781907_757807,
   193_528107_568207_611307_590807,
   194_411907_443707_478007_418507,
   195_319307_344407_371407_316607,
   196_247507_267307_288607_248507,
   197_190907_206407_223107_194807,
   198_147207_159407_172507_142307,
   199_108707_117807_127607_106107,
   200_802208_870408_944408_802808,
   201_609508_662108_719308_628008,
   202_463208_503708_547808_459208,
   203_352008_383208_417308_350008,
   204_267508_291608_317908_289108,
   205_203308_221908_242208_209408,
   206_154208_168508_184208_153608,
   207_117008_128108_140108_114008,
   208_888409_973109_106608_886009,
   209_674409_739609_811209_656109,
   210_512109_562309_617409_485409,
   211_378409_416009_457309_345309,
   212_279609_307709_338709_272909,
   213_206609_227609_250809_189809,
   214_152609_168409_185809_146409,
   215_112809_124609_137609_114609,
   216_825410_912710_100909_811410,
   217_604010_668710_740310_635810,
   218_442010_489910_543010_467910,
   219_323510_359010_398310_335210,
   220_236710_263010_292210_244210,
   221_173410_192810_214510_172910,
   222_127010_141410_157410_127110,
   223_929811_103710_115610_973711,
   224_681011_760111_848511_684311,
   225_498811_557411_622911_461811,
   226_367511_411111_460011_359411,
   227_270711_303311_339711_272811,
   228_199511_223711_250911_196111,
   229_147011_165111_185311_148911,
   230_108311_121811_136911_106011,
   231_807512_908712_102311_814012,
   232_602112_678312_764212_587312,
   233_449012_506512_571212_444512,
   234_335012_378312_427212_388712,
   235_250012_282612_319512_286712,
   236_190512_215612_244012_211712,
   237_145312_164612_186512_154312,
   238_110912_125812_142712_121712,
   239_847513_962513_109312_942213,
   240_648113_736913_837913_768313,
   241_511713_582513_663013_546613,
   242_404613_461113_525513_430013,
   243_320413_365513_417113_367113,
   244_254013_290213_331413_283913,
   245_201713_230613_263713_252713,
   246_171213_196013_224413_195413,
   247_145513_166713_191113_161713,
   248_123713_141913_162813_133913,
   249_105213_120813_138813_122913,
   250_895414_103013_118413_104413]

/-- atmdata/Venus/LAT80S.txt:20387-20537, columns 0 to 4. -/
def venusProfile136 : List ℕ :=
  [100_635202_647902_660902_664402,
   101_603502_615602_627902_636602,
   102_573002_584502_596202_605002,
   103_543802_554702_565802_571602,
   104_515902_526202_536702_544402,
   105_488902_498702_508702_509802,
   106_463102_472402_481802_484502,
   107_438302_447102_456002_458102,
   108_414302_422602_431102_432302,
   109_391702_399502_407502_407002,
   110_369802_377202_384702_383402,
   111_348802_355802_362902_361502,
   112_328802_335402_342102_341602,
   113_309802_316002_322302_323602,
   114_291602_297402_303302_304802,
   115_274002_279502_285102_287402,
   116_257502_262702_268002_266502,
   117_242002_246802_251702_247802,
   118_227302_231802_236402_229302,
   119_213102_217402_221702_215402,
   120_199902_203902_208002_201302,
   121_187402_191102_194902_189002,
   122_175302_178802_182402_176202,
   123_163802_167102_170402_164102,
   124_153102_156202_159302_153402,
   125_142802_145702_148602_143702,
   126_133202_135902_138602_135802,
   127_124002_126502_129002_126502,
   128_115402_117702_120102_118002,
   129_107202_109302_111502_109302,
   130_995103_101502_103502_101402,
   131_922203_940603_959403_938603,
   132_853303_870403_887803_865103,
   133_789603_805303_821503_800903,
   134_728803_743303_758203_732103,
   135_671903_685303_699003_677803,
   136_618503_630903_643503_623203,
   137_568603_579903_591503_573803,
   138_521503_531903_542503_527403,
   139_478103_487703_497403_482803,
   140_437203_445903_454903_448103,
   141_399103_407003_415203_404303,
   142_363403_370603_378103_369203,
   143_330003_336603_343403_334703,
   144_299503_305503_311603_301803,
   145_271203_276603_282103_273403,
   146_245003_249903_254903_247603,
   147_220403_224803_229303_222103,
   148_197703_201703_205703_197303,
   149_176803_180303_183903_176103,
   150_158103_161303_164503_156003,
   151_140803_143803_146803_138003,
   152_124703_127503_130403_122903,
   153_110803_113403_116103_108603,
   154_979704_100403_103003_964904,
   155_862704_885504_909004_845104,
   156_757804_778804_800504_739204,
   157_661504_680804_700604_653204,
   158_570204_587504_605404_561104,
   159_479304_494504_510204_476504,
   160_396704_409804_423304_389104,
   161_327704_339004_350604_318304,
   162_270804_280404_290404_257004,
   163_224004_232304_240804_207304,
   164_185304_192404_199704_164404,
   165_153004_159004_165304_135304,
   166_126304_131404_136804_114904,
   167_103904_108304_112804_956305,
   168_854905_892005_930705_793405,
   169_707805_739405_772505_644005,
   170_585905_612905_641105_530405,
   171_487105_510205_534305_447705,
   172_405005_424605_445305_388605,
   173_336805_353705_371305_322605,
   174_280205_294505_309605_277305,
   175_234005_246305_259205_229105,
   176_195405_205905_217005_196805,
   177_164005_173005_182505_165505,
   178_137605_145405_153605_137905,
   179_114505_121105_128105_114905,
   180_952806_100905_106905_972706,
   181_783306_830506_880606_841306,
   182_644306_684006_726106_692006,
   183_525206_558206_593306_544306,
   184_428306_455806_485006_456606,
   185_345706_368306_392406_385206,
   186_279106_297806_317706_299306,
   187_222106_237306_253406_241106,
   188_176806_189106_202206_179206,
   189_139706_149506_160106_139606,
   190_110306_118306_126806_112106,
   191_864307_927707_995707_906107,
   192_677107_727607_781907_705307,
   193_528107_568207_611307_528607,
   194_411907_443707_478007_415807,
   195_319307_344407_371407_324007,
   196_247507_267307_288607_257307,
   197_190907_206407_223107_200307,
   198_147207_159407_172507_151907,
   199_108707_117807_127607_114607,
   200_802208_870408_944408_917608,
   201_609508_662108_719308_664608,
   202_463208_503708_547808_485108,
   203_352008_383208_417308_376508,
   204_267508_291608_317908_273308,
   205_203308_221908_242208_219708,
   206_154208_168508_184208_163408,
   207_117008_128108_140108_126008,
   208_888409_973109_106608_948709,
   209_674409_739609_811209_733509,
   210_512109_562309_617409_558209,
   211_378409_416009_457309_405709,
   212_279609_307709_338709_298009,
   213_206609_227609_250809_213909,
   214_152609_168409_185809_158009,
   215_112809_124609_137609_118709,
   216_825410_912710_100909_847810,
   217_604010_668710_740310_590510,
   218_442010_489910_543010_443510,
   219_323510_359010_398310_321510,
   220_236710_263010_292210_234510,
   221_173410_192810_214510_174810,
   222_127010_141410_157410_134110,
   223_929811_103710_115610_959611,
   224_681011_760111_848511_732111,
   225_498811_557411_622911_498111,
   226_367511_411111_460011_356811,
   227_270711_303311_339711_269811,
   228_199511_223711_250911_224311,
   229_147011_165111_185311_160111,
   230_108311_121811_136911_118711,
   231_807512_908712_102311_954812,
   232_602112_678312_764212_764812,
   233_449012_506512_571212_590312,
   234_335012_378312_427212_437512,
   235_250012_282612_319512_314612,
   236_190512_215612_244012_239112,
   237_145312_164612_186512_185812,
   238_110912_125812_142712_138412,
   239_847513_962513_109312_100212,
   240_648113_736913_837913_739513,
   241_511713_582513_663013_571013,
   242_404613_461113_525513_441713,
   243_320413_365513_417113_360813,
   244_254013_290213_331413_298313,
   245_201713_230613_263713_225013,
   246_171213_196013_224413_197413,
   247_145513_166713_191113_155213,
   248_123713_141913_162813_134813,
   249_105213_120813_138813_112713,
   250_895414_103013_118413_961714]

/-- atmdata/Venus/LAT80S.txt:20538-20688, columns 0 to 4. -/
def venusProfile137 : List ℕ :=
  [100_635202_647902_660902_636402,
   101_603502_615602_627902_609202,
   102_573002_584502_596202_579002,
   103_543802_554702_565802_545802,
   104_515902_526202_536702_523302,
   105_488902_498702_508702_496702,
   106_463102_472402_481802_468402,
   107_438302_447102_456002_443602,
   108_414302_422602_431102_420302,
   109_391702_399502_407502_395802,
   110_369802_377202_384702_373902,
   111_348802_355802_362902_352102,
   112_328802_335402_342102_334602,
   113_309802_316002_322302_314202,
   114_291602_297402_303302_297502,
   115_274002_279502_285102_279002,
   116_257502_262702_268002_259902,
   117_242002_246802_251702_245002,
   118_227302_231802_236402_230002,
   119_213102_217402_221702_217002,
   120_199902_203902_208002_205502,
   121_187402_191102_194902_192902,
   122_175302_178802_182402_181302,
   123_163802_167102_170402_168002,
   124_153102_156202_159302_156302,
   125_142802_145702_148602_147002,
   126_133202_135902_138602_137202,
   127_124002_126502_129002_127902,
   128_115402_117702_120102_118502,
   129_107202_109302_111502_111102,
   130_995103_101502_103502_103202,
   131_922203_940603_959403_953903,
   132_853303_870403_887803_878703,
   133_789603_805303_821503_819803,
   134_728803_743303_758203_757503,
   135_671903_685303_699003_699703,
   136_618503_630903_643503_648103,
   137_568603_579903_591503_595103,
   138_521503_531903_542503_540803,
   139_478103_487703_497403_496703,
   140_437203_445903_454903_454603,
   141_399103_407003_415203_415603,
   142_363403_370603_378103_379403,
   143_330003_336603_343403_346003,
   144_299503_305503_311603_312703,
   145_271203_276603_282103_279903,
   146_245003_249903_254903_252803,
   147_220403_224803_229303_228503,
   148_197703_201703_205703_203103,
   149_176803_180303_183903_180003,
   150_158103_161303_164503_160103,
   151_140803_143803_146803_143203,
   152_124703_127503_130403_127703,
   153_110803_113403_116103_114303,
   154_979704_100403_103003_100503,
   155_862704_885504_909004_880304,
   156_757804_778804_800504_777304,
   157_661504_680804_700604_664904,
   158_570204_587504_605404_570004,
   159_479304_494504_510204_481104,
   160_396704_409804_423304_396704,
   161_327704_339004_350604_334304,
   162_270804_280404_290404_281404,
   163_224004_232304_240804_234204,
   164_185304_192404_199704_192504,
   165_153004_159004_165304_162604,
   166_126304_131404_136804_135604,
   167_103904_108304_112804_111004,
   168_854905_892005_930705_950505,
   169_707805_739405_772505_823905,
   170_585905_612905_641105_682505,
   171_487105_510205_534305_554205,
   172_405005_424605_445305_457505,
   173_336805_353705_371305_372405,
   174_280205_294505_309605_316805,
   175_234005_246305_259205_265205,
   176_195405_205905_217005_222705,
   177_164005_173005_182505_185705,
   178_137605_145405_153605_153405,
   179_114505_121105_128105_126305,
   180_952806_100905_106905_103905,
   181_783306_830506_880606_859306,
   182_644306_684006_726106_713806,
   183_525206_558206_593306_575906,
   184_428306_455806_485006_475306,
   185_345706_368306_392406_394506,
   186_279106_297806_317706_320306,
   187_222106_237306_253406_253106,
   188_176806_189106_202206_193606,
   189_139706_149506_160106_160106,
   190_110306_118306_126806_126606,
   191_864307_927707_995707_985307,
   192_677107_727607_781907_757407,
   193_528107_568207_611307_596607,
   194_411907_443707_478007_436707,
   195_319307_344407_371407_347907,
   196_247507_267307_288607_279907,
   197_190907_206407_223107_215607,
   198_147207_159407_172507_165907,
   199_108707_117807_127607_127407,
   200_802208_870408_944408_920708,
   201_609508_662108_719308_696608,
   202_463208_503708_547808_506308,
   203_352008_383208_417308_406308,
   204_267508_291608_317908_298608,
   205_203308_221908_242208_232108,
   206_154208_168508_184208_174008,
   207_117008_128108_140108_122608,
   208_888409_973109_106608_900509,
   209_674409_739609_811209_653409,
   210_512109_562309_617409_521509,
   211_378409_416009_457309_389009,
   212_279609_307709_338709_310309,
   213_206609_227609_250809_226309,
   214_152609_168409_185809_160709,
   215_112809_124609_137609_117409,
   216_825410_912710_100909_846910,
   217_604010_668710_740310_611010,
   218_442010_489910_543010_463510,
   219_323510_359010_398310_337510,
   220_236710_263010_292210_244710,
   221_173410_192810_214510_191810,
   222_127010_141410_157410_133710,
   223_929811_103710_115610_101910,
   224_681011_760111_848511_735711,
   225_498811_557411_622911_503911,
   226_367511_411111_460011_384011,
   227_270711_303311_339711_287011,
   228_199511_223711_250911_219011,
   229_147011_165111_185311_171011,
   230_108311_121811_136911_132011,
   231_807512_908712_102311_943312,
   232_602112_678312_764212_717012,
   233_449012_506512_571212_502312,
   234_335012_378312_427212_349712,
   235_250012_282612_319512_249612,
   236_190512_215612_244012_201812,
   237_145312_164612_186512_148412,
   238_110912_125812_142712_105412,
   239_847513_962513_109312_864613,
   240_648113_736913_837913_687313,
   241_511713_582513_663013_556913,
   242_404613_461113_525513_424613,
   243_320413_365513_417113_338213,
   244_254013_290213_331413_256613,
   245_201713_230613_263713_203513,
   246_171213_196013_224413_170413,
   247_145513_166713_191113_156713,
   248_123713_141913_162813_143813,
   249_105213_120813_138813_129013,
   250_895414_103013_118413_108413]

/-- atmdata/Venus/LAT80S.txt:20689-20839, columns 0 to 4. -/
def venusProfile138 : List ℕ :=
  [100_635202_647902_660902_646802,
   101_603502_615602_627902_618102,
   102_573002_584502_596202_586202,
   103_543802_554702_565802_560102,
   104_515902_526202_536702_528002,
   105_488902_498702_508702_498202,
   106_463102_472402_481802_472402,
   107_438302_447102_456002_447402,
   108_414302_422602_431102_425702,
   109_391702_399502_407502_400302,
   110_369802_377202_384702_378802,
   111_348802_355802_362902_355502,
   112_328802_335402_342102_333502,
   113_309802_316002_322302_314702,
   114_291602_297402_303302_294402,
   115_274002_279502_285102_278402,
   116_257502_262702_268002_259902,
   117_242002_246802_251702_243802,
   118_227302_231802_236402_230502,
   119_213102_217402_221702_215002,
   120_199902_203902_208002_202202,
   121_187402_191102_194902_190102,
   122_175302_178802_182402_177702,
   123_163802_167102_170402_167402,
   124_153102_156202_159302_157902,
   125_142802_145702_148602_146302,
   126_133202_135902_138602_135502,
   127_124002_126502_129002_126602,
   128_115402_117702_120102_118602,
   129_107202_109302_111502_110102,
   130_995103_101502_103502_102502,
   131_922203_940603_959403_947803,
   132_853303_870403_887803_873603,
   133_789603_805303_821503_806103,
   134_728803_743303_758203_740303,
   135_671903_685303_699003_684103,
   136_618503_630903_643503_628703,
   137_568603_579903_591503_577703,
   138_521503_531903_542503_530803,
   139_478103_487703_497403_491403,
   140_437203_445903_454903_447303,
   141_399103_407003_415203_406703,
   142_363403_370603_378103_372203,
   143_330003_336603_343403_336303,
   144_299503_305503_311603_305503,
   145_271203_276603_282103_277203,
   146_245003_249903_254903_250203,
   147_220403_224803_229303_224103,
   148_197703_201703_205703_199803,
   149_176803_180303_183903_180403,
   150_158103_161303_164503_160903,
   151_140803_143803_146803_142403,
   152_124703_127503_130403_127303,
   153_110803_113403_116103_112803,
   154_979704_100403_103003_100803,
   155_862704_885504_909004_883504,
   156_757804_778804_800504_762804,
   157_661504_680804_700604_662404,
   158_570204_587504_605404_566904,
   159_479304_494504_510204_476104,
   160_396704_409804_423304_395604,
   161_327704_339004_350604_329304,
   162_270804_280404_290404_275204,
   163_224004_232304_240804_225904,
   164_185304_192404_199704_188504,
   165_153004_159004_165304_156704,
   166_126304_131404_136804_130504,
   167_103904_108304_112804_106604,
   168_854905_892005_930705_879505,
   169_707805_739405_772505_749105,
   170_585905_612905_641105_602805,
   171_487105_510205_534305_510005,
   172_405005_424605_445305_440305,
   173_336805_353705_371305_353205,
   174_280205_294505_309605_302605,
   175_234005_246305_259205_239805,
   176_195405_205905_217005_201005,
   177_164005_173005_182505_169005,
   178_137605_145405_153605_140405,
   179_114505_121105_128105_115805,
   180_952806_100905_106905_903406,
   181_783306_830506_880606_736506,
   182_644306_684006_726106_629806,
   183_525206_558206_593306_523406,
   184_428306_455806_485006_430906,
   185_345706_368306_392406_358006,
   186_279106_297806_317706_282706,
   187_222106_237306_253406_222106,
   188_176806_189106_202206_173506,
   189_139706_149506_160106_139706,
   190_110306_118306_126806_111106,
   191_864307_927707_995707_846507,
   192_677107_727607_781907_653407,
   193_528107_568207_611307_501307,
   194_411907_443707_478007_397107,
   195_319307_344407_371407_296307,
   196_247507_267307_288607_216607,
   197_190907_206407_223107_169907,
   198_147207_159407_172507_136607,
   199_108707_117807_127607_972808,
   200_802208_870408_944408_742108,
   201_609508_662108_719308_598008,
   202_463208_503708_547808_439708,
   203_352008_383208_417308_326108,
   204_267508_291608_317908_247008,
   205_203308_221908_242208_191908,
   206_154208_168508_184208_148008,
   207_117008_128108_140108_112908,
   208_888409_973109_106608_926109,
   209_674409_739609_811209_710109,
   210_512109_562309_617409_517609,
   211_378409_416009_457309_394809,
   212_279609_307709_338709_293509,
   213_206609_227609_250809_218609,
   214_152609_168409_185809_170409,
   215_112809_124609_137609_119409,
   216_825410_912710_100909_867810,
   217_604010_668710_740310_639710,
   218_442010_489910_543010_490810,
   219_323510_359010_398310_358110,
   220_236710_263010_292210_258110,
   221_173410_192810_214510_184510,
   222_127010_141410_157410_135410,
   223_929811_103710_115610_968611,
   224_681011_760111_848511_773411,
   225_498811_557411_622911_531011,
   226_367511_411111_460011_374111,
   227_270711_303311_339711_279111,
   228_199511_223711_250911_206711,
   229_147011_165111_185311_153311,
   230_108311_121811_136911_107811,
   231_807512_908712_102311_818812,
   232_602112_678312_764212_607712,
   233_449012_506512_571212_454912,
   234_335012_378312_427212_348812,
   235_250012_282612_319512_237612,
   236_190512_215612_244012_168712,
   237_145312_164612_186512_136912,
   238_110912_125812_142712_111212,
   239_847513_962513_109312_853313,
   240_648113_736913_837913_612913,
   241_511713_582513_663013_538013,
   242_404613_461113_525513_402113,
   243_320413_365513_417113_311413,
   244_254013_290213_331413_255613,
   245_201713_230613_263713_209613,
   246_171213_196013_224413_198613,
   247_145513_166713_191113_172413,
   248_123713_141913_162813_138813,
   249_105213_120813_138813_114313,
   250_895414_103013_118413_967614]

/-- atmdata/Venus/LAT80S.txt:20840-20990, columns 0 to 4. -/
def venusProfile139 : List ℕ :=
  [100_635202_647902_660902_656602,
   101_603502_615602_627902_626502,
   102_573002_584502_596202_593102,
   103_543802_554702_565802_564502,
   104_515902_526202_536702_533402,
   105_488902_498702_508702_507302,
   106_463102_472402_481802_485402,
   107_438302_447102_456002_459402,
   108_414302_422602_431102_431502,
   109_391702_399502_407502_405202,
   110_369802_377202_384702_384102,
   111_348802_355802_362902_356702,
   112_328802_335402_342102_335802,
   113_309802_316002_322302_319402,
   114_291602_297402_303302_299902,
   115_274002_279502_285102_281402,
   116_257502_262702_268002_262902,
   117_242002_246802_251702_244402,
   118_227302_231802_236402_229002,
   119_213102_217402_221702_214702,
   120_199902_203902_208002_201102,
   121_187402_191102_194902_189202,
   122_175302_178802_182402_175202,
   123_163802_167102_170402_164602,
   124_153102_156202_159302_154402,
   125_142802_145702_148602_143702,
   126_133202_135902_138602_134502,
   127_124002_126502_129002_125902,
   128_115402_117702_120102_117102,
   129_107202_109302_111502_108102,
   130_995103_101502_103502_100902,
   131_922203_940603_959403_933403,
   132_853303_870403_887803_861103,
   133_789603_805303_821503_800303,
   134_728803_743303_758203_742303,
   135_671903_685303_699003_685503,
   136_618503_630903_643503_635403,
   137_568603_579903_591503_583103,
   138_521503_531903_542503_530403,
   139_478103_487703_497403_484103,
   140_437203_445903_454903_446203,
   141_399103_407003_415203_410503,
   142_363403_370603_378103_376203,
   143_330003_336603_343403_342303,
   144_299503_305503_311603_311603,
   145_271203_276603_282103_280303,
   146_245003_249903_254903_252503,
   147_220403_224803_229303_228003,
   148_197703_201703_205703_203303,
   149_176803_180303_183903_182403,
   150_158103_161303_164503_163003,
   151_140803_143803_146803_145803,
   152_124703_127503_130403_130803,
   153_110803_113403_116103_117503,
   154_979704_100403_103003_103803,
   155_862704_885504_909004_910404,
   156_757804_778804_800504_798504,
   157_661504_680804_700604_697104,
   158_570204_587504_605404_594404,
   159_479304_494504_510204_495404,
   160_396704_409804_423304_414004,
   161_327704_339004_350604_340704,
   162_270804_280404_290404_282604,
   163_224004_232304_240804_237804,
   164_185304_192404_199704_202104,
   165_153004_159004_165304_165404,
   166_126304_131404_136804_136804,
   167_103904_108304_112804_110604,
   168_854905_892005_930705_882905,
   169_707805_739405_772505_746105,
   170_585905_612905_641105_617805,
   171_487105_510205_534305_511305,
   172_405005_424605_445305_425105,
   173_336805_353705_371305_364105,
   174_280205_294505_309605_311905,
   175_234005_246305_259205_258205,
   176_195405_205905_217005_213505,
   177_164005_173005_182505_178805,
   178_137605_145405_153605_147705,
   179_114505_121105_128105_120805,
   180_952806_100905_106905_101805,
   181_783306_830506_880606_862806,
   182_644306_684006_726106_673406,
   183_525206_558206_593306_575606,
   184_428306_455806_485006_465806,
   185_345706_368306_392406_382106,
   186_279106_297806_317706_312906,
   187_222106_237306_253406_238306,
   188_176806_189106_202206_186806,
   189_139706_149506_160106_146106,
   190_110306_118306_126806_115306,
   191_864307_927707_995707_929107,
   192_677107_727607_781907_707307,
   193_528107_568207_611307_566707,
   194_411907_443707_478007_420807,
   195_319307_344407_371407_324807,
   196_247507_267307_288607_245807,
   197_190907_206407_223107_189907,
   198_147207_159407_172507_156207,
   199_108707_117807_127607_113607,
   200_802208_870408_944408_899808,
   201_609508_662108_719308_666708,
   202_463208_503708_547808_487808,
   203_352008_383208_417308_369508,
   204_267508_291608_317908_280508,
   205_203308_221908_242208_211608,
   206_154208_168508_184208_163708,
   207_117008_128108_140108_129408,
   208_888409_973109_106608_100608,
   209_674409_739609_811209_838009,
   210_512109_562309_617409_627509,
   211_378409_416009_457309_484009,
   212_279609_307709_338709_332709,
   213_206609_227609_250809_249309,
   214_152609_168409_185809_185009,
   215_112809_124609_137609_141809,
   216_825410_912710_100909_102409,
   217_604010_668710_740310_761410,
   218_442010_489910_543010_589910,
   219_323510_359010_398310_427210,
   220_236710_263010_292210_303310,
   221_173410_192810_214510_223110,
   222_127010_141410_157410_167910,
   223_929811_103710_115610_125210,
   224_681011_760111_848511_909911,
   225_498811_557411_622911_622211,
   226_367511_411111_460011_460911,
   227_270711_303311_339711_336511,
   228_199511_223711_250911_236811,
   229_147011_165111_185311_163411,
   230_108311_121811_136911_120111,
   231_807512_908712_102311_948012,
   232_602112_678312_764212_662912,
   233_449012_506512_571212_513912,
   234_335012_378312_427212_364712,
   235_250012_282612_319512_293012,
   236_190512_215612_244012_217812,
   237_145312_164612_186512_160312,
   238_110912_125812_142712_122212,
   239_847513_962513_109312_864213,
   240_648113_736913_837913_669713,
   241_511713_582513_663013_511913,
   242_404613_461113_525513_367513,
   243_320413_365513_417113_269413,
   244_254013_290213_331413_195313,
   245_201713_230613_263713_174613,
   246_171213_196013_224413_155013,
   247_145513_166713_191113_133013,
   248_123713_141913_162813_115313,
   249_105213_120813_138813_104313,
   250_895414_103013_118413_886514]

/-- atmdata/Venus/LAT80S.txt:20991-21141, columns 0 to 4. -/
def venusProfile140 : List ℕ :=
  [100_635202_647902_660902_624602,
   101_603502_615602_627902_596402,
   102_573002_584502_596202_564402,
   103_543802_554702_565802_536902,
   104_515902_526202_536702_509002,
   105_488902_498702_508702_482102,
   106_463102_472402_481802_456502,
   107_438302_447102_456002_433102,
   108_414302_422602_431102_409102,
   109_391702_399502_407502_384402,
   110_369802_377202_384702_366802,
   111_348802_355802_362902_348002,
   112_328802_335402_342102_328902,
   113_309802_316002_322302_309402,
   114_291602_297402_303302_291702,
   115_274002_279502_285102_276902,
   116_257502_262702_268002_259002,
   117_242002_246802_251702_244102,
   118_227302_231802_236402_230302,
   119_213102_217402_221702_216602,
   120_199902_203902_208002_201702,
   121_187402_191102_194902_190002,
   122_175302_178802_182402_178102,
   123_163802_167102_170402_166702,
   124_153102_156202_159302_155702,
   125_142802_145702_148602_145302,
   126_133202_135902_138602_135102,
   127_124002_126502_129002_126702,
   128_115402_117702_120102_117002,
   129_107202_109302_111502_109102,
   130_995103_101502_103502_102002,
   131_922203_940603_959403_943403,
   132_853303_870403_887803_870103,
   133_789603_805303_821503_800203,
   134_728803_743303_758203_737203,
   135_671903_685303_699003_680603,
   136_618503_630903_643503_625403,
   137_568603_579903_591503_574003,
   138_521503_531903_542503_527503,
   139_478103_487703_497403_483903,
   140_437203_445903_454903_442803,
   141_399103_407003_415203_404403,
   142_363403_370603_378103_371703,
   143_330003_336603_343403_334603,
   144_299503_305503_311603_306703,
   145_271203_276603_282103_279103,
   146_245003_249903_254903_251003,
   147_220403_224803_229303_224703,
   148_197703_201703_205703_200703,
   149_176803_180303_183903_179603,
   150_158103_161303_164503_161103,
   151_140803_143803_146803_142503,
   152_124703_127503_130403_124503,
   153_110803_113403_116103_110603,
   154_979704_100403_103003_966004,
   155_862704_885504_909004_848804,
   156_757804_778804_800504_754304,
   157_661504_680804_700604_664004,
   158_570204_587504_605404_565604,
   159_479304_494504_510204_467504,
   160_396704_409804_423304_397204,
   161_327704_339004_350604_323304,
   162_270804_280404_290404_267404,
   163_224004_232304_240804_221804,
   164_185304_192404_199704_182604,
   165_153004_159004_165304_146604,
   166_126304_131404_136804_121904,
   167_103904_108304_112804_982705,
   168_854905_892005_930705_818205,
   169_707805_739405_772505_692105,
   170_585905_612905_641105_592205,
   171_487105_510205_534305_472505,
   172_405005_424605_445305_419005,
   173_336805_353705_371305_354705,
   174_280205_294505_309605_305605,
   175_234005_246305_259205_259205,
   176_195405_205905_217005_212005,
   177_164005_173005_182505_177705,
   178_137605_145405_153605_146705,
   179_114505_121105_128105_119405,
   180_952806_100905_106905_985806,
   181_783306_830506_880606_814106,
   182_644306_684006_726106_657106,
   183_525206_558206_593306_528506,
   184_428306_455806_485006_425806,
   185_345706_368306_392406_350006,
   186_279106_297806_317706_279006,
   187_222106_237306_253406_230906,
   188_176806_189106_202206_182806,
   189_139706_149506_160106_136406,
   190_110306_118306_126806_107806,
   191_864307_927707_995707_849607,
   192_677107_727607_781907_642407,
   193_528107_568207_611307_500107,
   194_411907_443707_478007_397107,
   195_319307_344407_371407_316207,
   196_247507_267307_288607_243807,
   197_190907_206407_223107_187707,
   198_147207_159407_172507_141307,
   199_108707_117807_127607_105607,
   200_802208_870408_944408_772408,
   201_609508_662108_719308_601708,
   202_463208_503708_547808_443108,
   203_352008_383208_417308_346808,
   204_267508_291608_317908_267608,
   205_203308_221908_242208_198508,
   206_154208_168508_184208_156708,
   207_117008_128108_140108_116508,
   208_888409_973109_106608_892709,
   209_674409_739609_811209_679509,
   210_512109_562309_617409_535209,
   211_378409_416009_457309_378009,
   212_279609_307709_338709_285109,
   213_206609_227609_250809_221209,
   214_152609_168409_185809_161109,
   215_112809_124609_137609_121109,
   216_825410_912710_100909_892110,
   217_604010_668710_740310_698010,
   218_442010_489910_543010_476810,
   219_323510_359010_398310_353610,
   220_236710_263010_292210_254010,
   221_173410_192810_214510_210710,
   222_127010_141410_157410_146610,
   223_929811_103710_115610_104110,
   224_681011_760111_848511_728511,
   225_498811_557411_622911_506411,
   226_367511_411111_460011_350811,
   227_270711_303311_339711_261111,
   228_199511_223711_250911_212411,
   229_147011_165111_185311_162111,
   230_108311_121811_136911_124511,
   231_807512_908712_102311_883712,
   232_602112_678312_764212_695412,
   233_449012_506512_571212_481012,
   234_335012_378312_427212_370912,
   235_250012_282612_319512_289012,
   236_190512_215612_244012_223212,
   237_145312_164612_186512_176512,
   238_110912_125812_142712_127112,
   239_847513_962513_109312_998913,
   240_648113_736913_837913_825413,
   241_511713_582513_663013_649113,
   242_404613_461113_525513_552813,
   243_320413_365513_417113_455913,
   244_254013_290213_331413_355013,
   245_201713_230613_263713_256613,
   246_171213_196013_224413_206813,
   247_145513_166713_191113_166313,
   248_123713_141913_162813_148213,
   249_105213_120813_138813_119313,
   250_895414_103013_118413_999814]

/-- atmdata/Venus/LAT80S.txt:21142-21292, columns 0 to 4. -/
def venusProfile141 : List ℕ :=
  [100_635202_647902_660902_641802,
   101_603502_615602_627902_611902,
   102_573002_584502_596202_577002,
   103_543802_554702_565802_547402,
   104_515902_526202_536702_519502,
   105_488902_498702_508702_497002,
   106_463102_472402_481802_472702,
   107_438302_447102_456002_448102,
   108_414302_422602_431102_424102,
   109_391702_399502_407502_397202,
   110_369802_377202_384702_372802,
   111_348802_355802_362902_352502,
   112_328802_335402_342102_334302,
   113_309802_316002_322302_315802,
   114_291602_297402_303302_298702,
   115_274002_279502_285102_280702,
   116_257502_262702_268002_262702,
   117_242002_246802_251702_246302,
   118_227302_231802_236402_230302,
   119_213102_217402_221702_218102,
   120_199902_203902_208002_205502,
   121_187402_191102_194902_193602,
   122_175302_178802_182402_180302,
   123_163802_167102_170402_168302,
   124_153102_156202_159302_156502,
   125_142802_145702_148602_146502,
   126_133202_135902_138602_137302,
   127_124002_126502_129002_126102,
   128_115402_117702_120102_117702,
   129_107202_109302_111502_109002,
   130_995103_101502_103502_999103,
   131_922203_940603_959403_924303,
   132_853303_870403_887803_853503,
   133_789603_805303_821503_791103,
   134_728803_743303_758203_737303,
   135_671903_685303_699003_680403,
   136_618503_630903_643503_630603,
   137_568603_579903_591503_578003,
   138_521503_531903_542503_526003,
   139_478103_487703_497403_484903,
   140_437203_445903_454903_440703,
   141_399103_407003_415203_399703,
   142_363403_370603_378103_369603,
   143_330003_336603_343403_335803,
   144_299503_305503_311603_302503,
   145_271203_276603_282103_273403,
   146_245003_249903_254903_245803,
   147_220403_224803_229303_222203,
   148_197703_201703_205703_198803,
   149_176803_180303_183903_177303,
   150_158103_161303_164503_159703,
   151_140803_143803_146803_142803,
   152_124703_127503_130403_125503,
   153_110803_113403_116103_113803,
   154_979704_100403_103003_101203,
   155_862704_885504_909004_888804,
   156_757804_778804_800504_774904,
   157_661504_680804_700604_689004,
   158_570204_587504_605404_584304,
   159_479304_494504_510204_499304,
   160_396704_409804_423304_408604,
   161_327704_339004_350604_342404,
   162_270804_280404_290404_280704,
   163_224004_232304_240804_228004,
   164_185304_192404_199704_189804,
   165_153004_159004_165304_158604,
   166_126304_131404_136804_130704,
   167_103904_108304_112804_111304,
   168_854905_892005_930705_894405,
   169_707805_739405_772505_748105,
   170_585905_612905_641105_614605,
   171_487105_510205_534305_514905,
   172_405005_424605_445305_428605,
   173_336805_353705_371305_359305,
   174_280205_294505_309605_310605,
   175_234005_246305_259205_253405,
   176_195405_205905_217005_203605,
   177_164005_173005_182505_171305,
   178_137605_145405_153605_141705,
   179_114505_121105_128105_114805,
   180_952806_100905_106905_102005,
   181_783306_830506_880606_818606,
   182_644306_684006_726106_669406,
   183_525206_558206_593306_548806,
   184_428306_455806_485006_434606,
   185_345706_368306_392406_354706,
   186_279106_297806_317706_294306,
   187_222106_237306_253406_237806,
   188_176806_189106_202206_189106,
   189_139706_149506_160106_152106,
   190_110306_118306_126806_118506,
   191_864307_927707_995707_899507,
   192_677107_727607_781907_662207,
   193_528107_568207_611307_543907,
   194_411907_443707_478007_407207,
   195_319307_344407_371407_341207,
   196_247507_267307_288607_265007,
   197_190907_206407_223107_201907,
   198_147207_159407_172507_155007,
   199_108707_117807_127607_116907,
   200_802208_870408_944408_874308,
   201_609508_662108_719308_619908,
   202_463208_503708_547808_456308,
   203_352008_383208_417308_368508,
   204_267508_291608_317908_285808,
   205_203308_221908_242208_202008,
   206_154208_168508_184208_162208,
   207_117008_128108_140108_125408,
   208_888409_973109_106608_933209,
   209_674409_739609_811209_746209,
   210_512109_562309_617409_534509,
   211_378409_416009_457309_389109,
   212_279609_307709_338709_277109,
   213_206609_227609_250809_231509,
   214_152609_168409_185809_160009,
   215_112809_124609_137609_117209,
   216_825410_912710_100909_872810,
   217_604010_668710_740310_611510,
   218_442010_489910_543010_432810,
   219_323510_359010_398310_326610,
   220_236710_263010_292210_235410,
   221_173410_192810_214510_171310,
   222_127010_141410_157410_127010,
   223_929811_103710_115610_974811,
   224_681011_760111_848511_741711,
   225_498811_557411_622911_517211,
   226_367511_411111_460011_386211,
   227_270711_303311_339711_283811,
   228_199511_223711_250911_215811,
   229_147011_165111_185311_156711,
   230_108311_121811_136911_108611,
   231_807512_908712_102311_816912,
   232_602112_678312_764212_621212,
   233_449012_506512_571212_460412,
   234_335012_378312_427212_334312,
   235_250012_282612_319512_258012,
   236_190512_215612_244012_210412,
   237_145312_164612_186512_156112,
   238_110912_125812_142712_126812,
   239_847513_962513_109312_945113,
   240_648113_736913_837913_709313,
   241_511713_582513_663013_592813,
   242_404613_461113_525513_496913,
   243_320413_365513_417113_400413,
   244_254013_290213_331413_339613,
   245_201713_230613_263713_258613,
   246_171213_196013_224413_230213,
   247_145513_166713_191113_213113,
   248_123713_141913_162813_164813,
   249_105213_120813_138813_141713,
   250_895414_103013_118413_116713]

/-- atmdata/Venus/LAT80S.txt:21293-21443, columns 0 to 4. -/
def venusProfile142 : List ℕ :=
  [100_635202_647902_660902_651202,
   101_603502_615602_627902_620102,
   102_573002_584502_596202_593702,
   103_543802_554702_565802_561502,
   104_515902_526202_536702_533402,
   105_488902_498702_508702_505602,
   106_463102_472402_481802_476602,
   107_438302_447102_456002_451802,
   108_414302_422602_431102_429102,
   109_391702_399502_407502_410202,
   110_369802_377202_384702_385702,
   111_348802_355802_362902_363502,
   112_328802_335402_342102_340102,
   113_309802_316002_322302_317502,
   114_291602_297402_303302_296502,
   115_274002_279502_285102_276202,
   116_257502_262702_268002_258802,
   117_242002_246802_251702_240502,
   118_227302_231802_236402_226502,
   119_213102_217402_221702_211802,
   120_199902_203902_208002_198902,
   121_187402_191102_194902_188002,
   122_175302_178802_182402_176902,
   123_163802_167102_170402_164902,
   124_153102_156202_159302_155502,
   125_142802_145702_148602_146102,
   126_133202_135902_138602_136102,
   127_124002_126502_129002_125802,
   128_115402_117702_120102_116702,
   129_107202_109302_111502_109302,
   130_995103_101502_103502_100802,
   131_922203_940603_959403_932203,
   132_853303_870403_887803_860603,
   133_789603_805303_821503_805603,
   134_728803_743303_758203_743603,
   135_671903_685303_699003_685503,
   136_618503_630903_643503_629603,
   137_568603_579903_591503_576603,
   138_521503_531903_542503_529803,
   139_478103_487703_497403_481403,
   140_437203_445903_454903_442703,
   141_399103_407003_415203_406003,
   142_363403_370603_378103_366003,
   143_330003_336603_343403_336103,
   144_299503_305503_311603_304103,
   145_271203_276603_282103_278203,
   146_245003_249903_254903_249103,
   147_220403_224803_229303_223003,
   148_197703_201703_205703_199703,
   149_176803_180303_183903_177103,
   150_158103_161303_164503_160303,
   151_140803_143803_146803_141903,
   152_124703_127503_130403_125103,
   153_110803_113403_116103_111403,
   154_979704_100403_103003_981404,
   155_862704_885504_909004_863204,
   156_757804_778804_800504_761504,
   157_661504_680804_700604_659204,
   158_570204_587504_605404_556004,
   159_479304_494504_510204_472504,
   160_396704_409804_423304_390904,
   161_327704_339004_350604_324804,
   162_270804_280404_290404_264704,
   163_224004_232304_240804_221804,
   164_185304_192404_199704_188404,
   165_153004_159004_165304_155604,
   166_126304_131404_136804_128004,
   167_103904_108304_112804_107604,
   168_854905_892005_930705_892405,
   169_707805_739405_772505_743605,
   170_585905_612905_641105_624705,
   171_487105_510205_534305_512205,
   172_405005_424605_445305_410605,
   173_336805_353705_371305_342705,
   174_280205_294505_309605_299705,
   175_234005_246305_259205_251005,
   176_195405_205905_217005_215405,
   177_164005_173005_182505_180605,
   178_137605_145405_153605_148605,
   179_114505_121105_128105_118605,
   180_952806_100905_106905_999306,
   181_783306_830506_880606_840706,
   182_644306_684006_726106_693906,
   183_525206_558206_593306_580306,
   184_428306_455806_485006_496006,
   185_345706_368306_392406_398806,
   186_279106_297806_317706_317006,
   187_222106_237306_253406_251206,
   188_176806_189106_202206_200206,
   189_139706_149506_160106_156606,
   190_110306_118306_126806_121206,
   191_864307_927707_995707_973307,
   192_677107_727607_781907_797607,
   193_528107_568207_611307_617307,
   194_411907_443707_478007_482407,
   195_319307_344407_371407_365507,
   196_247507_267307_288607_286107,
   197_190907_206407_223107_215707,
   198_147207_159407_172507_167907,
   199_108707_117807_127607_129207,
   200_802208_870408_944408_100207,
   201_609508_662108_719308_748408,
   202_463208_503708_547808_544908,
   203_352008_383208_417308_397808,
   204_267508_291608_317908_310608,
   205_203308_221908_242208_243908,
   206_154208_168508_184208_169308,
   207_117008_128108_140108_120708,
   208_888409_973109_106608_864709,
   209_674409_739609_811209_652409,
   210_512109_562309_617409_495009,
   211_378409_416009_457309_370609,
   212_279609_307709_338709_283209,
   213_206609_227609_250809_201909,
   214_152609_168409_185809_156109,
   215_112809_124609_137609_110509,
   216_825410_912710_100909_834710,
   217_604010_668710_740310_605110,
   218_442010_489910_543010_436010,
   219_323510_359010_398310_331510,
   220_236710_263010_292210_238210,
   221_173410_192810_214510_181010,
   222_127010_141410_157410_139810,
   223_929811_103710_115610_999011,
   224_681011_760111_848511_722011,
   225_498811_557411_622911_505811,
   226_367511_411111_460011_334211,
   227_270711_303311_339711_247511,
   228_199511_223711_250911_184411,
   229_147011_165111_185311_153111,
   230_108311_121811_136911_112411,
   231_807512_908712_102311_879712,
   232_602112_678312_764212_640812,
   233_449012_506512_571212_493712,
   234_335012_378312_427212_385212,
   235_250012_282612_319512_288212,
   236_190512_215612_244012_207212,
   237_145312_164612_186512_165612,
   238_110912_125812_142712_127512,
   239_847513_962513_109312_106012,
   240_648113_736913_837913_834913,
   241_511713_582513_663013_614913,
   242_404613_461113_525513_503513,
   243_320413_365513_417113_393613,
   244_254013_290213_331413_303713,
   245_201713_230613_263713_240613,
   246_171213_196013_224413_203113,
   247_145513_166713_191113_179213,
   248_123713_141913_162813_148613,
   249_105213_120813_138813_117313,
   250_895414_103013_118413_977414]

/-- atmdata/Venus/LAT80S.txt:21444-21594, columns 0 to 4. -/
def venusProfile143 : List ℕ :=
  [100_635202_647902_660902_663402,
   101_603502_615602_627902_630902,
   102_573002_584502_596202_601502,
   103_543802_554702_565802_567002,
   104_515902_526202_536702_539402,
   105_488902_498702_508702_508202,
   106_463102_472402_481802_481602,
   107_438302_447102_456002_456502,
   108_414302_422602_431102_428202,
   109_391702_399502_407502_407902,
   110_369802_377202_384702_384402,
   111_348802_355802_362902_361402,
   112_328802_335402_342102_339802,
   113_309802_316002_322302_319602,
   114_291602_297402_303302_299902,
   115_274002_279502_285102_282102,
   116_257502_262702_268002_264302,
   117_242002_246802_251702_248802,
   118_227302_231802_236402_231902,
   119_213102_217402_221702_217502,
   120_199902_203902_208002_203202,
   121_187402_191102_194902_192402,
   122_175302_178802_182402_179702,
   123_163802_167102_170402_166902,
   124_153102_156202_159302_156502,
   125_142802_145702_148602_144902,
   126_133202_135902_138602_136602,
   127_124002_126502_129002_126602,
   128_115402_117702_120102_118702,
   129_107202_109302_111502_110202,
   130_995103_101502_103502_101902,
   131_922203_940603_959403_941103,
   132_853303_870403_887803_868703,
   133_789603_805303_821503_802303,
   134_728803_743303_758203_734603,
   135_671903_685303_699003_677203,
   136_618503_630903_643503_627603,
   137_568603_579903_591503_574403,
   138_521503_531903_542503_522703,
   139_478103_487703_497403_478603,
   140_437203_445903_454903_437503,
   141_399103_407003_415203_398903,
   142_363403_370603_378103_360903,
   143_330003_336603_343403_327603,
   144_299503_305503_311603_297803,
   145_271203_276603_282103_270103,
   146_245003_249903_254903_240703,
   147_220403_224803_229303_217803,
   148_197703_201703_205703_195503,
   149_176803_180303_183903_176703,
   150_158103_161303_164503_156703,
   151_140803_143803_146803_140203,
   152_124703_127503_130403_123903,
   153_110803_113403_116103_109003,
   154_979704_100403_103003_977504,
   155_862704_885504_909004_860404,
   156_757804_778804_800504_772704,
   157_661504_680804_700604_673704,
   158_570204_587504_605404_594604,
   159_479304_494504_510204_501104,
   160_396704_409804_423304_416404,
   161_327704_339004_350604_341704,
   162_270804_280404_290404_290104,
   163_224004_232304_240804_238204,
   164_185304_192404_199704_195004,
   165_153004_159004_165304_158304,
   166_126304_131404_136804_129604,
   167_103904_108304_112804_108104,
   168_854905_892005_930705_875205,
   169_707805_739405_772505_727505,
   170_585905_612905_641105_593505,
   171_487105_510205_534305_505705,
   172_405005_424605_445305_422205,
   173_336805_353705_371305_349105,
   174_280205_294505_309605_275605,
   175_234005_246305_259205_239805,
   176_195405_205905_217005_203805,
   177_164005_173005_182505_171605,
   178_137605_145405_153605_141605,
   179_114505_121105_128105_123805,
   180_952806_100905_106905_101805,
   181_783306_830506_880606_834206,
   182_644306_684006_726106_697406,
   183_525206_558206_593306_551806,
   184_428306_455806_485006_462306,
   185_345706_368306_392406_371906,
   186_279106_297806_317706_310306,
   187_222106_237306_253406_242806,
   188_176806_189106_202206_195406,
   189_139706_149506_160106_148306,
   190_110306_118306_126806_114706,
   191_864307_927707_995707_899607,
   192_677107_727607_781907_732307,
   193_528107_568207_611307_541007,
   194_411907_443707_478007_407307,
   195_319307_344407_371407_320707,
   196_247507_267307_288607_258107,
   197_190907_206407_223107_195207,
   198_147207_159407_172507_157007,
   199_108707_117807_127607_111507,
   200_802208_870408_944408_811108,
   201_609508_662108_719308_638808,
   202_463208_503708_547808_470308,
   203_352008_383208_417308_356908,
   204_267508_291608_317908_286308,
   205_203308_221908_242208_221708,
   206_154208_168508_184208_161708,
   207_117008_128108_140108_122708,
   208_888409_973109_106608_971109,
   209_674409_739609_811209_761909,
   210_512109_562309_617409_589609,
   211_378409_416009_457309_443809,
   212_279609_307709_338709_317609,
   213_206609_227609_250809_229409,
   214_152609_168409_185809_169709,
   215_112809_124609_137609_132009,
   216_825410_912710_100909_989010,
   217_604010_668710_740310_723510,
   218_442010_489910_543010_521210,
   219_323510_359010_398310_392910,
   220_236710_263010_292210_278010,
   221_173410_192810_214510_190210,
   222_127010_141410_157410_134310,
   223_929811_103710_115610_102410,
   224_681011_760111_848511_812911,
   225_498811_557411_622911_565511,
   226_367511_411111_460011_415411,
   227_270711_303311_339711_300711,
   228_199511_223711_250911_212411,
   229_147011_165111_185311_159211,
   230_108311_121811_136911_121311,
   231_807512_908712_102311_850312,
   232_602112_678312_764212_571312,
   233_449012_506512_571212_379612,
   234_335012_378312_427212_283812,
   235_250012_282612_319512_214412,
   236_190512_215612_244012_165412,
   237_145312_164612_186512_125512,
   238_110912_125812_142712_942613,
   239_847513_962513_109312_750013,
   240_648113_736913_837913_551913,
   241_511713_582513_663013_443913,
   242_404613_461113_525513_371013,
   243_320413_365513_417113_287213,
   244_254013_290213_331413_245413,
   245_201713_230613_263713_205513,
   246_171213_196013_224413_163613,
   247_145513_166713_191113_142213,
   248_123713_141913_162813_126113,
   249_105213_120813_138813_109813,
   250_895414_103013_118413_915514]

/-- atmdata/Venus/LAT80S.txt:21595-21745, columns 0 to 4. -/
def venusProfile144 : List ℕ :=
  [100_635202_647902_660902_635602,
   101_603502_615602_627902_605002,
   102_573002_584502_596202_576402,
   103_543802_554702_565802_551902,
   104_515902_526202_536702_526902,
   105_488902_498702_508702_501002,
   106_463102_472402_481802_479702,
   107_438302_447102_456002_455002,
   108_414302_422602_431102_428702,
   109_391702_399502_407502_407702,
   110_369802_377202_384702_385002,
   111_348802_355802_362902_360802,
   112_328802_335402_342102_340302,
   113_309802_316002_322302_321602,
   114_291602_297402_303302_302702,
   115_274002_279502_285102_282602,
   116_257502_262702_268002_264902,
   117_242002_246802_251702_248302,
   118_227302_231802_236402_233202,
   119_213102_217402_221702_219602,
   120_199902_203902_208002_207502,
   121_187402_191102_194902_192202,
   122_175302_178802_182402_177902,
   123_163802_167102_170402_168302,
   124_153102_156202_159302_157102,
   125_142802_145702_148602_146102,
   126_133202_135902_138602_136302,
   127_124002_126502_129002_126502,
   128_115402_117702_120102_117702,
   129_107202_109302_111502_108502,
   130_995103_101502_103502_100602,
   131_922203_940603_959403_929603,
   132_853303_870403_887803_858703,
   133_789603_805303_821503_798703,
   134_728803_743303_758203_739303,
   135_671903_685303_699003_681003,
   136_618503_630903_643503_625503,
   137_568603_579903_591503_571903,
   138_521503_531903_542503_525603,
   139_478103_487703_497403_483303,
   140_437203_445903_454903_437703,
   141_399103_407003_415203_406303,
   142_363403_370603_378103_367903,
   143_330003_336603_343403_336203,
   144_299503_305503_311603_306203,
   145_271203_276603_282103_274803,
   146_245003_249903_254903_250803,
   147_220403_224803_229303_224303,
   148_197703_201703_205703_201103,
   149_176803_180303_183903_180503,
   150_158103_161303_164503_160603,
   151_140803_143803_146803_142203,
   152_124703_127503_130403_125903,
   153_110803_113403_116103_112303,
   154_979704_100403_103003_995304,
   155_862704_885504_909004_876304,
   156_757804_778804_800504_768104,
   157_661504_680804_700604_674204,
   158_570204_587504_605404_591704,
   159_479304_494504_510204_496304,
   160_396704_409804_423304_415904,
   161_327704_339004_350604_335104,
   162_270804_280404_290404_280904,
   163_224004_232304_240804_237904,
   164_185304_192404_199704_197304,
   165_153004_159004_165304_165604,
   166_126304_131404_136804_134604,
   167_103904_108304_112804_111504,
   168_854905_892005_930705_924605,
   169_707805_739405_772505_762905,
   170_585905_612905_641105_634405,
   171_487105_510205_534305_526205,
   172_405005_424605_445305_423805,
   173_336805_353705_371305_347405,
   174_280205_294505_309605_277905,
   175_234005_246305_259205_231005,
   176_195405_205905_217005_195005,
   177_164005_173005_182505_164905,
   178_137605_145405_153605_136305,
   179_114505_121105_128105_117805,
   180_952806_100905_106905_103605,
   181_783306_830506_880606_821006,
   182_644306_684006_726106_699206,
   183_525206_558206_593306_566606,
   184_428306_455806_485006_468106,
   185_345706_368306_392406_374306,
   186_279106_297806_317706_300506,
   187_222106_237306_253406_230906,
   188_176806_189106_202206_187906,
   189_139706_149506_160106_152206,
   190_110306_118306_126806_116606,
   191_864307_927707_995707_886107,
   192_677107_727607_781907_715807,
   193_528107_568207_611307_564207,
   194_411907_443707_478007_445007,
   195_319307_344407_371407_359107,
   196_247507_267307_288607_296207,
   197_190907_206407_223107_220807,
   198_147207_159407_172507_161907,
   199_108707_117807_127607_117507,
   200_802208_870408_944408_877608,
   201_609508_662108_719308_645708,
   202_463208_503708_547808_475508,
   203_352008_383208_417308_368908,
   204_267508_291608_317908_259208,
   205_203308_221908_242208_199108,
   206_154208_168508_184208_148708,
   207_117008_128108_140108_119208,
   208_888409_973109_106608_921909,
   209_674409_739609_811209_683509,
   210_512109_562309_617409_469109,
   211_378409_416009_457309_373209,
   212_279609_307709_338709_288609,
   213_206609_227609_250809_214009,
   214_152609_168409_185809_154109,
   215_112809_124609_137609_116709,
   216_825410_912710_100909_892510,
   217_604010_668710_740310_674410,
   218_442010_489910_543010_494710,
   219_323510_359010_398310_379110,
   220_236710_263010_292210_268110,
   221_173410_192810_214510_194910,
   222_127010_141410_157410_143410,
   223_929811_103710_115610_102210,
   224_681011_760111_848511_754711,
   225_498811_557411_622911_530911,
   226_367511_411111_460011_423911,
   227_270711_303311_339711_304711,
   228_199511_223711_250911_240611,
   229_147011_165111_185311_169611,
   230_108311_121811_136911_114611,
   231_807512_908712_102311_850112,
   232_602112_678312_764212_659812,
   233_449012_506512_571212_482912,
   234_335012_378312_427212_383912,
   235_250012_282612_319512_277312,
   236_190512_215612_244012_216512,
   237_145312_164612_186512_174112,
   238_110912_125812_142712_143912,
   239_847513_962513_109312_104012,
   240_648113_736913_837913_799413,
   241_511713_582513_663013_648813,
   242_404613_461113_525513_513613,
   243_320413_365513_417113_365313,
   244_254013_290213_331413_277813,
   245_201713_230613_263713_242713,
   246_171213_196013_224413_213113,
   247_145513_166713_191113_174713,
   248_123713_141913_162813_163413,
   249_105213_120813_138813_123713,
   250_895414_103013_118413_101713]

/-- atmdata/Venus/LAT80S.txt:21746-21896, columns 0 to 4. -/
def venusProfile145 : List ℕ :=
  [100_635202_647902_660902_646302,
   101_603502_615602_627902_614402,
   102_573002_584502_596202_584202,
   103_543802_554702_565802_556702,
   104_515902_526202_536702_523302,
   105_488902_498702_508702_494902,
   106_463102_472402_481802_468302,
   107_438302_447102_456002_444602,
   108_414302_422602_431102_420602,
   109_391702_399502_407502_399802,
   110_369802_377202_384702_378602,
   111_348802_355802_362902_360102,
   112_328802_335402_342102_340802,
   113_309802_316002_322302_319002,
   114_291602_297402_303302_301402,
   115_274002_279502_285102_283802,
   116_257502_262702_268002_266102,
   117_242002_246802_251702_246802,
   118_227302_231802_236402_234102,
   119_213102_217402_221702_217502,
   120_199902_203902_208002_204402,
   121_187402_191102_194902_190102,
   122_175302_178802_182402_178202,
   123_163802_167102_170402_167402,
   124_153102_156202_159302_155702,
   125_142802_145702_148602_145202,
   126_133202_135902_138602_134502,
   127_124002_126502_129002_125102,
   128_115402_117702_120102_115702,
   129_107202_109302_111502_107802,
   130_995103_101502_103502_100202,
   131_922203_940603_959403_925603,
   132_853303_870403_887803_855303,
   133_789603_805303_821503_787903,
   134_728803_743303_758203_724803,
   135_671903_685303_699003_667903,
   136_618503_630903_643503_619203,
   137_568603_579903_591503_565603,
   138_521503_531903_542503_515103,
   139_478103_487703_497403_477303,
   140_437203_445903_454903_438303,
   141_399103_407003_415203_401203,
   142_363403_370603_378103_364003,
   143_330003_336603_343403_329403,
   144_299503_305503_311603_301903,
   145_271203_276603_282103_274303,
   146_245003_249903_254903_249603,
   147_220403_224803_229303_225303,
   148_197703_201703_205703_202103,
   149_176803_180303_183903_180703,
   150_158103_161303_164503_161203,
   151_140803_143803_146803_144303,
   152_124703_127503_130403_127903,
   153_110803_113403_116103_112903,
   154_979704_100403_103003_990204,
   155_862704_885504_909004_872504,
   156_757804_778804_800504_772904,
   157_661504_680804_700604_683704,
   158_570204_587504_605404_597904,
   159_479304_494504_510204_498504,
   160_396704_409804_423304_403004,
   161_327704_339004_350604_336804,
   162_270804_280404_290404_280404,
   163_224004_232304_240804_232604,
   164_185304_192404_199704_196404,
   165_153004_159004_165304_162504,
   166_126304_131404_136804_131604,
   167_103904_108304_112804_108604,
   168_854905_892005_930705_881805,
   169_707805_739405_772505_727305,
   170_585905_612905_641105_582905,
   171_487105_510205_534305_473705,
   172_405005_424605_445305_398205,
   173_336805_353705_371305_323105,
   174_280205_294505_309605_260705,
   175_234005_246305_259205_223005,
   176_195405_205905_217005_187005,
   177_164005_173005_182505_158805,
   178_137605_145405_153605_131405,
   179_114505_121105_128105_113105,
   180_952806_100905_106905_956306,
   181_783306_830506_880606_801906,
   182_644306_684006_726106_637806,
   183_525206_558206_593306_531306,
   184_428306_455806_485006_436706,
   185_345706_368306_392406_349306,
   186_279106_297806_317706_297406,
   187_222106_237306_253406_246006,
   188_176806_189106_202206_201106,
   189_139706_149506_160106_158106,
   190_110306_118306_126806_119706,
   191_864307_927707_995707_962607,
   192_677107_727607_781907_766907,
   193_528107_568207_611307_578807,
   194_411907_443707_478007_435607,
   195_319307_344407_371407_329107,
   196_247507_267307_288607_247207,
   197_190907_206407_223107_185307,
   198_147207_159407_172507_141907,
   199_108707_117807_127607_106107,
   200_802208_870408_944408_836908,
   201_609508_662108_719308_642008,
   202_463208_503708_547808_473308,
   203_352008_383208_417308_379408,
   204_267508_291608_317908_277308,
   205_203308_221908_242208_208108,
   206_154208_168508_184208_157108,
   207_117008_128108_140108_117108,
   208_888409_973109_106608_886409,
   209_674409_739609_811209_692109,
   210_512109_562309_617409_519109,
   211_378409_416009_457309_365909,
   212_279609_307709_338709_269009,
   213_206609_227609_250809_204209,
   214_152609_168409_185809_163709,
   215_112809_124609_137609_120109,
   216_825410_912710_100909_927410,
   217_604010_668710_740310_731310,
   218_442010_489910_543010_539410,
   219_323510_359010_398310_414310,
   220_236710_263010_292210_291010,
   221_173410_192810_214510_219510,
   222_127010_141410_157410_167410,
   223_929811_103710_115610_125110,
   224_681011_760111_848511_864411,
   225_498811_557411_622911_603511,
   226_367511_411111_460011_437411,
   227_270711_303311_339711_312311,
   228_199511_223711_250911_234511,
   229_147011_165111_185311_180711,
   230_108311_121811_136911_130011,
   231_807512_908712_102311_993312,
   232_602112_678312_764212_733512,
   233_449012_506512_571212_554212,
   234_335012_378312_427212_406412,
   235_250012_282612_319512_284512,
   236_190512_215612_244012_234812,
   237_145312_164612_186512_174312,
   238_110912_125812_142712_135212,
   239_847513_962513_109312_107712,
   240_648113_736913_837913_920613,
   241_511713_582513_663013_651513,
   242_404613_461113_525513_509113,
   243_320413_365513_417113_421613,
   244_254013_290213_331413_337413,
   245_201713_230613_263713_251013,
   246_171213_196013_224413_207813,
   247_145513_166713_191113_162113,
   248_123713_141913_162813_133213,
   249_105213_120813_138813_114013,
   250_895414_103013_118413_940714]

/-- atmdata/Venus/LAT80S.txt:21897-22047, columns 0 to 4. -/
def venusProfile146 : List ℕ :=
  [100_635202_647902_660902_656002,
   101_603502_615602_627902_623002,
   102_573002_584502_596202_591302,
   103_543802_554702_565802_561902,
   104_515902_526202_536702_530202,
   105_488902_498702_508702_505802,
   106_463102_472402_481802_480802,
   107_438302_447102_456002_456302,
   108_414302_422602_431102_432702,
   109_391702_399502_407502_410602,
   110_369802_377202_384702_389502,
   111_348802_355802_362902_368402,
   112_328802_335402_342102_343702,
   113_309802_316002_322302_323502,
   114_291602_297402_303302_301302,
   115_274002_279502_285102_281902,
   116_257502_262702_268002_264502,
   117_242002_246802_251702_249002,
   118_227302_231802_236402_233502,
   119_213102_217402_221702_218402,
   120_199902_203902_208002_204402,
   121_187402_191102_194902_190402,
   122_175302_178802_182402_177402,
   123_163802_167102_170402_166302,
   124_153102_156202_159302_156702,
   125_142802_145702_148602_146502,
   126_133202_135902_138602_137002,
   127_124002_126502_129002_127402,
   128_115402_117702_120102_119002,
   129_107202_109302_111502_110102,
   130_995103_101502_103502_102302,
   131_922203_940603_959403_944403,
   132_853303_870403_887803_872103,
   133_789603_805303_821503_808003,
   134_728803_743303_758203_749703,
   135_671903_685303_699003_689303,
   136_618503_630903_643503_632603,
   137_568603_579903_591503_576203,
   138_521503_531903_542503_529403,
   139_478103_487703_497403_483003,
   140_437203_445903_454903_440603,
   141_399103_407003_415203_400603,
   142_363403_370603_378103_364003,
   143_330003_336603_343403_331803,
   144_299503_305503_311603_298803,
   145_271203_276603_282103_269603,
   146_245003_249903_254903_245203,
   147_220403_224803_229303_219403,
   148_197703_201703_205703_197303,
   149_176803_180303_183903_176003,
   150_158103_161303_164503_157703,
   151_140803_143803_146803_139703,
   152_124703_127503_130403_124103,
   153_110803_113403_116103_111103,
   154_979704_100403_103003_990204,
   155_862704_885504_909004_873004,
   156_757804_778804_800504_759604,
   157_661504_680804_700604_654804,
   158_570204_587504_605404_572204,
   159_479304_494504_510204_473304,
   160_396704_409804_423304_389404,
   161_327704_339004_350604_322804,
   162_270804_280404_290404_267904,
   163_224004_232304_240804_219104,
   164_185304_192404_199704_179704,
   165_153004_159004_165304_147604,
   166_126304_131404_136804_119204,
   167_103904_108304_112804_985605,
   168_854905_892005_930705_827905,
   169_707805_739405_772505_682805,
   170_585905_612905_641105_568105,
   171_487105_510205_534305_480805,
   172_405005_424605_445305_391205,
   173_336805_353705_371305_339005,
   174_280205_294505_309605_274005,
   175_234005_246305_259205_223705,
   176_195405_205905_217005_185705,
   177_164005_173005_182505_157905,
   178_137605_145405_153605_130405,
   179_114505_121105_128105_111705,
   180_952806_100905_106905_924606,
   181_783306_830506_880606_758806,
   182_644306_684006_726106_618006,
   183_525206_558206_593306_472006,
   184_428306_455806_485006_387806,
   185_345706_368306_392406_310806,
   186_279106_297806_317706_254906,
   187_222106_237306_253406_209406,
   188_176806_189106_202206_176506,
   189_139706_149506_160106_136406,
   190_110306_118306_126806_102506,
   191_864307_927707_995707_811907,
   192_677107_727607_781907_652807,
   193_528107_568207_611307_525007,
   194_411907_443707_478007_417807,
   195_319307_344407_371407_325507,
   196_247507_267307_288607_249307,
   197_190907_206407_223107_185307,
   198_147207_159407_172507_145007,
   199_108707_117807_127607_110307,
   200_802208_870408_944408_801908,
   201_609508_662108_719308_649308,
   202_463208_503708_547808_478808,
   203_352008_383208_417308_352108,
   204_267508_291608_317908_262808,
   205_203308_221908_242208_193108,
   206_154208_168508_184208_148608,
   207_117008_128108_140108_116108,
   208_888409_973109_106608_855109,
   209_674409_739609_811209_625509,
   210_512109_562309_617409_490009,
   211_378409_416009_457309_358309,
   212_279609_307709_338709_283409,
   213_206609_227609_250809_218109,
   214_152609_168409_185809_165009,
   215_112809_124609_137609_117109,
   216_825410_912710_100909_924710,
   217_604010_668710_740310_649110,
   218_442010_489910_543010_490010,
   219_323510_359010_398310_390510,
   220_236710_263010_292210_274410,
   221_173410_192810_214510_191610,
   222_127010_141410_157410_136010,
   223_929811_103710_115610_974111,
   224_681011_760111_848511_740611,
   225_498811_557411_622911_524411,
   226_367511_411111_460011_410111,
   227_270711_303311_339711_293411,
   228_199511_223711_250911_214411,
   229_147011_165111_185311_157911,
   230_108311_121811_136911_119511,
   231_807512_908712_102311_814812,
   232_602112_678312_764212_586812,
   233_449012_506512_571212_485812,
   234_335012_378312_427212_398012,
   235_250012_282612_319512_260612,
   236_190512_215612_244012_191112,
   237_145312_164612_186512_156512,
   238_110912_125812_142712_117412,
   239_847513_962513_109312_896113,
   240_648113_736913_837913_681413,
   241_511713_582513_663013_529413,
   242_404613_461113_525513_415313,
   243_320413_365513_417113_338713,
   244_254013_290213_331413_249013,
   245_201713_230613_263713_197113,
   246_171213_196013_224413_204713,
   247_145513_166713_191113_184613,
   248_123713_141913_162813_156913,
   249_105213_120813_138813_145613,
   250_895414_103013_118413_117713]

/-- atmdata/Venus/LAT80S.txt:22048-22198, columns 0 to 4. -/
def venusProfile147 : List ℕ :=
  [100_635202_647902_660902_621202,
   101_603502_615602_627902_590602,
   102_573002_584502_596202_560602,
   103_543802_554702_565802_532502,
   104_515902_526202_536702_504502,
   105_488902_498702_508702_478802,
   106_463102_472402_481802_452102,
   107_438302_447102_456002_430202,
   108_414302_422602_431102_402702,
   109_391702_399502_407502_382802,
   110_369802_377202_384702_358102,
   111_348802_355802_362902_338802,
   112_328802_335402_342102_318902,
   113_309802_316002_322302_302702,
   114_291602_297402_303302_284402,
   115_274002_279502_285102_268702,
   116_257502_262702_268002_252702,
   117_242002_246802_251702_237202,
   118_227302_231802_236402_224402,
   119_213102_217402_221702_211002,
   120_199902_203902_208002_196502,
   121_187402_191102_194902_183502,
   122_175302_178802_182402_172902,
   123_163802_167102_170402_161802,
   124_153102_156202_159302_151802,
   125_142802_145702_148602_142702,
   126_133202_135902_138602_132702,
   127_124002_126502_129002_123802,
   128_115402_117702_120102_115002,
   129_107202_109302_111502_107602,
   130_995103_101502_103502_100402,
   131_922203_940603_959403_927003,
   132_853303_870403_887803_856903,
   133_789603_805303_821503_781903,
   134_728803_743303_758203_721503,
   135_671903_685303_699003_664103,
   136_618503_630903_643503_615803,
   137_568603_579903_591503_559603,
   138_521503_531903_542503_509703,
   139_478103_487703_497403_468303,
   140_437203_445903_454903_433803,
   141_399103_407003_415203_399303,
   142_363403_370603_378103_363303,
   143_330003_336603_343403_327503,
   144_299503_305503_311603_296603,
   145_271203_276603_282103_270603,
   146_245003_249903_254903_245603,
   147_220403_224803_229303_221703,
   148_197703_201703_205703_199503,
   149_176803_180303_183903_176803,
   150_158103_161303_164503_158803,
   151_140803_143803_146803_142203,
   152_124703_127503_130403_126503,
   153_110803_113403_116103_112003,
   154_979704_100403_103003_989104,
   155_862704_885504_909004_872704,
   156_757804_778804_800504_768304,
   157_661504_680804_700604_668504,
   158_570204_587504_605404_582504,
   159_479304_494504_510204_498204,
   160_396704_409804_423304_412104,
   161_327704_339004_350604_337404,
   162_270804_280404_290404_277804,
   163_224004_232304_240804_232804,
   164_185304_192404_199704_193004,
   165_153004_159004_165304_164504,
   166_126304_131404_136804_140704,
   167_103904_108304_112804_114504,
   168_854905_892005_930705_930005,
   169_707805_739405_772505_757905,
   170_585905_612905_641105_641505,
   171_487105_510205_534305_527505,
   172_405005_424605_445305_440705,
   173_336805_353705_371305_372405,
   174_280205_294505_309605_300305,
   175_234005_246305_259205_250605,
   176_195405_205905_217005_203705,
   177_164005_173005_182505_171905,
   178_137605_145405_153605_141205,
   179_114505_121105_128105_119405,
   180_952806_100905_106905_104405,
   181_783306_830506_880606_907806,
   182_644306_684006_726106_739406,
   183_525206_558206_593306_592006,
   184_428306_455806_485006_472906,
   185_345706_368306_392406_371206,
   186_279106_297806_317706_285906,
   187_222106_237306_253406_228806,
   188_176806_189106_202206_172906,
   189_139706_149506_160106_142306,
   190_110306_118306_126806_119806,
   191_864307_927707_995707_907907,
   192_677107_727607_781907_718007,
   193_528107_568207_611307_552207,
   194_411907_443707_478007_418607,
   195_319307_344407_371407_335007,
   196_247507_267307_288607_259607,
   197_190907_206407_223107_190607,
   198_147207_159407_172507_151907,
   199_108707_117807_127607_118407,
   200_802208_870408_944408_882508,
   201_609508_662108_719308_659708,
   202_463208_503708_547808_486408,
   203_352008_383208_417308_367708,
   204_267508_291608_317908_277108,
   205_203308_221908_242208_225808,
   206_154208_168508_184208_173508,
   207_117008_128108_140108_124108,
   208_888409_973109_106608_100608,
   209_674409_739609_811209_768409,
   210_512109_562309_617409_619709,
   211_378409_416009_457309_454509,
   212_279609_307709_338709_331809,
   213_206609_227609_250809_259109,
   214_152609_168409_185809_187909,
   215_112809_124609_137609_145109,
   216_825410_912710_100909_965610,
   217_604010_668710_740310_694110,
   218_442010_489910_543010_530910,
   219_323510_359010_398310_355910,
   220_236710_263010_292210_251510,
   221_173410_192810_214510_185710,
   222_127010_141410_157410_137710,
   223_929811_103710_115610_104910,
   224_681011_760111_848511_754111,
   225_498811_557411_622911_534811,
   226_367511_411111_460011_388211,
   227_270711_303311_339711_277111,
   228_199511_223711_250911_194911,
   229_147011_165111_185311_134611,
   230_108311_121811_136911_114311,
   231_807512_908712_102311_840612,
   232_602112_678312_764212_678712,
   233_449012_506512_571212_491712,
   234_335012_378312_427212_368112,
   235_250012_282612_319512_293212,
   236_190512_215612_244012_221812,
   237_145312_164612_186512_166012,
   238_110912_125812_142712_114812,
   239_847513_962513_109312_809913,
   240_648113_736913_837913_664513,
   241_511713_582513_663013_540413,
   242_404613_461113_525513_417013,
   243_320413_365513_417113_329913,
   244_254013_290213_331413_264813,
   245_201713_230613_263713_215313,
   246_171213_196013_224413_187713,
   247_145513_166713_191113_163413,
   248_123713_141913_162813_147913,
   249_105213_120813_138813_124013,
   250_895414_103013_118413_100713]

/-- atmdata/Venus/LAT80S.txt:22199-22349, columns 0 to 4. -/
def venusProfile148 : List ℕ :=
  [100_635202_647902_660902_641302,
   101_603502_615602_627902_608702,
   102_573002_584502_596202_576302,
   103_543802_554702_565802_545902,
   104_515902_526202_536702_517602,
   105_488902_498702_508702_487702,
   106_463102_472402_481802_462802,
   107_438302_447102_456002_440202,
   108_414302_422602_431102_414902,
   109_391702_399502_407502_393602,
   110_369802_377202_384702_370002,
   111_348802_355802_362902_348902,
   112_328802_335402_342102_329102,
   113_309802_316002_322302_309002,
   114_291602_297402_303302_291102,
   115_274002_279502_285102_273002,
   116_257502_262702_268002_256802,
   117_242002_246802_251702_237302,
   118_227302_231802_236402_222502,
   119_213102_217402_221702_210302,
   120_199902_203902_208002_198302,
   121_187402_191102_194902_185402,
   122_175302_178802_182402_173502,
   123_163802_167102_170402_162002,
   124_153102_156202_159302_151402,
   125_142802_145702_148602_140202,
   126_133202_135902_138602_131702,
   127_124002_126502_129002_123102,
   128_115402_117702_120102_115802,
   129_107202_109302_111502_107502,
   130_995103_101502_103502_100502,
   131_922203_940603_959403_927903,
   132_853303_870403_887803_857903,
   133_789603_805303_821503_793303,
   134_728803_743303_758203_740703,
   135_671903_685303_699003_680603,
   136_618503_630903_643503_624903,
   137_568603_579903_591503_581403,
   138_521503_531903_542503_533903,
   139_478103_487703_497403_491703,
   140_437203_445903_454903_450103,
   141_399103_407003_415203_410403,
   142_363403_370603_378103_373303,
   143_330003_336603_343403_339103,
   144_299503_305503_311603_307503,
   145_271203_276603_282103_277803,
   146_245003_249903_254903_251303,
   147_220403_224803_229303_224503,
   148_197703_201703_205703_202003,
   149_176803_180303_183903_182003,
   150_158103_161303_164503_163703,
   151_140803_143803_146803_145103,
   152_124703_127503_130403_129303,
   153_110803_113403_116103_116003,
   154_979704_100403_103003_104703,
   155_862704_885504_909004_923004,
   156_757804_778804_800504_821904,
   157_661504_680804_700604_718204,
   158_570204_587504_605404_623104,
   159_479304_494504_510204_527104,
   160_396704_409804_423304_438004,
   161_327704_339004_350604_369304,
   162_270804_280404_290404_301004,
   163_224004_232304_240804_247404,
   164_185304_192404_199704_207304,
   165_153004_159004_165304_171804,
   166_126304_131404_136804_144404,
   167_103904_108304_112804_116704,
   168_854905_892005_930705_970905,
   169_707805_739405_772505_785305,
   170_585905_612905_641105_642305,
   171_487105_510205_534305_548405,
   172_405005_424605_445305_444505,
   173_336805_353705_371305_372205,
   174_280205_294505_309605_300905,
   175_234005_246305_259205_257605,
   176_195405_205905_217005_222705,
   177_164005_173005_182505_186905,
   178_137605_145405_153605_152505,
   179_114505_121105_128105_127605,
   180_952806_100905_106905_106805,
   181_783306_830506_880606_882406,
   182_644306_684006_726106_728006,
   183_525206_558206_593306_594806,
   184_428306_455806_485006_468006,
   185_345706_368306_392406_364306,
   186_279106_297806_317706_296406,
   187_222106_237306_253406_233306,
   188_176806_189106_202206_180106,
   189_139706_149506_160106_143506,
   190_110306_118306_126806_118606,
   191_864307_927707_995707_954607,
   192_677107_727607_781907_747807,
   193_528107_568207_611307_602707,
   194_411907_443707_478007_475007,
   195_319307_344407_371407_351107,
   196_247507_267307_288607_274707,
   197_190907_206407_223107_196607,
   198_147207_159407_172507_165407,
   199_108707_117807_127607_117207,
   200_802208_870408_944408_911708,
   201_609508_662108_719308_704408,
   202_463208_503708_547808_516608,
   203_352008_383208_417308_397708,
   204_267508_291608_317908_301008,
   205_203308_221908_242208_235208,
   206_154208_168508_184208_182308,
   207_117008_128108_140108_137308,
   208_888409_973109_106608_106108,
   209_674409_739609_811209_737709,
   210_512109_562309_617409_547009,
   211_378409_416009_457309_413509,
   212_279609_307709_338709_335409,
   213_206609_227609_250809_233409,
   214_152609_168409_185809_164309,
   215_112809_124609_137609_123909,
   216_825410_912710_100909_858110,
   217_604010_668710_740310_637410,
   218_442010_489910_543010_508510,
   219_323510_359010_398310_350510,
   220_236710_263010_292210_247210,
   221_173410_192810_214510_192310,
   222_127010_141410_157410_150410,
   223_929811_103710_115610_106810,
   224_681011_760111_848511_841411,
   225_498811_557411_622911_592611,
   226_367511_411111_460011_452711,
   227_270711_303311_339711_317511,
   228_199511_223711_250911_246911,
   229_147011_165111_185311_185211,
   230_108311_121811_136911_132111,
   231_807512_908712_102311_998212,
   232_602112_678312_764212_753612,
   233_449012_506512_571212_563712,
   234_335012_378312_427212_380912,
   235_250012_282612_319512_295012,
   236_190512_215612_244012_231512,
   237_145312_164612_186512_187312,
   238_110912_125812_142712_146012,
   239_847513_962513_109312_113012,
   240_648113_736913_837913_822613,
   241_511713_582513_663013_695413,
   242_404613_461113_525513_518613,
   243_320413_365513_417113_390113,
   244_254013_290213_331413_335913,
   245_201713_230613_263713_276613,
   246_171213_196013_224413_223913,
   247_145513_166713_191113_186113,
   248_123713_141913_162813_147313,
   249_105213_120813_138813_134013,
   250_895414_103013_118413_107713]

/-- atmdata/Venus/LAT80S.txt:22350-22500, columns 0 to 4. -/
def venusProfile149 : List ℕ :=
  [100_635202_647902_660902_650702,
   101_603502_615602_627902_617002,
   102_573002_584502_596202_582702,
   103_543802_554702_565802_550302,
   104_515902_526202_536702_522502,
   105_488902_498702_508702_496502,
   106_463102_472402_481802_475702,
   107_438302_447102_456002_452302,
   108_414302_422602_431102_427302,
   109_391702_399502_407502_404702,
   110_369802_377202_384702_381002,
   111_348802_355802_362902_358102,
   112_328802_335402_342102_338602,
   113_309802_316002_322302_319102,
   114_291602_297402_303302_301302,
   115_274002_279502_285102_284502,
   116_257502_262702_268002_267402,
   117_242002_246802_251702_251602,
   118_227302_231802_236402_236902,
   119_213102_217402_221702_220802,
   120_199902_203902_208002_206902,
   121_187402_191102_194902_193202,
   122_175302_178802_182402_178702,
   123_163802_167102_170402_166202,
   124_153102_156202_159302_154502,
   125_142802_145702_148602_143702,
   126_133202_135902_138602_133902,
   127_124002_126502_129002_125202,
   128_115402_117702_120102_116702,
   129_107202_109302_111502_107402,
   130_995103_101502_103502_100802,
   131_922203_940603_959403_930103,
   132_853303_870403_887803_860003,
   133_789603_805303_821503_800503,
   134_728803_743303_758203_739603,
   135_671903_685303_699003_679103,
   136_618503_630903_643503_628803,
   137_568603_579903_591503_583103,
   138_521503_531903_542503_530203,
   139_478103_487703_497403_481303,
   140_437203_445903_454903_438303,
   141_399103_407003_415203_397003,
   142_363403_370603_378103_362203,
   143_330003_336603_343403_332903,
   144_299503_305503_311603_303203,
   145_271203_276603_282103_278103,
   146_245003_249903_254903_251203,
   147_220403_224803_229303_226403,
   148_197703_201703_205703_203803,
   149_176803_180303_183903_182703,
   150_158103_161303_164503_165203,
   151_140803_143803_146803_147903,
   152_124703_127503_130403_132103,
   153_110803_113403_116103_117203,
   154_979704_100403_103003_104003,
   155_862704_885504_909004_917304,
   156_757804_778804_800504_801804,
   157_661504_680804_700604_706004,
   158_570204_587504_605404_611904,
   159_479304_494504_510204_515404,
   160_396704_409804_423304_432604,
   161_327704_339004_350604_359304,
   162_270804_280404_290404_290204,
   163_224004_232304_240804_229204,
   164_185304_192404_199704_187204,
   165_153004_159004_165304_154304,
   166_126304_131404_136804_129904,
   167_103904_108304_112804_104804,
   168_854905_892005_930705_858105,
   169_707805_739405_772505_692905,
   170_585905_612905_641105_584105,
   171_487105_510205_534305_489105,
   172_405005_424605_445305_411705,
   173_336805_353705_371305_344105,
   174_280205_294505_309605_280105,
   175_234005_246305_259205_231805,
   176_195405_205905_217005_198505,
   177_164005_173005_182505_168105,
   178_137605_145405_153605_137805,
   179_114505_121105_128105_115705,
   180_952806_100905_106905_955306,
   181_783306_830506_880606_777306,
   182_644306_684006_726106_656306,
   183_525206_558206_593306_554006,
   184_428306_455806_485006_474906,
   185_345706_368306_392406_363006,
   186_279106_297806_317706_284506,
   187_222106_237306_253406_220306,
   188_176806_189106_202206_172506,
   189_139706_149506_160106_134506,
   190_110306_118306_126806_111006,
   191_864307_927707_995707_872707,
   192_677107_727607_781907_684807,
   193_528107_568207_611307_534307,
   194_411907_443707_478007_407107,
   195_319307_344407_371407_315307,
   196_247507_267307_288607_252807,
   197_190907_206407_223107_208407,
   198_147207_159407_172507_156707,
   199_108707_117807_127607_114307,
   200_802208_870408_944408_827708,
   201_609508_662108_719308_602608,
   202_463208_503708_547808_447308,
   203_352008_383208_417308_360308,
   204_267508_291608_317908_278008,
   205_203308_221908_242208_214508,
   206_154208_168508_184208_170508,
   207_117008_128108_140108_135308,
   208_888409_973109_106608_102408,
   209_674409_739609_811209_772309,
   210_512109_562309_617409_589209,
   211_378409_416009_457309_455409,
   212_279609_307709_338709_335709,
   213_206609_227609_250809_239909,
   214_152609_168409_185809_184409,
   215_112809_124609_137609_134309,
   216_825410_912710_100909_937010,
   217_604010_668710_740310_708810,
   218_442010_489910_543010_485610,
   219_323510_359010_398310_341010,
   220_236710_263010_292210_240110,
   221_173410_192810_214510_171910,
   222_127010_141410_157410_123410,
   223_929811_103710_115610_952211,
   224_681011_760111_848511_707211,
   225_498811_557411_622911_505911,
   226_367511_411111_460011_365011,
   227_270711_303311_339711_258011,
   228_199511_223711_250911_196411,
   229_147011_165111_185311_143011,
   230_108311_121811_136911_108711,
   231_807512_908712_102311_898412,
   232_602112_678312_764212_661212,
   233_449012_506512_571212_528412,
   234_335012_378312_427212_397512,
   235_250012_282612_319512_300612,
   236_190512_215612_244012_257712,
   237_145312_164612_186512_191912,
   238_110912_125812_142712_143412,
   239_847513_962513_109312_105812,
   240_648113_736913_837913_819313,
   241_511713_582513_663013_616813,
   242_404613_461113_525513_451413,
   243_320413_365513_417113_314913,
   244_254013_290213_331413_248613,
   245_201713_230613_263713_178613,
   246_171213_196013_224413_168613,
   247_145513_166713_191113_137513,
   248_123713_141913_162813_118013,
   249_105213_120813_138813_995414,
   250_895414_103013_118413_811014]

/-- atmdata/Venus/LAT80S.txt:22501-22651, columns 0 to 4. -/
def venusProfile150 : List ℕ :=
  [100_635202_647902_660902_662402,
   101_603502_615602_627902_627402,
   102_573002_584502_596202_589602,
   103_543802_554702_565802_566102,
   104_515902_526202_536702_538002,
   105_488902_498702_508702_508002,
   106_463102_472402_481802_480302,
   107_438302_447102_456002_456602,
   108_414302_422602_431102_432602,
   109_391702_399502_407502_409302,
   110_369802_377202_384702_386002,
   111_348802_355802_362902_361202,
   112_328802_335402_342102_343502,
   113_309802_316002_322302_325802,
   114_291602_297402_303302_310302,
   115_274002_279502_285102_290702,
   116_257502_262702_268002_273102,
   117_242002_246802_251702_255602,
   118_227302_231802_236402_238602,
   119_213102_217402_221702_223302,
   120_199902_203902_208002_208302,
   121_187402_191102_194902_194602,
   122_175302_178802_182402_182302,
   123_163802_167102_170402_168702,
   124_153102_156202_159302_158802,
   125_142802_145702_148602_147902,
   126_133202_135902_138602_139202,
   127_124002_126502_129002_130202,
   128_115402_117702_120102_120402,
   129_107202_109302_111502_111902,
   130_995103_101502_103502_102902,
   131_922203_940603_959403_948903,
   132_853303_870403_887803_876703,
   133_789603_805303_821503_807403,
   134_728803_743303_758203_739903,
   135_671903_685303_699003_678903,
   136_618503_630903_643503_623303,
   137_568603_579903_591503_577303,
   138_521503_531903_542503_530303,
   139_478103_487703_497403_485003,
   140_437203_445903_454903_446603,
   141_399103_407003_415203_409003,
   142_363403_370603_378103_372903,
   143_330003_336603_343403_337903,
   144_299503_305503_311603_308903,
   145_271203_276603_282103_279703,
   146_245003_249903_254903_252303,
   147_220403_224803_229303_225103,
   148_197703_201703_205703_202903,
   149_176803_180303_183903_181303,
   150_158103_161303_164503_160603,
   151_140803_143803_146803_142403,
   152_124703_127503_130403_127703,
   153_110803_113403_116103_115303,
   154_979704_100403_103003_101303,
   155_862704_885504_909004_895204,
   156_757804_778804_800504_791104,
   157_661504_680804_700604_673904,
   158_570204_587504_605404_584204,
   159_479304_494504_510204_490404,
   160_396704_409804_423304_399904,
   161_327704_339004_350604_330304,
   162_270804_280404_290404_278804,
   163_224004_232304_240804_231904,
   164_185304_192404_199704_192104,
   165_153004_159004_165304_155404,
   166_126304_131404_136804_130204,
   167_103904_108304_112804_112104,
   168_854905_892005_930705_939005,
   169_707805_739405_772505_807305,
   170_585905_612905_641105_653205,
   171_487105_510205_534305_531305,
   172_405005_424605_445305_432605,
   173_336805_353705_371305_357705,
   174_280205_294505_309605_291105,
   175_234005_246305_259205_245605,
   176_195405_205905_217005_207105,
   177_164005_173005_182505_175005,
   178_137605_145405_153605_142805,
   179_114505_121105_128105_119105,
   180_952806_100905_106905_103805,
   181_783306_830506_880606_881006,
   182_644306_684006_726106_752006,
   183_525206_558206_593306_595506,
   184_428306_455806_485006_495306,
   185_345706_368306_392406_415306,
   186_279106_297806_317706_336306,
   187_222106_237306_253406_276006,
   188_176806_189106_202206_214706,
   189_139706_149506_160106_175006,
   190_110306_118306_126806_139906,
   191_864307_927707_995707_105206,
   192_677107_727607_781907_809807,
   193_528107_568207_611307_671607,
   194_411907_443707_478007_525507,
   195_319307_344407_371407_408507,
   196_247507_267307_288607_326507,
   197_190907_206407_223107_258607,
   198_147207_159407_172507_195707,
   199_108707_117807_127607_142807,
   200_802208_870408_944408_104707,
   201_609508_662108_719308_784108,
   202_463208_503708_547808_573108,
   203_352008_383208_417308_416008,
   204_267508_291608_317908_320508,
   205_203308_221908_242208_240508,
   206_154208_168508_184208_199708,
   207_117008_128108_140108_146808,
   208_888409_973109_106608_108008,
   209_674409_739609_811209_855909,
   210_512109_562309_617409_671209,
   211_378409_416009_457309_465509,
   212_279609_307709_338709_323109,
   213_206609_227609_250809_235809,
   214_152609_168409_185809_175309,
   215_112809_124609_137609_124109,
   216_825410_912710_100909_882210,
   217_604010_668710_740310_715210,
   218_442010_489910_543010_501610,
   219_323510_359010_398310_354410,
   220_236710_263010_292210_248410,
   221_173410_192810_214510_185410,
   222_127010_141410_157410_138010,
   223_929811_103710_115610_988611,
   224_681011_760111_848511_691911,
   225_498811_557411_622911_496911,
   226_367511_411111_460011_382011,
   227_270711_303311_339711_267311,
   228_199511_223711_250911_195911,
   229_147011_165111_185311_158211,
   230_108311_121811_136911_126411,
   231_807512_908712_102311_911312,
   232_602112_678312_764212_639112,
   233_449012_506512_571212_460212,
   234_335012_378312_427212_325412,
   235_250012_282612_319512_246312,
   236_190512_215612_244012_183412,
   237_145312_164612_186512_154112,
   238_110912_125812_142712_110912,
   239_847513_962513_109312_932013,
   240_648113_736913_837913_655313,
   241_511713_582513_663013_526013,
   242_404613_461113_525513_340913,
   243_320413_365513_417113_295213,
   244_254013_290213_331413_252713,
   245_201713_230613_263713_195413,
   246_171213_196013_224413_169213,
   247_145513_166713_191113_162913,
   248_123713_141913_162813_143913,
   249_105213_120813_138813_128913,
   250_895414_103013_118413_102613]

/-- atmdata/Venus/LAT80S.txt:22652-22802, columns 0 to 4. -/
def venusProfile151 : List ℕ :=
  [100_635202_647902_660902_634802,
   101_603502_615602_627902_601602,
   102_573002_584502_596202_575402,
   103_543802_554702_565802_548902,
   104_515902_526202_536702_523302,
   105_488902_498702_508702_498802,
   106_463102_472402_481802_474402,
   107_438302_447102_456002_451502,
   108_414302_422602_431102_430402,
   109_391702_399502_407502_407102,
   110_369802_377202_384702_384702,
   111_348802_355802_362902_365002,
   112_328802_335402_342102_342302,
   113_309802_316002_322302_321302,
   114_291602_297402_303302_301102,
   115_274002_279502_285102_285002,
   116_257502_262702_268002_268102,
   117_242002_246802_251702_254902,
   118_227302_231802_236402_239502,
   119_213102_217402_221702_224902,
   120_199902_203902_208002_212202,
   121_187402_191102_194902_198302,
   122_175302_178802_182402_184502,
   123_163802_167102_170402_173402,
   124_153102_156202_159302_162202,
   125_142802_145702_148602_151402,
   126_133202_135902_138602_141002,
   127_124002_126502_129002_132302,
   128_115402_117702_120102_123402,
   129_107202_109302_111502_113902,
   130_995103_101502_103502_105002,
   131_922203_940603_959403_967203,
   132_853303_870403_887803_893003,
   133_789603_805303_821503_827003,
   134_728803_743303_758203_764703,
   135_671903_685303_699003_700103,
   136_618503_630903_643503_647003,
   137_568603_579903_591503_597303,
   138_521503_531903_542503_542503,
   139_478103_487703_497403_497803,
   140_437203_445903_454903_454703,
   141_399103_407003_415203_413403,
   142_363403_370603_378103_377103,
   143_330003_336603_343403_344203,
   144_299503_305503_311603_308903,
   145_271203_276603_282103_277403,
   146_245003_249903_254903_249903,
   147_220403_224803_229303_225203,
   148_197703_201703_205703_203303,
   149_176803_180303_183903_180903,
   150_158103_161303_164503_161003,
   151_140803_143803_146803_144203,
   152_124703_127503_130403_125303,
   153_110803_113403_116103_111503,
   154_979704_100403_103003_996304,
   155_862704_885504_909004_881104,
   156_757804_778804_800504_763904,
   157_661504_680804_700604_663004,
   158_570204_587504_605404_574304,
   159_479304_494504_510204_479704,
   160_396704_409804_423304_395504,
   161_327704_339004_350604_323304,
   162_270804_280404_290404_270804,
   163_224004_232304_240804_222204,
   164_185304_192404_199704_187104,
   165_153004_159004_165304_157004,
   166_126304_131404_136804_131004,
   167_103904_108304_112804_110304,
   168_854905_892005_930705_902605,
   169_707805_739405_772505_766505,
   170_585905_612905_641105_636205,
   171_487105_510205_534305_536105,
   172_405005_424605_445305_449005,
   173_336805_353705_371305_367405,
   174_280205_294505_309605_298905,
   175_234005_246305_259205_240105,
   176_195405_205905_217005_201105,
   177_164005_173005_182505_170305,
   178_137605_145405_153605_139005,
   179_114505_121105_128105_115705,
   180_952806_100905_106905_975506,
   181_783306_830506_880606_807306,
   182_644306_684006_726106_647006,
   183_525206_558206_593306_529106,
   184_428306_455806_485006_439306,
   185_345706_368306_392406_367606,
   186_279106_297806_317706_290606,
   187_222106_237306_253406_236106,
   188_176806_189106_202206_186906,
   189_139706_149506_160106_149306,
   190_110306_118306_126806_120406,
   191_864307_927707_995707_968007,
   192_677107_727607_781907_744407,
   193_528107_568207_611307_582907,
   194_411907_443707_478007_442607,
   195_319307_344407_371407_370207,
   196_247507_267307_288607_273507,
   197_190907_206407_223107_219107,
   198_147207_159407_172507_170907,
   199_108707_117807_127607_128307,
   200_802208_870408_944408_984508,
   201_609508_662108_719308_768108,
   202_463208_503708_547808_562308,
   203_352008_383208_417308_420008,
   204_267508_291608_317908_327508,
   205_203308_221908_242208_241108,
   206_154208_168508_184208_174108,
   207_117008_128108_140108_134408,
   208_888409_973109_106608_955709,
   209_674409_739609_811209_717609,
   210_512109_562309_617409_528709,
   211_378409_416009_457309_383909,
   212_279609_307709_338709_290009,
   213_206609_227609_250809_217109,
   214_152609_168409_185809_157709,
   215_112809_124609_137609_124809,
   216_825410_912710_100909_894510,
   217_604010_668710_740310_632810,
   218_442010_489910_543010_455510,
   219_323510_359010_398310_327310,
   220_236710_263010_292210_229410,
   221_173410_192810_214510_186310,
   222_127010_141410_157410_147510,
   223_929811_103710_115610_111910,
   224_681011_760111_848511_839711,
   225_498811_557411_622911_595611,
   226_367511_411111_460011_419411,
   227_270711_303311_339711_289311,
   228_199511_223711_250911_201311,
   229_147011_165111_185311_151111,
   230_108311_121811_136911_108611,
   231_807512_908712_102311_828212,
   232_602112_678312_764212_654512,
   233_449012_506512_571212_491912,
   234_335012_378312_427212_376212,
   235_250012_282612_319512_276412,
   236_190512_215612_244012_211912,
   237_145312_164612_186512_160912,
   238_110912_125812_142712_129212,
   239_847513_962513_109312_994413,
   240_648113_736913_837913_755813,
   241_511713_582513_663013_629113,
   242_404613_461113_525513_530913,
   243_320413_365513_417113_421613,
   244_254013_290213_331413_318513,
   245_201713_230613_263713_250313,
   246_171213_196013_224413_198713,
   247_145513_166713_191113_175713,
   248_123713_141913_162813_132913,
   249_105213_120813_138813_109613,
   250_895414_103013_118413_878414]

/-- atmdata/Venus/LAT80S.txt:22803-22953, columns 0 to 4. -/
def venusProfile152 : List ℕ :=
  [100_635202_647902_660902_645802,
   101_603502_615602_627902_611202,
   102_573002_584502_596202_582802,
   103_543802_554702_565802_554302,
   104_515902_526202_536702_530302,
   105_488902_498702_508702_502202,
   106_463102_472402_481802_473502,
   107_438302_447102_456002_451102,
   108_414302_422602_431102_424302,
   109_391702_399502_407502_401302,
   110_369802_377202_384702_380302,
   111_348802_355802_362902_359802,
   112_328802_335402_342102_338702,
   113_309802_316002_322302_319602,
   114_291602_297402_303302_300602,
   115_274002_279502_285102_282202,
   116_257502_262702_268002_265802,
   117_242002_246802_251702_250102,
   118_227302_231802_236402_232702,
   119_213102_217402_221702_220402,
   120_199902_203902_208002_207002,
   121_187402_191102_194902_193802,
   122_175302_178802_182402_182102,
   123_163802_167102_170402_170702,
   124_153102_156202_159302_159202,
   125_142802_145702_148602_149202,
   126_133202_135902_138602_138002,
   127_124002_126502_129002_127202,
   128_115402_117702_120102_118102,
   129_107202_109302_111502_110302,
   130_995103_101502_103502_102002,
   131_922203_940603_959403_940403,
   132_853303_870403_887803_869503,
   133_789603_805303_821503_796603,
   134_728803_743303_758203_733003,
   135_671903_685303_699003_671703,
   136_618503_630903_643503_616803,
   137_568603_579903_591503_570303,
   138_521503_531903_542503_524103,
   139_478103_487703_497403_484803,
   140_437203_445903_454903_440203,
   141_399103_407003_415203_406303,
   142_363403_370603_378103_371503,
   143_330003_336603_343403_335803,
   144_299503_305503_311603_303503,
   145_271203_276603_282103_275803,
   146_245003_249903_254903_248203,
   147_220403_224803_229303_221503,
   148_197703_201703_205703_200303,
   149_176803_180303_183903_177403,
   150_158103_161303_164503_158503,
   151_140803_143803_146803_140603,
   152_124703_127503_130403_123403,
   153_110803_113403_116103_108303,
   154_979704_100403_103003_958904,
   155_862704_885504_909004_849504,
   156_757804_778804_800504_747304,
   157_661504_680804_700604_653504,
   158_570204_587504_605404_565604,
   159_479304_494504_510204_468504,
   160_396704_409804_423304_389504,
   161_327704_339004_350604_328404,
   162_270804_280404_290404_273204,
   163_224004_232304_240804_229904,
   164_185304_192404_199704_187304,
   165_153004_159004_165304_155104,
   166_126304_131404_136804_129104,
   167_103904_108304_112804_107904,
   168_854905_892005_930705_911705,
   169_707805_739405_772505_768205,
   170_585905_612905_641105_604805,
   171_487105_510205_534305_501205,
   172_405005_424605_445305_410805,
   173_336805_353705_371305_334205,
   174_280205_294505_309605_274005,
   175_234005_246305_259205_229405,
   176_195405_205905_217005_190905,
   177_164005_173005_182505_162505,
   178_137605_145405_153605_132705,
   179_114505_121105_128105_110405,
   180_952806_100905_106905_913206,
   181_783306_830506_880606_739606,
   182_644306_684006_726106_606006,
   183_525206_558206_593306_509406,
   184_428306_455806_485006_420006,
   185_345706_368306_392406_350306,
   186_279106_297806_317706_289506,
   187_222106_237306_253406_231906,
   188_176806_189106_202206_185106,
   189_139706_149506_160106_144606,
   190_110306_118306_126806_116306,
   191_864307_927707_995707_911207,
   192_677107_727607_781907_699507,
   193_528107_568207_611307_528107,
   194_411907_443707_478007_422907,
   195_319307_344407_371407_323607,
   196_247507_267307_288607_246807,
   197_190907_206407_223107_198207,
   198_147207_159407_172507_160207,
   199_108707_117807_127607_125007,
   200_802208_870408_944408_897108,
   201_609508_662108_719308_663808,
   202_463208_503708_547808_490908,
   203_352008_383208_417308_378808,
   204_267508_291608_317908_305308,
   205_203308_221908_242208_219108,
   206_154208_168508_184208_162308,
   207_117008_128108_140108_117308,
   208_888409_973109_106608_933109,
   209_674409_739609_811209_736009,
   210_512109_562309_617409_560209,
   211_378409_416009_457309_413609,
   212_279609_307709_338709_295209,
   213_206609_227609_250809_224409,
   214_152609_168409_185809_152909,
   215_112809_124609_137609_116509,
   216_825410_912710_100909_846210,
   217_604010_668710_740310_617210,
   218_442010_489910_543010_451210,
   219_323510_359010_398310_327110,
   220_236710_263010_292210_228410,
   221_173410_192810_214510_166110,
   222_127010_141410_157410_120110,
   223_929811_103710_115610_868911,
   224_681011_760111_848511_633811,
   225_498811_557411_622911_460311,
   226_367511_411111_460011_353611,
   227_270711_303311_339711_242111,
   228_199511_223711_250911_192911,
   229_147011_165111_185311_137311,
   230_108311_121811_136911_104111,
   231_807512_908712_102311_842912,
   232_602112_678312_764212_638112,
   233_449012_506512_571212_503412,
   234_335012_378312_427212_361112,
   235_250012_282612_319512_260912,
   236_190512_215612_244012_209112,
   237_145312_164612_186512_175712,
   238_110912_125812_142712_133812,
   239_847513_962513_109312_967313,
   240_648113_736913_837913_790913,
   241_511713_582513_663013_583113,
   242_404613_461113_525513_485813,
   243_320413_365513_417113_377613,
   244_254013_290213_331413_306813,
   245_201713_230613_263713_249913,
   246_171213_196013_224413_220213,
   247_145513_166713_191113_186213,
   248_123713_141913_162813_152913,
   249_105213_120813_138813_133913,
   250_895414_103013_118413_105013]

/-- atmdata/Venus/LAT80S.txt:22954-23104, columns 0 to 4. -/
def venusProfile153 : List ℕ :=
  [100_635202_647902_660902_655402,
   101_603502_615602_627902_619502,
   102_573002_584502_596202_589402,
   103_543802_554702_565802_559202,
   104_515902_526202_536702_526802,
   105_488902_498702_508702_495202,
   106_463102_472402_481802_469702,
   107_438302_447102_456002_447902,
   108_414302_422602_431102_422902,
   109_391702_399502_407502_399802,
   110_369802_377202_384702_380302,
   111_348802_355802_362902_358902,
   112_328802_335402_342102_339002,
   113_309802_316002_322302_325302,
   114_291602_297402_303302_306802,
   115_274002_279502_285102_284202,
   116_257502_262702_268002_267702,
   117_242002_246802_251702_250702,
   118_227302_231802_236402_235302,
   119_213102_217402_221702_219702,
   120_199902_203902_208002_205502,
   121_187402_191102_194902_192602,
   122_175302_178802_182402_179902,
   123_163802_167102_170402_168302,
   124_153102_156202_159302_156302,
   125_142802_145702_148602_144402,
   126_133202_135902_138602_135102,
   127_124002_126502_129002_125002,
   128_115402_117702_120102_118302,
   129_107202_109302_111502_109702,
   130_995103_101502_103502_101702,
   131_922203_940603_959403_937103,
   132_853303_870403_887803_866803,
   133_789603_805303_821503_801703,
   134_728803_743303_758203_744603,
   135_671903_685303_699003_681103,
   136_618503_630903_643503_630203,
   137_568603_579903_591503_581403,
   138_521503_531903_542503_528603,
   139_478103_487703_497403_482203,
   140_437203_445903_454903_443003,
   141_399103_407003_415203_405003,
   142_363403_370603_378103_370803,
   143_330003_336603_343403_337803,
   144_299503_305503_311603_306203,
   145_271203_276603_282103_276103,
   146_245003_249903_254903_247903,
   147_220403_224803_229303_223503,
   148_197703_201703_205703_202403,
   149_176803_180303_183903_182303,
   150_158103_161303_164503_163003,
   151_140803_143803_146803_146003,
   152_124703_127503_130403_128603,
   153_110803_113403_116103_114703,
   154_979704_100403_103003_100103,
   155_862704_885504_909004_886104,
   156_757804_778804_800504_787804,
   157_661504_680804_700604_692304,
   158_570204_587504_605404_597104,
   159_479304_494504_510204_510504,
   160_396704_409804_423304_425804,
   161_327704_339004_350604_353104,
   162_270804_280404_290404_291004,
   163_224004_232304_240804_240204,
   164_185304_192404_199704_198204,
   165_153004_159004_165304_161404,
   166_126304_131404_136804_133504,
   167_103904_108304_112804_110704,
   168_854905_892005_930705_908705,
   169_707805_739405_772505_762005,
   170_585905_612905_641105_628205,
   171_487105_510205_534305_497905,
   172_405005_424605_445305_420105,
   173_336805_353705_371305_364205,
   174_280205_294505_309605_297505,
   175_234005_246305_259205_253405,
   176_195405_205905_217005_207105,
   177_164005_173005_182505_175305,
   178_137605_145405_153605_142205,
   179_114505_121105_128105_117205,
   180_952806_100905_106905_101905,
   181_783306_830506_880606_858106,
   182_644306_684006_726106_703906,
   183_525206_558206_593306_549306,
   184_428306_455806_485006_445806,
   185_345706_368306_392406_367206,
   186_279106_297806_317706_292406,
   187_222106_237306_253406_230906,
   188_176806_189106_202206_185506,
   189_139706_149506_160106_136906,
   190_110306_118306_126806_110106,
   191_864307_927707_995707_839207,
   192_677107_727607_781907_641807,
   193_528107_568207_611307_514907,
   194_411907_443707_478007_395707,
   195_319307_344407_371407_312507,
   196_247507_267307_288607_242607,
   197_190907_206407_223107_194107,
   198_147207_159407_172507_144807,
   199_108707_117807_127607_103807,
   200_802208_870408_944408_780508,
   201_609508_662108_719308_606608,
   202_463208_503708_547808_451508,
   203_352008_383208_417308_362408,
   204_267508_291608_317908_260208,
   205_203308_221908_242208_209908,
   206_154208_168508_184208_158108,
   207_117008_128108_140108_120708,
   208_888409_973109_106608_931809,
   209_674409_739609_811209_692609,
   210_512109_562309_617409_549209,
   211_378409_416009_457309_414409,
   212_279609_307709_338709_314509,
   213_206609_227609_250809_243809,
   214_152609_168409_185809_184309,
   215_112809_124609_137609_134509,
   216_825410_912710_100909_973410,
   217_604010_668710_740310_717710,
   218_442010_489910_543010_524610,
   219_323510_359010_398310_378510,
   220_236710_263010_292210_260510,
   221_173410_192810_214510_195710,
   222_127010_141410_157410_145710,
   223_929811_103710_115610_110710,
   224_681011_760111_848511_865511,
   225_498811_557411_622911_615411,
   226_367511_411111_460011_426911,
   227_270711_303311_339711_284011,
   228_199511_223711_250911_213011,
   229_147011_165111_185311_164311,
   230_108311_121811_136911_128911,
   231_807512_908712_102311_918212,
   232_602112_678312_764212_665512,
   233_449012_506512_571212_472912,
   234_335012_378312_427212_367712,
   235_250012_282612_319512_258212,
   236_190512_215612_244012_181512,
   237_145312_164612_186512_140312,
   238_110912_125812_142712_103612,
   239_847513_962513_109312_849813,
   240_648113_736913_837913_637613,
   241_511713_582513_663013_505713,
   242_404613_461113_525513_419513,
   243_320413_365513_417113_318513,
   244_254013_290213_331413_237013,
   245_201713_230613_263713_208813,
   246_171213_196013_224413_176713,
   247_145513_166713_191113_147013,
   248_123713_141913_162813_128913,
   249_105213_120813_138813_104813,
   250_895414_103013_118413_827114]

/-- atmdata/Venus/LAT80S.txt:23105-23255, columns 0 to 4. -/
def venusProfile154 : List ℕ :=
  [100_635202_647902_660902_612002,
   101_603502_615602_627902_578902,
   102_573002_584502_596202_551102,
   103_543802_554702_565802_523002,
   104_515902_526202_536702_495102,
   105_488902_498702_508702_471002,
   106_463102_472402_481802_452402,
   107_438302_447102_456002_432502,
   108_414302_422602_431102_410202,
   109_391702_399502_407502_387902,
   110_369802_377202_384702_364002,
   111_348802_355802_362902_343202,
   112_328802_335402_342102_326102,
   113_309802_316002_322302_307002,
   114_291602_297402_303302_291802,
   115_274002_279502_285102_274602,
   116_257502_262702_268002_259102,
   117_242002_246802_251702_246402,
   118_227302_231802_236402_233302,
   119_213102_217402_221702_218802,
   120_199902_203902_208002_203202,
   121_187402_191102_194902_190702,
   122_175302_178802_182402_176302,
   123_163802_167102_170402_164702,
   124_153102_156202_159302_155102,
   125_142802_145702_148602_144102,
   126_133202_135902_138602_134002,
   127_124002_126502_129002_124302,
   128_115402_117702_120102_115902,
   129_107202_109302_111502_106302,
   130_995103_101502_103502_989203,
   131_922203_940603_959403_912103,
   132_853303_870403_887803_844903,
   133_789603_805303_821503_788003,
   134_728803_743303_758203_727303,
   135_671903_685303_699003_664803,
   136_618503_630903_643503_610703,
   137_568603_579903_591503_563903,
   138_521503_531903_542503_518603,
   139_478103_487703_497403_475903,
   140_437203_445903_454903_434903,
   141_399103_407003_415203_395203,
   142_363403_370603_378103_363003,
   143_330003_336603_343403_327303,
   144_299503_305503_311603_298303,
   145_271203_276603_282103_272303,
   146_245003_249903_254903_244003,
   147_220403_224803_229303_217703,
   148_197703_201703_205703_198003,
   149_176803_180303_183903_177703,
   150_158103_161303_164503_159603,
   151_140803_143803_146803_141603,
   152_124703_127503_130403_125003,
   153_110803_113403_116103_110303,
   154_979704_100403_103003_981504,
   155_862704_885504_909004_870104,
   156_757804_778804_800504_760204,
   157_661504_680804_700604_675604,
   158_570204_587504_605404_582404,
   159_479304_494504_510204_494304,
   160_396704_409804_423304_418404,
   161_327704_339004_350604_344104,
   162_270804_280404_290404_282304,
   163_224004_232304_240804_228704,
   164_185304_192404_199704_191804,
   165_153004_159004_165304_162204,
   166_126304_131404_136804_133704,
   167_103904_108304_112804_110304,
   168_854905_892005_930705_939705,
   169_707805_739405_772505_782705,
   170_585905_612905_641105_659005,
   171_487105_510205_534305_549105,
   172_405005_424605_445305_448505,
   173_336805_353705_371305_379405,
   174_280205_294505_309605_309605,
   175_234005_246305_259205_253205,
   176_195405_205905_217005_202105,
   177_164005_173005_182505_171405,
   178_137605_145405_153605_139005,
   179_114505_121105_128105_114105,
   180_952806_100905_106905_962106,
   181_783306_830506_880606_792906,
   182_644306_684006_726106_661906,
   183_525206_558206_593306_535906,
   184_428306_455806_485006_430906,
   185_345706_368306_392406_354206,
   186_279106_297806_317706_294506,
   187_222106_237306_253406_228406,
   188_176806_189106_202206_185006,
   189_139706_149506_160106_148806,
   190_110306_118306_126806_118306,
   191_864307_927707_995707_952307,
   192_677107_727607_781907_714107,
   193_528107_568207_611307_547107,
   194_411907_443707_478007_437607,
   195_319307_344407_371407_353907,
   196_247507_267307_288607_275607,
   197_190907_206407_223107_216907,
   198_147207_159407_172507_164707,
   199_108707_117807_127607_119807,
   200_802208_870408_944408_924008,
   201_609508_662108_719308_644808,
   202_463208_503708_547808_478408,
   203_352008_383208_417308_350408,
   204_267508_291608_317908_258708,
   205_203308_221908_242208_203508,
   206_154208_168508_184208_155608,
   207_117008_128108_140108_124808,
   208_888409_973109_106608_940409,
   209_674409_739609_811209_731709,
   210_512109_562309_617409_533109,
   211_378409_416009_457309_414409,
   212_279609_307709_338709_299509,
   213_206609_227609_250809_205909,
   214_152609_168409_185809_153209,
   215_112809_124609_137609_110009,
   216_825410_912710_100909_816110,
   217_604010_668710_740310_628410,
   218_442010_489910_543010_470510,
   219_323510_359010_398310_345010,
   220_236710_263010_292210_238210,
   221_173410_192810_214510_163210,
   222_127010_141410_157410_134010,
   223_929811_103710_115610_962511,
   224_681011_760111_848511_713711,
   225_498811_557411_622911_516011,
   226_367511_411111_460011_387811,
   227_270711_303311_339711_319411,
   228_199511_223711_250911_229411,
   229_147011_165111_185311_167211,
   230_108311_121811_136911_118211,
   231_807512_908712_102311_886912,
   232_602112_678312_764212_588412,
   233_449012_506512_571212_443312,
   234_335012_378312_427212_325012,
   235_250012_282612_319512_274312,
   236_190512_215612_244012_204812,
   237_145312_164612_186512_178912,
   238_110912_125812_142712_145012,
   239_847513_962513_109312_108712,
   240_648113_736913_837913_847013,
   241_511713_582513_663013_683213,
   242_404613_461113_525513_542513,
   243_320413_365513_417113_470913,
   244_254013_290213_331413_368313,
   245_201713_230613_263713_271613,
   246_171213_196013_224413_206413,
   247_145513_166713_191113_161013,
   248_123713_141913_162813_148913,
   249_105213_120813_138813_129113,
   250_895414_103013_118413_998814]

/-- atmdata/Venus/LAT80S.txt:23256-23406, columns 0 to 4. -/
def venusProfile155 : List ℕ :=
  [100_635202_647902_660902_640702,
   101_603502_615602_627902_604402,
   102_573002_584502_596202_573802,
   103_543802_554702_565802_542402,
   104_515902_526202_536702_514002,
   105_488902_498702_508702_485702,
   106_463102_472402_481802_459802,
   107_438302_447102_456002_440002,
   108_414302_422602_431102_418802,
   109_391702_399502_407502_395602,
   110_369802_377202_384702_372202,
   111_348802_355802_362902_349702,
   112_328802_335402_342102_328002,
   113_309802_316002_322302_310202,
   114_291602_297402_303302_290802,
   115_274002_279502_285102_271602,
   116_257502_262702_268002_256602,
   117_242002_246802_251702_241702,
   118_227302_231802_236402_226802,
   119_213102_217402_221702_213802,
   120_199902_203902_208002_201402,
   121_187402_191102_194902_189202,
   122_175302_178802_182402_177402,
   123_163802_167102_170402_165302,
   124_153102_156202_159302_154902,
   125_142802_145702_148602_144402,
   126_133202_135902_138602_135402,
   127_124002_126502_129002_125702,
   128_115402_117702_120102_116502,
   129_107202_109302_111502_108402,
   130_995103_101502_103502_100902,
   131_922203_940603_959403_929403,
   132_853303_870403_887803_860303,
   133_789603_805303_821503_793603,
   134_728803_743303_758203_718403,
   135_671903_685303_699003_655303,
   136_618503_630903_643503_607403,
   137_568603_579903_591503_560503,
   138_521503_531903_542503_510403,
   139_478103_487703_497403_471003,
   140_437203_445903_454903_425903,
   141_399103_407003_415203_391903,
   142_363403_370603_378103_361103,
   143_330003_336603_343403_328603,
   144_299503_305503_311603_300603,
   145_271203_276603_282103_272103,
   146_245003_249903_254903_250403,
   147_220403_224803_229303_225503,
   148_197703_201703_205703_198803,
   149_176803_180303_183903_177803,
   150_158103_161303_164503_160203,
   151_140803_143803_146803_143603,
   152_124703_127503_130403_127003,
   153_110803_113403_116103_113503,
   154_979704_100403_103003_100003,
   155_862704_885504_909004_886904,
   156_757804_778804_800504_782704,
   157_661504_680804_700604_676704,
   158_570204_587504_605404_582504,
   159_479304_494504_510204_491704,
   160_396704_409804_423304_402604,
   161_327704_339004_350604_327304,
   162_270804_280404_290404_267204,
   163_224004_232304_240804_223504,
   164_185304_192404_199704_181704,
   165_153004_159004_165304_151504,
   166_126304_131404_136804_125104,
   167_103904_108304_112804_103204,
   168_854905_892005_930705_853105,
   169_707805_739405_772505_712705,
   170_585905_612905_641105_585605,
   171_487105_510205_534305_482005,
   172_405005_424605_445305_408705,
   173_336805_353705_371305_345005,
   174_280205_294505_309605_283605,
   175_234005_246305_259205_238905,
   176_195405_205905_217005_205205,
   177_164005_173005_182505_174005,
   178_137605_145405_153605_140505,
   179_114505_121105_128105_114605,
   180_952806_100905_106905_944806,
   181_783306_830506_880606_755806,
   182_644306_684006_726106_643006,
   183_525206_558206_593306_532306,
   184_428306_455806_485006_421406,
   185_345706_368306_392406_345206,
   186_279106_297806_317706_277806,
   187_222106_237306_253406_234206,
   188_176806_189106_202206_190806,
   189_139706_149506_160106_149506,
   190_110306_118306_126806_118306,
   191_864307_927707_995707_925907,
   192_677107_727607_781907_676007,
   193_528107_568207_611307_546507,
   194_411907_443707_478007_419507,
   195_319307_344407_371407_317807,
   196_247507_267307_288607_253307,
   197_190907_206407_223107_199907,
   198_147207_159407_172507_155807,
   199_108707_117807_127607_115907,
   200_802208_870408_944408_835608,
   201_609508_662108_719308_631808,
   202_463208_503708_547808_469708,
   203_352008_383208_417308_355208,
   204_267508_291608_317908_266108,
   205_203308_221908_242208_204908,
   206_154208_168508_184208_158408,
   207_117008_128108_140108_118508,
   208_888409_973109_106608_871509,
   209_674409_739609_811209_640209,
   210_512109_562309_617409_490209,
   211_378409_416009_457309_343509,
   212_279609_307709_338709_269809,
   213_206609_227609_250809_194209,
   214_152609_168409_185809_140009,
   215_112809_124609_137609_113809,
   216_825410_912710_100909_848210,
   217_604010_668710_740310_568010,
   218_442010_489910_543010_436710,
   219_323510_359010_398310_324710,
   220_236710_263010_292210_223310,
   221_173410_192810_214510_164510,
   222_127010_141410_157410_119610,
   223_929811_103710_115610_928511,
   224_681011_760111_848511_650811,
   225_498811_557411_622911_475011,
   226_367511_411111_460011_326911,
   227_270711_303311_339711_269511,
   228_199511_223711_250911_185511,
   229_147011_165111_185311_126311,
   230_108311_121811_136911_958512,
   231_807512_908712_102311_773412,
   232_602112_678312_764212_606612,
   233_449012_506512_571212_476712,
   234_335012_378312_427212_375712,
   235_250012_282612_319512_296912,
   236_190512_215612_244012_228212,
   237_145312_164612_186512_173612,
   238_110912_125812_142712_133812,
   239_847513_962513_109312_933013,
   240_648113_736913_837913_671713,
   241_511713_582513_663013_479513,
   242_404613_461113_525513_388513,
   243_320413_365513_417113_327713,
   244_254013_290213_331413_292613,
   245_201713_230613_263713_227413,
   246_171213_196013_224413_198413,
   247_145513_166713_191113_179613,
   248_123713_141913_162813_144713,
   249_105213_120813_138813_114513,
   250_895414_103013_118413_881214]

/-- atmdata/Venus/LAT80S.txt:23407-23557, columns 0 to 4. -/
def venusProfile156 : List ℕ :=
  [100_635202_647902_660902_650202,
   101_603502_615602_627902_611002,
   102_573002_584502_596202_579002,
   103_543802_554702_565802_544502,
   104_515902_526202_536702_516702,
   105_488902_498702_508702_492302,
   106_463102_472402_481802_468402,
   107_438302_447102_456002_437202,
   108_414302_422602_431102_411202,
   109_391702_399502_407502_388402,
   110_369802_377202_384702_366502,
   111_348802_355802_362902_342502,
   112_328802_335402_342102_322702,
   113_309802_316002_322302_302102,
   114_291602_297402_303302_284602,
   115_274002_279502_285102_268402,
   116_257502_262702_268002_253902,
   117_242002_246802_251702_238202,
   118_227302_231802_236402_225102,
   119_213102_217402_221702_209602,
   120_199902_203902_208002_196702,
   121_187402_191102_194902_185102,
   122_175302_178802_182402_172602,
   123_163802_167102_170402_160502,
   124_153102_156202_159302_150002,
   125_142802_145702_148602_140402,
   126_133202_135902_138602_131002,
   127_124002_126502_129002_121902,
   128_115402_117702_120102_114302,
   129_107202_109302_111502_105702,
   130_995103_101502_103502_987503,
   131_922203_940603_959403_910003,
   132_853303_870403_887803_843403,
   133_789603_805303_821503_783703,
   134_728803_743303_758203_725103,
   135_671903_685303_699003_678603,
   136_618503_630903_643503_622603,
   137_568603_579903_591503_573303,
   138_521503_531903_542503_526803,
   139_478103_487703_497403_477803,
   140_437203_445903_454903_438503,
   141_399103_407003_415203_400103,
   142_363403_370603_378103_371303,
   143_330003_336603_343403_341003,
   144_299503_305503_311603_305703,
   145_271203_276603_282103_271603,
   146_245003_249903_254903_247903,
   147_220403_224803_229303_220803,
   148_197703_201703_205703_196103,
   149_176803_180303_183903_174903,
   150_158103_161303_164503_158903,
   151_140803_143803_146803_141003,
   152_124703_127503_130403_124903,
   153_110803_113403_116103_110603,
   154_979704_100403_103003_991404,
   155_862704_885504_909004_880004,
   156_757804_778804_800504_757704,
   157_661504_680804_700604_660804,
   158_570204_587504_605404_568504,
   159_479304_494504_510204_477904,
   160_396704_409804_423304_395004,
   161_327704_339004_350604_331504,
   162_270804_280404_290404_285704,
   163_224004_232304_240804_234504,
   164_185304_192404_199704_193504,
   165_153004_159004_165304_158704,
   166_126304_131404_136804_130204,
   167_103904_108304_112804_106604,
   168_854905_892005_930705_849405,
   169_707805_739405_772505_707305,
   170_585905_612905_641105_594205,
   171_487105_510205_534305_506005,
   172_405005_424605_445305_416405,
   173_336805_353705_371305_348305,
   174_280205_294505_309605_286605,
   175_234005_246305_259205_250105,
   176_195405_205905_217005_211605,
   177_164005_173005_182505_179105,
   178_137605_145405_153605_143605,
   179_114505_121105_128105_116105,
   180_952806_100905_106905_100805,
   181_783306_830506_880606_843506,
   182_644306_684006_726106_645106,
   183_525206_558206_593306_549506,
   184_428306_455806_485006_470406,
   185_345706_368306_392406_380106,
   186_279106_297806_317706_317506,
   187_222106_237306_253406_256906,
   188_176806_189106_202206_209606,
   189_139706_149506_160106_158206,
   190_110306_118306_126806_124106,
   191_864307_927707_995707_938207,
   192_677107_727607_781907_770607,
   193_528107_568207_611307_593607,
   194_411907_443707_478007_472907,
   195_319307_344407_371407_365007,
   196_247507_267307_288607_292907,
   197_190907_206407_223107_227307,
   198_147207_159407_172507_179107,
   199_108707_117807_127607_134107,
   200_802208_870408_944408_985208,
   201_609508_662108_719308_761008,
   202_463208_503708_547808_559108,
   203_352008_383208_417308_426408,
   204_267508_291608_317908_318808,
   205_203308_221908_242208_237908,
   206_154208_168508_184208_183808,
   207_117008_128108_140108_141408,
   208_888409_973109_106608_112908,
   209_674409_739609_811209_855709,
   210_512109_562309_617409_659809,
   211_378409_416009_457309_471109,
   212_279609_307709_338709_340809,
   213_206609_227609_250809_246309,
   214_152609_168409_185809_191509,
   215_112809_124609_137609_143309,
   216_825410_912710_100909_105409,
   217_604010_668710_740310_740610,
   218_442010_489910_543010_563710,
   219_323510_359010_398310_412710,
   220_236710_263010_292210_278810,
   221_173410_192810_214510_210510,
   222_127010_141410_157410_156210,
   223_929811_103710_115610_111010,
   224_681011_760111_848511_832711,
   225_498811_557411_622911_597111,
   226_367511_411111_460011_439311,
   227_270711_303311_339711_343811,
   228_199511_223711_250911_261211,
   229_147011_165111_185311_194011,
   230_108311_121811_136911_147511,
   231_807512_908712_102311_103211,
   232_602112_678312_764212_759212,
   233_449012_506512_571212_525812,
   234_335012_378312_427212_384812,
   235_250012_282612_319512_296312,
   236_190512_215612_244012_237712,
   237_145312_164612_186512_162212,
   238_110912_125812_142712_120712,
   239_847513_962513_109312_949113,
   240_648113_736913_837913_730513,
   241_511713_582513_663013_564713,
   242_404613_461113_525513_444313,
   243_320413_365513_417113_356913,
   244_254013_290213_331413_280213,
   245_201713_230613_263713_225513,
   246_171213_196013_224413_186513,
   247_145513_166713_191113_162413,
   248_123713_141913_162813_138613,
   249_105213_120813_138813_119513,
   250_895414_103013_118413_900614]

/-- atmdata/Venus/LAT80S.txt:23558-23708, columns 0 to 4. -/
def venusProfile157 : List ℕ :=
  [100_635202_647902_660902_661502,
   101_603502_615602_627902_633602,
   102_573002_584502_596202_598702,
   103_543802_554702_565802_570802,
   104_515902_526202_536702_541802,
   105_488902_498702_508702_512402,
   106_463102_472402_481802_482902,
   107_438302_447102_456002_452402,
   108_414302_422602_431102_426702,
   109_391702_399502_407502_402302,
   110_369802_377202_384702_379902,
   111_348802_355802_362902_360202,
   112_328802_335402_342102_339802,
   113_309802_316002_322302_319802,
   114_291602_297402_303302_301502,
   115_274002_279502_285102_281802,
   116_257502_262702_268002_266302,
   117_242002_246802_251702_252702,
   118_227302_231802_236402_236302,
   119_213102_217402_221702_221002,
   120_199902_203902_208002_206102,
   121_187402_191102_194902_193702,
   122_175302_178802_182402_182002,
   123_163802_167102_170402_171702,
   124_153102_156202_159302_159302,
   125_142802_145702_148602_149302,
   126_133202_135902_138602_140302,
   127_124002_126502_129002_130502,
   128_115402_117702_120102_121102,
   129_107202_109302_111502_112802,
   130_995103_101502_103502_105402,
   131_922203_940603_959403_968003,
   132_853303_870403_887803_894803,
   133_789603_805303_821503_820203,
   134_728803_743303_758203_751803,
   135_671903_685303_699003_699703,
   136_618503_630903_643503_646203,
   137_568603_579903_591503_593503,
   138_521503_531903_542503_539003,
   139_478103_487703_497403_492403,
   140_437203_445903_454903_448503,
   141_399103_407003_415203_404903,
   142_363403_370603_378103_365303,
   143_330003_336603_343403_331403,
   144_299503_305503_311603_299603,
   145_271203_276603_282103_271903,
   146_245003_249903_254903_247503,
   147_220403_224803_229303_222903,
   148_197703_201703_205703_198403,
   149_176803_180303_183903_175503,
   150_158103_161303_164503_156003,
   151_140803_143803_146803_139903,
   152_124703_127503_130403_124203,
   153_110803_113403_116103_111403,
   154_979704_100403_103003_987204,
   155_862704_885504_909004_877104,
   156_757804_778804_800504_769704,
   157_661504_680804_700604_675204,
   158_570204_587504_605404_579604,
   159_479304_494504_510204_484204,
   160_396704_409804_423304_402804,
   161_327704_339004_350604_334104,
   162_270804_280404_290404_280604,
   163_224004_232304_240804_237004,
   164_185304_192404_199704_198004,
   165_153004_159004_165304_158604,
   166_126304_131404_136804_129704,
   167_103904_108304_112804_105604,
   168_854905_892005_930705_873605,
   169_707805_739405_772505_723305,
   170_585905_612905_641105_587305,
   171_487105_510205_534305_489605,
   172_405005_424605_445305_415505,
   173_336805_353705_371305_345105,
   174_280205_294505_309605_284505,
   175_234005_246305_259205_236605,
   176_195405_205905_217005_199105,
   177_164005_173005_182505_169405,
   178_137605_145405_153605_135505,
   179_114505_121105_128105_108205,
   180_952806_100905_106905_916106,
   181_783306_830506_880606_753506,
   182_644306_684006_726106_609806,
   183_525206_558206_593306_491506,
   184_428306_455806_485006_416006,
   185_345706_368306_392406_337806,
   186_279106_297806_317706_273906,
   187_222106_237306_253406_221006,
   188_176806_189106_202206_186006,
   189_139706_149506_160106_150506,
   190_110306_118306_126806_118006,
   191_864307_927707_995707_950007,
   192_677107_727607_781907_769307,
   193_528107_568207_611307_627707,
   194_411907_443707_478007_478307,
   195_319307_344407_371407_378507,
   196_247507_267307_288607_276007,
   197_190907_206407_223107_214407,
   198_147207_159407_172507_155307,
   199_108707_117807_127607_122007,
   200_802208_870408_944408_936708,
   201_609508_662108_719308_684408,
   202_463208_503708_547808_506008,
   203_352008_383208_417308_401008,
   204_267508_291608_317908_304308,
   205_203308_221908_242208_223108,
   206_154208_168508_184208_176508,
   207_117008_128108_140108_127208,
   208_888409_973109_106608_989709,
   209_674409_739609_811209_703009,
   210_512109_562309_617409_505609,
   211_378409_416009_457309_376109,
   212_279609_307709_338709_297709,
   213_206609_227609_250809_220909,
   214_152609_168409_185809_166409,
   215_112809_124609_137609_122809,
   216_825410_912710_100909_923510,
   217_604010_668710_740310_670610,
   218_442010_489910_543010_539210,
   219_323510_359010_398310_399110,
   220_236710_263010_292210_267410,
   221_173410_192810_214510_186610,
   222_127010_141410_157410_123210,
   223_929811_103710_115610_953011,
   224_681011_760111_848511_689711,
   225_498811_557411_622911_503111,
   226_367511_411111_460011_420911,
   227_270711_303311_339711_328411,
   228_199511_223711_250911_242111,
   229_147011_165111_185311_172611,
   230_108311_121811_136911_120311,
   231_807512_908712_102311_893612,
   232_602112_678312_764212_639512,
   233_449012_506512_571212_474512,
   234_335012_378312_427212_382312,
   235_250012_282612_319512_289012,
   236_190512_215612_244012_206812,
   237_145312_164612_186512_159412,
   238_110912_125812_142712_137612,
   239_847513_962513_109312_101612,
   240_648113_736913_837913_842813,
   241_511713_582513_663013_670513,
   242_404613_461113_525513_513413,
   243_320413_365513_417113_395913,
   244_254013_290213_331413_329513,
   245_201713_230613_263713_270413,
   246_171213_196013_224413_244613,
   247_145513_166713_191113_202113,
   248_123713_141913_162813_176913,
   249_105213_120813_138813_133613,
   250_895414_103013_118413_130813]

/-- atmdata/Venus/LAT80S.txt:23709-23859, columns 0 to 4. -/
def venusProfile158 : List ℕ :=
  [100_635202_647902_660902_634002,
   101_603502_615602_627902_606902,
   102_573002_584502_596202_572702,
   103_543802_554702_565802_545302,
   104_515902_526202_536702_519302,
   105_488902_498702_508702_484602,
   106_463102_472402_481802_460002,
   107_438302_447102_456002_432102,
   108_414302_422602_431102_409502,
   109_391702_399502_407502_386302,
   110_369802_377202_384702_366102,
   111_348802_355802_362902_346502,
   112_328802_335402_342102_328602,
   113_309802_316002_322302_311202,
   114_291602_297402_303302_295102,
   115_274002_279502_285102_278302,
   116_257502_262702_268002_263402,
   117_242002_246802_251702_247902,
   118_227302_231802_236402_233402,
   119_213102_217402_221702_219202,
   120_199902_203902_208002_206802,
   121_187402_191102_194902_194602,
   122_175302_178802_182402_181702,
   123_163802_167102_170402_170502,
   124_153102_156202_159302_160302,
   125_142802_145702_148602_147602,
   126_133202_135902_138602_137602,
   127_124002_126502_129002_128202,
   128_115402_117702_120102_118002,
   129_107202_109302_111502_109402,
   130_995103_101502_103502_100102,
   131_922203_940603_959403_920903,
   132_853303_870403_887803_853303,
   133_789603_805303_821503_790203,
   134_728803_743303_758203_732703,
   135_671903_685303_699003_681603,
   136_618503_630903_643503_625103,
   137_568603_579903_591503_574603,
   138_521503_531903_542503_527903,
   139_478103_487703_497403_485003,
   140_437203_445903_454903_447503,
   141_399103_407003_415203_409603,
   142_363403_370603_378103_370103,
   143_330003_336603_343403_338203,
   144_299503_305503_311603_306503,
   145_271203_276603_282103_275603,
   146_245003_249903_254903_250103,
   147_220403_224803_229303_222303,
   148_197703_201703_205703_198203,
   149_176803_180303_183903_178603,
   150_158103_161303_164503_159203,
   151_140803_143803_146803_141303,
   152_124703_127503_130403_125703,
   153_110803_113403_116103_111503,
   154_979704_100403_103003_977804,
   155_862704_885504_909004_869704,
   156_757804_778804_800504_771704,
   157_661504_680804_700604_682304,
   158_570204_587504_605404_584504,
   159_479304_494504_510204_484204,
   160_396704_409804_423304_406004,
   161_327704_339004_350604_333504,
   162_270804_280404_290404_278104,
   163_224004_232304_240804_230604,
   164_185304_192404_199704_186504,
   165_153004_159004_165304_156104,
   166_126304_131404_136804_127104,
   167_103904_108304_112804_102804,
   168_854905_892005_930705_829005,
   169_707805_739405_772505_686205,
   170_585905_612905_641105_573305,
   171_487105_510205_534305_466005,
   172_405005_424605_445305_386305,
   173_336805_353705_371305_319805,
   174_280205_294505_309605_265305,
   175_234005_246305_259205_227005,
   176_195405_205905_217005_189905,
   177_164005_173005_182505_162405,
   178_137605_145405_153605_127505,
   179_114505_121105_128105_112405,
   180_952806_100905_106905_927306,
   181_783306_830506_880606_723806,
   182_644306_684006_726106_596406,
   183_525206_558206_593306_492706,
   184_428306_455806_485006_411606,
   185_345706_368306_392406_332806,
   186_279106_297806_317706_288206,
   187_222106_237306_253406_228306,
   188_176806_189106_202206_173806,
   189_139706_149506_160106_138106,
   190_110306_118306_126806_108406,
   191_864307_927707_995707_854407,
   192_677107_727607_781907_692307,
   193_528107_568207_611307_543307,
   194_411907_443707_478007_437207,
   195_319307_344407_371407_325707,
   196_247507_267307_288607_246907,
   197_190907_206407_223107_192907,
   198_147207_159407_172507_146507,
   199_108707_117807_127607_105207,
   200_802208_870408_944408_762008,
   201_609508_662108_719308_589008,
   202_463208_503708_547808_440708,
   203_352008_383208_417308_323308,
   204_267508_291608_317908_253108,
   205_203308_221908_242208_176208,
   206_154208_168508_184208_149208,
   207_117008_128108_140108_114708,
   208_888409_973109_106608_879909,
   209_674409_739609_811209_674209,
   210_512109_562309_617409_510509,
   211_378409_416009_457309_387609,
   212_279609_307709_338709_287509,
   213_206609_227609_250809_217709,
   214_152609_168409_185809_159509,
   215_112809_124609_137609_114709,
   216_825410_912710_100909_876610,
   217_604010_668710_740310_654110,
   218_442010_489910_543010_453510,
   219_323510_359010_398310_343710,
   220_236710_263010_292210_229410,
   221_173410_192810_214510_170410,
   222_127010_141410_157410_124010,
   223_929811_103710_115610_896811,
   224_681011_760111_848511_717111,
   225_498811_557411_622911_522511,
   226_367511_411111_460011_385711,
   227_270711_303311_339711_300511,
   228_199511_223711_250911_216111,
   229_147011_165111_185311_170811,
   230_108311_121811_136911_125011,
   231_807512_908712_102311_965812,
   232_602112_678312_764212_767712,
   233_449012_506512_571212_584012,
   234_335012_378312_427212_428912,
   235_250012_282612_319512_315812,
   236_190512_215612_244012_235112,
   237_145312_164612_186512_163812,
   238_110912_125812_142712_128612,
   239_847513_962513_109312_106212,
   240_648113_736913_837913_790813,
   241_511713_582513_663013_672413,
   242_404613_461113_525513_507313,
   243_320413_365513_417113_377213,
   244_254013_290213_331413_288113,
   245_201713_230613_263713_199113,
   246_171213_196013_224413_173113,
   247_145513_166713_191113_141013,
   248_123713_141913_162813_111713,
   249_105213_120813_138813_972714,
   250_895414_103013_118413_958114]

/-- atmdata/Venus/LAT80S.txt:23860-24010, columns 0 to 4. -/
def venusProfile159 : List ℕ :=
  [100_635202_647902_660902_645302,
   101_603502_615602_627902_616602,
   102_573002_584502_596202_591002,
   103_543802_554702_565802_561002,
   104_515902_526202_536702_535102,
   105_488902_498702_508702_507402,
   106_463102_472402_481802_486102,
   107_438302_447102_456002_456402,
   108_414302_422602_431102_433202,
   109_391702_399502_407502_407702,
   110_369802_377202_384702_386602,
   111_348802_355802_362902_364302,
   112_328802_335402_342102_340502,
   113_309802_316002_322302_319002,
   114_291602_297402_303302_298502,
   115_274002_279502_285102_279502,
   116_257502_262702_268002_264902,
   117_242002_246802_251702_248102,
   118_227302_231802_236402_231602,
   119_213102_217402_221702_218602,
   120_199902_203902_208002_205302,
   121_187402_191102_194902_193402,
   122_175302_178802_182402_178702,
   123_163802_167102_170402_167302,
   124_153102_156202_159302_156702,
   125_142802_145702_148602_145502,
   126_133202_135902_138602_134602,
   127_124002_126502_129002_125802,
   128_115402_117702_120102_117302,
   129_107202_109302_111502_110202,
   130_995103_101502_103502_101602,
   131_922203_940603_959403_933603,
   132_853303_870403_887803_864703,
   133_789603_805303_821503_806503,
   134_728803_743303_758203_742103,
   135_671903_685303_699003_689003,
   136_618503_630903_643503_636703,
   137_568603_579903_591503_584303,
   138_521503_531903_542503_531003,
   139_478103_487703_497403_490603,
   140_437203_445903_454903_448803,
   141_399103_407003_415203_408103,
   142_363403_370603_378103_369503,
   143_330003_336603_343403_334203,
   144_299503_305503_311603_304003,
   145_271203_276603_282103_276403,
   146_245003_249903_254903_250503,
   147_220403_224803_229303_225303,
   148_197703_201703_205703_201003,
   149_176803_180303_183903_180203,
   150_158103_161303_164503_160903,
   151_140803_143803_146803_144303,
   152_124703_127503_130403_128603,
   153_110803_113403_116103_115803,
   154_979704_100403_103003_103103,
   155_862704_885504_909004_916904,
   156_757804_778804_800504_798404,
   157_661504_680804_700604_686704,
   158_570204_587504_605404_587104,
   159_479304_494504_510204_502904,
   160_396704_409804_423304_405604,
   161_327704_339004_350604_326704,
   162_270804_280404_290404_271104,
   163_224004_232304_240804_221304,
   164_185304_192404_199704_182904,
   165_153004_159004_165304_151304,
   166_126304_131404_136804_122704,
   167_103904_108304_112804_977105,
   168_854905_892005_930705_815605,
   169_707805_739405_772505_673005,
   170_585905_612905_641105_584105,
   171_487105_510205_534305_493005,
   172_405005_424605_445305_419205,
   173_336805_353705_371305_341705,
   174_280205_294505_309605_282605,
   175_234005_246305_259205_231105,
   176_195405_205905_217005_191105,
   177_164005_173005_182505_163405,
   178_137605_145405_153605_145405,
   179_114505_121105_128105_124805,
   180_952806_100905_106905_107605,
   181_783306_830506_880606_889706,
   182_644306_684006_726106_730206,
   183_525206_558206_593306_605906,
   184_428306_455806_485006_492606,
   185_345706_368306_392406_391006,
   186_279106_297806_317706_315206,
   187_222106_237306_253406_244006,
   188_176806_189106_202206_188106,
   189_139706_149506_160106_144606,
   190_110306_118306_126806_112606,
   191_864307_927707_995707_857007,
   192_677107_727607_781907_689207,
   193_528107_568207_611307_516207,
   194_411907_443707_478007_399807,
   195_319307_344407_371407_310207,
   196_247507_267307_288607_239907,
   197_190907_206407_223107_187207,
   198_147207_159407_172507_145607,
   199_108707_117807_127607_107107,
   200_802208_870408_944408_800808,
   201_609508_662108_719308_646408,
   202_463208_503708_547808_481108,
   203_352008_383208_417308_362708,
   204_267508_291608_317908_283908,
   205_203308_221908_242208_224408,
   206_154208_168508_184208_162408,
   207_117008_128108_140108_130308,
   208_888409_973109_106608_966009,
   209_674409_739609_811209_781309,
   210_512109_562309_617409_603609,
   211_378409_416009_457309_462909,
   212_279609_307709_338709_311809,
   213_206609_227609_250809_239409,
   214_152609_168409_185809_166809,
   215_112809_124609_137609_134609,
   216_825410_912710_100909_102409,
   217_604010_668710_740310_774310,
   218_442010_489910_543010_542410,
   219_323510_359010_398310_407710,
   220_236710_263010_292210_259610,
   221_173410_192810_214510_200510,
   222_127010_141410_157410_150110,
   223_929811_103710_115610_113910,
   224_681011_760111_848511_831611,
   225_498811_557411_622911_599811,
   226_367511_411111_460011_469411,
   227_270711_303311_339711_356611,
   228_199511_223711_250911_238211,
   229_147011_165111_185311_175411,
   230_108311_121811_136911_133711,
   231_807512_908712_102311_920312,
   232_602112_678312_764212_699612,
   233_449012_506512_571212_476312,
   234_335012_378312_427212_417312,
   235_250012_282612_319512_302612,
   236_190512_215612_244012_234112,
   237_145312_164612_186512_179312,
   238_110912_125812_142712_133912,
   239_847513_962513_109312_102612,
   240_648113_736913_837913_812813,
   241_511713_582513_663013_612113,
   242_404613_461113_525513_455113,
   243_320413_365513_417113_397613,
   244_254013_290213_331413_322713,
   245_201713_230613_263713_243713,
   246_171213_196013_224413_195513,
   247_145513_166713_191113_185313,
   248_123713_141913_162813_153813,
   249_105213_120813_138813_142813,
   250_895414_103013_118413_131013]

/-- atmdata/Venus/LAT80S.txt:24011-24161, columns 0 to 4. -/
def venusProfile160 : List ℕ :=
  [100_635202_647902_660902_654802,
   101_603502_615602_627902_624802,
   102_573002_584502_596202_596002,
   103_543802_554702_565802_564502,
   104_515902_526202_536702_529102,
   105_488902_498702_508702_499102,
   106_463102_472402_481802_472102,
   107_438302_447102_456002_444002,
   108_414302_422602_431102_416702,
   109_391702_399502_407502_392302,
   110_369802_377202_384702_375102,
   111_348802_355802_362902_353102,
   112_328802_335402_342102_332002,
   113_309802_316002_322302_313002,
   114_291602_297402_303302_294302,
   115_274002_279502_285102_277902,
   116_257502_262702_268002_264102,
   117_242002_246802_251702_250502,
   118_227302_231802_236402_235402,
   119_213102_217402_221702_219502,
   120_199902_203902_208002_205202,
   121_187402_191102_194902_193602,
   122_175302_178802_182402_181302,
   123_163802_167102_170402_169402,
   124_153102_156202_159302_157902,
   125_142802_145702_148602_147102,
   126_133202_135902_138602_137402,
   127_124002_126502_129002_128502,
   128_115402_117702_120102_119002,
   129_107202_109302_111502_110602,
   130_995103_101502_103502_102202,
   131_922203_940603_959403_938403,
   132_853303_870403_887803_869103,
   133_789603_805303_821503_801903,
   134_728803_743303_758203_745603,
   135_671903_685303_699003_691403,
   136_618503_630903_643503_633503,
   137_568603_579903_591503_581103,
   138_521503_531903_542503_533503,
   139_478103_487703_497403_486203,
   140_437203_445903_454903_442203,
   141_399103_407003_415203_407103,
   142_363403_370603_378103_369303,
   143_330003_336603_343403_336403,
   144_299503_305503_311603_307103,
   145_271203_276603_282103_277103,
   146_245003_249903_254903_250603,
   147_220403_224803_229303_221903,
   148_197703_201703_205703_198403,
   149_176803_180303_183903_177403,
   150_158103_161303_164503_159003,
   151_140803_143803_146803_141203,
   152_124703_127503_130403_126103,
   153_110803_113403_116103_112103,
   154_979704_100403_103003_990004,
   155_862704_885504_909004_882004,
   156_757804_778804_800504_777204,
   157_661504_680804_700604_675704,
   158_570204_587504_605404_577004,
   159_479304_494504_510204_490104,
   160_396704_409804_423304_402604,
   161_327704_339004_350604_336404,
   162_270804_280404_290404_277304,
   163_224004_232304_240804_232104,
   164_185304_192404_199704_193804,
   165_153004_159004_165304_157504,
   166_126304_131404_136804_126104,
   167_103904_108304_112804_106704,
   168_854905_892005_930705_863005,
   169_707805_739405_772505_706205,
   170_585905_612905_641105_584305,
   171_487105_510205_534305_483305,
   172_405005_424605_445305_400405,
   173_336805_353705_371305_314505,
   174_280205_294505_309605_261905,
   175_234005_246305_259205_221205,
   176_195405_205905_217005_180505,
   177_164005_173005_182505_155305,
   178_137605_145405_153605_138005,
   179_114505_121105_128105_118105,
   180_952806_100905_106905_991806,
   181_783306_830506_880606_806306,
   182_644306_684006_726106_674606,
   183_525206_558206_593306_532906,
   184_428306_455806_485006_433206,
   185_345706_368306_392406_345106,
   186_279106_297806_317706_268306,
   187_222106_237306_253406_231706,
   188_176806_189106_202206_181206,
   189_139706_149506_160106_148106,
   190_110306_118306_126806_114506,
   191_864307_927707_995707_923507,
   192_677107_727607_781907_733207,
   193_528107_568207_611307_578907,
   194_411907_443707_478007_465007,
   195_319307_344407_371407_365507,
   196_247507_267307_288607_282807,
   197_190907_206407_223107_216807,
   198_147207_159407_172507_169907,
   199_108707_117807_127607_125707,
   200_802208_870408_944408_959208,
   201_609508_662108_719308_712308,
   202_463208_503708_547808_526508,
   203_352008_383208_417308_403108,
   204_267508_291608_317908_317408,
   205_203308_221908_242208_243308,
   206_154208_168508_184208_178508,
   207_117008_128108_140108_132508,
   208_888409_973109_106608_943409,
   209_674409_739609_811209_711009,
   210_512109_562309_617409_493109,
   211_378409_416009_457309_343809,
   212_279609_307709_338709_260809,
   213_206609_227609_250809_213509,
   214_152609_168409_185809_165009,
   215_112809_124609_137609_125509,
   216_825410_912710_100909_979910,
   217_604010_668710_740310_663710,
   218_442010_489910_543010_477110,
   219_323510_359010_398310_367110,
   220_236710_263010_292210_295510,
   221_173410_192810_214510_207710,
   222_127010_141410_157410_139910,
   223_929811_103710_115610_100310,
   224_681011_760111_848511_700011,
   225_498811_557411_622911_513111,
   226_367511_411111_460011_376011,
   227_270711_303311_339711_290511,
   228_199511_223711_250911_222811,
   229_147011_165111_185311_156511,
   230_108311_121811_136911_108511,
   231_807512_908712_102311_805512,
   232_602112_678312_764212_597112,
   233_449012_506512_571212_441912,
   234_335012_378312_427212_336112,
   235_250012_282612_319512_242512,
   236_190512_215612_244012_202212,
   237_145312_164612_186512_144412,
   238_110912_125812_142712_102512,
   239_847513_962513_109312_753713,
   240_648113_736913_837913_556813,
   241_511713_582513_663013_454913,
   242_404613_461113_525513_331013,
   243_320413_365513_417113_284313,
   244_254013_290213_331413_214513,
   245_201713_230613_263713_174013,
   246_171213_196013_224413_161713,
   247_145513_166713_191113_146113,
   248_123713_141913_162813_129613,
   249_105213_120813_138813_109813,
   250_895414_103013_118413_102813]

/-- atmdata/Venus/LAT80S.txt:24162-24312, columns 0 to 4. -/
def venusProfile161 : List ℕ :=
  [100_635202_647902_660902_676702,
   101_603502_615602_627902_644402,
   102_573002_584502_596202_612902,
   103_543802_554702_565802_578702,
   104_515902_526202_536702_545402,
   105_488902_498702_508702_518202,
   106_463102_472402_481802_492202,
   107_438302_447102_456002_462702,
   108_414302_422602_431102_435802,
   109_391702_399502_407502_409302,
   110_369802_377202_384702_384002,
   111_348802_355802_362902_360102,
   112_328802_335402_342102_339502,
   113_309802_316002_322302_321602,
   114_291602_297402_303302_303002,
   115_274002_279502_285102_284002,
   116_257502_262702_268002_263902,
   117_242002_246802_251702_248302,
   118_227302_231802_236402_230602,
   119_213102_217402_221702_216102,
   120_199902_203902_208002_200302,
   121_187402_191102_194902_189602,
   122_175302_178802_182402_176702,
   123_163802_167102_170402_164902,
   124_153102_156202_159302_153102,
   125_142802_145702_148602_143202,
   126_133202_135902_138602_133002,
   127_124002_126502_129002_124802,
   128_115402_117702_120102_117002,
   129_107202_109302_111502_108002,
   130_995103_101502_103502_100102,
   131_922203_940603_959403_919703,
   132_853303_870403_887803_852703,
   133_789603_805303_821503_792503,
   134_728803_743303_758203_731603,
   135_671903_685303_699003_678503,
   136_618503_630903_643503_627203,
   137_568603_579903_591503_575203,
   138_521503_531903_542503_523003,
   139_478103_487703_497403_479603,
   140_437203_445903_454903_441503,
   141_399103_407003_415203_403303,
   142_363403_370603_378103_366503,
   143_330003_336603_343403_330403,
   144_299503_305503_311603_295503,
   145_271203_276603_282103_270203,
   146_245003_249903_254903_244503,
   147_220403_224803_229303_220103,
   148_197703_201703_205703_197103,
   149_176803_180303_183903_175603,
   150_158103_161303_164503_157903,
   151_140803_143803_146803_141703,
   152_124703_127503_130403_126903,
   153_110803_113403_116103_111203,
   154_979704_100403_103003_100403,
   155_862704_885504_909004_894904,
   156_757804_778804_800504_800704,
   157_661504_680804_700604_700004,
   158_570204_587504_605404_595604,
   159_479304_494504_510204_502504,
   160_396704_409804_423304_415404,
   161_327704_339004_350604_343304,
   162_270804_280404_290404_280904,
   163_224004_232304_240804_231504,
   164_185304_192404_199704_185704,
   165_153004_159004_165304_156604,
   166_126304_131404_136804_133404,
   167_103904_108304_112804_111404,
   168_854905_892005_930705_923505,
   169_707805_739405_772505_748105,
   170_585905_612905_641105_630705,
   171_487105_510205_534305_539005,
   172_405005_424605_445305_456405,
   173_336805_353705_371305_386505,
   174_280205_294505_309605_317705,
   175_234005_246305_259205_271405,
   176_195405_205905_217005_232505,
   177_164005_173005_182505_196005,
   178_137605_145405_153605_169405,
   179_114505_121105_128105_141705,
   180_952806_100905_106905_115205,
   181_783306_830506_880606_970306,
   182_644306_684006_726106_811306,
   183_525206_558206_593306_650006,
   184_428306_455806_485006_516206,
   185_345706_368306_392406_404006,
   186_279106_297806_317706_326606,
   187_222106_237306_253406_264306,
   188_176806_189106_202206_206406,
   189_139706_149506_160106_162606,
   190_110306_118306_126806_124106,
   191_864307_927707_995707_967307,
   192_677107_727607_781907_760707,
   193_528107_568207_611307_576907,
   194_411907_443707_478007_443907,
   195_319307_344407_371407_374707,
   196_247507_267307_288607_293107,
   197_190907_206407_223107_223307,
   198_147207_159407_172507_180207,
   199_108707_117807_127607_135007,
   200_802208_870408_944408_960708,
   201_609508_662108_719308_737708,
   202_463208_503708_547808_544508,
   203_352008_383208_417308_427108,
   204_267508_291608_317908_343608,
   205_203308_221908_242208_257708,
   206_154208_168508_184208_190908,
   207_117008_128108_140108_146608,
   208_888409_973109_106608_114008,
   209_674409_739609_811209_885809,
   210_512109_562309_617409_653509,
   211_378409_416009_457309_466209,
   212_279609_307709_338709_325909,
   213_206609_227609_250809_228909,
   214_152609_168409_185809_170109,
   215_112809_124609_137609_125609,
   216_825410_912710_100909_808710,
   217_604010_668710_740310_580810,
   218_442010_489910_543010_427710,
   219_323510_359010_398310_338110,
   220_236710_263010_292210_270710,
   221_173410_192810_214510_200010,
   222_127010_141410_157410_144310,
   223_929811_103710_115610_110010,
   224_681011_760111_848511_825711,
   225_498811_557411_622911_598111,
   226_367511_411111_460011_460511,
   227_270711_303311_339711_347011,
   228_199511_223711_250911_253611,
   229_147011_165111_185311_191611,
   230_108311_121811_136911_138311,
   231_807512_908712_102311_104611,
   232_602112_678312_764212_724212,
   233_449012_506512_571212_549712,
   234_335012_378312_427212_378912,
   235_250012_282612_319512_263312,
   236_190512_215612_244012_192312,
   237_145312_164612_186512_150712,
   238_110912_125812_142712_120712,
   239_847513_962513_109312_968813,
   240_648113_736913_837913_751613,
   241_511713_582513_663013_626013,
   242_404613_461113_525513_541513,
   243_320413_365513_417113_426113,
   244_254013_290213_331413_337113,
   245_201713_230613_263713_270613,
   246_171213_196013_224413_225513,
   247_145513_166713_191113_190213,
   248_123713_141913_162813_178613,
   249_105213_120813_138813_158113,
   250_895414_103013_118413_140713]

/-- atmdata/Venus/LAT80S.txt:24313-24463, columns 0 to 4. -/
def venusProfile162 : List ℕ :=
  [100_635202_647902_660902_640102,
   101_603502_615602_627902_610202,
   102_573002_584502_596202_580402,
   103_543802_554702_565802_546902,
   104_515902_526202_536702_517502,
   105_488902_498702_508702_489802,
   106_463102_472402_481802_462202,
   107_438302_447102_456002_435502,
   108_414302_422602_431102_412302,
   109_391702_399502_407502_387402,
   110_369802_377202_384702_365102,
   111_348802_355802_362902_348302,
   112_328802_335402_342102_329802,
   113_309802_316002_322302_309802,
   114_291602_297402_303302_293502,
   115_274002_279502_285102_277702,
   116_257502_262702_268002_259002,
   117_242002_246802_251702_242702,
   118_227302_231802_236402_228002,
   119_213102_217402_221702_214602,
   120_199902_203902_208002_202002,
   121_187402_191102_194902_187002,
   122_175302_178802_182402_176002,
   123_163802_167102_170402_163702,
   124_153102_156202_159302_154102,
   125_142802_145702_148602_144502,
   126_133202_135902_138602_135402,
   127_124002_126502_129002_127702,
   128_115402_117702_120102_118702,
   129_107202_109302_111502_110602,
   130_995103_101502_103502_102602,
   131_922203_940603_959403_940803,
   132_853303_870403_887803_871603,
   133_789603_805303_821503_800903,
   134_728803_743303_758203_731503,
   135_671903_685303_699003_677903,
   136_618503_630903_643503_621503,
   137_568603_579903_591503_569703,
   138_521503_531903_542503_523503,
   139_478103_487703_497403_482303,
   140_437203_445903_454903_441003,
   141_399103_407003_415203_400003,
   142_363403_370603_378103_364003,
   143_330003_336603_343403_331103,
   144_299503_305503_311603_299103,
   145_271203_276603_282103_271003,
   146_245003_249903_254903_244803,
   147_220403_224803_229303_223703,
   148_197703_201703_205703_200303,
   149_176803_180303_183903_176903,
   150_158103_161303_164503_159503,
   151_140803_143803_146803_141703,
   152_124703_127503_130403_127903,
   153_110803_113403_116103_114003,
   154_979704_100403_103003_101103,
   155_862704_885504_909004_902804,
   156_757804_778804_800504_790404,
   157_661504_680804_700604_696004,
   158_570204_587504_605404_590304,
   159_479304_494504_510204_495704,
   160_396704_409804_423304_412904,
   161_327704_339004_350604_337904,
   162_270804_280404_290404_274304,
   163_224004_232304_240804_234304,
   164_185304_192404_199704_192704,
   165_153004_159004_165304_159704,
   166_126304_131404_136804_134704,
   167_103904_108304_112804_111704,
   168_854905_892005_930705_905005,
   169_707805_739405_772505_727505,
   170_585905_612905_641105_595905,
   171_487105_510205_534305_498105,
   172_405005_424605_445305_412605,
   173_336805_353705_371305_348705,
   174_280205_294505_309605_288905,
   175_234005_246305_259205_239005,
   176_195405_205905_217005_203805,
   177_164005_173005_182505_173605,
   178_137605_145405_153605_151505,
   179_114505_121105_128105_127305,
   180_952806_100905_106905_109305,
   181_783306_830506_880606_898006,
   182_644306_684006_726106_706406,
   183_525206_558206_593306_582206,
   184_428306_455806_485006_457606,
   185_345706_368306_392406_357806,
   186_279106_297806_317706_281506,
   187_222106_237306_253406_227006,
   188_176806_189106_202206_180506,
   189_139706_149506_160106_140206,
   190_110306_118306_126806_107006,
   191_864307_927707_995707_816707,
   192_677107_727607_781907_647807,
   193_528107_568207_611307_523507,
   194_411907_443707_478007_425707,
   195_319307_344407_371407_325807,
   196_247507_267307_288607_262307,
   197_190907_206407_223107_200807,
   198_147207_159407_172507_150407,
   199_108707_117807_127607_119407,
   200_802208_870408_944408_883508,
   201_609508_662108_719308_639008,
   202_463208_503708_547808_476908,
   203_352008_383208_417308_347608,
   204_267508_291608_317908_252808,
   205_203308_221908_242208_190608,
   206_154208_168508_184208_146308,
   207_117008_128108_140108_107208,
   208_888409_973109_106608_837609,
   209_674409_739609_811209_629209,
   210_512109_562309_617409_492909,
   211_378409_416009_457309_367009,
   212_279609_307709_338709_279509,
   213_206609_227609_250809_203609,
   214_152609_168409_185809_147909,
   215_112809_124609_137609_107309,
   216_825410_912710_100909_742410,
   217_604010_668710_740310_551810,
   218_442010_489910_543010_414010,
   219_323510_359010_398310_339110,
   220_236710_263010_292210_268910,
   221_173410_192810_214510_212010,
   222_127010_141410_157410_158510,
   223_929811_103710_115610_112610,
   224_681011_760111_848511_803511,
   225_498811_557411_622911_584311,
   226_367511_411111_460011_419511,
   227_270711_303311_339711_317811,
   228_199511_223711_250911_225911,
   229_147011_165111_185311_164211,
   230_108311_121811_136911_125011,
   231_807512_908712_102311_823712,
   232_602112_678312_764212_650312,
   233_449012_506512_571212_542312,
   234_335012_378312_427212_409312,
   235_250012_282612_319512_329512,
   236_190512_215612_244012_246612,
   237_145312_164612_186512_175512,
   238_110912_125812_142712_132812,
   239_847513_962513_109312_100012,
   240_648113_736913_837913_668313,
   241_511713_582513_663013_499313,
   242_404613_461113_525513_428013,
   243_320413_365513_417113_333513,
   244_254013_290213_331413_218513,
   245_201713_230613_263713_193313,
   246_171213_196013_224413_152113,
   247_145513_166713_191113_127913,
   248_123713_141913_162813_107213,
   249_105213_120813_138813_910414,
   250_895414_103013_118413_866814]

/-- atmdata/Venus/LAT80S.txt:24464-24614, columns 0 to 4. -/
def venusProfile163 : List ℕ :=
  [100_635202_647902_660902_649702,
   101_603502_615602_627902_618602,
   102_573002_584502_596202_587302,
   103_543802_554702_565802_560902,
   104_515902_526202_536702_531302,
   105_488902_498702_508702_507502,
   106_463102_472402_481802_481102,
   107_438302_447102_456002_453002,
   108_414302_422602_431102_429602,
   109_391702_399502_407502_402502,
   110_369802_377202_384702_379602,
   111_348802_355802_362902_359602,
   112_328802_335402_342102_343802,
   113_309802_316002_322302_324102,
   114_291602_297402_303302_302802,
   115_274002_279502_285102_284102,
   116_257502_262702_268002_265102,
   117_242002_246802_251702_251302,
   118_227302_231802_236402_237502,
   119_213102_217402_221702_224802,
   120_199902_203902_208002_210402,
   121_187402_191102_194902_195402,
   122_175302_178802_182402_182402,
   123_163802_167102_170402_168702,
   124_153102_156202_159302_157802,
   125_142802_145702_148602_149102,
   126_133202_135902_138602_138602,
   127_124002_126502_129002_127902,
   128_115402_117702_120102_118002,
   129_107202_109302_111502_109302,
   130_995103_101502_103502_101602,
   131_922203_940603_959403_930903,
   132_853303_870403_887803_863003,
   133_789603_805303_821503_799203,
   134_728803_743303_758203_739203,
   135_671903_685303_699003_684203,
   136_618503_630903_643503_632103,
   137_568603_579903_591503_578403,
   138_521503_531903_542503_525803,
   139_478103_487703_497403_476003,
   140_437203_445903_454903_432103,
   141_399103_407003_415203_396903,
   142_363403_370603_378103_361703,
   143_330003_336603_343403_332903,
   144_299503_305503_311603_301803,
   145_271203_276603_282103_270103,
   146_245003_249903_254903_243703,
   147_220403_224803_229303_219403,
   148_197703_201703_205703_196803,
   149_176803_180303_183903_177403,
   150_158103_161303_164503_161503,
   151_140803_143803_146803_145003,
   152_124703_127503_130403_127103,
   153_110803_113403_116103_112003,
   154_979704_100403_103003_985004,
   155_862704_885504_909004_881404,
   156_757804_778804_800504_780204,
   157_661504_680804_700604_701904,
   158_570204_587504_605404_591904,
   159_479304_494504_510204_494304,
   160_396704_409804_423304_415704,
   161_327704_339004_350604_351304,
   162_270804_280404_290404_296204,
   163_224004_232304_240804_245404,
   164_185304_192404_199704_203904,
   165_153004_159004_165304_166404,
   166_126304_131404_136804_139104,
   167_103904_108304_112804_114604,
   168_854905_892005_930705_950805,
   169_707805_739405_772505_813105,
   170_585905_612905_641105_675105,
   171_487105_510205_534305_548005,
   172_405005_424605_445305_464905,
   173_336805_353705_371305_386405,
   174_280205_294505_309605_318405,
   175_234005_246305_259205_267305,
   176_195405_205905_217005_223705,
   177_164005_173005_182505_189305,
   178_137605_145405_153605_163305,
   179_114505_121105_128105_135905,
   180_952806_100905_106905_112905,
   181_783306_830506_880606_904006,
   182_644306_684006_726106_726506,
   183_525206_558206_593306_619506,
   184_428306_455806_485006_522806,
   185_345706_368306_392406_400306,
   186_279106_297806_317706_325706,
   187_222106_237306_253406_256206,
   188_176806_189106_202206_203206,
   189_139706_149506_160106_166206,
   190_110306_118306_126806_123706,
   191_864307_927707_995707_991907,
   192_677107_727607_781907_770007,
   193_528107_568207_611307_590907,
   194_411907_443707_478007_455007,
   195_319307_344407_371407_355207,
   196_247507_267307_288607_298807,
   197_190907_206407_223107_225607,
   198_147207_159407_172507_171607,
   199_108707_117807_127607_122207,
   200_802208_870408_944408_933408,
   201_609508_662108_719308_703908,
   202_463208_503708_547808_521608,
   203_352008_383208_417308_390108,
   204_267508_291608_317908_287408,
   205_203308_221908_242208_209808,
   206_154208_168508_184208_161508,
   207_117008_128108_140108_123508,
   208_888409_973109_106608_931009,
   209_674409_739609_811209_727209,
   210_512109_562309_617409_591209,
   211_378409_416009_457309_442309,
   212_279609_307709_338709_314909,
   213_206609_227609_250809_231209,
   214_152609_168409_185809_188609,
   215_112809_124609_137609_122609,
   216_825410_912710_100909_859510,
   217_604010_668710_740310_644910,
   218_442010_489910_543010_482410,
   219_323510_359010_398310_328010,
   220_236710_263010_292210_259310,
   221_173410_192810_214510_186210,
   222_127010_141410_157410_128210,
   223_929811_103710_115610_988111,
   224_681011_760111_848511_778711,
   225_498811_557411_622911_568811,
   226_367511_411111_460011_435211,
   227_270711_303311_339711_326911,
   228_199511_223711_250911_269711,
   229_147011_165111_185311_176911,
   230_108311_121811_136911_119011,
   231_807512_908712_102311_869312,
   232_602112_678312_764212_655412,
   233_449012_506512_571212_477712,
   234_335012_378312_427212_340712,
   235_250012_282612_319512_269812,
   236_190512_215612_244012_212612,
   237_145312_164612_186512_165612,
   238_110912_125812_142712_120112,
   239_847513_962513_109312_840813,
   240_648113_736913_837913_644313,
   241_511713_582513_663013_510513,
   242_404613_461113_525513_427213,
   243_320413_365513_417113_319513,
   244_254013_290213_331413_254213,
   245_201713_230613_263713_188913,
   246_171213_196013_224413_169413,
   247_145513_166713_191113_133213,
   248_123713_141913_162813_117313,
   249_105213_120813_138813_107213,
   250_895414_103013_118413_986514]

/-- atmdata/Venus/LAT80S.txt:24615-24765, columns 0 to 4. -/
def venusProfile164 : List ℕ :=
  [100_635202_647902_660902_660702,
   101_603502_615602_627902_628302,
   102_573002_584502_596202_595402,
   103_543802_554702_565802_566502,
   104_515902_526202_536702_537302,
   105_488902_498702_508702_509202,
   106_463102_472402_481802_487902,
   107_438302_447102_456002_459402,
   108_414302_422602_431102_429002,
   109_391702_399502_407502_399402,
   110_369802_377202_384702_377602,
   111_348802_355802_362902_356702,
   112_328802_335402_342102_334902,
   113_309802_316002_322302_318402,
   114_291602_297402_303302_299002,
   115_274002_279502_285102_283702,
   116_257502_262702_268002_265002,
   117_242002_246802_251702_249302,
   118_227302_231802_236402_233502,
   119_213102_217402_221702_218202,
   120_199902_203902_208002_203402,
   121_187402_191102_194902_189502,
   122_175302_178802_182402_175002,
   123_163802_167102_170402_164802,
   124_153102_156202_159302_153802,
   125_142802_145702_148602_142802,
   126_133202_135902_138602_134402,
   127_124002_126502_129002_124502,
   128_115402_117702_120102_116302,
   129_107202_109302_111502_109002,
   130_995103_101502_103502_101502,
   131_922203_940603_959403_927803,
   132_853303_870403_887803_860403,
   133_789603_805303_821503_803803,
   134_728803_743303_758203_738103,
   135_671903_685303_699003_682803,
   136_618503_630903_643503_625703,
   137_568603_579903_591503_572103,
   138_521503_531903_542503_525703,
   139_478103_487703_497403_480703,
   140_437203_445903_454903_441503,
   141_399103_407003_415203_402403,
   142_363403_370603_378103_366903,
   143_330003_336603_343403_332903,
   144_299503_305503_311603_302703,
   145_271203_276603_282103_274703,
   146_245003_249903_254903_247103,
   147_220403_224803_229303_225103,
   148_197703_201703_205703_201803,
   149_176803_180303_183903_180803,
   150_158103_161303_164503_160503,
   151_140803_143803_146803_142603,
   152_124703_127503_130403_125503,
   153_110803_113403_116103_112103,
   154_979704_100403_103003_100103,
   155_862704_885504_909004_897804,
   156_757804_778804_800504_779904,
   157_661504_680804_700604_676204,
   158_570204_587504_605404_597404,
   159_479304_494504_510204_494804,
   160_396704_409804_423304_403104,
   161_327704_339004_350604_335804,
   162_270804_280404_290404_281004,
   163_224004_232304_240804_229904,
   164_185304_192404_199704_196804,
   165_153004_159004_165304_167804,
   166_126304_131404_136804_139604,
   167_103904_108304_112804_114504,
   168_854905_892005_930705_929105,
   169_707805_739405_772505_786105,
   170_585905_612905_641105_633305,
   171_487105_510205_534305_533605,
   172_405005_424605_445305_440805,
   173_336805_353705_371305_365205,
   174_280205_294505_309605_302305,
   175_234005_246305_259205_244005,
   176_195405_205905_217005_203805,
   177_164005_173005_182505_173905,
   178_137605_145405_153605_151005,
   179_114505_121105_128105_125805,
   180_952806_100905_106905_102805,
   181_783306_830506_880606_866806,
   182_644306_684006_726106_707206,
   183_525206_558206_593306_566406,
   184_428306_455806_485006_472806,
   185_345706_368306_392406_400206,
   186_279106_297806_317706_315206,
   187_222106_237306_253406_244706,
   188_176806_189106_202206_196006,
   189_139706_149506_160106_155906,
   190_110306_118306_126806_129906,
   191_864307_927707_995707_101006,
   192_677107_727607_781907_778607,
   193_528107_568207_611307_628407,
   194_411907_443707_478007_503907,
   195_319307_344407_371407_401907,
   196_247507_267307_288607_299107,
   197_190907_206407_223107_224907,
   198_147207_159407_172507_174307,
   199_108707_117807_127607_126607,
   200_802208_870408_944408_902008,
   201_609508_662108_719308_709108,
   202_463208_503708_547808_525508,
   203_352008_383208_417308_402008,
   204_267508_291608_317908_299408,
   205_203308_221908_242208_241108,
   206_154208_168508_184208_185808,
   207_117008_128108_140108_147708,
   208_888409_973109_106608_107108,
   209_674409_739609_811209_779609,
   210_512109_562309_617409_575209,
   211_378409_416009_457309_442709,
   212_279609_307709_338709_335009,
   213_206609_227609_250809_248709,
   214_152609_168409_185809_186909,
   215_112809_124609_137609_141009,
   216_825410_912710_100909_990310,
   217_604010_668710_740310_755510,
   218_442010_489910_543010_565110,
   219_323510_359010_398310_388510,
   220_236710_263010_292210_300210,
   221_173410_192810_214510_221910,
   222_127010_141410_157410_159510,
   223_929811_103710_115610_113410,
   224_681011_760111_848511_827711,
   225_498811_557411_622911_602811,
   226_367511_411111_460011_427811,
   227_270711_303311_339711_320411,
   228_199511_223711_250911_242611,
   229_147011_165111_185311_180711,
   230_108311_121811_136911_130011,
   231_807512_908712_102311_980912,
   232_602112_678312_764212_705712,
   233_449012_506512_571212_532812,
   234_335012_378312_427212_407612,
   235_250012_282612_319512_310512,
   236_190512_215612_244012_258912,
   237_145312_164612_186512_185512,
   238_110912_125812_142712_148012,
   239_847513_962513_109312_114212,
   240_648113_736913_837913_904213,
   241_511713_582513_663013_724413,
   242_404613_461113_525513_576613,
   243_320413_365513_417113_480713,
   244_254013_290213_331413_393113,
   245_201713_230613_263713_298813,
   246_171213_196013_224413_243813,
   247_145513_166713_191113_214813,
   248_123713_141913_162813_189213,
   249_105213_120813_138813_152613,
   250_895414_103013_118413_134213]

/-- atmdata/Venus/LAT80S.txt:24766-24916, columns 0 to 4. -/
def venusProfile165 : List ℕ :=
  [100_635202_647902_660902_633002,
   101_603502_615602_627902_602502,
   102_573002_584502_596202_570802,
   103_543802_554702_565802_542602,
   104_515902_526202_536702_516302,
   105_488902_498702_508702_486802,
   106_463102_472402_481802_460902,
   107_438302_447102_456002_434902,
   108_414302_422602_431102_410002,
   109_391702_399502_407502_391502,
   110_369802_377202_384702_371202,
   111_348802_355802_362902_350102,
   112_328802_335402_342102_330002,
   113_309802_316002_322302_310302,
   114_291602_297402_303302_292602,
   115_274002_279502_285102_275202,
   116_257502_262702_268002_257602,
   117_242002_246802_251702_241402,
   118_227302_231802_236402_227902,
   119_213102_217402_221702_213902,
   120_199902_203902_208002_202002,
   121_187402_191102_194902_188402,
   122_175302_178802_182402_176602,
   123_163802_167102_170402_165702,
   124_153102_156202_159302_153802,
   125_142802_145702_148602_143302,
   126_133202_135902_138602_133802,
   127_124002_126502_129002_124202,
   128_115402_117702_120102_115302,
   129_107202_109302_111502_107202,
   130_995103_101502_103502_100202,
   131_922203_940603_959403_942403,
   132_853303_870403_887803_873503,
   133_789603_805303_821503_806203,
   134_728803_743303_758203_747403,
   135_671903_685303_699003_690503,
   136_618503_630903_643503_637603,
   137_568603_579903_591503_581703,
   138_521503_531903_542503_528603,
   139_478103_487703_497403_485403,
   140_437203_445903_454903_442903,
   141_399103_407003_415203_397503,
   142_363403_370603_378103_363103,
   143_330003_336603_343403_332103,
   144_299503_305503_311603_303203,
   145_271203_276603_282103_273003,
   146_245003_249903_254903_245203,
   147_220403_224803_229303_220603,
   148_197703_201703_205703_198203,
   149_176803_180303_183903_177103,
   150_158103_161303_164503_158003,
   151_140803_143803_146803_141903,
   152_124703_127503_130403_125203,
   153_110803_113403_116103_110703,
   154_979704_100403_103003_979204,
   155_862704_885504_909004_881904,
   156_757804_778804_800504_775904,
   157_661504_680804_700604_677504,
   158_570204_587504_605404_594804,
   159_479304_494504_510204_509604,
   160_396704_409804_423304_419004,
   161_327704_339004_350604_345304,
   162_270804_280404_290404_286804,
   163_224004_232304_240804_240404,
   164_185304_192404_199704_197204,
   165_153004_159004_165304_164004,
   166_126304_131404_136804_136204,
   167_103904_108304_112804_111304,
   168_854905_892005_930705_928505,
   169_707805_739405_772505_780605,
   170_585905_612905_641105_645305,
   171_487105_510205_534305_532305,
   172_405005_424605_445305_454605,
   173_336805_353705_371305_373105,
   174_280205_294505_309605_308705,
   175_234005_246305_259205_256605,
   176_195405_205905_217005_211605,
   177_164005_173005_182505_180205,
   178_137605_145405_153605_155605,
   179_114505_121105_128105_128905,
   180_952806_100905_106905_110305,
   181_783306_830506_880606_901306,
   182_644306_684006_726106_741406,
   183_525206_558206_593306_603706,
   184_428306_455806_485006_495406,
   185_345706_368306_392406_411006,
   186_279106_297806_317706_335706,
   187_222106_237306_253406_251406,
   188_176806_189106_202206_202406,
   189_139706_149506_160106_156906,
   190_110306_118306_126806_128606,
   191_864307_927707_995707_970907,
   192_677107_727607_781907_745907,
   193_528107_568207_611307_579807,
   194_411907_443707_478007_448007,
   195_319307_344407_371407_338107,
   196_247507_267307_288607_258707,
   197_190907_206407_223107_195607,
   198_147207_159407_172507_157107,
   199_108707_117807_127607_117107,
   200_802208_870408_944408_866308,
   201_609508_662108_719308_642708,
   202_463208_503708_547808_480308,
   203_352008_383208_417308_380408,
   204_267508_291608_317908_287808,
   205_203308_221908_242208_225308,
   206_154208_168508_184208_177608,
   207_117008_128108_140108_132108,
   208_888409_973109_106608_106408,
   209_674409_739609_811209_812309,
   210_512109_562309_617409_617409,
   211_378409_416009_457309_423209,
   212_279609_307709_338709_306109,
   213_206609_227609_250809_233409,
   214_152609_168409_185809_171209,
   215_112809_124609_137609_126709,
   216_825410_912710_100909_904110,
   217_604010_668710_740310_623910,
   218_442010_489910_543010_484510,
   219_323510_359010_398310_340910,
   220_236710_263010_292210_265710,
   221_173410_192810_214510_179410,
   222_127010_141410_157410_136810,
   223_929811_103710_115610_104810,
   224_681011_760111_848511_728111,
   225_498811_557411_622911_537011,
   226_367511_411111_460011_408011,
   227_270711_303311_339711_305411,
   228_199511_223711_250911_224511,
   229_147011_165111_185311_160511,
   230_108311_121811_136911_121311,
   231_807512_908712_102311_980112,
   232_602112_678312_764212_626012,
   233_449012_506512_571212_505812,
   234_335012_378312_427212_365312,
   235_250012_282612_319512_276012,
   236_190512_215612_244012_203512,
   237_145312_164612_186512_159912,
   238_110912_125812_142712_123412,
   239_847513_962513_109312_918913,
   240_648113_736913_837913_680413,
   241_511713_582513_663013_485713,
   242_404613_461113_525513_396413,
   243_320413_365513_417113_330013,
   244_254013_290213_331413_256313,
   245_201713_230613_263713_207313,
   246_171213_196013_224413_197613,
   247_145513_166713_191113_171413,
   248_123713_141913_162813_137513,
   249_105213_120813_138813_121313,
   250_895414_103013_118413_109313]

/-- atmdata/Venus/LAT80S.txt:24917-25067, columns 0 to 4. -/
def venusProfile166 : List ℕ :=
  [100_635202_647902_660902_644802,
   101_603502_615602_627902_613002,
   102_573002_584502_596202_579302,
   103_543802_554702_565802_549402,
   104_515902_526202_536702_523502,
   105_488902_498702_508702_497702,
   106_463102_472402_481802_473402,
   107_438302_447102_456002_446502,
   108_414302_422602_431102_422002,
   109_391702_399502_407502_401702,
   110_369802_377202_384702_381702,
   111_348802_355802_362902_358802,
   112_328802_335402_342102_339002,
   113_309802_316002_322302_320002,
   114_291602_297402_303302_302602,
   115_274002_279502_285102_281802,
   116_257502_262702_268002_263702,
   117_242002_246802_251702_249902,
   118_227302_231802_236402_233702,
   119_213102_217402_221702_220102,
   120_199902_203902_208002_206502,
   121_187402_191102_194902_192702,
   122_175302_178802_182402_179402,
   123_163802_167102_170402_167802,
   124_153102_156202_159302_157702,
   125_142802_145702_148602_147202,
   126_133202_135902_138602_136102,
   127_124002_126502_129002_126402,
   128_115402_117702_120102_118502,
   129_107202_109302_111502_109302,
   130_995103_101502_103502_102402,
   131_922203_940603_959403_959903,
   132_853303_870403_887803_889203,
   133_789603_805303_821503_825203,
   134_728803_743303_758203_759003,
   135_671903_685303_699003_700403,
   136_618503_630903_643503_640803,
   137_568603_579903_591503_583503,
   138_521503_531903_542503_535603,
   139_478103_487703_497403_494303,
   140_437203_445903_454903_458003,
   141_399103_407003_415203_418303,
   142_363403_370603_378103_381403,
   143_330003_336603_343403_344403,
   144_299503_305503_311603_316303,
   145_271203_276603_282103_287103,
   146_245003_249903_254903_256403,
   147_220403_224803_229303_232603,
   148_197703_201703_205703_208403,
   149_176803_180303_183903_185003,
   150_158103_161303_164503_165003,
   151_140803_143803_146803_146603,
   152_124703_127503_130403_129603,
   153_110803_113403_116103_116103,
   154_979704_100403_103003_101303,
   155_862704_885504_909004_873004,
   156_757804_778804_800504_778104,
   157_661504_680804_700604_683704,
   158_570204_587504_605404_598104,
   159_479304_494504_510204_507604,
   160_396704_409804_423304_420404,
   161_327704_339004_350604_342604,
   162_270804_280404_290404_283104,
   163_224004_232304_240804_233704,
   164_185304_192404_199704_194504,
   165_153004_159004_165304_159904,
   166_126304_131404_136804_132604,
   167_103904_108304_112804_108004,
   168_854905_892005_930705_882005,
   169_707805_739405_772505_740605,
   170_585905_612905_641105_632905,
   171_487105_510205_534305_497705,
   172_405005_424605_445305_413905,
   173_336805_353705_371305_338505,
   174_280205_294505_309605_282405,
   175_234005_246305_259205_242005,
   176_195405_205905_217005_198105,
   177_164005_173005_182505_169605,
   178_137605_145405_153605_146905,
   179_114505_121105_128105_121705,
   180_952806_100905_106905_101905,
   181_783306_830506_880606_813906,
   182_644306_684006_726106_682906,
   183_525206_558206_593306_573006,
   184_428306_455806_485006_467506,
   185_345706_368306_392406_386806,
   186_279106_297806_317706_307306,
   187_222106_237306_253406_250806,
   188_176806_189106_202206_203506,
   189_139706_149506_160106_172006,
   190_110306_118306_126806_138506,
   191_864307_927707_995707_109906,
   192_677107_727607_781907_833007,
   193_528107_568207_611307_609507,
   194_411907_443707_478007_492307,
   195_319307_344407_371407_379007,
   196_247507_267307_288607_291407,
   197_190907_206407_223107_217307,
   198_147207_159407_172507_159207,
   199_108707_117807_127607_121007,
   200_802208_870408_944408_923308,
   201_609508_662108_719308_706208,
   202_463208_503708_547808_524108,
   203_352008_383208_417308_378508,
   204_267508_291608_317908_289508,
   205_203308_221908_242208_222308,
   206_154208_168508_184208_180708,
   207_117008_128108_140108_139808,
   208_888409_973109_106608_107808,
   209_674409_739609_811209_767709,
   210_512109_562309_617409_610409,
   211_378409_416009_457309_436209,
   212_279609_307709_338709_335309,
   213_206609_227609_250809_260009,
   214_152609_168409_185809_183209,
   215_112809_124609_137609_131209,
   216_825410_912710_100909_941510,
   217_604010_668710_740310_670610,
   218_442010_489910_543010_558510,
   219_323510_359010_398310_392710,
   220_236710_263010_292210_300610,
   221_173410_192810_214510_215710,
   222_127010_141410_157410_148310,
   223_929811_103710_115610_105810,
   224_681011_760111_848511_797111,
   225_498811_557411_622911_584511,
   226_367511_411111_460011_410611,
   227_270711_303311_339711_306011,
   228_199511_223711_250911_217411,
   229_147011_165111_185311_170211,
   230_108311_121811_136911_140011,
   231_807512_908712_102311_100011,
   232_602112_678312_764212_762912,
   233_449012_506512_571212_544512,
   234_335012_378312_427212_421112,
   235_250012_282612_319512_309312,
   236_190512_215612_244012_234412,
   237_145312_164612_186512_169612,
   238_110912_125812_142712_124512,
   239_847513_962513_109312_103012,
   240_648113_736913_837913_801813,
   241_511713_582513_663013_614413,
   242_404613_461113_525513_483613,
   243_320413_365513_417113_382613,
   244_254013_290213_331413_313413,
   245_201713_230613_263713_257313,
   246_171213_196013_224413_219713,
   247_145513_166713_191113_182713,
   248_123713_141913_162813_153413,
   249_105213_120813_138813_122813,
   250_895414_103013_118413_109913]

/-- atmdata/Venus/LAT80S.txt:25068-25218, columns 0 to 4. -/
def venusProfile167 : List ℕ :=
  [100_635202_647902_660902_654302,
   101_603502_615602_627902_621302,
   102_573002_584502_596202_584702,
   103_543802_554702_565802_553102,
   104_515902_526202_536702_528702,
   105_488902_498702_508702_499802,
   106_463102_472402_481802_471302,
   107_438302_447102_456002_444802,
   108_414302_422602_431102_421802,
   109_391702_399502_407502_401002,
   110_369802_377202_384702_375402,
   111_348802_355802_362902_351802,
   112_328802_335402_342102_334302,
   113_309802_316002_322302_312102,
   114_291602_297402_303302_291602,
   115_274002_279502_285102_274602,
   116_257502_262702_268002_257402,
   117_242002_246802_251702_242402,
   118_227302_231802_236402_228302,
   119_213102_217402_221702_212502,
   120_199902_203902_208002_198902,
   121_187402_191102_194902_186002,
   122_175302_178802_182402_175002,
   123_163802_167102_170402_163502,
   124_153102_156202_159302_153202,
   125_142802_145702_148602_143602,
   126_133202_135902_138602_134302,
   127_124002_126502_129002_125002,
   128_115402_117702_120102_116402,
   129_107202_109302_111502_108502,
   130_995103_101502_103502_998503,
   131_922203_940603_959403_935903,
   132_853303_870403_887803_868003,
   133_789603_805303_821503_798603,
   134_728803_743303_758203_743603,
   135_671903_685303_699003_686403,
   136_618503_630903_643503_633803,
   137_568603_579903_591503_575803,
   138_521503_531903_542503_523403,
   139_478103_487703_497403_477203,
   140_437203_445903_454903_437703,
   141_399103_407003_415203_398103,
   142_363403_370603_378103_364503,
   143_330003_336603_343403_332403,
   144_299503_305503_311603_300003,
   145_271203_276603_282103_271103,
   146_245003_249903_254903_248603,
   147_220403_224803_229303_223403,
   148_197703_201703_205703_200903,
   149_176803_180303_183903_176903,
   150_158103_161303_164503_158603,
   151_140803_143803_146803_142503,
   152_124703_127503_130403_126203,
   153_110803_113403_116103_111903,
   154_979704_100403_103003_995304,
   155_862704_885504_909004_862604,
   156_757804_778804_800504_754804,
   157_661504_680804_700604_670404,
   158_570204_587504_605404_585404,
   159_479304_494504_510204_494304,
   160_396704_409804_423304_412904,
   161_327704_339004_350604_346904,
   162_270804_280404_290404_284904,
   163_224004_232304_240804_229904,
   164_185304_192404_199704_195304,
   165_153004_159004_165304_157904,
   166_126304_131404_136804_130704,
   167_103904_108304_112804_105804,
   168_854905_892005_930705_888805,
   169_707805_739405_772505_742905,
   170_585905_612905_641105_611605,
   171_487105_510205_534305_512205,
   172_405005_424605_445305_441705,
   173_336805_353705_371305_353105,
   174_280205_294505_309605_293905,
   175_234005_246305_259205_241805,
   176_195405_205905_217005_187905,
   177_164005_173005_182505_161805,
   178_137605_145405_153605_140505,
   179_114505_121105_128105_116305,
   180_952806_100905_106905_955306,
   181_783306_830506_880606_803806,
   182_644306_684006_726106_688806,
   183_525206_558206_593306_546706,
   184_428306_455806_485006_443506,
   185_345706_368306_392406_365906,
   186_279106_297806_317706_304506,
   187_222106_237306_253406_244506,
   188_176806_189106_202206_201106,
   189_139706_149506_160106_160506,
   190_110306_118306_126806_129306,
   191_864307_927707_995707_100506,
   192_677107_727607_781907_759007,
   193_528107_568207_611307_595207,
   194_411907_443707_478007_460007,
   195_319307_344407_371407_365607,
   196_247507_267307_288607_285507,
   197_190907_206407_223107_211907,
   198_147207_159407_172507_160407,
   199_108707_117807_127607_128407,
   200_802208_870408_944408_912008,
   201_609508_662108_719308_760808,
   202_463208_503708_547808_562608,
   203_352008_383208_417308_418308,
   204_267508_291608_317908_320808,
   205_203308_221908_242208_240408,
   206_154208_168508_184208_172308,
   207_117008_128108_140108_125408,
   208_888409_973109_106608_954509,
   209_674409_739609_811209_727909,
   210_512109_562309_617409_536209,
   211_378409_416009_457309_395809,
   212_279609_307709_338709_291109,
   213_206609_227609_250809_203409,
   214_152609_168409_185809_160209,
   215_112809_124609_137609_109309,
   216_825410_912710_100909_802810,
   217_604010_668710_740310_594410,
   218_442010_489910_543010_415210,
   219_323510_359010_398310_300810,
   220_236710_263010_292210_236610,
   221_173410_192810_214510_180910,
   222_127010_141410_157410_132710,
   223_929811_103710_115610_101910,
   224_681011_760111_848511_733111,
   225_498811_557411_622911_542411,
   226_367511_411111_460011_408011,
   227_270711_303311_339711_302811,
   228_199511_223711_250911_243611,
   229_147011_165111_185311_178411,
   230_108311_121811_136911_127511,
   231_807512_908712_102311_955212,
   232_602112_678312_764212_705812,
   233_449012_506512_571212_528812,
   234_335012_378312_427212_384512,
   235_250012_282612_319512_279412,
   236_190512_215612_244012_222012,
   237_145312_164612_186512_174212,
   238_110912_125812_142712_143912,
   239_847513_962513_109312_109512,
   240_648113_736913_837913_766213,
   241_511713_582513_663013_615113,
   242_404613_461113_525513_477613,
   243_320413_365513_417113_366513,
   244_254013_290213_331413_275713,
   245_201713_230613_263713_246813,
   246_171213_196013_224413_199513,
   247_145513_166713_191113_161013,
   248_123713_141913_162813_143013,
   249_105213_120813_138813_124413,
   250_895414_103013_118413_110713]

/-- atmdata/Venus/LAT80S.txt:25219-25369, columns 0 to 4. -/
def venusProfile168 : List ℕ :=
  [100_635202_647902_660902_672602,
   101_603502_615602_627902_637902,
   102_573002_584502_596202_609102,
   103_543802_554702_565802_573802,
   104_515902_526202_536702_539802,
   105_488902_498702_508702_514402,
   106_463102_472402_481802_487402,
   107_438302_447102_456002_459702,
   108_414302_422602_431102_437702,
   109_391702_399502_407502_415202,
   110_369802_377202_384702_389902,
   111_348802_355802_362902_370002,
   112_328802_335402_342102_346602,
   113_309802_316002_322302_325702,
   114_291602_297402_303302_305502,
   115_274002_279502_285102_285202,
   116_257502_262702_268002_267102,
   117_242002_246802_251702_250002,
   118_227302_231802_236402_233102,
   119_213102_217402_221702_218102,
   120_199902_203902_208002_207202,
   121_187402_191102_194902_193602,
   122_175302_178802_182402_180802,
   123_163802_167102_170402_168302,
   124_153102_156202_159302_156902,
   125_142802_145702_148602_147802,
   126_133202_135902_138602_137102,
   127_124002_126502_129002_127702,
   128_115402_117702_120102_118002,
   129_107202_109302_111502_109202,
   130_995103_101502_103502_100902,
   131_922203_940603_959403_944103,
   132_853303_870403_887803_875603,
   133_789603_805303_821503_810803,
   134_728803_743303_758203_748103,
   135_671903_685303_699003_690003,
   136_618503_630903_643503_631503,
   137_568603_579903_591503_587803,
   138_521503_531903_542503_539303,
   139_478103_487703_497403_493703,
   140_437203_445903_454903_449203,
   141_399103_407003_415203_412703,
   142_363403_370603_378103_377603,
   143_330003_336603_343403_340003,
   144_299503_305503_311603_307703,
   145_271203_276603_282103_281003,
   146_245003_249903_254903_255803,
   147_220403_224803_229303_231803,
   148_197703_201703_205703_208103,
   149_176803_180303_183903_186803,
   150_158103_161303_164503_167403,
   151_140803_143803_146803_148803,
   152_124703_127503_130403_132003,
   153_110803_113403_116103_118603,
   154_979704_100403_103003_104403,
   155_862704_885504_909004_906504,
   156_757804_778804_800504_800404,
   157_661504_680804_700604_691204,
   158_570204_587504_605404_601704,
   159_479304_494504_510204_505104,
   160_396704_409804_423304_426504,
   161_327704_339004_350604_353604,
   162_270804_280404_290404_288204,
   163_224004_232304_240804_239804,
   164_185304_192404_199704_196304,
   165_153004_159004_165304_164304,
   166_126304_131404_136804_135204,
   167_103904_108304_112804_107904,
   168_854905_892005_930705_883805,
   169_707805_739405_772505_736105,
   170_585905_612905_641105_620005,
   171_487105_510205_534305_508305,
   172_405005_424605_445305_422705,
   173_336805_353705_371305_361505,
   174_280205_294505_309605_300705,
   175_234005_246305_259205_252605,
   176_195405_205905_217005_215705,
   177_164005_173005_182505_183705,
   178_137605_145405_153605_157605,
   179_114505_121105_128105_128805,
   180_952806_100905_106905_110105,
   181_783306_830506_880606_895306,
   182_644306_684006_726106_710806,
   183_525206_558206_593306_576006,
   184_428306_455806_485006_460106,
   185_345706_368306_392406_376606,
   186_279106_297806_317706_301506,
   187_222106_237306_253406_239006,
   188_176806_189106_202206_201306,
   189_139706_149506_160106_157106,
   190_110306_118306_126806_126106,
   191_864307_927707_995707_952507,
   192_677107_727607_781907_713007,
   193_528107_568207_611307_540807,
   194_411907_443707_478007_443907,
   195_319307_344407_371407_330807,
   196_247507_267307_288607_264307,
   197_190907_206407_223107_195907,
   198_147207_159407_172507_152407,
   199_108707_117807_127607_109707,
   200_802208_870408_944408_815108,
   201_609508_662108_719308_616808,
   202_463208_503708_547808_463108,
   203_352008_383208_417308_357708,
   204_267508_291608_317908_281608,
   205_203308_221908_242208_209208,
   206_154208_168508_184208_154808,
   207_117008_128108_140108_119008,
   208_888409_973109_106608_888509,
   209_674409_739609_811209_731009,
   210_512109_562309_617409_557009,
   211_378409_416009_457309_418109,
   212_279609_307709_338709_331009,
   213_206609_227609_250809_236109,
   214_152609_168409_185809_176309,
   215_112809_124609_137609_134309,
   216_825410_912710_100909_976910,
   217_604010_668710_740310_727410,
   218_442010_489910_543010_512210,
   219_323510_359010_398310_367810,
   220_236710_263010_292210_282010,
   221_173410_192810_214510_194710,
   222_127010_141410_157410_148310,
   223_929811_103710_115610_105910,
   224_681011_760111_848511_828811,
   225_498811_557411_622911_608011,
   226_367511_411111_460011_420011,
   227_270711_303311_339711_309811,
   228_199511_223711_250911_234211,
   229_147011_165111_185311_162311,
   230_108311_121811_136911_121711,
   231_807512_908712_102311_963012,
   232_602112_678312_764212_682012,
   233_449012_506512_571212_539512,
   234_335012_378312_427212_424712,
   235_250012_282612_319512_299812,
   236_190512_215612_244012_207112,
   237_145312_164612_186512_152512,
   238_110912_125812_142712_119612,
   239_847513_962513_109312_872113,
   240_648113_736913_837913_672213,
   241_511713_582513_663013_580613,
   242_404613_461113_525513_447313,
   243_320413_365513_417113_331213,
   244_254013_290213_331413_269013,
   245_201713_230613_263713_204813,
   246_171213_196013_224413_187213,
   247_145513_166713_191113_177513,
   248_123713_141913_162813_136413,
   249_105213_120813_138813_108113,
   250_895414_103013_118413_969714]

/-- atmdata/Venus/LAT80S.txt:25370-25520, columns 0 to 4. -/
def venusProfile169 : List ℕ :=
  [100_635202_647902_660902_639502,
   101_603502_615602_627902_607102,
   102_573002_584502_596202_579102,
   103_543802_554702_565802_554002,
   104_515902_526202_536702_523302,
   105_488902_498702_508702_496002,
   106_463102_472402_481802_476102,
   107_438302_447102_456002_449502,
   108_414302_422602_431102_422902,
   109_391702_399502_407502_401302,
   110_369802_377202_384702_378102,
   111_348802_355802_362902_357902,
   112_328802_335402_342102_336802,
   113_309802_316002_322302_318402,
   114_291602_297402_303302_299802,
   115_274002_279502_285102_282402,
   116_257502_262702_268002_264802,
   117_242002_246802_251702_250802,
   118_227302_231802_236402_235502,
   119_213102_217402_221702_221102,
   120_199902_203902_208002_207802,
   121_187402_191102_194902_194402,
   122_175302_178802_182402_179202,
   123_163802_167102_170402_166302,
   124_153102_156202_159302_154302,
   125_142802_145702_148602_143202,
   126_133202_135902_138602_134202,
   127_124002_126502_129002_125202,
   128_115402_117702_120102_117002,
   129_107202_109302_111502_109502,
   130_995103_101502_103502_101302,
   131_922203_940603_959403_947403,
   132_853303_870403_887803_878603,
   133_789603_805303_821503_822403,
   134_728803_743303_758203_751803,
   135_671903_685303_699003_692803,
   136_618503_630903_643503_639303,
   137_568603_579903_591503_592603,
   138_521503_531903_542503_537903,
   139_478103_487703_497403_494703,
   140_437203_445903_454903_455403,
   141_399103_407003_415203_415103,
   142_363403_370603_378103_380303,
   143_330003_336603_343403_345203,
   144_299503_305503_311603_313103,
   145_271203_276603_282103_283103,
   146_245003_249903_254903_256903,
   147_220403_224803_229303_230303,
   148_197703_201703_205703_207103,
   149_176803_180303_183903_185203,
   150_158103_161303_164503_166603,
   151_140803_143803_146803_149703,
   152_124703_127503_130403_133003,
   153_110803_113403_116103_118103,
   154_979704_100403_103003_105703,
   155_862704_885504_909004_919304,
   156_757804_778804_800504_795204,
   157_661504_680804_700604_692304,
   158_570204_587504_605404_601604,
   159_479304_494504_510204_502304,
   160_396704_409804_423304_410604,
   161_327704_339004_350604_337904,
   162_270804_280404_290404_272004,
   163_224004_232304_240804_223604,
   164_185304_192404_199704_186204,
   165_153004_159004_165304_154304,
   166_126304_131404_136804_127104,
   167_103904_108304_112804_107704,
   168_854905_892005_930705_909105,
   169_707805_739405_772505_753005,
   170_585905_612905_641105_614005,
   171_487105_510205_534305_521605,
   172_405005_424605_445305_456605,
   173_336805_353705_371305_383605,
   174_280205_294505_309605_318105,
   175_234005_246305_259205_280405,
   176_195405_205905_217005_234805,
   177_164005_173005_182505_198705,
   178_137605_145405_153605_169005,
   179_114505_121105_128105_137005,
   180_952806_100905_106905_113605,
   181_783306_830506_880606_888806,
   182_644306_684006_726106_717806,
   183_525206_558206_593306_592806,
   184_428306_455806_485006_465206,
   185_345706_368306_392406_378406,
   186_279106_297806_317706_317606,
   187_222106_237306_253406_247106,
   188_176806_189106_202206_188106,
   189_139706_149506_160106_142606,
   190_110306_118306_126806_114806,
   191_864307_927707_995707_925707,
   192_677107_727607_781907_661107,
   193_528107_568207_611307_530607,
   194_411907_443707_478007_414807,
   195_319307_344407_371407_321007,
   196_247507_267307_288607_264307,
   197_190907_206407_223107_193907,
   198_147207_159407_172507_154107,
   199_108707_117807_127607_113207,
   200_802208_870408_944408_866208,
   201_609508_662108_719308_676608,
   202_463208_503708_547808_504308,
   203_352008_383208_417308_397608,
   204_267508_291608_317908_315508,
   205_203308_221908_242208_225108,
   206_154208_168508_184208_167908,
   207_117008_128108_140108_136008,
   208_888409_973109_106608_964909,
   209_674409_739609_811209_727809,
   210_512109_562309_617409_575209,
   211_378409_416009_457309_441709,
   212_279609_307709_338709_325109,
   213_206609_227609_250809_236609,
   214_152609_168409_185809_171409,
   215_112809_124609_137609_127109,
   216_825410_912710_100909_936410,
   217_604010_668710_740310_724210,
   218_442010_489910_543010_517610,
   219_323510_359010_398310_374210,
   220_236710_263010_292210_285510,
   221_173410_192810_214510_207510,
   222_127010_141410_157410_143810,
   223_929811_103710_115610_110010,
   224_681011_760111_848511_804311,
   225_498811_557411_622911_592711,
   226_367511_411111_460011_439011,
   227_270711_303311_339711_321311,
   228_199511_223711_250911_234211,
   229_147011_165111_185311_177711,
   230_108311_121811_136911_140111,
   231_807512_908712_102311_989912,
   232_602112_678312_764212_782112,
   233_449012_506512_571212_552112,
   234_335012_378312_427212_405012,
   235_250012_282612_319512_275712,
   236_190512_215612_244012_205312,
   237_145312_164612_186512_162812,
   238_110912_125812_142712_121812,
   239_847513_962513_109312_975913,
   240_648113_736913_837913_800413,
   241_511713_582513_663013_603213,
   242_404613_461113_525513_454713,
   243_320413_365513_417113_387913,
   244_254013_290213_331413_275213,
   245_201713_230613_263713_217213,
   246_171213_196013_224413_185213,
   247_145513_166713_191113_164213,
   248_123713_141913_162813_136913,
   249_105213_120813_138813_118013,
   250_895414_103013_118413_104413]

/-- atmdata/Venus/LAT80S.txt:25521-25671, columns 0 to 4. -/
def venusProfile170 : List ℕ :=
  [100_635202_647902_660902_649202,
   101_603502_615602_627902_615502,
   102_573002_584502_596202_585802,
   103_543802_554702_565802_558102,
   104_515902_526202_536702_528102,
   105_488902_498702_508702_497102,
   106_463102_472402_481802_470302,
   107_438302_447102_456002_444402,
   108_414302_422602_431102_419702,
   109_391702_399502_407502_398102,
   110_369802_377202_384702_375902,
   111_348802_355802_362902_355002,
   112_328802_335402_342102_335202,
   113_309802_316002_322302_313902,
   114_291602_297402_303302_296702,
   115_274002_279502_285102_277802,
   116_257502_262702_268002_260702,
   117_242002_246802_251702_245402,
   118_227302_231802_236402_233202,
   119_213102_217402_221702_220102,
   120_199902_203902_208002_206102,
   121_187402_191102_194902_192902,
   122_175302_178802_182402_180702,
   123_163802_167102_170402_170302,
   124_153102_156202_159302_159902,
   125_142802_145702_148602_148702,
   126_133202_135902_138602_138302,
   127_124002_126502_129002_129102,
   128_115402_117702_120102_119702,
   129_107202_109302_111502_111102,
   130_995103_101502_103502_102902,
   131_922203_940603_959403_961203,
   132_853303_870403_887803_891003,
   133_789603_805303_821503_822103,
   134_728803_743303_758203_759803,
   135_671903_685303_699003_699503,
   136_618503_630903_643503_639703,
   137_568603_579903_591503_591903,
   138_521503_531903_542503_542803,
   139_478103_487703_497403_486503,
   140_437203_445903_454903_445103,
   141_399103_407003_415203_403003,
   142_363403_370603_378103_370903,
   143_330003_336603_343403_341003,
   144_299503_305503_311603_310703,
   145_271203_276603_282103_278203,
   146_245003_249903_254903_252403,
   147_220403_224803_229303_228703,
   148_197703_201703_205703_205903,
   149_176803_180303_183903_183603,
   150_158103_161303_164503_161503,
   151_140803_143803_146803_143603,
   152_124703_127503_130403_127903,
   153_110803_113403_116103_111203,
   154_979704_100403_103003_984904,
   155_862704_885504_909004_858704,
   156_757804_778804_800504_754904,
   157_661504_680804_700604_662404,
   158_570204_587504_605404_575604,
   159_479304_494504_510204_477704,
   160_396704_409804_423304_394804,
   161_327704_339004_350604_321004,
   162_270804_280404_290404_270704,
   163_224004_232304_240804_228704,
   164_185304_192404_199704_193504,
   165_153004_159004_165304_157904,
   166_126304_131404_136804_129304,
   167_103904_108304_112804_108404,
   168_854905_892005_930705_890405,
   169_707805_739405_772505_736005,
   170_585905_612905_641105_614405,
   171_487105_510205_534305_510405,
   172_405005_424605_445305_425105,
   173_336805_353705_371305_356305,
   174_280205_294505_309605_297305,
   175_234005_246305_259205_246805,
   176_195405_205905_217005_206805,
   177_164005_173005_182505_177105,
   178_137605_145405_153605_152005,
   179_114505_121105_128105_123205,
   180_952806_100905_106905_100605,
   181_783306_830506_880606_837906,
   182_644306_684006_726106_687506,
   183_525206_558206_593306_532206,
   184_428306_455806_485006_455006,
   185_345706_368306_392406_368906,
   186_279106_297806_317706_297506,
   187_222106_237306_253406_226606,
   188_176806_189106_202206_176106,
   189_139706_149506_160106_143106,
   190_110306_118306_126806_114606,
   191_864307_927707_995707_899207,
   192_677107_727607_781907_739507,
   193_528107_568207_611307_566707,
   194_411907_443707_478007_467207,
   195_319307_344407_371407_367207,
   196_247507_267307_288607_272307,
   197_190907_206407_223107_194607,
   198_147207_159407_172507_162307,
   199_108707_117807_127607_120807,
   200_802208_870408_944408_859708,
   201_609508_662108_719308_631308,
   202_463208_503708_547808_473808,
   203_352008_383208_417308_343508,
   204_267508_291608_317908_239008,
   205_203308_221908_242208_194508,
   206_154208_168508_184208_148808,
   207_117008_128108_140108_112508,
   208_888409_973109_106608_899409,
   209_674409_739609_811209_718309,
   210_512109_562309_617409_524209,
   211_378409_416009_457309_360109,
   212_279609_307709_338709_249909,
   213_206609_227609_250809_189409,
   214_152609_168409_185809_132309,
   215_112809_124609_137609_974110,
   216_825410_912710_100909_743210,
   217_604010_668710_740310_521110,
   218_442010_489910_543010_388410,
   219_323510_359010_398310_290410,
   220_236710_263010_292210_227310,
   221_173410_192810_214510_177210,
   222_127010_141410_157410_130710,
   223_929811_103710_115610_943911,
   224_681011_760111_848511_658411,
   225_498811_557411_622911_495411,
   226_367511_411111_460011_337411,
   227_270711_303311_339711_251711,
   228_199511_223711_250911_179611,
   229_147011_165111_185311_132611,
   230_108311_121811_136911_960912,
   231_807512_908712_102311_733012,
   232_602112_678312_764212_569612,
   233_449012_506512_571212_432012,
   234_335012_378312_427212_359212,
   235_250012_282612_319512_290012,
   236_190512_215612_244012_222812,
   237_145312_164612_186512_163712,
   238_110912_125812_142712_113212,
   239_847513_962513_109312_863713,
   240_648113_736913_837913_649013,
   241_511713_582513_663013_521513,
   242_404613_461113_525513_388113,
   243_320413_365513_417113_322313,
   244_254013_290213_331413_257413,
   245_201713_230613_263713_211113,
   246_171213_196013_224413_168313,
   247_145513_166713_191113_145613,
   248_123713_141913_162813_128313,
   249_105213_120813_138813_971814,
   250_895414_103013_118413_876914]

/-- atmdata/Venus/LAT80S.txt:25672-25822, columns 0 to 4. -/
def venusProfile171 : List ℕ :=
  [100_635202_647902_660902_659902,
   101_603502_615602_627902_625002,
   102_573002_584502_596202_593602,
   103_543802_554702_565802_564002,
   104_515902_526202_536702_534402,
   105_488902_498702_508702_507402,
   106_463102_472402_481802_482302,
   107_438302_447102_456002_455502,
   108_414302_422602_431102_431202,
   109_391702_399502_407502_408402,
   110_369802_377202_384702_386102,
   111_348802_355802_362902_363402,
   112_328802_335402_342102_344202,
   113_309802_316002_322302_323902,
   114_291602_297402_303302_301802,
   115_274002_279502_285102_284502,
   116_257502_262702_268002_267002,
   117_242002_246802_251702_249902,
   118_227302_231802_236402_234302,
   119_213102_217402_221702_218502,
   120_199902_203902_208002_203602,
   121_187402_191102_194902_190902,
   122_175302_178802_182402_177802,
   123_163802_167102_170402_166902,
   124_153102_156202_159302_156202,
   125_142802_145702_148602_145802,
   126_133202_135902_138602_137002,
   127_124002_126502_129002_128202,
   128_115402_117702_120102_120302,
   129_107202_109302_111502_110702,
   130_995103_101502_103502_102802,
   131_922203_940603_959403_959603,
   132_853303_870403_887803_889803,
   133_789603_805303_821503_826403,
   134_728803_743303_758203_758503,
   135_671903_685303_699003_698003,
   136_618503_630903_643503_643603,
   137_568603_579903_591503_594503,
   138_521503_531903_542503_539503,
   139_478103_487703_497403_492603,
   140_437203_445903_454903_447303,
   141_399103_407003_415203_409703,
   142_363403_370603_378103_367203,
   143_330003_336603_343403_333203,
   144_299503_305503_311603_305803,
   145_271203_276603_282103_277503,
   146_245003_249903_254903_251303,
   147_220403_224803_229303_225503,
   148_197703_201703_205703_203503,
   149_176803_180303_183903_180803,
   150_158103_161303_164503_160503,
   151_140803_143803_146803_144303,
   152_124703_127503_130403_128803,
   153_110803_113403_116103_114703,
   154_979704_100403_103003_100503,
   155_862704_885504_909004_877204,
   156_757804_778804_800504_779404,
   157_661504_680804_700604_688504,
   158_570204_587504_605404_596604,
   159_479304_494504_510204_511604,
   160_396704_409804_423304_424504,
   161_327704_339004_350604_354704,
   162_270804_280404_290404_295104,
   163_224004_232304_240804_243804,
   164_185304_192404_199704_199104,
   165_153004_159004_165304_168004,
   166_126304_131404_136804_136604,
   167_103904_108304_112804_113404,
   168_854905_892005_930705_959705,
   169_707805_739405_772505_786505,
   170_585905_612905_641105_631105,
   171_487105_510205_534305_509705,
   172_405005_424605_445305_408505,
   173_336805_353705_371305_340805,
   174_280205_294505_309605_285705,
   175_234005_246305_259205_243305,
   176_195405_205905_217005_202205,
   177_164005_173005_182505_173505,
   178_137605_145405_153605_149005,
   179_114505_121105_128105_120005,
   180_952806_100905_106905_103105,
   181_783306_830506_880606_836806,
   182_644306_684006_726106_694706,
   183_525206_558206_593306_559006,
   184_428306_455806_485006_467006,
   185_345706_368306_392406_376106,
   186_279106_297806_317706_283706,
   187_222106_237306_253406_233806,
   188_176806_189106_202206_183106,
   189_139706_149506_160106_144706,
   190_110306_118306_126806_115306,
   191_864307_927707_995707_876607,
   192_677107_727607_781907_713707,
   193_528107_568207_611307_576807,
   194_411907_443707_478007_448707,
   195_319307_344407_371407_316107,
   196_247507_267307_288607_241807,
   197_190907_206407_223107_200307,
   198_147207_159407_172507_150907,
   199_108707_117807_127607_115407,
   200_802208_870408_944408_852608,
   201_609508_662108_719308_651508,
   202_463208_503708_547808_488108,
   203_352008_383208_417308_366308,
   204_267508_291608_317908_267908,
   205_203308_221908_242208_209608,
   206_154208_168508_184208_161208,
   207_117008_128108_140108_126208,
   208_888409_973109_106608_969909,
   209_674409_739609_811209_723409,
   210_512109_562309_617409_548409,
   211_378409_416009_457309_394609,
   212_279609_307709_338709_296109,
   213_206609_227609_250809_224509,
   214_152609_168409_185809_172009,
   215_112809_124609_137609_118509,
   216_825410_912710_100909_891810,
   217_604010_668710_740310_641410,
   218_442010_489910_543010_474810,
   219_323510_359010_398310_350710,
   220_236710_263010_292210_267510,
   221_173410_192810_214510_188710,
   222_127010_141410_157410_144810,
   223_929811_103710_115610_110610,
   224_681011_760111_848511_828811,
   225_498811_557411_622911_611511,
   226_367511_411111_460011_448011,
   227_270711_303311_339711_324811,
   228_199511_223711_250911_254811,
   229_147011_165111_185311_204011,
   230_108311_121811_136911_149211,
   231_807512_908712_102311_113711,
   232_602112_678312_764212_821112,
   233_449012_506512_571212_628012,
   234_335012_378312_427212_461212,
   235_250012_282612_319512_352012,
   236_190512_215612_244012_275712,
   237_145312_164612_186512_213612,
   238_110912_125812_142712_164312,
   239_847513_962513_109312_113512,
   240_648113_736913_837913_882513,
   241_511713_582513_663013_720513,
   242_404613_461113_525513_504413,
   243_320413_365513_417113_396113,
   244_254013_290213_331413_334313,
   245_201713_230613_263713_277413,
   246_171213_196013_224413_240313,
   247_145513_166713_191113_195613,
   248_123713_141913_162813_177913,
   249_105213_120813_138813_148513,
   250_895414_103013_118413_127713]

/-- atmdata/Venus/LAT80S.txt:25823-25973, columns 0 to 4. -/
def venusProfile172 : List ℕ :=
  [100_635202_647902_660902_632002,
   101_603502_615602_627902_598902,
   102_573002_584502_596202_568802,
   103_543802_554702_565802_540002,
   104_515902_526202_536702_513302,
   105_488902_498702_508702_485402,
   106_463102_472402_481802_458202,
   107_438302_447102_456002_433602,
   108_414302_422602_431102_412902,
   109_391702_399502_407502_391302,
   110_369802_377202_384702_371402,
   111_348802_355802_362902_349102,
   112_328802_335402_342102_327102,
   113_309802_316002_322302_310002,
   114_291602_297402_303302_291102,
   115_274002_279502_285102_273002,
   116_257502_262702_268002_256702,
   117_242002_246802_251702_243402,
   118_227302_231802_236402_230002,
   119_213102_217402_221702_215602,
   120_199902_203902_208002_203402,
   121_187402_191102_194902_190802,
   122_175302_178802_182402_179402,
   123_163802_167102_170402_167902,
   124_153102_156202_159302_156502,
   125_142802_145702_148602_146502,
   126_133202_135902_138602_136602,
   127_124002_126502_129002_128202,
   128_115402_117702_120102_119302,
   129_107202_109302_111502_111002,
   130_995103_101502_103502_103202,
   131_922203_940603_959403_962803,
   132_853303_870403_887803_892803,
   133_789603_805303_821503_821103,
   134_728803_743303_758203_761003,
   135_671903_685303_699003_699803,
   136_618503_630903_643503_639703,
   137_568603_579903_591503_590403,
   138_521503_531903_542503_541503,
   139_478103_487703_497403_496603,
   140_437203_445903_454903_455903,
   141_399103_407003_415203_414603,
   142_363403_370603_378103_373703,
   143_330003_336603_343403_341403,
   144_299503_305503_311603_307403,
   145_271203_276603_282103_276803,
   146_245003_249903_254903_250403,
   147_220403_224803_229303_226803,
   148_197703_201703_205703_204903,
   149_176803_180303_183903_186203,
   150_158103_161303_164503_165603,
   151_140803_143803_146803_147303,
   152_124703_127503_130403_131803,
   153_110803_113403_116103_116003,
   154_979704_100403_103003_103303,
   155_862704_885504_909004_901704,
   156_757804_778804_800504_786604,
   157_661504_680804_700604_676104,
   158_570204_587504_605404_585404,
   159_479304_494504_510204_497404,
   160_396704_409804_423304_416504,
   161_327704_339004_350604_344904,
   162_270804_280404_290404_285704,
   163_224004_232304_240804_232204,
   164_185304_192404_199704_192704,
   165_153004_159004_165304_160104,
   166_126304_131404_136804_129904,
   167_103904_108304_112804_107604,
   168_854905_892005_930705_886705,
   169_707805_739405_772505_727405,
   170_585905_612905_641105_603305,
   171_487105_510205_534305_507705,
   172_405005_424605_445305_423705,
   173_336805_353705_371305_350005,
   174_280205_294505_309605_293105,
   175_234005_246305_259205_239905,
   176_195405_205905_217005_197605,
   177_164005_173005_182505_170005,
   178_137605_145405_153605_146005,
   179_114505_121105_128105_115805,
   180_952806_100905_106905_971806,
   181_783306_830506_880606_835706,
   182_644306_684006_726106_703306,
   183_525206_558206_593306_576806,
   184_428306_455806_485006_474906,
   185_345706_368306_392406_380106,
   186_279106_297806_317706_307606,
   187_222106_237306_253406_247406,
   188_176806_189106_202206_194306,
   189_139706_149506_160106_148606,
   190_110306_118306_126806_117706,
   191_864307_927707_995707_947607,
   192_677107_727607_781907_760207,
   193_528107_568207_611307_587907,
   194_411907_443707_478007_487807,
   195_319307_344407_371407_369907,
   196_247507_267307_288607_283807,
   197_190907_206407_223107_228107,
   198_147207_159407_172507_173907,
   199_108707_117807_127607_117407,
   200_802208_870408_944408_895208,
   201_609508_662108_719308_713008,
   202_463208_503708_547808_530708,
   203_352008_383208_417308_404708,
   204_267508_291608_317908_298608,
   205_203308_221908_242208_227408,
   206_154208_168508_184208_175908,
   207_117008_128108_140108_128108,
   208_888409_973109_106608_962609,
   209_674409_739609_811209_752509,
   210_512109_562309_617409_588209,
   211_378409_416009_457309_430209,
   212_279609_307709_338709_303709,
   213_206609_227609_250809_235209,
   214_152609_168409_185809_173809,
   215_112809_124609_137609_133009,
   216_825410_912710_100909_100009,
   217_604010_668710_740310_728910,
   218_442010_489910_543010_540610,
   219_323510_359010_398310_397710,
   220_236710_263010_292210_298910,
   221_173410_192810_214510_218410,
   222_127010_141410_157410_152110,
   223_929811_103710_115610_108610,
   224_681011_760111_848511_775311,
   225_498811_557411_622911_576711,
   226_367511_411111_460011_464411,
   227_270711_303311_339711_334511,
   228_199511_223711_250911_249711,
   229_147011_165111_185311_184811,
   230_108311_121811_136911_142811,
   231_807512_908712_102311_994112,
   232_602112_678312_764212_686812,
   233_449012_506512_571212_483112,
   234_335012_378312_427212_330312,
   235_250012_282612_319512_255812,
   236_190512_215612_244012_183212,
   237_145312_164612_186512_137512,
   238_110912_125812_142712_105612,
   239_847513_962513_109312_842313,
   240_648113_736913_837913_611113,
   241_511713_582513_663013_458013,
   242_404613_461113_525513_405913,
   243_320413_365513_417113_314413,
   244_254013_290213_331413_246213,
   245_201713_230613_263713_180713,
   246_171213_196013_224413_154013,
   247_145513_166713_191113_121013,
   248_123713_141913_162813_100713,
   249_105213_120813_138813_996314,
   250_895414_103013_118413_888714]

/-- atmdata/Venus/LAT80S.txt:25974-26124, columns 0 to 4. -/
def venusProfile173 : List ℕ :=
  [100_635202_647902_660902_644302,
   101_603502_615602_627902_609802,
   102_573002_584502_596202_578002,
   103_543802_554702_565802_547302,
   104_515902_526202_536702_520902,
   105_488902_498702_508702_496502,
   106_463102_472402_481802_470902,
   107_438302_447102_456002_445402,
   108_414302_422602_431102_418602,
   109_391702_399502_407502_396402,
   110_369802_377202_384702_377702,
   111_348802_355802_362902_353202,
   112_328802_335402_342102_332302,
   113_309802_316002_322302_311702,
   114_291602_297402_303302_293602,
   115_274002_279502_285102_277502,
   116_257502_262702_268002_261002,
   117_242002_246802_251702_245502,
   118_227302_231802_236402_230002,
   119_213102_217402_221702_216502,
   120_199902_203902_208002_203202,
   121_187402_191102_194902_190702,
   122_175302_178802_182402_178202,
   123_163802_167102_170402_166602,
   124_153102_156202_159302_154402,
   125_142802_145702_148602_145302,
   126_133202_135902_138602_134302,
   127_124002_126502_129002_123702,
   128_115402_117702_120102_114502,
   129_107202_109302_111502_106102,
   130_995103_101502_103502_990503,
   131_922203_940603_959403_925303,
   132_853303_870403_887803_859803,
   133_789603_805303_821503_797303,
   134_728803_743303_758203_734903,
   135_671903_685303_699003_676503,
   136_618503_630903_643503_624703,
   137_568603_579903_591503_576703,
   138_521503_531903_542503_524003,
   139_478103_487703_497403_484003,
   140_437203_445903_454903_442103,
   141_399103_407003_415203_408203,
   142_363403_370603_378103_369103,
   143_330003_336603_343403_334003,
   144_299503_305503_311603_302403,
   145_271203_276603_282103_275403,
   146_245003_249903_254903_248803,
   147_220403_224803_229303_223303,
   148_197703_201703_205703_202203,
   149_176803_180303_183903_181803,
   150_158103_161303_164503_162303,
   151_140803_143803_146803_146003,
   152_124703_127503_130403_131403,
   153_110803_113403_116103_117203,
   154_979704_100403_103003_103403,
   155_862704_885504_909004_903504,
   156_757804_778804_800504_796504,
   157_661504_680804_700604_691704,
   158_570204_587504_605404_597604,
   159_479304_494504_510204_504404,
   160_396704_409804_423304_405804,
   161_327704_339004_350604_333304,
   162_270804_280404_290404_275104,
   163_224004_232304_240804_230204,
   164_185304_192404_199704_194104,
   165_153004_159004_165304_159204,
   166_126304_131404_136804_128304,
   167_103904_108304_112804_105904,
   168_854905_892005_930705_840005,
   169_707805_739405_772505_688005,
   170_585905_612905_641105_588905,
   171_487105_510205_534305_486705,
   172_405005_424605_445305_393805,
   173_336805_353705_371305_323805,
   174_280205_294505_309605_273205,
   175_234005_246305_259205_230305,
   176_195405_205905_217005_186905,
   177_164005_173005_182505_161905,
   178_137605_145405_153605_139505,
   179_114505_121105_128105_121305,
   180_952806_100905_106905_991606,
   181_783306_830506_880606_821806,
   182_644306_684006_726106_714206,
   183_525206_558206_593306_600006,
   184_428306_455806_485006_487706,
   185_345706_368306_392406_387806,
   186_279106_297806_317706_300806,
   187_222106_237306_253406_239006,
   188_176806_189106_202206_189506,
   189_139706_149506_160106_154206,
   190_110306_118306_126806_121206,
   191_864307_927707_995707_946607,
   192_677107_727607_781907_754207,
   193_528107_568207_611307_627007,
   194_411907_443707_478007_485707,
   195_319307_344407_371407_377307,
   196_247507_267307_288607_292707,
   197_190907_206407_223107_232607,
   198_147207_159407_172507_180407,
   199_108707_117807_127607_128707,
   200_802208_870408_944408_910008,
   201_609508_662108_719308_677008,
   202_463208_503708_547808_505808,
   203_352008_383208_417308_397908,
   204_267508_291608_317908_297608,
   205_203308_221908_242208_222808,
   206_154208_168508_184208_175308,
   207_117008_128108_140108_133608,
   208_888409_973109_106608_973009,
   209_674409_739609_811209_716309,
   210_512109_562309_617409_515609,
   211_378409_416009_457309_389309,
   212_279609_307709_338709_295709,
   213_206609_227609_250809_199809,
   214_152609_168409_185809_144809,
   215_112809_124609_137609_109409,
   216_825410_912710_100909_848110,
   217_604010_668710_740310_642010,
   218_442010_489910_543010_488410,
   219_323510_359010_398310_365410,
   220_236710_263010_292210_276510,
   221_173410_192810_214510_215310,
   222_127010_141410_157410_156810,
   223_929811_103710_115610_118810,
   224_681011_760111_848511_913511,
   225_498811_557411_622911_670711,
   226_367511_411111_460011_484311,
   227_270711_303311_339711_346511,
   228_199511_223711_250911_250111,
   229_147011_165111_185311_176311,
   230_108311_121811_136911_124011,
   231_807512_908712_102311_914712,
   232_602112_678312_764212_714912,
   233_449012_506512_571212_527012,
   234_335012_378312_427212_396712,
   235_250012_282612_319512_296512,
   236_190512_215612_244012_221112,
   237_145312_164612_186512_176612,
   238_110912_125812_142712_125612,
   239_847513_962513_109312_933613,
   240_648113_736913_837913_721213,
   241_511713_582513_663013_565913,
   242_404613_461113_525513_473713,
   243_320413_365513_417113_345713,
   244_254013_290213_331413_286613,
   245_201713_230613_263713_221313,
   246_171213_196013_224413_162613,
   247_145513_166713_191113_150213,
   248_123713_141913_162813_129613,
   249_105213_120813_138813_109813,
   250_895414_103013_118413_963914]

/-- atmdata/Venus/LAT80S.txt:26125-26275, columns 0 to 4. -/
def venusProfile174 : List ℕ :=
  [100_635202_647902_660902_653702,
   101_603502_615602_627902_617802,
   102_573002_584502_596202_584302,
   103_543802_554702_565802_551602,
   104_515902_526202_536702_526102,
   105_488902_498702_508702_498302,
   106_463102_472402_481802_478502,
   107_438302_447102_456002_452502,
   108_414302_422602_431102_426802,
   109_391702_399502_407502_403602,
   110_369802_377202_384702_378502,
   111_348802_355802_362902_359102,
   112_328802_335402_342102_338702,
   113_309802_316002_322302_319202,
   114_291602_297402_303302_301402,
   115_274002_279502_285102_282702,
   116_257502_262702_268002_265802,
   117_242002_246802_251702_248702,
   118_227302_231802_236402_234402,
   119_213102_217402_221702_222202,
   120_199902_203902_208002_207502,
   121_187402_191102_194902_194802,
   122_175302_178802_182402_179302,
   123_163802_167102_170402_167102,
   124_153102_156202_159302_157002,
   125_142802_145702_148602_145502,
   126_133202_135902_138602_135902,
   127_124002_126502_129002_125702,
   128_115402_117702_120102_117502,
   129_107202_109302_111502_109802,
   130_995103_101502_103502_102602,
   131_922203_940603_959403_956503,
   132_853303_870403_887803_887603,
   133_789603_805303_821503_810303,
   134_728803_743303_758203_755303,
   135_671903_685303_699003_694003,
   136_618503_630903_643503_634403,
   137_568603_579903_591503_584703,
   138_521503_531903_542503_536603,
   139_478103_487703_497403_488303,
   140_437203_445903_454903_442003,
   141_399103_407003_415203_404203,
   142_363403_370603_378103_366303,
   143_330003_336603_343403_333903,
   144_299503_305503_311603_303303,
   145_271203_276603_282103_274203,
   146_245003_249903_254903_247403,
   147_220403_224803_229303_224103,
   148_197703_201703_205703_203403,
   149_176803_180303_183903_182103,
   150_158103_161303_164503_163003,
   151_140803_143803_146803_145003,
   152_124703_127503_130403_127003,
   153_110803_113403_116103_112203,
   154_979704_100403_103003_101203,
   155_862704_885504_909004_885504,
   156_757804_778804_800504_754904,
   157_661504_680804_700604_660904,
   158_570204_587504_605404_571104,
   159_479304_494504_510204_480504,
   160_396704_409804_423304_394804,
   161_327704_339004_350604_317504,
   162_270804_280404_290404_261104,
   163_224004_232304_240804_215804,
   164_185304_192404_199704_176904,
   165_153004_159004_165304_142604,
   166_126304_131404_136804_124904,
   167_103904_108304_112804_102804,
   168_854905_892005_930705_851705,
   169_707805_739405_772505_692705,
   170_585905_612905_641105_572105,
   171_487105_510205_534305_492505,
   172_405005_424605_445305_412705,
   173_336805_353705_371305_333605,
   174_280205_294505_309605_281005,
   175_234005_246305_259205_243605,
   176_195405_205905_217005_210105,
   177_164005_173005_182505_180305,
   178_137605_145405_153605_153805,
   179_114505_121105_128105_131105,
   180_952806_100905_106905_111605,
   181_783306_830506_880606_896406,
   182_644306_684006_726106_716006,
   183_525206_558206_593306_569206,
   184_428306_455806_485006_460006,
   185_345706_368306_392406_365206,
   186_279106_297806_317706_298106,
   187_222106_237306_253406_233606,
   188_176806_189106_202206_186806,
   189_139706_149506_160106_148206,
   190_110306_118306_126806_116306,
   191_864307_927707_995707_884007,
   192_677107_727607_781907_703907,
   193_528107_568207_611307_553307,
   194_411907_443707_478007_398807,
   195_319307_344407_371407_326207,
   196_247507_267307_288607_259807,
   197_190907_206407_223107_207407,
   198_147207_159407_172507_167007,
   199_108707_117807_127607_122107,
   200_802208_870408_944408_896708,
   201_609508_662108_719308_692108,
   202_463208_503708_547808_516708,
   203_352008_383208_417308_371508,
   204_267508_291608_317908_282608,
   205_203308_221908_242208_208108,
   206_154208_168508_184208_168708,
   207_117008_128108_140108_137708,
   208_888409_973109_106608_110208,
   209_674409_739609_811209_841109,
   210_512109_562309_617409_626509,
   211_378409_416009_457309_475509,
   212_279609_307709_338709_338809,
   213_206609_227609_250809_239309,
   214_152609_168409_185809_189409,
   215_112809_124609_137609_136209,
   216_825410_912710_100909_104609,
   217_604010_668710_740310_804010,
   218_442010_489910_543010_609910,
   219_323510_359010_398310_450110,
   220_236710_263010_292210_332710,
   221_173410_192810_214510_234510,
   222_127010_141410_157410_176710,
   223_929811_103710_115610_125110,
   224_681011_760111_848511_905711,
   225_498811_557411_622911_666711,
   226_367511_411111_460011_512011,
   227_270711_303311_339711_363711,
   228_199511_223711_250911_252411,
   229_147011_165111_185311_193111,
   230_108311_121811_136911_141011,
   231_807512_908712_102311_107111,
   232_602112_678312_764212_792412,
   233_449012_506512_571212_602912,
   234_335012_378312_427212_420112,
   235_250012_282612_319512_307512,
   236_190512_215612_244012_236912,
   237_145312_164612_186512_175312,
   238_110912_125812_142712_139612,
   239_847513_962513_109312_113512,
   240_648113_736913_837913_932213,
   241_511713_582513_663013_744713,
   242_404613_461113_525513_595713,
   243_320413_365513_417113_487513,
   244_254013_290213_331413_363313,
   245_201713_230613_263713_284013,
   246_171213_196013_224413_241713,
   247_145513_166713_191113_205613,
   248_123713_141913_162813_180313,
   249_105213_120813_138813_159313,
   250_895414_103013_118413_134813]

/-- atmdata/Venus/LAT80S.txt:26276-26426, columns 0 to 4. -/
def venusProfile175 : List ℕ :=
  [100_635202_647902_660902_670002,
   101_603502_615602_627902_632102,
   102_573002_584502_596202_596102,
   103_543802_554702_565802_571002,
   104_515902_526202_536702_547002,
   105_488902_498702_508702_513302,
   106_463102_472402_481802_485202,
   107_438302_447102_456002_458702,
   108_414302_422602_431102_433802,
   109_391702_399502_407502_409702,
   110_369802_377202_384702_385302,
   111_348802_355802_362902_364102,
   112_328802_335402_342102_344402,
   113_309802_316002_322302_326402,
   114_291602_297402_303302_311502,
   115_274002_279502_285102_294502,
   116_257502_262702_268002_276602,
   117_242002_246802_251702_261302,
   118_227302_231802_236402_243802,
   119_213102_217402_221702_227402,
   120_199902_203902_208002_215002,
   121_187402_191102_194902_201702,
   122_175302_178802_182402_188602,
   123_163802_167102_170402_175002,
   124_153102_156202_159302_163402,
   125_142802_145702_148602_151802,
   126_133202_135902_138602_140702,
   127_124002_126502_129002_130202,
   128_115402_117702_120102_120802,
   129_107202_109302_111502_111902,
   130_995103_101502_103502_105502,
   131_922203_940603_959403_981503,
   132_853303_870403_887803_909903,
   133_789603_805303_821503_839303,
   134_728803_743303_758203_773503,
   135_671903_685303_699003_709603,
   136_618503_630903_643503_653503,
   137_568603_579903_591503_601003,
   138_521503_531903_542503_545003,
   139_478103_487703_497403_498503,
   140_437203_445903_454903_456703,
   141_399103_407003_415203_414103,
   142_363403_370603_378103_375303,
   143_330003_336603_343403_338103,
   144_299503_305503_311603_307903,
   145_271203_276603_282103_281603,
   146_245003_249903_254903_253403,
   147_220403_224803_229303_227003,
   148_197703_201703_205703_199803,
   149_176803_180303_183903_178403,
   150_158103_161303_164503_160403,
   151_140803_143803_146803_144303,
   152_124703_127503_130403_126903,
   153_110803_113403_116103_113603,
   154_979704_100403_103003_100803,
   155_862704_885504_909004_882904,
   156_757804_778804_800504_774304,
   157_661504_680804_700604_682004,
   158_570204_587504_605404_587804,
   159_479304_494504_510204_491404,
   160_396704_409804_423304_406604,
   161_327704_339004_350604_339404,
   162_270804_280404_290404_276104,
   163_224004_232304_240804_234604,
   164_185304_192404_199704_194304,
   165_153004_159004_165304_162204,
   166_126304_131404_136804_137204,
   167_103904_108304_112804_111604,
   168_854905_892005_930705_893705,
   169_707805_739405_772505_718005,
   170_585905_612905_641105_604505,
   171_487105_510205_534305_504605,
   172_405005_424605_445305_409605,
   173_336805_353705_371305_352305,
   174_280205_294505_309605_295905,
   175_234005_246305_259205_244805,
   176_195405_205905_217005_208005,
   177_164005_173005_182505_178805,
   178_137605_145405_153605_152505,
   179_114505_121105_128105_129305,
   180_952806_100905_106905_107505,
   181_783306_830506_880606_904206,
   182_644306_684006_726106_732206,
   183_525206_558206_593306_594006,
   184_428306_455806_485006_473406,
   185_345706_368306_392406_372606,
   186_279106_297806_317706_293106,
   187_222106_237306_253406_224906,
   188_176806_189106_202206_181706,
   189_139706_149506_160106_140906,
   190_110306_118306_126806_110406,
   191_864307_927707_995707_894307,
   192_677107_727607_781907_707207,
   193_528107_568207_611307_533007,
   194_411907_443707_478007_419107,
   195_319307_344407_371407_318007,
   196_247507_267307_288607_259307,
   197_190907_206407_223107_205907,
   198_147207_159407_172507_152907,
   199_108707_117807_127607_114507,
   200_802208_870408_944408_872408,
   201_609508_662108_719308_629908,
   202_463208_503708_547808_474108,
   203_352008_383208_417308_356108,
   204_267508_291608_317908_274808,
   205_203308_221908_242208_231508,
   206_154208_168508_184208_165608,
   207_117008_128108_140108_124508,
   208_888409_973109_106608_968909,
   209_674409_739609_811209_700509,
   210_512109_562309_617409_546409,
   211_378409_416009_457309_371109,
   212_279609_307709_338709_286909,
   213_206609_227609_250809_209609,
   214_152609_168409_185809_159409,
   215_112809_124609_137609_111209,
   216_825410_912710_100909_902510,
   217_604010_668710_740310_631910,
   218_442010_489910_543010_420410,
   219_323510_359010_398310_325110,
   220_236710_263010_292210_247510,
   221_173410_192810_214510_185610,
   222_127010_141410_157410_131510,
   223_929811_103710_115610_101410,
   224_681011_760111_848511_704211,
   225_498811_557411_622911_531411,
   226_367511_411111_460011_387411,
   227_270711_303311_339711_279211,
   228_199511_223711_250911_220011,
   229_147011_165111_185311_161911,
   230_108311_121811_136911_125611,
   231_807512_908712_102311_860112,
   232_602112_678312_764212_624912,
   233_449012_506512_571212_432912,
   234_335012_378312_427212_336012,
   235_250012_282612_319512_245612,
   236_190512_215612_244012_203312,
   237_145312_164612_186512_164312,
   238_110912_125812_142712_125712,
   239_847513_962513_109312_966513,
   240_648113_736913_837913_727013,
   241_511713_582513_663013_519313,
   242_404613_461113_525513_424213,
   243_320413_365513_417113_346913,
   244_254013_290213_331413_281613,
   245_201713_230613_263713_232113,
   246_171213_196013_224413_190413,
   247_145513_166713_191113_160213,
   248_123713_141913_162813_127713,
   249_105213_120813_138813_106913,
   250_895414_103013_118413_934714]

/-- atmdata/Venus/LAT80S.txt:26427-26577, columns 0 to 4. -/
def venusProfile176 : List ℕ :=
  [100_635202_647902_660902_638902,
   101_603502_615602_627902_602602,
   102_573002_584502_596202_578802,
   103_543802_554702_565802_551902,
   104_515902_526202_536702_520602,
   105_488902_498702_508702_494402,
   106_463102_472402_481802_470402,
   107_438302_447102_456002_445302,
   108_414302_422602_431102_423002,
   109_391702_399502_407502_399702,
   110_369802_377202_384702_377002,
   111_348802_355802_362902_355702,
   112_328802_335402_342102_332002,
   113_309802_316002_322302_311902,
   114_291602_297402_303302_292602,
   115_274002_279502_285102_275002,
   116_257502_262702_268002_259102,
   117_242002_246802_251702_243902,
   118_227302_231802_236402_229502,
   119_213102_217402_221702_215402,
   120_199902_203902_208002_202602,
   121_187402_191102_194902_190802,
   122_175302_178802_182402_177702,
   123_163802_167102_170402_164102,
   124_153102_156202_159302_153102,
   125_142802_145702_148602_142902,
   126_133202_135902_138602_134002,
   127_124002_126502_129002_124402,
   128_115402_117702_120102_117402,
   129_107202_109302_111502_107902,
   130_995103_101502_103502_995403,
   131_922203_940603_959403_928603,
   132_853303_870403_887803_863303,
   133_789603_805303_821503_803603,
   134_728803_743303_758203_736403,
   135_671903_685303_699003_676503,
   136_618503_630903_643503_619003,
   137_568603_579903_591503_570303,
   138_521503_531903_542503_523903,
   139_478103_487703_497403_482403,
   140_437203_445903_454903_440003,
   141_399103_407003_415203_404203,
   142_363403_370603_378103_367303,
   143_330003_336603_343403_334003,
   144_299503_305503_311603_306103,
   145_271203_276603_282103_277203,
   146_245003_249903_254903_249103,
   147_220403_224803_229303_225503,
   148_197703_201703_205703_200103,
   149_176803_180303_183903_177903,
   150_158103_161303_164503_160503,
   151_140803_143803_146803_142903,
   152_124703_127503_130403_126003,
   153_110803_113403_116103_111603,
   154_979704_100403_103003_981404,
   155_862704_885504_909004_860704,
   156_757804_778804_800504_763504,
   157_661504_680804_700604_683304,
   158_570204_587504_605404_588104,
   159_479304_494504_510204_488204,
   160_396704_409804_423304_406804,
   161_327704_339004_350604_336404,
   162_270804_280404_290404_285404,
   163_224004_232304_240804_236804,
   164_185304_192404_199704_198804,
   165_153004_159004_165304_163704,
   166_126304_131404_136804_137404,
   167_103904_108304_112804_111104,
   168_854905_892005_930705_917905,
   169_707805_739405_772505_785505,
   170_585905_612905_641105_637805,
   171_487105_510205_534305_518905,
   172_405005_424605_445305_434005,
   173_336805_353705_371305_366905,
   174_280205_294505_309605_307505,
   175_234005_246305_259205_259305,
   176_195405_205905_217005_217305,
   177_164005_173005_182505_186205,
   178_137605_145405_153605_158105,
   179_114505_121105_128105_132905,
   180_952806_100905_106905_107905,
   181_783306_830506_880606_884306,
   182_644306_684006_726106_725206,
   183_525206_558206_593306_600606,
   184_428306_455806_485006_470506,
   185_345706_368306_392406_367506,
   186_279106_297806_317706_301706,
   187_222106_237306_253406_248506,
   188_176806_189106_202206_200606,
   189_139706_149506_160106_164006,
   190_110306_118306_126806_126506,
   191_864307_927707_995707_985207,
   192_677107_727607_781907_768907,
   193_528107_568207_611307_606407,
   194_411907_443707_478007_444107,
   195_319307_344407_371407_344807,
   196_247507_267307_288607_254507,
   197_190907_206407_223107_201507,
   198_147207_159407_172507_153907,
   199_108707_117807_127607_117607,
   200_802208_870408_944408_835308,
   201_609508_662108_719308_634908,
   202_463208_503708_547808_477908,
   203_352008_383208_417308_367208,
   204_267508_291608_317908_285808,
   205_203308_221908_242208_225308,
   206_154208_168508_184208_165408,
   207_117008_128108_140108_129508,
   208_888409_973109_106608_983009,
   209_674409_739609_811209_749809,
   210_512109_562309_617409_522809,
   211_378409_416009_457309_376509,
   212_279609_307709_338709_275909,
   213_206609_227609_250809_205809,
   214_152609_168409_185809_152109,
   215_112809_124609_137609_118309,
   216_825410_912710_100909_810810,
   217_604010_668710_740310_589310,
   218_442010_489910_543010_413410,
   219_323510_359010_398310_324310,
   220_236710_263010_292210_246410,
   221_173410_192810_214510_162910,
   222_127010_141410_157410_122110,
   223_929811_103710_115610_887611,
   224_681011_760111_848511_679211,
   225_498811_557411_622911_515811,
   226_367511_411111_460011_401211,
   227_270711_303311_339711_287011,
   228_199511_223711_250911_216211,
   229_147011_165111_185311_149511,
   230_108311_121811_136911_105311,
   231_807512_908712_102311_780912,
   232_602112_678312_764212_670612,
   233_449012_506512_571212_493612,
   234_335012_378312_427212_354512,
   235_250012_282612_319512_251912,
   236_190512_215612_244012_183712,
   237_145312_164612_186512_139412,
   238_110912_125812_142712_102912,
   239_847513_962513_109312_754213,
   240_648113_736913_837913_621213,
   241_511713_582513_663013_485913,
   242_404613_461113_525513_394213,
   243_320413_365513_417113_315113,
   244_254013_290213_331413_229413,
   245_201713_230613_263713_206513,
   246_171213_196013_224413_190613,
   247_145513_166713_191113_154413,
   248_123713_141913_162813_130613,
   249_105213_120813_138813_117513,
   250_895414_103013_118413_101413]

/-- atmdata/Venus/LAT80S.txt:26578-26728, columns 0 to 4. -/
def venusProfile177 : List ℕ :=
  [100_635202_647902_660902_648702,
   101_603502_615602_627902_608902,
   102_573002_584502_596202_581502,
   103_543802_554702_565802_553102,
   104_515902_526202_536702_523002,
   105_488902_498702_508702_493802,
   106_463102_472402_481802_465902,
   107_438302_447102_456002_441402,
   108_414302_422602_431102_414202,
   109_391702_399502_407502_391402,
   110_369802_377202_384702_370102,
   111_348802_355802_362902_348702,
   112_328802_335402_342102_327802,
   113_309802_316002_322302_309602,
   114_291602_297402_303302_291502,
   115_274002_279502_285102_271002,
   116_257502_262702_268002_255602,
   117_242002_246802_251702_239502,
   118_227302_231802_236402_223402,
   119_213102_217402_221702_210802,
   120_199902_203902_208002_197602,
   121_187402_191102_194902_186402,
   122_175302_178802_182402_175402,
   123_163802_167102_170402_165102,
   124_153102_156202_159302_153002,
   125_142802_145702_148602_143202,
   126_133202_135902_138602_133402,
   127_124002_126502_129002_124102,
   128_115402_117702_120102_115702,
   129_107202_109302_111502_107702,
   130_995103_101502_103502_996703,
   131_922203_940603_959403_929403,
   132_853303_870403_887803_864203,
   133_789603_805303_821503_796503,
   134_728803_743303_758203_737703,
   135_671903_685303_699003_677203,
   136_618503_630903_643503_625103,
   137_568603_579903_591503_575103,
   138_521503_531903_542503_522603,
   139_478103_487703_497403_485903,
   140_437203_445903_454903_449103,
   141_399103_407003_415203_409403,
   142_363403_370603_378103_372103,
   143_330003_336603_343403_342403,
   144_299503_305503_311603_308003,
   145_271203_276603_282103_276403,
   146_245003_249903_254903_247903,
   147_220403_224803_229303_222303,
   148_197703_201703_205703_197903,
   149_176803_180303_183903_179603,
   150_158103_161303_164503_158603,
   151_140803_143803_146803_142803,
   152_124703_127503_130403_126203,
   153_110803_113403_116103_113403,
   154_979704_100403_103003_101203,
   155_862704_885504_909004_887804,
   156_757804_778804_800504_773104,
   157_661504_680804_700604_670104,
   158_570204_587504_605404_576404,
   159_479304_494504_510204_495604,
   160_396704_409804_423304_416604,
   161_327704_339004_350604_340704,
   162_270804_280404_290404_285304,
   163_224004_232304_240804_232904,
   164_185304_192404_199704_189804,
   165_153004_159004_165304_154504,
   166_126304_131404_136804_129604,
   167_103904_108304_112804_104104,
   168_854905_892005_930705_842405,
   169_707805_739405_772505_717705,
   170_585905_612905_641105_599405,
   171_487105_510205_534305_506905,
   172_405005_424605_445305_412805,
   173_336805_353705_371305_347205,
   174_280205_294505_309605_292605,
   175_234005_246305_259205_237805,
   176_195405_205905_217005_198805,
   177_164005_173005_182505_171805,
   178_137605_145405_153605_146605,
   179_114505_121105_128105_123505,
   180_952806_100905_106905_105605,
   181_783306_830506_880606_843406,
   182_644306_684006_726106_702306,
   183_525206_558206_593306_550206,
   184_428306_455806_485006_468706,
   185_345706_368306_392406_361806,
   186_279106_297806_317706_287506,
   187_222106_237306_253406_233006,
   188_176806_189106_202206_190606,
   189_139706_149506_160106_151806,
   190_110306_118306_126806_117106,
   191_864307_927707_995707_889707,
   192_677107_727607_781907_696107,
   193_528107_568207_611307_533707,
   194_411907_443707_478007_420507,
   195_319307_344407_371407_337007,
   196_247507_267307_288607_255507,
   197_190907_206407_223107_201307,
   198_147207_159407_172507_156707,
   199_108707_117807_127607_108307,
   200_802208_870408_944408_802408,
   201_609508_662108_719308_636408,
   202_463208_503708_547808_479208,
   203_352008_383208_417308_377708,
   204_267508_291608_317908_297308,
   205_203308_221908_242208_229008,
   206_154208_168508_184208_170308,
   207_117008_128108_140108_124908,
   208_888409_973109_106608_929109,
   209_674409_739609_811209_777309,
   210_512109_562309_617409_578109,
   211_378409_416009_457309_422709,
   212_279609_307709_338709_328109,
   213_206609_227609_250809_245009,
   214_152609_168409_185809_172009,
   215_112809_124609_137609_128209,
   216_825410_912710_100909_891910,
   217_604010_668710_740310_658310,
   218_442010_489910_543010_468510,
   219_323510_359010_398310_367410,
   220_236710_263010_292210_275410,
   221_173410_192810_214510_198210,
   222_127010_141410_157410_153510,
   223_929811_103710_115610_116710,
   224_681011_760111_848511_829011,
   225_498811_557411_622911_619011,
   226_367511_411111_460011_441811,
   227_270711_303311_339711_311511,
   228_199511_223711_250911_225511,
   229_147011_165111_185311_170911,
   230_108311_121811_136911_125211,
   231_807512_908712_102311_953112,
   232_602112_678312_764212_729812,
   233_449012_506512_571212_555512,
   234_335012_378312_427212_425712,
   235_250012_282612_319512_282612,
   236_190512_215612_244012_213612,
   237_145312_164612_186512_173812,
   238_110912_125812_142712_141412,
   239_847513_962513_109312_111512,
   240_648113_736913_837913_807013,
   241_511713_582513_663013_644613,
   242_404613_461113_525513_502813,
   243_320413_365513_417113_381013,
   244_254013_290213_331413_300913,
   245_201713_230613_263713_225513,
   246_171213_196013_224413_192713,
   247_145513_166713_191113_182113,
   248_123713_141913_162813_158713,
   249_105213_120813_138813_128813,
   250_895414_103013_118413_110013]

/-- atmdata/Venus/LAT80S.txt:26729-26879, columns 0 to 4. -/
def venusProfile178 : List ℕ :=
  [100_635202_647902_660902_659102,
   101_603502_615602_627902_631202,
   102_573002_584502_596202_600802,
   103_543802_554702_565802_569702,
   104_515902_526202_536702_539202,
   105_488902_498702_508702_512802,
   106_463102_472402_481802_485902,
   107_438302_447102_456002_459802,
   108_414302_422602_431102_433102,
   109_391702_399502_407502_408402,
   110_369802_377202_384702_386502,
   111_348802_355802_362902_362502,
   112_328802_335402_342102_341502,
   113_309802_316002_322302_325402,
   114_291602_297402_303302_306802,
   115_274002_279502_285102_288202,
   116_257502_262702_268002_271402,
   117_242002_246802_251702_256502,
   118_227302_231802_236402_240602,
   119_213102_217402_221702_223702,
   120_199902_203902_208002_208102,
   121_187402_191102_194902_196202,
   122_175302_178802_182402_183102,
   123_163802_167102_170402_171502,
   124_153102_156202_159302_160802,
   125_142802_145702_148602_151002,
   126_133202_135902_138602_141602,
   127_124002_126502_129002_131602,
   128_115402_117702_120102_121602,
   129_107202_109302_111502_112302,
   130_995103_101502_103502_103902,
   131_922203_940603_959403_967003,
   132_853303_870403_887803_897703,
   133_789603_805303_821503_831303,
   134_728803_743303_758203_763303,
   135_671903_685303_699003_699103,
   136_618503_630903_643503_638403,
   137_568603_579903_591503_586403,
   138_521503_531903_542503_538003,
   139_478103_487703_497403_491103,
   140_437203_445903_454903_449503,
   141_399103_407003_415203_406003,
   142_363403_370603_378103_369603,
   143_330003_336603_343403_335303,
   144_299503_305503_311603_303303,
   145_271203_276603_282103_275603,
   146_245003_249903_254903_246303,
   147_220403_224803_229303_222903,
   148_197703_201703_205703_198703,
   149_176803_180303_183903_178803,
   150_158103_161303_164503_159003,
   151_140803_143803_146803_141503,
   152_124703_127503_130403_125303,
   153_110803_113403_116103_111303,
   154_979704_100403_103003_984304,
   155_862704_885504_909004_864504,
   156_757804_778804_800504_761904,
   157_661504_680804_700604_665404,
   158_570204_587504_605404_571504,
   159_479304_494504_510204_486404,
   160_396704_409804_423304_396204,
   161_327704_339004_350604_335404,
   162_270804_280404_290404_279204,
   163_224004_232304_240804_234104,
   164_185304_192404_199704_193604,
   165_153004_159004_165304_162904,
   166_126304_131404_136804_135604,
   167_103904_108304_112804_114904,
   168_854905_892005_930705_950005,
   169_707805_739405_772505_796705,
   170_585905_612905_641105_635305,
   171_487105_510205_534305_524405,
   172_405005_424605_445305_439105,
   173_336805_353705_371305_365005,
   174_280205_294505_309605_306805,
   175_234005_246305_259205_255505,
   176_195405_205905_217005_210505,
   177_164005_173005_182505_181305,
   178_137605_145405_153605_154005,
   179_114505_121105_128105_128605,
   180_952806_100905_106905_106905,
   181_783306_830506_880606_892706,
   182_644306_684006_726106_750406,
   183_525206_558206_593306_603006,
   184_428306_455806_485006_499806,
   185_345706_368306_392406_422806,
   186_279106_297806_317706_345206,
   187_222106_237306_253406_272106,
   188_176806_189106_202206_222006,
   189_139706_149506_160106_171006,
   190_110306_118306_126806_130206,
   191_864307_927707_995707_103906,
   192_677107_727607_781907_798907,
   193_528107_568207_611307_635507,
   194_411907_443707_478007_469107,
   195_319307_344407_371407_348107,
   196_247507_267307_288607_267107,
   197_190907_206407_223107_209007,
   198_147207_159407_172507_165907,
   199_108707_117807_127607_119107,
   200_802208_870408_944408_903308,
   201_609508_662108_719308_666208,
   202_463208_503708_547808_500008,
   203_352008_383208_417308_359208,
   204_267508_291608_317908_289908,
   205_203308_221908_242208_220008,
   206_154208_168508_184208_166208,
   207_117008_128108_140108_127408,
   208_888409_973109_106608_909709,
   209_674409_739609_811209_691109,
   210_512109_562309_617409_536309,
   211_378409_416009_457309_402709,
   212_279609_307709_338709_296709,
   213_206609_227609_250809_227709,
   214_152609_168409_185809_176409,
   215_112809_124609_137609_127709,
   216_825410_912710_100909_899810,
   217_604010_668710_740310_680310,
   218_442010_489910_543010_489210,
   219_323510_359010_398310_397810,
   220_236710_263010_292210_295110,
   221_173410_192810_214510_220210,
   222_127010_141410_157410_154910,
   223_929811_103710_115610_110510,
   224_681011_760111_848511_857011,
   225_498811_557411_622911_639111,
   226_367511_411111_460011_481311,
   227_270711_303311_339711_336311,
   228_199511_223711_250911_231911,
   229_147011_165111_185311_166711,
   230_108311_121811_136911_127911,
   231_807512_908712_102311_105111,
   232_602112_678312_764212_770212,
   233_449012_506512_571212_501212,
   234_335012_378312_427212_364612,
   235_250012_282612_319512_291412,
   236_190512_215612_244012_227812,
   237_145312_164612_186512_170612,
   238_110912_125812_142712_131712,
   239_847513_962513_109312_990713,
   240_648113_736913_837913_768613,
   241_511713_582513_663013_656313,
   242_404613_461113_525513_504613,
   243_320413_365513_417113_360513,
   244_254013_290213_331413_311013,
   245_201713_230613_263713_241613,
   246_171213_196013_224413_192813,
   247_145513_166713_191113_170513,
   248_123713_141913_162813_124413,
   249_105213_120813_138813_111013,
   250_895414_103013_118413_957314]

/-- atmdata/Venus/LAT80S.txt:26880-27030, columns 0 to 4. -/
def venusProfile179 : List ℕ :=
  [100_635202_647902_660902_630902,
   101_603502_615602_627902_603902,
   102_573002_584502_596202_574802,
   103_543802_554702_565802_544602,
   104_515902_526202_536702_517002,
   105_488902_498702_508702_489602,
   106_463102_472402_481802_471202,
   107_438302_447102_456002_446502,
   108_414302_422602_431102_422302,
   109_391702_399502_407502_398302,
   110_369802_377202_384702_378302,
   111_348802_355802_362902_361702,
   112_328802_335402_342102_341802,
   113_309802_316002_322302_321202,
   114_291602_297402_303302_304802,
   115_274002_279502_285102_284302,
   116_257502_262702_268002_268002,
   117_242002_246802_251702_251902,
   118_227302_231802_236402_238402,
   119_213102_217402_221702_222902,
   120_199902_203902_208002_209902,
   121_187402_191102_194902_198202,
   122_175302_178802_182402_188102,
   123_163802_167102_170402_175602,
   124_153102_156202_159302_163902,
   125_142802_145702_148602_151502,
   126_133202_135902_138602_141002,
   127_124002_126502_129002_131202,
   128_115402_117702_120102_122502,
   129_107202_109302_111502_114202,
   130_995103_101502_103502_105802,
   131_922203_940603_959403_982803,
   132_853303_870403_887803_911903,
   133_789603_805303_821503_834303,
   134_728803_743303_758203_773203,
   135_671903_685303_699003_707203,
   136_618503_630903_643503_651203,
   137_568603_579903_591503_597103,
   138_521503_531903_542503_541503,
   139_478103_487703_497403_496503,
   140_437203_445903_454903_451403,
   141_399103_407003_415203_412903,
   142_363403_370603_378103_376003,
   143_330003_336603_343403_343403,
   144_299503_305503_311603_311303,
   145_271203_276603_282103_280303,
   146_245003_249903_254903_256103,
   147_220403_224803_229303_229103,
   148_197703_201703_205703_204203,
   149_176803_180303_183903_182703,
   150_158103_161303_164503_162703,
   151_140803_143803_146803_146603,
   152_124703_127503_130403_130003,
   153_110803_113403_116103_117503,
   154_979704_100403_103003_102503,
   155_862704_885504_909004_899904,
   156_757804_778804_800504_803704,
   157_661504_680804_700604_705204,
   158_570204_587504_605404_603704,
   159_479304_494504_510204_509604,
   160_396704_409804_423304_418904,
   161_327704_339004_350604_348304,
   162_270804_280404_290404_287804,
   163_224004_232304_240804_237204,
   164_185304_192404_199704_198704,
   165_153004_159004_165304_164404,
   166_126304_131404_136804_136404,
   167_103904_108304_112804_114104,
   168_854905_892005_930705_922205,
   169_707805_739405_772505_771605,
   170_585905_612905_641105_636505,
   171_487105_510205_534305_557005,
   172_405005_424605_445305_452405,
   173_336805_353705_371305_372705,
   174_280205_294505_309605_313205,
   175_234005_246305_259205_266805,
   176_195405_205905_217005_216605,
   177_164005_173005_182505_186305,
   178_137605_145405_153605_157705,
   179_114505_121105_128105_131005,
   180_952806_100905_106905_106405,
   181_783306_830506_880606_867706,
   182_644306_684006_726106_679406,
   183_525206_558206_593306_560406,
   184_428306_455806_485006_462306,
   185_345706_368306_392406_387106,
   186_279106_297806_317706_308006,
   187_222106_237306_253406_241306,
   188_176806_189106_202206_206506,
   189_139706_149506_160106_171906,
   190_110306_118306_126806_129706,
   191_864307_927707_995707_100806,
   192_677107_727607_781907_772307,
   193_528107_568207_611307_594407,
   194_411907_443707_478007_465207,
   195_319307_344407_371407_357007,
   196_247507_267307_288607_277107,
   197_190907_206407_223107_215207,
   198_147207_159407_172507_155107,
   199_108707_117807_127607_114207,
   200_802208_870408_944408_810208,
   201_609508_662108_719308_625908,
   202_463208_503708_547808_472408,
   203_352008_383208_417308_354408,
   204_267508_291608_317908_254008,
   205_203308_221908_242208_191208,
   206_154208_168508_184208_148108,
   207_117008_128108_140108_124308,
   208_888409_973109_106608_981609,
   209_674409_739609_811209_782109,
   210_512109_562309_617409_631509,
   211_378409_416009_457309_478009,
   212_279609_307709_338709_377209,
   213_206609_227609_250809_291509,
   214_152609_168409_185809_213209,
   215_112809_124609_137609_147809,
   216_825410_912710_100909_104309,
   217_604010_668710_740310_810210,
   218_442010_489910_543010_582910,
   219_323510_359010_398310_394310,
   220_236710_263010_292210_292310,
   221_173410_192810_214510_200510,
   222_127010_141410_157410_147910,
   223_929811_103710_115610_113010,
   224_681011_760111_848511_823911,
   225_498811_557411_622911_618211,
   226_367511_411111_460011_436911,
   227_270711_303311_339711_304211,
   228_199511_223711_250911_236411,
   229_147011_165111_185311_187811,
   230_108311_121811_136911_128711,
   231_807512_908712_102311_929212,
   232_602112_678312_764212_660012,
   233_449012_506512_571212_482612,
   234_335012_378312_427212_380012,
   235_250012_282612_319512_295012,
   236_190512_215612_244012_245212,
   237_145312_164612_186512_197612,
   238_110912_125812_142712_144912,
   239_847513_962513_109312_994113,
   240_648113_736913_837913_680913,
   241_511713_582513_663013_519913,
   242_404613_461113_525513_400813,
   243_320413_365513_417113_341013,
   244_254013_290213_331413_266713,
   245_201713_230613_263713_216813,
   246_171213_196013_224413_193713,
   247_145513_166713_191113_165313,
   248_123713_141913_162813_136713,
   249_105213_120813_138813_110613,
   250_895414_103013_118413_950714]

/-- atmdata/Venus/LAT80S.txt:27031-27181, columns 0 to 4. -/
def venusProfile180 : List ℕ :=
  [100_635202_647902_660902_643802,
   101_603502_615602_627902_615102,
   102_573002_584502_596202_584202,
   103_543802_554702_565802_551902,
   104_515902_526202_536702_524602,
   105_488902_498702_508702_502902,
   106_463102_472402_481802_475602,
   107_438302_447102_456002_450702,
   108_414302_422602_431102_427502,
   109_391702_399502_407502_402802,
   110_369802_377202_384702_376202,
   111_348802_355802_362902_356602,
   112_328802_335402_342102_339202,
   113_309802_316002_322302_320402,
   114_291602_297402_303302_300102,
   115_274002_279502_285102_282402,
   116_257502_262702_268002_266502,
   117_242002_246802_251702_249302,
   118_227302_231802_236402_233702,
   119_213102_217402_221702_219502,
   120_199902_203902_208002_205902,
   121_187402_191102_194902_196202,
   122_175302_178802_182402_183602,
   123_163802_167102_170402_171202,
   124_153102_156202_159302_159402,
   125_142802_145702_148602_148102,
   126_133202_135902_138602_136602,
   127_124002_126502_129002_127502,
   128_115402_117702_120102_118502,
   129_107202_109302_111502_109802,
   130_995103_101502_103502_102102,
   131_922203_940603_959403_950003,
   132_853303_870403_887803_883203,
   133_789603_805303_821503_816203,
   134_728803_743303_758203_751903,
   135_671903_685303_699003_687803,
   136_618503_630903_643503_628303,
   137_568603_579903_591503_576703,
   138_521503_531903_542503_529503,
   139_478103_487703_497403_488503,
   140_437203_445903_454903_449603,
   141_399103_407003_415203_408803,
   142_363403_370603_378103_372903,
   143_330003_336603_343403_337203,
   144_299503_305503_311603_307003,
   145_271203_276603_282103_279603,
   146_245003_249903_254903_254503,
   147_220403_224803_229303_229703,
   148_197703_201703_205703_204903,
   149_176803_180303_183903_182603,
   150_158103_161303_164503_163103,
   151_140803_143803_146803_145203,
   152_124703_127503_130403_129003,
   153_110803_113403_116103_114803,
   154_979704_100403_103003_102003,
   155_862704_885504_909004_896704,
   156_757804_778804_800504_784804,
   157_661504_680804_700604_695504,
   158_570204_587504_605404_594604,
   159_479304_494504_510204_499704,
   160_396704_409804_423304_414004,
   161_327704_339004_350604_341304,
   162_270804_280404_290404_280704,
   163_224004_232304_240804_225704,
   164_185304_192404_199704_183704,
   165_153004_159004_165304_150804,
   166_126304_131404_136804_125404,
   167_103904_108304_112804_104904,
   168_854905_892005_930705_874805,
   169_707805_739405_772505_731605,
   170_585905_612905_641105_620905,
   171_487105_510205_534305_519305,
   172_405005_424605_445305_435905,
   173_336805_353705_371305_356905,
   174_280205_294505_309605_301305,
   175_234005_246305_259205_247905,
   176_195405_205905_217005_216705,
   177_164005_173005_182505_186605,
   178_137605_145405_153605_157805,
   179_114505_121105_128105_130505,
   180_952806_100905_106905_110905,
   181_783306_830506_880606_873106,
   182_644306_684006_726106_701806,
   183_525206_558206_593306_595506,
   184_428306_455806_485006_484106,
   185_345706_368306_392406_399706,
   186_279106_297806_317706_330706,
   187_222106_237306_253406_253106,
   188_176806_189106_202206_193206,
   189_139706_149506_160106_154606,
   190_110306_118306_126806_115406,
   191_864307_927707_995707_877407,
   192_677107_727607_781907_673907,
   193_528107_568207_611307_556007,
   194_411907_443707_478007_416207,
   195_319307_344407_371407_330607,
   196_247507_267307_288607_261707,
   197_190907_206407_223107_203407,
   198_147207_159407_172507_153807,
   199_108707_117807_127607_115307,
   200_802208_870408_944408_849008,
   201_609508_662108_719308_699008,
   202_463208_503708_547808_523208,
   203_352008_383208_417308_398608,
   204_267508_291608_317908_291208,
   205_203308_221908_242208_211808,
   206_154208_168508_184208_164408,
   207_117008_128108_140108_123908,
   208_888409_973109_106608_953809,
   209_674409_739609_811209_714109,
   210_512109_562309_617409_531309,
   211_378409_416009_457309_351509,
   212_279609_307709_338709_264909,
   213_206609_227609_250809_187709,
   214_152609_168409_185809_138009,
   215_112809_124609_137609_109309,
   216_825410_912710_100909_794310,
   217_604010_668710_740310_562910,
   218_442010_489910_543010_423010,
   219_323510_359010_398310_296110,
   220_236710_263010_292210_225410,
   221_173410_192810_214510_166710,
   222_127010_141410_157410_132810,
   223_929811_103710_115610_959911,
   224_681011_760111_848511_667111,
   225_498811_557411_622911_512511,
   226_367511_411111_460011_390411,
   227_270711_303311_339711_272411,
   228_199511_223711_250911_205311,
   229_147011_165111_185311_154011,
   230_108311_121811_136911_113111,
   231_807512_908712_102311_860412,
   232_602112_678312_764212_687812,
   233_449012_506512_571212_522412,
   234_335012_378312_427212_382512,
   235_250012_282612_319512_290912,
   236_190512_215612_244012_212612,
   237_145312_164612_186512_160912,
   238_110912_125812_142712_138412,
   239_847513_962513_109312_107312,
   240_648113_736913_837913_807213,
   241_511713_582513_663013_635913,
   242_404613_461113_525513_473713,
   243_320413_365513_417113_382113,
   244_254013_290213_331413_316213,
   245_201713_230613_263713_262613,
   246_171213_196013_224413_218213,
   247_145513_166713_191113_178313,
   248_123713_141913_162813_153113,
   249_105213_120813_138813_132213,
   250_895414_103013_118413_111513]

/-- atmdata/Venus/LAT80S.txt:27182-27332, columns 0 to 4. -/
def venusProfile181 : List ℕ :=
  [100_635202_647902_660902_653202,
   101_603502_615602_627902_623102,
   102_573002_584502_596202_590702,
   103_543802_554702_565802_554602,
   104_515902_526202_536702_528102,
   105_488902_498702_508702_500902,
   106_463102_472402_481802_476402,
   107_438302_447102_456002_451602,
   108_414302_422602_431102_421302,
   109_391702_399502_407502_396902,
   110_369802_377202_384702_373002,
   111_348802_355802_362902_352702,
   112_328802_335402_342102_331102,
   113_309802_316002_322302_309602,
   114_291602_297402_303302_291402,
   115_274002_279502_285102_272702,
   116_257502_262702_268002_257902,
   117_242002_246802_251702_244202,
   118_227302_231802_236402_230602,
   119_213102_217402_221702_217802,
   120_199902_203902_208002_203502,
   121_187402_191102_194902_189002,
   122_175302_178802_182402_176102,
   123_163802_167102_170402_164002,
   124_153102_156202_159302_151902,
   125_142802_145702_148602_141802,
   126_133202_135902_138602_132602,
   127_124002_126502_129002_124102,
   128_115402_117702_120102_114402,
   129_107202_109302_111502_107902,
   130_995103_101502_103502_100502,
   131_922203_940603_959403_935903,
   132_853303_870403_887803_870903,
   133_789603_805303_821503_811303,
   134_728803_743303_758203_759003,
   135_671903_685303_699003_693103,
   136_618503_630903_643503_638703,
   137_568603_579903_591503_585203,
   138_521503_531903_542503_531103,
   139_478103_487703_497403_483403,
   140_437203_445903_454903_442103,
   141_399103_407003_415203_407303,
   142_363403_370603_378103_372003,
   143_330003_336603_343403_338903,
   144_299503_305503_311603_309903,
   145_271203_276603_282103_279903,
   146_245003_249903_254903_254203,
   147_220403_224803_229303_227403,
   148_197703_201703_205703_203103,
   149_176803_180303_183903_180303,
   150_158103_161303_164503_161603,
   151_140803_143803_146803_145703,
   152_124703_127503_130403_129703,
   153_110803_113403_116103_114003,
   154_979704_100403_103003_100403,
   155_862704_885504_909004_882904,
   156_757804_778804_800504_781104,
   157_661504_680804_700604_674604,
   158_570204_587504_605404_576204,
   159_479304_494504_510204_482204,
   160_396704_409804_423304_403004,
   161_327704_339004_350604_329004,
   162_270804_280404_290404_269304,
   163_224004_232304_240804_224704,
   164_185304_192404_199704_186004,
   165_153004_159004_165304_159604,
   166_126304_131404_136804_131804,
   167_103904_108304_112804_109204,
   168_854905_892005_930705_887905,
   169_707805_739405_772505_739005,
   170_585905_612905_641105_606805,
   171_487105_510205_534305_498105,
   172_405005_424605_445305_408305,
   173_336805_353705_371305_331705,
   174_280205_294505_309605_282005,
   175_234005_246305_259205_238405,
   176_195405_205905_217005_204005,
   177_164005_173005_182505_176905,
   178_137605_145405_153605_150105,
   179_114505_121105_128105_124105,
   180_952806_100905_106905_103405,
   181_783306_830506_880606_860106,
   182_644306_684006_726106_701106,
   183_525206_558206_593306_560406,
   184_428306_455806_485006_453306,
   185_345706_368306_392406_374006,
   186_279106_297806_317706_300106,
   187_222106_237306_253406_248506,
   188_176806_189106_202206_192206,
   189_139706_149506_160106_150306,
   190_110306_118306_126806_125806,
   191_864307_927707_995707_100706,
   192_677107_727607_781907_759307,
   193_528107_568207_611307_591207,
   194_411907_443707_478007_463807,
   195_319307_344407_371407_331607,
   196_247507_267307_288607_267107,
   197_190907_206407_223107_206407,
   198_147207_159407_172507_159107,
   199_108707_117807_127607_121707,
   200_802208_870408_944408_919708,
   201_609508_662108_719308_688508,
   202_463208_503708_547808_516108,
   203_352008_383208_417308_403808,
   204_267508_291608_317908_299308,
   205_203308_221908_242208_240108,
   206_154208_168508_184208_187008,
   207_117008_128108_140108_145108,
   208_888409_973109_106608_108008,
   209_674409_739609_811209_837909,
   210_512109_562309_617409_635509,
   211_378409_416009_457309_450909,
   212_279609_307709_338709_312609,
   213_206609_227609_250809_225109,
   214_152609_168409_185809_154309,
   215_112809_124609_137609_116409,
   216_825410_912710_100909_849010,
   217_604010_668710_740310_617210,
   218_442010_489910_543010_465610,
   219_323510_359010_398310_328810,
   220_236710_263010_292210_246810,
   221_173410_192810_214510_189510,
   222_127010_141410_157410_135410,
   223_929811_103710_115610_104210,
   224_681011_760111_848511_784511,
   225_498811_557411_622911_594711,
   226_367511_411111_460011_415811,
   227_270711_303311_339711_286311,
   228_199511_223711_250911_207911,
   229_147011_165111_185311_147711,
   230_108311_121811_136911_113511,
   231_807512_908712_102311_911412,
   232_602112_678312_764212_691812,
   233_449012_506512_571212_560612,
   234_335012_378312_427212_444012,
   235_250012_282612_319512_327712,
   236_190512_215612_244012_246712,
   237_145312_164612_186512_200912,
   238_110912_125812_142712_154512,
   239_847513_962513_109312_113112,
   240_648113_736913_837913_899013,
   241_511713_582513_663013_732413,
   242_404613_461113_525513_530313,
   243_320413_365513_417113_411613,
   244_254013_290213_331413_310113,
   245_201713_230613_263713_221913,
   246_171213_196013_224413_171413,
   247_145513_166713_191113_134313,
   248_123713_141913_162813_126413,
   249_105213_120813_138813_100113,
   250_895414_103013_118413_862914]

/-- atmdata/Venus/LAT80S.txt:27333-27483, columns 0 to 4. -/
def venusProfile182 : List ℕ :=
  [100_635202_647902_660902_668102,
   101_603502_615602_627902_636502,
   102_573002_584502_596202_602002,
   103_543802_554702_565802_573802,
   104_515902_526202_536702_547202,
   105_488902_498702_508702_515602,
   106_463102_472402_481802_485902,
   107_438302_447102_456002_460402,
   108_414302_422602_431102_433202,
   109_391702_399502_407502_407402,
   110_369802_377202_384702_383602,
   111_348802_355802_362902_361502,
   112_328802_335402_342102_340202,
   113_309802_316002_322302_320102,
   114_291602_297402_303302_301802,
   115_274002_279502_285102_284402,
   116_257502_262702_268002_268702,
   117_242002_246802_251702_252502,
   118_227302_231802_236402_236202,
   119_213102_217402_221702_220202,
   120_199902_203902_208002_208202,
   121_187402_191102_194902_193702,
   122_175302_178802_182402_181902,
   123_163802_167102_170402_168602,
   124_153102_156202_159302_158202,
   125_142802_145702_148602_147902,
   126_133202_135902_138602_137202,
   127_124002_126502_129002_128502,
   128_115402_117702_120102_119702,
   129_107202_109302_111502_111202,
   130_995103_101502_103502_103702,
   131_922203_940603_959403_964003,
   132_853303_870403_887803_896003,
   133_789603_805303_821503_825203,
   134_728803_743303_758203_761503,
   135_671903_685303_699003_694003,
   136_618503_630903_643503_633403,
   137_568603_579903_591503_580103,
   138_521503_531903_542503_532503,
   139_478103_487703_497403_487403,
   140_437203_445903_454903_442403,
   141_399103_407003_415203_404203,
   142_363403_370603_378103_369803,
   143_330003_336603_343403_333503,
   144_299503_305503_311603_300103,
   145_271203_276603_282103_275703,
   146_245003_249903_254903_250003,
   147_220403_224803_229303_225903,
   148_197703_201703_205703_202103,
   149_176803_180303_183903_182803,
   150_158103_161303_164503_164203,
   151_140803_143803_146803_146203,
   152_124703_127503_130403_130403,
   153_110803_113403_116103_116303,
   154_979704_100403_103003_104103,
   155_862704_885504_909004_915504,
   156_757804_778804_800504_794404,
   157_661504_680804_700604_691304,
   158_570204_587504_605404_588504,
   159_479304_494504_510204_488804,
   160_396704_409804_423304_413104,
   161_327704_339004_350604_347004,
   162_270804_280404_290404_280204,
   163_224004_232304_240804_229804,
   164_185304_192404_199704_192504,
   165_153004_159004_165304_160404,
   166_126304_131404_136804_132004,
   167_103904_108304_112804_108804,
   168_854905_892005_930705_908605,
   169_707805_739405_772505_752305,
   170_585905_612905_641105_630205,
   171_487105_510205_534305_533905,
   172_405005_424605_445305_448105,
   173_336805_353705_371305_384705,
   174_280205_294505_309605_323605,
   175_234005_246305_259205_258105,
   176_195405_205905_217005_217205,
   177_164005_173005_182505_187505,
   178_137605_145405_153605_158205,
   179_114505_121105_128105_129805,
   180_952806_100905_106905_105405,
   181_783306_830506_880606_855406,
   182_644306_684006_726106_705506,
   183_525206_558206_593306_575506,
   184_428306_455806_485006_459306,
   185_345706_368306_392406_376306,
   186_279106_297806_317706_317706,
   187_222106_237306_253406_256006,
   188_176806_189106_202206_199506,
   189_139706_149506_160106_150006,
   190_110306_118306_126806_123606,
   191_864307_927707_995707_963907,
   192_677107_727607_781907_719307,
   193_528107_568207_611307_536907,
   194_411907_443707_478007_404607,
   195_319307_344407_371407_311107,
   196_247507_267307_288607_224807,
   197_190907_206407_223107_175707,
   198_147207_159407_172507_140407,
   199_108707_117807_127607_981108,
   200_802208_870408_944408_698508,
   201_609508_662108_719308_557408,
   202_463208_503708_547808_425408,
   203_352008_383208_417308_305508,
   204_267508_291608_317908_234508,
   205_203308_221908_242208_187508,
   206_154208_168508_184208_153508,
   207_117008_128108_140108_113608,
   208_888409_973109_106608_836809,
   209_674409_739609_811209_624009,
   210_512109_562309_617409_508309,
   211_378409_416009_457309_375209,
   212_279609_307709_338709_283909,
   213_206609_227609_250809_209809,
   214_152609_168409_185809_161009,
   215_112809_124609_137609_117909,
   216_825410_912710_100909_865310,
   217_604010_668710_740310_642510,
   218_442010_489910_543010_489810,
   219_323510_359010_398310_348410,
   220_236710_263010_292210_259410,
   221_173410_192810_214510_182910,
   222_127010_141410_157410_136510,
   223_929811_103710_115610_985211,
   224_681011_760111_848511_708611,
   225_498811_557411_622911_542911,
   226_367511_411111_460011_407411,
   227_270711_303311_339711_277011,
   228_199511_223711_250911_191211,
   229_147011_165111_185311_150011,
   230_108311_121811_136911_101711,
   231_807512_908712_102311_739212,
   232_602112_678312_764212_550412,
   233_449012_506512_571212_403712,
   234_335012_378312_427212_306312,
   235_250012_282612_319512_229212,
   236_190512_215612_244012_185712,
   237_145312_164612_186512_142912,
   238_110912_125812_142712_108712,
   239_847513_962513_109312_907513,
   240_648113_736913_837913_674213,
   241_511713_582513_663013_503513,
   242_404613_461113_525513_454613,
   243_320413_365513_417113_346113,
   244_254013_290213_331413_282113,
   245_201713_230613_263713_216913,
   246_171213_196013_224413_190213,
   247_145513_166713_191113_172213,
   248_123713_141913_162813_138713,
   249_105213_120813_138813_119313,
   250_895414_103013_118413_100913]

/-- atmdata/Venus/LAT80S.txt:27484-27634, columns 0 to 4. -/
def venusProfile183 : List ℕ :=
  [100_635202_647902_660902_638302,
   101_603502_615602_627902_608502,
   102_573002_584502_596202_575202,
   103_543802_554702_565802_547502,
   104_515902_526202_536702_515202,
   105_488902_498702_508702_490302,
   106_463102_472402_481802_465302,
   107_438302_447102_456002_441702,
   108_414302_422602_431102_417602,
   109_391702_399502_407502_392802,
   110_369802_377202_384702_371002,
   111_348802_355802_362902_349102,
   112_328802_335402_342102_330002,
   113_309802_316002_322302_312402,
   114_291602_297402_303302_296302,
   115_274002_279502_285102_277602,
   116_257502_262702_268002_262902,
   117_242002_246802_251702_246002,
   118_227302_231802_236402_231802,
   119_213102_217402_221702_217202,
   120_199902_203902_208002_204202,
   121_187402_191102_194902_190302,
   122_175302_178802_182402_177802,
   123_163802_167102_170402_167602,
   124_153102_156202_159302_156702,
   125_142802_145702_148602_147102,
   126_133202_135902_138602_137702,
   127_124002_126502_129002_129402,
   128_115402_117702_120102_119802,
   129_107202_109302_111502_110602,
   130_995103_101502_103502_103502,
   131_922203_940603_959403_962103,
   132_853303_870403_887803_894603,
   133_789603_805303_821503_829103,
   134_728803_743303_758203_759403,
   135_671903_685303_699003_688303,
   136_618503_630903_643503_634403,
   137_568603_579903_591503_580503,
   138_521503_531903_542503_527003,
   139_478103_487703_497403_484903,
   140_437203_445903_454903_445403,
   141_399103_407003_415203_404003,
   142_363403_370603_378103_370103,
   143_330003_336603_343403_336503,
   144_299503_305503_311603_304203,
   145_271203_276603_282103_275703,
   146_245003_249903_254903_249703,
   147_220403_224803_229303_223503,
   148_197703_201703_205703_200303,
   149_176803_180303_183903_180003,
   150_158103_161303_164503_162503,
   151_140803_143803_146803_146603,
   152_124703_127503_130403_131103,
   153_110803_113403_116103_115703,
   154_979704_100403_103003_102403,
   155_862704_885504_909004_901804,
   156_757804_778804_800504_792604,
   157_661504_680804_700604_694204,
   158_570204_587504_605404_589104,
   159_479304_494504_510204_507004,
   160_396704_409804_423304_414204,
   161_327704_339004_350604_343804,
   162_270804_280404_290404_289304,
   163_224004_232304_240804_243104,
   164_185304_192404_199704_196404,
   165_153004_159004_165304_161504,
   166_126304_131404_136804_132404,
   167_103904_108304_112804_108604,
   168_854905_892005_930705_886205,
   169_707805_739405_772505_732305,
   170_585905_612905_641105_595805,
   171_487105_510205_534305_495905,
   172_405005_424605_445305_407605,
   173_336805_353705_371305_347005,
   174_280205_294505_309605_294705,
   175_234005_246305_259205_245205,
   176_195405_205905_217005_205305,
   177_164005_173005_182505_178505,
   178_137605_145405_153605_151105,
   179_114505_121105_128105_123705,
   180_952806_100905_106905_105605,
   181_783306_830506_880606_906806,
   182_644306_684006_726106_753206,
   183_525206_558206_593306_624206,
   184_428306_455806_485006_487806,
   185_345706_368306_392406_395606,
   186_279106_297806_317706_317906,
   187_222106_237306_253406_252606,
   188_176806_189106_202206_198406,
   189_139706_149506_160106_159406,
   190_110306_118306_126806_129306,
   191_864307_927707_995707_975707,
   192_677107_727607_781907_818907,
   193_528107_568207_611307_640107,
   194_411907_443707_478007_499907,
   195_319307_344407_371407_387707,
   196_247507_267307_288607_289607,
   197_190907_206407_223107_220807,
   198_147207_159407_172507_178007,
   199_108707_117807_127607_127507,
   200_802208_870408_944408_930208,
   201_609508_662108_719308_677208,
   202_463208_503708_547808_508808,
   203_352008_383208_417308_379108,
   204_267508_291608_317908_288808,
   205_203308_221908_242208_221508,
   206_154208_168508_184208_158308,
   207_117008_128108_140108_122108,
   208_888409_973109_106608_989009,
   209_674409_739609_811209_764509,
   210_512109_562309_617409_560509,
   211_378409_416009_457309_418809,
   212_279609_307709_338709_298209,
   213_206609_227609_250809_223109,
   214_152609_168409_185809_165009,
   215_112809_124609_137609_116409,
   216_825410_912710_100909_862210,
   217_604010_668710_740310_656710,
   218_442010_489910_543010_512310,
   219_323510_359010_398310_365510,
   220_236710_263010_292210_270710,
   221_173410_192810_214510_199010,
   222_127010_141410_157410_157310,
   223_929811_103710_115610_119510,
   224_681011_760111_848511_915611,
   225_498811_557411_622911_685711,
   226_367511_411111_460011_470211,
   227_270711_303311_339711_306611,
   228_199511_223711_250911_236411,
   229_147011_165111_185311_172211,
   230_108311_121811_136911_124211,
   231_807512_908712_102311_929812,
   232_602112_678312_764212_645112,
   233_449012_506512_571212_488512,
   234_335012_378312_427212_439812,
   235_250012_282612_319512_313912,
   236_190512_215612_244012_213012,
   237_145312_164612_186512_180712,
   238_110912_125812_142712_126512,
   239_847513_962513_109312_971413,
   240_648113_736913_837913_762513,
   241_511713_582513_663013_595013,
   242_404613_461113_525513_503413,
   243_320413_365513_417113_351113,
   244_254013_290213_331413_258713,
   245_201713_230613_263713_207213,
   246_171213_196013_224413_172513,
   247_145513_166713_191113_151413,
   248_123713_141913_162813_129613,
   249_105213_120813_138813_975114,
   250_895414_103013_118413_836114]

/-- atmdata/Venus/LAT80S.txt:27635-27785, columns 0 to 4. -/
def venusProfile184 : List ℕ :=
  [100_635202_647902_660902_648202,
   101_603502_615602_627902_617202,
   102_573002_584502_596202_581302,
   103_543802_554702_565802_552002,
   104_515902_526202_536702_521302,
   105_488902_498702_508702_493302,
   106_463102_472402_481802_459902,
   107_438302_447102_456002_436902,
   108_414302_422602_431102_414502,
   109_391702_399502_407502_389502,
   110_369802_377202_384702_368702,
   111_348802_355802_362902_346002,
   112_328802_335402_342102_328602,
   113_309802_316002_322302_308102,
   114_291602_297402_303302_288702,
   115_274002_279502_285102_272902,
   116_257502_262702_268002_259002,
   117_242002_246802_251702_245102,
   118_227302_231802_236402_229002,
   119_213102_217402_221702_215602,
   120_199902_203902_208002_201902,
   121_187402_191102_194902_188502,
   122_175302_178802_182402_178902,
   123_163802_167102_170402_167902,
   124_153102_156202_159302_156402,
   125_142802_145702_148602_144702,
   126_133202_135902_138602_134702,
   127_124002_126502_129002_124302,
   128_115402_117702_120102_116402,
   129_107202_109302_111502_108602,
   130_995103_101502_103502_999503,
   131_922203_940603_959403_930103,
   132_853303_870403_887803_866503,
   133_789603_805303_821503_795703,
   134_728803_743303_758203_737403,
   135_671903_685303_699003_687703,
   136_618503_630903_643503_627703,
   137_568603_579903_591503_574003,
   138_521503_531903_542503_527103,
   139_478103_487703_497403_489003,
   140_437203_445903_454903_446303,
   141_399103_407003_415203_409303,
   142_363403_370603_378103_375503,
   143_330003_336603_343403_345603,
   144_299503_305503_311603_313103,
   145_271203_276603_282103_281003,
   146_245003_249903_254903_253903,
   147_220403_224803_229303_229003,
   148_197703_201703_205703_205103,
   149_176803_180303_183903_183303,
   150_158103_161303_164503_161903,
   151_140803_143803_146803_144203,
   152_124703_127503_130403_129603,
   153_110803_113403_116103_115903,
   154_979704_100403_103003_101503,
   155_862704_885504_909004_894404,
   156_757804_778804_800504_795904,
   157_661504_680804_700604_702104,
   158_570204_587504_605404_592704,
   159_479304_494504_510204_503904,
   160_396704_409804_423304_415404,
   161_327704_339004_350604_341604,
   162_270804_280404_290404_285104,
   163_224004_232304_240804_235704,
   164_185304_192404_199704_194304,
   165_153004_159004_165304_157204,
   166_126304_131404_136804_128704,
   167_103904_108304_112804_105204,
   168_854905_892005_930705_883705,
   169_707805_739405_772505_727705,
   170_585905_612905_641105_606205,
   171_487105_510205_534305_490605,
   172_405005_424605_445305_415305,
   173_336805_353705_371305_349805,
   174_280205_294505_309605_297505,
   175_234005_246305_259205_253205,
   176_195405_205905_217005_209505,
   177_164005_173005_182505_182105,
   178_137605_145405_153605_153805,
   179_114505_121105_128105_125205,
   180_952806_100905_106905_104105,
   181_783306_830506_880606_861306,
   182_644306_684006_726106_731306,
   183_525206_558206_593306_575806,
   184_428306_455806_485006_487806,
   185_345706_368306_392406_393806,
   186_279106_297806_317706_300906,
   187_222106_237306_253406_236706,
   188_176806_189106_202206_188106,
   189_139706_149506_160106_148206,
   190_110306_118306_126806_120306,
   191_864307_927707_995707_966807,
   192_677107_727607_781907_788407,
   193_528107_568207_611307_596307,
   194_411907_443707_478007_447907,
   195_319307_344407_371407_362707,
   196_247507_267307_288607_276407,
   197_190907_206407_223107_210607,
   198_147207_159407_172507_157007,
   199_108707_117807_127607_115607,
   200_802208_870408_944408_875808,
   201_609508_662108_719308_667108,
   202_463208_503708_547808_502108,
   203_352008_383208_417308_383308,
   204_267508_291608_317908_295108,
   205_203308_221908_242208_222108,
   206_154208_168508_184208_163008,
   207_117008_128108_140108_112408,
   208_888409_973109_106608_884909,
   209_674409_739609_811209_645809,
   210_512109_562309_617409_497909,
   211_378409_416009_457309_385409,
   212_279609_307709_338709_294009,
   213_206609_227609_250809_224109,
   214_152609_168409_185809_160509,
   215_112809_124609_137609_125109,
   216_825410_912710_100909_928310,
   217_604010_668710_740310_753810,
   218_442010_489910_543010_504210,
   219_323510_359010_398310_363010,
   220_236710_263010_292210_268510,
   221_173410_192810_214510_208610,
   222_127010_141410_157410_148410,
   223_929811_103710_115610_106310,
   224_681011_760111_848511_778511,
   225_498811_557411_622911_595411,
   226_367511_411111_460011_439811,
   227_270711_303311_339711_353211,
   228_199511_223711_250911_259111,
   229_147011_165111_185311_175211,
   230_108311_121811_136911_131511,
   231_807512_908712_102311_102411,
   232_602112_678312_764212_788612,
   233_449012_506512_571212_615712,
   234_335012_378312_427212_455012,
   235_250012_282612_319512_316512,
   236_190512_215612_244012_232412,
   237_145312_164612_186512_176112,
   238_110912_125812_142712_139112,
   239_847513_962513_109312_998713,
   240_648113_736913_837913_707613,
   241_511713_582513_663013_579913,
   242_404613_461113_525513_481413,
   243_320413_365513_417113_399513,
   244_254013_290213_331413_315613,
   245_201713_230613_263713_256413,
   246_171213_196013_224413_234413,
   247_145513_166713_191113_194013,
   248_123713_141913_162813_169913,
   249_105213_120813_138813_142213,
   250_895414_103013_118413_117813]

/-- atmdata/Venus/LAT80S.txt:27786-27936, columns 0 to 4. -/
def venusProfile185 : List ℕ :=
  [100_635202_647902_660902_658402,
   101_603502_615602_627902_626202,
   102_573002_584502_596202_598702,
   103_543802_554702_565802_566802,
   104_515902_526202_536702_536002,
   105_488902_498702_508702_511602,
   106_463102_472402_481802_483602,
   107_438302_447102_456002_458902,
   108_414302_422602_431102_436802,
   109_391702_399502_407502_409302,
   110_369802_377202_384702_387602,
   111_348802_355802_362902_368202,
   112_328802_335402_342102_344702,
   113_309802_316002_322302_324502,
   114_291602_297402_303302_304702,
   115_274002_279502_285102_285502,
   116_257502_262702_268002_271602,
   117_242002_246802_251702_255002,
   118_227302_231802_236402_239502,
   119_213102_217402_221702_227202,
   120_199902_203902_208002_211102,
   121_187402_191102_194902_196902,
   122_175302_178802_182402_184302,
   123_163802_167102_170402_172302,
   124_153102_156202_159302_159002,
   125_142802_145702_148602_147702,
   126_133202_135902_138602_138602,
   127_124002_126502_129002_128202,
   128_115402_117702_120102_119202,
   129_107202_109302_111502_110402,
   130_995103_101502_103502_101902,
   131_922203_940603_959403_946903,
   132_853303_870403_887803_881803,
   133_789603_805303_821503_815403,
   134_728803_743303_758203_749803,
   135_671903_685303_699003_697203,
   136_618503_630903_643503_642103,
   137_568603_579903_591503_585803,
   138_521503_531903_542503_531503,
   139_478103_487703_497403_485303,
   140_437203_445903_454903_438103,
   141_399103_407003_415203_399603,
   142_363403_370603_378103_368103,
   143_330003_336603_343403_334003,
   144_299503_305503_311603_304103,
   145_271203_276603_282103_276403,
   146_245003_249903_254903_249603,
   147_220403_224803_229303_223203,
   148_197703_201703_205703_200403,
   149_176803_180303_183903_178803,
   150_158103_161303_164503_159003,
   151_140803_143803_146803_143703,
   152_124703_127503_130403_125603,
   153_110803_113403_116103_111203,
   154_979704_100403_103003_991104,
   155_862704_885504_909004_874304,
   156_757804_778804_800504_764404,
   157_661504_680804_700604_656704,
   158_570204_587504_605404_581804,
   159_479304_494504_510204_492004,
   160_396704_409804_423304_408804,
   161_327704_339004_350604_331804,
   162_270804_280404_290404_275804,
   163_224004_232304_240804_224104,
   164_185304_192404_199704_187704,
   165_153004_159004_165304_157604,
   166_126304_131404_136804_128404,
   167_103904_108304_112804_104404,
   168_854905_892005_930705_856405,
   169_707805_739405_772505_703705,
   170_585905_612905_641105_554805,
   171_487105_510205_534305_470005,
   172_405005_424605_445305_388505,
   173_336805_353705_371305_326505,
   174_280205_294505_309605_279805,
   175_234005_246305_259205_230205,
   176_195405_205905_217005_189705,
   177_164005_173005_182505_166805,
   178_137605_145405_153605_141605,
   179_114505_121105_128105_115205,
   180_952806_100905_106905_941606,
   181_783306_830506_880606_765706,
   182_644306_684006_726106_611406,
   183_525206_558206_593306_500206,
   184_428306_455806_485006_421506,
   185_345706_368306_392406_342506,
   186_279106_297806_317706_280006,
   187_222106_237306_253406_217306,
   188_176806_189106_202206_175106,
   189_139706_149506_160106_134706,
   190_110306_118306_126806_109606,
   191_864307_927707_995707_863007,
   192_677107_727607_781907_703107,
   193_528107_568207_611307_562807,
   194_411907_443707_478007_445107,
   195_319307_344407_371407_336707,
   196_247507_267307_288607_261607,
   197_190907_206407_223107_199407,
   198_147207_159407_172507_153007,
   199_108707_117807_127607_114907,
   200_802208_870408_944408_809608,
   201_609508_662108_719308_648908,
   202_463208_503708_547808_490008,
   203_352008_383208_417308_384108,
   204_267508_291608_317908_299208,
   205_203308_221908_242208_220708,
   206_154208_168508_184208_164508,
   207_117008_128108_140108_124208,
   208_888409_973109_106608_945409,
   209_674409_739609_811209_725209,
   210_512109_562309_617409_573709,
   211_378409_416009_457309_464609,
   212_279609_307709_338709_332609,
   213_206609_227609_250809_256909,
   214_152609_168409_185809_199209,
   215_112809_124609_137609_147309,
   216_825410_912710_100909_108509,
   217_604010_668710_740310_758610,
   218_442010_489910_543010_526110,
   219_323510_359010_398310_380310,
   220_236710_263010_292210_279610,
   221_173410_192810_214510_198210,
   222_127010_141410_157410_147610,
   223_929811_103710_115610_113010,
   224_681011_760111_848511_775211,
   225_498811_557411_622911_594911,
   226_367511_411111_460011_396911,
   227_270711_303311_339711_316911,
   228_199511_223711_250911_226811,
   229_147011_165111_185311_171111,
   230_108311_121811_136911_140611,
   231_807512_908712_102311_988212,
   232_602112_678312_764212_735412,
   233_449012_506512_571212_522712,
   234_335012_378312_427212_362612,
   235_250012_282612_319512_307312,
   236_190512_215612_244012_234412,
   237_145312_164612_186512_156012,
   238_110912_125812_142712_119212,
   239_847513_962513_109312_954113,
   240_648113_736913_837913_731013,
   241_511713_582513_663013_522013,
   242_404613_461113_525513_430013,
   243_320413_365513_417113_348113,
   244_254013_290213_331413_304813,
   245_201713_230613_263713_260813,
   246_171213_196013_224413_221413,
   247_145513_166713_191113_177013,
   248_123713_141913_162813_137613,
   249_105213_120813_138813_129013,
   250_895414_103013_118413_107113]

/-- atmdata/Venus/LAT80S.txt:27937-28087, columns 0 to 4. -/
def venusProfile186 : List ℕ :=
  [100_635202_647902_660902_629602,
   101_603502_615602_627902_599302,
   102_573002_584502_596202_572102,
   103_543802_554702_565802_541202,
   104_515902_526202_536702_513402,
   105_488902_498702_508702_487102,
   106_463102_472402_481802_463802,
   107_438302_447102_456002_440802,
   108_414302_422602_431102_414902,
   109_391702_399502_407502_388002,
   110_369802_377202_384702_369602,
   111_348802_355802_362902_350202,
   112_328802_335402_342102_329702,
   113_309802_316002_322302_312602,
   114_291602_297402_303302_294902,
   115_274002_279502_285102_279002,
   116_257502_262702_268002_259702,
   117_242002_246802_251702_243102,
   118_227302_231802_236402_226202,
   119_213102_217402_221702_211602,
   120_199902_203902_208002_199602,
   121_187402_191102_194902_186702,
   122_175302_178802_182402_174002,
   123_163802_167102_170402_162702,
   124_153102_156202_159302_152902,
   125_142802_145702_148602_142702,
   126_133202_135902_138602_133102,
   127_124002_126502_129002_123502,
   128_115402_117702_120102_114102,
   129_107202_109302_111502_107102,
   130_995103_101502_103502_992403,
   131_922203_940603_959403_923303,
   132_853303_870403_887803_861203,
   133_789603_805303_821503_803603,
   134_728803_743303_758203_746903,
   135_671903_685303_699003_693603,
   136_618503_630903_643503_632503,
   137_568603_579903_591503_576503,
   138_521503_531903_542503_529303,
   139_478103_487703_497403_485703,
   140_437203_445903_454903_445303,
   141_399103_407003_415203_400803,
   142_363403_370603_378103_360303,
   143_330003_336603_343403_330003,
   144_299503_305503_311603_301903,
   145_271203_276603_282103_272503,
   146_245003_249903_254903_245903,
   147_220403_224803_229303_222103,
   148_197703_201703_205703_199603,
   149_176803_180303_183903_177303,
   150_158103_161303_164503_158303,
   151_140803_143803_146803_141103,
   152_124703_127503_130403_124003,
   153_110803_113403_116103_111303,
   154_979704_100403_103003_982404,
   155_862704_885504_909004_867404,
   156_757804_778804_800504_766404,
   157_661504_680804_700604_666104,
   158_570204_587504_605404_585504,
   159_479304_494504_510204_492504,
   160_396704_409804_423304_412404,
   161_327704_339004_350604_345104,
   162_270804_280404_290404_284704,
   163_224004_232304_240804_237404,
   164_185304_192404_199704_191104,
   165_153004_159004_165304_158104,
   166_126304_131404_136804_128104,
   167_103904_108304_112804_103304,
   168_854905_892005_930705_872605,
   169_707805_739405_772505_712705,
   170_585905_612905_641105_590205,
   171_487105_510205_534305_487505,
   172_405005_424605_445305_413805,
   173_336805_353705_371305_343505,
   174_280205_294505_309605_293505,
   175_234005_246305_259205_246505,
   176_195405_205905_217005_198505,
   177_164005_173005_182505_174105,
   178_137605_145405_153605_147205,
   179_114505_121105_128105_118405,
   180_952806_100905_106905_101305,
   181_783306_830506_880606_859206,
   182_644306_684006_726106_694206,
   183_525206_558206_593306_573706,
   184_428306_455806_485006_472106,
   185_345706_368306_392406_378406,
   186_279106_297806_317706_295106,
   187_222106_237306_253406_246306,
   188_176806_189106_202206_197806,
   189_139706_149506_160106_160106,
   190_110306_118306_126806_127606,
   191_864307_927707_995707_963707,
   192_677107_727607_781907_771207,
   193_528107_568207_611307_591407,
   194_411907_443707_478007_445907,
   195_319307_344407_371407_346207,
   196_247507_267307_288607_272107,
   197_190907_206407_223107_205707,
   198_147207_159407_172507_160507,
   199_108707_117807_127607_122907,
   200_802208_870408_944408_898008,
   201_609508_662108_719308_667708,
   202_463208_503708_547808_503108,
   203_352008_383208_417308_357708,
   204_267508_291608_317908_284408,
   205_203308_221908_242208_203408,
   206_154208_168508_184208_154508,
   207_117008_128108_140108_122408,
   208_888409_973109_106608_912009,
   209_674409_739609_811209_637509,
   210_512109_562309_617409_468409,
   211_378409_416009_457309_338209,
   212_279609_307709_338709_265909,
   213_206609_227609_250809_184809,
   214_152609_168409_185809_142109,
   215_112809_124609_137609_105309,
   216_825410_912710_100909_809410,
   217_604010_668710_740310_592810,
   218_442010_489910_543010_425610,
   219_323510_359010_398310_315710,
   220_236710_263010_292210_235610,
   221_173410_192810_214510_177210,
   222_127010_141410_157410_145710,
   223_929811_103710_115610_104610,
   224_681011_760111_848511_786111,
   225_498811_557411_622911_604211,
   226_367511_411111_460011_442111,
   227_270711_303311_339711_344811,
   228_199511_223711_250911_231411,
   229_147011_165111_185311_165611,
   230_108311_121811_136911_119211,
   231_807512_908712_102311_887712,
   232_602112_678312_764212_642912,
   233_449012_506512_571212_483512,
   234_335012_378312_427212_368512,
   235_250012_282612_319512_292212,
   236_190512_215612_244012_233212,
   237_145312_164612_186512_177512,
   238_110912_125812_142712_127512,
   239_847513_962513_109312_961113,
   240_648113_736913_837913_793913,
   241_511713_582513_663013_608613,
   242_404613_461113_525513_487313,
   243_320413_365513_417113_378913,
   244_254013_290213_331413_294613,
   245_201713_230613_263713_219913,
   246_171213_196013_224413_178713,
   247_145513_166713_191113_169213,
   248_123713_141913_162813_141013,
   249_105213_120813_138813_118513,
   250_895414_103013_118413_989014]

/-- atmdata/Venus/LAT80S.txt:28088-28238, columns 0 to 4. -/
def venusProfile187 : List ℕ :=
  [100_635202_647902_660902_643302,
   101_603502_615602_627902_611602,
   102_573002_584502_596202_582302,
   103_543802_554702_565802_548302,
   104_515902_526202_536702_520802,
   105_488902_498702_508702_490802,
   106_463102_472402_481802_463202,
   107_438302_447102_456002_440502,
   108_414302_422602_431102_416202,
   109_391702_399502_407502_397402,
   110_369802_377202_384702_372602,
   111_348802_355802_362902_352002,
   112_328802_335402_342102_332402,
   113_309802_316002_322302_312002,
   114_291602_297402_303302_295602,
   115_274002_279502_285102_277602,
   116_257502_262702_268002_259002,
   117_242002_246802_251702_245102,
   118_227302_231802_236402_230202,
   119_213102_217402_221702_216002,
   120_199902_203902_208002_202702,
   121_187402_191102_194902_189702,
   122_175302_178802_182402_178302,
   123_163802_167102_170402_166202,
   124_153102_156202_159302_155402,
   125_142802_145702_148602_145302,
   126_133202_135902_138602_134002,
   127_124002_126502_129002_124502,
   128_115402_117702_120102_116302,
   129_107202_109302_111502_108102,
   130_995103_101502_103502_100302,
   131_922203_940603_959403_932403,
   132_853303_870403_887803_869503,
   133_789603_805303_821503_802303,
   134_728803_743303_758203_740103,
   135_671903_685303_699003_686903,
   136_618503_630903_643503_632903,
   137_568603_579903_591503_575403,
   138_521503_531903_542503_522503,
   139_478103_487703_497403_482203,
   140_437203_445903_454903_439603,
   141_399103_407003_415203_402403,
   142_363403_370603_378103_363503,
   143_330003_336603_343403_329203,
   144_299503_305503_311603_296003,
   145_271203_276603_282103_270403,
   146_245003_249903_254903_243703,
   147_220403_224803_229303_218203,
   148_197703_201703_205703_196503,
   149_176803_180303_183903_177903,
   150_158103_161303_164503_159203,
   151_140803_143803_146803_144003,
   152_124703_127503_130403_126903,
   153_110803_113403_116103_112603,
   154_979704_100403_103003_101603,
   155_862704_885504_909004_896504,
   156_757804_778804_800504_774604,
   157_661504_680804_700604_677404,
   158_570204_587504_605404_593004,
   159_479304_494504_510204_496004,
   160_396704_409804_423304_397404,
   161_327704_339004_350604_329704,
   162_270804_280404_290404_271004,
   163_224004_232304_240804_223304,
   164_185304_192404_199704_184304,
   165_153004_159004_165304_150804,
   166_126304_131404_136804_121304,
   167_103904_108304_112804_104604,
   168_854905_892005_930705_860505,
   169_707805_739405_772505_698805,
   170_585905_612905_641105_593605,
   171_487105_510205_534305_508805,
   172_405005_424605_445305_419305,
   173_336805_353705_371305_345105,
   174_280205_294505_309605_295405,
   175_234005_246305_259205_256505,
   176_195405_205905_217005_219705,
   177_164005_173005_182505_191405,
   178_137605_145405_153605_160605,
   179_114505_121105_128105_126005,
   180_952806_100905_106905_104705,
   181_783306_830506_880606_860906,
   182_644306_684006_726106_704106,
   183_525206_558206_593306_608706,
   184_428306_455806_485006_493906,
   185_345706_368306_392406_392806,
   186_279106_297806_317706_319306,
   187_222106_237306_253406_257806,
   188_176806_189106_202206_207706,
   189_139706_149506_160106_163306,
   190_110306_118306_126806_129406,
   191_864307_927707_995707_103306,
   192_677107_727607_781907_816007,
   193_528107_568207_611307_654607,
   194_411907_443707_478007_512407,
   195_319307_344407_371407_403607,
   196_247507_267307_288607_317407,
   197_190907_206407_223107_236907,
   198_147207_159407_172507_186607,
   199_108707_117807_127607_129607,
   200_802208_870408_944408_970308,
   201_609508_662108_719308_742708,
   202_463208_503708_547808_555708,
   203_352008_383208_417308_410908,
   204_267508_291608_317908_331208,
   205_203308_221908_242208_259208,
   206_154208_168508_184208_195308,
   207_117008_128108_140108_142708,
   208_888409_973109_106608_101008,
   209_674409_739609_811209_762309,
   210_512109_562309_617409_575609,
   211_378409_416009_457309_419809,
   212_279609_307709_338709_306009,
   213_206609_227609_250809_219209,
   214_152609_168409_185809_160609,
   215_112809_124609_137609_114009,
   216_825410_912710_100909_876710,
   217_604010_668710_740310_652310,
   218_442010_489910_543010_472110,
   219_323510_359010_398310_349210,
   220_236710_263010_292210_257610,
   221_173410_192810_214510_209910,
   222_127010_141410_157410_149910,
   223_929811_103710_115610_114610,
   224_681011_760111_848511_814111,
   225_498811_557411_622911_625011,
   226_367511_411111_460011_491911,
   227_270711_303311_339711_375611,
   228_199511_223711_250911_281411,
   229_147011_165111_185311_216011,
   230_108311_121811_136911_158211,
   231_807512_908712_102311_119411,
   232_602112_678312_764212_951412,
   233_449012_506512_571212_719512,
   234_335012_378312_427212_503612,
   235_250012_282612_319512_378012,
   236_190512_215612_244012_265312,
   237_145312_164612_186512_183012,
   238_110912_125812_142712_146212,
   239_847513_962513_109312_998213,
   240_648113_736913_837913_742313,
   241_511713_582513_663013_597813,
   242_404613_461113_525513_472913,
   243_320413_365513_417113_356413,
   244_254013_290213_331413_298413,
   245_201713_230613_263713_231413,
   246_171213_196013_224413_207913,
   247_145513_166713_191113_182513,
   248_123713_141913_162813_157913,
   249_105213_120813_138813_141713,
   250_895414_103013_118413_116213]

/-- atmdata/Venus/LAT80S.txt:28239-28389, columns 0 to 4. -/
def venusProfile188 : List ℕ :=
  [100_635202_647902_660902_652602,
   101_603502_615602_627902_619802,
   102_573002_584502_596202_589002,
   103_543802_554702_565802_562202,
   104_515902_526202_536702_534502,
   105_488902_498702_508702_507702,
   106_463102_472402_481802_481302,
   107_438302_447102_456002_457302,
   108_414302_422602_431102_432802,
   109_391702_399502_407502_411702,
   110_369802_377202_384702_386902,
   111_348802_355802_362902_364302,
   112_328802_335402_342102_344802,
   113_309802_316002_322302_324902,
   114_291602_297402_303302_303602,
   115_274002_279502_285102_288002,
   116_257502_262702_268002_268702,
   117_242002_246802_251702_252502,
   118_227302_231802_236402_238602,
   119_213102_217402_221702_224602,
   120_199902_203902_208002_209502,
   121_187402_191102_194902_196002,
   122_175302_178802_182402_182902,
   123_163802_167102_170402_169802,
   124_153102_156202_159302_158102,
   125_142802_145702_148602_148202,
   126_133202_135902_138602_138402,
   127_124002_126502_129002_128602,
   128_115402_117702_120102_119202,
   129_107202_109302_111502_109902,
   130_995103_101502_103502_102102,
   131_922203_940603_959403_947903,
   132_853303_870403_887803_883703,
   133_789603_805303_821503_820003,
   134_728803_743303_758203_747403,
   135_671903_685303_699003_692703,
   136_618503_630903_643503_631303,
   137_568603_579903_591503_588503,
   138_521503_531903_542503_539703,
   139_478103_487703_497403_490503,
   140_437203_445903_454903_452403,
   141_399103_407003_415203_410803,
   142_363403_370603_378103_371503,
   143_330003_336603_343403_338503,
   144_299503_305503_311603_305803,
   145_271203_276603_282103_276503,
   146_245003_249903_254903_248503,
   147_220403_224803_229303_224203,
   148_197703_201703_205703_201703,
   149_176803_180303_183903_181203,
   150_158103_161303_164503_162403,
   151_140803_143803_146803_144703,
   152_124703_127503_130403_127803,
   153_110803_113403_116103_115203,
   154_979704_100403_103003_102203,
   155_862704_885504_909004_902704,
   156_757804_778804_800504_792104,
   157_661504_680804_700604_696904,
   158_570204_587504_605404_607804,
   159_479304_494504_510204_504504,
   160_396704_409804_423304_413604,
   161_327704_339004_350604_339204,
   162_270804_280404_290404_276504,
   163_224004_232304_240804_234204,
   164_185304_192404_199704_195304,
   165_153004_159004_165304_165104,
   166_126304_131404_136804_140304,
   167_103904_108304_112804_117404,
   168_854905_892005_930705_988205,
   169_707805_739405_772505_788405,
   170_585905_612905_641105_643605,
   171_487105_510205_534305_534805,
   172_405005_424605_445305_451805,
   173_336805_353705_371305_366105,
   174_280205_294505_309605_312705,
   175_234005_246305_259205_258205,
   176_195405_205905_217005_218105,
   177_164005_173005_182505_190905,
   178_137605_145405_153605_160105,
   179_114505_121105_128105_137105,
   180_952806_100905_106905_110805,
   181_783306_830506_880606_885206,
   182_644306_684006_726106_730606,
   183_525206_558206_593306_584806,
   184_428306_455806_485006_471306,
   185_345706_368306_392406_373806,
   186_279106_297806_317706_294706,
   187_222106_237306_253406_236006,
   188_176806_189106_202206_193406,
   189_139706_149506_160106_149006,
   190_110306_118306_126806_118406,
   191_864307_927707_995707_926807,
   192_677107_727607_781907_734707,
   193_528107_568207_611307_571407,
   194_411907_443707_478007_433807,
   195_319307_344407_371407_324307,
   196_247507_267307_288607_268307,
   197_190907_206407_223107_201307,
   198_147207_159407_172507_148107,
   199_108707_117807_127607_107607,
   200_802208_870408_944408_757108,
   201_609508_662108_719308_547208,
   202_463208_503708_547808_419708,
   203_352008_383208_417308_325408,
   204_267508_291608_317908_236808,
   205_203308_221908_242208_187608,
   206_154208_168508_184208_147308,
   207_117008_128108_140108_114708,
   208_888409_973109_106608_914109,
   209_674409_739609_811209_735809,
   210_512109_562309_617409_576709,
   211_378409_416009_457309_429409,
   212_279609_307709_338709_334909,
   213_206609_227609_250809_242709,
   214_152609_168409_185809_169209,
   215_112809_124609_137609_132309,
   216_825410_912710_100909_101609,
   217_604010_668710_740310_765610,
   218_442010_489910_543010_553910,
   219_323510_359010_398310_407110,
   220_236710_263010_292210_296010,
   221_173410_192810_214510_211410,
   222_127010_141410_157410_157010,
   223_929811_103710_115610_112210,
   224_681011_760111_848511_865811,
   225_498811_557411_622911_661811,
   226_367511_411111_460011_477411,
   227_270711_303311_339711_363511,
   228_199511_223711_250911_265011,
   229_147011_165111_185311_193711,
   230_108311_121811_136911_150911,
   231_807512_908712_102311_104311,
   232_602112_678312_764212_789912,
   233_449012_506512_571212_553712,
   234_335012_378312_427212_422012,
   235_250012_282612_319512_316612,
   236_190512_215612_244012_234612,
   237_145312_164612_186512_179212,
   238_110912_125812_142712_136912,
   239_847513_962513_109312_106112,
   240_648113_736913_837913_833313,
   241_511713_582513_663013_703013,
   242_404613_461113_525513_542513,
   243_320413_365513_417113_473313,
   244_254013_290213_331413_356413,
   245_201713_230613_263713_281313,
   246_171213_196013_224413_234013,
   247_145513_166713_191113_196513,
   248_123713_141913_162813_180713,
   249_105213_120813_138813_147513,
   250_895414_103013_118413_120313]

/-- atmdata/Venus/LAT80S.txt:28390-28540, columns 0 to 4. -/
def venusProfile189 : List ℕ :=
  [100_635202_647902_660902_666602,
   101_603502_615602_627902_632302,
   102_573002_584502_596202_599602,
   103_543802_554702_565802_570302,
   104_515902_526202_536702_543102,
   105_488902_498702_508702_512902,
   106_463102_472402_481802_478702,
   107_438302_447102_456002_455202,
   108_414302_422602_431102_432602,
   109_391702_399502_407502_411002,
   110_369802_377202_384702_387102,
   111_348802_355802_362902_363602,
   112_328802_335402_342102_339702,
   113_309802_316002_322302_322602,
   114_291602_297402_303302_302802,
   115_274002_279502_285102_284502,
   116_257502_262702_268002_265802,
   117_242002_246802_251702_248602,
   118_227302_231802_236402_232902,
   119_213102_217402_221702_216802,
   120_199902_203902_208002_204902,
   121_187402_191102_194902_192002,
   122_175302_178802_182402_182002,
   123_163802_167102_170402_172302,
   124_153102_156202_159302_158602,
   125_142802_145702_148602_146502,
   126_133202_135902_138602_135802,
   127_124002_126502_129002_126502,
   128_115402_117702_120102_118502,
   129_107202_109302_111502_110402,
   130_995103_101502_103502_102702,
   131_922203_940603_959403_953503,
   132_853303_870403_887803_889103,
   133_789603_805303_821503_816503,
   134_728803_743303_758203_754303,
   135_671903_685303_699003_698203,
   136_618503_630903_643503_642703,
   137_568603_579903_591503_595803,
   138_521503_531903_542503_540103,
   139_478103_487703_497403_493903,
   140_437203_445903_454903_451703,
   141_399103_407003_415203_415003,
   142_363403_370603_378103_375603,
   143_330003_336603_343403_338503,
   144_299503_305503_311603_306803,
   145_271203_276603_282103_273603,
   146_245003_249903_254903_245403,
   147_220403_224803_229303_219503,
   148_197703_201703_205703_197903,
   149_176803_180303_183903_177303,
   150_158103_161303_164503_159603,
   151_140803_143803_146803_144703,
   152_124703_127503_130403_128103,
   153_110803_113403_116103_113903,
   154_979704_100403_103003_100103,
   155_862704_885504_909004_884904,
   156_757804_778804_800504_785704,
   157_661504_680804_700604_700704,
   158_570204_587504_605404_609704,
   159_479304_494504_510204_524904,
   160_396704_409804_423304_433004,
   161_327704_339004_350604_346304,
   162_270804_280404_290404_295404,
   163_224004_232304_240804_244404,
   164_185304_192404_199704_212204,
   165_153004_159004_165304_175304,
   166_126304_131404_136804_146804,
   167_103904_108304_112804_121504,
   168_854905_892005_930705_992905,
   169_707805_739405_772505_841805,
   170_585905_612905_641105_698205,
   171_487105_510205_534305_565505,
   172_405005_424605_445305_463805,
   173_336805_353705_371305_400705,
   174_280205_294505_309605_340305,
   175_234005_246305_259205_285205,
   176_195405_205905_217005_237105,
   177_164005_173005_182505_206805,
   178_137605_145405_153605_172405,
   179_114505_121105_128105_145305,
   180_952806_100905_106905_122005,
   181_783306_830506_880606_100905,
   182_644306_684006_726106_834206,
   183_525206_558206_593306_674406,
   184_428306_455806_485006_533506,
   185_345706_368306_392406_417906,
   186_279106_297806_317706_340006,
   187_222106_237306_253406_265906,
   188_176806_189106_202206_218106,
   189_139706_149506_160106_176406,
   190_110306_118306_126806_137906,
   191_864307_927707_995707_103806,
   192_677107_727607_781907_810607,
   193_528107_568207_611307_591107,
   194_411907_443707_478007_467907,
   195_319307_344407_371407_359007,
   196_247507_267307_288607_267307,
   197_190907_206407_223107_199407,
   198_147207_159407_172507_151707,
   199_108707_117807_127607_112207,
   200_802208_870408_944408_824408,
   201_609508_662108_719308_626508,
   202_463208_503708_547808_475408,
   203_352008_383208_417308_373308,
   204_267508_291608_317908_275908,
   205_203308_221908_242208_211208,
   206_154208_168508_184208_166008,
   207_117008_128108_140108_117108,
   208_888409_973109_106608_906109,
   209_674409_739609_811209_682909,
   210_512109_562309_617409_493109,
   211_378409_416009_457309_381409,
   212_279609_307709_338709_283209,
   213_206609_227609_250809_211509,
   214_152609_168409_185809_163809,
   215_112809_124609_137609_123509,
   216_825410_912710_100909_979710,
   217_604010_668710_740310_654210,
   218_442010_489910_543010_485110,
   219_323510_359010_398310_363410,
   220_236710_263010_292210_266210,
   221_173410_192810_214510_200110,
   222_127010_141410_157410_133510,
   223_929811_103710_115610_103210,
   224_681011_760111_848511_756611,
   225_498811_557411_622911_590711,
   226_367511_411111_460011_458611,
   227_270711_303311_339711_348811,
   228_199511_223711_250911_247111,
   229_147011_165111_185311_172311,
   230_108311_121811_136911_122411,
   231_807512_908712_102311_901312,
   232_602112_678312_764212_668112,
   233_449012_506512_571212_497112,
   234_335012_378312_427212_359512,
   235_250012_282612_319512_269012,
   236_190512_215612_244012_209212,
   237_145312_164612_186512_148212,
   238_110912_125812_142712_110012,
   239_847513_962513_109312_822713,
   240_648113_736913_837913_600013,
   241_511713_582513_663013_461613,
   242_404613_461113_525513_362713,
   243_320413_365513_417113_309313,
   244_254013_290213_331413_256713,
   245_201713_230613_263713_216413,
   246_171213_196013_224413_170513,
   247_145513_166713_191113_141913,
   248_123713_141913_162813_117613,
   249_105213_120813_138813_107213,
   250_895414_103013_118413_890714]

/-- atmdata/Venus/LAT80S.txt:28541-28691, columns 0 to 4. -/
def venusProfile190 : List ℕ :=
  [100_635202_647902_660902_637602,
   101_603502_615602_627902_605202,
   102_573002_584502_596202_573902,
   103_543802_554702_565802_545402,
   104_515902_526202_536702_522302,
   105_488902_498702_508702_498202,
   106_463102_472402_481802_471402,
   107_438302_447102_456002_448702,
   108_414302_422602_431102_421502,
   109_391702_399502_407502_400502,
   110_369802_377202_384702_378302,
   111_348802_355802_362902_354102,
   112_328802_335402_342102_332902,
   113_309802_316002_322302_312902,
   114_291602_297402_303302_295002,
   115_274002_279502_285102_275002,
   116_257502_262702_268002_257502,
   117_242002_246802_251702_243702,
   118_227302_231802_236402_230002,
   119_213102_217402_221702_215302,
   120_199902_203902_208002_202402,
   121_187402_191102_194902_189902,
   122_175302_178802_182402_177902,
   123_163802_167102_170402_167202,
   124_153102_156202_159302_156902,
   125_142802_145702_148602_145702,
   126_133202_135902_138602_136402,
   127_124002_126502_129002_127202,
   128_115402_117702_120102_118302,
   129_107202_109302_111502_109602,
   130_995103_101502_103502_102102,
   131_922203_940603_959403_948103,
   132_853303_870403_887803_884803,
   133_789603_805303_821503_818603,
   134_728803_743303_758203_750803,
   135_671903_685303_699003_694703,
   136_618503_630903_643503_632503,
   137_568603_579903_591503_585803,
   138_521503_531903_542503_537303,
   139_478103_487703_497403_493703,
   140_437203_445903_454903_448603,
   141_399103_407003_415203_409303,
   142_363403_370603_378103_371303,
   143_330003_336603_343403_337503,
   144_299503_305503_311603_307003,
   145_271203_276603_282103_278303,
   146_245003_249903_254903_248303,
   147_220403_224803_229303_223903,
   148_197703_201703_205703_201903,
   149_176803_180303_183903_180003,
   150_158103_161303_164503_162603,
   151_140803_143803_146803_144903,
   152_124703_127503_130403_128503,
   153_110803_113403_116103_112703,
   154_979704_100403_103003_100603,
   155_862704_885504_909004_890004,
   156_757804_778804_800504_776104,
   157_661504_680804_700604_672404,
   158_570204_587504_605404_585004,
   159_479304_494504_510204_497804,
   160_396704_409804_423304_414404,
   161_327704_339004_350604_345604,
   162_270804_280404_290404_289604,
   163_224004_232304_240804_235904,
   164_185304_192404_199704_193804,
   165_153004_159004_165304_159004,
   166_126304_131404_136804_133504,
   167_103904_108304_112804_110704,
   168_854905_892005_930705_859105,
   169_707805_739405_772505_729905,
   170_585905_612905_641105_592305,
   171_487105_510205_534305_501305,
   172_405005_424605_445305_426805,
   173_336805_353705_371305_363105,
   174_280205_294505_309605_312305,
   175_234005_246305_259205_253505,
   176_195405_205905_217005_210705,
   177_164005_173005_182505_164605,
   178_137605_145405_153605_139405,
   179_114505_121105_128105_118905,
   180_952806_100905_106905_991706,
   181_783306_830506_880606_814406,
   182_644306_684006_726106_702406,
   183_525206_558206_593306_588806,
   184_428306_455806_485006_460606,
   185_345706_368306_392406_361106,
   186_279106_297806_317706_287606,
   187_222106_237306_253406_223706,
   188_176806_189106_202206_167806,
   189_139706_149506_160106_135006,
   190_110306_118306_126806_107206,
   191_864307_927707_995707_870807,
   192_677107_727607_781907_686007,
   193_528107_568207_611307_542107,
   194_411907_443707_478007_414207,
   195_319307_344407_371407_329307,
   196_247507_267307_288607_251707,
   197_190907_206407_223107_186907,
   198_147207_159407_172507_145807,
   199_108707_117807_127607_110307,
   200_802208_870408_944408_836208,
   201_609508_662108_719308_658908,
   202_463208_503708_547808_498208,
   203_352008_383208_417308_351308,
   204_267508_291608_317908_264208,
   205_203308_221908_242208_199508,
   206_154208_168508_184208_161108,
   207_117008_128108_140108_122108,
   208_888409_973109_106608_920509,
   209_674409_739609_811209_726909,
   210_512109_562309_617409_547709,
   211_378409_416009_457309_440109,
   212_279609_307709_338709_295209,
   213_206609_227609_250809_223309,
   214_152609_168409_185809_166409,
   215_112809_124609_137609_122109,
   216_825410_912710_100909_829210,
   217_604010_668710_740310_592210,
   218_442010_489910_543010_449710,
   219_323510_359010_398310_342110,
   220_236710_263010_292210_251510,
   221_173410_192810_214510_173110,
   222_127010_141410_157410_126110,
   223_929811_103710_115610_916911,
   224_681011_760111_848511_636311,
   225_498811_557411_622911_509011,
   226_367511_411111_460011_371411,
   227_270711_303311_339711_286911,
   228_199511_223711_250911_184511,
   229_147011_165111_185311_144611,
   230_108311_121811_136911_109011,
   231_807512_908712_102311_845612,
   232_602112_678312_764212_603412,
   233_449012_506512_571212_473912,
   234_335012_378312_427212_371112,
   235_250012_282612_319512_272312,
   236_190512_215612_244012_221612,
   237_145312_164612_186512_170912,
   238_110912_125812_142712_141412,
   239_847513_962513_109312_114312,
   240_648113_736913_837913_869613,
   241_511713_582513_663013_681013,
   242_404613_461113_525513_511813,
   243_320413_365513_417113_406513,
   244_254013_290213_331413_298613,
   245_201713_230613_263713_207913,
   246_171213_196013_224413_184413,
   247_145513_166713_191113_144213,
   248_123713_141913_162813_125413,
   249_105213_120813_138813_103513,
   250_895414_103013_118413_857914]

/-- atmdata/Venus/LAT80S.txt:28692-28842, columns 0 to 4. -/
def venusProfile191 : List ℕ :=
  [100_635202_647902_660902_647702,
   101_603502_615602_627902_614102,
   102_573002_584502_596202_581102,
   103_543802_554702_565802_551002,
   104_515902_526202_536702_519402,
   105_488902_498702_508702_492302,
   106_463102_472402_481802_468602,
   107_438302_447102_456002_446402,
   108_414302_422602_431102_421202,
   109_391702_399502_407502_399802,
   110_369802_377202_384702_378402,
   111_348802_355802_362902_359202,
   112_328802_335402_342102_338602,
   113_309802_316002_322302_319702,
   114_291602_297402_303302_302302,
   115_274002_279502_285102_284302,
   116_257502_262702_268002_266002,
   117_242002_246802_251702_250002,
   118_227302_231802_236402_233802,
   119_213102_217402_221702_219602,
   120_199902_203902_208002_205402,
   121_187402_191102_194902_192702,
   122_175302_178802_182402_179402,
   123_163802_167102_170402_168102,
   124_153102_156202_159302_157102,
   125_142802_145702_148602_146402,
   126_133202_135902_138602_136102,
   127_124002_126502_129002_127102,
   128_115402_117702_120102_117402,
   129_107202_109302_111502_109902,
   130_995103_101502_103502_102702,
   131_922203_940603_959403_952903,
   132_853303_870403_887803_889603,
   133_789603_805303_821503_830203,
   134_728803_743303_758203_768303,
   135_671903_685303_699003_709603,
   136_618503_630903_643503_652503,
   137_568603_579903_591503_602403,
   138_521503_531903_542503_545703,
   139_478103_487703_497403_504703,
   140_437203_445903_454903_463303,
   141_399103_407003_415203_418903,
   142_363403_370603_378103_379903,
   143_330003_336603_343403_350103,
   144_299503_305503_311603_319003,
   145_271203_276603_282103_286303,
   146_245003_249903_254903_260903,
   147_220403_224803_229303_232403,
   148_197703_201703_205703_209203,
   149_176803_180303_183903_185303,
   150_158103_161303_164503_163703,
   151_140803_143803_146803_142903,
   152_124703_127503_130403_127003,
   153_110803_113403_116103_113203,
   154_979704_100403_103003_100103,
   155_862704_885504_909004_886004,
   156_757804_778804_800504_781204,
   157_661504_680804_700604_681404,
   158_570204_587504_605404_591704,
   159_479304_494504_510204_500204,
   160_396704_409804_423304_420004,
   161_327704_339004_350604_346804,
   162_270804_280404_290404_288504,
   163_224004_232304_240804_241204,
   164_185304_192404_199704_200404,
   165_153004_159004_165304_160804,
   166_126304_131404_136804_134304,
   167_103904_108304_112804_110804,
   168_854905_892005_930705_912505,
   169_707805_739405_772505_767205,
   170_585905_612905_641105_635805,
   171_487105_510205_534305_524705,
   172_405005_424605_445305_433105,
   173_336805_353705_371305_364305,
   174_280205_294505_309605_314705,
   175_234005_246305_259205_262005,
   176_195405_205905_217005_215205,
   177_164005_173005_182505_171005,
   178_137605_145405_153605_144205,
   179_114505_121105_128105_122105,
   180_952806_100905_106905_992006,
   181_783306_830506_880606_789206,
   182_644306_684006_726106_634006,
   183_525206_558206_593306_506606,
   184_428306_455806_485006_434006,
   185_345706_368306_392406_337606,
   186_279106_297806_317706_281906,
   187_222106_237306_253406_238406,
   188_176806_189106_202206_183406,
   189_139706_149506_160106_143006,
   190_110306_118306_126806_112506,
   191_864307_927707_995707_883907,
   192_677107_727607_781907_691507,
   193_528107_568207_611307_524707,
   194_411907_443707_478007_420707,
   195_319307_344407_371407_304207,
   196_247507_267307_288607_237407,
   197_190907_206407_223107_174707,
   198_147207_159407_172507_140407,
   199_108707_117807_127607_109207,
   200_802208_870408_944408_763908,
   201_609508_662108_719308_569408,
   202_463208_503708_547808_436008,
   203_352008_383208_417308_327608,
   204_267508_291608_317908_250808,
   205_203308_221908_242208_185508,
   206_154208_168508_184208_132108,
   207_117008_128108_140108_107208,
   208_888409_973109_106608_792009,
   209_674409_739609_811209_595009,
   210_512109_562309_617409_473309,
   211_378409_416009_457309_340609,
   212_279609_307709_338709_258509,
   213_206609_227609_250809_203109,
   214_152609_168409_185809_147809,
   215_112809_124609_137609_105809,
   216_825410_912710_100909_740610,
   217_604010_668710_740310_548810,
   218_442010_489910_543010_428210,
   219_323510_359010_398310_330910,
   220_236710_263010_292210_243510,
   221_173410_192810_214510_178410,
   222_127010_141410_157410_135110,
   223_929811_103710_115610_104410,
   224_681011_760111_848511_784211,
   225_498811_557411_622911_615511,
   226_367511_411111_460011_469011,
   227_270711_303311_339711_352311,
   228_199511_223711_250911_264411,
   229_147011_165111_185311_190411,
   230_108311_121811_136911_146611,
   231_807512_908712_102311_980112,
   232_602112_678312_764212_771812,
   233_449012_506512_571212_533212,
   234_335012_378312_427212_387612,
   235_250012_282612_319512_277512,
   236_190512_215612_244012_200712,
   237_145312_164612_186512_144012,
   238_110912_125812_142712_113612,
   239_847513_962513_109312_880313,
   240_648113_736913_837913_755913,
   241_511713_582513_663013_629013,
   242_404613_461113_525513_464313,
   243_320413_365513_417113_361213,
   244_254013_290213_331413_288813,
   245_201713_230613_263713_220513,
   246_171213_196013_224413_184013,
   247_145513_166713_191113_166613,
   248_123713_141913_162813_150913,
   249_105213_120813_138813_132013,
   250_895414_103013_118413_106913]

/-- atmdata/Venus/LAT80S.txt:28843-28993, columns 0 to 4. -/
def venusProfile192 : List ℕ :=
  [100_635202_647902_660902_657702,
   101_603502_615602_627902_623002,
   102_573002_584502_596202_587802,
   103_543802_554702_565802_555902,
   104_515902_526202_536702_525402,
   105_488902_498702_508702_494302,
   106_463102_472402_481802_466502,
   107_438302_447102_456002_444802,
   108_414302_422602_431102_421002,
   109_391702_399502_407502_399402,
   110_369802_377202_384702_379002,
   111_348802_355802_362902_358502,
   112_328802_335402_342102_339102,
   113_309802_316002_322302_316102,
   114_291602_297402_303302_295302,
   115_274002_279502_285102_276102,
   116_257502_262702_268002_258802,
   117_242002_246802_251702_242202,
   118_227302_231802_236402_228202,
   119_213102_217402_221702_215702,
   120_199902_203902_208002_200502,
   121_187402_191102_194902_188502,
   122_175302_178802_182402_177202,
   123_163802_167102_170402_165802,
   124_153102_156202_159302_154402,
   125_142802_145702_148602_144402,
   126_133202_135902_138602_135602,
   127_124002_126502_129002_126802,
   128_115402_117702_120102_118402,
   129_107202_109302_111502_109902,
   130_995103_101502_103502_103402,
   131_922203_940603_959403_959203,
   132_853303_870403_887803_895803,
   133_789603_805303_821503_826003,
   134_728803_743303_758203_759603,
   135_671903_685303_699003_701403,
   136_618503_630903_643503_637903,
   137_568603_579903_591503_588903,
   138_521503_531903_542503_540103,
   139_478103_487703_497403_492503,
   140_437203_445903_454903_449803,
   141_399103_407003_415203_412003,
   142_363403_370603_378103_374403,
   143_330003_336603_343403_339503,
   144_299503_305503_311603_304103,
   145_271203_276603_282103_276503,
   146_245003_249903_254903_251703,
   147_220403_224803_229303_226803,
   148_197703_201703_205703_204803,
   149_176803_180303_183903_184703,
   150_158103_161303_164503_164103,
   151_140803_143803_146803_146303,
   152_124703_127503_130403_130203,
   153_110803_113403_116103_114703,
   154_979704_100403_103003_100103,
   155_862704_885504_909004_886704,
   156_757804_778804_800504_797104,
   157_661504_680804_700604_699404,
   158_570204_587504_605404_605704,
   159_479304_494504_510204_509004,
   160_396704_409804_423304_413604,
   161_327704_339004_350604_338304,
   162_270804_280404_290404_280204,
   163_224004_232304_240804_231104,
   164_185304_192404_199704_196804,
   165_153004_159004_165304_164204,
   166_126304_131404_136804_136504,
   167_103904_108304_112804_111904,
   168_854905_892005_930705_893905,
   169_707805_739405_772505_749305,
   170_585905_612905_641105_643705,
   171_487105_510205_534305_558705,
   172_405005_424605_445305_473005,
   173_336805_353705_371305_392505,
   174_280205_294505_309605_339105,
   175_234005_246305_259205_287705,
   176_195405_205905_217005_232305,
   177_164005_173005_182505_185305,
   178_137605_145405_153605_155205,
   179_114505_121105_128105_130005,
   180_952806_100905_106905_110105,
   181_783306_830506_880606_912806,
   182_644306_684006_726106_737706,
   183_525206_558206_593306_596906,
   184_428306_455806_485006_494806,
   185_345706_368306_392406_424306,
   186_279106_297806_317706_336406,
   187_222106_237306_253406_271006,
   188_176806_189106_202206_209206,
   189_139706_149506_160106_172806,
   190_110306_118306_126806_133606,
   191_864307_927707_995707_100706,
   192_677107_727607_781907_775307,
   193_528107_568207_611307_613007,
   194_411907_443707_478007_465607,
   195_319307_344407_371407_354407,
   196_247507_267307_288607_276807,
   197_190907_206407_223107_197007,
   198_147207_159407_172507_163207,
   199_108707_117807_127607_114507,
   200_802208_870408_944408_839208,
   201_609508_662108_719308_645408,
   202_463208_503708_547808_489308,
   203_352008_383208_417308_373508,
   204_267508_291608_317908_285908,
   205_203308_221908_242208_235608,
   206_154208_168508_184208_171408,
   207_117008_128108_140108_126508,
   208_888409_973109_106608_102208,
   209_674409_739609_811209_789409,
   210_512109_562309_617409_550309,
   211_378409_416009_457309_402609,
   212_279609_307709_338709_283809,
   213_206609_227609_250809_234209,
   214_152609_168409_185809_151209,
   215_112809_124609_137609_120209,
   216_825410_912710_100909_848710,
   217_604010_668710_740310_635710,
   218_442010_489910_543010_499110,
   219_323510_359010_398310_384410,
   220_236710_263010_292210_278710,
   221_173410_192810_214510_211010,
   222_127010_141410_157410_142710,
   223_929811_103710_115610_102810,
   224_681011_760111_848511_736111,
   225_498811_557411_622911_585211,
   226_367511_411111_460011_417811,
   227_270711_303311_339711_316211,
   228_199511_223711_250911_232011,
   229_147011_165111_185311_154911,
   230_108311_121811_136911_110111,
   231_807512_908712_102311_810512,
   232_602112_678312_764212_620912,
   233_449012_506512_571212_461412,
   234_335012_378312_427212_368812,
   235_250012_282612_319512_257512,
   236_190512_215612_244012_195712,
   237_145312_164612_186512_153312,
   238_110912_125812_142712_115212,
   239_847513_962513_109312_837013,
   240_648113_736913_837913_638513,
   241_511713_582513_663013_477713,
   242_404613_461113_525513_343013,
   243_320413_365513_417113_261313,
   244_254013_290213_331413_246113,
   245_201713_230613_263713_197113,
   246_171213_196013_224413_190713,
   247_145513_166713_191113_165413,
   248_123713_141913_162813_132613,
   249_105213_120813_138813_107213,
   250_895414_103013_118413_878414]

/-- atmdata/Venus/LAT80S.txt:28994-29144, columns 0 to 4. -/
def venusProfile193 : List ℕ :=
  [100_635202_647902_660902_628102,
   101_603502_615602_627902_595302,
   102_573002_584502_596202_554502,
   103_543802_554702_565802_523502,
   104_515902_526202_536702_496702,
   105_488902_498702_508702_472602,
   106_463102_472402_481802_449102,
   107_438302_447102_456002_429402,
   108_414302_422602_431102_408402,
   109_391702_399502_407502_387602,
   110_369802_377202_384702_370802,
   111_348802_355802_362902_350102,
   112_328802_335402_342102_334302,
   113_309802_316002_322302_314502,
   114_291602_297402_303302_295302,
   115_274002_279502_285102_278302,
   116_257502_262702_268002_261002,
   117_242002_246802_251702_246802,
   118_227302_231802_236402_230302,
   119_213102_217402_221702_215002,
   120_199902_203902_208002_202502,
   121_187402_191102_194902_190402,
   122_175302_178802_182402_177902,
   123_163802_167102_170402_166002,
   124_153102_156202_159302_157202,
   125_142802_145702_148602_147402,
   126_133202_135902_138602_137302,
   127_124002_126502_129002_128702,
   128_115402_117702_120102_119402,
   129_107202_109302_111502_109902,
   130_995103_101502_103502_101302,
   131_922203_940603_959403_940303,
   132_853303_870403_887803_880003,
   133_789603_805303_821503_817303,
   134_728803_743303_758203_759803,
   135_671903_685303_699003_701303,
   136_618503_630903_643503_645103,
   137_568603_579903_591503_594703,
   138_521503_531903_542503_538903,
   139_478103_487703_497403_493903,
   140_437203_445903_454903_447503,
   141_399103_407003_415203_407403,
   142_363403_370603_378103_370803,
   143_330003_336603_343403_339103,
   144_299503_305503_311603_306103,
   145_271203_276603_282103_276203,
   146_245003_249903_254903_250903,
   147_220403_224803_229303_223703,
   148_197703_201703_205703_202603,
   149_176803_180303_183903_181803,
   150_158103_161303_164503_162103,
   151_140803_143803_146803_142203,
   152_124703_127503_130403_126803,
   153_110803_113403_116103_113303,
   154_979704_100403_103003_100703,
   155_862704_885504_909004_893204,
   156_757804_778804_800504_782704,
   157_661504_680804_700604_693204,
   158_570204_587504_605404_599704,
   159_479304_494504_510204_501604,
   160_396704_409804_423304_412404,
   161_327704_339004_350604_348204,
   162_270804_280404_290404_286504,
   163_224004_232304_240804_246904,
   164_185304_192404_199704_202004,
   165_153004_159004_165304_166204,
   166_126304_131404_136804_137604,
   167_103904_108304_112804_112204,
   168_854905_892005_930705_925705,
   169_707805_739405_772505_770805,
   170_585905_612905_641105_634005,
   171_487105_510205_534305_529305,
   172_405005_424605_445305_437405,
   173_336805_353705_371305_362305,
   174_280205_294505_309605_286205,
   175_234005_246305_259205_236805,
   176_195405_205905_217005_206305,
   177_164005_173005_182505_166005,
   178_137605_145405_153605_140105,
   179_114505_121105_128105_117805,
   180_952806_100905_106905_982706,
   181_783306_830506_880606_803106,
   182_644306_684006_726106_662506,
   183_525206_558206_593306_551306,
   184_428306_455806_485006_454806,
   185_345706_368306_392406_382306,
   186_279106_297806_317706_318806,
   187_222106_237306_253406_254206,
   188_176806_189106_202206_198506,
   189_139706_149506_160106_158306,
   190_110306_118306_126806_122406,
   191_864307_927707_995707_982407,
   192_677107_727607_781907_753107,
   193_528107_568207_611307_575907,
   194_411907_443707_478007_459207,
   195_319307_344407_371407_358807,
   196_247507_267307_288607_284007,
   197_190907_206407_223107_231007,
   198_147207_159407_172507_172207,
   199_108707_117807_127607_124007,
   200_802208_870408_944408_929508,
   201_609508_662108_719308_750208,
   202_463208_503708_547808_562508,
   203_352008_383208_417308_434508,
   204_267508_291608_317908_331908,
   205_203308_221908_242208_257408,
   206_154208_168508_184208_189408,
   207_117008_128108_140108_144508,
   208_888409_973109_106608_111008,
   209_674409_739609_811209_803009,
   210_512109_562309_617409_596409,
   211_378409_416009_457309_442109,
   212_279609_307709_338709_330709,
   213_206609_227609_250809_233009,
   214_152609_168409_185809_176509,
   215_112809_124609_137609_132709,
   216_825410_912710_100909_938810,
   217_604010_668710_740310_717410,
   218_442010_489910_543010_484710,
   219_323510_359010_398310_380910,
   220_236710_263010_292210_275910,
   221_173410_192810_214510_192310,
   222_127010_141410_157410_139410,
   223_929811_103710_115610_107710,
   224_681011_760111_848511_834011,
   225_498811_557411_622911_657711,
   226_367511_411111_460011_492711,
   227_270711_303311_339711_365211,
   228_199511_223711_250911_256811,
   229_147011_165111_185311_190611,
   230_108311_121811_136911_139311,
   231_807512_908712_102311_104611,
   232_602112_678312_764212_757112,
   233_449012_506512_571212_576112,
   234_335012_378312_427212_421512,
   235_250012_282612_319512_339912,
   236_190512_215612_244012_261012,
   237_145312_164612_186512_186212,
   238_110912_125812_142712_126912,
   239_847513_962513_109312_101212,
   240_648113_736913_837913_807713,
   241_511713_582513_663013_627613,
   242_404613_461113_525513_537413,
   243_320413_365513_417113_458813,
   244_254013_290213_331413_353813,
   245_201713_230613_263713_282913,
   246_171213_196013_224413_239813,
   247_145513_166713_191113_198113,
   248_123713_141913_162813_164913,
   249_105213_120813_138813_141313,
   250_895414_103013_118413_113113]

/-- atmdata/Venus/LAT80S.txt:29145-29295, columns 0 to 4. -/
def venusProfile194 : List ℕ :=
  [100_635202_647902_660902_642802,
   101_603502_615602_627902_608302,
   102_573002_584502_596202_581102,
   103_543802_554702_565802_555602,
   104_515902_526202_536702_527002,
   105_488902_498702_508702_497802,
   106_463102_472402_481802_465402,
   107_438302_447102_456002_445002,
   108_414302_422602_431102_417402,
   109_391702_399502_407502_395502,
   110_369802_377202_384702_371502,
   111_348802_355802_362902_350002,
   112_328802_335402_342102_328802,
   113_309802_316002_322302_311102,
   114_291602_297402_303302_293202,
   115_274002_279502_285102_274602,
   116_257502_262702_268002_257802,
   117_242002_246802_251702_242502,
   118_227302_231802_236402_228102,
   119_213102_217402_221702_213902,
   120_199902_203902_208002_200702,
   121_187402_191102_194902_188902,
   122_175302_178802_182402_179102,
   123_163802_167102_170402_166602,
   124_153102_156202_159302_156302,
   125_142802_145702_148602_144202,
   126_133202_135902_138602_132602,
   127_124002_126502_129002_125802,
   128_115402_117702_120102_118102,
   129_107202_109302_111502_110002,
   130_995103_101502_103502_101702,
   131_922203_940603_959403_943003,
   132_853303_870403_887803_883703,
   133_789603_805303_821503_812503,
   134_728803_743303_758203_749403,
   135_671903_685303_699003_691703,
   136_618503_630903_643503_628603,
   137_568603_579903_591503_579703,
   138_521503_531903_542503_532003,
   139_478103_487703_497403_490303,
   140_437203_445903_454903_449903,
   141_399103_407003_415203_415303,
   142_363403_370603_378103_378103,
   143_330003_336603_343403_341803,
   144_299503_305503_311603_309503,
   145_271203_276603_282103_282303,
   146_245003_249903_254903_255603,
   147_220403_224803_229303_230003,
   148_197703_201703_205703_208303,
   149_176803_180303_183903_186003,
   150_158103_161303_164503_166003,
   151_140803_143803_146803_148003,
   152_124703_127503_130403_132303,
   153_110803_113403_116103_117003,
   154_979704_100403_103003_103003,
   155_862704_885504_909004_913204,
   156_757804_778804_800504_808204,
   157_661504_680804_700604_696904,
   158_570204_587504_605404_601904,
   159_479304_494504_510204_500004,
   160_396704_409804_423304_414204,
   161_327704_339004_350604_344504,
   162_270804_280404_290404_281804,
   163_224004_232304_240804_234304,
   164_185304_192404_199704_194804,
   165_153004_159004_165304_158304,
   166_126304_131404_136804_131104,
   167_103904_108304_112804_106604,
   168_854905_892005_930705_860205,
   169_707805_739405_772505_717305,
   170_585905_612905_641105_606405,
   171_487105_510205_534305_497605,
   172_405005_424605_445305_427205,
   173_336805_353705_371305_351605,
   174_280205_294505_309605_281305,
   175_234005_246305_259205_238305,
   176_195405_205905_217005_203605,
   177_164005_173005_182505_164405,
   178_137605_145405_153605_138805,
   179_114505_121105_128105_116305,
   180_952806_100905_106905_946706,
   181_783306_830506_880606_833606,
   182_644306_684006_726106_693806,
   183_525206_558206_593306_540106,
   184_428306_455806_485006_442006,
   185_345706_368306_392406_368306,
   186_279106_297806_317706_296406,
   187_222106_237306_253406_234506,
   188_176806_189106_202206_185606,
   189_139706_149506_160106_145406,
   190_110306_118306_126806_112506,
   191_864307_927707_995707_884107,
   192_677107_727607_781907_678107,
   193_528107_568207_611307_550107,
   194_411907_443707_478007_422207,
   195_319307_344407_371407_343707,
   196_247507_267307_288607_279407,
   197_190907_206407_223107_224907,
   198_147207_159407_172507_171507,
   199_108707_117807_127607_125807,
   200_802208_870408_944408_867408,
   201_609508_662108_719308_651808,
   202_463208_503708_547808_494208,
   203_352008_383208_417308_342608,
   204_267508_291608_317908_270908,
   205_203308_221908_242208_210008,
   206_154208_168508_184208_158808,
   207_117008_128108_140108_113208,
   208_888409_973109_106608_869209,
   209_674409_739609_811209_673909,
   210_512109_562309_617409_524609,
   211_378409_416009_457309_402009,
   212_279609_307709_338709_288309,
   213_206609_227609_250809_210009,
   214_152609_168409_185809_155609,
   215_112809_124609_137609_115109,
   216_825410_912710_100909_831610,
   217_604010_668710_740310_569810,
   218_442010_489910_543010_403110,
   219_323510_359010_398310_254110,
   220_236710_263010_292210_190610,
   221_173410_192810_214510_144710,
   222_127010_141410_157410_113110,
   223_929811_103710_115610_831211,
   224_681011_760111_848511_621911,
   225_498811_557411_622911_516911,
   226_367511_411111_460011_369011,
   227_270711_303311_339711_279811,
   228_199511_223711_250911_227311,
   229_147011_165111_185311_162411,
   230_108311_121811_136911_125911,
   231_807512_908712_102311_101911,
   232_602112_678312_764212_699412,
   233_449012_506512_571212_473812,
   234_335012_378312_427212_389312,
   235_250012_282612_319512_305312,
   236_190512_215612_244012_250312,
   237_145312_164612_186512_192612,
   238_110912_125812_142712_149612,
   239_847513_962513_109312_111412,
   240_648113_736913_837913_808713,
   241_511713_582513_663013_655513,
   242_404613_461113_525513_542313,
   243_320413_365513_417113_439313,
   244_254013_290213_331413_361413,
   245_201713_230613_263713_299413,
   246_171213_196013_224413_240613,
   247_145513_166713_191113_191813,
   248_123713_141913_162813_166913,
   249_105213_120813_138813_130113,
   250_895414_103013_118413_103913]

/-- atmdata/Venus/LAT80S.txt:29296-29446, columns 0 to 4. -/
def venusProfile195 : List ℕ :=
  [100_635202_647902_660902_652102,
   101_603502_615602_627902_616202,
   102_573002_584502_596202_587202,
   103_543802_554702_565802_559202,
   104_515902_526202_536702_531202,
   105_488902_498702_508702_505802,
   106_463102_472402_481802_478302,
   107_438302_447102_456002_459102,
   108_414302_422602_431102_432402,
   109_391702_399502_407502_409102,
   110_369802_377202_384702_384902,
   111_348802_355802_362902_361202,
   112_328802_335402_342102_340102,
   113_309802_316002_322302_318202,
   114_291602_297402_303302_300702,
   115_274002_279502_285102_283602,
   116_257502_262702_268002_266002,
   117_242002_246802_251702_248702,
   118_227302_231802_236402_237402,
   119_213102_217402_221702_223102,
   120_199902_203902_208002_208102,
   121_187402_191102_194902_195802,
   122_175302_178802_182402_183302,
   123_163802_167102_170402_169702,
   124_153102_156202_159302_158502,
   125_142802_145702_148602_147102,
   126_133202_135902_138602_137302,
   127_124002_126502_129002_126802,
   128_115402_117702_120102_118002,
   129_107202_109302_111502_109202,
   130_995103_101502_103502_101202,
   131_922203_940603_959403_938603,
   132_853303_870403_887803_882703,
   133_789603_805303_821503_817203,
   134_728803_743303_758203_746803,
   135_671903_685303_699003_689003,
   136_618503_630903_643503_634303,
   137_568603_579903_591503_584203,
   138_521503_531903_542503_529803,
   139_478103_487703_497403_481603,
   140_437203_445903_454903_439603,
   141_399103_407003_415203_402203,
   142_363403_370603_378103_367203,
   143_330003_336603_343403_334903,
   144_299503_305503_311603_304503,
   145_271203_276603_282103_275603,
   146_245003_249903_254903_249603,
   147_220403_224803_229303_222403,
   148_197703_201703_205703_195403,
   149_176803_180303_183903_174503,
   150_158103_161303_164503_156803,
   151_140803_143803_146803_137803,
   152_124703_127503_130403_123703,
   153_110803_113403_116103_110903,
   154_979704_100403_103003_994104,
   155_862704_885504_909004_883004,
   156_757804_778804_800504_768404,
   157_661504_680804_700604_669204,
   158_570204_587504_605404_578104,
   159_479304_494504_510204_500904,
   160_396704_409804_423304_417804,
   161_327704_339004_350604_344204,
   162_270804_280404_290404_278904,
   163_224004_232304_240804_228504,
   164_185304_192404_199704_193704,
   165_153004_159004_165304_163004,
   166_126304_131404_136804_134304,
   167_103904_108304_112804_108204,
   168_854905_892005_930705_897305,
   169_707805_739405_772505_743305,
   170_585905_612905_641105_607805,
   171_487105_510205_534305_516105,
   172_405005_424605_445305_428005,
   173_336805_353705_371305_348905,
   174_280205_294505_309605_280705,
   175_234005_246305_259205_227205,
   176_195405_205905_217005_192805,
   177_164005_173005_182505_156505,
   178_137605_145405_153605_132505,
   179_114505_121105_128105_110905,
   180_952806_100905_106905_951906,
   181_783306_830506_880606_793906,
   182_644306_684006_726106_672706,
   183_525206_558206_593306_543506,
   184_428306_455806_485006_440306,
   185_345706_368306_392406_364306,
   186_279106_297806_317706_311106,
   187_222106_237306_253406_241206,
   188_176806_189106_202206_191706,
   189_139706_149506_160106_144206,
   190_110306_118306_126806_110906,
   191_864307_927707_995707_845007,
   192_677107_727607_781907_643507,
   193_528107_568207_611307_504007,
   194_411907_443707_478007_408007,
   195_319307_344407_371407_310507,
   196_247507_267307_288607_231207,
   197_190907_206407_223107_188307,
   198_147207_159407_172507_148607,
   199_108707_117807_127607_112307,
   200_802208_870408_944408_823008,
   201_609508_662108_719308_643408,
   202_463208_503708_547808_488708,
   203_352008_383208_417308_363808,
   204_267508_291608_317908_290408,
   205_203308_221908_242208_220108,
   206_154208_168508_184208_167708,
   207_117008_128108_140108_126808,
   208_888409_973109_106608_942409,
   209_674409_739609_811209_670109,
   210_512109_562309_617409_551109,
   211_378409_416009_457309_439109,
   212_279609_307709_338709_332409,
   213_206609_227609_250809_243409,
   214_152609_168409_185809_172209,
   215_112809_124609_137609_122609,
   216_825410_912710_100909_888410,
   217_604010_668710_740310_634610,
   218_442010_489910_543010_454610,
   219_323510_359010_398310_312310,
   220_236710_263010_292210_229110,
   221_173410_192810_214510_179910,
   222_127010_141410_157410_124410,
   223_929811_103710_115610_972411,
   224_681011_760111_848511_672311,
   225_498811_557411_622911_570811,
   226_367511_411111_460011_429811,
   227_270711_303311_339711_320011,
   228_199511_223711_250911_241311,
   229_147011_165111_185311_187411,
   230_108311_121811_136911_130111,
   231_807512_908712_102311_935212,
   232_602112_678312_764212_726612,
   233_449012_506512_571212_528512,
   234_335012_378312_427212_393312,
   235_250012_282612_319512_301312,
   236_190512_215612_244012_218712,
   237_145312_164612_186512_158812,
   238_110912_125812_142712_120412,
   239_847513_962513_109312_825213,
   240_648113_736913_837913_653113,
   241_511713_582513_663013_465813,
   242_404613_461113_525513_393513,
   243_320413_365513_417113_318913,
   244_254013_290213_331413_247313,
   245_201713_230613_263713_184213,
   246_171213_196013_224413_171613,
   247_145513_166713_191113_163213,
   248_123713_141913_162813_124413,
   249_105213_120813_138813_108113,
   250_895414_103013_118413_870814]

/-- atmdata/Venus/LAT80S.txt:29447-29597, columns 0 to 4. -/
def venusProfile196 : List ℕ :=
  [100_635202_647902_660902_665302,
   101_603502_615602_627902_627702,
   102_573002_584502_596202_596702,
   103_543802_554702_565802_566702,
   104_515902_526202_536702_539002,
   105_488902_498702_508702_510002,
   106_463102_472402_481802_484802,
   107_438302_447102_456002_454002,
   108_414302_422602_431102_429102,
   109_391702_399502_407502_405702,
   110_369802_377202_384702_382602,
   111_348802_355802_362902_356902,
   112_328802_335402_342102_337302,
   113_309802_316002_322302_317502,
   114_291602_297402_303302_296102,
   115_274002_279502_285102_277602,
   116_257502_262702_268002_260802,
   117_242002_246802_251702_246502,
   118_227302_231802_236402_231402,
   119_213102_217402_221702_220402,
   120_199902_203902_208002_208002,
   121_187402_191102_194902_196002,
   122_175302_178802_182402_182402,
   123_163802_167102_170402_171502,
   124_153102_156202_159302_159502,
   125_142802_145702_148602_148502,
   126_133202_135902_138602_137602,
   127_124002_126502_129002_127302,
   128_115402_117702_120102_117802,
   129_107202_109302_111502_110102,
   130_995103_101502_103502_102102,
   131_922203_940603_959403_946703,
   132_853303_870403_887803_863803,
   133_789603_805303_821503_810403,
   134_728803_743303_758203_749403,
   135_671903_685303_699003_690903,
   136_618503_630903_643503_626303,
   137_568603_579903_591503_576803,
   138_521503_531903_542503_529403,
   139_478103_487703_497403_484503,
   140_437203_445903_454903_449303,
   141_399103_407003_415203_407803,
   142_363403_370603_378103_372503,
   143_330003_336603_343403_335903,
   144_299503_305503_311603_306603,
   145_271203_276603_282103_274403,
   146_245003_249903_254903_248203,
   147_220403_224803_229303_223603,
   148_197703_201703_205703_198503,
   149_176803_180303_183903_176103,
   150_158103_161303_164503_158703,
   151_140803_143803_146803_141603,
   152_124703_127503_130403_123403,
   153_110803_113403_116103_109503,
   154_979704_100403_103003_970404,
   155_862704_885504_909004_863404,
   156_757804_778804_800504_760604,
   157_661504_680804_700604_666804,
   158_570204_587504_605404_575304,
   159_479304_494504_510204_490104,
   160_396704_409804_423304_413904,
   161_327704_339004_350604_337304,
   162_270804_280404_290404_284904,
   163_224004_232304_240804_239204,
   164_185304_192404_199704_195704,
   165_153004_159004_165304_162104,
   166_126304_131404_136804_133104,
   167_103904_108304_112804_105304,
   168_854905_892005_930705_854505,
   169_707805_739405_772505_707505,
   170_585905_612905_641105_593405,
   171_487105_510205_534305_493905,
   172_405005_424605_445305_426805,
   173_336805_353705_371305_340305,
   174_280205_294505_309605_275105,
   175_234005_246305_259205_230405,
   176_195405_205905_217005_193605,
   177_164005_173005_182505_157405,
   178_137605_145405_153605_133105,
   179_114505_121105_128105_110905,
   180_952806_100905_106905_929106,
   181_783306_830506_880606_757606,
   182_644306_684006_726106_590206,
   183_525206_558206_593306_491906,
   184_428306_455806_485006_396406,
   185_345706_368306_392406_329506,
   186_279106_297806_317706_269106,
   187_222106_237306_253406_199706,
   188_176806_189106_202206_162506,
   189_139706_149506_160106_132806,
   190_110306_118306_126806_101606,
   191_864307_927707_995707_830207,
   192_677107_727607_781907_623207,
   193_528107_568207_611307_527207,
   194_411907_443707_478007_406807,
   195_319307_344407_371407_318507,
   196_247507_267307_288607_242807,
   197_190907_206407_223107_195207,
   198_147207_159407_172507_157607,
   199_108707_117807_127607_121507,
   200_802208_870408_944408_911408,
   201_609508_662108_719308_662708,
   202_463208_503708_547808_502308,
   203_352008_383208_417308_382208,
   204_267508_291608_317908_259108,
   205_203308_221908_242208_194408,
   206_154208_168508_184208_151708,
   207_117008_128108_140108_121208,
   208_888409_973109_106608_865309,
   209_674409_739609_811209_663809,
   210_512109_562309_617409_496509,
   211_378409_416009_457309_355509,
   212_279609_307709_338709_260509,
   213_206609_227609_250809_198409,
   214_152609_168409_185809_157209,
   215_112809_124609_137609_125309,
   216_825410_912710_100909_912710,
   217_604010_668710_740310_666310,
   218_442010_489910_543010_482210,
   219_323510_359010_398310_336610,
   220_236710_263010_292210_244910,
   221_173410_192810_214510_174910,
   222_127010_141410_157410_128310,
   223_929811_103710_115610_933411,
   224_681011_760111_848511_707711,
   225_498811_557411_622911_467311,
   226_367511_411111_460011_330611,
   227_270711_303311_339711_251511,
   228_199511_223711_250911_187511,
   229_147011_165111_185311_140811,
   230_108311_121811_136911_104911,
   231_807512_908712_102311_802012,
   232_602112_678312_764212_607412,
   233_449012_506512_571212_468212,
   234_335012_378312_427212_320412,
   235_250012_282612_319512_245812,
   236_190512_215612_244012_189212,
   237_145312_164612_186512_150312,
   238_110912_125812_142712_108112,
   239_847513_962513_109312_857313,
   240_648113_736913_837913_596513,
   241_511713_582513_663013_468013,
   242_404613_461113_525513_388513,
   243_320413_365513_417113_305213,
   244_254013_290213_331413_254913,
   245_201713_230613_263713_199513,
   246_171213_196013_224413_171713,
   247_145513_166713_191113_153513,
   248_123713_141913_162813_128113,
   249_105213_120813_138813_954414,
   250_895414_103013_118413_766214]

/-- atmdata/Venus/LAT80S.txt:29598-29748, columns 0 to 4. -/
def venusProfile197 : List ℕ :=
  [100_635202_647902_660902_636902,
   101_603502_615602_627902_600502,
   102_573002_584502_596202_570902,
   103_543802_554702_565802_541802,
   104_515902_526202_536702_517502,
   105_488902_498702_508702_485902,
   106_463102_472402_481802_458702,
   107_438302_447102_456002_430902,
   108_414302_422602_431102_409302,
   109_391702_399502_407502_387502,
   110_369802_377202_384702_366702,
   111_348802_355802_362902_348002,
   112_328802_335402_342102_330802,
   113_309802_316002_322302_313302,
   114_291602_297402_303302_294102,
   115_274002_279502_285102_278002,
   116_257502_262702_268002_261302,
   117_242002_246802_251702_245602,
   118_227302_231802_236402_232202,
   119_213102_217402_221702_217002,
   120_199902_203902_208002_203902,
   121_187402_191102_194902_192702,
   122_175302_178802_182402_181002,
   123_163802_167102_170402_169702,
   124_153102_156202_159302_160202,
   125_142802_145702_148602_149502,
   126_133202_135902_138602_139802,
   127_124002_126502_129002_129502,
   128_115402_117702_120102_120902,
   129_107202_109302_111502_112102,
   130_995103_101502_103502_104102,
   131_922203_940603_959403_963803,
   132_853303_870403_887803_880503,
   133_789603_805303_821503_813003,
   134_728803_743303_758203_746503,
   135_671903_685303_699003_688003,
   136_618503_630903_643503_633303,
   137_568603_579903_591503_582403,
   138_521503_531903_542503_528103,
   139_478103_487703_497403_485503,
   140_437203_445903_454903_444903,
   141_399103_407003_415203_408603,
   142_363403_370603_378103_373703,
   143_330003_336603_343403_339603,
   144_299503_305503_311603_313603,
   145_271203_276603_282103_284103,
   146_245003_249903_254903_256103,
   147_220403_224803_229303_227603,
   148_197703_201703_205703_202303,
   149_176803_180303_183903_182503,
   150_158103_161303_164503_164903,
   151_140803_143803_146803_145103,
   152_124703_127503_130403_127403,
   153_110803_113403_116103_114603,
   154_979704_100403_103003_100403,
   155_862704_885504_909004_893704,
   156_757804_778804_800504_797304,
   157_661504_680804_700604_703004,
   158_570204_587504_605404_604604,
   159_479304_494504_510204_510904,
   160_396704_409804_423304_417104,
   161_327704_339004_350604_350004,
   162_270804_280404_290404_292104,
   163_224004_232304_240804_241004,
   164_185304_192404_199704_199704,
   165_153004_159004_165304_163204,
   166_126304_131404_136804_133504,
   167_103904_108304_112804_112404,
   168_854905_892005_930705_932305,
   169_707805_739405_772505_764605,
   170_585905_612905_641105_616505,
   171_487105_510205_534305_498105,
   172_405005_424605_445305_414905,
   173_336805_353705_371305_354505,
   174_280205_294505_309605_286905,
   175_234005_246305_259205_245305,
   176_195405_205905_217005_203305,
   177_164005_173005_182505_165305,
   178_137605_145405_153605_139105,
   179_114505_121105_128105_115005,
   180_952806_100905_106905_936206,
   181_783306_830506_880606_802006,
   182_644306_684006_726106_647306,
   183_525206_558206_593306_549806,
   184_428306_455806_485006_431706,
   185_345706_368306_392406_353906,
   186_279106_297806_317706_274406,
   187_222106_237306_253406_225706,
   188_176806_189106_202206_182906,
   189_139706_149506_160106_144206,
   190_110306_118306_126806_108106,
   191_864307_927707_995707_852007,
   192_677107_727607_781907_719307,
   193_528107_568207_611307_564007,
   194_411907_443707_478007_453007,
   195_319307_344407_371407_361407,
   196_247507_267307_288607_277007,
   197_190907_206407_223107_218807,
   198_147207_159407_172507_161407,
   199_108707_117807_127607_113807,
   200_802208_870408_944408_782608,
   201_609508_662108_719308_601308,
   202_463208_503708_547808_459708,
   203_352008_383208_417308_361408,
   204_267508_291608_317908_264108,
   205_203308_221908_242208_192308,
   206_154208_168508_184208_152508,
   207_117008_128108_140108_113808,
   208_888409_973109_106608_907409,
   209_674409_739609_811209_736209,
   210_512109_562309_617409_564709,
   211_378409_416009_457309_411609,
   212_279609_307709_338709_318009,
   213_206609_227609_250809_242209,
   214_152609_168409_185809_180609,
   215_112809_124609_137609_135809,
   216_825410_912710_100909_990910,
   217_604010_668710_740310_734710,
   218_442010_489910_543010_534010,
   219_323510_359010_398310_373810,
   220_236710_263010_292210_269010,
   221_173410_192810_214510_199310,
   222_127010_141410_157410_150910,
   223_929811_103710_115610_115710,
   224_681011_760111_848511_819811,
   225_498811_557411_622911_546211,
   226_367511_411111_460011_408711,
   227_270711_303311_339711_303011,
   228_199511_223711_250911_214511,
   229_147011_165111_185311_150211,
   230_108311_121811_136911_116111,
   231_807512_908712_102311_924112,
   232_602112_678312_764212_665612,
   233_449012_506512_571212_550212,
   234_335012_378312_427212_412512,
   235_250012_282612_319512_303912,
   236_190512_215612_244012_238112,
   237_145312_164612_186512_172712,
   238_110912_125812_142712_137812,
   239_847513_962513_109312_101212,
   240_648113_736913_837913_766013,
   241_511713_582513_663013_614913,
   242_404613_461113_525513_489213,
   243_320413_365513_417113_362213,
   244_254013_290213_331413_271313,
   245_201713_230613_263713_218313,
   246_171213_196013_224413_174313,
   247_145513_166713_191113_150113,
   248_123713_141913_162813_131413,
   249_105213_120813_138813_112213,
   250_895414_103013_118413_890014]

/-- atmdata/Venus/LAT80S.txt:29749-29899, columns 0 to 4. -/
def venusProfile198 : List ℕ :=
  [100_635202_647902_660902_647202,
   101_603502_615602_627902_626102,
   102_573002_584502_596202_593602,
   103_543802_554702_565802_561502,
   104_515902_526202_536702_526902,
   105_488902_498702_508702_500102,
   106_463102_472402_481802_474302,
   107_438302_447102_456002_445602,
   108_414302_422602_431102_428902,
   109_391702_399502_407502_405102,
   110_369802_377202_384702_383602,
   111_348802_355802_362902_362502,
   112_328802_335402_342102_339702,
   113_309802_316002_322302_318402,
   114_291602_297402_303302_299602,
   115_274002_279502_285102_281102,
   116_257502_262702_268002_264302,
   117_242002_246802_251702_247102,
   118_227302_231802_236402_231502,
   119_213102_217402_221702_217202,
   120_199902_203902_208002_203202,
   121_187402_191102_194902_192902,
   122_175302_178802_182402_180102,
   123_163802_167102_170402_168502,
   124_153102_156202_159302_158002,
   125_142802_145702_148602_148002,
   126_133202_135902_138602_137502,
   127_124002_126502_129002_127702,
   128_115402_117702_120102_118502,
   129_107202_109302_111502_109002,
   130_995103_101502_103502_101502,
   131_922203_940603_959403_941203,
   132_853303_870403_887803_861703,
   133_789603_805303_821503_801803,
   134_728803_743303_758203_743803,
   135_671903_685303_699003_685203,
   136_618503_630903_643503_640603,
   137_568603_579903_591503_588403,
   138_521503_531903_542503_539503,
   139_478103_487703_497403_498903,
   140_437203_445903_454903_453703,
   141_399103_407003_415203_413403,
   142_363403_370603_378103_378403,
   143_330003_336603_343403_336303,
   144_299503_305503_311603_303503,
   145_271203_276603_282103_273303,
   146_245003_249903_254903_246603,
   147_220403_224803_229303_222103,
   148_197703_201703_205703_198003,
   149_176803_180303_183903_177903,
   150_158103_161303_164503_157803,
   151_140803_143803_146803_140803,
   152_124703_127503_130403_124003,
   153_110803_113403_116103_110303,
   154_979704_100403_103003_982804,
   155_862704_885504_909004_875804,
   156_757804_778804_800504_766604,
   157_661504_680804_700604_657504,
   158_570204_587504_605404_566004,
   159_479304_494504_510204_477104,
   160_396704_409804_423304_394004,
   161_327704_339004_350604_327804,
   162_270804_280404_290404_272804,
   163_224004_232304_240804_221204,
   164_185304_192404_199704_187304,
   165_153004_159004_165304_161104,
   166_126304_131404_136804_131304,
   167_103904_108304_112804_109804,
   168_854905_892005_930705_891605,
   169_707805_739405_772505_730405,
   170_585905_612905_641105_606505,
   171_487105_510205_534305_509905,
   172_405005_424605_445305_446505,
   173_336805_353705_371305_375405,
   174_280205_294505_309605_303405,
   175_234005_246305_259205_248805,
   176_195405_205905_217005_203705,
   177_164005_173005_182505_165805,
   178_137605_145405_153605_139405,
   179_114505_121105_128105_114805,
   180_952806_100905_106905_980406,
   181_783306_830506_880606_811206,
   182_644306_684006_726106_663306,
   183_525206_558206_593306_531106,
   184_428306_455806_485006_451906,
   185_345706_368306_392406_367206,
   186_279106_297806_317706_298906,
   187_222106_237306_253406_240206,
   188_176806_189106_202206_195106,
   189_139706_149506_160106_148706,
   190_110306_118306_126806_124506,
   191_864307_927707_995707_941107,
   192_677107_727607_781907_768607,
   193_528107_568207_611307_574807,
   194_411907_443707_478007_441707,
   195_319307_344407_371407_330207,
   196_247507_267307_288607_258307,
   197_190907_206407_223107_204207,
   198_147207_159407_172507_155707,
   199_108707_117807_127607_113107,
   200_802208_870408_944408_827408,
   201_609508_662108_719308_659708,
   202_463208_503708_547808_500708,
   203_352008_383208_417308_416808,
   204_267508_291608_317908_306808,
   205_203308_221908_242208_244508,
   206_154208_168508_184208_192608,
   207_117008_128108_140108_146908,
   208_888409_973109_106608_111508,
   209_674409_739609_811209_829609,
   210_512109_562309_617409_654809,
   211_378409_416009_457309_481109,
   212_279609_307709_338709_348409,
   213_206609_227609_250809_270109,
   214_152609_168409_185809_194309,
   215_112809_124609_137609_141609,
   216_825410_912710_100909_103709,
   217_604010_668710_740310_787510,
   218_442010_489910_543010_575910,
   219_323510_359010_398310_405510,
   220_236710_263010_292210_289710,
   221_173410_192810_214510_227610,
   222_127010_141410_157410_156710,
   223_929811_103710_115610_112210,
   224_681011_760111_848511_863311,
   225_498811_557411_622911_579511,
   226_367511_411111_460011_397611,
   227_270711_303311_339711_294311,
   228_199511_223711_250911_234111,
   229_147011_165111_185311_177911,
   230_108311_121811_136911_122011,
   231_807512_908712_102311_873512,
   232_602112_678312_764212_723012,
   233_449012_506512_571212_521512,
   234_335012_378312_427212_366312,
   235_250012_282612_319512_267912,
   236_190512_215612_244012_176212,
   237_145312_164612_186512_142012,
   238_110912_125812_142712_110112,
   239_847513_962513_109312_914013,
   240_648113_736913_837913_745513,
   241_511713_582513_663013_639513,
   242_404613_461113_525513_500513,
   243_320413_365513_417113_426413,
   244_254013_290213_331413_337613,
   245_201713_230613_263713_275113,
   246_171213_196013_224413_238813,
   247_145513_166713_191113_194213,
   248_123713_141913_162813_175513,
   249_105213_120813_138813_158613,
   250_895414_103013_118413_123013]

/-- atmdata/Venus/LAT80S.txt:29900-30050, columns 0 to 4. -/
def venusProfile199 : List ℕ :=
  [100_635202_647902_660902_657102,
   101_603502_615602_627902_629102,
   102_573002_584502_596202_595402,
   103_543802_554702_565802_561602,
   104_515902_526202_536702_529802,
   105_488902_498702_508702_499902,
   106_463102_472402_481802_467702,
   107_438302_447102_456002_439902,
   108_414302_422602_431102_414502,
   109_391702_399502_407502_391702,
   110_369802_377202_384702_372602,
   111_348802_355802_362902_351502,
   112_328802_335402_342102_331002,
   113_309802_316002_322302_312202,
   114_291602_297402_303302_295102,
   115_274002_279502_285102_279602,
   116_257502_262702_268002_263002,
   117_242002_246802_251702_248502,
   118_227302_231802_236402_234302,
   119_213102_217402_221702_220702,
   120_199902_203902_208002_204702,
   121_187402_191102_194902_190002,
   122_175302_178802_182402_180002,
   123_163802_167102_170402_168002,
   124_153102_156202_159302_156902,
   125_142802_145702_148602_148502,
   126_133202_135902_138602_139202,
   127_124002_126502_129002_129402,
   128_115402_117702_120102_121702,
   129_107202_109302_111502_113102,
   130_995103_101502_103502_105402,
   131_922203_940603_959403_975103,
   132_853303_870403_887803_892203,
   133_789603_805303_821503_820703,
   134_728803_743303_758203_755303,
   135_671903_685303_699003_695003,
   136_618503_630903_643503_639303,
   137_568603_579903_591503_586803,
   138_521503_531903_542503_531703,
   139_478103_487703_497403_485203,
   140_437203_445903_454903_447103,
   141_399103_407003_415203_404203,
   142_363403_370603_378103_371103,
   143_330003_336603_343403_336703,
   144_299503_305503_311603_304903,
   145_271203_276603_282103_277503,
   146_245003_249903_254903_249703,
   147_220403_224803_229303_221903,
   148_197703_201703_205703_198103,
   149_176803_180303_183903_177303,
   150_158103_161303_164503_157903,
   151_140803_143803_146803_139103,
   152_124703_127503_130403_122903,
   153_110803_113403_116103_107403,
   154_979704_100403_103003_948304,
   155_862704_885504_909004_847004,
   156_757804_778804_800504_750004,
   157_661504_680804_700604_651904,
   158_570204_587504_605404_560404,
   159_479304_494504_510204_470004,
   160_396704_409804_423304_391304,
   161_327704_339004_350604_322504,
   162_270804_280404_290404_267204,
   163_224004_232304_240804_223504,
   164_185304_192404_199704_183104,
   165_153004_159004_165304_153204,
   166_126304_131404_136804_124704,
   167_103904_108304_112804_104004,
   168_854905_892005_930705_870405,
   169_707805_739405_772505_710505,
   170_585905_612905_641105_608705,
   171_487105_510205_534305_501705,
   172_405005_424605_445305_418305,
   173_336805_353705_371305_350605,
   174_280205_294505_309605_285305,
   175_234005_246305_259205_240405,
   176_195405_205905_217005_192505,
   177_164005_173005_182505_157405,
   178_137605_145405_153605_132705,
   179_114505_121105_128105_109005,
   180_952806_100905_106905_913606,
   181_783306_830506_880606_740006,
   182_644306_684006_726106_616706,
   183_525206_558206_593306_507506,
   184_428306_455806_485006_426506,
   185_345706_368306_392406_346606,
   186_279106_297806_317706_272806,
   187_222106_237306_253406_217706,
   188_176806_189106_202206_180106,
   189_139706_149506_160106_146706,
   190_110306_118306_126806_121006,
   191_864307_927707_995707_972307,
   192_677107_727607_781907_782807,
   193_528107_568207_611307_616007,
   194_411907_443707_478007_492007,
   195_319307_344407_371407_376407,
   196_247507_267307_288607_295307,
   197_190907_206407_223107_229807,
   198_147207_159407_172507_176907,
   199_108707_117807_127607_129607,
   200_802208_870408_944408_965108,
   201_609508_662108_719308_713808,
   202_463208_503708_547808_538708,
   203_352008_383208_417308_397408,
   204_267508_291608_317908_297108,
   205_203308_221908_242208_231308,
   206_154208_168508_184208_161608,
   207_117008_128108_140108_116008,
   208_888409_973109_106608_878409,
   209_674409_739609_811209_700309,
   210_512109_562309_617409_517709,
   211_378409_416009_457309_396709,
   212_279609_307709_338709_314409,
   213_206609_227609_250809_219809,
   214_152609_168409_185809_153309,
   215_112809_124609_137609_110409,
   216_825410_912710_100909_833810,
   217_604010_668710_740310_577610,
   218_442010_489910_543010_440910,
   219_323510_359010_398310_318910,
   220_236710_263010_292210_231610,
   221_173410_192810_214510_168110,
   222_127010_141410_157410_124210,
   223_929811_103710_115610_972711,
   224_681011_760111_848511_716211,
   225_498811_557411_622911_489611,
   226_367511_411111_460011_367211,
   227_270711_303311_339711_272711,
   228_199511_223711_250911_207711,
   229_147011_165111_185311_151711,
   230_108311_121811_136911_111511,
   231_807512_908712_102311_839712,
   232_602112_678312_764212_648412,
   233_449012_506512_571212_492412,
   234_335012_378312_427212_376712,
   235_250012_282612_319512_269312,
   236_190512_215612_244012_199712,
   237_145312_164612_186512_147712,
   238_110912_125812_142712_108712,
   239_847513_962513_109312_845113,
   240_648113_736913_837913_632513,
   241_511713_582513_663013_485013,
   242_404613_461113_525513_383313,
   243_320413_365513_417113_320713,
   244_254013_290213_331413_220313,
   245_201713_230613_263713_205613,
   246_171213_196013_224413_173513,
   247_145513_166713_191113_135613,
   248_123713_141913_162813_111513,
   249_105213_120813_138813_954914,
   250_895414_103013_118413_742214]

/-- atmdata/Venus/LAT80S.txt:30051-30201, columns 0 to 4. -/
def venusProfile200 : List ℕ :=
  [100_635202_647902_660902_626302,
   101_603502_615602_627902_599502,
   102_573002_584502_596202_567202,
   103_543802_554702_565802_543702,
   104_515902_526202_536702_514702,
   105_488902_498702_508702_490102,
   106_463102_472402_481802_464002,
   107_438302_447102_456002_436902,
   108_414302_422602_431102_413102,
   109_391702_399502_407502_390202,
   110_369802_377202_384702_365602,
   111_348802_355802_362902_344402,
   112_328802_335402_342102_325502,
   113_309802_316002_322302_309102,
   114_291602_297402_303302_286802,
   115_274002_279502_285102_269802,
   116_257502_262702_268002_254202,
   117_242002_246802_251702_239202,
   118_227302_231802_236402_223902,
   119_213102_217402_221702_208802,
   120_199902_203902_208002_196802,
   121_187402_191102_194902_183402,
   122_175302_178802_182402_172102,
   123_163802_167102_170402_160502,
   124_153102_156202_159302_149602,
   125_142802_145702_148602_139102,
   126_133202_135902_138602_129902,
   127_124002_126502_129002_121202,
   128_115402_117702_120102_113202,
   129_107202_109302_111502_104802,
   130_995103_101502_103502_983703,
   131_922203_940603_959403_912703,
   132_853303_870403_887803_837903,
   133_789603_805303_821503_778103,
   134_728803_743303_758203_726303,
   135_671903_685303_699003_669203,
   136_618503_630903_643503_624703,
   137_568603_579903_591503_573603,
   138_521503_531903_542503_526603,
   139_478103_487703_497403_483103,
   140_437203_445903_454903_442103,
   141_399103_407003_415203_404903,
   142_363403_370603_378103_373003,
   143_330003_336603_343403_341003,
   144_299503_305503_311603_309703,
   145_271203_276603_282103_279403,
   146_245003_249903_254903_250903,
   147_220403_224803_229303_225703,
   148_197703_201703_205703_201503,
   149_176803_180303_183903_179503,
   150_158103_161303_164503_160303,
   151_140803_143803_146803_143003,
   152_124703_127503_130403_126603,
   153_110803_113403_116103_112703,
   154_979704_100403_103003_101603,
   155_862704_885504_909004_906804,
   156_757804_778804_800504_786104,
   157_661504_680804_700604_686904,
   158_570204_587504_605404_588604,
   159_479304_494504_510204_489604,
   160_396704_409804_423304_409904,
   161_327704_339004_350604_332504,
   162_270804_280404_290404_273504,
   163_224004_232304_240804_225004,
   164_185304_192404_199704_186904,
   165_153004_159004_165304_154204,
   166_126304_131404_136804_124704,
   167_103904_108304_112804_103404,
   168_854905_892005_930705_846005,
   169_707805_739405_772505_687005,
   170_585905_612905_641105_568605,
   171_487105_510205_534305_489105,
   172_405005_424605_445305_392405,
   173_336805_353705_371305_328105,
   174_280205_294505_309605_268505,
   175_234005_246305_259205_237805,
   176_195405_205905_217005_204305,
   177_164005_173005_182505_166805,
   178_137605_145405_153605_139905,
   179_114505_121105_128105_113805,
   180_952806_100905_106905_925506,
   181_783306_830506_880606_785806,
   182_644306_684006_726106_659406,
   183_525206_558206_593306_551106,
   184_428306_455806_485006_454406,
   185_345706_368306_392406_365706,
   186_279106_297806_317706_299506,
   187_222106_237306_253406_233706,
   188_176806_189106_202206_195106,
   189_139706_149506_160106_153906,
   190_110306_118306_126806_125306,
   191_864307_927707_995707_976307,
   192_677107_727607_781907_779707,
   193_528107_568207_611307_592407,
   194_411907_443707_478007_455207,
   195_319307_344407_371407_359207,
   196_247507_267307_288607_288207,
   197_190907_206407_223107_223907,
   198_147207_159407_172507_176307,
   199_108707_117807_127607_131507,
   200_802208_870408_944408_878208,
   201_609508_662108_719308_677508,
   202_463208_503708_547808_513608,
   203_352008_383208_417308_389708,
   204_267508_291608_317908_295008,
   205_203308_221908_242208_225708,
   206_154208_168508_184208_164408,
   207_117008_128108_140108_124708,
   208_888409_973109_106608_913909,
   209_674409_739609_811209_682009,
   210_512109_562309_617409_523409,
   211_378409_416009_457309_415909,
   212_279609_307709_338709_307509,
   213_206609_227609_250809_221409,
   214_152609_168409_185809_169809,
   215_112809_124609_137609_136309,
   216_825410_912710_100909_101709,
   217_604010_668710_740310_721810,
   218_442010_489910_543010_547510,
   219_323510_359010_398310_392510,
   220_236710_263010_292210_279910,
   221_173410_192810_214510_208710,
   222_127010_141410_157410_158010,
   223_929811_103710_115610_113110,
   224_681011_760111_848511_772411,
   225_498811_557411_622911_529311,
   226_367511_411111_460011_343911,
   227_270711_303311_339711_255711,
   228_199511_223711_250911_189411,
   229_147011_165111_185311_160711,
   230_108311_121811_136911_122311,
   231_807512_908712_102311_956712,
   232_602112_678312_764212_704412,
   233_449012_506512_571212_562312,
   234_335012_378312_427212_399612,
   235_250012_282612_319512_274012,
   236_190512_215612_244012_210512,
   237_145312_164612_186512_167112,
   238_110912_125812_142712_136612,
   239_847513_962513_109312_977913,
   240_648113_736913_837913_768913,
   241_511713_582513_663013_608213,
   242_404613_461113_525513_464113,
   243_320413_365513_417113_368713,
   244_254013_290213_331413_289913,
   245_201713_230613_263713_220013,
   246_171213_196013_224413_164613,
   247_145513_166713_191113_151413,
   248_123713_141913_162813_130213,
   249_105213_120813_138813_118913,
   250_895414_103013_118413_910314]

/-- atmdata/Venus/LAT80S.txt: its 200 profiles of 151 heights. -/
def venusProfiles : List (List ℕ) :=
  [venusProfile1,
   venusProfile2,
   venusProfile3,
   venusProfile4,
   venusProfile5,
   venusProfile6,
   venusProfile7,
   venusProfile8,
   venusProfile9,
   venusProfile10,
   venusProfile11,
   venusProfile12,
   venusProfile13,
   venusProfile14,
   venusProfile15,
   venusProfile16,
   venusProfile17,
   venusProfile18,
   venusProfile19,
   venusProfile20,
   venusProfile21,
   venusProfile22,
   venusProfile23,
   venusProfile24,
   venusProfile25,
   venusProfile26,
   venusProfile27,
   venusProfile28,
   venusProfile29,
   venusProfile30,
   venusProfile31,
   venusProfile32,
   venusProfile33,
   venusProfile34,
   venusProfile35,
   venusProfile36,
   venusProfile37,
   venusProfile38,
   venusProfile39,
   venusProfile40,
   venusProfile41,
   venusProfile42,
   venusProfile43,
   venusProfile44,
   venusProfile45,
   venusProfile46,
   venusProfile47,
   venusProfile48,
   venusProfile49,
   venusProfile50,
   venusProfile51,
   venusProfile52,
   venusProfile53,
   venusProfile54,
   venusProfile55,
   venusProfile56,
   venusProfile57,
   venusProfile58,
   venusProfile59,
   venusProfile60,
   venusProfile61,
   venusProfile62,
   venusProfile63,
   venusProfile64,
   venusProfile65,
   venusProfile66,
   venusProfile67,
   venusProfile68,
   venusProfile69,
   venusProfile70,
   venusProfile71,
   venusProfile72,
   venusProfile73,
   venusProfile74,
   venusProfile75,
   venusProfile76,
   venusProfile77,
   venusProfile78,
   venusProfile79,
   venusProfile80,
   venusProfile81,
   venusProfile82,
   venusProfile83,
   venusProfile84,
   venusProfile85,
   venusProfile86,
   venusProfile87,
   venusProfile88,
   venusProfile89,
   venusProfile90,
   venusProfile91,
   venusProfile92,
   venusProfile93,
   venusProfile94,
   venusProfile95,
   venusProfile96,
   venusProfile97,
   venusProfile98,
   venusProfile99,
   venusProfile100,
   venusProfile101,
   venusProfile102,
   venusProfile103,
   venusProfile104,
   venusProfile105,
   venusProfile106,
   venusProfile107,
   venusProfile108,
   venusProfile109,
   venusProfile110,
   venusProfile111,
   venusProfile112,
   venusProfile113,
   venusProfile114,
   venusProfile115,
   venusProfile116,
   venusProfile117,
   venusProfile118,
   venusProfile119,
   venusProfile120,
   venusProfile121,
   venusProfile122,
   venusProfile123,
   venusProfile124,
   venusProfile125,
   venusProfile126,
   venusProfile127,
   venusProfile128,
   venusProfile129,
   venusProfile130,
   venusProfile131,
   venusProfile132,
   venusProfile133,
   venusProfile134,
   venusProfile135,
   venusProfile136,
   venusProfile137,
   venusProfile138,
   venusProfile139,
   venusProfile140,
   venusProfile141,
   venusProfile142,
   venusProfile143,
   venusProfile144,
   venusProfile145,
   venusProfile146,
   venusProfile147,
   venusProfile148,
   venusProfile149,
   venusProfile150,
   venusProfile151,
   venusProfile152,
   venusProfile153,
   venusProfile154,
   venusProfile155,
   venusProfile156,
   venusProfile157,
   venusProfile158,
   venusProfile159,
   venusProfile160,
   venusProfile161,
   venusProfile162,
   venusProfile163,
   venusProfile164,
   venusProfile165,
   venusProfile166,
   venusProfile167,
   venusProfile168,
   venusProfile169,
   venusProfile170,
   venusProfile171,
   venusProfile172,
   venusProfile173,
   venusProfile174,
   venusProfile175,
   venusProfile176,
   venusProfile177,
   venusProfile178,
   venusProfile179,
   venusProfile180,
   venusProfile181,
   venusProfile182,
   venusProfile183,
   venusProfile184,
   venusProfile185,
   venusProfile186,
   venusProfile187,
   venusProfile188,
   venusProfile189,
   venusProfile190,
   venusProfile191,
   venusProfile192,
   venusProfile193,
   venusProfile194,
   venusProfile195,
   venusProfile196,
   venusProfile197,
   venusProfile198,
   venusProfile199,
   venusProfile200]

end AMAT.Data
