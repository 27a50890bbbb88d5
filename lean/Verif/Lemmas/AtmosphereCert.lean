import Mathlib.Data.Int.Notation

/-
Certificates for the cubic splines through the columns of the shipped atmosphere files: approximate
second derivatives at the nodes (sorted by altitude).  Nothing is assumed about them; they are checked in
`Verif.Props.ShippedAtmospheres`.
-/

namespace AMAT.Cert

/-- Scaled by `10^6`. -/
def venusDens : List ℤ :=
  [11059913877149566, 12000000000000000, 12940086122850434, 14239655508598264, 8101291842756510,
   13355177120375697, 10477999675740702, 4732824176661494, 18590703617613323, 4904361352885215,
   9791850970845816, 9928234763731521, 10495209974228101, 8090925339356076, 5141088668347594,
   13344719987253546, 7480031382638221, 10735154482193571, 3579350688587496, 10947442763456447,
   6630878257586718, 4529044206196683, 5252944917626550, 10459176123297119, 910350589184976,
   9899421519962978, 1491963330963113, 8132725156184572, 1977136044298601, 7958730666621024,
   2187941289217302, 4889504176509770, 3454042004743620, 4694327804515750, 2968646777193381,
   2631085086710726, 5707012875963715, 1540863409434414, 3729533486298627, 3341002645371076,
   3306455932217067, 1433173625760656, 2960849564740308, 2323428115278111, 2745437974147246,
   2294819988132904, 3075282073321138, 1604051718582544, 3108511052348685, 961904072022715,
   2043872659560457, 1062605289735459, 2105706181497708, 714569984273709, 1036013881407456,
   961374490096468, 458488158206670, 384672877076850, 882820333485930, 1004045788979429,
   320996510596353, 1371968168635158, 371130814863016, 1043508571912778, 374834897485873,
   757151838143729, 316557749939212, 556617162099422, 276973601663099, 375488431248181,
   219072673344175, 278220875375119, 144043825155351, 201603824003478, 117540878830738,
   138232660673569, 73528478474987, 101653425426484, 53857819819079, 72915295297202,
   26480998992114, 55160708734344, 19876166070511, 38134626983611, 16585325995044, 25124069036214,
   11318397860102, 16602339523379, 8672244046383, 10508684291089, 5093018789262, 6919240551863,
   3590019003286, 4160683434992, 2507247256744, 2370327538031, 1751442591131, 1243902097444,
   1132949019094, 644301826180, 621843676185, 378323469079, 318862447500, 236226740922,
   206230588814, 72850903823, 156365795895, 87685912596, 74890553720, 61551872525, 17301956179,
   47440302760, 25736832782, 21212366113, 15413702767, 9532822819, 9395005957, 6227153355,
   4696380625, 3367324145, 2474322796, 1795384671, 1324138521, 948061244, 685616502, 545472748,
   342492506, 268557228, 191278581, 136328446, 121407634, 63841017, 54628296, 38645798, 27188511,
   28400159, 11610854, 10956426, 8163442, 5169806, 7517334, 1720857, 2459237, 1582196, 1411981,
   749882, 988491, 636153, 558897, 326257, 590073, 103452, 178119, 132072, 55593, 251554, -17811,
   47689, 25057, 20085, 38603, 10302, 15588, 11944, 9835, 12314, 6908, 7453, 5881, 5025, 5219,
   4099, 3586, 3159, 2379, 2924, 2123, 1782, 1549, 1622, 961, 1132, 1112, 841, 684, 1041, 491, 536,
   484, 288, 703, 201, 295, 239, 127, 572, 44, 152, 126, 62, 346, -7, 101, 81, -6, 304, -8, 28, 75,
   -29, 161, -16, 23, 43, -16, 141, -8, 10, 29, -7, 57, 19, -13, 35, -5, 46, 0, 12, 11, 5, 28, 4,
   15, -3, -4, 18, -9, 20, -9, 15, 8, 13, 0, 5, 2, 9, 2, 5, 3, 3, 3]

/-- Scaled by `10^6`. -/
def venusPres : List ℤ :=
  [2748878692777132, 2800000000000000, 2851121307222868, 2595514771108528, 2966819608343019,
   1737206795519396, 3284353209579398, 1325380366163011, 2814125325768556, 1818118330762763,
   1913401351180391, 1928276264515672, 1773493590756920, 1777749372456647, 1315508919416493,
   1960214949877383, 1043631281073977, 1665259925826708, 1295329015619189, 953424011696536,
   1490974937594668, 882676237924793, 978320110706160, 1204043319250569, 805506612291566,
   973930231583167, 698772461375767, 1030979922913765, 577307846969175, 859788689209537,
   483537396192678, 746061726019753, 552215699728312, 585075475066999, 527482400003693,
   484994924918230, 472537900323388, 444853473788217, 388048204523745, 402953708116803,
   340136963009041, 336498439847031, 293869277602834, 288024449741632, 294032923430636,
   215843856535824, 222591650426069, 213789541759900, 182250182534330, 137209728102778,
   168910905054557, 129146651678993, 118502488229469, 116843395403131, 92123930158009,
   96660883964834, 85232533982657, 84408980104540, 75131545599183, 71064837498729, 54609104405901,
   70498744877665, 35395916083438, 51917590788585, 26933720762224, 37747526162521, 21276174587693,
   26547775486707, 15332723465480, 18921330651372, 10981953929030, 13350853632508, 7614631540940,
   9590620203733, 5022887644127, 6917829219757, 3305795476844, 4758988872867, 2258249031689,
   3308015000379, 1549690966797, 2253221132432, 1077424503474, 1477080853672, 754252081837,
   965910818981, 482104642239, 609670612064, 337212909504, 363477749919, 224876090821,
   213017886799, 147052361984, 122772665267, 93856976949, 66999426938, 58745315299, 37019311867,
   32577437235, 23470939194, 12738805990, 16773836847, 10765846623, 8562776662, 7063046730,
   2965036418, 5076807598, 3007733191, 2452259640, 1883228249, 934827362, 1277462301, 759323432,
   611243971, 437700684, 307953293, 244486143, 172102136, 129105312, 92076614, 71988231, 47770462,
   36329919, 26509860, 19030640, 16167580, 9299038, 7476266, 5495896, 3780148, 4043510, 1585812,
   1553243, 1141215, 721896, 1113199, 213308, 337570, 236411, 138786, 324443, 15441, 81794, 47382,
   46679, 30501, 32316, 24436, 22341, 11002, 35652, 589, 8192, 6243, 1035, 17817, -2703, 2594,
   1327, 500, 3755, -99, 840, 639, 202, 1851, -46, 375, 347, -23, 1245, -156, 220, 176, -84, 818,
   -130, 121, 66, -25, 395, -55, 63, 41, -47, 327, -61, 38, 30, -39, 185, -42, 42, -8, -11, 112,
   -17, 15, 15, -16, 48, 4, -5, 17, -2, 50, -18, 22, -11, 20, -10, 19, -6, 4, -12, 42, -12, 8, -1,
   1, 13, 0, 0, 6, -5, 19, -4, 2, 3, -3, 15, -3, 4, -2, 5, -7, 3, 0, 2, -2, 13, -2, -1, 4, -3, 7,
   0, 0, 1, 2, 3]

/-- Scaled by `10^4`. -/
def venusTemp : List ℤ :=
  [1, 0, -1, 0, 0, 0, 0, 0, -1, 1, 0, 1, -1, 1, 0, 0, -1, 0, 1, -2, 1, 0, 0, 0, 1, -1, 0, 0, 1, -1,
   0, 0, 0, 0, 0, 1, -1, 2, 0, 0, -1, 2, -1, 1, 0, 1, -2, 1, -2, 0, -1, 1, -3, 1, -1, 0, 1, 3, 1,
   0, 3, -1, 1, 0, 1, -1, 1, 0, 0, 0, 0, 0, 0, 0, -1, 1, -1, 0, -1, 0, 1, -1, 1, -1, 1, 0, 1, 0, 1,
   -1, 2, -1, 2, -1, 2, -1, 1, 0, -2, 2, -6, 2, -1, 0, 0, 0, 0, 0, 0, -1, 3, -1, 0, 0, 0, 1, 0, 0,
   0, 0, 1, 0, 0, 0, 0, 0, 0, 0, 0, 0, 0, 0, 0, 0, 0, 0, 0, 0, 0, 0, 0, 0, 0, 0, 1, -3, 1, 0, 0, 0,
   0, 0, 0, 0, -1, 3, -1, 0, 0, 0, 0, 0, 0, 0, 0, 0, 0, 0, 0, 0, 0, 0, 0, 0, 0, 0, 0, 0, 0, 0, 0,
   0, 0, 0, 0, 0, 0, 0, 0, 0, 0, 0, 0, 0, 0, 0, 0, 0, 0, 0, 0, 0, 0, 0, 0, 0, 0, 0, 0, 0, 0, 0, 0,
   0, 0, 0, 0, 0, 0, 0, 0, 0, 0, 0, 0, 0, 0, 0, 0, 0, 0, 0, 0, 0, 0, 0, 0, 0, 0, 0, 0, 0, 0, 0, 0,
   0, 0, 0, 0, 0, 0]

/-- Scaled by `10^4`. -/
def earthDens : List ℤ :=
  [1128144994, 1045500000, 962855006, 588579975, 540825095, 296119644, 314696327, 413095048,
   254423481, 277711029, 346982402, 200209361, 163930153, 85020026, 68989743, 47171000, 33626255,
   23643979, 17012828, 11789710, 9643332, 5331961, 4923824, 3202744, 2005199, 2201460, 948961,
   1081195, 730759, 534767, 455671, 359050, 308631, 231927, 182660, 117733, 137058, 88234, 77154,
   60499, 45801, 32446, 24364, 17862, 14454, 8189, 8756, 5762, 4468, 3101, 1879, 1761, 927, 754,
   495, 269, 233, 122, 87, 56, 42, 31, 22, 16, 12, 9, 7, 5, 4, 3, 2]

/-- Scaled by `10^4`. -/
def earthPres : List ℤ :=
  [1206305078, 1018750000, 831194922, 643970313, 590423826, 450334381, 435738648, 322211028,
   288417241, 223770007, 175952732, 103519065, 80171008, 55196904, 37441378, 26637586, 19208278,
   14159302, 10224515, 7342638, 5539934, 3767628, 2999556, 2129149, 1668849, 1227454, 970836,
   767703, 582851, 475393, 370076, 300302, 239214, 182991, 140174, 114165, 87918, 67865, 52522,
   37796, 28043, 20687, 14833, 11062, 8719, 5423, 4854, 3569, 2488, 1493, 1156, 747, 509, 351, 223,
   151, 98, 64, 44, 31, 25, 21, 15, 12, 9, 7, 6, 5, 4, 3, 3]

/-- Scaled by `10^4`. -/
def earthTemp : List ℤ :=
  [0, 0, -1, 0, 0, 0, 1, 0, 2, 2, 0, 0, -1, 1, 0, 0, 0, 0, 0, 0, -1, 0, -1, -1, 1, -2, 1, -1, 0, 0,
   0, 0, 0, 0, 0, 1, 0, 0, 0, 0, 0, 0, 0, 0, 0, 0, 0, 1, 1, 0, 2, 0, 1, 1, 0, 2, 0, 0, 0, 0, 0, 0,
   0, 0, 0, 0, 0, 0, 0, 0, 0]

/-- Scaled by `10^6`. -/
def marsDens : List ℤ :=
  [67926490, 70000000, 72073510, 61705961, 101102647, -130116549, 119363547, 48662360, 51987012,
   67389591, -15545376, 66791912, 36377727, 39697178, 44833560, -3031419, 45292114, 25862961,
   25256041, 29112876, 2292454, 27717308, 18838313, 16929438, 15443934, 11294827, 11376760,
   15198135, 8230701, 14879061, -9546945, 15508720, 6912066, 8443018, 6115864, 8493527, 4310027,
   4866363, 3824520, 4435555, -566740, 4431407, 2641113, 2404143, 2742317, -173411, 2751329,
   1528097, 1576282, 1466775, 596619, 1306749, 896383, 927717, 432747, 1721294, 62076, 430402,
   376314, -15660, 1306326, -229645, 212254, -19370, 465225, -581529, 300891, 67966, -8756, 489057,
   -519472, 256831, 44147, 64580, 129531, -96706, 113294, 45531, 52582, 44141, 34855, 44438,
   -14608, 31994, 30632, 23679, 22853, 13311, 16304, 13875, 11598, 10533, 6871, 7583, 5995, 5636,
   3861, 4721, 3055, 2378, 2131, 1818, 1457, 1293, 1112, 920, 788, 729, 557, 464, 408, 302, 362,
   231, 190, 168, 123, 182, 92, 74, 66, 51, 78, 39, 31, 23]

/-- Scaled by `10^6`. -/
def marsPres : List ℤ :=
  [446510174, 430000000, 413489826, 316040696, 482347389, -205430252, 459373619, 287935775,
   248883279, 276531108, 84992290, 223499733, 221008776, 152465161, 189130581, 51012516, 146819354,
   141710066, 96340380, 120928414, 25945964, 105287729, 74903119, 69099794, 68697703, 22109393,
   64864724, 42431709, 41408439, 43934535, 10853422, 38651778, 26539466, 23190359, 24699097,
   10013254, 19247889, 16195190, 13771350, 12119410, 10351009, 9476554, 8142776, 7152343, 7047852,
   2456247, 6527159, 3835117, 4532372, 2635394, 5926051, 1260401, 2232344, 1810222, 906768,
   3982705, 82410, 967655, 786972, 84459, 2655192, -325227, 505718, -77644, 1364858, -1841787,
   902291, 212623, -12783, 1398507, -1501246, 766478, 115336, 212180, 355945, -255961, 319900,
   128363, 156648, 121045, 103174, 120261, -20219, 86614, 81762, 66337, 60891, 38101, 44706, 35075,
   30994, 25148, 20212, 18202, 15580, 13077, 10111, 12478, 7176, 5618, 5153, 3770, 4369, 2755,
   2490, 2105, 1689, 1877, 1242, 1014, 942, 619, 1144, 506, 371, 349, 273, 360, 209, 185, 163, 101,
   274, 92, 70, 48]

/-- Scaled by `10^4`. -/
def marsTemp : List ℤ :=
  [0, 0, 0, 0, 0, 1, -1, 0, 0, 0, 1, 0, 0, 0, 0, 0, 0, 0, 0, 0, 0, 0, 0, 0, 0, -1, 0, 0, 0, -1, 2,
   -1, 0, 0, 1, -2, 0, 0, 0, -1, 2, -1, 0, 0, 0, 1, -1, 0, 0, -1, 4, -1, 0, 0, 0, -1, 0, 0, 0, 1,
   -3, 0, 0, 0, 1, -1, 1, 0, 0, 0, -1, 0, 0, 0, 1, -2, 1, 0, 0, 0, 0, 0, 1, 0, 0, 0, 0, 0, 0, 0, 0,
   0, 1, 0, 0, 0, 0, 0, 0, 0, 0, 0, 1, 0, 0, 0, 0, 1, 0, 0, 0, 0, 1, 0, 0, 0, 0, 0, 0, 0, 0, 0, 0,
   0, 0, 0]

/-- Scaled by `10^4`. -/
def jupiterDens : List ℤ :=
  [80376645661, 81435367111, 82529145563, 114804610235, 84390609556, 105341722820, 82587466477,
   80615819396, 106875313627, 80530231552, 92243729158, 77887249925, 97775656159, 74443398980,
   91450336860, 75883257642, 85672037029, 64573638715, 107861926619, 96763619121, 42130465754,
   74225361975, 110529911332, 24102953445, 129104326123, 40806603480, 78860405529, 89366669121,
   56469676943, 74460215082, 67951205557, 80279944266, 60778776869, 72228463310, 65863508985,
   64929426481, 63886489103, 61097324716, 65174870655, 53934211727, 60983468697, 58725497102,
   56525988782, -21968215307, 48228890714, 107037278742, 31828599198, 9201824465, 2006602943,
   605563764, 592692001, 125083233, 47395066, 42006504, 12155918, 7559825, 2375281, 1393402,
   930360, 91959, 94958, 58475, 20763, 17250, -4132, 6659, 689, 162, -76, 532, 348, 132, 90, 21,
   57, 23, 30, 27, 26, 26, 26, 14, 13, 9, 7, 5, 3, 2, 2, 1, 2, 1, 2, 2, 3, 3]

/-- Scaled by `10^4`. -/
def jupiterPres : List ℤ :=
  [389785929833, 361294997932, 331860657690, 400138374143, 278209456727, 404090281978,
   291709421546, 305972386193, 328859615725, 285899148659, 290679726831, 267192077193,
   278930167440, 238547214975, 254649373417, 217899641687, 222627121593, 172940100179,
   256290419815, 206402272674, 152578853514, 154037592176, 260390396790, 74940077379, 272387855578,
   106911039346, 178819930675, 174478647208, 144025667042, 150180232531, 141822343882,
   158058640838, 121611234671, 138412302337, 123785971125, 116790281918, 113345099570,
   102529271654, 103136163435, 93389400071, 91202224011, 93845950021, 62364738464, 162304946594,
   44440042748, 56166756918, 9463320909, 4345459447, 691991302, 675475346, 194557313, 87695403,
   41371076, 20555292, 8514257, 4046681, 1699018, 814645, 387801, 63101, 83996, 28806, 14934, 5088,
   3161, 2625, 626, 615, 623, 496, 295, 193, 148, 126, 109, 94, 79, 70, 58, 47, 36, 27, 22, 17, 15,
   12, 10, 9, 9, 7, 7, 6, 6, 5, 4, 3]

/-- Scaled by `10^4`. -/
def jupiterTemp : List ℤ :=
  [0, 0, 0, 0, 0, 0, 0, 0, 0, 0, 0, 0, 0, 0, 0, 0, 0, -1, 1, 0, -1, -1, 2, -3, 2, -1, 0, 0, 0, 0,
   -1, 1, -1, 0, 0, 0, 0, 0, 0, 0, 0, 2, -5, 37, 0, 8, 3, 0, -12, 11, -2, -9, 7, -3, 1, -2, 0, 9,
   -4, -7, 12, 2, 17, -36, 39, -20, -16, 4, 14, -1, -9, -3, -3, 3, -1, 2, 2, 2, 2, 1, -3, -1, -2,
   -2, -2, -1, -1, 0, 1, 1, 1, 2, 0, -1, -6, -8]

/-- Scaled by `10^4`. -/
def saturnDens : List ℤ :=
  [100344001478668730136, 9333201276142956215, -51340665525540893066, 54854404191573927966,
   -31139264341842369332, 10445053251001251004, -4985500372574157544, 9977483666522213536,
   -6507972582460933855, 3844104262659479932, -109513392784120537, 1607768050203788120,
   377410762344721897, 676789512187538840, 870324259375276130, 516738382079207697,
   932433377650145197, 398665253995433049, 293438075045489040, 196508795505907791,
   94408092673870069, 47839533584496619, 19657959912235356, 7872758345151616, 3068172605188074,
   1080463941762851, 394683686474547, 136093084248313, 33539632399757, 19873891259837,
   9033846486750, 4259903109723, 2912562903134, 1549485781428, 3018307962499, 70267906783,
   2592153182653, -111044424796, 7118989235482, -11153925843304, 16125017092868, -11920724146921,
   10120299300800, -649029400684, 3597719605485, -2369973503994, 2582817251570, 883365269068,
   847078795671, 197055986667, 545667924830, 444826972477, 379171300835, 445447038294,
   163429890924, 288391099710, 252781587248, 138128150318, 105717077150, 199216041682,
   113898880548, 65704864310, 98045830781, 31387108843, 79505719098, 35362879083, 30960958417,
   24354923160, 21144660131, 12625978930, 9582178728, 6434694425, 3633632428, 1911438635,
   819153478, 311541910, 116190575, 36547742, 9476243, 3738863, 2815609, 1097192, 478461, 191866,
   83838, 33803, 9534, 2776, 1198, 603, -291]

/-- Scaled by `10^4`. -/
def saturnPres : List ℤ :=
  [2938755731995935237, 2587929146213567175, 2354044755691988468, 2334429255678853560,
   1948018891103688462, 1795071844690905871, 1566492128035477938, 1304275048012338667,
   1155056051567024184, 867344907497235746, 723102291032842989, 461725651935684096,
   302214118164135582, 264391418041668113, 218526562462742371, 172377146753727378,
   145569545180175194, 115064519647641742, 87130055844147826, 63586729911334189, 39525217176291127,
   21078480512683988, 9712193070719016, 4247975535340734, 1690174887857920, 573216825865130,
   210968395470664, 71248764053465, 16588693354725, 10202470055012, 4513138317643, 2172537854905,
   1410146527194, 1083424402556, 924138689548, 784348799096, 699136604411, 662675893455,
   603863954591, 502595690996, 542711911566, 469644423234, 422180430900, 397599951067,
   420522175745, 346310318442, 325482635751, 336079295015, 299730167880, 266034677262,
   257152380587, 221581753373, 230041370435, 192384857159, 179966914641, 164948388257,
   152219908990, 126461516458, 125829696429, 101916423141, 97988408632, 80956082473, 71340292993,
   60300479353, 53600291814, 44226744120, 35177598807, 28872863692, 22841870748, 16922718107,
   12169585857, 8464933622, 5110695879, 2726045938, 1218257043, 472240444, 178224011, 56896745,
   14777056, 5975427, 4298587, 1758313, 743141, 304399, 130777, 53459, 14928, 4392, 1882, 950, -454]

/-- Scaled by `10^6`. -/
def saturnTemp : List ℤ :=
  [-7680, -527, 4243, -4185, 2676, -680, 604, -739, 755, -197, 205, -27, 146, 162, 36, 215, -212,
   -24, -15, -62, -9, -15, -22, -10, 2, -1, -2, 6, 1, 7, 9, 41, 37, 292, -200, 785, -222, 1404,
   -3836, 9493, -11853, 11700, -8052, 1891, -3539, 4716, -2518, -424, -607, 710, -138, -159, 18,
   -620, 441, -236, -359, 112, 477, -677, -169, 302, -434, 586, -599, 51, 9, 26, -154, 30, -18,
   -42, -5, -14, -9, -2, -5, 0, -8, 23, -25, 7, -2, 3, -3, 1, 0, 0, 0, 0, -1]

/-- Scaled by `10^6`, part 0. -/
def titanDensPart0 : List ℤ :=
  [-661068791836289616, -48000000000000000, 565068791836289616, 523724832654841535,
   -115968122455655756, -687958048960453500, -1674199681702530246, 2602756775770574483,
   -827421379767685, 885103876254015815, 154911916363704427, 703248458291166478,
   546594250471629662, 605374539822314872, 528407590239110848, 76995099221241736,
   1028112012875922207, 145556849275069436, 492660590023800050, 295800790629730364,
   433136247457278496, 313154219541155654, 283746874378098887, 349608282946448797,
   287469993836105926, 189811741709127498, 183733039327384083, 276606100981336169,
   149842556747271240, 177623672029578870, 122912755134413278, 129475307432768016,
   95086015134514657, 64980632029173355, 63341456748791922, 101803540975658955, 17394379348572256,
   60368941630052020, 109979854131219664, 140721641845069324, 17673578488503040, 76554044200918515,
   51440244707822900, 11924976967789884, 10299847421017565, 21965633348139858, 4422619186423004,
   14988889906168125, 10516821188904496, 18618825338213891, -3197122541760061, 829664828826354,
   6838463226454647, 6031482265355058, 3250607712125121, 1351086886144460, 5115044743297041,
   -1291265859332622, 6830018694033448, 1361191083198829, 1285216973171236, 547941024116228,
   3138018930363851, 669983254428368, 1067048051922678, 1826824537880919, -1504346203446354,
   4130560275904499, -1309394900171641, 1146019324782063, 3490317601043387, -1442289728955611,
   2352341314779057, -1113575530160616, 2041960805863406, -224767693293007, -1093390032691377,
   4563827824058514, -3498421263542679, 2619857230112200, -165007656906123, 485173397512291,
   304814066856959, 311570335059873, 304404592903549, 257311293325932, 274350233792722,
   239787771503181, 228998680194556, 225717507718595, 201631288931064, 194757336557149,
   180339364840342, 178885204081484, 161619818833720, 152635520583634, 150338098831744,
   134012084089392, 135613564810690, 120033656667849, 116251808517915, 112459109260492,
   101411754440117, 102893872979041, 90012753643718, 89055112446086, 76920583693473,
   67182552780023, 59229205186435, 50860626474236, 45488288916622, 39658217859275, 34558839646277,
   30762423555616, 26903466131259, 23767711919348, 20969686191348, 18473543315261, 16400140547607,
   14469894494311, 12912281475148, 11448979605098, 10075800104460, 8967819977063, 8124919987288,
   7036500073785, 6473079717571, 5591181055931, 5146196058704, 4496034709254, 4097665104282,
   3607704873620, 3277915401239, 2922233521425, 2627550513062, 2354764426327, 2122991781631,
   1887668447150, 1726334429769, 1534193833775, 1391290235133, 1257445225695, 1126928862087,
   1026839325956, 916913834088, 849505337692, 756264815146, 695035401725, 620393577954,
   579390286460, 508445276207, 478028608712, 430640288943, 386610235514, 354758769000,
   329874688486, 291582477055, 274035403293, 242835909771, 227740957623, 204600259739,
   189138003422, 168767726574, 158191090281, 142147912301, 131937260516, 117303045635,
   110210556945, 98254726586, 91490536712, 82983126568, 74336957017, 69189045362, 63386861533,
   55743508506, 52519104444, 47212073719, 42024600678, 39401523567, 35833305053, 32041256219,
   29009670070, 25944063500, 22854075928, 21167632788, 18307392922, 16530795526, 15001424974,
   12959504578, 11712556713, 10582268569, 9126369010, 8280255391, 7336609426, 6533306906,
   5770162950, 5138041293, 4594471877, 4069671200, 3580443324]

/-- Scaled by `10^6`, part 1. -/
def titanDensPart1 : List ℤ :=
  [3249355504, 2876534660, 2526905854, 2284641922, 2021726457, 1806052250, 1604464545, 1452889572,
   1274377168, 1158401756, 1028015809, 926335007, 813044163, 753488341, 658602474, 605701764,
   530590471, 483136351, 438464123, 388607156, 356707254, 318163829, 290877431, 257126446,
   237016784, 217046418, 189837544, 176803405, 160868837, 144761246, 129366180, 121374036,
   110417676, 96955259, 91921287, 83519594, 73200338, 71759054, 60243447, 60467158, 50447919,
   50221164, 43627425, 40229135, 38576036, 33466721, 32037080, 28464960, 27383079, 24242723,
   22526030, 20293157, 18845341, 17509480, 16260739, 15055565, 14021003, 13004425, 12033299,
   11270380, 10325181, 9756895, 8967238, 8374151, 7768157, 7233222, 6738954, 6250962, 5817200,
   5424240, 5053839, 4672403, 4408550, 4045399, 3817855, 3531181, 3297422, 3079129, 2866060,
   2664632, 2507411, 2305722, 2189699, 2015482, 1892375, 1767019, 1647548, 1537989, 1440495,
   1340031, 1256181, 1178444, 1090843, 1029384, 957222, 896928, 840666, 785209, 734499, 687995,
   643923, 602714, 564420, 528406, 497155, 463772, 434155, 408407, 382617, 357923, 336090, 316118,
   295439, 278126, 260057, 244046, 230160, 215313, 202189, 190332, 178884, 166932, 158990, 147509,
   138973, 131800, 111894, 104684, 91088, 81043, 71640, 63557, 56391, 50000, 44448, 39506, 35127,
   31246, 27867, 24805, 22134, 19740, 17647, 15751, 14088, 12617, 11285, 10102, 9073, 8133, 7301,
   6559, 5893, 5303, 4773, 4298, 3871, 3496, 3150, 2846, 2573, 2324, 2103, 1905, 1724, 1565, 1416,
   1291, 1166, 1066, 966, 878, 803, 729, 666, 607, 554, 506, 463, 424, 388, 355, 325, 299, 274,
   252, 231, 213, 195, 180, 166, 152, 141, 130, 120, 111, 102, 95, 88, 81]

/-- Scaled by `10^6`, part 2. -/
def titanDensPart2 : List ℤ :=
  [75, 70, 65, 60, 56, 52, 48, 45, 42, 39, 36, 34, 32, 30, 28, 26]

/-- Scaled by `10^6`. -/
def titanDens : List ℤ :=
    (titanDensPart0 ++ titanDensPart1 ++ titanDensPart2)

/-- Scaled by `10^6`, part 0. -/
def titanPresPart0 : List ℤ :=
  [261424874030974709, 268000000000000000, 274575125969025291, 241699496123898834,
   270626889535379371, 261269583331912470, 280294777136970750, 273551308120204529,
   257499990382211135, 241824374793264332, 228402510444731537, 215115583427809519,
   198585155844030388, 181843793196068929, 166789671371693895, 158097521317155492,
   142370243359684137, 126821505244107958, 117893735663884030, 107053552100355923,
   97242055934692277, 86728224160874967, 79045047421807853, 70041586151893621, 61838607970617665,
   55053981965635721, 50345464166839451, 43864161367006475, 38317890365134649, 33894277172454928,
   29895000945045638, 26570719047362521, 23497122865504277, 21475789490620369, 19659719172014246,
   17485333821322645, 15923945542695173, 14848884007896663, 12565518425718174, 9304042289230641,
   7308312417359263, 6042708041332307, 4415855417311509, 3593870289421658, 3318663425001859,
   2886476010570905, 2535432532714520, 2301793858571015, 1952392033001421, 1588638009423302,
   1383055929305373, 1429138273355207, 1300390977273798, 1154297817549600, 1027417752527803,
   968531172339188, 882457558115446, 834138595199028, 760988061088443, 657909160447202,
   622875297122751, 600589651061793, 547766098630075, 503845954417906, 478850083698300,
   441253710788893, 438135073146128, 402705996626597, 366040940347486, 369630241983459,
   309438091718678, 284117391141827, 273092343714012, 255513234002124, 245354720277491,
   221067884887910, 236873740170867, 193437154428622, 181877642114645, 190552277112798,
   159913249434164, 156794725150546, 145907849963653, 138573874994842, 130796650056977,
   122739524777248, 117745250834031, 109779471886628, 104636861619458, 98673081635539,
   93170811838387, 88143671010912, 83754504117964, 79338312517232, 74392245813110, 71592704230330,
   66736937265571, 63459546707387, 60424875904881, 56940949673088, 54411325402766, 51063748715847,
   48683679733845, 46251532348772, 43510190871066, 41607704166965, 36338351984072, 31966887896746,
   28106096428945, 24760726387475, 21818998021154, 19267281527909, 17007875867209, 15061215003256,
   13323264119765, 11805728517682, 10493821809508, 9290984244286, 8286241213349, 7364050902317,
   6561555177383, 5845728388152, 5215531270009, 4660146531813, 4166282602738, 3723523057234,
   3338825168325, 2987576269466, 2679669753810, 2404944715294, 2158151385014, 1941649744650,
   1744049636387, 1570151709801, 1414543524409, 1272474192562, 1149159705344, 1035686986061,
   936092350411, 845543612297, 764933200403, 690723586090, 626572455238, 566186592960,
   514281172923, 465488715349, 422163965679, 382895421933, 347374346589, 315127191712,
   285956886563, 259925262036, 235302065291, 213906476799, 194032027515, 176365413143,
   159866319912, 145129307209, 131536451251, 119524887788, 108203997597, 98059121824, 88999515106,
   80422817752, 72909213887, 65940326701, 59569479311, 53861756057, 48671496461, 43844258101,
   39567471137, 35605857353, 32113099452, 28805744841, 25895921185, 23250570421, 20829797133,
   18662241046, 16673238682, 14892804225, 13251544418, 11805018104, 10496383166, 9329449233,
   8297819901, 7375271164, 6553095442, 5820347066, 5157516293, 4598387761, 4077732663, 3618681588,
   3222740985, 2863154470, 2549441134, 2263080994, 2020634891, 1795979441, 1602647346, 1429431177]

/-- Scaled by `10^6`, part 1. -/
def titanPresPart1 : List ℤ :=
  [1276427947, 1140057034, 1017743918, 911367294, 815986908, 730285075, 654872790, 588623763,
   528232159, 473647603, 428377430, 383242676, 347451867, 311589856, 282508710, 254455304,
   229910073, 208784402, 188712317, 171086330, 155102363, 140904218, 127760764, 116532727,
   105708329, 96633957, 87595844, 80262668, 73033484, 66803395, 61032935, 55784865, 51107604,
   46744719, 42953521, 39201196, 36161695, 33112025, 30350204, 28127157, 25621168, 23708171,
   21866148, 20059238, 18592900, 17049161, 15810455, 14581019, 13465469, 12461104, 11522113,
   10690442, 9892120, 9189079, 8551564, 7892665, 7373776, 6820231, 6337299, 5894574, 5460404,
   5095808, 4732364, 4390735, 4080694, 3814489, 3533351, 3292107, 3050219, 2867015, 2641721,
   2478099, 2301881, 2138375, 2008619, 1851150, 1746782, 1613722, 1511131, 1408953, 1313056,
   1222824, 1144449, 1070580, 993229, 932502, 868763, 812447, 758250, 707355, 665132, 618517,
   578399, 543085, 506059, 473480, 444023, 414428, 389466, 362910, 340496, 319906, 297479, 280578,
   262610, 245781, 230267, 215553, 203523, 189555, 178256, 167821, 156059, 148744, 136965, 130435,
   121774, 114709, 107229, 101493, 94719, 89391, 83877, 79580, 72044, 77205, 55823, 56383, 48106,
   43092, 38125, 33849, 30061, 26748, 23748, 21179, 18855, 16801, 14982, 13393, 11968, 10675, 9573,
   8562, 7671, 6882, 6172, 5541, 4981, 4480, 4026, 3631, 3271, 2945, 2665, 2401, 2172, 1967, 1775,
   1612, 1459, 1324, 1202, 1093, 991, 903, 821, 749, 682, 623, 568, 519, 474, 434, 397, 364, 334,
   307, 281, 259, 237, 219, 201, 185, 171, 158, 146, 135, 124, 115, 106, 99, 91, 85, 78, 73, 68,
   63, 59, 54]

/-- Scaled by `10^6`, part 2. -/
def titanPresPart2 : List ℤ :=
  [51, 47, 44, 41, 39, 36, 34, 31, 29, 27, 26, 24, 23, 21, 20, 19]

/-- Scaled by `10^6`. -/
def titanPres : List ℤ :=
    (titanPresPart0 ++ titanPresPart1 ++ titanPresPart2)

/-- Scaled by `10^6`, part 0. -/
def titanTempPart0 : List ℤ :=
  [17, 8, -1, -2, 10, 20, 42, -33, 12, -4, 11, 0, 2, 0, 0, 18, -18, 13, -1, 7, -1, 4, 6, -2, -1, 7,
   8, -8, 6, -1, 5, 2, 8, 17, 24, 7, 53, 52, 17, -69, 43, -47, -54, 8, 14, -23, 19, -15, -9, -54,
   29, 20, -11, -13, -2, 11, -18, 29, -36, 2, 3, 11, -17, 6, 3, -10, 38, -44, 34, 1, -50, 40, -34,
   36, -32, 15, 48, -113, 110, -62, 14, -3, 0, 0, -1, 1, -1, 0, 0, 0, 0, 0, 0, 0, 0, 0, 0, 0, 0, 0,
   0, 0, 0, 0, 0, 0, 0, 0, 0, 0, 0, 0, 0, 0, 0, 0, 0, 0, 0, 0, 0, 0, 0, 0, 0, 0, 0, 0, 0, 0, 0, 0,
   0, 0, 0, 0, 0, 0, 0, 0, 0, 0, 0, 0, 0, 0, 0, 0, 0, 0, 0, 0, 0, 0, 0, 0, 0, 0, 0, 0, 0, 0, 0, 0,
   0, 0, 0, 0, 0, 0, 0, 0, 0, 0, 1, 0, 0, 1, 0, 0, 0, 0, 0, 0, 0, 0, 0, 0, 0, 0, 0, 0, 0, 0, 0, 0,
   0, 0, 0, 0]

/-- Scaled by `10^6`, part 1. -/
def titanTempPart1 : List ℤ :=
  [0, 0, 0, 0, 0, 0, 0, 0, 0, 0, 0, 0, 0, 0, 0, 0, 0, 0, 0, 0, 0, 0, 0, 0, 0, 0, 0, 0, 0, 0, 0, 0,
   0, 0, 0, 0, 0, 0, 0, 0, 0, 0, 0, 0, 0, 0, 0, 0, 0, 0, 0, 0, 0, 0, 0, 0, 0, 0, 0, 0, 0, 0, 0, 0,
   0, 0, 0, 0, 0, 0, 0, 0, 0, 0, 0, 0, 0, 0, 0, 0, 0, 0, 0, 0, 0, 0, 0, 0, 0, 0, 0, 0, 0, 0, 0, 0,
   0, 0, 0, 0, 0, 0, 0, 0, 0, 0, 0, 0, 0, 0, 0, 0, 0, 0, 0, 0, 0, 0, 0, 0, 0, 0, 0, 0, 0, 0, 0, 0,
   0, 0, 0, 0, 0, 0, 0, 0, 0, 0, 0, 0, 0, 0, 0, 0, 0, 0, 0, 0, 0, 0, 0, 0, 0, 0, 0, 0, 0, 0, 0, 0,
   0, 0, 0, 0, 0, 0, 0, 0, 0, 0, 0, 0, 0, 0, 0, 0, 0, 0, 0, 0, 0, 0, 0, 0, 0, 0, 0, 0, 0, 0, 0, 0,
   0, 0, 0, 0, 0, 0, 0, 0]

/-- Scaled by `10^6`, part 2. -/
def titanTempPart2 : List ℤ :=
  [0, 0, 0, 0, 0, 0, 0, 0, 0, 0, 0, 0, 0, 0, 0, 0]

/-- Scaled by `10^6`. -/
def titanTemp : List ℤ :=
    (titanTempPart0 ++ titanTempPart1 ++ titanTempPart2)

/-- Scaled by `10^10`. -/
def uranusAmesDens : List ℤ :=
  [714697924018008961892655, 566816544327712826661003, 272415264003526027814328,
   -20694151687994777827392, 312143368521247755171601, 332124196677238586741295,
   96867443220183585229581, 252308277663325444088519, 263672260890727216450030,
   222287298354199686348225, 204216839443916659664879, 228250371034003423874938,
   172119342256754990606888, 206828133748335021649726, 128633878009699728171467,
   180128138050000129615747, 115968339501897638226929, 116043931794092781505298,
   124862043718005571615386, 70795503221533025990772, 119839580307927273760833,
   -20463385989260571902745, 698007649204033150928266, -538125770826872031810318,
   63078658103454976313008, 340821250413052126558288, 260485796244336517453842,
   201466036609601803626345, -49930862682743731959223, 215686110121373124210546,
   -20359281802748764882961, 140947401089621935321298, 85900605444261023597767,
   206640961133333970287633, 168596734022403095251702, 122369716377053648705560,
   122841740469382309926058, 96677246545417111590208, 114566796548949243713111,
   52253959258785913557348, 60927292015907102057497, 57576137477585678212664,
   26790017273750185091849, 23390577427413581419942, 38100154776595489228383,
   -18405530613795538333473, 75656585678586664105510, -17429889060551118088567,
   6844241123617808248756, 3217908326079885093542, 2663923492062651377077, 8862225065669509398149,
   1569966645259311030327, 3894951953293246480542, 1153307861567703047505, -599382279564058670561,
   5686982888688531634741, -1708956835190067868401, 1257172148071739838862, -644716381096891487049,
   -42806343684173890667, 298733667833587049718, 1100263416349825691796, 485159562767110183099,
   490407716581733575810, 199211922905955513663, 267493437647821409495, 57959568605663385735,
   53304228155593318763, 45556144029985482202, 22993390507726152314, 11395872846972546936,
   33702690632062398919, 522784991956299897, 26092024537092355501, -2312308173164903737,
   26019508024210532107, -2722581120149358301, 14311394425987201340, 9703481172208310124,
   -1256691268275221535, 20972027379969325876, -13100428947792736877, 22526814326007401329,
   -7081129350794946879, 9742667610856004127, 897313101403581901, 17687703590210096118,
   -30666420237623962619, 13466339240068267514, 4212565491437407885, 2467715294182100944,
   9041846891834188340, -2485006381518854302, 1420298874241228868, 304484604553938829,
   239663427543015817, 1422553977273997905, -4037171440639007437, 5484794751282031844,
   -1288352006489119938, -1438010405325552093, 1993467371791328311, -368229743839761149,
   101148017567716287, -66558616431103998, 215775366156699704, -6736376195694819,
   -128664807373920430, 65468973691376537, 35695314608414280, 14830813074966344, 67583398691720346,
   405156558152272, -51776631324329433, -19417150060834540, 44294914567667594, 29325253390164165,
   15856366871675746, 14788817523132849, -66489097164207143, 68518523133695723, -24494773370575749,
   4333632948607271, 15714382776146664, 78693946806073, -2971546963370958, -7099505093322243,
   18085925536659928, -14745527053317471, -2246141723390044, 2989620946877645, -1729924664120538,
   11023386309604508, -1457685174297494, 484586787585468, 307658823955622, 218207116592042,
   445248709676208, -236193155296876, 1785511711511294, 910041509251701, -679006948518096,
   -564218915179317, 324215809235365, 122094678237858, 181580877813204, 109355210509325,
   303704080149495, -1426345531107304, 644712084279721, 229258193988419, 488695199766604,
   -72069473485371, 109431637774881, 40253848385846, 45209169481735, -6826435512788,
   23668075369415, -2890621024872, 15821905410072, 325103644585, 2743076411589, 2374776969061,
   2632370232169, 607615382264, 731417978775, -16882801366, 459692258687, 918918194619,
   17699266837, 197956370032, -400734714965, 549384187827, -17980872345, 110125137152,
   -21212346862, 14898986698, 32772869671, 17591816220, 39017814451, -5070851222, 9124518038,
   6858620669, 8297364084, 4529807993, -9694739515, 10788704149, 8884203041, -8849900972,
   15609931409, -2129770223, -6592479955, 2770842665, 95091336, 673514851, 409697660, 388502168,
   316602368, 270367300, 227453426, 192259904, 162267386, 137019205, 115681675, 97672899, 82461787,
   69637055, 58742854, 49791469, 41313362, 35879692, 30446022]

/-- Scaled by `10^6`. -/
def uranusAmesPres : List ℤ :=
  [524610826329164, 511371588195839, 485014999792820, 520733038593659, 441453952453521,
   457238807273966, 387369596248987, 405869840341135, 355778480667951, 320137337756937,
   281566648664825, 248156259693324, 228951401019887, 196273043722677, 182137635292705,
   161351999725990, 156468989012276, 138945817728342, 86113070105231, 329969933578712,
   -648101064148375, 1175984844854894, -48068680522645, -18910122764313, 118909171579899,
   28073436444719, 125197082641226, 47618232990379, 45769985397260, 83221825420583, 48062712920410,
   63407322897779, 58307995488475, 40320695148320, 42489223918244, 30682409178702, 26781139366946,
   22537033353515, 17542727218995, 13276057770505, 10521041698983, 9703775433562, 5863856566769,
   5048798299362, 5284950235784, 2611400757502, 3421446734208, 574812305665, 1620904043132,
   1166371521807, 1146409869641, 737588999628, 681634131845, 380674472990, 421267976193,
   111053622237, 1294517534857, -244323761666, 165177511805, 39613714444, 69967630419, 50115763879,
   51169314065, 45206979861, 34642766489, 50701954181, 35627980852, 18685250887, 16878883724,
   14568589334, 14131803040, 8731558237, 7125112821, 13228859919, 2701340311, 9630631528,
   4375683209, 6081122404, 5302454308, 4101485478, 3468790752, 4688016553, 252402558, 5460188941,
   706616494, 2724791882, -279081077, 9706976225, -16075564300, 5719622941, 1494149070, 885780779,
   4244727813, -1214692031, 646440309, 124730793, 113436518, 674923135, -1950929059, 2768593100,
   -628043341, -733419734, 934922279, -162869382, 33355251, -44351620, 126651231, -3253304,
   -93838014, 34805362, 22416566, 11128372, 51269944, 391852, -46237352, -27242443, 43607122,
   25973953, 14677067, 16297780, -72968186, 71394964, -27031672, 1751722, 25664782, -190850,
   -4621384, -13723616, 26815849, -30839780, -4496729, 5326697, -3190060, 20753542, -2784107,
   1122888, 392555, 426891, 839880, -546410, 3625760, 1643369, -1379237, -1226422, 644924, 206724,
   448178, 100563, 589568, -2878837, 1265780, 455717, 991353, -165548, 225901, 84426, 96336,
   -17850, 52582, -7500, 35616, 767, 6227, 5393, 6328, 1401, 1736, -121, 1123, 2394, 12, 517,
   -1119, 1483, -53, 297, -61, 36, 89, 47, 114, -17, 26, 19, 24, 13, -31, 33, 28, -28, 49, -6, -22,
   9, 0, 2, 1, 1, 1, 1, 1, 1, 1, 0, 0, 0, 0, 0, 0, 0, 0, 0, 0]

/-- Scaled by `10^6`. -/
def uranusAmesTemp : List ℤ :=
  [0, 0, 0, 0, 0, 0, 0, 0, 0, 0, 0, 0, 0, 0, 0, 0, 0, 0, 0, 0, 0, 0, 1, -2, 5, -8, 3, 0, 3, 2, 3,
   2, 5, -1, 0, 2, 1, 3, -3, 3, 1, -1, 2, 5, -8, 39, -60, 18, 3, 3, 11, -14, 5, -10, 1, 4, 1, 7,
   -4, 13, 11, 16, -10, -2, -10, 3, -12, -2, -2, -3, 0, 1, -5, 5, -6, 6, -5, 4, -1, -1, 5, -6, 9,
   -7, 8, -2, -1, 7, -3, 1, 0, 1, -4, 2, 0, 0, 2, -7, 27, -22, -5, 43, -40, 9, -1, 6, -7, -1, 11,
   -2, -2, 1, -8, 0, 9, 6, -2, -7, -3, -6, 26, -26, 10, -2, -2, 0, 2, 1, -7, -2, 0, 0, 0, -2, 0, 0,
   0, 0, 0, 0, 0, 0, 0, 0, 0, 0, 0, 0, 0, 1, 0, 0, 0, 0, 0, 0, 0, 0, 0, 0, 0, 0, 0, 0, 0, 0, 0, 0,
   0, 0, 0, 0, 0, 0, 0, 0, 0, 0, 0, 0, 0, 0, 0, 0, 0, 0, 0, 0, 0, 0, 0, 0, 0, 0, 0, 0, 0, 0, 0, 0,
   0, 0, 0, 0, 0, 0, 0, 0, 0, 0, 0, 0, 0]

/-- Scaled by `10^4`, part 0. -/
def neptuneDensPart0 : List ℤ :=
  [947867098774781461, 876000000000000000, 804132901225218539, 683468395099125845,
   757993518378278081, 172557531387761832, 519776356070674590, 652337044329539808,
   -321124533388833823, 800161089225795485, 581280176485651883, -166081795168403019,
   469447004187960191, 275493778416562254, -172222117854209209, 583794693000274580,
   949843345853110889, -1697568076412718135, 1076428959797761650, -40147762778328467,
   204962091315552217, 391499397516119600, 350640318619969382, 353939328004002872,
   306962369364019130, 190131194539920609, 176672852476298433, 140217395554885660,
   94537565304158929, 63392343228478625, 44413061781926573, 33227409643815085, 15565299642813087,
   21487391784932566, 10277133217456648, 15812075345240843, 778565401579979, 2553663048439239,
   5002782404663065, -237592667091499, 1030788263702930, 878439612279780, 274653287177949,
   362947239008423, 289557756788360, 209221733838137, 167155307859091, 226157034725500,
   166616553238911, 160976752318857, 79876437485662, 275517497738494, 16373571560361,
   69628216020062, 46393564359391, 44797526542375, 37216329471111, 36977155573183, 17675048236156,
   60562651482191, 8394345835079, 19619965177494, 14165793454946, 13716861002724, 11366762534159,
   12096088860638, 12008882023287, 6828383046215, 7237585791855, 5981273786365, 6037319062683,
   3229449962902, 7036881085709, 3135025694261, 3679016137248, 3076909756748, 2805344835760,
   2549710900212, 2163811563393, 2403042846216, 464017051745, 2988888946805, 1116427161034,
   1425402409059, 1173963202730, 1054744780021, 1087057677187, 381024511232, 1300844277885,
   559598377229, 660762213198, 565352769978, 485826706891, 539340402459, 102411683275,
   678212864442, 251936858957, 322839699729, 263904342128, 246342931760, 217123930831,
   202761344917, 159830689500, 228315897083, -110694277834, 377661214251, 54449420830,
   124541102430, 95386169452, 77114219763, 119356951497, -79342025749, 152411151501, 48097419746,
   65599169517, 54305902188, 45977221732, 52425210883, 5921934735, 100047050176, 7889864560,
   29193491585, 20296169100, 20181832016, 17536502836, 16232156638, 14494870610, 13148360920,
   12111685710, 10164896242, 12268729323, 18040186467, 3890524810, 6717714293, 5478618019,
   5207813630, 4650127459, 4271676532, 4423166413, 1795657817, 9034202318, 947532909, 3015666046,
   2109802908, 2177122321, 1949707809, 1832046442, 1666106423, 1631527866, 1215782114, 2241343677,
   1770843178, 827283612, 992022373, 868626896, 813470043, 773492934, 700558222, 672274177,
   618345069, 574345548, 540272737, 504563502, 465473256, 465543473, 288352851, 1093045124,
   91466655, 341088258, 248180315, 250190483, 239057752, 209578508, 218628217, 187908624,
   181737285, 165142235, 189693776, 60082662, 484375577, 13615029, 130764305, 92127750, 95924693,
   88173477, 84181399, 79100926, 74614898, 71239481, 67627178, 61451809, 65765588, 37885839,
   123491057, 53749932, 40709214, 40213211, 38437940, 36435028, 34221947]

/-- Scaled by `10^4`, part 1. -/
def neptuneDensPart1 : List ℤ :=
  [33077184, 30269317, 30645547, 27148493, 26360480, 25809586, 24001176, 22185711, 21655979,
   20790372, 19982533, 16879498, 20499477, 9122593, 43810150, 29236807, 14442622, -19807297,
   24000578, 10204983, 11379489, 9437062, 8412263, 7313884, 6492199, 5717320, 5078521, 4508597,
   4007092, 3583036, 3200763, 2873911, 2583594, 2331712, 2069558, 1930057, 1670213, 1589090,
   1393427, 1297203, 1157761, 1091751, 955233, 907318, 815496, 750700, 681706, 662478, 568383,
   543990, 495657, 473382, 430814, 383363, 375735, 333695, 323483, 292374, 277023, 255534, 236841,
   225103, 206748, 195905, 179630, 171573, 160076, 148123, 141431, 132151, 121963, 117995, 108057,
   103778, 94832, 92895, 85589, 80750, 77412, 71602, 68180, 63678, 61107, 57893, 55321, 50824,
   47382, 47649, 44022, 40263, 40925, 36035, 36933, 32232, 32139, 31214, 29006, 26761, 25950,
   25438, 22298, 23371, 22218, 19755, 18760, 19203, 18428, 15084, 17234, 14980, 14647, 14034,
   13219, 12889, 12023, 11618, 11104, 10566, 10231, 9709, 9133, 8958, 8437, 8296, 7578, 7590, 7062,
   6761, 6692, 6071, 6226, 5627, 5465, 5512, 4885, 4947, 4728, 4340, 4313, 4209, 4050, 3589, 3794,
   3435, 3466, 3100, 3335, 2760, 3025, 2539, 3017, 2192, 2613, 2354, 2371, 1963, 2376, 1731, 2099,
   1871, 1816, 1663, 1730, 1617, 1401, 1777, 1090, 1662, 1263, 1088, 1587, 966, 1149, 1159, 1057,
   1034, 987, 958, 940, 863, 888, 806, 807, 765, 754, 718, 694, 646, 681, 589, 624, 573, 562, 540,
   517, 512, 496, 443, 492, 410]

/-- Scaled by `10^4`, part 2. -/
def neptuneDensPart2 : List ℤ :=
  [447, 382, 425, 376, 349, 386, 326, 349, 316, 305, 323, 263, 304, 259, 280, 241, 255, 238, 231,
   216, 223, 210, 197, 203, 190, 176, 185, 166, 173, 161, 142, 172, 132, 141, 143, 127, 130, 133,
   120, 109, 105, 130, 93, 97, 120, 84, 86, 113, 61, 100, 80, 79, 79, 75, 72, 70, 70, 66, 64, 62,
   60, 60, 55, 55, 55, 50, 50, 50, 44, 49, 41, 46, 39, 42, 38, 39, 35, 39, 33, 34, 33, 30, 31, 30,
   29, 27, 29, 23, 29, 22, 26, 22, 24, 22, 22, 22, 17, 23, 16, 19, 20, 14, 20, 15, 17, 14, 17, 13,
   16, 12, 15, 12, 13, 12, 10, 14, 11, 8]

/-- Scaled by `10^4`. -/
def neptuneDens : List ℤ :=
    (neptuneDensPart0 ++ neptuneDensPart1 ++ neptuneDensPart2)

/-- Scaled by `10^2`, part 0. -/
def neptunePresPart0 : List ℤ :=
  [7326219674744493, 6760000000000000, 6193780325255507, 5064878698977971, 5610704878832610,
   956301785691590, 3812087978401030, 4411346300704290, -865473181218190, 4906546424168470,
   3607287484544310, -63696362345709, 2839497964838525, 1905704502991608, 73684023195041,
   3343559404228227, 2608078359892051, -743872843796431, 2388213015293673, 1095820782621739,
   1386103854219371, 1080563800500778, 901240943777518, 712072424389149, 546469358665887,
   379730140947305, 301010077544893, 202309548873122, 144231726962617, 103723543276409,
   73034099931746, 36140056996606, 50725672081831, 22893254676070, 13365309213890, 19477508468371,
   1412656912626, 4031863881125, 7059887562875, 1136585867376, 2313768967620, 2112338262143,
   1188877983808, 1220149802625, 962522805692, 1001758974608, 1121641295878, 439675841882,
   522855336594, 454502811741, 277533416443, 732163522486, 139412493611, 238986503069,
   183841494113, 170447520479, 147168423971, 145678783637, 74116441482, 210655450434, 52861756783,
   84297522434, 65948153482, 59909863637, 56812391968, 44040568489, 56225334075, 33938095210,
   35062285086, 29572764446, 29526657131, 16720607030, 31270914749, 17075733973, 18266149358,
   15699668595, 14215176263, 12879626354, 11066318321, 12215100364, 2233280224, 15571778738,
   5559604822, 7309801973, 6001187286, 5405448882, 5497017186, 1886482375, 6589053316, 2933304363,
   3421729234, 2915778702, 2531155959, 2823597461, 454454197, 3518585753, 1335202793, 1700603076,
   1390384905, 1305857306, 1138185871, 1077399209, 840217292, 1225731621, -631143778, 2042843492,
   283769812, 662077260, 499921147, 458238153, 475126241, 161256884, 727846222, 181758227,
   289920871, 235358289, 203845973, 250057820, -23277252, 579851187, 672502, 144658803, 92692285,
   96572058, 85019482, 79350013, 72780466, 66328124, 62707038, 54843722, 53918073, 115883987,
   15345980, 41132093, 28925649, 30365311, 27213106, 23982265, 28057835, 7786396, 60796582,
   4627275, 18374318, 13315452, 13563875, 12349048, 11679935, 10771214, 10755211, 7167942,
   17933021, 13499974, 4627082, 6631698, 5566125, 5423800, 5138674, 4741506, 4455304, 4317277,
   3955587, 3860376, 3402910, 3407983, 3365158, 1851385, 9629301, 191410, 2565060, 1788350,
   1801538, 1805496, 1536478, 1648593, 1469149, 1354811, 1271608, 1478756, 493366, 3915778, 115522,
   1070136, 763936, 794119, 739587, 711535, 662275, 647364, 612267, 575566, 541470, 594556, 224308,
   1532213, 510839, 312430, 351441, 321807, 305329, 304875]

/-- Scaled by `10^2`, part 1. -/
def neptunePresPart1 : List ℤ :=
  [275172, 274437, 259079, 249248, 231931, 239028, 203958, 217141, 199479, 184943, 188749, 164061,
   187009, 95905, 389372, 290607, 32200, 276592, 78124, 112914, 88221, 86201, 70973, 67906, 59403,
   54483, 48466, 44452, 40126, 36845, 33295, 30377, 28198, 25431, 23678, 21457, 20095, 18163,
   17055, 15619, 14669, 13304, 12516, 11634, 10550, 10366, 9186, 8692, 8248, 7516, 7288, 6533,
   6181, 5942, 5450, 5256, 4725, 4645, 4295, 3974, 3807, 3598, 3402, 3193, 3027, 2699, 2975, 2199,
   2629, 2286, 2026, 2211, 1851, 1844, 1754, 1641, 1584, 1505, 1395, 1373, 1271, 1224, 1155, 1116,
   1041, 1019, 942, 912, 869, 832, 785, 769, 699, 695, 663, 614, 600, 586, 534, 516, 521, 458, 466,
   438, 420, 401, 378, 369, 367, 324, 316, 331, 279, 293, 288, 235, 273, 234, 233, 215, 229, 190,
   210, 168, 198, 182, 155, 159, 168, 128, 158, 139, 126, 138, 104, 131, 109, 110, 104, 103, 94,
   95, 89, 88, 82, 82, 76, 75, 72, 68, 70, 61, 65, 58, 59, 56, 52, 52, 50, 48, 46, 45, 43, 43, 39,
   40, 36, 38, 33, 35, 31, 33, 30, 29, 30, 27, 26, 27, 23, 24, 23, 22, 21, 21, 19, 21, 17, 18, 18,
   17, 16, 14, 17, 15, 14, 14, 12, 14, 11, 14]

/-- Scaled by `10^2`, part 2. -/
def neptunePresPart2 : List ℤ :=
  [10, 13, 9, 12, 9, 13, 7, 11, 8, 9, 8, 8, 8, 7, 8, 7, 7, 7, 6, 6, 6, 6, 6, 6, 5, 5, 5, 5, 5, 5,
   4, 4, 4, 4, 4, 4, 4, 4, 3, 3, 3, 3, 3, 3, 3, 3, 3, 2, 3, 3, 2, 2, 2, 2, 2, 2, 2, 2, 2, 2, 2, 2,
   2, 2, 2, 2, 1, 1, 1, 1, 1, 1, 1, 1, 1, 1, 1, 1, 1, 1, 1, 1, 1, 1, 1, 1, 1, 1, 1, 1, 1, 1, 1, 1,
   1, 1, 1, 1, 1, 1, 1, 0, 1, 0, 0, 0, 0, 0, 0, 0, 0, 0, 0, 0, 0, 0, 0, 0]

/-- Scaled by `10^2`. -/
def neptunePres : List ℤ :=
    (neptunePresPart0 ++ neptunePresPart1 ++ neptunePresPart2)

/-- Scaled by `10^2`, part 0. -/
def neptuneTempPart0 : List ℤ :=
  [0, 0, 0, 0, 1, -3, 0, 0, -3, 1, 1, -3, 0, -1, -4, 2, -4, 16, -6, 4, 7, 2, 3, 2, 0, 4, 4, 0, 1,
   2, 6, -7, 25, 4, 13, -24, 4, 7, -33, 9, -3, -7, 2, 0, -1, 3, 9, -2, 1, -1, 3, -11, 3, -1, 0, 0,
   0, 0, 1, -6, 2, 0, 0, 0, 0, -2, -1, 0, 0, 0, 0, 0, -1, 0, 0, 0, 0, 0, 0, 0, 0, 0, 0, 0, 0, 0, 0,
   0, 0, 0, 0, 0, 0, 0, 0, 0, 0, 0, 0, 0, 0, 0, 0, 0, 0, 0, 0, 0, 0, 1, -3, 10, 0, 0, 0, 0, 0, 0,
   0, 1, 0, 0, 0, 0, 0, 0, 0, 0, 0, 0, -2, 0, 0, 0, 0, 0, 0, 0, 0, 0, -1, 0, 0, 0, 0, 0, 0, 0, 0,
   0, 1, 1, 0, 0, 0, 0, 0, 0, 0, 0, 0, 0, 0, 0, 0, 0, 0, 0, 0, 0, 0, 0, 0, 0, 0, 0, 0, 0, 0, -2, 0,
   0, 0, 0, 0, 0, 0, 0, 0, 0, 0, 0, 0, 2, 0, 0, 0, 0, 0, 0]

/-- Scaled by `10^2`, part 1. -/
def neptuneTempPart1 : List ℤ :=
  [0, 0, 0, 0, 0, 0, 0, 0, 0, 0, 0, 0, 0, 0, -2, -1, -1, 5, -1, 0, 0, 0, 0, 0, 0, 0, 0, 0, 0, 0, 0,
   0, 0, 0, 0, 0, 0, 0, 0, 0, 0, 0, 0, 0, 0, 0, 0, 0, 0, 0, 0, 0, 0, 0, 0, 0, 0, 0, 0, 0, 0, 0, 0,
   0, 0, 0, 0, 0, 0, 0, 0, 0, 0, 0, 0, 0, 0, 0, 0, 0, 0, 0, 0, 0, 0, 0, 0, 0, 0, 0, 0, 0, 0, 0, 0,
   0, 0, 0, 0, 0, 0, 0, 0, 0, 0, 0, 0, 0, 0, 0, 0, 0, 0, 0, 0, 0, 0, 0, 0, 0, 0, 0, 0, 0, 0, 0, 0,
   0, 0, 0, 0, 0, 0, 0, 0, 0, 0, 0, 0, 0, 0, 0, 0, 0, 0, 0, 0, 0, 0, 0, 0, 0, 0, 0, 0, 0, 0, 0, 0,
   0, 0, 0, 0, 0, 0, 0, 0, 0, 0, 0, 0, 0, 0, 0, 0, 0, 0, 0, 0, 0, 0, 0, 0, 0, 0, 0, 0, 0, 0, 0, 0,
   0, 0, 0, 0, 0, 0, 0, 0, 0]

/-- Scaled by `10^2`, part 2. -/
def neptuneTempPart2 : List ℤ :=
  [0, 0, 0, 0, 0, 0, 0, 0, 0, 0, 0, 0, 0, 0, 0, 0, 0, 0, 0, 0, 0, 0, 0, 0, 0, 0, 0, 0, 0, 0, 0, 0,
   0, 0, 0, 0, 0, 0, 0, 0, 0, 0, 0, 0, 0, 0, 0, 0, 0, 0, 0, 0, 0, 0, 0, 0, 0, 0, 0, 0, 0, 0, 0, 0,
   0, 0, 0, 0, 0, 0, 0, 0, 0, 0, 0, 0, 0, 0, 0, 0, 0, 0, 0, 0, 0, 0, 0, 0, 0, 0, 0, 0, 0, 0, 0, 0,
   0, 0, 0, 0, 0, 0, 0, 0, 0, 0, 0, 0, 0, 0, 0, 0, 0, 0, 0, 0, 0, 0]

/-- Scaled by `10^2`. -/
def neptuneTemp : List ℤ :=
    (neptuneTempPart0 ++ neptuneTempPart1 ++ neptuneTempPart2)

/-- Scaled by `10^0`, part 0. -/
def uranusGramDensPart0 : List ℤ :=
  [-6399263352421, 0, 6399263352421, 34402946590315, -84011049713682, 61641252264414,
   -42553959343974, 48574585111482, -31744381101954, 18402939296334, 18132623916618,
   -30933434962805, 45601115934601, -31471028775599, 20282999167796, 10339032104415,
   -1639127585457, -3782521762588, 16769214635810, -3294336780653, -3591867513198, 17661806833444,
   -7055359820580, 10559632448874, -35183169974918, 10173047450797, -5509019828271, 11863031862286,
   18056892379127, -24090601378794, 18305513136051, 10868548834592, -1779708474418, -3749714936921,
   16778568222103, -3364557951490, -3320336416143, 16645903616063, -3263278048110, -3592791423623,
   17634443742601, -6944983546781, 10145490444521, -33636978231305, 4402422480698, 16027288308514,
   -8511575714755, 18019014550507, -3564482487273, -3761084601414, 18608820892929, -10674198970300,
   24087974988273, -25677700982791, 18622828942892, 11186385211222, -3368369787782, 2287093939906,
   -5780005971840, 20832929947456, -17551713817982, -10626074675527, 56012520089, 10402024595169,
   18335889099234, -23745580992106, 16646434869190, 17159841515348, -25285800930580,
   23983362206972, -10647647897308, 18607229382261, -3781269631737, -3482150855314, 17709873052994,
   -7357341356660, 11719492373646, -39520628137925, 26363020178053, -5931452574289, -2637209880898,
   16480292097882, -3283958510631, -3344458055358, 16661790732064, -3302704872897, -3450971240476,
   17106589834800, -4975388098724, 2794962560096, -6204462141660, 22022886006545, -21887081884520,
   5525441531534, -214684241618, -4666704565064, 18881502501873, -10859305442428, 24555719267841,
   -27363571628935, 24898567247898, -12230697362657, 24024222202730, -23866191448264,
   11440543590327, -21895982913045, 16143388061853, 17322430665634, -25433110724388,
   24410012231917, -12206938203282, 24417740581210, -25464024121557, 17438355905017,
   15710600501490, -20280757910978, 5412431142421, -1368966658705, 63435492400, 1115224689104,
   -4524334248817, 16982112306165, -3404114975842, -3365652402796, 16866724587028, -4101245945314,
   -461740805771, 5948209168400, -23331095867828, 27376174302911, -26173601343815, 17318231072349,
   16900677054418, -24920939290022, 22783080105670, -6211381132659, 2062444424966, -2038396567206,
   6091141843856, -22326170808219, 23213541389021, -10527994747866, 18898437602444, -5065755661909,
   1364585045192, -392584518859, 205753030246, -430427602123, 1515957378245, -5633401910858,
   9017650265188, -437199149895, 4731146334393, -487386187677, 9218398416317, -18386207477589,
   4326431494038, 1080481501437, 3351642500213, 3512948497712, 596563508939, 6100797466531,
   -999753375064, 3898216033726, 9406889240161, -35525772994370, 12696202737320, 2740962045090,
   6339949082319, 1899241625634, 4063084415145, 5848420713786, 2543232729710, 1978648367373,
   13542173800798, -32147343570566, 13047200481467, -2041458355302, 7118632939742, -2433073403665,
   14613660674920, -2021569296013, 5472616509133, -1868896740520, 14002970452947, -42142985071266,
   16568969832119, -132894257209, 1962607196716, 10282465470346, -25092469078100, 12087410842055,
   742825709879, 2941286318427, 5492029016412, -909402384075, 4145580519887, 2327080304526,
   4546098262008, 3488526647443]

/-- Scaled by `10^0`, part 1. -/
def uranusGramDensPart1 : List ℤ :=
  [-500204851780, 4512292759677, 451033813072, 5683571988036, 814678234784, -2942284927171,
   4954461473900, 1124439031571, 2547782399815, 6684431369170, -17285507876493, 8457600136804,
   1455107329279, 3721970546080, 1657010486399, -4350012491677, 3743039480308, 1377854570444,
   2745542237915, 5639976477897, -13305448149501, 5581816120107, 2978183669074, 505449203599,
   7000019516532, -10505527269726, 5022089562372, 2417169020237, 3309234356680, 2345893553045,
   -6692808568858, 6425340722388, -1008554320694, 3608876560386, 4573048079148, -3901068876979,
   5031227428767, 1776159161909, -135864076405, 4767297143710, -933324498435, 2566000850030,
   1469321098314, 1756714756715, 2303819874825, -1371994256015, 2584157149234, 1235365659080,
   1474380214445, 1867113483139, -542834147002, 2104223104870, 1125941727522, 1192009985040,
   1306018332317, 183916685693, 1558314924913, 782823614655, 1310390616466, 575613919480,
   1787153705615, 675771258059, 909761262150, 485183693340, 1349503964491, -483199551304,
   1183294240725, 550022588404, 816615405660, 383515788956, 649321438515, 619198456982,
   473884733555, 485262608796, 585064831259, 774478066166, 517022904075, 157430317532,
   653255825797, 229546379280, 228558657081, 56218992394, 746565373344, -42480485770, 623356569735,
   -50945793170, 180426602945, 529239381390, 102615871494, 260297132635, 416195597966,
   174920475501, 264122500032, 88589524373, 581519402477, -1214667134280, 677149134644,
   126070595703, 438568482542, -440344525873, 2702809620949, -650893957924, 260766210746,
   -32170885060, 167917329494, -279498432917, 170076402173, 19192824224, 53152300930, 128197972057,
   -265944189156, 155578784567, 63629050887, 9905011886, 136750901570, -136908618167, 110883571099,
   53374333770, 35619093822, 104149290943, -92216257593, 84715739428, 53353299881, 61871061047,
   -837544069, 241479115229, -5078916848, 18836552162, 49732708200, 22232615038, 41336831649,
   52420058366, -11017065113, 51648202088, -15575743238, 130654770863, -27043340216, 37518590000,
   -3031019783, 34605489131, -15390936740, 26958257829, 27557905425, -17189879530, 41201612693,
   -27616571243, 9264672278, 14557882132, 28503799193, -44573078903, 227788516419, -56580986775,
   22535430679, -3560735941, 15707513083, -35269316393, 17369752489, 1790306436, 5469021765,
   6333606502, -803447774, 8880184595, 1282709393, 3988977834, 18761379272, -61034494920,
   27376600409, -471906717, 4511026459, 24427800881, -66222229981, 30461119045, 4377753800,
   6027865754, 19510783182, -36070998483, 22773210750, 4978155482, 11314167322, 3765175229,
   21625131763, -265702280, 9437677355, 4514992858, 2502351213, 15475602292, 1595239621,
   2143439223, 7831003486, -3467453167, 18038809184, -2687783567, 4712325084, 1838483232,
   -66258013, 10426548820, 360062733, 133200248, 5107136276, -2561745351]

/-- Scaled by `10^0`, part 2. -/
def uranusGramDensPart2 : List ℤ :=
  [5139845129, 2364835, 850695531, 2594853039, 769892311, 325577717, 15927796821, -4036765002,
   219263188, 3159712249, -858112184, 272736488, -232833769, 6658598590, -2401560589, 2947643765,
   -3389014471, 4608414118, -3044642002, 1570153891, 2764026438, -626259643, -258987868,
   1662211113, -389856583, -102784779, 800995699, 498801983, 1403796370, -113987463, 252153482,
   305373534, 326352382, 189216938, 116779865, 543663600, 108565733, 222073467, 203140401,
   165364931, 335399874, 293035573, -307542166, 337133089, 159009809, 226827676, 133679486,
   438454379, -87497001, 511533627, 441362493, 123016400, 266571908, 10695967, 290644223, 26727141,
   202447215, -236515999, 143616783, 262048868, 8187746, 305200150, -28988345, 410753231,
   185975423, 45345079, 232644263, 224077870, 71044257, 91745102, 161975335, -139646443,
   -203389565, 353204701, -9429239, 284512254, 71380223, 29966855, 408752356, 135023720, 251152765,
   60365221, 107386351, 110089377, 52256143, 280886050, -575800344, 222315325, 286539042,
   -168471495, 387346938, -180916255, 336318084, 35643920, 121106237, 79931133, 159169231,
   -116608056, 307262994, 87556079, -57487309, 142393156, 87914684, 105948108, 88292882, 140880362,
   -51814332, 66376966, -213693532, 188397163, 60104882, 171183311, -144838124, 408169185,
   -287838616, 743185280, -284902504, 396424734, -100796433, 6760999, 73752437, 298229252,
   -666669446, -31551469, 192875322, -139949820, 366923959, -127746016, 144060107, 151505590,
   449917535, -151175728, 154785377, 132034219, -82922255, 199654801, -115696947, -336867011,
   263164992, -115792956, 200006834, -84234379, 136930684, 136511644, -82977258, 195397390,
   -98612300, 199051811, -97594943, 191327960, -67716897, 79539629, 109558380, 22226852, 41534214,
   51636293, 51920615, 40681246, 25354399, 337901156, -56959024, 69934940, 17219264, 41188005,
   -61971283, 446697126, -1604817223, 332571766, 34530161, 69307592, 108239473, 37734518,
   100822455, 38975663, 103274892, 27924770, 85026029, 51971116, 67089509, 39670849, 74227094,
   23420774, 72089811, 48219983, 35030257, 51658987, 58333794, 15005838, 61642854, 38422745,
   24666166, 42912592, 43683465, 22353546, 46902350, 30037054, 12949435, 38165205, 74389744,
   -155724180]

/-- Scaled by `10^0`, part 3. -/
def uranusGramDensPart3 : List ℤ :=
  [728506976, -178303725, 44707924, -527970, 17403957, -9087857, 18947472, -6702030, 7860649,
   35259433, -88898381, 20334090, 7562021, 9417826, 14766676, -8484529, 19171440, -8201232,
   13633488, 13667281, -8302611, 19543165, -9870047, 19937023, -9878047, 19575164, -8422609,
   14115270, 11961527, -1961380, -4116007, 18425407, -9585622, 19917082, -10082704, 20413735,
   -11572234, 25875202, -31928576, 41839100, -15427826, 19872202, -4060982, -3628275, 18574083,
   -10668058, 24098147, -25724532, 18799980, 10524611, -6898425, 5069088, 4622072, 442625, 5607428,
   1127664, 1881915, 9344676, -27260618, 117697795, -425530563, 138424458, -14167268, 26244616,
   11188805, 19000162, 14810545, 5757658, 40158822, -82392947, 361412965, -97258911, 27622681,
   -7231814, 1304573, 2013520, -3358654, 5421095, -6325726, 13881810, -43201513, 14924243,
   -4495459, 3057592, -1734908, 3882042, -1793260, 3290997, -11370730, 54191921, -205396953,
   65395893, -8186618, 9350578, 6784305, 5512202, 7166886, 1820252, 15552105, -28028671, 126562580,
   -34221650, 10324021, -1074435, -26281, 1179558, 1308048, -411749, 338950, -944050, 9437250,
   -804952, -217444, 1674727, -481463, 251124, -523033, 1841008, -840999, 1522989, -5250957,
   1480839, -672399, 1208756, 1837374, -2558251, 2395631, -1024272, 1701458, 218439, -2575214,
   -1917584, 4245550, -3064616, 2012912, 1012966, -64778, -753856, 3080202, -5566954, 19187612,
   -5183496, 1546371, -1001990, 2461587, -2844359, 2915848, -2819032, 2360279, -622083, 128053,
   109873, -567543, 2160299, -2073655, 134320, 1536376, -279825, -417075, 1948127, -13375433,
   3553606, -838990, -197645, 1629569, -320631, -347046, 1708814, -488209, 244024, -487885,
   1707516, -342179, -338800, 1697377, -450709, 105460, 28870, -220938, 854883, 2801405, -60503,
   -2559392, 4298073, -2632898, 233519, 1698822, -1028806, 616404, -236810, 2130835, -486532,
   415291, 25368, 83238, 241680, 150040, -241842, 817327, -1827468]

/-- Scaled by `10^0`, part 4. -/
def uranusGramDensPart4 : List ℤ :=
  [7092543, -1942705, 678277, -170405, 3341, 157042, -31507, -31012, 155557, 8784, -190692, 153986,
   174749, -252980, 237172, -95707, 145657, 113080, -597978, 2278832, -7917350, 2390568, -444922,
   -10881, 488446, -142903, 83165, 410244, -524139, 1686313, -5021113, 1598140, -171448, 287653,
   220838, 28996, 263177, 118297, 463637, -772843, 3227736, -738099, 324662, 39453, 117528, 90435,
   120732, 26637, 372722, -917524, 3897372, -871966, 190490, 110005, -30512, 12042, -17656, 58583,
   383324, -991881, 2984198, -744913, -4546, 163098, -47845, 28283, -65286, 232863, -266164,
   231793, -61009, 12244, 12032, -60371, 229451, -257435, 200288, 56283, -425421, 1645400,
   -6156181, 1979323, -561112, 265125, 100613, -67577, 169695, -11204, 475122, -1289285, 4682019,
   -1238792, 273149, 146196, -257933, 285537, -284213, 251316, -121052, 232893, -810520, 9187,
   173772, -104275, 243329, -269042, 232838, -62309, 16398, -3284, -3262, 16331, -62063, 231922,
   -265623, 230571, -56662, -3922, 72350, -285477, 1669559, -392759, -98524, 186856, -48898, 8736,
   13953, -64547, 244234, -312388, 405318, -108883, 30213, -11969, 17664, -58688, 217087, -209659,
   21550, 123460, -515390, 138100, -37011, 9944, -2764, 1111, -1679, 5605, -20741, 77359, -288696,
   -122574, 178991, 6608, -205424, 215087, -54924, 4608, 36492, -150574, 1165806, -312650, 84795,
   -26531, 21329, -58787, 213817, -196482, -27891, 308045, -1204290, 309114, -32165, -180454,
   153982, 164526, -212087, 83821, -123197, 408969, -912677, 241738, -54276, -24635, 152816, 13371,
   -206300, 211828, -41013, -47777, 232119, -280701, 290685, -282039, 237472, -67850, 33927,
   -67857, 237499, -282141]

/-- Scaled by `10^0`, part 5. -/
def uranusGramDensPart5 : List ℤ :=
  [291066, -282123, 237424, -67574, 32871, -63912, 222777, -227195, 86004, -116822, 981284,
   -208315, -148024, 200411, -53620, 14070, -2658, -3437, 16405, -62185, 232334, -267152, 236274,
   -77945, 75506, -224079, 220811, -59166, 15854, -4248, 1138, -305, 82, -23, 12, -23, 82, -305,
   1138, -4246, 15847, -59143, 220724, -223753, 74287, -73394, 219288, -203760, -4248, 220751,
   -278758, 294281, -298366, 299183, -298366, 294281, -278758, 220751, -4248, -203760, 219288,
   -73394, 74287, -223753, 220724, -59143, 15847, -4246, 1138, -305, 82, -25, 17, -42, 152, -564,
   2105, -7854, 29312, -109393, 408262, -323653, 286351, -221751, 654, 219137, -277201, 289666,
   -281465, 236193, -63308, 17038, -4846, 2344, -4529, 15773, -58564, 218484, -215370, 42997,
   43381, -216521, 222704, -74294, 74474, -223601, 219930, -56120, 4551, 37915, -156213, -13065,
   208473, -220827, 74835, -78513, 239217, -278356, 274208, -218476, -305, 219697, -278483, 294234,
   -298455, 299584, -299881, 299941, -299883, 299591, -298482, 294338, -278869, 221140, -5690,
   -198381, 199215, 1523, -205305, 219697, -73483, 74235, -223457, 219594, -54918, 80, 54599,
   -218477, 219310, -58764, 15746, -4219, 1132, -309, 103, -103, 309, -1134, 4225, -15768, 58845,
   -219614, 219611, -58829, 15704, -3986, 241, 3021, -12325, 46280, -172794, 44898, -6797, -17711,
   77640, -52849, 13755, -2170, -5076, 22475, -24825, 16824, 17528, -26935, 30211, -33911, 45433,
   -27820, 5848, 4429, 36438, -30179, 24280, -6939, 3477, -6970, 24401, -30634, 38137, -61913]

/-- Scaled by `10^0`, part 6. -/
def uranusGramDensPart6 : List ℤ :=
  [209513, -56141, 15051, -4063, 1200, -736, 1744, -6239, 23211, -26604, 23206, -6220, 1675, -478,
   239, -478, 1675, -6220, 23206, -26603, 23206, -6220, 1675, -479, 241, -487, 1705, -6333, 23628,
   -28179, 29088, -28171, 23598, -6219, 1280, 1100, -5682, 21626, -20822, 1664, 14167, 1667,
   -20833, 21667, -5836, 1677, -871, 1808, -6361, 23636, -28181, 29090, -28180, 23628, -6333, 1705,
   -487, 244, -487, 1705, -6333, 23628, -28179, 29090, -28179, 23628, -6333, 1705, -487, 244, -487,
   1705, -6331, 23620, -28149, 28977, -27759, 22059, -476, -20154, 21093, -4219, -4219, 21093,
   -20154, -476, 22059, -27759, 28977, -28149, 23619, -6328, 1692, -441, 72, 153, -684, 2583,
   -9647, 36003, -74367, 21466, -11495, 24515, -26563, 21738, -390, -20177, 21099, -4220, -4221,
   21103, -20193, -333, 21524, -25762, 21524, -333, -20193, 21103, -4221, -4221, 21103, -20193,
   -333, 21524, -25762, 21524, -333, -20193, 21104, -4221, -4218, 21093, -20154, -476, 22059,
   -27759, 28978, -28151, 23627, -6359, 1807, -868, 1666, -5798, 21524, -20298, -333, 21628,
   -26180, 23092, -6187, 1656, -435, 86, 90, -446, 1694, -6330, 23627, -28179, 29090, -28179,
   23627, -6330, 1694, -446, 89, 89, -446, 1693, -6328, 23619, -28149, 28976, -27756, 22049, -438,
   -20296, 21621, -6188, 3129, -6330, 22191, -22435, 7550, -7766, 23515, -26293, 21659, -342,
   -20293, 21512, -5756, 1512, -292, -344, 1669, -6331]

/-- Scaled by `10^0`, part 7. -/
def uranusGramDensPart7 : List ℤ :=
  [23656, -28293, 29514, -29764, 29543, -28408, 24089, -7946, 7697, -22841, 23668, -11832, 23658,
   -22800, 7543, -7372, 21945, -20409, -310, 21650, -26291, 23514, -7763, 7540, -22398, 22051,
   -5805, 1171, 1122, -5659, 21514, -20398, 79, 20082, -20407, 1545, 14228, 1545, -20406, 20081,
   82, -20409, 21553, -5803, 1658, -828, 1655, -5792, 21514, -20265, -454, 22080, -27868, 29391,
   -29695, 29391, -27868, 22081, -455, -20262, 21504, -5755, 1514, -303, -304, 1517, -5766, 21545,
   -20416, 119, 19941, -19881, -416, 21545, -25766, 21517, -303, -20303, 21517, -5766, 1545, -414,
   111, -32, 16, -32, 111, -414, 1545, -5766, 21517, -20304, -303, 21516, -25759, 21522, -327,
   -20214, 21184, -4522, -3096, 16907, -4532, 1222, -356, 201, -448, 1591, -5916, 22073, -22375,
   7429, -7339, 21929, -20376, -424, 22072, -27866, 29390, -29695, 29390, -27866, 22072, -424,
   -20376, 21929, -7339, 7429, -22375, 22072, -5914, 1585, -424, 112, -22, -22, 112, -424, 1585,
   -5914, 22072, -22375, 7429, -7339, 21929, -20376, -424, 22072, -27866, 29390, -29696, 29393,
   -27876, 22111, -568, -19841, 19930, 121, -20415, 21540, -5744, 1434, 6, -1458, 5824, -21840,
   21537, -4307, -4310, 21547, -21879, 5968, -1993, 2005, -6027, 22103, -22383, 7431, -7340, 21929,
   -20376, -424, 22072, -27866, 29390, -29696, 29393, -27876, 22111, -568, -19838, 19921, 153,
   -20532, 21975, -7366, 7491, -22598, 22902, -9011]

/-- Scaled by `10^0`, part 8. -/
def uranusGramDensPart8 : List ℤ :=
  [13142, 16444, -18917, -777, 22026, -27328, 27285, -21811, -40, 21972, -27849, 29424, -29846,
   29958, -29988, 29994, -29988, 29959, -29848, 29434, -27887, 22114, -569, -19838, 19921, 152,
   -20531, 21972, -7359, 7462, -22489, 22495, -7491, 7469, -22386, 22075, -5913, 1577, -394, 1,
   392, -1569, 5882, -21960, 21959, -5876, 1546, -309, -309, 1546, -5877, 21960, -21963, 5893,
   -1607, 536, -535, 1605, -5885, 21933, -21848, 5460, 8, -5492, 21959, -22346, 7424, -7348, 21970,
   -20530, 151, 19924, -19849, -528, 21959, -27310, 27280, -21810, -41, 21972, -27849, 29423,
   -29845, 29956, -29978, 29956, -29845, 29423, -27849, 21972, -41, -21810, 27279, -27308, 21953,
   -503, -19941, 20266, -1123, -15776, 4225, -1125, 273, 32, -401, 1571, -5883, 21962, -21964,
   5893, -1607, 536, -538, 1615, -5922, 22075, -22377, 7432, -7350, 21969, -20528, 141, 19963,
   -19993, 8, 19960, -19848, -566, 22113, -27887, 29434, -29848, 29959, -29988, 29994, -29988,
   29958, -29846, 29424, -27849, 21972, -41, -21809, 27277, -27299, 21921, -383, -20387, 21931,
   -7338, 7421, -22345, 21959, -5492, 8, 5460, -21848, 21930, -5874, 1566, -392, 0, 392, -1569,
   5882, -21960, 21959, -5876, 1546, -309, -309, 1546, -5876, 21959, -21960, 5882, -1569, 392, 0,
   -392, 1567, -5874, 21931, -21850, 5470, -30, -5348, 21424, -20346, -38, 20498, -21953, 7316,
   -7309, 21922, -20377, -415, 22035, -27725, 28865]

/-- Scaled by `10^0`, part 9. -/
def uranusGramDensPart9 : List ℤ :=
  [-27734, 22073, -558, -19841, 19922, 152, -20530, 21970, -7348, 7424, -22346, 21959, -5492, 8,
   5461, -21851, 21945, -5928, 1765, -1134, 2770, -9947, 7018, -126, -514, 2184, -2221, 700, -579,
   1617, 113, -2069, 2163, -583, 167, -87, 181, -636, 2364, -2818, 2909, -2818, 2363, -632, 166,
   -33, -33, 166, -632, 2363, -2819, 2913, -2832, 2416, -833, 917, -2833, 4417, -2833, 917, -833,
   2416, -2832, 2913, -2819, 2363, -632, 166, -33, -33, 166, -632, 2363, -2818, 2909, -2818, 2363,
   -633, 169, -45, 9, 9, -45, 169, -633, 2363, -2818, 2909, -2818, 2363, -632, 167, -35, -29, 149,
   -566, 2115, -1893, -543, 4065, -9715, 4796, -3470, 3084, -2868, 2386, -678, 326, -626, 2178,
   -2086, 167, 1417, 166, -2082, 2163, -568, 110, 128, -622, 2360, -2817, 2909, -2818, 2364, -636,
   181, -87, 167, -583, 2163, -2069, 113, 1617, -582, 713, -2268, 2359, -1167, 2309, -2069, -33,
   2202, -2775, 2897, -2815, 2363, -636, 181, -87, 168, -584, 2167, -2083, 167, 1417, 166, -2082,
   2163, -569, 114, 113, -565, 2149, -2029, -34, 2163, -2618, 2309, -619, 166, -44, 9, 9, -45, 169,
   -633, 2363, -2818, 2909, -2818, 2363, -633, 170, -48, 23, -45, 156, -581, 2166, -2083, 167,
   1417, 166, -2081, 2156, -545, 22, 456, -1845]

/-- Scaled by `10^0`, part 10. -/
def uranusGramDensPart10 : List ℤ :=
  [6925, -1855, 494, -122, -6, 145, -575, 2154, -2040, 8, 2008, -2042, 158, 1408, 208, -2241, 2754,
   -2776, 2352, -630, 169, -45, 12, -3, 2, -3, 11, -41, 154, -576, 2151, -2026, -45, 2208, -2787,
   2940, -2973, 2953, -2840, 2408, -792, 758, -2242, 2208, -592, 159, -46, 23, -46, 159, -592,
   2207, -2238, 743, -734, 2194, -2042, -27, 2151, -2576, 2154, -42, -1988, 1994, 12, -2042, 2155,
   -577, 155, -41, 11, -3, 1, 1, -3, 11, -41, 154, -576, 2151, -2026, -45, 2208, -2787, 2939,
   -2970, 2939, -2787, 2207, -42, -2038, 2193, -734, 743, -2238, 2207, -592, 162, -54, 54, -161,
   589, -2196, 2196, -588, 158, -42, 11, -3, 1, 1, -3, 11, -41, 154, -576, 2151, -2026, -46, 2208,
   -2788, 2943, -2984, 2992, -2984, 2943, -2788, 2208, -45, -2027, 2154, -588, 196, -198, 597,
   -2188, 2155, -431, -431, 2155, -2188, 597, -198, 197, -589, 2158, -2042, 12, 1994, -1988, -41,
   2154, -2574, 2140, 12, -2189, 2743, -2784, 2393, -788, 757, -2241, 2208, -592, 159, -42, 11, -3,
   1, 1, -3, 11, -42, 158, -591, 2207, -2238, 743, -734, 2193, -2038, -42, 2207, -2787, 2939,
   -2970, 2939, -2788, 2211, -57, -1984, 1993, 12, -2042, 2154, -575, 146, -7, -116, 472]

/-- Scaled by `10^0`, part 11. -/
def uranusGramDensPart11 : List ℤ :=
  [-1773, 618, -701, 2184, -2035, -43, 2208, -2788, 2943, -2984, 2992, -2984, 2943, -2788, 2209,
   -46, -2023, 2139, -534, -3, 547, -2185, 2193, -588, 158, -45, 23, -45, 158, -588, 2193, -2185,
   547, -3, -534, 2140, -2024, -42, 2194, -2734, 2743, -2239, 211, 1394, 211, -2239, 2743, -2734,
   2193, -39, -2039, 2193, -734, 743, -2238, 2207, -591, 158, -42, 11, -3, 2, -3, 11, -42, 157,
   -588, 2193, -2185, 547, -3, -534, 2139, -2023, -46, 2209, -2788, 2943, -2985, 2996, -2998, 2996,
   -2985, 2943, -2789, 2211, -57, -1984, 1993, 11, -2039, 2143, -535, -3, 547, -2185, 2194, -591,
   169, -85, 170, -595, 2208, -2239, 747, -749, 2251, -2253, 760, -788, 2393, -2784, 2742, -2185,
   -2, 2193, -2769, 2885, -2769, 2193, -3, -2181, 2728, -2730, 2192, -38, -2039, 2193, -734, 743,
   -2238, 2210, -603, 201, -200, 600, -2199, 2197, -589, 158, -41, 8, 8, -41, 157, -588, 2196,
   -2195, 585, -146, 0, 147, -588, 2206, -2237, 743, -734, 2193, -2039, -38, 2192, -2730, 2728,
   -2181, -4, 2197, -2785, 2942, -2983, 2992, -2984, 2943, -2789, 2211, -57, -1985, 1996, 1, -1999,
   1996, 14, -2053, 2197, -735, 743, -2237, 2206, -588, 147, 0, -146, 585, -2195, 2196, -588, 155,
   -33, -22, 121, -463]

/-- Scaled by `10^0`, part 12. -/
def uranusGramDensPart12 : List ℤ :=
  [1732, -464, 124, -33, 9, -2, 1, 0, 0, 0, 0, 0, 0, 0, 0, 0, 0, 0, 1, -3, 11, -42, 158, -589,
   2197, -2199, 600, -200, 200, -599, 2196, -2186, 547, -3, -535, 2142, -2035, -4, 2050, -2195,
   732, -732, 2196, -2053, 15, 1992, -1985, -53, 2196, -2731, 2728, -2181, -4, 2197, -2785, 2942,
   -2985, 2996, -2999, 3000, -3000, 3000, -3000, 3000, -2999, 2996, -2985, 2942, -2785, 2197, -4,
   -2181, 2728, -2731, 2196, -52, -1986, 1996, 1, -1999, 1996, 14, -2053, 2197, -736, 746, -2249,
   2250, -750, 750, -2250, 2250, -749, 747, -2239, 2208, -592, 158, -42, 11, -3, 1, 0, 0, 0, 0, 0,
   0, 0, 0, 1, -3, 11, -42, 158, -588, 2196, -2195, 585, -146, 0, 146, -585, 2192, -2185, 546, 0,
   -545, 2182, -2182, 546, -3, -535, 2142, -2035, -4, 2050, -2195, 732, -732, 2196, -2053, 14,
   1996, -1999, 0, 2000, -2000, 0, 2000, -2000, 1, 1996, -1986, -53, 2197, -2734, 2739, -2221, 145,
   1639, -1302, 568, -371, 315, -289, 242, -79, 76, -223, 217, -43, -43, 217, -223, 75, -79, 240,
   -283, 290, -278, 221, -4, -203, 215, -58, 15, -3, -3, 15, -58, 215, -203, -4, 220, -277, 289,
   -277, 221, -6]

/-- Scaled by `10^0`, part 13. -/
def uranusGramDensPart13 : List ℤ :=
  [-198, 199, 1, -204, 216, -58, 17, -8, 17, -59, 221, -224, 76, -79, 241, -283, 292, -283, 241,
   -79, 76, -224, 221, -58, 12, 11, -57, 215, -204, 1, 199, -199, -5, 217, -263, 235, -78, 75,
   -224, 221, -59, 16, -3, -3, 15, -58, 215, -203, -5, 221, -279, 294, -297, 295, -284, 241, -79,
   76, -224, 222, -63, 32, -63, 222, -224, 74, -73, 219, -204, -3, 215, -258, 215, -3, -204, 219,
   -73, 74, -224, 222, -63, 32, -63, 222, -224, 74, -73, 219, -204, -3, 215, -258, 215, -4, -199,
   200, -3, -190, 162, 143, -735, 397, -251, 9, 217, -277, 290, -281, 236, -63, 17, -5, 1, -1, 1,
   -5, 17, -63, 237, -283, 295, -298, 295, -283, 237, -63, 17, -4, 1, 1, -4, 16, -58, 217, -208,
   17, 142, 16, -204, 201, 1, -204, 216, -58, 17, -8, 17, -58, 216, -204, 1, 201, -204, 16, 142,
   17, -208, 217, -58, 16, -4, 1, -1, 1, -4, 15, -58, 215, -203, -4, 221, -278, 290, -281, 235,
   -59, 1, 54, -217, 215, -43, -43, 217, -223, 74, -73, 219, -204, -3, 215, -258, 215, -3, -204,
   219, -74, 75, -225, 225, -76]

/-- Scaled by `10^0`, part 14. -/
def uranusGramDensPart14 : List ℤ :=
  [79, -239, 278, -275, 220, -4, -203, 215, -58, 15, -4, 1, -1, 1, -4, 15, -58, 215, -203, -4, 221,
   -278, 290, -283, 240, -79, 76, -224, 221, -59, 16, -5, 2, -4, 16, -58, 215, -203, -5, 221, -279,
   294, -297, 294, -279, 221, -5, -203, 215, -58, 15, -4, 1, -1, 1, -4, 15, -58, 215, -203, -5,
   221, -279, 294, -297, 294, -279, 221, -5, -203, 215, -58, 15, -4, 1, 0, 0, 1, -4, 15, -58, 215,
   -203, -5, 221, -279, 294, -298, 299, -299, 295, -283, 235, -59, 1, 53, -215, 206, -9, -170, 689,
   -185, 49, -13, 4, -1, 0, 0, 0, 0, 0, 1, -4, 16, -59, 219, -218, 55, 0, -55, 220, -223, 74, -73,
   219, -204, -4, 219, -273, 273, -218, 0, 220, -278, 294, -298, 299, -298, 294, -279, 221, -6,
   -198, 200, 0, -200, 200, 0, -200, 200, 1, -204, 214, -54, 0, 55, -219, 219, -59, 16, -4, 1, 0,
   0, 0, 0, 0, 0, 0, 0, 0, 0, 0, 1, -4, 16, -59, 219, -218, 55, 0, -55, 220, -223, 74, -73, 220,
   -205, 2, 199, -198, -5, 220, -273, 273, -218, 1, 215, -262, 232]

/-- Scaled by `10^0`, part 15. -/
def uranusGramDensPart15 : List ℤ :=
  [-66, 32, -64, 222, -224, 75, -75, 225, -225, 75, -74, 220, -205, 1, 200, -200, 0, 200, -199, -5,
   220, -273, 273, -218, 0, 220, -278, 294, -298, 300, -300, 300, -300, 300, -298, 294, -278, 220,
   0, -218, 273, -273, 220, -5, -198, 199, 2, -205, 220, -73, 73, -220, 205, 0, -203, 214, -53, 0,
   55, -219, 220, -60, 20, -20, 60, -220, 220, -59, 16, -4, 1, 0, 0, 0, 0, 0, 0, 0, 0, 0, 0, 0, 0,
   0, 0, 0, 0, 1, -4, 16, -59, 220, -220, 60, -20, 20, -60, 220, -220, 59, -17, 8, -17, 59, -220,
   220, -59, 16, -4, 1, 0, 0, 0, 0, 1, -4, 16, -59, 220, -220, 59, -16, 4, 0, -4, 16, -59, 219,
   -218, 55, 0, -55, 220, -224, 75, -75, 225, -225, 75, -74, 220, -205, 2, 199, -198, -5, 220,
   -273, 273, -218, 0, 218, -273, 273, -218, 0, 220, -278, 294, -298, 300, -300, 300, -298, 294,
   -278, 220, 0, -220, 278, -293, 293, -278, 221, -6, -198, 200, 0, -200, 200, 0, -200, 200, 1,
   -205, 220, -73, 74, -223, 220, -55, 0, 55, -218, 218, -54, -3, 65, -256, 358]

/-- Scaled by `10^0`, part 16. -/
def uranusGramDensPart16 : List ℤ :=
  [-578, 154, -37, -5, 56, -219, 219, -59, 17, -8, 17, -59, 220, -220, 60, -20, 20, -59, 216, -204,
   1, 199, -198, -6, 221, -279, 294, -298, 300, -300, 300, -298, 294, -279, 221, -4, -204, 219,
   -73, 74, -224, 221, -60, 20, -20, 60, -220, 220, -59, 15, -3, -3, 15, -59, 220, -220, 60, -20,
   20, -60, 221, -224, 74, -74, 220, -205, 2, 199, -198, -6, 221, -279, 294, -298, 299, -298, 294,
   -279, 221, -6, -198, 200, 0, -200, 200, 1, -204, 214, -54, 0, 55, -219, 219, -59, 16, -4, 2, -2,
   8, -30, 111, 184, -249, 212, 2, -220, 278, -293, 293, -278, 221, -6, -198, 200, 0, -200, 200, 0,
   -200, 200, 0, -200, 200, 1, -205, 220, -74, 75, -225, 225, -75, 75, -224, 221, -60, 20, -20, 60,
   -220, 220, -59, 15, 0, -15, 59, -220, 220, -59, 16, -4, 1, 0, 0, 0, 0, 0, 0, 0, 0, 0, 0, 0, 0,
   0, 0, 0, 0, 0, 1, -4, 16, -59, 220, -220, 59, -16, 5, -5, 16, -59, 219, -218, 55, 0, -55, 218,
   -218, 55, 0, -55, 220, -223, 74, -73, 220, -205, 1, 199, -199, -4]

/-- Scaled by `10^0`, part 17. -/
def uranusGramDensPart17 : List ℤ :=
  [215, -258, 215, -3, -204, 219, -73, 73, -220, 205, 0, -205, 220, -73, 73, -220, 205, 0, -204,
   217, -65, 42, -105, 76, -20, 5, -1, 0, 0, 0, 0, 2, -6, 22, -20, 0, 20, -20, 2, 14, 2, -20, 20,
   0, -20, 22, -6, 2, 0, 0, 0, 2, -6, 22, -22, 8, -8, 24, -28, 30, -30, 29, -28, 22, 0, -20, 22,
   -6, 2, 0, 0, 0, 0, 0, 2, -6, 22, -20, 0, 22, -28, 29, -30, 30, -30, 30, -28, 24, -6, 0, 5, -22,
   22, -6, 3, -6, 22, -23, 9, -14, 46, 10, -25, 29, -30, 30, -30, 30, -30, 29, -28, 22, 0, -20, 21,
   -5, 0, 5, -22, 22, -6, 2, 0, 0, 0, 0, 0, 2, -6, 22, -22, 7, -7, 23, -23, 8, -8, 24, -28, 30,
   -30, 30, -30, 30, -30, 30, -28, 24, -8, 8, -23, 23, -7, 7, -22, 22, -6, 2, 0, 0, 0, 0, 0, 0, 0,
   2, -6, 22, -22, 7, -7, 22, -21, 0, 20, -20, -1, 22, -28, 29, -30, 29, -28, 22, -1, -20, 20, 0,
   -20, 20, 0, -20, 22, -6, 2, 0, 0, 1, -4, 15]

/-- Scaled by `10^0`, part 18. -/
def uranusGramDensPart18 : List ℤ :=
  [-57, 31, -8, 2, -1, 0, 0, 0, 2, -6, 22, -22, 5, 0, -5, 21, -20, 0, 22, -28, 29, -30, 29, -28,
   22, 0, -20, 22, -7, 7, -22, 22, -6, 2, 0, 0, 0, 0, 0, 0, 0, 0, 2, -6, 22, -22, 7, -7, 22, -20,
   0, 22, -28, 29, -30, 29, -28, 22, -1, -20, 20, 0, -20, 22, -6, 1, 0, -1, 6, -22, 22, -4, -4, 22,
   -22, 6, -1, 0, 1, -6, 22, -20, 0, 20, -20, -1, 22, -28, 29, -30, 30, -30, 29, -28, 22, 0, -20,
   22, -8, 11, -35, 9, -3, 1, 0, 0, 0, 2, -6, 22, -20, 0, 20, -20, -1, 22, -28, 29, -28, 22, 0,
   -20, 22, -7, 7, -22, 22, -6, 2, 0, 0, 0, 0, 0, 0, 0, 2, -6, 22, -22, 8, -8, 24, -28, 30, -30,
   30, -30, 30, -30, 29, -28, 22, 0, -20, 21, -5, 0, 5, -22, 22, -6, 2, 0, 0, 2, -6, 22, -22, 5, 0,
   -5, 21, -20, 0, 20, -20, -1, 22, -28, 29, -30, 29, -28, 22, -1, -20, 20, 0, -20, 22, -6, 1, 0,
   -1, 6, -22, 22, -4, -4]

/-- Scaled by `10^0`, part 19. -/
def uranusGramDensPart19 : List ℤ :=
  [22, -22, 6, -2, 1, -1, 2, -6, 22, -22, 8, -8, 24, -28, 27, -22, 0, 22, -28, 29, -28, 22, -1,
   -20, 20, 0, -21, 22, -7, 7, -22, 22, -6, 2, 0, 0, 0, 0, 0, 0, 0, 0, 0, 2, -6, 22, -22, 7, -7,
   22, -21, 0, 20, -20, -1, 22, -28, 29, -30, 29, -28, 22, 0, -22, 27, -28, 24, -8, 8, -22, 22, -6,
   2, -2, 6, -22, 22, -6, 2, 0, 0, 0, 2, -6, 22, -22, 6, -2, 2, -6, 22, -20, 0, 20, -20, 0, 20,
   -20, 2, 14, 2, -21, 22, -7, 7, -22, 22, -6, 2, 0, 0, 0, 0, 0, 0, 0, 0, 0, 0, 0, 0, 0, 2, -6, 22,
   -22, 7, -7, 22, -22, 7, -7, 22, -20, 0, 22, -28, 29, -30, 30, -30, 30, -30, 30, -30, 29, -28,
   22, -1, -20, 20, 0, -21, 22, -7, 7, -22, 22, -5, 0, 5, -22, 22, -6, 2, 0, 0, 0, 0, 0, 0, 0, 0,
   0, 0, 2, -6, 22, -22, 6, -2, 2, -6, 22, -22, 7, -7, 22, -21, 0, 20, -20, -1, 22, -28, 29, -30,
   29, -27, 19]

/-- Scaled by `10^0`, part 20. -/
def uranusGramDensPart20 : List ℤ :=
  [11, -3, 1, 0, 0, 0, 0, 0, 0, 0, 2, -6, 22, -22, 6, -1, 0, 1, -6, 22, -22, 7, -7, 22, -22, 7, -7,
   22, -22, 7, -7, 22, -21, 0, 20, -20, 0, 20, -20, -1, 22, -27, 27, -22, 0, 22, -28, 29, -29, 28,
   -22, 0, 22, -28, 29, -30, 29, -28, 22, 0, -22, 28, -29, 29, -28, 22, 0, -22, 27, -27, 22, -1,
   -20, 20, 0, -20, 20, 0, -20, 20, 0, -21, 22, -7, 7, -22, 22, -7, 7, -22, 22, -5, 0, 5, -22, 22,
   -6, 2, -2, 6, -24, 28, -30, 30, -30, 30, -30, 29, -28, 22, 0, -22, 27, -27, 22, -1, -20, 20, 0,
   -20, 20, 0, -20, 20, 0, -20, 20, 0, -20, 21, -5, 0, 5, -22, 22, -5, 0, 5, -22, 22, -6, 2, -2, 6,
   -22, 22, -6, 2, 0, 0, 0, 0, 0, 0, 0, 0, 0, 0, 0, 0, 0, 0, 0, 0, 0, 0, 0, 0, 0, 0, 0, 0, 2, -6,
   22, -22, 6, -1, 0, 1, -6, 22, -22, 5, 0, -5, 22, -22, 7, -7, 22, -22, 7, -7, 22, -22, 7, -7, 22,
   -22]

/-- Scaled by `10^0`, part 21. -/
def uranusGramDensPart21 : List ℤ :=
  [7, -7, 22, -22, 7, -7, 22, -22, 7, -7, 22, -22, 7, -7, 22, -21, 0, 20, -20, 0, 20, -20, 0, 20,
   -20, -1, 22, -27, 27, -22, 0, 22, -28, 29, -30, 30, -29, 28, -22, 0, 22, -28, 29, -28, 22, 0,
   -22, 28, -29, 30, -30, 29, -28, 22, 0, -22, 27, -27, 22, -1, -20, 20, 0, -20, 20, 0, -20, 20, 0,
   -21, 22, -7, 7, -22, 20, 0, -20, 21, -5, 0, 5, -22, 22, -5, 0, 5, -22, 22, -6, 2, -2, 6, -22,
   22, -6, 2, 0, 0, 0, 0, 0, 0, 0, 0, 0, 0, 0, 0, 0, 0, 0, 0, 0, 2, -6, 22, -22, 6, -1, 0, 1, -6,
   22, -22, 6, -2, 2, -6, 22, -22, 5, 0, -5, 22, -22, 5, 0, -5, 22, -22, 7, -7, 22, -20, 0, 20,
   -22, 7, -7, 22, -21, 0, 20, -20, 0, 20, -20, 0, 20, -20, -1, 22, -27, 27, -22, 1, 20, -20, -1,
   22, -28, 29, -29, 28, -22, 0, 22, -28, 29, -30, 30, -30, 30, -30, 30, -30, 30, -30, 30, -30, 30,
   -30, 30, -30, 30, -30, 29, -28, 22, 0]

/-- Scaled by `10^0`, part 22. -/
def uranusGramDensPart22 : List ℤ :=
  [-20, 22, -6, 2, 0, 0, 0, -2, 6, -22, 22, -6, 2, 0, 0, 0, 0, 0, 0, -2, 6, -22, 22, -6, 2, 0, 0,
   0, 0, 0, 0, 0, 0, 0, 0, 0, 0, 0, 0, 0, 0, 0, 0, 0, 0, 0, 0, 0, 0, 0, 2, -6, 22, -22, 6, -2, 0,
   0, 0, 0, 0, 0, 0, 2, -6, 22, -22, 6, -2, 0, 0, 0, 2, -6, 22, -22, 6, -1, 0, 1, -6, 22, -22, 6,
   -2, 2, -6, 22, -22, 5, 0, -5, 22, -22, 6, -2, 1, -4, 14, -12, 3, 0, -2, 2, -1, 1, -2, 2, -1, 0,
   0, 0, 0, -1, 2, -2, 1, 0, -1, 2, -2, 0, 2, -3, 3, -3, 3, -3, 3, -3, 2, 0, -2, 2, -1, 1, -2, 2,
   -1, 0, 0, 0, 0, 0, 0, 0, -1, 2, -2, 1, -1, 2, -2, 0, 2, -3, 3, -3, 3, -3, 3, -3, 2, 0, -2, 2,
   -1, 1, -2, 2, -1, 0, 0, 0, 0, 0, 0, 0, 0, 0, -1, 2, -2, 1, -1, 2, -2, 0, 2, -3, 3, -3, 3, -3, 2,
   0, -2, 3, -4, 7]

/-- Scaled by `10^0`, part 23. -/
def uranusGramDensPart23 : List ℤ :=
  [-17, 7, -4, 3, -3, 3, -3, 2, -1, 0, 0, 0, 0, 0, 0, -1, 2, -3, 3, -3, 3, -3, 2, -1, 1, -2, 2, -1,
   2, -2, 1, -1, 2, -2, 0, 1, 0, -2, 2, 0, -2, 2, -1, 0, -1, 2, -2, 1, -1, 2, -3, 3, -3, 3, -3, 2,
   -1, 0, 0, 0, 0, 0, 0, 0, -1, 2, -2, 0, 2, -3, 3, -3, 2, -1, 0, 1, -2, 2, -1, 2, -2, 1, 0, -1, 2,
   -3, 3, -3, 3, -3, 2, 0, -2, 2, -1, 0, 0, 0, 0, -2, 6, -4, 3, -1, 0, 1, -2, 2, -1, 0, 0, 0, 0,
   -1, 2, -2, 1, -1, 2, -2, 0, 2, -3, 3, -3, 3, -3, 3, -3, 2, -1, 1, -2, 2, -1, 0, 0, 0, 0, 0, 0,
   0, -1, 2, -2, 1, -1, 2, -2, 0, 2, -3, 3, -3, 3, -3, 2, 0, -2, 2, -1, 1, -2, 2, -1, 0, 0, 0, 0,
   0, 0, 0, 0, -1, 2, -2, 1, -1, 2, -2, 0, 2, -3, 3, -3, 3, -3, 2, 0, -2, 2, -1, 1, -2, 2, -1, 0,
   0, 1, -2]

/-- Scaled by `10^0`, part 24. -/
def uranusGramDensPart24 : List ℤ :=
  [7, -2, 0, 0, 0, 0, 0, 0, 0, 0, -1, 2, -2, 1, 0, -1, 2, -2, 1, -1, 2, -2, 1, -1, 2, -2, 0, 2, -2,
   0, 2, -3, 3, -3, 3, -2, 0, 2, -3, 3, -3, 3, -3, 2, 0, -2, 3, -3, 2, 0, -2, 2, 0, -2, 2, 0, -2,
   2, -1, 1, -2, 2, -1, 1, -2, 2, -1, 0, 0, 1, -2, 2, -1, 0, 0, 0, 0, 0, 0, 0, 0, 0, 0, 0, 0, 0, 0,
   0, 0, 0, -1, 2, -2, 1, 0, 0, 0, 0, 2, -1, -4, -1, 2, -3, 2, -1, 1, -2, 2, -1, 0, 0, 0, 0, 0, 0,
   0, 0, 0, 0, 0, 0, -1, 2, -2, 1, -1, 2, -2, 0, 2, -2, 0, 2, -3, 3, -3, 3, -3, 2, 0, -2, 2, 0, -2,
   2, 0, -2, 2, -1, 0, 0, 0, 0, 1, -2, 2, 0, 0, 2, -2, 1, 0, 0, 0, 0, -1, 2, -2, 1, -1, 2, -3, 3,
   -2, 0, 2, -3, 3, -3, 3, -3, 3, -3, 3, -3, 2, 0, -2, 2, -1, 1, -2, 2, -1, 0, 0, 0, -1, -2]

/-- Scaled by `10^0`, part 25. -/
def uranusGramDensPart25 : List ℤ :=
  [14, -5, 1, 2, -3, 3, -2, 0, 2, -2, 0, 2, -3, 3, -2, 0, 2, -2, 0, 2, -3, 3, -2, 0, 2, -2, 0, 2,
   -3, 3, -2, 0, 2, -2, 0, 2, -3, 3, -2, 0, 2, -2, 0, 2, -3, 3, -2, 0, 2, -2, 0, 2, -3, 3, -2, 0,
   2, -3, 3, -2, 0, 2, -2, 0, 2, -3, 3, -2, 0, 2, -2, 0, 2, -3, 3, -2, 0, 2, -3, 3, -2, 0, 2, -2,
   0, 2, -3, 3, -2, 0, 2, -3, 3, -2, 0, 2, -2, 0, 2, -3, 3, -3, 3, -2, 0, 2, -3, 3, -3, 3, -3, 3,
   -3, 3, -2, 0, 2, -3, 3, -3, 3, -3, 3, -3, 3, -3, 3, -2, 0, 2, -3, 3, -3, 3, -3, 3, -3, 3, -2, 0,
   2, -3, 3, -3, 3, -3, 3, -3, 3, -3, 3, -2, 0, 2, -3, 3, -3, 3, -3, 3, -3, 3, -3, 3, -2, 0, 2, -3,
   3, -3, 3, -3, 3, -3, 3, -3, 3, -2, 0, 2, -3, 3, -3, 3, -3, 3, -3, 3, -3, 3, -2, 0, 2, -3, 3, -3,
   3, -3, 2, -1]

/-- Scaled by `10^0`, part 26. -/
def uranusGramDensPart26 : List ℤ :=
  [-4]

/-- Scaled by `10^0`. -/
def uranusGramDens : List ℤ :=
    (uranusGramDensPart0 ++ uranusGramDensPart1 ++ uranusGramDensPart2 ++ uranusGramDensPart3 ++
    uranusGramDensPart4 ++ uranusGramDensPart5 ++ uranusGramDensPart6 ++ uranusGramDensPart7 ++
    uranusGramDensPart8 ++ uranusGramDensPart9 ++ uranusGramDensPart10 ++ uranusGramDensPart11 ++
    uranusGramDensPart12 ++ uranusGramDensPart13 ++ uranusGramDensPart14 ++ uranusGramDensPart15
    ++ uranusGramDensPart16 ++ uranusGramDensPart17 ++ uranusGramDensPart18 ++
    uranusGramDensPart19 ++ uranusGramDensPart20 ++ uranusGramDensPart21 ++ uranusGramDensPart22
    ++ uranusGramDensPart23 ++ uranusGramDensPart24 ++ uranusGramDensPart25 ++
    uranusGramDensPart26)

/-- Scaled by `10^0`, part 0. -/
def uranusGramPresPart0 : List ℤ :=
  [548600271296, 0, -548600271296, 2194401085184, -2229004069440, 721615192578, -657456700870,
   1908211610902, -975389742740, 1993347360056, -997999697486, 1998651429888, -996606022065,
   1987772658372, -954484611425, 1830165787326, -366178537880, -365451635807, 1827985081109,
   -946488688630, 1957969673412, -885390005019, 1583590346664, 551028618363, -3787704820114,
   2599790662095, -611457828265, -153959349034, 1227295224400, 1244778451434, -206409030137,
   -419142330886, 1882978353683, -1112771083844, 2568105981695, -3159652842936, 4070505390048,
   -1122368717256, 418969478975, -553509198644, 1795067315603, -626760063766, 711972939462,
   -2221131694083, 2172553836871, -469083653402, -296219223265, 1653960546462, -319622962583,
   -375468696130, 1821497747104, -910522292286, 1820591422040, -371843395873, -333217838546,
   1704714750057, -485641161684, 237849896678, -465758425027, 1625183803432, -34976788700,
   -1485276648633, -23916616768, 1580943115705, -299855846054, -381519731491, 1825934772016,
   -922219356573, 1862942654277, -529551260535, 255262387861, -491498290910, 1710730775781,
   -351424812212, -305031526934, 1571550919947, 18827847144, -1646862308524, 568621386951,
   -627623239280, 1941871570169, -1139863041395, 2617580595413, -3330459340257, 4704256765614,
   -3486567722198, 3242014123180, -3481488770520, 4683940958901, -3254275065084, 2333159301436,
   -78362140659, -2019710738800, 2157205095860, -609109644638, 279233482694, -507824286137,
   1752063661854, -500430361281, 249657783269, -498200771795, 1743145303912, -474380443851,
   154376471492, -743125442117, 418125296977, 270624254210, 299377686183, 331865001060,
   173162309579, 175485760624, 324894647926, 324935647671, 175362761388, 173613306776,
   330184011508, -294349352807, -352786600278, 505495753920, 130803584596, 171289907694,
   384036784628, 92562953793, 445711400199, -75408554589, 455922818157, 51717281960, 537208054003,
   -1000549497973, 464989937890, 340589746413, -27348923543, 368805947757, 352125132514,
   22693522188, 157100778735, 548903362873, -552714230228, -138046441962, 504899998077,
   -81553550347, 421314203312, 196296737098, -6501151703, 429707869715, 87669672844, 419613438909,
   -566123428482, 44880275018, 386602328411, 208710411340, -21443973771, 477065483743,
   -86817961201, 470206361060, -594007483041, 105823571104, 170713198625, 411323634396,
   -16007736208, 252707310438, 205178494457, 126578711734, -111493341393, 2119394653837,
   -7766085273954, 2544946441981, -13700493968, 509855533891, 374278358404, 393031032492,
   453597511628, 192578920998, 576086804382, -696926138526, 4611617749721, -949544860357,
   386561691708, 3298093524, 200245934195, 395718169695, 16881387023, 136756282211, 36093484133,
   318869781259, -711572609168, 127420655413, 201889987514, 265019394529, -61967565632,
   -17149132002, 130564093640, 94892757442, 89864876592, 145647736190, -72455821353, 144175549223,
   95753624463, 72809952927, 213006563830]

/-- Scaled by `10^0`, part 1. -/
def uranusGramPresPart1 : List ℤ :=
  [-324836208248, 246338269163, 59483131595, 115729204458, 137600050573, -66129406749,
   126917576424, 98459101054, 79246019359, 184556821511, -277473305404, 205336400103, 56127704991,
   110152779931, 103261175284, -43197481067, 129528748984, 65082485131, 90141310492, 114352272902,
   -127550402100, 155849335497, 44153060111, 87538424060, 85693243649, -10311398657, 75552350979,
   68101994741, 72039670056, 63739325034, 33003029808, 44248555736, 90002747249, 15740455268,
   87035431680, -3882181989, 48493296276, 49908996884, 51870716187, 42608138370, 17696730335,
   66604940291, 15883508501, 49861025706, 24672388677, 31449419587, 29529932976, 30430848507,
   28746672994, 34582459518, 12923488934, 33723584747, 32182172078, 17547726941, 17626920157,
   31944592429, 16594710127, 21676567064, 16699021615, 19527346474, 19191592489, 17706283569,
   11983273235, 18360623491, 10574232800, 17342445308, 10055985966, 14433610826, 10209570729,
   10728106257, 12878004243, 9759876772, 8082488668, 11910168557, 4276837103, 18982483031,
   3793230774, 7844593873, 6828393732, 6841831197, 7804281479, 3941042886, 6431546976, 6332769210,
   4237376185, 6717726049, 4891719619, 3715395477, 4246698475, 3297810623, 12562059032, 453953251,
   3622127966, 3057534885, 2147732495, 6351535136, 2446126961, 1863957019, 2098044964, 1743863126,
   8926502531, -1449873251, 2872990473, 1957911358, 1295364093, -1139367731, 3262106830, 90940412,
   2374131522, 1212533501, 1175734476, 1284528597, 1486151137, 1170866857, 1030381437, 1907607396,
   939188977, 935636694, 1318264247, 391306318, 2516510480, 342651762, 912882472, 805818350,
   663844127, 1338805142, 580935305, 537453638, 869250144, 185545785, 1388566717, 260187349,
   570683888, 457077099, 601007717, 138892032, 643424154, 287411353, 606930434, 284866913,
   53601916, 700725424, 143496386, 525289030, 155347495, 653320992, 231368537, 221204861,
   683812021, -1156452943, 5741999753, -1411546069, 504184521, -5192017, 116583546, 138857835,
   -72014884, 149201702, 75208076, 149965995, -75072057, 150322231, 73783133, 154545238, -91964086,
   213311104, -161280331, 431810219, -365960547, 432031968, -162167324, 216637327, -104381985,
   200890613, -99180466, 195831252, -84144542, 140746917, 121156874, -25374414, -19659219,
   104011289, 203614064, -318467546, 470256121, -362556939, 379971636, -137329603, 109346778,
   -57509, 70883257, 16524480, 43018823, 51400226, -8619729, 223078690, -43695030, 71701429,
   -3110686, 60741314]

/-- Scaled by `10^0`, part 2. -/
def uranusGramPresPart2 : List ℤ :=
  [145431, 58676961, 5146726, 40736136, 11908731, 31628941, 161575505, -17930960, 30148336,
   17337615, 20501203, 20657572, 16868510, 31868388, 35657938, 5499861, 2342620, 45129660,
   -2861260, 26315379, 17599745, 23285640, 9257697, -316426, 52008006, -27715597, 58854382,
   -27701930, 51953340, -111429, 8492375, 26141929, 6939909, 6098437, 28666345, -763818, 34388926,
   -16791885, 32778613, 5677432, 4511658, 36275937, -29615404, 22185680, 872685, 34323581,
   -18167011, 38344461, -15210833, 22498871, -14784650, 36639730, -11774269, 10457345, 29944890,
   -10236906, 11002732, 26225977, 4093358, 17400590, -13695720, 37382289, -15833435, 25951451,
   -27972370, 25938030, -15779750, 37180971, -12944134, 14595564, 14561879, -12843081, 36810443,
   -14398693, 20784327, -8738614, 14170131, 12058090, -2402491, -2448126, 12194994, 13668150,
   -6867593, 13802221, 11658707, -437051, -9910503, 40079063, -30405748, 21543930, 4230028,
   21535958, -30373862, 39959488, -9464090, -2103127, 17876599, -9403268, 19736475, -9542630,
   18434046, -4193552, -1659836, 10832896, 18328253, -24145909, 18255384, 11124374, -2752879,
   -112857, 3204309, 5295621, 5613206, 2251556, 3380571, 8226159, -285208, 4914674, 4626512,
   579276, 5056383, 3195193, -5837154, 2153422, 3223466, 2952715, 2965676, 3184583, 2295993,
   5631446, 11178222, -2344335, 4199119, 3547860, -390558, 4014372, 2333070, -1346652, 3053538,
   1132499, 4416467, -798365, 4776994, -309612, 2461455, 2463793, -316627, 4802713, -894227,
   4774194, -202549, 2036003, 4058537, -270151, 3022067, 181883, 2250401, 2816514, -1516456,
   27249312, -5480790, 673848, 2785398, 184560, -3523639, 19909996, -76116345, 14555383, -105187,
   3865365, 2643728, 3559721, 1117386, 3970735, 999673, 4030575, 878029, 4457308, -707261, 4371737,
   1220314, 2747008, -208344, 4086369, 1862867, 462164, 2288477, 2383929, 175806, 2912846, 172812,
   2395908, 2243556, 629866, 1236978, 422223, 3074132, -718749, 5800864, -10484707]

/-- Scaled by `10^0`, part 3. -/
def uranusGramPresPart3 : List ℤ :=
  [36137964, -8067148, 2130629, -455369, -309154, 1691985, -458785, 143156, -113840, 312205,
   -1134979, -1772290, 2224140, -1124271, 2272943, -1967500, 1397057, -20730, 485861, -122714,
   604997, 102727, 184096, 360888, 172353, 149700, 428848, -65092, 431521, 139009, 212442, 211225,
   142660, 418134, -15196, 242651, 244591, -21014, 439467, 63146, 507949, 305057, 71823, 7651,
   497574, -197947, 294215, 221086, 21442, 293148, 5968, 282982, 62104, 68601, 263491, 77436,
   26765, 415505, -1088785, 5139635, -18869754, 6139380, -887768, 1011691, 441005, 824288, 461844,
   328338, 1824806, -4627561, 19685439, -5114193, 1371335, -371146, 113251, -81857, 214179,
   -174858, -114748, 633848, -1820645, 648731, -174279, 48384, -19256, 28640, -95306, 352582,
   -715023, 2507508, -9315010, 2952531, -695115, 427928, 183401, 38467, 262732, 110606, 494844,
   -1489983, 6665089, -1770371, 416396, 104789, -235550, 237410, -114091, 218954, -161724, -172058,
   849955, -227762, 61094, -16614, 5362, -4835, 13976, -51070, 190302, -110140, -349743, 309110,
   -286698, 237681, -64027, 18427, -9682, 20301, -71523, 265792, -391645, 100789, -11512, -54741,
   230475, -267159, 238161, -85485, 103781, -329637, 1214769, -329438, 102982, -82490, 226980,
   -225429, 74736, -73514, 219321, -203770, -4240, 220731, -278682, 293999, -297314, 295256,
   -283710, 239585, -74629, 58931, -761095, -14550, 219295, -262629, 231220, -62253, 17791, -8911,
   17852, -62497, 232136, -266045, 232046, -62138, 16506, -3886, -962, 7733, -29969, 112142,
   181399, -237740, 169559, 159502, -207566, 70764, -75489, 231192, -249280, 165927, 185573,
   -308217, 447296, -280966, 76568, -25306, 24655, -73316, 268607, -401113]

/-- Scaled by `10^0`, part 4. -/
def uranusGramPresPart4 : List ℤ :=
  [735845, -142267, -166779, 209381, -70744, 73597, -223643, 220976, -60261, 20069, -20014, 59988,
   -219938, 219766, -59125, 16732, -7805, 14489, -50150, 186110, -694290, 191051, -69914, 88606,
   -44511, 29438, -13241, 23527, -20866, 119937, -458884, 155597, -43504, 18421, 29822, -17709,
   41014, -26349, 64380, -111173, 380312, -90076, 39992, -9893, -420, 11572, 14131, -8096, 18252,
   -64913, 361400, -60689, 1354, -4726, 17552, -5481, 4371, -12004, 43646, -102581, 306677,
   -104127, 49832, -35200, 30969, -28675, 23731, -6247, 1259, 1211, -6105, 23207, -26723, 23687,
   -8024, 8410, -25616, 34053, -50597, 168333, -622736, 162612, -27711, 8231, -5214, 12625, 14713,
   -11478, 31199, -113316, 482066, -134947, 57724, -35948, 26067, -8320, 7215, -20539, 14942,
   20772, -98029, 11345, -7350, 18054, -4865, 1407, -761, 1638, -5790, 21522, -20297, -334, 21634,
   -26201, 23171, -6481, 2753, -4532, 15375, -56967, 272494, -73007, 19536, -5137, 1010, 1096,
   -5394, 20480, -16525, -14380, 74045, -41800, 33157, -30826, 30148, -29767, 28920, -25914, 14737,
   26968, -122609, 43466, 8743, -18438, 5008, -1593, 1363, -3858, 14071, 7574, -104367, 49895,
   -35213, 30958, -28621, 23524, -5474, -1626, 11978, -46287, 173170, -46391, 12395, -3190, 363,
   1736, -7307, 27493, -42666, 83171, -290019, 56905, 2400, -6505, 23621, -27977, 28288, -25175,
   12413, 35525, -154513, 42526, -15591, 19838, -3761, -4793, 22934, -26945, 24844, -12430, 24876,
   -27072, 23414, -6585, 2925, -5114, 17530, -5006, 2494, -4970]

/-- Scaled by `10^0`, part 5. -/
def uranusGramPresPart5 : List ℤ :=
  [17387, -4577, 920, 896, -4505, 17122, -3985, -1182, 8714, -33674, 185983, -50256, 15043, -9916,
   24622, -28573, 29670, -30107, 30759, -32927, 40949, -10869, 2528, 759, -5562, 21490, -20399,
   107, 19972, -19994, 6, 19971, -19889, -414, 21545, -25766, 21517, -303, -20303, 21517, -5765,
   1545, -413, 109, -22, -22, 109, -413, 1544, -5763, 21507, -20265, -447, 22053, -27765, 29007,
   -28262, 24042, -7906, 7581, -22418, 22091, -5948, 1699, -849, 1699, -5945, 22081, -22377, 7429,
   -7339, 21929, -20375, -428, 22086, -27916, 29577, -30392, 31991, -37572, 58296, -15613, 4156,
   -1009, -118, 1481, -5806, 21744, -21172, 2942, 9404, 19442, -27171, 29241, -29792, 29928,
   -29920, 29753, -29092, 26613, -17361, -17168, 26033, -26964, 21824, -333, -20491, 22297, -8698,
   12495, -41281, 32628, -29233, 24302, -7976, 7601, -22429, 22115, -6031, 2008, -2002, 5999,
   -21994, 21978, -5917, 1690, -845, 1688, -5907, 21940, -21853, 5471, -33, -5340, 21393, -20232,
   -463, 22086, -27879, 29430, -29840, 29929, -29875, 29572, -28414, 24085, -7925, 7614, -22530,
   22506, -7494, 7470, -22386, 22075, -5913, 1577, -394, 1, 391, -1566, 5874, -21930, 21847, -5459,
   -13, 5510, -22026, 22595, -8356, 10827, -34952, 8981, -970, -5099, 21367, -20369, 109, 19934,
   -19844, -557, 22073, -27735, 28865, -27727, 22043, -444, -20268, 21515, -5793, 1655, -827, 1655,
   -5792, 21512, -20254, -494, 22229, -28423, 31464, -37431]

/-- Scaled by `10^0`, part 6. -/
def uranusGramPresPart6 : List ℤ :=
  [58260, -15611, 4183, -1121, 300, -80, 21, -5, -1, 8, -30, 113, -422, 1575, -5877, 21932, -21850,
   5470, -30, -5351, 21434, -20384, 103, 19973, -19996, 9, 19960, -19848, -566, 22113, -27886,
   29431, -29837, 29918, -29835, 29421, -27848, 21972, -41, -21809, 27277, -27299, 21921, -383,
   -20387, 21931, -7338, 7421, -22345, 21959, -5492, 8, 5460, -21848, 21931, -5876, 1575, -422,
   113, -30, 8, -2, 1, 0, 1, -2, 8, -30, 113, -422, 1575, -5876, 21931, -21848, 5460, 8, -5492,
   21959, -22346, 7424, -7348, 21970, -20530, 152, 19922, -19839, -566, 22103, -27846, 29279,
   -29271, 27806, -21954, 10, 21915, -27670, 28765, -27391, 20798, 4197, -37586, 26148, -7006,
   1877, -503, 135, -36, 10, -3, 1, 0, -2, 8, -30, 114, -425, 1585, -5915, 22075, -22386, 7469,
   -7491, 22495, -22489, 7459, -7348, 21934, -20388, -383, 21921, -27299, 27277, -21809, -41,
   21972, -27848, 29421, -29835, 29918, -29837, 29431, -27886, 22113, -566, -19848, 19960, 8,
   -19993, 19963, 141, -20528, 21969, -7350, 7431, -22374, 22064, -5884, 1472, -2, -1463, 5854,
   -21953, 21959, -5884, 1577, -423, 114, -33, 16, -33, 114, -423, 1577, -5884, 21960, -21957,
   5867, -1513, 184, 778, -3297, 12410, -10344, 4965, -3515, 3097, -2871, 2388, -681, 337, -667,
   2333, -2663, 2318, -610, 122, 122, -610, 2317, -2659]

/-- Scaled by `10^0`, part 7. -/
def uranusGramPresPart7 : List ℤ :=
  [2317, -610, 122, 122, -610, 2317, -2660, 2321, -625, 179, -89, 179, -625, 2321, -2661, 2321,
   -625, 179, -89, 179, -625, 2321, -2661, 2321, -625, 179, -89, 179, -625, 2321, -2661, 2321,
   -625, 179, -90, 182, -636, 2364, -2818, 2910, -2821, 2375, -679, 339, -679, 2375, -2821, 2910,
   -2818, 2364, -636, 182, -91, 182, -636, 2364, -2818, 2910, -2821, 2374, -675, 325, -626, 2178,
   -2086, 168, 1416, 167, -2086, 2177, -622, 311, -622, 2177, -2086, 167, 1417, 164, -2072, 2124,
   -426, -421, 2110, -2019, -33, 2152, -2575, 2149, -19, -2073, 2310, -1167, 2359, -2268, 714,
   -586, 1632, 58, -1865, 1403, 2252, 1590, -2611, 2853, -2803, 2359, -632, 169, -45, 9, 9, -45,
   169, -633, 2362, -2815, 2898, -2776, 2205, -45, -2027, 2151, -579, 165, -83, 165, -579, 2151,
   -2027, -45, 2205, -2776, 2898, -2815, 2362, -633, 170, -46, 13, -7, 13, -46, 170, -633, 2362,
   -2815, 2898, -2776, 2205, -45, -2027, 2151, -576, 155, -44, 22, -44, 155, -576, 2151, -2027,
   -45, 2205, -2776, 2898, -2816, 2366, -647, 223, -245, 758, -2787, 4390, -2774, 705, -45, -523,
   2137, -2027, -31, 2152, -2576, 2152, -30, -2030, 2152, -576, 154, -41, 8, 8, -41, 154, -577,
   2153, -2034, -18, 2104, -2400, 1494]

/-- Scaled by `10^0`, part 8. -/
def uranusGramPresPart8 : List ℤ :=
  [2423, 812, 328, -2124, 2166, -541, -1, 547, -2185, 2194, -591, 169, -84, 169, -591, 2194, -2185,
   547, -3, -535, 2143, -2039, 11, 1993, -1984, -56, 2207, -2774, 2887, -2774, 2207, -56, -1984,
   1993, 11, -2039, 2143, -535, -3, 547, -2185, 2194, -591, 169, -84, 169, -592, 2198, -2199, 600,
   -199, 197, -588, 2154, -2028, -41, 2194, -2734, 2743, -2239, 211, 1394, 211, -2239, 2743, -2734,
   2193, -39, -2039, 2193, -734, 743, -2238, 2207, -591, 158, -42, 11, -3, 2, -3, 11, -42, 158,
   -591, 2207, -2238, 743, -735, 2197, -2053, 15, 1992, -1984, -57, 2212, -2791, 2953, -3021, 3132,
   -3509, -1098, 1902, -509, 134, -25, -33, 156, -591, 2207, -2238, 743, -735, 2197, -2053, 15,
   1993, -1988, -42, 2155, -2577, 2155, -42, -1988, 1993, 15, -2053, 2197, -735, 743, -2238, 2207,
   -592, 159, -46, 23, -46, 159, -592, 2207, -2238, 743, -735, 2197, -2053, 15, 1992, -1984, -56,
   2207, -2774, 2887, -2774, 2207, -56, -1984, 1993, 11, -2039, 2143, -535, -3, 547, -2185, 2193,
   -588, 158, -45, 23, -45, 158, -588, 2193, -2185, 547, -3, -534, 2139, -2023, -46, 2209, -2788,
   2943, -2985, 2996, -2998, 2996, -2985, 2943, -2788, 2208, -43, -2038, 2193, -733, 740, -2225,
   2162, -422, -475]

/-- Scaled by `10^0`, part 9. -/
def uranusGramPresPart9 : List ℤ :=
  [2323, -2818, 2947, -2972, 2940, -2787, 2207, -42, -2038, 2193, -734, 742, -2234, 2196, -549, 1,
   546, -2185, 2193, -588, 158, -42, 12, -6, 12, -42, 158, -589, 2197, -2199, 600, -200, 201, -603,
   2210, -2238, 743, -734, 2193, -2038, -42, 2207, -2784, 2929, -2931, 2796, -2253, 215, 1392, 215,
   -2253, 2796, -2931, 2929, -2784, 2207, -42, -2038, 2193, -734, 742, -2234, 2196, -549, 1, 546,
   -2185, 2193, -588, 157, -42, 11, -3, 1, 0, 0, 1, -3, 11, -42, 158, -589, 2197, -2199, 600, -199,
   197, -589, 2158, -2042, 11, 1997, -2000, 1, 1996, -1983, -62, 2230, -2859, 3208, -3971, 675,
   1270, 244, -2248, 2746, -2736, 2197, -53, -1985, 1993, 11, -2039, 2143, -535, -3, 547, -2185,
   2193, -588, 157, -42, 11, -3, 1, 0, 1, -3, 11, -42, 157, -588, 2193, -2185, 547, -3, -535, 2143,
   -2039, 11, 1993, -1984, -57, 2211, -2789, 2943, -2985, 2996, -2999, 2999, -2999, 2996, -2985,
   2943, -2789, 2211, -57, -1984, 1992, 15, -2053, 2197, -735, 743, -2238, 2210, -603, 201, -200,
   600, -2199, 2197, -589, 158, -42, 11, -2, -2, 11, -42, 158, -589, 2197, -2199, 600, -200, 201,
   -603, 2210, -2238, 743, -735, 2197, -2053, 15, 1994, -1990, -33, 2123, -2460]

/-- Scaled by `10^0`, part 10. -/
def uranusGramPresPart10 : List ℤ :=
  [1718, 1588, -2072, 699, -723, 2194, -2052, 15, 1993, -1985, -53, 2196, -2731, 2728, -2181, -4,
   2197, -2785, 2942, -2985, 2996, -2999, 3000, -3000, 3000, -2999, 2996, -2985, 2942, -2785, 2197,
   -4, -2181, 2728, -2731, 2196, -52, -1986, 1996, 1, -2000, 2000, 0, -1999, 1996, 14, -2053, 2197,
   -735, 742, -2235, 2196, -549, 1, 546, -2186, 2196, -599, 200, -200, 600, -2199, 2197, -589, 158,
   -42, 11, -3, 1, 0, -1, 4, -14, 54, -200, 746, -2785, 4392, -2785, 746, -200, 54, -14, 4, -1, 0,
   0, -2, 7, -25, 92, -345, 1288, -1206, 537, -344, 237, -5, -218, 277, -288, 277, -220, 1, 214,
   -257, 215, -3, -203, 216, -62, 31, -62, 216, -203, -3, 215, -258, 215, -3, -203, 215, -57, 11,
   11, -57, 215, -203, -3, 216, -262, 230, -58, 2, 50, -203, 160, 162, -208, 72, -78, 240, -283,
   291, -282, 236, -63, 17, -5, 2, -4, 16, -58, 217, -208, 17, 142, 17, -208, 217, -58, 16, -4, 1,
   1, -4, 17, -63, 236, -281, 290, -278, 221, -4, -203, 215, -57, 11, 11, -57, 215, -203, -4, 220,
   -277, 289, -277, 220, -4, -203, 215, -56, 11, 12, -58, 221, -225, 78, -87, 270]

/-- Scaled by `10^0`, part 11. -/
def uranusGramPresPart11 : List ℤ :=
  [-394, 106, -29, 9, -7, 18, -63, 236, -282, 290, -278, 221, -4, -203, 215, -57, 11, 11, -57, 215,
   -203, -4, 220, -277, 289, -277, 220, -4, -203, 216, -62, 31, -63, 222, -224, 76, -79, 241, -283,
   291, -282, 235, -59, 2, 50, -203, 161, 161, -203, 50, 2, -59, 235, -281, 290, -278, 221, -4,
   -203, 215, -58, 16, -4, 2, -5, 17, -63, 237, -283, 295, -299, 299, -299, 295, -283, 237, -63,
   17, -4, 1, 1, -4, 15, -58, 215, -203, -4, 221, -278, 290, -283, 240, -79, 76, -224, 221, -58,
   13, 7, -41, 157, 11, -203, 201, 1, -204, 215, -58, 16, -4, 2, -4, 16, -58, 215, -203, -5, 221,
   -279, 294, -297, 294, -279, 221, -5, -203, 215, -58, 15, -4, 1, 1, -4, 15, -58, 215, -204, 1,
   199, -199, -4, 215, -258, 215, -3, -203, 214, -53, 0, 54, -217, 215, -43, -43, 215, -217, 54, 0,
   -53, 214, -202, -5, 221, -279, 294, -297, 295, -284, 241, -79, 76, -224, 221, -59, 16, -4, 1,
   -1, 1, -4, 15, -58, 215, -204, 1, 199, -199, -4, 215, -258, 215, -4, -199, 199, 1, -205, 217,
   -64, 40, -97]

/-- Scaled by `10^0`, part 12. -/
def uranusGramPresPart12 : List ℤ :=
  [348, -93, 25, -7, 3, -5, 16, -59, 221, -224, 74, -73, 219, -204, -4, 221, -279, 294, -298, 300,
   -300, 300, -298, 294, -279, 221, -6, -198, 199, 1, -204, 216, -59, 20, -20, 60, -220, 220, -59,
   16, -4, 1, 1, -4, 16, -59, 220, -220, 60, -20, 20, -59, 216, -204, 1, 199, -198, -6, 221, -279,
   294, -298, 300, -300, 300, -300, 300, -298, 294, -279, 221, -4, -204, 219, -73, 74, -224, 221,
   -59, 16, -5, 5, -16, 59, -220, 219, -58, 12, 12, -58, 219, -219, 59, -15, 0, 14, -57, 215, -203,
   -3, 215, -258, 215, -3, -204, 219, -73, 74, -223, 220, -55, 0, 55, -218, 219, -59, 16, -4, 1, 0,
   0, 0, 0, 0, 0, 1, -4, 16, -59, 220, -220, 60, -20, 20, -60, 221, -224, 74, -74, 220, -205, 2,
   199, -198, -6, 221, -279, 294, -298, 300, -300, 300, -300, 300, -300, 300, -298, 294, -279, 221,
   -6, -198, 199, 2, -205, 220, -73, 74, -223, 220, -55, 0, 55, -218, 219, -59, 16, -4, 1, 0, 0, 0,
   0, 0, 0, 0, 0, 0, 0, 0, 0, 1, -4, 16, -59, 220, -220, 60, -20, 20]

/-- Scaled by `10^0`, part 13. -/
def uranusGramPresPart13 : List ℤ :=
  [-60, 220, -219, 55, 0, -53, 214, -203, 0, 205, -220, 75, -78, 239, -278, 274, -218, 0, 220,
   -278, 294, -298, 300, -300, 300, -300, 300, -300, 300, -298, 294, -279, 221, -6, -198, 200, 0,
   -200, 200, 1, -205, 220, -73, 74, -223, 220, -55, 0, 55, -218, 219, -59, 16, -5, 5, -16, 59,
   -220, 220, -59, 16, -4, 1, -1, 1, -4, 16, -59, 220, -220, 59, -16, 5, -5, 16, -59, 219, -218,
   55, 0, -55, 220, -224, 75, -75, 225, -225, 75, -73, 219, -204, -4, 219, -273, 273, -218, -1,
   223, -291, 341, -472, 346, -312, 303, -301, 300, -299, 294, -279, 221, -6, -198, 199, 2, -205,
   220, -73, 74, -223, 220, -55, 0, 55, -218, 219, -59, 16, -4, 1, 0, 0, 0, 0, 0, 0, 0, 0, 0, 0, 0,
   1, -4, 16, -59, 219, -218, 55, 0, -55, 220, -223, 74, -73, 220, -205, 1, 200, -200, 0, 200,
   -198, -6, 221, -279, 294, -298, 300, -300, 300, -300, 300, -300, 300, -298, 294, -279, 221, -6,
   -198, 200, 0, -200, 200, 1, -205, 220, -74, 75, -225, 225, -75, 75, -224, 221, -59, 15, 0, -15,
   58, -219]

/-- Scaled by `10^0`, part 14. -/
def uranusGramPresPart14 : List ℤ :=
  [218, -55, 0, 55, -219, 220, -60, 20, -20, 60, -220, 220, -59, 16, -4, 1, 0, 0, 0, 0, 0, 0, 0, 0,
   0, 1, -4, 16, -59, 220, -220, 60, -20, 20, -60, 220, -219, 55, 0, -53, 214, -203, 0, 205, -220,
   75, -78, 239, -278, 275, -220, 5, 198, -198, -6, 221, -279, 294, -298, 300, -300, 300, -300,
   300, -300, 300, -298, 294, -278, 220, 0, -218, 273, -273, 220, -5, -199, 200, 0, -200, 200, 1,
   -205, 220, -73, 74, -223, 220, -55, 0, 55, -218, 219, -57, 8, 24, -103, 89, -12, -40, 173, -52,
   36, -32, 30, -30, 29, -28, 22, 0, -20, 22, -6, 2, 0, 0, 0, 0, 0, 0, 2, -6, 22, -20, 0, 20, -20,
   2, 14, 2, -22, 28, -28, 24, -8, 8, -22, 22, -6, 2, 0, 0, 0, 2, -6, 22, -22, 7, -7, 22, -20, 0,
   22, -28, 29, -28, 22, 0, -20, 21, -5, 0, 5, -22, 22, -6, 2, -1, 2, -6, 22, -22, 5, 0, -6, 23,
   -28, 27, -22, 0, 21, -26, 21, 0, -20, 22, -7, 7, -22, 22, -6, 2, 0, 0, 0, 0, 0, -1, 2, -9]

/-- Scaled by `10^0`, part 15. -/
def uranusGramPresPart15 : List ℤ :=
  [35, -9, 3, -1, 2, -6, 22, -22, 5, 0, -5, 22, -22, 8, -8, 24, -28, 28, -22, 2, 14, 2, -22, 27,
   -27, 22, -1, -20, 20, 0, -20, 22, -6, 1, 0, -1, 6, -22, 24, -12, 24, -22, 6, -2, 1, -1, 2, -6,
   22, -20, 0, 20, -20, 0, 20, -20, 0, 22, -26, 21, 0, -22, 27, -27, 22, 0, -20, 22, -7, 7, -22,
   22, -6, 2, 0, 0, 0, 0, 0, 0, 0, 0, 0, 0, 0, 2, -6, 22, -22, 7, -7, 22, -21, 0, 20, -20, -1, 22,
   -27, 26, -18, -15, 19, 0, -21, 22, -7, 7, -22, 22, -6, 2, 0, 0, 0, 0, 0, 0, 0, 0, 2, -6, 22,
   -22, 7, -7, 22, -20, 0, 22, -27, 27, -22, 2, 14, 2, -23, 28, -29, 29, -28, 24, -8, 8, -22, 22,
   -5, 0, 5, -22, 22, -6, 2, 0, 0, 0, 0, 0, 2, -6, 22, -22, 5, 0, -5, 21, -20, 0, 20, -20, -1, 22,
   -27, 27, -22, 2, 14, 2, -22, 27, -27, 22, -1, -20, 20, 0, -20, 21, -5, 0, 5, -22, 22, -6, 2, 0,
   -1, 3, -10, 36]

/-- Scaled by `10^0`, part 16. -/
def uranusGramPresPart16 : List ℤ :=
  [-133, 15, 12, -3, 0, 1, -6, 21, -20, 0, 22, -28, 29, -30, 30, -28, 24, -6, 2, 0, 0, 2, -6, 22,
   -20, 0, 22, -28, 29, -28, 22, 0, -20, 22, -6, 2, -1, 2, -6, 22, -20, 0, 20, -20, 2, 14, 2, -21,
   22, -6, 2, 0, 0, 0, 0, 0, 2, -6, 22, -20, 0, 22, -26, 22, 0, -20, 22, -7, 8, -23, 24, -12, 24,
   -22, 6, 0, -5, 21, -20, 0, 22, -26, 22, 0, -20, 22, -6, 2, 0, 0, 0, 0, 0, 0, 0, 2, -6, 22, -23,
   10, 42, 4, 4, -21, 20, 0, -20, 21, -5, 0, 5, -22, 22, -6, 2, 0, 0, 0, 0, 0, 0, 2, -6, 22, -22,
   5, 0, -5, 22, -22, 7, -7, 22, -20, 0, 22, -28, 29, -30, 30, -30, 30, -30, 30, -30, 29, -28, 22,
   0, -20, 22, -7, 7, -22, 22, -5, 0, 5, -22, 22, -6, 2, 0, 0, 0, 0, 0, 0, 0, 0, 2, -6, 22, -22, 5,
   0, -5, 22, -22, 7, -7, 22, -21, 0, 20, -20, -1, 22, -28, 29, -30, 30, -30, 29, -28, 22, 0, -22,
   29, -32]

/-- Scaled by `10^0`, part 17. -/
def uranusGramPresPart17 : List ℤ :=
  [39, -5, -19, 22, -7, 7, -22, 22, -7, 7, -22, 22, -5, 0, 5, -22, 22, -6, 2, 0, 0, 0, 0, 0, 0, 0,
   0, 0, 0, 0, 0, 0, 0, 0, 0, 2, -6, 22, -22, 6, -2, 2, -6, 22, -22, 7, -7, 22, -22, 7, -7, 22,
   -21, 0, 20, -20, -1, 22, -27, 27, -22, 0, 22, -28, 29, -30, 30, -30, 30, -30, 30, -30, 29, -28,
   22, 0, -22, 27, -27, 22, -1, -20, 20, 0, -21, 22, -7, 7, -22, 22, -7, 7, -22, 22, -5, 0, 6, -22,
   23, -10, 17, 1, -21, 22, -7, 7, -22, 22, -7, 7, -22, 22, -5, 0, 5, -22, 22, -6, 1, 0, -1, 6,
   -22, 22, -6, 2, 0, 0, 0, 0, 0, 0, -2, 6, -22, 22, -6, 2, 0, 0, 0, 0, 0, 2, -6, 22, -22, 6, -2,
   0, 0, 0, 0, 0, 0, 2, -6, 22, -22, 6, -1, 0, 1, -6, 22, -22, 5, 0, -5, 22, -22, 5, 0, -5, 22,
   -22, 7, -7, 22, -20, 0, 20, -22, 7, -7, 22, -21, 0, 20, -20, 0, 20, -20, -1, 22, -27, 27, -22,
   1, 19]

/-- Scaled by `10^0`, part 18. -/
def uranusGramPresPart18 : List ℤ :=
  [-16, -16, 20, -5, 1, 0, -1, 6, -22, 22, -6, 2, 0, 0, 0, 0, 0, 0, 0, 0, 0, 0, 0, 0, 0, 0, 0, 0,
   0, 0, 0, 0, 0, 0, 0, 2, -6, 22, -22, 6, -1, 0, 1, -6, 22, -22, 5, 0, -5, 22, -22, 7, -7, 22,
   -22, 7, -7, 22, -22, 7, -7, 22, -21, 0, 20, -20, 0, 20, -20, -1, 22, -27, 27, -22, 0, 22, -28,
   29, -30, 30, -29, 28, -22, 0, 22, -28, 29, -30, 30, -30, 29, -28, 22, 0, -22, 28, -29, 30, -30,
   28, -24, 6, -2, 2, -6, 22, -22, 6, -1, 0, 1, -6, 22, -22, 5, 0, -5, 22, -22, 7, -7, 22, -22, 7,
   -7, 22, -21, 0, 20, -20, 0, 20, -20, 0, 20, -20, -1, 22, -28, 29, -29, 28, -22, 0, 22, -28, 29,
   -30, 30, -30, 30, -30, 30, -30, 29, -28, 22, 0, -22, 27, -27, 22, 0, -22, 27, -27, 22, -1, -20,
   20, 0, -20, 20, 0, -21, 22, -7, 7, -22, 22, -7, 7, -22, 22, -5, 0, 5, -22, 22, -5, 0, 5, -22,
   22, -6, 2, -1, 1, -2, 6]

/-- Scaled by `10^0`, part 19. -/
def uranusGramPresPart19 : List ℤ :=
  [-22, 22, -6, 2, 0, 0, 0, 0, 0, 0, 0, 0, 0, 0, 0, 0, 0, 0, 0, 0, 0, 0, 0, 0, 0, 0, 0, 0, 0, 2,
   -6, 22, -22, 6, -2, 1, -1, 2, -6, 22, -22, 5, 0, -5, 22, -22, 5, 0, -5, 22, -22, 7, -7, 22, -22,
   7, -7, 22, -21, 0, 20, -20, 0, 20, -20, 0, 20, -20, 0, 20, -20, -1, 22, -27, 27, -22, 0, 22,
   -27, 27, -22, 0, 22, -28, 29, -30, 30, -30, 30, -30, 30, -30, 30, -30, 30, -30, 30, -30, 29,
   -28, 22, -1, -20, 20, -1, -15, 12, -3, -1, 2, -1, 0, 0, 0, 0, 0, 0, -1, 2, -2, 0, 2, -3, 3, -3,
   2, 0, -2, 2, -1, 0, 0, 0, 0, 0, 0, -1, 2, -2, 0, 2, -3, 3, -3, 3, -3, 2, -1, 1, -2, 2, -1, 0, 0,
   -1, 2, -2, 1, -1, 2, -2, 0, 1, 0, -2, 3, -3, 2, -1, 0, 0, 1, -2, 2, 2, -2, 1, 0, -1, 2, -2, 0,
   2, -3, 3, -3, 3, -3, 2, -1, 0, 1, -2, 2, -1, 0, 0, -1, 3, -5]

/-- Scaled by `10^0`, part 20. -/
def uranusGramPresPart20 : List ℤ :=
  [10, -5, 3, -1, 0, 0, 0, 0, 0, 0, 0, 0, 0, 0, 0, 0, 0, -1, 2, -2, 1, -1, 2, -2, 0, 2, -3, 3, -2,
   0, 1, 0, -2, 3, -3, 3, -3, 2, -1, 1, -2, 2, -1, 1, -2, 2, -1, 0, 0, 0, 0, 0, 0, 0, 0, 0, 0, -1,
   2, -2, 1, 0, -1, 2, -2, 0, 2, -2, 0, 2, -3, 3, -3, 3, -3, 3, -3, 3, -3, 2, 0, -2, 2, -1, 1, -2,
   2, -1, 0, 1, -2, 2, -1, 0, 0, 0, 0, 0, 0, 0, -2, 0, 0, 0, 0, -1, 2, -2, 1, 0, -1, 2, -2, 0, 2,
   -2, 0, 2, -3, 3, -3, 3, -3, 3, -3, 2, 0, -2, 2, 0, -2, 2, -1, 1, -2, 2, -1, 0, 0, 0, 0, 0, 0, 0,
   0, 0, 0, 0, 0, -1, 2, -2, 1, -1, 2, -2, 0, 2, -2, 0, 2, -3, 3, -3, 3, -3, 3, -3, 2, 0, -2, 2, 0,
   -2, 2, 0, -2, 2, -1, 0, 0, 0, 1, -2, 2, -1, 0, 0, 0, -1, 2, -2, 1, 0, 0, 0, -1, 2, -2, 1]

/-- Scaled by `10^0`, part 21. -/
def uranusGramPresPart21 : List ℤ :=
  [0, 0, 0, 0, 0, 0, 0, 0, 0, 0, 0, 0, 0, 0, -1, 2, -2, 1, -1, 2, -2, 0, 2, -2, 0, 2, -3, 3, -3, 3,
   -3, 3, -3, 3, -3, 2, 0, -2, 2, 0, -2, 2, -1, 0, 1, -2, 2, -1, 0, 0, 0, 0, 0, 0, 0, 0, 0, 0, 0,
   0, 0, -1, 2, -2, 1, 0, -1, 2, -2, 0, 2, -2, 0, 2, -3, 3, -2, 0, 2, -3, 2, 0, -2, 3, -3, 2, 0,
   -2, 2, 0, -2, 2, -1, 1, -2, 2, -1, 0, 0, 0, 0, 0, 0, -1, 2, -2, 0, 2, -2, 0, 2, -2, 0, 2, -3, 3,
   -3, 3, -3, 3, -3, 3, -3, 2, 0, -2, 3, -3, 2, 0, -2, 2, -1, 1, -2, 2, -1, 0, 0, 1, -2, 2, -1, 0,
   0, 0, 0, 0, 0, 0, 0, 0, 0, 0, 0, 0, 0, -1, 2, -2, 1, 0, 0, -1, 2, -2, 1, -1, 2, -2, 0, 2, -2, 0,
   2, -3, 3, -2, 0, 2, -3, 3, -3, 3, -3, 2, 0, -2, 3, -3, 2, 0, -2, 2, 0, -2, 2, 0, -2, 2]

/-- Scaled by `10^0`, part 22. -/
def uranusGramPresPart22 : List ℤ :=
  [2, -2, 2, 0, -2, 2, 0, -2, 2, -1, 1, -2, 2, -1, 0, 1, -2, 2, -1, 0, 0, 1, -2, 2, -1, 0, 0, 0, 0,
   0, 0, 0, 0, 0, 0, 0, 0, 0, 0, 0, 0, 0, 0, 0, 0, -1, 2, -2, 1, 0, 0, 0, -1, 2, -2, 1, 0, -1, 2,
   -2, 1, -1, 2, -2, 0, 2, -2, 0, 2, -2, 0, 2, -2, 0, 2, -3, 3, -3, 3, -2, 0, 2, -3, 3, -3, 3, -3,
   3, -3, 3, -3, 2, 0, -2, 3, -3, 2, 0, -2, 3, -3, 3, -3, 3, -3, 3, -3, 3, -3, 2, 0, -2, 3, -3, 2,
   0, -2, 3, -3, 2, 0, -2, 2, -1, 1, -2, 2, 0, -2, 2, -1, 1, -2, 2, -1, 0, 0, 1, -2, 2, -1, 0, 0,
   0, 1, -2, 2, -1, 0, 0, 0, 0, 0, 0, 0, 0, 0, 0, 0, 0, 0, 0, 0, 0, 0, 0, 0, -1, 2, -2, 1, 0, 0, 0,
   0, -1, 2, -2, 1, 0, -1, 2, -2, 1, -1, 2, -2, 1, -1, 2, -2, 1, -1, 2, -2, 0, 2, -2, 0, 3]

/-- Scaled by `10^0`, part 23. -/
def uranusGramPresPart23 : List ℤ :=
  [-5, -1, 2, 0, 0, 1, -2, 2, -1, 0, 0, 0, 0, 0, 0, 0, 0, 0, 0, -1, 2, -2, 1, 0, -1, 2, -2, 1, -1,
   2, -2, 0, 2, -2, 0, 2, -3, 3, -3, 3, -3, 3, -3, 3, -3, 2, 0, -2, 2, 0, -2, 2, 0, -2, 2, -1, 0,
   1, -2, 2, -1, 0, 0, 0, 0, 0, 0, 1, -3, 4, -3, 1, 0, 0, 0, 0, 0, 0, 0, -1, 2, -2, 1, -1, 2, -2,
   1, -1, 2, -2, 0, 2, -3, 3, -2, 0, 2, -3, 3, -3, 2, 2, -2, 0, 2, -2, 0, 2, -2, 0, 2, -3, 3, -2,
   0, 2, -3, 3, -3, 3, -3, 3, -3, 3, -3, 3, -3, 2, 0, -2, 3, -3, 2, 0, -2, 2, 0, -2, 2, 0, -2, 2,
   0, -2, 2, -1, 1, -2, 2, -1, 0, 1, -2, 2, -1, 0, 0, 0, 0, 1, -2, 2, -1, 0, 0, 0, 0, 0, 0, 0, 0,
   0, 0, 0, 0, 0, 0, 0, 0, 0, -1, 2, -2, 1, 0, 0, 0, 0, -1, 2, -2, 1, 0, -1, 2, -2, 1, -1, 2, -3]

/-- Scaled by `10^0`, part 24. -/
def uranusGramPresPart24 : List ℤ :=
  [2, 1, 0, -2, 3, -3, 3, -3, 3, -3, 2, 0, -2, 3, -3, 2, 0, -2, 3, -3, 2, 0, -2, 2, 0, -2, 3, -3,
   2, 0, -2, 2, 0, -2, 2, 0, -2, 2, 0, -2, 2, 0, -2, 2, -1, 1, -2, 2, 0, -2, 2, -1, 1, -2, 2, -1,
   1, -2, 2, -1, 1, -2, 2, -1, 1, -2, 2, -1, 0, 1, -2, 2, -1, 0, 1, -2, 2, -1, 0, 0, 1, -2, 2, -1,
   0, 0, 1, -2, 2, -1, 0, 0, 0, 1, -2, 2, -1, 0, 0, 0, -1, -2, 2, -1, 0, 1, -2, 2, -1, 0, 0, 0, 1,
   -2, 2, -1, 0, 0, 0, 0, 0, 0, 0, 0, 0, 1, -2, 2, -1, 0, 0, 0, 0, -1, 2, -2, 1, 0, 0, 0, 0, 0, 0,
   0, 0, 0, -1, 2, -2, 1, 0, 0, 0, -1, 2, -2, 1, 0, 0, -1, 2, -2, 1, -1, 2, -2, 1, -1, 2, -2, 1,
   -1, 2, -2, 0, 2, -2, 0, 2, -2, 0, 2, -2, 0, 2, -2, 0, 2, -3, 3, -2, 0, 2, -3, 3, -3, 3, -2, 0, 1]

/-- Scaled by `10^0`, part 25. -/
def uranusGramPresPart25 : List ℤ :=
  [3, 0, -2, 2, -1, 0, 1, -2, 2, -1, 0, 1, -2, 2, -1, 0, 1, -2, 2, -1, 0, 1, -2, 2, -1, 0, 1, -2,
   2, -1, 0, 1, -2, 2, -1, 0, 1, -2, 2, -1, 0, 1, -2, 2, -1, 0, 1, -2, 2, -1, 0, 0, 1, -2, 2, -1,
   0, 1, -2, 2, -1, 0, 1, -2, 2, -1, 0, 1, -2, 2, -1, 0, 1, -2, 2, -1, 0, 1, -2, 2, -1, 0, 1, -2,
   2, -1, 0, 0, 1, -2, 2, -1, 0, 1, -2, 2, -1, 0, 1, -2, 2, -1, 0, 0, 1, -2, 2, -1, 0, 0, 1, -2, 2,
   -1, 0, 1, -2, 2, -1, 0, 0, 1, -2, 2, -1, 0, 0, 1, -2, 2, -1, 0, 0, 1, -2, 2, -1, 0, 0, 1, -2, 2,
   -1, 0, 0, 1, -2, 2, -1, 0, 0, 1, -2, 2, -1, 0, 0, 1, -2, 2, -1, 0, 1, -2, 2, -1, 0, 0, 1, -2, 2,
   -1, 0, 0, 1, -2, 2, -1, 0, 0, 1, -2, 2, -1, 0, 0, 1, -2, 2, -1, 0, 0, 1, -2, 2, -1, 0, 0, 0, -1]

/-- Scaled by `10^0`, part 26. -/
def uranusGramPresPart26 : List ℤ :=
  [-2]

/-- Scaled by `10^0`. -/
def uranusGramPres : List ℤ :=
    (uranusGramPresPart0 ++ uranusGramPresPart1 ++ uranusGramPresPart2 ++ uranusGramPresPart3 ++
    uranusGramPresPart4 ++ uranusGramPresPart5 ++ uranusGramPresPart6 ++ uranusGramPresPart7 ++
    uranusGramPresPart8 ++ uranusGramPresPart9 ++ uranusGramPresPart10 ++ uranusGramPresPart11 ++
    uranusGramPresPart12 ++ uranusGramPresPart13 ++ uranusGramPresPart14 ++ uranusGramPresPart15
    ++ uranusGramPresPart16 ++ uranusGramPresPart17 ++ uranusGramPresPart18 ++
    uranusGramPresPart19 ++ uranusGramPresPart20 ++ uranusGramPresPart21 ++ uranusGramPresPart22
    ++ uranusGramPresPart23 ++ uranusGramPresPart24 ++ uranusGramPresPart25 ++
    uranusGramPresPart26)

/-- Scaled by `10^0`, part 0. -/
def uranusGramTempPart0 : List ℤ :=
  [2, 1, 0, 1, -2, 2, -1, 0, 1, -2, 2, -1, 0, 1, -2, 2, -1, 0, 1, -2, 2, -1, 0, 1, -2, 2, -1, 0, 1,
   -2, 2, -1, 0, 0, 1, -2, 2, -1, 0, 1, -2, 2, -1, 0, 0, 1, -2, 2, -1, 0, 0, 0, 1, -2, 2, -1, 0, 0,
   1, -2, 2, -1, 0, 0, 0, 1, -2, 2, -1, 0, 0, 0, 0, 1, -2, 2, -1, 0, 0, 0, 0, 1, -2, 2, -1, 0, 0,
   0, 0, 1, -2, 2, -1, 0, 0, 0, 0, 0, 0, 1, -2, 2, -1, 0, 0, 0, 0, 0, 0, 0, 0, 1, -2, 2, -1, 0, 0,
   0, 0, 0, 0, 0, 0, 0, 0, 1, -2, 2, -1, 0, 0, 0, 0, 0, 0, 0, 0, 0, 0, 0, 0, 0, 0, 0, 0, 0, 1, -2,
   2, -1, 0, 0, 0, 0, 0, 0, 0, 0, 0, 0, 0, 0, 0, 0, 0, 0, 0, 0, 0, 0, 0, 0, 0, 0, 0, 0, 0, 0, 0, 0,
   0, 0, 0, 0, 0, 0, 1, -2, 2, -1, 3, -3, 3, -3, 3, -3, -1, 2, -3, 2]

/-- Scaled by `10^0`, part 1. -/
def uranusGramTempPart1 : List ℤ :=
  [-1, 0, 0, 0, 0, -1, 2, -3, 3, -3, 5, -3, 3, -3, 2, 2, -3, 3, -3, 2, 1, 0, -2, 2, -1, 2, -1, 2,
   -2, 0, 3, -1, 0, 0, 0, 0, -1, 2, -2, 1, -1, 2, -3, 3, -3, 3, -1, 2, -2, 0, 1, 0, -2, 2, -1, 3,
   -3, 3, -3, 3, -2, 0, 2, -2, 0, 2, 0, 0, 0, 0, -1, 2, -3, 3, -2, 1, -1, 2, -2, 0, 2, -1, 2, -2,
   0, 1, 2, -3, 3, -3, 2, 2, -3, 4, -6, 14, -3, -1, 0, 6, -25, 5, 1, -2, 2, 1, 0, -2, 2, -1, 3, 1,
   -3, 3, -4, 6, -4, 3, -3, 2, 2, 2, -2, 2, -1, -5, 1, 0, 0, 0, 1, -2, 3, -3, 4, -6, 2, -3, 2, -1,
   0, 1, -2, 2, -1, 1, 2, -3, 3, -3, 5, -3, 3, -3, 1, 3, -3, 3, -3, 2, -1, 1, -2, 3, -3, 9, -4, 0,
   3, -5, 13, -3, 1, 0, -2, 9, -2, 0, 2, -1, -3, 1, 0, 0, 1, -4, 1, -2, 2, 1, -4, -1, 3, -3, 3, -5,
   3, -2, 0, 2]

/-- Scaled by `10^0`, part 2. -/
def uranusGramTempPart2 : List ℤ :=
  [-2, 1, -1, 2, -2, 2, -10, 3, -1, 2, -2, 0, 1, -6, 4, -2, 0, 2, -3, 3, -4, 1, 0, 0, 0, 0, 0, -2,
   0, 0, -2, 2, 0, -2, 3, -3, 2, 0, -2, 2, 0, -2, 2, 0, -2, 3, -3, 2, 0, -1, -1, 1, -1, 2, -2, 0,
   2, -1, 2, -3, 2, 0, -2, 3, -5, 3, -3, 1, -1, 2, -3, 2, 2, -2, 2, 0, -2, 3, -2, -1, 0, 2, -2, 1,
   -1, 2, -1, 2, 0, -2, 2, 0, -2, 2, 0, -2, 3, -3, 2, 0, -2, 3, -3, 2, 0, -2, 2, -1, 2, -1, 0, 0,
   0, 0, 0, -1, -2, 2, 0, -2, 3, -4, 6, -2, 3, -2, 0, 2, -2, 1, -2, 1, 0, 0, 0, 0, -1, 5, -1, -2,
   2, -1, 1, -2, 2, -1, 1, -2, 2, -1, 1, -2, 2, -1, 1, -2, 2, 0, -1, 6, -4, 3, -2, 0, 2, -3, 3, -2,
   1, 0, 0, 0, 0, 0, -1, 2, -2, 1, 0, 0, 0, 0, 0, 0, -1, 2, -2, 1, 0, 0, 0, 0, 0, 0, 0, -1, 2, -2,
   0, 1]

/-- Scaled by `10^0`, part 3. -/
def uranusGramTempPart3 : List ℤ :=
  [-3, -1, 2, -1, 1, -2, 2, -1, 1, -2, 2, 2, -2, 1, 0, -1, 2, -2, 1, 0, 0, -1, 2, -2, 1, 0, 0, -1,
   2, -2, 1, 0, -1, 2, -2, 1, 0, 0, -1, 2, -2, 1, 0, 0, -1, 2, -2, 1, 0, 0, -1, 2, -2, 1, 0, -1, 2,
   -3, 2, -7, 25, -8, 2, 2, -3, 3, -3, 3, -4, 5, -17, 3, -1, 2, -2, 0, 2, -2, 0, 2, -2, 0, 2, -2,
   0, 2, -2, 0, 2, -8, 34, -9, 2, -1, 0, 0, 0, 0, 0, 6, -31, 8, -2, 1, 0, 0, 0, 0, 0, 0, -2, 0, 2,
   -2, 0, 2, -2, 0, 2, -3, 4, -2, 2, -2, 1, -1, 2, -2, 1, -2, 5, -1, -2, 3, -3, 2, 0, -2, 2, -1,
   -4, 0, 0, 2, -2, 0, 2, -3, 3, -2, 0, 2, -2, 0, 2, -2, 0, 2, -1, -3, 12, -3, 1, 0, 0, 0, 0, 0, 0,
   0, 0, 0, 0, 0, 0, 0, 0, 0, 0, 1, -2, 1, -2, 2, 0, -2, 2, -1, 1, -2, 0, 0, 0, 0, 0, 0, 0, 0, -1,
   2]

/-- Scaled by `10^0`, part 4. -/
def uranusGramTempPart4 : List ℤ :=
  [-9, 3, -3, 2, 0, -2, 2, 0, -2, 2, 0, -2, 2, 0, -2, 2, 0, -2, 3, -3, 10, -1, 1, -2, 2, 0, -2, 2,
   1, -4, 11, -3, 1, -2, 2, -1, 0, 1, -2, 3, -4, 1, 0, 0, 0, 0, 0, 0, -1, 3, -10, 2, 1, -2, 1, 0,
   0, 0, 2, 0, -8, 4, 0, -2, 2, 0, -2, 2, 0, -2, 2, -1, 1, -2, 2, 0, -2, 2, 1, -8, 23, -6, -1, 2,
   -3, 2, 0, -2, 1, 5, -20, 5, 1, -2, 0, 2, -3, 3, -2, -1, 6, -4, 3, -2, 0, 2, -3, 3, -3, 3, -3, 3,
   -3, 2, 0, -2, 3, -3, 2, 0, -3, 1, 0, 0, 0, 0, 0, 0, 0, 0, 0, 0, 0, 0, -1, 2, -2, 1, 0, 0, 1, 2,
   -3, 3, -2, 0, 2, -3, 3, -2, 0, 2, -2, 0, 2, -3, 3, -2, -1, 4, -11, 4, -1, -2, 3, -3, 3, -3, 3,
   -2, -1, -1, 0, 2, -2, 1, -1, 2, -2, 0, 2, -2, 0, 2, -2, 0, 2, -2, 0, 2, -2, 1, -1, 2, -2, 0, 2,
   -2, 0, 2]

/-- Scaled by `10^0`, part 5. -/
def uranusGramTempPart5 : List ℤ :=
  [-2, 0, 2, -2, 1, -1, 2, -2, 0, 3, -4, 1, -1, 2, -2, 0, 2, -2, 1, 0, 0, -1, 2, -2, 1, 0, 0, 0, 0,
   0, 0, 0, -1, 2, -2, 1, 0, 0, 0, 0, 0, 0, -1, 2, -2, 1, 0, 0, 0, 0, 0, 0, -1, 2, -2, 1, 0, 0, 0,
   0, 0, 0, -1, 2, -2, 1, 0, 0, 0, 0, 0, 0, -1, 2, -2, 1, 0, 0, 0, 0, 0, 0, 0, 1, -2, 2, -1, 0, 0,
   0, 1, -2, 2, -1, 1, -2, 2, -1, 1, -2, 2, -1, 1, -2, 2, -1, 1, -2, 2, -1, 1, -2, 2, -1, 1, -2, 2,
   -1, 1, -2, 2, -1, 1, -2, 2, -1, 1, -2, 2, -1, 1, -2, 2, -1, 0, 1, -2, 2, 0, -2, 2, -1, 0, 1, -2,
   2, -1, 1, -2, 2, 0, -2, 2, -1, 1, -2, 2, -1, 1, -2, 2, -1, 0, 1, -2, 2, -1, 0, 1, -2, 2, -1, 0,
   0, 0, 0, 0, 0, 0, 0, 0, 0, 0, 0, 0, 0, 0, 0, 0, 0, 0, 0, 0, 0, 0, 0, 0, 0, 0, 0]

/-- Scaled by `10^0`, part 6. -/
def uranusGramTempPart6 : List ℤ :=
  [0, 1, -2, 2, -1, 0, 1, -2, 2, -1, 1, -2, 2, -1, 0, 1, -2, 2, -1, 0, 1, -2, 2, -1, 0, 1, -2, 2,
   -1, 0, 1, -2, 2, -1, 1, -2, 2, -1, 0, 1, -2, 2, -1, 0, 1, -2, 2, -1, 0, 1, -2, 2, -1, 0, 1, -2,
   2, -1, 1, -2, 2, -1, 0, 1, -2, 2, -1, 0, 1, -2, 2, -1, 0, 1, -2, 2, -1, 1, -2, 2, -1, 0, 1, -2,
   2, -1, 0, 1, -2, 2, -1, 0, 1, -2, 2, -1, 0, 1, -2, 2, -1, 1, -2, 2, -1, 1, -2, 2, -1, 1, -2, 2,
   -1, 1, -2, 2, -1, 1, -2, 2, -1, 1, -2, 2, -1, 1, -2, 2, -1, 1, -2, 2, -1, 1, -2, 2, -1, 1, -2,
   2, -1, 1, -2, 2, -1, 1, -2, 2, -1, 1, -2, 2, -1, 1, -2, 2, -1, 1, -2, 2, -1, 1, -2, 2, -1, 1,
   -2, 2, -1, 1, -2, 2, -1, 1, -2, 2, -1, 1, -2, 2, -1, 1, -2, 2, -1, 1, -2, 2, -1, 1, -2, 2, -1,
   1, -2, 2, -1, 1, -2, 2]

/-- Scaled by `10^0`, part 7. -/
def uranusGramTempPart7 : List ℤ :=
  [-1, 0, 1, -2, 2, -1, 0, 0, 1, -2, 2, -1, 0, 0, 1, -2, 2, -1, 0, 1, -2, 2, -1, 0, 0, 1, -2, 2,
   -1, 0, 1, -2, 2, -1, 0, 0, 1, -2, 2, -1, 0, 0, 1, -2, 2, -1, 0, 1, -2, 2, -1, 0, 0, 1, -2, 2,
   -1, 0, 1, -2, 2, -1, 0, 0, 1, -2, 2, -1, 0, 1, -2, 2, -1, 0, 0, 1, -2, 2, -1, 0, 0, 1, -2, 2,
   -1, 0, 1, -2, 2, -1, 0, 0, 1, -2, 2, -1, 0, 1, -2, 2, -1, 0, 0, 0, 0, 0, 0, 1, -2, 2, -1, 0, 0,
   0, 0, 0, 0, 0, 0, 1, -2, 2, -1, 0, 0, 0, 0, 0, 0, 0, 1, -2, 2, -1, 0, 0, 0, 0, 0, 0, 0, 1, -2,
   2, -1, 0, 0, 0, 0, 0, 0, 0, 1, -2, 2, -1, 0, 0, 0, 0, 0, 0, 0, 1, -2, 2, -1, 0, 0, 0, 0, 0, 0,
   0, 1, -2, 2, -1, 0, 0, 0, 0, 0, 0, 0, 1, -2, 2, -1, 0, 0, 0, 0, 0, 0, 0, 1, -2, 2, -1]

/-- Scaled by `10^0`, part 8. -/
def uranusGramTempPart8 : List ℤ :=
  [0, 0, 1, -2, 2, -1, 1, -2, 2, -1, 1, -2, 2, -1, 1, -2, 2, -1, 1, -2, 2, -1, 0, 1, -2, 2, -1, 1,
   -2, 2, -1, 1, -2, 2, -1, 1, -2, 2, -1, 1, -2, 2, -1, 1, -2, 2, -1, 1, -2, 2, -1, 0, 1, -2, 2,
   -1, 1, -2, 2, -1, 1, -2, 2, -1, 1, -2, 2, -1, 1, -2, 2, -1, 1, -2, 2, -1, 0, 1, -2, 2, -1, 1,
   -2, 2, -1, 1, -2, 2, -1, 1, -2, 2, -1, 1, -2, 2, -1, 1, -2, 2, -1, 1, -2, 2, -1, 0, 1, -2, 2,
   -1, 1, -2, 2, -1, 1, -2, 2, -1, 1, -2, 2, -1, 0, 1, -2, 2, -1, 1, -2, 2, -1, 1, -2, 2, -1, 1,
   -2, 2, -1, 0, 1, -2, 2, -1, 1, -2, 2, -1, 1, -2, 2, -1, 1, -2, 2, -1, 0, 1, -2, 2, -1, 1, -2, 2,
   -1, 1, -2, 2, -1, 1, -2, 2, -1, 0, 1, -2, 2, -1, 1, -2, 2, -1, 1, -2, 2, -1, 1, -2, 2, -1, 1,
   -2, 2, -1, 0, 1, -2, 2, -1, 1]

/-- Scaled by `10^0`, part 9. -/
def uranusGramTempPart9 : List ℤ :=
  [-2, 2, -1, 1, -2, 2, -1, 1, -2, 2, -1, 1, -2, 2, -1, 1, -2, 2, -1, 0, 1, -2, 2, -1, 1, -2, 2,
   -1, 1, -2, 2, -1, 1, -2, 2, -1, 1, -2, 2, -1, 1, -2, 2, -1, 1, -2, 2, -1, 0, 1, -2, 2, -1, 1,
   -2, 2, -1, 1, -2, 2, -1, 1, -2, 2, -1, 1, -2, 2, -1, 1, -2, 2, -1, 1, -2, 2, -1, 1, -2, 2, -1,
   0, 1, -2, 2, -1, 1, -2, 2, -1, 1, -2, 2, -1, 1, -2, 2, -1, 1, -2, 2, -1, 0, 0, 0, 0, 1, -2, 2,
   -1, 0, 0, 0, 0, 1, -2, 2, -1, 0, 0, 0, 0, 1, -2, 2, -1, 0, 0, 0, 0, 1, -2, 2, -1, 0, 0, 0, 0, 1,
   -2, 2, -1, 0, 0, 0, 0, 1, -2, 2, -1, 0, 0, 0, 0, 1, -2, 2, -1, 0, 0, 0, 0, 1, -2, 2, -1, 0, 0,
   0, 0, 1, -2, 2, -1, 0, 0, 0, 0, 1, -2, 2, -1, 0, 0, 0, 0, 1, -2, 2, -1, 0, 0, 0, 0, 1, -2, 2,
   -1, 0, 0]

/-- Scaled by `10^0`, part 10. -/
def uranusGramTempPart10 : List ℤ :=
  [1, -2, 2, 0, -2, 2, 0, -2, 3, -3, 2, 0, -2, 2, 0, -2, 2, 0, -2, 2, 0, -2, 2, 0, -2, 2, 0, -2, 2,
   0, -2, 2, 0, -2, 2, 0, -2, 2, 0, -2, 2, 0, -2, 2, 0, -2, 3, -3, 2, 0, -2, 2, 0, -2, 2, 0, -2, 2,
   0, -2, 2, 0, -2, 2, 0, -2, 2, 0, -2, 2, 0, -2, 2, 0, -2, 2, 0, -2, 2, 0, -2, 2, 0, -2, 3, -3, 2,
   0, -2, 2, 0, -2, 2, 0, -2, 2, 0, -2, 2, 0, -2, 2, -1, 1, -2, 2, 0, -2, 2, -1, 1, -2, 2, -1, 1,
   -2, 2, 0, -2, 2, -1, 1, -2, 2, 0, -2, 2, -1, 1, -2, 2, -1, 1, -2, 2, 0, -2, 2, -1, 1, -2, 2, 0,
   -2, 2, -1, 1, -2, 2, -1, 1, -2, 2, 0, -2, 2, -1, 1, -2, 2, 0, -2, 2, -1, 1, -2, 2, -1, 1, -2, 2,
   0, -2, 2, -1, 1, -2, 2, 0, -2, 2, -1, 1, -2, 2, -1, 1, -2, 2, 0, -2, 2, -1, 1, -2, 2, 0, -2, 2,
   -1]

/-- Scaled by `10^0`, part 11. -/
def uranusGramTempPart11 : List ℤ :=
  [0, 1, -2, 2, -1, 0, 0, 0, 1, -2, 2, -1, 0, 0, 1, -2, 2, -1, 0, 0, 0, 1, -2, 2, -1, 0, 0, 1, -2,
   2, -1, 0, 0, 0, 1, -2, 2, -1, 0, 0, 0, 1, -2, 2, -1, 0, 0, 1, -2, 2, -1, 0, 0, 0, 1, -2, 2, -1,
   0, 0, 1, -2, 2, -1, 0, 0, 0, 1, -2, 2, -1, 0, 0, 0, 1, -2, 2, -1, 0, 0, 1, -2, 2, -1, 0, 0, 0,
   1, -2, 2, -1, 0, 0, 1, -2, 2, -1, 0, 0, 0, 1, -2, 2, -1, 0, 0, 1, -2, 2, -1, 0, 1, -2, 2, -1, 0,
   0, 1, -2, 2, -1, 0, 0, 1, -2, 2, -1, 0, 0, 1, -2, 2, -1, 0, 0, 1, -2, 2, -1, 0, 0, 1, -2, 2, -1,
   0, 1, -2, 2, -1, 0, 0, 1, -2, 2, -1, 0, 0, 1, -2, 2, -1, 0, 0, 1, -2, 2, -1, 0, 0, 1, -2, 2, -1,
   0, 0, 1, -2, 2, -1, 0, 0, 1, -2, 2, -1, 0, 1, -2, 2, -1, 0, 0, 1, -2, 2, -1, 0, 0, 1]

/-- Scaled by `10^0`, part 12. -/
def uranusGramTempPart12 : List ℤ :=
  [-2, 2, -1, 1, -2, 2, -1, 1, -2, 2, 0, -2, 2, -1, 1, -2, 2, -1, 1, -2, 2, -1, 1, -2, 2, -1, 1,
   -2, 2, -1, 1, -2, 2, 0, -2, 2, -1, 1, -2, 2, -1, 1, -2, 2, -1, 1, -2, 2, -1, 1, -2, 2, -1, 1,
   -2, 2, 0, -2, 2, -1, 1, -2, 2, -1, 1, -2, 2, -1, 1, -2, 2, -1, 1, -2, 2, -1, 1, -2, 2, 0, -2, 2,
   -1, 1, -2, 2, -1, 1, -2, 2, -1, 1, -2, 2, -1, 1, -2, 2, 0, -2, 2, -1, 1, -2, 2, 0, -2, 2, -1, 1,
   -2, 2, 0, -2, 2, -1, 1, -2, 2, 0, -2, 2, 0, -2, 2, -1, 1, -2, 2, 0, -2, 2, -1, 1, -2, 2, 0, -2,
   2, 0, -2, 2, -1, 1, -2, 2, 0, -2, 2, -1, 1, -2, 2, 0, -2, 2, 0, -2, 2, -1, 1, -2, 2, 0, -2, 2,
   -1, 1, -2, 2, 0, -2, 2, 0, -2, 2, -1, 1, -2, 2, 0, -2, 2, -1, 1, -2, 2, 0, -2, 2, 0, -2, 2, -1,
   1, -2, 2, 0, -2, 2]

/-- Scaled by `10^0`, part 13. -/
def uranusGramTempPart13 : List ℤ :=
  [0, -2, 2, 0, -2, 2, 0, -2, 2, 0, -2, 2, 0, -2, 2, 0, -2, 2, 0, -2, 2, 0, -2, 2, 0, -2, 3, -3, 2,
   0, -2, 2, 0, -2, 2, 0, -2, 2, 0, -2, 2, 0, -2, 2, 0, -2, 2, 0, -2, 2, 0, -2, 2, 0, -2, 2, 0, -2,
   2, 0, -2, 3, -3, 2, 0, -2, 2, 0, -2, 2, 0, -2, 2, 0, -2, 2, 0, -2, 2, 0, -2, 2, 0, -2, 2, 0, -2,
   2, 0, -2, 2, 0, -2, 2, 0, -2, 3, -3, 2, -1, 1, -2, 2, 0, -2, 2, -1, 1, -2, 2, 0, -2, 2, -1, 1,
   -2, 2, 0, -2, 2, -1, 1, -2, 2, 0, -2, 2, -1, 1, -2, 2, 0, -2, 2, -1, 1, -2, 2, 0, -2, 2, -1, 1,
   -2, 2, 0, -2, 2, -1, 1, -2, 2, 0, -2, 2, -1, 1, -2, 2, 0, -2, 2, -1, 1, -2, 2, 0, -2, 2, -1, 1,
   -2, 2, -1, 1, -2, 2, 0, -2, 2, -1, 1, -2, 2, 0, -2, 2, -1, 1, -2, 2, 0, -2, 2, -1, 1, -2, 2, 0,
   -2]

/-- Scaled by `10^0`, part 14. -/
def uranusGramTempPart14 : List ℤ :=
  [2, -1, 1, -2, 2, -1, 1, -2, 2, -1, 0, 1, -2, 2, -1, 1, -2, 2, -1, 1, -2, 2, -1, 1, -2, 2, -1, 1,
   -2, 2, -1, 0, 1, -2, 2, -1, 1, -2, 2, -1, 1, -2, 2, -1, 1, -2, 2, -1, 1, -2, 2, -1, 0, 1, -2, 2,
   -1, 1, -2, 2, -1, 1, -2, 2, -1, 1, -2, 2, -1, 0, 1, -2, 2, -1, 1, -2, 2, -1, 1, -2, 2, -1, 1,
   -2, 2, -1, 1, -2, 2, -1, 0, 1, -2, 2, -1, 1, -2, 2, -1, 1, -2, 2, -1, 1, -2, 2, 0, -2, 2, -1, 1,
   -2, 2, -1, 1, -2, 2, -1, 1, -2, 2, 0, -2, 2, -1, 1, -2, 2, -1, 1, -2, 2, -1, 1, -2, 2, 0, -2, 2,
   -1, 1, -2, 2, -1, 1, -2, 2, -1, 1, -2, 2, 0, -2, 2, -1, 1, -2, 2, -1, 1, -2, 2, -1, 1, -2, 2, 0,
   -2, 2, -1, 1, -2, 2, -1, 1, -2, 2, -1, 1, -2, 2, 0, -2, 2, -1, 1, -2, 2, -1, 1, -2, 2, -1, 1,
   -2, 2, 0, -2, 2, -1]

/-- Scaled by `10^0`, part 15. -/
def uranusGramTempPart15 : List ℤ :=
  [1, -2, 2, 0, -2, 2, 0, -2, 3, -3, 2, 0, -2, 2, 0, -2, 2, 0, -2, 2, 0, -2, 2, 0, -2, 2, 0, -2, 2,
   0, -2, 2, 0, -2, 2, 0, -2, 2, 0, -2, 2, 0, -2, 2, 0, -2, 3, -3, 2, 0, -2, 2, 0, -2, 2, 0, -2, 2,
   0, -2, 2, 0, -2, 2, 0, -2, 2, 0, -2, 2, 0, -2, 2, 0, -2, 2, 0, -2, 2, 0, -2, 2, 0, -2, 3, -3, 2,
   0, -2, 2, 0, -2, 2, 0, -2, 2, 0, -2, 2, 0, -2, 2, 0, -2, 2, 0, -2, 2, 0, -2, 2, 0, -2, 2, 0, -2,
   2, 0, -2, 3, -3, 2, 0, -2, 2, 0, -2, 2, 0, -2, 2, 0, -2, 2, 0, -2, 2, 0, -2, 2, 0, -2, 2, 0, -2,
   2, 0, -2, 2, 0, -2, 2, 0, -2, 3, -3, 2, 0, -2, 2, 0, -2, 2, 0, -2, 2, 0, -2, 2, 0, -2, 2, 0, -2,
   2, 0, -2, 2, 0, -2, 2, 0, -2, 2, 0, -2, 2, 0, -2, 3, -3, 2, 0, -2, 2, 0, -2, 2, 0, -2]

/-- Scaled by `10^0`, part 16. -/
def uranusGramTempPart16 : List ℤ :=
  [2, -1, 0, 0, 0, 0, 1, -2, 2, -1, 0, 0, 0, 0, 1, -2, 2, -1, 0, 0, 0, 0, 1, -2, 2, -1, 0, 0, 0, 1,
   -2, 2, -1, 0, 0, 0, 0, 1, -2, 2, -1, 0, 0, 0, 0, 1, -2, 2, -1, 0, 0, 0, 0, 1, -2, 2, -1, 0, 0,
   0, 0, 1, -2, 2, -1, 0, 0, 0, 0, 1, -2, 2, -1, 0, 0, 0, 0, 1, -2, 2, -1, 0, 0, 0, 0, 1, -2, 2,
   -1, 0, 0, 0, 0, 1, -2, 2, -1, 0, 0, 0, 1, -2, 2, 0, -2, 2, -1, 1, -2, 2, 0, -2, 2, -1, 1, -2, 2,
   0, -2, 2, -1, 1, -2, 2, -1, 1, -2, 2, 0, -2, 2, -1, 1, -2, 2, 0, -2, 2, -1, 1, -2, 2, 0, -2, 2,
   -1, 1, -2, 2, -1, 1, -2, 2, 0, -2, 2, -1, 1, -2, 2, 0, -2, 2, -1, 1, -2, 2, 0, -2, 2, -1, 1, -2,
   2, -1, 1, -2, 2, 0, -2, 2, -1, 1, -2, 2, 0, -2, 2, -1, 1, -2, 2, 0, -2, 2, -1, 1, -2, 2, 0]

/-- Scaled by `10^0`, part 17. -/
def uranusGramTempPart17 : List ℤ :=
  [-2, 2, -1, 1, -2, 2, 0, -2, 2, 0, -2, 2, 0, -2, 2, 0, -2, 2, -1, 1, -2, 2, 0, -2, 2, 0, -2, 2,
   0, -2, 2, -1, 1, -2, 2, 0, -2, 2, 0, -2, 2, 0, -2, 2, 0, -2, 2, -1, 1, -2, 2, 0, -2, 2, 0, -2,
   2, 0, -2, 2, 0, -2, 2, -1, 1, -2, 2, 0, -2, 2, 0, -2, 2, 0, -2, 2, 0, -2, 2, -1, 1, -2, 2, 0,
   -2, 2, 0, -2, 2, 0, -2, 2, 0, -2, 2, -1, 1, -2, 2, 0, -2, 3, -3, 3, -3, 2, 0, -2, 3, -3, 3, -3,
   2, 0, -2, 3, -3, 2, 0, -2, 3, -3, 3, -3, 2, 0, -2, 3, -3, 3, -3, 2, 0, -2, 3, -3, 3, -3, 2, 0,
   -2, 3, -3, 3, -3, 2, 0, -2, 3, -3, 2, 0, -2, 3, -3, 3, -3, 2, 0, -2, 3, -3, 3, -3, 2, 0, -2, 3,
   -3, 3, -3, 2, 0, -2, 3, -3, 3, -3, 2, 0, -2, 3, -3, 3, -3, 2, 0, -2, 3, -3, 3, -3, 2, 0, -2, 3,
   -3, 2, 0, -2]

/-- Scaled by `10^0`, part 18. -/
def uranusGramTempPart18 : List ℤ :=
  [3, -3, 2, 0, -2, 2, 0, -2, 2, 0, -2, 2, -1, 1, -2, 2, 0, -2, 2, 0, -2, 2, 0, -2, 2, 0, -2, 2, 0,
   -2, 2, 0, -2, 2, 0, -2, 2, 0, -2, 2, 0, -2, 2, 0, -2, 2, 0, -2, 2, 0, -2, 2, 0, -2, 2, 0, -2, 2,
   0, -2, 2, 0, -2, 2, 0, -2, 2, 0, -2, 2, 0, -2, 2, -1, 1, -2, 2, 0, -2, 2, 0, -2, 2, 0, -2, 2, 0,
   -2, 2, 0, -2, 2, 0, -2, 2, 0, -2, 2, 0, -2, 2, 0, -2, 2, -1, 1, -2, 2, 0, -2, 2, -1, 1, -2, 2,
   -1, 1, -2, 2, 0, -2, 2, -1, 1, -2, 2, 0, -2, 2, -1, 1, -2, 2, 0, -2, 2, -1, 1, -2, 2, 0, -2, 2,
   -1, 1, -2, 2, 0, -2, 2, -1, 1, -2, 2, -1, 1, -2, 2, 0, -2, 2, -1, 1, -2, 2, 0, -2, 2, -1, 1, -2,
   2, 0, -2, 2, -1, 1, -2, 2, 0, -2, 2, -1, 1, -2, 2, 0, -2, 2, -1, 1, -2, 2, -1, 1, -2, 2, 0, -2,
   2]

/-- Scaled by `10^0`, part 19. -/
def uranusGramTempPart19 : List ℤ :=
  [0, -2, 2, 0, -2, 2, 0, -2, 2, -1, 1, -2, 2, 0, -2, 2, 0, -2, 2, 0, -2, 2, 0, -2, 2, 0, -2, 2, 0,
   -2, 2, 0, -2, 2, 0, -2, 2, 0, -2, 2, 0, -2, 2, 0, -2, 2, 0, -2, 2, 0, -2, 2, 0, -2, 2, -1, 1,
   -2, 2, 0, -2, 2, 0, -2, 2, 0, -2, 2, 0, -2, 2, 0, -2, 2, 0, -2, 2, 0, -2, 2, 0, -2, 2, 0, -2, 2,
   0, -2, 2, 0, -2, 2, 0, -2, 2, 0, -2, 2, -1, 1, -2, 3, -3, 2, 0, -2, 2, 0, -2, 2, 0, -2, 2, 0,
   -2, 2, 0, -2, 2, 0, -2, 2, 0, -2, 2, 0, -2, 2, 0, -2, 2, 0, -2, 3, -3, 2, 0, -2, 2, 0, -2, 2, 0,
   -2, 2, 0, -2, 2, 0, -2, 2, 0, -2, 2, 0, -2, 2, 0, -2, 2, 0, -2, 2, 0, -2, 2, 0, -2, 3, -3, 2, 0,
   -2, 2, 0, -2, 2, 0, -2, 2, 0, -2, 2, 0, -2, 2, 0, -2, 2, 0, -2, 2, 0, -2, 2, 0, -2, 2, 0, -2]

/-- Scaled by `10^0`, part 20. -/
def uranusGramTempPart20 : List ℤ :=
  [2, 0, -2, 3, -3, 2, 0, -2, 2, 0, -2, 2, 0, -2, 2, 0, -2, 2, 0, -2, 2, 0, -2, 2, 0, -2, 2, 0, -2,
   2, 0, -2, 2, 0, -2, 2, 0, -2, 2, 0, -2, 3, -3, 2, 0, -2, 2, 0, -2, 2, 0, -2, 2, 0, -2, 2, 0, -2,
   2, 0, -2, 2, 0, -2, 2, 0, -2, 2, 0, -2, 2, 0, -2, 2, 0, -2, 2, 0, -2, 3, -3, 2, 0, -2, 2, 0, -2,
   2, 0, -2, 2, 0, -2, 2, 0, -2, 2, 0, -2, 2, 0, -2, 2, -1, 1, -2, 2, 0, -2, 2, -1, 1, -2, 2, 0,
   -2, 2, -1, 1, -2, 2, 0, -2, 2, -1, 1, -2, 2, -1, 1, -2, 2, 0, -2, 2, -1, 1, -2, 2, 0, -2, 2, -1,
   1, -2, 2, 0, -2, 2, -1, 1, -2, 2, 0, -2, 2, -1, 1, -2, 2, 0, -2, 2, -1, 1, -2, 2, 0, -2, 2, -1,
   1, -2, 2, 0, -2, 2, -1, 1, -2, 2, -1, 1, -2, 2, 0, -2, 2, -1, 1, -2, 2, 0, -2, 2, -1, 1, -2, 2,
   0]

/-- Scaled by `10^0`, part 21. -/
def uranusGramTempPart21 : List ℤ :=
  [-2, 2, -1, 1, -2, 2, -1, 1, -2, 2, 0, -2, 2, -1, 1, -2, 2, -1, 1, -2, 2, 0, -2, 2, -1, 1, -2, 2,
   -1, 1, -2, 2, -1, 1, -2, 2, 0, -2, 2, -1, 1, -2, 2, -1, 1, -2, 2, 0, -2, 2, -1, 1, -2, 2, -1, 1,
   -2, 2, -1, 1, -2, 2, 0, -2, 2, -1, 1, -2, 2, -1, 1, -2, 2, 0, -2, 2, -1, 1, -2, 2, -1, 1, -2, 2,
   0, -2, 2, -1, 1, -2, 2, -1, 1, -2, 2, -1, 1, -2, 2, 0, -2, 2, 0, -2, 2, 0, -2, 2, -1, 1, -2, 2,
   0, -2, 2, 0, -2, 2, 0, -2, 2, 0, -2, 2, 0, -2, 2, -1, 1, -2, 2, 0, -2, 2, 0, -2, 2, 0, -2, 2, 0,
   -2, 2, 0, -2, 2, -1, 1, -2, 2, 0, -2, 2, 0, -2, 2, 0, -2, 2, 0, -2, 2, 0, -2, 2, -1, 1, -2, 2,
   0, -2, 2, 0, -2, 2, 0, -2, 2, 0, -2, 2, 0, -2, 2, -1, 1, -2, 2, 0, -2, 2, 0, -2, 2, 0, -2, 2, 0,
   -2, 2]

/-- Scaled by `10^0`, part 22. -/
def uranusGramTempPart22 : List ℤ :=
  [0, -2, 3, -3, 2, 0, -2, 2, 0, -2, 3, -3, 3, -3, 2, 0, -2, 2, 0, -2, 3, -3, 3, -3, 2, 0, -2, 3,
   -3, 2, 0, -2, 3, -3, 2, 0, -2, 3, -3, 2, 0, -2, 2, 0, -2, 3, -3, 2, 0, -2, 3, -3, 2, 0, -2, 3,
   -3, 2, 0, -2, 3, -3, 3, -3, 2, 0, -2, 2, 0, -2, 3, -3, 3, -3, 2, 0, -2, 2, 0, -2, 3, -3, 3, -3,
   2, 0, -2, 3, -3, 2, 0, -2, 2, 0, -2, 3, -3, 3, -3, 2, 0, -2, 3, -3, 2, 0, -2, 3, -3, 3, -3, 2,
   0, -2, 3, -3, 2, 0, -2, 3, -3, 3, -3, 2, 0, -2, 3, -3, 2, 0, -2, 3, -3, 3, -3, 2, 0, -2, 3, -3,
   3, -3, 2, 0, -2, 3, -3, 2, 0, -2, 3, -3, 3, -3, 2, 0, -2, 3, -3, 3, -3, 2, 0, -2, 3, -3, 2, 0,
   -2, 3, -3, 3, -3, 2, 0, -2, 3, -3, 2, 0, -2, 3, -3, 3, -3, 2, 0, -2, 3, -3, 3, -3, 2, 0, -2, 3,
   -3, 2, 0, -2]

/-- Scaled by `10^0`, part 23. -/
def uranusGramTempPart23 : List ℤ :=
  [2, 0, -2, 2, -1, 1, -2, 2, -1, 0, 1, -2, 2, -1, 1, -2, 2, -1, 1, -2, 2, -1, 0, 1, -2, 2, -1, 1,
   -2, 2, -1, 1, -2, 2, -1, 1, -2, 2, -1, 0, 1, -2, 2, -1, 1, -2, 2, -1, 1, -2, 2, -1, 0, 1, -2, 2,
   -1, 1, -2, 2, -1, 1, -2, 2, -1, 1, -2, 2, -1, 0, 1, -2, 2, -1, 1, -2, 2, -1, 1, -2, 2, -1, 0, 1,
   -2, 2, -1, 1, -2, 2, -1, 1, -2, 2, -1, 1, -2, 2, -1, 0, 1, -2, 2, 0, -2, 2, -1, 1, -2, 2, -1, 1,
   -2, 2, 0, -2, 2, -1, 1, -2, 2, -1, 1, -2, 2, 0, -2, 2, -1, 1, -2, 2, -1, 1, -2, 2, -1, 1, -2, 2,
   0, -2, 2, -1, 1, -2, 2, -1, 1, -2, 2, 0, -2, 2, -1, 1, -2, 2, -1, 1, -2, 2, 0, -2, 2, -1, 1, -2,
   2, -1, 1, -2, 2, 0, -2, 2, -1, 1, -2, 2, -1, 1, -2, 2, 0, -2, 2, -1, 1, -2, 2, -1, 1, -2, 2, -1,
   1, -2, 2, 0]

/-- Scaled by `10^0`, part 24. -/
def uranusGramTempPart24 : List ℤ :=
  [-2, 3, -3, 2, 0, -2, 3, -3, 2, 0, -2, 3, -3, 2, 0, -2, 3, -3, 2, 0, -2, 3, -3, 2, 0, -2, 3, -3,
   3, -3, 2, 0, -2, 3, -3, 2, 0, -2, 3, -3, 2, 0, -2, 3, -3, 2, 0, -2, 3, -3, 2, 0, -2, 3, -3, 2,
   0, -2, 3, -3, 3, -3, 2, 0, -2, 3, -3, 2, 0, -2, 3, -3, 2, 0, -2, 3, -3, 2, 0, -2, 3, -3, 2, 0,
   -2, 3, -3, 3, -3, 2, 0, -2, 3, -3, 2, 0, -2, 3, -3, 2, -1, 0, 0, 0, 1, -2, 2, -1, 0, 0, 0, 0, 0,
   0, 0, 1, -2, 2, -1, 0, 0, 0, 0, 0, 0, 0, 0, 1, -2, 2, -1, 0, 0, 0, 0, 0, 0, 0, 1, -2, 2, -1, 0,
   0, 0, 0, 0, 0, 0, 1, -2, 2, -1, 0, 0, 0, 0, 0, 0, 0, 1, -2, 2, -1, 0, 0, 0, 0, 0, 0, 0, 0, 1,
   -2, 2, -1, 0, 0, 0, 0, 0, 0, 0, 1, -2, 2, -1, 0, 0, 0, 0, 0, 0, 0, 1, -2, 2, -1, 0, 0]

/-- Scaled by `10^0`, part 25. -/
def uranusGramTempPart25 : List ℤ :=
  [-2, 0, 0, 0, -1, 2, -2, 1, 0, 0, 0, 0, 0, 0, 0, 0, 0, 0, -1, 2, -2, 1, 0, 0, 0, 0, 0, 0, 0, 0,
   0, 0, -1, 2, -2, 1, 0, 0, 0, 0, 0, 0, 0, 0, 0, 0, -1, 2, -2, 1, 0, 0, 0, 0, 0, 0, 0, 0, 0, 0,
   -1, 2, -2, 1, 0, 0, 0, 0, 0, 0, 0, 0, 0, 0, 0, -1, 2, -2, 1, 0, 0, 0, 0, 0, 0, 0, 0, 0, 0, -1,
   2, -2, 1, 0, 0, 0, 0, 0, 0, 0, 0, 0, 0, -1, 2, -2, 1, 0, 0, 0, 0, 0, 0, 0, 0, 0, 0, 0, 0, -1, 2,
   -2, 1, 0, 0, 0, 0, 0, 0, 0, 0, 0, 0, 0, 0, -1, 2, -2, 1, 0, 0, 0, 0, 0, 0, 0, 0, 0, 0, 0, 0, -1,
   2, -2, 1, 0, 0, 0, 0, 0, 0, 0, 0, 0, 0, 0, 0, -1, 2, -2, 1, 0, 0, 0, 0, 0, 0, 0, 0, 0, 0, 0, 0,
   -1, 2, -2, 1, 0, 0, 0, 0, 0, 0, 0, 0, 0, 0, 0, 0, 1]

/-- Scaled by `10^0`, part 26. -/
def uranusGramTempPart26 : List ℤ :=
  [2]

/-- Scaled by `10^0`. -/
def uranusGramTemp : List ℤ :=
    (uranusGramTempPart0 ++ uranusGramTempPart1 ++ uranusGramTempPart2 ++ uranusGramTempPart3 ++
    uranusGramTempPart4 ++ uranusGramTempPart5 ++ uranusGramTempPart6 ++ uranusGramTempPart7 ++
    uranusGramTempPart8 ++ uranusGramTempPart9 ++ uranusGramTempPart10 ++ uranusGramTempPart11 ++
    uranusGramTempPart12 ++ uranusGramTempPart13 ++ uranusGramTempPart14 ++ uranusGramTempPart15
    ++ uranusGramTempPart16 ++ uranusGramTempPart17 ++ uranusGramTempPart18 ++
    uranusGramTempPart19 ++ uranusGramTempPart20 ++ uranusGramTempPart21 ++ uranusGramTempPart22
    ++ uranusGramTempPart23 ++ uranusGramTempPart24 ++ uranusGramTempPart25 ++
    uranusGramTempPart26)

end AMAT.Cert
