import Mathlib.Data.Int.Notation

/-
The atmosphere files shipped with the source, `/repo/atmdata/*/*.dat`, as used by the tests and
examples (first argument of `Planet.loadAtmosphereModel`).  One row per line of the file, in the order of
the file: height, temperature, pressure and density columns, written as integer multiples of the powers
of ten given by the number of decimals of each column (all digits are represented exactly).
-/

namespace AMAT.Data

/-- A shipped atmosphere file: the numbers of decimals of the four columns, whether heights are in
kilometres (`heightInKmFlag`), and the rows. -/
structure AtmFile where
  hDec : Nat
  tDec : Nat
  pDec : Nat
  dDec : Nat
  km : Bool
  rows : List (ℤ × ℤ × ℤ × ℤ)

/-- atmdata/Venus/venus-gram-avg.dat:2-252, columns 0, 1, 2, 3. -/
def venus : AtmFile := ⟨0, 2, 11, 17, false,
  [(0, 73530, 920900000000000000, 6479000000000000000),
   (1000, 72770, 864500000000000000, 6156000000000000000),
   (2000, 72020, 810900000000000000, 5845000000000000000),
   (3000, 71240, 760100000000000000, 5547000000000000000),
   (4000, 70460, 712000000000000000, 5262000000000000000),
   (5000, 69680, 666600000000000000, 4987000000000000000),
   (6000, 68880, 623400000000000000, 4724000000000000000),
   (7000, 68110, 582900000000000000, 4471000000000000000),
   (8000, 67360, 544300000000000000, 4226000000000000000),
   (9000, 66580, 508100000000000000, 3995000000000000000),
   (10000, 65820, 473900000000000000, 3772000000000000000),
   (11000, 65060, 441600000000000000, 3558000000000000000),
   (12000, 64320, 411200000000000000, 3354000000000000000),
   (13000, 63550, 382600000000000000, 3160000000000000000),
   (14000, 62810, 355700000000000000, 2974000000000000000),
   (15000, 62080, 330300000000000000, 2795000000000000000),
   (16000, 61330, 306600000000000000, 2627000000000000000),
   (17000, 60520, 284200000000000000, 2468000000000000000),
   (18000, 59710, 263300000000000000, 2318000000000000000),
   (19000, 58930, 243700000000000000, 2174000000000000000),
   (20000, 58070, 225200000000000000, 2039000000000000000),
   (21000, 57240, 208000000000000000, 1911000000000000000),
   (22000, 56430, 191800000000000000, 1788000000000000000),
   (23000, 55600, 176600000000000000, 1671000000000000000),
   (24000, 54750, 162500000000000000, 1562000000000000000),
   (25000, 53920, 149300000000000000, 1457000000000000000),
   (26000, 53070, 137000000000000000, 1359000000000000000),
   (27000, 52230, 125500000000000000, 1265000000000000000),
   (28000, 51380, 114900000000000000, 1177000000000000000),
   (29000, 50560, 105000000000000000, 1093000000000000000),
   (30000, 49690, 95850000000000000, 1015000000000000000),
   (31000, 48830, 87290000000000000, 940600000000000000),
   (32000, 47990, 79400000000000000, 870400000000000000),
   (33000, 47170, 72100000000000000, 804100000000000000),
   (34000, 46340, 65370000000000000, 742000000000000000),
   (35000, 45550, 59170000000000000, 683100000000000000),
   (36000, 44800, 53460000000000000, 627400000000000000),
   (37000, 43990, 48220000000000000, 576200000000000000),
   (38000, 43250, 43420000000000000, 527600000000000000),
   (39000, 42510, 39020000000000000, 482300000000000000),
   (40000, 41760, 35010000000000000, 440400000000000000),
   (41000, 41000, 31350000000000000, 401500000000000000),
   (42000, 40350, 28020000000000000, 364600000000000000),
   (43000, 39710, 24990000000000000, 330300000000000000),
   (44000, 39120, 22250000000000000, 298500000000000000),
   (45000, 38540, 19790000000000000, 269300000000000000),
   (46000, 37970, 17560000000000000, 242600000000000000),
   (47000, 37310, 15550000000000000, 218600000000000000),
   (48000, 36640, 13750000000000000, 196700000000000000),
   (49000, 35860, 12130000000000000, 177300000000000000),
   (50000, 35050, 10660000000000000, 159400000000000000),
   (51000, 34200, 9347000000000000, 143200000000000000),
   (52000, 33330, 8168000000000000, 128400000000000000),
   (53000, 32300, 7109000000000000, 115300000000000000),
   (54000, 31280, 6163000000000000, 103200000000000000),
   (55000, 30230, 5314000000000000, 92070000000000000),
   (56000, 29180, 4559000000000000, 81830000000000000),
   (57000, 28250, 3891000000000000, 72120000000000000),
   (58000, 27520, 3306000000000000, 62890000000000000),
   (59000, 26870, 2797000000000000, 54480000000000000),
   (60000, 26280, 2357000000000000, 46940000000000000),
   (61000, 25860, 1977000000000000, 40010000000000000),
   (62000, 25450, 1659000000000000, 34110000000000000),
   (63000, 25100, 1385000000000000, 28860000000000000),
   (64000, 24750, 1156000000000000, 24430000000000000),
   (65000, 24430, 959900000000000, 20550000000000000),
   (66000, 24100, 797000000000000, 17290000000000000),
   (67000, 23820, 659000000000000, 14460000000000000),
   (68000, 23540, 544800000000000, 12100000000000000),
   (69000, 23260, 448400000000000, 10080000000000000),
   (70000, 22980, 369000000000000, 8393000000000000),
   (71000, 22690, 302300000000000, 6961000000000000),
   (72000, 22410, 247600000000000, 5775000000000000),
   (73000, 22130, 201800000000000, 4765000000000000),
   (74000, 21860, 164500000000000, 3933000000000000),
   (75000, 21530, 133300000000000, 3236000000000000),
   (76000, 21210, 108100000000000, 2663000000000000),
   (77000, 20870, 87050000000000, 2179000000000000),
   (78000, 20530, 70100000000000, 1784000000000000),
   (79000, 20120, 56000000000000, 1454000000000000),
   (80000, 19710, 44740000000000, 1186000000000000),
   (81000, 19350, 35440000000000, 957000000000000),
   (82000, 18990, 28080000000000, 772500000000000),
   (83000, 18690, 22060000000000, 616800000000000),
   (84000, 18380, 17330000000000, 492600000000000),
   (85000, 18100, 13510000000000, 390000000000000),
   (86000, 17820, 10540000000000, 308800000000000), (87000, 17590, 8154000000000, 242100000000000),
   (88000, 17360, 6311000000000, 189800000000000), (89000, 17150, 4855000000000, 147800000000000),
   (90000, 16940, 3735000000000, 115100000000000), (91000, 16830, 2861000000000, 88700000000000),
   (92000, 16720, 2191000000000, 68360000000000), (93000, 16720, 1675000000000, 52260000000000),
   (94000, 16720, 1281000000000, 39950000000000), (95000, 16820, 981200000000, 30400000000000),
   (96000, 16920, 751500000000, 23140000000000), (97000, 17060, 578300000000, 17650000000000),
   (98000, 17200, 445000000000, 13470000000000), (99000, 17260, 343500000000, 10360000000000),
   (100000, 17330, 265200000000, 7972000000000), (101000, 17070, 202100000000, 6169000000000),
   (102000, 16820, 154100000000, 4775000000000), (103000, 16560, 117500000000, 3696000000000),
   (104000, 16310, 89580000000, 2862000000000), (105000, 16050, 68290000000, 2217000000000),
   (106000, 15790, 51000000000, 1681000000000), (107000, 15530, 38090000000, 1276000000000),
   (108000, 15270, 28440000000, 968000000000), (109000, 15010, 21240000000, 734800000000),
   (110000, 14750, 15860000000, 558000000000), (111000, 14670, 11630000000, 410900000000),
   (112000, 14580, 8534000000, 302600000000), (113000, 14490, 6259000000, 222900000000),
   (114000, 14400, 4591000000, 164200000000), (115000, 14320, 3368000000, 120900000000),
   (116000, 14320, 2464000000, 88090000000), (117000, 14320, 1803000000, 64170000000),
   (118000, 14320, 1319000000, 46750000000), (119000, 14330, 965100000, 34060000000),
   (120000, 14330, 706100000, 24810000000), (121000, 14360, 518400000, 18070000000),
   (122000, 14380, 380600000, 13160000000), (123000, 14410, 279400000, 9590000000),
   (124000, 14440, 205100000, 6987000000), (125000, 14470, 150600000, 5090000000),
   (126000, 14500, 111600000, 3728000000), (127000, 14530, 82740000, 2730000000),
   (128000, 14560, 61330000, 2000000000), (129000, 14600, 45460000, 1465000000),
   (130000, 14630, 33700000, 1073000000), (131000, 14670, 25530000, 795300000),
   (132000, 14710, 19350000, 589500000), (133000, 14750, 14660000, 437200000),
   (134000, 14790, 11110000, 324300000), (135000, 14830, 8417000, 240700000),
   (136000, 14880, 6622000, 182500000), (137000, 14930, 5211000, 138600000),
   (138000, 14970, 4100000, 105300000), (139000, 15020, 3226000, 80130000),
   (140000, 15070, 2538000, 61020000), (141000, 15120, 2092000, 48070000),
   (142000, 15170, 1724000, 37930000), (143000, 15220, 1421000, 29980000),
   (144000, 15270, 1171000, 23730000), (145000, 15330, 965100, 18810000),
   (146000, 15190, 792700, 14790000), (147000, 15050, 651000, 11660000),
   (148000, 14920, 534700, 9212000), (149000, 14780, 439200, 7297000),
   (150000, 14640, 360700, 5791000), (151000, 14470, 307900, 4750000),
   (152000, 14290, 262800, 3906000), (153000, 14120, 224300, 3220000),
   (154000, 13950, 191500, 2661000), (155000, 13770, 163400, 2203000),
   (156000, 13780, 146900, 1919000), (157000, 13790, 132000, 1673000),
   (158000, 13800, 118600, 1460000), (159000, 13820, 106600, 1275000),
   (160000, 13830, 95780, 1114000), (161000, 13830, 87530, 983800), (162000, 13840, 79980, 869500),
   (163000, 13840, 73080, 769300), (164000, 13850, 66780, 681300), (165000, 13850, 61030, 603900),
   (166000, 13860, 56540, 537500), (167000, 13860, 52390, 479000), (168000, 13870, 48540, 427600),
   (169000, 13870, 44980, 382200), (170000, 13880, 41670, 342000), (171000, 13880, 39160, 306800),
   (172000, 13890, 36790, 275800), (173000, 13890, 34570, 248400), (174000, 13890, 32490, 224100),
   (175000, 13900, 30520, 202400), (176000, 13900, 29060, 183400), (177000, 13900, 27670, 166600),
   (178000, 13900, 26350, 151600), (179000, 13910, 25090, 138200), (180000, 13910, 23890, 126300),
   (181000, 13910, 22940, 115500), (182000, 13910, 22030, 105800), (183000, 13910, 21160, 97170),
   (184000, 13910, 20320, 89400), (185000, 13920, 19510, 82400), (186000, 13920, 18900, 76290),
   (187000, 13920, 18310, 70770), (188000, 13920, 17740, 65770), (189000, 13920, 17190, 61230),
   (190000, 13920, 16650, 57080), (191000, 13920, 16220, 53480), (192000, 13920, 15800, 50180),
   (193000, 13920, 15400, 47150), (194000, 13920, 15000, 44350), (195000, 13930, 14610, 41770),
   (196000, 13930, 14290, 39600), (197000, 13930, 13980, 37580), (198000, 13930, 13680, 35690),
   (199000, 13930, 13390, 33920), (200000, 13930, 13100, 32270), (201000, 13930, 12840, 30860),
   (202000, 13930, 12590, 29520), (203000, 13930, 12340, 28260), (204000, 13930, 12100, 27070),
   (205000, 13930, 11870, 25940), (206000, 13930, 11670, 25010), (207000, 13930, 11470, 24130),
   (208000, 13930, 11280, 23280), (209000, 13930, 11090, 22480), (210000, 13930, 10910, 21700),
   (211000, 13930, 10730, 21020), (212000, 13930, 10560, 20360), (213000, 13930, 10390, 19720),
   (214000, 13930, 10220, 19110), (215000, 13930, 10050, 18520), (216000, 13930, 9904, 18020),
   (217000, 13930, 9758, 17540), (218000, 13930, 9615, 17070), (219000, 13930, 9473, 16620),
   (220000, 13930, 9334, 16180), (221000, 13930, 9204, 15780), (222000, 13930, 9076, 15400),
   (223000, 13930, 8949, 15020), (224000, 13930, 8825, 14660), (225000, 13930, 8702, 14310),
   (226000, 13930, 8590, 13990), (227000, 13930, 8479, 13680), (228000, 13930, 8369, 13380),
   (229000, 13930, 8261, 13090), (230000, 13930, 8154, 12810), (231000, 13930, 8056, 12550),
   (232000, 13930, 7959, 12300), (233000, 13930, 7864, 12060), (234000, 13930, 7769, 11820),
   (235000, 13930, 7676, 11580), (236000, 13930, 7580, 11350), (237000, 13930, 7485, 11120),
   (238000, 13930, 7391, 10900), (239000, 13930, 7298, 10680), (240000, 13930, 7206, 10470),
   (241000, 13930, 7122, 10270), (242000, 13930, 7039, 10080), (243000, 13930, 6956, 9893),
   (244000, 13930, 6875, 9710), (245000, 13930, 6794, 9531), (246000, 13930, 6717, 9359),
   (247000, 13930, 6641, 9191), (248000, 13930, 6565, 9027), (249000, 13930, 6490, 8866),
   (250000, 13930, 6417, 8708)]⟩

/-- atmdata/Earth/earth-gram-avg.dat:2-72, columns 0, 1, 2, 3. -/
def earth : AtmFile := ⟨0, 2, 8, 13, false,
  [(140000, 69023, 99656, 44059), (138000, 66203, 108500, 50219), (136000, 63320, 118620, 57642),
   (134000, 60380, 130280, 66673), (132000, 57392, 143820, 77777), (130000, 54364, 159710, 91586),
   (128000, 51308, 178520, 108970), (126000, 48233, 201050, 131170),
   (124000, 45151, 228370, 159940), (122000, 42096, 261950, 197760),
   (120000, 39114, 303810, 248130), (118000, 36227, 355860, 315440),
   (116000, 33429, 420720, 406260), (114000, 30730, 503740, 532000),
   (112000, 28147, 613420, 711470), (110000, 25631, 763690, 979080),
   (108000, 23608, 975760, 1367000), (106000, 21813, 1280800, 1955200),
   (104000, 20410, 1728200, 2839400), (102000, 19453, 2384600, 4138500),
   (100000, 18692, 3351300, 6094300), (98000, 18388, 4775500, 8875200),
   (96000, 18210, 6840700, 12906000), (94000, 18259, 9906800, 18719000),
   (92000, 18512, 14414000, 26950000), (90000, 18800, 20815000, 38446000),
   (88000, 19150, 29567000, 53673000), (86000, 19501, 41743000, 74491000),
   (84000, 19822, 58439000, 102660000), (82000, 20103, 81207000, 140680000),
   (80000, 20376, 112350000, 192030000), (78000, 20603, 154870000, 261790000),
   (76000, 20828, 212840000, 355880000), (74000, 21157, 291860000, 480460000),
   (72000, 21586, 398340000, 642850000), (70000, 22011, 540400000, 855520000),
   (68000, 22637, 728110000, 1120900000), (66000, 23253, 973010000, 1458300000),
   (64000, 23816, 1292000000, 1890300000), (62000, 24332, 1707000000, 2444000000),
   (60000, 24843, 2242700000, 3144400000), (58000, 25349, 2928800000, 4025900000),
   (56000, 25859, 3805200000, 5129100000), (54000, 26242, 4919900000, 6534900000),
   (52000, 26500, 6342900000, 8341000000), (50000, 26767, 8157800000, 10619000000),
   (48000, 26676, 10476000000, 13681000000), (46000, 26590, 13463000000, 17638000000),
   (44000, 26347, 17329000000, 22911000000), (42000, 25938, 22388000000, 30066000000),
   (40000, 25519, 29021000000, 39614000000), (38000, 24951, 37872000000, 52875000000),
   (36000, 24381, 49732000000, 71057000000), (34000, 23830, 65752000000, 96138000000),
   (32000, 23304, 87510000000, 130900000000), (30000, 22771, 117110000000, 179350000000),
   (28000, 22212, 157590000000, 247220000000), (26000, 21732, 213510000000, 342300000000),
   (24000, 21391, 291990000000, 475580000000), (22000, 20877, 402430000000, 671590000000),
   (20000, 20341, 557550000000, 955050000000), (18000, 19976, 781410000000, 1362900000000),
   (16000, 20257, 1095900000000, 1884900000000), (14000, 21061, 1523700000000, 2520800000000),
   (12000, 21987, 2085700000000, 3304800000000), (10000, 23241, 2815400000000, 4220000000000),
   (8000, 24669, 3733600000000, 5271200000000), (6000, 26053, 4882200000000, 6525600000000),
   (4000, 27273, 6297300000000, 8037200000000), (2000, 28199, 8044900000000, 9914500000000),
   (0, 29000, 10200000000000, 12210000000000)]⟩

/-- atmdata/Mars/mars-gram-avg.dat:2-127, columns 0, 1, 2, 3. -/
def mars : AtmFile := ⟨0, 2, 8, 12, false,
  [(0, 22750, 56690000000, 13190000000), (1000, 22420, 51710000000, 12210000000),
   (2000, 22090, 47160000000, 11300000000), (3000, 21760, 43010000000, 10460000000),
   (4000, 21420, 39220000000, 9690000000), (5000, 21090, 35770000000, 8976000000),
   (6000, 20840, 32340000000, 8212000000), (7000, 20580, 29230000000, 7514000000),
   (8000, 20330, 26430000000, 6877000000), (9000, 20080, 23890000000, 6294000000),
   (10000, 19820, 21590000000, 5762000000), (11000, 19600, 19430000000, 5242000000),
   (12000, 19380, 17470000000, 4770000000), (13000, 19160, 15720000000, 4340000000),
   (14000, 18940, 14140000000, 3950000000), (15000, 18710, 12720000000, 3596000000),
   (16000, 18500, 11390000000, 3255000000), (17000, 18290, 10190000000, 2948000000),
   (18000, 18080, 9125000000, 2670000000), (19000, 17870, 8168000000, 2418000000),
   (20000, 17660, 7312000000, 2190000000), (21000, 17450, 6511000000, 1973000000),
   (22000, 17250, 5797000000, 1778000000), (23000, 17040, 5162000000, 1603000000),
   (24000, 16830, 4597000000, 1445000000), (25000, 16630, 4093000000, 1302000000),
   (26000, 16390, 3626000000, 1171000000), (27000, 16150, 3213000000, 1052000000),
   (28000, 15910, 2846000000, 946400000), (29000, 15670, 2521000000, 851300000),
   (30000, 15430, 2234000000, 765900000), (31000, 15330, 1968000000, 679200000),
   (32000, 15230, 1734000000, 602400000), (33000, 15130, 1528000000, 534200000),
   (34000, 15030, 1346000000, 473800000), (35000, 14930, 1186000000, 420300000),
   (36000, 14700, 1040000000, 374200000), (37000, 14460, 911200000, 333200000),
   (38000, 14230, 798700000, 296800000), (39000, 14000, 700100000, 264500000),
   (40000, 13770, 613600000, 235700000), (41000, 13670, 537600000, 208000000),
   (42000, 13570, 471000000, 183600000), (43000, 13470, 412600000, 162100000),
   (44000, 13370, 361500000, 143100000), (45000, 13270, 316700000, 126300000),
   (46000, 13240, 275800000, 110300000), (47000, 13200, 240300000, 96360000),
   (48000, 13170, 209200000, 84160000), (49000, 13140, 182200000, 73510000),
   (50000, 13100, 158700000, 64200000), (51000, 13290, 139800000, 55750000),
   (52000, 13480, 123100000, 48420000), (53000, 13660, 108400000, 42060000),
   (54000, 13850, 95430000, 36540000), (55000, 14040, 84030000, 31750000),
   (56000, 14200, 75450000, 28190000), (57000, 14360, 67750000, 25030000),
   (58000, 14510, 60840000, 22230000), (59000, 14670, 54630000, 19750000),
   (60000, 14830, 49050000, 17540000), (61000, 14840, 45200000, 16160000),
   (62000, 14840, 41660000, 14880000), (63000, 14850, 38390000, 13700000),
   (64000, 14850, 35380000, 12620000), (65000, 14860, 32960000, 11750000),
   (66000, 14800, 29690000, 10620000), (67000, 14750, 26750000, 9605000),
   (68000, 14690, 24100000, 8684000), (69000, 14630, 21710000, 7850000),
   (70000, 14580, 20000000, 7254000), (71000, 14500, 17650000, 6436000),
   (72000, 14420, 15580000, 5710000), (73000, 14340, 13750000, 5067000),
   (74000, 14250, 12140000, 4496000), (75000, 14170, 10760000, 4006000),
   (76000, 13970, 9322000, 3492000), (77000, 13770, 8076000, 3045000),
   (78000, 13570, 6995000, 2656000), (79000, 13380, 6060000, 2317000),
   (80000, 13180, 5249000, 2022000), (81000, 12980, 4547000, 1765000),
   (82000, 12780, 3939000, 1541000), (83000, 12660, 3352000, 1320000),
   (84000, 12570, 2833000, 1123000), (85000, 12480, 2394000, 955700),
   (86000, 12390, 2023000, 813100), (87000, 12310, 1710000, 691900),
   (88000, 12240, 1440000, 586100), (89000, 12170, 1212000, 495700),
   (90000, 12110, 1020000, 419200), (91000, 12050, 858700, 354500), (92000, 11980, 722700, 299900),
   (93000, 11950, 607400, 252900), (94000, 11920, 510200, 213100), (95000, 11890, 428600, 179500),
   (96000, 11860, 360000, 151300), (97000, 11840, 302400, 127400), (98000, 11840, 256000, 107800),
   (99000, 11860, 217400, 91420), (100000, 11880, 184600, 77490), (101000, 11900, 156800, 65680),
   (102000, 11920, 133100, 55680), (103000, 11980, 113400, 47170), (104000, 12060, 96680, 39950),
   (105000, 12130, 82430, 33840), (106000, 12210, 70280, 28660), (107000, 12280, 59920, 24280),
   (108000, 12400, 51300, 20610), (109000, 12540, 43990, 17510), (110000, 12680, 37720, 14880),
   (111000, 12810, 32350, 12650), (112000, 12950, 27740, 10750), (113000, 13140, 24080, 9180),
   (114000, 13360, 21010, 7856), (115000, 13580, 18330, 6725), (116000, 13800, 15990, 5758),
   (117000, 14020, 13950, 4931), (118000, 14260, 12230, 4261), (119000, 14510, 10740, 3695),
   (120000, 14750, 9435, 3205), (121000, 15000, 8286, 2780), (122000, 15250, 7277, 2413),
   (123000, 15480, 6483, 2113), (124000, 15700, 5808, 1857), (125000, 15930, 5203, 1632)]⟩

/-- atmdata/Jupiter/jupiter-galileo-asi.dat:4-99, columns 0, 1, 2, 3. -/
def jupiter : AtmFile := ⟨2, 2, 9, 15, true,
  [(102920, 89990, 97606, 28961), (102000, 90340, 103150, 30487), (100000, 89700, 116320, 34625),
   (98000, 88390, 131420, 39699), (96000, 87220, 148750, 45536), (94000, 86600, 168600, 51985),
   (92000, 86540, 191300, 59024), (90000, 86910, 216940, 66649), (88000, 87520, 245920, 75025),
   (86000, 88140, 278540, 84381), (84000, 88520, 315320, 95113), (82000, 88440, 356870, 107740),
   (80000, 87720, 404290, 123060), (78000, 86220, 458700, 142050), (76000, 84000, 522030, 165940),
   (74000, 81200, 596500, 196150), (72000, 77610, 685460, 235830), (70000, 74100, 793070, 285770),
   (68000, 71280, 923780, 346040), (66000, 69270, 1082200, 417130),
   (64000, 68020, 1272600, 499570), (62000, 67460, 1500600, 593950),
   (60000, 66980, 1772200, 706460), (58000, 67030, 2094400, 834290),
   (56000, 66400, 2477400, 996220), (54000, 64240, 2941500, 1222600),
   (52000, 59430, 3530200, 1586000), (50000, 54590, 4312400, 2109300),
   (48000, 53580, 5334800, 2658500), (46000, 53570, 6604400, 3291800),
   (44000, 48310, 8257000, 4563600), (42000, 39290, 10862000, 7381700),
   (40000, 37020, 14824000, 10692000), (38000, 28920, 21349000, 19711000),
   (36000, 23170, 34116000, 39315000), (34000, 19860, 61160000, 82227000),
   (32000, 19420, 116730000, 160490000), (30000, 17760, 220580000, 331630000),
   (28000, 15280, 486360000, 849890000), (26000, 15100, 1108500000, 1960100000),
   (24000, 15570, 2507800000, 4300600000), (22000, 15720, 5667100000, 9625800000),
   (20000, 15820, 12737000000, 21497000000), (18000, 15740, 28614000000, 48540000000),
   (16000, 16860, 62740000000, 99361000000), (14000, 16050, 135980000000, 226210000000),
   (12000, 14880, 311980000000, 559820000000), (10000, 15810, 727210000000, 1228200000000),
   (8000, 14380, 1661700000000, 3085500000000), (6000, 12260, 4432000000000, 9652300000000),
   (4000, 11320, 13760000000000, 32456000000000), (2330, 12290, 35616000000000, 77378000000000),
   (1729, 13000, 47420000000000, 97397000000000), (1595, 13279, 50663000000000, 101870000000000),
   (1209, 14084, 60795000000000, 115260000000000), (865, 14804, 70928000000000, 127930000000000),
   (553, 15457, 81060000000000, 140030000000000), (266, 16056, 91193000000000, 151650000000000),
   (0, 16610, 101330000000000, 162880000000000), (-482, 17611, 121590000000000, 184350000000000),
   (-912, 18499, 141860000000000, 204750000000000),
   (-1302, 19300, 162120000000000, 224290000000000),
   (-1660, 20031, 182390000000000, 243120000000000),
   (-1991, 20706, 202650000000000, 261320000000000),
   (-2301, 21332, 222920000000000, 279020000000000),
   (-2591, 21919, 243180000000000, 296230000000000),
   (-2865, 22471, 263450000000000, 313040000000000),
   (-3125, 22992, 283710000000000, 329480000000000),
   (-3373, 23487, 303980000000000, 345570000000000),
   (-3609, 23959, 324240000000000, 361350000000000),
   (-3835, 24409, 344510000000000, 376850000000000),
   (-4053, 24840, 364770000000000, 392100000000000),
   (-4261, 25255, 385040000000000, 407080000000000),
   (-4463, 25653, 405300000000000, 421860000000000),
   (-4657, 26038, 425570000000000, 436400000000000),
   (-4845, 26409, 445830000000000, 450760000000000),
   (-5028, 26768, 466100000000000, 464930000000000),
   (-5205, 27116, 486360000000000, 478920000000000),
   (-5376, 27454, 506630000000000, 492730000000000),
   (-6169, 29010, 607950000000000, 559560000000000),
   (-6874, 30388, 709280000000000, 623220000000000),
   (-7512, 31631, 810600000000000, 684260000000000),
   (-8095, 32767, 911930000000000, 743100000000000),
   (-8635, 33816, 1013300000000000, 800060000000000),
   (-9137, 34792, 1114600000000000, 855380000000000),
   (-9608, 35708, 1215900000000000, 909200000000000),
   (-10052, 36571, 1317200000000000, 961720000000000),
   (-10473, 37387, 1418600000000000, 1013100000000000),
   (-10872, 38164, 1519900000000000, 1063400000000000),
   (-11253, 38904, 1621200000000000, 1112700000000000),
   (-11618, 39613, 1722500000000000, 1161100000000000),
   (-11967, 40293, 1823900000000000, 1208600000000000),
   (-12303, 40946, 1925200000000000, 1255400000000000),
   (-12626, 41575, 2026500000000000, 1301500000000000),
   (-12938, 42183, 2127800000000000, 1346900000000000),
   (-13240, 42771, 2229200000000000, 1391600000000000)]⟩

/-- atmdata/Saturn/saturn-nominal.dat:2-92, columns 0, 1, 2, 3. -/
def saturn : AtmFile := ⟨2, 2, 17, 23, true,
  [(222496, 42049, 795977, 505448), (214539, 42071, 2998140, 1902820),
   (209250, 42067, 7238700, 4594570), (203962, 42063, 17477100, 11094100),
   (196269, 42042, 62991300, 40005700), (189057, 42025, 209552000, 133142000),
   (183865, 42021, 497897000, 316374000), (178720, 41989, 1173570000, 746272000),
   (173432, 41985, 2833450000, 1801960000), (168143, 41982, 6841060000, 4351020000),
   (163035, 41978, 16028100000, 10195000000), (161172, 41892, 21864200000, 13935600000),
   (154887, 41888, 62320300000, 39725300000), (146988, 41762, 232464000000, 148628000000),
   (140395, 41549, 697627000000, 448325000000), (134568, 41228, 1842360000000, 1193200000000),
   (128985, 40803, 4671430000000, 3056960000000), (124282, 40238, 10230600000000, 6788800000000),
   (120610, 39618, 18864700000000, 12714300000000),
   (117638, 38998, 30958700000000, 21196800000000),
   (115496, 38379, 44238900000000, 30778200000000),
   (113551, 37760, 61177100000000, 43260300000000),
   (111694, 37141, 83377000000000, 59941200000000),
   (110404, 36522, 103366000000000, 75569800000000),
   (109137, 35903, 127680000000000, 94954200000000),
   (107804, 35285, 159447000000000, 120658000000000),
   (106646, 34666, 193399000000000, 148961000000000),
   (105903, 34048, 218896000000000, 171660000000000),
   (104941, 33430, 256944000000000, 205225000000000),
   (104132, 32812, 294013000000000, 239258000000000),
   (103214, 32193, 342614000000000, 284162000000000),
   (102450, 31575, 389197000000000, 329118000000000),
   (101881, 30957, 427856000000000, 369032000000000),
   (101226, 30339, 477258000000000, 420029000000000),
   (100526, 29721, 536257000000000, 481769000000000),
   (99936, 29103, 591674000000000, 542844000000000),
   (99390, 28485, 648080000000000, 607496000000000),
   (98800, 27867, 715054000000000, 685142000000000),
   (98297, 27249, 777538000000000, 761909000000000),
   (97817, 26631, 842408000000000, 844630000000000),
   (97358, 26013, 909371000000000, 933431000000000),
   (96899, 25395, 981658000000000, 1032150000000000),
   (96374, 24777, 1071330000000000, 1154540000000000),
   (95915, 24159, 1156490000000000, 1278190000000000),
   (95544, 23541, 1230370000000000, 1395530000000000),
   (95238, 22923, 1294730000000000, 1508120000000000),
   (94691, 22305, 1418170000000000, 1697670000000000),
   (94320, 21687, 1508750000000000, 1857570000000000),
   (93992, 21069, 1593480000000000, 2019420000000000),
   (93773, 20451, 1652590000000000, 2157590000000000),
   (93030, 19833, 1870460000000000, 2518150000000000),
   (92812, 19215, 1939840000000000, 2695530000000000),
   (92178, 18597, 2155960000000000, 3095400000000000),
   (91697, 17979, 2335830000000000, 3468920000000000),
   (91151, 17361, 2558510000000000, 3934880000000000),
   (90539, 16743, 2833210000000000, 4518220000000000),
   (89599, 16125, 3313590000000000, 5486920000000000),
   (88594, 15507, 3917990000000000, 6746460000000000),
   (86977, 14888, 5130040000000000, 9200660000000000),
   (84311, 14268, 8000310000000000, 14971500000000000),
   (79540, 13759, 17717500000000000, 34381800000000000),
   (75382, 13589, 35429600000000000, 69613200000000000),
   (71047, 13534, 72968000000000000, 143953000000000000),
   (62781, 13579, 289372000000000000, 569003000000000000),
   (56531, 13791, 820098000000000000, 1587790000000000000),
   (50379, 13991, 2286280000000000000, 4363130000000000000),
   (44019, 14183, 6599540000000000000, 12424100000000000000),
   (38618, 14348, 16234600000000000000, 30212200000000000000),
   (33682, 14260, 36959800000000000000, 69204400000000000000),
   (29129, 13780, 78937200000000000000, 152958000000000000000),
   (25436, 13159, 146088000000000000000, 296421000000000000000),
   (22682, 12540, 231168000000000000000, 492230000000000000000),
   (20803, 11921, 316204000000000000000, 708259000000000000000),
   (19142, 11302, 417050000000000000000, 985291000000000000000),
   (17765, 10683, 524620000000000000000, 1311200000000000000000),
   (16716, 10065, 624847000000000000000, 1657650000000000000000),
   (15317, 9446, 788882000000000000000, 2229880000000000000000),
   (14220, 9081, 947164000000000000000, 2784810000000000000000),
   (13303, 8902, 1103650000000000000000, 3310230000000000000000),
   (10733, 8869, 1693710000000000000000, 5099090000000000000000),
   (8104, 9113, 2625010000000000000000, 7691410000000000000000),
   (7013, 9440, 3148590000000000000000, 8905490000000000000000),
   (5330, 10057, 4167910000000000000000, 11066000000000000000000),
   (4587, 10674, 4717390000000000000000, 11800700000000000000000),
   (3538, 11291, 5618630000000000000000, 13287200000000000000000),
   (2708, 11908, 6452690000000000000000, 14468900000000000000000),
   (1943, 12525, 7330020000000000000000, 15626400000000000000000),
   (1527, 13142, 7855260000000000000000, 15959500000000000000000),
   (765, 13572, 8920280000000000000000, 17549600000000000000000),
   (459, 14036, 9386720000000000000000, 17856600000000000000000),
   (0, 14500, 10132500000000000000000, 18658500000000000000000)]⟩

/-- atmdata/Titan/titan-gram-avg.dat:2-417, part 0. -/
def titanPart0 : List (ℤ × ℤ × ℤ × ℤ) :=
  [(2200000, 17500, 701048, 859048), (2190000, 17500, 735828, 904250),
   (2180000, 17500, 772600, 952224), (2170000, 17500, 811494, 1003160),
   (2160000, 17500, 852651, 1057280), (2150000, 17500, 896221, 1114810),
   (2140000, 17500, 942367, 1175980), (2130000, 17500, 991263, 1241070),
   (2120000, 17500, 1043100, 1310360), (2110000, 17500, 1098070, 1384160),
   (2100000, 17500, 1156400, 1462810), (2090000, 17500, 1218330, 1546680),
   (2080000, 17500, 1284110, 1636150), (2070000, 17500, 1354000, 1731660),
   (2060000, 17500, 1428320, 1833670), (2050000, 17500, 1507370, 1942690),
   (2040000, 17500, 1591510, 2059260), (2030000, 17500, 1681110, 2183980),
   (2020000, 17500, 1776580, 2317500), (2010000, 17500, 1878350, 2460530),
   (2000000, 17500, 1986900, 2613830), (1990000, 17500, 2102760, 2778250),
   (1980000, 17500, 2226480, 2954680), (1970000, 17500, 2358680, 3144140),
   (1960000, 17500, 2500010, 3347720), (1950000, 17500, 2651210, 3566580),
   (1940000, 17500, 2813050, 3802050), (1930000, 17500, 2986400, 4055540),
   (1920000, 17500, 3172180, 4328590), (1910000, 17500, 3371420, 4622930),
   (1900000, 17500, 3585230, 4940390), (1890000, 17500, 3814820, 5283050),
   (1880000, 17500, 4061520, 5653120), (1870000, 17500, 4326770, 6053080),
   (1860000, 17500, 4612160, 6485630), (1850000, 17500, 4919440, 6953730),
   (1840000, 17500, 5250490, 7460650), (1830000, 17500, 5607420, 8009990),
   (1820000, 17500, 5992500, 8605690), (1810000, 17500, 6408260, 9252110),
   (1800000, 17500, 6857450, 9954050), (1790000, 17500, 7343110, 10716800),
   (1780000, 17500, 7868570, 11546200), (1770000, 17500, 8437510, 12448700),
   (1760000, 17500, 9053970, 13431500), (1750000, 17500, 9722430, 14502300),
   (1740000, 17500, 10447800, 15669900), (1730000, 17500, 11235500, 16944100),
   (1720000, 17500, 12091500, 18335300), (1710000, 17500, 13022500, 19855600),
   (1700000, 17500, 14035800, 21517900), (1690000, 17500, 15139500, 23336900),
   (1680000, 17500, 16342500, 25328700), (1670000, 17500, 17654900, 27511300),
   (1660000, 17500, 19087700, 29904600), (1650000, 17500, 20653100, 32530800),
   (1640000, 17500, 22364700, 35414700), (1630000, 17500, 24237700, 38583700),
   (1620000, 17500, 26288700, 42068400), (1610000, 17500, 28536600, 45903200),
   (1600000, 17500, 31002100, 50126000), (1590000, 17500, 33708300, 54779400),
   (1580000, 17500, 36681300, 59911000), (1570000, 17500, 39949600, 65573900),
   (1560000, 17500, 43545600, 71827400), (1550000, 17500, 47505300, 78738100),
   (1540000, 17500, 51868600, 86380400), (1530000, 17500, 56680700, 94837800),
   (1520000, 17500, 61991900, 104204000), (1510000, 17500, 67858400, 114583000),
   (1500000, 17500, 74343400, 126093000), (1490000, 17500, 81517900, 138867000),
   (1480000, 17500, 89461200, 153053000), (1470000, 17500, 98262700, 168818000),
   (1460000, 17500, 108023000, 186351000), (1450000, 17500, 118854000, 205863000),
   (1440000, 17500, 130884000, 227593000), (1430000, 17500, 144256000, 251810000),
   (1420000, 17500, 159130000, 278819000), (1410000, 17500, 175688000, 308961000),
   (1400000, 17500, 194136000, 342624000), (1390000, 17500, 214706000, 380247000),
   (1380000, 17500, 237658000, 422325000), (1370000, 17500, 263290000, 469417000),
   (1360000, 17500, 291936000, 522161000), (1350000, 17500, 323975000, 581276000),
   (1340000, 17500, 359838000, 647577000), (1330000, 17500, 400011000, 721993000),
   (1320000, 17500, 445049000, 805577000), (1310000, 17500, 495578000, 899523000),
   (1300000, 17500, 552055000, 1004870000), (1295000, 17500, 582989000, 1062350000),
   (1290000, 17500, 615777000, 1123310000), (1285000, 17500, 650541000, 1187970000),
   (1280000, 17500, 687407000, 1256590000), (1275000, 17500, 726507000, 1329400000),
   (1270000, 17500, 767981000, 1406680000), (1265000, 17500, 811988000, 1488720000),
   (1260000, 17500, 858683000, 1575820000), (1255000, 17500, 908244000, 1668310000),
   (1250000, 17500, 960856000, 1766550000), (1245000, 17500, 1016720000, 1870900000),
   (1240000, 17500, 1076030000, 1981760000), (1235000, 17500, 1139040000, 2099570000),
   (1230000, 17500, 1205970000, 2224780000), (1225000, 17500, 1277090000, 2357890000),
   (1220000, 17500, 1352670000, 2499410000), (1215000, 17500, 1433000000, 2649890000),
   (1210000, 17500, 1518410000, 2809940000), (1205000, 17500, 1609220000, 2980200000),
   (1200000, 17500, 1705790000, 3161330000), (1195000, 17500, 1808510000, 3354070000),
   (1190000, 17500, 1917800000, 3559230000), (1185000, 17500, 2034100000, 3777620000),
   (1180000, 17500, 2157860000, 4010130000), (1175000, 17500, 2289610000, 4257720000),
   (1170000, 17500, 2429880000, 4521420000), (1165000, 17500, 2579240000, 4802330000),
   (1160000, 17500, 2738330000, 5101620000), (1155000, 17500, 2907800000, 5420560000),
   (1150000, 17500, 3088370000, 5760520000), (1145000, 17500, 3280790000, 6122920000),
   (1140000, 17500, 3485880000, 6509300000), (1135000, 17500, 3704540000, 6921370000),
   (1130000, 17500, 3937680000, 7360820000), (1125000, 17500, 4186310000, 7829690000),
   (1120000, 17500, 4451550000, 8329990000), (1115000, 17500, 4734510000, 8863860000),
   (1110000, 17500, 5036440000, 9433730000), (1105000, 17500, 5358690000, 10042100000),
   (1100000, 17500, 5702690000, 10691700000), (1095000, 17500, 6069990000, 11385500000),
   (1090000, 17500, 6462190000, 12126600000), (1085000, 17500, 6881140000, 12918300000),
   (1080000, 17500, 7328720000, 13764500000), (1075000, 17500, 7806920000, 14668700000),
   (1070000, 17500, 8317970000, 15635400000), (1065000, 17500, 8864270000, 16668900000),
   (1060000, 17500, 9448350000, 17774100000), (1055000, 17500, 10072900000, 18956300000),
   (1050000, 17500, 10741000000, 20221000000), (1045000, 17500, 11455600000, 21574200000),
   (1040000, 17500, 12220300000, 23022600000), (1035000, 17500, 13038600000, 24572700000),
   (1030000, 17500, 13914500000, 26232600000), (1025000, 17500, 14852300000, 28009800000),
   (1020000, 17500, 15856400000, 29913300000), (1015000, 17500, 16932000000, 31952500000),
   (1010000, 17500, 18084100000, 34137300000), (1005000, 17500, 19318500000, 36478600000),
   (1000000, 17500, 20641400000, 38988400000), (995000, 17500, 22059600000, 41679200000),
   (990000, 17500, 23580000000, 44564500000), (985000, 17500, 25210300000, 47659100000),
   (980000, 17500, 26959000000, 50978700000), (975000, 17500, 28835100000, 54541300000),
   (970000, 17500, 30848000000, 58363600000), (965000, 17500, 33008300000, 62466900000),
   (960000, 17500, 35327200000, 66871900000), (955000, 17500, 37816900000, 71602200000),
   (950000, 17500, 40490800000, 76683100000), (945000, 17500, 43362600000, 82141100000),
   (940000, 17500, 46448100000, 88005800000), (935000, 17500, 49763600000, 94308600000),
   (930000, 17500, 53326800000, 101083000000), (925000, 17500, 57157400000, 108368000000),
   (920000, 17498, 61276500000, 116214000000), (915000, 17494, 65707400000, 124672000000),
   (910000, 17486, 70475400000, 133806000000), (905000, 17476, 75608400000, 143662000000),
   (900000, 17463, 81136700000, 154310000000), (895000, 17448, 87092500000, 165810000000),
   (890000, 17429, 93512800000, 178260000000), (885000, 17408, 100436000000, 191723000000),
   (880000, 17385, 107906000000, 206290000000), (875000, 17358, 115969000000, 222086000000),
   (870000, 17330, 124675000000, 239184000000), (865000, 17298, 134083000000, 257751000000),
   (860000, 17265, 144252000000, 277873000000), (855000, 17228, 155250000000, 299747000000),
   (850000, 17190, 167152000000, 323488000000), (845000, 17149, 180037000000, 349309000000),
   (840000, 17105, 193996000000, 377414000000), (835000, 17060, 209126000000, 407978000000),
   (830000, 17012, 225535000000, 441292000000), (825000, 16961, 243341000000, 477628000000),
   (820000, 16909, 262675000000, 517229000000), (815000, 16855, 283681000000, 560452000000),
   (810000, 16798, 306517000000, 607696000000), (805000, 16739, 331360000000, 659348000000),
   (800000, 16679, 358400000000, 715805000000), (795000, 16616, 387856000000, 777658000000),
   (790000, 16551, 419962000000, 845437000000), (785000, 16485, 454983000000, 919701000000),
   (780000, 16417, 493206000000, 1001210000000), (775000, 16347, 534956000000, 1090720000000),
   (770000, 16275, 580591000000, 1189120000000), (765000, 16202, 630510000000, 1297310000000),
   (760000, 16127, 685157000000, 1416440000000), (755000, 16051, 745028000000, 1547660000000)]

/-- atmdata/Titan/titan-gram-avg.dat:2-417, part 1. -/
def titanPart1 : List (ℤ × ℤ × ℤ × ℤ) :=
  [(750000, 15974, 810661000000, 1692260000000), (745000, 15895, 882670000000, 1851910000000),
   (740000, 15815, 961746000000, 2028200000000), (735000, 15733, 1048640000000, 2223180000000),
   (730000, 15651, 1144220000000, 2438710000000), (725000, 15568, 1249420000000, 2677350000000),
   (720000, 15484, 1365330000000, 2941810000000), (715000, 15399, 1493120000000, 3235170000000),
   (710000, 15314, 1634140000000, 3560650000000), (705000, 15228, 1789900000000, 3922340000000),
   (700000, 15142, 1962070000000, 4324350000000), (695000, 15056, 2152540000000, 4771570000000),
   (690000, 14970, 2363450000000, 5269530000000), (685000, 14884, 2597190000000, 5824520000000),
   (680000, 14799, 2856440000000, 6443130000000), (675000, 14714, 3144250000000, 7133750000000),
   (670000, 14629, 3464040000000, 7905430000000), (665000, 14546, 3819650000000, 8767280000000),
   (660000, 14464, 4215410000000, 9731020000000), (655000, 14383, 4656200000000, 10809700000000),
   (650000, 14304, 5147580000000, 12017200000000), (645000, 14227, 5695720000000, 13369500000000),
   (640000, 14152, 6307710000000, 14885300000000), (635000, 14079, 6991470000000, 16585100000000),
   (630000, 14009, 7755950000000, 18491500000000), (625000, 13943, 8611160000000, 20628600000000),
   (620000, 13879, 9568570000000, 23028900000000), (615000, 13819, 10641100000000, 25722500000000),
   (610000, 13764, 11843000000000, 28743400000000),
   (605000, 13712, 13190700000000, 32137200000000),
   (600000, 13665, 14702600000000, 35945300000000),
   (595000, 13624, 16399300000000, 40215600000000),
   (590000, 13587, 18303900000000, 45010200000000),
   (585000, 13557, 20442300000000, 50382000000000),
   (580000, 13533, 22843700000000, 56402300000000),
   (575000, 13515, 25540800000000, 63147700000000),
   (570000, 13504, 28570000000000, 70697300000000),
   (565000, 13500, 31972100000000, 79141800000000),
   (560000, 13505, 35791900000000, 88567400000000),
   (555000, 13522, 40079000000000, 99054300000000),
   (550000, 13549, 44887900000000, 110722000000000),
   (545000, 13585, 50279000000000, 123694000000000),
   (540000, 13632, 56318600000000, 138078000000000),
   (535000, 13687, 63080000000000, 154039000000000),
   (530000, 13750, 70645000000000, 171727000000000),
   (525000, 13822, 79102100000000, 191288000000000),
   (520000, 13901, 88549700000000, 212923000000000),
   (515000, 13986, 99095700000000, 236838000000000),
   (510000, 14078, 110860000000000, 263231000000000),
   (505000, 14175, 123973000000000, 292359000000000),
   (500000, 14278, 138578000000000, 324451000000000),
   (495000, 14385, 154834000000000, 359823000000000),
   (490000, 14496, 172915000000000, 398773000000000),
   (485000, 14610, 193011000000000, 441655000000000),
   (480000, 14728, 215334000000000, 488797000000000),
   (475000, 14848, 240113000000000, 540647000000000),
   (470000, 14970, 267602000000000, 597644000000000),
   (465000, 15093, 298082000000000, 660301000000000),
   (460000, 15218, 331857000000000, 729096000000000),
   (455000, 15343, 369265000000000, 804685000000000),
   (450000, 15469, 410677000000000, 887650000000000),
   (445000, 15594, 456503000000000, 978806000000000),
   (440000, 15719, 507189000000000, 1078860000000000),
   (435000, 15844, 563229000000000, 1188630000000000),
   (430000, 15967, 625165000000000, 1309180000000000),
   (425000, 16088, 693605000000000, 1441610000000000),
   (420000, 16208, 769207000000000, 1586920000000000),
   (415000, 16325, 852700000000000, 1746590000000000),
   (410000, 16440, 944891000000000, 1921910000000000),
   (405000, 16552, 1046670000000000, 2114550000000000),
   (400000, 16661, 1159020000000000, 2326230000000000),
   (395000, 16766, 1283030000000000, 2559040000000000),
   (390000, 16868, 1419910000000000, 2814950000000000),
   (385000, 16966, 1570980000000000, 3096490000000000),
   (380000, 17060, 1737730000000000, 3406330000000000),
   (375000, 17149, 1921790000000000, 3747620000000000),
   (370000, 17233, 2125000000000000, 4123730000000000),
   (365000, 17312, 2349390000000000, 4538400000000000),
   (360000, 17385, 2597220000000000, 4996100000000000),
   (355000, 17453, 2871000000000000, 5501300000000000),
   (350000, 17515, 3173550000000000, 6059560000000000),
   (345000, 17571, 3507990000000000, 6676860000000000),
   (340000, 17621, 3877850000000000, 7359940000000000),
   (335000, 17665, 4287040000000000, 8116330000000000),
   (330000, 17703, 4739930000000000, 8954560000000000),
   (325000, 17736, 5241440000000000, 9883650000000000),
   (320000, 17763, 5797030000000000, 10914800000000000),
   (315000, 17785, 6412860000000000, 12059400000000000),
   (310000, 17801, 7095820000000000, 13331800000000000),
   (305000, 17813, 7853650000000000, 14745800000000000),
   (300000, 17819, 8695090000000000, 16320300000000000),
   (295000, 17821, 9629860000000000, 18072900000000000),
   (290000, 17817, 10669000000000000, 20027600000000000),
   (285000, 17809, 11824900000000000, 22207600000000000),
   (280000, 17797, 13111500000000000, 24640600000000000),
   (275000, 17780, 14544600000000000, 27360200000000000),
   (270000, 17758, 16142100000000000, 30403000000000000),
   (265000, 17732, 17924200000000000, 33809100000000000),
   (260000, 17702, 19913800000000000, 37625800000000000),
   (255000, 17668, 22136500000000000, 41906100000000000),
   (250000, 17630, 24622000000000000, 46711900000000000),
   (245000, 17588, 27403500000000000, 52113300000000000),
   (240000, 17542, 30519000000000000, 58190300000000000),
   (235000, 17492, 34011900000000000, 65036100000000000),
   (230000, 17439, 37931300000000000, 72751300000000000),
   (225000, 17382, 42333600000000000, 81461000000000000),
   (220000, 17321, 47283000000000000, 91306000000000000),
   (215000, 17258, 52853100000000000, 102435000000000000),
   (210000, 17191, 59128000000000000, 115043000000000000),
   (205000, 17121, 66204200000000000, 129338000000000000),
   (200000, 17048, 74192600000000000, 145566000000000000),
   (198000, 17018, 77671700000000000, 152661000000000000),
   (196000, 16988, 81325400000000000, 160124000000000000),
   (194000, 16957, 85163900000000000, 167989000000000000),
   (192000, 16926, 89197100000000000, 176268000000000000),
   (190000, 16894, 93435200000000000, 184992000000000000),
   (188000, 16862, 97890400000000000, 194181000000000000),
   (186000, 16830, 102574000000000000, 203858000000000000),
   (184000, 16797, 107499000000000000, 214066000000000000),
   (182000, 16764, 112678000000000000, 224822000000000000),
   (180000, 16730, 118125000000000000, 236170000000000000),
   (178000, 16696, 123857000000000000, 248133000000000000),
   (176000, 16662, 129888000000000000, 260748000000000000),
   (174000, 16627, 136236000000000000, 274068000000000000),
   (172000, 16592, 142919000000000000, 288118000000000000),
   (170000, 16557, 149955000000000000, 302942000000000000),
   (168000, 16522, 157364000000000000, 318584000000000000),
   (166000, 16486, 165168000000000000, 335115000000000000),
   (164000, 16450, 173390000000000000, 352567000000000000),
   (162000, 16414, 182053000000000000, 370994000000000000),
   (160000, 16377, 191185000000000000, 390484000000000000),
   (158000, 16341, 200810000000000000, 411046000000000000),
   (156000, 16304, 210958000000000000, 432799000000000000),
   (154000, 16267, 221660000000000000, 455789000000000000),
   (152000, 16229, 232948000000000000, 480123000000000000),
   (150000, 16192, 244858000000000000, 505844000000000000),
   (148000, 16150, 257426000000000000, 533195000000000000),
   (146000, 16026, 270730000000000000, 565090000000000000),
   (144000, 16079, 284775000000000000, 592445000000000000),
   (142000, 15936, 299615000000000000, 628909000000000000),
   (140000, 15855, 315363000000000000, 665350000000000000),
   (138000, 15825, 332022000000000000, 701824000000000000),
   (136000, 15745, 349653000000000000, 742851000000000000),
   (134000, 15718, 368311000000000000, 783838000000000000),
   (132000, 15651, 388057000000000000, 829394000000000000),
   (130000, 15634, 408949000000000000, 874999000000000000),
   (128000, 15511, 431102000000000000, 929714000000000000),
   (126000, 15380, 454691000000000000, 988939000000000000),
   (124000, 15311, 479771000000000000, 1048190000000000000),
   (122000, 15173, 506461000000000000, 1116580000000000000),
   (120000, 15100, 534882000000000000, 1184930000000000000),
   (118000, 15028, 565091000000000000, 1257860000000000000),
   (116000, 14961, 597207000000000000, 1335300000000000000),
   (114000, 14901, 631351000000000000, 1417330000000000000),
   (112000, 14806, 667692000000000000, 1508540000000000000),
   (110000, 14731, 706415000000000000, 1604160000000000000),
   (108000, 14673, 747638000000000000, 1704480000000000000),
   (106000, 14598, 791538000000000000, 1813840000000000000),
   (104000, 14447, 838462000000000000, 1941460000000000000),
   (102000, 14337, 888706000000000000, 2073600000000000000),
   (100000, 14206, 942505000000000000, 2219420000000000000),
   (98000, 14091, 1000160000000000000, 2374420000000000000),
   (96000, 13970, 1061970000000000000, 2543010000000000000),
   (94000, 13805, 1128410000000000000, 2734410000000000000),
   (92000, 13615, 1200040000000000000, 2948620000000000000),
   (90000, 13490, 1277270000000000000, 3167470000000000000),
   (88000, 13420, 1360200000000000000, 3390760000000000000),
   (86000, 13219, 1449590000000000000, 3668580000000000000),
   (84000, 12947, 1546780000000000000, 3996850000000000000),
   (82000, 12641, 1653100000000000000, 4375050000000000000),
   (80000, 12361, 1769640000000000000, 4789680000000000000),
   (78000, 12042, 1897780000000000000, 5272700000000000000),
   (76000, 11751, 2039090000000000000, 5805780000000000000),
   (74000, 11455, 2195140000000000000, 6411820000000000000),
   (72000, 10990, 2369390000000000000, 7214020000000000000),
   (70000, 10394, 2567570000000000000, 8266440000000000000),
   (68000, 9837, 2795470000000000000, 9510840000000000000),
   (66000, 9137, 3061430000000000000, 11215600000000000000),
   (64000, 8471, 3377000000000000000, 13347700000000000000),
   (62000, 7989, 3751160000000000000, 15725700000000000000),
   (60000, 7687, 4189340000000000000, 18258200000000000000),
   (58000, 7456, 4697870000000000000, 21116000000000000000),
   (56000, 7305, 5284800000000000000, 24253900000000000000),
   (54000, 7221, 5957770000000000000, 27670700000000000000),
   (52000, 7170, 6725430000000000000, 31470700000000000000),
   (50000, 7133, 7599540000000000000, 35761300000000000000),
   (48000, 7111, 8593680000000000000, 40584400000000000000),
   (46000, 7093, 9723680000000000000, 46063000000000000000),
   (44000, 7084, 11007700000000000000, 52244000000000000000),
   (42000, 7064, 12467800000000000000, 59385000000000000000),
   (40000, 7066, 14128100000000000000, 67326900000000000000),
   (38000, 7091, 16010000000000000000, 76089100000000000000),
   (36000, 7117, 18140200000000000000, 85977500000000000000),
   (34000, 7141, 20551100000000000000, 97179000000000000000),
   (32000, 7181, 23277300000000000000, 109579000000000000000),
   (30000, 7234, 26352300000000000000, 123292000000000000000),
   (28000, 7292, 29815800000000000000, 138566000000000000000),
   (26000, 7368, 33708200000000000000, 155246000000000000000),
   (24000, 7455, 38070900000000000000, 173534000000000000000),
   (22000, 7563, 42945300000000000000, 193224000000000000000)]

/-- atmdata/Titan/titan-gram-avg.dat:2-417, part 2. -/
def titanPart2 : List (ℤ × ℤ × ℤ × ℤ) :=
  [(20000, 7643, 48389300000000000000, 215804000000000000000),
   (18000, 7759, 54461000000000000000, 239627000000000000000),
   (16000, 7888, 61204100000000000000, 265314000000000000000),
   (14000, 8019, 68675700000000000000, 293332000000000000000),
   (12000, 8156, 76941500000000000000, 323680000000000000000),
   (10000, 8301, 86065600000000000000, 356371000000000000000),
   (8000, 8472, 96103400000000000000, 390534000000000000000),
   (6000, 8647, 107110000000000000000, 427160000000000000000),
   (5000, 8740, 112997000000000000000, 446201000000000000000),
   (4000, 8820, 119156000000000000000, 466698000000000000000),
   (3000, 8926, 125591000000000000000, 486398000000000000000),
   (2000, 9054, 132292000000000000000, 505341000000000000000),
   (1500, 9122, 135742000000000000000, 514748000000000000000),
   (1000, 9190, 139255000000000000000, 524261000000000000000),
   (500, 9258, 142835000000000000000, 533888000000000000000),
   (0, 9328, 146482000000000000000, 543503000000000000000)]

/-- atmdata/Titan/titan-gram-avg.dat:2-417, columns 0, 1, 2, 3. -/
def titan : AtmFile := ⟨0, 2, 15, 20, false,
    (titanPart0 ++ titanPart1 ++ titanPart2)⟩

/-- atmdata/Uranus/uranus-ames.dat:2-214, columns 0, 1, 2, 3. -/
def uranusAmes : AtmFile := ⟨0, 2, 12, 23, false,
  [(-288196, 31190, 9506000000000000000, 968277856300000000000000),
   (-282222, 30690, 9013600000000000000, 930036514800000000000000),
   (-270329, 29700, 8087200000000000000, 859409203000000000000000),
   (-257981, 28680, 7199500000000000000, 790132635200000000000000),
   (-247684, 27820, 6517800000000000000, 733330925300000000000000),
   (-236971, 26940, 5860000000000000000, 677173571100000000000000),
   (-223503, 25820, 5105000000000000000, 611223438900000000000000),
   (-210989, 24790, 4468900000000000000, 552586155600000000000000),
   (-195993, 23560, 3787900000000000000, 487079666500000000000000),
   (-176119, 21920, 3008800000000000000, 409072231600000000000000),
   (-157381, 20390, 2390000000000000000, 343716198600000000000000),
   (-139753, 18950, 1898500000000000000, 289001435500000000000000),
   (-123185, 17610, 1507600000000000000, 243668842300000000000000),
   (-107646, 16340, 1197600000000000000, 205825889100000000000000),
   (-96186, 15420, 1000000000000000000, 180842290900000000000000),
   (-83578, 14400, 810030000000000000, 155632394700000000000000),
   (-72112, 13470, 659930000000000000, 134927352900000000000000),
   (-62526, 12700, 550050000000000000, 118904967900000000000000),
   (-52689, 11910, 449990000000000000, 103585746500000000000000),
   (-44757, 11270, 378620000000000000, 92044957180000000000000),
   (-35005, 10490, 300680000000000000, 78614019110000000000000),
   (-25000, 9690, 203000000000000000, 65705239100000000000000),
   (-20000, 9290, 177990000000000000, 59593651930000000000000),
   (-15000, 8890, 157000000000000000, 54412665360000000000000),
   (-10000, 8480, 135990000000000000, 48651921800000000000000),
   (-5000, 8110, 117000000000000000, 42914099120000000000000),
   (0, 7640, 99495000000000000, 37879130380000000000000),
   (5000, 7190, 84392000000000000, 33504257670000000000000),
   (10000, 6760, 70795000000000000, 29552892910000000000000),
   (15000, 6390, 58506000000000000, 25692123440000000000000),
   (20000, 6070, 47995000000000000, 22161543260000000000000),
   (25000, 5810, 38896000000000000, 18745628240000000000000),
   (30000, 5620, 31297000000000000, 15591934440000000000000),
   (35000, 5520, 25102000000000000, 12726236800000000000000),
   (40000, 5430, 19999000000000000, 10310981320000000000000),
   (45000, 5350, 15900000000000000, 8313808179000000000000),
   (50000, 5310, 12601000000000000, 6642017263000000000000),
   (55000, 5300, 9970100000000000, 5266232149000000000000),
   (60000, 5330, 7899500000000000, 4150496003000000000000),
   (65000, 5340, 6270500000000000, 3287759187000000000000),
   (70000, 5390, 4979700000000000, 2585234840000000000000),
   (75000, 5460, 3960000000000000, 2030018520000000000000),
   (80000, 5520, 3170300000000000, 1607311308000000000000),
   (85000, 5630, 2539800000000000, 1262990256000000000000),
   (90000, 5800, 2039900000000000, 984691071400000000000),
   (95000, 6020, 1660000000000000, 771969247600000000000),
   (100000, 6610, 1359900000000000, 575970181300000000000),
   (105000, 6440, 1130100000000000, 491133999600000000000),
   (110000, 6330, 930890000000000, 411623347300000000000),
   (115000, 6350, 765950000000000, 337598104900000000000),
   (120000, 6480, 631980000000000, 272897778300000000000),
   (125000, 6750, 525050000000000, 217670713100000000000),
   (130000, 6850, 438030000000000, 178978143900000000000),
   (135000, 6930, 367030000000000, 148217676200000000000),
   (140000, 6870, 306970000000000, 125083492800000000000),
   (145000, 6810, 255980000000000, 105244643200000000000),
   (150000, 6830, 213990000000000, 87256944280000000000),
   (155000, 6910, 193020000000000, 77785742210000000000),
   (160000, 7090, 174060000000000, 68359676680000000000),
   (165000, 7280, 157000000000000, 60048200890000000000),
   (170000, 7710, 141580000000000, 51168183550000000000),
   (175000, 8450, 127700000000000, 42072662840000000000),
   (180000, 9460, 115160000000000, 33915638690000000000),
   (185000, 10360, 103870000000000, 27919009080000000000),
   (190000, 11150, 93691000000000, 23393758380000000000),
   (195000, 11780, 84489000000000, 19971008660000000000),
   (205800, 13000, 68501000000000, 14672360870000000000),
   (213000, 13300, 60200000000000, 12603756380000000000),
   (220300, 13400, 52905000000000, 10992589240000000000),
   (227600, 13400, 46505000000000, 9662733460000000000),
   (234900, 13300, 40898000000000, 8562488476000000000),
   (242200, 13200, 36000000000000, 7594514227000000000),
   (249500, 13100, 31601000000000, 6717381285000000000),
   (256700, 12900, 27701000000000, 5979983697000000000),
   (264000, 12800, 24300000000000, 5286886659000000000),
   (271300, 12600, 21198000000000, 4684896492000000000),
   (278600, 12500, 18501000000000, 4120975191000000000),
   (285900, 12300, 16099000000000, 3645020708000000000),
   (293200, 12200, 13999000000000, 3195214365000000000),
   (300400, 12100, 12201000000000, 2807372232000000000),
   (307700, 12000, 10600000000000, 2459801149000000000),
   (315000, 12000, 9200300000000, 2135010425000000000),
   (322300, 11900, 8000200000000, 1871974808000000000),
   (329600, 12000, 6899200000000, 1601031955000000000),
   (336900, 12000, 6000700000000, 1392194777000000000),
   (344200, 12200, 5200000000000, 1186861385000000000),
   (351500, 12400, 4499900000000, 1010648184000000000),
   (358800, 12600, 3900300000000, 861985578700000000),
   (366100, 13000, 3500300000000, 749721559700000000),
   (370000, 13200, 3113100000000, 656901116500000000),
   (380000, 13710, 2305700000000, 468381787900000000),
   (390000, 14220, 1708000000000, 334502986800000000),
   (400000, 14730, 1265000000000, 239166308300000000),
   (410000, 15000, 1099500000000, 204079790600000000),
   (420000, 15320, 934540000000, 169863473300000000),
   (430000, 15640, 794510000000, 141481612200000000),
   (440000, 15960, 675460000000, 117896252300000000),
   (450000, 16270, 577300000000, 98787046220000000),
   (460000, 16590, 493510000000, 82832353300000000),
   (470000, 18230, 337050000000, 51475431990000000),
   (480000, 18770, 322180000000, 47807936610000000),
   (490000, 19300, 299360000000, 42296068430000000),
   (500000, 21910, 232760000000, 28372656490000000),
   (510000, 22710, 213550000000, 24728626780000000),
   (520000, 23440, 199620000000, 22120757760000000),
   (530000, 24360, 184460000000, 19462561590000000),
   (540000, 25520, 169010000000, 16888846950000000),
   (550000, 26260, 161210000000, 15631476430000000),
   (560000, 26990, 153740000000, 14474381000000000),
   (570000, 28390, 140540000000, 12557407850000000),
   (580000, 29790, 128470000000, 10921945370000000),
   (590000, 31060, 118660000000, 9658284632000000),
   (600000, 32260, 110820000000, 8665627170000000),
   (610000, 32930, 106590000000, 8148918982000000),
   (620000, 33600, 102470000000, 7661256450000000), (630000, 34960, 94820000000, 6796729720000000),
   (640000, 36840, 85310000000, 5790285795000000), (650000, 38540, 78686000000, 5095654806000000),
   (660000, 39660, 74765000000, 4696777642000000), (670000, 40330, 72527000000, 4477133042000000),
   (680000, 40990, 70404000000, 4271692675000000), (690000, 42860, 64878000000, 3761837228000000),
   (700000, 43590, 62445000000, 3557132151000000), (710000, 44540, 59429000000, 3310548845000000),
   (720000, 45500, 56507000000, 3078222441000000), (730000, 46300, 55322000000, 2958012467000000),
   (740000, 47110, 54475000000, 2859565179000000), (750000, 48050, 53088000000, 2729606226000000),
   (760000, 48990, 51156000000, 2577507870000000), (770000, 49440, 50269000000, 2509573964000000),
   (780000, 49670, 47698000000, 2369736184000000), (790000, 49900, 44402000000, 2195330949000000),
   (800000, 50140, 41333000000, 2034229743000000), (810000, 50370, 38486000000, 1884950718000000),
   (820000, 50490, 36923000000, 1803848252000000), (830000, 50600, 35539000000, 1732207840000000),
   (840000, 50710, 34190000000, 1661881296000000), (850000, 50820, 32893000000, 1594777134000000),
   (860000, 50930, 31645000000, 1530382532000000), (870000, 51040, 30451000000, 1468926278000000),
   (880000, 51150, 29295000000, 1409613337000000), (890000, 51240, 28399000000, 1363326888000000),
   (900000, 51310, 27650000000, 1324951557000000), (910000, 51390, 26816000000, 1282625884000000),
   (920000, 51460, 25888000000, 1235947433000000), (930000, 51540, 24986000000, 1190693547000000),
   (940000, 51610, 24116000000, 1147096620000000), (950000, 51690, 23281000000, 1105095982000000),
   (960000, 51770, 22470000000, 1064633187000000), (970000, 51840, 21652000000, 1024000102000000),
   (980000, 51940, 20673000000, 975438740400000), (990000, 52040, 19738000000, 929180313800000),
   (1000000, 52140, 18871000000, 886339287300000), (1100000, 52930, 13636000000, 628926653200000),
   (1200000, 53680, 9326100000, 423155509700000), (1300000, 54500, 6387000000, 285036187200000),
   (1400000, 55410, 4547800000, 199526231500000), (1500000, 56170, 3461800000, 149726957600000),
   (1600000, 56940, 2505000000, 106856267500000), (1700000, 57690, 1856500000, 78144784890000),
   (1800000, 58570, 1305000000, 54087885060000), (1900000, 59230, 979720000, 40151335940000),
   (2000000, 59950, 729290000, 29525686220000), (2100000, 60800, 530640000, 21178734210000),
   (2200000, 61630, 388870000, 15310874620000), (2300000, 62370, 300610000, 11694993910000),
   (2400000, 63070, 235130000, 9044821490000), (2500000, 63730, 183360000, 6980716486000),
   (2600000, 64440, 135550000, 5103874654000), (2700000, 65210, 99015000, 3683833560000),
   (2800000, 65940, 80334000, 2955969850000), (2900000, 66600, 66589000, 2426051412000),
   (3000000, 67250, 54450000, 1964264646000), (3100000, 68130, 38186000, 1359878163000),
   (3200000, 68850, 29854000, 1051961874000), (3300000, 69540, 24132000, 841976557600),
   (3400000, 70110, 20198000, 698875796100), (3500000, 70780, 16410000, 562470824000),
   (3600000, 71500, 12906000, 437925263500), (3700000, 72170, 10134000, 340643416600),
   (3800000, 72830, 8016800, 267054561200), (3900000, 73490, 6711200, 221564409600),
   (4000000, 74210, 5527100, 180717412600), (4100000, 74940, 4517500, 146251389200),
   (4200000, 75620, 3717100, 119261426600), (4300000, 76220, 3131800, 99701111500),
   (4400000, 76800, 2624800, 82927772490), (4500000, 77570, 1990200, 62244359160),
   (4600000, 78300, 1568900, 48618325850), (4700000, 78890, 1340900, 41238228430),
   (4800000, 79800, 1053900, 32040552770), (4900000, 79870, 1034400, 31419552850),
   (5000000, 79930, 1017400, 30881614690), (5100000, 80000, 859010, 26055535300),
   (5200000, 80000, 725270, 21993786250), (5300000, 80000, 612350, 18569491010),
   (5400000, 80000, 517010, 15678337170), (5500000, 80000, 436520, 13237317940),
   (5600000, 80000, 368550, 11176350160), (5700000, 80000, 311170, 9436262203),
   (5800000, 80000, 262720, 7967095078), (5900000, 80000, 221820, 6726668104),
   (6000000, 80000, 187280, 5679367868), (6100000, 80000, 158120, 4795125741),
   (6200000, 80000, 133510, 4048554594), (6300000, 80000, 112720, 3418219914),
   (6400000, 80000, 95170, 2886024410), (6500000, 80000, 80353, 2436688423),
   (6600000, 80000, 67842, 2057311246), (6700000, 80000, 57280, 1737000726),
   (6800000, 80000, 48362, 1466560555), (6900000, 80000, 40823, 1237941152),
   (7000000, 80000, 34467, 1045201441)]⟩

/-- atmdata/Neptune/neptune-gram-avg.dat:2-519, part 0. -/
def neptunePart0 : List (ℤ × ℤ × ℤ × ℤ) :=
  [(-850, 15944, 13241000000000000000, 25887000000000000000),
   (-800, 15540, 11741000000000000000, 23576000000000000000),
   (-750, 15135, 10410000000000000000, 21484000000000000000),
   (-700, 14731, 9231500000000000000, 19591000000000000000),
   (-650, 14327, 8186600000000000000, 17877000000000000000),
   (-600, 13923, 7260300000000000000, 16325000000000000000),
   (-550, 13474, 6389200000000000000, 14855000000000000000),
   (-500, 13007, 5604000000000000000, 13506000000000000000),
   (-450, 12532, 4904600000000000000, 12274000000000000000),
   (-400, 12010, 4229600000000000000, 11049000000000000000),
   (-350, 11489, 3647800000000000000, 9968200000000000000),
   (-300, 10968, 3146300000000000000, 9010700000000000000),
   (-250, 10398, 2670600000000000000, 8069300000000000000),
   (-200, 9806, 2249900000000000000, 7210700000000000000),
   (-150, 9187, 1873100000000000000, 6410400000000000000),
   (-100, 8508, 1519400000000000000, 5617200000000000000),
   (-50, 7829, 1232600000000000000, 4953700000000000000),
   (0, 7150, 1000100000000000000, 4402100000000000000),
   (50, 6688, 776020000000000000, 3652000000000000000),
   (100, 6205, 593210000000000000, 3008900000000000000),
   (150, 5796, 444390000000000000, 2412500000000000000),
   (200, 5528, 327740000000000000, 1864900000000000000),
   (250, 5337, 238630000000000000, 1405700000000000000),
   (300, 5217, 172010000000000000, 1036000000000000000),
   (350, 5145, 123290000000000000, 752690000000000000),
   (400, 5100, 88227000000000000, 543210000000000000),
   (450, 5131, 63024000000000000, 385570000000000000),
   (500, 5239, 45263000000000000, 271140000000000000),
   (550, 5366, 32729000000000000, 191380000000000000),
   (600, 5513, 23874000000000000, 135860000000000000),
   (650, 5726, 17653000000000000, 96695000000000000),
   (700, 6017, 13232000000000000, 68958000000000000),
   (750, 6320, 9929000000000000, 49258000000000000),
   (800, 7026, 7717400000000000, 34432000000000000),
   (850, 7950, 6154400000000000, 24264000000000000),
   (900, 9008, 4990700000000000, 17363000000000000),
   (950, 9737, 4213200000000000, 13558000000000000),
   (1000, 10466, 3557200000000000, 10648000000000000),
   (1050, 11195, 3003700000000000, 8404500000000000),
   (1100, 11436, 2589400000000000, 7091300000000000),
   (1150, 11673, 2233100000000000, 5989900000000000),
   (1200, 11871, 1928900000000000, 5087000000000000),
   (1250, 11952, 1674500000000000, 4384900000000000),
   (1300, 12034, 1453800000000000, 3780300000000000),
   (1350, 12116, 1262400000000000, 3259700000000000),
   (1400, 12197, 1096300000000000, 2811200000000000),
   (1450, 12365, 955580000000000, 2416600000000000),
   (1500, 12691, 839560000000000, 2068000000000000),
   (1550, 13018, 737720000000000, 1771000000000000),
   (1600, 13344, 648320000000000, 1517900000000000),
   (1650, 13671, 569830000000000, 1301900000000000),
   (1700, 13997, 500910000000000, 1117400000000000),
   (1750, 14162, 445930000000000, 982830000000000),
   (1800, 14326, 397320000000000, 865370000000000),
   (1850, 14490, 354040000000000, 762130000000000),
   (1900, 14653, 315530000000000, 671390000000000),
   (1950, 14817, 281240000000000, 591600000000000),
   (2000, 14980, 250720000000000, 521420000000000),
   (2050, 15143, 223550000000000, 459690000000000),
   (2100, 15303, 199100000000000, 404970000000000),
   (2150, 15381, 178690000000000, 361430000000000),
   (2200, 15459, 160390000000000, 322630000000000),
   (2250, 15537, 143990000000000, 288040000000000),
   (2300, 15615, 129290000000000, 257200000000000),
   (2350, 15693, 116100000000000, 229710000000000),
   (2400, 15770, 104290000000000, 205190000000000), (2450, 15819, 93685000000000, 183660000000000),
   (2500, 15849, 84342000000000, 164920000000000), (2550, 15879, 75945000000000, 148120000000000),
   (2600, 15910, 68397000000000, 133060000000000), (2650, 15940, 61611000000000, 119550000000000),
   (2700, 15970, 55510000000000, 107430000000000), (2750, 16000, 49941000000000, 96393000000000),
   (2800, 16011, 45034000000000, 86794000000000), (2850, 16023, 40618000000000, 78164000000000),
   (2900, 16034, 36643000000000, 70406000000000), (2950, 16045, 33065000000000, 63431000000000),
   (3000, 16056, 29843000000000, 57158000000000), (3050, 16068, 26941000000000, 51517000000000),
   (3100, 16079, 24328000000000, 46443000000000), (3150, 16090, 21974000000000, 41879000000000),
   (3200, 16102, 19773000000000, 37617000000000), (3250, 16116, 17864000000000, 33919000000000),
   (3300, 16131, 16143000000000, 30591000000000), (3350, 16145, 14592000000000, 27596000000000),
   (3400, 16160, 13194000000000, 24900000000000), (3450, 16175, 11934000000000, 22474000000000),
   (3500, 16189, 10796000000000, 20289000000000), (3550, 16202, 9739800000000, 18267000000000),
   (3600, 16209, 8813500000000, 16501000000000), (3650, 16216, 7977800000000, 14910000000000),
   (3700, 16223, 7223500000000, 13476000000000), (3750, 16231, 6542600000000, 12184000000000),
   (3800, 16238, 5927800000000, 11019000000000), (3850, 16245, 5372500000000, 9968400000000),
   (3900, 16250, 4851200000000, 8985600000000), (3950, 16250, 4396000000000, 8130600000000),
   (4000, 16250, 3984800000000, 7359300000000), (4050, 16250, 3613300000000, 6663300000000),
   (4100, 16250, 3277500000000, 6035000000000), (4150, 16250, 2974000000000, 5467800000000),
   (4200, 16250, 2699400000000, 4955500000000), (4250, 16250, 2451000000000, 4492700000000),
   (4300, 16250, 2226200000000, 4074500000000), (4350, 16250, 2022700000000, 3696400000000),
   (4400, 16250, 1822300000000, 3325100000000), (4450, 16250, 1654500000000, 3014400000000),
   (4500, 16250, 1502700000000, 2733700000000), (4550, 16250, 1365200000000, 2480000000000),
   (4600, 16250, 1240700000000, 2250600000000), (4650, 16250, 1127900000000, 2043000000000),
   (4700, 16250, 1025600000000, 1855200000000), (4750, 16410, 931000000000, 1665500000000),
   (4800, 16613, 849960000000, 1499900000000), (4850, 16817, 776190000000, 1351400000000),
   (4900, 17021, 708990000000, 1218100000000), (4950, 17224, 647770000000, 1098500000000),
   (5000, 17427, 591970000000, 991010000000), (5050, 17631, 541090000000, 894420000000),
   (5100, 17836, 493280000000, 805170000000), (5150, 18051, 455040000000, 733170000000),
   (5200, 18267, 419830000000, 667870000000), (5250, 18482, 387420000000, 608610000000),
   (5300, 18697, 357560000000, 554790000000), (5350, 18912, 330050000000, 505910000000),
   (5400, 19127, 304690000000, 461470000000), (5450, 19342, 281310000000, 421070000000),
   (5500, 19557, 259750000000, 384310000000), (5550, 19771, 239860000000, 350850000000),
   (5600, 19986, 221520000000, 320380000000), (5650, 20200, 204580000000, 292620000000),
   (5700, 20389, 189250000000, 268080000000), (5750, 20571, 176140000000, 247220000000),
   (5800, 20752, 163940000000, 228040000000), (5850, 20933, 152610000000, 210370000000),
   (5900, 21114, 142060000000, 194110000000), (5950, 21295, 132250000000, 179140000000),
   (6000, 21476, 123120000000, 165340000000), (6050, 21657, 114620000000, 152630000000),
   (6100, 21838, 106720000000, 140910000000), (6150, 22018, 99320000000, 130050000000),
   (6200, 22189, 92985000000, 120810000000), (6250, 22360, 87057000000, 112230000000),
   (6300, 22531, 81510000000, 104280000000), (6350, 22702, 76318000000, 96898000000),
   (6400, 22873, 71459000000, 90048000000), (6450, 23044, 66911000000, 83690000000),
   (6500, 23214, 62654000000, 77788000000), (6550, 23385, 58670000000, 72308000000),
   (6600, 23556, 54940000000, 67220000000), (6650, 23726, 51449000000, 62496000000),
   (6700, 23910, 48343000000, 58270000000), (6750, 24105, 45556000000, 54467000000),
   (6800, 24299, 42930000000, 50917000000), (6850, 24493, 40457000000, 47603000000),
   (6900, 24688, 38127000000, 44509000000), (6950, 24882, 35932000000, 41619000000),
   (7000, 25076, 33865000000, 38921000000), (7050, 25270, 31917000000, 36400000000),
   (7100, 25464, 30081000000, 34046000000), (7150, 25657, 28352000000, 31847000000),
   (7200, 25851, 26723000000, 29792000000), (7250, 26045, 25189000000, 27872000000),
   (7300, 26238, 23742000000, 26078000000), (7350, 26432, 22380000000, 24402000000),
   (7400, 26625, 21096000000, 22835000000), (7450, 26819, 19897000000, 21381000000),
   (7500, 27019, 18867000000, 20125000000), (7550, 27218, 17891000000, 18944000000),
   (7600, 27417, 16966000000, 17834000000), (7650, 27616, 16089000000, 16790000000),
   (7700, 27815, 15257000000, 15808000000), (7750, 28014, 14469000000, 14885000000),
   (7800, 28213, 13721000000, 14016000000), (7850, 28412, 13013000000, 13200000000),
   (7900, 28611, 12342000000, 12432000000), (7950, 28810, 11705000000, 11709000000),
   (8000, 29008, 11101000000, 11029000000), (8050, 29207, 10529000000, 10390000000),
   (8100, 29404, 9987700000, 9789100000), (8150, 29572, 9514200000, 9272000000),
   (8200, 29740, 9063400000, 8782800000), (8250, 29909, 8634100000, 8319800000),
   (8300, 30076, 8225300000, 7881600000), (8350, 30244, 7836000000, 7466900000),
   (8400, 30412, 7465300000, 7074400000), (8450, 30580, 7112300000, 6702900000),
   (8500, 30748, 6776000000, 6351200000), (8550, 30915, 6455800000, 6018200000),
   (8600, 31083, 6150900000, 5703000000), (8650, 31250, 5860400000, 5404600000),
   (8700, 31418, 5583800000, 5122000000), (8750, 31585, 5320300000, 4854500000),
   (8800, 31752, 5069400000, 4601200000), (8850, 31949, 4847100000, 4372300000),
   (8900, 32158, 4641000000, 4159200000), (8950, 32366, 4443700000, 3956800000),
   (9000, 32575, 4254900000, 3764400000), (9050, 32783, 4074200000, 3581600000),
   (9100, 32992, 3901200000, 3407900000)]

/-- atmdata/Neptune/neptune-gram-avg.dat:2-519, part 1. -/
def neptunePart1 : List (ℤ × ℤ × ℤ × ℤ) :=
  [(9150, 33200, 3735700000, 3242800000), (9200, 33408, 3577200000, 3085900000),
   (9250, 33616, 3425500000, 2936700000), (9300, 33824, 3280300000, 2795000000),
   (9350, 34032, 3141300000, 2660200000), (9400, 34240, 3008200000, 2532000000),
   (9450, 34448, 2880900000, 2410200000), (9500, 34655, 2758900000, 2294400000),
   (9550, 34863, 2642200000, 2184200000), (9600, 35070, 2530500000, 2079400000),
   (9650, 35278, 2423500000, 1979800000), (9700, 35485, 2321100000, 1885100000),
   (9750, 35692, 2223000000, 1794900000), (9800, 35900, 2129100000, 1709200000),
   (9850, 36107, 2039200000, 1627700000), (9900, 36275, 1957400000, 1555100000),
   (9950, 36410, 1882200000, 1489800000), (10000, 36546, 1809900000, 1427300000),
   (10100, 37023, 1680700000, 1297600000), (10200, 37495, 1563200000, 1182300000),
   (10300, 37960, 1456000000, 1079700000), (10400, 38419, 1358000000, 987960000),
   (10500, 38871, 1268400000, 905810000), (10600, 39318, 1186100000, 832060000),
   (10700, 39759, 1110500000, 765670000), (10800, 40195, 1040900000, 705780000),
   (10900, 40624, 976730000, 651630000), (11000, 41048, 917440000, 602570000),
   (11100, 41466, 862590000, 558030000), (11200, 41879, 811770000, 517510000),
   (11300, 42287, 764630000, 480580000), (11400, 42689, 720830000, 446860000),
   (11500, 43086, 680080000, 416020000), (11600, 43478, 642140000, 387770000),
   (11700, 43864, 606760000, 361850000), (11800, 44246, 573740000, 338020000),
   (11900, 44623, 542880000, 316100000), (12000, 44994, 514020000, 295880000),
   (12100, 45361, 486990000, 277230000), (12200, 45723, 461660000, 259990000),
   (12300, 46081, 437900000, 244040000), (12400, 46434, 415600000, 229260000),
   (12500, 46782, 394640000, 215560000), (12600, 47126, 374930000, 202830000),
   (12700, 47465, 356380000, 191000000), (12800, 47800, 338900000, 179990000),
   (12900, 48130, 322440000, 169730000), (13000, 48457, 306910000, 160160000),
   (13100, 48779, 292250000, 151240000), (13200, 49097, 278410000, 142900000),
   (13300, 49411, 265330000, 135100000), (13400, 49720, 252970000, 127800000),
   (13500, 50026, 241270000, 120970000), (13600, 50328, 230190000, 114570000),
   (13700, 50626, 219700000, 108560000), (13800, 50920, 209760000, 102920000),
   (13900, 51211, 200340000, 97619000), (14000, 51497, 191400000, 92638000),
   (14100, 51781, 182920000, 87952000), (14200, 52060, 174870000, 83542000),
   (14300, 52336, 167220000, 79388000), (14400, 52608, 159950000, 75472000),
   (14500, 52877, 153040000, 71780000), (14600, 53142, 146470000, 68296000),
   (14700, 53404, 140220000, 65007000), (14800, 53663, 134270000, 61899000),
   (14900, 53919, 128600000, 58962000), (15000, 54171, 123210000, 56185000),
   (15100, 54420, 118060000, 53557000), (15200, 54665, 113160000, 51070000),
   (15300, 54908, 108490000, 48715000), (15400, 55148, 104030000, 46483000),
   (15500, 55384, 99782000, 44368000), (15600, 55618, 95725000, 42362000),
   (15700, 55848, 91851000, 40459000), (15800, 56076, 88152000, 38652000),
   (15900, 56301, 84618000, 36937000), (16000, 56523, 81242000, 35308000),
   (16100, 56742, 78016000, 33760000), (16200, 56959, 74931000, 32289000),
   (16300, 57172, 71982000, 30890000), (16400, 57383, 69161000, 29559000),
   (16500, 57592, 66462000, 28292000), (16600, 57797, 63879000, 27086000),
   (16700, 58000, 61407000, 25938000), (16800, 58201, 59040000, 24845000),
   (16900, 58399, 56774000, 23803000), (17000, 58595, 54603000, 22809000),
   (17100, 58788, 52523000, 21862000), (17200, 58979, 50530000, 20959000),
   (17300, 59167, 48620000, 20097000), (17400, 59353, 46789000, 19275000),
   (17500, 59537, 45034000, 18490000), (17600, 59718, 43350000, 17741000),
   (17700, 59897, 41735000, 17025000), (17800, 60074, 40186000, 16341000),
   (17900, 60249, 38699000, 15688000), (18000, 60421, 37272000, 15064000),
   (18100, 60591, 35903000, 14467000), (18200, 60760, 34588000, 13896000),
   (18300, 60926, 33325000, 13350000), (18400, 61090, 32113000, 12827000),
   (18500, 61252, 30948000, 12327000), (18600, 61412, 29829000, 11849000),
   (18700, 61570, 28754000, 11391000), (18800, 61726, 27721000, 10952000),
   (18900, 61880, 26728000, 10532000), (19000, 62033, 25773000, 10130000),
   (19100, 62183, 24855000, 9744000), (19200, 62332, 23973000, 9374500),
   (19300, 62478, 23124000, 9020300), (19400, 62623, 22307000, 8680700),
   (19500, 62766, 21522000, 8355100), (19600, 62908, 20766000, 8042800),
   (19700, 63047, 20039000, 7743300), (19800, 63185, 19340000, 7455900),
   (19900, 63321, 18666000, 7180100), (20000, 63456, 18018000, 6915400),
   (20100, 63589, 17394000, 6661300), (20200, 63720, 16793000, 6417400),
   (20300, 63850, 16214000, 6183200), (20400, 63978, 15657000, 5958200),
   (20500, 64104, 15120000, 5742100), (20600, 64229, 14603000, 5534500),
   (20700, 64353, 14104000, 5335100), (20800, 64475, 13624000, 5143400),
   (20900, 64595, 13162000, 4959200), (21000, 64714, 12716000, 4782100),
   (21100, 64832, 12286000, 4611800), (21200, 64948, 11872000, 4448100),
   (21300, 65063, 11472000, 4290600), (21400, 65176, 11087000, 4139200),
   (21500, 65288, 10716000, 3993500), (21600, 65398, 10358000, 3853300),
   (21700, 65508, 10013000, 3718500), (21800, 65615, 9679400, 3588700),
   (21900, 65722, 9358100, 3463800), (22000, 65827, 9048100, 3343600),
   (22100, 65931, 8749000, 3227800), (22200, 66034, 8460400, 3116300),
   (22300, 66136, 8182000, 3009000), (22400, 66236, 7913200, 2905700),
   (22500, 66335, 7653800, 2806100), (22600, 66433, 7403400, 2710200),
   (22700, 66530, 7161700, 2617800), (22800, 66626, 6928300, 2528800),
   (22900, 66720, 6703000, 2443000), (23000, 66813, 6485400, 2360400),
   (23100, 66905, 6275300, 2280700), (23200, 66996, 6072400, 2203900),
   (23300, 67086, 5876400, 2129800), (23400, 67175, 5687200, 2058500),
   (23500, 67263, 5504300, 1989600), (23600, 67350, 5327700, 1923200),
   (23700, 67436, 5157000, 1859200), (23800, 67521, 4992100, 1797500),
   (23900, 67604, 4832800, 1737900), (24000, 67687, 4678800, 1680500),
   (24100, 67769, 4530000, 1625000), (24200, 67849, 4386200, 1571500),
   (24300, 67929, 4247200, 1519900), (24400, 68008, 4112800, 1470100),
   (24500, 68086, 3982900, 1422000), (24600, 68163, 3857300, 1375600),
   (24700, 68239, 3735900, 1330800), (24800, 68314, 3618500, 1287500),
   (24900, 68389, 3505000, 1245800), (25000, 68462, 3395200, 1205400),
   (25100, 68535, 3289100, 1166500), (25200, 68606, 3186400, 1128900),
   (25300, 68677, 3087100, 1092500), (25400, 68747, 2991000, 1057500),
   (25500, 68816, 2898100, 1023600), (25600, 68885, 2808200, 990820),
   (25700, 68952, 2721200, 959180), (25800, 69019, 2637100, 928610),
   (25900, 69085, 2555700, 899070), (26000, 69150, 2476900, 870520),
   (26100, 69215, 2400700, 842930), (26200, 69278, 2326900, 816270),
   (26300, 69341, 2255500, 790490), (26400, 69403, 2186400, 765580),
   (26500, 69465, 2119500, 741490), (26600, 69526, 2054700, 718200),
   (26700, 69586, 1992000, 695680), (26800, 69645, 1931300, 673910),
   (26900, 69704, 1872600, 652860), (27000, 69762, 1815700, 632500),
   (27100, 69819, 1760600, 612800), (27200, 69876, 1707300, 593760),
   (27300, 69932, 1655700, 575330), (27400, 69987, 1605700, 557510),
   (27500, 70042, 1557200, 540270), (27600, 70096, 1510300, 523590),
   (27700, 70149, 1464900, 507450), (27800, 70202, 1420900, 491830),
   (27900, 70254, 1378300, 476720), (28000, 70305, 1337000, 462100),
   (28100, 70356, 1297000, 447940), (28200, 70407, 1258200, 434250)]

/-- atmdata/Neptune/neptune-gram-avg.dat:2-519, part 2. -/
def neptunePart2 : List (ℤ × ℤ × ℤ × ℤ) :=
  [(28300, 70457, 1220700, 420990), (28400, 70506, 1184300, 408160),
   (28500, 70555, 1149100, 395730), (28600, 70603, 1114900, 383710),
   (28700, 70650, 1081800, 372070), (28800, 70697, 1049700, 360790),
   (28900, 70744, 1018700, 349880), (29000, 70790, 988530, 339310), (29100, 70835, 959340, 329080),
   (29200, 70880, 931040, 319170), (29300, 70924, 903610, 309570), (29400, 70968, 877020, 300280),
   (29500, 71011, 851250, 291270), (29600, 71054, 826270, 282550), (29700, 71096, 802040, 274100),
   (29800, 71138, 778560, 265920), (29900, 71180, 755790, 257990), (30000, 71221, 733710, 250310),
   (30100, 71261, 712310, 242870), (30200, 71301, 691550, 235660), (30300, 71341, 671420, 228670),
   (30400, 71380, 651900, 221900), (30500, 71418, 632970, 215340), (30600, 71457, 614610, 208980),
   (30700, 71494, 596810, 202820), (30800, 71532, 579540, 196850), (30900, 71569, 562790, 191060),
   (31000, 71605, 546540, 185450), (31100, 71641, 530780, 180010), (31200, 71677, 515490, 174740),
   (31300, 71712, 500660, 169630), (31400, 71747, 486270, 164670), (31500, 71781, 472310, 159870),
   (31600, 71815, 458760, 155210), (31700, 71849, 445620, 150690), (31800, 71882, 432870, 146310),
   (31900, 71915, 420500, 142060), (32000, 71948, 408490, 137940), (32100, 71980, 396840, 133950),
   (32200, 72012, 385530, 130080), (32300, 72043, 374560, 126320), (32400, 72075, 363910, 122670),
   (32500, 72105, 353580, 119140), (32600, 72136, 343550, 115710), (32700, 72166, 333810, 112380),
   (32800, 72196, 324360, 109160), (32900, 72225, 315190, 106030), (33000, 72254, 306290, 102990),
   (33100, 72283, 297640, 100050), (33200, 72311, 289250, 97186), (33300, 72340, 281110, 94412),
   (33400, 72367, 273200, 91721), (33500, 72395, 265520, 89109), (33600, 72422, 258070, 86575),
   (33700, 72449, 250830, 84116), (33800, 72476, 243800, 81729), (33900, 72502, 236980, 79412),
   (34000, 72528, 230350, 77164), (34100, 72554, 223920, 74982), (34200, 72579, 217670, 72864),
   (34300, 72604, 211600, 70808), (34400, 72629, 205700, 68812), (34500, 72654, 199980, 66875),
   (34600, 72678, 194420, 64994), (34700, 72702, 189020, 63168), (34800, 72726, 183780, 61396),
   (34900, 72749, 178690, 59675), (35000, 72773, 173740, 58004), (35100, 72796, 168930, 56382),
   (35200, 72818, 164260, 54806), (35300, 72841, 159730, 53277), (35400, 72863, 155320, 51791),
   (35500, 72885, 151040, 50349), (35600, 72907, 146890, 48948), (35700, 72928, 142850, 47588),
   (35800, 72950, 138920, 46267), (35900, 72971, 135110, 44984), (36000, 72992, 131400, 43737),
   (36100, 73012, 127800, 42527), (36200, 73033, 124300, 41351), (36300, 73053, 120900, 40209),
   (36400, 73073, 117600, 39100), (36500, 73092, 114390, 38022), (36600, 73112, 111270, 36975),
   (36700, 73131, 108240, 35958), (36800, 73150, 105290, 34970), (36900, 73169, 102430, 34010),
   (37000, 73188, 99644, 33078), (37100, 73206, 96938, 32171), (37200, 73224, 94309, 31291),
   (37300, 73242, 91753, 30435), (37400, 73260, 89269, 29604), (37500, 73278, 86854, 28796),
   (37600, 73295, 84506, 28011), (37700, 73313, 82224, 27248), (37800, 73330, 80006, 26507),
   (37900, 73347, 77849, 25787), (38000, 73364, 75752, 25086), (38100, 73380, 73714, 24406),
   (38200, 73396, 71732, 23744), (38300, 73413, 69805, 23101), (38400, 73429, 67932, 22477),
   (38500, 73445, 66110, 21869), (38600, 73460, 64339, 21279), (38700, 73476, 62617, 20705),
   (38800, 73491, 60942, 20147), (38900, 73506, 59314, 19604), (39000, 73521, 57730, 19077),
   (39100, 73536, 56190, 18564), (39200, 73551, 54693, 18066), (39300, 73565, 53236, 17581),
   (39400, 73580, 51820, 17110), (39500, 73594, 50442, 16652), (39600, 73608, 49102, 16207),
   (39700, 73622, 47799, 15774), (39800, 73636, 46531, 15352), (39900, 73649, 45299, 14943),
   (40000, 73663, 44099, 14545)]

/-- atmdata/Neptune/neptune-gram-avg.dat:2-519, columns 0, 7, 6, 5. -/
def neptune : AtmFile := ⟨1, 2, 13, 19, true,
    (neptunePart0 ++ neptunePart1 ++ neptunePart2)⟩

/-- atmdata/Uranus/uranus-gram-avg.dat:2-5202, part 0. -/
def uranusGramPart0 : List (ℤ × ℤ × ℤ × ℤ) :=
  [(-200, 2389, 3959000000000000, 50360000000000000),
   (-199, 2380, 3916000000000000, 49940000000000000),
   (-198, 2372, 3873000000000000, 49520000000000000),
   (-197, 2364, 3830000000000000, 49110000000000000),
   (-196, 2356, 3788000000000000, 48710000000000000),
   (-195, 2347, 3745000000000000, 48270000000000000),
   (-194, 2339, 3702000000000000, 47850000000000000),
   (-193, 2331, 3659000000000000, 47420000000000000),
   (-192, 2323, 3617000000000000, 47010000000000000),
   (-191, 2315, 3575000000000000, 46590000000000000),
   (-190, 2306, 3534000000000000, 46180000000000000),
   (-189, 2298, 3493000000000000, 45780000000000000),
   (-188, 2290, 3453000000000000, 45370000000000000),
   (-187, 2282, 3413000000000000, 44980000000000000),
   (-186, 2274, 3374000000000000, 44580000000000000),
   (-185, 2265, 3335000000000000, 44190000000000000),
   (-184, 2257, 3297000000000000, 43810000000000000),
   (-183, 2249, 3259000000000000, 43430000000000000),
   (-182, 2241, 3221000000000000, 43050000000000000),
   (-181, 2233, 3184000000000000, 42680000000000000),
   (-180, 2224, 3147000000000000, 42310000000000000),
   (-179, 2216, 3111000000000000, 41940000000000000),
   (-178, 2208, 3075000000000000, 41580000000000000),
   (-177, 2200, 3040000000000000, 41220000000000000),
   (-176, 2192, 3005000000000000, 40860000000000000),
   (-175, 2183, 2968000000000000, 40480000000000000),
   (-174, 2175, 2932000000000000, 40100000000000000),
   (-173, 2167, 2896000000000000, 39720000000000000),
   (-172, 2159, 2860000000000000, 39350000000000000),
   (-171, 2151, 2825000000000000, 38990000000000000),
   (-170, 2142, 2791000000000000, 38620000000000000),
   (-169, 2134, 2757000000000000, 38260000000000000),
   (-168, 2126, 2723000000000000, 37910000000000000),
   (-167, 2118, 2690000000000000, 37560000000000000),
   (-166, 2110, 2657000000000000, 37210000000000000),
   (-165, 2102, 2625000000000000, 36870000000000000),
   (-164, 2093, 2592000000000000, 36530000000000000),
   (-163, 2085, 2561000000000000, 36190000000000000),
   (-162, 2077, 2530000000000000, 35860000000000000),
   (-161, 2069, 2499000000000000, 35530000000000000),
   (-160, 2061, 2468000000000000, 35200000000000000),
   (-159, 2052, 2438000000000000, 34880000000000000),
   (-158, 2044, 2408000000000000, 34560000000000000),
   (-157, 2036, 2378000000000000, 34240000000000000),
   (-156, 2028, 2347000000000000, 33900000000000000),
   (-155, 2020, 2317000000000000, 33560000000000000),
   (-154, 2012, 2287000000000000, 33230000000000000),
   (-153, 2003, 2257000000000000, 32900000000000000),
   (-152, 1995, 2228000000000000, 32580000000000000),
   (-151, 1987, 2199000000000000, 32260000000000000),
   (-150, 1979, 2170000000000000, 31940000000000000),
   (-149, 1971, 2142000000000000, 31630000000000000),
   (-148, 1963, 2114000000000000, 31320000000000000),
   (-147, 1955, 2087000000000000, 31020000000000000),
   (-146, 1946, 2060000000000000, 30710000000000000),
   (-145, 1938, 2033000000000000, 30410000000000000),
   (-144, 1930, 2007000000000000, 30120000000000000),
   (-143, 1922, 1981000000000000, 29830000000000000),
   (-142, 1914, 1955000000000000, 29540000000000000),
   (-141, 1906, 1929000000000000, 29250000000000000),
   (-140, 1897, 1904000000000000, 28970000000000000),
   (-139, 1889, 1879000000000000, 28680000000000000),
   (-138, 1881, 1853000000000000, 28380000000000000),
   (-137, 1873, 1827000000000000, 28080000000000000),
   (-136, 1865, 1802000000000000, 27790000000000000),
   (-135, 1857, 1777000000000000, 27510000000000000),
   (-134, 1849, 1752000000000000, 27220000000000000),
   (-133, 1840, 1728000000000000, 26940000000000000),
   (-132, 1832, 1704000000000000, 26670000000000000),
   (-131, 1824, 1681000000000000, 26390000000000000),
   (-130, 1816, 1658000000000000, 26120000000000000),
   (-129, 1808, 1635000000000000, 25850000000000000),
   (-128, 1800, 1612000000000000, 25590000000000000),
   (-127, 1792, 1590000000000000, 25330000000000000),
   (-126, 1784, 1568000000000000, 25070000000000000),
   (-125, 1775, 1546000000000000, 24820000000000000),
   (-124, 1767, 1525000000000000, 24570000000000000),
   (-123, 1759, 1504000000000000, 24320000000000000),
   (-122, 1751, 1482000000000000, 24050000000000000),
   (-121, 1743, 1460000000000000, 23790000000000000),
   (-120, 1735, 1438000000000000, 23530000000000000),
   (-119, 1727, 1417000000000000, 23270000000000000),
   (-118, 1719, 1396000000000000, 23020000000000000),
   (-117, 1710, 1376000000000000, 22770000000000000),
   (-116, 1702, 1355000000000000, 22520000000000000),
   (-115, 1694, 1336000000000000, 22280000000000000),
   (-114, 1686, 1316000000000000, 22040000000000000),
   (-113, 1678, 1297000000000000, 21800000000000000),
   (-112, 1670, 1277000000000000, 21570000000000000),
   (-111, 1662, 1259000000000000, 21340000000000000),
   (-110, 1654, 1240000000000000, 21110000000000000),
   (-109, 1645, 1222000000000000, 20880000000000000),
   (-108, 1637, 1204000000000000, 20660000000000000),
   (-107, 1629, 1185000000000000, 20430000000000000),
   (-106, 1621, 1167000000000000, 20200000000000000),
   (-105, 1613, 1149000000000000, 19970000000000000),
   (-104, 1605, 1131000000000000, 19740000000000000),
   (-103, 1597, 1113000000000000, 19520000000000000),
   (-102, 1589, 1096000000000000, 19300000000000000),
   (-101, 1581, 1079000000000000, 19090000000000000),
   (-100, 1573, 1062000000000000, 18870000000000000),
   (-99, 1564, 1045000000000000, 18660000000000000),
   (-98, 1556, 1029000000000000, 18450000000000000),
   (-97, 1548, 1013000000000000, 18250000000000000),
   (-96, 1540, 996900000000000, 18040000000000000),
   (-95, 1532, 980400000000000, 17830000000000000),
   (-94, 1524, 964100000000000, 17610000000000000),
   (-93, 1516, 948100000000000, 17400000000000000),
   (-92, 1508, 932400000000000, 17200000000000000),
   (-91, 1500, 917000000000000, 16990000000000000),
   (-90, 1492, 901800000000000, 16790000000000000),
   (-89, 1484, 886800000000000, 16590000000000000),
   (-88, 1476, 872100000000000, 16400000000000000),
   (-87, 1467, 857700000000000, 16200000000000000),
   (-86, 1459, 843500000000000, 16010000000000000),
   (-85, 1451, 829500000000000, 15830000000000000),
   (-84, 1443, 815700000000000, 15640000000000000),
   (-83, 1435, 801700000000000, 15450000000000000),
   (-82, 1427, 787500000000000, 15260000000000000),
   (-81, 1419, 773600000000000, 15070000000000000),
   (-80, 1411, 759900000000000, 14880000000000000),
   (-79, 1403, 746400000000000, 14690000000000000),
   (-78, 1395, 733200000000000, 14510000000000000),
   (-77, 1387, 720200000000000, 14330000000000000),
   (-76, 1379, 707500000000000, 14150000000000000),
   (-75, 1371, 694900000000000, 13980000000000000),
   (-74, 1363, 682600000000000, 13810000000000000),
   (-73, 1354, 670500000000000, 13640000000000000),
   (-72, 1346, 658600000000000, 13470000000000000),
   (-71, 1338, 646200000000000, 13290000000000000),
   (-70, 1330, 634000000000000, 13120000000000000),
   (-69, 1322, 622100000000000, 12940000000000000),
   (-68, 1314, 610300000000000, 12770000000000000),
   (-67, 1306, 598800000000000, 12610000000000000),
   (-66, 1298, 587600000000000, 12440000000000000),
   (-65, 1290, 576500000000000, 12280000000000000),
   (-64, 1282, 565600000000000, 12120000000000000),
   (-63, 1274, 555000000000000, 11960000000000000),
   (-62, 1266, 544100000000000, 11800000000000000),
   (-61, 1258, 533100000000000, 11640000000000000),
   (-60, 1250, 522400000000000, 11470000000000000),
   (-59, 1242, 511800000000000, 11310000000000000),
   (-58, 1234, 501500000000000, 11150000000000000),
   (-57, 1226, 491400000000000, 11000000000000000),
   (-56, 1218, 481400000000000, 10850000000000000),
   (-55, 1210, 471700000000000, 10700000000000000),
   (-54, 1202, 462200000000000, 10550000000000000),
   (-53, 1194, 452900000000000, 10400000000000000),
   (-52, 1185, 443300000000000, 10250000000000000),
   (-51, 1177, 433700000000000, 10100000000000000), (-50, 1169, 424400000000000, 9948000000000000),
   (-49, 1161, 415300000000000, 9801000000000000), (-48, 1153, 406300000000000, 9656000000000000),
   (-47, 1145, 397600000000000, 9514000000000000), (-46, 1137, 389000000000000, 9374000000000000),
   (-45, 1129, 380600000000000, 9237000000000000), (-44, 1121, 371900000000000, 9090000000000000),
   (-43, 1113, 363200000000000, 8943000000000000), (-42, 1105, 354700000000000, 8798000000000000),
   (-41, 1097, 346500000000000, 8656000000000000), (-40, 1089, 338400000000000, 8517000000000000),
   (-39, 1081, 330500000000000, 8380000000000000), (-38, 1073, 322800000000000, 8247000000000000),
   (-37, 1065, 315200000000000, 8115000000000000), (-36, 1057, 307900000000000, 7987000000000000),
   (-35, 1049, 300700000000000, 7860000000000000), (-34, 1041, 289100000000000, 7713000000000000),
   (-33, 1033, 277900000000000, 7569000000000000), (-32, 1025, 267200000000000, 7430000000000000),
   (-31, 1017, 256900000000000, 7296000000000000), (-30, 1009, 247000000000000, 7165000000000000),
   (-29, 1001, 237500000000000, 7038000000000000), (-28, 993, 228400000000000, 6916000000000000),
   (-27, 985, 219600000000000, 6797000000000000), (-26, 977, 211100000000000, 6682000000000000),
   (-25, 969, 203000000000000, 6571000000000000), (-24, 961, 197700000000000, 6443000000000000),
   (-23, 953, 192600000000000, 6318000000000000), (-22, 945, 187600000000000, 6195000000000000),
   (-21, 937, 182700000000000, 6076000000000000), (-20, 929, 178000000000000, 5959000000000000),
   (-19, 921, 173600000000000, 5851000000000000), (-18, 913, 169300000000000, 5745000000000000),
   (-17, 905, 165100000000000, 5642000000000000), (-16, 897, 161000000000000, 5541000000000000),
   (-15, 889, 157000000000000, 5442000000000000), (-14, 881, 152600000000000, 5320000000000000),
   (-13, 873, 148200000000000, 5202000000000000), (-12, 864, 144000000000000, 5087000000000000),
   (-11, 856, 140000000000000, 4975000000000000), (-10, 848, 136000000000000, 4866000000000000),
   (-9, 841, 132000000000000, 4744000000000000), (-8, 833, 128100000000000, 4626000000000000),
   (-7, 826, 124300000000000, 4511000000000000), (-6, 818, 120600000000000, 4399000000000000),
   (-5, 811, 117000000000000, 4291000000000000), (-4, 802, 113400000000000, 4184000000000000),
   (-3, 792, 109900000000000, 4080000000000000), (-2, 783, 106500000000000, 3979000000000000),
   (-1, 773, 103200000000000, 3882000000000000)]

/-- atmdata/Uranus/uranus-gram-avg.dat:2-5202, part 1. -/
def uranusGramPart1 : List (ℤ × ℤ × ℤ × ℤ) :=
  [(0, 764, 100000000000000, 3788000000000000), (1, 755, 96660000000000, 3695000000000000),
   (2, 746, 93440000000000, 3605000000000000), (3, 737, 90320000000000, 3517000000000000),
   (4, 728, 87310000000000, 3433000000000000), (5, 719, 84400000000000, 3350000000000000),
   (6, 710, 81490000000000, 3266000000000000), (7, 702, 78670000000000, 3185000000000000),
   (8, 693, 75950000000000, 3106000000000000), (9, 685, 73330000000000, 3030000000000000),
   (10, 676, 70800000000000, 2956000000000000), (11, 669, 68150000000000, 2873000000000000),
   (12, 661, 65600000000000, 2793000000000000), (13, 654, 63140000000000, 2716000000000000),
   (14, 646, 60780000000000, 2642000000000000), (15, 639, 58500000000000, 2569000000000000),
   (16, 633, 56230000000000, 2494000000000000), (17, 626, 54050000000000, 2421000000000000),
   (18, 620, 51950000000000, 2350000000000000), (19, 613, 49940000000000, 2282000000000000),
   (20, 607, 48000000000000, 2216000000000000), (21, 602, 46020000000000, 2143000000000000),
   (22, 597, 44130000000000, 2072000000000000), (23, 591, 42310000000000, 2004000000000000),
   (24, 586, 40570000000000, 1938000000000000), (25, 581, 38900000000000, 1875000000000000),
   (26, 577, 37250000000000, 1807000000000000), (27, 573, 35660000000000, 1741000000000000),
   (28, 570, 34140000000000, 1678000000000000), (29, 566, 32690000000000, 1618000000000000),
   (30, 562, 31300000000000, 1559000000000000), (31, 560, 29950000000000, 1497000000000000),
   (32, 558, 28650000000000, 1438000000000000), (33, 556, 27420000000000, 1380000000000000),
   (34, 554, 26230000000000, 1325000000000000), (35, 552, 25100000000000, 1273000000000000),
   (36, 550, 23990000000000, 1220000000000000), (37, 548, 22920000000000, 1170000000000000),
   (38, 547, 21900000000000, 1122000000000000), (39, 545, 20930000000000, 1075000000000000),
   (40, 543, 20000000000000, 1031000000000000), (41, 541, 19100000000000, 987600000000000),
   (42, 540, 18250000000000, 946000000000000), (43, 538, 17430000000000, 906100000000000),
   (44, 537, 16650000000000, 868000000000000), (45, 535, 15900000000000, 831500000000000),
   (46, 534, 15180000000000, 794900000000000), (47, 533, 14490000000000, 760000000000000),
   (48, 533, 13830000000000, 726600000000000), (49, 532, 13200000000000, 694700000000000),
   (50, 531, 12600000000000, 664200000000000), (51, 531, 12020000000000, 634000000000000),
   (52, 531, 11470000000000, 605300000000000), (53, 530, 10950000000000, 577900000000000),
   (54, 530, 10450000000000, 551700000000000), (55, 530, 9970000000000, 526600000000000),
   (56, 531, 9517000000000, 502100000000000), (57, 531, 9084000000000, 478800000000000),
   (58, 532, 8671000000000, 456500000000000), (59, 532, 8276000000000, 435300000000000),
   (60, 533, 7900000000000, 415000000000000), (61, 533, 7543000000000, 396100000000000),
   (62, 533, 7203000000000, 378100000000000), (63, 534, 6877000000000, 360900000000000),
   (64, 534, 6567000000000, 344400000000000), (65, 534, 6270000000000, 328800000000000),
   (66, 535, 5988000000000, 313300000000000), (67, 536, 5718000000000, 298600000000000),
   (68, 537, 5461000000000, 284600000000000), (69, 538, 5215000000000, 271300000000000),
   (70, 539, 4980000000000, 258500000000000), (71, 540, 4757000000000, 246300000000000),
   (72, 542, 4544000000000, 234700000000000), (73, 543, 4340000000000, 223600000000000),
   (74, 545, 4146000000000, 213000000000000), (75, 546, 3960000000000, 203000000000000),
   (76, 547, 3788000000000, 193700000000000), (77, 548, 3623000000000, 184900000000000),
   (78, 550, 3465000000000, 176400000000000), (79, 551, 3314000000000, 168400000000000),
   (80, 552, 3170000000000, 160700000000000), (81, 554, 3033000000000, 153200000000000),
   (82, 556, 2901000000000, 145900000000000), (83, 559, 2775000000000, 139100000000000),
   (84, 561, 2655000000000, 132500000000000), (85, 563, 2540000000000, 126300000000000),
   (86, 566, 2431000000000, 120200000000000), (87, 570, 2327000000000, 114300000000000),
   (88, 573, 2227000000000, 108800000000000), (89, 577, 2131000000000, 103500000000000),
   (90, 580, 2040000000000, 98460000000000), (91, 584, 1958000000000, 93770000000000),
   (92, 589, 1879000000000, 89310000000000), (93, 593, 1803000000000, 85070000000000),
   (94, 598, 1730000000000, 81030000000000), (95, 602, 1660000000000, 77190000000000),
   (96, 614, 1595000000000, 72750000000000), (97, 626, 1533000000000, 68580000000000),
   (98, 637, 1473000000000, 64680000000000), (99, 649, 1415000000000, 61020000000000),
   (100, 661, 1360000000000, 57590000000000), (101, 658, 1311000000000, 55780000000000),
   (102, 654, 1263000000000, 54030000000000), (103, 651, 1217000000000, 52340000000000),
   (104, 647, 1173000000000, 50700000000000), (105, 644, 1130000000000, 49120000000000),
   (106, 642, 1087000000000, 47410000000000), (107, 640, 1046000000000, 45770000000000),
   (108, 637, 1006000000000, 44180000000000), (109, 635, 967800000000, 42650000000000),
   (110, 633, 931000000000, 41170000000000), (111, 633, 895400000000, 39560000000000),
   (112, 634, 861100000000, 38020000000000), (113, 634, 828200000000, 36550000000000),
   (114, 635, 796500000000, 35120000000000), (115, 635, 766000000000, 33760000000000),
   (116, 638, 737100000000, 32350000000000), (117, 640, 709300000000, 31000000000000),
   (118, 643, 682500000000, 29710000000000), (119, 645, 656800000000, 28470000000000),
   (120, 648, 632000000000, 27290000000000), (121, 653, 609000000000, 26080000000000),
   (122, 659, 586800000000, 24920000000000), (123, 664, 565400000000, 23820000000000),
   (124, 670, 544800000000, 22770000000000), (125, 675, 525000000000, 21770000000000),
   (126, 677, 506300000000, 20930000000000), (127, 679, 488300000000, 20130000000000),
   (128, 681, 470900000000, 19350000000000), (129, 683, 454200000000, 18610000000000),
   (130, 685, 438000000000, 17900000000000), (131, 687, 422800000000, 17230000000000),
   (132, 688, 408100000000, 16600000000000), (133, 690, 393900000000, 15980000000000),
   (134, 691, 380200000000, 15390000000000), (135, 693, 367000000000, 14820000000000),
   (136, 692, 354100000000, 14330000000000), (137, 691, 341700000000, 13850000000000),
   (138, 689, 329700000000, 13390000000000), (139, 688, 318200000000, 12940000000000),
   (140, 687, 307000000000, 12510000000000), (141, 686, 296000000000, 12080000000000),
   (142, 685, 285500000000, 11670000000000), (143, 683, 275300000000, 11280000000000),
   (144, 682, 265500000000, 10890000000000), (145, 681, 256000000000, 10520000000000),
   (146, 681, 247000000000, 10140000000000), (147, 682, 238300000000, 9764000000000),
   (148, 682, 229900000000, 9404000000000), (149, 683, 221800000000, 9058000000000),
   (150, 683, 214000000000, 8725000000000), (151, 685, 209600000000, 8527000000000),
   (152, 686, 205300000000, 8333000000000), (153, 688, 201100000000, 8144000000000),
   (154, 689, 197000000000, 7959000000000), (155, 691, 193000000000, 7778000000000),
   (156, 695, 189100000000, 7579000000000), (157, 698, 185200000000, 7386000000000),
   (158, 702, 181400000000, 7198000000000), (159, 705, 177700000000, 7015000000000),
   (160, 709, 174100000000, 6837000000000), (161, 713, 170500000000, 6661000000000),
   (162, 717, 167000000000, 6491000000000), (163, 720, 163600000000, 6324000000000),
   (164, 724, 160300000000, 6163000000000), (165, 728, 157000000000, 6005000000000),
   (166, 737, 153800000000, 5814000000000), (167, 745, 150600000000, 5631000000000),
   (168, 753, 147600000000, 5453000000000), (169, 762, 144500000000, 5282000000000),
   (170, 770, 141600000000, 5117000000000), (171, 785, 138700000000, 4917000000000),
   (172, 800, 135900000000, 4727000000000), (173, 815, 133100000000, 4546000000000),
   (174, 830, 130400000000, 4373000000000), (175, 845, 127700000000, 4208000000000),
   (176, 865, 125100000000, 4026000000000), (177, 885, 122500000000, 3854000000000),
   (178, 905, 120000000000, 3691000000000), (179, 926, 117600000000, 3537000000000),
   (180, 946, 115200000000, 3391000000000), (181, 964, 112800000000, 3260000000000),
   (182, 982, 110500000000, 3134000000000), (183, 1000, 108300000000, 3015000000000),
   (184, 1018, 106000000000, 2901000000000), (185, 1036, 103900000000, 2792000000000),
   (186, 1052, 101700000000, 2694000000000), (187, 1068, 99670000000, 2600000000000),
   (188, 1083, 97630000000, 2509000000000), (189, 1099, 95640000000, 2423000000000),
   (190, 1115, 93680000000, 2339000000000), (191, 1128, 91770000000, 2266000000000),
   (192, 1140, 89890000000, 2195000000000), (193, 1153, 88050000000, 2127000000000),
   (194, 1165, 86250000000, 2061000000000), (195, 1178, 84490000000, 1997000000000),
   (196, 1189, 82870000000, 1940000000000), (197, 1201, 81270000000, 1885000000000),
   (198, 1212, 79710000000, 1831000000000), (199, 1223, 78170000000, 1780000000000)]

/-- atmdata/Uranus/uranus-gram-avg.dat:2-5202, part 2. -/
def uranusGramPart2 : List (ℤ × ℤ × ℤ × ℤ) :=
  [(200, 1235, 76670000000, 1729000000000), (201, 1246, 75190000000, 1681000000000),
   (202, 1257, 73750000000, 1634000000000), (203, 1268, 72330000000, 1588000000000),
   (204, 1280, 70940000000, 1544000000000), (205, 1291, 69570000000, 1501000000000),
   (206, 1301, 68250000000, 1461000000000), (207, 1305, 67040000000, 1431000000000),
   (208, 1309, 65850000000, 1401000000000), (209, 1313, 64680000000, 1371000000000),
   (210, 1318, 63530000000, 1343000000000), (211, 1322, 62400000000, 1315000000000),
   (212, 1326, 61290000000, 1287000000000), (213, 1330, 60200000000, 1260000000000),
   (214, 1331, 59140000000, 1237000000000), (215, 1333, 58110000000, 1214000000000),
   (216, 1334, 57090000000, 1192000000000), (217, 1335, 56080000000, 1169000000000),
   (218, 1337, 55100000000, 1148000000000), (219, 1338, 54130000000, 1126000000000),
   (220, 1340, 53180000000, 1105000000000), (221, 1340, 52250000000, 1086000000000),
   (222, 1340, 51340000000, 1067000000000), (223, 1340, 50440000000, 1048000000000),
   (224, 1340, 49550000000, 1030000000000), (225, 1340, 48690000000, 1012000000000),
   (226, 1340, 47830000000, 994000000000), (227, 1340, 47000000000, 976600000000),
   (228, 1339, 46170000000, 959900000000), (229, 1338, 45370000000, 944200000000),
   (230, 1337, 44580000000, 928700000000), (231, 1335, 43800000000, 913400000000),
   (232, 1334, 43040000000, 898400000000), (233, 1333, 42290000000, 883700000000),
   (234, 1331, 41550000000, 869200000000), (235, 1330, 40830000000, 854900000000),
   (236, 1328, 40120000000, 841000000000), (237, 1327, 39430000000, 827300000000),
   (238, 1326, 38740000000, 813800000000), (239, 1324, 38070000000, 800500000000),
   (240, 1323, 37410000000, 787400000000), (241, 1322, 36760000000, 774600000000),
   (242, 1320, 36130000000, 762000000000), (243, 1319, 35490000000, 749300000000),
   (244, 1318, 34860000000, 736800000000), (245, 1316, 34240000000, 724500000000),
   (246, 1315, 33640000000, 712400000000), (247, 1313, 33040000000, 700500000000),
   (248, 1312, 32460000000, 688900000000), (249, 1311, 31880000000, 677400000000),
   (250, 1309, 31310000000, 666300000000), (251, 1306, 30740000000, 655600000000),
   (252, 1303, 30190000000, 645100000000), (253, 1300, 29640000000, 634800000000),
   (254, 1298, 29100000000, 624600000000), (255, 1295, 28580000000, 614600000000),
   (256, 1292, 28060000000, 604700000000), (257, 1290, 27550000000, 594900000000),
   (258, 1288, 27060000000, 585000000000), (259, 1287, 26580000000, 575200000000),
   (260, 1285, 26110000000, 565600000000), (261, 1284, 25640000000, 556100000000),
   (262, 1283, 25190000000, 546800000000), (263, 1281, 24740000000, 537600000000),
   (264, 1280, 24300000000, 528700000000), (265, 1277, 23850000000, 520000000000),
   (266, 1275, 23410000000, 511400000000), (267, 1272, 22970000000, 503000000000),
   (268, 1269, 22550000000, 494800000000), (269, 1266, 22130000000, 486700000000),
   (270, 1264, 21720000000, 478700000000), (271, 1261, 21320000000, 470800000000),
   (272, 1259, 20920000000, 462800000000), (273, 1258, 20540000000, 454700000000),
   (274, 1256, 20160000000, 446800000000), (275, 1255, 19790000000, 439000000000),
   (276, 1254, 19420000000, 431400000000), (277, 1252, 19060000000, 423900000000),
   (278, 1251, 18710000000, 416500000000), (279, 1249, 18360000000, 409400000000),
   (280, 1246, 18010000000, 402500000000), (281, 1243, 17670000000, 395800000000),
   (282, 1241, 17340000000, 389200000000), (283, 1238, 17010000000, 382700000000),
   (284, 1235, 16690000000, 376300000000), (285, 1232, 16380000000, 370000000000),
   (286, 1230, 16070000000, 363800000000), (287, 1228, 15760000000, 357300000000),
   (288, 1227, 15470000000, 350900000000), (289, 1226, 15170000000, 344700000000),
   (290, 1224, 14880000000, 338500000000), (291, 1223, 14600000000, 332500000000),
   (292, 1222, 14330000000, 326500000000), (293, 1220, 14050000000, 320700000000),
   (294, 1219, 13790000000, 315000000000), (295, 1218, 13530000000, 309400000000),
   (296, 1216, 13270000000, 303900000000), (297, 1215, 13020000000, 298500000000),
   (298, 1213, 12770000000, 293100000000), (299, 1212, 12530000000, 287900000000),
   (300, 1211, 12290000000, 282800000000), (301, 1209, 12060000000, 277700000000),
   (302, 1208, 11830000000, 272700000000), (303, 1206, 11600000000, 267800000000),
   (304, 1205, 11380000000, 263000000000), (305, 1204, 11170000000, 258300000000),
   (306, 1202, 10950000000, 253700000000), (307, 1201, 10740000000, 249100000000),
   (308, 1200, 10540000000, 244500000000), (309, 1200, 10340000000, 239800000000),
   (310, 1200, 10140000000, 235200000000), (311, 1200, 9943000000, 230700000000),
   (312, 1200, 9751000000, 226300000000), (313, 1200, 9564000000, 221900000000),
   (314, 1200, 9380000000, 217700000000), (315, 1200, 9200000000, 213500000000),
   (316, 1199, 9026000000, 209700000000), (317, 1197, 8854000000, 205900000000),
   (318, 1196, 8686000000, 202300000000), (319, 1195, 8522000000, 198700000000),
   (320, 1193, 8360000000, 195100000000), (321, 1192, 8202000000, 191600000000),
   (322, 1190, 8046000000, 188200000000), (323, 1191, 7887000000, 184400000000),
   (324, 1192, 7729000000, 180500000000), (325, 1194, 7574000000, 176700000000),
   (326, 1195, 7422000000, 172900000000), (327, 1196, 7273000000, 169300000000),
   (328, 1198, 7127000000, 165700000000), (329, 1199, 6984000000, 162200000000),
   (330, 1200, 6847000000, 158900000000), (331, 1200, 6718000000, 155900000000),
   (332, 1200, 6590000000, 152900000000), (333, 1200, 6465000000, 150000000000),
   (334, 1200, 6343000000, 147200000000), (335, 1200, 6222000000, 144400000000),
   (336, 1200, 6104000000, 141700000000), (337, 1200, 5988000000, 138900000000),
   (338, 1203, 5872000000, 135900000000), (339, 1206, 5758000000, 133000000000),
   (340, 1208, 5646000000, 130100000000), (341, 1211, 5537000000, 127300000000),
   (342, 1214, 5429000000, 124500000000), (343, 1217, 5324000000, 121800000000),
   (344, 1219, 5220000000, 119200000000), (345, 1222, 5118000000, 116600000000),
   (346, 1225, 5018000000, 114100000000), (347, 1228, 4919000000, 111600000000),
   (348, 1230, 4823000000, 109200000000), (349, 1233, 4728000000, 106800000000),
   (350, 1236, 4636000000, 104500000000), (351, 1239, 4545000000, 102200000000),
   (352, 1241, 4456000000, 99960000000), (353, 1244, 4370000000, 97810000000),
   (354, 1247, 4285000000, 95700000000), (355, 1250, 4202000000, 93630000000),
   (356, 1252, 4120000000, 91610000000), (357, 1255, 4040000000, 89640000000),
   (358, 1258, 3962000000, 87710000000), (359, 1261, 3888000000, 85860000000),
   (360, 1267, 3831000000, 84230000000), (361, 1272, 3775000000, 82630000000),
   (362, 1278, 3719000000, 81070000000), (363, 1283, 3665000000, 79540000000),
   (364, 1288, 3611000000, 78030000000), (365, 1294, 3558000000, 76560000000),
   (366, 1299, 3505000000, 75110000000), (367, 1305, 3407000000, 72720000000),
   (368, 1310, 3306000000, 70290000000), (369, 1315, 3208000000, 67950000000),
   (370, 1320, 3113000000, 65680000000), (371, 1325, 3021000000, 63500000000),
   (372, 1330, 2932000000, 61380000000), (373, 1335, 2845000000, 59340000000),
   (374, 1340, 2761000000, 57360000000), (375, 1345, 2679000000, 55460000000),
   (376, 1351, 2600000000, 53610000000), (377, 1356, 2523000000, 51830000000),
   (378, 1361, 2449000000, 50110000000), (379, 1366, 2376000000, 48450000000),
   (380, 1371, 2306000000, 46840000000), (381, 1376, 2238000000, 45290000000),
   (382, 1381, 2172000000, 43780000000), (383, 1386, 2107000000, 42330000000),
   (384, 1391, 2045000000, 40930000000), (385, 1396, 1985000000, 39570000000),
   (386, 1402, 1926000000, 38260000000), (387, 1407, 1869000000, 37000000000),
   (388, 1412, 1814000000, 35770000000), (389, 1417, 1760000000, 34590000000),
   (390, 1422, 1708000000, 33450000000), (391, 1427, 1657000000, 32340000000),
   (392, 1432, 1608000000, 31270000000), (393, 1437, 1561000000, 30240000000),
   (394, 1442, 1515000000, 29240000000), (395, 1447, 1470000000, 28280000000),
   (396, 1452, 1426000000, 27350000000), (397, 1458, 1384000000, 26440000000),
   (398, 1463, 1343000000, 25570000000), (399, 1468, 1304000000, 24730000000)]

/-- atmdata/Uranus/uranus-gram-avg.dat:2-5202, part 3. -/
def uranusGramPart3 : List (ℤ × ℤ × ℤ × ℤ) :=
  [(400, 1473, 1265000000, 23920000000), (401, 1476, 1247000000, 23540000000),
   (402, 1478, 1230000000, 23170000000), (403, 1481, 1213000000, 22800000000),
   (404, 1484, 1196000000, 22440000000), (405, 1487, 1179000000, 22090000000),
   (406, 1489, 1163000000, 21740000000), (407, 1492, 1147000000, 21400000000),
   (408, 1495, 1131000000, 21060000000), (409, 1498, 1115000000, 20730000000),
   (410, 1500, 1099000000, 20410000000), (411, 1503, 1082000000, 20040000000),
   (412, 1507, 1064000000, 19670000000), (413, 1510, 1047000000, 19310000000),
   (414, 1513, 1030000000, 18960000000), (415, 1516, 1014000000, 18620000000),
   (416, 1519, 997300000, 18280000000), (417, 1523, 981200000, 17950000000),
   (418, 1526, 965400000, 17620000000), (419, 1529, 949900000, 17300000000),
   (420, 1532, 934500000, 16990000000), (421, 1535, 919500000, 16680000000),
   (422, 1538, 904700000, 16380000000), (423, 1542, 890100000, 16080000000),
   (424, 1545, 875800000, 15790000000), (425, 1548, 861700000, 15500000000),
   (426, 1551, 847800000, 15220000000), (427, 1554, 834200000, 14940000000),
   (428, 1557, 820700000, 14670000000), (429, 1561, 807500000, 14410000000),
   (430, 1564, 794500000, 14150000000), (431, 1567, 781700000, 13890000000),
   (432, 1570, 769100000, 13640000000), (433, 1573, 756700000, 13390000000),
   (434, 1577, 744600000, 13150000000), (435, 1580, 732600000, 12910000000),
   (436, 1583, 720800000, 12680000000), (437, 1586, 709200000, 12450000000),
   (438, 1589, 697700000, 12230000000), (439, 1592, 686500000, 12000000000),
   (440, 1596, 675500000, 11790000000), (441, 1599, 664900000, 11580000000),
   (442, 1602, 654600000, 11380000000), (443, 1605, 644400000, 11180000000),
   (444, 1608, 634300000, 10980000000), (445, 1611, 624500000, 10790000000),
   (446, 1615, 614700000, 10600000000), (447, 1618, 605100000, 10420000000),
   (448, 1621, 595700000, 10230000000), (449, 1624, 586400000, 10050000000),
   (450, 1627, 577300000, 9879000000), (451, 1630, 568300000, 9706000000),
   (452, 1634, 559500000, 9536000000), (453, 1637, 550800000, 9370000000),
   (454, 1640, 542200000, 9206000000), (455, 1643, 533800000, 9046000000),
   (456, 1646, 525500000, 8888000000), (457, 1650, 517300000, 8733000000),
   (458, 1653, 509200000, 8580000000), (459, 1656, 501300000, 8430000000),
   (460, 1659, 493500000, 8283000000), (461, 1676, 475000000, 7895000000),
   (462, 1692, 457300000, 7526000000), (463, 1708, 440200000, 7175000000),
   (464, 1725, 423700000, 6841000000), (465, 1741, 407800000, 6522000000),
   (466, 1758, 392600000, 6220000000), (467, 1774, 377900000, 5932000000),
   (468, 1791, 363800000, 5657000000), (469, 1807, 350200000, 5396000000),
   (470, 1823, 337100000, 5147000000), (471, 1829, 335500000, 5109000000),
   (472, 1834, 334000000, 5071000000), (473, 1839, 332500000, 5034000000),
   (474, 1845, 331000000, 4997000000), (475, 1850, 329500000, 4960000000),
   (476, 1855, 328000000, 4924000000), (477, 1861, 326600000, 4887000000),
   (478, 1866, 325100000, 4852000000), (479, 1871, 323600000, 4816000000),
   (480, 1877, 322200000, 4781000000), (481, 1882, 319800000, 4722000000),
   (482, 1887, 317500000, 4665000000), (483, 1893, 315200000, 4608000000),
   (484, 1898, 312900000, 4552000000), (485, 1903, 310600000, 4496000000),
   (486, 1909, 308300000, 4442000000), (487, 1914, 306000000, 4388000000),
   (488, 1919, 303800000, 4334000000), (489, 1924, 301600000, 4282000000),
   (490, 1930, 299400000, 4230000000), (491, 1956, 291900000, 4061000000),
   (492, 1982, 284700000, 3900000000), (493, 2008, 277600000, 3746000000),
   (494, 2034, 270700000, 3598000000), (495, 2060, 264000000, 3457000000),
   (496, 2086, 257400000, 3322000000), (497, 2112, 251000000, 3193000000),
   (498, 2138, 244800000, 3069000000), (499, 2165, 238700000, 2951000000),
   (500, 2191, 232800000, 2838000000), (501, 2199, 230800000, 2799000000),
   (502, 2207, 228800000, 2760000000), (503, 2215, 226800000, 2722000000),
   (504, 2223, 224900000, 2685000000), (505, 2231, 222900000, 2648000000),
   (506, 2239, 221000000, 2612000000), (507, 2247, 219100000, 2577000000),
   (508, 2255, 217300000, 2542000000), (509, 2263, 215400000, 2507000000),
   (510, 2271, 213500000, 2473000000), (511, 2278, 212100000, 2445000000),
   (512, 2285, 210700000, 2418000000), (513, 2293, 209300000, 2391000000),
   (514, 2300, 207900000, 2365000000), (515, 2307, 206500000, 2339000000),
   (516, 2315, 205100000, 2313000000), (517, 2322, 203700000, 2287000000),
   (518, 2329, 202300000, 2262000000), (519, 2337, 201000000, 2237000000),
   (520, 2344, 199600000, 2212000000), (521, 2353, 198000000, 2184000000),
   (522, 2362, 196500000, 2156000000), (523, 2372, 194900000, 2128000000),
   (524, 2381, 193400000, 2101000000), (525, 2390, 191900000, 2075000000),
   (526, 2399, 190400000, 2048000000), (527, 2409, 188900000, 2022000000),
   (528, 2418, 187400000, 1996000000), (529, 2427, 185900000, 1971000000),
   (530, 2436, 184500000, 1946000000), (531, 2448, 182900000, 1919000000),
   (532, 2460, 181300000, 1891000000), (533, 2471, 179700000, 1865000000),
   (534, 2483, 178100000, 1838000000), (535, 2494, 176600000, 1812000000),
   (536, 2506, 175000000, 1787000000), (537, 2518, 173500000, 1762000000),
   (538, 2529, 172000000, 1737000000), (539, 2541, 170500000, 1713000000),
   (540, 2552, 169000000, 1689000000), (541, 2560, 168200000, 1676000000),
   (542, 2567, 167400000, 1663000000), (543, 2574, 166600000, 1650000000),
   (544, 2582, 165800000, 1637000000), (545, 2589, 165100000, 1625000000),
   (546, 2596, 164300000, 1612000000), (547, 2604, 163500000, 1600000000),
   (548, 2611, 162700000, 1587000000), (549, 2619, 162000000, 1575000000),
   (550, 2626, 161200000, 1563000000), (551, 2633, 160400000, 1551000000),
   (552, 2641, 159700000, 1539000000), (553, 2648, 158900000, 1527000000),
   (554, 2655, 158200000, 1516000000), (555, 2663, 157400000, 1504000000),
   (556, 2670, 156700000, 1492000000), (557, 2677, 155900000, 1481000000),
   (558, 2685, 155200000, 1470000000), (559, 2692, 154500000, 1459000000),
   (560, 2699, 153700000, 1447000000), (561, 2713, 152400000, 1427000000),
   (562, 2727, 151000000, 1407000000), (563, 2741, 149700000, 1387000000),
   (564, 2755, 148300000, 1367000000), (565, 2769, 147000000, 1348000000),
   (566, 2783, 145700000, 1329000000), (567, 2797, 144400000, 1310000000),
   (568, 2811, 143100000, 1292000000), (569, 2825, 141800000, 1274000000),
   (570, 2839, 140500000, 1256000000), (571, 2853, 139300000, 1238000000),
   (572, 2867, 138000000, 1221000000), (573, 2881, 136800000, 1204000000),
   (574, 2895, 135600000, 1187000000), (575, 2909, 134400000, 1171000000),
   (576, 2923, 133200000, 1155000000), (577, 2937, 132000000, 1139000000),
   (578, 2951, 130800000, 1123000000), (579, 2965, 129600000, 1107000000),
   (580, 2979, 128500000, 1092000000), (581, 2992, 127500000, 1079000000),
   (582, 3005, 126400000, 1066000000), (583, 3017, 125400000, 1052000000),
   (584, 3030, 124500000, 1040000000), (585, 3043, 123500000, 1027000000),
   (586, 3055, 122500000, 1014000000), (587, 3068, 121500000, 1002000000),
   (588, 3081, 120600000, 989700000), (589, 3094, 119600000, 977600000),
   (590, 3106, 118700000, 965800000), (591, 3118, 117900000, 955300000),
   (592, 3130, 117000000, 944900000), (593, 3142, 116300000, 934700000),
   (594, 3154, 115500000, 924600000), (595, 3166, 114700000, 914600000),
   (596, 3178, 113900000, 904800000), (597, 3190, 113100000, 895100000),
   (598, 3202, 112300000, 885400000), (599, 3214, 111600000, 875900000)]

/-- atmdata/Uranus/uranus-gram-avg.dat:2-5202, part 4. -/
def uranusGramPart4 : List (ℤ × ℤ × ℤ × ℤ) :=
  [(600, 3226, 110800000, 866500000), (601, 3233, 110400000, 861200000),
   (602, 3240, 110000000, 855900000), (603, 3246, 109500000, 850700000),
   (604, 3253, 109100000, 845500000), (605, 3260, 108700000, 840300000),
   (606, 3266, 108300000, 835200000), (607, 3273, 107800000, 830100000),
   (608, 3280, 107400000, 825000000), (609, 3286, 107000000, 820000000),
   (610, 3293, 106600000, 815000000), (611, 3300, 106200000, 809900000),
   (612, 3306, 105800000, 804900000), (613, 3313, 105300000, 800000000),
   (614, 3320, 104900000, 795000000), (615, 3326, 104500000, 790100000),
   (616, 3333, 104100000, 785200000), (617, 3340, 103700000, 780400000),
   (618, 3346, 103300000, 775600000), (619, 3353, 102900000, 770800000),
   (620, 3360, 102500000, 766100000), (621, 3373, 101700000, 756900000),
   (622, 3387, 100900000, 747900000), (623, 3401, 100100000, 739000000),
   (624, 3414, 99340000, 730100000), (625, 3428, 98570000, 721500000),
   (626, 3442, 97810000, 712900000), (627, 3455, 97050000, 704400000),
   (628, 3469, 96300000, 696100000), (629, 3483, 95560000, 687800000),
   (630, 3496, 94820000, 679700000), (631, 3515, 93820000, 668800000),
   (632, 3534, 92840000, 658100000), (633, 3553, 91860000, 647600000),
   (634, 3571, 90890000, 637300000), (635, 3590, 89940000, 627200000),
   (636, 3609, 88990000, 617200000), (637, 3628, 88060000, 607400000),
   (638, 3647, 87130000, 597800000), (639, 3665, 86220000, 588400000),
   (640, 3684, 85310000, 579100000), (641, 3701, 84620000, 571700000),
   (642, 3718, 83940000, 564400000), (643, 3735, 83270000, 557200000),
   (644, 3752, 82600000, 550100000), (645, 3769, 81930000, 543100000),
   (646, 3786, 81270000, 536200000), (647, 3803, 80620000, 529400000),
   (648, 3820, 79970000, 522700000), (649, 3837, 79320000, 516100000),
   (650, 3854, 78690000, 509600000), (651, 3865, 78280000, 505400000),
   (652, 3876, 77890000, 501300000), (653, 3888, 77490000, 497200000),
   (654, 3899, 77090000, 493200000), (655, 3910, 76700000, 489200000),
   (656, 3921, 76310000, 485200000), (657, 3932, 75920000, 481200000),
   (658, 3943, 75530000, 477300000), (659, 3955, 75150000, 473500000),
   (660, 3966, 74760000, 469600000), (661, 3972, 74540000, 467400000),
   (662, 3979, 74310000, 465200000), (663, 3986, 74090000, 462900000),
   (664, 3992, 73860000, 460700000), (665, 3999, 73640000, 458500000),
   (666, 4006, 73410000, 456300000), (667, 4012, 73190000, 454100000),
   (668, 4019, 72970000, 452000000), (669, 4026, 72750000, 449800000),
   (670, 4032, 72530000, 447700000), (671, 4039, 72310000, 445600000),
   (672, 4046, 72100000, 443500000), (673, 4053, 71880000, 441400000),
   (674, 4059, 71670000, 439300000), (675, 4066, 71460000, 437300000),
   (676, 4073, 71250000, 435200000), (677, 4079, 71030000, 433200000),
   (678, 4086, 70820000, 431200000), (679, 4093, 70610000, 429200000),
   (680, 4099, 70400000, 427200000), (681, 4118, 69830000, 421700000),
   (682, 4137, 69260000, 416400000), (683, 4155, 68700000, 411100000),
   (684, 4174, 68140000, 405900000), (685, 4192, 67580000, 400800000),
   (686, 4211, 67030000, 395700000), (687, 4230, 66490000, 390700000),
   (688, 4248, 65950000, 385800000), (689, 4267, 65410000, 381000000),
   (690, 4286, 64880000, 376200000), (691, 4293, 64630000, 374100000),
   (692, 4300, 64380000, 372000000), (693, 4308, 64140000, 369900000),
   (694, 4315, 63890000, 367900000), (695, 4322, 63650000, 365800000),
   (696, 4330, 63410000, 363800000), (697, 4337, 63170000, 361700000),
   (698, 4345, 62920000, 359700000), (699, 4352, 62680000, 357700000),
   (700, 4359, 62440000, 355700000), (701, 4369, 62140000, 353200000),
   (702, 4378, 61830000, 350600000), (703, 4388, 61520000, 348100000),
   (704, 4397, 61220000, 345600000), (705, 4406, 60920000, 343200000),
   (706, 4416, 60620000, 340700000), (707, 4425, 60320000, 338300000),
   (708, 4435, 60020000, 335900000), (709, 4444, 59720000, 333500000),
   (710, 4454, 59430000, 331100000), (711, 4463, 59130000, 328700000),
   (712, 4473, 58830000, 326300000), (713, 4482, 58540000, 323900000),
   (714, 4492, 58240000, 321600000), (715, 4502, 57950000, 319200000),
   (716, 4511, 57660000, 316900000), (717, 4521, 57370000, 314600000),
   (718, 4530, 57080000, 312300000), (719, 4540, 56790000, 310000000),
   (720, 4550, 56510000, 307800000), (721, 4558, 56390000, 306600000),
   (722, 4566, 56270000, 305400000), (723, 4574, 56150000, 304100000),
   (724, 4582, 56030000, 302900000), (725, 4590, 55910000, 301700000),
   (726, 4598, 55790000, 300500000), (727, 4606, 55670000, 299300000),
   (728, 4614, 55560000, 298100000), (729, 4622, 55440000, 297000000),
   (730, 4630, 55320000, 295800000), (731, 4638, 55240000, 294800000),
   (732, 4646, 55150000, 293800000), (733, 4654, 55070000, 292800000),
   (734, 4662, 54980000, 291800000), (735, 4670, 54900000, 290800000),
   (736, 4679, 54810000, 289800000), (737, 4687, 54730000, 288900000),
   (738, 4695, 54640000, 287900000), (739, 4703, 54560000, 286900000),
   (740, 4711, 54480000, 285900000), (741, 4720, 54330000, 284600000),
   (742, 4730, 54190000, 283300000), (743, 4739, 54060000, 282000000),
   (744, 4749, 53920000, 280700000), (745, 4758, 53780000, 279400000),
   (746, 4767, 53640000, 278100000), (747, 4777, 53500000, 276800000),
   (748, 4786, 53360000, 275500000), (749, 4796, 53230000, 274200000),
   (750, 4805, 53090000, 272900000), (751, 4814, 52890000, 271400000),
   (752, 4824, 52700000, 269800000), (753, 4833, 52500000, 268300000),
   (754, 4842, 52310000, 266800000), (755, 4852, 52110000, 265200000),
   (756, 4861, 51920000, 263700000), (757, 4871, 51730000, 262200000),
   (758, 4880, 51540000, 260700000), (759, 4889, 51350000, 259200000),
   (760, 4899, 51160000, 257800000), (761, 4903, 51070000, 257100000),
   (762, 4908, 50980000, 256400000), (763, 4913, 50890000, 255700000),
   (764, 4917, 50800000, 255000000), (765, 4922, 50710000, 254300000),
   (766, 4926, 50620000, 253600000), (767, 4931, 50530000, 253000000),
   (768, 4935, 50450000, 252300000), (769, 4940, 50360000, 251600000),
   (770, 4944, 50270000, 250900000), (771, 4947, 50010000, 249500000),
   (772, 4949, 49740000, 248100000), (773, 4951, 49480000, 246700000),
   (774, 4954, 49220000, 245200000), (775, 4956, 48970000, 243800000),
   (776, 4958, 48710000, 242500000), (777, 4960, 48460000, 241100000),
   (778, 4963, 48200000, 239700000), (779, 4965, 47950000, 238300000),
   (780, 4967, 47700000, 237000000), (781, 4970, 47360000, 235200000),
   (782, 4972, 47020000, 233400000), (783, 4974, 46680000, 231600000),
   (784, 4977, 46350000, 229800000), (785, 4979, 46020000, 228100000),
   (786, 4981, 45690000, 226400000), (787, 4984, 45370000, 224600000),
   (788, 4986, 45040000, 222900000), (789, 4988, 44720000, 221200000),
   (790, 4991, 44400000, 219500000), (791, 4993, 44090000, 217900000),
   (792, 4995, 43770000, 216200000), (793, 4997, 43460000, 214600000),
   (794, 5000, 43150000, 212900000), (795, 5002, 42840000, 211300000),
   (796, 5004, 42530000, 209700000), (797, 5007, 42230000, 208100000),
   (798, 5009, 41930000, 206500000), (799, 5011, 41630000, 205000000)]

/-- atmdata/Uranus/uranus-gram-avg.dat:2-5202, part 5. -/
def uranusGramPart5 : List (ℤ × ℤ × ℤ × ℤ) :=
  [(800, 5014, 41330000, 203400000), (801, 5016, 41040000, 201900000),
   (802, 5018, 40750000, 200300000), (803, 5021, 40460000, 198800000),
   (804, 5023, 40170000, 197300000), (805, 5025, 39880000, 195800000),
   (806, 5027, 39600000, 194300000), (807, 5030, 39320000, 192900000),
   (808, 5032, 39040000, 191400000), (809, 5034, 38760000, 189900000),
   (810, 5037, 38490000, 188500000), (811, 5038, 38330000, 187700000),
   (812, 5039, 38170000, 186900000), (813, 5040, 38010000, 186000000),
   (814, 5042, 37850000, 185200000), (815, 5043, 37700000, 184400000),
   (816, 5044, 37540000, 183600000), (817, 5046, 37390000, 182800000),
   (818, 5047, 37230000, 182000000), (819, 5048, 37080000, 181200000),
   (820, 5049, 36920000, 180400000), (821, 5050, 36780000, 179700000),
   (822, 5051, 36640000, 178900000), (823, 5053, 36500000, 178200000),
   (824, 5054, 36360000, 177500000), (825, 5055, 36220000, 176800000),
   (826, 5056, 36090000, 176000000), (827, 5057, 35950000, 175300000),
   (828, 5058, 35810000, 174600000), (829, 5059, 35680000, 173900000),
   (830, 5060, 35540000, 173200000), (831, 5061, 35400000, 172500000),
   (832, 5062, 35270000, 171800000), (833, 5063, 35130000, 171100000),
   (834, 5065, 34990000, 170400000), (835, 5066, 34860000, 169700000),
   (836, 5067, 34720000, 169000000), (837, 5068, 34590000, 168300000),
   (838, 5069, 34460000, 167600000), (839, 5070, 34320000, 166900000),
   (840, 5071, 34190000, 166200000), (841, 5072, 34060000, 165500000),
   (842, 5073, 33930000, 164800000), (843, 5074, 33800000, 164200000),
   (844, 5076, 33670000, 163500000), (845, 5077, 33540000, 162800000),
   (846, 5078, 33410000, 162100000), (847, 5079, 33280000, 161500000),
   (848, 5080, 33150000, 160800000), (849, 5081, 33020000, 160100000),
   (850, 5082, 32890000, 159500000), (851, 5083, 32770000, 158800000),
   (852, 5084, 32640000, 158200000), (853, 5085, 32510000, 157500000),
   (854, 5087, 32390000, 156900000), (855, 5088, 32260000, 156200000),
   (856, 5089, 32140000, 155600000), (857, 5090, 32010000, 154900000),
   (858, 5091, 31890000, 154300000), (859, 5092, 31770000, 153700000),
   (860, 5093, 31650000, 153000000), (861, 5094, 31520000, 152400000),
   (862, 5095, 31400000, 151800000), (863, 5096, 31280000, 151200000),
   (864, 5098, 31160000, 150500000), (865, 5099, 31040000, 149900000),
   (866, 5100, 30920000, 149300000), (867, 5101, 30800000, 148700000),
   (868, 5102, 30690000, 148100000), (869, 5103, 30570000, 147500000),
   (870, 5104, 30450000, 146900000), (871, 5105, 30330000, 146300000),
   (872, 5106, 30220000, 145700000), (873, 5107, 30100000, 145100000),
   (874, 5109, 29980000, 144500000), (875, 5110, 29870000, 143900000),
   (876, 5111, 29750000, 143300000), (877, 5112, 29640000, 142700000),
   (878, 5113, 29520000, 142100000), (879, 5114, 29410000, 141500000),
   (880, 5115, 29290000, 140900000), (881, 5116, 29200000, 140500000),
   (882, 5117, 29110000, 140000000), (883, 5118, 29020000, 139600000),
   (884, 5119, 28930000, 139100000), (885, 5119, 28840000, 138600000),
   (886, 5120, 28750000, 138200000), (887, 5121, 28660000, 137700000),
   (888, 5122, 28580000, 137300000), (889, 5123, 28490000, 136800000),
   (890, 5124, 28400000, 136400000), (891, 5125, 28320000, 136000000),
   (892, 5125, 28250000, 135600000), (893, 5126, 28170000, 135200000),
   (894, 5127, 28100000, 134800000), (895, 5128, 28020000, 134400000),
   (896, 5128, 27950000, 134000000), (897, 5129, 27870000, 133600000),
   (898, 5130, 27800000, 133300000), (899, 5131, 27720000, 132900000),
   (900, 5131, 27650000, 132500000), (901, 5132, 27570000, 132100000),
   (902, 5133, 27480000, 131600000), (903, 5134, 27400000, 131200000),
   (904, 5134, 27310000, 130800000), (905, 5135, 27230000, 130400000),
   (906, 5136, 27150000, 129900000), (907, 5137, 27060000, 129500000),
   (908, 5137, 26980000, 129100000), (909, 5138, 26900000, 128700000),
   (910, 5139, 26820000, 128300000), (911, 5140, 26720000, 127800000),
   (912, 5140, 26630000, 127300000), (913, 5141, 26530000, 126900000),
   (914, 5142, 26440000, 126400000), (915, 5143, 26350000, 125900000),
   (916, 5143, 26260000, 125400000), (917, 5144, 26160000, 125000000),
   (918, 5145, 26070000, 124500000), (919, 5146, 25980000, 124100000),
   (920, 5146, 25890000, 123600000), (921, 5147, 25800000, 123100000),
   (922, 5148, 25710000, 122700000), (923, 5149, 25610000, 122200000),
   (924, 5149, 25520000, 121800000), (925, 5150, 25430000, 121300000),
   (926, 5151, 25340000, 120900000), (927, 5152, 25250000, 120400000),
   (928, 5152, 25160000, 120000000), (929, 5153, 25070000, 119500000),
   (930, 5154, 24990000, 119100000), (931, 5155, 24900000, 118600000),
   (932, 5155, 24810000, 118200000), (933, 5156, 24720000, 117700000),
   (934, 5157, 24630000, 117300000), (935, 5158, 24550000, 116900000),
   (936, 5159, 24460000, 116400000), (937, 5159, 24370000, 116000000),
   (938, 5160, 24290000, 115600000), (939, 5161, 24200000, 115100000),
   (940, 5161, 24120000, 114700000), (941, 5162, 24030000, 114300000),
   (942, 5163, 23950000, 113900000), (943, 5164, 23860000, 113400000),
   (944, 5165, 23780000, 113000000), (945, 5165, 23690000, 112600000),
   (946, 5166, 23610000, 112200000), (947, 5167, 23530000, 111800000),
   (948, 5168, 23450000, 111300000), (949, 5168, 23360000, 110900000),
   (950, 5169, 23280000, 110500000), (951, 5170, 23200000, 110100000),
   (952, 5170, 23120000, 109700000), (953, 5171, 23030000, 109300000),
   (954, 5172, 22950000, 108900000), (955, 5173, 22870000, 108500000),
   (956, 5173, 22790000, 108100000), (957, 5174, 22710000, 107700000),
   (958, 5175, 22630000, 107300000), (959, 5176, 22550000, 106900000),
   (960, 5176, 22470000, 106500000), (961, 5177, 22390000, 106100000),
   (962, 5178, 22300000, 105600000), (963, 5179, 22220000, 105200000),
   (964, 5180, 22140000, 104800000), (965, 5180, 22060000, 104400000),
   (966, 5181, 21980000, 104000000), (967, 5182, 21890000, 103600000),
   (968, 5183, 21810000, 103200000), (969, 5184, 21730000, 102800000),
   (970, 5184, 21650000, 102400000), (971, 5185, 21550000, 101900000),
   (972, 5186, 21450000, 101400000), (973, 5187, 21350000, 100900000),
   (974, 5188, 21250000, 100400000), (975, 5189, 21160000, 99940000),
   (976, 5190, 21060000, 99460000), (977, 5191, 20960000, 98980000),
   (978, 5192, 20870000, 98500000), (979, 5193, 20770000, 98020000),
   (980, 5194, 20670000, 97550000), (981, 5195, 20580000, 97070000),
   (982, 5196, 20480000, 96600000), (983, 5197, 20390000, 96140000),
   (984, 5198, 20290000, 95670000), (985, 5199, 20200000, 95210000),
   (986, 5200, 20110000, 94740000), (987, 5201, 20010000, 94290000),
   (988, 5202, 19920000, 93830000), (989, 5203, 19830000, 93370000),
   (990, 5204, 19740000, 92920000), (991, 5205, 19650000, 92490000),
   (992, 5206, 19560000, 92050000), (993, 5207, 19470000, 91620000),
   (994, 5208, 19390000, 91190000), (995, 5209, 19300000, 90760000),
   (996, 5210, 19210000, 90330000), (997, 5211, 19130000, 89910000),
   (998, 5212, 19040000, 89480000), (999, 5213, 18960000, 89060000)]

/-- atmdata/Uranus/uranus-gram-avg.dat:2-5202, part 6. -/
def uranusGramPart6 : List (ℤ × ℤ × ℤ × ℤ) :=
  [(1000, 5214, 18870000, 88640000), (1001, 5215, 18810000, 88340000),
   (1002, 5216, 18750000, 88040000), (1003, 5216, 18690000, 87740000),
   (1004, 5217, 18630000, 87440000), (1005, 5218, 18570000, 87140000),
   (1006, 5219, 18510000, 86840000), (1007, 5220, 18450000, 86540000),
   (1008, 5220, 18390000, 86240000), (1009, 5221, 18330000, 85950000),
   (1010, 5222, 18270000, 85650000), (1011, 5223, 18210000, 85360000),
   (1012, 5223, 18150000, 85070000), (1013, 5224, 18090000, 84780000),
   (1014, 5225, 18030000, 84490000), (1015, 5226, 17970000, 84200000),
   (1016, 5227, 17920000, 83910000), (1017, 5227, 17860000, 83620000),
   (1018, 5228, 17800000, 83330000), (1019, 5229, 17740000, 83050000),
   (1020, 5230, 17680000, 82760000), (1021, 5231, 17630000, 82480000),
   (1022, 5231, 17570000, 82200000), (1023, 5232, 17510000, 81920000),
   (1024, 5233, 17460000, 81640000), (1025, 5234, 17400000, 81360000),
   (1026, 5235, 17340000, 81080000), (1027, 5235, 17290000, 80800000),
   (1028, 5236, 17230000, 80520000), (1029, 5237, 17170000, 80250000),
   (1030, 5238, 17120000, 79970000), (1031, 5239, 17060000, 79700000),
   (1032, 5239, 17010000, 79420000), (1033, 5240, 16950000, 79150000),
   (1034, 5241, 16900000, 78880000), (1035, 5242, 16840000, 78610000),
   (1036, 5242, 16790000, 78340000), (1037, 5243, 16730000, 78070000),
   (1038, 5244, 16680000, 77810000), (1039, 5245, 16630000, 77540000),
   (1040, 5246, 16570000, 77270000), (1041, 5246, 16520000, 77010000),
   (1042, 5247, 16460000, 76750000), (1043, 5248, 16410000, 76480000),
   (1044, 5249, 16360000, 76220000), (1045, 5250, 16300000, 75960000),
   (1046, 5250, 16250000, 75700000), (1047, 5251, 16200000, 75440000),
   (1048, 5252, 16150000, 75180000), (1049, 5253, 16090000, 74920000),
   (1050, 5254, 16040000, 74670000), (1051, 5254, 15990000, 74410000),
   (1052, 5255, 15940000, 74160000), (1053, 5256, 15890000, 73900000),
   (1054, 5257, 15830000, 73650000), (1055, 5258, 15780000, 73400000),
   (1056, 5258, 15730000, 73150000), (1057, 5259, 15680000, 72900000),
   (1058, 5260, 15630000, 72650000), (1059, 5261, 15580000, 72400000),
   (1060, 5261, 15530000, 72150000), (1061, 5262, 15480000, 71900000),
   (1062, 5263, 15430000, 71660000), (1063, 5264, 15380000, 71410000),
   (1064, 5265, 15330000, 71170000), (1065, 5265, 15280000, 70920000),
   (1066, 5266, 15230000, 70680000), (1067, 5267, 15180000, 70440000),
   (1068, 5268, 15130000, 70200000), (1069, 5269, 15080000, 69960000),
   (1070, 5269, 15030000, 69720000), (1071, 5270, 14980000, 69480000),
   (1072, 5271, 14930000, 69240000), (1073, 5272, 14890000, 69000000),
   (1074, 5273, 14840000, 68770000), (1075, 5273, 14790000, 68530000),
   (1076, 5274, 14740000, 68300000), (1077, 5275, 14690000, 68060000),
   (1078, 5276, 14650000, 67830000), (1079, 5276, 14600000, 67600000),
   (1080, 5277, 14550000, 67360000), (1081, 5278, 14500000, 67130000),
   (1082, 5279, 14460000, 66900000), (1083, 5280, 14410000, 66670000),
   (1084, 5280, 14360000, 66450000), (1085, 5281, 14320000, 66220000),
   (1086, 5282, 14270000, 65990000), (1087, 5283, 14220000, 65770000),
   (1088, 5284, 14180000, 65540000), (1089, 5284, 14130000, 65320000),
   (1090, 5285, 14090000, 65090000), (1091, 5286, 14040000, 64870000),
   (1092, 5287, 14000000, 64650000), (1093, 5288, 13950000, 64430000),
   (1094, 5288, 13900000, 64210000), (1095, 5289, 13860000, 63990000),
   (1096, 5290, 13810000, 63770000), (1097, 5291, 13770000, 63550000),
   (1098, 5292, 13720000, 63330000), (1099, 5292, 13680000, 63110000),
   (1100, 5293, 13640000, 62900000), (1101, 5294, 13580000, 62650000),
   (1102, 5295, 13530000, 62400000), (1103, 5295, 13480000, 62150000),
   (1104, 5296, 13430000, 61910000), (1105, 5297, 13380000, 61660000),
   (1106, 5298, 13330000, 61420000), (1107, 5298, 13280000, 61180000),
   (1108, 5299, 13230000, 60930000), (1109, 5300, 13180000, 60690000),
   (1110, 5301, 13130000, 60450000), (1111, 5301, 13080000, 60210000),
   (1112, 5302, 13030000, 59980000), (1113, 5303, 12980000, 59740000),
   (1114, 5304, 12930000, 59500000), (1115, 5304, 12880000, 59270000),
   (1116, 5305, 12830000, 59030000), (1117, 5306, 12780000, 58800000),
   (1118, 5307, 12730000, 58570000), (1119, 5307, 12690000, 58330000),
   (1120, 5308, 12640000, 58100000), (1121, 5309, 12590000, 57870000),
   (1122, 5310, 12540000, 57640000), (1123, 5310, 12500000, 57420000),
   (1124, 5311, 12450000, 57190000), (1125, 5312, 12400000, 56960000),
   (1126, 5313, 12350000, 56740000), (1127, 5313, 12310000, 56510000),
   (1128, 5314, 12260000, 56290000), (1129, 5315, 12210000, 56070000),
   (1130, 5316, 12170000, 55840000), (1131, 5316, 12120000, 55620000),
   (1132, 5317, 12080000, 55400000), (1133, 5318, 12030000, 55180000),
   (1134, 5319, 11980000, 54970000), (1135, 5319, 11940000, 54750000),
   (1136, 5320, 11890000, 54530000), (1137, 5321, 11850000, 54320000),
   (1138, 5322, 11800000, 54100000), (1139, 5322, 11760000, 53890000),
   (1140, 5323, 11710000, 53670000), (1141, 5324, 11670000, 53460000),
   (1142, 5325, 11620000, 53250000), (1143, 5325, 11580000, 53040000),
   (1144, 5326, 11540000, 52830000), (1145, 5327, 11490000, 52620000),
   (1146, 5328, 11450000, 52410000), (1147, 5328, 11410000, 52210000),
   (1148, 5329, 11360000, 52000000), (1149, 5330, 11320000, 51790000),
   (1150, 5331, 11280000, 51590000), (1151, 5331, 11230000, 51380000),
   (1152, 5332, 11190000, 51180000), (1153, 5333, 11150000, 50980000),
   (1154, 5334, 11110000, 50780000), (1155, 5334, 11060000, 50580000),
   (1156, 5335, 11020000, 50380000), (1157, 5336, 10980000, 50180000),
   (1158, 5337, 10940000, 49980000), (1159, 5337, 10900000, 49780000),
   (1160, 5338, 10860000, 49580000), (1161, 5339, 10820000, 49390000),
   (1162, 5340, 10770000, 49190000), (1163, 5340, 10730000, 49000000),
   (1164, 5341, 10690000, 48800000), (1165, 5342, 10650000, 48610000),
   (1166, 5343, 10610000, 48420000), (1167, 5343, 10570000, 48230000),
   (1168, 5344, 10530000, 48040000), (1169, 5345, 10490000, 47850000),
   (1170, 5346, 10450000, 47660000), (1171, 5346, 10410000, 47470000),
   (1172, 5347, 10370000, 47280000), (1173, 5348, 10330000, 47090000),
   (1174, 5349, 10290000, 46910000), (1175, 5349, 10260000, 46720000),
   (1176, 5350, 10220000, 46540000), (1177, 5351, 10180000, 46350000),
   (1178, 5352, 10140000, 46170000), (1179, 5352, 10100000, 45990000),
   (1180, 5353, 10060000, 45800000), (1181, 5354, 10020000, 45620000),
   (1182, 5355, 9986000, 45440000), (1183, 5355, 9948000, 45260000),
   (1184, 5356, 9911000, 45080000), (1185, 5357, 9873000, 44910000),
   (1186, 5358, 9836000, 44730000), (1187, 5358, 9798000, 44550000),
   (1188, 5359, 9761000, 44370000), (1189, 5360, 9724000, 44200000),
   (1190, 5361, 9687000, 44020000), (1191, 5361, 9650000, 43850000),
   (1192, 5362, 9614000, 43680000), (1193, 5363, 9577000, 43500000),
   (1194, 5364, 9541000, 43330000), (1195, 5364, 9505000, 43160000),
   (1196, 5365, 9469000, 42990000), (1197, 5366, 9433000, 42820000),
   (1198, 5367, 9397000, 42650000), (1199, 5367, 9362000, 42480000)]

/-- atmdata/Uranus/uranus-gram-avg.dat:2-5202, part 7. -/
def uranusGramPart7 : List (ℤ × ℤ × ℤ × ℤ) :=
  [(1200, 5368, 9326000, 42310000), (1201, 5369, 9291000, 42150000),
   (1202, 5370, 9256000, 41980000), (1203, 5371, 9221000, 41820000),
   (1204, 5371, 9186000, 41650000), (1205, 5372, 9151000, 41490000),
   (1206, 5373, 9117000, 41320000), (1207, 5374, 9082000, 41160000),
   (1208, 5375, 9048000, 41000000), (1209, 5376, 9014000, 40840000),
   (1210, 5376, 8980000, 40670000), (1211, 5377, 8946000, 40510000),
   (1212, 5378, 8912000, 40350000), (1213, 5379, 8878000, 40200000),
   (1214, 5380, 8845000, 40040000), (1215, 5381, 8811000, 39880000),
   (1216, 5381, 8778000, 39720000), (1217, 5382, 8745000, 39570000),
   (1218, 5383, 8712000, 39410000), (1219, 5384, 8679000, 39250000),
   (1220, 5385, 8646000, 39100000), (1221, 5385, 8613000, 38940000),
   (1222, 5386, 8581000, 38790000), (1223, 5387, 8548000, 38640000),
   (1224, 5388, 8516000, 38490000), (1225, 5389, 8484000, 38330000),
   (1226, 5390, 8452000, 38180000), (1227, 5390, 8420000, 38030000),
   (1228, 5391, 8388000, 37880000), (1229, 5392, 8356000, 37730000),
   (1230, 5393, 8325000, 37580000), (1231, 5394, 8293000, 37440000),
   (1232, 5394, 8262000, 37290000), (1233, 5395, 8231000, 37140000),
   (1234, 5396, 8200000, 37000000), (1235, 5397, 8169000, 36850000),
   (1236, 5398, 8138000, 36700000), (1237, 5399, 8107000, 36560000),
   (1238, 5399, 8077000, 36420000), (1239, 5400, 8046000, 36270000),
   (1240, 5401, 8016000, 36130000), (1241, 5402, 7985000, 35990000),
   (1242, 5403, 7955000, 35840000), (1243, 5404, 7925000, 35700000),
   (1244, 5404, 7895000, 35560000), (1245, 5405, 7865000, 35420000),
   (1246, 5406, 7836000, 35280000), (1247, 5407, 7806000, 35140000),
   (1248, 5408, 7777000, 35000000), (1249, 5408, 7747000, 34870000),
   (1250, 5409, 7718000, 34730000), (1251, 5410, 7689000, 34590000),
   (1252, 5411, 7660000, 34460000), (1253, 5412, 7631000, 34320000),
   (1254, 5413, 7602000, 34190000), (1255, 5413, 7573000, 34050000),
   (1256, 5414, 7545000, 33920000), (1257, 5415, 7516000, 33780000),
   (1258, 5416, 7488000, 33650000), (1259, 5417, 7459000, 33520000),
   (1260, 5417, 7431000, 33380000), (1261, 5418, 7403000, 33250000),
   (1262, 5419, 7375000, 33120000), (1263, 5420, 7347000, 32990000),
   (1264, 5421, 7320000, 32860000), (1265, 5422, 7292000, 32730000),
   (1266, 5422, 7264000, 32600000), (1267, 5423, 7237000, 32470000),
   (1268, 5424, 7210000, 32350000), (1269, 5425, 7182000, 32220000),
   (1270, 5426, 7155000, 32090000), (1271, 5426, 7128000, 31970000),
   (1272, 5427, 7101000, 31840000), (1273, 5428, 7074000, 31710000),
   (1274, 5429, 7048000, 31590000), (1275, 5430, 7021000, 31460000),
   (1276, 5431, 6994000, 31340000), (1277, 5431, 6968000, 31220000),
   (1278, 5432, 6942000, 31090000), (1279, 5433, 6915000, 30970000),
   (1280, 5434, 6889000, 30850000), (1281, 5435, 6863000, 30730000),
   (1282, 5436, 6837000, 30610000), (1283, 5436, 6812000, 30490000),
   (1284, 5437, 6786000, 30370000), (1285, 5438, 6760000, 30250000),
   (1286, 5439, 6735000, 30130000), (1287, 5440, 6709000, 30010000),
   (1288, 5440, 6684000, 29890000), (1289, 5441, 6659000, 29770000),
   (1290, 5442, 6633000, 29650000), (1291, 5443, 6608000, 29540000),
   (1292, 5444, 6583000, 29420000), (1293, 5445, 6559000, 29300000),
   (1294, 5445, 6534000, 29190000), (1295, 5446, 6509000, 29070000),
   (1296, 5447, 6484000, 28960000), (1297, 5448, 6460000, 28850000),
   (1298, 5449, 6436000, 28730000), (1299, 5449, 6411000, 28620000),
   (1300, 5450, 6387000, 28510000), (1301, 5451, 6365000, 28400000),
   (1302, 5452, 6344000, 28300000), (1303, 5453, 6322000, 28200000),
   (1304, 5454, 6301000, 28100000), (1305, 5455, 6279000, 28000000),
   (1306, 5456, 6258000, 27900000), (1307, 5457, 6237000, 27800000),
   (1308, 5458, 6216000, 27700000), (1309, 5458, 6195000, 27600000),
   (1310, 5459, 6174000, 27510000), (1311, 5460, 6153000, 27410000),
   (1312, 5461, 6132000, 27310000), (1313, 5462, 6111000, 27210000),
   (1314, 5463, 6090000, 27120000), (1315, 5464, 6070000, 27020000),
   (1316, 5465, 6049000, 26920000), (1317, 5466, 6029000, 26830000),
   (1318, 5467, 6008000, 26730000), (1319, 5468, 5988000, 26640000),
   (1320, 5469, 5968000, 26540000), (1321, 5469, 5947000, 26450000),
   (1322, 5470, 5927000, 26350000), (1323, 5471, 5907000, 26260000),
   (1324, 5472, 5887000, 26170000), (1325, 5473, 5867000, 26070000),
   (1326, 5474, 5847000, 25980000), (1327, 5475, 5827000, 25890000),
   (1328, 5476, 5808000, 25800000), (1329, 5477, 5788000, 25700000),
   (1330, 5478, 5768000, 25610000), (1331, 5479, 5749000, 25520000),
   (1332, 5479, 5729000, 25430000), (1333, 5480, 5710000, 25340000),
   (1334, 5481, 5690000, 25250000), (1335, 5482, 5671000, 25160000),
   (1336, 5483, 5652000, 25070000), (1337, 5484, 5633000, 24980000),
   (1338, 5485, 5614000, 24890000), (1339, 5486, 5595000, 24800000),
   (1340, 5487, 5576000, 24710000), (1341, 5488, 5557000, 24630000),
   (1342, 5489, 5538000, 24540000), (1343, 5489, 5519000, 24450000),
   (1344, 5490, 5500000, 24360000), (1345, 5491, 5482000, 24280000),
   (1346, 5492, 5463000, 24190000), (1347, 5493, 5445000, 24100000),
   (1348, 5494, 5426000, 24020000), (1349, 5495, 5408000, 23930000),
   (1350, 5496, 5390000, 23850000), (1351, 5497, 5371000, 23760000),
   (1352, 5498, 5353000, 23680000), (1353, 5499, 5335000, 23590000),
   (1354, 5499, 5317000, 23510000), (1355, 5500, 5299000, 23430000),
   (1356, 5501, 5281000, 23340000), (1357, 5502, 5263000, 23260000),
   (1358, 5503, 5245000, 23180000), (1359, 5504, 5227000, 23090000),
   (1360, 5505, 5210000, 23010000), (1361, 5506, 5192000, 22930000),
   (1362, 5507, 5174000, 22850000), (1363, 5508, 5157000, 22770000),
   (1364, 5509, 5139000, 22690000), (1365, 5509, 5122000, 22610000),
   (1366, 5510, 5104000, 22520000), (1367, 5511, 5087000, 22440000),
   (1368, 5512, 5070000, 22360000), (1369, 5513, 5053000, 22280000),
   (1370, 5514, 5036000, 22210000), (1371, 5515, 5019000, 22130000),
   (1372, 5516, 5001000, 22050000), (1373, 5517, 4985000, 21970000),
   (1374, 5518, 4968000, 21890000), (1375, 5519, 4951000, 21810000),
   (1376, 5519, 4934000, 21740000), (1377, 5520, 4917000, 21660000),
   (1378, 5521, 4901000, 21580000), (1379, 5522, 4884000, 21500000),
   (1380, 5523, 4867000, 21430000), (1381, 5524, 4851000, 21350000),
   (1382, 5525, 4834000, 21270000), (1383, 5526, 4818000, 21200000),
   (1384, 5527, 4802000, 21120000), (1385, 5528, 4785000, 21050000),
   (1386, 5529, 4769000, 20970000), (1387, 5529, 4753000, 20900000),
   (1388, 5530, 4737000, 20820000), (1389, 5531, 4721000, 20750000),
   (1390, 5532, 4705000, 20680000), (1391, 5533, 4689000, 20600000),
   (1392, 5534, 4673000, 20530000), (1393, 5535, 4657000, 20460000),
   (1394, 5536, 4641000, 20380000), (1395, 5537, 4626000, 20310000),
   (1396, 5538, 4610000, 20240000), (1397, 5539, 4594000, 20170000),
   (1398, 5539, 4579000, 20090000), (1399, 5540, 4563000, 20020000)]

/-- atmdata/Uranus/uranus-gram-avg.dat:2-5202, part 8. -/
def uranusGramPart8 : List (ℤ × ℤ × ℤ × ℤ) :=
  [(1400, 5541, 4548000, 19950000), (1401, 5542, 4535000, 19890000),
   (1402, 5543, 4523000, 19840000), (1403, 5544, 4511000, 19780000),
   (1404, 5544, 4498000, 19720000), (1405, 5545, 4486000, 19670000),
   (1406, 5546, 4474000, 19610000), (1407, 5547, 4462000, 19560000),
   (1408, 5547, 4450000, 19500000), (1409, 5548, 4437000, 19440000),
   (1410, 5549, 4425000, 19390000), (1411, 5550, 4413000, 19330000),
   (1412, 5550, 4401000, 19280000), (1413, 5551, 4389000, 19220000),
   (1414, 5552, 4377000, 19170000), (1415, 5553, 4365000, 19110000),
   (1416, 5553, 4354000, 19060000), (1417, 5554, 4342000, 19000000),
   (1418, 5555, 4330000, 18950000), (1419, 5556, 4318000, 18890000),
   (1420, 5556, 4306000, 18840000), (1421, 5557, 4295000, 18780000),
   (1422, 5558, 4283000, 18730000), (1423, 5559, 4271000, 18680000),
   (1424, 5560, 4260000, 18620000), (1425, 5560, 4248000, 18570000),
   (1426, 5561, 4236000, 18520000), (1427, 5562, 4225000, 18460000),
   (1428, 5563, 4213000, 18410000), (1429, 5563, 4202000, 18360000),
   (1430, 5564, 4190000, 18310000), (1431, 5565, 4179000, 18250000),
   (1432, 5566, 4168000, 18200000), (1433, 5566, 4156000, 18150000),
   (1434, 5567, 4145000, 18100000), (1435, 5568, 4134000, 18040000),
   (1436, 5569, 4122000, 17990000), (1437, 5569, 4111000, 17940000),
   (1438, 5570, 4100000, 17890000), (1439, 5571, 4089000, 17840000),
   (1440, 5572, 4078000, 17790000), (1441, 5572, 4066000, 17740000),
   (1442, 5573, 4055000, 17690000), (1443, 5574, 4044000, 17640000),
   (1444, 5575, 4033000, 17580000), (1445, 5575, 4022000, 17530000),
   (1446, 5576, 4011000, 17480000), (1447, 5577, 4000000, 17430000),
   (1448, 5578, 3990000, 17380000), (1449, 5578, 3979000, 17330000),
   (1450, 5579, 3968000, 17280000), (1451, 5580, 3957000, 17230000),
   (1452, 5581, 3946000, 17190000), (1453, 5582, 3935000, 17140000),
   (1454, 5582, 3925000, 17090000), (1455, 5583, 3914000, 17040000),
   (1456, 5584, 3903000, 16990000), (1457, 5585, 3893000, 16940000),
   (1458, 5585, 3882000, 16890000), (1459, 5586, 3872000, 16840000),
   (1460, 5587, 3861000, 16800000), (1461, 5588, 3850000, 16750000),
   (1462, 5588, 3840000, 16700000), (1463, 5589, 3830000, 16650000),
   (1464, 5590, 3819000, 16600000), (1465, 5591, 3809000, 16560000),
   (1466, 5591, 3798000, 16510000), (1467, 5592, 3788000, 16460000),
   (1468, 5593, 3778000, 16410000), (1469, 5594, 3767000, 16370000),
   (1470, 5594, 3757000, 16320000), (1471, 5595, 3747000, 16270000),
   (1472, 5596, 3737000, 16230000), (1473, 5597, 3726000, 16180000),
   (1474, 5597, 3716000, 16130000), (1475, 5598, 3706000, 16090000),
   (1476, 5599, 3696000, 16040000), (1477, 5600, 3686000, 16000000),
   (1478, 5601, 3676000, 15950000), (1479, 5601, 3666000, 15900000),
   (1480, 5602, 3656000, 15860000), (1481, 5603, 3646000, 15810000),
   (1482, 5604, 3636000, 15770000), (1483, 5604, 3626000, 15720000),
   (1484, 5605, 3616000, 15680000), (1485, 5606, 3606000, 15630000),
   (1486, 5607, 3597000, 15590000), (1487, 5607, 3587000, 15540000),
   (1488, 5608, 3577000, 15500000), (1489, 5609, 3567000, 15450000),
   (1490, 5610, 3558000, 15410000), (1491, 5610, 3548000, 15370000),
   (1492, 5611, 3538000, 15320000), (1493, 5612, 3529000, 15280000),
   (1494, 5613, 3519000, 15230000), (1495, 5613, 3509000, 15190000),
   (1496, 5614, 3500000, 15150000), (1497, 5615, 3490000, 15100000),
   (1498, 5616, 3481000, 15060000), (1499, 5616, 3471000, 15020000),
   (1500, 5617, 3462000, 14970000), (1501, 5618, 3451000, 14920000),
   (1502, 5619, 3439000, 14870000), (1503, 5619, 3428000, 14820000),
   (1504, 5620, 3417000, 14770000), (1505, 5621, 3406000, 14720000),
   (1506, 5622, 3395000, 14670000), (1507, 5623, 3384000, 14620000),
   (1508, 5623, 3373000, 14580000), (1509, 5624, 3362000, 14530000),
   (1510, 5625, 3352000, 14480000), (1511, 5626, 3341000, 14430000),
   (1512, 5626, 3330000, 14380000), (1513, 5627, 3319000, 14330000),
   (1514, 5628, 3309000, 14280000), (1515, 5629, 3298000, 14230000),
   (1516, 5629, 3287000, 14190000), (1517, 5630, 3277000, 14140000),
   (1518, 5631, 3266000, 14090000), (1519, 5632, 3255000, 14040000),
   (1520, 5632, 3245000, 14000000), (1521, 5633, 3234000, 13950000),
   (1522, 5634, 3224000, 13900000), (1523, 5635, 3214000, 13860000),
   (1524, 5636, 3203000, 13810000), (1525, 5636, 3193000, 13760000),
   (1526, 5637, 3183000, 13720000), (1527, 5638, 3172000, 13670000),
   (1528, 5639, 3162000, 13620000), (1529, 5639, 3152000, 13580000),
   (1530, 5640, 3142000, 13530000), (1531, 5641, 3131000, 13490000),
   (1532, 5642, 3121000, 13440000), (1533, 5642, 3111000, 13400000),
   (1534, 5643, 3101000, 13350000), (1535, 5644, 3091000, 13310000),
   (1536, 5645, 3081000, 13260000), (1537, 5645, 3071000, 13220000),
   (1538, 5646, 3061000, 13170000), (1539, 5647, 3051000, 13130000),
   (1540, 5648, 3042000, 13080000), (1541, 5649, 3032000, 13040000),
   (1542, 5649, 3022000, 13000000), (1543, 5650, 3012000, 12950000),
   (1544, 5651, 3003000, 12910000), (1545, 5652, 2993000, 12860000),
   (1546, 5652, 2983000, 12820000), (1547, 5653, 2974000, 12780000),
   (1548, 5654, 2964000, 12730000), (1549, 5655, 2954000, 12690000),
   (1550, 5655, 2945000, 12650000), (1551, 5656, 2935000, 12610000),
   (1552, 5657, 2926000, 12560000), (1553, 5658, 2916000, 12520000),
   (1554, 5658, 2907000, 12480000), (1555, 5659, 2898000, 12440000),
   (1556, 5660, 2888000, 12400000), (1557, 5661, 2879000, 12350000),
   (1558, 5662, 2870000, 12310000), (1559, 5662, 2860000, 12270000),
   (1560, 5663, 2851000, 12230000), (1561, 5664, 2842000, 12190000),
   (1562, 5665, 2833000, 12150000), (1563, 5665, 2824000, 12110000),
   (1564, 5666, 2814000, 12070000), (1565, 5667, 2805000, 12030000),
   (1566, 5668, 2796000, 11980000), (1567, 5668, 2787000, 11940000),
   (1568, 5669, 2778000, 11900000), (1569, 5670, 2769000, 11860000),
   (1570, 5671, 2760000, 11820000), (1571, 5671, 2751000, 11780000),
   (1572, 5672, 2742000, 11740000), (1573, 5673, 2734000, 11700000),
   (1574, 5674, 2725000, 11670000), (1575, 5675, 2716000, 11630000),
   (1576, 5675, 2707000, 11590000), (1577, 5676, 2698000, 11550000),
   (1578, 5677, 2690000, 11510000), (1579, 5678, 2681000, 11470000),
   (1580, 5678, 2672000, 11430000), (1581, 5679, 2664000, 11390000),
   (1582, 5680, 2655000, 11350000), (1583, 5681, 2647000, 11320000),
   (1584, 5681, 2638000, 11280000), (1585, 5682, 2630000, 11240000),
   (1586, 5683, 2621000, 11200000), (1587, 5684, 2613000, 11160000),
   (1588, 5684, 2604000, 11130000), (1589, 5685, 2596000, 11090000),
   (1590, 5686, 2587000, 11050000), (1591, 5687, 2579000, 11020000),
   (1592, 5687, 2571000, 10980000), (1593, 5688, 2562000, 10940000),
   (1594, 5689, 2554000, 10900000), (1595, 5690, 2546000, 10870000),
   (1596, 5691, 2538000, 10830000), (1597, 5691, 2529000, 10790000),
   (1598, 5692, 2521000, 10760000), (1599, 5693, 2513000, 10720000)]

/-- atmdata/Uranus/uranus-gram-avg.dat:2-5202, part 9. -/
def uranusGramPart9 : List (ℤ × ℤ × ℤ × ℤ) :=
  [(1600, 5694, 2505000, 10690000), (1601, 5694, 2498000, 10650000),
   (1602, 5695, 2490000, 10620000), (1603, 5696, 2483000, 10590000),
   (1604, 5697, 2475000, 10550000), (1605, 5697, 2468000, 10520000),
   (1606, 5698, 2460000, 10490000), (1607, 5699, 2453000, 10450000),
   (1608, 5700, 2446000, 10420000), (1609, 5700, 2438000, 10390000),
   (1610, 5701, 2431000, 10360000), (1611, 5702, 2424000, 10320000),
   (1612, 5703, 2417000, 10290000), (1613, 5703, 2409000, 10260000),
   (1614, 5704, 2402000, 10230000), (1615, 5705, 2395000, 10200000),
   (1616, 5706, 2388000, 10160000), (1617, 5706, 2381000, 10130000),
   (1618, 5707, 2373000, 10100000), (1619, 5708, 2366000, 10070000),
   (1620, 5709, 2359000, 10040000), (1621, 5710, 2352000, 10010000),
   (1622, 5710, 2345000, 9975000), (1623, 5711, 2338000, 9943000), (1624, 5712, 2331000, 9912000),
   (1625, 5713, 2324000, 9881000), (1626, 5713, 2317000, 9851000), (1627, 5714, 2310000, 9820000),
   (1628, 5715, 2303000, 9789000), (1629, 5716, 2297000, 9758000), (1630, 5716, 2290000, 9728000),
   (1631, 5717, 2283000, 9698000), (1632, 5718, 2276000, 9667000), (1633, 5719, 2269000, 9637000),
   (1634, 5719, 2262000, 9607000), (1635, 5720, 2256000, 9577000), (1636, 5721, 2249000, 9547000),
   (1637, 5722, 2242000, 9517000), (1638, 5722, 2235000, 9487000), (1639, 5723, 2229000, 9458000),
   (1640, 5724, 2222000, 9428000), (1641, 5725, 2215000, 9399000), (1642, 5725, 2209000, 9369000),
   (1643, 5726, 2202000, 9340000), (1644, 5727, 2196000, 9311000), (1645, 5728, 2189000, 9282000),
   (1646, 5728, 2183000, 9253000), (1647, 5729, 2176000, 9224000), (1648, 5730, 2169000, 9195000),
   (1649, 5731, 2163000, 9166000), (1650, 5732, 2157000, 9138000), (1651, 5732, 2150000, 9109000),
   (1652, 5733, 2144000, 9081000), (1653, 5734, 2137000, 9052000), (1654, 5735, 2131000, 9024000),
   (1655, 5735, 2124000, 8996000), (1656, 5736, 2118000, 8968000), (1657, 5737, 2112000, 8939000),
   (1658, 5738, 2105000, 8912000), (1659, 5738, 2099000, 8884000), (1660, 5739, 2093000, 8856000),
   (1661, 5740, 2087000, 8828000), (1662, 5741, 2080000, 8801000), (1663, 5741, 2074000, 8773000),
   (1664, 5742, 2068000, 8746000), (1665, 5743, 2062000, 8718000), (1666, 5744, 2056000, 8691000),
   (1667, 5744, 2049000, 8664000), (1668, 5745, 2043000, 8637000), (1669, 5746, 2037000, 8610000),
   (1670, 5747, 2031000, 8583000), (1671, 5747, 2025000, 8556000), (1672, 5748, 2019000, 8529000),
   (1673, 5749, 2013000, 8503000), (1674, 5750, 2007000, 8476000), (1675, 5750, 2001000, 8450000),
   (1676, 5751, 1995000, 8423000), (1677, 5752, 1989000, 8397000), (1678, 5753, 1983000, 8371000),
   (1679, 5753, 1977000, 8345000), (1680, 5754, 1971000, 8319000), (1681, 5755, 1965000, 8293000),
   (1682, 5756, 1959000, 8267000), (1683, 5757, 1954000, 8241000), (1684, 5757, 1948000, 8215000),
   (1685, 5758, 1942000, 8189000), (1686, 5759, 1936000, 8164000), (1687, 5760, 1930000, 8138000),
   (1688, 5760, 1924000, 8113000), (1689, 5761, 1919000, 8087000), (1690, 5762, 1913000, 8062000),
   (1691, 5763, 1907000, 8037000), (1692, 5763, 1902000, 8012000), (1693, 5764, 1896000, 7987000),
   (1694, 5765, 1890000, 7962000), (1695, 5766, 1885000, 7937000), (1696, 5766, 1879000, 7912000),
   (1697, 5767, 1873000, 7888000), (1698, 5768, 1868000, 7863000), (1699, 5769, 1862000, 7838000),
   (1700, 5769, 1857000, 7814000), (1701, 5770, 1850000, 7785000), (1702, 5771, 1843000, 7757000),
   (1703, 5772, 1837000, 7728000), (1704, 5773, 1831000, 7700000), (1705, 5774, 1824000, 7671000),
   (1706, 5775, 1818000, 7643000), (1707, 5776, 1811000, 7615000), (1708, 5776, 1805000, 7587000),
   (1709, 5777, 1799000, 7559000), (1710, 5778, 1792000, 7532000), (1711, 5779, 1786000, 7504000),
   (1712, 5780, 1780000, 7476000), (1713, 5781, 1773000, 7449000), (1714, 5782, 1767000, 7422000),
   (1715, 5783, 1761000, 7394000), (1716, 5783, 1755000, 7367000), (1717, 5784, 1749000, 7340000),
   (1718, 5785, 1742000, 7313000), (1719, 5786, 1736000, 7286000), (1720, 5787, 1730000, 7259000),
   (1721, 5788, 1724000, 7233000), (1722, 5789, 1718000, 7206000), (1723, 5790, 1712000, 7180000),
   (1724, 5790, 1706000, 7153000), (1725, 5791, 1700000, 7127000), (1726, 5792, 1694000, 7101000),
   (1727, 5793, 1688000, 7075000), (1728, 5794, 1682000, 7049000), (1729, 5795, 1676000, 7023000),
   (1730, 5796, 1670000, 6997000), (1731, 5797, 1664000, 6972000), (1732, 5797, 1658000, 6946000),
   (1733, 5798, 1653000, 6920000), (1734, 5799, 1647000, 6895000), (1735, 5800, 1641000, 6870000),
   (1736, 5801, 1635000, 6845000), (1737, 5802, 1629000, 6819000), (1738, 5803, 1624000, 6794000),
   (1739, 5804, 1618000, 6769000), (1740, 5804, 1612000, 6745000), (1741, 5805, 1607000, 6720000),
   (1742, 5806, 1601000, 6695000), (1743, 5807, 1595000, 6671000), (1744, 5808, 1590000, 6646000),
   (1745, 5809, 1584000, 6622000), (1746, 5810, 1579000, 6597000), (1747, 5811, 1573000, 6573000),
   (1748, 5811, 1568000, 6549000), (1749, 5812, 1562000, 6525000), (1750, 5813, 1557000, 6501000),
   (1751, 5814, 1551000, 6477000), (1752, 5815, 1546000, 6453000), (1753, 5816, 1540000, 6430000),
   (1754, 5817, 1535000, 6406000), (1755, 5818, 1529000, 6382000), (1756, 5818, 1524000, 6359000),
   (1757, 5819, 1519000, 6336000), (1758, 5820, 1513000, 6312000), (1759, 5821, 1508000, 6289000),
   (1760, 5822, 1503000, 6266000), (1761, 5823, 1497000, 6243000), (1762, 5824, 1492000, 6220000),
   (1763, 5825, 1487000, 6197000), (1764, 5825, 1482000, 6175000), (1765, 5826, 1476000, 6152000),
   (1766, 5827, 1471000, 6129000), (1767, 5828, 1466000, 6107000), (1768, 5829, 1461000, 6084000),
   (1769, 5830, 1456000, 6062000), (1770, 5831, 1451000, 6040000), (1771, 5832, 1445000, 6018000),
   (1772, 5832, 1440000, 5996000), (1773, 5833, 1435000, 5974000), (1774, 5834, 1430000, 5952000),
   (1775, 5835, 1425000, 5930000), (1776, 5836, 1420000, 5908000), (1777, 5837, 1415000, 5886000),
   (1778, 5838, 1410000, 5865000), (1779, 5839, 1405000, 5843000), (1780, 5839, 1400000, 5822000),
   (1781, 5840, 1395000, 5800000), (1782, 5841, 1390000, 5779000), (1783, 5842, 1386000, 5758000),
   (1784, 5843, 1381000, 5737000), (1785, 5844, 1376000, 5716000), (1786, 5845, 1371000, 5695000),
   (1787, 5846, 1366000, 5674000), (1788, 5846, 1361000, 5653000), (1789, 5847, 1357000, 5632000),
   (1790, 5848, 1352000, 5612000), (1791, 5849, 1347000, 5591000), (1792, 5850, 1342000, 5570000),
   (1793, 5851, 1338000, 5550000), (1794, 5852, 1333000, 5530000), (1795, 5853, 1328000, 5509000),
   (1796, 5853, 1324000, 5489000), (1797, 5854, 1319000, 5469000), (1798, 5855, 1314000, 5449000),
   (1799, 5856, 1310000, 5429000)]

/-- atmdata/Uranus/uranus-gram-avg.dat:2-5202, part 10. -/
def uranusGramPart10 : List (ℤ × ℤ × ℤ × ℤ) :=
  [(1800, 5857, 1305000, 5409000), (1801, 5858, 1301000, 5393000), (1802, 5858, 1298000, 5377000),
   (1803, 5859, 1294000, 5361000), (1804, 5860, 1290000, 5345000), (1805, 5860, 1286000, 5329000),
   (1806, 5861, 1283000, 5313000), (1807, 5862, 1279000, 5297000), (1808, 5862, 1275000, 5282000),
   (1809, 5863, 1272000, 5266000), (1810, 5863, 1268000, 5250000), (1811, 5864, 1264000, 5235000),
   (1812, 5865, 1261000, 5219000), (1813, 5865, 1257000, 5203000), (1814, 5866, 1254000, 5188000),
   (1815, 5867, 1250000, 5173000), (1816, 5867, 1246000, 5157000), (1817, 5868, 1243000, 5142000),
   (1818, 5869, 1239000, 5126000), (1819, 5869, 1236000, 5111000), (1820, 5870, 1232000, 5096000),
   (1821, 5871, 1229000, 5081000), (1822, 5871, 1225000, 5066000), (1823, 5872, 1222000, 5051000),
   (1824, 5873, 1218000, 5036000), (1825, 5873, 1215000, 5021000), (1826, 5874, 1211000, 5006000),
   (1827, 5875, 1208000, 4991000), (1828, 5875, 1204000, 4976000), (1829, 5876, 1201000, 4961000),
   (1830, 5877, 1197000, 4946000), (1831, 5877, 1194000, 4932000), (1832, 5878, 1191000, 4917000),
   (1833, 5879, 1187000, 4902000), (1834, 5879, 1184000, 4888000), (1835, 5880, 1180000, 4873000),
   (1836, 5881, 1177000, 4859000), (1837, 5881, 1174000, 4844000), (1838, 5882, 1170000, 4830000),
   (1839, 5883, 1167000, 4815000), (1840, 5883, 1164000, 4801000), (1841, 5884, 1160000, 4787000),
   (1842, 5885, 1157000, 4773000), (1843, 5885, 1154000, 4758000), (1844, 5886, 1150000, 4744000),
   (1845, 5887, 1147000, 4730000), (1846, 5887, 1144000, 4716000), (1847, 5888, 1140000, 4702000),
   (1848, 5888, 1137000, 4688000), (1849, 5889, 1134000, 4674000), (1850, 5890, 1131000, 4660000),
   (1851, 5890, 1127000, 4646000), (1852, 5891, 1124000, 4633000), (1853, 5892, 1121000, 4619000),
   (1854, 5892, 1118000, 4605000), (1855, 5893, 1115000, 4591000), (1856, 5894, 1111000, 4578000),
   (1857, 5894, 1108000, 4564000), (1858, 5895, 1105000, 4550000), (1859, 5896, 1102000, 4537000),
   (1860, 5896, 1099000, 4523000), (1861, 5897, 1096000, 4510000), (1862, 5898, 1092000, 4497000),
   (1863, 5898, 1089000, 4483000), (1864, 5899, 1086000, 4470000), (1865, 5900, 1083000, 4457000),
   (1866, 5900, 1080000, 4443000), (1867, 5901, 1077000, 4430000), (1868, 5902, 1074000, 4417000),
   (1869, 5902, 1071000, 4404000), (1870, 5903, 1068000, 4391000), (1871, 5904, 1065000, 4378000),
   (1872, 5904, 1062000, 4365000), (1873, 5905, 1059000, 4352000), (1874, 5906, 1056000, 4339000),
   (1875, 5906, 1053000, 4326000), (1876, 5907, 1050000, 4313000), (1877, 5908, 1046000, 4300000),
   (1878, 5908, 1044000, 4287000), (1879, 5909, 1041000, 4274000), (1880, 5910, 1038000, 4262000),
   (1881, 5910, 1035000, 4249000), (1882, 5911, 1032000, 4236000), (1883, 5912, 1029000, 4224000),
   (1884, 5912, 1026000, 4211000), (1885, 5913, 1023000, 4199000), (1886, 5913, 1020000, 4186000),
   (1887, 5914, 1017000, 4174000), (1888, 5915, 1014000, 4161000), (1889, 5915, 1011000, 4149000),
   (1890, 5916, 1008000, 4137000), (1891, 5917, 1005000, 4124000), (1892, 5917, 1002000, 4112000),
   (1893, 5918, 999600, 4100000), (1894, 5919, 996700, 4088000), (1895, 5919, 993900, 4075000),
   (1896, 5920, 991000, 4063000), (1897, 5921, 988200, 4051000), (1898, 5921, 985400, 4039000),
   (1899, 5922, 982500, 4027000), (1900, 5923, 979700, 4015000), (1901, 5923, 976800, 4003000),
   (1902, 5924, 974000, 3991000), (1903, 5925, 971100, 3978000), (1904, 5926, 968200, 3966000),
   (1905, 5926, 965400, 3954000), (1906, 5927, 962500, 3942000), (1907, 5928, 959700, 3930000),
   (1908, 5928, 956900, 3918000), (1909, 5929, 954000, 3906000), (1910, 5930, 951200, 3894000),
   (1911, 5931, 948400, 3882000), (1912, 5931, 945600, 3870000), (1913, 5932, 942800, 3858000),
   (1914, 5933, 940100, 3846000), (1915, 5934, 937300, 3834000), (1916, 5934, 934500, 3822000),
   (1917, 5935, 931800, 3811000), (1918, 5936, 929000, 3799000), (1919, 5936, 926300, 3787000),
   (1920, 5937, 923600, 3776000), (1921, 5938, 920800, 3764000), (1922, 5939, 918100, 3753000),
   (1923, 5939, 915400, 3741000), (1924, 5940, 912700, 3730000), (1925, 5941, 910000, 3718000),
   (1926, 5941, 907300, 3707000), (1927, 5942, 904700, 3695000), (1928, 5943, 902000, 3684000),
   (1929, 5944, 899300, 3673000), (1930, 5944, 896700, 3661000), (1931, 5945, 894000, 3650000),
   (1932, 5946, 891400, 3639000), (1933, 5947, 888800, 3628000), (1934, 5947, 886200, 3617000),
   (1935, 5948, 883600, 3606000), (1936, 5949, 880900, 3594000), (1937, 5949, 878300, 3583000),
   (1938, 5950, 875800, 3572000), (1939, 5951, 873200, 3561000), (1940, 5952, 870600, 3551000),
   (1941, 5952, 868000, 3540000), (1942, 5953, 865500, 3529000), (1943, 5954, 862900, 3518000),
   (1944, 5954, 860400, 3507000), (1945, 5955, 857800, 3496000), (1946, 5956, 855300, 3486000),
   (1947, 5957, 852800, 3475000), (1948, 5957, 850300, 3464000), (1949, 5958, 847800, 3454000),
   (1950, 5959, 845300, 3443000), (1951, 5960, 842800, 3432000), (1952, 5960, 840300, 3422000),
   (1953, 5961, 837800, 3411000), (1954, 5962, 835400, 3401000), (1955, 5962, 832900, 3391000),
   (1956, 5963, 830400, 3380000), (1957, 5964, 828000, 3370000), (1958, 5965, 825600, 3359000),
   (1959, 5965, 823100, 3349000), (1960, 5966, 820700, 3339000), (1961, 5967, 818300, 3329000),
   (1962, 5967, 815900, 3318000), (1963, 5968, 813500, 3308000), (1964, 5969, 811100, 3298000),
   (1965, 5970, 808700, 3288000), (1966, 5970, 806300, 3278000), (1967, 5971, 803900, 3268000),
   (1968, 5972, 801500, 3258000), (1969, 5973, 799200, 3248000), (1970, 5973, 796800, 3238000),
   (1971, 5974, 794500, 3228000), (1972, 5975, 792100, 3218000), (1973, 5975, 789800, 3208000),
   (1974, 5976, 787500, 3198000), (1975, 5977, 785100, 3188000), (1976, 5978, 782800, 3179000),
   (1977, 5978, 780500, 3169000), (1978, 5979, 778200, 3159000), (1979, 5980, 775900, 3149000),
   (1980, 5980, 773600, 3140000), (1981, 5981, 771400, 3130000), (1982, 5982, 769100, 3120000),
   (1983, 5983, 766800, 3111000), (1984, 5983, 764600, 3101000), (1985, 5984, 762300, 3092000),
   (1986, 5985, 760100, 3082000), (1987, 5986, 757800, 3073000), (1988, 5986, 755600, 3063000),
   (1989, 5987, 753400, 3054000), (1990, 5988, 751100, 3045000), (1991, 5988, 748900, 3035000),
   (1992, 5989, 746700, 3026000), (1993, 5990, 744500, 3017000), (1994, 5991, 742300, 3007000),
   (1995, 5991, 740100, 2998000), (1996, 5992, 738000, 2989000), (1997, 5993, 735800, 2980000),
   (1998, 5993, 733600, 2971000), (1999, 5994, 731400, 2962000)]

/-- atmdata/Uranus/uranus-gram-avg.dat:2-5202, part 11. -/
def uranusGramPart11 : List (ℤ × ℤ × ℤ × ℤ) :=
  [(2000, 5995, 729300, 2953000), (2001, 5996, 727000, 2943000), (2002, 5997, 724700, 2933000),
   (2003, 5997, 722400, 2923000), (2004, 5998, 720100, 2914000), (2005, 5999, 717800, 2904000),
   (2006, 6000, 715500, 2894000), (2007, 6001, 713200, 2885000), (2008, 6002, 711000, 2875000),
   (2009, 6003, 708700, 2866000), (2010, 6003, 706500, 2856000), (2011, 6004, 704200, 2847000),
   (2012, 6005, 702000, 2837000), (2013, 6006, 699800, 2828000), (2014, 6007, 697500, 2818000),
   (2015, 6008, 695300, 2809000), (2016, 6008, 693100, 2800000), (2017, 6009, 690900, 2790000),
   (2018, 6010, 688700, 2781000), (2019, 6011, 686500, 2772000), (2020, 6012, 684400, 2763000),
   (2021, 6013, 682200, 2754000), (2022, 6014, 680000, 2744000), (2023, 6014, 677900, 2735000),
   (2024, 6015, 675700, 2726000), (2025, 6016, 673600, 2717000), (2026, 6017, 671400, 2708000),
   (2027, 6018, 669300, 2699000), (2028, 6019, 667200, 2690000), (2029, 6019, 665000, 2681000),
   (2030, 6020, 662900, 2672000), (2031, 6021, 660800, 2664000), (2032, 6022, 658700, 2655000),
   (2033, 6023, 656600, 2646000), (2034, 6024, 654600, 2637000), (2035, 6025, 652500, 2628000),
   (2036, 6025, 650400, 2620000), (2037, 6026, 648300, 2611000), (2038, 6027, 646300, 2602000),
   (2039, 6028, 644200, 2594000), (2040, 6029, 642200, 2585000), (2041, 6030, 640100, 2577000),
   (2042, 6031, 638100, 2568000), (2043, 6031, 636100, 2559000), (2044, 6032, 634100, 2551000),
   (2045, 6033, 632100, 2543000), (2046, 6034, 630000, 2534000), (2047, 6035, 628000, 2526000),
   (2048, 6036, 626100, 2517000), (2049, 6036, 624100, 2509000), (2050, 6037, 622100, 2501000),
   (2051, 6038, 620100, 2492000), (2052, 6039, 618100, 2484000), (2053, 6040, 616200, 2476000),
   (2054, 6041, 614200, 2468000), (2055, 6042, 612300, 2459000), (2056, 6042, 610300, 2451000),
   (2057, 6043, 608400, 2443000), (2058, 6044, 606500, 2435000), (2059, 6045, 604500, 2427000),
   (2060, 6046, 602600, 2419000), (2061, 6047, 600700, 2411000), (2062, 6047, 598800, 2403000),
   (2063, 6048, 596900, 2395000), (2064, 6049, 595000, 2387000), (2065, 6050, 593100, 2379000),
   (2066, 6051, 591200, 2371000), (2067, 6052, 589300, 2363000), (2068, 6053, 587500, 2356000),
   (2069, 6053, 585600, 2348000), (2070, 6054, 583800, 2340000), (2071, 6055, 581900, 2332000),
   (2072, 6056, 580100, 2324000), (2073, 6057, 578200, 2317000), (2074, 6058, 576400, 2309000),
   (2075, 6059, 574500, 2301000), (2076, 6059, 572700, 2294000), (2077, 6060, 570900, 2286000),
   (2078, 6061, 569100, 2279000), (2079, 6062, 567300, 2271000), (2080, 6063, 565500, 2264000),
   (2081, 6064, 563700, 2256000), (2082, 6064, 561900, 2249000), (2083, 6065, 560100, 2241000),
   (2084, 6066, 558300, 2234000), (2085, 6067, 556600, 2226000), (2086, 6068, 554800, 2219000),
   (2087, 6069, 553000, 2212000), (2088, 6070, 551300, 2204000), (2089, 6070, 549500, 2197000),
   (2090, 6071, 547800, 2190000), (2091, 6072, 546000, 2182000), (2092, 6073, 544300, 2175000),
   (2093, 6074, 542600, 2168000), (2094, 6075, 540900, 2161000), (2095, 6075, 539100, 2154000),
   (2096, 6076, 537400, 2146000), (2097, 6077, 535700, 2139000), (2098, 6078, 534000, 2132000),
   (2099, 6079, 532300, 2125000), (2100, 6080, 530600, 2118000), (2101, 6081, 529000, 2111000),
   (2102, 6081, 527400, 2104000), (2103, 6082, 525700, 2098000), (2104, 6083, 524100, 2091000),
   (2105, 6084, 522500, 2084000), (2106, 6085, 520800, 2077000), (2107, 6086, 519200, 2071000),
   (2108, 6086, 517600, 2064000), (2109, 6087, 516000, 2057000), (2110, 6088, 514400, 2050000),
   (2111, 6089, 512800, 2044000), (2112, 6090, 511200, 2037000), (2113, 6090, 509600, 2031000),
   (2114, 6091, 508000, 2024000), (2115, 6092, 506500, 2017000), (2116, 6093, 504900, 2011000),
   (2117, 6094, 503300, 2004000), (2118, 6095, 501800, 1998000), (2119, 6095, 500200, 1991000),
   (2120, 6096, 498700, 1985000), (2121, 6097, 497100, 1979000), (2122, 6098, 495600, 1972000),
   (2123, 6099, 494000, 1966000), (2124, 6100, 492500, 1959000), (2125, 6100, 491000, 1953000),
   (2126, 6101, 489400, 1947000), (2127, 6102, 487900, 1940000), (2128, 6103, 486400, 1934000),
   (2129, 6104, 484900, 1928000), (2130, 6105, 483400, 1922000), (2131, 6105, 481900, 1915000),
   (2132, 6106, 480400, 1909000), (2133, 6107, 478900, 1903000), (2134, 6108, 477400, 1897000),
   (2135, 6109, 475900, 1891000), (2136, 6110, 474500, 1885000), (2137, 6110, 473000, 1878000),
   (2138, 6111, 471500, 1872000), (2139, 6112, 470100, 1866000), (2140, 6113, 468600, 1860000),
   (2141, 6114, 467100, 1854000), (2142, 6115, 465700, 1848000), (2143, 6115, 464200, 1842000),
   (2144, 6116, 462800, 1836000), (2145, 6117, 461400, 1830000), (2146, 6118, 459900, 1824000),
   (2147, 6119, 458500, 1819000), (2148, 6119, 457100, 1813000), (2149, 6120, 455700, 1807000),
   (2150, 6121, 454300, 1801000), (2151, 6122, 452800, 1795000), (2152, 6123, 451400, 1789000),
   (2153, 6124, 450000, 1783000), (2154, 6124, 448600, 1778000), (2155, 6125, 447300, 1772000),
   (2156, 6126, 445900, 1766000), (2157, 6127, 444500, 1760000), (2158, 6128, 443100, 1755000),
   (2159, 6129, 441700, 1749000), (2160, 6129, 440400, 1743000), (2161, 6130, 439000, 1738000),
   (2162, 6131, 437600, 1732000), (2163, 6132, 436300, 1727000), (2164, 6133, 434900, 1721000),
   (2165, 6134, 433600, 1715000), (2166, 6134, 432200, 1710000), (2167, 6135, 430900, 1704000),
   (2168, 6136, 429500, 1699000), (2169, 6137, 428200, 1693000), (2170, 6138, 426900, 1688000),
   (2171, 6139, 425600, 1682000), (2172, 6139, 424200, 1677000), (2173, 6140, 422900, 1671000),
   (2174, 6141, 421600, 1666000), (2175, 6142, 420300, 1661000), (2176, 6143, 419000, 1655000),
   (2177, 6144, 417700, 1650000), (2178, 6144, 416400, 1645000), (2179, 6145, 415100, 1639000),
   (2180, 6146, 413800, 1634000), (2181, 6147, 412500, 1629000), (2182, 6148, 411200, 1623000),
   (2183, 6149, 410000, 1618000), (2184, 6149, 408700, 1613000), (2185, 6150, 407400, 1608000),
   (2186, 6151, 406200, 1602000), (2187, 6152, 404900, 1597000), (2188, 6153, 403600, 1592000),
   (2189, 6153, 402400, 1587000), (2190, 6154, 401100, 1582000), (2191, 6155, 399900, 1577000),
   (2192, 6156, 398700, 1572000), (2193, 6157, 397400, 1566000), (2194, 6158, 396200, 1561000),
   (2195, 6158, 395000, 1556000), (2196, 6159, 393700, 1551000), (2197, 6160, 392500, 1546000),
   (2198, 6161, 391300, 1541000), (2199, 6162, 390100, 1536000)]

/-- atmdata/Uranus/uranus-gram-avg.dat:2-5202, part 12. -/
def uranusGramPart12 : List (ℤ × ℤ × ℤ × ℤ) :=
  [(2200, 6163, 388900, 1531000), (2201, 6163, 387900, 1527000), (2202, 6164, 386900, 1523000),
   (2203, 6165, 385900, 1519000), (2204, 6166, 384900, 1515000), (2205, 6166, 383900, 1511000),
   (2206, 6167, 382900, 1507000), (2207, 6168, 381900, 1503000), (2208, 6169, 380900, 1499000),
   (2209, 6169, 380000, 1495000), (2210, 6170, 379000, 1491000), (2211, 6171, 378000, 1487000),
   (2212, 6171, 377000, 1483000), (2213, 6172, 376100, 1479000), (2214, 6173, 375100, 1475000),
   (2215, 6174, 374100, 1471000), (2216, 6174, 373200, 1467000), (2217, 6175, 372200, 1463000),
   (2218, 6176, 371300, 1459000), (2219, 6177, 370300, 1455000), (2220, 6177, 369400, 1451000),
   (2221, 6178, 368400, 1447000), (2222, 6179, 367500, 1443000), (2223, 6180, 366500, 1439000),
   (2224, 6180, 365600, 1435000), (2225, 6181, 364600, 1432000), (2226, 6182, 363700, 1428000),
   (2227, 6183, 362800, 1424000), (2228, 6183, 361800, 1420000), (2229, 6184, 360900, 1416000),
   (2230, 6185, 360000, 1412000), (2231, 6186, 359000, 1409000), (2232, 6186, 358100, 1405000),
   (2233, 6187, 357200, 1401000), (2234, 6188, 356300, 1397000), (2235, 6188, 355400, 1393000),
   (2236, 6189, 354500, 1390000), (2237, 6190, 353500, 1386000), (2238, 6191, 352600, 1382000),
   (2239, 6191, 351700, 1379000), (2240, 6192, 350800, 1375000), (2241, 6193, 349900, 1371000),
   (2242, 6194, 349000, 1367000), (2243, 6194, 348100, 1364000), (2244, 6195, 347200, 1360000),
   (2245, 6196, 346300, 1356000), (2246, 6197, 345400, 1353000), (2247, 6197, 344600, 1349000),
   (2248, 6198, 343700, 1345000), (2249, 6199, 342800, 1342000), (2250, 6200, 341900, 1338000),
   (2251, 6200, 341000, 1335000), (2252, 6201, 340100, 1331000), (2253, 6202, 339300, 1327000),
   (2254, 6203, 338400, 1324000), (2255, 6203, 337500, 1320000), (2256, 6204, 336700, 1317000),
   (2257, 6205, 335800, 1313000), (2258, 6205, 334900, 1310000), (2259, 6206, 334100, 1306000),
   (2260, 6207, 333200, 1303000), (2261, 6208, 332400, 1299000), (2262, 6208, 331500, 1296000),
   (2263, 6209, 330700, 1292000), (2264, 6210, 329800, 1289000), (2265, 6211, 329000, 1285000),
   (2266, 6211, 328100, 1282000), (2267, 6212, 327300, 1278000), (2268, 6213, 326400, 1275000),
   (2269, 6214, 325600, 1271000), (2270, 6214, 324700, 1268000), (2271, 6215, 323900, 1265000),
   (2272, 6216, 323100, 1261000), (2273, 6217, 322200, 1258000), (2274, 6217, 321400, 1254000),
   (2275, 6218, 320600, 1251000), (2276, 6219, 319800, 1248000), (2277, 6220, 318900, 1244000),
   (2278, 6220, 318100, 1241000), (2279, 6221, 317300, 1238000), (2280, 6222, 316500, 1234000),
   (2281, 6222, 315700, 1231000), (2282, 6223, 314900, 1228000), (2283, 6224, 314100, 1224000),
   (2284, 6225, 313300, 1221000), (2285, 6225, 312400, 1218000), (2286, 6226, 311600, 1215000),
   (2287, 6227, 310800, 1211000), (2288, 6228, 310000, 1208000), (2289, 6228, 309200, 1205000),
   (2290, 6229, 308400, 1202000), (2291, 6230, 307700, 1198000), (2292, 6231, 306900, 1195000),
   (2293, 6231, 306100, 1192000), (2294, 6232, 305300, 1189000), (2295, 6233, 304500, 1185000),
   (2296, 6234, 303700, 1182000), (2297, 6234, 302900, 1179000), (2298, 6235, 302200, 1176000),
   (2299, 6236, 301400, 1173000), (2300, 6236, 300600, 1170000), (2301, 6237, 299900, 1167000),
   (2302, 6238, 299100, 1164000), (2303, 6239, 298400, 1161000), (2304, 6239, 297700, 1158000),
   (2305, 6240, 296900, 1155000), (2306, 6241, 296200, 1152000), (2307, 6241, 295500, 1149000),
   (2308, 6242, 294800, 1146000), (2309, 6243, 294000, 1143000), (2310, 6244, 293300, 1140000),
   (2311, 6244, 292600, 1137000), (2312, 6245, 291900, 1134000), (2313, 6246, 291200, 1131000),
   (2314, 6246, 290400, 1128000), (2315, 6247, 289700, 1125000), (2316, 6248, 289000, 1122000),
   (2317, 6249, 288300, 1120000), (2318, 6249, 287600, 1117000), (2319, 6250, 286900, 1114000),
   (2320, 6251, 286200, 1111000), (2321, 6251, 285500, 1108000), (2322, 6252, 284800, 1105000),
   (2323, 6253, 284100, 1102000), (2324, 6253, 283400, 1100000), (2325, 6254, 282700, 1097000),
   (2326, 6255, 282000, 1094000), (2327, 6256, 281300, 1091000), (2328, 6256, 280600, 1088000),
   (2329, 6257, 279900, 1086000), (2330, 6258, 279300, 1083000), (2331, 6258, 278600, 1080000),
   (2332, 6259, 277900, 1077000), (2333, 6260, 277200, 1074000), (2334, 6261, 276500, 1072000),
   (2335, 6261, 275800, 1069000), (2336, 6262, 275200, 1066000), (2337, 6263, 274500, 1064000),
   (2338, 6263, 273800, 1061000), (2339, 6264, 273100, 1058000), (2340, 6265, 272500, 1055000),
   (2341, 6265, 271800, 1053000), (2342, 6266, 271100, 1050000), (2343, 6267, 270500, 1047000),
   (2344, 6268, 269800, 1045000), (2345, 6268, 269100, 1042000), (2346, 6269, 268500, 1039000),
   (2347, 6270, 267800, 1037000), (2348, 6270, 267200, 1034000), (2349, 6271, 266500, 1031000),
   (2350, 6272, 265900, 1029000), (2351, 6273, 265200, 1026000), (2352, 6273, 264600, 1023000),
   (2353, 6274, 263900, 1021000), (2354, 6275, 263300, 1018000), (2355, 6275, 262600, 1015000),
   (2356, 6276, 262000, 1013000), (2357, 6277, 261300, 1010000), (2358, 6277, 260700, 1008000),
   (2359, 6278, 260000, 1005000), (2360, 6279, 259400, 1002000), (2361, 6280, 258800, 999900),
   (2362, 6280, 258100, 997300), (2363, 6281, 257500, 994800), (2364, 6282, 256900, 992200),
   (2365, 6282, 256200, 989700), (2366, 6283, 255600, 987100), (2367, 6284, 255000, 984600),
   (2368, 6285, 254400, 982100), (2369, 6285, 253700, 979600), (2370, 6286, 253100, 977000),
   (2371, 6287, 252500, 974500), (2372, 6287, 251900, 972000), (2373, 6288, 251300, 969500),
   (2374, 6289, 250600, 967100), (2375, 6289, 250000, 964600), (2376, 6290, 249400, 962100),
   (2377, 6291, 248800, 959600), (2378, 6292, 248200, 957200), (2379, 6292, 247600, 954700),
   (2380, 6293, 247000, 952300), (2381, 6294, 246400, 949800), (2382, 6294, 245800, 947400),
   (2383, 6295, 245200, 945000), (2384, 6296, 244600, 942500), (2385, 6297, 244000, 940100),
   (2386, 6297, 243400, 937700), (2387, 6298, 242800, 935300), (2388, 6299, 242200, 932900),
   (2389, 6299, 241600, 930500), (2390, 6300, 241000, 928100), (2391, 6301, 240400, 925700),
   (2392, 6301, 239800, 923400), (2393, 6302, 239200, 921000), (2394, 6303, 238600, 918600),
   (2395, 6304, 238000, 916300), (2396, 6304, 237500, 913900), (2397, 6305, 236900, 911600),
   (2398, 6306, 236300, 909200), (2399, 6306, 235700, 906900)]

/-- atmdata/Uranus/uranus-gram-avg.dat:2-5202, part 13. -/
def uranusGramPart13 : List (ℤ × ℤ × ℤ × ℤ) :=
  [(2400, 6307, 235100, 904600), (2401, 6308, 234500, 902200), (2402, 6308, 234000, 899900),
   (2403, 6309, 233400, 897600), (2404, 6310, 232800, 895200), (2405, 6310, 232200, 892900),
   (2406, 6311, 231600, 890600), (2407, 6312, 231100, 888300), (2408, 6312, 230500, 886000),
   (2409, 6313, 229900, 883700), (2410, 6314, 229400, 881400), (2411, 6314, 228800, 879200),
   (2412, 6315, 228200, 876900), (2413, 6316, 227600, 874600), (2414, 6316, 227100, 872300),
   (2415, 6317, 226500, 870100), (2416, 6318, 226000, 867800), (2417, 6318, 225400, 865600),
   (2418, 6319, 224800, 863300), (2419, 6320, 224300, 861100), (2420, 6320, 223700, 858900),
   (2421, 6321, 223200, 856700), (2422, 6322, 222600, 854400), (2423, 6322, 222100, 852200),
   (2424, 6323, 221500, 850000), (2425, 6324, 221000, 847800), (2426, 6324, 220400, 845600),
   (2427, 6325, 219900, 843400), (2428, 6325, 219300, 841300), (2429, 6326, 218800, 839100),
   (2430, 6327, 218200, 836900), (2431, 6327, 217700, 834800), (2432, 6328, 217100, 832600),
   (2433, 6329, 216600, 830400), (2434, 6329, 216100, 828300), (2435, 6330, 215500, 826100),
   (2436, 6331, 215000, 824000), (2437, 6331, 214500, 821900), (2438, 6332, 213900, 819800),
   (2439, 6333, 213400, 817600), (2440, 6333, 212900, 815500), (2441, 6334, 212300, 813400),
   (2442, 6335, 211800, 811300), (2443, 6335, 211300, 809200), (2444, 6336, 210800, 807100),
   (2445, 6337, 210200, 805000), (2446, 6337, 209700, 802900), (2447, 6338, 209200, 800900),
   (2448, 6339, 208700, 798800), (2449, 6339, 208200, 796700), (2450, 6340, 207600, 794700),
   (2451, 6341, 207100, 792600), (2452, 6341, 206600, 790600), (2453, 6342, 206100, 788500),
   (2454, 6343, 205600, 786500), (2455, 6343, 205100, 784400), (2456, 6344, 204600, 782400),
   (2457, 6345, 204100, 780400), (2458, 6345, 203500, 778400), (2459, 6346, 203000, 776300),
   (2460, 6347, 202500, 774300), (2461, 6347, 202000, 772300), (2462, 6348, 201500, 770300),
   (2463, 6348, 201000, 768300), (2464, 6349, 200500, 766400), (2465, 6350, 200000, 764400),
   (2466, 6350, 199500, 762400), (2467, 6351, 199000, 760400), (2468, 6352, 198500, 758500),
   (2469, 6352, 198100, 756500), (2470, 6353, 197600, 754500), (2471, 6354, 197100, 752600),
   (2472, 6354, 196600, 750600), (2473, 6355, 196100, 748700), (2474, 6356, 195600, 746800),
   (2475, 6356, 195100, 744800), (2476, 6357, 194600, 742900), (2477, 6358, 194200, 741000),
   (2478, 6358, 193700, 739100), (2479, 6359, 193200, 737100), (2480, 6360, 192700, 735200),
   (2481, 6360, 192200, 733300), (2482, 6361, 191800, 731400), (2483, 6362, 191300, 729500),
   (2484, 6362, 190800, 727700), (2485, 6363, 190300, 725800), (2486, 6364, 189900, 723900),
   (2487, 6364, 189400, 722000), (2488, 6365, 188900, 720200), (2489, 6366, 188400, 718300),
   (2490, 6366, 188000, 716400), (2491, 6367, 187500, 714600), (2492, 6368, 187000, 712700),
   (2493, 6368, 186600, 710900), (2494, 6369, 186100, 709100), (2495, 6370, 185700, 707200),
   (2496, 6370, 185200, 705400), (2497, 6371, 184700, 703600), (2498, 6371, 184300, 701700),
   (2499, 6372, 183800, 699900), (2500, 6373, 183400, 698100), (2501, 6374, 182800, 695900),
   (2502, 6374, 182300, 693800), (2503, 6375, 181700, 691600), (2504, 6376, 181200, 689400),
   (2505, 6376, 180600, 687300), (2506, 6377, 180100, 685100), (2507, 6378, 179500, 683000),
   (2508, 6379, 179000, 680800), (2509, 6379, 178400, 678700), (2510, 6380, 177900, 676600),
   (2511, 6381, 177400, 674500), (2512, 6381, 176800, 672400), (2513, 6382, 176300, 670300),
   (2514, 6383, 175800, 668200), (2515, 6384, 175200, 666100), (2516, 6384, 174700, 664000),
   (2517, 6385, 174200, 661900), (2518, 6386, 173700, 659800), (2519, 6386, 173100, 657800),
   (2520, 6387, 172600, 655700), (2521, 6388, 172100, 653700), (2522, 6389, 171600, 651600),
   (2523, 6389, 171100, 649600), (2524, 6390, 170500, 647500), (2525, 6391, 170000, 645500),
   (2526, 6391, 169500, 643500), (2527, 6392, 169000, 641500), (2528, 6393, 168500, 639500),
   (2529, 6394, 168000, 637500), (2530, 6394, 167500, 635500), (2531, 6395, 167000, 633500),
   (2532, 6396, 166500, 631500), (2533, 6396, 166000, 629500), (2534, 6397, 165500, 627600),
   (2535, 6398, 165000, 625600), (2536, 6399, 164500, 623600), (2537, 6399, 164000, 621700),
   (2538, 6400, 163500, 619800), (2539, 6401, 163000, 617800), (2540, 6401, 162500, 615900),
   (2541, 6402, 162000, 614000), (2542, 6403, 161500, 612000), (2543, 6404, 161000, 610100),
   (2544, 6404, 160500, 608200), (2545, 6405, 160100, 606300), (2546, 6406, 159600, 604400),
   (2547, 6406, 159100, 602500), (2548, 6407, 158600, 600600), (2549, 6408, 158100, 598800),
   (2550, 6409, 157700, 596900), (2551, 6409, 157200, 595000), (2552, 6410, 156700, 593200),
   (2553, 6411, 156200, 591300), (2554, 6411, 155800, 589400), (2555, 6412, 155300, 587600),
   (2556, 6413, 154800, 585800), (2557, 6414, 154400, 583900), (2558, 6414, 153900, 582100),
   (2559, 6415, 153400, 580300), (2560, 6416, 153000, 578500), (2561, 6416, 152500, 576700),
   (2562, 6417, 152000, 574900), (2563, 6418, 151600, 573100), (2564, 6419, 151100, 571300),
   (2565, 6419, 150700, 569500), (2566, 6420, 150200, 567700), (2567, 6421, 149800, 565900),
   (2568, 6421, 149300, 564200), (2569, 6422, 148900, 562400), (2570, 6423, 148400, 560600),
   (2571, 6424, 148000, 558900), (2572, 6424, 147500, 557100), (2573, 6425, 147100, 555400),
   (2574, 6426, 146600, 553600), (2575, 6427, 146200, 551900), (2576, 6427, 145700, 550200),
   (2577, 6428, 145300, 548500), (2578, 6429, 144900, 546800), (2579, 6429, 144400, 545000),
   (2580, 6430, 144000, 543300), (2581, 6431, 143600, 541600), (2582, 6432, 143100, 539900),
   (2583, 6432, 142700, 538300), (2584, 6433, 142300, 536600), (2585, 6434, 141800, 534900),
   (2586, 6434, 141400, 533200), (2587, 6435, 141000, 531600), (2588, 6436, 140600, 529900),
   (2589, 6437, 140100, 528200), (2590, 6437, 139700, 526600), (2591, 6438, 139300, 524900),
   (2592, 6439, 138900, 523300), (2593, 6439, 138400, 521700), (2594, 6440, 138000, 520000),
   (2595, 6441, 137600, 518400), (2596, 6442, 137200, 516800), (2597, 6442, 136800, 515200),
   (2598, 6443, 136400, 513500), (2599, 6444, 136000, 511900)]

/-- atmdata/Uranus/uranus-gram-avg.dat:2-5202, part 14. -/
def uranusGramPart14 : List (ℤ × ℤ × ℤ × ℤ) :=
  [(2600, 6444, 135500, 510300), (2601, 6445, 135100, 508700), (2602, 6446, 134700, 507000),
   (2603, 6447, 134300, 505400), (2604, 6447, 133900, 503700), (2605, 6448, 133400, 502100),
   (2606, 6449, 133000, 500500), (2607, 6450, 132600, 498800), (2608, 6450, 132200, 497200),
   (2609, 6451, 131800, 495600), (2610, 6452, 131400, 494000), (2611, 6453, 130900, 492400),
   (2612, 6454, 130500, 490800), (2613, 6454, 130100, 489200), (2614, 6455, 129700, 487600),
   (2615, 6456, 129300, 486000), (2616, 6457, 128900, 484400), (2617, 6457, 128500, 482800),
   (2618, 6458, 128100, 481300), (2619, 6459, 127700, 479700), (2620, 6460, 127300, 478100),
   (2621, 6460, 126900, 476600), (2622, 6461, 126500, 475000), (2623, 6462, 126100, 473500),
   (2624, 6463, 125700, 471900), (2625, 6463, 125300, 470400), (2626, 6464, 124900, 468900),
   (2627, 6465, 124500, 467400), (2628, 6466, 124100, 465800), (2629, 6466, 123700, 464300),
   (2630, 6467, 123400, 462800), (2631, 6468, 123000, 461300), (2632, 6469, 122600, 459800),
   (2633, 6470, 122200, 458300), (2634, 6470, 121800, 456800), (2635, 6471, 121400, 455300),
   (2636, 6472, 121100, 453800), (2637, 6473, 120700, 452400), (2638, 6473, 120300, 450900),
   (2639, 6474, 119900, 449400), (2640, 6475, 119500, 448000), (2641, 6476, 119200, 446500),
   (2642, 6476, 118800, 445100), (2643, 6477, 118400, 443600), (2644, 6478, 118100, 442200),
   (2645, 6479, 117700, 440700), (2646, 6479, 117300, 439300), (2647, 6480, 116900, 437900),
   (2648, 6481, 116600, 436400), (2649, 6482, 116200, 435000), (2650, 6482, 115900, 433600),
   (2651, 6483, 115500, 432200), (2652, 6484, 115100, 430800), (2653, 6485, 114800, 429400),
   (2654, 6486, 114400, 428000), (2655, 6486, 114000, 426600), (2656, 6487, 113700, 425200),
   (2657, 6488, 113300, 423800), (2658, 6489, 113000, 422400), (2659, 6489, 112600, 421100),
   (2660, 6490, 112300, 419700), (2661, 6491, 111900, 418300), (2662, 6492, 111600, 417000),
   (2663, 6492, 111200, 415600), (2664, 6493, 110900, 414300), (2665, 6494, 110500, 412900),
   (2666, 6495, 110200, 411600), (2667, 6495, 109800, 410200), (2668, 6496, 109500, 408900),
   (2669, 6497, 109100, 407600), (2670, 6498, 108800, 406200), (2671, 6499, 108500, 404900),
   (2672, 6499, 108100, 403600), (2673, 6500, 107800, 402300), (2674, 6501, 107400, 401000),
   (2675, 6502, 107100, 399700), (2676, 6502, 106800, 398400), (2677, 6503, 106400, 397100),
   (2678, 6504, 106100, 395800), (2679, 6505, 105800, 394500), (2680, 6505, 105400, 393200),
   (2681, 6506, 105100, 391900), (2682, 6507, 104800, 390700), (2683, 6508, 104400, 389400),
   (2684, 6508, 104100, 388100), (2685, 6509, 103800, 386900), (2686, 6510, 103500, 385600),
   (2687, 6511, 103100, 384400), (2688, 6511, 102800, 383100), (2689, 6512, 102500, 381900),
   (2690, 6513, 102200, 380600), (2691, 6514, 101900, 379400), (2692, 6515, 101500, 378100),
   (2693, 6515, 101200, 376900), (2694, 6516, 100900, 375700), (2695, 6517, 100600, 374500),
   (2696, 6518, 100300, 373300), (2697, 6518, 99950, 372000), (2698, 6519, 99640, 370800),
   (2699, 6520, 99330, 369600), (2700, 6521, 99020, 368400), (2701, 6521, 98810, 367600),
   (2702, 6522, 98600, 366800), (2703, 6523, 98400, 366000), (2704, 6524, 98190, 365200),
   (2705, 6524, 97990, 364400), (2706, 6525, 97780, 363600), (2707, 6526, 97580, 362800),
   (2708, 6526, 97370, 362000), (2709, 6527, 97170, 361200), (2710, 6528, 96970, 360400),
   (2711, 6529, 96760, 359600), (2712, 6529, 96560, 358800), (2713, 6530, 96360, 358000),
   (2714, 6531, 96160, 357200), (2715, 6532, 95960, 356400), (2716, 6532, 95760, 355700),
   (2717, 6533, 95560, 354900), (2718, 6534, 95360, 354100), (2719, 6535, 95160, 353300),
   (2720, 6535, 94960, 352500), (2721, 6536, 94760, 351800), (2722, 6537, 94560, 351000),
   (2723, 6537, 94370, 350200), (2724, 6538, 94170, 349400), (2725, 6539, 93970, 348700),
   (2726, 6540, 93780, 347900), (2727, 6540, 93580, 347100), (2728, 6541, 93380, 346400),
   (2729, 6542, 93190, 345600), (2730, 6543, 93000, 344900), (2731, 6543, 92800, 344100),
   (2732, 6544, 92610, 343300), (2733, 6545, 92410, 342600), (2734, 6546, 92220, 341800),
   (2735, 6546, 92030, 341100), (2736, 6547, 91840, 340300), (2737, 6548, 91640, 339600),
   (2738, 6548, 91450, 338800), (2739, 6549, 91260, 338100), (2740, 6550, 91070, 337300),
   (2741, 6551, 90880, 336600), (2742, 6551, 90690, 335900), (2743, 6552, 90500, 335100),
   (2744, 6553, 90310, 334400), (2745, 6554, 90120, 333700), (2746, 6554, 89940, 332900),
   (2747, 6555, 89750, 332200), (2748, 6556, 89560, 331500), (2749, 6557, 89370, 330700),
   (2750, 6557, 89190, 330000), (2751, 6558, 89000, 329300), (2752, 6559, 88810, 328500),
   (2753, 6559, 88630, 327800), (2754, 6560, 88440, 327100), (2755, 6561, 88260, 326400),
   (2756, 6562, 88070, 325700), (2757, 6562, 87890, 324900), (2758, 6563, 87710, 324200),
   (2759, 6564, 87520, 323500), (2760, 6565, 87340, 322800), (2761, 6565, 87160, 322100),
   (2762, 6566, 86980, 321400), (2763, 6567, 86800, 320700), (2764, 6568, 86610, 320000),
   (2765, 6568, 86430, 319300), (2766, 6569, 86250, 318600), (2767, 6570, 86070, 317900),
   (2768, 6570, 85890, 317200), (2769, 6571, 85710, 316500), (2770, 6572, 85530, 315800),
   (2771, 6573, 85360, 315100), (2772, 6573, 85180, 314400), (2773, 6574, 85000, 313700),
   (2774, 6575, 84820, 313000), (2775, 6576, 84640, 312300), (2776, 6576, 84470, 311600),
   (2777, 6577, 84290, 310900), (2778, 6578, 84120, 310300), (2779, 6579, 83940, 309600),
   (2780, 6579, 83760, 308900), (2781, 6580, 83590, 308200), (2782, 6581, 83410, 307500),
   (2783, 6581, 83240, 306900), (2784, 6582, 83070, 306200), (2785, 6583, 82890, 305500),
   (2786, 6584, 82720, 304800), (2787, 6584, 82550, 304200), (2788, 6585, 82380, 303500),
   (2789, 6586, 82200, 302800), (2790, 6587, 82030, 302200), (2791, 6587, 81860, 301500),
   (2792, 6588, 81690, 300800), (2793, 6589, 81520, 300200), (2794, 6590, 81350, 299500),
   (2795, 6590, 81180, 298900), (2796, 6591, 81010, 298200), (2797, 6592, 80840, 297500),
   (2798, 6592, 80670, 296900), (2799, 6593, 80500, 296200)]

/-- atmdata/Uranus/uranus-gram-avg.dat:2-5202, part 15. -/
def uranusGramPart15 : List (ℤ × ℤ × ℤ × ℤ) :=
  [(2800, 6594, 80330, 295600), (2801, 6595, 80180, 295000), (2802, 6595, 80030, 294400),
   (2803, 6596, 79880, 293800), (2804, 6597, 79730, 293300), (2805, 6597, 79580, 292700),
   (2806, 6598, 79430, 292100), (2807, 6599, 79290, 291500), (2808, 6599, 79140, 291000),
   (2809, 6600, 78990, 290400), (2810, 6600, 78840, 289800), (2811, 6601, 78690, 289200),
   (2812, 6602, 78550, 288700), (2813, 6602, 78400, 288100), (2814, 6603, 78250, 287500),
   (2815, 6604, 78100, 287000), (2816, 6604, 77960, 286400), (2817, 6605, 77810, 285800),
   (2818, 6606, 77670, 285300), (2819, 6606, 77520, 284700), (2820, 6607, 77370, 284100),
   (2821, 6608, 77230, 283600), (2822, 6608, 77090, 283000), (2823, 6609, 76940, 282500),
   (2824, 6610, 76800, 281900), (2825, 6610, 76650, 281300), (2826, 6611, 76510, 280800),
   (2827, 6612, 76370, 280200), (2828, 6612, 76220, 279700), (2829, 6613, 76080, 279100),
   (2830, 6614, 75940, 278600), (2831, 6614, 75790, 278000), (2832, 6615, 75650, 277500),
   (2833, 6616, 75510, 276900), (2834, 6616, 75370, 276400), (2835, 6617, 75230, 275800),
   (2836, 6618, 75090, 275300), (2837, 6618, 74950, 274700), (2838, 6619, 74800, 274200),
   (2839, 6620, 74660, 273700), (2840, 6620, 74520, 273100), (2841, 6621, 74390, 272600),
   (2842, 6622, 74250, 272000), (2843, 6622, 74110, 271500), (2844, 6623, 73970, 271000),
   (2845, 6624, 73830, 270400), (2846, 6624, 73690, 269900), (2847, 6625, 73550, 269400),
   (2848, 6625, 73410, 268800), (2849, 6626, 73280, 268300), (2850, 6627, 73140, 267800),
   (2851, 6627, 73000, 267300), (2852, 6628, 72870, 266700), (2853, 6629, 72730, 266200),
   (2854, 6629, 72590, 265700), (2855, 6630, 72460, 265100), (2856, 6631, 72320, 264600),
   (2857, 6631, 72180, 264100), (2858, 6632, 72050, 263600), (2859, 6633, 71910, 263100),
   (2860, 6633, 71780, 262500), (2861, 6634, 71650, 262000), (2862, 6635, 71510, 261500),
   (2863, 6635, 71380, 261000), (2864, 6636, 71240, 260500), (2865, 6637, 71110, 260000),
   (2866, 6637, 70980, 259400), (2867, 6638, 70840, 258900), (2868, 6639, 70710, 258400),
   (2869, 6639, 70580, 257900), (2870, 6640, 70450, 257400), (2871, 6641, 70310, 256900),
   (2872, 6641, 70180, 256400), (2873, 6642, 70050, 255900), (2874, 6643, 69920, 255400),
   (2875, 6643, 69790, 254900), (2876, 6644, 69660, 254400), (2877, 6645, 69530, 253900),
   (2878, 6645, 69400, 253400), (2879, 6646, 69270, 252900), (2880, 6647, 69140, 252400),
   (2881, 6647, 69010, 251900), (2882, 6648, 68880, 251400), (2883, 6649, 68750, 250900),
   (2884, 6649, 68620, 250400), (2885, 6650, 68490, 249900), (2886, 6650, 68360, 249400),
   (2887, 6651, 68230, 248900), (2888, 6652, 68110, 248400), (2889, 6652, 67980, 247900),
   (2890, 6653, 67850, 247400), (2891, 6654, 67720, 246900), (2892, 6654, 67600, 246500),
   (2893, 6655, 67470, 246000), (2894, 6656, 67340, 245500), (2895, 6656, 67220, 245000),
   (2896, 6657, 67090, 244500), (2897, 6658, 66960, 244000), (2898, 6658, 66840, 243600),
   (2899, 6659, 66710, 243100), (2900, 6660, 66590, 242600), (2901, 6660, 66460, 242100),
   (2902, 6661, 66320, 241600), (2903, 6662, 66190, 241100), (2904, 6662, 66060, 240600),
   (2905, 6663, 65920, 240000), (2906, 6664, 65790, 239500), (2907, 6664, 65660, 239000),
   (2908, 6665, 65530, 238500), (2909, 6666, 65390, 238000), (2910, 6666, 65260, 237500),
   (2911, 6667, 65130, 237000), (2912, 6668, 65000, 236500), (2913, 6668, 64870, 236000),
   (2914, 6669, 64740, 235500), (2915, 6670, 64610, 235000), (2916, 6670, 64480, 234500),
   (2917, 6671, 64350, 234000), (2918, 6672, 64220, 233500), (2919, 6672, 64090, 233100),
   (2920, 6673, 63960, 232600), (2921, 6673, 63830, 232100), (2922, 6674, 63700, 231600),
   (2923, 6675, 63580, 231100), (2924, 6675, 63450, 230600), (2925, 6676, 63320, 230100),
   (2926, 6677, 63190, 229600), (2927, 6677, 63070, 229100), (2928, 6678, 62940, 228700),
   (2929, 6679, 62810, 228200), (2930, 6679, 62690, 227700), (2931, 6680, 62560, 227200),
   (2932, 6681, 62440, 226700), (2933, 6681, 62310, 226300), (2934, 6682, 62180, 225800),
   (2935, 6683, 62060, 225300), (2936, 6683, 61940, 224800), (2937, 6684, 61810, 224400),
   (2938, 6685, 61690, 223900), (2939, 6685, 61560, 223400), (2940, 6686, 61440, 222900),
   (2941, 6687, 61310, 222500), (2942, 6687, 61190, 222000), (2943, 6688, 61070, 221500),
   (2944, 6689, 60950, 221100), (2945, 6689, 60820, 220600), (2946, 6690, 60700, 220100),
   (2947, 6691, 60580, 219700), (2948, 6691, 60460, 219200), (2949, 6692, 60340, 218800),
   (2950, 6693, 60210, 218300), (2951, 6693, 60090, 217800), (2952, 6694, 59970, 217400),
   (2953, 6695, 59850, 216900), (2954, 6695, 59730, 216500), (2955, 6696, 59610, 216000),
   (2956, 6696, 59490, 215500), (2957, 6697, 59370, 215100), (2958, 6698, 59250, 214600),
   (2959, 6698, 59130, 214200), (2960, 6699, 59010, 213700), (2961, 6700, 58900, 213300),
   (2962, 6700, 58780, 212800), (2963, 6701, 58660, 212400), (2964, 6702, 58540, 211900),
   (2965, 6702, 58420, 211500), (2966, 6703, 58310, 211000), (2967, 6704, 58190, 210600),
   (2968, 6704, 58070, 210200), (2969, 6705, 57960, 209700), (2970, 6706, 57840, 209300),
   (2971, 6706, 57720, 208800), (2972, 6707, 57610, 208400), (2973, 6708, 57490, 207900),
   (2974, 6708, 57380, 207500), (2975, 6709, 57260, 207100), (2976, 6710, 57140, 206600),
   (2977, 6710, 57030, 206200), (2978, 6711, 56920, 205800), (2979, 6712, 56800, 205300),
   (2980, 6712, 56690, 204900), (2981, 6713, 56570, 204500), (2982, 6714, 56460, 204000),
   (2983, 6714, 56350, 203600), (2984, 6715, 56230, 203200), (2985, 6716, 56120, 202700),
   (2986, 6716, 56010, 202300), (2987, 6717, 55890, 201900), (2988, 6718, 55780, 201500),
   (2989, 6718, 55670, 201000), (2990, 6719, 55560, 200600), (2991, 6719, 55450, 200200),
   (2992, 6720, 55330, 199800), (2993, 6721, 55220, 199400), (2994, 6721, 55110, 198900),
   (2995, 6722, 55000, 198500), (2996, 6723, 54890, 198100), (2997, 6723, 54780, 197700),
   (2998, 6724, 54670, 197300), (2999, 6725, 54560, 196800)]

/-- atmdata/Uranus/uranus-gram-avg.dat:2-5202, part 16. -/
def uranusGramPart16 : List (ℤ × ℤ × ℤ × ℤ) :=
  [(3000, 6725, 54450, 196400), (3001, 6726, 54260, 195700), (3002, 6727, 54060, 195000),
   (3003, 6728, 53870, 194300), (3004, 6729, 53680, 193600), (3005, 6730, 53490, 192900),
   (3006, 6731, 53300, 192100), (3007, 6732, 53110, 191400), (3008, 6732, 52930, 190700),
   (3009, 6733, 52740, 190000), (3010, 6734, 52550, 189300), (3011, 6735, 52370, 188600),
   (3012, 6736, 52180, 187900), (3013, 6737, 52000, 187300), (3014, 6738, 51810, 186600),
   (3015, 6739, 51630, 185900), (3016, 6739, 51440, 185200), (3017, 6740, 51260, 184500),
   (3018, 6741, 51080, 183800), (3019, 6742, 50900, 183200), (3020, 6743, 50720, 182500),
   (3021, 6744, 50540, 181800), (3022, 6745, 50360, 181200), (3023, 6746, 50180, 180500),
   (3024, 6746, 50010, 179800), (3025, 6747, 49830, 179200), (3026, 6748, 49650, 178500),
   (3027, 6749, 49480, 177900), (3028, 6750, 49300, 177200), (3029, 6751, 49130, 176600),
   (3030, 6752, 48950, 175900), (3031, 6752, 48780, 175300), (3032, 6753, 48610, 174600),
   (3033, 6754, 48430, 174000), (3034, 6755, 48260, 173300), (3035, 6756, 48090, 172700),
   (3036, 6757, 47920, 172100), (3037, 6758, 47750, 171400), (3038, 6759, 47580, 170800),
   (3039, 6759, 47410, 170200), (3040, 6760, 47250, 169600), (3041, 6761, 47080, 168900),
   (3042, 6762, 46910, 168300), (3043, 6763, 46750, 167700), (3044, 6764, 46580, 167100),
   (3045, 6765, 46410, 166500), (3046, 6766, 46250, 165900), (3047, 6766, 46090, 165200),
   (3048, 6767, 45920, 164600), (3049, 6768, 45760, 164000), (3050, 6769, 45600, 163400),
   (3051, 6770, 45440, 162800), (3052, 6771, 45280, 162200), (3053, 6772, 45120, 161600),
   (3054, 6773, 44960, 161000), (3055, 6773, 44800, 160500), (3056, 6774, 44640, 159900),
   (3057, 6775, 44480, 159300), (3058, 6776, 44320, 158700), (3059, 6777, 44170, 158100),
   (3060, 6778, 44010, 157500), (3061, 6779, 43850, 157000), (3062, 6780, 43700, 156400),
   (3063, 6780, 43540, 155800), (3064, 6781, 43390, 155200), (3065, 6782, 43240, 154700),
   (3066, 6783, 43080, 154100), (3067, 6784, 42930, 153500), (3068, 6785, 42780, 153000),
   (3069, 6786, 42630, 152400), (3070, 6787, 42470, 151800), (3071, 6787, 42320, 151300),
   (3072, 6788, 42170, 150700), (3073, 6789, 42030, 150200), (3074, 6790, 41880, 149600),
   (3075, 6791, 41730, 149100), (3076, 6792, 41580, 148500), (3077, 6793, 41430, 148000),
   (3078, 6794, 41290, 147400), (3079, 6794, 41140, 146900), (3080, 6795, 40990, 146400),
   (3081, 6796, 40850, 145800), (3082, 6797, 40700, 145300), (3083, 6798, 40560, 144800),
   (3084, 6799, 40420, 144200), (3085, 6800, 40270, 143700), (3086, 6801, 40130, 143200),
   (3087, 6801, 39990, 142600), (3088, 6802, 39850, 142100), (3089, 6803, 39710, 141600),
   (3090, 6804, 39570, 141100), (3091, 6805, 39430, 140600), (3092, 6806, 39290, 140000),
   (3093, 6807, 39150, 139500), (3094, 6808, 39010, 139000), (3095, 6808, 38870, 138500),
   (3096, 6809, 38730, 138000), (3097, 6810, 38590, 137500), (3098, 6811, 38460, 137000),
   (3099, 6812, 38320, 136500), (3100, 6813, 38190, 136000), (3101, 6814, 38090, 135600),
   (3102, 6814, 38000, 135300), (3103, 6815, 37910, 134900), (3104, 6816, 37810, 134600),
   (3105, 6816, 37720, 134300), (3106, 6817, 37630, 133900), (3107, 6818, 37530, 133600),
   (3108, 6819, 37440, 133200), (3109, 6819, 37350, 132900), (3110, 6820, 37260, 132500),
   (3111, 6821, 37170, 132200), (3112, 6821, 37070, 131900), (3113, 6822, 36980, 131500),
   (3114, 6823, 36890, 131200), (3115, 6824, 36800, 130900), (3116, 6824, 36710, 130500),
   (3117, 6825, 36620, 130200), (3118, 6826, 36530, 129900), (3119, 6826, 36440, 129500),
   (3120, 6827, 36350, 129200), (3121, 6828, 36260, 128900), (3122, 6829, 36170, 128500),
   (3123, 6829, 36080, 128200), (3124, 6830, 36000, 127900), (3125, 6831, 35910, 127500),
   (3126, 6832, 35820, 127200), (3127, 6832, 35730, 126900), (3128, 6833, 35640, 126600),
   (3129, 6834, 35560, 126200), (3130, 6834, 35470, 125900), (3131, 6835, 35380, 125600),
   (3132, 6836, 35290, 125300), (3133, 6837, 35210, 124900), (3134, 6837, 35120, 124600),
   (3135, 6838, 35030, 124300), (3136, 6839, 34950, 124000), (3137, 6839, 34860, 123700),
   (3138, 6840, 34780, 123400), (3139, 6841, 34690, 123000), (3140, 6842, 34610, 122700),
   (3141, 6842, 34520, 122400), (3142, 6843, 34440, 122100), (3143, 6844, 34350, 121800),
   (3144, 6844, 34270, 121500), (3145, 6845, 34180, 121200), (3146, 6846, 34100, 120800),
   (3147, 6847, 34010, 120500), (3148, 6847, 33930, 120200), (3149, 6848, 33850, 119900),
   (3150, 6849, 33760, 119600), (3151, 6850, 33680, 119300), (3152, 6850, 33600, 119000),
   (3153, 6851, 33520, 118700), (3154, 6852, 33430, 118400), (3155, 6852, 33350, 118100),
   (3156, 6853, 33270, 117800), (3157, 6854, 33190, 117500), (3158, 6855, 33110, 117200),
   (3159, 6855, 33020, 116900), (3160, 6856, 32940, 116600), (3161, 6857, 32860, 116300),
   (3162, 6857, 32780, 116000), (3163, 6858, 32700, 115700), (3164, 6859, 32620, 115400),
   (3165, 6860, 32540, 115100), (3166, 6860, 32460, 114800), (3167, 6861, 32380, 114500),
   (3168, 6862, 32300, 114200), (3169, 6862, 32220, 113900), (3170, 6863, 32140, 113600),
   (3171, 6864, 32060, 113300), (3172, 6865, 31980, 113000), (3173, 6865, 31910, 112800),
   (3174, 6866, 31830, 112500), (3175, 6867, 31750, 112200), (3176, 6868, 31670, 111900),
   (3177, 6868, 31590, 111600), (3178, 6869, 31520, 111300), (3179, 6870, 31440, 111000),
   (3180, 6870, 31360, 110700), (3181, 6871, 31280, 110500), (3182, 6872, 31210, 110200),
   (3183, 6873, 31130, 109900), (3184, 6873, 31050, 109600), (3185, 6874, 30980, 109300),
   (3186, 6875, 30900, 109100), (3187, 6875, 30820, 108800), (3188, 6876, 30750, 108500),
   (3189, 6877, 30670, 108200), (3190, 6878, 30600, 107900), (3191, 6878, 30520, 107700),
   (3192, 6879, 30450, 107400), (3193, 6880, 30370, 107100), (3194, 6880, 30300, 106800),
   (3195, 6881, 30220, 106600), (3196, 6882, 30150, 106300), (3197, 6883, 30080, 106000),
   (3198, 6883, 30000, 105800), (3199, 6884, 29930, 105500)]

/-- atmdata/Uranus/uranus-gram-avg.dat:2-5202, part 17. -/
def uranusGramPart17 : List (ℤ × ℤ × ℤ × ℤ) :=
  [(3200, 6885, 29850, 105200), (3201, 6885, 29790, 105000), (3202, 6886, 29730, 104700),
   (3203, 6887, 29660, 104500), (3204, 6888, 29600, 104300), (3205, 6888, 29540, 104000),
   (3206, 6889, 29480, 103800), (3207, 6890, 29410, 103600), (3208, 6890, 29350, 103400),
   (3209, 6891, 29290, 103100), (3210, 6892, 29230, 102900), (3211, 6892, 29160, 102700),
   (3212, 6893, 29100, 102400), (3213, 6894, 29040, 102200), (3214, 6894, 28980, 102000),
   (3215, 6895, 28920, 101800), (3216, 6896, 28850, 101500), (3217, 6896, 28790, 101300),
   (3218, 6897, 28730, 101100), (3219, 6898, 28670, 100800), (3220, 6899, 28610, 100600),
   (3221, 6899, 28550, 100400), (3222, 6900, 28490, 100200), (3223, 6901, 28430, 99950),
   (3224, 6901, 28370, 99730), (3225, 6902, 28310, 99510), (3226, 6903, 28250, 99290),
   (3227, 6903, 28190, 99070), (3228, 6904, 28130, 98850), (3229, 6905, 28070, 98630),
   (3230, 6905, 28010, 98410), (3231, 6906, 27950, 98190), (3232, 6907, 27890, 97970),
   (3233, 6908, 27830, 97750), (3234, 6908, 27770, 97540), (3235, 6909, 27710, 97320),
   (3236, 6910, 27650, 97100), (3237, 6910, 27590, 96890), (3238, 6911, 27540, 96670),
   (3239, 6912, 27480, 96450), (3240, 6912, 27420, 96240), (3241, 6913, 27360, 96030),
   (3242, 6914, 27300, 95810), (3243, 6914, 27240, 95600), (3244, 6915, 27190, 95390),
   (3245, 6916, 27130, 95170), (3246, 6916, 27070, 94960), (3247, 6917, 27010, 94750),
   (3248, 6918, 26960, 94540), (3249, 6919, 26900, 94330), (3250, 6919, 26840, 94120),
   (3251, 6920, 26780, 93910), (3252, 6921, 26730, 93700), (3253, 6921, 26670, 93490),
   (3254, 6922, 26610, 93290), (3255, 6923, 26560, 93080), (3256, 6923, 26500, 92870),
   (3257, 6924, 26440, 92660), (3258, 6925, 26390, 92460), (3259, 6925, 26330, 92250),
   (3260, 6926, 26280, 92050), (3261, 6927, 26220, 91840), (3262, 6927, 26160, 91640),
   (3263, 6928, 26110, 91430), (3264, 6929, 26050, 91230), (3265, 6930, 26000, 91030),
   (3266, 6930, 25940, 90820), (3267, 6931, 25890, 90620), (3268, 6932, 25830, 90420),
   (3269, 6932, 25780, 90220), (3270, 6933, 25720, 90020), (3271, 6934, 25670, 89820),
   (3272, 6934, 25610, 89620), (3273, 6935, 25560, 89420), (3274, 6936, 25500, 89220),
   (3275, 6936, 25450, 89020), (3276, 6937, 25400, 88820), (3277, 6938, 25340, 88630),
   (3278, 6938, 25290, 88430), (3279, 6939, 25230, 88230), (3280, 6940, 25180, 88040),
   (3281, 6941, 25130, 87840), (3282, 6941, 25070, 87650), (3283, 6942, 25020, 87450),
   (3284, 6943, 24970, 87260), (3285, 6943, 24910, 87060), (3286, 6944, 24860, 86870),
   (3287, 6945, 24810, 86670), (3288, 6945, 24760, 86480), (3289, 6946, 24700, 86290),
   (3290, 6947, 24650, 86100), (3291, 6947, 24600, 85910), (3292, 6948, 24550, 85710),
   (3293, 6949, 24490, 85520), (3294, 6949, 24440, 85330), (3295, 6950, 24390, 85140),
   (3296, 6951, 24340, 84950), (3297, 6952, 24290, 84770), (3298, 6952, 24230, 84580),
   (3299, 6953, 24180, 84390), (3300, 6954, 24130, 84200), (3301, 6954, 24090, 84040),
   (3302, 6955, 24050, 83890), (3303, 6955, 24000, 83730), (3304, 6956, 23960, 83580),
   (3305, 6956, 23920, 83420), (3306, 6957, 23880, 83270), (3307, 6958, 23830, 83110),
   (3308, 6958, 23790, 82960), (3309, 6959, 23750, 82800), (3310, 6959, 23710, 82650),
   (3311, 6960, 23660, 82490), (3312, 6960, 23620, 82340), (3313, 6961, 23580, 82190),
   (3314, 6962, 23540, 82030), (3315, 6962, 23500, 81880), (3316, 6963, 23450, 81730),
   (3317, 6963, 23410, 81580), (3318, 6964, 23370, 81430), (3319, 6965, 23330, 81270),
   (3320, 6965, 23290, 81120), (3321, 6966, 23250, 80970), (3322, 6966, 23210, 80820),
   (3323, 6967, 23160, 80670), (3324, 6967, 23120, 80520), (3325, 6968, 23080, 80370),
   (3326, 6969, 23040, 80220), (3327, 6969, 23000, 80070), (3328, 6970, 22960, 79920),
   (3329, 6970, 22920, 79770), (3330, 6971, 22880, 79630), (3331, 6971, 22840, 79480),
   (3332, 6972, 22800, 79330), (3333, 6973, 22760, 79180), (3334, 6973, 22720, 79040),
   (3335, 6974, 22670, 78890), (3336, 6974, 22630, 78740), (3337, 6975, 22590, 78590),
   (3338, 6975, 22550, 78450), (3339, 6976, 22510, 78300), (3340, 6977, 22470, 78160),
   (3341, 6977, 22430, 78010), (3342, 6978, 22390, 77870), (3343, 6978, 22350, 77720),
   (3344, 6979, 22310, 77580), (3345, 6979, 22270, 77430), (3346, 6980, 22240, 77290),
   (3347, 6981, 22200, 77140), (3348, 6981, 22160, 77000), (3349, 6982, 22120, 76860),
   (3350, 6982, 22080, 76720), (3351, 6983, 22040, 76570), (3352, 6984, 22000, 76430),
   (3353, 6984, 21960, 76290), (3354, 6985, 21920, 76150), (3355, 6985, 21880, 76000),
   (3356, 6986, 21840, 75860), (3357, 6986, 21800, 75720), (3358, 6987, 21770, 75580),
   (3359, 6988, 21730, 75440), (3360, 6988, 21690, 75300), (3361, 6989, 21650, 75160),
   (3362, 6989, 21610, 75020), (3363, 6990, 21570, 74880), (3364, 6990, 21530, 74740),
   (3365, 6991, 21500, 74600), (3366, 6992, 21460, 74460), (3367, 6992, 21420, 74320),
   (3368, 6993, 21380, 74190), (3369, 6993, 21340, 74050), (3370, 6994, 21310, 73910),
   (3371, 6994, 21270, 73770), (3372, 6995, 21230, 73640), (3373, 6996, 21190, 73500),
   (3374, 6996, 21150, 73360), (3375, 6997, 21120, 73230), (3376, 6997, 21080, 73090),
   (3377, 6998, 21040, 72950), (3378, 6998, 21000, 72820), (3379, 6999, 20970, 72680),
   (3380, 7000, 20930, 72550), (3381, 7000, 20890, 72410), (3382, 7001, 20860, 72280),
   (3383, 7001, 20820, 72140), (3384, 7002, 20780, 72010), (3385, 7002, 20740, 71880),
   (3386, 7003, 20710, 71740), (3387, 7004, 20670, 71610), (3388, 7004, 20630, 71480),
   (3389, 7005, 20600, 71340), (3390, 7005, 20560, 71210), (3391, 7006, 20520, 71080),
   (3392, 7006, 20490, 70940), (3393, 7007, 20450, 70810), (3394, 7008, 20410, 70680),
   (3395, 7008, 20380, 70550), (3396, 7009, 20340, 70420), (3397, 7009, 20310, 70290),
   (3398, 7010, 20270, 70160), (3399, 7011, 20230, 70030)]

/-- atmdata/Uranus/uranus-gram-avg.dat:2-5202, part 18. -/
def uranusGramPart18 : List (ℤ × ℤ × ℤ × ℤ) :=
  [(3400, 7011, 20200, 69900), (3401, 7012, 20160, 69740), (3402, 7012, 20110, 69590),
   (3403, 7013, 20070, 69440), (3404, 7014, 20030, 69290), (3405, 7014, 19990, 69140),
   (3406, 7015, 19950, 68990), (3407, 7016, 19910, 68840), (3408, 7016, 19870, 68690),
   (3409, 7017, 19820, 68540), (3410, 7018, 19780, 68390), (3411, 7018, 19740, 68250),
   (3412, 7019, 19700, 68100), (3413, 7020, 19660, 67950), (3414, 7021, 19620, 67800),
   (3415, 7021, 19580, 67650), (3416, 7022, 19540, 67510), (3417, 7023, 19500, 67360),
   (3418, 7023, 19460, 67210), (3419, 7024, 19420, 67070), (3420, 7025, 19380, 66920),
   (3421, 7025, 19340, 66780), (3422, 7026, 19300, 66630), (3423, 7027, 19260, 66490),
   (3424, 7027, 19220, 66340), (3425, 7028, 19180, 66200), (3426, 7029, 19140, 66060),
   (3427, 7029, 19100, 65910), (3428, 7030, 19060, 65770), (3429, 7031, 19020, 65630),
   (3430, 7031, 18980, 65490), (3431, 7032, 18940, 65340), (3432, 7033, 18900, 65200),
   (3433, 7033, 18860, 65060), (3434, 7034, 18820, 64920), (3435, 7035, 18780, 64780),
   (3436, 7035, 18740, 64640), (3437, 7036, 18700, 64500), (3438, 7037, 18670, 64360),
   (3439, 7037, 18630, 64220), (3440, 7038, 18590, 64080), (3441, 7039, 18550, 63940),
   (3442, 7039, 18510, 63800), (3443, 7040, 18470, 63660), (3444, 7041, 18430, 63520),
   (3445, 7041, 18400, 63390), (3446, 7042, 18360, 63250), (3447, 7043, 18320, 63110),
   (3448, 7043, 18280, 62970), (3449, 7044, 18240, 62840), (3450, 7045, 18210, 62700),
   (3451, 7045, 18170, 62560), (3452, 7046, 18130, 62430), (3453, 7047, 18090, 62290),
   (3454, 7047, 18060, 62160), (3455, 7048, 18020, 62020), (3456, 7049, 17980, 61890),
   (3457, 7049, 17940, 61750), (3458, 7050, 17910, 61620), (3459, 7051, 17870, 61490),
   (3460, 7051, 17830, 61350), (3461, 7052, 17790, 61220), (3462, 7053, 17760, 61090),
   (3463, 7053, 17720, 60950), (3464, 7054, 17680, 60820), (3465, 7055, 17650, 60690),
   (3466, 7055, 17610, 60560), (3467, 7056, 17570, 60430), (3468, 7057, 17540, 60300),
   (3469, 7057, 17500, 60170), (3470, 7058, 17460, 60030), (3471, 7059, 17430, 59900),
   (3472, 7059, 17390, 59770), (3473, 7060, 17360, 59640), (3474, 7061, 17320, 59520),
   (3475, 7062, 17280, 59390), (3476, 7062, 17250, 59260), (3477, 7063, 17210, 59130),
   (3478, 7064, 17180, 59000), (3479, 7064, 17140, 58870), (3480, 7065, 17110, 58740),
   (3481, 7066, 17070, 58620), (3482, 7066, 17040, 58490), (3483, 7067, 17000, 58360),
   (3484, 7068, 16960, 58240), (3485, 7068, 16930, 58110), (3486, 7069, 16890, 57980),
   (3487, 7070, 16860, 57860), (3488, 7070, 16820, 57730), (3489, 7071, 16790, 57610),
   (3490, 7072, 16750, 57480), (3491, 7072, 16720, 57360), (3492, 7073, 16680, 57230),
   (3493, 7074, 16650, 57110), (3494, 7074, 16620, 56980), (3495, 7075, 16580, 56860),
   (3496, 7076, 16550, 56740), (3497, 7076, 16510, 56610), (3498, 7077, 16480, 56490),
   (3499, 7078, 16440, 56370), (3500, 7078, 16410, 56250), (3501, 7079, 16370, 56110),
   (3502, 7080, 16330, 55970), (3503, 7080, 16290, 55830), (3504, 7081, 16250, 55690),
   (3505, 7082, 16210, 55550), (3506, 7083, 16180, 55410), (3507, 7083, 16140, 55270),
   (3508, 7084, 16100, 55130), (3509, 7085, 16060, 54990), (3510, 7085, 16020, 54860),
   (3511, 7086, 15980, 54720), (3512, 7087, 15940, 54580), (3513, 7088, 15910, 54450),
   (3514, 7088, 15870, 54310), (3515, 7089, 15830, 54170), (3516, 7090, 15790, 54040),
   (3517, 7091, 15750, 53900), (3518, 7091, 15720, 53770), (3519, 7092, 15680, 53630),
   (3520, 7093, 15640, 53500), (3521, 7093, 15600, 53370), (3522, 7094, 15570, 53230),
   (3523, 7095, 15530, 53100), (3524, 7096, 15490, 52970), (3525, 7096, 15450, 52840),
   (3526, 7097, 15420, 52700), (3527, 7098, 15380, 52570), (3528, 7098, 15340, 52440),
   (3529, 7099, 15310, 52310), (3530, 7100, 15270, 52180), (3531, 7101, 15230, 52050),
   (3532, 7101, 15200, 51920), (3533, 7102, 15160, 51790), (3534, 7103, 15120, 51660),
   (3535, 7103, 15090, 51530), (3536, 7104, 15050, 51400), (3537, 7105, 15010, 51270),
   (3538, 7106, 14980, 51140), (3539, 7106, 14940, 51020), (3540, 7107, 14910, 50890),
   (3541, 7108, 14870, 50760), (3542, 7108, 14840, 50630), (3543, 7109, 14800, 50510),
   (3544, 7110, 14760, 50380), (3545, 7111, 14730, 50260), (3546, 7111, 14690, 50130),
   (3547, 7112, 14660, 50010), (3548, 7113, 14620, 49880), (3549, 7113, 14590, 49760),
   (3550, 7114, 14550, 49630), (3551, 7115, 14520, 49510), (3552, 7116, 14480, 49380),
   (3553, 7116, 14450, 49260), (3554, 7117, 14410, 49140), (3555, 7118, 14380, 49010),
   (3556, 7119, 14340, 48890), (3557, 7119, 14310, 48770), (3558, 7120, 14280, 48650),
   (3559, 7121, 14240, 48530), (3560, 7121, 14210, 48400), (3561, 7122, 14170, 48280),
   (3562, 7123, 14140, 48160), (3563, 7124, 14110, 48040), (3564, 7124, 14070, 47920),
   (3565, 7125, 14040, 47800), (3566, 7126, 14000, 47680), (3567, 7126, 13970, 47560),
   (3568, 7127, 13940, 47450), (3569, 7128, 13900, 47330), (3570, 7129, 13870, 47210),
   (3571, 7129, 13840, 47090), (3572, 7130, 13800, 46970), (3573, 7131, 13770, 46860),
   (3574, 7131, 13740, 46740), (3575, 7132, 13700, 46620), (3576, 7133, 13670, 46510),
   (3577, 7134, 13640, 46390), (3578, 7134, 13610, 46270), (3579, 7135, 13570, 46160),
   (3580, 7136, 13540, 46040), (3581, 7136, 13510, 45930), (3582, 7137, 13480, 45810),
   (3583, 7138, 13440, 45700), (3584, 7139, 13410, 45580), (3585, 7139, 13380, 45470),
   (3586, 7140, 13350, 45360), (3587, 7141, 13320, 45240), (3588, 7141, 13280, 45130),
   (3589, 7142, 13250, 45020), (3590, 7143, 13220, 44900), (3591, 7144, 13190, 44790),
   (3592, 7144, 13160, 44680), (3593, 7145, 13120, 44570), (3594, 7146, 13090, 44460),
   (3595, 7147, 13060, 44350), (3596, 7147, 13030, 44240), (3597, 7148, 13000, 44120),
   (3598, 7149, 12970, 44010), (3599, 7149, 12940, 43900)]

/-- atmdata/Uranus/uranus-gram-avg.dat:2-5202, part 19. -/
def uranusGramPart19 : List (ℤ × ℤ × ℤ × ℤ) :=
  [(3600, 7150, 12910, 43790), (3601, 7151, 12870, 43690), (3602, 7151, 12840, 43580),
   (3603, 7152, 12810, 43470), (3604, 7153, 12780, 43360), (3605, 7153, 12750, 43250),
   (3606, 7154, 12720, 43140), (3607, 7155, 12690, 43030), (3608, 7155, 12660, 42920),
   (3609, 7156, 12630, 42820), (3610, 7157, 12600, 42710), (3611, 7158, 12570, 42600),
   (3612, 7158, 12540, 42490), (3613, 7159, 12510, 42390), (3614, 7160, 12480, 42280),
   (3615, 7160, 12450, 42180), (3616, 7161, 12420, 42070), (3617, 7162, 12390, 41960),
   (3618, 7162, 12360, 41860), (3619, 7163, 12330, 41750), (3620, 7164, 12300, 41650),
   (3621, 7164, 12270, 41540), (3622, 7165, 12240, 41440), (3623, 7166, 12210, 41340),
   (3624, 7166, 12180, 41230), (3625, 7167, 12150, 41130), (3626, 7168, 12120, 41030),
   (3627, 7168, 12090, 40920), (3628, 7169, 12060, 40820), (3629, 7170, 12030, 40720),
   (3630, 7170, 12000, 40620), (3631, 7171, 11970, 40510), (3632, 7172, 11950, 40410),
   (3633, 7172, 11920, 40310), (3634, 7173, 11890, 40210), (3635, 7174, 11860, 40110),
   (3636, 7174, 11830, 40010), (3637, 7175, 11800, 39910), (3638, 7176, 11770, 39810),
   (3639, 7176, 11740, 39710), (3640, 7177, 11720, 39610), (3641, 7178, 11690, 39510),
   (3642, 7178, 11660, 39410), (3643, 7179, 11630, 39310), (3644, 7180, 11600, 39210),
   (3645, 7180, 11580, 39110), (3646, 7181, 11550, 39020), (3647, 7182, 11520, 38920),
   (3648, 7182, 11490, 38820), (3649, 7183, 11460, 38720), (3650, 7184, 11440, 38630),
   (3651, 7184, 11410, 38530), (3652, 7185, 11380, 38430), (3653, 7186, 11350, 38340),
   (3654, 7186, 11330, 38240), (3655, 7187, 11300, 38140), (3656, 7188, 11270, 38050),
   (3657, 7189, 11240, 37950), (3658, 7189, 11220, 37860), (3659, 7190, 11190, 37760),
   (3660, 7191, 11160, 37670), (3661, 7191, 11140, 37570), (3662, 7192, 11110, 37480),
   (3663, 7193, 11080, 37390), (3664, 7193, 11060, 37290), (3665, 7194, 11030, 37200),
   (3666, 7195, 11000, 37100), (3667, 7195, 10980, 37010), (3668, 7196, 10950, 36920),
   (3669, 7197, 10920, 36830), (3670, 7197, 10900, 36730), (3671, 7198, 10870, 36640),
   (3672, 7199, 10840, 36550), (3673, 7199, 10820, 36460), (3674, 7200, 10790, 36370),
   (3675, 7201, 10770, 36280), (3676, 7201, 10740, 36180), (3677, 7202, 10710, 36090),
   (3678, 7203, 10690, 36000), (3679, 7203, 10660, 35910), (3680, 7204, 10640, 35820),
   (3681, 7205, 10610, 35730), (3682, 7205, 10580, 35640), (3683, 7206, 10560, 35550),
   (3684, 7207, 10530, 35460), (3685, 7207, 10510, 35380), (3686, 7208, 10480, 35290),
   (3687, 7209, 10460, 35200), (3688, 7209, 10430, 35110), (3689, 7210, 10410, 35020),
   (3690, 7211, 10380, 34930), (3691, 7211, 10360, 34850), (3692, 7212, 10330, 34760),
   (3693, 7213, 10310, 34670), (3694, 7213, 10280, 34590), (3695, 7214, 10260, 34500),
   (3696, 7215, 10230, 34410), (3697, 7215, 10210, 34330), (3698, 7216, 10180, 34240),
   (3699, 7217, 10160, 34150), (3700, 7218, 10130, 34070), (3701, 7218, 10110, 33990),
   (3702, 7219, 10090, 33900), (3703, 7219, 10060, 33820), (3704, 7220, 10040, 33740),
   (3705, 7221, 10020, 33660), (3706, 7221, 9992, 33570), (3707, 7222, 9969, 33490),
   (3708, 7223, 9946, 33410), (3709, 7223, 9922, 33330), (3710, 7224, 9899, 33250),
   (3711, 7225, 9876, 33170), (3712, 7225, 9853, 33090), (3713, 7226, 9830, 33010),
   (3714, 7227, 9807, 32930), (3715, 7227, 9784, 32850), (3716, 7228, 9761, 32770),
   (3717, 7229, 9738, 32690), (3718, 7229, 9715, 32610), (3719, 7230, 9693, 32530),
   (3720, 7231, 9670, 32450), (3721, 7231, 9647, 32370), (3722, 7232, 9625, 32290),
   (3723, 7233, 9602, 32210), (3724, 7233, 9580, 32130), (3725, 7234, 9557, 32060),
   (3726, 7235, 9535, 31980), (3727, 7235, 9513, 31900), (3728, 7236, 9490, 31820),
   (3729, 7237, 9468, 31750), (3730, 7237, 9446, 31670), (3731, 7238, 9424, 31590),
   (3732, 7239, 9402, 31510), (3733, 7239, 9380, 31440), (3734, 7240, 9358, 31360),
   (3735, 7240, 9336, 31280), (3736, 7241, 9314, 31210), (3737, 7242, 9292, 31130),
   (3738, 7242, 9271, 31060), (3739, 7243, 9249, 30980), (3740, 7244, 9227, 30910),
   (3741, 7244, 9206, 30830), (3742, 7245, 9184, 30760), (3743, 7246, 9163, 30680),
   (3744, 7246, 9141, 30610), (3745, 7247, 9120, 30530), (3746, 7248, 9098, 30460),
   (3747, 7248, 9077, 30380), (3748, 7249, 9056, 30310), (3749, 7250, 9035, 30240),
   (3750, 7250, 9013, 30160), (3751, 7251, 8992, 30090), (3752, 7252, 8971, 30020),
   (3753, 7252, 8950, 29940), (3754, 7253, 8929, 29870), (3755, 7254, 8908, 29800),
   (3756, 7254, 8888, 29730), (3757, 7255, 8867, 29650), (3758, 7256, 8846, 29580),
   (3759, 7256, 8825, 29510), (3760, 7257, 8805, 29440), (3761, 7258, 8784, 29370),
   (3762, 7258, 8763, 29290), (3763, 7259, 8743, 29220), (3764, 7260, 8723, 29150),
   (3765, 7260, 8702, 29080), (3766, 7261, 8682, 29010), (3767, 7262, 8661, 28940),
   (3768, 7262, 8641, 28870), (3769, 7263, 8621, 28800), (3770, 7263, 8601, 28730),
   (3771, 7264, 8581, 28660), (3772, 7265, 8561, 28590), (3773, 7265, 8540, 28520),
   (3774, 7266, 8520, 28450), (3775, 7267, 8501, 28380), (3776, 7267, 8481, 28310),
   (3777, 7268, 8461, 28240), (3778, 7269, 8441, 28180), (3779, 7269, 8421, 28110),
   (3780, 7270, 8402, 28040), (3781, 7271, 8382, 27970), (3782, 7271, 8362, 27900),
   (3783, 7272, 8343, 27830), (3784, 7273, 8323, 27770), (3785, 7273, 8304, 27700),
   (3786, 7274, 8284, 27630), (3787, 7275, 8265, 27560), (3788, 7275, 8245, 27500),
   (3789, 7276, 8226, 27430), (3790, 7277, 8207, 27360), (3791, 7277, 8188, 27300),
   (3792, 7278, 8169, 27230), (3793, 7279, 8149, 27160), (3794, 7279, 8130, 27100),
   (3795, 7280, 8111, 27030), (3796, 7281, 8092, 26970), (3797, 7281, 8073, 26900),
   (3798, 7282, 8054, 26840), (3799, 7283, 8036, 26770)]

/-- atmdata/Uranus/uranus-gram-avg.dat:2-5202, part 20. -/
def uranusGramPart20 : List (ℤ × ℤ × ℤ × ℤ) :=
  [(3800, 7283, 8017, 26710), (3801, 7284, 8003, 26660), (3802, 7285, 7988, 26610),
   (3803, 7285, 7974, 26560), (3804, 7286, 7960, 26510), (3805, 7286, 7946, 26460),
   (3806, 7287, 7932, 26410), (3807, 7288, 7918, 26360), (3808, 7288, 7904, 26310),
   (3809, 7289, 7890, 26260), (3810, 7290, 7876, 26210), (3811, 7290, 7862, 26160),
   (3812, 7291, 7848, 26110), (3813, 7292, 7834, 26070), (3814, 7292, 7820, 26020),
   (3815, 7293, 7806, 25970), (3816, 7294, 7792, 25920), (3817, 7294, 7778, 25870),
   (3818, 7295, 7764, 25820), (3819, 7296, 7751, 25770), (3820, 7296, 7737, 25730),
   (3821, 7297, 7723, 25680), (3822, 7298, 7709, 25630), (3823, 7298, 7696, 25580),
   (3824, 7299, 7682, 25540), (3825, 7300, 7668, 25490), (3826, 7300, 7655, 25440),
   (3827, 7301, 7641, 25390), (3828, 7302, 7628, 25350), (3829, 7302, 7614, 25300),
   (3830, 7303, 7600, 25250), (3831, 7304, 7587, 25200), (3832, 7304, 7574, 25160),
   (3833, 7305, 7560, 25110), (3834, 7306, 7547, 25060), (3835, 7306, 7533, 25020),
   (3836, 7307, 7520, 24970), (3837, 7308, 7506, 24920), (3838, 7308, 7493, 24880),
   (3839, 7309, 7480, 24830), (3840, 7310, 7467, 24780), (3841, 7310, 7453, 24740),
   (3842, 7311, 7440, 24690), (3843, 7311, 7427, 24650), (3844, 7312, 7414, 24600),
   (3845, 7313, 7400, 24550), (3846, 7313, 7387, 24510), (3847, 7314, 7374, 24460),
   (3848, 7315, 7361, 24420), (3849, 7315, 7348, 24370), (3850, 7316, 7335, 24330),
   (3851, 7317, 7322, 24280), (3852, 7317, 7309, 24230), (3853, 7318, 7296, 24190),
   (3854, 7319, 7283, 24140), (3855, 7319, 7270, 24100), (3856, 7320, 7257, 24050),
   (3857, 7321, 7244, 24010), (3858, 7321, 7231, 23960), (3859, 7322, 7219, 23920),
   (3860, 7323, 7206, 23880), (3861, 7323, 7193, 23830), (3862, 7324, 7180, 23790),
   (3863, 7325, 7167, 23740), (3864, 7325, 7155, 23700), (3865, 7326, 7142, 23650),
   (3866, 7327, 7129, 23610), (3867, 7327, 7117, 23570), (3868, 7328, 7104, 23520),
   (3869, 7329, 7091, 23480), (3870, 7329, 7079, 23430), (3871, 7330, 7066, 23390),
   (3872, 7331, 7054, 23350), (3873, 7331, 7041, 23300), (3874, 7332, 7029, 23260),
   (3875, 7333, 7016, 23220), (3876, 7333, 7004, 23170), (3877, 7334, 6991, 23130),
   (3878, 7335, 6979, 23090), (3879, 7335, 6966, 23040), (3880, 7336, 6954, 23000),
   (3881, 7336, 6942, 22960), (3882, 7337, 6929, 22910), (3883, 7338, 6917, 22870),
   (3884, 7338, 6905, 22830), (3885, 7339, 6893, 22790), (3886, 7340, 6880, 22740),
   (3887, 7340, 6868, 22700), (3888, 7341, 6856, 22660), (3889, 7342, 6844, 22620),
   (3890, 7342, 6832, 22570), (3891, 7343, 6819, 22530), (3892, 7344, 6807, 22490),
   (3893, 7344, 6795, 22450), (3894, 7345, 6783, 22410), (3895, 7346, 6771, 22360),
   (3896, 7346, 6759, 22320), (3897, 7347, 6747, 22280), (3898, 7348, 6735, 22240),
   (3899, 7348, 6723, 22200), (3900, 7349, 6711, 22160), (3901, 7350, 6698, 22110),
   (3902, 7350, 6685, 22070), (3903, 7351, 6672, 22020), (3904, 7352, 6659, 21980),
   (3905, 7353, 6646, 21930), (3906, 7353, 6633, 21890), (3907, 7354, 6621, 21840),
   (3908, 7355, 6608, 21800), (3909, 7355, 6595, 21750), (3910, 7356, 6582, 21710),
   (3911, 7357, 6569, 21670), (3912, 7358, 6557, 21620), (3913, 7358, 6544, 21580),
   (3914, 7359, 6531, 21530), (3915, 7360, 6519, 21490), (3916, 7360, 6506, 21450),
   (3917, 7361, 6493, 21400), (3918, 7362, 6481, 21360), (3919, 7363, 6468, 21320),
   (3920, 7363, 6456, 21270), (3921, 7364, 6443, 21230), (3922, 7365, 6431, 21190),
   (3923, 7365, 6418, 21140), (3924, 7366, 6406, 21100), (3925, 7367, 6393, 21060),
   (3926, 7368, 6381, 21010), (3927, 7368, 6369, 20970), (3928, 7369, 6356, 20930),
   (3929, 7370, 6344, 20880), (3930, 7371, 6332, 20840), (3931, 7371, 6319, 20800),
   (3932, 7372, 6307, 20760), (3933, 7373, 6295, 20720), (3934, 7373, 6283, 20670),
   (3935, 7374, 6270, 20630), (3936, 7375, 6258, 20590), (3937, 7376, 6246, 20550),
   (3938, 7376, 6234, 20510), (3939, 7377, 6222, 20460), (3940, 7378, 6210, 20420),
   (3941, 7378, 6198, 20380), (3942, 7379, 6186, 20340), (3943, 7380, 6174, 20300),
   (3944, 7381, 6162, 20260), (3945, 7381, 6150, 20210), (3946, 7382, 6138, 20170),
   (3947, 7383, 6126, 20130), (3948, 7383, 6114, 20090), (3949, 7384, 6102, 20050),
   (3950, 7385, 6090, 20010), (3951, 7386, 6079, 19970), (3952, 7386, 6067, 19930),
   (3953, 7387, 6055, 19890), (3954, 7388, 6043, 19850), (3955, 7388, 6032, 19810),
   (3956, 7389, 6020, 19770), (3957, 7390, 6008, 19730), (3958, 7391, 5997, 19690),
   (3959, 7391, 5985, 19650), (3960, 7392, 5973, 19610), (3961, 7393, 5962, 19570),
   (3962, 7393, 5950, 19530), (3963, 7394, 5939, 19490), (3964, 7395, 5927, 19450),
   (3965, 7396, 5916, 19410), (3966, 7396, 5904, 19370), (3967, 7397, 5893, 19330),
   (3968, 7398, 5881, 19290), (3969, 7398, 5870, 19250), (3970, 7399, 5859, 19210),
   (3971, 7400, 5847, 19170), (3972, 7401, 5836, 19130), (3973, 7401, 5825, 19090),
   (3974, 7402, 5813, 19050), (3975, 7403, 5802, 19020), (3976, 7403, 5791, 18980),
   (3977, 7404, 5779, 18940), (3978, 7405, 5768, 18900), (3979, 7406, 5757, 18860),
   (3980, 7406, 5746, 18820), (3981, 7407, 5735, 18780), (3982, 7408, 5724, 18750),
   (3983, 7409, 5713, 18710), (3984, 7409, 5701, 18670), (3985, 7410, 5690, 18630),
   (3986, 7411, 5679, 18590), (3987, 7411, 5668, 18560), (3988, 7412, 5657, 18520),
   (3989, 7413, 5646, 18480), (3990, 7414, 5635, 18440), (3991, 7414, 5625, 18410),
   (3992, 7415, 5614, 18370), (3993, 7416, 5603, 18330), (3994, 7416, 5592, 18290),
   (3995, 7417, 5581, 18260), (3996, 7418, 5570, 18220), (3997, 7419, 5559, 18180),
   (3998, 7419, 5549, 18140), (3999, 7420, 5538, 18110)]

/-- atmdata/Uranus/uranus-gram-avg.dat:2-5202, part 21. -/
def uranusGramPart21 : List (ℤ × ℤ × ℤ × ℤ) :=
  [(4000, 7421, 5527, 18070), (4001, 7421, 5516, 18030), (4002, 7422, 5505, 17990),
   (4003, 7423, 5494, 17960), (4004, 7424, 5483, 17920), (4005, 7424, 5472, 17880),
   (4006, 7425, 5461, 17840), (4007, 7426, 5450, 17810), (4008, 7427, 5439, 17770),
   (4009, 7427, 5428, 17730), (4010, 7428, 5417, 17690), (4011, 7429, 5406, 17660),
   (4012, 7429, 5395, 17620), (4013, 7430, 5384, 17580), (4014, 7431, 5373, 17540),
   (4015, 7432, 5362, 17510), (4016, 7432, 5352, 17470), (4017, 7433, 5341, 17430),
   (4018, 7434, 5330, 17400), (4019, 7435, 5319, 17360), (4020, 7435, 5309, 17320),
   (4021, 7436, 5298, 17290), (4022, 7437, 5287, 17250), (4023, 7437, 5277, 17210),
   (4024, 7438, 5266, 17180), (4025, 7439, 5255, 17140), (4026, 7440, 5245, 17100),
   (4027, 7440, 5234, 17070), (4028, 7441, 5224, 17030), (4029, 7442, 5213, 17000),
   (4030, 7443, 5203, 16960), (4031, 7443, 5192, 16920), (4032, 7444, 5182, 16890),
   (4033, 7445, 5171, 16850), (4034, 7446, 5161, 16820), (4035, 7446, 5150, 16780),
   (4036, 7447, 5140, 16750), (4037, 7448, 5130, 16710), (4038, 7448, 5119, 16680),
   (4039, 7449, 5109, 16640), (4040, 7450, 5099, 16600), (4041, 7451, 5088, 16570),
   (4042, 7451, 5078, 16530), (4043, 7452, 5068, 16500), (4044, 7453, 5058, 16460),
   (4045, 7454, 5048, 16430), (4046, 7454, 5037, 16400), (4047, 7455, 5027, 16360),
   (4048, 7456, 5017, 16330), (4049, 7456, 5007, 16290), (4050, 7457, 4997, 16260),
   (4051, 7458, 4987, 16220), (4052, 7459, 4977, 16190), (4053, 7459, 4967, 16150),
   (4054, 7460, 4957, 16120), (4055, 7461, 4947, 16090), (4056, 7462, 4937, 16050),
   (4057, 7462, 4927, 16020), (4058, 7463, 4917, 15980), (4059, 7464, 4907, 15950),
   (4060, 7465, 4897, 15920), (4061, 7465, 4887, 15880), (4062, 7466, 4877, 15850),
   (4063, 7467, 4868, 15820), (4064, 7467, 4858, 15780), (4065, 7468, 4848, 15750),
   (4066, 7469, 4838, 15720), (4067, 7470, 4828, 15680), (4068, 7470, 4819, 15650),
   (4069, 7471, 4809, 15620), (4070, 7472, 4799, 15580), (4071, 7473, 4790, 15550),
   (4072, 7473, 4780, 15520), (4073, 7474, 4770, 15490), (4074, 7475, 4761, 15450),
   (4075, 7475, 4751, 15420), (4076, 7476, 4742, 15390), (4077, 7477, 4732, 15350),
   (4078, 7478, 4722, 15320), (4079, 7478, 4713, 15290), (4080, 7479, 4703, 15260),
   (4081, 7480, 4694, 15230), (4082, 7481, 4685, 15190), (4083, 7481, 4675, 15160),
   (4084, 7482, 4666, 15130), (4085, 7483, 4656, 15100), (4086, 7483, 4647, 15070),
   (4087, 7484, 4638, 15030), (4088, 7485, 4628, 15000), (4089, 7486, 4619, 14970),
   (4090, 7486, 4610, 14940), (4091, 7487, 4600, 14910), (4092, 7488, 4591, 14880),
   (4093, 7489, 4582, 14840), (4094, 7489, 4573, 14810), (4095, 7490, 4563, 14780),
   (4096, 7491, 4554, 14750), (4097, 7492, 4545, 14720), (4098, 7492, 4536, 14690),
   (4099, 7493, 4527, 14660), (4100, 7494, 4518, 14630), (4101, 7494, 4509, 14600),
   (4102, 7495, 4500, 14570), (4103, 7496, 4491, 14540), (4104, 7496, 4482, 14510),
   (4105, 7497, 4474, 14480), (4106, 7498, 4465, 14450), (4107, 7498, 4456, 14420),
   (4108, 7499, 4448, 14390), (4109, 7500, 4439, 14360), (4110, 7501, 4430, 14330),
   (4111, 7501, 4422, 14300), (4112, 7502, 4413, 14270), (4113, 7503, 4404, 14240),
   (4114, 7503, 4396, 14210), (4115, 7504, 4387, 14180), (4116, 7505, 4379, 14160),
   (4117, 7505, 4370, 14130), (4118, 7506, 4362, 14100), (4119, 7507, 4353, 14070),
   (4120, 7507, 4345, 14040), (4121, 7508, 4336, 14010), (4122, 7509, 4328, 13980),
   (4123, 7509, 4319, 13960), (4124, 7510, 4311, 13930), (4125, 7511, 4303, 13900),
   (4126, 7511, 4294, 13870), (4127, 7512, 4286, 13840), (4128, 7513, 4277, 13810),
   (4129, 7514, 4269, 13790), (4130, 7514, 4261, 13760), (4131, 7515, 4252, 13730),
   (4132, 7516, 4244, 13700), (4133, 7516, 4236, 13670), (4134, 7517, 4228, 13650),
   (4135, 7518, 4219, 13620), (4136, 7518, 4211, 13590), (4137, 7519, 4203, 13560),
   (4138, 7520, 4195, 13530), (4139, 7520, 4187, 13510), (4140, 7521, 4179, 13480),
   (4141, 7522, 4170, 13450), (4142, 7522, 4162, 13420), (4143, 7523, 4154, 13400),
   (4144, 7524, 4146, 13370), (4145, 7524, 4138, 13340), (4146, 7525, 4130, 13320),
   (4147, 7526, 4122, 13290), (4148, 7527, 4114, 13260), (4149, 7527, 4106, 13230),
   (4150, 7528, 4098, 13210), (4151, 7529, 4090, 13180), (4152, 7529, 4082, 13150),
   (4153, 7530, 4074, 13130), (4154, 7531, 4066, 13100), (4155, 7531, 4058, 13070),
   (4156, 7532, 4050, 13050), (4157, 7533, 4042, 13020), (4158, 7533, 4034, 12990),
   (4159, 7534, 4027, 12970), (4160, 7535, 4019, 12940), (4161, 7535, 4011, 12910),
   (4162, 7536, 4003, 12890), (4163, 7537, 3995, 12860), (4164, 7537, 3987, 12840),
   (4165, 7538, 3980, 12810), (4166, 7539, 3972, 12780), (4167, 7540, 3964, 12760),
   (4168, 7540, 3956, 12730), (4169, 7541, 3949, 12700), (4170, 7542, 3941, 12680),
   (4171, 7542, 3933, 12650), (4172, 7543, 3926, 12630), (4173, 7544, 3918, 12600),
   (4174, 7544, 3910, 12580), (4175, 7545, 3903, 12550), (4176, 7546, 3895, 12520),
   (4177, 7546, 3888, 12500), (4178, 7547, 3880, 12470), (4179, 7548, 3872, 12450),
   (4180, 7548, 3865, 12420), (4181, 7549, 3857, 12400), (4182, 7550, 3850, 12370),
   (4183, 7550, 3842, 12350), (4184, 7551, 3835, 12320), (4185, 7552, 3827, 12300),
   (4186, 7553, 3820, 12270), (4187, 7553, 3813, 12250), (4188, 7554, 3805, 12220),
   (4189, 7555, 3798, 12200), (4190, 7555, 3790, 12170), (4191, 7556, 3783, 12150),
   (4192, 7557, 3776, 12120), (4193, 7557, 3768, 12100), (4194, 7558, 3761, 12070),
   (4195, 7559, 3754, 12050), (4196, 7559, 3746, 12020), (4197, 7560, 3739, 12000),
   (4198, 7561, 3732, 11970), (4199, 7561, 3724, 11950)]

/-- atmdata/Uranus/uranus-gram-avg.dat:2-5202, part 22. -/
def uranusGramPart22 : List (ℤ × ℤ × ℤ × ℤ) :=
  [(4200, 7562, 3717, 11930), (4201, 7563, 3711, 11900), (4202, 7563, 3704, 11880),
   (4203, 7564, 3698, 11860), (4204, 7564, 3692, 11840), (4205, 7565, 3685, 11820),
   (4206, 7566, 3679, 11800), (4207, 7566, 3673, 11780), (4208, 7567, 3666, 11760),
   (4209, 7568, 3660, 11740), (4210, 7568, 3654, 11710), (4211, 7569, 3648, 11690),
   (4212, 7569, 3641, 11670), (4213, 7570, 3635, 11650), (4214, 7570, 3629, 11630),
   (4215, 7571, 3623, 11610), (4216, 7572, 3617, 11590), (4217, 7572, 3610, 11570),
   (4218, 7573, 3604, 11550), (4219, 7574, 3598, 11530), (4220, 7574, 3592, 11510),
   (4221, 7575, 3586, 11490), (4222, 7575, 3580, 11460), (4223, 7576, 3573, 11440),
   (4224, 7576, 3567, 11420), (4225, 7577, 3561, 11400), (4226, 7578, 3555, 11380),
   (4227, 7578, 3549, 11360), (4228, 7579, 3543, 11340), (4229, 7579, 3537, 11320),
   (4230, 7580, 3531, 11300), (4231, 7581, 3525, 11280), (4232, 7581, 3519, 11260),
   (4233, 7582, 3513, 11240), (4234, 7582, 3507, 11220), (4235, 7583, 3501, 11200),
   (4236, 7584, 3495, 11180), (4237, 7584, 3489, 11160), (4238, 7585, 3483, 11140),
   (4239, 7585, 3477, 11120), (4240, 7586, 3471, 11100), (4241, 7587, 3465, 11080),
   (4242, 7587, 3459, 11060), (4243, 7588, 3453, 11040), (4244, 7589, 3447, 11020),
   (4245, 7589, 3441, 11000), (4246, 7590, 3435, 10980), (4247, 7590, 3430, 10960),
   (4248, 7591, 3424, 10940), (4249, 7592, 3418, 10920), (4250, 7592, 3412, 10900),
   (4251, 7593, 3406, 10880), (4252, 7593, 3400, 10860), (4253, 7594, 3394, 10850),
   (4254, 7595, 3389, 10830), (4255, 7595, 3383, 10810), (4256, 7596, 3377, 10790),
   (4257, 7596, 3371, 10770), (4258, 7597, 3365, 10750), (4259, 7598, 3360, 10730),
   (4260, 7598, 3354, 10710), (4261, 7599, 3348, 10690), (4262, 7599, 3342, 10670),
   (4263, 7600, 3337, 10650), (4264, 7600, 3331, 10630), (4265, 7601, 3325, 10610),
   (4266, 7602, 3320, 10600), (4267, 7602, 3314, 10580), (4268, 7603, 3308, 10560),
   (4269, 7604, 3303, 10540), (4270, 7604, 3297, 10520), (4271, 7605, 3291, 10500),
   (4272, 7605, 3286, 10480), (4273, 7606, 3280, 10460), (4274, 7606, 3274, 10440),
   (4275, 7607, 3269, 10430), (4276, 7608, 3263, 10410), (4277, 7608, 3258, 10390),
   (4278, 7609, 3252, 10370), (4279, 7610, 3247, 10350), (4280, 7610, 3241, 10330),
   (4281, 7611, 3235, 10310), (4282, 7611, 3230, 10300), (4283, 7612, 3224, 10280),
   (4284, 7612, 3219, 10260), (4285, 7613, 3213, 10240), (4286, 7614, 3208, 10220),
   (4287, 7614, 3202, 10200), (4288, 7615, 3197, 10190), (4289, 7615, 3191, 10170),
   (4290, 7616, 3186, 10150), (4291, 7617, 3180, 10130), (4292, 7617, 3175, 10110),
   (4293, 7618, 3170, 10100), (4294, 7619, 3164, 10080), (4295, 7619, 3159, 10060),
   (4296, 7620, 3153, 10040), (4297, 7620, 3148, 10020), (4298, 7621, 3143, 10000),
   (4299, 7621, 3137, 9987), (4300, 7622, 3132, 9969), (4301, 7623, 3126, 9951),
   (4302, 7623, 3121, 9933), (4303, 7624, 3115, 9914), (4304, 7624, 3110, 9896),
   (4305, 7625, 3104, 9878), (4306, 7626, 3099, 9860), (4307, 7626, 3093, 9841),
   (4308, 7627, 3088, 9823), (4309, 7627, 3082, 9805), (4310, 7628, 3077, 9787),
   (4311, 7628, 3072, 9769), (4312, 7629, 3066, 9751), (4313, 7630, 3061, 9733),
   (4314, 7630, 3055, 9715), (4315, 7631, 3050, 9698), (4316, 7631, 3045, 9680),
   (4317, 7632, 3039, 9662), (4318, 7633, 3034, 9644), (4319, 7633, 3028, 9626),
   (4320, 7634, 3023, 9609), (4321, 7634, 3018, 9591), (4322, 7635, 3012, 9573),
   (4323, 7635, 3007, 9556), (4324, 7636, 3002, 9538), (4325, 7637, 2997, 9521),
   (4326, 7637, 2991, 9503), (4327, 7638, 2986, 9486), (4328, 7638, 2981, 9468),
   (4329, 7639, 2975, 9451), (4330, 7640, 2970, 9433), (4331, 7640, 2965, 9416),
   (4332, 7641, 2960, 9399), (4333, 7641, 2954, 9381), (4334, 7642, 2949, 9364),
   (4335, 7642, 2944, 9347), (4336, 7643, 2939, 9330), (4337, 7644, 2934, 9312),
   (4338, 7644, 2929, 9295), (4339, 7645, 2923, 9278), (4340, 7645, 2918, 9261),
   (4341, 7646, 2913, 9244), (4342, 7646, 2908, 9227), (4343, 7647, 2903, 9210),
   (4344, 7648, 2898, 9193), (4345, 7648, 2893, 9176), (4346, 7649, 2887, 9159),
   (4347, 7649, 2882, 9142), (4348, 7650, 2877, 9126), (4349, 7651, 2872, 9109),
   (4350, 7651, 2867, 9092), (4351, 7652, 2862, 9075), (4352, 7652, 2857, 9059),
   (4353, 7653, 2852, 9042), (4354, 7653, 2847, 9025), (4355, 7654, 2842, 9009),
   (4356, 7655, 2837, 8992), (4357, 7655, 2832, 8976), (4358, 7656, 2827, 8959),
   (4359, 7656, 2822, 8943), (4360, 7657, 2817, 8926), (4361, 7657, 2812, 8910),
   (4362, 7658, 2807, 8893), (4363, 7659, 2802, 8877), (4364, 7659, 2797, 8861),
   (4365, 7660, 2792, 8844), (4366, 7660, 2787, 8828), (4367, 7661, 2782, 8812),
   (4368, 7662, 2777, 8796), (4369, 7662, 2773, 8779), (4370, 7663, 2768, 8763),
   (4371, 7663, 2763, 8747), (4372, 7664, 2758, 8731), (4373, 7664, 2753, 8715),
   (4374, 7665, 2748, 8699), (4375, 7666, 2743, 8683), (4376, 7666, 2738, 8667),
   (4377, 7667, 2734, 8651), (4378, 7667, 2729, 8635), (4379, 7668, 2724, 8619),
   (4380, 7669, 2719, 8603), (4381, 7669, 2714, 8587), (4382, 7670, 2710, 8572),
   (4383, 7670, 2705, 8556), (4384, 7671, 2700, 8540), (4385, 7671, 2695, 8524),
   (4386, 7672, 2691, 8509), (4387, 7673, 2686, 8493), (4388, 7673, 2681, 8477),
   (4389, 7674, 2676, 8462), (4390, 7674, 2672, 8446), (4391, 7675, 2667, 8431),
   (4392, 7675, 2662, 8415), (4393, 7676, 2657, 8400), (4394, 7677, 2653, 8384),
   (4395, 7677, 2648, 8369), (4396, 7678, 2643, 8354), (4397, 7678, 2639, 8338),
   (4398, 7679, 2634, 8323), (4399, 7680, 2629, 8307)]

/-- atmdata/Uranus/uranus-gram-avg.dat:2-5202, part 23. -/
def uranusGramPart23 : List (ℤ × ℤ × ℤ × ℤ) :=
  [(4400, 7680, 2625, 8292), (4401, 7681, 2618, 8268), (4402, 7682, 2610, 8245),
   (4403, 7682, 2603, 8221), (4404, 7683, 2596, 8198), (4405, 7684, 2589, 8174),
   (4406, 7685, 2582, 8151), (4407, 7685, 2574, 8127), (4408, 7686, 2567, 8104),
   (4409, 7687, 2560, 8081), (4410, 7688, 2553, 8058), (4411, 7689, 2546, 8035),
   (4412, 7689, 2539, 8012), (4413, 7690, 2532, 7989), (4414, 7691, 2525, 7966),
   (4415, 7692, 2518, 7943), (4416, 7692, 2511, 7920), (4417, 7693, 2504, 7898),
   (4418, 7694, 2497, 7875), (4419, 7695, 2490, 7853), (4420, 7695, 2483, 7830),
   (4421, 7696, 2477, 7808), (4422, 7697, 2470, 7785), (4423, 7698, 2463, 7763),
   (4424, 7699, 2456, 7741), (4425, 7699, 2449, 7719), (4426, 7700, 2443, 7696),
   (4427, 7701, 2436, 7674), (4428, 7702, 2429, 7652), (4429, 7702, 2422, 7631),
   (4430, 7703, 2416, 7609), (4431, 7704, 2409, 7587), (4432, 7705, 2402, 7565),
   (4433, 7705, 2396, 7544), (4434, 7706, 2389, 7522), (4435, 7707, 2382, 7500),
   (4436, 7708, 2376, 7479), (4437, 7708, 2369, 7458), (4438, 7709, 2363, 7436),
   (4439, 7710, 2356, 7415), (4440, 7711, 2350, 7394), (4441, 7712, 2343, 7372),
   (4442, 7712, 2337, 7351), (4443, 7713, 2330, 7330), (4444, 7714, 2324, 7309),
   (4445, 7715, 2317, 7288), (4446, 7715, 2311, 7268), (4447, 7716, 2305, 7247),
   (4448, 7717, 2298, 7226), (4449, 7718, 2292, 7205), (4450, 7718, 2286, 7185),
   (4451, 7719, 2279, 7164), (4452, 7720, 2273, 7144), (4453, 7721, 2267, 7123),
   (4454, 7722, 2260, 7103), (4455, 7722, 2254, 7082), (4456, 7723, 2248, 7062),
   (4457, 7724, 2242, 7042), (4458, 7725, 2236, 7022), (4459, 7725, 2229, 7002),
   (4460, 7726, 2223, 6982), (4461, 7727, 2217, 6962), (4462, 7728, 2211, 6942),
   (4463, 7728, 2205, 6922), (4464, 7729, 2199, 6902), (4465, 7730, 2193, 6882),
   (4466, 7731, 2187, 6863), (4467, 7731, 2181, 6843), (4468, 7732, 2175, 6823),
   (4469, 7733, 2168, 6804), (4470, 7734, 2163, 6784), (4471, 7735, 2157, 6765),
   (4472, 7735, 2151, 6745), (4473, 7736, 2145, 6726), (4474, 7737, 2139, 6707),
   (4475, 7738, 2133, 6688), (4476, 7738, 2127, 6669), (4477, 7739, 2121, 6649),
   (4478, 7740, 2115, 6630), (4479, 7741, 2109, 6611), (4480, 7741, 2103, 6593),
   (4481, 7742, 2098, 6574), (4482, 7743, 2092, 6555), (4483, 7744, 2086, 6536),
   (4484, 7745, 2080, 6517), (4485, 7745, 2075, 6499), (4486, 7746, 2069, 6480),
   (4487, 7747, 2063, 6462), (4488, 7748, 2057, 6443), (4489, 7748, 2052, 6425),
   (4490, 7749, 2046, 6406), (4491, 7750, 2040, 6388), (4492, 7751, 2035, 6370),
   (4493, 7751, 2029, 6351), (4494, 7752, 2024, 6333), (4495, 7753, 2018, 6315),
   (4496, 7754, 2012, 6297), (4497, 7754, 2007, 6279), (4498, 7755, 2001, 6261),
   (4499, 7756, 1996, 6243), (4500, 7757, 1990, 6225), (4501, 7758, 1985, 6210),
   (4502, 7758, 1981, 6194), (4503, 7759, 1976, 6179), (4504, 7760, 1971, 6164),
   (4505, 7760, 1967, 6149), (4506, 7761, 1962, 6134), (4507, 7762, 1957, 6118),
   (4508, 7763, 1953, 6103), (4509, 7763, 1948, 6088), (4510, 7764, 1943, 6073),
   (4511, 7765, 1939, 6058), (4512, 7766, 1934, 6043), (4513, 7766, 1930, 6028),
   (4514, 7767, 1925, 6013), (4515, 7768, 1920, 5999), (4516, 7768, 1916, 5984),
   (4517, 7769, 1911, 5969), (4518, 7770, 1907, 5954), (4519, 7771, 1902, 5940),
   (4520, 7771, 1898, 5925), (4521, 7772, 1893, 5910), (4522, 7773, 1889, 5896),
   (4523, 7774, 1884, 5881), (4524, 7774, 1880, 5867), (4525, 7775, 1875, 5852),
   (4526, 7776, 1871, 5838), (4527, 7776, 1866, 5823), (4528, 7777, 1862, 5809),
   (4529, 7778, 1858, 5794), (4530, 7779, 1853, 5780), (4531, 7779, 1849, 5766),
   (4532, 7780, 1844, 5752), (4533, 7781, 1840, 5737), (4534, 7782, 1836, 5723),
   (4535, 7782, 1831, 5709), (4536, 7783, 1827, 5695), (4537, 7784, 1823, 5681),
   (4538, 7785, 1818, 5667), (4539, 7785, 1814, 5653), (4540, 7786, 1810, 5639),
   (4541, 7787, 1805, 5625), (4542, 7787, 1801, 5611), (4543, 7788, 1797, 5597),
   (4544, 7789, 1792, 5584), (4545, 7790, 1788, 5570), (4546, 7790, 1784, 5556),
   (4547, 7791, 1780, 5542), (4548, 7792, 1775, 5529), (4549, 7793, 1771, 5515),
   (4550, 7793, 1767, 5501), (4551, 7794, 1763, 5488), (4552, 7795, 1759, 5474),
   (4553, 7795, 1754, 5461), (4554, 7796, 1750, 5447), (4555, 7797, 1746, 5434),
   (4556, 7798, 1742, 5420), (4557, 7798, 1738, 5407), (4558, 7799, 1734, 5394),
   (4559, 7800, 1730, 5380), (4560, 7801, 1726, 5367), (4561, 7801, 1721, 5354),
   (4562, 7802, 1717, 5341), (4563, 7803, 1713, 5327), (4564, 7803, 1709, 5314),
   (4565, 7804, 1705, 5301), (4566, 7805, 1701, 5288), (4567, 7806, 1697, 5275),
   (4568, 7806, 1693, 5262), (4569, 7807, 1689, 5249), (4570, 7808, 1685, 5236),
   (4571, 7809, 1681, 5223), (4572, 7809, 1677, 5210), (4573, 7810, 1673, 5197),
   (4574, 7811, 1669, 5184), (4575, 7811, 1665, 5172), (4576, 7812, 1661, 5159),
   (4577, 7813, 1657, 5146), (4578, 7814, 1653, 5133), (4579, 7814, 1649, 5121),
   (4580, 7815, 1645, 5108), (4581, 7816, 1641, 5095), (4582, 7817, 1638, 5083),
   (4583, 7817, 1634, 5070), (4584, 7818, 1630, 5058), (4585, 7819, 1626, 5045),
   (4586, 7819, 1622, 5033), (4587, 7820, 1618, 5020), (4588, 7821, 1614, 5008),
   (4589, 7822, 1610, 4996), (4590, 7822, 1607, 4983), (4591, 7823, 1603, 4971),
   (4592, 7824, 1599, 4959), (4593, 7825, 1595, 4947), (4594, 7825, 1591, 4934),
   (4595, 7826, 1588, 4922), (4596, 7827, 1584, 4910), (4597, 7828, 1580, 4898),
   (4598, 7828, 1576, 4886), (4599, 7829, 1573, 4874)]

/-- atmdata/Uranus/uranus-gram-avg.dat:2-5202, part 24. -/
def uranusGramPart24 : List (ℤ × ℤ × ℤ × ℤ) :=
  [(4600, 7830, 1569, 4862), (4601, 7830, 1566, 4854), (4602, 7831, 1564, 4846),
   (4603, 7831, 1562, 4838), (4604, 7832, 1559, 4830), (4605, 7833, 1557, 4822),
   (4606, 7833, 1554, 4814), (4607, 7834, 1552, 4806), (4608, 7834, 1549, 4798),
   (4609, 7835, 1547, 4790), (4610, 7836, 1544, 4782), (4611, 7836, 1542, 4774),
   (4612, 7837, 1540, 4767), (4613, 7837, 1537, 4759), (4614, 7838, 1535, 4751),
   (4615, 7839, 1532, 4743), (4616, 7839, 1530, 4735), (4617, 7840, 1528, 4728),
   (4618, 7840, 1525, 4720), (4619, 7841, 1523, 4712), (4620, 7842, 1520, 4704),
   (4621, 7842, 1518, 4697), (4622, 7843, 1516, 4689), (4623, 7843, 1513, 4681),
   (4624, 7844, 1511, 4673), (4625, 7845, 1509, 4666), (4626, 7845, 1506, 4658),
   (4627, 7846, 1504, 4650), (4628, 7846, 1501, 4643), (4629, 7847, 1499, 4635),
   (4630, 7847, 1497, 4627), (4631, 7848, 1494, 4620), (4632, 7849, 1492, 4612),
   (4633, 7849, 1490, 4605), (4634, 7850, 1487, 4597), (4635, 7850, 1485, 4590),
   (4636, 7851, 1483, 4582), (4637, 7852, 1480, 4574), (4638, 7852, 1478, 4567),
   (4639, 7853, 1476, 4559), (4640, 7853, 1473, 4552), (4641, 7854, 1471, 4544),
   (4642, 7855, 1469, 4537), (4643, 7855, 1466, 4529), (4644, 7856, 1464, 4522),
   (4645, 7856, 1462, 4515), (4646, 7857, 1460, 4507), (4647, 7858, 1457, 4500),
   (4648, 7858, 1455, 4492), (4649, 7859, 1453, 4485), (4650, 7859, 1450, 4478),
   (4651, 7860, 1448, 4470), (4652, 7861, 1446, 4463), (4653, 7861, 1444, 4456),
   (4654, 7862, 1441, 4448), (4655, 7862, 1439, 4441), (4656, 7863, 1437, 4434),
   (4657, 7864, 1435, 4426), (4658, 7864, 1432, 4419), (4659, 7865, 1430, 4412),
   (4660, 7865, 1428, 4405), (4661, 7866, 1426, 4397), (4662, 7866, 1423, 4390),
   (4663, 7867, 1421, 4383), (4664, 7868, 1419, 4376), (4665, 7868, 1417, 4368),
   (4666, 7869, 1414, 4361), (4667, 7869, 1412, 4354), (4668, 7870, 1410, 4347),
   (4669, 7871, 1408, 4340), (4670, 7871, 1406, 4333), (4671, 7872, 1403, 4325),
   (4672, 7872, 1401, 4318), (4673, 7873, 1399, 4311), (4674, 7874, 1397, 4304),
   (4675, 7874, 1395, 4297), (4676, 7875, 1392, 4290), (4677, 7875, 1390, 4283),
   (4678, 7876, 1388, 4276), (4679, 7877, 1386, 4269), (4680, 7877, 1384, 4262),
   (4681, 7878, 1382, 4255), (4682, 7878, 1379, 4248), (4683, 7879, 1377, 4241),
   (4684, 7880, 1375, 4234), (4685, 7880, 1373, 4227), (4686, 7881, 1371, 4220),
   (4687, 7881, 1369, 4213), (4688, 7882, 1366, 4206), (4689, 7882, 1364, 4199),
   (4690, 7883, 1362, 4192), (4691, 7884, 1360, 4185), (4692, 7884, 1358, 4179),
   (4693, 7885, 1356, 4172), (4694, 7885, 1354, 4165), (4695, 7886, 1351, 4158),
   (4696, 7887, 1349, 4151), (4697, 7887, 1347, 4144), (4698, 7888, 1345, 4137),
   (4699, 7888, 1343, 4131), (4700, 7889, 1341, 4124), (4701, 7890, 1338, 4114),
   (4702, 7891, 1334, 4103), (4703, 7892, 1331, 4093), (4704, 7893, 1328, 4082),
   (4705, 7894, 1325, 4072), (4706, 7894, 1322, 4062), (4707, 7895, 1318, 4052),
   (4708, 7896, 1315, 4041), (4709, 7897, 1312, 4031), (4710, 7898, 1309, 4021),
   (4711, 7899, 1306, 4011), (4712, 7900, 1303, 4001), (4713, 7901, 1300, 3991),
   (4714, 7902, 1296, 3981), (4715, 7903, 1293, 3971), (4716, 7904, 1290, 3961),
   (4717, 7904, 1287, 3951), (4718, 7905, 1284, 3941), (4719, 7906, 1281, 3931),
   (4720, 7907, 1278, 3921), (4721, 7908, 1275, 3911), (4722, 7909, 1272, 3901),
   (4723, 7910, 1269, 3891), (4724, 7911, 1266, 3882), (4725, 7912, 1263, 3872),
   (4726, 7913, 1260, 3862), (4727, 7914, 1256, 3852), (4728, 7915, 1253, 3843),
   (4729, 7915, 1250, 3833), (4730, 7916, 1247, 3823), (4731, 7917, 1244, 3814),
   (4732, 7918, 1241, 3804), (4733, 7919, 1238, 3794), (4734, 7920, 1235, 3785),
   (4735, 7921, 1233, 3775), (4736, 7922, 1230, 3766), (4737, 7923, 1227, 3756),
   (4738, 7924, 1224, 3747), (4739, 7925, 1221, 3737), (4740, 7925, 1218, 3728),
   (4741, 7926, 1215, 3719), (4742, 7927, 1212, 3709), (4743, 7928, 1209, 3700),
   (4744, 7929, 1206, 3691), (4745, 7930, 1203, 3681), (4746, 7931, 1200, 3672),
   (4747, 7932, 1197, 3663), (4748, 7933, 1195, 3653), (4749, 7934, 1192, 3644),
   (4750, 7935, 1189, 3635), (4751, 7935, 1186, 3626), (4752, 7936, 1183, 3617),
   (4753, 7937, 1180, 3608), (4754, 7938, 1177, 3599), (4755, 7939, 1175, 3590),
   (4756, 7940, 1172, 3580), (4757, 7941, 1169, 3571), (4758, 7942, 1166, 3562),
   (4759, 7943, 1163, 3553), (4760, 7944, 1160, 3545), (4761, 7945, 1158, 3536),
   (4762, 7945, 1155, 3527), (4763, 7946, 1152, 3518), (4764, 7947, 1149, 3509),
   (4765, 7948, 1147, 3500), (4766, 7949, 1144, 3491), (4767, 7950, 1141, 3482),
   (4768, 7951, 1138, 3474), (4769, 7952, 1136, 3465), (4770, 7953, 1133, 3456),
   (4771, 7954, 1130, 3447), (4772, 7955, 1127, 3439), (4773, 7956, 1125, 3430),
   (4774, 7956, 1122, 3422), (4775, 7957, 1119, 3413), (4776, 7958, 1117, 3404),
   (4777, 7959, 1114, 3396), (4778, 7960, 1111, 3387), (4779, 7961, 1109, 3379),
   (4780, 7962, 1106, 3370), (4781, 7963, 1103, 3362), (4782, 7964, 1101, 3353),
   (4783, 7965, 1098, 3345), (4784, 7966, 1095, 3336), (4785, 7966, 1093, 3328),
   (4786, 7967, 1090, 3319), (4787, 7968, 1087, 3311), (4788, 7969, 1085, 3303),
   (4789, 7970, 1082, 3294), (4790, 7971, 1080, 3286), (4791, 7972, 1077, 3278),
   (4792, 7973, 1074, 3270), (4793, 7974, 1072, 3261), (4794, 7975, 1069, 3253),
   (4795, 7976, 1067, 3245), (4796, 7976, 1064, 3237), (4797, 7977, 1062, 3229),
   (4798, 7978, 1059, 3221), (4799, 7979, 1056, 3212)]

/-- atmdata/Uranus/uranus-gram-avg.dat:2-5202, part 25. -/
def uranusGramPart25 : List (ℤ × ℤ × ℤ × ℤ) :=
  [(4800, 7980, 1054, 3204), (4801, 7980, 1054, 3204), (4802, 7980, 1054, 3203),
   (4803, 7980, 1053, 3202), (4804, 7980, 1053, 3202), (4805, 7980, 1053, 3201),
   (4806, 7981, 1053, 3201), (4807, 7981, 1053, 3200), (4808, 7981, 1052, 3199),
   (4809, 7981, 1052, 3199), (4810, 7981, 1052, 3198), (4811, 7981, 1052, 3197),
   (4812, 7981, 1052, 3197), (4813, 7981, 1051, 3196), (4814, 7981, 1051, 3196),
   (4815, 7981, 1051, 3195), (4816, 7981, 1051, 3194), (4817, 7981, 1051, 3194),
   (4818, 7981, 1050, 3193), (4819, 7981, 1050, 3192), (4820, 7982, 1050, 3192),
   (4821, 7982, 1050, 3191), (4822, 7982, 1050, 3191), (4823, 7982, 1049, 3190),
   (4824, 7982, 1049, 3189), (4825, 7982, 1049, 3189), (4826, 7982, 1049, 3188),
   (4827, 7982, 1049, 3187), (4828, 7982, 1048, 3187), (4829, 7982, 1048, 3186),
   (4830, 7982, 1048, 3186), (4831, 7982, 1048, 3185), (4832, 7982, 1048, 3184),
   (4833, 7982, 1047, 3184), (4834, 7983, 1047, 3183), (4835, 7983, 1047, 3182),
   (4836, 7983, 1047, 3182), (4837, 7983, 1047, 3181), (4838, 7983, 1046, 3181),
   (4839, 7983, 1046, 3180), (4840, 7983, 1046, 3179), (4841, 7983, 1046, 3179),
   (4842, 7983, 1046, 3178), (4843, 7983, 1045, 3177), (4844, 7983, 1045, 3177),
   (4845, 7983, 1045, 3176), (4846, 7983, 1045, 3176), (4847, 7983, 1045, 3175),
   (4848, 7984, 1044, 3174), (4849, 7984, 1044, 3174), (4850, 7984, 1044, 3173),
   (4851, 7984, 1044, 3172), (4852, 7984, 1044, 3172), (4853, 7984, 1044, 3171),
   (4854, 7984, 1043, 3171), (4855, 7984, 1043, 3170), (4856, 7984, 1043, 3169),
   (4857, 7984, 1043, 3169), (4858, 7984, 1043, 3168), (4859, 7984, 1042, 3168),
   (4860, 7984, 1042, 3167), (4861, 7984, 1042, 3166), (4862, 7985, 1042, 3166),
   (4863, 7985, 1042, 3165), (4864, 7985, 1041, 3164), (4865, 7985, 1041, 3164),
   (4866, 7985, 1041, 3163), (4867, 7985, 1041, 3163), (4868, 7985, 1041, 3162),
   (4869, 7985, 1040, 3161), (4870, 7985, 1040, 3161), (4871, 7985, 1040, 3160),
   (4872, 7985, 1040, 3159), (4873, 7985, 1040, 3159), (4874, 7985, 1039, 3158),
   (4875, 7985, 1039, 3158), (4876, 7985, 1039, 3157), (4877, 7986, 1039, 3156),
   (4878, 7986, 1039, 3156), (4879, 7986, 1038, 3155), (4880, 7986, 1038, 3155),
   (4881, 7986, 1038, 3154), (4882, 7986, 1038, 3153), (4883, 7986, 1038, 3153),
   (4884, 7986, 1037, 3152), (4885, 7986, 1037, 3151), (4886, 7986, 1037, 3151),
   (4887, 7986, 1037, 3150), (4888, 7986, 1037, 3150), (4889, 7986, 1037, 3149),
   (4890, 7986, 1036, 3148), (4891, 7987, 1036, 3148), (4892, 7987, 1036, 3147),
   (4893, 7987, 1036, 3147), (4894, 7987, 1036, 3146), (4895, 7987, 1035, 3145),
   (4896, 7987, 1035, 3145), (4897, 7987, 1035, 3144), (4898, 7987, 1035, 3143),
   (4899, 7987, 1035, 3143), (4900, 7987, 1034, 3142), (4901, 7987, 1034, 3142),
   (4902, 7987, 1034, 3141), (4903, 7987, 1034, 3141), (4904, 7987, 1034, 3140),
   (4905, 7988, 1034, 3139), (4906, 7988, 1033, 3139), (4907, 7988, 1033, 3138),
   (4908, 7988, 1033, 3138), (4909, 7988, 1033, 3137), (4910, 7988, 1033, 3137),
   (4911, 7988, 1033, 3136), (4912, 7988, 1032, 3136), (4913, 7988, 1032, 3135),
   (4914, 7988, 1032, 3135), (4915, 7988, 1032, 3134), (4916, 7988, 1032, 3133),
   (4917, 7988, 1031, 3133), (4918, 7988, 1031, 3132), (4919, 7988, 1031, 3132),
   (4920, 7988, 1031, 3131), (4921, 7989, 1031, 3131), (4922, 7989, 1031, 3130),
   (4923, 7989, 1030, 3130), (4924, 7989, 1030, 3129), (4925, 7989, 1030, 3129),
   (4926, 7989, 1030, 3128), (4927, 7989, 1030, 3128), (4928, 7989, 1030, 3127),
   (4929, 7989, 1029, 3126), (4930, 7989, 1029, 3126), (4931, 7989, 1029, 3125),
   (4932, 7989, 1029, 3125), (4933, 7989, 1029, 3124), (4934, 7989, 1029, 3124),
   (4935, 7989, 1028, 3123), (4936, 7989, 1028, 3123), (4937, 7990, 1028, 3122),
   (4938, 7990, 1028, 3122), (4939, 7990, 1028, 3121), (4940, 7990, 1028, 3120),
   (4941, 7990, 1027, 3120), (4942, 7990, 1027, 3119), (4943, 7990, 1027, 3119),
   (4944, 7990, 1027, 3118), (4945, 7990, 1027, 3118), (4946, 7990, 1027, 3117),
   (4947, 7990, 1026, 3117), (4948, 7990, 1026, 3116), (4949, 7990, 1026, 3116),
   (4950, 7990, 1026, 3115), (4951, 7990, 1026, 3115), (4952, 7990, 1026, 3114),
   (4953, 7991, 1025, 3113), (4954, 7991, 1025, 3113), (4955, 7991, 1025, 3112),
   (4956, 7991, 1025, 3112), (4957, 7991, 1025, 3111), (4958, 7991, 1025, 3111),
   (4959, 7991, 1024, 3110), (4960, 7991, 1024, 3110), (4961, 7991, 1024, 3109),
   (4962, 7991, 1024, 3109), (4963, 7991, 1024, 3108), (4964, 7991, 1023, 3108),
   (4965, 7991, 1023, 3107), (4966, 7991, 1023, 3106), (4967, 7991, 1023, 3106),
   (4968, 7991, 1023, 3105), (4969, 7992, 1023, 3105), (4970, 7992, 1022, 3104),
   (4971, 7992, 1022, 3104), (4972, 7992, 1022, 3103), (4973, 7992, 1022, 3103),
   (4974, 7992, 1022, 3102), (4975, 7992, 1022, 3102), (4976, 7992, 1021, 3101),
   (4977, 7992, 1021, 3101), (4978, 7992, 1021, 3100), (4979, 7992, 1021, 3099),
   (4980, 7992, 1021, 3099), (4981, 7992, 1021, 3098), (4982, 7992, 1020, 3098),
   (4983, 7992, 1020, 3097), (4984, 7992, 1020, 3097), (4985, 7993, 1020, 3096),
   (4986, 7993, 1020, 3096), (4987, 7993, 1020, 3095), (4988, 7993, 1019, 3095),
   (4989, 7993, 1019, 3094), (4990, 7993, 1019, 3094), (4991, 7993, 1019, 3093),
   (4992, 7993, 1019, 3092), (4993, 7993, 1019, 3092), (4994, 7993, 1018, 3091),
   (4995, 7993, 1018, 3091), (4996, 7993, 1018, 3090), (4997, 7993, 1018, 3090),
   (4998, 7993, 1018, 3089), (4999, 7993, 1018, 3089)]

/-- atmdata/Uranus/uranus-gram-avg.dat:2-5202, part 26. -/
def uranusGramPart26 : List (ℤ × ℤ × ℤ × ℤ) :=
  [(5000, 7994, 1017, 3088)]

/-- atmdata/Uranus/uranus-gram-avg.dat:2-5202, columns 0, 1, 2, 3. -/
def uranusGram : AtmFile := ⟨0, 1, 9, 16, true,
    (uranusGramPart0 ++ uranusGramPart1 ++ uranusGramPart2 ++ uranusGramPart3 ++ uranusGramPart4
    ++ uranusGramPart5 ++ uranusGramPart6 ++ uranusGramPart7 ++ uranusGramPart8 ++ uranusGramPart9
    ++ uranusGramPart10 ++ uranusGramPart11 ++ uranusGramPart12 ++ uranusGramPart13 ++
    uranusGramPart14 ++ uranusGramPart15 ++ uranusGramPart16 ++ uranusGramPart17 ++
    uranusGramPart18 ++ uranusGramPart19 ++ uranusGramPart20 ++ uranusGramPart21 ++
    uranusGramPart22 ++ uranusGramPart23 ++ uranusGramPart24 ++ uranusGramPart25 ++
    uranusGramPart26)⟩

end AMAT.Data
