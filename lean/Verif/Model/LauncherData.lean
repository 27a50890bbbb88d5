import Mathlib.Data.Int.Notation

/-
The launch vehicle performance curves shipped with the source, `/repo/launcher-data/*.csv`: one row
`C3, mass` per line (km²/s², kg).  Every number is written as an integer multiple of `10⁻²²`, which
represents all digits of all files exactly.
-/

namespace AMAT.Data

/-- launcher-data/atlas-v401.csv:1-11. -/
def atlasV401 : List (ℤ × ℤ) :=
  [(2617194570135766000000, 30195602061469676000000000),
   (57517396528363630000000, 26767346651450860000000000),
   (112491141958739150000000, 23542729956332632000000000),
   (186333384461998580000000, 19462159269920771000000000),
   (241743794258250800000000, 16617053251775178000000000),
   (298482583020170150000000, 13952098763432590000000000),
   (350955850397525350000000, 11722615272513408000000000),
   (408135899992330700000000, 9466124286445938000000000),
   (465421011690204000000000, 7374027123462056000000000),
   (520499819223647650000000, 5622785428439283000000000),
   (594568601886647800000000, 3478551921874141000000000)]

/-- launcher-data/atlas-v551-w-star-48.csv:1-100. -/
def atlasV551WStar48 : List (ℤ × ℤ) :=
  [(10000000000000000000000, 54355360000000000000000000),
   (20000000000000000000000, 53499870000000000000000000),
   (30000000000000000000000, 52644370000000000000000000),
   (40000000000000000000000, 51793700000000000000000000),
   (50000000000000000000000, 51047890000000000000000000),
   (60000000000000000000000, 50302070000000000000000000),
   (70000000000000000000000, 49556260000000000000000000),
   (80000000000000000000000, 48810440000000000000000000),
   (90000000000000000000000, 48078770000000000000000000),
   (100000000000000000000000, 47351600000000000000000000),
   (110000000000000000000000, 46624430000000000000000000),
   (120000000000000000000000, 45897260000000000000000000),
   (130000000000000000000000, 45192690000000000000000000),
   (140000000000000000000000, 44527850000000000000000000),
   (150000000000000000000000, 43863010000000000000000000),
   (160000000000000000000000, 43198170000000000000000000),
   (170000000000000000000000, 42533330000000000000000000),
   (180000000000000000000000, 41868490000000000000000000),
   (190000000000000000000000, 41233280000000000000000000),
   (200000000000000000000000, 40602580000000000000000000),
   (210000000000000000000000, 39971870000000000000000000),
   (220000000000000000000000, 39341160000000000000000000),
   (230000000000000000000000, 38710450000000000000000000),
   (240000000000000000000000, 38079750000000000000000000),
   (250000000000000000000000, 37552220000000000000000000),
   (260000000000000000000000, 37065970000000000000000000),
   (270000000000000000000000, 36579710000000000000000000),
   (280000000000000000000000, 36093460000000000000000000),
   (290000000000000000000000, 35607210000000000000000000),
   (300000000000000000000000, 35067690000000000000000000),
   (310000000000000000000000, 34484500000000000000000000),
   (320000000000000000000000, 33901310000000000000000000),
   (330000000000000000000000, 33318110000000000000000000),
   (340000000000000000000000, 32734920000000000000000000),
   (350000000000000000000000, 32151730000000000000000000),
   (360000000000000000000000, 31589790000000000000000000),
   (370000000000000000000000, 31080980000000000000000000),
   (380000000000000000000000, 30572170000000000000000000),
   (390000000000000000000000, 30063370000000000000000000),
   (400000000000000000000000, 29554560000000000000000000),
   (410000000000000000000000, 29045760000000000000000000),
   (420000000000000000000000, 28597100000000000000000000),
   (430000000000000000000000, 28155060000000000000000000),
   (440000000000000000000000, 27713010000000000000000000),
   (450000000000000000000000, 27270960000000000000000000),
   (460000000000000000000000, 26828910000000000000000000),
   (470000000000000000000000, 26394850000000000000000000),
   (480000000000000000000000, 25963640000000000000000000),
   (490000000000000000000000, 25532440000000000000000000),
   (500000000000000000000000, 25101230000000000000000000),
   (510000000000000000000000, 24670030000000000000000000),
   (520000000000000000000000, 24238820000000000000000000),
   (530000000000000000000000, 23838050000000000000000000),
   (540000000000000000000000, 23440200000000000000000000),
   (550000000000000000000000, 23042360000000000000000000),
   (560000000000000000000000, 22644520000000000000000000),
   (570000000000000000000000, 22246670000000000000000000),
   (580000000000000000000000, 21868880000000000000000000),
   (590000000000000000000000, 21497880000000000000000000),
   (600000000000000000000000, 21126880000000000000000000),
   (610000000000000000000000, 20755870000000000000000000),
   (620000000000000000000000, 20384870000000000000000000),
   (630000000000000000000000, 20013860000000000000000000),
   (640000000000000000000000, 19702200000000000000000000),
   (650000000000000000000000, 19431210000000000000000000),
   (660000000000000000000000, 19160210000000000000000000),
   (670000000000000000000000, 18889220000000000000000000),
   (680000000000000000000000, 18618230000000000000000000),
   (690000000000000000000000, 18282070000000000000000000),
   (700000000000000000000000, 17890070000000000000000000),
   (710000000000000000000000, 17498060000000000000000000),
   (720000000000000000000000, 17106060000000000000000000),
   (730000000000000000000000, 16714050000000000000000000),
   (740000000000000000000000, 16322050000000000000000000),
   (750000000000000000000000, 16048740000000000000000000),
   (760000000000000000000000, 15822910000000000000000000),
   (770000000000000000000000, 15597080000000000000000000),
   (780000000000000000000000, 15371250000000000000000000),
   (790000000000000000000000, 15145420000000000000000000),
   (800000000000000000000000, 14900750000000000000000000),
   (810000000000000000000000, 14646350000000000000000000),
   (820000000000000000000000, 14391950000000000000000000),
   (830000000000000000000000, 14137550000000000000000000),
   (840000000000000000000000, 13883140000000000000000000),
   (850000000000000000000000, 13642670000000000000000000),
   (860000000000000000000000, 13438980000000000000000000),
   (870000000000000000000000, 13235290000000000000000000),
   (880000000000000000000000, 13031610000000000000000000),
   (890000000000000000000000, 12827920000000000000000000),
   (900000000000000000000000, 12624230000000000000000000),
   (910000000000000000000000, 12398820000000000000000000),
   (920000000000000000000000, 12162720000000000000000000),
   (930000000000000000000000, 11926630000000000000000000),
   (940000000000000000000000, 11690540000000000000000000),
   (950000000000000000000000, 11454440000000000000000000),
   (960000000000000000000000, 11257780000000000000000000),
   (970000000000000000000000, 11068910000000000000000000),
   (980000000000000000000000, 10880030000000000000000000),
   (990000000000000000000000, 10691160000000000000000000),
   (1000000000000000000000000, 10502280000000000000000000)]

/-- launcher-data/atlas-v551.csv:1-101. -/
def atlasV551 : List (ℤ × ℤ) :=
  [(0, 61145040000000000000000000), (10000000000000000000000, 59979190000000000000000000),
   (20000000000000000000000, 58813340000000000000000000),
   (30000000000000000000000, 57647490000000000000000000),
   (40000000000000000000000, 56520210000000000000000000),
   (50000000000000000000000, 55498360000000000000000000),
   (60000000000000000000000, 54476520000000000000000000),
   (70000000000000000000000, 53454680000000000000000000),
   (80000000000000000000000, 52432840000000000000000000),
   (90000000000000000000000, 51411000000000000000000000),
   (100000000000000000000000, 50510760000000000000000000),
   (110000000000000000000000, 49625680000000000000000000),
   (120000000000000000000000, 48740600000000000000000000),
   (130000000000000000000000, 47855520000000000000000000),
   (140000000000000000000000, 46970440000000000000000000),
   (150000000000000000000000, 46085360000000000000000000),
   (160000000000000000000000, 45200280000000000000000000),
   (170000000000000000000000, 44306070000000000000000000),
   (180000000000000000000000, 43406820000000000000000000),
   (190000000000000000000000, 42507570000000000000000000),
   (200000000000000000000000, 41608320000000000000000000),
   (210000000000000000000000, 40709070000000000000000000),
   (220000000000000000000000, 39809820000000000000000000),
   (230000000000000000000000, 38940540000000000000000000),
   (240000000000000000000000, 38149200000000000000000000),
   (250000000000000000000000, 37357860000000000000000000),
   (260000000000000000000000, 36566520000000000000000000),
   (270000000000000000000000, 35775180000000000000000000),
   (280000000000000000000000, 34983840000000000000000000),
   (290000000000000000000000, 34192500000000000000000000),
   (300000000000000000000000, 33476600000000000000000000),
   (310000000000000000000000, 32768050000000000000000000),
   (320000000000000000000000, 32059510000000000000000000),
   (330000000000000000000000, 31350970000000000000000000),
   (340000000000000000000000, 30642430000000000000000000),
   (350000000000000000000000, 29941890000000000000000000),
   (360000000000000000000000, 29319130000000000000000000),
   (370000000000000000000000, 28696370000000000000000000),
   (380000000000000000000000, 28073600000000000000000000),
   (390000000000000000000000, 27450840000000000000000000),
   (400000000000000000000000, 26828070000000000000000000),
   (410000000000000000000000, 26205310000000000000000000),
   (420000000000000000000000, 25582550000000000000000000),
   (430000000000000000000000, 25016760000000000000000000),
   (440000000000000000000000, 24471120000000000000000000),
   (450000000000000000000000, 23925480000000000000000000),
   (460000000000000000000000, 23379850000000000000000000),
   (470000000000000000000000, 22834210000000000000000000),
   (480000000000000000000000, 22288570000000000000000000),
   (490000000000000000000000, 21742940000000000000000000),
   (500000000000000000000000, 21251190000000000000000000),
   (510000000000000000000000, 20794820000000000000000000),
   (520000000000000000000000, 20338450000000000000000000),
   (530000000000000000000000, 19882080000000000000000000),
   (540000000000000000000000, 19425720000000000000000000),
   (550000000000000000000000, 18969350000000000000000000),
   (560000000000000000000000, 18512980000000000000000000),
   (570000000000000000000000, 18042100000000000000000000),
   (580000000000000000000000, 17560660000000000000000000),
   (590000000000000000000000, 17079210000000000000000000),
   (600000000000000000000000, 16597770000000000000000000),
   (610000000000000000000000, 16116320000000000000000000),
   (620000000000000000000000, 15634880000000000000000000),
   (630000000000000000000000, 15153440000000000000000000),
   (640000000000000000000000, 14713000000000000000000000),
   (650000000000000000000000, 14324040000000000000000000),
   (660000000000000000000000, 13935080000000000000000000),
   (670000000000000000000000, 13546110000000000000000000),
   (680000000000000000000000, 13157150000000000000000000),
   (690000000000000000000000, 12768180000000000000000000),
   (700000000000000000000000, 12379220000000000000000000),
   (710000000000000000000000, 11977060000000000000000000),
   (720000000000000000000000, 11574450000000000000000000),
   (730000000000000000000000, 11171840000000000000000000),
   (740000000000000000000000, 10769220000000000000000000),
   (750000000000000000000000, 10366610000000000000000000),
   (760000000000000000000000, 9964000000000000000000000),
   (770000000000000000000000, 9609200000000000000000000),
   (780000000000000000000000, 9273910000000000000000000),
   (790000000000000000000000, 8938620000000000000000000),
   (800000000000000000000000, 8603330000000000000000000),
   (810000000000000000000000, 8268030000000000000000000),
   (820000000000000000000000, 7932740000000000000000000),
   (830000000000000000000000, 7610040000000000000000000),
   (840000000000000000000000, 7297100000000000000000000),
   (850000000000000000000000, 6984160000000000000000000),
   (860000000000000000000000, 6671220000000000000000000),
   (870000000000000000000000, 6358280000000000000000000),
   (880000000000000000000000, 6045340000000000000000000),
   (890000000000000000000000, 5732400000000000000000000),
   (900000000000000000000000, 5350830000000000000000000),
   (910000000000000000000000, 4967640000000000000000000),
   (920000000000000000000000, 4584450000000000000000000),
   (930000000000000000000000, 4201260000000000000000000),
   (940000000000000000000000, 3818070000000000000000000),
   (950000000000000000000000, 3520110000000000000000000),
   (960000000000000000000000, 3279390000000000000000000),
   (970000000000000000000000, 3038670000000000000000000),
   (980000000000000000000000, 2797940000000000000000000),
   (990000000000000000000000, 2557220000000000000000000),
   (1000000000000000000000000, 2316500000000000000000000)]

/-- launcher-data/delta-IVH-w-star-48.csv:1-17. -/
def deltaIvhWStar48 : List (ℤ × ℤ) :=
  [(0, 104274924227317333100000000), (100000000000000000000000, 90009039767420981660000000),
   (200000000000000000000000, 77376093332706923320000000),
   (300000000000000000000000, 66266596694157342430000000),
   (400000000000000000000000, 56571061622754450580000000),
   (500000000000000000000000, 48179999889480450290000000),
   (600000000000000000000000, 40983923265317525870000000),
   (700000000000000000000000, 34873343521247898020000000),
   (800000000000000000000000, 29738772428253741960000000),
   (900000000000000000000000, 25470721757317296580000000),
   (1000000000000000000000000, 21959703279420718900000000),
   (1100000000000000000000000, 19096228765546220530000000),
   (1200000000000000000000000, 16770809986676049450000000),
   (1300000000000000000000000, 14873958713792344500000000),
   (1400000000000000000000000, 13296186717877335470000000),
   (1500000000000000000000000, 11928005769913197580000000),
   (1600000000000000000000000, 10659927640882178820000000)]

/-- launcher-data/delta-IVH.csv:1-10. -/
def deltaIvh : List (ℤ × ℤ) :=
  [(-92375501192368790000000, 120328419713831480000000000),
   (1786887917329096400000, 101370810810810800000000000),
   (134342043918918960000000, 79017297297297280000000000),
   (255166250397456270000000, 62861023847376780000000000),
   (374094731717011160000000, 49574689984101730000000000),
   (491930289420436500000000, 38546055788408703000000000),
   (607236629129129100000000, 29565151033386320000000000),
   (729791085055644000000000, 21397992277992270000000000),
   (848127090052237000000000, 14602916193504407000000000),
   (964559636611401200000000, 8755230524642266000000000)]

/-- launcher-data/falcon-heavy-expendable-w-star-48.csv:1-100. -/
def falconHeavyExpendableWStar48 : List (ℤ × ℤ) :=
  [(10000000000000000000000, 121872150000000000000000000),
   (20000000000000000000000, 120025370000000000000000000),
   (30000000000000000000000, 118178590000000000000000000),
   (40000000000000000000000, 116392690000000000000000000),
   (50000000000000000000000, 114611870000000000000000000),
   (60000000000000000000000, 112831050000000000000000000),
   (70000000000000000000000, 111073770000000000000000000),
   (80000000000000000000000, 109320780000000000000000000),
   (90000000000000000000000, 107567780000000000000000000),
   (100000000000000000000000, 105857590000000000000000000),
   (110000000000000000000000, 104234450000000000000000000),
   (120000000000000000000000, 102611300000000000000000000),
   (130000000000000000000000, 100988160000000000000000000),
   (140000000000000000000000, 99429880000000000000000000),
   (150000000000000000000000, 97886500000000000000000000),
   (160000000000000000000000, 96343120000000000000000000),
   (170000000000000000000000, 94799740000000000000000000),
   (180000000000000000000000, 93271560000000000000000000),
   (190000000000000000000000, 91743890000000000000000000),
   (200000000000000000000000, 90216220000000000000000000),
   (210000000000000000000000, 88721460000000000000000000),
   (220000000000000000000000, 87336380000000000000000000),
   (230000000000000000000000, 85951290000000000000000000),
   (240000000000000000000000, 84566210000000000000000000),
   (250000000000000000000000, 83168010000000000000000000),
   (260000000000000000000000, 81735160000000000000000000),
   (270000000000000000000000, 80302310000000000000000000),
   (280000000000000000000000, 78886710000000000000000000),
   (290000000000000000000000, 77650030000000000000000000),
   (300000000000000000000000, 76413350000000000000000000),
   (310000000000000000000000, 75176670000000000000000000),
   (320000000000000000000000, 73939990000000000000000000),
   (330000000000000000000000, 72693460000000000000000000),
   (340000000000000000000000, 71435950000000000000000000),
   (350000000000000000000000, 70178440000000000000000000),
   (360000000000000000000000, 68920930000000000000000000),
   (370000000000000000000000, 67713630000000000000000000),
   (380000000000000000000000, 66625350000000000000000000),
   (390000000000000000000000, 65537070000000000000000000),
   (400000000000000000000000, 64448790000000000000000000),
   (410000000000000000000000, 63360510000000000000000000),
   (420000000000000000000000, 62305940000000000000000000),
   (430000000000000000000000, 61267120000000000000000000),
   (440000000000000000000000, 60228310000000000000000000),
   (450000000000000000000000, 59189500000000000000000000),
   (460000000000000000000000, 58150680000000000000000000),
   (470000000000000000000000, 57179490000000000000000000),
   (480000000000000000000000, 56220580000000000000000000),
   (490000000000000000000000, 55261680000000000000000000),
   (500000000000000000000000, 54302770000000000000000000),
   (510000000000000000000000, 53343870000000000000000000),
   (520000000000000000000000, 52390870000000000000000000),
   (530000000000000000000000, 51476710000000000000000000),
   (540000000000000000000000, 50562560000000000000000000),
   (550000000000000000000000, 49648400000000000000000000),
   (560000000000000000000000, 48734250000000000000000000),
   (570000000000000000000000, 47820090000000000000000000),
   (580000000000000000000000, 46975120000000000000000000),
   (590000000000000000000000, 46169510000000000000000000),
   (600000000000000000000000, 45363900000000000000000000),
   (610000000000000000000000, 44558290000000000000000000),
   (620000000000000000000000, 43752680000000000000000000),
   (630000000000000000000000, 42957790000000000000000000),
   (640000000000000000000000, 42194580000000000000000000),
   (650000000000000000000000, 41431370000000000000000000),
   (660000000000000000000000, 40668160000000000000000000),
   (670000000000000000000000, 39904950000000000000000000),
   (680000000000000000000000, 39141740000000000000000000),
   (690000000000000000000000, 38451440000000000000000000),
   (700000000000000000000000, 37772220000000000000000000),
   (710000000000000000000000, 37092990000000000000000000),
   (720000000000000000000000, 36413770000000000000000000),
   (730000000000000000000000, 35734550000000000000000000),
   (740000000000000000000000, 35066590000000000000000000),
   (750000000000000000000000, 34460620000000000000000000),
   (760000000000000000000000, 33854640000000000000000000),
   (770000000000000000000000, 33248670000000000000000000),
   (780000000000000000000000, 32642690000000000000000000),
   (790000000000000000000000, 32036720000000000000000000),
   (800000000000000000000000, 31488580000000000000000000),
   (810000000000000000000000, 30948400000000000000000000),
   (820000000000000000000000, 30408220000000000000000000),
   (830000000000000000000000, 29868040000000000000000000),
   (840000000000000000000000, 29327850000000000000000000),
   (850000000000000000000000, 28787670000000000000000000),
   (860000000000000000000000, 28247490000000000000000000),
   (870000000000000000000000, 27707310000000000000000000),
   (880000000000000000000000, 27167120000000000000000000),
   (890000000000000000000000, 26626940000000000000000000),
   (900000000000000000000000, 26086760000000000000000000),
   (910000000000000000000000, 25640330000000000000000000),
   (920000000000000000000000, 25205480000000000000000000),
   (930000000000000000000000, 24770630000000000000000000),
   (940000000000000000000000, 24335780000000000000000000),
   (950000000000000000000000, 23908390000000000000000000),
   (960000000000000000000000, 23518840000000000000000000),
   (970000000000000000000000, 23129280000000000000000000),
   (980000000000000000000000, 22739730000000000000000000),
   (990000000000000000000000, 22350170000000000000000000),
   (1000000000000000000000000, 21960620000000000000000000)]

/-- launcher-data/falcon-heavy-expendable.csv:1-100. -/
def falconHeavyExpendable : List (ℤ × ℤ) :=
  [(10000000000000000000000, 147139270000000000000000000),
   (20000000000000000000000, 144438360000000000000000000),
   (30000000000000000000000, 141860730000000000000000000),
   (40000000000000000000000, 139337900000000000000000000),
   (50000000000000000000000, 136815070000000000000000000),
   (60000000000000000000000, 134292240000000000000000000),
   (70000000000000000000000, 131769410000000000000000000),
   (80000000000000000000000, 129246580000000000000000000),
   (90000000000000000000000, 126770590000000000000000000),
   (100000000000000000000000, 124334750000000000000000000),
   (110000000000000000000000, 121898910000000000000000000),
   (120000000000000000000000, 119488270000000000000000000),
   (130000000000000000000000, 117124070000000000000000000),
   (140000000000000000000000, 114759880000000000000000000),
   (150000000000000000000000, 112422170000000000000000000),
   (160000000000000000000000, 110218620000000000000000000),
   (170000000000000000000000, 108015080000000000000000000),
   (180000000000000000000000, 105811540000000000000000000),
   (190000000000000000000000, 103675800000000000000000000),
   (200000000000000000000000, 101598170000000000000000000),
   (210000000000000000000000, 99520550000000000000000000),
   (220000000000000000000000, 97442920000000000000000000),
   (230000000000000000000000, 95423640000000000000000000),
   (240000000000000000000000, 93576860000000000000000000),
   (250000000000000000000000, 91730090000000000000000000),
   (260000000000000000000000, 89883310000000000000000000),
   (270000000000000000000000, 88050230000000000000000000),
   (280000000000000000000000, 86249620000000000000000000),
   (290000000000000000000000, 84449010000000000000000000),
   (300000000000000000000000, 82648400000000000000000000),
   (310000000000000000000000, 80847790000000000000000000),
   (320000000000000000000000, 79092330000000000000000000),
   (330000000000000000000000, 77420090000000000000000000),
   (340000000000000000000000, 75747860000000000000000000),
   (350000000000000000000000, 74075620000000000000000000),
   (360000000000000000000000, 72403390000000000000000000),
   (370000000000000000000000, 70852500000000000000000000),
   (380000000000000000000000, 69323680000000000000000000),
   (390000000000000000000000, 67794870000000000000000000),
   (400000000000000000000000, 66266050000000000000000000),
   (410000000000000000000000, 64737230000000000000000000),
   (420000000000000000000000, 63211570000000000000000000),
   (430000000000000000000000, 61826480000000000000000000),
   (440000000000000000000000, 60441400000000000000000000),
   (450000000000000000000000, 59056320000000000000000000),
   (460000000000000000000000, 57671230000000000000000000),
   (470000000000000000000000, 56286150000000000000000000),
   (480000000000000000000000, 54901070000000000000000000),
   (490000000000000000000000, 53669890000000000000000000),
   (500000000000000000000000, 52487800000000000000000000),
   (510000000000000000000000, 51305700000000000000000000),
   (520000000000000000000000, 50123600000000000000000000),
   (530000000000000000000000, 48941510000000000000000000),
   (540000000000000000000000, 47759410000000000000000000),
   (550000000000000000000000, 46600460000000000000000000),
   (560000000000000000000000, 45478540000000000000000000),
   (570000000000000000000000, 44356620000000000000000000),
   (580000000000000000000000, 43234700000000000000000000),
   (590000000000000000000000, 42112790000000000000000000),
   (600000000000000000000000, 40990870000000000000000000),
   (610000000000000000000000, 39881280000000000000000000),
   (620000000000000000000000, 38773210000000000000000000),
   (630000000000000000000000, 37665140000000000000000000),
   (640000000000000000000000, 36557080000000000000000000),
   (650000000000000000000000, 35449010000000000000000000),
   (660000000000000000000000, 34511580000000000000000000),
   (670000000000000000000000, 33584070000000000000000000),
   (680000000000000000000000, 32656560000000000000000000),
   (690000000000000000000000, 31729040000000000000000000),
   (700000000000000000000000, 30801530000000000000000000),
   (710000000000000000000000, 29874020000000000000000000),
   (720000000000000000000000, 29010650000000000000000000),
   (730000000000000000000000, 28164210000000000000000000),
   (740000000000000000000000, 27317770000000000000000000),
   (750000000000000000000000, 26471330000000000000000000),
   (760000000000000000000000, 25624890000000000000000000),
   (770000000000000000000000, 24778450000000000000000000),
   (780000000000000000000000, 23959170000000000000000000),
   (790000000000000000000000, 23144420000000000000000000),
   (800000000000000000000000, 22329660000000000000000000),
   (810000000000000000000000, 21514910000000000000000000),
   (820000000000000000000000, 20700150000000000000000000),
   (830000000000000000000000, 19902280000000000000000000),
   (840000000000000000000000, 19154340000000000000000000),
   (850000000000000000000000, 18406390000000000000000000),
   (860000000000000000000000, 17658450000000000000000000),
   (870000000000000000000000, 16910500000000000000000000),
   (880000000000000000000000, 16162560000000000000000000),
   (890000000000000000000000, 15416230000000000000000000),
   (900000000000000000000000, 14670410000000000000000000),
   (910000000000000000000000, 13924600000000000000000000),
   (920000000000000000000000, 13178780000000000000000000),
   (930000000000000000000000, 12430870000000000000000000),
   (940000000000000000000000, 11680620000000000000000000),
   (950000000000000000000000, 10930370000000000000000000),
   (960000000000000000000000, 10180110000000000000000000),
   (970000000000000000000000, 9448490000000000000000000),
   (980000000000000000000000, 8734300000000000000000000),
   (990000000000000000000000, 8020120000000000000000000),
   (1000000000000000000000000, 7305940000000000000000000)]

/-- launcher-data/falcon-heavy-reusable.csv:1-64. -/
def falconHeavyReusable : List (ℤ × ℤ) :=
  [(10000000000000000000000, 65574160000000000000000000),
   (20000000000000000000000, 63881280000000000000000000),
   (30000000000000000000000, 62188400000000000000000000),
   (40000000000000000000000, 60592220000000000000000000),
   (50000000000000000000000, 59018260000000000000000000),
   (60000000000000000000000, 57444310000000000000000000),
   (70000000000000000000000, 55887150000000000000000000),
   (80000000000000000000000, 54403130000000000000000000),
   (90000000000000000000000, 52919110000000000000000000),
   (100000000000000000000000, 51435090000000000000000000),
   (110000000000000000000000, 49978880000000000000000000),
   (120000000000000000000000, 48576480000000000000000000),
   (130000000000000000000000, 47174090000000000000000000),
   (140000000000000000000000, 45771690000000000000000000),
   (150000000000000000000000, 44369290000000000000000000),
   (160000000000000000000000, 43157790000000000000000000),
   (170000000000000000000000, 41957380000000000000000000),
   (180000000000000000000000, 40756980000000000000000000),
   (190000000000000000000000, 39556570000000000000000000),
   (200000000000000000000000, 38356160000000000000000000),
   (210000000000000000000000, 37190670000000000000000000),
   (220000000000000000000000, 36025170000000000000000000),
   (230000000000000000000000, 34859670000000000000000000),
   (240000000000000000000000, 33694180000000000000000000),
   (250000000000000000000000, 32602740000000000000000000),
   (260000000000000000000000, 31587010000000000000000000),
   (270000000000000000000000, 30571280000000000000000000),
   (280000000000000000000000, 29555560000000000000000000),
   (290000000000000000000000, 28539830000000000000000000),
   (300000000000000000000000, 27537360000000000000000000),
   (310000000000000000000000, 26545770000000000000000000),
   (320000000000000000000000, 25554170000000000000000000),
   (330000000000000000000000, 24562580000000000000000000),
   (340000000000000000000000, 23570980000000000000000000),
   (350000000000000000000000, 22636150000000000000000000),
   (360000000000000000000000, 21724020000000000000000000),
   (370000000000000000000000, 20811890000000000000000000),
   (380000000000000000000000, 19899770000000000000000000),
   (390000000000000000000000, 18996500000000000000000000),
   (400000000000000000000000, 18126790000000000000000000),
   (410000000000000000000000, 17257090000000000000000000),
   (420000000000000000000000, 16387380000000000000000000),
   (430000000000000000000000, 15517680000000000000000000),
   (440000000000000000000000, 14713940000000000000000000),
   (450000000000000000000000, 13980660000000000000000000),
   (460000000000000000000000, 13247380000000000000000000),
   (470000000000000000000000, 12514100000000000000000000),
   (480000000000000000000000, 11780820000000000000000000),
   (490000000000000000000000, 11047540000000000000000000),
   (500000000000000000000000, 10298260000000000000000000),
   (510000000000000000000000, 9546780000000000000000000),
   (520000000000000000000000, 8795300000000000000000000),
   (530000000000000000000000, 8043820000000000000000000),
   (540000000000000000000000, 7292330000000000000000000),
   (550000000000000000000000, 6618290000000000000000000),
   (560000000000000000000000, 5975210000000000000000000),
   (570000000000000000000000, 5332140000000000000000000),
   (580000000000000000000000, 4689060000000000000000000),
   (590000000000000000000000, 4042580000000000000000000),
   (600000000000000000000000, 3365100000000000000000000),
   (610000000000000000000000, 2687610000000000000000000),
   (620000000000000000000000, 2010130000000000000000000),
   (630000000000000000000000, 1332640000000000000000000),
   (640000000000000000000000, 655150000000000000000000)]

/-- launcher-data/sls-block-1.csv:1-72. -/
def slsBlock1 : List (ℤ × ℤ) :=
  [(290000000000000000000000, 148677560000000000000000000),
   (300000000000000000000000, 145960660000000000000000000),
   (310000000000000000000000, 143243770000000000000000000),
   (320000000000000000000000, 140598170000000000000000000),
   (330000000000000000000000, 138035770000000000000000000),
   (340000000000000000000000, 135473360000000000000000000),
   (350000000000000000000000, 132922370000000000000000000),
   (360000000000000000000000, 130429220000000000000000000),
   (370000000000000000000000, 127936070000000000000000000),
   (380000000000000000000000, 125442920000000000000000000),
   (390000000000000000000000, 123014280000000000000000000),
   (400000000000000000000000, 120723570000000000000000000),
   (410000000000000000000000, 118432850000000000000000000),
   (420000000000000000000000, 116142140000000000000000000),
   (430000000000000000000000, 113856490000000000000000000),
   (440000000000000000000000, 111719500000000000000000000),
   (450000000000000000000000, 109582520000000000000000000),
   (460000000000000000000000, 107445530000000000000000000),
   (470000000000000000000000, 105338120000000000000000000),
   (480000000000000000000000, 103359430000000000000000000),
   (490000000000000000000000, 101380730000000000000000000),
   (500000000000000000000000, 99402040000000000000000000),
   (510000000000000000000000, 97423350000000000000000000),
   (520000000000000000000000, 95529460000000000000000000),
   (530000000000000000000000, 93699170000000000000000000),
   (540000000000000000000000, 91868880000000000000000000),
   (550000000000000000000000, 90038600000000000000000000),
   (560000000000000000000000, 88208310000000000000000000),
   (570000000000000000000000, 86592980000000000000000000),
   (580000000000000000000000, 84987550000000000000000000),
   (590000000000000000000000, 83382110000000000000000000),
   (600000000000000000000000, 81776670000000000000000000),
   (610000000000000000000000, 80182650000000000000000000),
   (620000000000000000000000, 78671650000000000000000000),
   (630000000000000000000000, 77160650000000000000000000),
   (640000000000000000000000, 75649650000000000000000000),
   (650000000000000000000000, 74138650000000000000000000),
   (660000000000000000000000, 72649490000000000000000000),
   (670000000000000000000000, 71214940000000000000000000),
   (680000000000000000000000, 69780390000000000000000000),
   (690000000000000000000000, 68345840000000000000000000),
   (700000000000000000000000, 66911290000000000000000000),
   (710000000000000000000000, 65543050000000000000000000),
   (720000000000000000000000, 64207440000000000000000000),
   (730000000000000000000000, 62871820000000000000000000),
   (740000000000000000000000, 61536200000000000000000000),
   (750000000000000000000000, 60207380000000000000000000),
   (760000000000000000000000, 58995430000000000000000000),
   (770000000000000000000000, 57783490000000000000000000),
   (780000000000000000000000, 56571540000000000000000000),
   (790000000000000000000000, 55359590000000000000000000),
   (800000000000000000000000, 54147640000000000000000000),
   (810000000000000000000000, 52954990000000000000000000),
   (820000000000000000000000, 51767780000000000000000000),
   (830000000000000000000000, 50580560000000000000000000),
   (840000000000000000000000, 49393350000000000000000000),
   (850000000000000000000000, 48215700000000000000000000),
   (860000000000000000000000, 47086560000000000000000000),
   (870000000000000000000000, 45957420000000000000000000),
   (880000000000000000000000, 44828270000000000000000000),
   (890000000000000000000000, 43699130000000000000000000),
   (900000000000000000000000, 42574200000000000000000000),
   (910000000000000000000000, 41483450000000000000000000),
   (920000000000000000000000, 40392690000000000000000000),
   (930000000000000000000000, 39301940000000000000000000),
   (940000000000000000000000, 38211190000000000000000000),
   (950000000000000000000000, 37181470000000000000000000),
   (960000000000000000000000, 36176170000000000000000000),
   (970000000000000000000000, 35170860000000000000000000),
   (980000000000000000000000, 34140030000000000000000000),
   (990000000000000000000000, 33051750000000000000000000),
   (1000000000000000000000000, 31963470000000000000000000)]

/-- launcher-data/sls-block-1B-with-kick.csv:1-15. -/
def slsBlock1bWithKick : List (ℤ × ℤ) :=
  [(750000000000000000000000, 112048031172860937700000000),
   (839285714285714306000000, 98602156994608485550000000),
   (928571428571428612000000, 86617215753717318880000000),
   (1017857142857142776000000, 75982444700607047710000000),
   (1107142857142857224000000, 66587081085697282110000000),
   (1196428571428571388000000, 58320362159407704890000000),
   (1285714285714285552000000, 51071525172157926140000000),
   (1375000000000000000000000, 44729807374367555890000000),
   (1464285714285714448000000, 39184446016456276990000000),
   (1553571428571428612000000, 34324678348843663120000000),
   (1642857142857142776000000, 30039741621949433470000000),
   (1732142857142857224000000, 26218873086193125350000000),
   (1821428571428571388000000, 22751309991994421580000000),
   (1910714285714285552000000, 19526289589773004990000000),
   (2000000000000000000000000, 16433049129948340120000000)]

/-- launcher-data/sls-block-1B.csv:1-16. -/
def slsBlock1b : List (ℤ × ℤ) :=
  [(600541781450872350000000, 130050505050505050000000000),
   (653048668503213900000000, 117929292929292930000000000),
   (700110192837465600000000, 106313131313131340000000000),
   (750808080808080700000000, 94696969696969720000000000),
   (803360881542699600000000, 85101010101010100000000000),
   (848640955004591300000000, 75505050505050490000000000),
   (899384756657483600000000, 66414141414141410000000000),
   (951955922865014000000000, 57828282828282830000000000),
   (1000909090909090800000000, 50252525252525300000000000),
   (1049862258953167900000000, 42676767676767630000000000),
   (1102442607897153100000000, 34595959595959575000000000),
   (1147768595041321900000000, 27525252525252510000000000),
   (1196749311294765500000000, 21464646464646430000000000),
   (1249357208448117400000000, 14898989898989894000000000),
   (1298337924701560800000000, 8838383838383888000000000),
   (1350955004591368200000000, 2777777777777737400000000)]

/-- launcher-data/vulcan-centaur-w-6-solids-w-star-48.csv:1-101. -/
def vulcanCentaurW6SolidsWStar48 : List (ℤ × ℤ) :=
  [(0, 101141550000000000000000000), (10000000000000000000000, 99731740000000000000000000),
   (20000000000000000000000, 98321920000000000000000000),
   (30000000000000000000000, 96912100000000000000000000),
   (40000000000000000000000, 95488580000000000000000000),
   (50000000000000000000000, 94063930000000000000000000),
   (60000000000000000000000, 92639270000000000000000000),
   (70000000000000000000000, 91215060000000000000000000),
   (80000000000000000000000, 89796190000000000000000000),
   (90000000000000000000000, 88377320000000000000000000),
   (100000000000000000000000, 86958460000000000000000000),
   (110000000000000000000000, 85539590000000000000000000),
   (120000000000000000000000, 84229970000000000000000000),
   (130000000000000000000000, 83002280000000000000000000),
   (140000000000000000000000, 81774600000000000000000000),
   (150000000000000000000000, 80546910000000000000000000),
   (160000000000000000000000, 79319220000000000000000000),
   (170000000000000000000000, 78133250000000000000000000),
   (180000000000000000000000, 76962220000000000000000000),
   (190000000000000000000000, 75791200000000000000000000),
   (200000000000000000000000, 74620170000000000000000000),
   (210000000000000000000000, 73449150000000000000000000),
   (220000000000000000000000, 72278120000000000000000000),
   (230000000000000000000000, 71185060000000000000000000),
   (240000000000000000000000, 70126650000000000000000000),
   (250000000000000000000000, 69068230000000000000000000),
   (260000000000000000000000, 68009820000000000000000000),
   (270000000000000000000000, 66951410000000000000000000),
   (280000000000000000000000, 65893000000000000000000000),
   (290000000000000000000000, 64870000000000000000000000),
   (300000000000000000000000, 63852390000000000000000000),
   (310000000000000000000000, 62834780000000000000000000),
   (320000000000000000000000, 61817170000000000000000000),
   (330000000000000000000000, 60799550000000000000000000),
   (340000000000000000000000, 59820930000000000000000000),
   (350000000000000000000000, 58883960000000000000000000),
   (360000000000000000000000, 57947000000000000000000000),
   (370000000000000000000000, 57010030000000000000000000),
   (380000000000000000000000, 56073060000000000000000000),
   (390000000000000000000000, 55136090000000000000000000),
   (400000000000000000000000, 54206740000000000000000000),
   (410000000000000000000000, 53278440000000000000000000),
   (420000000000000000000000, 52350140000000000000000000),
   (430000000000000000000000, 51421840000000000000000000),
   (440000000000000000000000, 50493540000000000000000000),
   (450000000000000000000000, 49634700000000000000000000),
   (460000000000000000000000, 48803650000000000000000000),
   (470000000000000000000000, 47972600000000000000000000),
   (480000000000000000000000, 47141550000000000000000000),
   (490000000000000000000000, 46310500000000000000000000),
   (500000000000000000000000, 45509890000000000000000000),
   (510000000000000000000000, 44817350000000000000000000),
   (520000000000000000000000, 44124810000000000000000000),
   (530000000000000000000000, 43432270000000000000000000),
   (540000000000000000000000, 42739730000000000000000000),
   (550000000000000000000000, 42047180000000000000000000),
   (560000000000000000000000, 41329470000000000000000000),
   (570000000000000000000000, 40610290000000000000000000),
   (580000000000000000000000, 39891110000000000000000000),
   (590000000000000000000000, 39171940000000000000000000),
   (600000000000000000000000, 38452760000000000000000000),
   (610000000000000000000000, 37745760000000000000000000),
   (620000000000000000000000, 37079350000000000000000000),
   (630000000000000000000000, 36412940000000000000000000),
   (640000000000000000000000, 35746530000000000000000000),
   (650000000000000000000000, 35080120000000000000000000),
   (660000000000000000000000, 34413720000000000000000000),
   (670000000000000000000000, 33807080000000000000000000),
   (680000000000000000000000, 33287670000000000000000000),
   (690000000000000000000000, 32768260000000000000000000),
   (700000000000000000000000, 32248860000000000000000000),
   (710000000000000000000000, 31729450000000000000000000),
   (720000000000000000000000, 31210050000000000000000000),
   (730000000000000000000000, 30681890000000000000000000),
   (740000000000000000000000, 30127850000000000000000000),
   (750000000000000000000000, 29573820000000000000000000),
   (760000000000000000000000, 29019790000000000000000000),
   (770000000000000000000000, 28465750000000000000000000),
   (780000000000000000000000, 27932580000000000000000000),
   (790000000000000000000000, 27446320000000000000000000),
   (800000000000000000000000, 26960070000000000000000000),
   (810000000000000000000000, 26473820000000000000000000),
   (820000000000000000000000, 25987560000000000000000000),
   (830000000000000000000000, 25516260000000000000000000),
   (840000000000000000000000, 25134660000000000000000000),
   (850000000000000000000000, 24753050000000000000000000),
   (860000000000000000000000, 24371450000000000000000000),
   (870000000000000000000000, 23989840000000000000000000),
   (880000000000000000000000, 23608240000000000000000000),
   (890000000000000000000000, 23157950000000000000000000),
   (900000000000000000000000, 22685760000000000000000000),
   (910000000000000000000000, 22213570000000000000000000),
   (920000000000000000000000, 21741390000000000000000000),
   (930000000000000000000000, 21269200000000000000000000),
   (940000000000000000000000, 20913240000000000000000000),
   (950000000000000000000000, 20566970000000000000000000),
   (960000000000000000000000, 20220700000000000000000000),
   (970000000000000000000000, 19874430000000000000000000),
   (980000000000000000000000, 19647750000000000000000000),
   (990000000000000000000000, 19425150000000000000000000),
   (1000000000000000000000000, 19202540000000000000000000)]

/-- launcher-data/vulcan-centaur-w-6-solids.csv:1-100. -/
def vulcanCentaurW6Solids : List (ℤ × ℤ) :=
  [(10000000000000000000000, 105295890000000000000000000),
   (20000000000000000000000, 103550680000000000000000000),
   (30000000000000000000000, 101815440000000000000000000),
   (40000000000000000000000, 100139930000000000000000000),
   (50000000000000000000000, 98464430000000000000000000),
   (60000000000000000000000, 96788920000000000000000000),
   (70000000000000000000000, 95212110000000000000000000),
   (80000000000000000000000, 93670640000000000000000000),
   (90000000000000000000000, 92129180000000000000000000),
   (100000000000000000000000, 90591200000000000000000000),
   (110000000000000000000000, 89060320000000000000000000),
   (120000000000000000000000, 87529440000000000000000000),
   (130000000000000000000000, 85998560000000000000000000),
   (140000000000000000000000, 84480840000000000000000000),
   (150000000000000000000000, 83035540000000000000000000),
   (160000000000000000000000, 81590230000000000000000000),
   (170000000000000000000000, 80144930000000000000000000),
   (180000000000000000000000, 78699620000000000000000000),
   (190000000000000000000000, 77252010000000000000000000),
   (200000000000000000000000, 75783340000000000000000000),
   (210000000000000000000000, 74314670000000000000000000),
   (220000000000000000000000, 72846010000000000000000000),
   (230000000000000000000000, 71377340000000000000000000),
   (240000000000000000000000, 69908680000000000000000000),
   (250000000000000000000000, 68440010000000000000000000),
   (260000000000000000000000, 67111870000000000000000000),
   (270000000000000000000000, 65836970000000000000000000),
   (280000000000000000000000, 64562060000000000000000000),
   (290000000000000000000000, 63287150000000000000000000),
   (300000000000000000000000, 62012250000000000000000000),
   (310000000000000000000000, 60873520000000000000000000),
   (320000000000000000000000, 59751600000000000000000000),
   (330000000000000000000000, 58629680000000000000000000),
   (340000000000000000000000, 57507760000000000000000000),
   (350000000000000000000000, 56385840000000000000000000),
   (360000000000000000000000, 55262560000000000000000000),
   (370000000000000000000000, 54137180000000000000000000),
   (380000000000000000000000, 53011800000000000000000000),
   (390000000000000000000000, 51886420000000000000000000),
   (400000000000000000000000, 50761040000000000000000000),
   (410000000000000000000000, 49650950000000000000000000),
   (420000000000000000000000, 48652090000000000000000000),
   (430000000000000000000000, 47653230000000000000000000),
   (440000000000000000000000, 46654370000000000000000000),
   (450000000000000000000000, 45655510000000000000000000),
   (460000000000000000000000, 44656660000000000000000000),
   (470000000000000000000000, 43659150000000000000000000),
   (480000000000000000000000, 42663620000000000000000000),
   (490000000000000000000000, 41668090000000000000000000),
   (500000000000000000000000, 40672560000000000000000000),
   (510000000000000000000000, 39677040000000000000000000),
   (520000000000000000000000, 38692240000000000000000000),
   (530000000000000000000000, 37778080000000000000000000),
   (540000000000000000000000, 36863930000000000000000000),
   (550000000000000000000000, 35949770000000000000000000),
   (560000000000000000000000, 35035620000000000000000000),
   (570000000000000000000000, 34121460000000000000000000),
   (580000000000000000000000, 33255630000000000000000000),
   (590000000000000000000000, 32417290000000000000000000),
   (600000000000000000000000, 31578950000000000000000000),
   (610000000000000000000000, 30740610000000000000000000),
   (620000000000000000000000, 29902270000000000000000000),
   (630000000000000000000000, 29063930000000000000000000),
   (640000000000000000000000, 28260530000000000000000000),
   (650000000000000000000000, 27515720000000000000000000),
   (660000000000000000000000, 26770910000000000000000000),
   (670000000000000000000000, 26026100000000000000000000),
   (680000000000000000000000, 25281300000000000000000000),
   (690000000000000000000000, 24536490000000000000000000),
   (700000000000000000000000, 23798010000000000000000000),
   (710000000000000000000000, 23064730000000000000000000),
   (720000000000000000000000, 22331450000000000000000000),
   (730000000000000000000000, 21598170000000000000000000),
   (740000000000000000000000, 20864890000000000000000000),
   (750000000000000000000000, 20131610000000000000000000),
   (760000000000000000000000, 19411660000000000000000000),
   (770000000000000000000000, 18692480000000000000000000),
   (780000000000000000000000, 17973310000000000000000000),
   (790000000000000000000000, 17254130000000000000000000),
   (800000000000000000000000, 16534950000000000000000000),
   (810000000000000000000000, 15824410000000000000000000),
   (820000000000000000000000, 15142690000000000000000000),
   (830000000000000000000000, 14460970000000000000000000),
   (840000000000000000000000, 13779250000000000000000000),
   (850000000000000000000000, 13097530000000000000000000),
   (860000000000000000000000, 12415810000000000000000000),
   (870000000000000000000000, 11734090000000000000000000),
   (880000000000000000000000, 11065790000000000000000000),
   (890000000000000000000000, 10451950000000000000000000),
   (900000000000000000000000, 9838110000000000000000000),
   (910000000000000000000000, 9224260000000000000000000),
   (920000000000000000000000, 8610420000000000000000000),
   (930000000000000000000000, 7990870000000000000000000),
   (940000000000000000000000, 7361280000000000000000000),
   (950000000000000000000000, 6731700000000000000000000),
   (960000000000000000000000, 6102120000000000000000000),
   (970000000000000000000000, 5531160000000000000000000),
   (980000000000000000000000, 4981200000000000000000000),
   (990000000000000000000000, 4431240000000000000000000),
   (1000000000000000000000000, 3881280000000000000000000)]

/-- All shipped curves with their file names (launcher-data). -/
def launcherCurves : List (String × List (ℤ × ℤ)) :=
  [("atlas-v401.csv", atlasV401),
   ("atlas-v551-w-star-48.csv", atlasV551WStar48),
   ("atlas-v551.csv", atlasV551),
   ("delta-IVH-w-star-48.csv", deltaIvhWStar48),
   ("delta-IVH.csv", deltaIvh),
   ("falcon-heavy-expendable-w-star-48.csv", falconHeavyExpendableWStar48),
   ("falcon-heavy-expendable.csv", falconHeavyExpendable),
   ("falcon-heavy-reusable.csv", falconHeavyReusable),
   ("sls-block-1.csv", slsBlock1),
   ("sls-block-1B-with-kick.csv", slsBlock1bWithKick),
   ("sls-block-1B.csv", slsBlock1b),
   ("vulcan-centaur-w-6-solids-w-star-48.csv", vulcanCentaurW6SolidsWStar48),
   ("vulcan-centaur-w-6-solids.csv", vulcanCentaurW6Solids)]

end AMAT.Data
