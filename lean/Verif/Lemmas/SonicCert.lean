import Mathlib.Data.Int.Notation

/-
Certificates for the cubic splines through the speeds of sound of the shipped atmosphere files: approximate second
derivatives at the nodes (sorted by altitude, in millimetres per second).  Nothing is assumed about them; they are
checked in `Verif.Lemmas.SonicCheck`.
-/

namespace AMAT.Cert

/-- Scaled by `10^5`. -/
def venusSonic : List ℤ :=
  [-1, -1, -1, -12, 26, -31, 32, -3, -15, 18, -1, 2, -7, 10, 8, -8, -22, -7, 32, -57, 24, -2, 2,
   -31, 40, -46, 27, -11, 16, -29, 2, 9, 3, -11, 17, 26, -56, 54, -18, 2, -21, 60, -11, 19, 16, -9,
   -57, 41, -100, 11, -33, 14, -122, 36, -39, -17, 53, 110, 26, -7, 133, -43, 68, -38, 39, -26, 48,
   -26, 6, 8, -9, -8, 10, 10, -58, 35, -34, 16, -58, -6, 48, -24, 53, -21, 24, 0, 26, -3, 21, -34,
   120, -66, 127, -55, 120, -49, 53, 3, -98, 104, -339, 97, -23, 2, -11, 22, -22, 10, 9, -61, 208,
   -43, -2, 7, -23, 122, -24, 0, 6, -14, 58, -10, -9, 8, -11, 59, -1, -12, 16, -42, 168, -28, -12,
   33, -99, 318, -98, 27, -5, -72, 274, -87, 12, -7, -42, 135, -71, -1, -21, -67, 171, -80, -17,
   -18, -55, 65, -33, -13, 23, -67, 200, -58, -3, 13, -91, 318, -83, -17, 27, -142, 451, -158, 13,
   12, -141, 449, -163, 23, 0, -156, 392, -107, -26, -5, -112, 276, -106, -6, -16, -66, 101, -69,
   26, -61, 4, -97, 11, -7, 3, -12, -180, 85, -71, 4, 76, -229, -9, 80, -123, 172, -294, 132, -29,
   -40, 24, -113, -14, 37, -53, 48, -66, -36, 60, -53, 12, -30, -3, -15, -1, -20, 1, -22, -16, 8,
   61, -99, 71, -67, 63, -68, 61, -58, 7, 11, -18, 11, -3, -16, 4, 9, 14]

/-- Scaled by `10^6`. -/
def earthSonic : List ℤ :=
  [65, -227, -519, -266, -188, 201, 751, -167, 1039, 1430, 75, 49, -587, 477, 29, -11, -36, 43, -15,
   93, -427, 160, -342, -363, 343, -994, 337, -306, -230, 78, -82, 23, -116, -63, -181, 610, -242,
   253, 201, -25, -126, 32, -89, -25, -77, 319, -115, 494, 606, -145, 1393, -99, 1004, 642, -41,
   1104, -421, 118, -37, -8, 9, -30, -90, -117, -123, -125, -112, -133, -122, -119, -116]

/-- Scaled by `10^5`. -/
def marsSonic : List ℤ :=
  [4, 2, 0, -12, -9, 73, -27, 12, -3, -18, 49, -37, 29, -16, -5, 30, -36, 28, -11, 3, 1, -5, -2, 0,
   21, -64, 48, -42, 24, -37, 144, -40, 20, -22, 41, -136, 23, -4, 6, -38, 150, -42, 4, 8, -17, 70,
   -13, -10, 25, -70, 265, -79, 23, -13, 13, -33, 9, 1, -19, 55, -181, 59, -14, -7, 19, -63, 9, 3,
   -4, 17, -40, 18, -13, 11, -4, -11, 0, -8, 6, -9, 3, -8, 20, -4, -6, 6, -2, 8, 14, -6, 11, -19,
   31, -8, 12, -16, 10, 35, 3, 2, 12, -31, 67, -4, -1, 6, -13, 32, 4, -6, 5, -23, 103, 19, -6, -4,
   17, -58, -12, 5, 3, -32, 88, 10, 1, -7]

/-- Scaled by `10^6`. -/
def jupiterSonic : List ℤ :=
  [755, -148, -1081, -81, -2897, 1254, -1665, -756, -1006, -954, -1127, -939, -1229, -1430, -1013,
   -1733, -1212, -3148, 1912, -2271, -1849, -6172, 4847, -10219, 5380, -7167, -1011, -2420, -2239,
   -3441, -3601, -945, -5292, -2249, -3580, -4372, -3431, -4866, -4389, -3920, -6328, 1581, -23238,
   117109, -498, 27138, 7219, -2566, -34017, 33388, -6526, -24347, 20990, -7867, 2568, -4599, 1559,
   27240, -12383, -16878, 30157, 3166, 29201, -70430, 70699, -38980, -23889, 6599, 21098, -3294,
   -13129, -4074, -3610, 4063, -1461, 3435, 2259, 2825, 2324, 396, -3893, -1313, -2526, -2517,
   -1998, -1426, -756, 20, 764, 1360, 1819, 1926, 504, -1513, -6828, -9273]

/-- Scaled by `10^6`. -/
def saturnSonic : List ℤ :=
  [-243645, -17472, 133311, -134901, 85213, -22966, 20193, -27108, 26858, -7319, 7746, -993, 5641,
   6013, 1141, 7299, -8115, -966, -698, -2121, -325, -484, -669, -289, 74, -25, -53, 186, 35, 230,
   298, 1226, 1075, 8326, -6031, 21624, -6847, 36266, -102051, 247798, -309044, 299846, -208453,
   46190, -87642, 113318, -62755, -10718, -14769, 15645, -4036, -4257, -313, -14072, 9159, -5587,
   -7936, 2150, 9496, -14282, -3593, 5981, -8831, 11475, -11993, 1018, 85, 431, -2960, 550, -356,
   -799, -89, -261, -166, -38, -90, 0, -148, 406, -447, 120, -42, 49, -45, 17, -1, -9, 4, -7, -25]

/-- Scaled by `10^6`. -/
def titanSonic : List ℤ :=
  [189, 80, -29, -37, 104, 222, 492, -400, 141, -60, 123, -9, 21, -4, -3, 215, -227, 150, -14, 84,
   -14, 42, 66, -27, -12, 81, 102, -96, 67, -18, 66, 22, 90, 205, 273, 76, 581, 516, 92, -758, 400,
   -498, -523, 69, 122, -219, 168, -145, -89, -478, 257, 171, -99, -117, -14, 91, -152, 244, -307,
   16, 26, 94, -148, 53, 23, -82, 314, -365, 281, 5, -408, 324, -277, 295, -258, 123, 384, -912,
   888, -500, 118, -29, 3, 0, -4, 5, -5, 1, 1, -5, 2, -2, 2, -3, 0, 2, -4, 2, -4, 1, 1, -4, 2, -4,
   1, -1, -1, -1, -2, 0, -2, -1, -1, -1, -1, -1, -1, -1, -1, -1, -1, -2, -1, -1, -2, -1, -2, -1, -2,
   -1, -2, -1, -2, -2, -2, -2, -2, -1, -2, -1, -2, -2, -1, -2, -1, -2, -1, -1, 0, -2, 0, -1, -1, 0,
   0, -1, 1, -1, 1, 0, 1, 0, 2, 1, 1, 1, 2, 1, 3, 2, 2, 3, 3, 2, 5, 3, 3, 5, 3, 3, 2, 2, 2, 3, 1, 2,
   2, 1, 2, 2, 0, 2, 1, 1, 1, 1, 1, 0, 0, 1, 0, 0, 1, 0, 0, 0, 0, -1, 0, -1, 0, -1, 1, -1, 0, -1, 0,
   0, -1, 0, -1, 0, -1, 0, -1, -1, 0, -1, -1, -1, 0, -1, -1, 0, -1, -1, 0, -2, 1, -2, 1, -2, 0, -1,
   -2, 0, -1, 0, -2, -1, -1, 0, 0, 0, 0, 0, 0, 0, 0, 0, 0, 0, 0, 0, 0, 0, 0, 0, 0, 0, 0, 0, 0, 0, 0,
   0, 0, 0, 0, 0, 0, 0, 0, 0, 0, 0, 0, 0, 0, 0, 0, 0, 0, 0, 0, 0, 0, 0, 0, 0, 0, 0, 0, 0, 0, 0, 0,
   0, 0, 0, 0, 0, 0, 0, 0, 0, 0, 0, 0, 0, 0, 0, 0, 0, 0, 2, -1, 0, 0, 0, 0, 0, 0, 0, 0, 0, 0, 0, 0,
   0, 0, 0, 0, 0, 0, 0, 0, 0, 0, 0, 0, 0, 0, 0, 0, 0, 0, 0, 0, 0, 0, 0, 0, 0, 0, 0, 0, 0, 0, 0, 0,
   0, 0, 0, 0, 0, 0, 0, 0, 0, 0, 0, 0, 0, 0, 0, 0, 0, 0, 0, 0, 0, 0, 0, 0, 0, 0, 0, 0, 0, 0, 0, 0,
   0, 0, 0, 0, 0, 0, 0, 0, 0, 0, 0, 0, 0]

/-- Scaled by `10^2`. -/
def neptuneSonic : List ℤ :=
  [-12, -5, 1, -11, 18, -88, -24, 7, -103, -3, 10, -108, -40, -43, -175, 43, -226, 596, -279, 150,
   290, 92, 146, 91, 10, 171, 173, 0, 23, 108, 245, -311, 1042, 58, 386, -936, 130, 188, -1085, 285,
   -100, -206, 53, -8, -21, 91, 286, -83, 20, -32, 83, -324, 84, -25, 6, -4, 3, -10, 32, -152, 39,
   -10, 6, -9, 20, -52, -15, 4, -2, 2, -2, 12, -37, 11, -3, 2, 1, -1, 2, -1, 2, 4, -1, 1, 1, 2, -3,
   2, -9, 3, 0, -1, 1, 1, -1, -7, 2, 0, 0, 1, -1, 1, 0, 1, 0, -1, 1, -1, -5, 22, -79, 282, 2, -3, 0,
   -5, 0, -3, -3, 15, -8, 0, -3, -3, -1, -3, -1, -3, -2, 6, -41, -1, -8, 7, -8, 0, 0, -5, 3, 1, -18,
   7, -6, 2, -2, 0, -1, 0, 0, -5, 17, 10, -4, 1, -2, 0, -1, 0, -3, 1, -1, 1, -4, 2, -2, 0, 5, -1,
   -1, 0, -2, 0, -1, -2, 2, -2, 0, -5, 14, -46, 11, -3, 1, -1, 0, 0, -1, 1, -1, -1, 1, 1, -9, 36, 5,
   -4, 1, -1, -2, 1, -3, 2, -3, 1, -1, 1, -4, 3, 0, -3, 0, 2, -6, 10, -39, -16, -52, 218, -61, 10,
   -7, -1, -5, -2, -3, -3, -3, -3, -3, -3, -3, -3, -2, -3, -2, -3, -1, -3, -1, -2, -1, -3, -1, -2,
   -2, -1, -1, -3, 0, -2, -1, -2, -2, 0, -2, 0, -2, -1, -1, -1, -1, -1, -1, -1, -1, -2, 1, -3, 1,
   -1, -2, 0, -1, -1, 0, -1, -1, 0, -1, 0, -1, 0, -1, -1, -1, 0, 0, -1, -1, 0, -1, 0, -2, 0, 0, -1,
   -1, 0, -1, -1, 1, -2, -1, 0, 0, -1, -1, 1, -1, -1, -1, 0, -1, 0, 1, -2, 1, -1, 0, -1, 1, -1, 1,
   -2, 1, 0, -1, 0, 1, -2, 1, 0, -1, 0, -2, 1, -1, 0, 0, 0, -1, 1, -1, 0, -1, 1, -1, 1, -1, 1, -1,
   1, 0, -1, -1, 1, -2, 2, -1, 0, 0, 1, -1, 0, 1, -2, 2, -2, 0, 2, -4, 2, 0, -1, 1, 0, 0, 0, -1, 1,
   -1, 0, -1, 0, -1, 1, -1, 0, 0, 1, -1, -1, 1, 0, 0, 0, -1, 1, -2, 2, -2, 3, -3, 2, -1, 2, -3, 1,
   0, 0, -1, 1, -1, 0, 0, 0, 0, 0, 0, 0, 0, 0, 0, 0, 0, 0, -1, 0, -1, 0, 1, -1, 1, 0, -1, 1, -1, 0,
   0, 1, 0, -1, 1, 0, -2, 1, 1, -3, 3, -1, 0, 0, 0, -1, 0, 1, -1, 1, -1, 0, -1, 1, -1, 0, 0, 0, -1,
   0, 0, 0, -1, 0, 1, -1, -1, 1, -1, 0, 0, 0, 0, 0, 0, 1, -1, 2, -2, 2, -1, 1, -1, 0, 0, 0, 0, -1,
   1, -1, 1, 0, -1, 1, -1, 1, -1, 1, -2, 1, -1, 1, 0, 0, 0, 0, 1, -1, 0, 1]

/-- Scaled by `10^6`. -/
def uranusAmesSonic : List ℤ :=
  [-30, -22, -7, 21, -7, -8, 8, 0, -5, -3, -2, -11, -3, -18, -3, -23, -7, 0, -92, 323, -1179, 1519,
   -412, 123, 177, -277, 36, -154, 57, -16, 128, 75, 256, -61, 42, 76, 41, 136, -122, 149, 20, -51,
   87, 243, -363, 1747, -2687, 793, 119, 149, 482, -632, 218, -433, 28, 325, -100, 328, -188, 499,
   494, 477, -418, -115, -378, 90, -406, -67, -53, -79, 12, 34, -145, 173, -178, 179, -177, 146,
   -29, -35, 154, -203, 291, -224, 250, -54, -40, 217, -121, 26, -19, 33, -129, 53, -12, -12, 54,
   -205, 758, -667, 62, 1044, -1055, 220, -34, 128, -242, 0, 236, -60, -43, 30, -181, -1, 185, 115,
   -63, -141, -83, -100, 480, -488, 188, -35, -34, 2, 24, 26, -140, -23, 8, -9, 14, -35, 5, 5, -4,
   1, 0, 0, -1, -7, 2, 0, 0, -1, 4, -4, -1, 7, -2, 1, -1, 0, 0, 0, 0, 0, 0, 1, -1, 0, 0, 0, 0, 0, 0,
   0, 0, 0, 0, 0, 1, -1, 0, 0, 0, 0, 0, 0, 0, 0, 0, 0, 0, 0, 0, 0, -1, 1, -2, 1, 0, 0, 0, 0, 0, 0,
   0, 0, 0, 0, 0, 0, 0, 0, 0, 0, 0, 0, 0, 0, 0]

end AMAT.Cert
