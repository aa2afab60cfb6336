import Mathlib.Data.Int.Notation

/-
Coefficients bundled with Skyfield in skyfield/data/nutation.npz, decoded (by a script, from the bytes of the arrays).
Generated; do not edit.
-/
namespace Skyfield

/-- `lunisolar_longitude_coefficients[:,0]` — skyfield/nutationlib.py:11-16, in tenths of a microarcsecond. -/
def lunisolarLongitude0 : List ℤ := List.flatten [
  [-172064161, -13170906, -2276413, 2074554, 1475877, -516821, 711159, -387298, -301461, 215829, 128227, 123457, 156994, 63110, -57976, -59641, -51613, 45893, 63384, -38571, 32481, -47722, -31046, 28593, 20441, 29243, 25887, -14053, 15164, -15794, 21783, -12873, -12654, -10204, 16707, -7691, -11024, 7566, -6637, -7141],
  [-6302, 5800, 6443, -5774, -5350, -4752, -4940, 7350, 4065, 6579, 3579, 4725, -3075, -2904, 4348, -2878, -4230, -2819, -4056, -2647, -2294, 2481, 2179, 3276, -3389, 3339, -1987, -1981, 4026, 1660, -1521, 1314, -1283, -1331, 1383, 1405, 1290, -1214, 1146, 1019],
  [-1100, -970, 1575, 934, 922, 815, 834, 1248, 1338, 716, 1282, 742, 1020, 715, -666, -667, -704, -694, -1014, -585, -949, -595, 528, -590, 570, -502, -875, -492, 535, -467, 591, -453, 766, -446, -488, -468, -421, 463, -673, 658],
  [-438, -390, 639, 412, -361, 360, 588, -578, -396, 565, -335, 357, 321, -301, -334, 493, 494, 337, 280, 309, -263, 253, 245, 416, -229, 231, -259, 375, 252, -245, 243, 208, 199, -208, 335, -325, -187, 197, -192, -188],
  [276, -286, 186, -219, 276, -153, -156, -154, -174, -163, -228, 91, 175, -159, 141, 147, -132, 159, 213, 123, -118, 144, -121, -134, -105, -102, 120, 101, -113, -106, -129, -114, 113, -102, -94, -100, 87, 161, 96, 151],
  [-104, -110, -100, 92, 82, 82, -78, -77, 2, 94, -93, -83, 83, -91, 128, -79, -83, 84, 83, 91, -77, 84, -92, -92, -94, 68, -61, 71, 62, -63, -73, 115, -103, 63, 74, -103, -69, 57, 94, 64],
  [-63, -38, -43, -45, 47, -48, 45, 56, 88, -75, 85, 49, -74, -39, 45, 51, -40, 41, -42, -51, -42, 39, 46, -53, 82, 81, 47, 53, -45, -44, -33, -61, 28, -38, -33, -60, 48, 27, 38, 31],
  [-29, 28, -32, 45, -44, 28, -51, -36, 44, 26, -60, 35, -27, 47, 36, -36, -35, -37, 32, 35, 32, 65, 47, 32, 37, -30, -32, -31, 37, 31, 49, 32, 23, -43, 26, -32, -29, -27, 30, -11],
  [-21, -34, -10, -36, -9, -12, -21, -29, -15, -20, 28, 17, -22, -14, 24, 11, 14, 24, 18, -38, -31, -16, 29, -18, -10, -17, 9, 16, 22, 20, -13, -17, -14, 0, 14, 19, -34, -20, 9, -18],
  [13, 17, -12, 15, -11, 13, -18, -35, 9, -19, -26, 8, -10, 10, -21, -15, 9, -29, -19, 12, 22, -10, -20, -20, -17, 15, 8, 14, -12, 25, -13, -14, 13, -17, -12, -10, 10, -15, -22, 28],
  [15, 23, 12, 29, -25, 22, -18, 15, -23, 12, -8, -19, -10, 21, 23, -16, -19, -22, 27, 16, 19, 9, -9, -9, -8, 18, 16, -10, -23, 16, -12, -8, 30, 24, 10, -16, -16, 17, -24, -12],
  [-24, -23, -13, -15, 0, 0, -4, 0, 5, 0, 0, -3, 4, 0, 5, 3, -3, -5, 3, 3, 3, 0, 0, 4, 6, 5, -7, -12, 5, 3, -5, 3, -7, 7, 0, 4, 3, -3, -7, -4],
  [-3, 0, -3, 7, -4, 4, -5, 5, -5, 5, -8, 9, 6, -5, 3, -7, -3, 5, 3, -3, 4, 3, -5, 4, 9, 4, 4, -3, -4, 9, -4, -4, 3, 8, 3, -3, 3, 3, -3, 6],
  [3, -3, -7, 9, -3, -3, -4, -5, -13, -7, 10, 3, 10, 0, 0, 0, -7, -4, 4, 5, 5, -3, -3, -4, -5, 6, 9, 5, -7, -3, -4, 7, -4, 4, -6, 0, 11, 3, 11, -3],
  [-1, 4, 0, 3, -7, 5, -3, 3, 5, -7, 8, -4, 11, -3, 3, -4, 8, 3, 11, -6, -4, -8, -7, -4, 3, 6, -6, 6, 6, 5, -5, -4, -4, 4, 6, -4, 0, 0, 5, -13],
  [3, 4, 7, 4, 5, -3, -6, -5, -7, 5, 13, -4, -3, 5, -11, 5, 4, 4, -4, 6, 3, -12, 4, -3, -4, 3, 3, -3, 0, -7, 6, -3, 5, 3, 3, -3, -5, -3, -3, 12],
  [3, -4, 4, 6, 5, 4, -6, 4, 6, 6, -6, 3, 7, 4, -5, 5, -6, -6, -4, 10, -4, 7, 7, 4, 11, 5, -6, 4, 3, 5, -4, -4, -3, 4, 3, -3, -3, -3]]

/-- `lunisolar_longitude_coefficients[:,1]` — skyfield/nutationlib.py:11-16, in tenths of a microarcsecond. -/
def lunisolarLongitude1 : List ℤ := List.flatten [
  [-174666, -1675, -234, 207, -3633, 1226, 73, -367, -36, -494, 137, 11, 10, 63, -63, -11, -42, 50, 11, -1, 0, 0, -1, 0, 21, 0, 0, -25, 10, 72, 0, -10, 11, 0, -85, 0, 0, -21, -11, 21],
  [-11, 10, 0, -11, 0, -11, -11, 0, 0, 0, 0, 0, 0, 0, 0, 0, 0, 0, 0, 0, 0, 0, 0, 0, 0, 0, 0, 0, 0, 0, 0, 0, 0, 0, 0, 0, 0, 0, 0, 0],
  [0, 0, 0, 0, 0, 0, 0, 0, 0, 0, 0, 0, 0, 0, 0, 0, 0, 0, 0, 0, 0, 0, 0, 0, 0, 0, 0, 0, 0, 0, 0, 0, 0, 0, 0, 0, 0, 0, 0, 0],
  [0, 0, -11, 0, 0, 0, 0, 0, 0, 0, 0, 0, 0, 0, 0, 0, 0, 0, 0, 0, 0, 0, 0, 0, 0, 0, 0, 0, 0, 0, 0, 0, 0, 0, 0, 0, 0, 0, 0, 0],
  [0, 0, 0, 0, 0, 0, 0, 0, 0, 0, 0, 0, 0, 0, 0, 0, 0, 0, 0, 0, 0, 0, 0, 0, 0, 0, 0, 0, 0, 0, 0, 0, 0, 0, 0, 0, 0, 0, 0, 0],
  [0, 0, 0, 0, 0, 0, 0, 0, 0, 0, 0, 0, 0, 0, 0, 0, 0, 0, 0, 0, 0, 0, 0, 0, 0, 0, 0, 0, 0, 0, 0, 0, 0, 0, 0, 0, 0, 0, 0, 0],
  [0, 0, 0, 0, 0, 0, 0, 0, 0, 0, 0, 0, 0, 0, 0, 0, 0, 0, 0, 0, 0, 0, 0, 0, 0, 0, 0, 0, 0, 0, 0, 0, 0, 0, 0, 0, 0, 0, 0, 0],
  [0, 0, 0, 0, 0, 0, 0, 0, 0, 0, 0, 0, 0, 0, 0, 0, 0, 0, 0, 0, 0, 0, 0, 0, 0, 0, 0, 0, 0, 0, 0, 0, 0, 0, 0, 0, 0, 0, 0, 0],
  [0, 0, 0, 0, 0, 0, 0, 0, 0, 0, 0, 0, 0, 0, 0, 0, 0, 0, 0, 0, 0, 0, 0, 0, 0, 0, 0, 0, 0, 0, 0, 0, 0, 0, 0, 0, 0, 0, 0, 0],
  [0, 0, 0, 0, 0, 0, 0, 0, 0, 0, 0, 0, 0, 0, 0, 0, 0, 0, 0, 0, 0, 0, 0, 0, 0, 0, 0, 0, 0, 0, 0, 0, 0, 0, 0, 0, 0, 0, 0, 0],
  [0, 0, 0, 0, 0, 0, 0, 0, 0, 0, 0, 0, 0, 0, 0, 0, 0, 0, 0, 0, 0, 0, 0, 0, 0, 0, 0, 0, 0, 0, 0, 0, 0, 0, 0, 0, 0, 0, 0, 0],
  [0, 0, 0, 0, 0, 0, 0, 0, 0, 0, 0, 0, 0, 0, 0, 0, 0, 0, 0, 0, 0, 0, 0, 0, 0, 0, 0, 0, 0, 0, 0, 0, 0, 0, 0, 0, 0, 0, 0, 0],
  [0, 0, 0, 0, 0, 0, 0, 0, 0, 0, 0, 0, 0, 0, 0, 0, 0, 0, 0, 0, 0, 0, 0, 0, 0, 0, 0, 0, 0, 0, 0, 0, 0, 0, 0, 0, 0, 0, 0, 0],
  [0, 0, 0, 0, 0, 0, 0, 0, 0, 0, 0, 0, 0, 0, 0, 0, 0, 0, 0, 0, 0, 0, 0, 0, 0, 0, 0, 0, 0, 0, 0, 0, 0, 0, 0, 0, 0, 0, 0, 0],
  [0, 0, 0, 0, 0, 0, 0, 0, 0, 0, 0, 0, 0, 0, 0, 0, 0, 0, 0, 0, 0, 0, 0, 0, 0, 0, 0, 0, 0, 0, 0, 0, 0, 0, 0, 0, 0, 0, 0, 0],
  [0, 0, 0, 0, 0, 0, 0, 0, 0, 0, 0, 0, 0, 0, 0, 0, 0, 0, 0, 0, 0, 0, 0, 0, 0, 0, 0, 0, 0, 0, 0, 0, 0, 0, 0, 0, 0, 0, 0, 0],
  [0, 0, 0, 0, 0, 0, 0, 0, 0, 0, 0, 0, 0, 0, 0, 0, 0, 0, 0, 0, 0, 0, 0, 0, 0, 0, 0, 0, 0, 0, 0, 0, 0, 0, 0, 0, 0, 0]]

/-- `lunisolar_longitude_coefficients[:,2]` — skyfield/nutationlib.py:11-16, in tenths of a microarcsecond. -/
def lunisolarLongitude2 : List ℤ := List.flatten [
  [33386, -13696, 2796, -698, 11817, -524, -872, 380, 816, 111, 181, 19, -168, 27, -189, 149, 129, 31, -150, 158, 0, -18, 131, -1, 10, -74, -66, 79, 11, -16, 13, -37, 63, 25, -10, 44, -14, -11, 25, 8],
  [2, 2, -7, -15, 21, -3, -21, -8, 6, -24, 5, -6, -2, 15, -10, 8, 5, 7, 5, 11, -10, -7, -2, 1, 5, -13, -6, 0, -353, -5, 9, 0, 0, 8, -2, 4, 0, 5, -3, -1],
  [9, 2, -6, -3, -1, -1, 2, 0, -5, -2, -3, 1, -25, -4, -3, 1, 0, 5, -1, -2, 1, 0, 0, 4, -2, 3, 1, -3, -2, 1, 0, -1, 1, 2, 2, 0, 1, 0, 2, 0],
  [0, 0, -2, -2, 0, -1, -3, 1, 0, -1, -1, 1, 1, -1, 0, -2, -2, -1, -1, 1, 2, 1, 0, -2, 0, 0, 2, -1, 0, 1, -1, 1, 0, 1, -2, 1, 0, -1, 2, 0],
  [0, 1, -1, 0, 0, -1, 0, 1, 1, 2, 0, -4, 0, 0, 0, 0, 0, -28, 0, 0, -1, -1, 1, 1, 0, 0, 0, 0, 0, 0, 1, 0, -1, 0, 0, -1, 0, 0, 0, -1],
  [0, 0, 1, -5, 0, 0, 0, 0, 0, 0, 0, 10, 0, 0, 0, 0, 0, 0, 0, 0, 0, 0, 1, 1, 0, 0, 0, 0, 0, 0, 0, 0, 0, 0, 0, -3, 0, 0, 0, 0],
  [0, 0, 0, 0, 0, 0, 0, 0, 0, 0, 0, 0, -3, 0, 0, 0, 0, 0, 0, 0, 0, 0, 0, 0, 0, -1, 0, 0, 0, 0, 0, 0, 0, 0, 0, 0, 0, 0, 0, 0],
  [0, 0, 0, 0, 0, 0, 0, 0, 0, 0, 0, 0, 0, 0, 0, 0, 0, 0, 0, 0, 0, 0, 0, 0, 0, 0, 0, 0, 0, 0, 0, 0, 0, 0, 0, 0, 0, 0, 0, 0],
  [0, 0, 0, 0, 0, 0, 0, 0, 0, 0, 0, 0, 0, 0, 0, 0, 0, 0, 0, 0, 0, 0, 0, 0, 0, 0, 0, 0, 0, 0, 0, 0, 0, 0, 0, 0, 0, 0, 0, 0],
  [0, 0, 0, 0, 0, 0, 0, 0, 0, 0, 0, 0, 0, 0, 0, 0, 0, 0, 0, 0, 0, 0, 0, 0, 0, 0, 0, 0, 0, 0, 0, 0, 0, 0, 0, 0, 0, 0, 0, 0],
  [0, 0, 0, 0, 0, 0, 0, 0, 0, 0, 0, 0, 0, 0, 0, 0, 0, 0, 0, 0, 0, 0, 0, 0, 0, 0, 0, 0, 0, 0, 0, 0, 0, 0, 0, 0, 0, 0, 0, 0],
  [0, 0, 0, 0, -1988, -63, 0, 5, 0, 364, -1044, 0, 0, 330, 0, 0, 0, 0, 0, 0, 0, 5, 0, 0, 0, 0, 0, 0, 0, 0, 0, 0, 0, 0, -12, 0, 0, 0, 0, 0],
  [0, 0, 0, 0, 0, 0, 0, 0, 0, 0, 0, 0, 0, 0, 0, 0, 0, 0, 0, 0, 0, 0, 0, 0, 0, 0, 0, 0, 0, 0, 0, 0, 0, 0, 0, 0, 0, 0, 0, 0],
  [0, 0, 0, 0, 0, 0, 0, 0, 0, 0, 0, 0, 13, 30, -162, 75, 0, 0, 0, 0, 0, 0, 0, 0, 0, 0, 0, 0, 0, 0, 0, 0, 0, 0, -3, -3, 0, 0, 0, 0],
  [3, 0, -13, 6, 0, 0, 0, 0, 0, 0, 0, 0, 0, 0, 0, 0, 0, 0, 0, 0, 0, 0, 0, 0, 0, 0, 0, 0, 0, 0, 0, 0, 0, 0, 0, 0, -26, -10, 0, 0],
  [0, 0, 0, 0, 0, 0, 0, 0, 0, 0, 0, 0, 0, 0, 0, 0, 0, 0, 0, 0, 0, 0, 0, 0, 0, 0, 0, 0, -5, 0, 0, 0, 0, 0, 0, 0, 0, 0, 0, 0],
  [0, 0, 0, 0, 0, 0, 0, 0, 0, 0, 0, 0, 0, 0, 0, 0, 0, 0, 0, 0, 0, 0, 0, 0, 0, 0, 0, 0, 0, 0, 0, 0, 0, 0, 0, 0, 0, 0]]

/-- `lunisolar_obliquity_coefficients[:,0]` — skyfield/nutationlib.py:11-16, in tenths of a microarcsecond. -/
def lunisolarObliquity0 : List ℤ := List.flatten [
  [92052331, 5730336, 978459, -897492, 73871, 224386, -6750, 200728, 129025, -95929, -68982, -53311, -1235, -33228, 31429, 25543, 26366, -24236, -1220, 16452, -13870, 477, 13238, -12338, -10758, -609, -550, 8551, -8001, 6850, -167, 6953, 6415, 5222, 168, 3268, 104, -3250, 3353, 3070],
  [3272, -3045, -2768, 3041, 2695, 2719, 2720, -51, -2206, -199, -1900, -41, 1313, 1233, -81, 1232, -20, 1207, 40, 1129, 1266, -1062, -1129, -9, 35, -107, 1073, 854, -553, -710, 647, -700, 672, 663, -594, -610, -556, 518, -490, -527],
  [465, 496, -50, -399, -395, -422, -440, -170, -39, -389, -23, -391, -495, -326, 369, 346, 304, 294, 4, 316, 8, 258, -279, 252, -244, 250, 29, 275, -228, 240, -253, 244, 9, 225, 207, 201, 216, -200, 14, -2],
  [188, 205, -19, -176, 189, -185, -24, 5, 171, -6, 184, -154, -174, 162, 144, -15, -19, -143, -144, -134, 131, -138, -128, -17, 128, -120, 109, -8, -108, 104, -104, -112, -102, 105, -14, 7, 96, -100, 94, 83],
  [-2, 6, -79, 43, 2, 84, 81, 78, 75, 69, 1, -54, -75, 69, -72, -75, 69, -54, -4, -64, 66, -61, 60, 56, 57, 56, -52, -54, 59, 61, 55, 57, -49, 44, 51, 56, -47, -1, -50, -5],
  [44, 48, 50, 12, -45, -45, 41, 43, 54, -40, 40, 40, -36, 39, -1, 34, 47, -44, -43, -39, 39, -43, 39, 39, 0, -36, 32, -31, -34, 33, 32, -2, 2, -28, -32, 3, 30, -29, -4, -33],
  [26, 20, 24, 23, -24, 25, -26, -25, 2, 0, 0, -26, -1, 21, -20, -22, 21, -21, 24, 22, 22, -21, -18, 22, -4, -4, -19, -23, 22, -2, 16, 1, -15, 19, 21, 0, -10, -14, -20, -13],
  [15, -15, 15, -8, 19, -15, 0, 20, -19, -14, 2, -18, 11, -1, -15, 20, 19, 19, -16, -14, -13, -2, -1, -16, -16, 15, 16, 13, -16, -13, -2, -13, -12, 18, -11, 14, 14, 12, 0, 5],
  [10, 15, 6, 0, 4, 5, 5, -1, 3, 0, 0, 0, 12, 7, -11, -6, -6, 0, -8, 0, 0, 8, 0, 10, 5, 10, -4, -6, -12, 0, 6, 9, 8, -7, 0, -10, 0, 8, -5, 7],
  [-6, 0, 5, -8, 3, -5, 0, 0, -4, 10, 11, -4, 4, -6, 9, 0, -5, 0, 10, -5, -9, 5, 11, 0, 7, -3, -4, 0, 6, 0, 6, 8, -5, 9, 6, 5, -6, 0, 0, -1],
  [-7, -10, -5, -1, 1, 0, 0, 3, 0, -5, 4, 0, 4, -9, -1, 8, 9, 10, -1, -8, -8, -4, 4, 4, 4, -9, -1, 4, 9, -1, 6, 4, -2, -10, -4, 7, 7, -7, 10, 5],
  [11, 9, 5, 7, 0, 0, 0, 0, -3, 0, 0, 1, -2, 0, -2, -2, 1, 2, -1, 0, 0, 0, 1, -2, 0, -2, 0, 0, -3, -1, 0, 0, 3, -4, 0, -2, -2, 2, 3, 2],
  [1, 0, 1, -3, 2, -2, 3, 0, 2, -2, 3, 0, -3, 2, 0, 0, 1, 0, 0, 2, -2, -1, 2, -2, -3, 0, -2, 2, 2, -3, 0, 0, -2, 0, 0, 2, -1, -1, 1, -3],
  [0, 1, 0, 0, 2, 0, 0, 3, 0, 0, 0, -1, 6, 0, 0, 0, 4, 2, -2, -2, -3, 0, 2, 2, 2, 0, 0, 0, 0, 1, 2, 0, 0, 0, 3, 0, 0, -1, 0, 2],
  [3, -2, 0, 0, 0, -3, 1, 0, -3, 3, -3, 2, 0, 1, -1, 2, -4, -1, 0, 3, 2, 4, 3, 2, -1, -3, 3, 0, -1, -2, 2, 0, 2, 0, -3, 2, 0, 0, -3, 0],
  [-2, -2, -3, 0, 0, 2, 2, 2, 3, -2, 0, 2, 0, -2, 0, -2, 0, -2, 2, -3, -2, 0, 0, 0, 0, 0, -1, 1, 0, 4, -3, 0, -3, -1, 0, 1, 3, 2, 2, 0],
  [-1, 2, 0, 0, -3, -2, 3, -2, -3, 0, 3, -2, -4, -2, 2, 0, 3, 3, 2, 0, 2, 0, -3, 0, 0, -2, 2, -2, -2, -2, 2, 2, 2, -2, -1, 1, 1, 2]]

/-- `lunisolar_obliquity_coefficients[:,1]` — skyfield/nutationlib.py:11-16, in tenths of a microarcsecond. -/
def lunisolarObliquity1 : List ℤ := List.flatten [
  [9086, -3015, -485, 470, -184, -677, 0, 18, -63, 299, -9, 32, 0, 0, 0, -11, 0, -10, 0, -11, 0, 0, -11, 10, 0, 0, 0, -2, 0, -42, 0, 0, 0, 0, -1, 0, 0, 0, 0, 0],
  [0, 0, 0, 0, 0, 0, 0, 0, 0, 0, 0, 0, 0, 0, 0, 0, 0, 0, 0, 0, 0, 0, 0, 0, 0, 0, 0, 0, 0, 0, 0, 0, 0, 0, 0, 0, 0, 0, 0, 0],
  [0, 0, 0, 0, 0, 0, 0, 0, 0, 0, 0, 0, 0, 0, 0, 0, 0, 0, 0, 0, 0, 0, 0, 0, 0, 0, 0, 0, 0, 0, 0, 0, 0, 0, 0, 0, 0, 0, 0, 0],
  [0, 0, 0, 0, 0, 0, 0, 0, 0, 0, 0, 0, 0, 0, 0, 0, 0, 0, 0, 0, 0, 0, 0, 0, 0, 0, 0, 0, 0, 0, 0, 0, 0, 0, 0, 0, 0, 0, 0, 0],
  [0, 0, 0, 0, 0, 0, 0, 0, 0, 0, 0, 0, 0, 0, 0, 0, 0, 0, 0, 0, 0, 0, 0, 0, 0, 0, 0, 0, 0, 0, 0, 0, 0, 0, 0, 0, 0, 0, 0, 0],
  [0, 0, 0, 0, 0, 0, 0, 0, 0, 0, 0, 0, 0, 0, 0, 0, 0, 0, 0, 0, 0, 0, 0, 0, 0, 0, 0, 0, 0, 0, 0, 0, 0, 0, 0, 0, 0, 0, 0, 0],
  [0, 0, 0, 0, 0, 0, 0, 0, 0, 0, 0, 0, 0, 0, 0, 0, 0, 0, 0, 0, 0, 0, 0, 0, 0, 0, 0, 0, 0, 0, 0, 0, 0, 0, 0, 0, 0, 0, 0, 0],
  [0, 0, 0, 0, 0, 0, 0, 0, 0, 0, 0, 0, 0, 0, 0, 0, 0, 0, 0, 0, 0, 0, 0, 0, 0, 0, 0, 0, 0, 0, 0, 0, 0, 0, 0, 0, 0, 0, 0, 0],
  [0, 0, 0, 0, 0, 0, 0, 0, 0, 0, 0, 0, 0, 0, 0, 0, 0, 0, 0, 0, 0, 0, 0, 0, 0, 0, 0, 0, 0, 0, 0, 0, 0, 0, 0, 0, 0, 0, 0, 0],
  [0, 0, 0, 0, 0, 0, 0, 0, 0, 0, 0, 0, 0, 0, 0, 0, 0, 0, 0, 0, 0, 0, 0, 0, 0, 0, 0, 0, 0, 0, 0, 0, 0, 0, 0, 0, 0, 0, 0, 0],
  [0, 0, 0, 0, 0, 0, 0, 0, 0, 0, 0, 0, 0, 0, 0, 0, 0, 0, 0, 0, 0, 0, 0, 0, 0, 0, 0, 0, 0, 0, 0, 0, 0, 0, 0, 0, 0, 0, 0, 0],
  [0, 0, 0, 0, 0, 0, 0, 0, 0, 0, 0, 0, 0, 0, 0, 0, 0, 0, 0, 0, 0, 0, 0, 0, 0, 0, 0, 0, 0, 0, 0, 0, 0, 0, 0, 0, 0, 0, 0, 0],
  [0, 0, 0, 0, 0, 0, 0, 0, 0, 0, 0, 0, 0, 0, 0, 0, 0, 0, 0, 0, 0, 0, 0, 0, 0, 0, 0, 0, 0, 0, 0, 0, 0, 0, 0, 0, 0, 0, 0, 0],
  [0, 0, 0, 0, 0, 0, 0, 0, 0, 0, 0, 0, 0, 0, 0, 0, 0, 0, 0, 0, 0, 0, 0, 0, 0, 0, 0, 0, 0, 0, 0, 0, 0, 0, 0, 0, 0, 0, 0, 0],
  [0, 0, 0, 0, 0, 0, 0, 0, 0, 0, 0, 0, 0, 0, 0, 0, 0, 0, 0, 0, 0, 0, 0, 0, 0, 0, 0, 0, 0, 0, 0, 0, 0, 0, 0, 0, 0, 0, 0, 0],
  [0, 0, 0, 0, 0, 0, 0, 0, 0, 0, 0, 0, 0, 0, 0, 0, 0, 0, 0, 0, 0, 0, 0, 0, 0, 0, 0, 0, 0, 0, 0, 0, 0, 0, 0, 0, 0, 0, 0, 0],
  [0, 0, 0, 0, 0, 0, 0, 0, 0, 0, 0, 0, 0, 0, 0, 0, 0, 0, 0, 0, 0, 0, 0, 0, 0, 0, 0, 0, 0, 0, 0, 0, 0, 0, 0, 0, 0, 0]]

/-- `lunisolar_obliquity_coefficients[:,2]` — skyfield/nutationlib.py:11-16, in tenths of a microarcsecond. -/
def lunisolarObliquity2 : List ℤ := List.flatten [
  [15377, -4587, 1374, -291, -1924, -174, 358, 318, 367, 132, 39, -4, 82, -9, -75, 66, 78, 20, 29, 68, 0, -25, 59, -3, -3, 13, 11, -45, -1, -5, 13, -14, 26, 15, 10, 19, 2, -5, 14, 4],
  [4, -1, -4, -5, 12, -3, -9, 4, 1, 2, 1, 3, -1, 7, 2, 4, -2, 3, -2, 5, -4, -3, -2, 0, -2, 1, -2, 0, -139, -2, 4, 0, 0, 4, -2, 2, 0, 2, -1, -1],
  [4, 1, 0, -1, -1, -1, 1, 1, 0, -1, 1, 0, -10, 2, -1, 1, 0, 2, -1, -1, -1, 0, 0, 2, -1, 2, 0, -1, -1, 1, 0, -1, 0, 1, 1, 0, 1, 0, 0, 0],
  [0, 0, 0, -1, 0, -1, 0, 0, 0, 0, -1, 0, 0, 0, 0, 0, 0, -1, 0, 0, 1, 0, 0, 0, 0, 0, 1, 0, 0, 0, 0, 0, 0, 0, 0, 0, 0, 0, 1, 0],
  [0, 0, 0, 0, 0, 0, 0, 0, 0, 1, 0, -2, 0, 0, 0, 0, 0, 11, 0, 0, 0, 0, 0, 1, 0, 0, 0, 0, 0, 0, 0, 0, 0, 0, 0, 0, 0, 0, 0, 0],
  [0, 0, 0, -2, 0, 0, 0, 0, 0, 0, 0, -2, 0, 0, 0, 0, 0, 0, 0, 0, 0, 0, 0, 0, 0, 0, 0, 0, 0, 0, 0, 0, 0, 0, 0, -1, 0, 0, 0, 0],
  [0, 0, 0, 0, 0, 0, 0, 0, 0, 0, 0, 0, -1, 0, 0, 0, 0, 0, 0, 0, 0, 0, 0, 0, 0, 0, 0, 0, 0, 0, 0, 0, 0, 0, 0, 0, 0, 0, 0, 0],
  [0, 0, 0, 0, 0, 0, 0, 0, 0, 0, 0, 0, 0, 0, 0, 0, 0, 0, 0, 0, 0, 0, 0, 0, 0, 0, 0, 0, 0, 0, 0, 0, 0, 0, 0, 0, 0, 0, 0, 0],
  [0, 0, 0, 0, 0, 0, 0, 0, 0, 0, -2, 0, 0, 0, 0, 0, 0, 0, 0, 0, 0, 0, 0, 0, 0, 0, 0, 0, 0, 0, 0, 0, 0, 0, 0, 0, 0, 0, 0, 0],
  [0, 0, 0, 0, 0, 0, 0, 0, 0, 0, 0, 0, 0, 0, 0, 0, 0, 0, 0, 0, 0, 0, 0, 0, 0, 0, 0, 0, 0, 0, 0, 0, 0, 0, 0, 0, 0, 0, 0, 0],
  [0, 0, 0, 0, 0, 0, 0, 0, 0, 0, 0, 0, 0, 0, 0, 0, 0, 0, 0, 0, 0, 0, 0, 0, 0, 0, 0, 0, 0, 0, 0, 0, 0, 0, 0, 0, 0, 0, 0, 0],
  [0, 0, 0, 0, -1679, -27, 0, 4, 0, 176, -891, 0, 0, 0, 0, 0, 0, 0, 0, 0, 0, 0, 0, 0, 0, 0, 0, 0, 0, 0, 0, 0, 0, 0, -10, 0, 0, 0, 0, 0],
  [0, 0, 0, 0, 0, 0, 0, 0, 0, 0, 0, 0, 0, 0, 0, 0, 0, 0, 0, 0, 0, 0, 0, 0, 0, 0, 0, 0, 0, 0, 0, 0, 0, 0, 0, 0, 0, 0, 0, 0],
  [0, 0, 0, 0, 0, 0, 0, 0, 0, 0, 0, 0, -5, 14, -138, 0, 0, 0, 0, 0, 0, 0, 0, 0, 0, 0, 0, 0, 0, 0, 0, 0, 0, 0, 1, -2, 0, 0, 0, 0],
  [-1, 0, -11, 0, 0, 0, 0, 0, 0, 0, 0, 0, 0, 0, 0, 0, 0, 0, 0, 0, 0, 0, 0, 0, 0, 0, 0, 0, 0, 0, 0, 0, 0, 0, 0, 0, -11, -5, 0, 0],
  [0, 0, 0, 0, 0, 0, 0, 0, 0, 0, 0, 0, 0, 0, 0, 0, 0, 0, 0, 0, 0, 0, 0, 0, 0, 0, 0, 0, -2, 0, 0, 0, 0, 0, 0, 0, 0, 0, 0, 0],
  [0, 0, 0, 0, 0, 0, 0, 0, 0, 0, 0, 0, 0, 0, 0, 0, 0, 0, 0, 0, 0, 0, 0, 0, 0, 0, 0, 0, 0, 0, 0, 0, 0, 0, 0, 0, 0, 0]]

/-- `nutation_coefficients_longitude[:,0]` — skyfield/nutationlib.py:11-16, in tenths of a microarcsecond. -/
def planetaryLongitude0 : List ℤ := List.flatten [
  [1440, 56, 125, 0, 3, 3, -114, -219, -3, -462, 99, -3, 0, 3, -12, 14, 31, -491, -3084, -1444, 11, 26, 103, 0, -26, 9, 12, -7, 0, 284, 226, 0, 0, 5, -41, 0, 425, 1200, 235, 11],
  [5, -5, 6, 15, 13, -6, 266, -460, 0, -3, 0, 4, 0, 0, 0, -17, -9, -6, -16, 0, 11, -3, 3, 0, 0, 0, 0, -6, -3, -5, 4, -42, -10, -3, 78, 0, 0, 0, 0, 0],
  [-7, -14, 0, 0, 45, -3, 0, 0, 3, 89, 0, -3, -349, -15, -3, -53, 5, 0, 15, -3, -21, 20, 0, 5, -17, 0, 32, 174, 11, -66, 47, 0, 10, -3, -24, 5, 3, 4, 0, -5],
  [8, 0, 10, 3, -5, 46, -14, 0, -5, -68, 0, 10, -5, -3, 76, 84, 3, -3, -3, -82, -73, -9, 3, -3, -9, -439, 57, 0, -4, -40, 23, 273, -449, -8, 6, 0, -3, 3, -48, 51],
  [-133, 0, -21, 0, -11, -18, 35, 0, 11, -5, -53, 0, 4, 0, -50, -13, -91, 6, -6, 0, 52, -3, 0, -4, -4, 10, 3, 0, 0, -4, -4, -8, 8, 0, -138, 0, 0, 54, 0, -7],
  [-37, 0, -4, 8, -9, -3, -145, -10, 11, -2150, -12, 85, 4, 3, -86, -6, 9, -8, -51, -11, 0, 0, 31, 140, 57, -14, 0, 4, 0, -3, 0, 9, -4, 5, 16, -3, 0, 7, -25, 42],
  [-27, 9, -1166, -5, -6, -8, 0, 117, -4, 3, -5, 0, -5, 4, -4, -24, 3, 0, 8, 3, 7, -3, 50, 0, 13, 0, 24, 5, 30, 18, 8, 3, 6, -3, 0, -127, 3, -6, 5, 16],
  [3, 0, 0, 7, 0, 0, -9, 17, 0, -20, -10, -4, 22, -4, -3, -16, 0, 4, -68, 27, 0, -25, -12, 3, 3, 490, -22, -7, -3, -46, -5, 2, 0, -28, 5, 0, -11, 0, -3, 25],
  [5, 1485, -7, 0, -6, 30, -4, -19, 0, 0, 4, 0, -3, 5, 0, 118, 0, -28, 5, 14, 0, -458, 0, 9, 0, 0, 11, 6, -16, 0, -5, -166, 15, 10, -78, 0, 7, -5, 3, 5],
  [0, -3, -3, 0, -1223, 0, 3, 0, -6, -368, -75, 11, 3, -3, -13, 21, -3, -4, 8, -19, -4, 0, -6, -8, -1, -14, 6, -74, 0, 4, 8, 0, -262, 0, -7, 0, -19, 202, -8, 0],
  [16, 5, 0, 1, -35, -3, 6, 3, 0, 12, 0, -598, -3, -5, 3, 5, 4, 16, 8, 8, 0, 113, 0, 4, 27, -3, 0, 5, 0, -13, 5, -18, -4, -5, -3, -5, 17, 11, 0, 83],
  [-4, 0, 117, -5, -3, -3, 0, 3, 0, 393, -4, -6, -3, 8, 18, 8, 89, 3, 54, 0, 3, 0, -154, 15, 0, 0, 80, 0, 11, 61, 14, -11, 0, 123, 0, -5, 7, 0, 0, -89],
  [0, 0, -123, 0, 12, -13, 0, 3, -62, -11, 0, -3, 0, 0, 0, -85, 163, -63, -21, 0, 3, 0, 3, 3, 0, 0, 6, 5, 0, 7, -3, 3, 74, -3, 26, 19, 6, 83, 0, 11],
  [3, 3, -4, 5, -339, 0, 5, 3, 0, 18, 9, -8, 3, 0, 6, -4, 67, 30, 0, 0, 0, 517, 0, 143, 29, -4, -6, 5, -25, -3, 0, -22, 50, 0, 0, -4, -5, 0, 4, 59],
  [0, -8, -3, 4, 370, 0, 0, -6, 0, -10, 0, 4, 34, 0, -5, -37, 3, 40, 0, -184, -3, -3, 0, 31, -3, -7, 0, 3, 0, 0, 19, 0, 0, 0, 28, 0, 8, 0, 0, -3],
  [-9, 3, 17, 0, 19, 0, 14, 0, 0, 0, 13, 0, 2, 0, 8, 0, 6, 6, 0, 5, 3, -3, 6, 7, -4, 4, 6, 0, 0, 5, -3, 4, -5, 4, 0, 13, 21, 0, 0, 0],
  [0, -3, 20, -34, -19, 3, -3, -6, -4, 3, 3, 4, 3, 6, -8, 0, -3, 0, 126, -5, -3, 5, 0, 0, -126, 3, 21, 0, -21, -3, 0, 8, -6, -3, 3, -3, -5, 24, 0, 0],
  [0, -24, 4, 13, 7, 3, 3]]

/-- `nutation_coefficients_longitude[:,1]` — skyfield/nutationlib.py:11-16, in tenths of a microarcsecond. -/
def planetaryLongitude1 : List ℤ := List.flatten [
  [0, -117, -43, 5, -7, 0, 0, 89, 0, 1604, 0, 0, 6, 0, 0, -218, -481, 128, 5123, 2409, -24, -9, -60, -13, -29, -27, 0, 0, 24, 0, 101, -8, -6, 0, 175, 15, 212, 598, 334, -12],
  [-6, 0, 0, 0, 0, -9, -78, -435, 15, 0, 131, 0, 3, 4, 3, -19, -11, 0, 8, 3, 24, -4, 0, -8, 3, 5, 3, 4, -5, 0, 24, 20, 233, 0, -18, 3, -3, -4, -8, -5],
  [0, 8, 8, 19, -22, 0, -3, 3, 5, -16, 3, 7, -62, 22, 0, 0, 0, -8, -7, 0, -78, -70, 6, 3, -4, 6, 15, 84, 56, -12, 8, 8, -22, 0, 12, -6, 0, 3, 29, -4],
  [-3, -3, 0, 0, 0, 66, 7, 3, 0, -34, 14, -6, -4, 5, 17, 298, 0, 0, 0, 292, 17, -16, 0, 0, -5, 0, -28, -6, 0, 57, 7, 80, 430, -47, 47, 23, 0, -4, -110, 114],
  [0, 4, -6, -3, -21, -436, -7, 5, -3, -3, -9, 3, 0, -4, 194, 52, 248, 49, -47, 5, 23, 0, 5, 0, 8, 0, 0, 8, 8, 0, 0, 4, -4, 15, 0, -7, -7, 0, 10, 0],
  [35, 4, 9, 0, -14, -9, 47, 40, -49, 0, 0, 0, 0, 0, 153, 9, -13, 12, 0, -268, 12, 7, 6, 27, 11, -39, -6, 15, 4, 0, 11, 6, 10, 3, 0, 0, 3, 0, 22, 223],
  [-143, 49, 0, 0, 0, 0, -4, 0, 8, 0, 0, 31, 0, 0, 0, -13, 0, -32, 12, 0, 13, 16, 0, -5, 0, 5, 5, -11, -3, 0, 614, -3, 17, -9, 6, 21, 5, -10, 0, 9],
  [0, 22, 19, 0, -5, 3, 3, 0, -3, 34, 0, 0, -87, 0, -6, -3, -3, 0, 39, 0, -4, 0, -3, 0, 66, 0, 93, 28, 13, 14, 0, 1, -3, 0, 0, 3, 0, 3, 0, 106],
  [21, 0, -32, 5, -3, -6, 4, 0, 4, 3, 0, -3, 0, 3, 11, 0, -5, 36, -5, -59, 9, 0, -45, 0, -3, -4, 0, 0, 23, -4, 0, 269, 0, 0, 45, -5, 0, 328, 0, 0],
  [3, 0, 0, -4, -26, 7, 0, 3, 20, 0, 0, 0, 0, 0, -30, 3, 0, 0, -27, -11, 0, 5, 0, 0, 0, 0, 0, 0, -3, 0, 11, 3, 0, -4, 0, -27, -8, 0, 35, 4],
  [-5, 0, -3, 0, -48, -5, 0, 0, -5, 55, 5, 0, -13, -7, 0, -7, 0, -6, -3, -31, 3, 0, -24, 0, 0, 0, -4, 0, -3, 0, 0, -10, -28, 6, 0, -9, 0, 4, -6, 15],
  [0, -114, 0, 19, 0, 0, -3, 0, -6, 3, 21, 0, 8, 0, -29, 34, 0, 12, -15, 3, 0, 35, -30, 0, 4, 9, -71, -20, 5, -96, 9, -6, -3, -415, 0, 0, -32, -9, -4, 0],
  [-86, 0, -416, -3, -6, 9, -15, 0, -97, 5, -19, 0, 4, 3, 4, -70, -12, -16, -32, -3, 0, 8, 10, 0, -7, -4, 19, -173, -7, -12, 0, -4, 0, 12, -14, 0, 24, 0, -10, -3],
  [0, 0, 0, -23, 0, -10, 0, 0, -4, -3, -11, 0, 0, 9, -9, -12, -91, -18, 0, -114, 0, 16, -7, -3, 0, 0, 0, 12, 0, 0, 4, 12, 0, 7, 3, 4, -11, 4, 17, 0],
  [-4, 0, 0, -15, -8, 0, 3, 3, 6, 0, 9, 17, 0, 5, 0, -7, 13, 0, -3, -3, 0, 0, -10, -6, -32, 0, -8, -4, 4, 3, -23, 0, 3, 9, 0, -7, -4, 0, 3, 0],
  [0, 12, -3, 7, 0, -5, -3, 0, 0, 5, 0, -3, 9, 0, 0, 4, 0, 0, 3, 0, 0, 0, 0, 0, 0, 0, 0, -4, -4, 0, 0, 0, 0, 0, 3, 0, 11, -5, -5, 5],
  [-5, 0, 10, 0, 0, 0, 0, 0, 0, 0, 0, 0, 0, 0, 0, 3, 0, -3, -63, 0, 28, 0, 9, 9, -63, 0, -11, -4, -11, 0, 3, 0, 0, 0, 0, 0, 0, -12, 3, 3],
  [3, -12, 0, 0, 0, 0, 0]]

/-- `nutation_coefficients_obliquity[:,0]` — skyfield/nutationlib.py:11-16, in tenths of a microarcsecond. -/
def planetaryObliquity0 : List ℤ := List.flatten [
  [0, -42, 0, 0, -3, 0, 0, 0, 0, 0, 0, 0, 2, 0, 0, 117, -257, 0, 2735, -1286, -11, 0, 0, -7, -16, -14, 0, 0, 0, 0, 0, -2, -3, 0, 76, 6, -133, 319, 0, -7],
  [3, 0, 0, 0, 0, 0, 0, -232, 7, 0, 0, 0, 0, 2, 0, -10, 6, 0, 0, 0, 11, -2, 0, -4, 0, 0, 2, 2, 0, 0, 13, 0, 0, 0, 0, 1, -1, -2, -4, 3],
  [0, 3, -4, 10, 0, 0, 0, 0, 3, -9, 0, 4, 0, 0, 0, 0, 0, 0, -4, 0, 0, -37, 3, 2, -2, 3, -8, 45, 0, -6, 4, 4, -12, 0, 0, 0, 0, 1, 15, -2],
  [-1, 0, 0, 0, 0, 35, 0, 2, 0, -18, 7, -3, -2, 2, 9, 159, 0, 0, 0, 156, 9, 0, -1, 0, -3, 0, -15, -3, 0, 30, 3, 43, 0, -25, 25, 13, 0, -2, -59, 61],
  [0, 0, -3, -1, -11, -233, 0, 3, -1, -1, -5, 2, 0, 0, 103, 28, 0, 26, -25, 3, 10, 0, 3, 0, 3, 0, 0, 4, 4, 0, 0, 2, -2, 7, 0, -3, -3, 0, 4, 0],
  [19, 0, 0, 0, -8, -5, 0, 21, -26, 0, 0, 0, 0, 0, 0, 5, -7, 6, 0, -116, 5, 3, 3, 14, 6, 0, -2, 8, 0, 0, 5, 0, 4, 0, 0, 0, 2, 0, 0, 119],
  [-77, 26, 0, 0, 0, 1, 0, 0, 4, 0, 0, 0, 1, 0, 0, -6, 0, -17, 5, 0, 0, 0, 0, -3, 0, 3, 2, -5, -2, 0, 0, -1, 9, -5, 3, 9, 0, -4, 0, 4],
  [0, 0, 10, 0, -2, 1, 1, 0, -2, 0, 1, 0, 0, 0, -2, -1, -2, 0, 0, 0, 0, 0, -2, 0, 29, 0, 49, 15, 7, 0, 0, 0, 0, 0, 0, 0, 0, 1, 0, 57],
  [11, 0, -17, 3, -2, -2, 0, 0, 2, 0, 0, -1, 0, 1, 0, 0, -3, 0, 0, -31, 5, 0, -20, 0, 0, -2, 0, 0, 0, -2, 0, 0, 0, 0, 0, -2, 0, 0, 0, 0],
  [1, 0, 0, -2, 0, 3, 0, 2, 0, 0, 0, 0, 0, 0, 0, 0, 0, 0, 0, 0, 0, 2, 0, 0, 0, 0, 0, 0, -1, 0, 0, 2, 0, 0, 0, -12, -4, 0, 19, 2],
  [0, 0, 0, 0, -21, -2, 0, 0, 0, 29, 3, 0, -7, -3, 0, 0, 0, 0, 0, -16, 1, 0, -10, 0, 0, 0, -2, 0, 0, 0, 0, -4, 0, 3, 0, -4, 0, 0, -2, 0],
  [0, -49, 0, 10, 0, 0, -1, 0, -2, 0, 11, -1, 4, 0, -13, 18, 0, 6, -7, 0, 0, 0, -13, 0, 2, 0, -31, -9, 2, -42, 4, -3, -1, -180, 0, 0, -17, -5, 2, 0],
  [-19, -19, -180, -1, -3, 4, -7, 0, -42, 2, -8, 0, 2, 0, 2, -31, -5, -7, -14, -1, 0, 0, 4, 0, -3, -2, 0, -75, -3, -5, 0, -2, 0, 6, -6, 0, 13, 0, -5, -1],
  [1, 0, 0, -12, 0, -5, 0, 0, -2, 0, -5, 0, 0, 0, -4, 0, -39, -8, 0, -50, 0, 7, -3, -1, 0, 0, 0, 5, 0, 0, 2, 5, 0, 4, 1, 2, -5, 2, 9, 0],
  [-2, 0, 0, -8, 0, -3, 1, 1, 0, 0, 4, 7, 0, 3, 0, -3, 7, 0, -2, -1, 0, 0, -6, 0, -14, 0, -4, 0, 0, 1, -10, 0, 2, 5, 0, -4, 0, -2, 0, 0],
  [1, 5, -1, 4, 0, -3, 0, -1, 0, 3, 0, -2, 4, 0, 0, 2, 0, 0, 1, 0, 0, 0, 0, 0, 0, 0, 0, 0, 0, 0, 0, 0, 0, 0, 0, 0, 0, 0, -2, 3],
  [0, 0, 0, 0, 0, 0, 0, 0, 0, 0, 0, 0, 0, 0, 0, 1, 0, -2, -27, 1, 15, 1, 4, 4, -27, 0, -6, 0, -6, 0, 1, 0, 0, 0, 0, 0, 0, -5, 1, 1],
  [2, -5, -1, 0, 0, 0, 0]]

/-- `nutation_coefficients_obliquity[:,1]` — skyfield/nutationlib.py:11-16, in tenths of a microarcsecond. -/
def planetaryObliquity1 : List ℤ := List.flatten [
  [0, -40, -54, 0, 0, -2, 61, 0, 0, 0, -53, 2, 0, 0, 0, 8, -17, 0, 1647, -771, -9, 0, 0, 0, 14, -5, -6, 0, 0, -151, 0, 0, 0, -3, 17, 0, 269, -641, 0, -6],
  [3, 3, -3, 0, -7, 0, 0, 246, 0, 2, 0, 0, 0, 0, 0, 9, -5, 3, 0, 0, -5, 1, -1, 0, 0, 0, 0, 3, 0, 2, -2, 0, 0, 1, 0, 0, 0, 1, -1, 0],
  [3, 6, 0, 0, 0, 0, 0, 0, -2, -48, 0, 2, 0, 0, 0, 0, -3, 0, -8, 1, 0, -11, 0, -2, 9, 0, 17, -93, 0, 35, -25, 0, -5, 2, 0, 0, -2, -2, 0, 2],
  [-5, 0, 0, -2, 3, -25, 0, 0, 0, 36, 0, -5, 3, 1, -41, -45, -1, 2, 1, 44, 39, 0, -2, 0, 5, 0, -30, 0, 2, 21, -13, -146, 0, 4, -3, 0, 2, -2, 26, -27],
  [57, 0, 11, 0, 6, 9, 0, 0, -6, 3, 28, 1, -2, 0, 27, 7, 0, -3, 3, 0, -23, 1, 0, 0, 2, 0, -2, 0, 1, 0, 0, 4, -4, 0, 0, 0, 0, -29, 0, 3],
  [20, 0, 0, -4, 5, 3, 0, 5, -7, 932, 5, -37, -2, -2, 0, 3, -5, 4, 22, 5, 0, 0, -17, -75, -30, 0, 0, -2, 0, 1, 0, 0, 2, 0, -9, 0, -1, -3, 0, -22],
  [14, -5, 505, 2, 3, 4, 0, -63, 2, -2, 2, 0, 3, -2, 2, 10, 0, 0, -3, -1, 0, 0, -27, 0, 0, 1, -11, -2, -16, -9, 0, -2, -3, 2, -1, 55, 0, 3, 0, -7],
  [-2, 0, 0, -4, 0, 0, 4, -7, -1, 0, 5, 2, 0, 2, 1, 7, 0, 0, 0, -14, 0, 0, 6, -1, -1, -213, 12, 4, 2, 0, 0, 0, 0, 15, -2, 0, 5, 0, 1, -13],
  [-3, 0, 4, 0, 3, -13, 0, 10, -1, 0, -2, 0, 0, -2, 0, -52, 0, 0, 0, -8, 1, 198, 0, -5, 0, -1, -6, -2, 0, 0, 2, 0, -8, -4, 0, 0, -4, 0, -2, -2],
  [0, 0, 0, 0, 0, 0, 0, 0, 0, 0, 0, -6, -2, 1, 0, 0, 1, 2, 0, 0, 2, 0, 2, 0, 0, 6, 0, 32, 0, -2, 0, 0, 114, 0, 4, 0, 8, -87, 5, 0],
  [0, -3, 0, 0, 15, 1, -3, -1, 0, -6, 0, 0, 1, 2, -1, 0, -2, 0, 0, -4, 0, -49, 0, -2, 0, 1, 0, -2, 0, 6, -2, 8, 0, 2, 1, 2, -7, 0, 0, 0],
  [2, 0, -51, 2, 0, 2, 0, 0, 0, 0, 2, 3, 1, 0, -8, -4, 0, -1, -24, 0, -1, 0, 67, 0, 0, 0, -35, 0, -5, -27, -6, 5, 0, -53, -35, 0, -4, 0, 0, 38],
  [-6, 6, 53, 0, -5, 6, 0, -1, 27, 5, 0, 1, 0, 0, 0, 37, -72, 28, 9, 0, -2, 0, -1, -1, 0, 0, 0, -2, 0, -3, 2, -1, -32, 2, -11, -8, -3, 0, 0, -5],
  [-1, -1, 0, -3, 147, 0, 0, -1, 0, 0, -4, 4, -1, 0, -2, 0, -29, -13, 0, 0, 23, -224, 0, -62, -13, 2, 3, -2, 11, 1, 0, 10, -22, 0, 0, 2, 2, 0, -2, 0],
  [0, 4, 0, -2, -160, 0, 0, 3, 0, 4, 0, -2, -15, 0, 2, 16, -2, 0, 0, 80, 1, 0, -1, -13, 1, 3, 0, 0, 0, 0, 2, -10, 0, -1, 0, 0, -4, 0, 0, 1],
  [4, -1, 0, 0, 0, 0, -1, 0, -5, 0, 0, 0, 3, -4, 0, 0, -3, 0, 0, -2, -1, 0, 0, 0, 0, 0, 0, 0, 0, 0, 0, 0, 0, 0, 0, 0, 0, 0, 0, 0],
  [0, 2, 0, 0, 0, -2, 1, 3, 0, 0, 0, 0, -1, -3, 3, 0, 0, 0, -55, 2, 2, -2, 1, -1, 55, -1, -11, 0, 11, 1, 0, -4, 3, 1, -1, 1, 2, -11, 0, 0],
  [0, 10, -2, -6, -3, -1, -1]]

/-- `se0_t_0` — skyfield/nutationlib.py:17-18, in units of 10⁻⁸ arcsecond (the file has the nearest floats). -/
def equinoxes0 : List ℤ := List.flatten [
  [264096, 6352, 1175, 1121, -455, 202, 198, -172, -141, -126, -63, -63, 46, 45, 36, -24, 32, 28, 27, 26, -21, 19, 18, -10, 15, -14, 14, -14, 14, 13, -11, 11, 11]]

/-- `se0_t_1` — skyfield/nutationlib.py:17-18, in units of 10⁻⁸ arcsecond (the file has the nearest floats). -/
def equinoxes1 : List ℤ := List.flatten [
  [-39, -2, 1, 1, 0, 0, 0, 0, -1, -1, 0, 0, 0, 0, 0, -12, 0, 0, 0, 0, 0, 0, 0, 5, 0, 0, 0, 0, 0, 0, 0, 0, 0]]

end Skyfield
