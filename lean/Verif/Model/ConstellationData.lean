import Mathlib.Data.Int.Notation
import Mathlib.Data.Nat.Notation

/-
The table bundled with Skyfield as skyfield/data/constellations.npz, decoded (by a script, from the bytes of the four arrays).
Generated; do not edit.
-/
namespace Skyfield

/-- `sorted_ra` — skyfield/data/constellations.npz — in seconds: every number in the file is the float nearest to one of these over 3600 (hours).
Used at skyfield/constellationlib.py:52-56. -/
def constellationRa : List ℤ :=
  [240, 510, 600, 1200, 2580, 2700, 3060, 3120, 4020, 4800, 4920, 5070, 5700, 6000, 6120, 6600, 6870, 6900, 7200,
   7350, 7800, 8400, 8700, 8760, 9060, 9240, 9540, 9600, 9780, 10800, 11160, 11400, 11520, 11820, 12000, 12120,
   12300, 12600, 12630, 12900, 13500, 13800, 13920, 14400, 14700, 15360, 15600, 16200, 16500, 16620, 16800, 16890,
   16920, 17100, 17400, 17700, 17880, 18000, 18300, 19200, 19800, 20160, 20520, 20760, 21000, 21180, 21600, 21960,
   22020, 22200, 22380, 22470, 22710, 23400, 23520, 23700, 24480, 24600, 24960, 25200, 25260, 25920, 26520, 27000,
   27600, 27900, 28110, 28380, 28530, 28680, 28800, 29100, 29400, 30120, 30300, 30420, 30900, 31800, 32520, 32700,
   33000, 33300, 33720, 34500, 35100, 35580, 36600, 36900, 37800, 38100, 38400, 38700, 38820, 39000, 39600, 40500,
   40800, 41400, 41460, 42600, 42720, 43200, 43500, 44100, 44400, 45300, 46200, 46800, 47700, 48600, 48900, 49200,
   50250, 50400, 50520, 51000, 51300, 51900, 52200, 52320, 52800, 53100, 53700, 54180, 54300, 54600, 54660, 54900,
   55200, 55560, 56400, 56700, 57300, 57600, 57720, 57900, 58200, 58560, 58800, 58950, 59115, 59520, 59700, 60300,
   60600, 61200, 61800, 62100, 63000, 63300, 63360, 63600, 64200, 64680, 64800, 65430, 65640, 65700, 66120, 66330,
   66900, 67184, 67920, 68400, 68700, 69000, 69300, 69330, 69690, 69840, 69900, 70800, 71160, 71400, 72000, 72510,
   72600, 72900, 73080, 73200, 73500, 73920, 73932, 74040, 74160, 74400, 75000, 75150, 75300, 75600, 75780, 76020,
   76500, 76800, 77100, 77280, 78000, 78240, 78720, 78750, 78870, 79080, 79200, 79680, 80340, 81900, 82140, 82320,
   82800, 83400, 84000, 84600, 84900, 85500, 85800]

/-- `sorted_dec` — skyfield/data/constellations.npz — in arcminutes: every number in the file is the float nearest to one of these over 60 (degrees).
Used at skyfield/constellationlib.py:52-56. -/
def constellationDec : List ℤ :=
  [-5100, -4950, -4560, -4500, -4200, -4050, -3900, -3840, -3815, -3660, -3600, -3540, -3510, -3480, -3450, -3420,
   -3390, -3300, -3270, -3240, -3210, -3190, -3180, -3150, -3090, -3060, -3045, -3000, -2940, -2890, -2880, -2790,
   -2760, -2730, -2640, -2580, -2520, -2400, -2385, -2375, -2220, -2205, -2160, -2100, -1980, -1870, -1800, -1770,
   -1750, -1680, -1635, -1590, -1530, -1475, -1470, -1463, -1440, -1320, -1200, -1155, -1140, -1095, -1020, -960,
   -900, -870, -722, -700, -660, -600, -540, -480, -420, -360, -240, -195, -105, 0, 90, 105, 120, 165, 180, 240, 270,
   330, 360, 375, 420, 450, 480, 510, 595, 600, 660, 710, 720, 750, 770, 810, 840, 860, 900, 930, 945, 960, 970,
   1050, 1080, 1110, 1140, 1150, 1170, 1200, 1230, 1260, 1265, 1275, 1290, 1320, 1370, 1410, 1425, 1500, 1530, 1560,
   1620, 1635, 1650, 1680, 1710, 1740, 1800, 1840, 1845, 1880, 1920, 1925, 1980, 2010, 2040, 2070, 2100, 2130, 2160,
   2190, 2205, 2385, 2400, 2520, 2610, 2625, 2640, 2670, 2700, 2760, 2820, 2850, 2880, 2910, 3000, 3030, 3090, 3150,
   3165, 3180, 3240, 3290, 3300, 3330, 3360, 3375, 3420, 3450, 3480, 3510, 3545, 3570, 3600, 3655, 3690, 3720, 3780,
   3840, 3960, 3990, 4020, 4080, 4200, 4410, 4500, 4620, 4800, 4920, 5100, 5160, 5170, 5190, 5280]

/-- `indexed_abbreviations` — skyfield/data/constellations.npz. Used at skyfield/constellationlib.py:52-56. -/
def constellationNames : List String :=
  ["And", "Ant", "Aps", "Aql", "Aqr", "Ara", "Ari", "Aur", "Boo", "CMa", "CMi", "CVn", "Cae", "Cam", "Cap", "Car",
   "Cas", "Cen", "Cep", "Cet", "Cha", "Cir", "Cnc", "Col", "Com", "CrA", "CrB", "Crt", "Cru", "Crv", "Cyg", "Del",
   "Dor", "Dra", "Equ", "Eri", "For", "Gem", "Gru", "Her", "Hor", "Hya", "Hyi", "Ind", "LMi", "Lac", "Leo", "Lep",
   "Lib", "Lup", "Lyn", "Lyr", "Men", "Mic", "Mon", "Mus", "Nor", "Oct", "Oph", "Ori", "Pav", "Peg", "Per", "Phe",
   "Pic", "PsA", "Psc", "Pup", "Pyx", "Ret", "Scl", "Sco", "Sct", "Ser", "Sex", "Sge", "Sgr", "Tau", "Tel", "TrA",
   "Tri", "Tuc", "UMa", "UMi", "Vel", "Vir", "Vol", "Vul"]

/-- Columns 0 to 19 of `radec_to_index` — skyfield/data/constellations.npz — run-length coded as (count, index).
Used at skyfield/constellationlib.py:52-56. -/
def constellationColumns0 : List (List (ℕ × ℕ)) :=
  [[(236, 57)],
      [(38, 57), (47, 52), (151, 57)],
      [(38, 42), (47, 52), (47, 20), (43, 2), (61, 57)],
      [(6, 42), (4, 81), (28, 42), (47, 52), (47, 20), (43, 2), (61, 57)],
      [(10, 81), (39, 42), (27, 52), (23, 86), (17, 15), (16, 55), (43, 2), (39, 60), (17, 43), (5, 81)],
      [(10, 81), (39, 42), (27, 32), (23, 86), (17, 15), (16, 55), (10, 21), (24, 79), (9, 2), (39, 60), (17, 43),
    (5, 81)],
      [(10, 81), (11, 42), (12, 40), (16, 69), (27, 32), (23, 86), (17, 15), (16, 55), (11, 21), (22, 79), (4, 5),
    (45, 60), (9, 43), (13, 81)],
      [(10, 81), (11, 42), (12, 40), (16, 69), (27, 32), (23, 86), (17, 15), (14, 55), (13, 21), (21, 79), (5, 5),
    (45, 60), (9, 43), (13, 81)],
      [(10, 81), (11, 42), (12, 40), (16, 69), (18, 32), (11, 64), (38, 15), (4, 17), (7, 28), (13, 17), (3, 21),
    (21, 79), (5, 5), (45, 60), (9, 43), (13, 81)],
      [(10, 81), (11, 42), (12, 40), (16, 69), (18, 32), (11, 64), (38, 15), (4, 17), (7, 28), (13, 17), (6, 21),
    (17, 79), (6, 5), (45, 60), (9, 43), (13, 81)],
      [(10, 81), (11, 42), (12, 40), (16, 69), (12, 32), (17, 64), (38, 15), (4, 17), (7, 28), (13, 17), (9, 21),
    (12, 79), (8, 5), (45, 60), (9, 43), (13, 81)],
      [(10, 81), (11, 42), (12, 40), (16, 69), (12, 32), (17, 64), (38, 15), (4, 17), (7, 28), (13, 17), (9, 21),
    (12, 56), (8, 5), (31, 60), (23, 43), (13, 81)],
      [(10, 81), (11, 42), (12, 40), (14, 69), (14, 32), (17, 64), (38, 15), (4, 17), (7, 28), (13, 17), (9, 21),
    (12, 56), (8, 5), (31, 60), (23, 43), (13, 81)],
      [(10, 63), (11, 35), (12, 40), (14, 69), (14, 32), (17, 64), (38, 15), (4, 17), (7, 28), (13, 17), (9, 21),
    (12, 56), (8, 5), (31, 60), (23, 43), (8, 81), (5, 63)],
      [(10, 63), (11, 35), (12, 40), (14, 69), (14, 32), (13, 64), (42, 15), (4, 17), (7, 28), (13, 17), (9, 21),
    (12, 56), (8, 5), (31, 60), (23, 43), (8, 81), (5, 63)],
      [(10, 63), (11, 35), (17, 40), (9, 69), (11, 32), (16, 64), (42, 15), (4, 17), (7, 28), (13, 17), (9, 21),
    (12, 56), (8, 5), (31, 60), (23, 43), (8, 81), (5, 63)],
      [(10, 63), (11, 35), (17, 40), (9, 69), (11, 32), (16, 64), (42, 15), (4, 17), (7, 28), (13, 17), (9, 21),
    (12, 56), (14, 5), (25, 78), (23, 43), (8, 38), (5, 63)],
      [(10, 63), (11, 35), (17, 40), (6, 69), (14, 32), (16, 64), (24, 15), (17, 84), (5, 17), (7, 28), (13, 17),
    (9, 21), (12, 56), (14, 5), (25, 78), (23, 43), (8, 38), (5, 63)],
      [(10, 63), (11, 35), (17, 40), (6, 69), (14, 32), (12, 64), (28, 15), (17, 84), (21, 17), (8, 49), (17, 56),
    (14, 5), (25, 78), (23, 43), (8, 38), (5, 63)],
      [(10, 63), (11, 35), (17, 40), (6, 69), (14, 32), (12, 64), (26, 15), (19, 84), (21, 17), (8, 49), (17, 56),
    (14, 5), (25, 78), (23, 43), (8, 38), (5, 63)]]

/-- Columns 20 to 39 of `radec_to_index` — skyfield/data/constellations.npz — run-length coded as (count, index).
Used at skyfield/constellationlib.py:52-56. -/
def constellationColumns1 : List (List (ℕ × ℕ)) :=
  [[(10, 63), (13, 35), (15, 40), (6, 69), (4, 32), (22, 64), (26, 15), (19, 84), (21, 17), (13, 49), (12, 56), (14,
    5), (25, 78), (23, 43), (8, 38), (5, 63)],
      [(13, 63), (10, 35), (15, 40), (6, 69), (4, 32), (22, 64), (26, 15), (19, 84), (21, 17), (13, 49), (12, 56),
    (14, 5), (25, 78), (23, 43), (8, 38), (5, 63)],
      [(13, 63), (10, 35), (19, 40), (6, 32), (22, 64), (26, 15), (19, 84), (21, 17), (13, 49), (12, 56), (14, 5),
    (25, 78), (23, 43), (8, 38), (5, 63)],
      [(13, 63), (10, 35), (19, 40), (6, 32), (22, 64), (23, 15), (22, 84), (21, 17), (13, 49), (12, 56), (14, 5),
    (25, 78), (23, 43), (8, 38), (5, 63)],
      [(13, 63), (10, 35), (19, 40), (6, 32), (19, 64), (26, 15), (22, 84), (21, 17), (13, 49), (12, 56), (14, 5),
    (25, 78), (23, 43), (8, 38), (5, 63)],
      [(16, 63), (7, 35), (19, 40), (6, 32), (19, 64), (26, 15), (22, 84), (21, 17), (13, 49), (12, 56), (14, 5),
    (25, 78), (23, 43), (8, 38), (5, 63)],
      [(16, 63), (12, 35), (17, 40), (3, 32), (19, 64), (26, 15), (22, 84), (21, 17), (13, 49), (12, 56), (14, 5),
    (25, 78), (23, 43), (8, 38), (5, 63)],
      [(16, 63), (12, 35), (17, 40), (3, 32), (19, 64), (24, 67), (24, 84), (21, 17), (13, 49), (12, 56), (14, 5),
    (25, 78), (23, 43), (8, 38), (5, 63)],
      [(16, 63), (12, 35), (17, 40), (3, 32), (19, 64), (24, 67), (24, 84), (21, 17), (13, 49), (12, 56), (14, 5),
    (25, 78), (14, 43), (17, 38), (5, 63)],
      [(16, 63), (14, 35), (16, 40), (2, 12), (19, 64), (24, 67), (24, 84), (21, 17), (13, 49), (12, 56), (14, 5),
    (25, 78), (14, 43), (17, 38), (5, 63)],
      [(22, 63), (8, 35), (16, 40), (2, 12), (19, 64), (24, 67), (24, 84), (21, 17), (13, 49), (12, 56), (14, 5),
    (25, 78), (14, 43), (17, 38), (5, 63)],
      [(22, 63), (8, 35), (16, 40), (2, 12), (19, 64), (24, 67), (24, 84), (21, 17), (15, 49), (10, 56), (14, 5),
    (25, 78), (14, 43), (17, 38), (5, 63)],
      [(22, 63), (8, 35), (16, 40), (9, 12), (12, 64), (24, 67), (24, 84), (21, 17), (15, 49), (10, 56), (14, 5),
    (25, 78), (14, 43), (17, 38), (5, 63)],
      [(22, 63), (15, 35), (9, 40), (9, 12), (12, 64), (24, 67), (24, 84), (21, 17), (15, 49), (10, 56), (14, 5),
    (25, 78), (14, 43), (17, 38), (5, 63)],
      [(22, 63), (15, 35), (9, 40), (9, 12), (12, 64), (24, 67), (24, 84), (21, 17), (15, 49), (10, 56), (12, 71),
    (13, 25), (14, 76), (14, 53), (17, 38), (5, 63)],
      [(22, 63), (21, 35), (3, 40), (9, 12), (12, 64), (24, 67), (24, 84), (21, 17), (15, 49), (10, 56), (12, 71),
    (13, 25), (14, 76), (14, 53), (17, 38), (5, 63)],
      [(22, 63), (21, 35), (3, 40), (12, 12), (18, 23), (18, 67), (21, 84), (21, 17), (15, 49), (10, 56), (12, 71),
    (13, 25), (14, 76), (14, 53), (17, 38), (5, 63)],
      [(22, 63), (21, 35), (3, 40), (12, 12), (18, 23), (18, 67), (21, 84), (28, 17), (11, 49), (19, 71), (13, 25),
    (14, 76), (14, 53), (17, 38), (5, 63)],
      [(14, 70), (16, 36), (16, 35), (12, 12), (18, 23), (18, 67), (21, 84), (28, 17), (11, 49), (19, 71), (13, 25),
    (14, 76), (14, 53), (17, 38), (5, 70)],
      [(14, 70), (16, 36), (16, 35), (12, 12), (18, 23), (18, 67), (9, 84), (12, 1), (28, 17), (11, 49), (19, 71),
    (13, 25), (14, 76), (14, 53), (17, 38), (5, 70)]]

/-- Columns 40 to 59 of `radec_to_index` — skyfield/data/constellations.npz — run-length coded as (count, index).
Used at skyfield/constellationlib.py:52-56. -/
def constellationColumns2 : List (List (ℕ × ℕ)) :=
  [[(14, 70), (24, 36), (8, 35), (12, 12), (18, 23), (18, 67), (9, 84), (12, 1), (28, 17), (11, 49), (19, 71), (13,
    25), (14, 76), (14, 53), (17, 38), (5, 70)],
      [(14, 70), (24, 36), (11, 35), (9, 12), (18, 23), (18, 67), (9, 84), (12, 1), (28, 17), (11, 49), (19, 71),
    (27, 76), (14, 53), (15, 65), (7, 70)],
      [(14, 70), (24, 36), (11, 35), (9, 12), (18, 23), (18, 67), (9, 68), (12, 1), (28, 17), (11, 49), (19, 71),
    (27, 76), (14, 53), (15, 65), (7, 70)],
      [(14, 70), (27, 36), (8, 35), (9, 12), (18, 23), (18, 67), (9, 68), (12, 1), (28, 17), (11, 49), (19, 71),
    (27, 76), (14, 53), (15, 65), (7, 70)],
      [(14, 70), (27, 36), (8, 35), (9, 12), (18, 23), (18, 67), (9, 68), (11, 1), (10, 41), (19, 17), (11, 49),
    (19, 71), (27, 76), (14, 53), (15, 65), (7, 70)],
      [(14, 70), (27, 36), (8, 35), (9, 12), (11, 23), (14, 9), (11, 67), (9, 68), (11, 1), (12, 41), (17, 17), (11,
    49), (19, 71), (27, 76), (14, 53), (15, 65), (7, 70)],
      [(14, 70), (27, 36), (8, 35), (9, 12), (11, 23), (14, 9), (11, 67), (9, 68), (7, 1), (16, 41), (17, 17), (11,
    49), (19, 71), (27, 76), (14, 53), (15, 65), (7, 70)],
      [(14, 70), (27, 36), (12, 35), (5, 12), (11, 23), (14, 9), (11, 67), (9, 68), (7, 1), (16, 41), (17, 17), (11,
    49), (10, 71), (7, 58), (29, 76), (14, 53), (15, 65), (7, 70)],
      [(14, 70), (27, 36), (12, 35), (5, 12), (11, 23), (14, 9), (11, 67), (9, 68), (7, 1), (33, 41), (8, 48), (13,
    71), (7, 58), (29, 76), (14, 53), (15, 65), (7, 70)],
      [(14, 70), (27, 36), (12, 35), (5, 12), (11, 23), (14, 9), (11, 67), (9, 68), (5, 1), (35, 41), (8, 48), (13,
    71), (7, 58), (29, 76), (14, 53), (15, 65), (7, 70)],
      [(14, 70), (27, 36), (12, 35), (5, 12), (11, 23), (14, 9), (11, 67), (9, 68), (5, 1), (35, 41), (8, 48), (13,
    71), (7, 58), (24, 76), (19, 14), (15, 65), (7, 70)],
      [(14, 70), (27, 36), (14, 35), (14, 47), (14, 9), (11, 67), (9, 68), (5, 1), (35, 41), (8, 48), (13, 71), (7,
    58), (24, 76), (19, 14), (15, 65), (7, 70)],
      [(14, 70), (27, 36), (14, 35), (14, 47), (14, 9), (11, 67), (9, 68), (2, 1), (38, 41), (8, 48), (13, 71), (7,
    58), (24, 76), (19, 14), (15, 65), (7, 70)],
      [(14, 19), (27, 36), (14, 35), (14, 47), (14, 9), (11, 67), (9, 68), (2, 1), (38, 41), (8, 48), (13, 71), (7,
    58), (24, 76), (24, 14), (16, 4), (1, 19)],
      [(14, 19), (27, 36), (14, 35), (14, 47), (14, 9), (11, 67), (9, 68), (2, 1), (38, 41), (8, 48), (7, 71), (13,
    58), (24, 76), (24, 14), (16, 4), (1, 19)],
      [(14, 19), (27, 36), (14, 35), (14, 47), (14, 9), (11, 67), (9, 68), (2, 1), (9, 41), (6, 27), (6, 29), (11,
    41), (14, 48), (7, 71), (13, 58), (24, 76), (24, 14), (16, 4), (1, 19)],
      [(27, 19), (28, 35), (14, 47), (14, 9), (11, 67), (9, 68), (2, 1), (9, 41), (6, 27), (6, 29), (11, 41), (14,
    48), (7, 71), (13, 58), (24, 76), (24, 14), (16, 4), (1, 19)],
      [(27, 19), (28, 35), (14, 47), (14, 9), (11, 67), (6, 68), (14, 41), (6, 27), (6, 29), (11, 41), (14, 48), (7,
    71), (13, 58), (24, 76), (24, 14), (16, 4), (1, 19)],
      [(27, 19), (28, 35), (14, 47), (14, 9), (11, 67), (6, 68), (14, 41), (6, 27), (7, 29), (10, 85), (14, 48), (7,
    71), (13, 58), (24, 76), (24, 14), (16, 4), (1, 19)],
      [(27, 19), (28, 35), (14, 47), (14, 9), (11, 67), (6, 68), (14, 41), (6, 27), (7, 29), (10, 85), (16, 48), (5,
    71), (13, 58), (24, 76), (24, 14), (16, 4), (1, 19)]]

/-- Columns 60 to 79 of `radec_to_index` — skyfield/data/constellations.npz — run-length coded as (count, index).
Used at skyfield/constellationlib.py:52-56. -/
def constellationColumns3 : List (List (ℕ × ℕ)) :=
  [[(27, 19), (28, 35), (14, 47), (14, 9), (11, 67), (6, 68), (14, 41), (6, 27), (7, 29), (10, 85), (16, 48), (7,
    71), (11, 58), (24, 76), (24, 14), (16, 4), (1, 19)],
      [(27, 19), (28, 35), (14, 47), (14, 9), (11, 67), (3, 68), (15, 41), (8, 27), (7, 29), (10, 85), (16, 48), (7,
    71), (11, 58), (24, 76), (24, 14), (16, 4), (1, 19)],
      [(27, 19), (28, 35), (14, 47), (14, 9), (11, 67), (3, 68), (15, 41), (8, 27), (7, 29), (10, 85), (16, 48), (5,
    71), (13, 58), (24, 76), (24, 14), (16, 4), (1, 19)],
      [(27, 19), (28, 35), (14, 47), (14, 9), (11, 67), (18, 41), (8, 27), (7, 29), (10, 85), (16, 48), (5, 71),
    (13, 58), (24, 76), (24, 14), (16, 4), (1, 19)],
      [(27, 19), (28, 35), (14, 47), (14, 9), (11, 67), (18, 41), (8, 27), (7, 29), (10, 85), (16, 48), (5, 71), (9,
    58), (11, 73), (5, 72), (12, 76), (24, 14), (16, 4), (1, 19)],
      [(27, 19), (28, 35), (14, 47), (14, 9), (11, 67), (18, 41), (8, 27), (7, 29), (10, 85), (16, 48), (5, 71), (9,
    58), (11, 73), (5, 72), (12, 76), (7, 14), (12, 4), (5, 14), (16, 4), (1, 19)],
      [(27, 19), (29, 35), (13, 47), (14, 9), (11, 67), (18, 41), (8, 27), (7, 29), (10, 85), (16, 48), (5, 71), (9,
    58), (11, 73), (5, 72), (12, 76), (7, 14), (12, 4), (5, 14), (16, 4), (1, 19)],
      [(27, 19), (29, 35), (13, 47), (14, 9), (11, 67), (18, 41), (8, 27), (7, 29), (10, 85), (16, 48), (5, 71), (9,
    58), (11, 73), (5, 72), (12, 3), (7, 14), (12, 4), (5, 14), (16, 4), (1, 19)],
      [(27, 19), (29, 35), (13, 47), (14, 9), (11, 67), (18, 41), (8, 27), (7, 29), (10, 85), (16, 48), (5, 71), (9,
    58), (3, 73), (2, 58), (6, 73), (5, 72), (12, 3), (7, 14), (12, 4), (5, 14), (16, 4), (1, 19)],
      [(27, 19), (32, 35), (6, 59), (27, 54), (12, 41), (8, 74), (8, 27), (17, 85), (16, 48), (5, 71), (9, 58), (3,
    73), (2, 58), (6, 73), (5, 72), (12, 3), (7, 14), (12, 4), (5, 14), (16, 4), (1, 19)],
      [(27, 19), (32, 35), (6, 59), (27, 54), (12, 41), (8, 74), (8, 27), (17, 85), (16, 48), (5, 71), (16, 58), (4,
    73), (5, 72), (12, 3), (7, 14), (12, 4), (5, 14), (16, 4), (1, 19)],
      [(27, 19), (32, 35), (6, 59), (27, 54), (12, 41), (8, 74), (8, 27), (17, 85), (16, 48), (5, 71), (16, 58), (4,
    73), (5, 72), (19, 3), (33, 4), (1, 19)],
      [(27, 19), (32, 35), (6, 59), (27, 54), (12, 41), (8, 74), (8, 27), (21, 85), (12, 48), (21, 58), (4, 73), (5,
    72), (19, 3), (33, 4), (1, 19)],
      [(4, 66), (23, 19), (32, 35), (6, 59), (27, 54), (12, 41), (8, 74), (8, 27), (21, 85), (12, 48), (21, 58), (4,
    73), (5, 72), (19, 3), (33, 4), (1, 66)],
      [(4, 66), (23, 19), (32, 35), (6, 59), (27, 54), (12, 41), (8, 74), (7, 46), (22, 85), (12, 48), (21, 58), (4,
    73), (5, 72), (19, 3), (33, 4), (1, 66)],
      [(4, 66), (23, 19), (24, 35), (21, 59), (20, 54), (12, 41), (8, 74), (7, 46), (22, 85), (12, 48), (20, 58),
    (8, 73), (21, 3), (24, 4), (10, 66)],
      [(4, 66), (23, 19), (24, 35), (21, 59), (20, 54), (12, 41), (8, 74), (7, 46), (22, 85), (4, 48), (13, 73),
    (15, 58), (8, 73), (21, 3), (24, 4), (10, 66)],
      [(4, 66), (30, 19), (6, 77), (11, 35), (21, 59), (20, 54), (12, 41), (8, 74), (7, 46), (22, 85), (4, 48), (13,
    73), (15, 58), (8, 73), (21, 3), (24, 4), (10, 66)],
      [(4, 66), (30, 19), (16, 77), (22, 59), (10, 54), (10, 10), (12, 41), (8, 74), (7, 46), (26, 85), (13, 73),
    (20, 58), (3, 73), (21, 3), (24, 4), (10, 66)],
      [(4, 66), (30, 19), (16, 77), (22, 59), (9, 54), (11, 10), (12, 41), (8, 74), (7, 46), (26, 85), (13, 73),
    (20, 58), (3, 73), (21, 3), (24, 4), (10, 66)]]

/-- Columns 80 to 99 of `radec_to_index` — skyfield/data/constellations.npz — run-length coded as (count, index).
Used at skyfield/constellationlib.py:52-56. -/
def constellationColumns4 : List (List (ℕ × ℕ)) :=
  [[(4, 66), (30, 19), (16, 77), (22, 59), (9, 54), (11, 10), (12, 41), (8, 74), (7, 46), (26, 85), (13, 73), (20,
    58), (3, 73), (21, 3), (15, 4), (6, 61), (3, 4), (10, 66)],
      [(19, 66), (15, 19), (16, 77), (22, 59), (9, 54), (11, 10), (12, 41), (8, 74), (7, 46), (26, 85), (13, 73),
    (20, 58), (5, 73), (16, 3), (8, 31), (7, 34), (2, 61), (1, 4), (9, 61), (10, 66)],
      [(19, 66), (15, 19), (16, 77), (22, 59), (9, 54), (11, 10), (12, 41), (8, 74), (7, 46), (26, 85), (13, 73),
    (20, 58), (5, 73), (16, 3), (8, 31), (7, 34), (12, 61), (10, 66)],
      [(19, 66), (15, 19), (16, 77), (22, 59), (9, 54), (11, 10), (12, 41), (8, 74), (7, 46), (26, 85), (13, 73),
    (22, 58), (3, 73), (16, 3), (8, 31), (7, 34), (12, 61), (10, 66)],
      [(19, 66), (15, 19), (16, 77), (22, 59), (9, 54), (11, 10), (12, 41), (8, 74), (7, 46), (26, 85), (11, 73),
    (8, 39), (16, 58), (3, 73), (16, 3), (8, 31), (7, 34), (12, 61), (10, 66)],
      [(19, 66), (15, 19), (16, 77), (22, 59), (9, 54), (11, 10), (12, 41), (8, 74), (7, 46), (26, 85), (11, 73),
    (8, 39), (14, 58), (5, 73), (16, 3), (8, 31), (7, 34), (12, 61), (10, 66)],
      [(19, 66), (15, 19), (16, 77), (22, 59), (8, 54), (12, 10), (12, 41), (8, 74), (7, 46), (26, 85), (11, 73),
    (8, 39), (14, 58), (5, 73), (16, 3), (8, 31), (7, 34), (12, 61), (10, 66)],
      [(19, 66), (15, 19), (16, 77), (22, 59), (8, 54), (12, 10), (12, 41), (8, 74), (7, 46), (26, 85), (11, 73),
    (8, 39), (14, 58), (5, 73), (16, 3), (9, 31), (6, 34), (12, 61), (10, 66)],
      [(19, 66), (15, 19), (16, 77), (22, 59), (8, 54), (12, 10), (12, 41), (8, 74), (7, 46), (26, 85), (11, 73),
    (8, 39), (18, 58), (17, 3), (9, 31), (6, 34), (12, 61), (10, 66)],
      [(19, 66), (15, 19), (16, 77), (22, 59), (8, 54), (9, 10), (13, 22), (17, 46), (26, 85), (11, 73), (8, 39),
    (18, 58), (17, 3), (9, 31), (6, 34), (12, 61), (10, 66)],
      [(19, 66), (15, 19), (16, 77), (22, 59), (8, 54), (9, 10), (13, 22), (17, 46), (26, 85), (11, 73), (8, 39),
    (18, 58), (17, 3), (9, 31), (6, 34), (21, 61), (1, 66)],
      [(19, 66), (15, 19), (16, 77), (22, 59), (8, 54), (9, 10), (13, 22), (17, 46), (11, 85), (15, 8), (11, 73),
    (8, 39), (18, 58), (17, 3), (9, 31), (6, 34), (21, 61), (1, 66)],
      [(19, 66), (15, 19), (16, 77), (22, 59), (8, 54), (9, 10), (13, 22), (17, 46), (11, 85), (15, 8), (11, 73),
    (8, 39), (18, 58), (14, 3), (12, 31), (6, 34), (21, 61), (1, 66)],
      [(14, 66), (20, 6), (16, 77), (22, 59), (8, 54), (9, 10), (13, 22), (17, 46), (11, 85), (15, 8), (11, 73), (8,
    39), (18, 58), (14, 3), (12, 31), (6, 34), (21, 61), (1, 66)],
      [(14, 66), (20, 6), (16, 77), (23, 59), (6, 54), (1, 37), (7, 10), (15, 22), (17, 46), (11, 85), (15, 8), (11,
    73), (8, 39), (18, 58), (14, 3), (12, 31), (6, 34), (22, 61)],
      [(14, 66), (20, 6), (16, 77), (23, 59), (6, 54), (1, 37), (7, 10), (15, 22), (19, 46), (9, 85), (15, 8), (11,
    73), (8, 39), (18, 58), (14, 3), (12, 31), (6, 34), (22, 61)],
      [(14, 66), (20, 6), (16, 77), (23, 59), (6, 54), (1, 37), (7, 10), (15, 22), (19, 46), (9, 85), (15, 8), (11,
    73), (8, 39), (18, 58), (14, 3), (15, 31), (1, 61), (2, 34), (22, 61)],
      [(14, 66), (20, 6), (16, 77), (23, 59), (7, 37), (7, 10), (15, 22), (19, 46), (9, 85), (15, 8), (11, 73), (8,
    39), (14, 58), (5, 39), (13, 3), (15, 31), (1, 61), (2, 34), (22, 61)],
      [(2, 61), (12, 66), (20, 6), (16, 77), (12, 59), (2, 77), (9, 59), (11, 37), (3, 10), (15, 22), (19, 46), (9,
    85), (15, 8), (11, 73), (8, 39), (14, 58), (5, 39), (13, 3), (15, 31), (25, 61)],
      [(2, 61), (12, 66), (20, 6), (16, 77), (12, 59), (2, 77), (9, 59), (11, 37), (3, 10), (15, 22), (19, 46), (9,
    85), (15, 8), (11, 73), (12, 39), (10, 58), (5, 39), (13, 3), (15, 31), (25, 61)]]

/-- Columns 100 to 119 of `radec_to_index` — skyfield/data/constellations.npz — run-length coded as (count, index).
Used at skyfield/constellationlib.py:52-56. -/
def constellationColumns5 : List (List (ℕ × ℕ)) :=
  [[(2, 61), (12, 66), (20, 6), (16, 77), (12, 59), (2, 77), (9, 59), (14, 37), (15, 22), (19, 46), (9, 85), (15,
    8), (11, 73), (12, 39), (10, 58), (5, 39), (13, 3), (15, 31), (25, 61)],
      [(2, 61), (12, 66), (20, 6), (16, 77), (12, 59), (2, 77), (9, 59), (14, 37), (15, 22), (19, 46), (6, 24), (3,
    85), (15, 8), (11, 73), (12, 39), (10, 58), (5, 39), (13, 3), (15, 31), (25, 61)],
      [(2, 61), (12, 66), (20, 6), (16, 77), (12, 59), (2, 77), (9, 59), (14, 37), (15, 22), (19, 46), (6, 24), (3,
    85), (15, 8), (11, 73), (27, 39), (13, 3), (15, 31), (25, 61)],
      [(2, 61), (12, 66), (20, 6), (16, 77), (12, 59), (2, 77), (9, 59), (14, 37), (15, 22), (19, 46), (9, 24), (15,
    8), (11, 73), (27, 39), (13, 3), (15, 31), (25, 61)],
      [(2, 61), (12, 66), (20, 6), (23, 77), (3, 59), (4, 77), (9, 59), (14, 37), (15, 22), (19, 46), (9, 24), (15,
    8), (11, 73), (27, 39), (13, 3), (15, 31), (25, 61)],
      [(2, 61), (12, 66), (20, 6), (23, 77), (3, 59), (4, 77), (9, 59), (14, 37), (15, 22), (19, 46), (9, 24), (15,
    8), (11, 73), (27, 39), (11, 3), (4, 75), (13, 31), (25, 61)],
      [(2, 61), (12, 66), (20, 6), (30, 77), (9, 59), (14, 37), (15, 22), (19, 46), (9, 24), (15, 8), (8, 73), (30,
    39), (11, 3), (4, 75), (13, 31), (25, 61)],
      [(2, 61), (12, 66), (20, 6), (30, 77), (9, 59), (14, 37), (15, 22), (19, 46), (9, 24), (15, 8), (8, 73), (30,
    39), (1, 3), (14, 75), (13, 31), (25, 61)],
      [(2, 61), (12, 66), (20, 6), (30, 77), (7, 59), (16, 37), (15, 22), (19, 46), (9, 24), (15, 8), (8, 73), (30,
    39), (1, 3), (14, 75), (13, 31), (25, 61)],
      [(2, 61), (12, 66), (20, 6), (29, 77), (8, 59), (16, 37), (15, 22), (19, 46), (9, 24), (15, 8), (8, 73), (30,
    39), (1, 3), (14, 75), (13, 31), (25, 61)],
      [(2, 61), (12, 66), (20, 6), (29, 77), (8, 59), (16, 37), (15, 22), (19, 46), (9, 24), (15, 8), (8, 73), (30,
    39), (15, 75), (13, 31), (25, 61)],
      [(2, 61), (12, 66), (22, 6), (27, 77), (8, 59), (16, 37), (15, 22), (19, 46), (9, 24), (15, 8), (8, 73), (30,
    39), (15, 75), (13, 31), (25, 61)],
      [(2, 61), (12, 66), (22, 6), (27, 77), (8, 59), (16, 37), (15, 22), (19, 46), (9, 24), (15, 8), (8, 73), (30,
    39), (4, 75), (7, 87), (4, 75), (13, 31), (25, 61)],
      [(2, 61), (12, 66), (22, 6), (27, 77), (8, 59), (16, 37), (15, 22), (19, 46), (9, 24), (15, 8), (8, 73), (30,
    39), (4, 75), (7, 87), (4, 75), (6, 31), (9, 87), (23, 61)],
      [(2, 61), (12, 66), (22, 6), (27, 77), (8, 59), (17, 37), (14, 22), (19, 46), (9, 24), (15, 8), (8, 73), (30,
    39), (4, 75), (7, 87), (4, 75), (6, 31), (9, 87), (23, 61)],
      [(2, 61), (12, 66), (22, 6), (27, 77), (8, 59), (17, 37), (14, 22), (19, 46), (9, 24), (15, 8), (8, 73), (30,
    39), (4, 75), (7, 87), (4, 75), (15, 87), (23, 61)],
      [(2, 61), (5, 0), (7, 66), (22, 6), (27, 77), (8, 59), (17, 37), (14, 22), (19, 46), (9, 24), (15, 8), (8,
    73), (30, 39), (4, 75), (7, 87), (4, 75), (15, 87), (23, 61)],
      [(2, 61), (5, 0), (7, 66), (22, 6), (27, 77), (8, 59), (17, 37), (14, 22), (19, 46), (9, 24), (15, 8), (8,
    73), (30, 39), (11, 87), (4, 75), (15, 87), (23, 61)],
      [(2, 61), (5, 0), (7, 66), (22, 6), (27, 77), (8, 59), (17, 37), (14, 22), (19, 46), (9, 24), (15, 8), (8,
    73), (30, 39), (30, 87), (23, 61)],
      [(2, 61), (5, 0), (7, 66), (22, 6), (27, 77), (3, 59), (22, 37), (14, 22), (19, 46), (9, 24), (15, 8), (8,
    73), (30, 39), (30, 87), (23, 61)]]

/-- Columns 120 to 139 of `radec_to_index` — skyfield/data/constellations.npz — run-length coded as (count, index).
Used at skyfield/constellationlib.py:52-56. -/
def constellationColumns6 : List (List (ℕ × ℕ)) :=
  [[(1, 61), (6, 0), (7, 66), (22, 6), (27, 77), (3, 59), (22, 37), (14, 22), (19, 46), (9, 24), (15, 8), (10, 73),
    (28, 39), (30, 87), (23, 61)],
      [(1, 61), (6, 0), (7, 66), (22, 6), (30, 77), (22, 37), (14, 22), (19, 46), (9, 24), (15, 8), (10, 73), (28,
    39), (30, 87), (23, 61)],
      [(1, 61), (6, 0), (7, 66), (22, 6), (30, 77), (22, 37), (14, 22), (7, 46), (3, 44), (9, 46), (9, 24), (15, 8),
    (10, 73), (28, 39), (32, 87), (21, 61)],
      [(1, 61), (4, 0), (9, 66), (22, 6), (30, 77), (22, 37), (14, 22), (7, 46), (3, 44), (9, 46), (9, 24), (15, 8),
    (10, 73), (28, 39), (32, 87), (21, 61)],
      [(1, 61), (4, 0), (9, 66), (4, 80), (18, 6), (30, 77), (22, 37), (14, 22), (7, 46), (3, 44), (9, 46), (9, 24),
    (15, 8), (10, 73), (28, 39), (32, 87), (21, 61)],
      [(1, 61), (4, 0), (9, 66), (4, 80), (18, 6), (30, 77), (22, 37), (14, 22), (7, 46), (6, 44), (6, 46), (9, 24),
    (15, 8), (10, 73), (28, 39), (5, 51), (27, 87), (21, 61)],
      [(1, 61), (4, 0), (9, 66), (4, 80), (18, 6), (30, 77), (22, 37), (14, 22), (7, 46), (6, 44), (6, 46), (9, 24),
    (17, 8), (10, 26), (22, 39), (9, 51), (27, 87), (21, 61)],
      [(1, 61), (4, 0), (9, 66), (4, 80), (18, 6), (30, 77), (22, 37), (14, 22), (7, 46), (6, 44), (6, 46), (9, 24),
    (17, 8), (12, 26), (20, 39), (9, 51), (27, 87), (21, 61)],
      [(1, 61), (4, 0), (9, 66), (9, 80), (13, 6), (30, 77), (22, 37), (14, 22), (7, 46), (6, 44), (6, 46), (9, 24),
    (17, 8), (12, 26), (20, 39), (9, 51), (27, 87), (21, 61)],
      [(1, 61), (4, 0), (9, 66), (9, 80), (13, 6), (30, 77), (22, 37), (14, 22), (7, 46), (6, 44), (6, 46), (9, 24),
    (17, 8), (12, 26), (20, 39), (9, 51), (4, 30), (23, 87), (21, 61)],
      [(5, 0), (7, 66), (11, 80), (13, 6), (30, 77), (9, 7), (16, 37), (11, 22), (7, 46), (6, 44), (6, 46), (9, 24),
    (17, 8), (12, 26), (20, 39), (9, 51), (4, 30), (17, 87), (9, 30), (18, 61)],
      [(5, 0), (7, 66), (11, 80), (13, 6), (18, 77), (21, 7), (16, 37), (11, 22), (4, 46), (9, 44), (6, 46), (8,
    24), (4, 11), (14, 8), (12, 26), (20, 39), (9, 51), (4, 30), (17, 87), (9, 30), (18, 61)],
      [(5, 0), (7, 66), (11, 80), (13, 6), (18, 77), (21, 7), (16, 37), (11, 22), (4, 46), (9, 44), (7, 82), (7,
    24), (4, 11), (14, 8), (12, 26), (20, 39), (9, 51), (30, 30), (18, 61)],
      [(5, 0), (7, 66), (11, 80), (13, 6), (12, 77), (27, 7), (16, 37), (11, 22), (4, 46), (9, 44), (7, 82), (7,
    24), (4, 11), (14, 8), (12, 26), (17, 39), (13, 51), (29, 30), (18, 61)],
      [(5, 0), (7, 66), (17, 80), (19, 62), (27, 7), (16, 37), (11, 22), (4, 46), (9, 44), (7, 82), (7, 24), (4,
    11), (14, 8), (12, 26), (17, 39), (13, 51), (29, 30), (18, 61)],
      [(5, 0), (7, 66), (17, 80), (19, 62), (27, 7), (16, 37), (11, 22), (4, 46), (9, 44), (7, 82), (7, 24), (6,
    11), (12, 8), (12, 26), (17, 39), (13, 51), (29, 30), (18, 61)],
      [(5, 0), (7, 66), (17, 80), (19, 62), (27, 7), (16, 37), (11, 22), (4, 46), (9, 44), (7, 82), (7, 24), (6,
    11), (12, 8), (12, 26), (17, 39), (13, 51), (29, 30), (16, 61), (2, 0)],
      [(5, 0), (7, 66), (17, 80), (19, 62), (27, 7), (16, 37), (11, 22), (4, 46), (9, 44), (7, 82), (3, 24), (10,
    11), (12, 8), (12, 26), (17, 39), (13, 51), (29, 30), (16, 61), (2, 0)],
      [(5, 0), (7, 66), (17, 80), (19, 62), (27, 7), (16, 37), (11, 22), (4, 46), (9, 44), (7, 82), (3, 24), (10,
    11), (12, 8), (12, 26), (17, 39), (13, 51), (29, 30), (14, 61), (4, 0)],
      [(12, 0), (17, 80), (19, 62), (27, 7), (16, 37), (11, 22), (4, 46), (9, 44), (7, 82), (3, 24), (10, 11), (15,
    8), (9, 26), (17, 39), (13, 51), (29, 30), (14, 61), (4, 0)]]

/-- Columns 140 to 159 of `radec_to_index` — skyfield/data/constellations.npz — run-length coded as (count, index).
Used at skyfield/constellationlib.py:52-56. -/
def constellationColumns7 : List (List (ℕ × ℕ)) :=
  [[(12, 0), (17, 80), (19, 62), (27, 7), (11, 37), (16, 50), (13, 44), (7, 82), (3, 24), (10, 11), (15, 8), (9,
    26), (17, 39), (13, 51), (29, 30), (14, 61), (4, 0)],
      [(12, 0), (14, 80), (22, 62), (27, 7), (11, 37), (16, 50), (11, 44), (9, 82), (13, 11), (15, 8), (9, 26), (17,
    39), (13, 51), (29, 30), (14, 61), (4, 0)],
      [(12, 0), (14, 80), (22, 62), (27, 7), (11, 37), (16, 50), (11, 44), (9, 82), (13, 11), (15, 8), (9, 26), (17,
    39), (13, 51), (29, 30), (9, 61), (1, 45), (8, 0)],
      [(19, 0), (7, 80), (22, 62), (27, 7), (11, 37), (16, 50), (11, 44), (9, 82), (13, 11), (15, 8), (9, 26), (17,
    39), (13, 51), (29, 30), (5, 61), (5, 45), (8, 0)],
      [(19, 0), (7, 80), (22, 62), (35, 7), (19, 50), (11, 44), (9, 82), (13, 11), (15, 8), (9, 26), (17, 39), (13,
    51), (29, 30), (5, 61), (5, 45), (8, 0)],
      [(19, 0), (7, 80), (26, 62), (31, 7), (19, 50), (11, 44), (9, 82), (13, 11), (15, 8), (9, 26), (17, 39), (13,
    51), (31, 30), (8, 45), (8, 0)],
      [(19, 0), (7, 80), (26, 62), (31, 7), (19, 50), (11, 44), (9, 82), (13, 11), (15, 8), (9, 26), (17, 39), (14,
    51), (30, 30), (8, 45), (8, 0)],
      [(25, 0), (27, 62), (31, 7), (19, 50), (11, 44), (9, 82), (13, 11), (15, 8), (9, 26), (17, 39), (14, 51), (30,
    30), (8, 45), (8, 0)],
      [(25, 0), (27, 62), (31, 7), (21, 50), (9, 44), (9, 82), (13, 11), (15, 8), (9, 26), (17, 39), (14, 51), (30,
    30), (8, 45), (8, 0)],
      [(25, 0), (27, 62), (31, 7), (21, 50), (3, 44), (15, 82), (13, 11), (17, 8), (24, 39), (14, 51), (30, 30), (8,
    45), (8, 0)],
      [(25, 0), (27, 62), (31, 7), (18, 50), (21, 82), (13, 11), (17, 8), (24, 39), (14, 51), (30, 30), (8, 45), (8,
    0)],
      [(25, 0), (27, 62), (31, 7), (18, 50), (21, 82), (13, 11), (17, 8), (24, 39), (10, 51), (34, 30), (8, 45), (8,
    0)],
      [(25, 0), (27, 62), (31, 7), (18, 50), (21, 82), (13, 11), (17, 8), (24, 39), (10, 51), (35, 30), (7, 45), (8,
    0)],
      [(25, 0), (27, 62), (31, 7), (18, 50), (21, 82), (13, 11), (17, 8), (24, 39), (10, 51), (36, 30), (6, 45), (8,
    0)],
      [(25, 0), (27, 62), (25, 7), (24, 50), (21, 82), (13, 11), (17, 8), (24, 39), (10, 51), (36, 30), (6, 45), (8,
    0)],
      [(25, 0), (27, 62), (25, 7), (24, 50), (22, 82), (12, 11), (17, 8), (24, 39), (10, 51), (36, 30), (6, 45), (8,
    0)],
      [(3, 0), (5, 16), (17, 0), (27, 62), (25, 7), (24, 50), (22, 82), (12, 11), (17, 8), (24, 39), (10, 51), (36,
    30), (6, 45), (8, 0)],
      [(3, 0), (5, 16), (6, 0), (6, 62), (5, 0), (27, 62), (25, 7), (18, 50), (28, 82), (12, 11), (17, 8), (24, 39),
    (10, 51), (36, 30), (6, 45), (8, 0)],
      [(3, 0), (5, 16), (6, 0), (6, 62), (5, 0), (27, 62), (25, 7), (18, 50), (28, 82), (12, 11), (17, 8), (25, 39),
    (8, 33), (37, 30), (6, 45), (8, 0)],
      [(9, 16), (5, 0), (6, 62), (5, 0), (27, 62), (25, 7), (18, 50), (28, 82), (12, 11), (17, 8), (25, 39), (8,
    33), (37, 30), (6, 45), (5, 0), (3, 16)]]

/-- Columns 160 to 179 of `radec_to_index` — skyfield/data/constellations.npz — run-length coded as (count, index).
Used at skyfield/constellationlib.py:52-56. -/
def constellationColumns8 : List (List (ℕ × ℕ)) :=
  [[(9, 16), (5, 0), (6, 62), (5, 0), (27, 62), (25, 7), (18, 50), (28, 82), (7, 11), (5, 82), (17, 8), (25, 39),
    (8, 33), (37, 30), (6, 45), (5, 0), (3, 16)],
      [(11, 16), (9, 62), (5, 0), (27, 62), (22, 7), (21, 50), (28, 82), (7, 11), (5, 82), (17, 8), (25, 39), (8,
    33), (37, 30), (6, 45), (3, 0), (5, 16)],
      [(11, 16), (41, 62), (22, 7), (21, 50), (28, 82), (7, 11), (5, 82), (17, 8), (14, 39), (19, 33), (37, 30), (6,
    45), (3, 0), (5, 16)],
      [(11, 16), (41, 62), (22, 7), (21, 50), (28, 82), (7, 11), (5, 82), (17, 8), (33, 33), (37, 30), (6, 45), (3,
    0), (5, 16)],
      [(11, 16), (24, 62), (23, 13), (16, 7), (21, 50), (28, 82), (7, 11), (5, 82), (17, 8), (33, 33), (37, 30), (6,
    45), (8, 16)],
      [(11, 16), (24, 62), (23, 13), (16, 7), (21, 50), (28, 82), (7, 11), (5, 82), (17, 8), (33, 33), (37, 30), (2,
    18), (4, 45), (8, 16)],
      [(11, 16), (24, 62), (23, 13), (16, 7), (21, 50), (40, 82), (13, 8), (37, 33), (37, 30), (2, 18), (4, 45), (8,
    16)],
      [(15, 16), (20, 62), (23, 13), (10, 7), (27, 50), (40, 82), (13, 8), (37, 33), (37, 30), (2, 18), (4, 45), (8,
    16)],
      [(15, 16), (20, 62), (23, 13), (10, 7), (27, 50), (40, 82), (13, 8), (37, 33), (20, 30), (19, 18), (4, 45),
    (8, 16)],
      [(15, 16), (17, 62), (26, 13), (10, 7), (27, 50), (40, 82), (13, 8), (37, 33), (20, 30), (20, 18), (3, 45),
    (8, 16)],
      [(15, 16), (17, 62), (26, 13), (10, 7), (27, 50), (43, 82), (53, 33), (14, 30), (20, 18), (3, 45), (8, 16)],
      [(15, 16), (17, 62), (36, 13), (27, 50), (43, 82), (53, 33), (14, 30), (20, 18), (3, 45), (8, 16)],
      [(15, 16), (17, 62), (36, 13), (27, 50), (43, 82), (53, 33), (14, 30), (23, 18), (8, 16)],
      [(15, 16), (9, 62), (7, 16), (37, 13), (27, 50), (43, 82), (53, 33), (14, 30), (23, 18), (8, 16)],
      [(17, 16), (7, 62), (7, 16), (37, 13), (27, 50), (43, 82), (53, 33), (14, 30), (23, 18), (8, 16)],
      [(17, 16), (7, 62), (7, 16), (37, 13), (27, 50), (43, 82), (55, 33), (12, 30), (23, 18), (8, 16)],
      [(31, 16), (37, 13), (27, 50), (43, 82), (55, 33), (12, 30), (23, 18), (8, 16)],
      [(31, 16), (37, 13), (27, 50), (43, 82), (55, 33), (12, 30), (25, 18), (6, 16)],
      [(31, 16), (37, 13), (27, 50), (43, 82), (57, 33), (8, 18), (2, 30), (25, 18), (6, 16)],
      [(31, 16), (37, 13), (12, 50), (10, 13), (48, 82), (57, 33), (8, 18), (2, 30), (25, 18), (6, 16)]]

/-- Columns 180 to 199 of `radec_to_index` — skyfield/data/constellations.npz — run-length coded as (count, index).
Used at skyfield/constellationlib.py:52-56. -/
def constellationColumns9 : List (List (ℕ × ℕ)) :=
  [[(31, 16), (37, 13), (12, 50), (10, 13), (48, 82), (57, 33), (35, 18), (6, 16)],
      [(31, 16), (37, 13), (12, 50), (10, 13), (48, 82), (63, 33), (29, 18), (6, 16)],
      [(31, 16), (59, 13), (48, 82), (63, 33), (29, 18), (6, 16)],
      [(31, 16), (59, 13), (40, 82), (71, 33), (32, 18), (3, 16)],
      [(31, 16), (59, 13), (32, 82), (79, 33), (32, 18), (3, 16)],
      [(4, 18), (27, 16), (59, 13), (32, 82), (12, 33), (17, 83), (50, 33), (35, 18)],
      [(4, 18), (27, 16), (59, 13), (27, 82), (17, 33), (17, 83), (50, 33), (35, 18)],
      [(4, 18), (27, 16), (59, 13), (27, 82), (17, 33), (17, 83), (55, 33), (30, 18)],
      [(4, 18), (33, 16), (53, 13), (27, 82), (17, 33), (17, 83), (55, 33), (30, 18)],
      [(4, 18), (33, 16), (53, 13), (27, 82), (11, 33), (34, 83), (44, 33), (30, 18)],
      [(4, 18), (33, 16), (64, 13), (27, 33), (34, 83), (44, 33), (30, 18)],
      [(4, 18), (33, 16), (64, 13), (27, 33), (41, 83), (28, 33), (39, 18)],
      [(39, 18), (62, 13), (17, 33), (13, 13), (38, 83), (28, 33), (39, 18)],
      [(58, 18), (43, 13), (10, 33), (28, 13), (36, 83), (35, 33), (26, 18)],
      [(58, 18), (81, 13), (36, 83), (35, 33), (26, 18)],
      [(91, 18), (48, 13), (36, 83), (35, 33), (26, 18)],
      [(91, 18), (48, 13), (71, 83), (26, 18)],
      [(91, 18), (48, 13), (90, 83), (7, 18)],
      [(91, 18), (138, 83), (7, 18)],
      [(236, 83)]]

/-- Columns 200 to 201 of `radec_to_index` — skyfield/data/constellations.npz — run-length coded as (count, index).
Used at skyfield/constellationlib.py:52-56. -/
def constellationColumns10 : List (List (ℕ × ℕ)) :=
  [[(236, 83)],
      [(236, 83)]]

/-- All columns of `radec_to_index` (one for each strip of declination), run-length coded.
Used at skyfield/constellationlib.py:52-56. -/
def constellationColumns : List (List (ℕ × ℕ)) :=
  constellationColumns0 ++ constellationColumns1 ++ constellationColumns2 ++ constellationColumns3 ++ constellationColumns4 ++ constellationColumns5 ++ constellationColumns6 ++ constellationColumns7 ++ constellationColumns8 ++ constellationColumns9 ++ constellationColumns10

end Skyfield
