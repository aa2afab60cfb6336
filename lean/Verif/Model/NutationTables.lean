import Verif.Model.Nutation

/-
Integer multipliers of the fundamental arguments, bundled with Skyfield in skyfield/data/nutation.npz, decoded (by a script,
from the bytes of the arrays).  Generated; do not edit.  To keep the file short a row is written as one number, two decimal
digits for each entry, which is 50 more than the entry: 5050505051 is the row 0, 0, 0, 0, 1.
-/
namespace Skyfield

/-- The row of `n` entries that `code` stands for: the last pair of digits is the last entry.
Used at skyfield/nutationlib.py:9-14. -/
def unpackRow : ℕ → ℕ → List ℤ → List ℤ
  | 0, _, row => row
  | n + 1, code, row => unpackRow n (code / 100) ((((code % 100 : ℕ) : ℤ) - 50) :: row)

/-- `nals_t` — skyfield/nutationlib.py:9-14, one row for each term. -/
def lunisolarRows : List (List ℤ) := (List.flatten [
  [5050505051, 5050524852, 5050525052, 5050505052, 5051505050, 5051524852, 5150505050, 5050525051, 5150525052, 5049524852, 5050524851, 4950525052, 4950505250, 5150505051, 4950505051, 4950525252, 5150525051, 4850525051, 5050505250, 5050525252, 5048524852, 4850505250, 5250525052, 5150524852, 4950525051, 5250505050, 5050525050, 5051505051, 4950505251, 5052524852, 5050485250, 5150504851, 5049505051, 4950525251, 5052505050, 5150525252, 4850525050, 5051525052, 5050525251, 5049525052],
  [5050505251, 5150524851, 5250524852, 4850505251, 5250525051, 5049524851, 5050504851, 4949505250, 5250504851, 5150505250, 5051524851, 5149505050, 4850525052, 5350525052, 5049505250, 5149525052, 5050505150, 4949525252, 4950525050, 5049525252, 4850505051, 5151525052, 5250505051, 4951505150, 5151505050, 5150525050, 4950524851, 5150505052, 4950505150, 5050525152, 4950525452, 4951505151, 5048524851, 5150525251, 4850525252, 4950505052, 5151524852, 4850525452, 4950545052, 5250524851],
  [5250525252, 5150505251, 5350505050, 5350524852, 5050544852, 5051525051, 5050485251, 5050524853, 4950505450, 5250485051, 4850505450, 4949505251, 4950505151, 5051505052, 5050485051, 5049525051, 5050524952, 5050525452, 4849505250, 5151504851, 4951505250, 4951505152, 5149505051, 5149525252, 4951525252, 5350525051, 5051485250, 4950504851, 5051525252, 4949525251, 5049505052, 5150524651, 4950485250, 5049525251, 5249525052, 5050505252, 5149525051, 4951525052, 5051505250, 5049485250],
  [5053524852, 5050505151, 4950525250, 5251525052, 5151505051, 5151525051, 5250505250, 5150485250, 4950505252, 5051505150, 5051504851, 4950524852, 5050504951, 4951505051, 5150524952, 5149505250, 5050505450, 5150525152, 5050525151, 5150504852, 4950525451, 5150485051, 5151524851, 5050525250, 4950524951, 4850525251, 5450525052, 5249505050, 5251524852, 5051525152, 5150544852, 4949505051, 5051505251, 4850525451, 5250525050, 5150505150, 4950505451, 4950545051, 5250525251, 5050524752],
  [4948505250, 5251505050, 5050545052, 5050505053, 5053505050, 5050524651, 5049505251, 5050505451, 4949525452, 5150525452, 4852505250, 4849525051, 4850505252, 4949525052, 5050544851, 5350524851, 4849505251, 5150504951, 5048505250, 4850505451, 4750505051, 5151525252, 5050525451, 5350525252, 4951524851, 5250504651, 5050504852, 5250524651, 4951505251, 5050524951, 5048525252, 5250505251, 5450524852, 5250504852, 5052505051, 5150504651, 5052524851, 4750505450, 4951525051, 4949505450],
  [4948525252, 4849525452, 5149525251, 4851505250, 4851525051, 5251504851, 4750525051, 4850524851, 4951505252, 5049524952, 4950544852, 5048525052, 4950525152, 5250505052, 5050525053, 4850545052, 4950485051, 4951525251, 5350505051, 4950525352, 5249525051, 5051525251, 5049525452, 5249525252, 5052485250, 4949524951, 5048505051, 5150524652, 5149504851, 4949525051, 5149524852, 4849505450, 4950505350, 4849525252, 5052525052, 5151505250, 5250524952, 5150525151, 5450505050, 5251525051],
  [5349525052, 4852505251, 5150524751, 5151524651, 4949524851, 5049504951, 5049504851, 4850505052, 4850485250, 4950485450, 5148505050, 5051505151, 4952505250, 5149524851, 5152524852, 5249524852, 5150524951, 5251524851, 4850504851, 5148525052, 5051525151, 5150544851, 4850545252, 5151525152, 5150505450, 5150525250, 5250525152, 5351525052, 5450525051, 4849525050, 5051485251, 5150485150, 5049485251, 5249504851, 4950524952, 5150524752, 5051524853, 5050524751, 4950485251, 5050524652],
  [4851505051, 4950504951, 5250524652, 5050544654, 5050544652, 4948505251, 4850505350, 5150485251, 4750525252, 4750525251, 4850525250, 5249505051, 4851525252, 5151505150, 5051544852, 4951504851, 5050504651, 5149505251, 5151505251, 4952525252, 5351524852, 5049505450, 5249505250, 5050545051, 5250544852, 4949525451, 5150505451, 5148525252, 5050525352, 4951525452, 5350505250, 4950545252, 5151525251, 4850525652, 5251525252, 4950525652, 5150525451, 5250525452, 5151485150, 4751525152],
  [5250485052, 4950505152, 4650525251, 4949505150, 5050485252, 5150504952, 5049524853, 4851525050, 5050524854, 4848505250, 4850485450, 5048485250, 5152504851, 5350504651, 4951524852, 5149524651, 5151504852, 4750525050, 4750525052, 4850505150, 5050485150, 4750505251, 4949485250, 5051524651, 5251504651, 5052504851, 5150504751, 4850524852, 4849505051, 4650505250, 5151504651, 4950524651, 5050544651, 5053524852, 4749505450, 4750505451, 5149485250, 4949505252, 5148505051, 5149505052],
  [5050505152, 4949525050, 5148524852, 5049524951, 4950525053, 5151505052, 4951525050, 5152505050, 4952525052, 4950544851, 5350524652, 5152524851, 5150544652, 4849505451, 5049505252, 4851505450, 4849525251, 5250485250, 5150505151, 5051505252, 5149524952, 4850545051, 5251505051, 5051525050, 5049544852, 5050544854, 5052525051, 4750505650, 4949505451, 5148505250, 4950505452, 4948525251, 4950504852, 5150484851, 5050484851, 4850485051, 5050505351, 5050505350, 4951505450, 4949525250],
  [4850525352, 5150505252, 5049525152, 5349505050, 5250505150, 5149525050, 5050525150, 5150525053, 5351505050, 5349524852, 5250524951, 5151525050, 5050544952, 5152525052, 4850505650, 5049505451, 4849525451, 5048525251, 5049525250, 4950525351, 4851525452, 5250505252, 5248525052, 4951525352, 5350524952, 5450524851, 4950505650, 4948525452, 4750525652, 4950525450, 5350505251, 5349525051, 5350525050, 5150545052, 5550524852, 5049525451, 5249525251, 5051525452, 5149525452, 5349525252],
  [5350525251, 5550525052, 5050525652, 5450525252, 5049514951, 4950515053, 5048524853, 5150495051, 5248504851, 4950515052, 4950515051, 4949524952, 4852505252, 4950515050, 4651525252, 4750525151, 4849525052, 5150485151, 5249485051, 4650525250, 4751505350, 4950495250, 5048505052, 5048505052, 4750505350, 4849505252, 4950485350, 4650505450, 5251485051, 5249504852, 5050514950, 4952505150, 4851525052, 5151504951, 5150514851, 5052505052, 5149524751, 4951524951, 4850544852, 4850544851],
  [4848505251, 4850485450, 5152524651, 5151524652, 4952524851, 5250504751, 4952505051, 5050504850, 4949524852, 4951505052, 5050504952, 4851505150, 5148504851, 5150485052, 4751505250, 4951485250, 4949505052, 4750505250, 4749505250, 5250524451, 5051524652, 5250504652, 4851524851, 5049524651, 5051504852, 4950504850, 5250484851, 4650525051, 4949504951, 5050485052, 4750505150, 4950485150, 4850485251, 5050465250, 4849485250, 5150524451, 4950524652, 5150504652, 5251524652, 5251524651],
  [5051544654, 5051544652, 4949485450, 4947505250, 4950485451, 4849505350, 5050485350, 4850505351, 5049505150, 4750525250, 5151485250, 4951505252, 5148524851, 5050515052, 5050515051, 5050515050, 4952505251, 5050525052, 4850525052, 5250504951, 5350504851, 5150524853, 5152505051, 5250524752, 4951544852, 4848505450, 5047505250, 5050485450, 4949505350, 4850505452, 4950505351, 5248505050, 5149505150, 4950505250, 5048525051, 4950515251, 4951505350, 4949525152, 5049525050, 4851525251],
  [5248524852, 5151505151, 5150515051, 5150515050, 5052505250, 5249524851, 5049544851, 5050544853, 5051544851, 5450524652, 5252524852, 5250544652, 4948505450, 4947525252, 4750525452, 4750524851, 4949504851, 4750505052, 4750485250, 5051504651, 4851504851, 4650505051, 4950504651, 4750504851, 5050505352, 4951505451, 5148525051, 5051505350, 4950525253, 5050525252, 4850525252, 4951525250, 5350505052, 5251505150, 5249524952, 5050525051, 5050535053, 5050535052, 4952525251, 4950545050],
  [5152525051, 5351524851, 5151544852, 4849505650, 5048505450, 4850505651, 4848525452, 5047525252, 5050505452, 4949525352, 4850525450, 5249505251, 5150505350, 5051505451, 5051505450, 5149525152, 5050525253, 5150525252, 4950525252, 4850545251, 5251505251, 5251505250, 5249525050, 5150525150, 5051525250, 5250525053, 5350525052, 5150525052, 5150535053, 5151525151, 5052525252, 5251525050, 5250544851, 5451524852, 4949505650, 4749525652, 4950505651, 4750525651, 5149505451, 5149505450],
  [4850525552, 5148525251, 5349505250, 5149525250, 5050525351, 4951525451, 5051525352, 4950545251, 5250525151, 5550505050, 5251525152, 5150545051, 5351525051, 5350544852, 4849525652, 5050505650, 5048525452, 4850525651, 5250505451, 5250505450, 5248525252, 5050525450, 5150525352, 5450505250, 5250525250, 5050545252, 5449525052, 5350525152, 5251525251, 5451525052, 4949525652, 4950525651, 5149525451, 5151525452, 5351525252, 5550525051, 5249525452, 5250525451]] : List ℕ).map fun code => unpackRow 5 code []

/-- `napl_t` — skyfield/nutationlib.py:9-14, one row for each term. -/
def planetaryRows : List (List ℤ) := (List.flatten [
  [5050505050505058345455505050, 5050505050505042664645505052, 5050505050505058345455505052, 5050505050505050505050495252, 5050505050505046584945505052, 5050505050505054425350505051, 5050514951505053425350505050, 4950505050506047505050505050, 5050505050505050504856475052, 5050505050505054425350505050, 5050514951505045584750505050, 5050505050505046584750505051, 5050505050505054425155505052, 5050505050504556545050505052, 5050505050505050505245505052, 5050505050505050505245505051, 5050514951505049505245505050, 5050505050505050505245505050, 5050514951505049504855505050, 5050505050505050504855505051, 5050505050505050504855505052, 5250494950505053435050505050, 5150504850506929535050505050, 5050514951505246504750505050, 5150504951505049505250505050, 5050514951505049504660505050, 4850505251505052505045505050, 5050505050505343545050505050, 5050495150505051505149505050, 4850505251505052504850505050, 4950505050506834505050505050, 4850515152505051504850505050, 4950514951506833505050505050, 4950505151505052485050505050, 5050505050504263505050505052, 5050524852504261505050505050, 5050505050504263505050505051, 5050514951504262505050505050, 5050505050505837505050505050, 5050514951505836505050505050],
  [5050505050505837505050505051, 4850505251505052504655505050, 4850505252505347505050505050, 4850505250505052504751505050, 5050505051505345505250505050, 4850505250505052504653505050, 5050495150505050525050505050, 5050505051505049525050505050, 5050514952505048525050505050, 4950515051505345505050505050, 4950505150505346505050505050, 4850505250505052504848505050, 4850525052505045595050505050, 5050514951505049505050495050, 5050505050505050505050515050, 5050514951505049505050505250, 5050505050505050505050505251, 5050505050505050505050505252, 4950505150505053465050505050, 5050495150505051505052505050, 5050514952505049505052505050, 5050505051505041675050505050, 5050505052504755505050505050, 5050514951505049504952505050, 5050505050505050505148505050, 5150504850506734504850505050, 5050514951505049505147505050, 4850505251505055445050505050, 5050485250505059375050505050, 5050514952505049505051505050, 5050505051505050505051505050, 5050495150505051505051505050, 5050485250505544505050505050, 5050495151505543505050505050, 4850505250505642505050505050, 5250514751504457505050505050, 5050505052505050505150505050, 5050495151505051505150505050, 5050514951505049505050525050, 5050505050505050505050525051],
  [5050505050505050505050525052, 5050505050505042655050505052, 5050505050505042655050505051, 5050514951505041655050505050, 5050505050505058355050505050, 5150494950505058355050505050, 5250504850505245505050505050, 4850505250505052504555505050, 5250504851505044585050505050, 5250504851505048505350505050, 4850515150505051504750505050, 4850515151505051504750505050, 4850505250505052504750505050, 4850505250505056425050505050, 4850505250505052504945505050, 4950505150505051504950505050, 4950515151503070505050505050, 5150504850507029505050505050, 5050505051505058355050505050, 5050524851505040655050505050, 5050495150505051505150505050, 5050505051505050505150505050, 5050514952505049505150505050, 5050514951505049504854505050, 5250504851504458505050505050, 5050485251505544505050505050, 5050505050505050505049505051, 5050514951505049505049505050, 5050505050505050505051505050, 5050514951505049505051505050, 5050505050505050505051505051, 5050505050505050505051505052, 5050524851505041635050505050, 5050505051505057375050505050, 4850505250505055445050505050, 5050505050505059335050505050, 5050505050505041675050505052, 5150504951505047545050505050, 5150504951504754505050505050, 5050505052505049525050505050],
  [5050495151505050525050505050, 5050485250515048505050505050, 5050505050505345505250505050, 4850505251505052504751505050, 4850505251505347505050505050, 5050505051505837505050505050, 5050495150505838505050505050, 5050524851504261505050505050, 4950505150505052485050505050, 4950505051506834505050505050, 5050514951505049504951505050, 5050505051505343545050505050, 4850515151505047575050505050, 5050514952505049504855505050, 5050505051505050504855505050, 5050505051505046584750505050, 5150505051504053505050505050, 5050524851505048505050505050, 4950505051506047505050505050, 5050505051505054425350505050, 5050505051505050505245505050, 5050495150505051505245505050, 5250494951505053435050505050, 4850505250505052505045505050, 5050505051504757465050505050, 4850505250505052504850505050, 5150505051503266505050505050, 4850515151505051504850505050, 5050514952504262505050505050, 5050505051504263505050505050, 5050505050505051485050505051, 5050514951505050485050505050, 5050505050505051485050505050, 5050514951505048525050505050, 5050505050505049525050505051, 4950505151505346505050505050, 4950505151505053465050505050, 5050514951505049505048505050, 5050514951505049505052505050, 5050505050505050505052505051],
  [5050505050505050505052505052, 5050514950505344505050505050, 5050505051504755505050505050, 5050514952504754505050505050, 5050505051505048545050505050, 5050524851504556505050505050, 5050495150505543505050505050, 5050505051505542505050505050, 4850505251505642505050505050, 5050505051505042655050505050, 4850505251505052504750505050, 4850505251505056425050505050, 5150504951505049505150505050, 5050505050505050505345505050, 5050514951505049504950505050, 5050505050505050504950505051, 5050505050505050505150505050, 5050505050505050505150505051, 5050514951505049505150505050, 5050505050505050505150505051, 5050505050505050505150505052, 5050514952505049505049505050, 5050505051505050505049505050, 5050495150505051505049505050, 5050505050505043635050505052, 5050505050505057375050505050, 5250504851505045565050505050, 5050524851505042615050505050, 5050524851495052505050505050, 4850505250505054465050505050, 5050505050505050505248505050, 5050514951505049505053505050, 5050505050505050505053505051, 5050505050505050505053505052, 4850505250505347505050505050, 5050505052505046584750505050, 5050505052505054425350505050, 5250504851505048505250505050, 5050514952505049505250505050, 5050514952505050485050505050],
  [5050505051505051485050505050, 5050495150505052485050505050, 5050495150505051505048505050, 5050524851505048505052505050, 5050514951505344505050505050, 5050505050505345505050505051, 5050505050505345505050505050, 5050514951504754505050505050, 5050505050504755505050505051, 5050505050504755505050505052, 5050524852504753505050505050, 5050505050504755505050505052, 5050505050505052465050505051, 5050514951505051465050505050, 5050505050505052465050505050, 5050505050505048545050505051, 5050514951505047545050505050, 5050505050505048545050505051, 5050505050505048545050505052, 5050505050504558505050505052, 5050524852504556505050505050, 5050505050504558505050505052, 5050505050504558505050505051, 5050514951504557505050505050, 5050505050504558505050505051, 5050505050505542505050505050, 5050514952505049504950505050, 5050505051505050504950505050, 5050495150505051504950505050, 5050524851505048505150505050, 5050505050505044615050505052, 5050505050505056395050505050, 5050505050495054505050505052, 5050505050515046505050505050, 5250504851504753505050505050, 4850505250505052505048505050, 5050524851505043595050505050, 5050505050505050505445505052, 5050505050505050505250505050, 5050505050505050505250505051],
  [5050514951505049505250505050, 5050505050505050505250505051, 5050505050505050505250505052, 5050524852505048505250505050, 5050505050505050505055505052, 5050505051505345505050505050, 5050495150505346505050505050, 5050524851504753505050505050, 5050505051505052465050505050, 5050524851505046545050505050, 5050514952504557505050505050, 5050505050505053445050505050, 5050505050505047565050505051, 5050514951505046565050505050, 5050505050505047565050505051, 5050505050505047565050505052, 5050495150505248505050505050, 5050505051505247505050505050, 5050505050505045595050505052, 5050505050505045595050505051, 5050505050505055415050505050, 5050495150505051504850505050, 5050524851505048505250505050, 4850515151505051505050505050, 5050485250505347505050505050, 5050505050504460505050505051, 5050505050504460505050505052, 5050505050504853505050505052, 5050505050504853505050505051, 5050514951504852505050505050, 5050505050505247505050505050, 5050505050505247505050505051, 5050505050505050505350505051, 5050514951505049505350505050, 5050505050505050505350505051, 5050505050505050505350505052, 5050505050505054425050505050, 5050505050505046585050505052, 5050485250505052504850505050, 5050505050505046575050505052],
  [5050505050505046575050505051, 5050505050505054435050505050, 5050505051504853505050505050, 5050524851505048505350505050, 5050505050505045605050505052, 5050505051504952505050505050, 5050505050505050505450505052, 5050505050505047555050505052, 5050505050505047555050505051, 5050505050505053455050505050, 5050505050505148505050505051, 5050514951505147505050505050, 5050505050505148505050505050, 5050505050504952505050505051, 5050505050504952505050505052, 5050505050504361505050505052, 5050505050504361505050505051, 5050485250505446505050505050, 5050505050505052475050505050, 5050524851504654505050505050, 5050495150505445505050505050, 5050505050505051495050505050, 5050505050504657505050505051, 5050514951504656505050505050, 5050505050504657505050505052, 5050505050504656505050505052, 5050505050504656505050505051, 5050514951504655505050505050, 5050505050504656505050505051, 5050505050505444505050505050, 4850505250505248505050505050, 5050505050505050515050505050, 5050495150505150505050505050, 5050505051505149505050505050, 5050505050505049505550505052, 5050505050505051475050505050, 5050505050505049535050505052, 5050505050505043625050505052, 5050505050504951505050505052, 5050505050504951505050505051],
  [5050514951504950505050505050, 5050505050505149505050505050, 5050505050505149505050505051, 5050514951505148505050505050, 5050505050505048555050505052, 5050505050505049505450505052, 5050505050505051504650505050, 5050505051504951505050505050, 5050505050505044605050505052, 5050505050505044605050505050, 5050524851505047505350505050, 5050505050505047575050505052, 4850505250505446505050505050, 5050505050505045585050505052, 5050505050505055425050505050, 5050505050505049505350505052, 5050505050505049505350505051, 5050505050505051504750505050, 5050505050505246505050505050, 5050505050504854505050505051, 5050514951504853505050505050, 5050505050504854505050505052, 5050505050504459505050505052, 5050505050504459505050505051, 5050505050505641505050505050, 5050505051505051504850505050, 5050524851504852505050505050, 5050505050505046565050505052, 5050505050505054445050505050, 5050505051505346505050505050, 5050505050505049505250505052, 5050505050505051504850505050, 5050505051505051504950505050, 5050505050504559505050505052, 5050505050505053465050505050, 5050505050504754505050505052, 5050505050504754505050505051, 5050505050505346505050505050, 5050505050505346505050505051, 5050505051505052485050505050],
  [5050505051505049505250505050, 5050505050505051505047505050, 5050505050505051505145505050, 5050505050505049505150505051, 5050505050505051504950505050, 5050505050505051504950505051, 5050505050505051504755505050, 5050505051504754505050505050, 5050505050505051505048505050, 5050505050505052485050505050, 5050505050505051505049505050, 5050505051505049505150505050, 5050505051505048525050505050, 5050505050504264505050505052, 5050505050505051505245505050, 5050505050505055425350505050, 5050505050505055425350505052, 5050505050505049505050505051, 5050505050505051505050505050, 5050505050505053425350505050, 5050505050505047584750505052, 5050505050505051504855505052, 5050505050504262505050505052, 5050505050504262505050505050, 5050505050505051505148505050, 5050505050505051505051505052, 5050505050505050525050505050, 5050505050505050525050505052, 5050505050505051505052505052, 5050524851504555505050505050, 5050505050505051505150505050, 5050505050505051505150505051, 5050505050505051505150505052, 5050505050505344505050505050, 5050505050504756505050505051, 5050505050504756505050505052, 5050505050505049545050505052, 5050505050504557505050505052, 5050505050504557505050505051, 5050514951504556505050505050],
  [5050505050505543505050505050, 5050524851505049505150505050, 5050505050505049505150505050, 5050505050495053505050505052, 5050505050505051505250505052, 5050505050505048565050505052, 5050505051505248505050505050, 5050505050505044595050505052, 5050505050505056415050505050, 5050505050504852505050505051, 5050514951504851505050505050, 5050505050505248505050505050, 5050505050505248505050505051, 5050505050505051505350505052, 5050505050505045575050505052, 5050505050505055435050505050, 5050505051504852505050505050, 5050505050505054455050505050, 5050505050505147505050505050, 5050505050504953505050505051, 5050514951504952505050505050, 5050505050504953505050505052, 5050505050504360505050505052, 5050505050504360505050505051, 5050505050505053475050505050, 5050505050504658505050505052, 5050505050504655505050505052, 5050505050504655505050505051, 5050505050505445505050505050, 5050505050505051515050505052, 5050505050505048505550505052, 5050505050505050535050505052, 5050505050505150505050505050, 5050505050505150505050505052, 5050505050504163505050505052, 5050505050505049555050505052, 5050505050505048505450505052, 5050505050505052504650505050, 5050505050505048575050505052, 5050505050505052504750505050],
  [5050505050504855505050505051, 5050505050504855505050505052, 5050505050504458505050505052, 5050505050504458505050505051, 5050505050505642505050505050, 5050505051505052504850505050, 5050505050505047595050505052, 5050505050505055445050505050, 5050505050505055445050505052, 5050505050505052504850505050, 5050505050505052504850505051, 5050505050505052504850505052, 5050505050504560505050505052, 5050505050505054465050505050, 5050505050505054465050505052, 5050505050504753505050505051, 5050505050505347505050505050, 5050505050505347505050505051, 5050505050505347505050505052, 5050505050505052505047505050, 5050505050505045635050505052, 5050505050505052504950505050, 5050505050505052504950505052, 5050505050505052505048505050, 5050505050505052505048505051, 5050505050505053485050505050, 5050505050505053485050505052, 5050505050505052505049505052, 5050505050505044655050505052, 5050505050504265505050505052, 5050505050504759465050505052, 5050505050505052505245505052, 5050505050505048584945505052, 5050505050505056425350505052, 5050505050505052505050505050, 5050505050505052505050505050, 5050505050505052505050505051, 5050514951505051505050505050, 5050505050505052505050505051, 5050505050505052505050505052],
  [5050505050505044664645505052, 5050505050505048584750505052, 5050505050505048584750505052, 5050505050505056425155505052, 5050505050505052504855505052, 5050505050505345545050505052, 5050505050504261505050505052, 5050505050504261505050505051, 5050505050504261505050505052, 5050505050505061505050505052, 5050505050505052505051505052, 5050505050505347505250505052, 5050524851505054425350505050, 5050514950505051505050505050, 5050524851505046584750505050, 5050505050505051525050505052, 5050505050505052505150505052, 5050505050504757505050505052, 5050505050505050545050505052, 5050505050504556505050505052, 5050505050504556505050505051, 5050505050505544505050505050, 5050505050505544505050505052, 5050505050505052505250505052, 5050505050505049565050505052, 5050505050505057415050505052, 5050505050505249505050505050, 5050505050505249505050505052, 5050505050505056435050505052, 5050505050505055455050505052, 5050505050504954505050505051, 5050505050504954505050505052, 5050505050504359505050505052, 5050505050504359505050505051, 5050505050505054475050505052, 5050505050505053495050505052, 5050505050504654505050505051, 5050505050505446505050505050, 5050505050505446505050505051, 5050505050505446505050505052],
  [5050505050505052515050505052, 5050505050505047505550505052, 5050505050505151505050505050, 5050505050505151505050505051, 5050505050505151505050505052, 5050505050504162505050505052, 5050505050505053504650505050, 5050524851505149505050505050, 5050505050505057425050505052, 5050505050505053504750505050, 5050505050505053504750505052, 5050505050504856505050505052, 5050505050504457505050505051, 5050505050505643505050505050, 5050505050505056445050505052, 5050505050505053504850505050, 5050505050505053504850505052, 5050505050505055465050505052, 5050505050505348505050505050, 5050505050505348505050505052, 5050505050505053504950505052, 5050505050505053504950505052, 5050505050505053505048505052, 5050505050505054485050505052, 5050505050505053505049505052, 5050524851505051504950505050, 5050505050504266505050505052, 5050505050505053505245505052, 5050505050505057425350505052, 5050505050505045664645505052, 5050505050505053505050505052, 5050505050505049584750505052, 5050505050504260505050505052, 5050505050504260505050505051, 5050505050504260505050505052, 5050505050505052525050505052, 5050505050505053505150505052, 5050505050504758505050505052, 5050505050504555505050505051, 5050505050505545505050505050],
  [5050505050505545505050505051, 5050505050505545505050505052, 5050505050505250505050505050, 5050505050505250505050505051, 5050505050505250505050505052, 5050505050505057435050505052, 5050505050505057435050505052, 5050505050505056455050505052, 5050505050505742505050505050, 5050505050505055475050505052, 5050505050505447505050505052, 5050505050505152505050505052, 5050505050504161505050505052, 5050505050504161505050505051, 5050505050505054504650505052, 5050505050505054504750505052, 5050505050504456505050505051, 5050505050505644505050505050, 5050505050505644505050505051, 5050505050505054504850505052, 5050505050505056465050505052, 5050505050505349505050505050, 5050505050505349505050505051, 5050505050505349505050505052, 5050505050505054504950505052, 5050505050505054505048505052, 5050505050505055485050505052, 5050505050505054505050505050, 5050505050505841505050505050, 5050505050505546505050505052, 5050505050505251505050505052, 5050505050505251505050505051, 5050505050505251505050505051, 5050505050504357505050505051, 5050505050505743505050505050, 5050505050505448505050505051, 5050505050505448505050505052, 5050505050505448505050505050, 5050505050505448505050505050, 5050505050505055504650505052],
  [5050505050505055504750505052, 5050505050505055504850505052, 5050505050505350505050505052, 5050505050504258505050505051, 5050505050505842505050505050, 5050505050505547505050505051, 5050505050505547505050505052, 5050505050504159505050505051, 5050505050504159505050505051, 5050505050504159505050505051, 5050505050505941505050505050, 5050505050505646505050505051, 5050505050505056505050505052, 5050505050505056505050505050, 5050505050505056505050505050, 5050505050505056505050505051, 5050505050505056505050505052, 5050505050505056505050505050, 5050505050505056505050505051, 5050505050505056505050505052, 5050505050505050505050505052, 5150504850505052504850505050, 5150504850505248505050505050, 5150504850505051504950505050, 5150504850505149505050505050, 4950505050505347505050505050, 4950505050505052504850505050, 4950505250505054425350505050, 5150504850505054425350505050, 4850505250505054425350505050, 4950505050505052504750505050, 4950505050505051504950505050, 4950505050505149505050505050, 4950505250505248505050505050, 5150495150505051505050505050, 4950505250505052504750505050, 4850505050505052504750505050, 5150505050505054425350505050, 4950514951505049505050505050, 5150514951505049505050505050],
  [4950505050505054425350505050, 4950505251505052504850505050, 5050505050505052504850505050, 4950505250505052504850505050, 4950505250505347505050505050, 5150504851505048505250505050, 5150524852504753505050505050, 5150524852505048505250505050, 5150505050505149505050505050, 5150505050505051504950505050, 5050504850505248505050505050, 5050504850505051504950505050, 5050525052504852505050505050, 5050525052505049505150505050, 5050525052504951505050505050, 5050525052504853505050505050, 5050505250505052504850505050, 5050515152505051505050505050, 5150525052505051505050505050, 4950525052506047505050505050, 5050515151505051505050505050, 5150525052505051505050505050, 5050525052505054425350505050, 5050525052505046584750505050, 4950525052505046584750505050, 5250524852505048505350505050, 5150525051505048505350505050, 5050515150505051505050505050, 4950525051505051505050505050, 4850525252505052504850505050, 5050525052505247505050505050, 5050525052505149505050505050, 5050525052505051504950505050, 5050525052505248505050505050, 4950525252505049505150505050, 5150525052504951505050505050, 4950525252505052504750505050, 5250525052505052504750505050, 5150525052505046584750505050, 5150525052505054425350505050],
  [5150515151505051505050505050, 5050525052505051505050505050, 5250525051505051505050505050, 4950525252505052504850505050, 4950525252505347505050505050, 5150525052505149505050505050, 5050525252505052504850505050]] : List ℕ).map fun code => unpackRow 14 code []

/-- `ke0_t` — skyfield/nutationlib.py:9-14, one row for each term. -/
def equinoxRows : List (List ℤ) := (List.flatten [
  [5050505051505050505050505050, 5050505052505050505050505050, 5050524853505050505050505050, 5050524851505050505050505050, 5050524852505050505050505050, 5050525053505050505050505050, 5050525051505050505050505050, 5050505053505050505050505050, 5051505051505050505050505050, 5051505049505050505050505050, 5150505049505050505050505050, 5150505051505050505050505050, 5051524853505050505050505050, 5051524851505050505050505050, 5050544654505050505050505050, 5050514951504262505050505050, 5050525050505050505050505050, 5050525052505050505050505050, 5150525053505050505050505050, 5150525051505050505050505050, 5050524850505050505050505050, 5051485247505050505050505050, 5051485249505050505050505050, 5050505050505837505050505049, 5050505250505050505050505050, 5250485049505050505050505050, 5150504851505050505050505050, 5051524852505050505050505050, 5150504849505050505050505050, 5050544854505050505050505050, 5050524854505050505050505050, 5150485047505050505050505050, 5150485049505050505050505050]] : List ℕ).map fun code => unpackRow 14 code []

/-- `ke1` — skyfield/nutationlib.py:9-14. -/
def equinoxRow : List ℤ := [0, 0, 0, 0, 1, 0, 0, 0, 0, 0, 0, 0, 0, 0]

/-- A row of a table, indexed by the number of the fundamental argument. Used at skyfield/nutationlib.py:9-14. -/
def tableRow (n : ℕ) (row : List ℤ) : Fin n → ℤ := fun i => row.getD i 0

/-- The tables `nals_t`, `napl_t`, `ke0_t` and `ke1` as loaded — skyfield/nutationlib.py:9-14. -/
def bundledMultipliers : NutationMultipliers where
  nals := lunisolarRows.map (tableRow 5)
  napl := planetaryRows.map (tableRow 14)
  ke0 := equinoxRows.map (tableRow 14)
  ke1 := tableRow 14 equinoxRow

end Skyfield
