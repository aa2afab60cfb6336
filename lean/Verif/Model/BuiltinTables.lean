import Mathlib.Data.Int.Init

/-
The arrays bundled with Skyfield in skyfield/data/iers.npz (read at skyfield/iokit.py:352-358) and in skyfield/data/delta_t.npz (read at
skyfield/timelib.py:1106), decoded by a script from the bytes of the arrays.
-/
namespace Skyfield

/-- `tt_jd_minus_arange` — skyfield/data/iers.npz: how often each number stands there in a row, and the number in units of 2⁻³¹ days (every one of
these doubles is a whole number of them). Used at skyfield/iokit.py:350-358. -/
def builtinTtRuns : List (ℕ × ℕ) :=
  [(364, 5243477538423255), (365, 5243477538448110), (365, 5243477538472966), (366, 5243477538497821), (365, 5243477538522676), (365, 5243477538547531), (365, 5243477538572386), (547, 5243477538597241), (365, 5243477538622096), (365, 5243477538646951), (731, 5243477538671807), (914, 5243477538696662), (731, 5243477538721517), (365, 5243477538746372), (547, 5243477538771227), (365, 5243477538796082), (365, 5243477538820937), (549, 5243477538845793), (547, 5243477538870648), (549, 5243477538895503), (2557, 5243477538920358), (1096, 5243477538945213), (1277, 5243477538970068), (1095, 5243477538994923), (550, 5243477539019779), (3675, 5243477539044634)]

/-- `leap_dates` — skyfield/data/iers.npz: each is half a day before noon of the day with this number.
Used at skyfield/iokit.py:350-358. -/
def builtinLeapDays : List ℕ :=
  [2441500, 2441684, 2442049, 2442414, 2442779, 2443145, 2443510, 2443875, 2444240, 2444787, 2445152, 2445517, 2446248, 2447162, 2447893, 2448258, 2448805, 2449170, 2449535, 2450084, 2450631, 2451180, 2453737, 2454833, 2456110, 2457205, 2457755]

/-- `leap_offsets` — skyfield/data/iers.npz. Used at skyfield/iokit.py:350-358. -/
def builtinLeapOffsets : List ℕ :=
  [11, 12, 13, 14, 15, 16, 17, 18, 19, 20, 21, 22, 23, 24, 25, 26, 27, 28, 29, 30, 31, 32, 33, 34, 35, 36, 37]

/-- `delta_t_1e7[0:500]` — skyfield/data/iers.npz. Used at skyfield/iokit.py:350-358. -/
def builtinDeltas0 : List ℕ :=
  [433755822, 433783837, 433812105, 433841271, 433871856, 433904178, 433938290, 433973947, 434010611, 434047513, 434083782, 434118641, 434151622, 434182765,
   434212675, 434242392, 434273069, 434305559, 434340120, 434376349, 434413379, 434450211, 434486002, 434520222, 434552652, 434583330, 434612498, 434640573,
   434668129, 434695834, 434724372, 434754344, 434786169, 434819995, 434855630, 434892527, 434929851, 434966652, 435002089, 435035651, 435067314, 435097573,
   435127333, 435157672, 435189534, 435223429, 435259281, 435296465, 435334030, 435371005, 435406642, 435440535, 435472606, 435503039, 435532218, 435560679,
   435589067, 435618072, 435648351, 435680435, 435714636, 435750945, 435788961, 435827900, 435866731, 435904435, 435940308, 435974179, 436006459, 436038008,
   436069880, 436103030, 436138069, 436175114, 436213780, 436253303, 436292755, 436331284, 436368288, 436403500, 436436961, 436468967, 436499987, 436530603,
   436561453, 436593164, 436626285, 436661217, 436698132, 436736863, 436776837, 436817115, 436856588, 436894298, 436929775, 436963201, 436995353, 437027304,
   437060067, 437094311, 437130222, 437167532, 437205641, 437243779, 437281179, 437317224, 437351551, 437384093, 437415061, 437444878, 437474103, 437503352,
   437533232, 437564274, 437596890, 437631322, 437667569, 437705303, 437743829, 437782156, 437819238, 437854315, 437887223, 437918489, 437949140, 437980299,
   438012782, 438046860, 438082265, 438118366, 438154401, 438189652, 438223550, 438255734, 438286078, 438314703, 438341958, 438368362, 438394519, 438421033,
   438448430, 438477107, 438507301, 438539056, 438572183, 438606211, 438640389, 438673799, 438705602, 438735360, 438763273, 438790163, 438817191, 438845395,
   438875295, 438906748, 438939087, 438971418, 439002914, 439032976, 439061267, 439087683, 439112332, 439135517, 439157713, 439179509, 439201523, 439224302,
   439248259, 439273631, 439300449, 439328539, 439357509, 439386768, 439415571, 439443172, 439469056, 439493177, 439516078, 439538784, 439562443, 439587881,
   439615271, 439644098, 439673393, 439702115, 439729451, 439754953, 439778507, 439800250, 439820499, 439839715, 439858479, 439877425, 439897156, 439918149,
   439940689, 439964830, 439990390, 440016963, 440043965, 440070707, 440096517, 440120904, 440143730, 440165344, 440186566, 440208486, 440232102, 440257934,
   440285819, 440314956, 440344222, 440372552, 440399223, 440423950, 440446808, 440468119, 440488352, 440508077, 440527927, 440548530, 440570429, 440593998,
   440619378, 440646452, 440674837, 440703929, 440732994, 440761320, 440788387, 440814029, 440838518, 440862553, 440887104, 440913149, 440941374, 440971920,
   441004298, 441037526, 441070446, 441102065, 441131788, 441159466, 441185301, 441209720, 441233269, 441256555, 441280196, 441304758, 441330678, 441358212,
   441387381, 441417932, 441449341, 441480868, 441511711, 441541214, 441569075, 441595470, 441621025, 441646655, 441673325, 441701784, 441732358, 441764848,
   441798574, 441832562, 441865816, 441897578, 441927481, 441955567, 441982187, 442007878, 442033259, 442058957, 442085553, 442113522, 442143185, 442174655,
   442207801, 442242230, 442277289, 442312151, 442346007, 442378311, 442408993, 442438522, 442467770, 442497721, 442529162, 442562474, 442597549, 442633851,
   442670574, 442706852, 442741937, 442775357, 442806987, 442837029, 442865932, 442894279, 442922691, 442951747, 442981927, 443013573, 443046852, 443081736,
   443117982, 443155113, 443192436, 443229145, 443264540, 443298272, 443330537, 443362051, 443393812, 443426718, 443461245, 443497309, 443534358, 443571585,
   443608161, 443643414, 443676911, 443708497, 443738289, 443766643, 443794080, 443821199, 443848582, 443876719, 443905957, 443936471, 443968261, 444001153,
   444034796, 444068670, 444102122, 444134497, 444165339, 444194623, 444222872, 444251036, 444280146, 444310908, 444343419, 444377141, 444411138, 444444418,
   444476212, 444506082, 444533916, 444559860, 444584256, 444607591, 444630441, 444653401, 444676993, 444701602, 444727427, 444754476, 444782581, 444811424,
   444840562, 444869461, 444897564, 444924424, 444949885, 444974242, 444998261, 445022989, 445049373, 445077866, 445108212, 445139533, 445170664, 445200550,
   445228528, 445254388, 445278285, 445300601, 445321841, 445342579, 445363415, 445384910, 445407507, 445431470, 445456850, 445483495, 445511076, 445539138,
   445567153, 445594598, 445621054, 445646335, 445670607, 445694456, 445718808, 445744678, 445772806, 445803338, 445835705, 445868798, 445901359, 445932374,
   445961321, 445988181, 446013300, 446037203, 446060487, 446083756, 446107587, 446132473, 446158756, 446186571, 446215831, 446246238, 446277327, 446308526,
   446339255, 446369035, 446397620, 446425099, 446451934, 446478912, 446506982, 446536984, 446569358, 446603934, 446639926, 446676162, 446711454, 446744948,
   446776310, 446805688, 446833553, 446860514, 446887196, 446914189, 446942009, 446971054, 447001548, 447033505, 447066721, 447100795, 447135173, 447169231,
   447202395, 447234298, 447264913, 447294604, 447324072, 447354188, 447385767, 447419333, 447454946, 447492142, 447530027, 447567516, 447603643, 447637810,
   447669900, 447700207, 447729279, 447757751, 447786230, 447815245, 447845214, 447876409, 447908918, 447942637, 447977268, 448012344, 448047282, 448081474,
   448114434, 448145970, 448176303, 448206051, 448236065, 448267163, 448299882, 448334325, 448370135, 448406599, 448442817, 448477915, 448511251, 448542544,
   448571901, 448599745, 448626665, 448653283, 448680152, 448707706, 448736232, 448765854, 448796520, 448828010]

/-- `delta_t_1e7[500:1000]` — skyfield/data/iers.npz. Used at skyfield/iokit.py:350-358. -/
def builtinDeltas1 : List ℕ :=
  [448859957, 448891870, 448923193, 448953407, 448982188, 449009573, 449036040, 449062405, 449089564, 449118163, 449148366, 449179810, 449211749, 449243289,
   449273613, 449302138, 449328590, 449353013, 449375732, 449397267, 449418221, 449439175, 449460601, 449482817, 449505968, 449530025, 449554800, 449579980,
   449605161, 449629882, 449653684, 449676213, 449697379, 449717487, 449737253, 449757626, 449779459, 449803154, 449828483, 449854674, 449880686, 449905554,
   449928628, 449949649, 449968710, 449986146, 450002459, 450018225, 450034028, 450050377, 450067642, 450086008, 450105472, 450125861, 450146874, 450168122,
   450189179, 450209630, 450229141, 450247558, 450265036, 450282116, 450299672, 450318666, 450339790, 450363142, 450388132, 450413660, 450438509, 450461727,
   450482856, 450501926, 450519312, 450535569, 450551305, 450567118, 450583549, 450601025, 450619806, 450639952, 450661327, 450683635, 450706483, 450729433,
   450752065, 450774036, 450795157, 450815487, 450835405, 450855618, 450877035, 450900497, 450926438, 450954637, 450984209, 451013866, 451042346, 451068794,
   451092942, 451115034, 451135626, 451155373, 451174899, 451194751, 451215371, 451237057, 451259925, 451283911, 451308774, 451334149, 451359601, 451384701,
   451409092, 451432574, 451455172, 451477201, 451499258, 451522149, 451546717, 451573585, 451602894, 451634161, 451666355, 451698196, 451728558, 451756795,
   451782851, 451807145, 451830343, 451853138, 451876138, 451899825, 451924542, 451950472, 451977616, 452005796, 452034678, 452063835, 452092801, 452121155,
   452148605, 452175083, 452200812, 452226305, 452252288, 452279543, 452308704, 452340056, 452373405, 452408059, 452442980, 452477056, 452509432, 452539736,
   452568115, 452595102, 452621390, 452647645, 452674400, 452702039, 452730785, 452760700, 452791674, 452823442, 452855618, 452887759, 452919424, 452950253,
   452980068, 453008966, 453037360, 453065924, 453095415, 453126461, 453159364, 453194003, 453229844, 453266054, 453301694, 453335947, 453368314, 453398721,
   453427500, 453455237, 453482589, 453510133, 453538291, 453567309, 453597270, 453628103, 453659591, 453691408, 453723156, 453754423, 453784842, 453814171,
   453842394, 453869809, 453897017, 453924797, 453953859, 453984586, 454016890, 454050227, 454083769, 454116635, 454148093, 454177703, 454205371, 454231339,
   454256100, 454280273, 454304465, 454329155, 454354648, 454381065, 454408362, 454436358, 454464767, 454493240, 454521412, 454548955, 454575629, 454601359,
   454626327, 454651029, 454676216, 454702702, 454731063, 454761380, 454793157, 454825463, 454857246, 454887640, 454916153, 454942712, 454967581, 454991249,
   455014312, 455037374, 455060954, 455085420, 455110950, 455137538, 455165017, 455193107, 455221465, 455249734, 455277593, 455304803, 455331261, 455357064,
   455382578, 455408455, 455435524, 455464551, 455495914, 455529378, 455564096, 455598856, 455632485, 455664188, 455693708, 455721267, 455747383, 455772688,
   455797802, 455823257, 455849462, 455876657, 455904895, 455934048, 455963843, 455993923, 456023904, 456053432, 456082235, 456110165, 456137258, 456163779,
   456190258, 456217449, 456246179, 456277082, 456310313, 456345379, 456381222, 456416536, 456450189, 456481556, 456510622, 456537843, 456563903, 456589500,
   456615226, 456641526, 456668699, 456696877, 456726018, 456755912, 456786232, 456816599, 456846640, 456876053, 456904650, 456932412, 456959530, 456986431,
   457013759, 457042278, 457072701, 457105451, 457140435, 457176971, 457213916, 457250008, 457284268, 457316271, 457346187, 457374593, 457402212, 457429700,
   457457553, 457486094, 457515491, 457545759, 457576756, 457608206, 457639749, 457671011, 457701660, 457731467, 457760351, 457788430, 457816048, 457843754,
   457872219, 457902101, 457933866, 457967621, 458003003, 458039206, 458075155, 458109813, 458142490, 458173024, 458201760, 458229344, 458256476, 458283721,
   458311442, 458339817, 458368869, 458398487, 458428436, 458458389, 458487992, 458516914, 458544906, 458571851, 458597811, 458623068, 458648120, 458673607,
   458700157, 458728221, 458757926, 458789012, 458820858, 458852612, 458883383, 458912475, 458939566, 458964787, 458988640, 459011800, 459034907, 459058423,
   459082593, 459107473, 459132976, 459158904, 459184966, 459210815, 459236108, 459260574, 459284057, 459306564, 459328302, 459349708, 459371400, 459394040,
   459418131, 459443826, 459470850, 459498552, 459526085, 459552612, 459577506, 459600461, 459621535, 459641113, 459659794, 459678214, 459696898, 459716169,
   459736130, 459756705, 459777686, 459798794, 459819705, 459840102, 459859718, 459878389, 459896096, 459913001, 459929485, 459946140, 459963686, 459982776,
   460003752, 460026471, 460050290, 460074254, 460097387, 460118962, 460138648, 460156520, 460172968, 460188568, 460203954, 460219694, 460236201, 460253680,
   460272128, 460291377, 460311155, 460331138, 460351001, 460370458, 460389309, 460407484, 460425074, 460442365, 460459855, 460478220, 460498187, 460520307,
   460544700, 460570913, 460597986, 460624739, 460650143, 460673607, 460695073, 460714914, 460733736, 460752196, 460770874, 460790207, 460810450, 460831666,
   460853729, 460876377, 460899269, 460922049, 460944406, 460966113, 460987069, 461007327, 461027109, 461046830, 461067084, 461088587, 461112019, 461137793,
   461165817, 461195417, 461225463, 461254720, 461282243, 461307644, 461331117, 461353257, 461374797, 461396400, 461418561, 461441585, 461465600, 461490561,
   461516281, 461542459, 461568753, 461594844, 461620488, 461645557, 461670062, 461694171, 461718223, 461742718]

/-- `delta_t_1e7[1000:1500]` — skyfield/data/iers.npz. Used at skyfield/iokit.py:350-358. -/
def builtinDeltas2 : List ℕ :=
  [461768276, 461795544, 461825041, 461856954, 461890966, 461926242, 461961610, 461995912, 462028373, 462058807, 462087580, 462115378, 462142926, 462170788,
   462199304, 462228617, 462258719, 462289471, 462320620, 462351839, 462382794, 462413205, 462442901, 462471842, 462500136, 462528051, 462556014, 462584569,
   462614306, 462645737, 462679158, 462714502, 462751263, 462788561, 462825343, 462860696, 462894123, 462925673, 462955847, 462985351, 463014833, 463044725,
   463075210, 463106285, 463137818, 463169585, 463201291, 463232609, 463263246, 463292995, 463321779, 463349664, 463376873, 463403780, 463430882, 463458727,
   463487790, 463518355, 463550407, 463583596, 463617271, 463650612, 463682822, 463713351, 463742060, 463769245, 463795510, 463821536, 463847866, 463874792,
   463902362, 463930458, 463958865, 463987317, 464015525, 464043215, 464070177, 464096313, 464121667, 464146432, 464170956, 464195722, 464221288, 464248168,
   464276677, 464306803, 464338172, 464370125, 464401882, 464432722, 464462145, 464489982, 464516425, 464541957, 464567207, 464592765, 464619023, 464646116,
   464673952, 464702296, 464730848, 464759296, 464787349, 464814773, 464841439, 464867350, 464892667, 464917704, 464942933, 464968937, 464996318, 465025530,
   465056696, 465089494, 465123199, 465156892, 465189707, 465221059, 465250752, 465278960, 465306136, 465332875, 465359766, 465387273, 465415638, 465444860,
   465474744, 465504975, 465535204, 465565100, 465594394, 465622909, 465650593, 465677542, 465704007, 465730393, 465757237, 465785158, 465814739, 465846329,
   465879855, 465914751, 465950070, 465984761, 466017990, 466049369, 466078988, 466107307, 466134957, 466162566, 466190640, 466219499, 466249251, 466279802,
   466310899, 466342202, 466373362, 466404078, 466434139, 466463448, 466492045, 466520118, 466548000, 466576168, 466605203, 466635726, 466668245, 466702969,
   466739636, 466777483, 466815413, 466852331, 466887490, 466920688, 466952237, 466982761, 467012942, 467043334, 467074296, 467105982, 467138369, 467171288,
   467204454, 467237532, 467270206, 467302231, 467333477, 467363937, 467393740, 467423151, 467452559, 467482466, 467513434, 467545997, 467580525, 467617055,
   467655167, 467694010, 467732501, 467769664, 467804944, 467838347, 467870349, 467901639, 467932854, 467964416, 467996505, 468029117, 468062115, 468095273,
   468128304, 468160908, 468192829, 468223912, 468254131, 468283588, 468312513, 468341247, 468370229, 468399952, 468430901, 468463452, 468497763, 468533662,
   468570605, 468607748, 468644161, 468679117, 468712327, 468744013, 468774761, 468805254, 468836024, 468867331, 468899178, 468931378, 468963654, 468995692,
   469027174, 469057816, 469087412, 469115880, 469143274, 469169780, 469195701, 469221436, 469247443, 469274167, 469301949, 469330926, 469360974, 469391681,
   469422397, 469452357, 469480886, 469507592, 469532502, 469556043, 469578872, 469601625, 469624712, 469648249, 469672111, 469696047, 469719773, 469743017,
   469765538, 469787159, 469807815, 469827574, 469846651, 469865386, 469884218, 469903644, 469924158, 469946140, 469969757, 469994885, 470021105, 470047788,
   470074235, 470099839, 470124224, 470147343, 470169488, 470191203, 470213096, 470235647, 470259074, 470283305, 470308057, 470332961, 470357651, 470381818,
   470405226, 470427737, 470449341, 470470172, 470490511, 470510758, 470531397, 470552939, 470575840, 470600372, 470626499, 470653820, 470681640, 470709148,
   470735639, 470760694, 470784250, 470806576, 470828175, 470849629, 470871453, 470893966, 470917233, 470941090, 470965215, 470989231, 471012801, 471035676,
   471057717, 471078898, 471099329, 471119270, 471139113, 471159344, 471180497, 471203097, 471227559, 471254045, 471282336, 471311813, 471341589, 471370765,
   471398710, 471425219, 471450515, 471475116, 471499651, 471524693, 471550649, 471577703, 471605804, 471634704, 471664038, 471693415, 471722503, 471751083,
   471779063, 471806480, 471833508, 471860446, 471887701, 471915751, 471945104, 471976229, 472009440, 472044755, 472081782, 472119738, 472157629, 472194553,
   472229984, 472263905, 472296728, 472329075, 472361542, 472394553, 472428305, 472462778, 472497781, 472532999, 472568058, 472602616, 472636421, 472669332,
   472701346, 472732595, 472763330, 472793893, 472824704, 472856220, 472888897, 472923106, 472959040, 472996586, 473035251, 473074210, 473112516, 473149398,
   473184522, 473218055, 473250532, 473282595, 473314754, 473347262, 473380137, 473413241, 473446338, 473479125, 473511292, 473542568, 473572772, 473601852,
   473629899, 473657139, 473683896, 473710564, 473737580, 473765376, 473794333, 473824697, 473856502, 473889494, 473923144, 473956730, 473989518, 474020999,
   474051095, 474080172, 474108848, 474137720, 474167159, 474197238, 474227789, 474258531, 474289153, 474319364, 474348917, 474377633, 474405442, 474432407,
   474458727, 474484700, 474510691, 474537089, 474564274, 474592571, 474622186, 474653151, 474685277, 474718148, 474751165, 474783671, 474815122, 474845265,
   474874234, 474902498, 474930653, 474959181, 474988291, 475017886, 475047663, 475077258, 475106345, 475134667, 475162049, 475188417, 475213815, 475238419,
   475262524, 475286507, 475310780, 475335757, 475361797, 475389136, 475417811, 475447625, 475478158, 475508848, 475539117, 475568495, 475596749, 475623949,
   475650470, 475676874, 475703720, 475731363, 475759842, 475788900, 475818108, 475847018, 475875265, 475902606, 475928915, 475954190, 475978560, 476002280,
   476025717, 476049313, 476073532, 476098806, 476125466, 476153654, 476183243, 476213820, 476244762, 476275398]

/-- `delta_t_1e7[1500:2000]` — skyfield/data/iers.npz. Used at skyfield/iokit.py:350-358. -/
def builtinDeltas3 : List ℕ :=
  [476305193, 476333882, 476361522, 476388458, 476415225, 476442398, 476470427, 476499500, 476529508, 476560092, 476590773, 476621091, 476650699, 476679389,
   476707094, 476733881, 476759945, 476785605, 476811264, 476837388, 476864439, 476892820, 476922792, 476954373, 476987260, 477020840, 477054324, 477086977,
   477118335, 477148322, 477177228, 477205586, 477233995, 477262967, 477292814, 477323605, 477355162, 477387132, 477419098, 477450685, 477481629, 477511789,
   477541165, 477569891, 477598218, 477626494, 477655133, 477684572, 477715225, 477747436, 477781381, 477816968, 477853768, 477891058, 477927991, 477963861,
   477998335, 478031523, 478063872, 478095962, 478128300, 478161198, 478194733, 478228775, 478263039, 478297156, 478330748, 478363506, 478395243, 478425922,
   478455645, 478484646, 478513259, 478541884, 478570954, 478600885, 478632040, 478664675, 478698856, 478734385, 478770756, 478807212, 478842952, 478877393,
   478910381, 478942199, 478973404, 479004566, 479036062, 479067994, 479100217, 479132445, 479164330, 479195532, 479225762, 479254824, 479282646, 479309295,
   479334961, 479359931, 479384552, 479409203, 479434255, 479460039, 479486799, 479514647, 479543511, 479573089, 479602850, 479632127, 479660321, 479687104,
   479712554, 479737118, 479761406, 479785933, 479810926, 479836303, 479861768, 479886943, 479911472, 479935082, 479957596, 479978940, 479999166, 480018451,
   480037063, 480055337, 480073633, 480092303, 480111660, 480131941, 480153262, 480175569, 480198634, 480222049, 480245287, 480267819, 480289277, 480309599,
   480329076, 480348257, 480367728, 480387862, 480408685, 480429898, 480451028, 480471622, 480491344, 480509999, 480527513, 480543933, 480559426, 480574283,
   480588884, 480603649, 480618988, 480635266, 480652757, 480671601, 480691757, 480712988, 480734877, 480756923, 480778641, 480799676, 480819896, 480839454,
   480858759, 480878349, 480898683, 480919958, 480942021, 480964427, 480986626, 481008144, 481028668, 481048062, 481066338, 481083636, 481100219, 481116457,
   481132779, 481149610, 481167333, 481186254, 481206559, 481228258, 481251151, 481274822, 481298728, 481322336, 481345268, 481367401, 481388897, 481410164,
   481431754, 481454209, 481477896, 481502881, 481528907, 481555488, 481582076, 481608205, 481633599, 481658174, 481682008, 481705301, 481728351, 481751531,
   481775255, 481799921, 481825870, 481853344, 481882437, 481913023, 481944725, 481976949, 482009013, 482040341, 482070626, 482099907, 482128518, 482156966,
   482185779, 482215362, 482245881, 482277228, 482309046, 482340839, 482372112, 482402493, 482431797, 482460028, 482487341, 482514021, 482540452, 482567063,
   482594298, 482622563, 482652191, 482683411, 482716288, 482750627, 482785959, 482821618, 482856902, 482891289, 482924605, 482957055, 482989104, 483021282,
   483054013, 483087493, 483121672, 483156292, 483190957, 483225223, 483258689, 483291081, 483322296, 483352403, 483381601, 483410190, 483438529, 483467007,
   483496005, 483525848, 483556771, 483588889, 483622163, 483656348, 483690976, 483725430, 483759116, 483791680, 483823145, 483853892, 483884481, 483915413,
   483946952, 483979069, 484011508, 484043904, 484075871, 484107076, 484137285, 484166390, 484194430, 484221579, 484248114, 484274384, 484300776, 484327671,
   484355405, 484384239, 484414326, 484445691, 484478210, 484511588, 484545366, 484579012, 484612087, 484644441, 484676291, 484708129, 484740484, 484773703,
   484807807, 484842507, 484877341, 484911833, 484945604, 484978409, 485010136, 485040801, 485070544, 485099612, 485128325, 485157040, 485186102, 485215816,
   485246413, 485278023, 485310650, 485344163, 485378305, 485412711, 485446954, 485480640, 485513535, 485545685, 485577437, 485609318, 485641804, 485675113,
   485709090, 485743279, 485777105, 485810074, 485841871, 485872377, 485901637, 485929819, 485957201, 485984141, 486011042, 486038304, 486066283, 486095265,
   486125428, 486156818, 486189329, 486222709, 486256610, 486290651, 486324506, 486357971, 486391048, 486423995, 486457283, 486491442, 486526844, 486563520,
   486601119, 486639021, 486676547, 486713157, 486748546, 486782646, 486815568, 486847545, 486878907, 486910046, 486941371, 486973266, 487006040, 487039896,
   487074894, 487110930, 487147723, 487184839, 487221792, 487258167, 487293718, 487328439, 487362575, 487396580, 487431007, 487466344, 487502854, 487540438,
   487578653, 487616844, 487654359, 487690718, 487725689, 487759274, 487791642, 487823081, 487853953, 487884670, 487915667, 487947334, 487979970, 488013754,
   488048719, 488084706, 488121349, 488158131, 488194515, 488230092, 488264716, 488298535, 488331933, 488365414, 488399460, 488434404, 488470312, 488506949,
   488543819, 488580306, 488615847, 488650078, 488682880, 488714345, 488744716, 488774333, 488803598, 488832949, 488862800, 488893482, 488925197, 488958021,
   488991879, 489026522, 489061513, 489096298, 489130340, 489163317, 489195234, 489226417, 489257379, 489288638, 489320549, 489353232, 489386551, 489420164,
   489453607, 489486409, 489518201, 489548805, 489578244, 489606718, 489634542, 489662070, 489689682, 489717748, 489746587, 489776422, 489807362, 489839395,
   489872376, 489906007, 489939839, 489973349, 490006087, 490037848, 490068766, 490099256, 490129828, 490160865, 490192475, 490224483, 490256508, 490288090,
   490318781, 490348204, 490376119, 490402454, 490427304, 490450892, 490473519, 490495528, 490517297, 490539174, 490561434, 490584246, 490607664, 490631630,
   490655973, 490680411, 490704575, 490728086, 490750700, 490772441, 490793653, 490814884, 490836663, 490859265]

/-- `delta_t_1e7[2000:2500]` — skyfield/data/iers.npz. Used at skyfield/iokit.py:350-358. -/
def builtinDeltas4 : List ℕ :=
  [490882601, 490906268, 490929715, 490952419, 490974003, 490994271, 491013205, 491030937, 491047720, 491063895, 491079840, 491095930, 491112499, 491129798,
   491147978, 491167070, 491186978, 491207499, 491228343, 491249180, 491269673, 491289560, 491308764, 491327477, 491346148, 491365332, 491385453, 491406605,
   491428474, 491450458, 491471889, 491492253, 491511282, 491528950, 491545418, 491560971, 491575977, 491590844, 491605982, 491621762, 491638475, 491656317,
   491675371, 491695587, 491716792, 491738711, 491761023, 491783422, 491805673, 491827695, 491849617, 491871802, 491894772, 491919042, 491944891, 491972203,
   492000459, 492028891, 492056734, 492083430, 492108715, 492132597, 492155276, 492177064, 492198339, 492219492, 492240888, 492262832, 492285534, 492309087,
   492333461, 492358512, 492383988, 492409553, 492434862, 492459664, 492483867, 492507587, 492531163, 492555105, 492579971, 492606204, 492633961, 492663006,
   492692752, 492722444, 492751401, 492779198, 492805733, 492831171, 492855837, 492880132, 492904490, 492929332, 492955022, 492981821, 493009875, 493039202,
   493069683, 493101057, 493132935, 493164859, 493196407, 493227315, 493257569, 493287412, 493317273, 493347659, 493379010, 493411565, 493445252, 493479674,
   493514204, 493548141, 493580909, 493612174, 493641891, 493670246, 493697591, 493724340, 493750914, 493777706, 493805053, 493833213, 493862321, 493892389,
   493923301, 493954792, 493986480, 494017939, 494048821, 494078985, 494108581, 494138014, 494167809, 494198440, 494230181, 494263041, 494296753, 494330841,
   494364725, 494397861, 494429864, 494460583, 494490110, 494518712, 494546751, 494574620, 494602690, 494631284, 494660636, 494690868, 494721979, 494753857,
   494786290, 494818967, 494851505, 494883527, 494914782, 494945263, 494975263, 495005286, 495035849, 495067288, 495099629, 495132599, 495165722, 495198459,
   495230324, 495260976, 495290266, 495318253, 495345161, 495371320, 495397104, 495422879, 495448971, 495475638, 495503063, 495531321, 495560375, 495590097,
   495620288, 495650693, 495681026, 495711046, 495740665, 495770058, 495799657, 495829996, 495861495, 495894265, 495928030, 495962218, 495996152, 496029236,
   496061080, 496091521, 496120609, 496148565, 496175719, 496202452, 496229140, 496256114, 496283637, 496311883, 496340919, 496370698, 496401069, 496431807,
   496462654, 496493351, 496523674, 496553500, 496582895, 496612172, 496641846, 496672465, 496704357, 496737444, 496771219, 496804907, 496837717, 496869074,
   496898722, 496926697, 496953244, 496978733, 497003585, 497028222, 497053025, 497078298, 497104252, 497130992, 497158509, 497186681, 497215286, 497244050,
   497272702, 497301028, 497328928, 497356455, 497383859, 497411600, 497440253, 497470321, 497502001, 497535036, 497568750, 497602264, 497634772, 497665759,
   497695082, 497722908, 497749604, 497775615, 497801400, 497827386, 497853937, 497881325, 497909707, 497939118, 497969478, 498000593, 498032172, 498063857,
   498095317, 498126340, 498156898, 498187167, 498217522, 498248478, 498280572, 498314165, 498349268, 498385453, 498421933, 498457784, 498492257, 498524942,
   498555805, 498585112, 498613289, 498640818, 498668166, 498695754, 498723920, 498752885, 498782745, 498813472, 498844926, 498876860, 498908944, 498940837,
   498972277, 499003169, 499033637, 499064017, 499094778, 499126420, 499159334, 499193672, 499229241, 499265496, 499301652, 499336890, 499370586, 499402472,
   499432634, 499461402, 499489224, 499516565, 499543851, 499571432, 499599557, 499628345, 499657791, 499687781, 499718104, 499748472, 499778556, 499808042,
   499836737, 499864666, 499892102, 499919500, 499947376, 499976149, 500006005, 500036837, 500068254, 500099639, 500130290, 500159589, 500187152, 500212897,
   500237012, 500259857, 500281858, 500303443, 500324987, 500346777, 500368997, 500391720, 500414902, 500438409, 500462042, 500485564, 500508720, 500531299,
   500553227, 500574667, 500596038, 500617893, 500640734, 500664819, 500690073, 500716100, 500742313, 500768078, 500792855, 500816289, 500838277, 500858958,
   500878653, 500897773, 500916733, 500935895, 500955539, 500975843, 500996863, 501018531, 501040674, 501063058, 501085420, 501107499, 501129057, 501149952,
   501170219, 501190143, 501210222, 501231012, 501252884, 501275846, 501299499, 501323184, 501346173, 501367868, 501387921, 501406261, 501423058, 501438662,
   501453518, 501468082, 501482760, 501497874, 501513648, 501530198, 501547532, 501565548, 501584062, 501602858, 501621723, 501640488, 501659061, 501677472,
   501695926, 501714856, 501734841, 501756407, 501779799, 501804806, 501830756, 501856716, 501881799, 501905394, 501927259, 501947483, 501966402, 501984473,
   502002163, 502019894, 502037992, 502056679, 502076058, 502096121, 502116754, 502137751, 502158847, 502179794, 502200406, 502220593, 502240395, 502260014,
   502279842, 502300449, 502322458, 502346350, 502372225, 502399672, 502427853, 502455751, 502482492, 502507581, 502530955, 502552894, 502573870, 502594396,
   502614934, 502635852, 502657400, 502679707, 502702795, 502726578, 502750883, 502775467, 502800055, 502824395, 502848341, 502871889, 502895210, 502918645,
   502942684, 502967905, 502994848, 503023824, 503054737, 503087019, 503119750, 503151935, 503182802, 503212001, 503239606, 503265989, 503291656, 503317108,
   503342768, 503368938, 503395792, 503423361, 503451553, 503480163, 503508910, 503537481, 503565555, 503592861, 503619250, 503644765, 503669659, 503694364,
   503719431, 503745405, 503772684, 503801386, 503831254, 503861660, 503891749, 503920693, 503947935, 503973327]

/-- `delta_t_1e7[2500:3000]` — skyfield/data/iers.npz. Used at skyfield/iokit.py:350-358. -/
def builtinDeltas5 : List ℕ :=
  [503997097, 504019716, 504041728, 504063635, 504085837, 504108610, 504132099, 504156314, 504181150, 504206418, 504231864, 504257206, 504282172, 504306563,
   504330333, 504353657, 504376929, 504400683, 504425460, 504451662, 504479437, 504508609, 504538698, 504569006, 504598772, 504627369, 504654455, 504680045,
   504704441, 504728107, 504751522, 504775087, 504799096, 504823721, 504849008, 504874874, 504901136, 504927547, 504953834, 504979733, 505005021, 505029573,
   505053431, 505076869, 505100360, 505124461, 505149628, 505176061, 505203620, 505231870, 505260202, 505287989, 505314720, 505340104, 505364133, 505387068,
   505409342, 505431435, 505453774, 505476669, 505500308, 505524752, 505549942, 505575714, 505601832, 505628040, 505654106, 505679837, 505705108, 505729916,
   505754443, 505779087, 505804396, 505830887, 505858829, 505888083, 505918103, 505948093, 505977240, 506004912, 506030774, 506054807, 506077265, 506098581,
   506119261, 506139771, 506160484, 506181633, 506203329, 506225560, 506248216, 506271107, 506294009, 506316714, 506339074, 506361033, 506382647, 506404118,
   506425843, 506448422, 506472535, 506498680, 506526961, 506556980, 506587905, 506618708, 506648469, 506676603, 506702940, 506727667, 506751183, 506773981,
   506796538, 506819238, 506842335, 506865941, 506890051, 506914556, 506939255, 506963886, 506988169, 507011875, 507034885, 507057217, 507079032, 507100665,
   507122641, 507145627, 507170292, 507197084, 507226011, 507256532, 507287689, 507318410, 507347840, 507375563, 507401635, 507426453, 507450574, 507474555,
   507498849, 507523765, 507549459, 507575934, 507603068, 507630639, 507658362, 507685916, 507712994, 507739369, 507764945, 507789787, 507814140, 507838411,
   507863140, 507888942, 507916360, 507945658, 507976644, 508008634, 508040606, 508071523, 508100655, 508127769, 508153106, 508177208, 508200705, 508224146,
   508247936, 508272322, 508297398, 508323121, 508349331, 508375781, 508402179, 508428235, 508453698, 508478415, 508502380, 508525771, 508548941, 508572378,
   508596626, 508622179, 508649355, 508678146, 508708130, 508738511, 508768308, 508796638, 508822979, 508847292, 508869948, 508891528, 508912620, 508933693,
   508955051, 508976833, 508999036, 509021534, 509044111, 509066501, 509088438, 509109690, 509130100, 509149624, 509168390, 509186720, 509205098, 509224082,
   509244172, 509265694, 509288703, 509312938, 509337834, 509362619, 509386501, 509408889, 509429547, 509448639, 509466619, 509484054, 509501445, 509519135,
   509537296, 509555948, 509574981, 509594188, 509613293, 509632016, 509650120, 509667435, 509683887, 509699529, 509714595, 509729509, 509744838, 509761148,
   509778826, 509797955, 509818275, 509839237, 509860122, 509880218, 509898975, 509916124, 509931732, 509946168, 509959976, 509973698, 509987748, 510002372,
   510017656, 510033549, 510049894, 510066455, 510082971, 510099195, 510114931, 510130073, 510144626, 510158741, 510172741, 510187118, 510202436, 510219184,
   510237568, 510257380, 510278017, 510298664, 510318520, 510336999, 510353845, 510369148, 510383280, 510396785, 510410231, 510424089, 510438662, 510454069,
   510470276, 510487134, 510504409, 510521830, 510539129, 510556104, 510572662, 510588830, 510604756, 510620738, 510637236, 510654852, 510674198, 510695684,
   510719302, 510744538, 510770475, 510796072, 510820475, 510843230, 510864338, 510884160, 510903254, 510922216, 510941547, 510961582, 510982470, 511004184,
   511026562, 511049353, 511072254, 511094959, 511117202, 511138824, 511159806, 511180275, 511200498, 511220895, 511242030, 511264556, 511289073, 511315897,
   511344857, 511375239, 511405972, 511435959, 511464386, 511490781, 511515129, 511537928, 511559900, 511581729, 511603923, 511626758, 511650312, 511674511,
   511699164, 511724015, 511748774, 511773170, 511796998, 511820164, 511842728, 511864905, 511887041, 511909601, 511933133, 511958184, 511985267, 512014568,
   512045794, 512078069, 512110174, 512141012, 512169912, 512196769, 512221975, 512246183, 512270060, 512294116, 512318645, 512343741, 512369330, 512395216,
   512421126, 512446753, 512471800, 512496032, 512519318, 512541665, 512563244, 512584394, 512605590, 512627384, 512650339, 512674934, 512701438, 512729769,
   512759406, 512789470, 512818933, 512846952, 512873130, 512897592, 512920864, 512943624, 512966465, 512989769, 513013687, 513038180, 513063080, 513088129,
   513113031, 513137503, 513161314, 513184309, 513206445, 513227825, 513248711, 513269511, 513290737, 513312916, 513336479, 513361666, 513388444, 513416463,
   513445071, 513473439, 513500767, 513526533, 513550645, 513573442, 513595530, 513617547, 513639971, 513663038, 513686761, 513710997, 513735509, 513760009,
   513784207, 513807849, 513830768, 513852902, 513874317, 513895222, 513915984, 513937110, 513959158, 513982612, 514007729, 514034455, 514062400, 514090916,
   514119239, 514146646, 514172625, 514196997, 514219958, 514241999, 514263722, 514285643, 514308059, 514331021, 514354384, 514377904, 514401285, 514424219,
   514446435, 514467747, 514488091, 514507537, 514526292, 514544700, 514563251, 514582544, 514603172, 514625542, 514649702, 514675277, 514701550, 514727649,
   514752784, 514776444, 514798499, 514819186, 514839027, 514858679, 514878764, 514899724, 514921755, 514944817, 514968708, 514993137, 515017786, 515042357,
   515066623, 515090466, 515113911, 515137123, 515160394, 515184120, 515208807, 515235035, 515263313, 515293865, 515326457, 515360370, 515394548, 515427897,
   515459587, 515489249, 515516989, 515543271, 515568734, 515594002, 515619546, 515645608, 515672206, 515699169]

/-- `delta_t_1e7[3000:3500]` — skyfield/data/iers.npz. Used at skyfield/iokit.py:350-358. -/
def builtinDeltas6 : List ℕ :=
  [515726210, 515752986, 515779164, 515804461, 515828704, 515851864, 515874080, 515895650, 515917000, 515938667, 515961276, 515985479, 516011794, 516040401,
   516070968, 516102651, 516134318, 516164918, 516193808, 516220908, 516246638, 516271695, 516296805, 516322538, 516349213, 516376905, 516405482, 516434661,
   516464072, 516493310, 516521983, 516549777, 516576507, 516602150, 516626868, 516650974, 516674904, 516699176, 516724342, 516750916, 516779229, 516809240,
   516840422, 516871810, 516902258, 516930820, 516957062, 516981149, 517003715, 517025568, 517047429, 517069772, 517092793, 517116464, 517140601, 517164934,
   517189155, 517212959, 517236090, 517258392, 517279842, 517300571, 517320870, 517341150, 517361892, 517383596, 517406719, 517431598, 517458327, 517486635,
   517515835, 517544924, 517572854, 517598879, 517622792, 517644940, 517666020, 517686779, 517707761, 517729200, 517751049, 517773073, 517794946, 517816311,
   517836832, 517856228, 517874315, 517891043, 517906515, 517920991, 517934870, 517948651, 517962857, 517977956, 517994270, 518011909, 518030711, 518050211,
   518069673, 518088250, 518105211, 518120192, 518133335, 518145223, 518156642, 518168279, 518180535, 518193469, 518206885, 518220450, 518233795, 518246584,
   518258547, 518269523, 518279481, 518288533, 518296936, 518305088, 518313502, 518322757, 518333397, 518345815, 518360153, 518376239, 518393602, 518411562,
   518429356, 518446309, 518462021, 518476486, 518490101, 518503531, 518517465, 518532385, 518548439, 518565456, 518583056, 518600779, 518618183, 518634900,
   518650674, 518665388, 518679078, 518691932, 518704266, 518716510, 518729181, 518742835, 518757942, 518774731, 518793073, 518812466, 518832137, 518851239,
   518869068, 518885232, 518899736, 518912959, 518925547, 518938229, 518951616, 518966040, 518981508, 518997753, 519014358, 519030879, 519046934, 519062254,
   519076712, 519090349, 519103374, 519116134, 519129086, 519142768, 519157768, 519174654, 519193838, 519215404, 519238991, 519263814, 519288853, 519313154,
   519336101, 519357555, 519377833, 519397558, 519417448, 519438114, 519459924, 519482938, 519506927, 519531465, 519556041, 519580164, 519603433, 519625596,
   519646574, 519666478, 519685606, 519704389, 519723336, 519743010, 519763990, 519786797, 519811747, 519838781, 519867353, 519896493, 519925071, 519952166,
   519977348, 520000772, 520023045, 520044965, 520067257, 520090402, 520114566, 520139626, 520165254, 520191003, 520216406, 520241045, 520264607, 520286925,
   520308013, 520328072, 520347469, 520366677, 520386220, 520406634, 520428426, 520452002, 520477532, 520504795, 520533102, 520561416, 520588645, 520614014,
   520637332, 520658996, 520679777, 520700495, 520721748, 520743782, 520766519, 520789666, 520812836, 520835625, 520857663, 520878668, 520898477, 520917082,
   520934643, 520951489, 520968082, 520984957, 521002655, 521021666, 521042388, 521065061, 521089664, 521115824, 521142789, 521169587, 521195299, 521219397,
   521241948, 521263535, 521284983, 521307014, 521330002, 521353921, 521378445, 521403108, 521427439, 521451035, 521473600, 521494956, 521515058, 521534019,
   521552105, 521569725, 521587379, 521605604, 521624879, 521645559, 521667826, 521691648, 521716745, 521742565, 521768341, 521793258, 521816701, 521838502,
   521859018, 521878991, 521899248, 521920372, 521942519, 521965440, 521988636, 522011553, 522033709, 522054756, 522074491, 522092864, 522109973, 522126065,
   522141516, 522156810, 522172497, 522189115, 522207096, 522226668, 522247796, 522270177, 522293276, 522316418, 522338919, 522360251, 522380217, 522399059,
   522417419, 522436135, 522455946, 522477236, 522499939, 522523618, 522547658, 522571459, 522594554, 522616655, 522637650, 522657608, 522676763, 522695492,
   522714278, 522733667, 522754207, 522776370, 522800440, 522826412, 522853933, 522882338, 522910769, 522938376, 522964530, 522988974, 523011872, 523033761,
   523055411, 523077611, 523100908, 523125454, 523150981, 523176935, 523202662, 523227587, 523251307, 523273630, 523294582, 523314387, 523333436, 523352237,
   523371353, 523391361, 523412808, 523436140, 523461584, 523489019, 523517915, 523547415, 523576550, 523604527, 523630950, 523655903, 523679897, 523703689,
   523728058, 523753588, 523780531, 523808752, 523837791, 523867005, 523895739, 523923455, 523949809, 523974670, 523998123, 524020457, 524042126, 524063681,
   524085697, 524108738, 524133305, 524159768, 524188241, 524218448, 524249687, 524280945, 524311189, 524339699, 524366301, 524391382, 524415703, 524440099,
   524465221, 524491383, 524518529, 524546294, 524574116, 524601374, 524627506, 524652091, 524674916, 524695978, 524715484, 524733827, 524751547, 524769234,
   524787468, 524806775, 524827583, 524850159, 524874504, 524900244, 524926614, 524952621, 524977372, 525000402, 525021844, 525042362, 525062861, 525084133,
   525106607, 525130274, 525154775, 525179552, 525204009, 525227603, 525249918, 525270701, 525289881, 525307581, 525324110, 525339924, 525355560, 525371558,
   525388392, 525406418, 525425851, 525446721, 525468807, 525491570, 525514218, 525535967, 525556219, 525574702, 525591668, 525607885, 525624291, 525641559,
   525659872, 525678948, 525698222, 525717067, 525734945, 525751485, 525766485, 525779915, 525791910, 525802764, 525812911, 525822881, 525833231, 525844465,
   525856957, 525870908, 525886324, 525903008, 525920539, 525938288, 525955496, 525971470, 525985840, 525998761, 526010911, 526023254, 526036651, 526051527,
   526067748, 526084732, 526101701, 526117932, 526132911, 526146368, 526158252, 526168701, 526178012, 526186613]

/-- `delta_t_1e7[3500:4000]` — skyfield/data/iers.npz. Used at skyfield/iokit.py:350-358. -/
def builtinDeltas7 : List ℕ :=
  [526195024, 526203806, 526213513, 526224596, 526237331, 526251768, 526267708, 526284730, 526302254, 526319633, 526336273, 526351815, 526366293, 526380209,
   526394421, 526409869, 526427213, 526446592, 526467593, 526489423, 526511202, 526532207, 526551998, 526570425, 526587580, 526603748, 526619356, 526634923,
   526651009, 526668160, 526686846, 526707387, 526729876, 526754114, 526779600, 526805615, 526831373, 526856186, 526879619, 526901618, 526922526, 526943023,
   526963933, 526985974, 527009591, 527034731, 527060843, 527087097, 527112672, 527136942, 527159594, 527180620, 527200253, 527218910, 527237119, 527255452,
   527274476, 527294689, 527316474, 527340036, 527365324, 527391966, 527419274, 527446381, 527472450, 527496921, 527519678, 527541080, 527561851, 527582873,
   527604945, 527628557, 527653760, 527680148, 527706978, 527733387, 527758608, 527782123, 527803733, 527823559, 527841966, 527859481, 527876725, 527894327,
   527912853, 527932757, 527954350, 527977754, 528002828, 528029101, 528055792, 528081980, 528106887, 528130156, 528151989, 528173075, 528194347, 528216671,
   528240613, 528266307, 528293454, 528321440, 528349502, 528376900, 528403063, 528427674, 528450693, 528472321, 528492957, 528513136, 528533441, 528554428,
   528576555, 528600142, 528625354, 528652168, 528680315, 528709224, 528738064, 528765937, 528792189, 528816692, 528839929, 528862815, 528886349, 528911254,
   528937750, 528965574, 528994124, 529022673, 529050543, 529077217, 529102400, 529126027, 529148257, 529169436, 529190047, 529210623, 529231693, 529253716,
   529277033, 529301822, 529328092, 529355671, 529384168, 529412958, 529441254, 529468323, 529493778, 529517801, 529541139, 529564838, 529589826, 529616553,
   529644868, 529674136, 529703519, 529732244, 529759765, 529785818, 529810402, 529833725, 529856159, 529878191, 529900388, 529923332, 529947539, 529973398,
   530001109, 530030667, 530061866, 530094321, 530127482, 530160672, 530193192, 530224518, 530254550, 530283747, 530313015, 530343376, 530375536, 530409587,
   530444971, 530480710, 530515757, 530549284, 530580823, 530610250, 530637715, 530663561, 530688261, 530712382, 530736524, 530761263, 530787063, 530814215,
   530842795, 530872644, 530903408, 530934587, 530965620, 530995962, 531025213, 531053283, 531080522, 531107711, 531135845, 531165823, 531198067, 531232314,
   531267690, 531303017, 531337204, 531369505, 531399621, 531427639, 531453926, 531479012, 531503507, 531528036, 531553189, 531579456, 531607175, 531636470,
   531667215, 531699034, 531731341, 531763445, 531794694, 531824629, 531853109, 531880393, 531907144, 531934311, 531962879, 531993552, 532026478, 532061153,
   532096580, 532131587, 532165178, 532196749, 532226148, 532253595, 532279548, 532304595, 532329363, 532354449, 532380366, 532407483, 532436006, 532465928,
   532496991, 532528677, 532560272, 532591004, 532620245, 532647706, 532673549, 532698353, 532722984, 532748370, 532775240, 532803907, 532834141, 532865219,
   532896141, 532925892, 532953719, 532979272, 533002615, 533024139, 533044438, 533064196, 533084092, 533104725, 533126562, 533149902, 533174833, 533201219,
   533228681, 533256598, 533284174, 533310626, 533335435, 533358561, 533380477, 533402041, 533424216, 533447772, 533473072, 533499979, 533527922, 533556045,
   533583432, 533609304, 533633179, 533654945, 533674831, 533693312, 533711007, 533728580, 533746645, 533765689, 533786017, 533807747, 533830816, 533854974,
   533879770, 533904550, 533928550, 533951105, 533971924, 533991267, 534009918, 534028927, 534049224, 534071291, 534095023, 534119791, 534144674, 534168710,
   534191104, 534211338, 534229222, 534244892, 534258739, 534271316, 534283256, 534295186, 534307632, 534320974, 534335399, 534350885, 534367218, 534384029,
   534400802, 534416903, 534431687, 534444744, 534456124, 534466449, 534476789, 534488309, 534501830, 534517548, 534535005, 534553306, 534571429, 534588511,
   534604046, 534617894, 534630174, 534641212, 534651474, 534661530, 534671961, 534683286, 534695887, 534709947, 534725450, 534742208, 534759884, 534778015,
   534796048, 534813413, 534829639, 534844541, 534858413, 534872067, 534886629, 534903120, 534922028, 534943092, 534965392, 534987678, 535008790, 535027972,
   535044972, 535059962, 535073376, 535085787, 535097820, 535110087, 535123137, 535137390, 535153083, 535170241, 535188678, 535208020, 535227754, 535247297,
   535266095, 535283709, 535299937, 535314951, 535329368, 535344200, 535360570, 535379304, 535400574, 535423814, 535447878, 535471415, 535493327, 535513002,
   535530392, 535545876, 535560060, 535573616, 535587193, 535601377, 535616652, 535633328, 535651517, 535671114, 535691800, 535713074, 535734346, 535755049,
   535774761, 535793310, 535810857, 535827935, 535845392, 535864250, 535885422, 535909358, 535935814, 535963847, 535992066, 536019074, 536043869, 536066054,
   536085791, 536103624, 536120278, 536136494, 536152933, 536170151, 536188540, 536208293, 536229419, 536251733, 536274852, 536298229, 536321264, 536343443,
   536364491, 536384508, 536404008, 536423796, 536444828, 536468025, 536493953, 536522628, 536553451, 536585296, 536616814, 536646806, 536674507, 536699710,
   536722689, 536744049, 536764559, 536784956, 536805866, 536827739, 536850817, 536875144, 536900563, 536926729, 536953109, 536979061, 537003916, 537027156,
   537048620, 537068626, 537087929, 537107531, 537128382, 537151107, 537175831, 537202140, 537229170, 537255844, 537281136, 537304300, 537325024, 537343461,
   537360140, 537375787, 537391163, 537406965, 537423732, 537441795, 537461259, 537482017, 537503779, 537526123]

/-- `delta_t_1e7[4000:4500]` — skyfield/data/iers.npz. Used at skyfield/iokit.py:350-358. -/
def builtinDeltas8 : List ℕ :=
  [537548517, 537570350, 537591026, 537610186, 537627901, 537644766, 537661771, 537679979, 537700184, 537722627, 537746919, 537772200, 537797410, 537821559,
   537843936, 537864205, 537882418, 537898929, 537914298, 537929158, 537944107, 537959631, 537976056, 537993507, 538011892, 538030933, 538050234, 538069298,
   538087566, 538104534, 538119838, 538133433, 538145763, 538157769, 538170653, 538185446, 538202629, 538221938, 538242453, 538262930, 538282215, 538299515,
   538314483, 538327217, 538338149, 538347893, 538357144, 538366625, 538376971, 538388653, 538401927, 538416823, 538433104, 538450315, 538467918, 538485359,
   538502091, 538517731, 538532132, 538545489, 538558465, 538572135, 538587712, 538606075, 538627376, 538650891, 538675255, 538698922, 538720596, 538739544,
   538755648, 538769264, 538781158, 538792267, 538803534, 538815789, 538829665, 538845413, 538862990, 538882133, 538902416, 538923286, 538944172, 538964506,
   538983802, 539001771, 539018436, 539034289, 539050253, 539067516, 539087188, 539109875, 539135375, 539162668, 539190236, 539216584, 539240696, 539262183,
   539281239, 539298447, 539314530, 539330218, 539346229, 539363152, 539381325, 539400818, 539421471, 539442904, 539464573, 539485862, 539506181, 539525092,
   539542400, 539558242, 539573115, 539587860, 539603559, 539621323, 539641995, 539665789, 539692100, 539719614, 539746694, 539771917, 539794498, 539814419,
   539832262, 539848824, 539864944, 539881335, 539898500, 539916733, 539936148, 539956674, 539978051, 539999858, 540021549, 540042478, 540062064, 540079926,
   540095988, 540110560, 540124341, 540138318, 540153553, 540170927, 540190878, 540213159, 540236838, 540260536, 540282803, 540302553, 540319375, 540333552,
   540345848, 540357201, 540368481, 540380363, 540393262, 540407332, 540422492, 540438455, 540454824, 540471121, 540486832, 540501474, 540514675, 540526240,
   540536342, 540545568, 540554795, 540564978, 540576918, 540591010, 540607097, 540624456, 540641952, 540658367, 540672720, 540684511, 540693835, 540701286,
   540707704, 540713962, 540720802, 540728744, 540738056, 540748746, 540760618, 540773310, 540786364, 540799271, 540811442, 540822316, 540831507, 540838951,
   540845025, 540850518, 540856440, 540863693, 540872737, 540883424, 540895154, 540907000, 540917950, 540927187, 540934260, 540939119, 540942146, 540944023,
   540945538, 540947431, 540950321, 540954600, 540960390, 540967585, 540975905, 540984887, 540993984, 541002669, 541010500, 541017217, 541022767, 541027444,
   541031975, 541037436, 541044962, 541055345, 541068656, 541084122, 541100406, 541116005, 541129670, 541140678, 541148931, 541154959, 541159673, 541164059,
   541169039, 541175361, 541183536, 541193779, 541205942, 541219628, 541234281, 541249240, 541263852, 541277552, 541289915, 541300704, 541309950, 541318101,
   541326235, 541335761, 541347955, 541363494, 541382191, 541402978, 541424292, 541444627, 541462942, 541478709, 541491944, 541503109, 541513054, 541522620,
   541532500, 541543259, 541555266, 541568649, 541583313, 541598954, 541615045, 541631003, 541646329, 541660665, 541673835, 541685863, 541697061, 541708094,
   541719934, 541733713, 541750413, 541770376, 541793051, 541817128, 541840970, 541863051, 541882499, 541899279, 541913988, 541927535, 541940868, 541954774,
   541969767, 541986090, 542003734, 542022483, 542041941, 542061614, 542080968, 542099501, 542116754, 542132454, 542146600, 542159526, 542171875, 542184605,
   542198872, 542215788, 542236037, 542259531, 542285216, 542311394, 542336295, 542358618, 542377872, 542394395, 542409086, 542423007, 542437100, 542452023,
   542468134, 542485525, 542504059, 542523428, 542543182, 542562694, 542581305, 542598451, 542613755, 542627138, 542638973, 542649999, 542661181, 542673560,
   542688107, 542705525, 542725955, 542748858, 542773085, 542797120, 542819486, 542839235, 542856168, 542870785, 542883996, 542896874, 542910300, 542924801,
   542940592, 542957622, 542975605, 542994113, 543012637, 543030658, 543047718, 543063422, 543077556, 543090232, 543101900, 543113298, 543125315, 543138801,
   543154314, 543171958, 543191298, 543211409, 543231081, 543249111, 543264658, 543277496, 543288064, 543297265, 543306187, 543315905, 543327180, 543340341,
   543355390, 543372078, 543389960, 543408485, 543427024, 543444985, 543461898, 543477475, 543491692, 543504894, 543517786, 543531310, 543546416, 543563776,
   543583582, 543605408, 543628282, 543650959, 543672243, 543691221, 543707494, 543721254, 543733172, 543744198, 543755325, 543767319, 543780590, 543795181,
   543810843, 543827141, 543843543, 543859500, 543874525, 543888253, 543900393, 543910864, 543919876, 543927992, 543936142, 543945515, 543957173, 543971689,
   543988902, 544007934, 544027426, 544046003, 544062693, 544077131, 544089583, 544100776, 544111657, 544123172, 544136066, 544150769, 544167332, 544185458,
   544204631, 544224191, 544243446, 544261794, 544278770, 544294103, 544307737, 544319877, 544331099, 544342332, 544354761, 544369621, 544387844, 544409729,
   544434551, 544460822, 544486794, 544511017, 544532698, 544551812, 544568985, 544585181, 544601381, 544618392, 544636716, 544656519, 544677655, 544699721,
   544722180, 544744451, 544765996, 544786393, 544805388, 544822838, 544838803, 544853587, 544867741, 544882083, 544897699, 544915603, 544936395, 544959925,
   544985206, 545010582, 545034308, 545055179, 545072883, 545087995, 545101666, 545115176, 545129597, 545145615, 545163518, 545183216, 545204336, 545226320,
   545248504, 545270228, 545290892, 545310025, 545327397, 545343052, 545357320, 545370818, 545384347, 545398846]

/-- `delta_t_1e7[4500:5000]` — skyfield/data/iers.npz. Used at skyfield/iokit.py:350-358. -/
def builtinDeltas9 : List ℕ :=
  [545415265, 545434340, 545456360, 545480839, 545506535, 545531808, 545555135, 545575509, 545592815, 545607753, 545621449, 545635045, 545649268, 545664566,
   545681048, 545698549, 545716707, 545734939, 545752588, 545769113, 545784104, 545797362, 545808926, 545819085, 545828384, 545837580, 545847565, 545859311,
   545873630, 545890957, 545911132, 545933302, 545955962, 545977410, 545996320, 546012123, 546025133, 546036413, 546047246, 546058666, 546071233, 546085033,
   546099840, 546115212, 546130608, 546145462, 546159251, 546171574, 546182243, 546191318, 546199130, 546206264, 546213143, 546220268, 546228666, 546239306,
   546252745, 546268733, 546286372, 546304363, 546321239, 546335697, 546346950, 546354962, 546360433, 546364483, 546368285, 546372762, 546378377, 546385111,
   546392602, 546400325, 546407799, 546414588, 546420336, 546424796, 546427953, 546429989, 546431259, 546432348, 546434051, 546437254, 546442791, 546451102,
   546461980, 546474527, 546487477, 546499495, 546509472, 546516778, 546521448, 546524179, 546526149, 546528561, 546532352, 546538031, 546545616, 546554683,
   546564550, 546574467, 546583723, 546591741, 546598172, 546602883, 546605968, 546607775, 546609042, 546610681, 546613716, 546619138, 546627615, 546639221,
   546653259, 546668427, 546683194, 546696235, 546706775, 546714649, 546720300, 546724679, 546729076, 546734654, 546742105, 546751634, 546763071, 546775940,
   546789584, 546803202, 546816044, 546827586, 546837541, 546845827, 546852697, 546858677, 546864525, 546871210, 546879796, 546891258, 546906095, 546924048,
   546944036, 546964416, 546983510, 547000127, 547013891, 547025222, 547035105, 547044824, 547055527, 547067990, 547082554, 547099137, 547117279, 547136271,
   547155311, 547173643, 547190695, 547206220, 547220217, 547232950, 547244889, 547256656, 547269103, 547283189, 547299797, 547319507, 547342330, 547367538,
   547393663, 547418904, 547441735, 547461418, 547478193, 547493074, 547507450, 547522574, 547539281, 547557919, 547578392, 547600306, 547623078, 547646017,
   547668353, 547689386, 547708604, 547725758, 547740957, 547754604, 547767288, 547779734, 547792750, 547807175, 547823828, 547843207, 547865210, 547889005,
   547913176, 547936053, 547956316, 547973536, 547988261, 548001766, 548015522, 548030681, 548047822, 548066952, 548087645, 548109046, 548130195, 548150495,
   548169505, 548186928, 548202607, 548216617, 548229291, 548241185, 548253023, 548265579, 548279582, 548295665, 548314255, 548335376, 548358431, 548382210,
   548405187, 548425972, 548443792, 548458709, 548471587, 548483746, 548496457, 548510543, 548526247, 548543284, 548561057, 548578884, 548596160, 548612313,
   548626869, 548639556, 548650337, 548659422, 548667269, 548674540, 548682008, 548690431, 548700444, 548712512, 548726726, 548742724, 548759716, 548776615,
   548792255, 548805751, 548816892, 548826287, 548835140, 548844805, 548856369, 548870331, 548886538, 548904338, 548922719, 548940661, 548957483, 548972748,
   548986252, 548998112, 549008606, 549018198, 549027545, 549037433, 549048708, 549062116, 549078118, 549096736, 549117516, 549139509, 549161460, 549182135,
   549200598, 549216483, 549230120, 549242431, 549254638, 549267918, 549283030, 549300141, 549318840, 549338369, 549357876, 549376578, 549393813, 549409113,
   549422252, 549433283, 549442542, 549450720, 549458692, 549467404, 549477735, 549490373, 549505638, 549523284, 549542467, 549561972, 549580535, 549597083,
   549611092, 549622798, 549633009, 549642838, 549653475, 549665802, 549680177, 549696372, 549713679, 549731075, 549747497, 549762067, 549774293, 549784231,
   549792152, 549798503, 549803949, 549809306, 549815524, 549823667, 549834708, 549849281, 549867420, 549888459, 549910970, 549933128, 549953328, 549970622,
   549984965, 549997186, 550008533, 550020319, 550033647, 550049139, 550066799, 550086091, 550106189, 550126154, 550145128, 550162558, 550178196, 550192098,
   550204587, 550216199, 550227548, 550239277, 550252038, 550266443, 550282981, 550301985, 550323277, 550345990, 550368680, 550389792, 550408209, 550423661,
   550436800, 550448932, 550461525, 550475710, 550492039, 550510484, 550530573, 550551547, 550572542, 550592736, 550611459, 550628297, 550643116, 550655977,
   550667188, 550677259, 550686817, 550696471, 550706778, 550718576, 550732551, 550748856, 550766966, 550785747, 550803689, 550819393, 550832065, 550841851,
   550849783, 550857276, 550865585, 550875394, 550886688, 550899046, 550911778, 550924114, 550935357, 550944972, 550952595, 550958077, 550961523, 550963315,
   550964054, 550964434, 550965189, 550967063, 550970696, 550976549, 550984773, 550995193, 551007183, 551019641, 551031295, 551040958, 551048184, 551053443,
   551057875, 551062837, 551069451, 551078151, 551088642, 551100175, 551111841, 551122778, 551132386, 551140291, 551146330, 551150588, 551153375, 551155215,
   551156813, 551158992, 551162504, 551167856, 551175290, 551184726, 551195666, 551207276, 551218611, 551228626, 551236460, 551241749, 551244864, 551246935,
   551249452, 551253775, 551260651, 551270008, 551281020, 551292467, 551303165, 551312224, 551319222, 551324026, 551326739, 551327740, 551327661, 551327263,
   551327271, 551328660, 551332295, 551338723, 551348070, 551359841, 551373039, 551386413, 551398692, 551408876, 551416444, 551421520, 551424945, 551428034,
   551432188, 551438483, 551447323, 551458340, 551470583, 551482872, 551494182, 551503822, 551511495, 551517238, 551521343, 551524277, 551526649, 551529142,
   551532423, 551537118, 551543906, 551553223, 551565064, 551578930, 551593911, 551608804, 551622470, 551634140]

/-- `delta_t_1e7[5000:5500]` — skyfield/data/iers.npz. Used at skyfield/iokit.py:350-358. -/
def builtinDeltas10 : List ℕ :=
  [551643595, 551651269, 551658293, 551666056, 551675788, 551688258, 551703560, 551721043, 551739603, 551758042, 551775340, 551790825, 551804270, 551815844,
   551825999, 551835408, 551844874, 551855203, 551867139, 551881289, 551898003, 551917263, 551938608, 551961055, 551983239, 552003802, 552021820, 552037064,
   552050044, 552061855, 552073788, 552086927, 552102035, 552119313, 552138396, 552158521, 552178758, 552198129, 552215965, 552231958, 552246149, 552258875,
   552270674, 552282210, 552294145, 552306908, 552320845, 552336441, 552354033, 552373552, 552394416, 552415531, 552435465, 552452940, 552467318, 552478844,
   552488547, 552497888, 552508277, 552520639, 552535324, 552552069, 552570151, 552588640, 552606574, 552623136, 552637790, 552650361, 552661015, 552670210,
   552678608, 552686963, 552696042, 552706508, 552718854, 552733359, 552750023, 552768436, 552787719, 552806592, 552823685, 552838030, 552849513, 552858935,
   552867738, 552877469, 552889210, 552903235, 552919170, 552936183, 552953269, 552969513, 552984196, 552996850, 553007276, 553015559, 553022141, 553027843,
   553033623, 553040421, 553049007, 553059906, 553073260, 553088903, 553106374, 553124950, 553143680, 553161440, 553177238, 553190576, 553201719, 553211719,
   553222105, 553234269, 553248929, 553265920, 553284363, 553303044, 553320795, 553336760, 553350451, 553361722, 553370771, 553378053, 553384225, 553390095,
   553396502, 553404149, 553413613, 553425208, 553438938, 553454490, 553471200, 553488127, 553504250, 553518617, 553530630, 553540355, 553548621, 553556852,
   553566620, 553579095, 553594637, 553612676, 553632026, 553651346, 553669543, 553685907, 553700159, 553712412, 553723039, 553732573, 553741681, 553751175,
   553761833, 553774247, 553788763, 553805486, 553824156, 553844144, 553864549, 553884354, 553902694, 553919068, 553933507, 553946682, 553959817, 553974399,
   553991744, 554012510, 554036479, 554062620, 554089359, 554115097, 554138622, 554159251, 554176810, 554191653, 554204452, 554216034, 554227312, 554239209,
   554252554, 554267898, 554285485, 554305190, 554326492, 554348542, 554370304, 554390779, 554409290, 554425674, 554440297, 554454050, 554468126, 554483678,
   554501481, 554521724, 554543867, 554566823, 554589299, 554610162, 554628719, 554644804, 554658702, 554671008, 554682471, 554693842, 554705842, 554719088,
   554734035, 554750912, 554769698, 554790066, 554811309, 554832408, 554852266, 554870008, 554885195, 554898088, 554909597, 554921004, 554933603, 554948288,
   554965389, 554984828, 555005997, 555027708, 555048656, 555067795, 555084536, 555098783, 555110909, 555121539, 555131403, 555141188, 555151506, 555162962,
   555175959, 555190698, 555207271, 555225405, 555244244, 555262580, 555279203, 555293306, 555304794, 555314435, 555323597, 555333744, 555345967, 555360703,
   555377712, 555396234, 555415245, 555433754, 555450990, 555466348, 555479528, 555490600, 555499926, 555508065, 555515780, 555523777, 555532588, 555542526,
   555553708, 555566286, 555580264, 555595337, 555610730, 555625244, 555637816, 555647935, 555655903, 555662791, 555670048, 555679004, 555690359, 555703981,
   555719049, 555734426, 555748996, 555761822, 555772339, 555780360, 555786032, 555789750, 555792123, 555794025, 555796345, 555799826, 555804936, 555811877,
   555820574, 555830660, 555841529, 555852378, 555862275, 555870377, 555876215, 555879925, 555882298, 555884705, 555888669, 555895332, 555904930, 555916606,
   555928921, 555940431, 555950080, 555957376, 555962167, 555964667, 555965380, 555965039, 555964448, 555964401, 555965534, 555968271, 555972823, 555979161,
   555986942, 555995590, 556004372, 556012506, 556019303, 556024242, 556027224, 556028798, 556030189, 556033021, 556038559, 556047305, 556058842, 556072046,
   556085424, 556097538, 556107460, 556114927, 556120233, 556124028, 556127061, 556130106, 556133936, 556139291, 556146769, 556156628, 556168692, 556182537,
   556197534, 556212917, 556227851, 556241396, 556252866, 556262020, 556269225, 556275509, 556282340, 556291240, 556303339, 556318957, 556337292, 556356813,
   556375815, 556392923, 556407412, 556419157, 556428525, 556436229, 556443190, 556450445, 556458919, 556469249, 556481842, 556496859, 556514193, 556533262,
   556553171, 556572897, 556591469, 556608124, 556622455, 556634643, 556645488, 556656271, 556668474, 556683299, 556701326, 556722336, 556745342, 556768867,
   556791299, 556811413, 556828659, 556843134, 556855413, 556866389, 556877024, 556888198, 556900628, 556914828, 556930996, 556949007, 556968490, 556988832,
   557009265, 557029004, 557047295, 557063526, 557077596, 557090048, 557102058, 557114997, 557130006, 557147692, 557167999, 557190249, 557213266, 557235710,
   557256456, 557274840, 557290654, 557304298, 557316583, 557328479, 557340894, 557354568, 557369967, 557387231, 557406183, 557426416, 557447468, 557468720,
   557489386, 557508659, 557525939, 557541038, 557554376, 557566937, 557579980, 557594680, 557611837, 557631552, 557653241, 557675847, 557698097, 557718816,
   557737234, 557753070, 557766508, 557778102, 557788685, 557799118, 557810130, 557822298, 557836019, 557851407, 557868336, 557886452, 557905196, 557923840,
   557941611, 557957822, 557972118, 557984719, 557996514, 558008848, 558023055, 558040012, 558059847, 558081884, 558104885, 558127460, 558148434, 558167042,
   558183015, 558196609, 558208428, 558219263, 558229953, 558241215, 558253603, 558267497, 558283020, 558300055, 558318303, 558337190, 558355966, 558373921,
   558390420, 558405039, 558417666, 558428743, 558439296, 558450653, 558463923, 558479638, 558497489, 558516353]

/-- `delta_t_1e7[5500:6000]` — skyfield/data/iers.npz. Used at skyfield/iokit.py:350-358. -/
def builtinDeltas11 : List ℕ :=
  [558534747, 558551411, 558565546, 558576963, 558586055, 558593557, 558600308, 558607187, 558615028, 558624515, 558636104, 558649976, 558666008, 558683833,
   558702898, 558722544, 558742062, 558760709, 558777869, 558793249, 558807076, 558820262, 558834292, 558850765, 558870789, 558894532, 558921102, 558948788,
   558975674, 559000237, 559021642, 559039832, 559055466, 559069552, 559083148, 559097248, 559112666, 559129883, 559149099, 559170212, 559192820, 559216274,
   559239762, 559262422, 559283443, 559302188, 559318298, 559331781, 559343308, 559354120, 559365725, 559379500, 559396298, 559416052, 559437768, 559459886,
   559480780, 559499232, 559514791, 559527811, 559539156, 559549832, 559560860, 559573083, 559587114, 559603265, 559621557, 559641781, 559663474, 559685972,
   559708501, 559730245, 559750512, 559768931, 559785572, 559800983, 559816122, 559832175, 559850298, 559871358, 559895512, 559922049, 559949478, 559975938,
   559999825, 560020221, 560037026, 560050865, 560062799, 560073930, 560085216, 560097402, 560111014, 560126324, 560143346, 560161844, 560181332, 560201043,
   560220102, 560237723, 560253396, 560267074, 560279265, 560290921, 560303248, 560317403, 560334190, 560353832, 560375851, 560399162, 560422363, 560444106,
   560463360, 560479712, 560493426, 560505207, 560515859, 560526255, 560537205, 560549285, 560562798, 560577835, 560594212, 560611477, 560629044, 560646268,
   560662498, 560677045, 560689515, 560700015, 560709166, 560717983, 560727771, 560739571, 560753778, 560770048, 560787324, 560804242, 560819536, 560832302,
   560842191, 560849434, 560854694, 560858874, 560862896, 560867509, 560873164, 560879933, 560887701, 560896291, 560905381, 560914488, 560922974, 560930192,
   560935585, 560938792, 560939820, 560939345, 560938600, 560939035, 560941867, 560947652, 560956118, 560966235, 560976528, 560985633, 560992550, 560996827,
   560998649, 560998718, 560997943, 560997298, 560997683, 560999679, 561003490, 561009032, 561015992, 561023955, 561032376, 561040651, 561048238, 561054715,
   561059699, 561063058, 561065073, 561066607, 561069003, 561073645, 561081377, 561092078, 561104630, 561117495, 561129122, 561138373, 561144820, 561148692,
   561150601, 561151151, 561151282, 561151947, 561153897, 561157623, 561163269, 561170652, 561179337, 561188729, 561198182, 561207022, 561214641, 561220617,
   561224798, 561227367, 561228999, 561230863, 561234369, 561240736, 561250512, 561263286, 561277702, 561291906, 561304218, 561313736, 561320386, 561324751,
   561327811, 561330562, 561333834, 561338265, 561344241, 561351883, 561361074, 561371478, 561382597, 561393881, 561404795, 561414874, 561423792, 561431431,
   561437948, 561443851, 561450034, 561457664, 561467958, 561481701, 561498935, 561518806, 561539699, 561559642, 561577010, 561591057, 561602021, 561610839,
   561618712, 561626793, 561636038, 561647090, 561660296, 561675606, 561692670, 561710961, 561729805, 561748469, 561766210, 561782417, 561796758, 561809246,
   561820297, 561830753, 561841748, 561854468, 561869904, 561888569, 561910096, 561933265, 561956338, 561977554, 561995717, 562010590, 562022804, 562033532,
   562044058, 562055455, 562068432, 562083307, 562100098, 562118594, 562138382, 562158800, 562179009, 562198233, 562216000, 562232095, 562246457, 562259323,
   562271459, 562283952, 562297959, 562314426, 562333834, 562356004, 562380051, 562404582, 562428033, 562449119, 562467171, 562482305, 562495306, 562507364,
   562519649, 562533018, 562547922, 562564465, 562582503, 562601600, 562621131, 562640369, 562658602, 562675287, 562690071, 562702881, 562714021, 562724172,
   562734141, 562744824, 562757216, 562771914, 562788885, 562807439, 562826328, 562844165, 562859779, 562872494, 562882362, 562890037, 562896551, 562903018,
   562910381, 562919260, 562929889, 562942202, 562955932, 562970642, 562985681, 563000349, 563014047, 563026354, 563037061, 563046183, 563054101, 563061614,
   563069796, 563079712, 563092219, 563107512, 563124973, 563143419, 563161460, 563177743, 563191474, 563202545, 563211424, 563218982, 563226342, 563234585,
   563244543, 563256705, 563271174, 563287585, 563305270, 563323442, 563341307, 563358158, 563373522, 563387139, 563399020, 563409507, 563419319, 563429547,
   563441504, 563456292, 563474401, 563495440, 563518139, 563540631, 563561158, 563578568, 563592522, 563603520, 563612543, 563620702, 563628996, 563638216,
   563649010, 563661639, 563676029, 563691780, 563708181, 563724540, 563740241, 563754809, 563767958, 563779620, 563789995, 563799628, 563809440, 563820628,
   563834421, 563851754, 563872762, 563896620, 563921766, 563946368, 563968720, 563987857, 564003757, 564017083, 564028855, 564040363, 564052672, 564066472,
   564082124, 564099687, 564118751, 564138630, 564158548, 564177735, 564195568, 564211691, 564225998, 564238599, 564249806, 564260207, 564270805, 564282839,
   564297404, 564315107, 564335702, 564357986, 564380165, 564400478, 564417798, 564431964, 564443694, 564454231, 564464876, 564476642, 564490128, 564505550,
   564522829, 564541665, 564561616, 564582155, 564602725, 564622853, 564642210, 564660548, 564677691, 564693743, 564709129, 564724636, 564741180, 564759599,
   564780507, 564803947, 564829186, 564854823, 564879179, 564900813, 564919029, 564934084, 564946996, 564959116, 564971666, 564985445, 565000782, 565017621,
   565035647, 565054363, 565073196, 565091571, 565109014, 565125192, 565139942, 565153368, 565165832, 565177945, 565190515, 565204376, 565220276, 565238757,
   565259885, 565283113, 565307271, 565330799, 565352164, 565370292, 565384885, 565396479, 565406198, 565415406]

/-- `delta_t_1e7[6000:6500]` — skyfield/data/iers.npz. Used at skyfield/iokit.py:350-358. -/
def builtinDeltas12 : List ℕ :=
  [565425321, 565436685, 565449657, 565464006, 565479254, 565494801, 565509911, 565523952, 565536435, 565547053, 565555743, 565562738, 565568655, 565574413,
   565581075, 565589631, 565600711, 565614292, 565629744, 565645941, 565661463, 565674928, 565685465, 565692834, 565697487, 565700450, 565703009, 565706416,
   565711546, 565718747, 565727914, 565738604, 565750151, 565761757, 565772722, 565782669, 565791416, 565799008, 565805763, 565812135, 565818628, 565825897,
   565834865, 565846310, 565860545, 565877197, 565895208, 565912988, 565929021, 565942402, 565952808, 565960472, 565966264, 565971275, 565976584, 565983102,
   565991292, 566001154, 566012334, 566024299, 566036426, 566048167, 566059023, 566068632, 566076929, 566084021, 566090144, 566095955, 566102419, 566110639,
   566121600, 566135845, 566153258, 566172933, 566193218, 566212287, 566228712, 566241855, 566251928, 566259764, 566266466, 566273117, 566280718, 566289967,
   566301135, 566314090, 566328326, 566343104, 566357592, 566371034, 566382861, 566392793, 566400988, 566407912, 566414237, 566420759, 566428413, 566438142,
   566450861, 566467008, 566486257, 566507494, 566528936, 566548799, 566565877, 566579864, 566591349, 566601491, 566611580, 566622659, 566635362, 566649976,
   566666408, 566684230, 566702767, 566721223, 566738814, 566755025, 566769657, 566782776, 566794708, 566806012, 566817390, 566829679, 566843764, 566860430,
   566880190, 566903092, 566928360, 566954535, 566979882, 567003023, 567023552, 567041807, 567058821, 567075875, 567093966, 567113690, 567135201, 567158237,
   567182181, 567206175, 567229732, 567252707, 567274715, 567295347, 567314450, 567332116, 567348622, 567364428, 567380217, 567396885, 567415408, 567436524,
   567460482, 567486954, 567514907, 567542703, 567568730, 567591947, 567612224, 567630283, 567647437, 567665050, 567684129, 567705157, 567728078, 567752498,
   567777826, 567803429, 567828717, 567853194, 567876329, 567897728, 567917485, 567935996, 567953828, 567971596, 567989960, 568009522, 568030704, 568053625,
   568078147, 568103694, 568129230, 568153513, 568175460, 568194566, 568211141, 568226168, 568240927, 568256503, 568273649, 568292577, 568313040, 568334535,
   568356454, 568378100, 568398848, 568418201, 568435778, 568451469, 568465538, 568478512, 568491098, 568504093, 568518277, 568534346, 568552701, 568573245,
   568595388, 568618173, 568640334, 568660673, 568678446, 568693521, 568706410, 568718257, 568730405, 568743982, 568759612, 568777293, 568796373, 568815972,
   568835269, 568853620, 568870608, 568886151, 568900302, 568913322, 568925717, 568938181, 568951580, 568966854, 568984774, 569005732, 569029628, 569055932,
   569083669, 569111378, 569137720, 569161832, 569183618, 569203725, 569223218, 569243268, 569264795, 569288346, 569313888, 569340923, 569368727, 569396497,
   569423492, 569449143, 569473108, 569495329, 569515810, 569534705, 569552232, 569568931, 569585944, 569604462, 569625323, 569648881, 569674797, 569702050,
   569729210, 569754725, 569777550, 569797527, 569815256, 569831796, 569848371, 569866108, 569885776, 569907698, 569931748, 569957196, 569983092, 570008512,
   570032693, 570055183, 570076119, 570095864, 570114862, 570133721, 570153156, 570173857, 570196494, 570221618, 570249542, 570280170, 570312582, 570345248,
   570376443, 570404743, 570429444, 570451057, 570470772, 570489998, 570510022, 570531707, 570555179, 570580080, 570605965, 570632275, 570658366, 570683586,
   570707434, 570729651, 570750243, 570769366, 570787402, 570805007, 570822945, 570842028, 570863142, 570886843, 570913243, 570941836, 570971475, 571000562,
   571027557, 571051325, 571071591, 571088999, 571104616, 571119904, 571136128, 571153970, 571173520, 571194410, 571216015, 571237578, 571258391, 571277895,
   571295779, 571312174, 571327332, 571341662, 571355756, 571370312, 571386139, 571403951, 571424035, 571446502, 571471097, 571497164, 571523672, 571549347,
   571573035, 571593931, 571611919, 571627834, 571643196, 571659389, 571677187, 571696626, 571717234, 571738310, 571759110, 571778986, 571797441, 571814113,
   571828869, 571841929, 571853779, 571865105, 571876700, 571889304, 571903454, 571919399, 571937238, 571956874, 571977844, 571999328, 572020254, 572039602,
   572056762, 572071643, 572084731, 572096936, 572109587, 572123702, 572139604, 572156925, 572174874, 572192726, 572209906, 572226068, 572240881, 572254022,
   572265616, 572275896, 572285233, 572294115, 572303011, 572312682, 572323881, 572337046, 572352119, 572368489, 572385337, 572401593, 572416203, 572428413,
   572437996, 572445401, 572451762, 572458514, 572466927, 572477696, 572490727, 572505325, 572520598, 572535760, 572550357, 572563997, 572576414, 572587510,
   572597310, 572605954, 572614086, 572622605, 572632382, 572644167, 572658421, 572675193, 572694070, 572714187, 572734445, 572753725, 572771194, 572786455,
   572799732, 572811907, 572824181, 572837780, 572853560, 572871780, 572892071, 572913609, 572935377, 572956487, 572976207, 572994098, 573010033, 573024179,
   573036906, 573048751, 573060434, 573072742, 573086539, 573102568, 573121251, 573142544, 573165801, 573189674, 573212637, 573233470, 573251555, 573267028,
   573280895, 573294603, 573309478, 573326457, 573345908, 573367567, 573390745, 573414511, 573437918, 573460186, 573480808, 573499684, 573517029, 573533274,
   573548998, 573564864, 573581597, 573599905, 573620385, 573643368, 573668734, 573695895, 573723780, 573751078, 573776561, 573799435, 573819658, 573837935,
   573855404, 573873257, 573892441, 573913366, 573935896, 573959499, 573983460, 574007072, 574029730, 574051017]

/-- `delta_t_1e7[6500:7000]` — skyfield/data/iers.npz. Used at skyfield/iokit.py:350-358. -/
def builtinDeltas13 : List ℕ :=
  [574070769, 574088977, 574106028, 574122592, 574139413, 574157097, 574176164, 574197095, 574220376, 574246245, 574274467, 574304239, 574334281, 574363127,
   574389484, 574412657, 574432841, 574451312, 574469783, 574489711, 574511853, 574536192, 574562039, 574588479, 574614593, 574639595, 574662923, 574684325,
   574703825, 574721696, 574738456, 574754947, 574771951, 574790083, 574809842, 574831571, 574855423, 574881284, 574908688, 574936809, 574964648, 574991201,
   575015747, 575038120, 575058909, 575079249, 575100323, 575122918, 575147156, 575172567, 575198323, 575223512, 575247208, 575268735, 575287925, 575305003,
   575320446, 575334824, 575348740, 575362861, 575377879, 575394536, 575413212, 575433976, 575456644, 575480766, 575505691, 575530611, 575554658, 575577111,
   575597593, 575616373, 575634432, 575653127, 575673655, 575696607, 575721800, 575748403, 575775320, 575801588, 575826514, 575849651, 575870985, 575890773,
   575909407, 575927359, 575945153, 575963397, 575982652, 576003295, 576025410, 576048800, 576073130, 576097892, 576122418, 576146059, 576168290, 576188705,
   576207423, 576225168, 576243088, 576262374, 576283840, 576307680, 576333396, 576360063, 576386616, 576412012, 576435591, 576457132, 576476871, 576495247,
   576512808, 576530246, 576548280, 576567551, 576588516, 576611395, 576636198, 576662464, 576689365, 576715849, 576741051, 576764437, 576785887, 576805853,
   576825244, 576844986, 576866048, 576889258, 576915033, 576943194, 576972844, 577002664, 577031314, 577057756, 577081446, 577102454, 577121199, 577138337,
   577154783, 577171479, 577189189, 577208574, 577230099, 577253885, 577279772, 577307705, 577336798, 577365709, 577393162, 577418304, 577441065, 577462031,
   577482132, 577502415, 577523807, 577547298, 577573377, 577601414, 577630264, 577658658, 577685643, 577710774, 577734000, 577755592, 577775938, 577795511,
   577814839, 577834440, 577854772, 577876222, 577899142, 577923683, 577949740, 577976873, 578004290, 578030836, 578055486, 578077750, 578097847, 578116685,
   578135975, 578156915, 578180093, 578205535, 578232786, 578261006, 578289195, 578316426, 578342028, 578365668, 578387362, 578407427, 578426418, 578444987,
   578463803, 578483526, 578504712, 578527758, 578552799, 578579607, 578607676, 578636209, 578664232, 578690813, 578715354, 578737845, 578758776, 578779071,
   578799713, 578821454, 578844471, 578868353, 578892280, 578915243, 578936563, 578955872, 578973110, 578988519, 579002616, 579016040, 579029343, 579043090,
   579057801, 579073932, 579091757, 579111343, 579132642, 579155448, 579179294, 579203468, 579227062, 579249310, 579269912, 579289091, 579307356, 579325772,
   579345287, 579366292, 579388452, 579410882, 579432549, 579452594, 579470482, 579486015, 579499210, 579510290, 579519667, 579527923, 579535773, 579543966,
   579553147, 579563690, 579575663, 579588939, 579603407, 579618759, 579634278, 579649108, 579662471, 579673885, 579683396, 579691730, 579700306, 579710664,
   579723758, 579739703, 579757738, 579776470, 579794537, 579811100, 579825682, 579838042, 579848401, 579857320, 579865468, 579873490, 579882000, 579891600,
   579902733, 579915548, 579929861, 579945069, 579960286, 579974929, 579988667, 580001216, 580012308, 580021959, 580030571, 580039002, 580048412, 580060001,
   580074422, 580091482, 580110285, 580129647, 580148456, 580165791, 580181210, 580194717, 580206651, 580217564, 580228039, 580238651, 580249946, 580262463,
   580276799, 580293123, 580311263, 580330776, 580351077, 580371311, 580390687, 580408765, 580425517, 580441358, 580457091, 580473756, 580492405, 580513694,
   580537606, 580563410, 580590025, 580616279, 580641204, 580664110, 580684775, 580703379, 580720380, 580736353, 580751840, 580767407, 580783780, 580801571,
   580821155, 580842634, 580865843, 580890375, 580915513, 580940216, 580963656, 580985355, 581005443, 581024498, 581043319, 581062793, 581083810, 581106771,
   581131448, 581157093, 581182703, 581207333, 581230332, 581251281, 581270121, 581287118, 581302765, 581317599, 581332096, 581346776, 581362407, 581379610,
   581398615, 581419359, 581441462, 581464285, 581487022, 581508976, 581529554, 581548823, 581567431, 581586359, 581606569, 581628712, 581652943, 581679128,
   581706703, 581734667, 581761865, 581787321, 581810484, 581831460, 581850755, 581869076, 581887103, 581905439, 581924584, 581944907, 581966622, 581989851,
   582014530, 582040371, 582066747, 582092847, 582117885, 582141355, 582163002, 582183297, 582203352, 582224490, 582247792, 582273718, 582301809, 582331102,
   582360528, 582389092, 582416043, 582440957, 582463817, 582484891, 582504703, 582523827, 582542903, 582562516, 582583130, 582605048, 582628346, 582652872,
   582678333, 582704317, 582730322, 582755699, 582779843, 582802239, 582822662, 582841794, 582860941, 582881286, 582903544, 582927801, 582953499, 582979684,
   583005351, 583029640, 583052098, 583072681, 583091659, 583109551, 583126996, 583144668, 583163166, 583182957, 583204324, 583227344, 583251861, 583277590,
   583304111, 583330836, 583357124, 583382371, 583406178, 583428645, 583450304, 583472132, 583495376, 583521073, 583549648, 583580592, 583612490, 583643857,
   583673489, 583700775, 583725657, 583748472, 583769856, 583790680, 583811564, 583833021, 583855417, 583878971, 583903706, 583929529, 583956447, 583984096,
   584011890, 584039043, 584064926, 584089119, 584111526, 584132510, 584152855, 584173649, 584196063, 584220910, 584248320, 584277644, 584307653, 584336941,
   584364464, 584389854, 584413213, 584434998, 584455761, 584475749, 584495501, 584515607, 584536748, 584559443]

/-- `delta_t_1e7[7000:7500]` — skyfield/data/iers.npz. Used at skyfield/iokit.py:350-358. -/
def builtinDeltas14 : List ℕ :=
  [584583931, 584610161, 584637752, 584666080, 584694469, 584722303, 584749004, 584774216, 584798209, 584822133, 584846978, 584873668, 584902863, 584934850,
   584969225, 585004923, 585040528, 585074726, 585106688, 585136101, 585163293, 585188943, 585213785, 585238387, 585263203, 585288609, 585315017, 585342671,
   585371561, 585401438, 585431784, 585461936, 585491228, 585519150, 585545455, 585570252, 585594075, 585617861, 585642656, 585669367, 585698606, 585730452,
   585764419, 585799518, 585834317, 585867396, 585897934, 585925728, 585951091, 585974637, 585997139, 586019547, 586042520, 586066478, 586091665, 586118073,
   586145458, 586173345, 586200990, 586227714, 586252945, 586276372, 586298046, 586318419, 586338295, 586358668, 586380540, 586404523, 586430577, 586458123,
   586486183, 586513732, 586540106, 586564640, 586587028, 586607517, 586626725, 586645432, 586664386, 586684067, 586704668, 586726132, 586748520, 586771688,
   586795306, 586818871, 586841655, 586862989, 586882618, 586900453, 586916662, 586931957, 586947342, 586963885, 586982293, 587002599, 587024265, 587046362,
   587067857, 587087940, 587106195, 587122551, 587137292, 587150955, 587164140, 587177391, 587191158, 587205763, 587221414, 587238179, 587256018, 587274588,
   587293387, 587311858, 587329437, 587345692, 587360372, 587373501, 587385515, 587397222, 587409628, 587423347, 587438838, 587455965, 587473887, 587491471,
   587507736, 587522143, 587534544, 587545106, 587554405, 587563006, 587571428, 587580129, 587589623, 587600364, 587612504, 587625911, 587640364, 587655539,
   587671031, 587686431, 587701334, 587715442, 587728651, 587741169, 587753537, 587766409, 587780586, 587796902, 587815605, 587836189, 587857598, 587878556,
   587898024, 587915418, 587931000, 587944934, 587957665, 587969687, 587981569, 587993954, 588007916, 588023837, 588041390, 588059986, 588079089, 588098201,
   588116881, 588134865, 588152100, 588168561, 588184443, 588200234, 588216655, 588234505, 588254581, 588277503, 588303139, 588330398, 588357612, 588383065,
   588405543, 588424774, 588441379, 588456144, 588469915, 588483622, 588498082, 588513921, 588531474, 588550607, 588570983, 588592133, 588613514, 588634532,
   588654641, 588673502, 588691159, 588707915, 588724182, 588740532, 588757663, 588776228, 588796848, 588820046, 588845421, 588871920, 588898173, 588923015,
   588945845, 588966640, 588985790, 589003912, 589021652, 589039728, 589058723, 589079038, 589100874, 589124122, 589148455, 589173384, 589198286, 589222563,
   589245737, 589267643, 589288644, 589309082, 589329500, 589350790, 589373832, 589399265, 589427442, 589458101, 589490051, 589521761, 589551990, 589579900,
   589605182, 589628187, 589649744, 589670721, 589691859, 589713678, 589736261, 589759411, 589782970, 589807173, 589832110, 589857234, 589882004, 589905987,
   589928883, 589950706, 589971781, 589992556, 590013752, 590036195, 590060646, 590087451, 590116420, 590146730, 590177214, 590206692, 590234371, 590259870,
   590283268, 590305080, 590326080, 590347028, 590368488, 590390800, 590414121, 590438370, 590463664, 590489993, 590517009, 590544019, 590570583, 590596404,
   590621158, 590644880, 590668061, 590691392, 590715653, 590741506, 590769224, 590798590, 590828957, 590859255, 590888418, 590915634, 590940486, 590963017,
   590983714, 591003393, 591022985, 591043242, 591064672, 591087544, 591111896, 591137561, 591164194, 591191280, 591218414, 591245246, 591271484, 591296961,
   591321702, 591345955, 591370030, 591394439, 591419776, 591446652, 591475190, 591504911, 591534922, 591564207, 591591938, 591617709, 591641488, 591663586,
   591684505, 591704898, 591725564, 591747006, 591769498, 591793201, 591818135, 591844188, 591871169, 591898587, 591925798, 591952369, 591978020, 592002687,
   592026532, 592050060, 592074108, 592099598, 592127326, 592157622, 592190123, 592223801, 592257313, 592289274, 592318682, 592345241, 592369420, 592392062,
   592414086, 592436371, 592459484, 592483843, 592509654, 592536767, 592564794, 592593175, 592621319, 592648788, 592675249, 592700497, 592724491, 592747370,
   592769494, 592791520, 592814371, 592838912, 592865743, 592895100, 592926584, 592959232, 592991838, 593023210, 593052646, 593080096, 593106065, 593131234,
   593156186, 593181417, 593207277, 593233974, 593261558, 593289906, 593318732, 593347642, 593376251, 593404110, 593430763, 593456165, 593480415, 593503773,
   593526679, 593549824, 593574134, 593600424, 593629153, 593660242, 593693021, 593726421, 593759338, 593790789, 593820334, 593848176, 593874918, 593901237,
   593927629, 593954559, 593982492, 594011343, 594040786, 594070481, 594100048, 594129091, 594157422, 594185212, 594212538, 594239125, 594264995, 594290436,
   594315871, 594342132, 594370302, 594400944, 594433827, 594468253, 594503097, 594537007, 594568818, 594598031, 594624728, 594649586, 594673450, 594697062,
   594720913, 594745148, 594769705, 594794714, 594820267, 594846161, 594872068, 594897621, 594922495, 594946377, 594969125, 594990909, 595012109, 595033351,
   595055356, 595078752, 595103831, 595130589, 595158646, 595187260, 595215493, 595242416, 595267310, 595289852, 595310306, 595329374, 595347926, 595366748,
   595386356, 595406934, 595428322, 595450400, 595472859, 595495270, 595517184, 595538199, 595558032, 595576668, 595594318, 595611281, 595628093, 595645452,
   595664011, 595684170, 595705828, 595728564, 595751783, 595774703, 595796430, 595816266, 595833948, 595849787, 595864335, 595878256, 595892191, 595906602,
   595921712, 595937494, 595953725, 595970067, 595986208, 596001914, 596017030, 596031497, 596045394, 596058795]

/-- `delta_t_1e7[7500:8000]` — skyfield/data/iers.npz. Used at skyfield/iokit.py:350-358. -/
def builtinDeltas15 : List ℕ :=
  [596071640, 596084166, 596096939, 596110815, 596126560, 596144614, 596165054, 596187126, 596209573, 596231174, 596251064, 596268885, 596284793, 596299427,
   596313708, 596328225, 596343497, 596359852, 596377394, 596396036, 596415600, 596435674, 596455572, 596474783, 596492961, 596509909, 596525606, 596540419,
   596554950, 596569913, 596586122, 596604267, 596624732, 596647483, 596672140, 596697823, 596723269, 596747309, 596769250, 596788945, 596806694, 596823122,
   596838933, 596854859, 596871468, 596889110, 596907917, 596927827, 596948566, 596969604, 596990415, 597010601, 597029941, 597048420, 597066182, 597083437,
   597100728, 597118809, 597138480, 597160416, 597184905, 597211683, 597239867, 597268147, 597295231, 597320291, 597343168, 597364339, 597384671, 597404924,
   597425556, 597446985, 597469361, 597492619, 597516523, 597540687, 597564612, 597588050, 597610869, 597632982, 597654457, 597675534, 597696596, 597718063,
   597740162, 597763375, 597788317, 597815480, 597844996, 597876535, 597909348, 597941994, 597973117, 598001941, 598028397, 598053011, 598076623, 598100165,
   598124385, 598149564, 598175687, 598202588, 598230017, 598257649, 598285075, 598311888, 598337811, 598362677, 598386448, 598409254, 598431390, 598453188,
   598475227, 598498337, 598523201, 598550197, 598579265, 598609851, 598640901, 598671176, 598699735, 598726138, 598750540, 598773558, 598795963, 598818414,
   598841375, 598865011, 598889258, 598913920, 598938738, 598963408, 598987571, 599010843, 599033031, 599054049, 599073898, 599092629, 599110567, 599128689,
   599147544, 599167760, 599189798, 599213796, 599239551, 599266523, 599293689, 599320124, 599345215, 599368816, 599391247, 599413223, 599435563, 599458994,
   599483671, 599509248, 599535370, 599561744, 599588172, 599614398, 599639747, 599664025, 599687299, 599709615, 599731161, 599752293, 599773517, 599795478,
   599819078, 599844537, 599871577, 599899569, 599927636, 599954855, 599980566, 600004509, 600026638, 600047307, 600067239, 600087171, 600107682, 600129453,
   600152564, 600176314, 600199765, 600222678, 600245195, 600267070, 600287822, 600307716, 600327268, 600346546, 600365854, 600385545, 600406325, 600429056,
   600453914, 600480594, 600508514, 600536763, 600564350, 600590350, 600614300, 600636305, 600656704, 600676084, 600695238, 600714996, 600735810, 600757725,
   600780562, 600803919, 600827452, 600850887, 600873908, 600896201, 600917606, 600938321, 600958562, 600978681, 600999276, 601021004, 601044527, 601070555,
   601099378, 601130723, 601163820, 601197535, 601230650, 601262251, 601291963, 601319762, 601345909, 601370974, 601395735, 601420769, 601446410, 601472804,
   601499654, 601526292, 601552185, 601577153, 601601142, 601624229, 601646590, 601668169, 601689285, 601710394, 601732074, 601754955, 601779646, 601806646,
   601836022, 601867501, 601900058, 601932311, 601962978, 601991325, 602017530, 602042185, 602066006, 602089765, 602113982, 602138750, 602163998, 602189757,
   602215914, 602242202, 602268300, 602293863, 602318555, 602342190, 602364782, 602386467, 602407550, 602428659, 602450451, 602473530, 602498316, 602524879,
   602553369, 602583670, 602615057, 602646326, 602676236, 602704045, 602729870, 602754543, 602778970, 602803745, 602829117, 602855009, 602881202, 602907542,
   602933791, 602959560, 602984588, 603008745, 603031924, 603054215, 603076039, 603097643, 603119126, 603140998, 603163669, 603187455, 603212521, 603238877,
   603266278, 603294058, 603321354, 603347309, 603371355, 603393330, 603413521, 603432733, 603451645, 603470746, 603490252, 603510173, 603530352, 603550415,
   603569949, 603588653, 603606344, 603622929, 603638400, 603652939, 603666882, 603680746, 603695206, 603710763, 603727730, 603746264, 603766260, 603787228,
   603808590, 603829662, 603849678, 603867948, 603884087, 603898218, 603911025, 603923225, 603935437, 603948083, 603961210, 603974615, 603987828, 604000228,
   604011891, 604023025, 604033485, 604043211, 604052295, 604060965, 604069553, 604078703, 604089259, 604101672, 604116100, 604132447, 604150331, 604169209,
   604188395, 604207443, 604225707, 604242676, 604258117, 604272118, 604285107, 604297909, 604311352, 604325802, 604341019, 604356552, 604371885, 604386600,
   604400734, 604414458, 604427588, 604439959, 604451549, 604462634, 604474022, 604486249, 604499655, 604514466, 604530631, 604547822, 604565432, 604583104,
   604600211, 604616074, 604630363, 604643268, 604655422, 604667557, 604680121, 604693595, 604708280, 604724227, 604741227, 604758866, 604776656, 604794059,
   604810647, 604826612, 604841989, 604856811, 604871201, 604885452, 604900257, 604916342, 604934238, 604954329, 604976653, 605000787, 605025927, 605051241,
   605076555, 605101095, 605124565, 605147124, 605169237, 605191462, 605214248, 605238028, 605263065, 605289014, 605315286, 605341271, 605366488, 605390817,
   605414011, 605435907, 605456637, 605476519, 605495956, 605515378, 605535168, 605555867, 605578054, 605602083, 605627975, 605655493, 605684027, 605712564,
   605739967, 605765640, 605789739, 605812861, 605835741, 605858998, 605882963, 605907652, 605932874, 605958253, 605983272, 606007370, 606030096, 606051428,
   606071765, 606091474, 606110829, 606130175, 606149914, 606170481, 606192235, 606215399, 606240242, 606266886, 606295132, 606324446, 606354043, 606383021,
   606410524, 606436255, 606460487, 606483855, 606506962, 606530252, 606554157, 606578710, 606603704, 606628799, 606653651, 606677993, 606701630, 606724401,
   606746209, 606767130, 606787430, 606807570, 606828090, 606849531, 606872369, 606896780, 606922666, 606949739]

/-- `delta_t_1e7[8000:8500]` — skyfield/data/iers.npz. Used at skyfield/iokit.py:350-358. -/
def builtinDeltas16 : List ℕ :=
  [606977514, 607005271, 607032323, 607058569, 607083779, 607107840, 607131073, 607154069, 607177470, 607201606, 607226367, 607251427, 607276490, 607301340,
   607325835, 607349913, 607373480, 607396167, 607418302, 607440346, 607462844, 607486281, 607511099, 607537535, 607565184, 607593893, 607623628, 607654119,
   607684891, 607715359, 607744952, 607773341, 607800444, 607826930, 607853482, 607880697, 607908972, 607938307, 607968265, 607998091, 608027166, 608055019,
   608081352, 608106024, 608129082, 608150948, 608172084, 608192880, 608213797, 608235210, 608257406, 608280701, 608305535, 608331761, 608359111, 608387216,
   608415656, 608443945, 608471673, 608498797, 608525514, 608552027, 608578846, 608606373, 608634690, 608663504, 608692342, 608720956, 608749180, 608776665,
   608803168, 608828463, 608852374, 608874990, 608896920, 608918570, 608940311, 608962648, 608986035, 609010843, 609037345, 609065174, 609093611, 609121998,
   609149740, 609176449, 609202050, 609226776, 609251177, 609276015, 609301845, 609328964, 609357328, 609386672, 609416722, 609447168, 609477707, 609507804,
   609536975, 609564923, 609591635, 609617856, 609644294, 609671288, 609699015, 609727626, 609757123, 609787530, 609819129, 609851696, 609884652, 609917199,
   609948595, 609978109, 610005372, 610030770, 610055506, 610080631, 610106679, 610133823, 610161951, 610190723, 610219754, 610248568, 610276757, 610304104,
   610330517, 610356018, 610380677, 610404876, 610429303, 610454373, 610480215, 610506928, 610534899, 610564375, 610595291, 610626824, 610658284, 610689161,
   610719084, 610747815, 610775448, 610802193, 610828686, 610855634, 610883274, 610911663, 610940662, 610969964, 610998981, 611027091, 611053920, 611079341,
   611103448, 611126797, 611150052, 611173683, 611197904, 611222782, 611248321, 611274598, 611302002, 611330726, 611360581, 611390956, 611420975, 611450177,
   611478411, 611505543, 611531744, 611557377, 611582873, 611608486, 611634192, 611659696, 611684614, 611708560, 611731319, 611753164, 611774186, 611794299,
   611813697, 611832650, 611851460, 611870458, 611890094, 611910721, 611932482, 611955228, 611978798, 612002974, 612027573, 612052035, 612075742, 612098332,
   612119756, 612140312, 612160683, 612181489, 612202738, 612224656, 612247087, 612269558, 612291571, 612312689, 612332511, 612350650, 612366787, 612380955,
   612393638, 612405328, 612416580, 612428065, 612440368, 612453891, 612468846, 612485225, 612502561, 612520209, 612537609, 612554469, 612570542, 612585724,
   612600182, 612614336, 612628772, 612643942, 612659987, 612676994, 612694564, 612712029, 612728687, 612744031, 612757809, 612769999, 612780663, 612790078,
   612798674, 612806875, 612815086, 612823680, 612832940, 612843143, 612854530, 612867230, 612881024, 612895418, 612909739, 612923592, 612936903, 612949898,
   612962951, 612976483, 612990922, 613006544, 613023355, 613040959, 613058791, 613076258, 613092919, 613108589, 613123263, 613137007, 613150153, 613163139,
   613176336, 613190073, 613204590, 613219975, 613236448, 613254401, 613273903, 613294536, 613315881, 613336999, 613357644, 613377799, 613397584, 613417190,
   613436935, 613457194, 613478257, 613500187, 613523000, 613546454, 613569869, 613592559, 613614114, 613634417, 613653634, 613672150, 613690386, 613708661,
   613727192, 613746167, 613765865, 613786996, 613809854, 613834339, 613860161, 613886839, 613913748, 613940204, 613965563, 613989760, 614013114, 614036165,
   614059523, 614083660, 614108749, 614134547, 614160927, 614187681, 614214380, 614240403, 614265108, 614288193, 614309912, 614330387, 614349891, 614369003,
   614388192, 614407932, 614428614, 614450211, 614472617, 614496050, 614520359, 614545028, 614569652, 614593909, 614617560, 614640497, 614663023, 614685771,
   614709342, 614734157, 614760366, 614787781, 614815519, 614842748, 614868996, 614893979, 614917707, 614940334, 614961911, 614982402, 615002194, 615021918,
   615042248, 615063682, 615086648, 615111557, 615138054, 615165569, 615193905, 615222653, 615251317, 615279468, 615306791, 615333391, 615359674, 615386121,
   615413108, 615440711, 615468777, 615496959, 615524599, 615551221, 615576736, 615601212, 615624556, 615646815, 615668161, 615689067, 615710061, 615731605,
   615753921, 615777138, 615801415, 615826893, 615853100, 615879556, 615906069, 615932604, 615958858, 615984579, 616009567, 616034010, 616058530, 616083922,
   616110568, 616138138, 616165970, 616193306, 616219451, 616243875, 616266274, 616286593, 616305030, 616321982, 616337914, 616353343, 616368885, 616385195,
   616402658, 616421219, 616440544, 616460301, 616480249, 616500248, 616520170, 616539844, 616559094, 616577684, 616595459, 616612985, 616631182, 616650635,
   616671377, 616692837, 616714126, 616734675, 616754046, 616772049, 616788615, 616803890, 616818190, 616831965, 616845819, 616860293, 616875766, 616892354,
   616910018, 616928763, 616948654, 616969546, 616990987, 617012434, 617033455, 617053816, 617073517, 617092798, 617112088, 617132053, 617153389, 617176455,
   617201111, 617226778, 617252624, 617277830, 617301479, 617322886, 617342471, 617360937, 617378859, 617396591, 617414445, 617433060, 617452916, 617474196,
   617496995, 617521160, 617546363, 617572210, 617598342, 617624403, 617650123, 617675274, 617699514, 617722584, 617744661, 617766496, 617788792, 617811891,
   617835759, 617860100, 617884500, 617908469, 617931423, 617953034, 617973389, 617992847, 618011734, 618030385, 618049171, 618068516, 618088723, 618109981,
   618132425, 618156133, 618180848, 618205894, 618230914, 618255651, 618279808, 618303260, 618326103, 618348735]

/-- `delta_t_1e7[8500:9000]` — skyfield/data/iers.npz. Used at skyfield/iokit.py:350-358. -/
def builtinDeltas17 : List ℕ :=
  [618371764, 618395654, 618420542, 618446186, 618472074, 618497659, 618522465, 618546200, 618568399, 618589068, 618608684, 618627796, 618646698, 618665706,
   618685205, 618705426, 618726713, 618749227, 618772909, 618797628, 618823203, 618849394, 618875645, 618901284, 618925967, 618949739, 618973023, 618996430,
   619020522, 619045543, 619071539, 619098210, 619124933, 619151048, 619176029, 619199608, 619221517, 619241746, 619260611, 619278459, 619295548, 619312195,
   619328931, 619346110, 619363889, 619382389, 619401542, 619421104, 619440752, 619460191, 619478947, 619496762, 619513690, 619530161, 619546809, 619564230,
   619582558, 619601779, 619621760, 619642265, 619662853, 619682873, 619701781, 619719261, 619735202, 619749628, 619762685, 619774983, 619786966, 619799066,
   619811744, 619825263, 619839665, 619854879, 619870603, 619886419, 619901926, 619916996, 619931312, 619944598, 619956953, 619968743, 619980546, 619993037,
   620006716, 620021219, 620035828, 620049942, 620063173, 620075309, 620086310, 620096329, 620105446, 620113825, 620121929, 620130202, 620138932, 620148294,
   620158440, 620169497, 620181325, 620193774, 620206683, 620219888, 620233241, 620246620, 620259660, 620272100, 620284302, 620296948, 620310715, 620326056,
   620342938, 620360581, 620377884, 620393819, 620407838, 620419899, 620430137, 620438746, 620446203, 620453084, 620459733, 620466652, 620474156, 620482392,
   620491473, 620501474, 620512359, 620523874, 620535613, 620547298, 620558761, 620570014, 620581171, 620592274, 620603606, 620615742, 620629183, 620644207,
   620661063, 620679021, 620697028, 620714108, 620729561, 620743118, 620754860, 620765303, 620774898, 620784190, 620793557, 620803544, 620814725, 620827660,
   620842733, 620859506, 620877252, 620895386, 620913447, 620930956, 620947592, 620963544, 620979234, 620995219, 621011940, 621030103, 621050179, 621072184,
   621095530, 621119145, 621142018, 621163516, 621183529, 621202315, 621220147, 621236721, 621252467, 621268005, 621283907, 621300429, 621317793, 621336154,
   621355588, 621375915, 621396814, 621417975, 621439099, 621459842, 621479937, 621499350, 621518248, 621537314, 621557454, 621578891, 621601466, 621625006,
   621649435, 621673958, 621697622, 621719827, 621740328, 621759233, 621776772, 621793320, 621809508, 621825811, 621842751, 621860760, 621880059, 621900663,
   621922034, 621943823, 621965659, 621987006, 622007801, 622028207, 622048447, 622068168, 622086977, 622105391, 622124548, 622144757, 622165842, 622187420,
   622209032, 622230021, 622249816, 622268270, 622285593, 622302081, 622318106, 622333859, 622349597, 622365595, 622382046, 622398944, 622416134, 622433555,
   622451377, 622469464, 622487395, 622504871, 622521783, 622538246, 622554568, 622571184, 622588482, 622606884, 622626567, 622647312, 622668724, 622690402,
   622711980, 622732835, 622752506, 622771049, 622788824, 622806050, 622822878, 622839625, 622856632, 622874160, 622892344, 622911200, 622930635, 622950486,
   622970531, 622990555, 623010293, 623029555, 623048321, 623066723, 623085120, 623103974, 623123633, 623144342, 623165949, 623188112, 623210468, 623232488,
   623253634, 623273445, 623291642, 623308222, 623323507, 623337942, 623352068, 623366505, 623381289, 623396195, 623411450, 623427262, 623443647, 623460237,
   623476273, 623491655, 623506479, 623520344, 623533311, 623545927, 623558975, 623573399, 623589655, 623607845, 623627497, 623647885, 623668615, 623689246,
   623708698, 623726672, 623743496, 623759421, 623774717, 623789944, 623805501, 623821592, 623838471, 623856242, 623874987, 623894556, 623914754, 623935069,
   623955197, 623975268, 623995381, 624015554, 624035808, 624056314, 624077477, 624099856, 624124086, 624150370, 624178305, 624206965, 624235397, 624262826,
   624288799, 624313432, 624337171, 624360524, 624383874, 624407432, 624431406, 624455925, 624480623, 624505600, 624531000, 624556668, 624582399, 624607937,
   624633032, 624657595, 624681759, 624705684, 624729622, 624753950, 624779026, 624805173, 624832667, 624861503, 624891146, 624920719, 624949337, 624976397,
   625001888, 625025955, 625048919, 625071144, 625093019, 625114855, 625136933, 625159670, 625182865, 625206253, 625229850, 625253476, 625276692, 625299163,
   625320818, 625341698, 625361904, 625381570, 625401023, 625420781, 625441355, 625463091, 625485905, 625509788, 625534563, 625559660, 625584398, 625608360,
   625630923, 625652157, 625672600, 625692491, 625712073, 625731574, 625751112, 625770716, 625790484, 625810597, 625831102, 625851869, 625872776, 625893668,
   625914215, 625934272, 625954004, 625973700, 625993756, 626014680, 626036912, 626060631, 626085540, 626110924, 626136031, 626160241, 626182910, 626203620,
   626222183, 626238880, 626254402, 626269250, 626283850, 626298595, 626313781, 626329494, 626345541, 626361635, 626377489, 626392787, 626407268, 626420718,
   626432707, 626443355, 626453241, 626463024, 626473401, 626484808, 626497320, 626510695, 626524438, 626537828, 626550244, 626561291, 626570739, 626578585,
   626584992, 626590444, 626595619, 626601145, 626607483, 626614802, 626623053, 626632102, 626641884, 626652267, 626663157, 626674316, 626685412, 626696056,
   626706366, 626717005, 626728624, 626741699, 626756662, 626773594, 626792169, 626811830, 626832074, 626851809, 626870322, 626887254, 626902616, 626916585,
   626929435, 626941742, 626954062, 626966620, 626979505, 626992880, 627006745, 627021018, 627035641, 627050420, 627064969, 627078932, 627092135, 627104605,
   627116469, 627128078, 627140116, 627153350, 627168225, 627184756, 627202751, 627221728, 627240583, 627258361]

/-- `delta_t_1e7[9000:9500]` — skyfield/data/iers.npz. Used at skyfield/iokit.py:350-358. -/
def builtinDeltas18 : List ℕ :=
  [627274589, 627289203, 627302658, 627315654, 627328673, 627341778, 627355104, 627368850, 627383271, 627398468, 627414282, 627430430, 627446518, 627462317,
   627477779, 627492868, 627507241, 627520838, 627534604, 627549201, 627564979, 627582305, 627601715, 627623380, 627646887, 627671297, 627695387, 627718099,
   627738970, 627758173, 627776175, 627793546, 627810806, 627828513, 627847086, 627866382, 627886178, 627906186, 627926305, 627946894, 627967610, 627987893,
   628007466, 628026334, 628044740, 628063080, 628081877, 628101543, 628122385, 628144710, 628168639, 628193857, 628219756, 628245646, 628270720, 628294251,
   628315952, 628336033, 628354886, 628372935, 628390506, 628408064, 628426030, 628444592, 628463795, 628483567, 628503868, 628524605, 628545679, 628566986,
   628588161, 628608932, 628629319, 628649728, 628671018, 628693436, 628716950, 628741680, 628767740, 628794537, 628821153, 628846629, 628869997, 628890768,
   628909269, 628926179, 628942137, 628957795, 628973678, 628989731, 629005796, 629021999, 629038392, 629054881, 629071259, 629087236, 629102655, 629117454,
   629131699, 629145607, 629159453, 629173541, 629188127, 629203771, 629221052, 629240463, 629261964, 629284631, 629307347, 629329164, 629349644, 629368474,
   629385580, 629401349, 629416414, 629431204, 629446094, 629461300, 629477085, 629493488, 629510319, 629527460, 629544507, 629561015, 629576720, 629591438,
   629605163, 629618162, 629631044, 629644390, 629658689, 629674483, 629692077, 629711433, 629732065, 629752801, 629772613, 629791072, 629807885, 629823058,
   629837211, 629851137, 629865381, 629880449, 629896413, 629912956, 629929830, 629947005, 629964483, 629982056, 629999465, 630016666, 630033684, 630050641,
   630067635, 630084686, 630102325, 630121427, 630142736, 630166195, 630191153, 630216632, 630242136, 630267232, 630291618, 630315278, 630337892, 630359295,
   630379990, 630400363, 630420178, 630439438, 630458799, 630478472, 630498384, 630518347, 630538210, 630557828, 630576878, 630594992, 630612710, 630630609,
   630648723, 630667352, 630687016, 630708186, 630730979, 630755187, 630780647, 630807052, 630833371, 630858571, 630882011, 630903747, 630924116, 630943475,
   630962171, 630980580, 630999169, 631018505, 631039047, 631060126, 631081371, 631102545, 631123346, 631143568, 631163012, 631181590, 631199459, 631216939,
   631234471, 631252538, 631271644, 631292360, 631315442, 631340543, 631366458, 631392173, 631417038, 631440307, 631461718, 631481604, 631500377, 631518556,
   631536656, 631555010, 631573776, 631593022, 631612659, 631632153, 631651535, 631671055, 631690520, 631709399, 631727417, 631744778, 631761461, 631778032,
   631795003, 631812843, 631832036, 631852989, 631875787, 631900350, 631925988, 631951338, 631975172, 631996916, 632016657, 632035062, 632052946, 632070758,
   632088584, 632106392, 632124175, 632142087, 632160523, 632179004, 632197143, 632214909, 632232064, 632248359, 632263686, 632278156, 632292223, 632306623,
   632322125, 632339273, 632358377, 632379439, 632402065, 632425527, 632449448, 632472712, 632494240, 632513566, 632530710, 632545917, 632559757, 632572972,
   632586130, 632599441, 632612710, 632625817, 632638776, 632651453, 632663558, 632674578, 632684325, 632692839, 632700324, 632707264, 632714057, 632721018,
   632728606, 632737194, 632746527, 632756352, 632766416, 632776165, 632785414, 632793728, 632800629, 632805964, 632810144, 632813995, 632817920, 632822186,
   632826858, 632832064, 632837867, 632844088, 632850330, 632855981, 632860668, 632864404, 632867186, 632868967, 632869824, 632870035, 632870415, 632871947,
   632875226, 632880298, 632886812, 632894190, 632901736, 632908659, 632914393, 632918724, 632921643, 632923311, 632924226, 632925224, 632926844, 632929446,
   632933143, 632937623, 632942469, 632947304, 632951935, 632956704, 632961369, 632965522, 632969176, 632972469, 632975605, 632978838, 632982743, 632987954,
   632994840, 633003391, 633013091, 633023170, 633032872, 633041329, 633047999, 633052755, 633055926, 633058266, 633060355, 633062367, 633064955, 633068588,
   633073150, 633078411, 633084240, 633090624, 633097425, 633103636, 633109212, 633114676, 633120275, 633126092, 633132343, 633139243, 633147220, 633156830,
   633168370, 633181501, 633195729, 633210316, 633224432, 633237025, 633247564, 633256251, 633263535, 633270362, 633277484, 633285251, 633293833, 633303441,
   633314095, 633325342, 633336726, 633347802, 633358292, 633368258, 633377743, 633386698, 633395055, 633403181, 633411720, 633421622, 633433458, 633447503,
   633463819, 633481995, 633501005, 633519768, 633537717, 633554298, 633569521, 633583443, 633596272, 633608590, 633621084, 633634396, 633648271, 633662437,
   633676888, 633691536, 633706161, 633720647, 633734793, 633748137, 633760735, 633773035, 633785232, 633797162, 633809014, 633821601, 633835900, 633852454,
   633871303, 633891926, 633913251, 633934093, 633953650, 633971407, 633987551, 634002487, 634016819, 634031202, 634045909, 634060896, 634076081, 634091319,
   634106414, 634121143, 634135452, 634149338, 634162805, 634175782, 634188337, 634200622, 634212881, 634225329, 634238188, 634252040, 634267405, 634284404,
   634302693, 634321323, 634339302, 634355939, 634371158, 634384798, 634397069, 634408494, 634419503, 634430320, 634441053, 634452184, 634463909, 634475827,
   634487357, 634498275, 634508465, 634517791, 634526158, 634533720, 634540595, 634547009, 634553359, 634560006, 634567442, 634576499, 634587502, 634600006,
   634613312, 634626753, 634639775, 634652099, 634663341, 634673369, 634682462, 634691071, 634699577, 634708181]

/-- `delta_t_1e7[9500:10000]` — skyfield/data/iers.npz. Used at skyfield/iokit.py:350-358. -/
def builtinDeltas19 : List ℕ :=
  [634717205, 634727348, 634738163, 634748953, 634759646, 634770063, 634779516, 634787654, 634794998, 634801817, 634807923, 634813476, 634818930, 634825091,
   634832626, 634842027, 634853280, 634865972, 634879655, 634893747, 634907259, 634919750, 634931576, 634943014, 634954550, 634966384, 634978642, 634991362,
   635004452, 635017741, 635031075, 635044288, 635057118, 635069239, 635080448, 635090881, 635100572, 635109636, 635118607, 635128196, 635138860, 635150817,
   635164264, 635179478, 635196058, 635213032, 635229587, 635245275, 635259492, 635271889, 635282688, 635292321, 635301248, 635310123, 635319327, 635328747,
   635338246, 635348023, 635358162, 635368265, 635377417, 635385708, 635393324, 635400426, 635407355, 635414510, 635422348, 635431359, 635441995, 635454392,
   635468396, 635483717, 635499933, 635516552, 635533173, 635549177, 635563790, 635576824, 635588846, 635600339, 635612101, 635624525, 635637729, 635651451,
   635665343, 635679441, 635693642, 635707512, 635720564, 635732805, 635744498, 635755937, 635766981, 635777840, 635789206, 635801620, 635815633, 635831687,
   635849675, 635868733, 635888106, 635906992, 635924575, 635940632, 635955204, 635968643, 635981300, 635993476, 636005904, 636018962, 636032728, 636047117,
   636061847, 636076575, 636090890, 636104432, 636116991, 636128392, 636138469, 636147151, 636154747, 636161977, 636169758, 636178740, 636189338, 636201617,
   636215583, 636230979, 636246923, 636262289, 636276162, 636288224, 636298953, 636309229, 636319688, 636330674, 636342577, 636355248, 636368158, 636381171,
   636393831, 636405210, 636415123, 636423793, 636431427, 636438208, 636444291, 636450009, 636455790, 636462029, 636469224, 636477760, 636487655, 636499124,
   636512056, 636525788, 636539418, 636551964, 636562549, 636571158, 636578353, 636584736, 636590877, 636597436, 636604569, 636612015, 636619457, 636626656,
   636633098, 636638131, 636641755, 636644080, 636645108, 636645066, 636644195, 636642960, 636641815, 636641134, 636641409, 636643003, 636646467, 636651662,
   636658036, 636664681, 636670710, 636675610, 636679365, 636682342, 636685008, 636687886, 636691498, 636695902, 636701037, 636706507, 636711783, 636716587,
   636720741, 636724075, 636726399, 636727732, 636728205, 636727966, 636727553, 636727535, 636728359, 636730326, 636733981, 636739403, 636746165, 636754166,
   636762752, 636770483, 636776637, 636781145, 636784274, 636786434, 636788446, 636791182, 636795057, 636799694, 636805245, 636811665, 636818494, 636825244,
   636831335, 636836462, 636840503, 636843554, 636846243, 636848921, 636851872, 636855615, 636861115, 636868859, 636878633, 636889868, 636902050, 636914403,
   636926030, 636936264, 636945041, 636952670, 636959584, 636966233, 636972982, 636980031, 636987406, 636995108, 637002958, 637010453, 637017276, 637023243,
   637028196, 637031988, 637034927, 637037600, 637040626, 637044449, 637049634, 637056659, 637065527, 637075960, 637087316, 637098984, 637110615, 637121480,
   637131078, 637139611, 637147066, 637153548, 637160113, 637167992, 637177509, 637188615, 637201031, 637214194, 637227683, 637241022, 637253645, 637265048,
   637275254, 637284708, 637293274, 637300926, 637308176, 637315702, 637324082, 637334002, 637346309, 637361206, 637378346, 637397022, 637416197, 637434785,
   637451943, 637466993, 637480320, 637492780, 637505178, 637518055, 637531596, 637545933, 637560978, 637576136, 637591062, 637605507, 637619181, 637632240,
   637644828, 637656755, 637668030, 637679142, 637690858, 637703439, 637716845, 637731363, 637747514, 637764886, 637782946, 637801185, 637818626, 637834370,
   637848006, 637859705, 637869998, 637879727, 637889795, 637900933, 637913499, 637927170, 637940983, 637954300, 637966813, 637978383, 637988922, 637998486,
   638007131, 638015131, 638023076, 638031417, 638040388, 638049986, 638060713, 638072810, 638086090, 638100510, 638115720, 638131086, 638145817, 638159219,
   638171014, 638181656, 638191866, 638202324, 638213584, 638225824, 638238801, 638251850, 638264180, 638275320, 638285221, 638293987, 638301489, 638307593,
   638312416, 638316522, 638320469, 638324549, 638328987, 638334419, 638341163, 638349421, 638359211, 638370470, 638382473, 638394291, 638405214, 638415058,
   638423986, 638432319, 638440761, 638449913, 638460212, 638471770, 638484350, 638497370, 638510295, 638522405, 638533057, 638542190, 638550026, 638556871,
   638562971, 638568349, 638573313, 638578642, 638585125, 638593095, 638602773, 638614052, 638626297, 638638477, 638649505, 638658836, 638666775, 638673655,
   638680067, 638686575, 638693677, 638702001, 638712117, 638723907, 638736466, 638748803, 638760238, 638770389, 638779088, 638786486, 638792888, 638798525,
   638803854, 638809516, 638815873, 638823306, 638832261, 638843012, 638855434, 638869034, 638883033, 638896689, 638909408, 638920824, 638930778, 638939410,
   638947191, 638955104, 638963671, 638972909, 638982652, 638992698, 639003077, 639013650, 639023806, 639032807, 639040373, 639046465, 639051101, 639055075,
   639059063, 639063275, 639068336, 639075025, 639083819, 639094676, 639107179, 639120553, 639133702, 639145806, 639156537, 639165885, 639174193, 639182119,
   639190411, 639199701, 639210440, 639222808, 639236569, 639251158, 639265755, 639279644, 639292361, 639303906, 639314252, 639323239, 639330932, 639337641,
   639343873, 639350405, 639358185, 639367849, 639379484, 639392787, 639407402, 639422548, 639437454, 639451155, 639463002, 639473111, 639482042, 639490570,
   639499509, 639509630, 639520844, 639532940, 639545591, 639558265, 639570254, 639581126, 639591024, 639599758]

/-- `delta_t_1e7[10000:10500]` — skyfield/data/iers.npz. Used at skyfield/iokit.py:350-358. -/
def builtinDeltas20 : List ℕ :=
  [639607154, 639613321, 639618638, 639623651, 639628827, 639634304, 639640284, 639647012, 639654721, 639663401, 639672708, 639682065, 639690744, 639698192,
   639704237, 639709107, 639713425, 639718207, 639724146, 639731636, 639740376, 639749599, 639758476, 639766392, 639772850, 639777423, 639779889, 639780378,
   639779449, 639777783, 639775836, 639774039, 639772914, 639772896, 639773949, 639775948, 639778897, 639782759, 639787114, 639791482, 639795181, 639797593,
   639798604, 639798731, 639798980, 639800329, 639803364, 639808142, 639814278, 639820933, 639827323, 639832932, 639837452, 639840846, 639842944, 639843859,
   639843600, 639842295, 639840459, 639838514, 639836768, 639835483, 639834684, 639834341, 639834599, 639835375, 639836329, 639837095, 639837237, 639836505,
   639835030, 639833414, 639832529, 639833077, 639835267, 639838756, 639842815, 639846704, 639849787, 639851620, 639852006, 639851022, 639849114, 639846711,
   639844214, 639842032, 639840539, 639840084, 639840973, 639843538, 639847759, 639853298, 639859717, 639866521, 639873210, 639879367, 639884801, 639889259,
   639893217, 639897585, 639903112, 639910252, 639918928, 639928467, 639938011, 639946744, 639954081, 639959727, 639963651, 639965972, 639966902, 639966777,
   639966139, 639965734, 639965987, 639967131, 639969504, 639973635, 639979450, 639986445, 639993764, 640000616, 640006416, 640011041, 640014995, 640018574,
   640022370, 640027049, 640033254, 640041366, 640051244, 640062338, 640073656, 640084229, 640093384, 640100678, 640105946, 640109396, 640111808, 640114082,
   640116992, 640121141, 640126923, 640134555, 640144086, 640155274, 640167707, 640180835, 640193998, 640206540, 640217992, 640228257, 640237776, 640246981,
   640256627, 640267511, 640280031, 640294158, 640309486, 640325313, 640340855, 640355421, 640368582, 640380248, 640390518, 640399621, 640407755, 640415794,
   640424221, 640433210, 640442980, 640453693, 640465442, 640478206, 640491593, 640504885, 640517185, 640527712, 640536205, 640543120, 640549248, 640555327,
   640562197, 640570450, 640580204, 640591190, 640602906, 640614739, 640625727, 640635263, 640643108, 640649418, 640654634, 640659489, 640664638, 640670429,
   640677163, 640685234, 640694742, 640705604, 640717631, 640730576, 640743898, 640756761, 640768487, 640778598, 640786979, 640794038, 640800575, 640807482,
   640815209, 640823792, 640833080, 640842658, 640852046, 640860703, 640868149, 640874304, 640879229, 640883038, 640885999, 640888492, 640890904, 640893641,
   640897172, 640901880, 640907881, 640915086, 640923308, 640932250, 640941322, 640949808, 640957087, 640962900, 640967588, 640971786, 640976022, 640981082,
   640987722, 640996031, 641005349, 641014800, 641023376, 641030205, 641035079, 641038213, 641039799, 641040194, 641039760, 641038926, 641038826, 641039995,
   641042515, 641046403, 641051429, 641057139, 641062934, 641068077, 641072233, 641075095, 641076537, 641076930, 641077096, 641078214, 641081630, 641087793,
   641096450, 641106867, 641118153, 641129621, 641140707, 641150507, 641158804, 641165835, 641171947, 641177778, 641183820, 641190307, 641197285, 641205258,
   641214811, 641226135, 641239090, 641253214, 641267805, 641282125, 641295398, 641307181, 641317624, 641327168, 641336505, 641346558, 641358659, 641372990,
   641388771, 641405227, 641421198, 641435626, 641447705, 641457048, 641464274, 641470113, 641474950, 641479215, 641483461, 641488323, 641494256, 641501193,
   641509052, 641518268, 641528656, 641539636, 641550467, 641560569, 641569416, 641577210, 641584211, 641590914, 641598026, 641606475, 641617059, 641629690,
   641643872, 641658825, 641672869, 641684854, 641694407, 641701608, 641706830, 641710518, 641713548, 641716908, 641721516, 641727731, 641735650, 641744711,
   641754437, 641764480, 641774226, 641783291, 641791560, 641799210, 641805978, 641811809, 641817572, 641824267, 641832722, 641843259, 641855934, 641870352,
   641885933, 641901331, 641915369, 641927404, 641937369, 641945319, 641951764, 641957496, 641963247, 641969605, 641977043, 641985695, 641995375, 642006007,
   642017270, 642028626, 642039416, 642049025, 642056782, 642062369, 642066032, 642068237, 642070030, 642072464, 642076177, 642081318, 642087483, 642093975,
   642100175, 642105184, 642108285, 642109122, 642107590, 642104018, 642099287, 642094333, 642090007, 642086893, 642085243, 642084996, 642085855, 642087149,
   642088844, 642090857, 642092770, 642094095, 642094321, 642093320, 642091783, 642090102, 642088971, 642089203, 642091571, 642096219, 642102345, 642108374,
   642113305, 642116628, 642118068, 642117724, 642115917, 642113214, 642110168, 642107172, 642104876, 642103559, 642102957, 642102937, 642103420, 642104423,
   642105745, 642106776, 642106996, 642106054, 642103767, 642099942, 642095082, 642090060, 642086132, 642084171, 642084378, 642086254, 642088554, 642090362,
   642090710, 642088973, 642085203, 642079750, 642073173, 642066031, 642059307, 642053741, 642049647, 642047134, 642046093, 642046453, 642048280, 642051180,
   642054883, 642058582, 642061683, 642063759, 642064719, 642064951, 642065424, 642067349, 642071468, 642078110, 642086716, 642096336, 642105722, 642113305,
   642118859, 642121912, 642122702, 642121810, 642119875, 642117699, 642116246, 642115565, 642116237, 642118457, 642122101, 642126795, 642132220, 642137228,
   642141251, 642143991, 642145407, 642145585, 642144893, 642143902, 642143768, 642145592, 642150227, 642157716, 642167081, 642176833, 642185782, 642193188,
   642198650, 642202289, 642204315, 642205148, 642205719, 642206649, 642208626, 642212070, 642216819, 642222858]

/-- `delta_t_1e7[10500:11000]` — skyfield/data/iers.npz. Used at skyfield/iokit.py:350-358. -/
def builtinDeltas21 : List ℕ :=
  [642230267, 642238842, 642247664, 642256597, 642265070, 642272212, 642278093, 642283119, 642287946, 642293471, 642300388, 642309352, 642321049, 642335247,
   642350923, 642366756, 642381385, 642393641, 642403100, 642410173, 642415865, 642420938, 642426034, 642431482, 642438058, 642446271, 642456005, 642466731,
   642477941, 642489004, 642499625, 642509114, 642516788, 642523087, 642528485, 642533383, 642538185, 642543925, 642552107, 642563447, 642577149, 642592402,
   642608242, 642623598, 642636801, 642647152, 642655299, 642661868, 642667571, 642673038, 642678642, 642684760, 642691887, 642699913, 642708759, 642718323,
   642728226, 642737932, 642746844, 642754634, 642760973, 642765390, 642768478, 642771113, 642774066, 642778409, 642784807, 642793339, 642803856, 642815643,
   642827479, 642838134, 642847082, 642854059, 642858858, 642862203, 642865281, 642868980, 642873688, 642879517, 642887412, 642897340, 642908325, 642919933,
   642931801, 642943550, 642954831, 642965251, 642974437, 642982562, 642990209, 642998037, 643006693, 643016985, 643028986, 643042113, 643055473, 643068365,
   643079610, 643088067, 643094012, 643097888, 643099989, 643100590, 643100491, 643100530, 643101427, 643103067, 643105787, 643110116, 643115351, 643121046,
   643127014, 643133014, 643138552, 643142989, 643146333, 643149397, 643153269, 643159022, 643167378, 643178676, 643191858, 643206441, 643221439, 643235213,
   643247169, 643257091, 643264476, 643270156, 643274398, 643278149, 643282491, 643287929, 643294163, 643301477, 643309803, 643319109, 643329420, 643340088,
   643350412, 643359999, 643368758, 643376466, 643383413, 643389999, 643397544, 643407153, 643419427, 643434139, 643450130, 643466763, 643482811, 643496714,
   643507923, 643516924, 643524204, 643530271, 643535783, 643541147, 643547265, 643554742, 643563703, 643573587, 643583534, 643592898, 643601789, 643610191,
   643617692, 643623677, 643628335, 643632219, 643636032, 643640487, 643646578, 643655139, 643666625, 643680935, 643696545, 643711290, 643724097, 643734584,
   643742632, 643748576, 643752938, 643756733, 643760732, 643765641, 643771491, 643778376, 643786386, 643795434, 643805074, 643814443, 643822901, 643830076,
   643835629, 643839155, 643841942, 643844544, 643846743, 643849659, 643854624, 643862539, 643873128, 643885866, 643899938, 643913654, 643925331, 643934074,
   643939957, 643943291, 643945531, 643947538, 643949919, 643953629, 643959108, 643966161, 643974461, 643983605, 643993272, 644002937, 644011961, 644020117,
   644027289, 644033166, 644038559, 644043514, 644048634, 644055396, 644064490, 644076193, 644089880, 644104168, 644117978, 644130038, 644139216, 644145238,
   644148498, 644149822, 644150228, 644150614, 644151156, 644152210, 644153850, 644156011, 644158168, 644159358, 644159527, 644158656, 644156373, 644152558,
   644147256, 644140693, 644133896, 644127007, 644121849, 644119079, 644118930, 644120801, 644123589, 644126830, 644129872, 644132182, 644133020, 644132446,
   644131098, 644129625, 644128278, 644127767, 644128352, 644129689, 644132064, 644135636, 644140111, 644144294, 644147860, 644150266, 644151227, 644150794,
   644149140, 644146679, 644143905, 644141687, 644141842, 644144341, 644148944, 644154728, 644160466, 644165153, 644168064, 644168256, 644165494, 644160432,
   644153996, 644146922, 644139879, 644134060, 644129642, 644126554, 644124570, 644122995, 644121059, 644118464, 644115119, 644110973, 644105564, 644098918,
   644091603, 644084446, 644078560, 644075111, 644074774, 644077373, 644082181, 644087973, 644093212, 644097019, 644098593, 644097801, 644095239, 644091639,
   644087744, 644084398, 644082676, 644082667, 644083537, 644085567, 644088424, 644091621, 644094686, 644097036, 644098141, 644097909, 644096536, 644094281,
   644091676, 644089739, 644089528, 644091587, 644096897, 644105390, 644115649, 644125800, 644134085, 644139584, 644142885, 644144264, 644144327, 644143933,
   644143701, 644143971, 644145177, 644147477, 644150795, 644154898, 644159408, 644163847, 644167552, 644170039, 644171031, 644171446, 644170660, 644169126,
   644167832, 644168021, 644170013, 644174542, 644182555, 644193067, 644204571, 644215330, 644224033, 644230083, 644233631, 644235402, 644236567, 644238217,
   644240912, 644244829, 644250163, 644256962, 644264298, 644271891, 644279456, 644286767, 644293475, 644299090, 644303360, 644306288, 644308462, 644310293,
   644312034, 644315164, 644320814, 644329200, 644340217, 644352630, 644364910, 644375866, 644384001, 644389773, 644393262, 644395263, 644396253, 644397333,
   644399230, 644402531, 644407446, 644413380, 644419784, 644426282, 644432403, 644437669, 644441395, 644443806, 644445723, 644447330, 644448929, 644451440,
   644455656, 644462115, 644471298, 644482837, 644496293, 644510529, 644524078, 644535660, 644544478, 644550566, 644554236, 644557396, 644561209, 644566412,
   644573357, 644581907, 644591856, 644601973, 644612572, 644622595, 644631429, 644638662, 644644324, 644648068, 644650295, 644652100, 644653870, 644656384,
   644660811, 644668001, 644677648, 644688960, 644700823, 644712075, 644721649, 644729012, 644734276, 644737847, 644740905, 644744298, 644748112, 644753240,
   644760188, 644768401, 644777142, 644786250, 644795554, 644804593, 644812536, 644819028, 644824095, 644827611, 644829943, 644832026, 644834845, 644838952,
   644844516, 644851576, 644859797, 644868613, 644877536, 644885155, 644890423, 644893217, 644894000, 644893888, 644893530, 644893377, 644894213, 644896832,
   644901727, 644908687, 644916458, 644924246, 644931320, 644937340, 644942252, 644945885, 644948423, 644950792]

/-- `delta_t_1e7[11000:11500]` — skyfield/data/iers.npz. Used at skyfield/iokit.py:350-358. -/
def builtinDeltas22 : List ℕ :=
  [644953728, 644957305, 644961823, 644968526, 644977861, 644989354, 645001861, 645014260, 645025178, 645033628, 645039575, 645043477, 645046057, 645048274,
   645050616, 645053342, 645057285, 645062769, 645069339, 645075981, 645082836, 645089880, 645096338, 645102047, 645106992, 645111130, 645114410, 645117667,
   645121217, 645126228, 645133535, 645143825, 645157064, 645172146, 645187550, 645201548, 645212912, 645221200, 645226631, 645230021, 645232432, 645235301,
   645239356, 645244782, 645251741, 645260023, 645269189, 645278752, 645288588, 645297889, 645306028, 645313228, 645319159, 645323635, 645326963, 645330161,
   645334104, 645339565, 645347569, 645358583, 645372211, 645387053, 645401266, 645412959, 645421530, 645426367, 645428223, 645428803, 645429122, 645430290,
   645432890, 645436822, 645442284, 645448987, 645456448, 645464026, 645470942, 645476280, 645479732, 645481276, 645481144, 645480185, 645479165, 645478322,
   645479056, 645482002, 645487308, 645495190, 645505539, 645517575, 645529420, 645539096, 645545404, 645548873, 645550574, 645552090, 645554253, 645557424,
   645561978, 645567682, 645574133, 645580601, 645586528, 645591579, 645595405, 645597718, 645598233, 645596729, 645593667, 645589699, 645585145, 645580604,
   645577450, 645576611, 645578321, 645582377, 645587707, 645592706, 645595955, 645596285, 645593325, 645587830, 645581045, 645574337, 645568718, 645564717,
   645562403, 645561221, 645560500, 645559645, 645558111, 645555413, 645551262, 645545659, 645538619, 645530369, 645521352, 645512293, 645503979, 645496883,
   645491348, 645487734, 645485612, 645484204, 645482627, 645480050, 645475334, 645468156, 645459172, 645449529, 645440250, 645432228, 645426193, 645422378,
   645420219, 645418936, 645417857, 645416341, 645413996, 645410603, 645406067, 645400443, 645393902, 645387300, 645381233, 645376072, 645372143, 645370332,
   645370906, 645373179, 645376562, 645380369, 645383207, 645383599, 645381618, 645377440, 645371782, 645365882, 645360874, 645357684, 645356766, 645357656,
   645359884, 645362936, 645366033, 645368384, 645369045, 645367289, 645363604, 645358420, 645352211, 645345807, 645339870, 645335314, 645332927, 645334149,
   645338616, 645345251, 645352761, 645359472, 645364163, 645366344, 645365856, 645363584, 645360693, 645357748, 645355758, 645355564, 645357370, 645360603,
   645364604, 645368330, 645371319, 645373428, 645374535, 645374576, 645373465, 645370887, 645367968, 645365335, 645363885, 645364686, 645368143, 645374192,
   645382415, 645391718, 645400603, 645407764, 645412628, 645414947, 645415434, 645415253, 645415563, 645417116, 645420504, 645426005, 645433077, 645440542,
   645447569, 645454052, 645459451, 645463444, 645465940, 645467009, 645466855, 645465996, 645465268, 645465735, 645468352, 645473816, 645482207, 645493182,
   645506035, 645519152, 645530749, 645539340, 645544257, 645545842, 645545420, 645544336, 645543634, 645544255, 645546700, 645550949, 645556455, 645562165,
   645567379, 645571670, 645574991, 645577101, 645578058, 645577423, 645576849, 645576874, 645577445, 645579045, 645582567, 645588576, 645596732, 645606143,
   645616569, 645627591, 645636923, 645643395, 645646915, 645647660, 645647079, 645646736, 645647771, 645650378, 645654298, 645659260, 645664611, 645669600,
   645673443, 645676264, 645677894, 645677836, 645675670, 645671965, 645668080, 645664312, 645661437, 645659729, 645659964, 645662506, 645667534, 645674535,
   645682275, 645689995, 645696785, 645701289, 645703051, 645703118, 645703800, 645705590, 645708809, 645713439, 645719047, 645725122, 645730938, 645736111,
   645740767, 645744257, 645745932, 645746040, 645745213, 645744423, 645744618, 645746104, 645749731, 645755875, 645764623, 645775699, 645788418, 645801097,
   645812627, 645822241, 645829195, 645833777, 645836423, 645838404, 645840692, 645844329, 645849494, 645856188, 645864243, 645873002, 645880711, 645886641,
   645890432, 645891645, 645891142, 645889439, 645887021, 645884246, 645881796, 645881138, 645882213, 645886330, 645892923, 645901206, 645910395, 645919564,
   645927555, 645933455, 645936955, 645938643, 645939541, 645940584, 645943177, 645948109, 645955541, 645964685, 645975182, 645985967, 645995697, 646003641,
   646009658, 646013773, 646015276, 646014759, 646013344, 646012123, 646011845, 646013411, 646017157, 646023349, 646031739, 646041152, 646050096, 646057335,
   646062020, 646064436, 646065018, 646064526, 646064550, 646065659, 646069047, 646074972, 646083612, 646094491, 646105908, 646117204, 646128092, 646137774,
   646145967, 646152433, 646157248, 646161075, 646164971, 646169721, 646176147, 646184729, 646195449, 646208762, 646224012, 646239498, 646254071, 646266187,
   646275111, 646281791, 646286324, 646289541, 646293438, 646299293, 646307310, 646316832, 646327301, 646337703, 646347330, 646355498, 646361395, 646365024,
   646366300, 646365408, 646363480, 646361176, 646359678, 646359755, 646362099, 646366761, 646374397, 646384456, 646395694, 646407044, 646417565, 646426077,
   646432423, 646436825, 646440094, 646443782, 646448811, 646455400, 646463622, 646473256, 646483657, 646494063, 646503453, 646511494, 646517510, 646521655,
   646523547, 646524237, 646523869, 646522793, 646522624, 646523043, 646524797, 646528498, 646533282, 646538745, 646544110, 646548674, 646551511, 646551724,
   646550146, 646547173, 646544398, 646543015, 646543722, 646545952, 646549819, 646554248, 646558974, 646563091, 646565712, 646566232, 646564155, 646560032,
   646554649, 646548583, 646542929, 646537710, 646533670, 646531251, 646530291, 646531181, 646533427, 646535472]

/-- `delta_t_1e7[11500:12000]` — skyfield/data/iers.npz. Used at skyfield/iokit.py:350-358. -/
def builtinDeltas23 : List ℕ :=
  [646536828, 646536693, 646534692, 646530021, 646523745, 646516054, 646508810, 646503585, 646500735, 646499482, 646498656, 646497474, 646495254, 646491475,
   646486036, 646478727, 646469481, 646459229, 646448714, 646438601, 646429683, 646422311, 646416692, 646413183, 646411907, 646412103, 646412983, 646413568,
   646412825, 646409944, 646404759, 646397740, 646390266, 646383754, 646379271, 646377798, 646379005, 646381519, 646384035, 646385573, 646386140, 646385193,
   646382521, 646378186, 646372315, 646366178, 646359642, 646353955, 646349461, 646346899, 646346768, 646349071, 646353232, 646358570, 646364024, 646368184,
   646370124, 646369826, 646368113, 646364656, 646361097, 646358399, 646358199, 646360827, 646365752, 646371610, 646377106, 646380860, 646382748, 646381946,
   646378114, 646371921, 646364242, 646356210, 646348872, 646343511, 646340804, 646341020, 646344218, 646349723, 646356403, 646362982, 646368574, 646371570,
   646371973, 646370320, 646367430, 646364462, 646362676, 646363286, 646366464, 646371841, 646379305, 646387416, 646394377, 646399614, 646403478, 646405597,
   646406339, 646406472, 646406548, 646407407, 646409290, 646411373, 646415789, 646422313, 646430946, 646441526, 646452869, 646463517, 646472979, 646479024,
   646481753, 646482333, 646482125, 646482655, 646485035, 646489655, 646496198, 646504284, 646513169, 646522203, 646530408, 646536932, 646541077, 646542857,
   646543152, 646542875, 646542657, 646542980, 646544602, 646548486, 646555030, 646564189, 646575563, 646588534, 646601631, 646613411, 646623524, 646630588,
   646635027, 646638327, 646641739, 646646647, 646653818, 646663048, 646673914, 646685220, 646696220, 646706044, 646713770, 646719449, 646722643, 646723812,
   646723904, 646723606, 646723164, 646724463, 646727324, 646731801, 646738425, 646747088, 646757230, 646768163, 646778577, 646786810, 646793129, 646796992,
   646799089, 646801039, 646804835, 646810905, 646819061, 646829039, 646839633, 646850228, 646859410, 646865887, 646870749, 646873518, 646873951, 646872880,
   646871306, 646870036, 646869488, 646869735, 646871882, 646876311, 646882627, 646890088, 646898481, 646906907, 646913947, 646918776, 646921577, 646923283,
   646925068, 646927841, 646933349, 646941808, 646952689, 646964561, 646976546, 646987612, 646997019, 647004151, 647008915, 647012180, 647014033, 647014851,
   647015253, 647015818, 647017056, 647019730, 647024360, 647030534, 647037397, 647044631, 647051905, 647058738, 647064047, 647067538, 647069425, 647071756,
   647075446, 647080695, 647088763, 647100316, 647114547, 647130234, 647145546, 647158992, 647169786, 647177595, 647183039, 647186954, 647191206, 647196405,
   647202883, 647211051, 647220987, 647232947, 647247065, 647263051, 647280274, 647297256, 647313433, 647328256, 647341067, 647352121, 647362160, 647371581,
   647381239, 647392297, 647405004, 647418906, 647433770, 647449054, 647462876, 647473959, 647481599, 647485828, 647487604, 647488075, 647488490, 647489368,
   647491139, 647494418, 647500242, 647508735, 647519385, 647531276, 647543189, 647554102, 647563188, 647569782, 647573537, 647575312, 647576228, 647578473,
   647583133, 647590763, 647600620, 647612309, 647625169, 647637958, 647648544, 647655846, 647660651, 647663454, 647665858, 647668435, 647671746, 647676531,
   647683004, 647691451, 647701815, 647713950, 647727581, 647741745, 647756018, 647769231, 647780459, 647789024, 647795016, 647799571, 647804681, 647811143,
   647819901, 647831133, 647844401, 647858485, 647871968, 647884061, 647894396, 647902322, 647907919, 647911706, 647914286, 647916761, 647919271, 647923077,
   647928646, 647935860, 647944126, 647953669, 647963944, 647973540, 647982188, 647988382, 647991316, 647991126, 647988593, 647985596, 647984072, 647984904,
   647988240, 647993832, 648000929, 648008203, 648013750, 648016712, 648017695, 648016318, 648013033, 648008337, 648002601, 647997397, 647993436, 647990583,
   647988997, 647989058, 647990703, 647993776, 647997731, 648001240, 648002996, 648002332, 647999410, 647994641, 647989561, 647985745, 647984151, 647985364,
   647988010, 647991267, 647993920, 647995443, 647994561, 647991027, 647984473, 647975364, 647965092, 647954583, 647944654, 647936134, 647928955, 647923329,
   647919942, 647918326, 647917653, 647917515, 647916784, 647914731, 647911073, 647904925, 647896959, 647888368, 647880402, 647874009, 647871503, 647872519,
   647876473, 647881398, 647885763, 647888366, 647888490, 647886557, 647882090, 647876424, 647870216, 647863707, 647857619, 647852517, 647849546, 647848886,
   647850604, 647853898, 647858369, 647862535, 647865523, 647866659, 647865770, 647862223, 647857561, 647853473, 647849906, 647848900, 647851302, 647857028,
   647864450, 647870829, 647874994, 647876519, 647875295, 647870669, 647864048, 647855615, 647846488, 647837937, 647830950, 647826444, 647824938, 647826091,
   647828493, 647832174, 647836615, 647841311, 647845137, 647847243, 647847394, 647845686, 647843922, 647843735, 647845921, 647851414, 647860670, 647872750,
   647885695, 647897829, 647907447, 647913910, 647917203, 647917713, 647916554, 647914621, 647913125, 647912208, 647913035, 647916038, 647920604, 647927229,
   647934741, 647942174, 647948649, 647953533, 647956964, 647959373, 647960218, 647960214, 647960554, 647962245, 647966408, 647973548, 647983842, 647995524,
   648007060, 648017406, 648025748, 648031583, 648035121, 648037224, 648038675, 648040037, 648042363, 648045397, 648049777, 648056430, 648064689, 648074856,
   648085799, 648096421, 648105680, 648113016, 648118328, 648120822, 648122523, 648124076, 648127301, 648133147]

/-- `delta_t_1e7[12000:12500]` — skyfield/data/iers.npz. Used at skyfield/iokit.py:350-358. -/
def builtinDeltas24 : List ℕ :=
  [648142931, 648155489, 648169940, 648184525, 648197953, 648209022, 648217074, 648222619, 648226010, 648227653, 648230005, 648233319, 648238046, 648244055,
   648251462, 648260224, 648270118, 648280616, 648290739, 648299536, 648306279, 648310888, 648313535, 648314934, 648316229, 648317390, 648320033, 648325652,
   648333234, 648342652, 648352420, 648361276, 648368826, 648374555, 648378055, 648379359, 648380002, 648380381, 648381231, 648383147, 648386584, 648392283,
   648399628, 648408244, 648417590, 648426830, 648435466, 648442768, 648447828, 648450944, 648451399, 648451236, 648451826, 648454151, 648458919, 648465898,
   648474571, 648484135, 648493214, 648500428, 648505062, 648507094, 648506918, 648505001, 648502266, 648500005, 648499106, 648499242, 648500557, 648503540,
   648508672, 648514552, 648521180, 648528094, 648534592, 648540099, 648544834, 648548796, 648552755, 648557257, 648563044, 648571350, 648582712, 648597013,
   648612739, 648628178, 648642431, 648653723, 648662120, 648667831, 648671809, 648675318, 648679223, 648683975, 648690050, 648697777, 648706602, 648716236,
   648726485, 648737376, 648748542, 648759114, 648768665, 648776269, 648781726, 648785765, 648789498, 648794856, 648802953, 648815071, 648831056, 648849929,
   648869903, 648888142, 648903977, 648916686, 648925912, 648932358, 648936973, 648940762, 648944313, 648948254, 648953268, 648960204, 648968815, 648978864,
   648989386, 648999629, 649008983, 649017806, 649025298, 649031154, 649036063, 649041032, 649046751, 649054800, 649066633, 649082059, 649100349, 649120828,
   649141383, 649159818, 649174991, 649186278, 649194463, 649200409, 649205911, 649211577, 649218064, 649225787, 649235635, 649247416, 649259700, 649272233,
   649284641, 649296465, 649306677, 649314896, 649321420, 649326763, 649331690, 649336939, 649343375, 649352201, 649364361, 649379819, 649397413, 649415740,
   649433518, 649449570, 649462902, 649472855, 649480298, 649487278, 649495138, 649503805, 649513785, 649524979, 649537803, 649551436, 649566030, 649581134,
   649596100, 649610477, 649623684, 649635072, 649644425, 649652757, 649660332, 649667915, 649677080, 649688544, 649702054, 649717094, 649732911, 649748283,
   649761912, 649773109, 649780724, 649785037, 649787123, 649788621, 649790830, 649793881, 649798680, 649805028, 649812522, 649820423, 649828007, 649835126,
   649840821, 649844345, 649845223, 649843648, 649840160, 649836253, 649833337, 649832262, 649833762, 649838544, 649845991, 649854564, 649863000, 649869859,
   649875019, 649877835, 649878861, 649878044, 649876902, 649876818, 649878238, 649881599, 649887281, 649894772, 649903936, 649913603, 649923261, 649932735,
   649940911, 649946980, 649951032, 649952361, 649952568, 649952421, 649953236, 649955930, 649961908, 649970998, 649982064, 649992869, 650002089, 650009069,
   650013318, 650014858, 650014112, 650011813, 650009184, 650007616, 650007312, 650008652, 650011059, 650014538, 650018861, 650023535, 650028155, 650032057,
   650034268, 650035012, 650034549, 650032936, 650030898, 650030064, 650031647, 650036677, 650045052, 650055636, 650066788, 650076417, 650083476, 650087732,
   650089469, 650089067, 650087449, 650085684, 650085224, 650086607, 650089692, 650094771, 650101203, 650108317, 650115556, 650122566, 650128777, 650133800,
   650136974, 650138193, 650138523, 650138512, 650139584, 650143383, 650150491, 650161273, 650175291, 650190956, 650206235, 650219377, 650229275, 650236314,
   650241703, 650245190, 650248205, 650251565, 650256164, 650262714, 650271179, 650281037, 650292289, 650304184, 650315603, 650326337, 650336012, 650344465,
   650351670, 650357767, 650364103, 650371432, 650379987, 650391164, 650405912, 650424131, 650445512, 650468181, 650489933, 650508763, 650524137, 650536402,
   650546802, 650556050, 650564311, 650573201, 650583277, 650594922, 650607959, 650622093, 650636941, 650651787, 650666252, 650679783, 650692064, 650702577,
   650711439, 650719502, 650726872, 650734881, 650744713, 650757244, 650772597, 650790995, 650811048, 650830840, 650848678, 650862763, 650873560, 650881654,
   650888548, 650895306, 650902489, 650911947, 650922559, 650934401, 650946880, 650959115, 650971549, 650983440, 650994218, 651003853, 651012223, 651019278,
   651025372, 651030749, 651036812, 651044911, 651055865, 651069787, 651086164, 651103951, 651121970, 651138722, 651152554, 651163590, 651172475, 651179999,
   651186882, 651194930, 651204401, 651215713, 651228624, 651242462, 651256926, 651270903, 651283515, 651295680, 651306088, 651314322, 651321328, 651327457,
   651332726, 651338094, 651345206, 651354661, 651366872, 651381530, 651397807, 651414279, 651429746, 651443923, 651455363, 651464034, 651470586, 651475973,
   651481418, 651487377, 651495362, 651505261, 651516676, 651529341, 651542845, 651556524, 651569211, 651581406, 651592291, 651601587, 651609732, 651618001,
   651626007, 651635374, 651647767, 651663210, 651681398, 651701808, 651723236, 651743809, 651762087, 651777925, 651791006, 651801816, 651811701, 651821675,
   651832638, 651845201, 651859589, 651875391, 651892080, 651909220, 651926066, 651942163, 651956614, 651969331, 651980499, 651990040, 651998061, 652005468,
   652012886, 652021243, 652031337, 652043665, 652058756, 652074719, 652090016, 652102915, 652112747, 652120325, 652125756, 652130170, 652134377, 652139252,
   652145358, 652153021, 652162546, 652173426, 652185401, 652197775, 652209806, 652221604, 652232287, 652241227, 652248601, 652254710, 652260227, 652265989,
   652272801, 652282119, 652295336, 652312700, 652332653, 652353664, 652373998, 652391204, 652404152, 652413549]

/-- `delta_t_1e7[12500:13000]` — skyfield/data/iers.npz. Used at skyfield/iokit.py:350-358. -/
def builtinDeltas25 : List ℕ :=
  [652421136, 652428164, 652435433, 652443980, 652454503, 652466531, 652479692, 652493713, 652508895, 652524467, 652539735, 652554227, 652567718, 652580254,
   652592528, 652604542, 652616424, 652628935, 652642701, 652658486, 652677498, 652698846, 652721668, 652744205, 652764261, 652780647, 652793119, 652802523,
   652810589, 652818874, 652828054, 652838247, 652850047, 652863246, 652877702, 652892528, 652907029, 652920645, 652932932, 652943915, 652953384, 652961618,
   652968767, 652975195, 652982181, 652991328, 653003178, 653018205, 653036679, 653058147, 653080264, 653100998, 653118501, 653132208, 653143198, 653152294,
   653161018, 653170305, 653179470, 653189255, 653200483, 653213306, 653226344, 653238765, 653250123, 653260000, 653268218, 653274728, 653279403, 653282162,
   653283772, 653285635, 653289290, 653295156, 653302873, 653312454, 653323210, 653334508, 653345489, 653354586, 653360530, 653363285, 653363672, 653362976,
   653363038, 653364927, 653368665, 653374259, 653381307, 653388830, 653395914, 653402105, 653407277, 653410984, 653413298, 653414245, 653414159, 653413773,
   653413366, 653414206, 653417341, 653423003, 653430684, 653439805, 653449384, 653458187, 653464532, 653467757, 653468569, 653467189, 653464711, 653461739,
   653459959, 653459895, 653461563, 653464805, 653468822, 653472619, 653475550, 653477231, 653477131, 653475122, 653471264, 653465716, 653459507, 653453552,
   653449255, 653447387, 653448236, 653451881, 653458138, 653466073, 653473628, 653479595, 653483038, 653483512, 653481383, 653477508, 653472878, 653469055,
   653467268, 653467462, 653468922, 653471324, 653474081, 653476393, 653478565, 653479926, 653480014, 653478526, 653475452, 653471149, 653466115, 653461729,
   653459021, 653458994, 653462055, 653468426, 653477113, 653486890, 653496400, 653503977, 653508870, 653511203, 653511837, 653512262, 653513525, 653516457,
   653521500, 653528687, 653536978, 653545927, 653555547, 653564516, 653572301, 653578645, 653583479, 653587108, 653589608, 653591775, 653594780, 653599346,
   653605990, 653615465, 653627912, 653643951, 653661194, 653677513, 653691709, 653703000, 653711307, 653717154, 653722226, 653727562, 653733708, 653740862,
   653749486, 653759326, 653769784, 653780585, 653791579, 653801614, 653810240, 653817025, 653822226, 653826487, 653830321, 653834807, 653840363, 653847521,
   653856807, 653868284, 653882182, 653898379, 653915304, 653930621, 653942517, 653950800, 653956624, 653961553, 653966427, 653971998, 653978860, 653987359,
   653997221, 654007438, 654017889, 654028419, 654038909, 654048385, 654055991, 654061723, 654065862, 654069088, 654072552, 654077181, 654084383, 654094288,
   654106985, 654122772, 654141145, 654160951, 654180954, 654199377, 654215048, 654227638, 654237770, 654246843, 654256439, 654267516, 654280595, 654295547,
   654311345, 654327391, 654342523, 654355877, 654366718, 654375059, 654380880, 654384462, 654386547, 654388093, 654390337, 654393910, 654399077, 654406382,
   654416246, 654428329, 654441553, 654454654, 654467308, 654478328, 654486138, 654491672, 654496413, 654501582, 654508056, 654516248, 654526198, 654537583,
   654550235, 654562454, 654573487, 654583246, 654591923, 654599541, 654606112, 654612046, 654617443, 654622602, 654628466, 654635717, 654644593, 654655502,
   654668270, 654682063, 654695919, 654709096, 654720006, 654727946, 654733557, 654737838, 654742138, 654748058, 654756448, 654767578, 654780911, 654795900,
   654811245, 654826041, 654839616, 654851086, 654860201, 654867520, 654873916, 654879696, 654885304, 654892051, 654900687, 654911474, 654924659, 654939733,
   654955686, 654972294, 654988210, 655001747, 655013231, 655022327, 655029186, 655034775, 655040785, 655048770, 655059252, 655071568, 655084960, 655098381,
   655111121, 655122865, 655132819, 655140575, 655146086, 655149683, 655152012, 655154358, 655157821, 655162401, 655169681, 655179902, 655192683, 655207549,
   655223351, 655238101, 655250830, 655260846, 655268122, 655273331, 655277704, 655282772, 655289369, 655298107, 655309636, 655323000, 655337181, 655352150,
   655366664, 655380362, 655392761, 655403422, 655412263, 655419623, 655425988, 655432544, 655440236, 655449916, 655461785, 655476364, 655492822, 655511200,
   655530451, 655548038, 655562121, 655572783, 655580450, 655586282, 655591680, 655597750, 655605804, 655616493, 655629112, 655642534, 655656095, 655669337,
   655681666, 655692347, 655701557, 655709274, 655715950, 655721989, 655727692, 655733942, 655741987, 655752154, 655765115, 655780768, 655797801, 655816139,
   655834632, 655851471, 655865710, 655876620, 655885560, 655894143, 655903530, 655914787, 655928775, 655944669, 655961390, 655978108, 655994074, 656008283,
   656020126, 656030159, 656038097, 656043632, 656047380, 656050295, 656053254, 656057205, 656062936, 656070707, 656080223, 656091295, 656103505, 656115942,
   656127280, 656136730, 656143320, 656147670, 656150902, 656154399, 656159020, 656165288, 656173150, 656182579, 656192663, 656201835, 656209308, 656214919,
   656218213, 656219886, 656220601, 656220263, 656219508, 656219019, 656219087, 656220958, 656225196, 656231943, 656240628, 656250332, 656260623, 656269814,
   656277703, 656283796, 656287505, 656289365, 656290798, 656293557, 656298260, 656304665, 656312457, 656320625, 656327466, 656333235, 656337275, 656338679,
   656337806, 656335377, 656331848, 656327718, 656324031, 656321609, 656320668, 656321945, 656326120, 656332268, 656339465, 656347169, 656354691, 656361011,
   656365161, 656367138, 656367693, 656367343, 656367922, 656370091, 656374390, 656380511, 656388394, 656396265]

/-- `delta_t_1e7[13000:13500]` — skyfield/data/iers.npz. Used at skyfield/iokit.py:350-358. -/
def builtinDeltas26 : List ℕ :=
  [656402919, 656408038, 656411358, 656412793, 656412728, 656411428, 656409308, 656407183, 656405975, 656406119, 656408004, 656411473, 656417121, 656424618,
   656433217, 656441349, 656447799, 656452450, 656454906, 656455794, 656456352, 656457661, 656460553, 656465399, 656473152, 656482801, 656493375, 656503928,
   656512797, 656519589, 656524798, 656527813, 656529610, 656530819, 656532015, 656534463, 656538483, 656544784, 656554086, 656566317, 656580946, 656597093,
   656613286, 656627992, 656640210, 656649865, 656656851, 656662619, 656668561, 656675035, 656683018, 656693648, 656706135, 656719836, 656734192, 656747835,
   656759928, 656769921, 656777449, 656782848, 656786776, 656790251, 656793584, 656798358, 656805102, 656814134, 656825488, 656839116, 656854348, 656870326,
   656885348, 656899233, 656911357, 656921548, 656930541, 656940264, 656951122, 656963276, 656977295, 656993218, 657009776, 657026202, 657042121, 657056963,
   657069987, 657080711, 657089506, 657096966, 657103089, 657109267, 657115908, 657123016, 657131431, 657141816, 657154301, 657168820, 657185047, 657201795,
   657217971, 657231942, 657243097, 657251691, 657259239, 657267698, 657278561, 657292686, 657309323, 657327621, 657346431, 657364701, 657381669, 657397042,
   657410702, 657423143, 657433880, 657443332, 657452014, 657460920, 657470643, 657481177, 657492902, 657506473, 657521873, 657538301, 657555190, 657571210,
   657584942, 657596138, 657604868, 657611552, 657618624, 657627611, 657639185, 657652507, 657666679, 657681241, 657695142, 657707361, 657717529, 657725829,
   657732121, 657736202, 657738703, 657740625, 657743168, 657746664, 657751498, 657758692, 657768362, 657780161, 657793220, 657806478, 657819259, 657830895,
   657840544, 657847733, 657853113, 657858688, 657865427, 657874896, 657887172, 657901479, 657916570, 657931103, 657943828, 657954464, 657962364, 657967482,
   657970260, 657971576, 657972130, 657972595, 657973820, 657976706, 657981302, 657988015, 657996320, 658005660, 658015492, 658024614, 658032890, 658039572,
   658044896, 658049253, 658053700, 658059090, 658066698, 658076936, 658089776, 658104096, 658118444, 658131164, 658140767, 658147888, 658153218, 658156956,
   658159346, 658160818, 658162248, 658164010, 658166654, 658171383, 658178554, 658187867, 658199086, 658211639, 658224406, 658236695, 658248037, 658258062,
   658266937, 658274596, 658282198, 658291224, 658302302, 658316106, 658332411, 658349842, 658367134, 658382988, 658396668, 658408033, 658417234, 658424579,
   658430731, 658436523, 658442906, 658450670, 658460778, 658473233, 658487770, 658503805, 658520408, 658537014, 658552776, 658566549, 658577868, 658587076,
   658595036, 658602912, 658611663, 658621878, 658633860, 658648315, 658665044, 658682832, 658700187, 658715927, 658729771, 658741392, 658750673, 658758339,
   658765621, 658773465, 658782479, 658792720, 658804526, 658818206, 658834093, 658851690, 658869871, 658887433, 658903515, 658917702, 658929765, 658940284,
   658950302, 658960968, 658973008, 658987036, 659003150, 659020741, 659038655, 659055683, 659070990, 659083542, 659093241, 659100778, 659106871, 659112267,
   659117604, 659123483, 659130576, 659139099, 659148932, 659160104, 659173001, 659187382, 659202225, 659216237, 659228285, 659238562, 659247235, 659254750,
   659262151, 659270648, 659281137, 659293926, 659308339, 659322910, 659336446, 659348382, 659358179, 659365769, 659371052, 659374896, 659377688, 659380257,
   659383350, 659387504, 659393333, 659400723, 659409204, 659418455, 659428386, 659438751, 659448382, 659456465, 659462584, 659466508, 659468690, 659469985,
   659471752, 659474638, 659479586, 659486297, 659493718, 659500696, 659506073, 659509110, 659509741, 659508384, 659505742, 659502076, 659497835, 659493761,
   659490388, 659488510, 659488029, 659488804, 659491087, 659494092, 659497119, 659499999, 659501971, 659502542, 659501942, 659500521, 659498996, 659498204,
   659498997, 659501811, 659507111, 659514196, 659521861, 659528890, 659534436, 659537487, 659538223, 659536890, 659534105, 659530652, 659527812, 659526041,
   659525206, 659526158, 659529402, 659533964, 659539767, 659546440, 659552939, 659558370, 659562147, 659563987, 659563971, 659563241, 659562674, 659563694,
   659567562, 659574189, 659583176, 659593254, 659602728, 659610880, 659616909, 659620566, 659622530, 659623569, 659624290, 659624955, 659626131, 659628330,
   659632096, 659637679, 659644988, 659653711, 659663279, 659672708, 659681318, 659688370, 659693461, 659697031, 659699650, 659702605, 659706849, 659713115,
   659721806, 659733256, 659746689, 659760142, 659772911, 659783784, 659791729, 659796982, 659800801, 659803826, 659806641, 659809440, 659813068, 659818960,
   659827580, 659838647, 659851060, 659863987, 659877306, 659890017, 659900949, 659910243, 659917782, 659924065, 659929941, 659936152, 659943280, 659952684,
   659964531, 659978267, 659993151, 660007974, 660021216, 660032244, 660041025, 660048023, 660054007, 660059726, 660064939, 660070550, 660077760, 660086642,
   660097210, 660108990, 660121473, 660134173, 660146733, 660157963, 660167790, 660176001, 660183018, 660189697, 660196355, 660203917, 660212819, 660223154,
   660235387, 660248662, 660261868, 660273390, 660282845, 660290362, 660295967, 660300538, 660304420, 660307798, 660312123, 660318364, 660326857, 660337050,
   660348393, 660360869, 660374280, 660387816, 660400436, 660411542, 660420490, 660427562, 660433894, 660440383, 660448204, 660457515, 660468810, 660481629,
   660495915, 660509870, 660522333, 660532629, 660540921, 660547940, 660553949, 660559677, 660565701, 660572307]

/-- `delta_t_1e7[13500:14000]` — skyfield/data/iers.npz. Used at skyfield/iokit.py:350-358. -/
def builtinDeltas27 : List ℕ :=
  [660579841, 660588766, 660599293, 660611505, 660624600, 660638006, 660650442, 660661929, 660672191, 660680700, 660687057, 660691296, 660694863, 660699217,
   660705546, 660714741, 660726287, 660739817, 660753755, 660766532, 660777402, 660786016, 660791847, 660795812, 660798623, 660801197, 660803545, 660806731,
   660811430, 660817850, 660826319, 660835879, 660845782, 660855778, 660866020, 660875878, 660884871, 660892740, 660899105, 660904624, 660910703, 660918966,
   660929942, 660944031, 660961343, 660980193, 660998763, 661015763, 661029964, 661041489, 661050860, 661058381, 661064605, 661070124, 661076130, 661083469,
   661092430, 661103247, 661115707, 661129563, 661144184, 661159414, 661174211, 661188026, 661200506, 661211731, 661221819, 661231359, 661242155, 661255338,
   661271020, 661289622, 661310116, 661330758, 661349539, 661366054, 661379803, 661390677, 661399750, 661407350, 661415367, 661424560, 661433942, 661444044,
   661455205, 661466178, 661477439, 661489467, 661501784, 661514075, 661525096, 661534291, 661541887, 661547975, 661553408, 661559349, 661567208, 661578583,
   661593329, 661610522, 661629655, 661649455, 661667772, 661682713, 661694354, 661703515, 661711419, 661719301, 661727965, 661737638, 661748627, 661761250,
   661774896, 661789413, 661804840, 661820407, 661836023, 661850948, 661864650, 661876737, 661887732, 661898036, 661908473, 661920007, 661933746, 661949721,
   661967370, 661986146, 662004828, 662022937, 662039293, 662052773, 662063424, 662071627, 662078145, 662083844, 662089123, 662094707, 662101002, 662108309,
   662117086, 662127534, 662139219, 662151440, 662163336, 662173959, 662182881, 662189997, 662196503, 662203467, 662211575, 662222165, 662235151, 662250167,
   662266724, 662283621, 662299129, 662312264, 662322667, 662330912, 662337983, 662343434, 662347442, 662351222, 662355846, 662361615, 662368302, 662375728,
   662383140, 662390229, 662396829, 662402189, 662406620, 662409711, 662411637, 662412449, 662412951, 662413947, 662415990, 662419501, 662424543, 662430887,
   662437400, 662441981, 662444096, 662444055, 662441505, 662437020, 662431297, 662425156, 662419343, 662414436, 662411041, 662409155, 662408549, 662408310,
   662408704, 662409063, 662408509, 662406688, 662403313, 662398206, 662392222, 662386055, 662380657, 662376709, 662374821, 662375439, 662377651, 662380685,
   662383890, 662385765, 662386280, 662384292, 662380123, 662373767, 662366032, 662358769, 662351681, 662345881, 662341943, 662339766, 662338633, 662337795,
   662336946, 662335423, 662332932, 662329515, 662325588, 662321220, 662316799, 662312782, 662310343, 662310428, 662313497, 662319491, 662327004, 662334313,
   662340523, 662344581, 662346069, 662345327, 662342453, 662338500, 662334675, 662331402, 662329221, 662329005, 662330389, 662332630, 662336017, 662340041,
   662343404, 662346168, 662348076, 662349022, 662349107, 662348249, 662347385, 662347099, 662348409, 662352306, 662359176, 662368496, 662379279, 662389659,
   662397636, 662402956, 662405504, 662405547, 662404287, 662402948, 662401851, 662401754, 662403058, 662405618, 662409117, 662413028, 662417600, 662422699,
   662427245, 662431569, 662434877, 662436806, 662437925, 662438906, 662441095, 662444520, 662450928, 662461279, 662474867, 662490995, 662508083, 662524337,
   662538473, 662550410, 662560120, 662568332, 662576113, 662583731, 662592176, 662601076, 662610841, 662621773, 662633457, 662645907, 662658131, 662669431,
   662679553, 662688073, 662695185, 662701200, 662706612, 662711935, 662718296, 662726538, 662737362, 662751123, 662767155, 662784538, 662801543, 662817133,
   662830679, 662841542, 662849786, 662856712, 662862564, 662868446, 662875280, 662883448, 662893251, 662904222, 662915873, 662927714, 662938769, 662948959,
   662957357, 662964108, 662969715, 662974586, 662979513, 662985072, 662992063, 663001318, 663013210, 663026808, 663040639, 663054334, 663066680, 663076645,
   663084053, 663089308, 663093618, 663097772, 663102471, 663107983, 663114676, 663121845, 663129045, 663136181, 663143443, 663149848, 663155368, 663160367,
   663164163, 663166901, 663168237, 663168980, 663170978, 663174410, 663179930, 663187515, 663197064, 663208218, 663219396, 663229297, 663236535, 663242235,
   663245568, 663247850, 663249701, 663251325, 663253415, 663256387, 663260664, 663265749, 663271271, 663277316, 663283269, 663289070, 663294623, 663299496,
   663303227, 663306326, 663308964, 663311767, 663315601, 663320758, 663328003, 663337068, 663348170, 663359977, 663370882, 663380134, 663387247, 663392242,
   663395816, 663398913, 663402042, 663405713, 663410388, 663416845, 663424176, 663432403, 663439975, 663447568, 663454604, 663460804, 663466243, 663470870,
   663474699, 663478153, 663481760, 663486592, 663493654, 663503492, 663516529, 663531421, 663547627, 663563914, 663578274, 663589979, 663598466, 663604754,
   663609511, 663613927, 663618362, 663624433, 663631925, 663640797, 663651560, 663663223, 663675329, 663687033, 663697495, 663707381, 663716230, 663723986,
   663731211, 663736843, 663742920, 663750232, 663759951, 663772222, 663786523, 663802118, 663818045, 663833411, 663847220, 663858334, 663867574, 663875533,
   663884324, 663893112, 663903335, 663915201, 663928485, 663942342, 663957101, 663971933, 663986861, 664000584, 664012718, 664023180, 664032312, 664039870,
   664047270, 664054895, 664063371, 664073083, 664084786, 664097947, 664113013, 664129220, 664145802, 664161108, 664174543, 664185609, 664194495, 664201763,
   664208889, 664216842, 664225571, 664235237, 664245616, 664256246, 664267694, 664278674, 664289030, 664298739]

/-- `delta_t_1e7[14000:14500]` — skyfield/data/iers.npz. Used at skyfield/iokit.py:350-358. -/
def builtinDeltas28 : List ℕ :=
  [664308430, 664316898, 664325719, 664333942, 664342137, 664351055, 664361172, 664373262, 664388141, 664404269, 664421670, 664439844, 664458083, 664474301,
   664488395, 664499958, 664509906, 664517904, 664525639, 664533903, 664542037, 664550909, 664559731, 664568881, 664579016, 664588769, 664597765, 664605919,
   664612650, 664618675, 664624108, 664629021, 664634053, 664640725, 664648911, 664658610, 664670003, 664681834, 664693072, 664703664, 664712785, 664719310,
   664724341, 664727848, 664729773, 664731847, 664734214, 664737142, 664740687, 664744697, 664748771, 664752407, 664755191, 664756821, 664757394, 664757139,
   664756100, 664754334, 664751683, 664748837, 664746578, 664745343, 664746868, 664750715, 664755655, 664760759, 664764862, 664767840, 664768534, 664767340,
   664764866, 664761557, 664758336, 664755718, 664753846, 664753317, 664754214, 664755911, 664758613, 664760271, 664761533, 664762072, 664761918, 664760855,
   664758658, 664755599, 664752130, 664749276, 664747354, 664747947, 664751281, 664756507, 664763144, 664769997, 664775954, 664780030, 664781502, 664781028,
   664779728, 664777887, 664776214, 664774862, 664774767, 664775789, 664777044, 664779326, 664781710, 664784346, 664786193, 664786877, 664786678, 664785629,
   664784054, 664782118, 664781299, 664782063, 664785359, 664791073, 664799055, 664808963, 664818993, 664828678, 664837080, 664842984, 664846615, 664848882,
   664850531, 664852189, 664854957, 664858690, 664863195, 664868359, 664874312, 664880873, 664888003, 664895205, 664901407, 664906527, 664910784, 664914913,
   664919013, 664923976, 664930412, 664939054, 664950111, 664964025, 664979997, 664997575, 665015236, 665031363, 665044805, 665056165, 665066155, 665075315,
   665084529, 665094629, 665106080, 665118883, 665132353, 665146270, 665160125, 665173600, 665186448, 665198130, 665207665, 665215380, 665221432, 665226527,
   665231610, 665237260, 665244070, 665252734, 665263628, 665276772, 665291585, 665307464, 665322733, 665336405, 665348091, 665357675, 665366018, 665374112,
   665382912, 665392952, 665404158, 665416671, 665430652, 665444810, 665458717, 665472037, 665483678, 665493556, 665502311, 665509581, 665516382, 665522952,
   665530015, 665538014, 665547393, 665558721, 665571986, 665587042, 665602473, 665617355, 665631582, 665644010, 665654251, 665662758, 665670416, 665678034,
   665686179, 665695292, 665705628, 665717251, 665729243, 665740143, 665750293, 665759339, 665767123, 665773500, 665779074, 665784575, 665790136, 665795950,
   665802761, 665811231, 665821611, 665833875, 665847618, 665862323, 665877255, 665891174, 665903582, 665913919, 665922143, 665929439, 665937384, 665946962,
   665958570, 665972011, 665986832, 666002013, 666016597, 666030198, 666042632, 666053964, 666063926, 666072705, 666080541, 666087770, 666095331, 666103634,
   666112844, 666123596, 666135961, 666150044, 666165210, 666180075, 666194132, 666206697, 666217243, 666225780, 666233155, 666240007, 666247855, 666256988,
   666267038, 666277950, 666289104, 666300237, 666310718, 666319821, 666327852, 666334654, 666339689, 666343843, 666348117, 666352588, 666357515, 666363955,
   666372978, 666384046, 666397230, 666411597, 666426340, 666440383, 666453177, 666463751, 666471761, 666477866, 666483397, 666489014, 666495638, 666503497,
   666512324, 666521517, 666530449, 666538839, 666546106, 666552692, 666558090, 666562693, 666566308, 666569117, 666571888, 666575434, 666580126, 666586319,
   666594483, 666604782, 666616966, 666630716, 666645201, 666660089, 666673830, 666686116, 666697596, 666708744, 666720460, 666733618, 666748192, 666763412,
   666779128, 666795028, 666810001, 666824003, 666837414, 666850021, 666861407, 666871977, 666882038, 666891845, 666901958, 666912813, 666925011, 666938823,
   666954332, 666971647, 666989838, 667008757, 667026518, 667041950, 667055237, 667066642, 667076960, 667087306, 667098385, 667110442, 667122869, 667135627,
   667148746, 667162055, 667174851, 667187225, 667198514, 667208770, 667218007, 667226314, 667233933, 667241479, 667249412, 667257915, 667266867, 667276883,
   667288729, 667302308, 667317020, 667331839, 667345838, 667358634, 667369546, 667378741, 667386964, 667395650, 667404914, 667414596, 667424826, 667435429,
   667446109, 667456964, 667466929, 667475986, 667483424, 667489315, 667493962, 667497943, 667501755, 667505975, 667510919, 667517043, 667524455, 667533193,
   667543324, 667554580, 667566569, 667578719, 667590134, 667599962, 667608192, 667614521, 667620231, 667626736, 667634428, 667643438, 667652409, 667660641,
   667668421, 667675328, 667680883, 667684962, 667687581, 667689351, 667689851, 667689518, 667688824, 667687996, 667687501, 667687991, 667690136, 667693254,
   667697231, 667701642, 667705347, 667707620, 667708367, 667707625, 667705656, 667703336, 667701628, 667700604, 667700895, 667702779, 667705331, 667708390,
   667710968, 667712719, 667713107, 667711282, 667708793, 667705809, 667702110, 667699318, 667697865, 667697501, 667699282, 667702674, 667707410, 667712956,
   667718708, 667724179, 667728836, 667732141, 667734522, 667735796, 667736565, 667737878, 667740427, 667744300, 667749423, 667754844, 667760778, 667766333,
   667770567, 667773085, 667774140, 667774052, 667773325, 667771811, 667769797, 667768200, 667767721, 667768768, 667771485, 667775628, 667781357, 667788136,
   667794983, 667801031, 667805848, 667808972, 667810769, 667812020, 667813932, 667817406, 667822800, 667829731, 667837644, 667846288, 667854582, 667862633,
   667869972, 667875709, 667879546, 667882617, 667885096, 667886987, 667889565, 667893408, 667898997, 667906430]

/-- `delta_t_1e7[14500:15000]` — skyfield/data/iers.npz. Used at skyfield/iokit.py:350-358. -/
def builtinDeltas29 : List ℕ :=
  [667916088, 667928426, 667942450, 667956605, 667970236, 667982333, 667992760, 668001089, 668007673, 668014180, 668021319, 668029748, 668039896, 668051970,
   668065342, 668078725, 668091650, 668103240, 668113079, 668120898, 668127539, 668133277, 668138375, 668143312, 668148863, 668155820, 668164470, 668175099,
   668187395, 668201138, 668216014, 668230995, 668245139, 668257719, 668268363, 668277291, 668285094, 668292681, 668300878, 668309834, 668319849, 668330768,
   668342277, 668353948, 668365065, 668375234, 668384440, 668392897, 668400480, 668407712, 668414579, 668421934, 668430400, 668439972, 668450525, 668462676,
   668476188, 668490166, 668504665, 668519716, 668534672, 668548649, 668561809, 668574767, 668587797, 668602055, 668618119, 668635274, 668652667, 668669854,
   668686533, 668702343, 668716701, 668729490, 668741115, 668751469, 668760869, 668769876, 668778601, 668788141, 668798479, 668809568, 668821597, 668834609,
   668848218, 668861907, 668875464, 668888774, 668901007, 668911873, 668921422, 668930497, 668939817, 668949801, 668960518, 668971789, 668982983, 668993209,
   669001969, 669009482, 669016641, 669023296, 669028948, 669033772, 669038356, 669042902, 669047604, 669053518, 669060735, 669069091, 669078699, 669089610,
   669101408, 669113406, 669125282, 669136042, 669145373, 669153867, 669162382, 669171929, 669182743, 669195120, 669209172, 669224345, 669239259, 669253203,
   669266241, 669278761, 669290375, 669301367, 669311982, 669322634, 669333558, 669344836, 669356102, 669368582, 669382362, 669396984, 669411916, 669427632,
   669442590, 669456405, 669468644, 669479626, 669489700, 669498916, 669508257, 669518631, 669530598, 669543949, 669558038, 669572251, 669585529, 669597133,
   669607121, 669616161, 669624130, 669631019, 669637229, 669643585, 669650682, 669659193, 669669488, 669681554, 669695173, 669710724, 669727534, 669745078,
   669762508, 669779378, 669794693, 669809281, 669823928, 669838858, 669854360, 669870919, 669888468, 669907175, 669926193, 669944949, 669963376, 669980889,
   669996947, 670011656, 670025378, 670037994, 670049947, 670061347, 670073143, 670085248, 670098440, 670113386, 670129853, 670147691, 670166740, 670186501,
   670205840, 670224408, 670241751, 670258126, 670273869, 670289715, 670305755, 670322590, 670340886, 670359780, 670378536, 670396985, 670414514, 670430562,
   670444923, 670457859, 670469685, 670480648, 670491661, 670503154, 670514764, 670527141, 670541137, 670556561, 670572892, 670590383, 670608633, 670626784,
   670644293, 670660465, 670675042, 670688728, 670702303, 670716286, 670731050, 670747036, 670763554, 670780599, 670797233, 670813261, 670828690, 670842481,
   670854409, 670865372, 670875327, 670884441, 670893323, 670902682, 670912729, 670923970, 670936480, 670950429, 670965277, 670980515, 670995456, 671009544,
   671022614, 671034721, 671045474, 671055165, 671064316, 671073251, 671082459, 671091888, 671100184, 671107858, 671114739, 671120812, 671125581, 671129280,
   671132062, 671133930, 671134853, 671135766, 671137580, 671140023, 671143439, 671148429, 671154651, 671161936, 671169937, 671178687, 671187054, 671195064,
   671202295, 671208224, 671213758, 671219514, 671226215, 671233595, 671241575, 671249449, 671256623, 671262417, 671266401, 671268315, 671268476, 671266939,
   671264141, 671260799, 671257291, 671254255, 671252310, 671251649, 671252444, 671254709, 671257843, 671261654, 671265840, 671270298, 671274635, 671278187,
   671281283, 671283634, 671285828, 671288433, 671292176, 671297222, 671303414, 671309962, 671316418, 671321789, 671326044, 671329017, 671330595, 671331391,
   671331363, 671330777, 671330439, 671330732, 671332180, 671334405, 671337590, 671341672, 671346679, 671352277, 671357552, 671362080, 671366018, 671369420,
   671372473, 671375830, 671380276, 671386109, 671393268, 671401720, 671410522, 671419147, 671427166, 671434081, 671440029, 671444705, 671448071, 671450866,
   671453171, 671455437, 671457970, 671461501, 671466140, 671472059, 671479389, 671488172, 671497719, 671507405, 671516441, 671524620, 671532173, 671538928,
   671545226, 671551956, 671559818, 671569227, 671580381, 671593261, 671606953, 671620529, 671632654, 671643480, 671652960, 671661743, 671670261, 671678153,
   671685643, 671692666, 671699924, 671708159, 671717400, 671727906, 671739764, 671751979, 671764892, 671777868, 671790507, 671802514, 671814157, 671825320,
   671836166, 671847695, 671859572, 671872770, 671887187, 671902343, 671917481, 671932401, 671945956, 671957687, 671967656, 671976313, 671984201, 671991783,
   672000253, 672010091, 672020639, 672032528, 672046063, 672060570, 672075861, 672091069, 672105246, 672118841, 672132093, 672144821, 672157261, 672168912,
   672180328, 672191967, 672204450, 672217924, 672232291, 672247233, 672261877, 672275631, 672287718, 672298689, 672308719, 672318037, 672326906, 672335717,
   672344531, 672354154, 672365427, 672377417, 672389998, 672403533, 672417847, 672432297, 672446129, 672459812, 672472761, 672484831, 672495974, 672507483,
   672519488, 672532549, 672546430, 672560710, 672574653, 672587597, 672599619, 672610561, 672620415, 672628776, 672636010, 672642402, 672648341, 672654769,
   672661954, 672670417, 672680356, 672691591, 672704035, 672717268, 672730999, 672745278, 672759538, 672773492, 672786579, 672798804, 672810383, 672822338,
   672835090, 672848335, 672862355, 672876535, 672889890, 672901710, 672911896, 672920903, 672928486, 672934555, 672940272, 672945759, 672951581, 672958144,
   672965953, 672974977, 672985490, 672997167, 673009494, 673022290, 673035153, 673047227, 673058321, 673068909]

/-- `delta_t_1e7[15000:15500]` — skyfield/data/iers.npz. Used at skyfield/iokit.py:350-358. -/
def builtinDeltas30 : List ℕ :=
  [673078500, 673087940, 673098157, 673109615, 673122637, 673136452, 673150519, 673164499, 673177375, 673188701, 673197755, 673205457, 673212273, 673218173,
   673223820, 673230005, 673236690, 673244686, 673253991, 673264488, 673276459, 673289452, 673303082, 673317058, 673330579, 673343436, 673355416, 673366764,
   673378181, 673390359, 673403919, 673419295, 673437342, 673456968, 673476895, 673496599, 673515222, 673532196, 673547389, 673561094, 673573443, 673584687,
   673595480, 673606243, 673616736, 673627788, 673639770, 673652363, 673665130, 673677860, 673690303, 673702528, 673714414, 673725837, 673736806, 673748195,
   673760456, 673773490, 673787880, 673804000, 673821001, 673838763, 673856788, 673874139, 673890030, 673904612, 673918270, 673930778, 673942667, 673954790,
   673966790, 673978681, 673990684, 674003440, 674016690, 674030724, 674044899, 674059743, 674074264, 674087221, 674099292, 674111312, 674123242, 674135665,
   674148673, 674162960, 674178981, 674196233, 674214777, 674234754, 674254582, 674273201, 674290388, 674305370, 674318433, 674330107, 674341332, 674352326,
   674363575, 674375367, 674387854, 674401064, 674415214, 674429526, 674444045, 674457971, 674471211, 674482948, 674494046, 674504327, 674514294, 674524738,
   674536121, 674548920, 674562925, 674577699, 674592180, 674606420, 674619204, 674630232, 674639550, 674647109, 674653415, 674658273, 674662320, 674666209,
   674670388, 674674856, 674679761, 674685840, 674692180, 674699513, 674706921, 674713932, 674720675, 674727623, 674733958, 674740413, 674746944, 674754330,
   674762606, 674772302, 674783704, 674795044, 674806786, 674817463, 674826769, 674834001, 674839901, 674843898, 674847127, 674848696, 674850117, 674852320,
   674855187, 674858459, 674862180, 674866865, 674872358, 674877720, 674882743, 674887034, 674890498, 674893529, 674896174, 674899711, 674903702, 674909123,
   674916262, 674925082, 674934163, 674943450, 674951697, 674958756, 674964224, 674967713, 674969852, 674970897, 674971074, 674971465, 674971767, 674972680,
   674974264, 674976543, 674980280, 674984596, 674989147, 674993168, 674996480, 674999244, 675001113, 675002391, 675003210, 675004063, 675006580, 675010554,
   675016567, 675023680, 675031870, 675040406, 675047990, 675054286, 675059281, 675063465, 675066636, 675068541, 675070495, 675072151, 675074376, 675076686,
   675078992, 675081938, 675085904, 675090723, 675095697, 675100573, 675105866, 675110936, 675116187, 675121385, 675126925, 675132707, 675140446, 675149788,
   675161068, 675173858, 675186911, 675198939, 675209338, 675217698, 675224770, 675230958, 675236704, 675242588, 675249302, 675256097, 675263108, 675270601,
   675279051, 675288340, 675297021, 675306653, 675315740, 675323662, 675331320, 675338404, 675345599, 675352658, 675360544, 675369137, 675380035, 675392989,
   675407413, 675422963, 675439479, 675454677, 675468252, 675480000, 675490925, 675501121, 675510286, 675519116, 675528248, 675537884, 675547585, 675558601,
   675570225, 675582835, 675596224, 675610269, 675622970, 675634815, 675645888, 675656040, 675665892, 675675930, 675686721, 675698203, 675711030, 675726351,
   675743277, 675760178, 675776560, 675791751, 675805180, 675817507, 675827604, 675836613, 675845263, 675853595, 675862739, 675872271, 675882344, 675892845,
   675904431, 675916876, 675929511, 675941976, 675953468, 675964480, 675975088, 675985265, 675995291, 676005166, 676015513, 676027161, 676040603, 676055121,
   676070253, 676084870, 676098790, 676112133, 676124339, 676135389, 676145074, 676154540, 676164409, 676174773, 676185364, 676197052, 676209381, 676221615,
   676233863, 676246563, 676259688, 676272094, 676283930, 676294738, 676304559, 676313714, 676323446, 676334041, 676345794, 676359435, 676373706, 676388828,
   676403856, 676417165, 676428917, 676439167, 676448302, 676456545, 676463764, 676469975, 676476584, 676483139, 676490890, 676500117, 676510609, 676521869,
   676532912, 676543905, 676555311, 676566777, 676577830, 676588937, 676599444, 676610205, 676621581, 676633853, 676648142, 676663410, 676678588, 676694546,
   676707840, 676720067, 676730626, 676739801, 676748230, 676756583, 676765272, 676774260, 676784307, 676795137, 676806490, 676818631, 676831436, 676845175,
   676858809, 676871630, 676883586, 676895278, 676907017, 676918957, 676930549, 676942758, 676955883, 676970784, 676987561, 677005075, 677022666, 677039520,
   677055099, 677068885, 677080220, 677090211, 677099277, 677108002, 677116693, 677125859, 677135700, 677146064, 677157397, 677168766, 677180977, 677193429,
   677206558, 677220450, 677234402, 677248497, 677262684, 677276778, 677292073, 677308113, 677325449, 677344600, 677365818, 677387671, 677410514, 677432635,
   677453029, 677472208, 677489826, 677506387, 677521125, 677535294, 677549237, 677562921, 677576649, 677590634, 677604171, 677617352, 677629928, 677642022,
   677654261, 677666549, 677678712, 677691323, 677704044, 677717510, 677732630, 677749108, 677766746, 677785485, 677805396, 677825591, 677844308, 677862092,
   677877213, 677890379, 677901459, 677911996, 677922139, 677932667, 677944453, 677956849, 677969902, 677983607, 677997415, 678011542, 678025112, 678037775,
   678049697, 678060729, 678070920, 678080983, 678091695, 678102838, 678115410, 678129545, 678145802, 678163748, 678182644, 678201535, 678219997, 678237461,
   678253176, 678267407, 678280508, 678292856, 678304092, 678315158, 678325374, 678335572, 678345676, 678356169, 678366091, 678376380, 678385684, 678394421,
   678402130, 678409133, 678415488, 678421924, 678428244, 678435579, 678444117, 678454093, 678464918, 678475311]

/-- `delta_t_1e7[15500:16000]` — skyfield/data/iers.npz. Used at skyfield/iokit.py:350-358. -/
def builtinDeltas31 : List ℕ :=
  [678485469, 678494997, 678503246, 678509333, 678513534, 678517485, 678519675, 678521839, 678524274, 678528221, 678533410, 678539194, 678545649, 678553261,
   678561359, 678569582, 678578090, 678586368, 678593836, 678600316, 678606318, 678612365, 678618980, 678627298, 678637462, 678649730, 678662309, 678676247,
   678689078, 678701510, 678712737, 678722028, 678729212, 678734442, 678738888, 678742761, 678747242, 678751755, 678756456, 678761126, 678766594, 678772094,
   678777497, 678782047, 678787037, 678791058, 678795079, 678799011, 678802563, 678807285, 678813425, 678821576, 678831537, 678843141, 678855487, 678867781,
   678879870, 678889994, 678898790, 678906443, 678912799, 678918590, 678924634, 678930780, 678938120, 678945806, 678953957, 678962374, 678970733, 678978693,
   678986923, 678995325, 679003609, 679011364, 679018860, 679026890, 679035722, 679045345, 679056523, 679069560, 679084628, 679101982, 679120101, 679138050,
   679155019, 679169810, 679183230, 679195220, 679206383, 679216858, 679227432, 679238028, 679248477, 679260258, 679273228, 679286362, 679299484, 679312546,
   679324954, 679336792, 679348662, 679360238, 679372505, 679384923, 679398237, 679412387, 679428196, 679446227, 679466516, 679487793, 679508755, 679528521,
   679546462, 679561987, 679575375, 679587709, 679599742, 679612524, 679625875, 679639774, 679653972, 679669430, 679685057, 679701336, 679717749, 679734479,
   679749982, 679763995, 679778044, 679792775, 679808203, 679823756, 679839402, 679856084, 679874647, 679895348, 679917554, 679940531, 679963444, 679985282,
   680005623, 680023377, 680039761, 680054839, 680069678, 680084051, 680098176, 680112497, 680127475, 680143480, 680159634, 680175698, 680191260, 680206438,
   680221105, 680235248, 680248819, 680262815, 680276484, 680290732, 680305569, 680321166, 680337502, 680354831, 680373127, 680391094, 680409253, 680426158,
   680442163, 680456526, 680470144, 680484007, 680498710, 680514120, 680530043, 680546902, 680563784, 680580763, 680597237, 680614033, 680630549, 680646846,
   680663032, 680677959, 680692190, 680706388, 680720191, 680734886, 680750789, 680767820, 680786016, 680804953, 680824968, 680844794, 680863638, 680881384,
   680896958, 680910962, 680925546, 680939214, 680954063, 680970219, 680987291, 681005242, 681024205, 681043627, 681062846, 681082257, 681101539, 681120375,
   681138786, 681156837, 681174160, 681191766, 681209742, 681229360, 681249920, 681271207, 681293671, 681315166, 681336471, 681355827, 681374894, 681392597,
   681408927, 681424595, 681439832, 681455769, 681471846, 681488172, 681504254, 681520099, 681535468, 681550630, 681564077, 681577127, 681590087, 681602006,
   681613831, 681625729, 681638110, 681653495, 681668933, 681686914, 681706865, 681727884, 681748341, 681768709, 681787588, 681804964, 681820883, 681835312,
   681848558, 681861443, 681874666, 681888874, 681904308, 681920748, 681937922, 681955757, 681974193, 681992164, 682009658, 682026907, 682043653, 682060122,
   682077020, 682094416, 682112359, 682131843, 682153091, 682175602, 682199172, 682223652, 682248624, 682272816, 682295797, 682317466, 682337693, 682356483,
   682374664, 682392843, 682411428, 682430845, 682450988, 682471860, 682492933, 682513398, 682533540, 682553899, 682573993, 682593359, 682611843, 682629609,
   682647003, 682664507, 682682461, 682701498, 682721531, 682742987, 682765765, 682789338, 682812744, 682835752, 682857219, 682876651, 682894736, 682911675,
   682927543, 682942959, 682958952, 682975492, 682992155, 683009076, 683026310, 683043262, 683059708, 683075814, 683091158, 683105186, 683117979, 683130288,
   683143167, 683157012, 683171931, 683188171, 683205862, 683225399, 683246699, 683268627, 683290098, 683310298, 683328783, 683345493, 683360726, 683374752,
   683388314, 683402592, 683418095, 683434593, 683451781, 683469276, 683486540, 683502957, 683518640, 683533776, 683548417, 683563050, 683577600, 683591700,
   683605358, 683619183, 683633894, 683649761, 683667016, 683685129, 683703564, 683721947, 683739367, 683754902, 683768440, 683780489, 683791500, 683801851,
   683811713, 683821130, 683830420, 683839712, 683848601, 683856797, 683864261, 683870606, 683875810, 683880299, 683883590, 683886174, 683888343, 683890810,
   683894319, 683898903, 683905126, 683913165, 683922620, 683933075, 683944145, 683954824, 683964356, 683973138, 683981035, 683987524, 683993143, 683998356,
   684003479, 684009018, 684015095, 684021454, 684026913, 684031422, 684035406, 684038472, 684040059, 684040471, 684040325, 684040059, 684039975, 684040691,
   684042501, 684045537, 684049708, 684054499, 684059951, 684066003, 684072010, 684077600, 684082661, 684087111, 684090985, 684094472, 684098411, 684103390,
   684109191, 684115676, 684122547, 684129632, 684136730, 684143661, 684150283, 684156058, 684160822, 684164437, 684167144, 684169751, 684173231, 684177959,
   684184103, 684192334, 684202291, 684213224, 684224439, 684235462, 684245738, 684254956, 684263264, 684270636, 684277289, 684283330, 684289597, 684296797,
   684304611, 684312920, 684321766, 684331189, 684340864, 684350326, 684359190, 684367462, 684375109, 684381938, 684388922, 684396327, 684404073, 684412379,
   684422958, 684435455, 684449369, 684464053, 684479019, 684493663, 684507412, 684519749, 684531085, 684541901, 684552571, 684563850, 684575775, 684588146,
   684601502, 684615748, 684629791, 684643398, 684656038, 684667729, 684678894, 684689447, 684699339, 684709004, 684718725, 684729315, 684741510, 684755646,
   684771808, 684790111, 684810207, 684831143, 684851743, 684870930, 684888574, 684904606, 684919075, 684933158]

/-- `delta_t_1e7[16000:16500]` — skyfield/data/iers.npz. Used at skyfield/iokit.py:350-358. -/
def builtinDeltas32 : List ℕ :=
  [684947455, 684961681, 684975924, 684990654, 685005353, 685020035, 685034982, 685049980, 685064484, 685078180, 685091318, 685103927, 685116250, 685128702,
   685141963, 685156717, 685172698, 685190051, 685209012, 685229450, 685250974, 685272364, 685292590, 685310999, 685326935, 685340719, 685353579, 685366242,
   685379436, 685393270, 685408065, 685423322, 685438979, 685454801, 685470352, 685485141, 685499039, 685512153, 685524730, 685537018, 685549165, 685561246,
   685573343, 685586458, 685600479, 685615474, 685631717, 685649123, 685667288, 685685167, 685701868, 685717010, 685730224, 685742508, 685754912, 685767602,
   685780241, 685792822, 685805624, 685818370, 685831024, 685843390, 685855098, 685865817, 685875526, 685884543, 685892850, 685900885, 685909180, 685917601,
   685927179, 685938248, 685950594, 685964374, 685979827, 685995738, 686011556, 686026946, 686041480, 686054809, 686066797, 686078423, 686090239, 686102534,
   686115610, 686129178, 686142606, 686155259, 686167340, 686178531, 686189237, 686199465, 686208918, 686217425, 686225462, 686233353, 686241331, 686250182,
   686260124, 686271597, 686284282, 686298107, 686312655, 686327351, 686341674, 686355278, 686368059, 686380385, 686392236, 686404324, 686417305, 686431410,
   686446868, 686463207, 686479983, 686496615, 686512882, 686528103, 686541937, 686553696, 686564148, 686573843, 686583070, 686592478, 686602909, 686613861,
   686625998, 686639371, 686654372, 686670627, 686687043, 686702581, 686717295, 686731259, 686744456, 686756762, 686769479, 686782767, 686796767, 686811419,
   686826982, 686843322, 686860344, 686876872, 686892124, 686906002, 686918800, 686930677, 686941958, 686953352, 686965014, 686977611, 686991561, 687006285,
   687022856, 687041036, 687060108, 687079926, 687099726, 687118226, 687135208, 687150908, 687165167, 687178487, 687191937, 687205653, 687220853, 687236969,
   687253701, 687270181, 687285940, 687301531, 687317414, 687333002, 687347842, 687362011, 687376385, 687391084, 687405885, 687420968, 687436433, 687453654,
   687472714, 687493532, 687515414, 687537360, 687558633, 687577476, 687594110, 687608851, 687622755, 687636565, 687650365, 687664215, 687678875, 687694594,
   687710913, 687726642, 687740716, 687754193, 687767043, 687779031, 687790119, 687800625, 687810396, 687820052, 687830789, 687842232, 687854267, 687867180,
   687881413, 687897063, 687913678, 687930674, 687946893, 687961663, 687974621, 687985591, 687996119, 688007449, 688019658, 688032843, 688046539, 688060240,
   688073182, 688085204, 688096329, 688106146, 688114094, 688120500, 688125418, 688129588, 688133675, 688137401, 688141348, 688146386, 688152552, 688159242,
   688167157, 688175332, 688183270, 688191833, 688198956, 688204617, 688208919, 688212931, 688217132, 688221976, 688227644, 688233572, 688239273, 688244838,
   688250686, 688255740, 688259074, 688261493, 688263205, 688264106, 688264929, 688265748, 688266665, 688268475, 688272015, 688276603, 688282250, 688288672,
   688294887, 688300661, 688306131, 688311301, 688315244, 688319021, 688322147, 688324940, 688328103, 688332229, 688337731, 688344450, 688351685, 688358394,
   688364702, 688369809, 688373427, 688375824, 688377205, 688377932, 688378687, 688380116, 688381459, 688383661, 688387092, 688391885, 688398192, 688405144,
   688411895, 688418168, 688423429, 688427630, 688430639, 688432590, 688434806, 688436958, 688440317, 688445089, 688450115, 688455175, 688460918, 688465686,
   688469344, 688471992, 688474033, 688475348, 688475929, 688476930, 688478168, 688479803, 688482085, 688485959, 688491816, 688499452, 688508260, 688517736,
   688527319, 688536238, 688544301, 688551072, 688557062, 688562873, 688568749, 688576296, 688585478, 688596178, 688607300, 688618216, 688628934, 688638520,
   688647053, 688654211, 688659937, 688665199, 688670281, 688676116, 688682125, 688688567, 688694958, 688702447, 688711199, 688721528, 688732970, 688744542,
   688755973, 688766330, 688775321, 688783127, 688790586, 688798224, 688806958, 688816690, 688827806, 688840590, 688854215, 688868102, 688881838, 688894545,
   688906217, 688917311, 688927012, 688935543, 688943775, 688952049, 688960577, 688970057, 688980785, 688992437, 689005814, 689020259, 689035566, 689051084,
   689065718, 689078859, 689090409, 689100825, 689111447, 689122447, 689134350, 689147509, 689161831, 689176871, 689191775, 689205854, 689218544, 689230070,
   689240452, 689249048, 689255970, 689262278, 689268721, 689275573, 689282816, 689290594, 689300068, 689311654, 689325203, 689339849, 689354999, 689370301,
   689384378, 689397222, 689409278, 689421210, 689433436, 689446116, 689459506, 689473863, 689488492, 689502728, 689516139, 689528158, 689538644, 689547088,
   689554324, 689560593, 689565837, 689570871, 689576367, 689581766, 689587703, 689595134, 689603784, 689613352, 689623976, 689635432, 689646918, 689657557,
   689667597, 689676423, 689684126, 689691391, 689699473, 689708118, 689717102, 689725743, 689734052, 689740903, 689746530, 689750944, 689754849, 689757202,
   689758245, 689759016, 689759228, 689760254, 689761684, 689763531, 689766877, 689772060, 689778840, 689786857, 689796027, 689805598, 689815682, 689825299,
   689834217, 689843135, 689852431, 689863260, 689875354, 689889181, 689905020, 689921828, 689938579, 689954341, 689968459, 689981060, 689991984, 690000869,
   690008603, 690016138, 690023684, 690031409, 690039639, 690048477, 690058206, 690068824, 690080234, 690091941, 690103395, 690114359, 690124604, 690133640,
   690141729, 690149513, 690157520, 690165970, 690175527, 690187084, 690199730, 690212126, 690224215, 690235161]

/-- `delta_t_1e7[16500:17000]` — skyfield/data/iers.npz. Used at skyfield/iokit.py:350-358. -/
def builtinDeltas33 : List ℕ :=
  [690244588, 690253635, 690261749, 690268886, 690275727, 690282698, 690290277, 690298548, 690307579, 690317552, 690328344, 690339731, 690351710, 690364126,
   690376522, 690388428, 690399347, 690408983, 690417667, 690426192, 690435819, 690446631, 690458497, 690471300, 690485199, 690499081, 690512362, 690524521,
   690535067, 690543831, 690551327, 690558180, 690564739, 690571350, 690578157, 690585157, 690593115, 690602352, 690612721, 690624484, 690637781, 690651409,
   690663982, 690675089, 690685405, 690694991, 690704575, 690714663, 690726018, 690739206, 690753470, 690768554, 690783824, 690798719, 690811821, 690823433,
   690833767, 690842653, 690850229, 690857126, 690863823, 690870302, 690877045, 690884795, 690893669, 690903141, 690913434, 690924736, 690935734, 690945925,
   690954634, 690961709, 690968019, 690973448, 690979363, 690985750, 690993400, 691002719, 691013100, 691023543, 691033504, 691043000, 691051617, 691058298,
   691063035, 691066704, 691070034, 691072919, 691076052, 691079538, 691083903, 691088905, 691095077, 691102176, 691110123, 691118942, 691127335, 691134453,
   691140023, 691144080, 691146828, 691148860, 691151133, 691153943, 691157808, 691162420, 691166750, 691169984, 691171561, 691171244, 691168738, 691164734,
   691159077, 691152730, 691146716, 691140351, 691134027, 691128183, 691123207, 691119472, 691117000, 691116325, 691116807, 691118018, 691119656, 691121105,
   691122257, 691122605, 691122213, 691122117, 691123133, 691125877, 691130218, 691135537, 691140980, 691145487, 691148378, 691149544, 691149308, 691148219,
   691146696, 691144897, 691143393, 691142173, 691141108, 691140547, 691140675, 691141898, 691144237, 691147371, 691150613, 691153329, 691155389, 691156668,
   691157074, 691157210, 691158029, 691160332, 691164630, 691170425, 691176618, 691182661, 691188192, 691192346, 691195113, 691196001, 691195726, 691194720,
   691193116, 691191483, 691189982, 691188381, 691187685, 691188914, 691191893, 691195479, 691199051, 691202958, 691207203, 691210475, 691212529, 691213820,
   691214775, 691216028, 691218304, 691222494, 691228567, 691236805, 691246506, 691256312, 691264861, 691271421, 691275975, 691278764, 691280053, 691280884,
   691281379, 691281868, 691283363, 691286113, 691290259, 691296218, 691303872, 691312614, 691321576, 691330877, 691339910, 691348145, 691355578, 691362444,
   691369050, 691376171, 691384669, 691395716, 691408330, 691422074, 691436527, 691450275, 691462629, 691473230, 691481958, 691488991, 691494910, 691499510,
   691503642, 691508164, 691513662, 691520188, 691528086, 691537877, 691549108, 691561503, 691574482, 691587053, 691598715, 691609412, 691619052, 691627955,
   691636602, 691645900, 691656608, 691668465, 691680936, 691693483, 691705867, 691717705, 691728072, 691737418, 691745296, 691752334, 691759092, 691765581,
   691772695, 691780416, 691789048, 691798590, 691809207, 691821302, 691834745, 691848739, 691862644, 691875859, 691888081, 691898923, 691908614, 691918195,
   691928161, 691939250, 691951375, 691964228, 691977338, 691989921, 692001149, 692009955, 692016813, 692022366, 692027315, 692031338, 692034914, 692038816,
   692043504, 692048876, 692054930, 692061946, 692070078, 692079410, 692089665, 692100051, 692109070, 692116346, 692122128, 692126787, 692131401, 692136689,
   692142944, 692150765, 692160114, 692170854, 692181662, 692191948, 692201632, 692210452, 692217584, 692222710, 692227231, 692231107, 692234318, 692237606,
   692241230, 692245821, 692250915, 692257339, 692264652, 692272663, 692281428, 692290467, 692299130, 692307252, 692314805, 692322177, 692330075, 692339191,
   692349772, 692362303, 692376338, 692390685, 692404856, 692418081, 692429114, 692438320, 692445762, 692451564, 692456624, 692461277, 692466533, 692473185,
   692480895, 692489842, 692499790, 692510674, 692522290, 692534334, 692546159, 692557940, 692569259, 692579665, 692589540, 692599185, 692609301, 692621015,
   692634558, 692649446, 692664874, 692679918, 692693787, 692705327, 692714829, 692722119, 692727955, 692732758, 692737148, 692742098, 692747251, 692753344,
   692760430, 692768782, 692778285, 692788222, 692798673, 692809416, 692819631, 692828823, 692837021, 692844690, 692852687, 692861385, 692871338, 692883416,
   692897496, 692913241, 692930030, 692946334, 692961243, 692973992, 692984431, 692993175, 693000974, 693008102, 693015397, 693023242, 693031979, 693041648,
   693052465, 693064726, 693077568, 693090404, 693103347, 693115788, 693127422, 693137738, 693146581, 693154155, 693162115, 693170617, 693180441, 693192327,
   693205999, 693220752, 693234900, 693248027, 693259298, 693268101, 693274763, 693280169, 693285128, 693290041, 693295633, 693301748, 693308390, 693316321,
   693325675, 693336123, 693346564, 693356315, 693365334, 693373663, 693380934, 693387113, 693392802, 693398271, 693403994, 693410941, 693419420, 693429712,
   693441803, 693454572, 693467123, 693477952, 693486049, 693492061, 693495949, 693498535, 693500761, 693503131, 693505897, 693509079, 693513088, 693517762,
   693522876, 693528717, 693534668, 693540507, 693545893, 693549735, 693552196, 693553926, 693555186, 693556405, 693558291, 693561388, 693566102, 693572135,
   693578701, 693584949, 693590150, 693593616, 693594711, 693594081, 693592440, 693590116, 693587685, 693585736, 693584381, 693583521, 693583707, 693584160,
   693584791, 693585418, 693585529, 693585373, 693584209, 693581722, 693578071, 693573232, 693567722, 693562958, 693560076, 693559339, 693559471, 693560110,
   693560628, 693560240, 693557933, 693553410, 693546722, 693538133, 693528584, 693519368, 693510647, 693502905]

/-- `delta_t_1e7[17000:17500]` — skyfield/data/iers.npz. Used at skyfield/iokit.py:350-358. -/
def builtinDeltas34 : List ℕ :=
  [693496386, 693491336, 693486551, 693482060, 693478710, 693475554, 693471943, 693467890, 693463658, 693458466, 693452414, 693446543, 693441594, 693438491,
   693437661, 693438905, 693441557, 693444474, 693446591, 693446992, 693445139, 693440862, 693434952, 693428168, 693420450, 693413268, 693407430, 693402759,
   693398423, 693395028, 693392151, 693389871, 693388215, 693386787, 693385227, 693383507, 693380811, 693377064, 693373047, 693369913, 693368174, 693368609,
   693371259, 693376329, 693382651, 693388143, 693392635, 693395240, 693395421, 693393677, 693391056, 693387169, 693383014, 693379390, 693375956, 693373692,
   693372988, 693373251, 693373367, 693373243, 693372823, 693371511, 693369114, 693365524, 693361081, 693356463, 693352088, 693349148, 693349029, 693352152,
   693358024, 693365061, 693371969, 693377424, 693379819, 693379302, 693376867, 693372989, 693368341, 693363745, 693359718, 693356461, 693354326, 693353740,
   693354780, 693356730, 693359347, 693362400, 693365734, 693368842, 693371350, 693373206, 693374187, 693374904, 693375986, 693378178, 693382404, 693389155,
   693398157, 693408124, 693417418, 693424521, 693429190, 693431500, 693432191, 693432033, 693431771, 693432174, 693432844, 693434509, 693437762, 693442505,
   693448641, 693455591, 693462667, 693469007, 693474352, 693478651, 693481749, 693483885, 693484699, 693485181, 693486584, 693489642, 693495534, 693503395,
   693512110, 693520955, 693529013, 693534753, 693537867, 693539463, 693540196, 693540320, 693540144, 693540672, 693542051, 693544239, 693546918, 693550269,
   693554231, 693558637, 693562681, 693565355, 693566237, 693565987, 693564603, 693562749, 693561025, 693559983, 693560340, 693562479, 693567185, 693573550,
   693580384, 693587194, 693593123, 693597574, 693600245, 693601465, 693602087, 693602508, 693603259, 693604922, 693607688, 693611554, 693616274, 693621148,
   693625885, 693630818, 693634276, 693635514, 693635302, 693633750, 693631174, 693628786, 693627902, 693629375, 693633277, 693639645, 693647929, 693657427,
   693667849, 693677574, 693686024, 693692838, 693698012, 693701639, 693704690, 693707835, 693711917, 693717080, 693723268, 693730522, 693738134, 693745200,
   693751703, 693757202, 693761865, 693765140, 693767151, 693768451, 693769304, 693770187, 693772681, 693777929, 693785811, 693795524, 693805396, 693814284,
   693821127, 693826289, 693829401, 693830761, 693831257, 693831524, 693832371, 693835078, 693839742, 693845754, 693852489, 693859712, 693867359, 693875207,
   693882796, 693889904, 693896255, 693901689, 693906659, 693911407, 693916825, 693923814, 693932576, 693943578, 693957147, 693972675, 693987950, 694001404,
   694012820, 694021664, 694027942, 694032723, 694036470, 694039424, 694042417, 694045851, 694049490, 694053784, 694059310, 694064940, 694070530, 694075729,
   694080333, 694084327, 694087096, 694089429, 694091639, 694094376, 694098149, 694104256, 694113265, 694125447, 694140093, 694156212, 694172043, 694186315,
   694197756, 694206269, 694212315, 694216207, 694218557, 694220168, 694222326, 694225729, 694230137, 694235153, 694239946, 694244811, 694249606, 694253705,
   694256796, 694258681, 694259768, 694260687, 694261354, 694262373, 694264662, 694269192, 694276439, 694285982, 694296736, 694307817, 694318452, 694326991,
   694332900, 694337392, 694339950, 694341527, 694343303, 694345353, 694347515, 694350759, 694354862, 694360039, 694366091, 694371420, 694376200, 694379670,
   694381436, 694381533, 694380118, 694378321, 694376790, 694375495, 694375504, 694377140, 694380873, 694386335, 694392518, 694398002, 694401358, 694402081,
   694400530, 694396889, 694391855, 694386259, 694379811, 694373761, 694367310, 694360982, 694355642, 694351335, 694347493, 694342801, 694337090, 694330317,
   694321022, 694310448, 694298865, 694287016, 694275726, 694266000, 694258664, 694253618, 694250246, 694248104, 694245680, 694241335, 694234847, 694225999,
   694214993, 694202178, 694188785, 694176011, 694163948, 694152661, 694142077, 694132418, 694122373, 694111922, 694101196, 694089647, 694077563, 694064735,
   694051221, 694036966, 694022229, 694008569, 693996934, 693987397, 693979895, 693974277, 693969642, 693964511, 693958250, 693950863, 693941852, 693931731,
   693921241, 693910517, 693900679, 693892187, 693884629, 693878807, 693874204, 693870407, 693867274, 693863368, 693858318, 693851971, 693843908, 693834927,
   693824615, 693812792, 693801068, 693790958, 693782946, 693776647, 693773494, 693772377, 693771778, 693770310, 693767039, 693760949, 693752021, 693741225,
   693728915, 693716013, 693703822, 693693422, 693684207, 693676441, 693670079, 693664377, 693658637, 693653038, 693646747, 693639600, 693631442, 693623491,
   693615331, 693607424, 693601111, 693597107, 693595555, 693596758, 693599784, 693604030, 693607895, 693610063, 693610188, 693608106, 693604569, 693600082,
   693595640, 693590367, 693584831, 693580546, 693577183, 693574782, 693572518, 693570890, 693569516, 693567809, 693565084, 693561191, 693556062, 693549530,
   693543455, 693538329, 693534286, 693532903, 693534855, 693539282, 693546366, 693554326, 693562094, 693567370, 693570140, 693570915, 693570757, 693571186,
   693571930, 693573207, 693574985, 693577620, 693581066, 693584639, 693587709, 693590625, 693593242, 693594919, 693595382, 693594841, 693593093, 693590298,
   693587231, 693585166, 693585658, 693589252, 693594913, 693602615, 693611474, 693619726, 693626358, 693630143, 693631188, 693630201, 693627447, 693624505,
   693621942, 693620743, 693621469, 693623547, 693626407, 693629629, 693631349, 693632864, 693633053, 693632119]

/-- `delta_t_1e7[17500:18000]` — skyfield/data/iers.npz. Used at skyfield/iokit.py:350-358. -/
def builtinDeltas35 : List ℕ :=
  [693630244, 693627170, 693623210, 693619234, 693616276, 693615402, 693616460, 693619740, 693624944, 693631038, 693637353, 693641801, 693643991, 693643768,
   693641173, 693636837, 693631649, 693627687, 693624625, 693623116, 693622977, 693623938, 693625629, 693626356, 693626349, 693625028, 693622078, 693617715,
   693612387, 693606424, 693599902, 693593606, 693588408, 693584883, 693583298, 693583807, 693585789, 693588375, 693590651, 693591023, 693588876, 693584740,
   693579718, 693574203, 693568944, 693564715, 693560571, 693557852, 693555870, 693554154, 693552499, 693550607, 693547998, 693544878, 693540259, 693534244,
   693527147, 693519717, 693513316, 693509136, 693506923, 693507111, 693510144, 693515564, 693522175, 693528232, 693532847, 693535447, 693535977, 693534906,
   693533336, 693532534, 693532598, 693534129, 693537391, 693541992, 693547272, 693552255, 693556618, 693559484, 693560054, 693559070, 693555738, 693550543,
   693544603, 693538306, 693533395, 693530595, 693530533, 693533069, 693538038, 693544164, 693550185, 693555856, 693559085, 693559688, 693558500, 693556151,
   693553208, 693551047, 693550279, 693550769, 693552857, 693556108, 693559493, 693562327, 693563871, 693564047, 693562889, 693560295, 693556901, 693553329,
   693549787, 693546717, 693545336, 693545906, 693549346, 693554975, 693562581, 693570454, 693577276, 693582206, 693584958, 693585772, 693584947, 693584238,
   693584684, 693586088, 693588729, 693592809, 693597602, 693603028, 693608210, 693612510, 693616221, 693618606, 693619905, 693620302, 693619901, 693619059,
   693618521, 693619066, 693621108, 693625334, 693631694, 693639802, 693649192, 693659033, 693667157, 693672166, 693673706, 693673154, 693671090, 693668035,
   693665155, 693663930, 693664015, 693665528, 693668400, 693670715, 693672338, 693673566, 693674439, 693673052, 693670862, 693668412, 693665517, 693662619,
   693660350, 693659779, 693660965, 693665095, 693670317, 693677196, 693684372, 693690360, 693694191, 693695527, 693694098, 693690555, 693685965, 693681715,
   693678779, 693677186, 693676725, 693677134, 693677491, 693676759, 693674833, 693671184, 693665979, 693659091, 693651045, 693641830, 693632700, 693623568,
   693615755, 693609789, 693605265, 693602902, 693602203, 693602492, 693602222, 693599403, 693594675, 693586773, 693575840, 693563977, 693551515, 693539781,
   693529857, 693521915, 693514334, 693507271, 693499922, 693491689, 693481902, 693470268, 693458138, 693444715, 693430303, 693415737, 693402196, 693389782,
   693379054, 693370285, 693364095, 693359891, 693357526, 693355310, 693351792, 693347064, 693340907, 693333131, 693323996, 693314810, 693307112, 693300905,
   693295425, 693291243, 693287658, 693283687, 693279305, 693273465, 693266499, 693258310, 693248997, 693238654, 693227840, 693217575, 693207460, 693198292,
   693190822, 693185132, 693181184, 693178431, 693175206, 693171316, 693165653, 693157597, 693147233, 693135768, 693123665, 693112417, 693103287, 693095817,
   693089651, 693084694, 693080270, 693075033, 693069011, 693061164, 693052885, 693043297, 693033421, 693022978, 693012249, 693003486, 692995460, 692989296,
   692985640, 692984284, 692984641, 692984997, 692985235, 692983427, 692979356, 692972503, 692964497, 692955819, 692947914, 692941777, 692938169, 692935342,
   692933892, 692932721, 692931983, 692930766, 692928675, 692925268, 692920394, 692914037, 692907197, 692899785, 692892424, 692886917, 692883054, 692880955,
   692881487, 692885040, 692890416, 692895579, 692899383, 692900701, 692899780, 692897250, 692893813, 692890614, 692888167, 692887288, 692888035, 692889980,
   692893281, 692896655, 692899571, 692901588, 692901799, 692899622, 692895795, 692890768, 692885726, 692881327, 692877682, 692875808, 692876639, 692880585,
   692886989, 692895290, 692903546, 692910385, 692914313, 692915120, 692913922, 692911865, 692909843, 692908851, 692909909, 692912628, 692916479, 692920248,
   692922685, 692924696, 692925597, 692924680, 692921988, 692917913, 692913005, 692907521, 692902149, 692897449, 692893930, 692893216, 692895073, 692898347,
   692902537, 692908110, 692913553, 692917674, 692918987, 692917731, 692915124, 692912705, 692910812, 692911108, 692913893, 692917608, 692922100, 692926269,
   692929523, 692932029, 692933137, 692932674, 692930445, 692927445, 692923780, 692919939, 692915984, 692913220, 692912533, 692913673, 692917126, 692922711,
   692929221, 692935581, 692941027, 692944179, 692944988, 692943729, 692941047, 692939008, 692939040, 692940781, 692943701, 692947840, 692952265, 692955956,
   692958561, 692959402, 692958519, 692955808, 692951492, 692945848, 692940033, 692933690, 692928123, 692924318, 692922918, 692923222, 692924942, 692927496,
   692930171, 692932155, 692932761, 692931307, 692928120, 692923554, 692918395, 692913953, 692911299, 692910988, 692912359, 692914324, 692915893, 692916479,
   692915786, 692912942, 692908126, 692901234, 692892494, 692884131, 692876308, 692869828, 692865493, 692862728, 692862552, 692864744, 692868227, 692872029,
   692875198, 692877067, 692876979, 692874735, 692870872, 692866591, 692863234, 692861399, 692861706, 692864422, 692868386, 692872508, 692875497, 692877253,
   692876867, 692873883, 692869238, 692863234, 692856717, 692850181, 692843917, 692838809, 692835535, 692834564, 692835545, 692838023, 692841813, 692845703,
   692847722, 692847766, 692845739, 692841880, 692837422, 692833293, 692830507, 692829745, 692830621, 692832408, 692835152, 692838077, 692840285, 692840837,
   692839612, 692836137, 692831024, 692825133, 692819471, 692814066, 692809204, 692805844, 692804330, 692805616]

/-- `delta_t_1e7[18000:18500]` — skyfield/data/iers.npz. Used at skyfield/iokit.py:350-358. -/
def builtinDeltas36 : List ℕ :=
  [692809019, 692814266, 692819911, 692824761, 692828025, 692828976, 692826939, 692823227, 692819347, 692815643, 692812900, 692811796, 692812299, 692813576,
   692814959, 692815807, 692815681, 692814149, 692811873, 692809128, 692805103, 692800238, 692795768, 692791795, 692788755, 692787980, 692789959, 692794625,
   692800613, 692807616, 692814001, 692818880, 692821858, 692822687, 692821576, 692819316, 692817566, 692817032, 692817735, 692819683, 692822372, 692824824,
   692826396, 692826187, 692823361, 692817616, 692809215, 692798951, 692787972, 692776390, 692765843, 692756470, 692747993, 692741458, 692736892, 692733428,
   692730964, 692728622, 692725178, 692719416, 692710864, 692699913, 692687395, 692674976, 692664386, 692655999, 692648990, 692643101, 692637518, 692631238,
   692623037, 692613458, 692601929, 692588245, 692573636, 692558046, 692542097, 692526589, 692512487, 692499704, 692489346, 692481485, 692475560, 692470522,
   692465958, 692460422, 692453057, 692442983, 692431157, 692418313, 692404398, 692392659, 692382851, 692375386, 692368908, 692363130, 692356611, 692349196,
   692339927, 692328680, 692316049, 692302108, 692287478, 692273170, 692258792, 692244440, 692231908, 692221980, 692213483, 692207589, 692202580, 692198269,
   692193074, 692187531, 692179632, 692169984, 692159015, 692148142, 692138669, 692131365, 692126395, 692123067, 692119962, 692116156, 692110840, 692103694,
   692093613, 692082146, 692068183, 692054130, 692040007, 692027128, 692014483, 692002920, 691993544, 691986370, 691981295, 691977965, 691976267, 691974685,
   691972489, 691968962, 691963955, 691957211, 691950140, 691944350, 691939623, 691938005, 691939085, 691942085, 691945579, 691948729, 691949907, 691949090,
   691945258, 691940043, 691932607, 691924480, 691915738, 691906870, 691899827, 691894466, 691890975, 691889683, 691889655, 691890974, 691893144, 691893982,
   691893336, 691890583, 691885691, 691880573, 691875919, 691872304, 691870710, 691871829, 691875431, 691880999, 691886909, 691891964, 691895025, 691895882,
   691894348, 691891902, 691889179, 691886510, 691885607, 691885926, 691887767, 691891528, 691897198, 691905123, 691914710, 691923956, 691932457, 691938836,
   691942110, 691943322, 691943138, 691941959, 691941934, 691944236, 691949470, 691958051, 691968251, 691978143, 691987324, 691994511, 691999442, 692002517,
   692002332, 692000316, 691997892, 691995378, 691993539, 691993214, 691994506, 691998589, 692004143, 692010428, 692018912, 692026669, 692032766, 692036827,
   692038111, 692037418, 692035235, 692032998, 692032255, 692033201, 692035901, 692040318, 692044331, 692048201, 692050300, 692050506, 692048548, 692044831,
   692039769, 692033674, 692027029, 692020986, 692016422, 692012863, 692011108, 692010862, 692013035, 692015525, 692017921, 692019712, 692020841, 692020991,
   692019138, 692016092, 692013692, 692012531, 692014768, 692019214, 692024549, 692030022, 692034890, 692038682, 692039331, 692038530, 692035102, 692030344,
   692025256, 692019842, 692014954, 692011331, 692009645, 692009516, 692010839, 692012129, 692013915, 692015491, 692017137, 692017502, 692015661, 692011811,
   692007614, 692001801, 691996326, 691992837, 691992003, 691994144, 691997010, 691998913, 691999956, 691998886, 691996599, 691992327, 691986257, 691979102,
   691971284, 691963974, 691958811, 691955057, 691952791, 691951890, 691952366, 691954572, 691958011, 691961337, 691964063, 691964630, 691963404, 691960575,
   691956874, 691953574, 691953179, 691955756, 691961528, 691969547, 691977296, 691985001, 691991470, 691995598, 691996520, 691995073, 691992853, 691991155,
   691988525, 691986877, 691986756, 691989259, 691993731, 692000102, 692007801, 692016210, 692024072, 692030960, 692036027, 692039052, 692041196, 692040763,
   692040343, 692041240, 692044889, 692051554, 692060019, 692069764, 692078902, 692086804, 692092312, 692094402, 692093812, 692091942, 692088756, 692086029,
   692084064, 692083562, 692084586, 692087645, 692092246, 692098463, 692105279, 692112224, 692118761, 692124239, 692128276, 692130272, 692130338, 692129872,
   692130013, 692132515, 692137608, 692146277, 692156004, 692165682, 692173569, 692179589, 692182654, 692183794, 692182718, 692180645, 692178276, 692176239,
   692174926, 692175471, 692177980, 692182607, 692188528, 692194571, 692201458, 692208137, 692213337, 692217772, 692219479, 692220827, 692221417, 692223659,
   692228389, 692235370, 692245224, 692257858, 692271008, 692283123, 692292763, 692299527, 692302785, 692303887, 692302362, 692299753, 692296713, 692293536,
   692290865, 692289415, 692289951, 692291735, 692294412, 692297725, 692300216, 692301939, 692301712, 692299314, 692294375, 692289068, 692284282, 692280579,
   692279377, 692280155, 692283185, 692285858, 692287864, 692288237, 692286568, 692282558, 692275792, 692267973, 692259766, 692251476, 692243442, 692235966,
   692229775, 692224454, 692220847, 692217517, 692214962, 692212669, 692210206, 692206520, 692201418, 692194103, 692184606, 692174896, 692166093, 692158706,
   692154185, 692151586, 692149682, 692146799, 692143052, 692137122, 692129416, 692118018, 692106109, 692093465, 692080328, 692068499, 692058042, 692049728,
   692044258, 692040288, 692037679, 692035874, 692033676, 692031049, 692027321, 692021456, 692013825, 692004666, 691995675, 691987873, 691981988, 691978935,
   691978734, 691980306, 691982145, 691981840, 691979156, 691974473, 691967055, 691957195, 691945551, 691933577, 691922219, 691911510, 691902540, 691895530,
   691890012, 691886041, 691882496, 691878346, 691873591, 691868166, 691861335, 691852577, 691842515, 691832264]

/-- `delta_t_1e7[18500:19000]` — skyfield/data/iers.npz. Used at skyfield/iokit.py:350-358. -/
def builtinDeltas37 : List ℕ :=
  [691822868, 691815385, 691811458, 691811744, 691814143, 691818252, 691821166, 691822097, 691819541, 691813232, 691805351, 691796172, 691786405, 691776650,
   691767555, 691760342, 691754501, 691751181, 691748809, 691747531, 691746823, 691745719, 691743008, 691739198, 691734569, 691728093, 691720617, 691712732,
   691706254, 691702083, 691700990, 691703963, 691709658, 691716862, 691722892, 691726498, 691726928, 691724056, 691719107, 691712819, 691706072, 691700522,
   691696304, 691693679, 691693121, 691694740, 691697182, 691700460, 691703688, 691705985, 691707069, 691706428, 691703906, 691700797, 691697728, 691695480,
   691694996, 691697344, 691702621, 691709664, 691717978, 691725392, 691729890, 691731141, 691729881, 691726763, 691722510, 691717438, 691712901, 691709768,
   691708680, 691709559, 691712288, 691715737, 691720474, 691725986, 691730751, 691733976, 691736013, 691735805, 691734053, 691731442, 691728901, 691727004,
   691727108, 691729032, 691732602, 691736792, 691740939, 691744709, 691746275, 691745092, 691741795, 691736347, 691730051, 691724315, 691719877, 691716909,
   691715648, 691715597, 691717209, 691720169, 691723391, 691726122, 691727488, 691727566, 691726086, 691723346, 691719539, 691715427, 691713019, 691713533,
   691716891, 691722553, 691730290, 691738572, 691746420, 691752465, 691756217, 691757337, 691756405, 691755114, 691753514, 691751454, 691750130, 691750396,
   691752163, 691755044, 691758781, 691762990, 691767319, 691770527, 691772349, 691772099, 691769509, 691765640, 691761582, 691758218, 691757017, 691758425,
   691762241, 691767907, 691774303, 691779804, 691783353, 691784399, 691783546, 691781022, 691777623, 691774462, 691772489, 691771443, 691772183, 691774607,
   691779497, 691784886, 691791277, 691797333, 691802613, 691806413, 691808193, 691807979, 691806719, 691804994, 691804108, 691804727, 691808398, 691815838,
   691826173, 691837478, 691848228, 691857412, 691864093, 691868061, 691869008, 691867733, 691865121, 691862297, 691859607, 691857695, 691857267, 691858432,
   691861159, 691864601, 691868310, 691871494, 691873560, 691874805, 691874967, 691873277, 691869707, 691866447, 691865154, 691866692, 691872292, 691881582,
   691893652, 691906328, 691917523, 691925771, 691930590, 691932530, 691932365, 691931353, 691930743, 691931657, 691933990, 691937540, 691942653, 691948995,
   691956584, 691964410, 691971823, 691977797, 691981950, 691984341, 691984506, 691982806, 691979904, 691977032, 691975373, 691976700, 691981534, 691989326,
   691998724, 692007880, 692014832, 692018856, 692019594, 692018409, 692015516, 692012207, 692009362, 692006840, 692006517, 692007784, 692010929, 692015283,
   692020226, 692025106, 692029075, 692031558, 692032498, 692031058, 692027921, 692023718, 692020302, 692018212, 692017834, 692020584, 692026539, 692034895,
   692043732, 692051029, 692055242, 692056175, 692053943, 692049972, 692045921, 692042385, 692039954, 692039221, 692039832, 692041153, 692043534, 692046336,
   692049206, 692051768, 692053353, 692053183, 692051052, 692047023, 692042334, 692037756, 692034260, 692033250, 692034775, 692038650, 692044404, 692050632,
   692055592, 692058848, 692059394, 692056440, 692050517, 692043424, 692035906, 692028634, 692022557, 692018272, 692014714, 692010272, 692005832, 692001680,
   691996654, 691989779, 691980422, 691969307, 691956547, 691943235, 691929815, 691916861, 691906017, 691898176, 691892843, 691889392, 691887398, 691884457,
   691878851, 691870263, 691859154, 691845082, 691829281, 691812615, 691797438, 691782892, 691770224, 691759367, 691750034, 691741618, 691734056, 691727508,
   691719912, 691711271, 691701465, 691690570, 691677941, 691665455, 691653470, 691642839, 691635492, 691631393, 691629478, 691628400, 691627233, 691624450,
   691618674, 691610076, 691599737, 691587939, 691574540, 691561055, 691548942, 691537539, 691527831, 691519623, 691512713, 691506175, 691499862, 691492033,
   691482908, 691471981, 691460338, 691446936, 691432913, 691419599, 691408538, 691400286, 691395559, 691394271, 691394768, 691395405, 691394536, 691390727,
   691384139, 691374242, 691363554, 691351781, 691339992, 691329930, 691321695, 691315657, 691310918, 691307058, 691304395, 691301857, 691299774, 691296031,
   691290571, 691283671, 691275693, 691267527, 691258869, 691251943, 691247443, 691246274, 691248351, 691254320, 691260834, 691267169, 691271143, 691272598,
   691270892, 691266831, 691262161, 691257329, 691253441, 691251021, 691249622, 691249375, 691249803, 691250197, 691251641, 691252612, 691253074, 691252830,
   691250990, 691248013, 691244550, 691240495, 691236583, 691234570, 691235912, 691240593, 691249828, 691261638, 691273875, 691283700, 691290393, 691293087,
   691292545, 691289591, 691286595, 691283958, 691281721, 691281430, 691283141, 691286388, 691291022, 691296567, 691300901, 691303766, 691305052, 691304428,
   691302314, 691298618, 691294194, 691290227, 691287191, 691286769, 691289255, 691294691, 691301810, 691310559, 691318656, 691323995, 691326612, 691326671,
   691324351, 691320935, 691317797, 691316397, 691317182, 691319653, 691324178, 691329526, 691334590, 691339782, 691343697, 691345768, 691346067, 691344753,
   691342160, 691338209, 691334072, 691330657, 691328518, 691328595, 691331395, 691336854, 691343319, 691350675, 691356417, 691359466, 691360495, 691358927,
   691356341, 691353251, 691351768, 691352034, 691354764, 691359587, 691365216, 691371281, 691377161, 691381994, 691385331, 691387210, 691387529, 691385810,
   691383181, 691380057, 691377327, 691375960, 691376656, 691380949, 691387309, 691395663, 691404181, 691410732]

/-- `delta_t_1e7[19000:19500]` — skyfield/data/iers.npz. Used at skyfield/iokit.py:350-358. -/
def builtinDeltas38 : List ℕ :=
  [691414692, 691415371, 691413385, 691409817, 691405143, 691400104, 691396440, 691394450, 691394121, 691395031, 691396516, 691398294, 691399024, 691398707,
   691396368, 691392029, 691385306, 691378213, 691370687, 691364470, 691360991, 691359556, 691360895, 691365533, 691371856, 691378051, 691383030, 691385893,
   691385685, 691382760, 691378524, 691373660, 691370190, 691368277, 691367713, 691369272, 691372297, 691376721, 691380809, 691383946, 691385601, 691385335,
   691383567, 691380805, 691377041, 691372628, 691368384, 691365823, 691366178, 691369254, 691375190, 691383638, 691392618, 691400863, 691406847, 691408861,
   691408197, 691406314, 691403258, 691399668, 691397427, 691396938, 691398234, 691401448, 691406042, 691411218, 691416296, 691420086, 691423011, 691424638,
   691424947, 691423448, 691421535, 691419389, 691417839, 691417886, 691420663, 691426420, 691434866, 691445626, 691456396, 691465129, 691470722, 691473150,
   691472133, 691469835, 691467631, 691466633, 691467493, 691470530, 691475390, 691481584, 691488032, 691494488, 691500192, 691504339, 691506585, 691507076,
   691505564, 691502511, 691499445, 691496908, 691495630, 691496438, 691499593, 691505449, 691513864, 691523706, 691532764, 691539552, 691543463, 691544293,
   691542175, 691539071, 691537070, 691536301, 691536966, 691539301, 691543103, 691546849, 691550191, 691552779, 691554532, 691555276, 691554370, 691552308,
   691548672, 691544288, 691540031, 691536648, 691534650, 691534060, 691535741, 691540464, 691546737, 691554541, 691561147, 691564875, 691565457, 691562914,
   691558860, 691554871, 691552000, 691550136, 691549694, 691550243, 691551494, 691552708, 691553246, 691553002, 691551207, 691546643, 691539706, 691531563,
   691522327, 691512771, 691503935, 691497240, 691492094, 691489408, 691488745, 691489558, 691490948, 691490977, 691488832, 691481816, 691471773, 691460548,
   691448420, 691436499, 691426121, 691417935, 691411423, 691405829, 691401173, 691396433, 691390764, 691383622, 691374040, 691362149, 691349214, 691336146,
   691322349, 691309235, 691298168, 691289892, 691284279, 691281851, 691281653, 691280832, 691278940, 691276681, 691272028, 691265292, 691256401, 691248020,
   691239975, 691233512, 691229448, 691227297, 691226245, 691225569, 691224763, 691222933, 691218651, 691212509, 691203654, 691192276, 691179650, 691166395,
   691153466, 691141665, 691132401, 691125716, 691121661, 691120130, 691119643, 691118580, 691116105, 691111639, 691104198, 691094735, 691083751, 691072395,
   691062319, 691053776, 691046807, 691041455, 691037137, 691033461, 691029589, 691025504, 691019996, 691012853, 691004031, 690994201, 690983724, 690973449,
   690964448, 690957348, 690953328, 690951982, 690953525, 690957315, 690961241, 690963583, 690963705, 690962026, 690957280, 690950937, 690944525, 690939268,
   690935789, 690934908, 690935736, 690938308, 690941132, 690942971, 690943525, 690942390, 690939781, 690936173, 690930301, 690923424, 690916051, 690909225,
   690905216, 690903452, 690904082, 690907672, 690912860, 690918145, 690922499, 690924928, 690924075, 690919781, 690913493, 690906442, 690900073, 690895107,
   690892484, 690892332, 690894148, 690897095, 690900522, 690903415, 690905156, 690906202, 690906654, 690904858, 690902579, 690899397, 690896505, 690895370,
   690896956, 690901255, 690908753, 690918292, 690928806, 690939568, 690948852, 690955021, 690957917, 690958793, 690958276, 690958223, 690959966, 690964030,
   690969116, 690975635, 690983561, 690990973, 690996981, 691001272, 691003478, 691004456, 691003853, 691002237, 691000044, 690997895, 690997066, 690998295,
   691002607, 691009658, 691019306, 691030421, 691041785, 691052267, 691059888, 691064859, 691066348, 691065649, 691064218, 691063929, 691066019, 691070264,
   691075302, 691080223, 691084546, 691088320, 691090906, 691091628, 691090701, 691087986, 691083083, 691077850, 691072182, 691067274, 691064453, 691063789,
   691066322, 691070989, 691077446, 691084625, 691090904, 691095660, 691098494, 691099300, 691098333, 691096392, 691095198, 691096415, 691099760, 691105272,
   691111426, 691117403, 691122291, 691125692, 691126764, 691125785, 691123402, 691119004, 691113886, 691108427, 691103442, 691100108, 691099370, 691101598,
   691106525, 691113391, 691121161, 691128372, 691133646, 691136440, 691136638, 691134717, 691131882, 691129646, 691129388, 691131794, 691136794, 691143692,
   691151302, 691158597, 691164754, 691169149, 691171460, 691171723, 691170253, 691167568, 691164363, 691161510, 691159991, 691160558, 691163759, 691169755,
   691178125, 691187938, 691197900, 691206636, 691213130, 691217015, 691218601, 691218820, 691219012, 691220449, 691224075, 691230198, 691238480, 691248067,
   691257886, 691266945, 691274500, 691280095, 691283620, 691285276, 691285474, 691284808, 691284040, 691283994, 691285478, 691289188, 691295495, 691304263,
   691314735, 691325683, 691335655, 691343381, 691348239, 691350430, 691350823, 691350722, 691351449, 691353985, 691358785, 691365734, 691374233, 691383326,
   691392010, 691399414, 691404967, 691408425, 691409871, 691409665, 691408380, 691406722, 691405493, 691405516, 691407524, 691412036, 691419180, 691428523,
   691439048, 691449306, 691457809, 691463522, 691466245, 691466685, 691466151, 691466068, 691467549, 691471123, 691476718, 691483780, 691491480, 691498909,
   691505252, 691509864, 691512383, 691512771, 691511313, 691508490, 691504995, 691501598, 691499057, 691498044, 691499066, 691502377, 691507835, 691514795,
   691522099, 691528314, 691532146, 691532926, 691530909, 691527201, 691523308, 691520577, 691519766, 691520897]

/-- `delta_t_1e7[19500:19745]` — skyfield/data/iers.npz. Used at skyfield/iokit.py:350-358. -/
def builtinDeltas39 : List ℕ :=
  [691523417, 691526469, 691529158, 691530706, 691530532, 691528290, 691523892, 691517522, 691509633, 691500883, 691492027, 691483821, 691476923, 691471818,
   691468755, 691467683, 691468178, 691469396, 691470161, 691469222, 691465669, 691459327, 691450910, 691441801, 691433530, 691427198, 691423129, 691420859,
   691419435, 691417790, 691415028, 691410531, 691403974, 691395275, 691384600, 691372346, 691359119, 691345664, 691332757, 691321094, 691311186, 691303280,
   691297310, 691292878, 691289263, 691285482, 691280450, 691273255, 691263489, 691251478, 691238289, 691225402, 691214176, 691205334, 691198739, 691193521,
   691188464, 691182429, 691174635, 691164732, 691152751, 691139016, 691124082, 691108676, 691093624, 691079764, 691067858, 691058484, 691051940, 691048147,
   691046611, 691046458, 691046542, 691045644, 691042719, 691037177, 691029104, 691019317, 691009171, 691000143, 690993337, 690989123, 690987051, 690986062,
   690984861, 690982268, 690977479, 690970240, 690960784, 690949621, 690937492, 690925352, 690913879, 690903327, 690894798, 690889980, 690887673, 690887740,
   690889016, 690890782, 690892117, 690891843, 690890071, 690885640, 690879804, 690873850, 690869067, 690866090, 690866344, 690870054, 690875424, 690880912,
   690885740, 690888964, 690890009, 690889153, 690886680, 690883553, 690879772, 690875991, 690873085, 690872095, 690873015, 690876272, 690881366, 690886714,
   690892868, 690898100, 690902301, 690905264, 690906206, 690905358, 690903683, 690902550, 690903281, 690905739, 690910376, 690916196, 690922479, 690928586,
   690933792, 690937694, 690939063, 690938229, 690935983, 690932830, 690928755, 690925271, 690923611, 690923481, 690924947, 690928427, 690933850, 690940161,
   690946574, 690952341, 690956613, 690958463, 690958066, 690956187, 690953869, 690953215, 690955004, 690958932, 690964792, 690971767, 690978631, 690984374,
   690988734, 690990848, 690990619, 690988135, 690984034, 690978987, 690973737, 690969001, 690966310, 690965187, 690966144, 690969288, 690974003, 690978976,
   690983910, 690987660, 690989177, 690988519, 690986312, 690983718, 690981581, 690981792, 690983890, 690987432, 690991359, 690995565, 690998616, 690999917,
   690999002, 690995785, 690990835, 690984480, 690977174, 690970556, 690964758, 690959228, 690955024, 690953528, 690953756, 690955375, 690958319, 690961266,
   690963657, 690964674, 690962947, 690958937, 690954124, 690949901, 690947320, 690946689, 690948229, 690951617, 690955596, 690959106, 690961474, 690961327,
   690959194, 690955009, 690949949, 690943905, 690936830, 690930310, 690924521, 690920498, 690918554, 690918135, 690919142, 690921454, 690924012, 690925394,
   690925641, 690924561, 690920577, 690914749, 690909119, 690904339, 690903049]

/-- `delta_t_1e7` — skyfield/data/iers.npz: Delta-T in units of 10⁻⁷ seconds, one number for each day, five hundred to a piece.
Used at skyfield/iokit.py:350-358. -/
def builtinDeltas : List (List ℕ) :=
  [builtinDeltas0, builtinDeltas1, builtinDeltas2, builtinDeltas3, builtinDeltas4, builtinDeltas5, builtinDeltas6, builtinDeltas7,
   builtinDeltas8, builtinDeltas9, builtinDeltas10, builtinDeltas11, builtinDeltas12, builtinDeltas13, builtinDeltas14, builtinDeltas15,
   builtinDeltas16, builtinDeltas17, builtinDeltas18, builtinDeltas19, builtinDeltas20, builtinDeltas21, builtinDeltas22, builtinDeltas23,
   builtinDeltas24, builtinDeltas25, builtinDeltas26, builtinDeltas27, builtinDeltas28, builtinDeltas29, builtinDeltas30, builtinDeltas31,
   builtinDeltas32, builtinDeltas33, builtinDeltas34, builtinDeltas35, builtinDeltas36, builtinDeltas37, builtinDeltas38, builtinDeltas39]

/-- The columns of `Table-S15.2020.txt` — skyfield/data/delta_t.npz: two years, then four coefficients in thousandths of a second (every coefficient is the
double next to a number of three decimals, and stands here for that number). Used at skyfield/timelib.py:1094-1174. -/
def builtinS15Columns : List (ℤ × ℤ × ℤ × ℤ × ℤ × ℤ) :=
  [(-720, -100, 409160, 776247, -9999586, 20371848), (-100, 400, -503433, 1303151, -5822270, 11557668), (400, 1000, 1085087, -298291, -5671519, 6535116), (1000, 1150, -25346, 184811, -753210, 1650393),
   (1150, 1300, -24641, 108771, -459628, 1056647), (1300, 1500, -29414, 61953, -421345, 681149), (1500, 1600, 16197, -6572, -192841, 292343), (1600, 1650, 3018, 10505, -78697, 109127),
   (1650, 1720, -2127, 38333, -68089, 43952), (1720, 1800, -37939, 41731, 2507, 12068), (1800, 1810, 1918, -1126, -3481, 18367), (1810, 1820, -3812, 4629, 21, 15678),
   (1820, 1830, 3250, -6806, -2157, 16516), (1830, 1840, -96, 2944, -6018, 10804), (1840, 1850, -539, 2658, -416, 7634), (1850, 1855, -883, 261, 1642, 9338),
   (1855, 1860, 1558, -2389, -486, 10357), (1860, 1865, -2477, 2284, -591, 9040), (1865, 1870, 2720, -5148, -3456, 8255), (1870, 1875, -914, 3011, -5593, 2371),
   (1875, 1880, -39, 269, -2314, -1126), (1880, 1885, 563, 152, -1893, -3210), (1885, 1890, -1438, 1842, 101, -4388), (1890, 1895, 1871, -2474, -531, -3884),
   (1895, 1900, -232, 3138, 134, -5017), (1900, 1905, -1257, 2443, 5715, -1977), (1905, 1910, 720, -1329, 6828, 4923), (1910, 1915, -825, 831, 6330, 11142),
   (1915, 1920, 262, -1643, 5518, 17479), (1920, 1925, 8, -856, 3020, 21617), (1925, 1930, 127, -831, 1333, 23789), (1930, 1935, 142, -449, 52, 24418),
   (1935, 1940, 702, -22, -419, 24164), (1940, 1945, -1106, 2086, 1645, 24426), (1945, 1950, 614, -1232, 2499, 27050), (1950, 1953, -277, 220, 1127, 28932),
   (1953, 1956, 631, -610, 737, 30002), (1956, 1959, -799, 1282, 1409, 30760), (1959, 1962, 507, -1115, 1577, 32652), (1962, 1965, 199, 406, 868, 33621),
   (1965, 1968, -414, 1002, 2275, 35093), (1968, 1971, 202, -242, 3035, 37956), (1971, 1974, -229, 364, 3157, 40951), (1974, 1977, 172, -323, 3199, 44244),
   (1977, 1980, -192, 193, 3069, 47291), (1980, 1983, 81, -384, 2878, 50361), (1983, 1986, -165, -140, 2354, 52936), (1986, 1989, 448, -637, 1577, 54984),
   (1989, 1992, -276, 708, 1648, 56373), (1992, 1995, 110, -121, 2235, 58453), (1995, 1998, -313, 210, 2324, 60678), (1998, 2001, 109, -729, 1804, 62898),
   (2001, 2004, 199, -402, 674, 64083), (2004, 2007, -17, 194, 466, 64553), (2007, 2010, -84, 144, 804, 65197), (2010, 2013, 128, -109, 839, 66061),
   (2013, 2016, -95, 277, 1007, 66920), (2016, 2019, -139, -7, 1277, 68109)]

end Skyfield
