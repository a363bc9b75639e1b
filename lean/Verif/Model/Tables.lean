/-
The material tables shipped with the package (nidn/materials/data/*.csv), transcribed by a script. Every number is an integer; the
table is `mkTable s`, i.e. the integers divided by the three scales (wavelength, n, k).
-/
import Verif.Model.Materials

namespace Nidn

/-- Builds a table from scaled integers. -/
def mkTable (sw sn sk : ℕ) (rows : List (ℤ × ℤ × ℤ)) : List (MatRow ℚ) :=
  rows.map fun r => ⟨r.1 / sw, r.2.1 / sn, r.2.2 / sk⟩

/-- materials/data/aluminium_arsenide.csv, lines 2-51 -/
def aluminiumArsenideRows0 : List (ℤ × ℤ × ℤ) := [
  (22140, 14237, 319890000000),
  (22242, 14464, 323700000000),
  (22345, 14711, 327630000000),
  (22448, 14978, 331690000000),
  (22553, 15267, 335880000000),
  (22659, 15582, 340200000000),
  (22765, 15925, 344640000000),
  (22873, 16297, 349200000000),
  (22981, 16704, 353880000000),
  (23091, 17147, 358650000000),
  (23202, 17631, 363500000000),
  (23314, 18158, 368420000000),
  (23427, 18735, 373370000000),
  (23541, 19363, 378320000000),
  (23656, 20049, 383220000000),
  (23772, 20796, 388020000000),
  (23889, 21607, 392640000000),
  (24008, 22487, 397010000000),
  (24128, 23437, 401020000000),
  (24249, 24458, 404570000000),
  (24371, 25549, 407540000000),
  (24494, 26705, 409790000000),
  (24619, 27920, 411180000000),
  (24745, 29184, 411600000000),
  (24872, 30482, 410940000000),
  (25000, 31797, 409110000000),
  (25130, 33110, 406100000000),
  (25261, 34402, 401920000000),
  (25394, 35655, 396650000000),
  (25528, 36854, 390390000000),
  (25663, 37992, 383310000000),
  (25800, 39065, 375520000000),
  (25939, 40077, 367140000000),
  (26078, 41035, 358190000000),
  (26220, 41942, 348630000000),
  (26363, 42798, 338310000000),
  (26507, 43583, 327080000000),
  (26653, 44266, 314860000000),
  (26801, 44802, 301770000000),
  (26950, 45155, 288190000000),
  (27101, 45307, 274660000000),
  (27254, 45267, 261740000000),
  (27408, 45065, 249880000000),
  (27564, 44738, 239330000000),
  (27722, 44324, 230220000000),
  (27882, 43854, 222550000000),
  (28044, 43354, 216290000000),
  (28207, 42841, 211380000000),
  (28373, 42330, 207770000000),
  (28540, 41834, 205470000000)]

/-- materials/data/aluminium_arsenide.csv, lines 52-101 -/
def aluminiumArsenideRows1 : List (ℤ × ℤ × ℤ) := [
  (28709, 41364, 204510000000),
  (28881, 40937, 204990000000),
  (29054, 40578, 207050000000),
  (29230, 40327, 210880000000),
  (29407, 40255, 216580000000),
  (29587, 40470, 224020000000),
  (29769, 41111, 232290000000),
  (29954, 42293, 239180000000),
  (30140, 43953, 241240000000),
  (30329, 45730, 235810000000),
  (30521, 47129, 223960000000),
  (30714, 47926, 209980000000),
  (30911, 48263, 197720000000),
  (31109, 48436, 188650000000),
  (31311, 48714, 182170000000),
  (31515, 49270, 176210000000),
  (31721, 50094, 167850000000),
  (31931, 50937, 154870000000),
  (32143, 51445, 137810000000),
  (32358, 51442, 119570000000),
  (32576, 51001, 102880000000),
  (32797, 50298, 88937000000),
  (33020, 49482, 77761000000),
  (33247, 48644, 68904000000),
  (33477, 47830, 61852000000),
  (33711, 47063, 56168000000),
  (33947, 46347, 51517000000),
  (34187, 45685, 47648000000),
  (34430, 45073, 44379000000),
  (34677, 44508, 41574000000),
  (34928, 43985, 39132000000),
  (35182, 43500, 36975000000),
  (35439, 43051, 35043000000),
  (35701, 42633, 33290000000),
  (35966, 42243, 31678000000),
  (36236, 41880, 30175000000),
  (36509, 41541, 28754000000),
  (36787, 41225, 27391000000),
  (37069, 40928, 26063000000),
  (37355, 40651, 24746000000),
  (37645, 40391, 23415000000),
  (37941, 40148, 22033000000),
  (38241, 39919, 20543000000),
  (38545, 39704, 18785000000),
  (38855, 39390, 16510000000),
  (39169, 39102, 15569000000),
  (39489, 38858, 14573000000),
  (39814, 38636, 13506000000),
  (40145, 38430, 12336000000),
  (40480, 38225, 10981000000)]

/-- materials/data/aluminium_arsenide.csv, lines 102-151 -/
def aluminiumArsenideRows2 : List (ℤ × ℤ × ℤ) := [
  (40822, 37968, 9324100000),
  (41169, 37615, 7829800000),
  (41523, 37313, 6567800000),
  (41882, 37068, 4705900000),
  (42248, 36782, 3323100000),
  (42620, 36505, 2808500000),
  (42999, 36250, 2564200000),
  (43385, 36011, 2368200000),
  (43777, 35786, 2187900000),
  (44177, 35571, 2020200000),
  (44584, 35366, 1864300000),
  (44999, 35169, 1719400000),
  (45421, 34980, 1584900000),
  (45852, 34798, 1460100000),
  (46291, 34622, 1344200000),
  (46738, 34452, 1236800000),
  (47194, 34287, 1137200000),
  (47659, 34128, 1045000000),
  (48133, 33973, 959620000),
  (48616, 33823, 880610000),
  (49110, 33677, 807550000),
  (49614, 33535, 740030000),
  (50128, 33398, 677660000),
  (50653, 33264, 620090000),
  (51188, 33133, 567000000),
  (51736, 33006, 518050000),
  (52295, 32883, 472960000),
  (52867, 32762, 431460000),
  (53451, 32645, 393290000),
  (54048, 32530, 358200000),
  (54659, 32418, 325980000),
  (55283, 32309, 296410000),
  (55922, 32203, 269300000),
  (56576, 32099, 244460000),
  (57246, 31997, 221720000),
  (57931, 31898, 200920000),
  (58633, 31802, 181910000),
  (59353, 31707, 164550000),
  (60090, 31615, 148720000),
  (60846, 31525, 134290000),
  (61621, 31437, 121140000),
  (62416, 31350, 109180000),
  (63231, 31266, 98315000),
  (64069, 31184, 88444000),
  (64929, 31103, 79488000),
  (65812, 31025, 71371000),
  (66719, 30948, 64020000),
  (67652, 30872, 57370000),
  (68612, 30799, 51361000),
  (69599, 30727, 45935000)]

/-- materials/data/aluminium_arsenide.csv, lines 152-201 -/
def aluminiumArsenideRows3 : List (ℤ × ℤ × ℤ) := [
  (70615, 30656, 41042000),
  (71661, 30587, 36632000),
  (72738, 30520, 32663000),
  (73849, 30454, 29094000),
  (74993, 30390, 25889000),
  (76174, 30326, 23012000),
  (77393, 30265, 20434000),
  (78651, 30204, 18125000),
  (79951, 30146, 16060000),
  (81294, 30088, 14215000),
  (82684, 30031, 12568000),
  (84122, 29976, 11100000),
  (85610, 29922, 9792700),
  (87152, 29870, 8629700),
  (88751, 29818, 7596200),
  (90410, 29768, 6679000),
  (92132, 29719, 5865800),
  (93920, 29670, 5145700),
  (95780, 29623, 4508800),
  (97714, 29578, 3946100),
  (99729, 29533, 3449600),
  (101830, 29489, 3011900),
  (104020, 29446, 2626600),
  (106300, 29405, 2287800),
  (108690, 29364, 1990300),
  (111190, 29324, 1729300),
  (113800, 29285, 1500600),
  (116550, 29248, 1300600),
  (119420, 29211, 1125700),
  (122450, 29175, 973160),
  (125630, 29140, 840140),
  (128970, 29106, 724350),
  (132510, 29073, 623680),
  (136240, 29041, 536260),
  (140190, 29009, 460460),
  (144370, 28979, 394830),
  (148810, 28949, 338060),
  (153530, 28920, 289040),
  (158570, 28893, 246760),
  (163940, 28865, 210350),
  (169690, 28839, 179040),
  (175860, 28814, 152160),
  (182490, 28789, 129100),
  (189650, 28765, 109360),
  (197380, 28742, 92491),
  (205780, 28720, 78088),
  (214920, 28699, 65813),
  (224910, 28678, 55368),
  (235880, 28658, 46496),
  (247970, 28639, 38971)]

/-- materials/data/aluminium_arsenide.csv (200 rows), as scaled integers -/
def aluminiumArsenideRows : List (ℤ × ℤ × ℤ) :=
  [aluminiumArsenideRows0, aluminiumArsenideRows1, aluminiumArsenideRows2, aluminiumArsenideRows3].flatten

/-- materials/data/aluminium_arsenide.csv -/
def aluminiumArsenideTable : List (MatRow ℚ) := mkTable 100000 10000 100000000000 aluminiumArsenideRows

/-- materials/data/aluminium_nitride.csv, lines 2-51 -/
def aluminiumNitrideRows0 : List (ℤ × ℤ × ℤ) := [
  (153846, 202942, 2),
  (153941, 202941, 2),
  (154036, 202940, 2),
  (154131, 202939, 2),
  (154226, 202938, 2),
  (154321, 202937, 2),
  (154416, 202936, 2),
  (154512, 202935, 2),
  (154607, 202934, 2),
  (154703, 202933, 2),
  (154799, 202932, 2),
  (154895, 202931, 2),
  (154991, 202930, 2),
  (155087, 202929, 2),
  (155183, 202928, 2),
  (155280, 202927, 2),
  (155376, 202926, 2),
  (155473, 202925, 2),
  (155569, 202924, 2),
  (155666, 202923, 2),
  (155763, 202922, 2),
  (155860, 202921, 2),
  (155958, 202920, 2),
  (156055, 202919, 3),
  (156152, 202918, 3),
  (156250, 202917, 3),
  (156348, 202916, 3),
  (156446, 202915, 3),
  (156544, 202914, 3),
  (156642, 202913, 3),
  (156740, 202912, 3),
  (156838, 202911, 3),
  (156937, 202910, 3),
  (157035, 202909, 3),
  (157134, 202908, 3),
  (157233, 202907, 3),
  (157332, 202906, 3),
  (157431, 202905, 3),
  (157530, 202904, 3),
  (157629, 202903, 3),
  (157729, 202902, 3),
  (157828, 202901, 3),
  (157928, 202900, 3),
  (158028, 202899, 3),
  (158128, 202898, 3),
  (158228, 202897, 3),
  (158328, 202896, 3),
  (158428, 202895, 3),
  (158529, 202894, 3),
  (158629, 202893, 3)]

/-- materials/data/aluminium_nitride.csv, lines 52-101 -/
def aluminiumNitrideRows1 : List (ℤ × ℤ × ℤ) := [
  (158730, 202892, 3),
  (158831, 202890, 3),
  (158932, 202889, 3),
  (159033, 202888, 3),
  (159134, 202887, 3),
  (159236, 202886, 3),
  (159337, 202885, 3),
  (159439, 202884, 3),
  (159541, 202883, 3),
  (159642, 202882, 3),
  (159744, 202881, 3),
  (159847, 202880, 3),
  (159949, 202879, 3),
  (160051, 202878, 3),
  (160154, 202876, 3),
  (160256, 202875, 3),
  (160359, 202874, 3),
  (160462, 202873, 3),
  (160565, 202872, 3),
  (160668, 202871, 3),
  (160772, 202870, 3),
  (160875, 202869, 3),
  (160979, 202868, 3),
  (161082, 202867, 3),
  (161186, 202865, 3),
  (161290, 202864, 3),
  (161394, 202863, 3),
  (161499, 202862, 3),
  (161603, 202861, 3),
  (161708, 202860, 3),
  (161812, 202859, 3),
  (161917, 202858, 3),
  (162022, 202857, 3),
  (162127, 202855, 3),
  (162232, 202854, 3),
  (162338, 202853, 3),
  (162443, 202852, 3),
  (162549, 202851, 3),
  (162655, 202850, 3),
  (162760, 202849, 3),
  (162866, 202847, 3),
  (162973, 202846, 3),
  (163079, 202845, 3),
  (163185, 202844, 3),
  (163292, 202843, 3),
  (163399, 202842, 3),
  (163506, 202841, 3),
  (163613, 202839, 3),
  (163720, 202838, 3),
  (163827, 202837, 3)]

/-- materials/data/aluminium_nitride.csv, lines 102-151 -/
def aluminiumNitrideRows2 : List (ℤ × ℤ × ℤ) := [
  (163934, 202836, 3),
  (164042, 202835, 3),
  (164150, 202833, 3),
  (164258, 202832, 3),
  (164366, 202831, 3),
  (164474, 202830, 3),
  (164582, 202829, 3),
  (164690, 202828, 3),
  (164799, 202826, 3),
  (164908, 202825, 3),
  (165017, 202824, 3),
  (165125, 202823, 3),
  (165235, 202822, 3),
  (165344, 202820, 3),
  (165453, 202819, 3),
  (165563, 202818, 3),
  (165673, 202817, 3),
  (165782, 202816, 3),
  (165893, 202814, 3),
  (166003, 202813, 3),
  (166113, 202812, 3),
  (166223, 202811, 3),
  (166334, 202810, 3),
  (166445, 202808, 3),
  (166556, 202807, 3),
  (166667, 202806, 3),
  (166778, 202805, 3),
  (166889, 202803, 3),
  (167001, 202802, 3),
  (167112, 202801, 3),
  (167224, 202800, 3),
  (167336, 202798, 3),
  (167448, 202797, 3),
  (167560, 202796, 3),
  (167673, 202795, 3),
  (167785, 202793, 3),
  (167898, 202792, 3),
  (168011, 202791, 3),
  (168124, 202790, 3),
  (168237, 202788, 3),
  (168350, 202787, 3),
  (168464, 202786, 3),
  (168577, 202785, 3),
  (168691, 202783, 3),
  (168805, 202782, 3),
  (168919, 202781, 3),
  (169033, 202779, 3),
  (169147, 202778, 3),
  (169262, 202777, 3),
  (169377, 202776, 3)]

/-- materials/data/aluminium_nitride.csv, lines 152-201 -/
def aluminiumNitrideRows3 : List (ℤ × ℤ × ℤ) := [
  (169492, 202774, 3),
  (169607, 202773, 3),
  (169722, 202772, 3),
  (169837, 202770, 3),
  (169952, 202769, 3),
  (170068, 202768, 3),
  (170184, 202766, 3),
  (170300, 202765, 3),
  (170416, 202764, 3),
  (170532, 202762, 3),
  (170648, 202761, 3),
  (170765, 202760, 3),
  (170882, 202759, 3),
  (170999, 202757, 3),
  (171116, 202756, 3),
  (171233, 202755, 3),
  (171350, 202753, 3),
  (171468, 202752, 3),
  (171585, 202750, 3),
  (171703, 202749, 3),
  (171821, 202748, 3),
  (171939, 202746, 3),
  (172058, 202745, 3),
  (172176, 202744, 3),
  (172295, 202742, 3),
  (172414, 202741, 3),
  (172533, 202740, 3),
  (172652, 202738, 3),
  (172771, 202737, 3),
  (172891, 202736, 3),
  (173010, 202734, 3),
  (173130, 202733, 3),
  (173250, 202731, 3),
  (173370, 202730, 3),
  (173491, 202729, 3),
  (173611, 202727, 3),
  (173732, 202726, 3),
  (173853, 202724, 3),
  (173974, 202723, 3),
  (174095, 202722, 3),
  (174216, 202720, 4),
  (174338, 202719, 4),
  (174459, 202717, 4),
  (174581, 202716, 4),
  (174703, 202715, 4),
  (174825, 202713, 4),
  (174948, 202712, 4),
  (175070, 202710, 4),
  (175193, 202709, 4),
  (175316, 202707, 4)]

/-- materials/data/aluminium_nitride.csv, lines 202-251 -/
def aluminiumNitrideRows4 : List (ℤ × ℤ × ℤ) := [
  (175439, 202706, 4),
  (175562, 202705, 4),
  (175685, 202703, 4),
  (175809, 202702, 4),
  (175932, 202700, 4),
  (176056, 202699, 4),
  (176180, 202697, 4),
  (176305, 202696, 4),
  (176429, 202694, 4),
  (176554, 202693, 4),
  (176678, 202691, 4),
  (176803, 202690, 4),
  (176929, 202688, 4),
  (177054, 202687, 4),
  (177179, 202685, 4),
  (177305, 202684, 4),
  (177431, 202682, 4),
  (177557, 202681, 4),
  (177683, 202680, 4),
  (177809, 202678, 4),
  (177936, 202677, 4),
  (178063, 202675, 4),
  (178190, 202673, 4),
  (178317, 202672, 4),
  (178444, 202670, 4),
  (178571, 202669, 4),
  (178699, 202667, 4),
  (178827, 202666, 4),
  (178955, 202664, 4),
  (179083, 202663, 4),
  (179211, 202661, 4),
  (179340, 202660, 4),
  (179469, 202658, 4),
  (179598, 202657, 4),
  (179727, 202655, 4),
  (179856, 202654, 4),
  (179986, 202652, 4),
  (180115, 202650, 4),
  (180245, 202649, 4),
  (180375, 202647, 4),
  (180505, 202646, 4),
  (180636, 202644, 4),
  (180766, 202643, 4),
  (180897, 202641, 4),
  (181028, 202639, 4),
  (181159, 202638, 4),
  (181291, 202636, 4),
  (181422, 202635, 4),
  (181554, 202633, 4),
  (181686, 202631, 4)]

/-- materials/data/aluminium_nitride.csv, lines 252-301 -/
def aluminiumNitrideRows5 : List (ℤ × ℤ × ℤ) := [
  (181818, 202630, 4),
  (181951, 202628, 4),
  (182083, 202627, 4),
  (182216, 202625, 4),
  (182349, 202623, 4),
  (182482, 202622, 4),
  (182615, 202620, 4),
  (182749, 202619, 4),
  (182882, 202617, 4),
  (183016, 202615, 4),
  (183150, 202614, 4),
  (183284, 202612, 4),
  (183419, 202610, 4),
  (183554, 202609, 4),
  (183688, 202607, 4),
  (183824, 202605, 4),
  (183959, 202604, 4),
  (184094, 202602, 4),
  (184230, 202600, 4),
  (184366, 202599, 4),
  (184502, 202597, 4),
  (184638, 202595, 4),
  (184775, 202594, 4),
  (184911, 202592, 4),
  (185048, 202590, 4),
  (185185, 202589, 4),
  (185322, 202587, 4),
  (185460, 202585, 4),
  (185598, 202583, 4),
  (185736, 202582, 4),
  (185874, 202580, 4),
  (186012, 202578, 4),
  (186150, 202577, 4),
  (186289, 202575, 4),
  (186428, 202573, 4),
  (186567, 202571, 4),
  (186706, 202570, 4),
  (186846, 202568, 4),
  (186986, 202566, 4),
  (187126, 202564, 4),
  (187266, 202563, 4),
  (187406, 202561, 4),
  (187547, 202559, 4),
  (187688, 202557, 4),
  (187829, 202556, 4),
  (187970, 202554, 4),
  (188111, 202552, 4),
  (188253, 202550, 4),
  (188395, 202548, 4),
  (188537, 202547, 4)]

/-- materials/data/aluminium_nitride.csv, lines 302-351 -/
def aluminiumNitrideRows6 : List (ℤ × ℤ × ℤ) := [
  (188679, 202545, 4),
  (188822, 202543, 4),
  (188964, 202541, 4),
  (189107, 202539, 5),
  (189251, 202538, 5),
  (189394, 202536, 5),
  (189538, 202534, 5),
  (189681, 202532, 5),
  (189825, 202530, 5),
  (189970, 202528, 5),
  (190114, 202527, 5),
  (190259, 202525, 5),
  (190404, 202523, 5),
  (190549, 202521, 5),
  (190694, 202519, 5),
  (190840, 202517, 5),
  (190985, 202515, 5),
  (191131, 202514, 5),
  (191278, 202512, 5),
  (191424, 202510, 5),
  (191571, 202508, 5),
  (191718, 202506, 5),
  (191865, 202504, 5),
  (192012, 202502, 5),
  (192160, 202500, 5),
  (192308, 202498, 5),
  (192456, 202497, 5),
  (192604, 202495, 5),
  (192753, 202493, 5),
  (192901, 202491, 5),
  (193050, 202489, 5),
  (193199, 202487, 5),
  (193349, 202485, 5),
  (193498, 202483, 5),
  (193648, 202481, 5),
  (193798, 202479, 5),
  (193949, 202477, 5),
  (194099, 202475, 5),
  (194250, 202473, 5),
  (194401, 202471, 5),
  (194553, 202469, 5),
  (194704, 202467, 5),
  (194856, 202465, 5),
  (195008, 202463, 5),
  (195160, 202461, 5),
  (195313, 202459, 5),
  (195465, 202457, 5),
  (195618, 202455, 5),
  (195771, 202453, 5),
  (195925, 202451, 5)]

/-- materials/data/aluminium_nitride.csv, lines 352-401 -/
def aluminiumNitrideRows7 : List (ℤ × ℤ × ℤ) := [
  (196078, 202449, 5),
  (196232, 202447, 5),
  (196386, 202445, 5),
  (196541, 202443, 5),
  (196696, 202441, 5),
  (196850, 202439, 5),
  (197006, 202437, 5),
  (197161, 202435, 5),
  (197316, 202433, 5),
  (197472, 202431, 5),
  (197628, 202429, 5),
  (197785, 202427, 5),
  (197941, 202425, 5),
  (198098, 202422, 5),
  (198255, 202420, 5),
  (198413, 202418, 5),
  (198570, 202416, 5),
  (198728, 202414, 5),
  (198886, 202412, 5),
  (199045, 202410, 5),
  (199203, 202408, 5),
  (199362, 202406, 5),
  (199521, 202403, 5),
  (199681, 202401, 5),
  (199840, 202399, 5),
  (200000, 202397, 5),
  (200160, 202395, 5),
  (200321, 202393, 5),
  (200481, 202390, 5),
  (200642, 202388, 5),
  (200803, 202386, 5),
  (200965, 202384, 5),
  (201126, 202382, 5),
  (201288, 202380, 5),
  (201450, 202377, 5),
  (201613, 202375, 5),
  (201776, 202373, 6),
  (201939, 202371, 6),
  (202102, 202368, 6),
  (202265, 202366, 6),
  (202429, 202364, 6),
  (202593, 202362, 6),
  (202758, 202360, 6),
  (202922, 202357, 6),
  (203087, 202355, 6),
  (203252, 202353, 6),
  (203417, 202351, 6),
  (203583, 202348, 6),
  (203749, 202346, 6),
  (203915, 202344, 6)]

/-- materials/data/aluminium_nitride.csv, lines 402-451 -/
def aluminiumNitrideRows8 : List (ℤ × ℤ × ℤ) := [
  (204082, 202341, 6),
  (204248, 202339, 6),
  (204415, 202337, 6),
  (204583, 202334, 6),
  (204750, 202332, 6),
  (204918, 202330, 6),
  (205086, 202328, 6),
  (205255, 202325, 6),
  (205423, 202323, 6),
  (205592, 202320, 6),
  (205761, 202318, 6),
  (205931, 202316, 6),
  (206101, 202313, 6),
  (206271, 202311, 6),
  (206441, 202309, 6),
  (206612, 202306, 6),
  (206782, 202304, 6),
  (206954, 202302, 6),
  (207125, 202299, 6),
  (207297, 202297, 6),
  (207469, 202294, 6),
  (207641, 202292, 6),
  (207814, 202289, 6),
  (207987, 202287, 6),
  (208160, 202285, 6),
  (208333, 202282, 6),
  (208507, 202280, 6),
  (208681, 202277, 6),
  (208855, 202275, 6),
  (209030, 202272, 6),
  (209205, 202270, 6),
  (209380, 202267, 6),
  (209556, 202265, 6),
  (209732, 202262, 6),
  (209908, 202260, 6),
  (210084, 202257, 6),
  (210261, 202255, 6),
  (210438, 202252, 6),
  (210615, 202250, 6),
  (210793, 202247, 6),
  (210970, 202245, 6),
  (211149, 202242, 6),
  (211327, 202240, 6),
  (211506, 202237, 6),
  (211685, 202235, 6),
  (211864, 202232, 6),
  (212044, 202229, 6),
  (212224, 202227, 6),
  (212404, 202224, 6),
  (212585, 202222, 6)]

/-- materials/data/aluminium_nitride.csv, lines 452-501 -/
def aluminiumNitrideRows9 : List (ℤ × ℤ × ℤ) := [
  (212766, 202219, 6),
  (212947, 202216, 7),
  (213129, 202214, 7),
  (213311, 202211, 7),
  (213493, 202209, 7),
  (213675, 202206, 7),
  (213858, 202203, 7),
  (214041, 202201, 7),
  (214225, 202198, 7),
  (214408, 202195, 7),
  (214592, 202193, 7),
  (214777, 202190, 7),
  (214961, 202187, 7),
  (215146, 202184, 7),
  (215332, 202182, 7),
  (215517, 202179, 7),
  (215703, 202176, 7),
  (215889, 202174, 7),
  (216076, 202171, 7),
  (216263, 202168, 7),
  (216450, 202165, 7),
  (216638, 202163, 7),
  (216826, 202160, 7),
  (217014, 202157, 7),
  (217202, 202154, 7),
  (217391, 202152, 7),
  (217581, 202149, 7),
  (217770, 202146, 7),
  (217960, 202143, 7),
  (218150, 202140, 7),
  (218341, 202138, 7),
  (218531, 202135, 7),
  (218723, 202132, 7),
  (218914, 202129, 7),
  (219106, 202126, 7),
  (219298, 202123, 7),
  (219491, 202120, 7),
  (219684, 202118, 7),
  (219877, 202115, 7),
  (220070, 202112, 7),
  (220264, 202109, 7),
  (220459, 202106, 7),
  (220653, 202103, 7),
  (220848, 202100, 7),
  (221043, 202097, 7),
  (221239, 202094, 7),
  (221435, 202091, 7),
  (221631, 202088, 7),
  (221828, 202085, 7),
  (222025, 202082, 7)]

/-- materials/data/aluminium_nitride.csv, lines 502-551 -/
def aluminiumNitrideRows10 : List (ℤ × ℤ × ℤ) := [
  (222222, 202079, 7),
  (222420, 202076, 7),
  (222618, 202073, 7),
  (222816, 202070, 7),
  (223015, 202067, 8),
  (223214, 202064, 8),
  (223414, 202061, 8),
  (223614, 202058, 8),
  (223814, 202055, 8),
  (224014, 202052, 8),
  (224215, 202049, 8),
  (224417, 202046, 8),
  (224618, 202043, 8),
  (224820, 202040, 8),
  (225023, 202037, 8),
  (225225, 202034, 8),
  (225428, 202031, 8),
  (225632, 202027, 8),
  (225836, 202024, 8),
  (226040, 202021, 8),
  (226244, 202018, 8),
  (226449, 202015, 8),
  (226655, 202012, 8),
  (226860, 202008, 8),
  (227066, 202005, 8),
  (227273, 202002, 8),
  (227480, 201999, 8),
  (227687, 201996, 8),
  (227894, 201992, 8),
  (228102, 201989, 8),
  (228311, 201986, 8),
  (228519, 201983, 8),
  (228728, 201979, 8),
  (228938, 201976, 8),
  (229148, 201973, 8),
  (229358, 201970, 8),
  (229568, 201966, 8),
  (229779, 201963, 8),
  (229991, 201960, 8),
  (230203, 201956, 8),
  (230415, 201953, 8),
  (230627, 201950, 8),
  (230840, 201946, 8),
  (231054, 201943, 8),
  (231267, 201940, 8),
  (231481, 201936, 8),
  (231696, 201933, 8),
  (231911, 201929, 8),
  (232126, 201926, 9),
  (232342, 201923, 9)]

/-- materials/data/aluminium_nitride.csv, lines 552-601 -/
def aluminiumNitrideRows11 : List (ℤ × ℤ × ℤ) := [
  (232558, 201919, 9),
  (232775, 201916, 9),
  (232992, 201912, 9),
  (233209, 201909, 9),
  (233427, 201905, 9),
  (233645, 201902, 9),
  (233863, 201898, 9),
  (234082, 201895, 9),
  (234302, 201891, 9),
  (234522, 201888, 9),
  (234742, 201884, 9),
  (234962, 201881, 9),
  (235183, 201877, 9),
  (235405, 201873, 9),
  (235627, 201870, 9),
  (235849, 201866, 9),
  (236072, 201863, 9),
  (236295, 201859, 9),
  (236518, 201855, 9),
  (236742, 201852, 9),
  (236967, 201848, 9),
  (237192, 201845, 9),
  (237417, 201841, 9),
  (237643, 201837, 9),
  (237869, 201834, 9),
  (238095, 201830, 9),
  (238322, 201826, 9),
  (238550, 201822, 9),
  (238777, 201819, 9),
  (239006, 201815, 9),
  (239234, 201811, 9),
  (239464, 201807, 9),
  (239693, 201804, 9),
  (239923, 201800, 9),
  (240154, 201796, 9),
  (240385, 201792, 9),
  (240616, 201788, 10),
  (240848, 201785, 10),
  (241080, 201781, 10),
  (241313, 201777, 10),
  (241546, 201773, 10),
  (241779, 201769, 10),
  (242014, 201765, 10),
  (242248, 201761, 10),
  (242483, 201757, 10),
  (242718, 201754, 10),
  (242954, 201750, 10),
  (243191, 201746, 10),
  (243427, 201742, 10),
  (243665, 201738, 10)]

/-- materials/data/aluminium_nitride.csv, lines 602-651 -/
def aluminiumNitrideRows12 : List (ℤ × ℤ × ℤ) := [
  (243902, 201734, 10),
  (244141, 201730, 10),
  (244379, 201726, 10),
  (244618, 201722, 10),
  (244858, 201718, 10),
  (245098, 201714, 10),
  (245339, 201710, 10),
  (245580, 201705, 10),
  (245821, 201701, 10),
  (246063, 201697, 10),
  (246305, 201693, 10),
  (246548, 201689, 10),
  (246792, 201685, 10),
  (247036, 201681, 10),
  (247280, 201677, 10),
  (247525, 201672, 10),
  (247770, 201668, 10),
  (248016, 201664, 10),
  (248262, 201660, 10),
  (248509, 201656, 11),
  (248756, 201651, 11),
  (249004, 201647, 11),
  (249252, 201643, 11),
  (249501, 201639, 11),
  (249750, 201634, 11),
  (250000, 201630, 11),
  (250250, 201626, 11),
  (250501, 201621, 11),
  (250752, 201617, 11),
  (251004, 201613, 11),
  (251256, 201608, 11),
  (251509, 201604, 11),
  (251762, 201599, 11),
  (252016, 201595, 11),
  (252270, 201591, 11),
  (252525, 201586, 11),
  (252781, 201582, 11),
  (253036, 201577, 11),
  (253293, 201573, 11),
  (253550, 201568, 11),
  (253807, 201564, 11),
  (254065, 201559, 11),
  (254323, 201555, 11),
  (254582, 201550, 11),
  (254842, 201545, 11),
  (255102, 201541, 11),
  (255363, 201536, 11),
  (255624, 201532, 12),
  (255885, 201527, 12),
  (256148, 201522, 12)]

/-- materials/data/aluminium_nitride.csv, lines 652-701 -/
def aluminiumNitrideRows13 : List (ℤ × ℤ × ℤ) := [
  (256410, 201518, 12),
  (256674, 201513, 12),
  (256937, 201508, 12),
  (257202, 201504, 12),
  (257467, 201499, 12),
  (257732, 201494, 12),
  (257998, 201489, 12),
  (258264, 201485, 12),
  (258532, 201480, 12),
  (258799, 201475, 12),
  (259067, 201470, 12),
  (259336, 201465, 12),
  (259605, 201461, 12),
  (259875, 201456, 12),
  (260146, 201451, 12),
  (260417, 201446, 12),
  (260688, 201441, 12),
  (260960, 201436, 12),
  (261233, 201431, 12),
  (261506, 201426, 12),
  (261780, 201421, 12),
  (262055, 201416, 12),
  (262329, 201411, 12),
  (262605, 201406, 13),
  (262881, 201401, 13),
  (263158, 201396, 13),
  (263435, 201391, 13),
  (263713, 201386, 13),
  (263992, 201381, 13),
  (264271, 201376, 13),
  (264550, 201370, 13),
  (264831, 201365, 13),
  (265111, 201360, 13),
  (265393, 201355, 13),
  (265675, 201350, 13),
  (265957, 201344, 13),
  (266241, 201339, 13),
  (266525, 201334, 13),
  (266809, 201329, 13),
  (267094, 201323, 13),
  (267380, 201318, 13),
  (267666, 201313, 13),
  (267953, 201307, 13),
  (268240, 201302, 13),
  (268528, 201297, 13),
  (268817, 201291, 13),
  (269107, 201286, 14),
  (269397, 201280, 14),
  (269687, 201275, 14),
  (269978, 201269, 14)]

/-- materials/data/aluminium_nitride.csv, lines 702-751 -/
def aluminiumNitrideRows14 : List (ℤ × ℤ × ℤ) := [
  (270270, 201264, 14),
  (270563, 201258, 14),
  (270856, 201253, 14),
  (271150, 201247, 14),
  (271444, 201242, 14),
  (271739, 201236, 14),
  (272035, 201230, 14),
  (272331, 201225, 14),
  (272628, 201219, 14),
  (272926, 201213, 14),
  (273224, 201208, 14),
  (273523, 201202, 14),
  (273823, 201196, 14),
  (274123, 201191, 14),
  (274424, 201185, 14),
  (274725, 201179, 14),
  (275028, 201173, 14),
  (275330, 201167, 15),
  (275634, 201161, 15),
  (275938, 201156, 15),
  (276243, 201150, 15),
  (276549, 201144, 15),
  (276855, 201138, 15),
  (277162, 201132, 15),
  (277469, 201126, 15),
  (277778, 201120, 15),
  (278087, 201114, 15),
  (278396, 201108, 15),
  (278707, 201102, 15),
  (279018, 201096, 15),
  (279330, 201090, 15),
  (279642, 201083, 15),
  (279955, 201077, 15),
  (280269, 201071, 15),
  (280584, 201065, 15),
  (280899, 201059, 16),
  (281215, 201052, 16),
  (281532, 201046, 16),
  (281849, 201040, 16),
  (282167, 201034, 16),
  (282486, 201027, 16),
  (282805, 201021, 16),
  (283126, 201014, 16),
  (283447, 201008, 16),
  (283768, 201002, 16),
  (284091, 200995, 16),
  (284414, 200989, 16),
  (284738, 200982, 16),
  (285063, 200976, 16),
  (285388, 200969, 16)]

/-- materials/data/aluminium_nitride.csv, lines 752-801 -/
def aluminiumNitrideRows15 : List (ℤ × ℤ × ℤ) := [
  (285714, 200963, 16),
  (286041, 200956, 16),
  (286369, 200949, 16),
  (286697, 200943, 17),
  (287026, 200936, 17),
  (287356, 200929, 17),
  (287687, 200923, 17),
  (288018, 200916, 17),
  (288351, 200909, 17),
  (288684, 200902, 17),
  (289017, 200896, 17),
  (289352, 200889, 17),
  (289687, 200882, 17),
  (290023, 200875, 17),
  (290360, 200868, 17),
  (290698, 200861, 17),
  (291036, 200854, 17),
  (291375, 200847, 17),
  (291715, 200840, 17),
  (292056, 200833, 18),
  (292398, 200826, 18),
  (292740, 200819, 18),
  (293083, 200812, 18),
  (293427, 200805, 18),
  (293772, 200798, 18),
  (294118, 200790, 18),
  (294464, 200783, 18),
  (294811, 200776, 18),
  (295159, 200769, 18),
  (295508, 200761, 18),
  (295858, 200754, 18),
  (296209, 200747, 18),
  (296560, 200739, 18),
  (296912, 200732, 19),
  (297265, 200724, 19),
  (297619, 200717, 19),
  (297974, 200709, 19),
  (298329, 200702, 19),
  (298686, 200694, 19),
  (299043, 200687, 19),
  (299401, 200679, 19),
  (299760, 200671, 19),
  (300120, 200664, 19),
  (300481, 200656, 19),
  (300842, 200648, 19),
  (301205, 200640, 19),
  (301568, 200633, 19),
  (301932, 200625, 20),
  (302297, 200617, 20),
  (302663, 200609, 20)]

/-- materials/data/aluminium_nitride.csv, lines 802-851 -/
def aluminiumNitrideRows16 : List (ℤ × ℤ × ℤ) := [
  (303030, 200601, 20),
  (303398, 200593, 20),
  (303767, 200585, 20),
  (304136, 200577, 20),
  (304507, 200569, 20),
  (304878, 200561, 20),
  (305250, 200553, 20),
  (305623, 200545, 20),
  (305998, 200537, 20),
  (306373, 200528, 20),
  (306748, 200520, 21),
  (307125, 200512, 21),
  (307503, 200504, 21),
  (307882, 200495, 21),
  (308261, 200487, 21),
  (308642, 200479, 21),
  (309023, 200470, 21),
  (309406, 200462, 21),
  (309789, 200453, 21),
  (310174, 200445, 21),
  (310559, 200436, 21),
  (310945, 200427, 21),
  (311333, 200419, 22),
  (311721, 200410, 22),
  (312110, 200401, 22),
  (312500, 200393, 22),
  (312891, 200384, 22),
  (313283, 200375, 22),
  (313676, 200366, 22),
  (314070, 200357, 22),
  (314465, 200348, 22),
  (314861, 200339, 22),
  (315259, 200330, 22),
  (315657, 200321, 23),
  (316056, 200312, 23),
  (316456, 200303, 23),
  (316857, 200294, 23),
  (317259, 200285, 23),
  (317662, 200276, 23),
  (318066, 200266, 23),
  (318471, 200257, 23),
  (318878, 200248, 23),
  (319285, 200238, 23),
  (319693, 200229, 23),
  (320102, 200220, 24),
  (320513, 200210, 24),
  (320924, 200201, 24),
  (321337, 200191, 24),
  (321750, 200181, 24),
  (322165, 200172, 24)]

/-- materials/data/aluminium_nitride.csv, lines 852-901 -/
def aluminiumNitrideRows17 : List (ℤ × ℤ × ℤ) := [
  (322581, 200162, 24),
  (322997, 200152, 24),
  (323415, 200142, 24),
  (323834, 200133, 24),
  (324254, 200123, 25),
  (324675, 200113, 25),
  (325098, 200103, 25),
  (325521, 200093, 25),
  (325945, 200083, 25),
  (326371, 200073, 25),
  (326797, 200063, 25),
  (327225, 200053, 25),
  (327654, 200043, 25),
  (328084, 200032, 26),
  (328515, 200022, 26),
  (328947, 200012, 26),
  (329381, 200001, 26),
  (329815, 199991, 26),
  (330251, 199980, 26),
  (330688, 199970, 26),
  (331126, 199959, 26),
  (331565, 199949, 26),
  (332005, 199938, 27),
  (332447, 199927, 27),
  (332889, 199917, 27),
  (333333, 199906, 27),
  (333778, 199895, 27),
  (334225, 199884, 27),
  (334672, 199873, 27),
  (335121, 199862, 27),
  (335570, 199851, 27),
  (336022, 199840, 28),
  (336474, 199829, 28),
  (336927, 199818, 28),
  (337382, 199807, 28),
  (337838, 199796, 28),
  (338295, 199784, 28),
  (338753, 199773, 28),
  (339213, 199762, 28),
  (339674, 199750, 29),
  (340136, 199739, 29),
  (340599, 199727, 29),
  (341064, 199715, 29),
  (341530, 199704, 29),
  (341997, 199692, 29),
  (342466, 199680, 29),
  (342936, 199668, 30),
  (343407, 199657, 30),
  (343879, 199645, 30),
  (344353, 199633, 30)]

/-- materials/data/aluminium_nitride.csv, lines 902-951 -/
def aluminiumNitrideRows18 : List (ℤ × ℤ × ℤ) := [
  (344828, 199621, 30),
  (345304, 199609, 30),
  (345781, 199596, 30),
  (346260, 199584, 30),
  (346741, 199572, 31),
  (347222, 199560, 31),
  (347705, 199547, 31),
  (348189, 199535, 31),
  (348675, 199522, 31),
  (349162, 199510, 31),
  (349650, 199497, 31),
  (350140, 199485, 32),
  (350631, 199472, 32),
  (351124, 199459, 32),
  (351617, 199446, 32),
  (352113, 199433, 32),
  (352609, 199420, 32),
  (353107, 199407, 32),
  (353607, 199394, 33),
  (354108, 199381, 33),
  (354610, 199368, 33),
  (355114, 199355, 33),
  (355619, 199341, 33),
  (356125, 199328, 33),
  (356633, 199315, 34),
  (357143, 199301, 34),
  (357654, 199288, 34),
  (358166, 199274, 34),
  (358680, 199260, 34),
  (359195, 199246, 34),
  (359712, 199233, 35),
  (360231, 199219, 35),
  (360750, 199205, 35),
  (361272, 199191, 35),
  (361795, 199177, 35),
  (362319, 199162, 35),
  (362845, 199148, 36),
  (363372, 199134, 36),
  (363901, 199120, 36),
  (364431, 199105, 36),
  (364964, 199091, 36),
  (365497, 199076, 36),
  (366032, 199061, 37),
  (366569, 199047, 37),
  (367107, 199032, 37),
  (367647, 199017, 37),
  (368189, 199002, 37),
  (368732, 198987, 37),
  (369276, 198972, 38),
  (369822, 198957, 38)]

/-- materials/data/aluminium_nitride.csv, lines 952-1001 -/
def aluminiumNitrideRows19 : List (ℤ × ℤ × ℤ) := [
  (370370, 198942, 38),
  (370920, 198926, 38),
  (371471, 198911, 38),
  (372024, 198896, 39),
  (372578, 198880, 39),
  (373134, 198864, 39),
  (373692, 198849, 39),
  (374251, 198833, 39),
  (374813, 198817, 40),
  (375375, 198801, 40),
  (375940, 198785, 40),
  (376506, 198769, 40),
  (377074, 198753, 40),
  (377644, 198737, 41),
  (378215, 198720, 41),
  (378788, 198704, 41),
  (379363, 198687, 41),
  (379939, 198671, 41),
  (380518, 198654, 42),
  (381098, 198637, 42),
  (381679, 198621, 42),
  (382263, 198604, 42),
  (382848, 198587, 43),
  (383436, 198570, 43),
  (384025, 198552, 43),
  (384615, 198535, 43),
  (385208, 198518, 43),
  (385802, 198500, 44),
  (386399, 198483, 44),
  (386997, 198465, 44),
  (387597, 198447, 44),
  (388199, 198430, 45),
  (388802, 198412, 45),
  (389408, 198394, 45),
  (390016, 198376, 45),
  (390625, 198357, 45),
  (391236, 198339, 46),
  (391850, 198321, 46),
  (392465, 198302, 46),
  (393082, 198284, 46),
  (393701, 198265, 47),
  (394322, 198246, 47),
  (394945, 198227, 47),
  (395570, 198208, 47),
  (396197, 198189, 48),
  (396825, 198170, 48),
  (397456, 198151, 48),
  (398089, 198131, 48),
  (398724, 198112, 49),
  (399361, 198092, 49)]

/-- materials/data/aluminium_nitride.csv, lines 1002-1051 -/
def aluminiumNitrideRows20 : List (ℤ × ℤ × ℤ) := [
  (400000, 198073, 49),
  (400641, 198053, 50),
  (401284, 198033, 50),
  (401929, 198013, 50),
  (402576, 197993, 50),
  (403226, 197973, 51),
  (403877, 197952, 51),
  (404531, 197932, 51),
  (405186, 197911, 51),
  (405844, 197890, 52),
  (406504, 197870, 52),
  (407166, 197849, 52),
  (407830, 197828, 53),
  (408497, 197806, 53),
  (409165, 197785, 53),
  (409836, 197764, 54),
  (410509, 197742, 54),
  (411184, 197721, 54),
  (411862, 197699, 54),
  (412541, 197677, 55),
  (413223, 197655, 55),
  (413907, 197633, 55),
  (414594, 197611, 56),
  (415282, 197588, 56),
  (415973, 197566, 56),
  (416667, 197543, 57),
  (417362, 197520, 57),
  (418060, 197497, 57),
  (418760, 197474, 58),
  (419463, 197451, 58),
  (420168, 197428, 58),
  (420875, 197405, 59),
  (421585, 197381, 59),
  (422297, 197357, 59),
  (423012, 197333, 60),
  (423729, 197310, 60),
  (424448, 197285, 60),
  (425170, 197261, 61),
  (425894, 197237, 61),
  (426621, 197212, 61),
  (427350, 197188, 62),
  (428082, 197163, 62),
  (428816, 197138, 63),
  (429553, 197113, 63),
  (430293, 197087, 63),
  (431034, 197062, 64),
  (431779, 197036, 64),
  (432526, 197011, 64),
  (433276, 196985, 65),
  (434028, 196959, 65)]

/-- materials/data/aluminium_nitride.csv, lines 1052-1101 -/
def aluminiumNitrideRows21 : List (ℤ × ℤ × ℤ) := [
  (434783, 196932, 66),
  (435540, 196906, 66),
  (436300, 196880, 66),
  (437063, 196853, 67),
  (437828, 196826, 67),
  (438596, 196799, 68),
  (439367, 196772, 68),
  (440141, 196745, 69),
  (440917, 196717, 69),
  (441696, 196689, 69),
  (442478, 196662, 70),
  (443262, 196634, 70),
  (444050, 196605, 71),
  (444840, 196577, 71),
  (445633, 196548, 72),
  (446429, 196520, 72),
  (447227, 196491, 72),
  (448029, 196462, 73),
  (448833, 196433, 73),
  (449640, 196403, 74),
  (450450, 196373, 74),
  (451264, 196344, 75),
  (452080, 196314, 75),
  (452899, 196283, 76),
  (453721, 196253, 76),
  (454545, 196222, 77),
  (455373, 196192, 77),
  (456204, 196161, 78),
  (457038, 196130, 78),
  (457875, 196098, 79),
  (458716, 196067, 79),
  (459559, 196035, 80),
  (460405, 196003, 80),
  (461255, 195971, 81),
  (462107, 195938, 81),
  (462963, 195906, 82),
  (463822, 195873, 82),
  (464684, 195840, 83),
  (465549, 195806, 84),
  (466418, 195773, 84),
  (467290, 195739, 85),
  (468165, 195705, 85),
  (469043, 195671, 86),
  (469925, 195637, 86),
  (470810, 195602, 87),
  (471698, 195567, 88),
  (472590, 195532, 88),
  (473485, 195497, 89),
  (474383, 195461, 89),
  (475285, 195425, 90)]

/-- materials/data/aluminium_nitride.csv, lines 1102-1151 -/
def aluminiumNitrideRows22 : List (ℤ × ℤ × ℤ) := [
  (476190, 195389, 91),
  (477099, 195353, 91),
  (478011, 195316, 92),
  (478927, 195280, 92),
  (479846, 195243, 93),
  (480769, 195205, 94),
  (481696, 195168, 94),
  (482625, 195130, 95),
  (483559, 195092, 96),
  (484496, 195053, 96),
  (485437, 195015, 97),
  (486381, 194976, 98),
  (487329, 194937, 99),
  (488281, 194897, 99),
  (489237, 194858, 100),
  (490196, 194818, 101),
  (491159, 194777, 101),
  (492126, 194737, 102),
  (493097, 194696, 103),
  (494071, 194655, 104),
  (495050, 194613, 104),
  (496032, 194571, 105),
  (497018, 194529, 106),
  (498008, 194487, 107),
  (499002, 194444, 107),
  (500000, 194401, 108),
  (501002, 194358, 109),
  (502008, 194314, 110),
  (503018, 194271, 111),
  (504032, 194226, 111),
  (505051, 194182, 112),
  (506073, 194137, 113),
  (507099, 194091, 114),
  (508130, 194046, 115),
  (509165, 194000, 116),
  (510204, 193954, 117),
  (511247, 193907, 118),
  (512295, 193860, 118),
  (513347, 193813, 119),
  (514403, 193765, 120),
  (515464, 193717, 121),
  (516529, 193669, 122),
  (517598, 193620, 123),
  (518672, 193571, 124),
  (519751, 193521, 125),
  (520833, 193471, 126),
  (521921, 193421, 127),
  (523013, 193370, 128),
  (524109, 193319, 129),
  (525210, 193267, 130)]

/-- materials/data/aluminium_nitride.csv, lines 1152-1201 -/
def aluminiumNitrideRows23 : List (ℤ × ℤ × ℤ) := [
  (526316, 193215, 131),
  (527426, 193163, 132),
  (528541, 193110, 133),
  (529661, 193057, 134),
  (530786, 193004, 135),
  (531915, 192950, 136),
  (533049, 192895, 138),
  (534188, 192840, 139),
  (535332, 192785, 140),
  (536481, 192729, 141),
  (537634, 192673, 142),
  (538793, 192616, 143),
  (539957, 192559, 145),
  (541126, 192501, 146),
  (542299, 192443, 147),
  (543478, 192385, 148),
  (544662, 192326, 149),
  (545852, 192266, 151),
  (547046, 192206, 152),
  (548246, 192146, 153),
  (549451, 192085, 155),
  (550661, 192023, 156),
  (551876, 191961, 157),
  (553097, 191898, 159),
  (554324, 191835, 160),
  (555556, 191771, 161),
  (556793, 191707, 163),
  (558036, 191642, 164),
  (559284, 191577, 166),
  (560538, 191511, 167),
  (561798, 191445, 169),
  (563063, 191378, 170),
  (564334, 191310, 172),
  (565611, 191242, 173),
  (566893, 191173, 175),
  (568182, 191103, 176),
  (569476, 191033, 178),
  (570776, 190962, 180),
  (572082, 190891, 181),
  (573394, 190819, 183),
  (574713, 190747, 185),
  (576037, 190673, 186),
  (577367, 190599, 188),
  (578704, 190525, 190),
  (580046, 190449, 192),
  (581395, 190373, 193),
  (582751, 190297, 195),
  (584112, 190219, 197),
  (585480, 190141, 199),
  (586854, 190062, 201)]

/-- materials/data/aluminium_nitride.csv, lines 1202-1251 -/
def aluminiumNitrideRows24 : List (ℤ × ℤ × ℤ) := [
  (588235, 189983, 203),
  (589623, 189902, 205),
  (591017, 189821, 207),
  (592417, 189739, 209),
  (593824, 189656, 211),
  (595238, 189573, 213),
  (596659, 189489, 215),
  (598086, 189404, 217),
  (599520, 189318, 219),
  (600962, 189231, 221),
  (602410, 189143, 224),
  (603865, 189055, 226),
  (605327, 188966, 228),
  (606796, 188876, 230),
  (608273, 188784, 233),
  (609756, 188692, 235),
  (611247, 188600, 238),
  (612745, 188506, 240),
  (614251, 188411, 243),
  (615764, 188315, 245),
  (617284, 188218, 248),
  (618812, 188121, 250),
  (620347, 188022, 253),
  (621891, 187922, 256),
  (623441, 187821, 258),
  (625000, 187720, 261),
  (626566, 187617, 264),
  (628141, 187513, 267),
  (629723, 187408, 270),
  (631313, 187302, 273),
  (632911, 187194, 276),
  (634518, 187086, 279),
  (636132, 186976, 282),
  (637755, 186865, 285),
  (639386, 186753, 288),
  (641026, 186640, 292),
  (642674, 186526, 295),
  (644330, 186410, 298),
  (645995, 186293, 302),
  (647668, 186175, 305),
  (649351, 186055, 309),
  (651042, 185934, 312),
  (652742, 185812, 316),
  (654450, 185688, 320),
  (656168, 185563, 324),
  (657895, 185436, 327),
  (659631, 185308, 331),
  (661376, 185179, 335),
  (663130, 185048, 339),
  (664894, 184915, 344)]

/-- materials/data/aluminium_nitride.csv, lines 1252-1301 -/
def aluminiumNitrideRows25 : List (ℤ × ℤ × ℤ) := [
  (666667, 184781, 348),
  (668449, 184645, 352),
  (670241, 184508, 356),
  (672043, 184369, 361),
  (673854, 184228, 365),
  (675676, 184086, 370),
  (677507, 183942, 375),
  (679348, 183796, 380),
  (681199, 183649, 384),
  (683060, 183499, 389),
  (684932, 183348, 395),
  (686813, 183195, 400),
  (688705, 183040, 405),
  (690608, 182883, 410),
  (692521, 182724, 416),
  (694444, 182563, 422),
  (696379, 182400, 427),
  (698324, 182234, 433),
  (700280, 182067, 439),
  (702247, 181897, 445),
  (704225, 181726, 451),
  (706215, 181552, 458),
  (708215, 181375, 464),
  (710227, 181196, 471),
  (712251, 181015, 477),
  (714286, 180832, 484),
  (716332, 180645, 491),
  (718391, 180457, 499),
  (720461, 180266, 506),
  (722543, 180072, 514),
  (724638, 179875, 521),
  (726744, 179675, 529),
  (728863, 179473, 537),
  (730994, 179268, 545),
  (733138, 179060, 554),
  (735294, 178849, 563),
  (737463, 178634, 571),
  (739645, 178417, 580),
  (741840, 178197, 590),
  (744048, 177973, 599),
  (746269, 177745, 609),
  (748503, 177515, 619),
  (750751, 177280, 629),
  (753012, 177043, 640),
  (755287, 176801, 650),
  (757576, 176556, 661),
  (759878, 176307, 673),
  (762195, 176054, 684),
  (764526, 175797, 696),
  (766871, 175536, 709)]

/-- materials/data/aluminium_nitride.csv, lines 1302-1351 -/
def aluminiumNitrideRows26 : List (ℤ × ℤ × ℤ) := [
  (769231, 175270, 721),
  (771605, 175000, 734),
  (773994, 174726, 748),
  (776398, 174447, 761),
  (778816, 174164, 775),
  (781250, 173876, 790),
  (783699, 173583, 805),
  (786164, 173284, 820),
  (788644, 172981, 836),
  (791139, 172673, 852),
  (793651, 172358, 869),
  (796178, 172039, 886),
  (798722, 171713, 904),
  (801282, 171382, 922),
  (803859, 171045, 941),
  (806452, 170701, 961),
  (809061, 170351, 981),
  (811688, 169995, 1002),
  (814332, 169631, 1024),
  (816993, 169261, 1046),
  (819672, 168884, 1069),
  (822368, 168499, 1093),
  (825083, 168106, 1118),
  (827815, 167706, 1144),
  (830565, 167298, 1171),
  (833333, 166881, 1198),
  (836120, 166455, 1227),
  (838926, 166021, 1257),
  (841751, 165578, 1288),
  (844595, 165125, 1320),
  (847458, 164662, 1354),
  (850340, 164190, 1389),
  (853242, 163706, 1425),
  (856164, 163212, 1463),
  (859107, 162707, 1503),
  (862069, 162191, 1544),
  (865052, 161662, 1587),
  (868056, 161121, 1632),
  (871080, 160567, 1679),
  (874126, 159999, 1728),
  (877193, 159418, 1780),
  (880282, 158823, 1834),
  (883392, 158212, 1891),
  (886525, 157586, 1951),
  (889680, 156944, 2013),
  (892857, 156285, 2079),
  (896057, 155608, 2149),
  (899281, 154913, 2222),
  (902527, 154199, 2300),
  (905797, 153466, 2382)]

/-- materials/data/aluminium_nitride.csv, lines 1352-1401 -/
def aluminiumNitrideRows27 : List (ℤ × ℤ × ℤ) := [
  (909091, 152712, 2468),
  (912409, 151936, 2560),
  (915751, 151137, 2657),
  (919118, 150315, 2761),
  (922509, 149468, 2871),
  (925926, 148596, 2987),
  (929368, 147696, 3112),
  (932836, 146768, 3245),
  (936330, 145811, 3387),
  (939850, 144822, 3540),
  (943396, 143800, 3703),
  (946970, 142744, 3878),
  (950570, 141651, 4067),
  (954198, 140520, 4270),
  (957854, 139349, 4490),
  (961538, 138136, 4727),
  (965251, 136879, 4984),
  (968992, 135574, 5263),
  (972763, 134220, 5567),
  (976563, 132814, 5898),
  (980392, 131353, 6259),
  (984252, 129834, 6655),
  (988142, 128254, 7088),
  (992063, 126610, 7564),
  (996016, 124899, 8089),
  (1000000, 123117, 8668),
  (1004016, 121261, 9308),
  (1008065, 119329, 10017),
  (1012146, 117317, 10805),
  (1016260, 115223, 11681),
  (1020408, 113045, 12658),
  (1024590, 110782, 13749),
  (1028807, 108435, 14970),
  (1033058, 106005, 16336),
  (1037344, 103499, 17868),
  (1041667, 100922, 19585),
  (1046025, 98287, 21511),
  (1050420, 95611, 23667),
  (1054852, 92917, 26076),
  (1059322, 90236, 28758),
  (1063830, 87604, 31728),
  (1068376, 85067, 34993),
  (1072961, 82671, 38551),
  (1077586, 80467, 42383),
  (1082251, 78498, 46461),
  (1086957, 76798, 50742),
  (1091703, 75389, 55180),
  (1096491, 74276, 59725),
  (1101322, 73454, 64333),
  (1106195, 72908, 68967)]

/-- materials/data/aluminium_nitride.csv, lines 1402-1451 -/
def aluminiumNitrideRows28 : List (ℤ × ℤ × ℤ) := [
  (1111111, 72617, 73600),
  (1116071, 72560, 78213),
  (1121076, 72717, 82792),
  (1126126, 73068, 87332),
  (1131222, 73599, 91828),
  (1136364, 74298, 96278),
  (1141553, 75154, 100683),
  (1146789, 76158, 105040),
  (1152074, 77303, 109351),
  (1157407, 78583, 113614),
  (1162791, 79990, 117832),
  (1168224, 81518, 122006),
  (1173709, 83162, 126139),
  (1179245, 84920, 130238),
  (1184834, 86790, 134309),
  (1190476, 88774, 138357),
  (1196172, 90879, 142389),
  (1201923, 93114, 146408),
  (1207729, 95490, 150416),
  (1213592, 98023, 154407),
  (1219512, 100724, 158372),
  (1225490, 103606, 162298),
  (1231527, 106677, 166165),
  (1237624, 109939, 169952),
  (1243781, 113389, 173637),
  (1250000, 117019, 177200),
  (1256281, 120815, 180623),
  (1262626, 124761, 183891),
  (1269036, 128836, 186995),
  (1275510, 133021, 189931),
  (1282051, 137296, 192701),
  (1288660, 141643, 195310),
  (1295337, 146046, 197768),
  (1302083, 150496, 200091),
  (1308901, 154987, 202297),
  (1315789, 159524, 204403),
  (1322751, 164118, 206426),
  (1329787, 168788, 208377),
  (1336898, 173559, 210258),
  (1344086, 178460, 212061),
  (1351351, 183517, 213766),
  (1358696, 188750, 215339),
  (1366120, 194170, 216738),
  (1373626, 199769, 217916),
  (1381215, 205527, 218826),
  (1388889, 211403, 219430),
  (1396648, 217347, 219702),
  (1404494, 223302, 219635),
  (1412429, 229211, 219244),
  (1420455, 235028, 218559)]

/-- materials/data/aluminium_nitride.csv, lines 1452-1452 -/
def aluminiumNitrideRows29 : List (ℤ × ℤ × ℤ) := [
  (1428571, 240723, 217626)]

/-- materials/data/aluminium_nitride.csv (1451 rows), as scaled integers -/
def aluminiumNitrideRows : List (ℤ × ℤ × ℤ) :=
  [aluminiumNitrideRows0, aluminiumNitrideRows1, aluminiumNitrideRows2, aluminiumNitrideRows3, aluminiumNitrideRows4, aluminiumNitrideRows5, aluminiumNitrideRows6, aluminiumNitrideRows7, aluminiumNitrideRows8, aluminiumNitrideRows9, aluminiumNitrideRows10, aluminiumNitrideRows11, aluminiumNitrideRows12, aluminiumNitrideRows13, aluminiumNitrideRows14, aluminiumNitrideRows15, aluminiumNitrideRows16, aluminiumNitrideRows17, aluminiumNitrideRows18, aluminiumNitrideRows19, aluminiumNitrideRows20, aluminiumNitrideRows21, aluminiumNitrideRows22, aluminiumNitrideRows23, aluminiumNitrideRows24, aluminiumNitrideRows25, aluminiumNitrideRows26, aluminiumNitrideRows27, aluminiumNitrideRows28, aluminiumNitrideRows29].flatten

/-- materials/data/aluminium_nitride.csv -/
def aluminiumNitrideTable : List (MatRow ℚ) := mkTable 100000 100000 100000 aluminiumNitrideRows

/-- materials/data/aluminium_oxide.csv, lines 2-51 -/
def aluminiumOxideRows0 : List (ℤ × ℤ × ℤ) := [
  (2100, 1831, -52),
  (2200, 1817, -39),
  (2300, 1805, -26),
  (2400, 1793, -19),
  (2500, 1789, -16),
  (2600, 1779, -10),
  (2700, 1776, -4),
  (2800, 1772, -1),
  (2900, 1767, 1),
  (3000, 1762, 7),
  (3100, 1762, 10),
  (3200, 1762, 12),
  (3300, 1761, 13),
  (3400, 1760, 14),
  (3500, 1758, 15),
  (3600, 1757, 17),
  (3700, 1757, 18),
  (3800, 1757, 18),
  (3900, 1757, 19),
  (4000, 1756, 19),
  (4100, 1755, 19),
  (4200, 1754, 19),
  (4300, 1754, 20),
  (4400, 1754, 21),
  (4500, 1754, 21),
  (4600, 1754, 21),
  (4700, 1754, 21),
  (4800, 1754, 21),
  (4900, 1754, 21),
  (5000, 1754, 21),
  (5100, 1753, 21),
  (5200, 1753, 21),
  (5300, 1753, 20),
  (5400, 1753, 21),
  (5500, 1753, 21),
  (5600, 1752, 20),
  (5700, 1752, 21),
  (5800, 1752, 20),
  (5900, 1752, 20),
  (6000, 1752, 20),
  (6100, 1751, 20),
  (6200, 1751, 21),
  (6300, 1751, 20),
  (6400, 1751, 20),
  (6500, 1751, 20),
  (6600, 1751, 20),
  (6700, 1751, 20),
  (6800, 1751, 20),
  (6900, 1751, 21),
  (7000, 1751, 20)]

/-- materials/data/aluminium_oxide.csv, lines 52-101 -/
def aluminiumOxideRows1 : List (ℤ × ℤ × ℤ) := [
  (7100, 1751, 20),
  (7200, 1751, 20),
  (7300, 1750, 20),
  (7400, 1750, 20),
  (7500, 1750, 20),
  (7600, 1750, 20),
  (7700, 1750, 20),
  (7800, 1750, 20),
  (7900, 1750, 20),
  (8000, 1750, 20),
  (8100, 1750, 20),
  (8200, 1750, 20),
  (8300, 1750, 20),
  (8400, 1750, 20),
  (8500, 1750, 20),
  (8600, 1750, 20),
  (8700, 1750, 20),
  (8800, 1750, 20),
  (8900, 1750, 20),
  (9000, 1750, 20),
  (9100, 1750, 20),
  (9200, 1750, 20),
  (9300, 1750, 20),
  (9400, 1750, 20),
  (9500, 1750, 20),
  (9600, 1750, 20),
  (9700, 1750, 20),
  (9800, 1750, 20),
  (9900, 1749, 20),
  (10000, 1749, 20),
  (10100, 1749, 20),
  (10200, 1749, 20),
  (10300, 1749, 20),
  (10400, 1749, 20),
  (10500, 1749, 20),
  (10600, 1749, 20),
  (10700, 1749, 20),
  (10800, 1749, 20),
  (10900, 1749, 20),
  (11000, 1749, 20),
  (11100, 1749, 20),
  (11200, 1749, 20),
  (11300, 1749, 20),
  (11400, 1749, 20),
  (11500, 1749, 20),
  (11600, 1749, 20),
  (11700, 1749, 20),
  (11800, 1749, 20),
  (11900, 1749, 20),
  (12000, 1749, 21)]

/-- materials/data/aluminium_oxide.csv, lines 102-151 -/
def aluminiumOxideRows2 : List (ℤ × ℤ × ℤ) := [
  (12100, 1749, 21),
  (12200, 1749, 20),
  (12300, 1749, 21),
  (12400, 1749, 20),
  (12500, 1749, 20),
  (12600, 1749, 20),
  (12700, 1749, 19),
  (12800, 1749, 19),
  (12900, 1749, 19),
  (13000, 1749, 19),
  (13100, 1748, 19),
  (13200, 1748, 19),
  (13300, 1748, 19),
  (13400, 1748, 19),
  (13500, 1748, 19),
  (13600, 1748, 20),
  (13700, 1748, 19),
  (13800, 1748, 20),
  (13900, 1749, 20),
  (14000, 1748, 20),
  (14100, 1748, 20),
  (14200, 1748, 19),
  (14300, 1748, 19),
  (14400, 1748, 19),
  (14500, 1748, 20),
  (14600, 1748, 19),
  (14700, 1748, 19),
  (14800, 1748, 18),
  (14900, 1747, 19),
  (15000, 1747, 19),
  (15100, 1747, 18),
  (15200, 1747, 18),
  (15300, 1746, 18),
  (15400, 1746, 19),
  (15500, 1747, 18),
  (15600, 1746, 18),
  (15700, 1746, 18),
  (15800, 1745, 18),
  (15900, 1745, 16),
  (16000, 1745, 18),
  (16100, 1745, 18),
  (16200, 1745, 18),
  (16300, 1744, 18),
  (16400, 1744, 18),
  (16500, 1744, 19),
  (16600, 1744, 19),
  (16700, 1744, 19),
  (16800, 1744, 19),
  (16900, 1744, 19),
  (17000, 1744, 19)]

/-- materials/data/aluminium_oxide.csv, lines 152-201 -/
def aluminiumOxideRows3 : List (ℤ × ℤ × ℤ) := [
  (17100, 1744, 19),
  (17200, 1744, 19),
  (17300, 1744, 19),
  (17400, 1743, 18),
  (17500, 1743, 19),
  (17600, 1743, 19),
  (17700, 1744, 18),
  (17800, 1744, 18),
  (17900, 1743, 17),
  (18000, 1743, 17),
  (18100, 1742, 17),
  (18200, 1742, 18),
  (18300, 1742, 17),
  (18400, 1741, 17),
  (18500, 1740, 17),
  (18600, 1739, 18),
  (18700, 1739, 19),
  (18800, 1740, 20),
  (18900, 1741, 20),
  (19000, 1741, 20),
  (19100, 1741, 19),
  (19200, 1741, 19),
  (19300, 1741, 19),
  (19400, 1741, 19),
  (19500, 1741, 19),
  (19600, 1741, 19),
  (19700, 1740, 18),
  (19800, 1740, 18),
  (19900, 1739, 18),
  (20000, 1739, 18),
  (20100, 1739, 18),
  (20200, 1738, 18),
  (20300, 1738, 18),
  (20400, 1737, 18),
  (20500, 1737, 19),
  (20600, 1737, 19),
  (20700, 1737, 19),
  (20800, 1737, 19),
  (20900, 1737, 19),
  (21000, 1737, 18),
  (21100, 1736, 18),
  (21200, 1736, 18),
  (21300, 1736, 19),
  (21400, 1735, 19),
  (21500, 1735, 19),
  (21600, 1735, 19),
  (21700, 1735, 20),
  (21800, 1735, 19),
  (21900, 1735, 19),
  (22000, 1734, 19)]

/-- materials/data/aluminium_oxide.csv, lines 202-251 -/
def aluminiumOxideRows4 : List (ℤ × ℤ × ℤ) := [
  (22100, 1734, 20),
  (22200, 1734, 20),
  (22300, 1734, 21),
  (22400, 1734, 20),
  (22500, 1734, 20),
  (22600, 1734, 21),
  (22700, 1734, 20),
  (22800, 1734, 20),
  (22900, 1734, 20),
  (23000, 1734, 20),
  (23100, 1733, 20),
  (23200, 1733, 20),
  (23300, 1733, 20),
  (23400, 1733, 20),
  (23500, 1733, 20),
  (23600, 1733, 20),
  (23700, 1732, 20),
  (23800, 1732, 21),
  (23900, 1732, 20),
  (24000, 1732, 21),
  (24100, 1732, 20),
  (24200, 1732, 20),
  (24300, 1732, 20),
  (24400, 1732, 19),
  (24500, 1732, 20),
  (24600, 1732, 19),
  (24700, 1731, 19),
  (24800, 1731, 19),
  (24900, 1730, 18),
  (25000, 1729, 18),
  (25063, 1729, 19),
  (25126, 1729, 19),
  (25189, 1729, 19),
  (25253, 1728, 19),
  (25316, 1728, 18),
  (25381, 1728, 19),
  (25445, 1728, 19),
  (25510, 1728, 19),
  (25575, 1727, 19),
  (25641, 1727, 19),
  (25707, 1727, 19),
  (25773, 1727, 19),
  (25840, 1727, 20),
  (25907, 1726, 19),
  (25974, 1726, 19),
  (26042, 1726, 19),
  (26110, 1726, 20),
  (26178, 1726, 20),
  (26247, 1726, 20),
  (26316, 1725, 20)]

/-- materials/data/aluminium_oxide.csv, lines 252-301 -/
def aluminiumOxideRows5 : List (ℤ × ℤ × ℤ) := [
  (26385, 1725, 20),
  (26455, 1725, 20),
  (26525, 1725, 20),
  (26596, 1725, 20),
  (26667, 1724, 20),
  (26738, 1724, 20),
  (26810, 1725, 20),
  (26882, 1725, 20),
  (26954, 1724, 20),
  (27027, 1724, 19),
  (27100, 1723, 19),
  (27174, 1723, 19),
  (27248, 1722, 20),
  (27322, 1722, 21),
  (27397, 1722, 21),
  (27473, 1723, 21),
  (27548, 1723, 21),
  (27624, 1723, 21),
  (27701, 1723, 21),
  (27778, 1722, 21),
  (27855, 1722, 21),
  (27933, 1722, 20),
  (28011, 1722, 20),
  (28090, 1722, 21),
  (28169, 1722, 21),
  (28249, 1721, 21),
  (28329, 1721, 21),
  (28409, 1721, 20),
  (28490, 1721, 20),
  (28571, 1720, 21),
  (28653, 1720, 21),
  (28736, 1720, 20),
  (28818, 1720, 20),
  (28902, 1720, 20),
  (28986, 1720, 20),
  (29070, 1719, 20),
  (29155, 1719, 20),
  (29240, 1719, 20),
  (29326, 1718, 20),
  (29412, 1718, 20),
  (29499, 1718, 21),
  (29586, 1718, 21),
  (29674, 1717, 21),
  (29762, 1718, 20),
  (29851, 1718, 20),
  (29940, 1717, 20),
  (30030, 1717, 21),
  (30120, 1717, 20),
  (30211, 1717, 20),
  (30303, 1716, 19)]

/-- materials/data/aluminium_oxide.csv, lines 302-351 -/
def aluminiumOxideRows6 : List (ℤ × ℤ × ℤ) := [
  (30395, 1716, 19),
  (30488, 1715, 20),
  (30581, 1715, 20),
  (30675, 1715, 19),
  (30769, 1714, 19),
  (30864, 1714, 19),
  (30960, 1713, 20),
  (31056, 1713, 19),
  (31153, 1712, 19),
  (31250, 1712, 19),
  (31348, 1712, 20),
  (31447, 1712, 20),
  (31546, 1712, 20),
  (31646, 1711, 19),
  (31746, 1711, 19),
  (31847, 1710, 19),
  (31949, 1709, 20),
  (32051, 1709, 21),
  (32154, 1709, 20),
  (32258, 1709, 20),
  (32362, 1708, 20),
  (32468, 1708, 20),
  (32573, 1707, 21),
  (32680, 1707, 20),
  (32787, 1707, 20),
  (32895, 1706, 20),
  (33003, 1706, 20),
  (33113, 1706, 21),
  (33223, 1705, 21),
  (33333, 1705, 21),
  (33445, 1705, 20),
  (33557, 1704, 20),
  (33670, 1704, 21),
  (33784, 1703, 21),
  (33898, 1702, 21),
  (34014, 1702, 21),
  (34130, 1702, 21),
  (34247, 1701, 22),
  (34364, 1701, 23),
  (34483, 1701, 23),
  (34602, 1701, 22),
  (34722, 1701, 22),
  (34843, 1701, 22),
  (34965, 1700, 22),
  (35088, 1700, 22),
  (35211, 1700, 22),
  (35336, 1699, 21),
  (35461, 1699, 21),
  (35587, 1699, 21),
  (35714, 1698, 21)]

/-- materials/data/aluminium_oxide.csv, lines 352-401 -/
def aluminiumOxideRows7 : List (ℤ × ℤ × ℤ) := [
  (35842, 1698, 21),
  (35971, 1697, 20),
  (36101, 1697, 20),
  (36232, 1696, 20),
  (36364, 1695, 20),
  (36496, 1694, 20),
  (36630, 1694, 19),
  (36765, 1693, 19),
  (36900, 1692, 19),
  (37037, 1692, 20),
  (37175, 1691, 20),
  (37313, 1690, 20),
  (37453, 1690, 19),
  (37594, 1689, 19),
  (37736, 1688, 21),
  (37879, 1687, 21),
  (38023, 1687, 20),
  (38168, 1686, 20),
  (38314, 1685, 20),
  (38462, 1684, 21),
  (38610, 1684, 21),
  (38911, 1683, 21),
  (38976, 1683, 21),
  (39063, 1682, 20),
  (39216, 1681, 20),
  (39370, 1680, 21),
  (39526, 1679, 21),
  (39683, 1678, 21),
  (39841, 1677, 20),
  (40000, 1676, 21),
  (40161, 1676, 22),
  (40323, 1675, 23),
  (40486, 1674, 23),
  (40650, 1674, 22),
  (40816, 1673, 22),
  (40984, 1672, 23),
  (41152, 1672, 24),
  (41322, 1671, 24),
  (41494, 1670, 23),
  (41667, 1670, 23),
  (41841, 1669, 24),
  (42017, 1668, 24),
  (42194, 1667, 24),
  (42373, 1667, 24),
  (42553, 1666, 23),
  (42735, 1665, 23),
  (42918, 1664, 24),
  (43103, 1663, 24),
  (43290, 1662, 23),
  (43478, 1660, 23)]

/-- materials/data/aluminium_oxide.csv, lines 402-451 -/
def aluminiumOxideRows8 : List (ℤ × ℤ × ℤ) := [
  (43668, 1659, 23),
  (43860, 1658, 24),
  (44053, 1657, 25),
  (44248, 1656, 25),
  (44444, 1655, 25),
  (44643, 1654, 25),
  (44843, 1653, 26),
  (45045, 1652, 26),
  (45249, 1651, 26),
  (45455, 1650, 26),
  (45662, 1649, 26),
  (45872, 1647, 27),
  (46083, 1646, 28),
  (46296, 1645, 28),
  (46512, 1644, 28),
  (46729, 1643, 28),
  (46948, 1642, 29),
  (47170, 1642, 29),
  (47393, 1641, 30),
  (47619, 1639, 30),
  (47847, 1638, 29),
  (48077, 1637, 29),
  (48309, 1636, 30),
  (48544, 1634, 31),
  (48780, 1633, 31),
  (49020, 1633, 31),
  (49261, 1632, 31),
  (49505, 1631, 31),
  (49751, 1629, 31),
  (50000, 1628, 32),
  (50251, 1627, 32),
  (50505, 1626, 31),
  (50761, 1624, 31),
  (51020, 1623, 32),
  (51282, 1621, 32),
  (51546, 1620, 32),
  (51813, 1619, 31),
  (52083, 1617, 30),
  (52356, 1616, 31),
  (52632, 1614, 31),
  (52910, 1612, 31),
  (53191, 1610, 30),
  (53476, 1608, 30),
  (53763, 1606, 30),
  (54054, 1604, 31),
  (54348, 1602, 31),
  (54645, 1600, 31),
  (54945, 1598, 30),
  (55249, 1596, 30),
  (55556, 1593, 31)]

/-- materials/data/aluminium_oxide.csv, lines 452-501 -/
def aluminiumOxideRows9 : List (ℤ × ℤ × ℤ) := [
  (55866, 1591, 32),
  (56180, 1589, 32),
  (56497, 1587, 31),
  (56818, 1584, 30),
  (57143, 1582, 31),
  (57471, 1579, 31),
  (57803, 1576, 32),
  (58140, 1573, 32),
  (58480, 1571, 32),
  (58824, 1568, 32),
  (59172, 1565, 33),
  (59524, 1562, 34),
  (59880, 1560, 34),
  (60241, 1557, 34),
  (60606, 1554, 34),
  (60976, 1551, 35),
  (61350, 1548, 36),
  (61728, 1544, 36),
  (62112, 1542, 36),
  (62500, 1538, 35),
  (62893, 1535, 36),
  (63291, 1532, 37),
  (63694, 1528, 38),
  (64103, 1524, 37),
  (64516, 1521, 37),
  (64935, 1517, 38),
  (65359, 1513, 39),
  (65789, 1509, 39),
  (66225, 1505, 39),
  (66667, 1501, 39),
  (67114, 1497, 39),
  (67568, 1492, 40),
  (68027, 1487, 41),
  (68493, 1482, 41),
  (68966, 1478, 41),
  (69444, 1473, 41),
  (69930, 1467, 42),
  (70423, 1462, 44),
  (70922, 1457, 45),
  (71429, 1452, 45),
  (71942, 1447, 44),
  (72464, 1441, 45),
  (72993, 1435, 46),
  (73529, 1428, 47),
  (74074, 1422, 47),
  (74627, 1416, 47),
  (75188, 1409, 47),
  (75758, 1402, 48),
  (76336, 1395, 48),
  (76923, 1388, 48)]

/-- materials/data/aluminium_oxide.csv, lines 502-551 -/
def aluminiumOxideRows10 : List (ℤ × ℤ × ℤ) := [
  (77519, 1380, 47),
  (78125, 1371, 45),
  (78740, 1359, 44),
  (79365, 1345, 55),
  (80000, 1345, 56),
  (80645, 1336, 51),
  (81301, 1321, 54),
  (81967, 1311, 53),
  (82645, 1301, 57),
  (83333, 1294, 55),
  (84034, 1276, 53),
  (84746, 1265, 54),
  (85470, 1243, 58),
  (86207, 1236, 68),
  (86957, 1228, 67),
  (87719, 1218, 62),
  (88496, 1197, 61),
  (89286, 1173, 63),
  (90090, 1160, 74),
  (90909, 1149, 80),
  (91743, 1136, 73),
  (92593, 1113, 63),
  (93458, 1079, 64),
  (94340, 1050, 74),
  (95238, 1032, 89),
  (96154, 1014, 91),
  (97087, 990, 88),
  (98039, 961, 89),
  (99010, 927, 88),
  (100000, 890, 94),
  (101010, 854, 97),
  (102041, 813, 103),
  (103093, 768, 108),
  (104167, 717, 112),
  (105263, 658, 120),
  (106383, 592, 130),
  (107527, 514, 139),
  (108696, 401, 166),
  (109890, 279, 239),
  (111111, 182, 355),
  (112360, 124, 484),
  (113636, 98, 608),
  (114943, 87, 719),
  (116279, 83, 822),
  (117647, 81, 915),
  (119048, 79, 1002),
  (120482, 78, 1088),
  (121951, 78, 1176),
  (123457, 79, 1266),
  (125000, 82, 1356)]

/-- materials/data/aluminium_oxide.csv, lines 552-601 -/
def aluminiumOxideRows11 : List (ℤ × ℤ × ℤ) := [
  (126582, 83, 1439),
  (128205, 81, 1524),
  (129870, 80, 1618),
  (131579, 79, 1721),
  (133333, 79, 1833),
  (135135, 80, 1948),
  (136986, 91, 2064),
  (138889, 105, 2178),
  (140845, 114, 2311),
  (142857, 114, 2466),
  (144928, 117, 2645),
  (147059, 135, 2838),
  (149254, 172, 3049),
  (151515, 243, 3326),
  (153846, 369, 3683),
  (156250, 664, 4250),
  (158730, 1672, 3460),
  (161290, 735, 3626),
  (163934, 774, 4260),
  (166667, 1062, 4919),
  (169492, 1523, 5835),
  (172414, 2382, 6996),
  (175439, 5146, 8491),
  (178571, 8559, 3839),
  (181818, 6585, 1299),
  (185185, 5308, 642),
  (188679, 4497, 420),
  (192308, 3797, 480),
  (196078, 3232, 662),
  (200000, 2725, 591),
  (204082, 1951, 573),
  (208333, 629, 1220),
  (212766, 283, 2824),
  (217391, 512, 4730),
  (222222, 1472, 7373),
  (227273, 7250, 11173),
  (232558, 9484, 1231),
  (238095, 6881, 312),
  (243902, 5718, 108),
  (250000, 5020, 66),
  (256410, 3879, 606),
  (263158, 5677, 1312),
  (270270, 4903, 108),
  (277778, 4560, -69),
  (285714, 4279, -89),
  (294118, 4122, -43),
  (303030, 4000, 10),
  (312500, 3893, 46),
  (322581, 3803, 19),
  (333333, 3723, 13)]

/-- materials/data/aluminium_oxide.csv, lines 602-613 -/
def aluminiumOxideRows12 : List (ℤ × ℤ × ℤ) := [
  (344828, 3667, 77),
  (357143, 3646, 77),
  (370370, 3617, 67),
  (384615, 3571, 48),
  (400000, 3530, 28),
  (416667, 3492, 13),
  (434783, 3458, 21),
  (454545, 3426, 28),
  (476190, 3398, 28),
  (500000, 3372, 18),
  (526316, 3348, 9),
  (555556, 3326, 11)]

/-- materials/data/aluminium_oxide.csv (612 rows), as scaled integers -/
def aluminiumOxideRows : List (ℤ × ℤ × ℤ) :=
  [aluminiumOxideRows0, aluminiumOxideRows1, aluminiumOxideRows2, aluminiumOxideRows3, aluminiumOxideRows4, aluminiumOxideRows5, aluminiumOxideRows6, aluminiumOxideRows7, aluminiumOxideRows8, aluminiumOxideRows9, aluminiumOxideRows10, aluminiumOxideRows11, aluminiumOxideRows12].flatten

/-- materials/data/aluminium_oxide.csv -/
def aluminiumOxideTable : List (MatRow ℚ) := mkTable 10000 1000 1000 aluminiumOxideRows

/-- materials/data/gallium_arsenide.csv, lines 2-51 -/
def galliumArsenideRows0 : List (ℤ × ℤ × ℤ) := [
  (20664, 10752, 259270000),
  (20767, 10835, 261510000),
  (20870, 10921, 263820000),
  (20975, 11011, 266190000),
  (21081, 11104, 268650000),
  (21188, 11201, 271180000),
  (21295, 11303, 273790000),
  (21404, 11410, 276490000),
  (21515, 11522, 279280000),
  (21626, 11640, 282170000),
  (21738, 11765, 285170000),
  (21852, 11896, 288270000),
  (21967, 12036, 291490000),
  (22083, 12184, 294840000),
  (22200, 12342, 298320000),
  (22318, 12511, 301940000),
  (22438, 12692, 305700000),
  (22559, 12887, 309630000),
  (22681, 13097, 313730000),
  (22805, 13325, 318010000),
  (22930, 13572, 322480000),
  (23057, 13841, 327150000),
  (23184, 14136, 332040000),
  (23314, 14460, 337160000),
  (23444, 14817, 342530000),
  (23577, 15214, 348160000),
  (23710, 15656, 354050000),
  (23845, 16152, 360230000),
  (23982, 16711, 366700000),
  (24120, 17347, 373460000),
  (24260, 18077, 380490000),
  (24402, 18923, 387730000),
  (24545, 19915, 395080000),
  (24690, 21089, 402260000),
  (24837, 22487, 408770000),
  (24985, 24139, 413680000),
  (25135, 26026, 415590000),
  (25287, 28014, 413040000),
  (25441, 29856, 405690000),
  (25597, 31332, 395170000),
  (25755, 32409, 384080000),
  (25914, 33219, 374050000),
  (26076, 33908, 365300000),
  (26239, 34558, 357390000),
  (26405, 35194, 349810000),
  (26573, 35818, 342260000),
  (26743, 36421, 334570000),
  (26915, 36999, 326640000),
  (27089, 37546, 318390000),
  (27266, 38054, 309730000)]

/-- materials/data/gallium_arsenide.csv, lines 52-101 -/
def galliumArsenideRows1 : List (ℤ × ℤ × ℤ) := [
  (27445, 38508, 300600000),
  (27626, 38889, 290980000),
  (27810, 39173, 280980000),
  (27996, 39343, 270810000),
  (28185, 39393, 260750000),
  (28376, 39324, 251100000),
  (28570, 39153, 242090000),
  (28766, 38898, 233910000),
  (28966, 38583, 226650000),
  (29168, 38227, 220310000),
  (29372, 37851, 214890000),
  (29580, 37467, 210310000),
  (29791, 37088, 206500000),
  (30005, 36723, 203370000),
  (30222, 36377, 200850000),
  (30442, 36054, 198860000),
  (30665, 35757, 197330000),
  (30891, 35487, 196190000),
  (31121, 35245, 195390000),
  (31354, 35031, 194890000),
  (31591, 34845, 194640000),
  (31832, 34686, 194610000),
  (32076, 34553, 194770000),
  (32324, 34446, 195100000),
  (32576, 34365, 195560000),
  (32831, 34307, 196160000),
  (33091, 34272, 196860000),
  (33355, 34260, 197670000),
  (33623, 34270, 198580000),
  (33896, 34302, 199580000),
  (34173, 34354, 200670000),
  (34454, 34427, 201870000),
  (34741, 34521, 203170000),
  (35032, 34636, 204590000),
  (35328, 34775, 206160000),
  (35629, 34938, 207900000),
  (35935, 35130, 209850000),
  (36246, 35358, 212060000),
  (36563, 35632, 214570000),
  (36886, 35967, 217400000),
  (37214, 36387, 220560000),
  (37548, 36926, 223910000),
  (37888, 37618, 227100000),
  (38235, 38487, 229440000),
  (38588, 39508, 229950000),
  (38947, 40575, 227860000),
  (39313, 41533, 223390000),
  (39686, 42284, 217910000),
  (40066, 42865, 213100000),
  (40454, 43416, 209890000)]

/-- materials/data/gallium_arsenide.csv, lines 102-151 -/
def galliumArsenideRows2 : List (ℤ × ℤ × ℤ) := [
  (40849, 44110, 208050000),
  (41252, 45082, 206250000),
  (41663, 46366, 202260000),
  (42082, 47830, 193740000),
  (42510, 49184, 179650000),
  (42947, 50126, 161180000),
  (43392, 50515, 141090000),
  (43847, 50406, 121970000),
  (44312, 49948, 105240000),
  (44786, 49289, 91267000),
  (45271, 48537, 79860000),
  (45767, 47761, 70605000),
  (46273, 46998, 63081000),
  (46791, 46268, 56924000),
  (47320, 45579, 51842000),
  (47862, 44934, 47607000),
  (48416, 44332, 44046000),
  (48983, 43772, 41023000),
  (49564, 43250, 38435000),
  (50158, 42764, 36203000),
  (50767, 42310, 34264000),
  (51391, 41887, 32567000),
  (52030, 41491, 31073000),
  (52686, 41121, 29750000),
  (53358, 40775, 28572000),
  (54048, 40450, 27517000),
  (54756, 40145, 26567000),
  (55482, 39859, 25707000),
  (56228, 39590, 24924000),
  (56994, 39338, 24206000),
  (57782, 39101, 23543000),
  (58591, 38879, 22926000),
  (59424, 38671, 22348000),
  (60281, 38476, 21799000),
  (61162, 38294, 21272000),
  (62070, 38123, 20760000),
  (63005, 37965, 20254000),
  (63969, 37818, 19745000),
  (64963, 37681, 19224000),
  (65988, 37556, 18676000),
  (67046, 37440, 18085000),
  (68138, 37336, 17423000),
  (69267, 37241, 16637000),
  (70433, 37155, 15566000),
  (71640, 36968, 14206000),
  (72889, 36820, 13842000),
  (74182, 36703, 13440000),
  (75521, 36602, 12994000),
  (76910, 36515, 12490000),
  (78351, 36440, 11913000)]

/-- materials/data/gallium_arsenide.csv, lines 152-201 -/
def galliumArsenideRows3 : List (ℤ × ℤ × ℤ) := [
  (79847, 36376, 11237000),
  (81402, 36322, 10425000),
  (83018, 36279, 9417200),
  (84699, 36238, 8053300),
  (86450, 36070, 5906700),
  (88275, 35815, 4425400),
  (90179, 35664, 2270100),
  (92166, 35453, 1665500),
  (94243, 35276, 1541100),
  (96416, 35119, 1435800),
  (98691, 34977, 1336600),
  (101080, 34845, 1243100),
  (103580, 34722, 1155300),
  (106210, 34606, 1072800),
  (108980, 34497, 995390),
  (111900, 34393, 922820),
  (114970, 34294, 854840),
  (118220, 34199, 791190),
  (121660, 34109, 731640),
  (125310, 34022, 675960),
  (129180, 33939, 623930),
  (133290, 33860, 575350),
  (137680, 33784, 530020),
  (142370, 33711, 487750),
  (147390, 33641, 448360),
  (152770, 33574, 411690),
  (158570, 33509, 377550),
  (164820, 33448, 345820),
  (171580, 33388, 316330),
  (178920, 33332, 288940),
  (186920, 33277, 263540),
  (195660, 33225, 239990),
  (205270, 33175, 218180),
  (215860, 33128, 197990),
  (227610, 33082, 179320),
  (240710, 33039, 162060),
  (255410, 32998, 146140),
  (272030, 32959, 131450),
  (290950, 32922, 117920),
  (312710, 32886, 105460),
  (337980, 32853, 94004),
  (367700, 32821, 83479),
  (403150, 32792, 73820),
  (446160, 32764, 64966),
  (499450, 32738, 56860),
  (567190, 32714, 49446),
  (656190, 32692, 42674),
  (778320, 32671, 36498),
  (956310, 32652, 30871),
  (1239800, 32635, 25753)]

/-- materials/data/gallium_arsenide.csv (200 rows), as scaled integers -/
def galliumArsenideRows : List (ℤ × ℤ × ℤ) :=
  [galliumArsenideRows0, galliumArsenideRows1, galliumArsenideRows2, galliumArsenideRows3].flatten

/-- materials/data/gallium_arsenide.csv -/
def galliumArsenideTable : List (MatRow ℚ) := mkTable 100000 10000 100000000 galliumArsenideRows

/-- materials/data/germanium.csv, lines 2-51 -/
def germaniumRows0 : List (ℤ × ℤ × ℤ) := [
  (40000, 300000, 251940),
  (40939, 300000, 248531),
  (41879, 300000, 245739),
  (42818, 300000, 244187),
  (43757, 300000, 244144),
  (44696, 300000, 245499),
  (45636, 300000, 247903),
  (46575, 300000, 250990),
  (47514, 300000, 254540),
  (48454, 300000, 258601),
  (49393, 300000, 263387),
  (50332, 300001, 268749),
  (51271, 300025, 274385),
  (52211, 300107, 279707),
  (53150, 300274, 283995),
  (54089, 300549, 286821),
  (55029, 300959, 288399),
  (55968, 301525, 289581),
  (56907, 302275, 291049),
  (57846, 303252, 292638),
  (58786, 304519, 293263),
  (59725, 306138, 291762),
  (60664, 308150, 287870),
  (61604, 310606, 282171),
  (62543, 313527, 275666),
  (63482, 316943, 269050),
  (64421, 320855, 262702),
  (65361, 325229, 256710),
  (66300, 329996, 250996),
  (67239, 335093, 245428),
  (68178, 340442, 239882),
  (69118, 345974, 234282),
  (70057, 351638, 228593),
  (70996, 357389, 222785),
  (71936, 363181, 216824),
  (72875, 368977, 210704),
  (73814, 374740, 204421),
  (74753, 380425, 197962),
  (75693, 385982, 191309),
  (76632, 391386, 184481),
  (77571, 396620, 177499),
  (78511, 401639, 170373),
  (79450, 406442, 163147),
  (80389, 411007, 155845),
  (81328, 415300, 148490),
  (82268, 419324, 141102),
  (83207, 423044, 133702),
  (84146, 426445, 126301),
  (85086, 429450, 118875),
  (86025, 431850, 111347)]

/-- materials/data/germanium.csv, lines 52-101 -/
def germaniumRows1 : List (ℤ × ℤ × ℤ) := [
  (86964, 433525, 103617),
  (87903, 434281, 95579),
  (88843, 434187, 87262),
  (89782, 434027, 79025),
  (90721, 434332, 71148),
  (91660, 435094, 63690),
  (92600, 436077, 56667),
  (93539, 436995, 49987),
  (94478, 437710, 43640),
  (95418, 438163, 37639),
  (96357, 438358, 32011),
  (97296, 438317, 26782),
  (98235, 438100, 21981),
  (99175, 437790, 17636),
  (100114, 437427, 13775),
  (101053, 437023, 10424),
  (101993, 436606, 7611),
  (102932, 436180, 5357),
  (103871, 435727, 3670),
  (104810, 435250, 2536),
  (105750, 434765, 1860),
  (106689, 434279, 1520),
  (107628, 433809, 1310),
  (108568, 433378, 1070),
  (109507, 433004, 834),
  (110446, 432688, 622),
  (111385, 432388, 429),
  (112325, 432060, 254),
  (113264, 431665, 94),
  (114203, 431222, 34),
  (115143, 430767, 16),
  (116082, 430313, 14),
  (117021, 429867, 11),
  (117960, 429413, 16),
  (118900, 428971, 55),
  (119839, 428538, 119),
  (120778, 428120, 194),
  (121717, 427686, 250),
  (122657, 427259, 299),
  (123596, 426879, 349),
  (124535, 426574, 397),
  (125475, 426307, 439),
  (126414, 426063, 440),
  (127353, 425814, 415),
  (128292, 425561, 368),
  (129232, 425270, 298),
  (130171, 424977, 225),
  (131110, 424698, 146),
  (132050, 424445, 77),
  (132989, 424219, 16)]

/-- materials/data/germanium.csv, lines 102-151 -/
def germaniumRows2 : List (ℤ × ℤ × ℤ) := [
  (133928, 424014, 48),
  (134867, 423817, 115),
  (135807, 423546, 165),
  (136746, 423267, 211),
  (137685, 422964, 218),
  (138625, 422672, 211),
  (139564, 422435, 127),
  (140503, 422225, 55),
  (141442, 422122, 34),
  (142382, 422029, 17),
  (143321, 421980, 18),
  (144260, 421932, 19),
  (145200, 421886, 17),
  (146139, 421841, 15),
  (147078, 421824, 17),
  (148017, 421808, 19),
  (148957, 421761, 86),
  (149896, 421708, 167),
  (150835, 421678, 190),
  (151774, 421663, 172),
  (152714, 421661, 143),
  (153653, 421695, 85),
  (154592, 421729, 27),
  (155532, 421488, 27),
  (156471, 421218, 33),
  (157410, 420747, 51),
  (158349, 420038, 83),
  (159289, 419328, 114),
  (160228, 418694, 196),
  (161167, 418065, 281),
  (162107, 417514, 384),
  (163046, 417116, 521),
  (163985, 416717, 658),
  (164924, 416397, 773),
  (165864, 416115, 878),
  (166803, 415833, 983),
  (167742, 415592, 988),
  (168682, 415356, 983),
  (169621, 415122, 960),
  (170560, 414921, 632),
  (171499, 414720, 305),
  (172439, 414517, 16),
  (173378, 414300, 19),
  (174317, 414083, 22),
  (175256, 413868, 24),
  (176196, 413684, 20),
  (177135, 413500, 16),
  (178074, 413317, 12),
  (179014, 413221, 10),
  (179953, 413132, 9)]

/-- materials/data/germanium.csv, lines 152-201 -/
def germaniumRows3 : List (ℤ × ℤ × ℤ) := [
  (180892, 413043, 7),
  (181831, 412729, 6),
  (182771, 412313, 5),
  (183710, 411896, 4),
  (184649, 411333, 4),
  (185589, 410459, 3),
  (186528, 409586, 3),
  (187467, 408712, 2),
  (188406, 408027, 2),
  (189346, 407378, 1),
  (190285, 406730, 1),
  (191224, 406144, 1),
  (192164, 405768, 1),
  (193103, 405391, 1),
  (194042, 405015, 0),
  (194981, 404669, 0),
  (195921, 404353, 0),
  (196860, 404037, 0),
  (197799, 403722, 0),
  (198739, 403876, 0),
  (199678, 404333, 0),
  (200617, 404790, 0),
  (201556, 405247, 0),
  (202496, 405287, 0),
  (203435, 405025, 0),
  (204374, 404763, 0),
  (205313, 404502, 0),
  (206253, 404299, 0),
  (207192, 404188, 0),
  (208131, 404077, 0),
  (209071, 403967, 0),
  (210000, 405070, 0),
  (210010, 403857, 0),
  (212000, 404891, 0),
  (214000, 404717, 0),
  (216000, 404548, 0),
  (218000, 404383, 0),
  (220000, 404224, 0),
  (222000, 404068, 0),
  (224000, 403916, 0),
  (226000, 403769, 0),
  (228000, 403625, 0),
  (230000, 403485, 0),
  (232000, 403349, 0),
  (234000, 403216, 0),
  (236000, 403087, 0),
  (238000, 402961, 0),
  (240000, 402838, 0),
  (242000, 402718, 0),
  (244000, 402601, 0)]

/-- materials/data/germanium.csv, lines 202-251 -/
def germaniumRows4 : List (ℤ × ℤ × ℤ) := [
  (246000, 402486, 0),
  (248000, 402375, 0),
  (250000, 402266, 0),
  (252000, 402160, 0),
  (254000, 402056, 0),
  (256000, 401955, 0),
  (258000, 401856, 0),
  (260000, 401759, 0),
  (262000, 401665, 0),
  (264000, 401572, 0),
  (266000, 401482, 0),
  (268000, 401394, 0),
  (270000, 401307, 0),
  (272000, 401223, 0),
  (274000, 401140, 0),
  (276000, 401060, 0),
  (278000, 400981, 0),
  (280000, 400903, 0),
  (282000, 400828, 0),
  (284000, 400753, 0),
  (286000, 400681, 0),
  (288000, 400610, 0),
  (290000, 400540, 0),
  (292000, 400472, 0),
  (294000, 400405, 0),
  (296000, 400340, 0),
  (298000, 400276, 0),
  (300000, 400213, 0),
  (302000, 400151, 0),
  (304000, 400091, 0),
  (306000, 400032, 0),
  (308000, 399974, 0),
  (310000, 399917, 0),
  (312000, 399861, 0),
  (314000, 399806, 0),
  (316000, 399752, 0),
  (318000, 399700, 0),
  (320000, 399648, 0),
  (322000, 399597, 0),
  (324000, 399547, 0),
  (326000, 399498, 0),
  (328000, 399450, 0),
  (330000, 399403, 0),
  (332000, 399357, 0),
  (334000, 399311, 0),
  (336000, 399267, 0),
  (338000, 399223, 0),
  (340000, 399180, 0),
  (342000, 399137, 0),
  (344000, 399096, 0)]

/-- materials/data/germanium.csv, lines 252-301 -/
def germaniumRows5 : List (ℤ × ℤ × ℤ) := [
  (346000, 399055, 0),
  (348000, 399014, 0),
  (350000, 398975, 0),
  (352000, 398936, 0),
  (354000, 398898, 0),
  (356000, 398860, 0),
  (358000, 398823, 0),
  (360000, 398787, 0),
  (362000, 398751, 0),
  (364000, 398716, 0),
  (366000, 398682, 0),
  (368000, 398648, 0),
  (370000, 398614, 0),
  (372000, 398581, 0),
  (374000, 398549, 0),
  (376000, 398517, 0),
  (378000, 398486, 0),
  (380000, 398455, 0),
  (382000, 398425, 0),
  (384000, 398395, 0),
  (386000, 398365, 0),
  (388000, 398336, 0),
  (390000, 398308, 0),
  (392000, 398280, 0),
  (394000, 398252, 0),
  (396000, 398225, 0),
  (398000, 398198, 0),
  (400000, 398171, 0),
  (402000, 398145, 0),
  (404000, 398120, 0),
  (406000, 398094, 0),
  (408000, 398070, 0),
  (410000, 398045, 0),
  (412000, 398021, 0),
  (414000, 397997, 0),
  (416000, 397973, 0),
  (418000, 397950, 0),
  (420000, 397927, 0),
  (422000, 397905, 0),
  (424000, 397883, 0),
  (426000, 397861, 0),
  (428000, 397839, 0),
  (430000, 397818, 0),
  (432000, 397797, 0),
  (434000, 397776, 0),
  (436000, 397756, 0),
  (438000, 397736, 0),
  (440000, 397716, 0),
  (442000, 397696, 0),
  (444000, 397677, 0)]

/-- materials/data/germanium.csv, lines 302-351 -/
def germaniumRows6 : List (ℤ × ℤ × ℤ) := [
  (446000, 397658, 0),
  (448000, 397639, 0),
  (450000, 397621, 0),
  (452000, 397602, 0),
  (454000, 397584, 0),
  (456000, 397566, 0),
  (458000, 397549, 0),
  (460000, 397531, 0),
  (462000, 397514, 0),
  (464000, 397497, 0),
  (466000, 397481, 0),
  (468000, 397464, 0),
  (470000, 397448, 0),
  (472000, 397432, 0),
  (474000, 397416, 0),
  (476000, 397400, 0),
  (478000, 397385, 0),
  (480000, 397369, 0),
  (482000, 397354, 0),
  (484000, 397339, 0),
  (486000, 397325, 0),
  (488000, 397310, 0),
  (490000, 397296, 0),
  (492000, 397282, 0),
  (494000, 397268, 0),
  (496000, 397254, 0),
  (498000, 397240, 0),
  (500000, 397227, 0),
  (502000, 397213, 0),
  (504000, 397200, 0),
  (506000, 397187, 0),
  (508000, 397174, 0),
  (510000, 397161, 0),
  (512000, 397149, 0),
  (514000, 397136, 0),
  (516000, 397124, 0),
  (518000, 397112, 0),
  (520000, 397100, 0),
  (522000, 397088, 0),
  (524000, 397076, 0),
  (526000, 397065, 0),
  (528000, 397053, 0),
  (530000, 397042, 0),
  (532000, 397031, 0),
  (534000, 397019, 0),
  (536000, 397008, 0),
  (538000, 396998, 0),
  (540000, 396987, 0),
  (542000, 396976, 0),
  (544000, 396966, 0)]

/-- materials/data/germanium.csv, lines 352-401 -/
def germaniumRows7 : List (ℤ × ℤ × ℤ) := [
  (546000, 396955, 0),
  (548000, 396945, 0),
  (550000, 396935, 0),
  (552000, 396925, 0),
  (554000, 396915, 0),
  (556000, 396905, 0),
  (558000, 396895, 0),
  (560000, 396886, 0),
  (562000, 396876, 0),
  (564000, 396867, 0),
  (566000, 396858, 0),
  (568000, 396848, 0),
  (570000, 396839, 0),
  (572000, 396830, 0),
  (574000, 396821, 0),
  (576000, 396812, 0),
  (578000, 396804, 0),
  (580000, 396795, 0),
  (582000, 396787, 0),
  (584000, 396778, 0),
  (586000, 396770, 0),
  (588000, 396761, 0),
  (590000, 396753, 0),
  (592000, 396745, 0),
  (594000, 396737, 0),
  (596000, 396729, 0),
  (598000, 396721, 0),
  (600000, 396713, 0),
  (602000, 396705, 0),
  (604000, 396698, 0),
  (606000, 396690, 0),
  (608000, 396683, 0),
  (610000, 396675, 0),
  (612000, 396668, 0),
  (614000, 396661, 0),
  (616000, 396653, 0),
  (618000, 396646, 0),
  (620000, 396639, 0),
  (622000, 396632, 0),
  (624000, 396625, 0),
  (626000, 396618, 0),
  (628000, 396612, 0),
  (630000, 396605, 0),
  (632000, 396598, 0),
  (634000, 396591, 0),
  (636000, 396585, 0),
  (638000, 396578, 0),
  (640000, 396572, 0),
  (642000, 396566, 0),
  (644000, 396559, 0)]

/-- materials/data/germanium.csv, lines 402-451 -/
def germaniumRows8 : List (ℤ × ℤ × ℤ) := [
  (646000, 396553, 0),
  (648000, 396547, 0),
  (650000, 396541, 0),
  (652000, 396535, 0),
  (654000, 396529, 0),
  (656000, 396523, 0),
  (658000, 396517, 0),
  (660000, 396511, 0),
  (662000, 396505, 0),
  (664000, 396499, 0),
  (666000, 396493, 0),
  (668000, 396488, 0),
  (670000, 396482, 0),
  (672000, 396477, 0),
  (674000, 396471, 0),
  (676000, 396466, 0),
  (678000, 396460, 0),
  (680000, 396455, 0),
  (682000, 396450, 0),
  (684000, 396444, 0),
  (686000, 396439, 0),
  (688000, 396434, 0),
  (690000, 396429, 0),
  (692000, 396424, 0),
  (694000, 396419, 0),
  (696000, 396414, 0),
  (698000, 396409, 0),
  (700000, 396404, 0),
  (702000, 396399, 0),
  (704000, 396394, 0),
  (706000, 396389, 0),
  (708000, 396384, 0),
  (710000, 396380, 0),
  (712000, 396375, 0),
  (714000, 396370, 0),
  (716000, 396366, 0),
  (718000, 396361, 0),
  (720000, 396357, 0),
  (722000, 396352, 0),
  (724000, 396348, 0),
  (726000, 396343, 0),
  (728000, 396339, 0),
  (730000, 396335, 0),
  (732000, 396330, 0),
  (734000, 396326, 0),
  (736000, 396322, 0),
  (738000, 396318, 0),
  (740000, 396314, 0),
  (742000, 396309, 0),
  (744000, 396305, 0)]

/-- materials/data/germanium.csv, lines 452-501 -/
def germaniumRows9 : List (ℤ × ℤ × ℤ) := [
  (746000, 396301, 0),
  (748000, 396297, 0),
  (750000, 396293, 0),
  (752000, 396289, 0),
  (754000, 396285, 0),
  (756000, 396281, 0),
  (758000, 396278, 0),
  (760000, 396274, 0),
  (762000, 396270, 0),
  (764000, 396266, 0),
  (766000, 396262, 0),
  (768000, 396259, 0),
  (770000, 396255, 0),
  (772000, 396251, 0),
  (774000, 396248, 0),
  (776000, 396244, 0),
  (778000, 396241, 0),
  (780000, 396237, 0),
  (782000, 396233, 0),
  (784000, 396230, 0),
  (786000, 396226, 0),
  (788000, 396223, 0),
  (790000, 396220, 0),
  (792000, 396216, 0),
  (794000, 396213, 0),
  (796000, 396209, 0),
  (798000, 396206, 0),
  (800000, 396203, 0),
  (802000, 396200, 0),
  (804000, 396196, 0),
  (806000, 396193, 0),
  (808000, 396190, 0),
  (810000, 396187, 0),
  (812000, 396184, 0),
  (814000, 396180, 0),
  (816000, 396177, 0),
  (818000, 396174, 0),
  (820000, 396171, 0),
  (822000, 396168, 0),
  (824000, 396165, 0),
  (826000, 396162, 0),
  (828000, 396159, 0),
  (830000, 396156, 0),
  (832000, 396153, 0),
  (834000, 396150, 0),
  (836000, 396148, 0),
  (838000, 396145, 0),
  (840000, 396142, 0),
  (842000, 396139, 0),
  (844000, 396136, 0)]

/-- materials/data/germanium.csv, lines 502-551 -/
def germaniumRows10 : List (ℤ × ℤ × ℤ) := [
  (846000, 396133, 0),
  (848000, 396131, 0),
  (850000, 396128, 0),
  (852000, 396125, 0),
  (854000, 396123, 0),
  (856000, 396120, 0),
  (858000, 396117, 0),
  (860000, 396115, 0),
  (862000, 396112, 0),
  (864000, 396109, 0),
  (866000, 396107, 0),
  (868000, 396104, 0),
  (870000, 396102, 0),
  (872000, 396099, 0),
  (874000, 396096, 0),
  (876000, 396094, 0),
  (878000, 396091, 0),
  (880000, 396089, 0),
  (882000, 396087, 0),
  (884000, 396084, 0),
  (886000, 396082, 0),
  (888000, 396079, 0),
  (890000, 396077, 0),
  (892000, 396074, 0),
  (894000, 396072, 0),
  (896000, 396070, 0),
  (898000, 396067, 0),
  (900000, 396065, 0),
  (902000, 396063, 0),
  (904000, 396061, 0),
  (906000, 396058, 0),
  (908000, 396056, 0),
  (910000, 396054, 0),
  (912000, 396052, 0),
  (914000, 396049, 0),
  (916000, 396047, 0),
  (918000, 396045, 0),
  (920000, 396043, 0),
  (922000, 396041, 0),
  (924000, 396039, 0),
  (926000, 396036, 0),
  (928000, 396034, 0),
  (930000, 396032, 0),
  (932000, 396030, 0),
  (934000, 396028, 0),
  (936000, 396026, 0),
  (938000, 396024, 0),
  (940000, 396022, 0),
  (942000, 396020, 0),
  (944000, 396018, 0)]

/-- materials/data/germanium.csv, lines 552-601 -/
def germaniumRows11 : List (ℤ × ℤ × ℤ) := [
  (946000, 396016, 0),
  (948000, 396014, 0),
  (950000, 396012, 0),
  (952000, 396010, 0),
  (954000, 396008, 0),
  (956000, 396006, 0),
  (958000, 396004, 0),
  (960000, 396002, 0),
  (962000, 396000, 0),
  (964000, 395999, 0),
  (966000, 395997, 0),
  (968000, 395995, 0),
  (970000, 395993, 0),
  (972000, 395991, 0),
  (974000, 395989, 0),
  (976000, 395988, 0),
  (978000, 395986, 0),
  (980000, 395984, 0),
  (982000, 395982, 0),
  (984000, 395980, 0),
  (986000, 395979, 0),
  (988000, 395977, 0),
  (990000, 395975, 0),
  (992000, 395973, 0),
  (994000, 395972, 0),
  (996000, 395970, 0),
  (998000, 395968, 0),
  (1000000, 395967, 0),
  (1002000, 395965, 0),
  (1004000, 395963, 0),
  (1006000, 395962, 0),
  (1008000, 395960, 0),
  (1010000, 395958, 0),
  (1012000, 395957, 0),
  (1014000, 395955, 0),
  (1016000, 395954, 0),
  (1018000, 395952, 0),
  (1020000, 395950, 0),
  (1022000, 395949, 0),
  (1024000, 395947, 0),
  (1026000, 395946, 0),
  (1028000, 395944, 0),
  (1030000, 395943, 0),
  (1032000, 395941, 0),
  (1034000, 395939, 0),
  (1036000, 395938, 0),
  (1038000, 395936, 0),
  (1040000, 395935, 0),
  (1042000, 395933, 0),
  (1044000, 395932, 0)]

/-- materials/data/germanium.csv, lines 602-629 -/
def germaniumRows12 : List (ℤ × ℤ × ℤ) := [
  (1046000, 395931, 0),
  (1048000, 395929, 0),
  (1050000, 395928, 0),
  (1052000, 395926, 0),
  (1054000, 395925, 0),
  (1056000, 395923, 0),
  (1058000, 395922, 0),
  (1060000, 395920, 0),
  (1062000, 395919, 0),
  (1064000, 395918, 0),
  (1066000, 395916, 0),
  (1068000, 395915, 0),
  (1070000, 395913, 0),
  (1072000, 395912, 0),
  (1074000, 395911, 0),
  (1076000, 395909, 0),
  (1078000, 395908, 0),
  (1080000, 395907, 0),
  (1082000, 395905, 0),
  (1084000, 395904, 0),
  (1086000, 395903, 0),
  (1088000, 395901, 0),
  (1090000, 395900, 0),
  (1092000, 395899, 0),
  (1094000, 395898, 0),
  (1096000, 395896, 0),
  (1098000, 395895, 0),
  (1100000, 395894, 0)]

/-- materials/data/germanium.csv (628 rows), as scaled integers -/
def germaniumRows : List (ℤ × ℤ × ℤ) :=
  [germaniumRows0, germaniumRows1, germaniumRows2, germaniumRows3, germaniumRows4, germaniumRows5, germaniumRows6, germaniumRows7, germaniumRows8, germaniumRows9, germaniumRows10, germaniumRows11, germaniumRows12].flatten

/-- materials/data/germanium.csv -/
def germaniumTable : List (MatRow ℚ) := mkTable 100000 100000 100000 germaniumRows

/-- materials/data/indium_arsenide.csv, lines 2-51 -/
def indiumArsenideRows0 : List (ℤ × ℤ × ℤ) := [
  (20664, 12743, 158100000),
  (20767, 12771, 159750000),
  (20870, 12799, 161440000),
  (20975, 12829, 163160000),
  (21081, 12859, 164930000),
  (21188, 12890, 166730000),
  (21295, 12923, 168590000),
  (21404, 12956, 170490000),
  (21515, 12991, 172440000),
  (21626, 13027, 174440000),
  (21738, 13065, 176500000),
  (21852, 13104, 178620000),
  (21967, 13145, 180800000),
  (22083, 13187, 183050000),
  (22200, 13232, 185370000),
  (22318, 13279, 187770000),
  (22438, 13328, 190240000),
  (22559, 13381, 192800000),
  (22681, 13436, 195450000),
  (22805, 13495, 198200000),
  (22930, 13558, 201060000),
  (23057, 13625, 204030000),
  (23184, 13698, 207110000),
  (23314, 13776, 210330000),
  (23444, 13860, 213680000),
  (23577, 13952, 217180000),
  (23710, 14052, 220850000),
  (23845, 14162, 224680000),
  (23982, 14284, 228700000),
  (24120, 14418, 232910000),
  (24260, 14568, 237340000),
  (24402, 14735, 242000000),
  (24545, 14922, 246910000),
  (24690, 15134, 252070000),
  (24837, 15373, 257520000),
  (24985, 15646, 263260000),
  (25135, 15959, 269300000),
  (25287, 16317, 275670000),
  (25441, 16730, 282350000),
  (25597, 17209, 289360000),
  (25755, 17765, 296660000),
  (25914, 18413, 304220000),
  (26076, 19169, 311950000),
  (26239, 20051, 319750000),
  (26405, 21081, 327410000),
  (26573, 22277, 334680000),
  (26743, 23656, 341170000),
  (26915, 25228, 346370000),
  (27089, 26987, 349650000),
  (27266, 28901, 350300000)]

/-- materials/data/indium_arsenide.csv, lines 52-101 -/
def indiumArsenideRows1 : List (ℤ × ℤ × ℤ) := [
  (27445, 30909, 347650000),
  (27626, 32916, 341210000),
  (27810, 34802, 330910000),
  (27996, 36446, 317190000),
  (28185, 37753, 300980000),
  (28376, 38678, 283490000),
  (28570, 39228, 265920000),
  (28766, 39450, 249220000),
  (28966, 39411, 234030000),
  (29168, 39181, 220640000),
  (29372, 38823, 209140000),
  (29580, 38388, 199430000),
  (29791, 37914, 191360000),
  (30005, 37429, 184740000),
  (30222, 36951, 179360000),
  (30442, 36493, 175050000),
  (30665, 36064, 171640000),
  (30891, 35667, 168990000),
  (31121, 35304, 166980000),
  (31354, 34978, 165510000),
  (31591, 34688, 164500000),
  (31832, 34432, 163860000),
  (32076, 34211, 163550000),
  (32324, 34023, 163500000),
  (32576, 33865, 163690000),
  (32831, 33738, 164070000),
  (33091, 33640, 164620000),
  (33355, 33569, 165300000),
  (33623, 33524, 166100000),
  (33896, 33504, 167000000),
  (34173, 33508, 167980000),
  (34454, 33536, 169030000),
  (34741, 33585, 170140000),
  (35032, 33657, 171310000),
  (35328, 33750, 172510000),
  (35629, 33863, 173740000),
  (35935, 33996, 175010000),
  (36246, 34150, 176290000),
  (36563, 34322, 177590000),
  (36886, 34515, 178900000),
  (37214, 34726, 180220000),
  (37548, 34957, 181550000),
  (37888, 35207, 182870000),
  (38235, 35477, 184190000),
  (38588, 35766, 185510000),
  (38947, 36076, 186810000),
  (39313, 36406, 188110000),
  (39686, 36756, 189390000),
  (40066, 37128, 190660000),
  (40454, 37521, 191910000)]

/-- materials/data/indium_arsenide.csv, lines 102-151 -/
def indiumArsenideRows2 : List (ℤ × ℤ × ℤ) := [
  (40849, 37937, 193140000),
  (41252, 38375, 194340000),
  (41663, 38837, 195530000),
  (42082, 39324, 196680000),
  (42510, 39835, 197810000),
  (42947, 40372, 198920000),
  (43392, 40935, 200000000),
  (43847, 41523, 201060000),
  (44312, 42137, 202100000),
  (44786, 42774, 203140000),
  (45271, 43432, 204200000),
  (45767, 44107, 205280000),
  (46273, 44791, 206440000),
  (46791, 45475, 207720000),
  (47320, 46142, 209200000),
  (47862, 46775, 210940000),
  (48416, 47350, 213060000),
  (48983, 47847, 215660000),
  (49564, 48250, 218800000),
  (50158, 48268, 216310000),
  (50767, 47112, 188910000),
  (51391, 46156, 166520000),
  (52030, 45271, 146260000),
  (52686, 44426, 126980000),
  (53358, 43618, 108000000),
  (54048, 42855, 88924000),
  (54756, 42219, 73438000),
  (55482, 41859, 72423000),
  (56228, 41503, 71363000),
  (56994, 41155, 70251000),
  (57782, 40817, 69082000),
  (58591, 40491, 67853000),
  (59424, 40177, 66564000),
  (60281, 39875, 65213000),
  (61162, 39585, 63802000),
  (62070, 39306, 62331000),
  (63005, 39039, 60800000),
  (63969, 38782, 59212000),
  (64963, 38536, 57567000),
  (65988, 38299, 55867000),
  (67046, 38072, 54115000),
  (68138, 37854, 52312000),
  (69267, 37644, 50460000),
  (70433, 37443, 48563000),
  (71640, 37249, 46622000),
  (72889, 37064, 44643000),
  (74182, 36886, 42627000),
  (75521, 36715, 40579000),
  (76910, 36552, 38505000),
  (78351, 36395, 36410000)]

/-- materials/data/indium_arsenide.csv, lines 152-201 -/
def indiumArsenideRows3 : List (ℤ × ℤ × ℤ) := [
  (79847, 36245, 34299000),
  (81402, 36102, 32180000),
  (83018, 35965, 30062000),
  (84699, 35835, 27953000),
  (86450, 35712, 25864000),
  (88275, 35594, 23808000),
  (90179, 35483, 21797000),
  (92166, 35379, 19849000),
  (94243, 35280, 17982000),
  (96416, 35187, 16217000),
  (98691, 35101, 14578000),
  (101080, 35020, 13093000),
  (103580, 34945, 11795000),
  (106210, 34876, 10721000),
  (108980, 34813, 9914000),
  (111900, 34755, 9425100),
  (114970, 34704, 9312700),
  (118220, 34659, 9522000),
  (121660, 34619, 9753800),
  (125310, 34584, 9987800),
  (129180, 34556, 10221000),
  (133290, 34534, 10449000),
  (137680, 34519, 10665000),
  (142370, 34511, 10858000),
  (147390, 34512, 11009000),
  (152770, 34521, 11080000),
  (158570, 34541, 10971000),
  (164820, 34501, 10283000),
  (171580, 34452, 10687000),
  (178920, 34438, 11099000),
  (186920, 34443, 11519000),
  (195660, 34465, 11943000),
  (205270, 34504, 12361000),
  (215860, 34562, 12756000),
  (227610, 34641, 13103000),
  (240710, 34748, 13358000),
  (255410, 34886, 13448000),
  (272030, 35064, 13246000),
  (290950, 35292, 12505000),
  (312710, 35584, 10659000),
  (337980, 35960, 5433800),
  (367700, 35337, 208480),
  (403150, 35098, 191080),
  (446160, 34958, 173040),
  (499450, 34861, 154770),
  (567190, 34788, 136380),
  (656190, 34732, 117930),
  (778320, 34689, 99444),
  (956310, 34655, 80944),
  (1239800, 34630, 62436)]

/-- materials/data/indium_arsenide.csv (200 rows), as scaled integers -/
def indiumArsenideRows : List (ℤ × ℤ × ℤ) :=
  [indiumArsenideRows0, indiumArsenideRows1, indiumArsenideRows2, indiumArsenideRows3].flatten

/-- materials/data/indium_arsenide.csv -/
def indiumArsenideTable : List (MatRow ℚ) := mkTable 100000 10000 100000000 indiumArsenideRows

/-- materials/data/silicon_nitride.csv, lines 2-51 -/
def siliconNitrideRows0 : List (ℤ × ℤ × ℤ) := [
  (153846, 246306, 3),
  (153941, 246305, 3),
  (154036, 246304, 3),
  (154131, 246302, 3),
  (154226, 246301, 3),
  (154321, 246300, 3),
  (154416, 246299, 3),
  (154512, 246297, 3),
  (154607, 246296, 3),
  (154703, 246295, 3),
  (154799, 246293, 3),
  (154895, 246292, 3),
  (154991, 246291, 3),
  (155087, 246290, 3),
  (155183, 246288, 3),
  (155280, 246287, 3),
  (155376, 246286, 3),
  (155473, 246284, 3),
  (155569, 246283, 3),
  (155666, 246282, 3),
  (155763, 246280, 3),
  (155860, 246279, 3),
  (155958, 246278, 3),
  (156055, 246276, 3),
  (156152, 246275, 3),
  (156250, 246274, 3),
  (156348, 246272, 3),
  (156446, 246271, 3),
  (156544, 246270, 3),
  (156642, 246268, 3),
  (156740, 246267, 3),
  (156838, 246266, 3),
  (156937, 246264, 3),
  (157035, 246263, 3),
  (157134, 246262, 3),
  (157233, 246260, 3),
  (157332, 246259, 3),
  (157431, 246258, 3),
  (157530, 246256, 3),
  (157629, 246255, 3),
  (157729, 246253, 3),
  (157828, 246252, 3),
  (157928, 246251, 3),
  (158028, 246249, 3),
  (158128, 246248, 3),
  (158228, 246246, 3),
  (158328, 246245, 3),
  (158428, 246244, 3),
  (158529, 246242, 3),
  (158629, 246241, 3)]

/-- materials/data/silicon_nitride.csv, lines 52-101 -/
def siliconNitrideRows1 : List (ℤ × ℤ × ℤ) := [
  (158730, 246240, 3),
  (158831, 246238, 3),
  (158932, 246237, 3),
  (159033, 246235, 3),
  (159134, 246234, 3),
  (159236, 246232, 3),
  (159337, 246231, 3),
  (159439, 246230, 3),
  (159541, 246228, 3),
  (159642, 246227, 3),
  (159744, 246225, 3),
  (159847, 246224, 3),
  (159949, 246223, 3),
  (160051, 246221, 3),
  (160154, 246220, 3),
  (160256, 246218, 3),
  (160359, 246217, 3),
  (160462, 246215, 3),
  (160565, 246214, 3),
  (160668, 246212, 3),
  (160772, 246211, 3),
  (160875, 246210, 4),
  (160979, 246208, 4),
  (161082, 246207, 4),
  (161186, 246205, 4),
  (161290, 246204, 4),
  (161394, 246202, 4),
  (161499, 246201, 4),
  (161603, 246199, 4),
  (161708, 246198, 4),
  (161812, 246196, 4),
  (161917, 246195, 4),
  (162022, 246193, 4),
  (162127, 246192, 4),
  (162232, 246190, 4),
  (162338, 246189, 4),
  (162443, 246187, 4),
  (162549, 246186, 4),
  (162655, 246184, 4),
  (162760, 246183, 4),
  (162866, 246181, 4),
  (162973, 246180, 4),
  (163079, 246178, 4),
  (163185, 246177, 4),
  (163292, 246175, 4),
  (163399, 246174, 4),
  (163506, 246172, 4),
  (163613, 246171, 4),
  (163720, 246169, 4),
  (163827, 246167, 4)]

/-- materials/data/silicon_nitride.csv, lines 102-151 -/
def siliconNitrideRows2 : List (ℤ × ℤ × ℤ) := [
  (163934, 246166, 4),
  (164042, 246164, 4),
  (164150, 246163, 4),
  (164258, 246161, 4),
  (164366, 246160, 4),
  (164474, 246158, 4),
  (164582, 246157, 4),
  (164690, 246155, 4),
  (164799, 246153, 4),
  (164908, 246152, 4),
  (165017, 246150, 4),
  (165125, 246149, 4),
  (165235, 246147, 4),
  (165344, 246146, 4),
  (165453, 246144, 4),
  (165563, 246142, 4),
  (165673, 246141, 4),
  (165782, 246139, 4),
  (165893, 246138, 4),
  (166003, 246136, 4),
  (166113, 246134, 4),
  (166223, 246133, 4),
  (166334, 246131, 4),
  (166445, 246129, 4),
  (166556, 246128, 4),
  (166667, 246126, 4),
  (166778, 246125, 4),
  (166889, 246123, 4),
  (167001, 246121, 4),
  (167112, 246120, 4),
  (167224, 246118, 4),
  (167336, 246116, 4),
  (167448, 246115, 4),
  (167560, 246113, 4),
  (167673, 246111, 4),
  (167785, 246110, 4),
  (167898, 246108, 4),
  (168011, 246106, 4),
  (168124, 246105, 4),
  (168237, 246103, 4),
  (168350, 246101, 4),
  (168464, 246100, 4),
  (168577, 246098, 4),
  (168691, 246096, 4),
  (168805, 246095, 4),
  (168919, 246093, 4),
  (169033, 246091, 4),
  (169147, 246090, 4),
  (169262, 246088, 4),
  (169377, 246086, 4)]

/-- materials/data/silicon_nitride.csv, lines 152-201 -/
def siliconNitrideRows3 : List (ℤ × ℤ × ℤ) := [
  (169492, 246084, 4),
  (169607, 246083, 4),
  (169722, 246081, 4),
  (169837, 246079, 4),
  (169952, 246077, 4),
  (170068, 246076, 4),
  (170184, 246074, 4),
  (170300, 246072, 4),
  (170416, 246071, 4),
  (170532, 246069, 4),
  (170648, 246067, 4),
  (170765, 246065, 4),
  (170882, 246063, 4),
  (170999, 246062, 4),
  (171116, 246060, 4),
  (171233, 246058, 4),
  (171350, 246056, 4),
  (171468, 246055, 4),
  (171585, 246053, 4),
  (171703, 246051, 4),
  (171821, 246049, 4),
  (171939, 246047, 4),
  (172058, 246046, 4),
  (172176, 246044, 4),
  (172295, 246042, 4),
  (172414, 246040, 4),
  (172533, 246038, 4),
  (172652, 246037, 4),
  (172771, 246035, 4),
  (172891, 246033, 4),
  (173010, 246031, 4),
  (173130, 246029, 4),
  (173250, 246027, 4),
  (173370, 246026, 4),
  (173491, 246024, 4),
  (173611, 246022, 4),
  (173732, 246020, 4),
  (173853, 246018, 5),
  (173974, 246016, 5),
  (174095, 246015, 5),
  (174216, 246013, 5),
  (174338, 246011, 5),
  (174459, 246009, 5),
  (174581, 246007, 5),
  (174703, 246005, 5),
  (174825, 246003, 5),
  (174948, 246001, 5),
  (175070, 245999, 5),
  (175193, 245998, 5),
  (175316, 245996, 5)]

/-- materials/data/silicon_nitride.csv, lines 202-251 -/
def siliconNitrideRows4 : List (ℤ × ℤ × ℤ) := [
  (175439, 245994, 5),
  (175562, 245992, 5),
  (175685, 245990, 5),
  (175809, 245988, 5),
  (175932, 245986, 5),
  (176056, 245984, 5),
  (176180, 245982, 5),
  (176305, 245980, 5),
  (176429, 245978, 5),
  (176554, 245976, 5),
  (176678, 245974, 5),
  (176803, 245972, 5),
  (176929, 245970, 5),
  (177054, 245969, 5),
  (177179, 245967, 5),
  (177305, 245965, 5),
  (177431, 245963, 5),
  (177557, 245961, 5),
  (177683, 245959, 5),
  (177809, 245957, 5),
  (177936, 245955, 5),
  (178063, 245953, 5),
  (178190, 245951, 5),
  (178317, 245949, 5),
  (178444, 245947, 5),
  (178571, 245945, 5),
  (178699, 245943, 5),
  (178827, 245941, 5),
  (178955, 245938, 5),
  (179083, 245936, 5),
  (179211, 245934, 5),
  (179340, 245932, 5),
  (179469, 245930, 5),
  (179598, 245928, 5),
  (179727, 245926, 5),
  (179856, 245924, 5),
  (179986, 245922, 5),
  (180115, 245920, 5),
  (180245, 245918, 5),
  (180375, 245916, 5),
  (180505, 245914, 5),
  (180636, 245912, 5),
  (180766, 245910, 5),
  (180897, 245907, 5),
  (181028, 245905, 5),
  (181159, 245903, 5),
  (181291, 245901, 5),
  (181422, 245899, 5),
  (181554, 245897, 5),
  (181686, 245895, 5)]

/-- materials/data/silicon_nitride.csv, lines 252-301 -/
def siliconNitrideRows5 : List (ℤ × ℤ × ℤ) := [
  (181818, 245893, 5),
  (181951, 245890, 5),
  (182083, 245888, 5),
  (182216, 245886, 5),
  (182349, 245884, 5),
  (182482, 245882, 5),
  (182615, 245880, 5),
  (182749, 245877, 5),
  (182882, 245875, 5),
  (183016, 245873, 5),
  (183150, 245871, 5),
  (183284, 245869, 5),
  (183419, 245867, 5),
  (183554, 245864, 5),
  (183688, 245862, 5),
  (183824, 245860, 5),
  (183959, 245858, 5),
  (184094, 245856, 5),
  (184230, 245853, 5),
  (184366, 245851, 5),
  (184502, 245849, 5),
  (184638, 245847, 5),
  (184775, 245844, 6),
  (184911, 245842, 6),
  (185048, 245840, 6),
  (185185, 245838, 6),
  (185322, 245835, 6),
  (185460, 245833, 6),
  (185598, 245831, 6),
  (185736, 245828, 6),
  (185874, 245826, 6),
  (186012, 245824, 6),
  (186150, 245822, 6),
  (186289, 245819, 6),
  (186428, 245817, 6),
  (186567, 245815, 6),
  (186706, 245812, 6),
  (186846, 245810, 6),
  (186986, 245808, 6),
  (187126, 245805, 6),
  (187266, 245803, 6),
  (187406, 245801, 6),
  (187547, 245798, 6),
  (187688, 245796, 6),
  (187829, 245794, 6),
  (187970, 245791, 6),
  (188111, 245789, 6),
  (188253, 245786, 6),
  (188395, 245784, 6),
  (188537, 245782, 6)]

/-- materials/data/silicon_nitride.csv, lines 302-351 -/
def siliconNitrideRows6 : List (ℤ × ℤ × ℤ) := [
  (188679, 245779, 6),
  (188822, 245777, 6),
  (188964, 245774, 6),
  (189107, 245772, 6),
  (189251, 245770, 6),
  (189394, 245767, 6),
  (189538, 245765, 6),
  (189681, 245762, 6),
  (189825, 245760, 6),
  (189970, 245757, 6),
  (190114, 245755, 6),
  (190259, 245752, 6),
  (190404, 245750, 6),
  (190549, 245747, 6),
  (190694, 245745, 6),
  (190840, 245742, 6),
  (190985, 245740, 6),
  (191131, 245738, 6),
  (191278, 245735, 6),
  (191424, 245732, 6),
  (191571, 245730, 6),
  (191718, 245727, 6),
  (191865, 245725, 6),
  (192012, 245722, 6),
  (192160, 245720, 6),
  (192308, 245717, 6),
  (192456, 245715, 6),
  (192604, 245712, 6),
  (192753, 245710, 6),
  (192901, 245707, 6),
  (193050, 245704, 6),
  (193199, 245702, 6),
  (193349, 245699, 6),
  (193498, 245697, 6),
  (193648, 245694, 6),
  (193798, 245691, 6),
  (193949, 245689, 6),
  (194099, 245686, 7),
  (194250, 245684, 7),
  (194401, 245681, 7),
  (194553, 245678, 7),
  (194704, 245676, 7),
  (194856, 245673, 7),
  (195008, 245670, 7),
  (195160, 245668, 7),
  (195313, 245665, 7),
  (195465, 245662, 7),
  (195618, 245660, 7),
  (195771, 245657, 7),
  (195925, 245654, 7)]

/-- materials/data/silicon_nitride.csv, lines 352-401 -/
def siliconNitrideRows7 : List (ℤ × ℤ × ℤ) := [
  (196078, 245651, 7),
  (196232, 245649, 7),
  (196386, 245646, 7),
  (196541, 245643, 7),
  (196696, 245641, 7),
  (196850, 245638, 7),
  (197006, 245635, 7),
  (197161, 245632, 7),
  (197316, 245630, 7),
  (197472, 245627, 7),
  (197628, 245624, 7),
  (197785, 245621, 7),
  (197941, 245618, 7),
  (198098, 245616, 7),
  (198255, 245613, 7),
  (198413, 245610, 7),
  (198570, 245607, 7),
  (198728, 245604, 7),
  (198886, 245602, 7),
  (199045, 245599, 7),
  (199203, 245596, 7),
  (199362, 245593, 7),
  (199521, 245590, 7),
  (199681, 245587, 7),
  (199840, 245584, 7),
  (200000, 245582, 7),
  (200160, 245579, 7),
  (200321, 245576, 7),
  (200481, 245573, 7),
  (200642, 245570, 7),
  (200803, 245567, 7),
  (200965, 245564, 7),
  (201126, 245561, 7),
  (201288, 245558, 7),
  (201450, 245555, 7),
  (201613, 245552, 7),
  (201776, 245549, 7),
  (201939, 245546, 7),
  (202102, 245543, 7),
  (202265, 245540, 7),
  (202429, 245537, 8),
  (202593, 245534, 8),
  (202758, 245531, 8),
  (202922, 245528, 8),
  (203087, 245525, 8),
  (203252, 245522, 8),
  (203417, 245519, 8),
  (203583, 245516, 8),
  (203749, 245513, 8),
  (203915, 245510, 8)]

/-- materials/data/silicon_nitride.csv, lines 402-451 -/
def siliconNitrideRows8 : List (ℤ × ℤ × ℤ) := [
  (204082, 245507, 8),
  (204248, 245504, 8),
  (204415, 245501, 8),
  (204583, 245498, 8),
  (204750, 245495, 8),
  (204918, 245491, 8),
  (205086, 245488, 8),
  (205255, 245485, 8),
  (205423, 245482, 8),
  (205592, 245479, 8),
  (205761, 245476, 8),
  (205931, 245473, 8),
  (206101, 245469, 8),
  (206271, 245466, 8),
  (206441, 245463, 8),
  (206612, 245460, 8),
  (206782, 245457, 8),
  (206954, 245453, 8),
  (207125, 245450, 8),
  (207297, 245447, 8),
  (207469, 245444, 8),
  (207641, 245440, 8),
  (207814, 245437, 8),
  (207987, 245434, 8),
  (208160, 245431, 8),
  (208333, 245427, 8),
  (208507, 245424, 8),
  (208681, 245421, 8),
  (208855, 245417, 8),
  (209030, 245414, 8),
  (209205, 245411, 8),
  (209380, 245407, 8),
  (209556, 245404, 8),
  (209732, 245401, 8),
  (209908, 245397, 9),
  (210084, 245394, 9),
  (210261, 245391, 9),
  (210438, 245387, 9),
  (210615, 245384, 9),
  (210793, 245380, 9),
  (210970, 245377, 9),
  (211149, 245374, 9),
  (211327, 245370, 9),
  (211506, 245367, 9),
  (211685, 245363, 9),
  (211864, 245360, 9),
  (212044, 245356, 9),
  (212224, 245353, 9),
  (212404, 245349, 9),
  (212585, 245346, 9)]

/-- materials/data/silicon_nitride.csv, lines 452-501 -/
def siliconNitrideRows9 : List (ℤ × ℤ × ℤ) := [
  (212766, 245342, 9),
  (212947, 245339, 9),
  (213129, 245335, 9),
  (213311, 245332, 9),
  (213493, 245328, 9),
  (213675, 245325, 9),
  (213858, 245321, 9),
  (214041, 245317, 9),
  (214225, 245314, 9),
  (214408, 245310, 9),
  (214592, 245307, 9),
  (214777, 245303, 9),
  (214961, 245299, 9),
  (215146, 245296, 9),
  (215332, 245292, 9),
  (215517, 245288, 9),
  (215703, 245285, 9),
  (215889, 245281, 9),
  (216076, 245277, 9),
  (216263, 245274, 9),
  (216450, 245270, 9),
  (216638, 245266, 9),
  (216826, 245263, 10),
  (217014, 245259, 10),
  (217202, 245255, 10),
  (217391, 245251, 10),
  (217581, 245248, 10),
  (217770, 245244, 10),
  (217960, 245240, 10),
  (218150, 245236, 10),
  (218341, 245232, 10),
  (218531, 245229, 10),
  (218723, 245225, 10),
  (218914, 245221, 10),
  (219106, 245217, 10),
  (219298, 245213, 10),
  (219491, 245209, 10),
  (219684, 245205, 10),
  (219877, 245201, 10),
  (220070, 245198, 10),
  (220264, 245194, 10),
  (220459, 245190, 10),
  (220653, 245186, 10),
  (220848, 245182, 10),
  (221043, 245178, 10),
  (221239, 245174, 10),
  (221435, 245170, 10),
  (221631, 245166, 10),
  (221828, 245162, 10),
  (222025, 245158, 10)]

/-- materials/data/silicon_nitride.csv, lines 502-551 -/
def siliconNitrideRows10 : List (ℤ × ℤ × ℤ) := [
  (222222, 245154, 10),
  (222420, 245150, 10),
  (222618, 245146, 10),
  (222816, 245142, 10),
  (223015, 245138, 11),
  (223214, 245133, 11),
  (223414, 245129, 11),
  (223614, 245125, 11),
  (223814, 245121, 11),
  (224014, 245117, 11),
  (224215, 245113, 11),
  (224417, 245109, 11),
  (224618, 245104, 11),
  (224820, 245100, 11),
  (225023, 245096, 11),
  (225225, 245092, 11),
  (225428, 245088, 11),
  (225632, 245083, 11),
  (225836, 245079, 11),
  (226040, 245075, 11),
  (226244, 245071, 11),
  (226449, 245066, 11),
  (226655, 245062, 11),
  (226860, 245058, 11),
  (227066, 245053, 11),
  (227273, 245049, 11),
  (227480, 245045, 11),
  (227687, 245040, 11),
  (227894, 245036, 11),
  (228102, 245032, 11),
  (228311, 245027, 11),
  (228519, 245023, 11),
  (228728, 245018, 12),
  (228938, 245014, 12),
  (229148, 245009, 12),
  (229358, 245005, 12),
  (229568, 245000, 12),
  (229779, 244996, 12),
  (229991, 244991, 12),
  (230203, 244987, 12),
  (230415, 244982, 12),
  (230627, 244978, 12),
  (230840, 244973, 12),
  (231054, 244969, 12),
  (231267, 244964, 12),
  (231481, 244959, 12),
  (231696, 244955, 12),
  (231911, 244950, 12),
  (232126, 244946, 12),
  (232342, 244941, 12)]

/-- materials/data/silicon_nitride.csv, lines 552-601 -/
def siliconNitrideRows11 : List (ℤ × ℤ × ℤ) := [
  (232558, 244936, 12),
  (232775, 244932, 12),
  (232992, 244927, 12),
  (233209, 244922, 12),
  (233427, 244917, 12),
  (233645, 244913, 12),
  (233863, 244908, 12),
  (234082, 244903, 13),
  (234302, 244898, 13),
  (234522, 244894, 13),
  (234742, 244889, 13),
  (234962, 244884, 13),
  (235183, 244879, 13),
  (235405, 244874, 13),
  (235627, 244869, 13),
  (235849, 244864, 13),
  (236072, 244860, 13),
  (236295, 244855, 13),
  (236518, 244850, 13),
  (236742, 244845, 13),
  (236967, 244840, 13),
  (237192, 244835, 13),
  (237417, 244830, 13),
  (237643, 244825, 13),
  (237869, 244820, 13),
  (238095, 244815, 13),
  (238322, 244810, 13),
  (238550, 244805, 13),
  (238777, 244799, 13),
  (239006, 244794, 14),
  (239234, 244789, 14),
  (239464, 244784, 14),
  (239693, 244779, 14),
  (239923, 244774, 14),
  (240154, 244769, 14),
  (240385, 244763, 14),
  (240616, 244758, 14),
  (240848, 244753, 14),
  (241080, 244748, 14),
  (241313, 244742, 14),
  (241546, 244737, 14),
  (241779, 244732, 14),
  (242014, 244727, 14),
  (242248, 244721, 14),
  (242483, 244716, 14),
  (242718, 244711, 14),
  (242954, 244705, 14),
  (243191, 244700, 14),
  (243427, 244694, 14),
  (243665, 244689, 15)]

/-- materials/data/silicon_nitride.csv, lines 602-651 -/
def siliconNitrideRows12 : List (ℤ × ℤ × ℤ) := [
  (243902, 244683, 15),
  (244141, 244678, 15),
  (244379, 244672, 15),
  (244618, 244667, 15),
  (244858, 244661, 15),
  (245098, 244656, 15),
  (245339, 244650, 15),
  (245580, 244645, 15),
  (245821, 244639, 15),
  (246063, 244634, 15),
  (246305, 244628, 15),
  (246548, 244622, 15),
  (246792, 244617, 15),
  (247036, 244611, 15),
  (247280, 244605, 15),
  (247525, 244599, 15),
  (247770, 244594, 15),
  (248016, 244588, 15),
  (248262, 244582, 16),
  (248509, 244576, 16),
  (248756, 244571, 16),
  (249004, 244565, 16),
  (249252, 244559, 16),
  (249501, 244553, 16),
  (249750, 244547, 16),
  (250000, 244541, 16),
  (250250, 244535, 16),
  (250501, 244529, 16),
  (250752, 244523, 16),
  (251004, 244517, 16),
  (251256, 244511, 16),
  (251509, 244505, 16),
  (251762, 244499, 16),
  (252016, 244493, 16),
  (252270, 244487, 16),
  (252525, 244481, 17),
  (252781, 244475, 17),
  (253036, 244469, 17),
  (253293, 244463, 17),
  (253550, 244456, 17),
  (253807, 244450, 17),
  (254065, 244444, 17),
  (254323, 244438, 17),
  (254582, 244431, 17),
  (254842, 244425, 17),
  (255102, 244419, 17),
  (255363, 244413, 17),
  (255624, 244406, 17),
  (255885, 244400, 17),
  (256148, 244393, 17)]

/-- materials/data/silicon_nitride.csv, lines 652-701 -/
def siliconNitrideRows13 : List (ℤ × ℤ × ℤ) := [
  (256410, 244387, 18),
  (256674, 244381, 18),
  (256937, 244374, 18),
  (257202, 244368, 18),
  (257467, 244361, 18),
  (257732, 244355, 18),
  (257998, 244348, 18),
  (258264, 244341, 18),
  (258532, 244335, 18),
  (258799, 244328, 18),
  (259067, 244322, 18),
  (259336, 244315, 18),
  (259605, 244308, 18),
  (259875, 244301, 18),
  (260146, 244295, 19),
  (260417, 244288, 19),
  (260688, 244281, 19),
  (260960, 244274, 19),
  (261233, 244268, 19),
  (261506, 244261, 19),
  (261780, 244254, 19),
  (262055, 244247, 19),
  (262329, 244240, 19),
  (262605, 244233, 19),
  (262881, 244226, 19),
  (263158, 244219, 19),
  (263435, 244212, 19),
  (263713, 244205, 19),
  (263992, 244198, 20),
  (264271, 244191, 20),
  (264550, 244184, 20),
  (264831, 244177, 20),
  (265111, 244169, 20),
  (265393, 244162, 20),
  (265675, 244155, 20),
  (265957, 244148, 20),
  (266241, 244141, 20),
  (266525, 244133, 20),
  (266809, 244126, 20),
  (267094, 244119, 20),
  (267380, 244111, 21),
  (267666, 244104, 21),
  (267953, 244096, 21),
  (268240, 244089, 21),
  (268528, 244081, 21),
  (268817, 244074, 21),
  (269107, 244066, 21),
  (269397, 244059, 21),
  (269687, 244051, 21),
  (269978, 244044, 21)]

/-- materials/data/silicon_nitride.csv, lines 702-751 -/
def siliconNitrideRows14 : List (ℤ × ℤ × ℤ) := [
  (270270, 244036, 21),
  (270563, 244028, 21),
  (270856, 244021, 22),
  (271150, 244013, 22),
  (271444, 244005, 22),
  (271739, 243997, 22),
  (272035, 243990, 22),
  (272331, 243982, 22),
  (272628, 243974, 22),
  (272926, 243966, 22),
  (273224, 243958, 22),
  (273523, 243950, 22),
  (273823, 243942, 22),
  (274123, 243934, 23),
  (274424, 243926, 23),
  (274725, 243918, 23),
  (275028, 243910, 23),
  (275330, 243902, 23),
  (275634, 243894, 23),
  (275938, 243885, 23),
  (276243, 243877, 23),
  (276549, 243869, 23),
  (276855, 243861, 23),
  (277162, 243852, 24),
  (277469, 243844, 24),
  (277778, 243836, 24),
  (278087, 243827, 24),
  (278396, 243819, 24),
  (278707, 243810, 24),
  (279018, 243802, 24),
  (279330, 243793, 24),
  (279642, 243785, 24),
  (279955, 243776, 24),
  (280269, 243768, 25),
  (280584, 243759, 25),
  (280899, 243750, 25),
  (281215, 243742, 25),
  (281532, 243733, 25),
  (281849, 243724, 25),
  (282167, 243715, 25),
  (282486, 243706, 25),
  (282805, 243697, 25),
  (283126, 243688, 26),
  (283447, 243680, 26),
  (283768, 243671, 26),
  (284091, 243662, 26),
  (284414, 243652, 26),
  (284738, 243643, 26),
  (285063, 243634, 26),
  (285388, 243625, 26)]

/-- materials/data/silicon_nitride.csv, lines 752-801 -/
def siliconNitrideRows15 : List (ℤ × ℤ × ℤ) := [
  (285714, 243616, 26),
  (286041, 243607, 27),
  (286369, 243597, 27),
  (286697, 243588, 27),
  (287026, 243579, 27),
  (287356, 243569, 27),
  (287687, 243560, 27),
  (288018, 243550, 27),
  (288351, 243541, 27),
  (288684, 243531, 28),
  (289017, 243522, 28),
  (289352, 243512, 28),
  (289687, 243503, 28),
  (290023, 243493, 28),
  (290360, 243483, 28),
  (290698, 243473, 28),
  (291036, 243464, 28),
  (291375, 243454, 29),
  (291715, 243444, 29),
  (292056, 243434, 29),
  (292398, 243424, 29),
  (292740, 243414, 29),
  (293083, 243404, 29),
  (293427, 243394, 29),
  (293772, 243384, 29),
  (294118, 243374, 30),
  (294464, 243364, 30),
  (294811, 243353, 30),
  (295159, 243343, 30),
  (295508, 243333, 30),
  (295858, 243322, 30),
  (296209, 243312, 30),
  (296560, 243302, 31),
  (296912, 243291, 31),
  (297265, 243281, 31),
  (297619, 243270, 31),
  (297974, 243259, 31),
  (298329, 243249, 31),
  (298686, 243238, 31),
  (299043, 243227, 32),
  (299401, 243217, 32),
  (299760, 243206, 32),
  (300120, 243195, 32),
  (300481, 243184, 32),
  (300842, 243173, 32),
  (301205, 243162, 32),
  (301568, 243151, 33),
  (301932, 243140, 33),
  (302297, 243129, 33),
  (302663, 243118, 33)]

/-- materials/data/silicon_nitride.csv, lines 802-851 -/
def siliconNitrideRows16 : List (ℤ × ℤ × ℤ) := [
  (303030, 243106, 33),
  (303398, 243095, 33),
  (303767, 243084, 33),
  (304136, 243072, 34),
  (304507, 243061, 34),
  (304878, 243049, 34),
  (305250, 243038, 34),
  (305623, 243026, 34),
  (305998, 243015, 34),
  (306373, 243003, 35),
  (306748, 242991, 35),
  (307125, 242980, 35),
  (307503, 242968, 35),
  (307882, 242956, 35),
  (308261, 242944, 35),
  (308642, 242932, 36),
  (309023, 242920, 36),
  (309406, 242908, 36),
  (309789, 242896, 36),
  (310174, 242884, 36),
  (310559, 242871, 36),
  (310945, 242859, 37),
  (311333, 242847, 37),
  (311721, 242834, 37),
  (312110, 242822, 37),
  (312500, 242810, 37),
  (312891, 242797, 38),
  (313283, 242784, 38),
  (313676, 242772, 38),
  (314070, 242759, 38),
  (314465, 242746, 38),
  (314861, 242733, 39),
  (315259, 242721, 39),
  (315657, 242708, 39),
  (316056, 242695, 39),
  (316456, 242682, 39),
  (316857, 242668, 39),
  (317259, 242655, 40),
  (317662, 242642, 40),
  (318066, 242629, 40),
  (318471, 242615, 40),
  (318878, 242602, 40),
  (319285, 242589, 41),
  (319693, 242575, 41),
  (320102, 242562, 41),
  (320513, 242548, 41),
  (320924, 242534, 42),
  (321337, 242520, 42),
  (321750, 242507, 42),
  (322165, 242493, 42)]

/-- materials/data/silicon_nitride.csv, lines 852-901 -/
def siliconNitrideRows17 : List (ℤ × ℤ × ℤ) := [
  (322581, 242479, 42),
  (322997, 242465, 43),
  (323415, 242451, 43),
  (323834, 242437, 43),
  (324254, 242422, 43),
  (324675, 242408, 43),
  (325098, 242394, 44),
  (325521, 242379, 44),
  (325945, 242365, 44),
  (326371, 242350, 44),
  (326797, 242336, 45),
  (327225, 242321, 45),
  (327654, 242306, 45),
  (328084, 242292, 45),
  (328515, 242277, 46),
  (328947, 242262, 46),
  (329381, 242247, 46),
  (329815, 242232, 46),
  (330251, 242217, 47),
  (330688, 242201, 47),
  (331126, 242186, 47),
  (331565, 242171, 47),
  (332005, 242155, 48),
  (332447, 242140, 48),
  (332889, 242124, 48),
  (333333, 242108, 48),
  (333778, 242093, 49),
  (334225, 242077, 49),
  (334672, 242061, 49),
  (335121, 242045, 49),
  (335570, 242029, 50),
  (336022, 242013, 50),
  (336474, 241997, 50),
  (336927, 241981, 50),
  (337382, 241964, 51),
  (337838, 241948, 51),
  (338295, 241931, 51),
  (338753, 241915, 52),
  (339213, 241898, 52),
  (339674, 241881, 52),
  (340136, 241865, 52),
  (340599, 241848, 53),
  (341064, 241831, 53),
  (341530, 241814, 53),
  (341997, 241796, 54),
  (342466, 241779, 54),
  (342936, 241762, 54),
  (343407, 241744, 55),
  (343879, 241727, 55),
  (344353, 241709, 55)]

/-- materials/data/silicon_nitride.csv, lines 902-951 -/
def siliconNitrideRows18 : List (ℤ × ℤ × ℤ) := [
  (344828, 241692, 55),
  (345304, 241674, 56),
  (345781, 241656, 56),
  (346260, 241638, 56),
  (346741, 241620, 57),
  (347222, 241602, 57),
  (347705, 241584, 57),
  (348189, 241566, 58),
  (348675, 241547, 58),
  (349162, 241529, 58),
  (349650, 241510, 59),
  (350140, 241491, 59),
  (350631, 241473, 59),
  (351124, 241454, 60),
  (351617, 241435, 60),
  (352113, 241416, 61),
  (352609, 241397, 61),
  (353107, 241377, 61),
  (353607, 241358, 62),
  (354108, 241339, 62),
  (354610, 241319, 62),
  (355114, 241299, 63),
  (355619, 241280, 63),
  (356125, 241260, 63),
  (356633, 241240, 64),
  (357143, 241220, 64),
  (357654, 241200, 65),
  (358166, 241179, 65),
  (358680, 241159, 65),
  (359195, 241138, 66),
  (359712, 241118, 66),
  (360231, 241097, 67),
  (360750, 241076, 67),
  (361272, 241055, 67),
  (361795, 241034, 68),
  (362319, 241013, 68),
  (362845, 240992, 69),
  (363372, 240971, 69),
  (363901, 240949, 70),
  (364431, 240927, 70),
  (364964, 240906, 71),
  (365497, 240884, 71),
  (366032, 240862, 71),
  (366569, 240840, 72),
  (367107, 240818, 72),
  (367647, 240795, 73),
  (368189, 240773, 73),
  (368732, 240750, 74),
  (369276, 240728, 74),
  (369822, 240705, 75)]

/-- materials/data/silicon_nitride.csv, lines 952-1001 -/
def siliconNitrideRows19 : List (ℤ × ℤ × ℤ) := [
  (370370, 240682, 75),
  (370920, 240659, 76),
  (371471, 240636, 76),
  (372024, 240612, 77),
  (372578, 240589, 77),
  (373134, 240565, 78),
  (373692, 240542, 78),
  (374251, 240518, 79),
  (374813, 240494, 79),
  (375375, 240470, 80),
  (375940, 240445, 80),
  (376506, 240421, 81),
  (377074, 240396, 81),
  (377644, 240372, 82),
  (378215, 240347, 83),
  (378788, 240322, 83),
  (379363, 240297, 84),
  (379939, 240272, 84),
  (380518, 240246, 85),
  (381098, 240221, 85),
  (381679, 240195, 86),
  (382263, 240169, 87),
  (382848, 240143, 87),
  (383436, 240117, 88),
  (384025, 240091, 89),
  (384615, 240064, 89),
  (385208, 240038, 90),
  (385802, 240011, 90),
  (386399, 239984, 91),
  (386997, 239957, 92),
  (387597, 239930, 92),
  (388199, 239902, 93),
  (388802, 239875, 94),
  (389408, 239847, 94),
  (390016, 239819, 95),
  (390625, 239791, 96),
  (391236, 239763, 97),
  (391850, 239734, 97),
  (392465, 239706, 98),
  (393082, 239677, 99),
  (393701, 239648, 100),
  (394322, 239619, 100),
  (394945, 239590, 101),
  (395570, 239560, 102),
  (396197, 239531, 103),
  (396825, 239501, 103),
  (397456, 239471, 104),
  (398089, 239441, 105),
  (398724, 239410, 106),
  (399361, 239380, 107)]

/-- materials/data/silicon_nitride.csv, lines 1002-1051 -/
def siliconNitrideRows20 : List (ℤ × ℤ × ℤ) := [
  (400000, 239349, 107),
  (400641, 239318, 108),
  (401284, 239287, 109),
  (401929, 239256, 110),
  (402576, 239224, 111),
  (403226, 239192, 112),
  (403877, 239160, 113),
  (404531, 239128, 114),
  (405186, 239096, 115),
  (405844, 239063, 115),
  (406504, 239030, 116),
  (407166, 238997, 117),
  (407830, 238964, 118),
  (408497, 238931, 119),
  (409165, 238897, 120),
  (409836, 238863, 121),
  (410509, 238829, 122),
  (411184, 238795, 123),
  (411862, 238760, 124),
  (412541, 238726, 126),
  (413223, 238691, 127),
  (413907, 238655, 128),
  (414594, 238620, 129),
  (415282, 238584, 130),
  (415973, 238548, 131),
  (416667, 238512, 132),
  (417362, 238476, 133),
  (418060, 238439, 135),
  (418760, 238402, 136),
  (419463, 238365, 137),
  (420168, 238328, 138),
  (420875, 238290, 140),
  (421585, 238252, 141),
  (422297, 238214, 142),
  (423012, 238175, 143),
  (423729, 238137, 145),
  (424448, 238098, 146),
  (425170, 238058, 147),
  (425894, 238019, 149),
  (426621, 237979, 150),
  (427350, 237939, 152),
  (428082, 237898, 153),
  (428816, 237858, 155),
  (429553, 237817, 156),
  (430293, 237776, 158),
  (431034, 237734, 159),
  (431779, 237692, 161),
  (432526, 237650, 162),
  (433276, 237608, 164),
  (434028, 237565, 166)]

/-- materials/data/silicon_nitride.csv, lines 1052-1101 -/
def siliconNitrideRows21 : List (ℤ × ℤ × ℤ) := [
  (434783, 237522, 167),
  (435540, 237478, 169),
  (436300, 237435, 171),
  (437063, 237391, 172),
  (437828, 237346, 174),
  (438596, 237302, 176),
  (439367, 237256, 178),
  (440141, 237211, 180),
  (440917, 237165, 182),
  (441696, 237119, 183),
  (442478, 237073, 185),
  (443262, 237026, 187),
  (444050, 236979, 189),
  (444840, 236932, 192),
  (445633, 236884, 194),
  (446429, 236836, 196),
  (447227, 236787, 198),
  (448029, 236738, 200),
  (448833, 236689, 202),
  (449640, 236639, 205),
  (450450, 236589, 207),
  (451264, 236539, 209),
  (452080, 236488, 212),
  (452899, 236436, 214),
  (453721, 236385, 217),
  (454545, 236333, 219),
  (455373, 236280, 222),
  (456204, 236227, 225),
  (457038, 236174, 227),
  (457875, 236120, 230),
  (458716, 236066, 233),
  (459559, 236011, 236),
  (460405, 235956, 238),
  (461255, 235900, 241),
  (462107, 235844, 244),
  (462963, 235788, 248),
  (463822, 235731, 251),
  (464684, 235673, 254),
  (465549, 235615, 257),
  (466418, 235557, 260),
  (467290, 235498, 264),
  (468165, 235439, 267),
  (469043, 235379, 271),
  (469925, 235318, 274),
  (470810, 235257, 278),
  (471698, 235196, 282),
  (472590, 235134, 286),
  (473485, 235071, 290),
  (474383, 235008, 294),
  (475285, 234945, 298)]

/-- materials/data/silicon_nitride.csv, lines 1102-1151 -/
def siliconNitrideRows22 : List (ℤ × ℤ × ℤ) := [
  (476190, 234880, 302),
  (477099, 234816, 306),
  (478011, 234750, 311),
  (478927, 234684, 315),
  (479846, 234618, 320),
  (480769, 234551, 324),
  (481696, 234483, 329),
  (482625, 234415, 334),
  (483559, 234346, 339),
  (484496, 234276, 344),
  (485437, 234206, 349),
  (486381, 234135, 355),
  (487329, 234064, 360),
  (488281, 233991, 366),
  (489237, 233919, 372),
  (490196, 233845, 377),
  (491159, 233771, 383),
  (492126, 233696, 390),
  (493097, 233620, 396),
  (494071, 233544, 402),
  (495050, 233467, 409),
  (496032, 233389, 416),
  (497018, 233310, 423),
  (498008, 233231, 430),
  (499002, 233151, 437),
  (500000, 233070, 445),
  (501002, 232988, 452),
  (502008, 232906, 460),
  (503018, 232822, 469),
  (504032, 232738, 477),
  (505051, 232653, 485),
  (506073, 232567, 494),
  (507099, 232481, 503),
  (508130, 232393, 512),
  (509165, 232305, 522),
  (510204, 232215, 532),
  (511247, 232125, 542),
  (512295, 232034, 552),
  (513347, 231942, 563),
  (514403, 231849, 574),
  (515464, 231755, 585),
  (516529, 231660, 596),
  (517598, 231564, 608),
  (518672, 231466, 620),
  (519751, 231368, 633),
  (520833, 231269, 646),
  (521921, 231169, 659),
  (523013, 231068, 673),
  (524109, 230966, 687),
  (525210, 230862, 701)]

/-- materials/data/silicon_nitride.csv, lines 1152-1201 -/
def siliconNitrideRows23 : List (ℤ × ℤ × ℤ) := [
  (526316, 230758, 716),
  (527426, 230652, 732),
  (528541, 230546, 748),
  (529661, 230438, 764),
  (530786, 230329, 781),
  (531915, 230219, 798),
  (533049, 230107, 816),
  (534188, 229995, 834),
  (535332, 229881, 853),
  (536481, 229766, 873),
  (537634, 229650, 893),
  (538793, 229532, 914),
  (539957, 229413, 935),
  (541126, 229293, 958),
  (542299, 229171, 980),
  (543478, 229049, 1004),
  (544662, 228924, 1028),
  (545852, 228799, 1054),
  (547046, 228672, 1079),
  (548246, 228544, 1106),
  (549451, 228414, 1134),
  (550661, 228283, 1162),
  (551876, 228151, 1192),
  (553097, 228017, 1222),
  (554324, 227881, 1254),
  (555556, 227745, 1286),
  (556793, 227606, 1320),
  (558036, 227467, 1354),
  (559284, 227325, 1390),
  (560538, 227183, 1427),
  (561798, 227038, 1465),
  (563063, 226893, 1504),
  (564334, 226746, 1545),
  (565611, 226597, 1587),
  (566893, 226447, 1631),
  (568182, 226295, 1675),
  (569476, 226142, 1722),
  (570776, 225987, 1769),
  (572082, 225831, 1819),
  (573394, 225673, 1870),
  (574713, 225514, 1922),
  (576037, 225354, 1976),
  (577367, 225191, 2032),
  (578704, 225028, 2090),
  (580046, 224863, 2150),
  (581395, 224697, 2211),
  (582751, 224529, 2275),
  (584112, 224360, 2340),
  (585480, 224190, 2407),
  (586854, 224018, 2477)]

/-- materials/data/silicon_nitride.csv, lines 1202-1251 -/
def siliconNitrideRows24 : List (ℤ × ℤ × ℤ) := [
  (588235, 223845, 2549),
  (589623, 223671, 2622),
  (591017, 223495, 2698),
  (592417, 223318, 2776),
  (593824, 223141, 2857),
  (595238, 222962, 2939),
  (596659, 222782, 3024),
  (598086, 222601, 3112),
  (599520, 222419, 3202),
  (600962, 222236, 3294),
  (602410, 222053, 3389),
  (603865, 221868, 3486),
  (605327, 221683, 3585),
  (606796, 221497, 3687),
  (608273, 221310, 3792),
  (609756, 221123, 3899),
  (611247, 220936, 4009),
  (612745, 220747, 4121),
  (614251, 220559, 4236),
  (615764, 220370, 4353),
  (617284, 220180, 4473),
  (618812, 219991, 4595),
  (620347, 219801, 4719),
  (621891, 219611, 4846),
  (623441, 219420, 4976),
  (625000, 219230, 5108),
  (626566, 219039, 5242),
  (628141, 218849, 5378),
  (629723, 218658, 5517),
  (631313, 218467, 5658),
  (632911, 218277, 5801),
  (634518, 218086, 5946),
  (636132, 217895, 6093),
  (637755, 217704, 6243),
  (639386, 217513, 6394),
  (641026, 217322, 6548),
  (642674, 217131, 6703),
  (644330, 216940, 6860),
  (645995, 216749, 7020),
  (647668, 216558, 7181),
  (649351, 216366, 7344),
  (651042, 216174, 7509),
  (652742, 215982, 7676),
  (654450, 215790, 7844),
  (656168, 215597, 8015),
  (657895, 215404, 8187),
  (659631, 215211, 8361),
  (661376, 215017, 8538),
  (663130, 214823, 8716),
  (664894, 214628, 8896)]

/-- materials/data/silicon_nitride.csv, lines 1252-1301 -/
def siliconNitrideRows25 : List (ℤ × ℤ × ℤ) := [
  (666667, 214433, 9078),
  (668449, 214237, 9262),
  (670241, 214040, 9449),
  (672043, 213843, 9637),
  (673854, 213646, 9828),
  (675676, 213448, 10021),
  (677507, 213249, 10216),
  (679348, 213050, 10413),
  (681199, 212850, 10613),
  (683060, 212650, 10815),
  (684932, 212449, 11020),
  (686813, 212248, 11227),
  (688705, 212047, 11437),
  (690608, 211845, 11649),
  (692521, 211644, 11863),
  (694444, 211442, 12080),
  (696379, 211240, 12300),
  (698324, 211038, 12522),
  (700280, 210836, 12746),
  (702247, 210634, 12972),
  (704225, 210433, 13201),
  (706215, 210231, 13432),
  (708215, 210030, 13665),
  (710227, 209830, 13899),
  (712251, 209629, 14135),
  (714286, 209429, 14373),
  (716332, 209229, 14613),
  (718391, 209030, 14853),
  (720461, 208830, 15095),
  (722543, 208631, 15337),
  (724638, 208432, 15580),
  (726744, 208233, 15824),
  (728863, 208033, 16068),
  (730994, 207833, 16312),
  (733138, 207632, 16556),
  (735294, 207430, 16800),
  (737463, 207227, 17043),
  (739645, 207023, 17286),
  (741840, 206816, 17529),
  (744048, 206608, 17770),
  (746269, 206397, 18011),
  (748503, 206184, 18251),
  (750751, 205967, 18491),
  (753012, 205746, 18729),
  (755287, 205521, 18967),
  (757576, 205292, 19203),
  (759878, 205058, 19440),
  (762195, 204819, 19676),
  (764526, 204574, 19911),
  (766871, 204323, 20146)]

/-- materials/data/silicon_nitride.csv, lines 1302-1351 -/
def siliconNitrideRows26 : List (ℤ × ℤ × ℤ) := [
  (769231, 204065, 20381),
  (771605, 203801, 20617),
  (773994, 203529, 20853),
  (776398, 203249, 21090),
  (778816, 202961, 21327),
  (781250, 202665, 21566),
  (783699, 202360, 21807),
  (786164, 202046, 22049),
  (788644, 201722, 22294),
  (791139, 201389, 22541),
  (793651, 201045, 22791),
  (796178, 200691, 23044),
  (798722, 200326, 23300),
  (801282, 199949, 23560),
  (803859, 199561, 23824),
  (806452, 199161, 24092),
  (809061, 198748, 24365),
  (811688, 198322, 24642),
  (814332, 197882, 24924),
  (816993, 197427, 25212),
  (819672, 196958, 25505),
  (822368, 196473, 25805),
  (825083, 195971, 26111),
  (827815, 195451, 26424),
  (830565, 194912, 26744),
  (833333, 194354, 27073),
  (836120, 193774, 27412),
  (838926, 193172, 27760),
  (841751, 192547, 28120),
  (844595, 191896, 28492),
  (847458, 191219, 28879),
  (850340, 190514, 29281),
  (853242, 189780, 29702),
  (856164, 189016, 30142),
  (859107, 188219, 30605),
  (862069, 187390, 31093),
  (865052, 186525, 31608),
  (868056, 185626, 32156),
  (871080, 184690, 32737),
  (874126, 183716, 33358),
  (877193, 182705, 34021),
  (880282, 181655, 34731),
  (883392, 180567, 35493),
  (886525, 179441, 36312),
  (889680, 178276, 37193),
  (892857, 177075, 38143),
  (896057, 175839, 39168),
  (899281, 174569, 40274),
  (902527, 173270, 41468),
  (905797, 171943, 42758)]

/-- materials/data/silicon_nitride.csv, lines 1352-1401 -/
def siliconNitrideRows27 : List (ℤ × ℤ × ℤ) := [
  (909091, 170594, 44152),
  (912409, 169229, 45656),
  (915751, 167854, 47280),
  (919118, 166479, 49029),
  (922509, 165112, 50913),
  (925926, 163766, 52936),
  (929368, 162453, 55105),
  (932836, 161188, 57424),
  (936330, 159987, 59895),
  (939850, 158868, 62517),
  (943396, 157849, 65290),
  (946970, 156947, 68206),
  (950570, 156183, 71258),
  (954198, 155572, 74433),
  (957854, 155130, 77717),
  (961538, 154871, 81092),
  (965251, 154803, 84537),
  (968992, 154934, 88033),
  (972763, 155267, 91556),
  (976563, 155799, 95085),
  (980392, 156525, 98600),
  (984252, 157438, 102082),
  (988142, 158525, 105515),
  (992063, 159774, 108885),
  (996016, 161170, 112184),
  (1000000, 162698, 115405),
  (1004016, 164343, 118546),
  (1008065, 166091, 121607),
  (1012146, 167931, 124592),
  (1016260, 169853, 127506),
  (1020408, 171850, 130357),
  (1024590, 173918, 133154),
  (1028807, 176058, 135904),
  (1033058, 178272, 138615),
  (1037344, 180566, 141293),
  (1041667, 182949, 143942),
  (1046025, 185429, 146563),
  (1050420, 188019, 149152),
  (1054852, 190730, 151704),
  (1059322, 193573, 154208),
  (1063830, 196556, 156651),
  (1068376, 199684, 159014),
  (1072961, 202960, 161279),
  (1077586, 206381, 163423),
  (1082251, 209938, 165427),
  (1086957, 213619, 167270),
  (1091703, 217407, 168934),
  (1096491, 221278, 170406),
  (1101322, 225209, 171678),
  (1106195, 229173, 172747)]

/-- materials/data/silicon_nitride.csv, lines 1402-1451 -/
def siliconNitrideRows28 : List (ℤ × ℤ × ℤ) := [
  (1111111, 233144, 173617),
  (1116071, 237097, 174297),
  (1121076, 241012, 174803),
  (1126126, 244871, 175152),
  (1131222, 248665, 175369),
  (1136364, 252390, 175474),
  (1141553, 256046, 175493),
  (1146789, 259644, 175446),
  (1152074, 263198, 175350),
  (1157407, 266729, 175215),
  (1162791, 270261, 175047),
  (1168224, 273817, 174838),
  (1173709, 277423, 174574),
  (1179245, 281094, 174228),
  (1184834, 284838, 173768),
  (1190476, 288650, 173153),
  (1196172, 292505, 172348),
  (1201923, 296365, 171324),
  (1207729, 300181, 170071),
  (1213592, 303902, 168596),
  (1219512, 307481, 166930),
  (1225490, 310890, 165114),
  (1231527, 314118, 163198),
  (1237624, 317172, 161228),
  (1243781, 320077, 159239),
  (1250000, 322861, 157254),
  (1256281, 325559, 155282),
  (1262626, 328200, 153319),
  (1269036, 330807, 151353),
  (1275510, 333397, 149365),
  (1282051, 335978, 147334),
  (1288660, 338549, 145239),
  (1295337, 341104, 143060),
  (1302083, 343630, 140781),
  (1308901, 346109, 138390),
  (1315789, 348521, 135881),
  (1322751, 350845, 133254),
  (1329787, 353059, 130513),
  (1336898, 355143, 127671),
  (1344086, 357081, 124742),
  (1351351, 358862, 121746),
  (1358696, 360476, 118704),
  (1366120, 361924, 115637),
  (1373626, 363206, 112568),
  (1381215, 364331, 109516),
  (1388889, 365309, 106498),
  (1396648, 366155, 103527),
  (1404494, 366883, 100613),
  (1412429, 367509, 97760),
  (1420455, 368049, 94972)]

/-- materials/data/silicon_nitride.csv, lines 1452-1452 -/
def siliconNitrideRows29 : List (ℤ × ℤ × ℤ) := [
  (1428571, 368517, 92245)]

/-- materials/data/silicon_nitride.csv (1451 rows), as scaled integers -/
def siliconNitrideRows : List (ℤ × ℤ × ℤ) :=
  [siliconNitrideRows0, siliconNitrideRows1, siliconNitrideRows2, siliconNitrideRows3, siliconNitrideRows4, siliconNitrideRows5, siliconNitrideRows6, siliconNitrideRows7, siliconNitrideRows8, siliconNitrideRows9, siliconNitrideRows10, siliconNitrideRows11, siliconNitrideRows12, siliconNitrideRows13, siliconNitrideRows14, siliconNitrideRows15, siliconNitrideRows16, siliconNitrideRows17, siliconNitrideRows18, siliconNitrideRows19, siliconNitrideRows20, siliconNitrideRows21, siliconNitrideRows22, siliconNitrideRows23, siliconNitrideRows24, siliconNitrideRows25, siliconNitrideRows26, siliconNitrideRows27, siliconNitrideRows28, siliconNitrideRows29].flatten

/-- materials/data/silicon_nitride.csv -/
def siliconNitrideTable : List (MatRow ℚ) := mkTable 100000 100000 100000 siliconNitrideRows

/-- materials/data/tantalum_pentoxide.csv, lines 2-51 -/
def tantalumPentoxideRows0 : List (ℤ × ℤ × ℤ) := [
  (294938, 887314, 1870000),
  (300495, 883526, 1880000),
  (306157, 877279, 1910000),
  (311925, 870667, 1990000),
  (317802, 865582, 2090000),
  (323790, 862174, 2200000),
  (329890, 860291, 2310000),
  (336106, 859091, 2410000),
  (342439, 858507, 2520000),
  (348891, 858497, 2620000),
  (355464, 859036, 2730000),
  (362162, 860235, 2830000),
  (368985, 861649, 2930000),
  (375937, 863507, 3030000),
  (383021, 865407, 3120000),
  (390237, 867515, 3220000),
  (397590, 870103, 3310000),
  (405081, 872251, 3390000),
  (412713, 874093, 3480000),
  (420489, 876263, 3570000),
  (428412, 878275, 3650000),
  (436483, 879640, 3730000),
  (444707, 880129, 3810000),
  (453086, 880275, 3910000),
  (461623, 881184, 4020000),
  (470321, 882563, 4120000),
  (479182, 883251, 4210000),
  (488210, 881493, 4290000),
  (497409, 878349, 4430000),
  (506781, 877114, 4610000),
  (516329, 878412, 4800000),
  (526057, 882654, 5010010),
  (535969, 891949, 5229990),
  (546067, 903256, 5350000),
  (556356, 909900, 5420000),
  (566838, 914526, 5580000),
  (577518, 921290, 5740000),
  (588400, 929812, 5910000),
  (599486, 941993, 6090000),
  (610781, 954689, 6170000),
  (622289, 962760, 6230000),
  (634014, 967331, 6330000),
  (645959, 972348, 6490010),
  (658130, 979227, 6650000),
  (670530, 988735, 6840010),
  (683163, 999240, 6970000),
  (696035, 1008544, 7120000),
  (709149, 1018160, 7280000),
  (722511, 1026595, 7430000),
  (736124, 1038517, 7700010)]

/-- materials/data/tantalum_pentoxide.csv, lines 52-101 -/
def tantalumPentoxideRows1 : List (ℤ × ℤ × ℤ) := [
  (749993, 1058245, 7920000),
  (764124, 1078446, 8020000),
  (778521, 1094830, 8110000),
  (793189, 1107957, 8190000),
  (808134, 1113578, 8240000),
  (823360, 1118704, 8530000),
  (838874, 1135462, 8869980),
  (854679, 1159903, 9109990),
  (870782, 1182587, 9260010),
  (887189, 1209856, 9560000),
  (903905, 1222391, 9430010),
  (920935, 1255146, 10400000),
  (938287, 1323130, 10400000),
  (955966, 1355658, 10000010),
  (973977, 1381876, 10399970),
  (992328, 1423695, 10400000),
  (1011020, 1462605, 10500000),
  (1030070, 1516706, 10699990),
  (1049480, 1572582, 10400020),
  (1069260, 1611368, 10100000),
  (1089400, 1640192, 9826420),
  (1109930, 1666027, 9641100),
  (1130840, 1689775, 9383000),
  (1152150, 1705699, 9111290),
  (1173850, 1719929, 8984540),
  (1195970, 1737640, 8809780),
  (1218500, 1741873, 8426020),
  (1241460, 1745046, 8538350),
  (1264850, 1760641, 8447270),
  (1288690, 1776910, 8365310),
  (1312970, 1791499, 8178320),
  (1337700, 1801940, 8019120),
  (1362910, 1808534, 7822110),
  (1388590, 1809249, 7650150),
  (1414750, 1806750, 7552150),
  (1441410, 1803693, 7502990),
  (1468560, 1802791, 7525380),
  (1496230, 1803949, 7530660),
  (1524420, 1807081, 7588870),
  (1553150, 1813430, 7625720),
  (1582410, 1816681, 7584190),
  (1612220, 1815331, 7637330),
  (1642600, 1819607, 7832520),
  (1673550, 1827870, 7905520),
  (1705080, 1833097, 8024480),
  (1737210, 1842640, 8276630),
  (1769940, 1859949, 8507030),
  (1803290, 1886402, 8775170),
  (1837260, 1907338, 8739860),
  (1871880, 1927943, 9139570)]

/-- materials/data/tantalum_pentoxide.csv, lines 102-151 -/
def tantalumPentoxideRows2 : List (ℤ × ℤ × ℤ) := [
  (1907150, 1971030, 9507350),
  (1943080, 2018102, 9546820),
  (1979690, 2065739, 9761250),
  (2016990, 2124363, 9874700),
  (2054990, 2187821, 9858500),
  (2093710, 2252461, 9742300),
  (2133160, 2317765, 9546460),
  (2173350, 2383453, 9251420),
  (2214300, 2448583, 8848360),
  (2256020, 2510247, 8286960),
  (2298530, 2559918, 7525880),
  (2341830, 2592864, 6725830),
  (2385960, 2610037, 5912420),
  (2430910, 2614369, 5180540),
  (2476710, 2611533, 4524570),
  (2523380, 2601842, 3871310),
  (2570920, 2583646, 3269810),
  (2619360, 2558500, 2749480),
  (2668710, 2529054, 2327030),
  (2718990, 2498146, 2000340),
  (2770220, 2468192, 1758490),
  (2822420, 2440879, 1580140),
  (2875600, 2416946, 1442660),
  (2929780, 2396030, 1321920),
  (2984980, 2377475, 1215220),
  (3041220, 2361544, 1120570),
  (3098520, 2344878, 972440),
  (3156900, 2327401, 902590),
  (3216380, 2313067, 848900),
  (3276980, 2299073, 754550),
  (3338720, 2284646, 708500),
  (3401630, 2272668, 684380),
  (3465720, 2262346, 639650),
  (3531020, 2252380, 598380),
  (3597550, 2242995, 561060),
  (3665330, 2234227, 525750),
  (3734390, 2225945, 490790),
  (3804750, 2218046, 457710),
  (3876430, 2210459, 425700),
  (3949470, 2203195, 397350),
  (4023880, 2196309, 370770),
  (4099700, 2189773, 345910),
  (4176940, 2183516, 321500),
  (4255640, 2177509, 299380),
  (4335820, 2171784, 278620),
  (4417520, 2166291, 258470),
  (4500750, 2160999, 239920),
  (4585550, 2155916, 222600),
  (4671950, 2151042, 206720),
  (4759970, 2146366, 191600)]

/-- materials/data/tantalum_pentoxide.csv, lines 152-201 -/
def tantalumPentoxideRows3 : List (ℤ × ℤ × ℤ) := [
  (4849650, 2141875, 177760),
  (4941030, 2137538, 164240),
  (5034120, 2133353, 152610),
  (5128970, 2129353, 141820),
  (5225610, 2125520, 131820),
  (5324070, 2121802, 122060),
  (5424380, 2118237, 114650),
  (5526580, 2114865, 107440),
  (5630710, 2111633, 100650),
  (5736800, 2108538, 94780),
  (5844890, 2105606, 89580),
  (5955010, 2102780, 83860),
  (6067210, 2100052, 79760),
  (6181530, 2097506, 76600),
  (6297990, 2095102, 72660),
  (6416660, 2092795, 69220),
  (6537560, 2090601, 65990),
  (6660730, 2088483, 62560),
  (6786230, 2086529, 61200),
  (6914090, 2084691, 56870),
  (7044360, 2082859, 53390),
  (7177080, 2081029, 49170),
  (7312310, 2079270, 47650),
  (7450080, 2077617, 44740),
  (7590450, 2076014, 42880),
  (7733470, 2074499, 41050),
  (7879170, 2073057, 39270),
  (8027630, 2071678, 37520),
  (8178880, 2070356, 35800),
  (8332980, 2069088, 34170),
  (8489980, 2067873, 32640),
  (8649950, 2066710, 31130),
  (8812920, 2065595, 29650),
  (8978970, 2064523, 28190),
  (9148140, 2063492, 26760),
  (9320510, 2062500, 25350),
  (9496120, 2061544, 23970),
  (9675040, 2060621, 22600),
  (9857330, 2059728, 21260),
  (10043100, 2058858, 19930),
  (10232300, 2058014, 18830),
  (10425100, 2057206, 17910),
  (10621500, 2056435, 17020),
  (10821600, 2055695, 16140),
  (11025500, 2054984, 15270),
  (11233200, 2054300, 14420),
  (11444900, 2053640, 13590),
  (11660500, 2053003, 12770),
  (11880200, 2052387, 11970),
  (12104100, 2051790, 11180)]

/-- materials/data/tantalum_pentoxide.csv, lines 202-251 -/
def tantalumPentoxideRows4 : List (ℤ × ℤ × ℤ) := [
  (12332100, 2051209, 10400),
  (12564500, 2050644, 9740),
  (12801200, 2050097, 9120),
  (13042400, 2049564, 8520),
  (13288100, 2049043, 8070),
  (13538500, 2048546, 7900),
  (13793600, 2048078, 7730),
  (14053500, 2047633, 7570),
  (14318200, 2047209, 7410),
  (14588000, 2046804, 7250),
  (14862900, 2046415, 7100),
  (15142900, 2046043, 6940),
  (15201000, 2105700, 25268),
  (15435000, 2104800, 25726),
  (15672000, 2103900, 26195),
  (15912000, 2103100, 26674),
  (16157000, 2102200, 27163),
  (16404000, 2101300, 27664),
  (16656000, 2100400, 28176),
  (16912000, 2099600, 28699),
  (17172000, 2098700, 29235),
  (17435000, 2097800, 29783),
  (17703000, 2096900, 30344),
  (17974000, 2096100, 30918),
  (18250000, 2095200, 31506),
  (18530000, 2094300, 32108),
  (18815000, 2093400, 32725),
  (19104000, 2092500, 33357),
  (19397000, 2091600, 34005),
  (19695000, 2090700, 34669),
  (19997000, 2089700, 35350),
  (20304000, 2088800, 36048),
  (20615000, 2087900, 36764),
  (20932000, 2086900, 37499),
  (21253000, 2085900, 38253),
  (21579000, 2084900, 39027),
  (21911000, 2083900, 39822),
  (22247000, 2082900, 40639),
  (22588000, 2081900, 41478),
  (22935000, 2080800, 42340),
  (23287000, 2079700, 43226),
  (23644000, 2078600, 44137),
  (24007000, 2077500, 45074),
  (24376000, 2076400, 46038),
  (24750000, 2075200, 47030),
  (25130000, 2074000, 48051),
  (25516000, 2072800, 49103),
  (25907000, 2071600, 50186),
  (26305000, 2070300, 51302),
  (26709000, 2069000, 52452)]

/-- materials/data/tantalum_pentoxide.csv, lines 252-301 -/
def tantalumPentoxideRows5 : List (ℤ × ℤ × ℤ) := [
  (27119000, 2067700, 53638),
  (27535000, 2066300, 54861),
  (27957000, 2064900, 56123),
  (28387000, 2063500, 57425),
  (28822000, 2062000, 58769),
  (29265000, 2060500, 60157),
  (29714000, 2059000, 61590),
  (30170000, 2057400, 63072),
  (30633000, 2055800, 64604),
  (31103000, 2054100, 66188),
  (31581000, 2052400, 67826),
  (32065000, 2050600, 69522),
  (32557000, 2048800, 71277),
  (33057000, 2046900, 73095),
  (33565000, 2044900, 74978),
  (34080000, 2042900, 76930),
  (34603000, 2040900, 78953),
  (35134000, 2038800, 81052),
  (35673000, 2036600, 83230),
  (36221000, 2034400, 85490),
  (36777000, 2032000, 87838),
  (37341000, 2029700, 90276),
  (37914000, 2027200, 92811),
  (38496000, 2024600, 95446),
  (39087000, 2022000, 98188),
  (39687000, 2019300, 101040),
  (40296000, 2016500, 104010),
  (40915000, 2013600, 107100),
  (41543000, 2010600, 110330),
  (42180000, 2007600, 113690),
  (42828000, 2004400, 117200),
  (43485000, 2001100, 120850),
  (44153000, 1997700, 124670),
  (44830000, 1994100, 128660),
  (45518000, 1990500, 132840),
  (46217000, 1986700, 137200),
  (46926000, 1982800, 141760),
  (47647000, 1978800, 146540),
  (48378000, 1974600, 151540),
  (49121000, 1970300, 156780),
  (49875000, 1965800, 162280),
  (50640000, 1961100, 168050),
  (51417000, 1956300, 174110),
  (52207000, 1951300, 180470),
  (53008000, 1946200, 187170),
  (53821000, 1940800, 194210),
  (54648000, 1935200, 201620),
  (55486000, 1929400, 209420),
  (56338000, 1923400, 217660),
  (57203000, 1917200, 226340)]

/-- materials/data/tantalum_pentoxide.csv, lines 302-351 -/
def tantalumPentoxideRows6 : List (ℤ × ℤ × ℤ) := [
  (58081000, 1910700, 235510),
  (58972000, 1904000, 245210),
  (59877000, 1897000, 255460),
  (60796000, 1889700, 266320),
  (61730000, 1882100, 277820),
  (62677000, 1874300, 290030),
  (63639000, 1866000, 302990),
  (64616000, 1857500, 316760),
  (65608000, 1848600, 331430),
  (66615000, 1839300, 347050),
  (67637000, 1829600, 363720),
  (68675000, 1819500, 381530),
  (69729000, 1808900, 400580),
  (70800000, 1797800, 421000),
  (71886000, 1786300, 442910),
  (72990000, 1774100, 466470),
  (74110000, 1761500, 491840),
  (75247000, 1748200, 519220),
  (76402000, 1734200, 548830),
  (77575000, 1719500, 580930),
  (78766000, 1704100, 615810),
  (79975000, 1687900, 653820),
  (81202000, 1670800, 695350),
  (82449000, 1652800, 740900),
  (83714000, 1633700, 791020),
  (84999000, 1613500, 846380),
  (86304000, 1592100, 907810),
  (87628000, 1569400, 976300),
  (88973000, 1545300, 1053100),
  (90339000, 1519600, 1139700),
  (91726000, 1492200, 1238000),
  (93133000, 1462800, 1350600),
  (94563000, 1431400, 1480500),
  (96014000, 1397600, 1631900),
  (97488000, 1361400, 1810400),
  (98984000, 1322500, 2023300),
  (100500000, 1280800, 2280600),
  (102050000, 1236400, 2595700),
  (103610000, 1189800, 2986600),
  (105200000, 1142300, 3476000),
  (106820000, 1096600, 4089000),
  (108460000, 1057500, 4845500),
  (110120000, 1032400, 5742600),
  (111810000, 1029500, 6731900),
  (113530000, 1055300, 7707200),
  (115270000, 1110000, 8512900),
  (117040000, 1183300, 8985400),
  (118840000, 1253600, 9041700),
  (120660000, 1296900, 8766800),
  (122510000, 1301400, 8377400)]

/-- materials/data/tantalum_pentoxide.csv, lines 352-401 -/
def tantalumPentoxideRows7 : List (ℤ × ℤ × ℤ) := [
  (124390000, 1271100, 8081000),
  (126300000, 1217800, 7992100),
  (128240000, 1152900, 8145500),
  (130210000, 1085600, 8534000),
  (132210000, 1022400, 9131000),
  (134240000, 967970, 9899500),
  (136300000, 925210, 10797000),
  (138390000, 895140, 11784000),
  (140510000, 877590, 12828000),
  (142670000, 871760, 13906000),
  (144860000, 876760, 15003000),
  (147080000, 891870, 16113000),
  (149340000, 916700, 17230000),
  (151630000, 951170, 18352000),
  (153960000, 995530, 19475000),
  (156320000, 1050300, 20597000),
  (158720000, 1116300, 21712000),
  (161160000, 1194700, 22810000),
  (163630000, 1286500, 23879000),
  (166140000, 1393000, 24899000),
  (168690000, 1515400, 25844000),
  (171280000, 1654500, 26678000),
  (173910000, 1810000, 27358000),
  (176580000, 1980500, 27831000),
  (179290000, 2162400, 28043000),
  (182040000, 2350100, 27945000),
  (184840000, 2535400, 27508000),
  (187680000, 2708700, 26732000),
  (190560000, 2860700, 25654000),
  (193480000, 2984000, 24344000),
  (196450000, 3074400, 22893000),
  (199470000, 3131400, 21394000),
  (202530000, 3157300, 19927000),
  (205640000, 3156200, 18549000),
  (208790000, 3132900, 17299000),
  (212000000, 3092100, 16197000),
  (215250000, 3037800, 15249000),
  (218560000, 2973200, 14455000),
  (221910000, 2900900, 13809000),
  (225320000, 2822800, 13306000),
  (228770000, 2740400, 12940000),
  (232290000, 2654600, 12708000),
  (235850000, 2566600, 12607000),
  (239470000, 2477000, 12638000),
  (243150000, 2386800, 12805000),
  (246880000, 2297300, 13113000),
  (250670000, 2209800, 13567000),
  (254520000, 2126500, 14173000),
  (258420000, 2050000, 14933000),
  (262390000, 1983100, 15843000)]

/-- materials/data/tantalum_pentoxide.csv, lines 402-429 -/
def tantalumPentoxideRows8 : List (ℤ × ℤ × ℤ) := [
  (266420000, 1929400, 16888000),
  (270510000, 1891900, 18046000),
  (274660000, 1873500, 19282000),
  (278870000, 1876100, 20552000),
  (283150000, 1900700, 21804000),
  (287500000, 1947000, 22979000),
  (291910000, 2012600, 24012000),
  (296390000, 2092600, 24839000),
  (300940000, 2179000, 25412000),
  (305560000, 2261300, 25718000),
  (310250000, 2328200, 25792000),
  (315010000, 2371100, 25720000),
  (319850000, 2385700, 25621000),
  (324760000, 2373800, 25615000),
  (329740000, 2341300, 25796000),
  (334800000, 2296400, 26221000),
  (339940000, 2248100, 26913000),
  (345160000, 2204000, 27863000),
  (350460000, 2170500, 29044000),
  (355840000, 2152000, 30421000),
  (361300000, 2151400, 31956000),
  (366840000, 2170600, 33615000),
  (372480000, 2211000, 35367000),
  (378190000, 2273500, 37188000),
  (384000000, 2359300, 39055000),
  (389890000, 2469500, 40944000),
  (395880000, 2605800, 42833000),
  (401950000, 2770000, 44690000)]

/-- materials/data/tantalum_pentoxide.csv (428 rows), as scaled integers -/
def tantalumPentoxideRows : List (ℤ × ℤ × ℤ) :=
  [tantalumPentoxideRows0, tantalumPentoxideRows1, tantalumPentoxideRows2, tantalumPentoxideRows3, tantalumPentoxideRows4, tantalumPentoxideRows5, tantalumPentoxideRows6, tantalumPentoxideRows7, tantalumPentoxideRows8].flatten

/-- materials/data/tantalum_pentoxide.csv -/
def tantalumPentoxideTable : List (MatRow ℚ) := mkTable 10000000 1000000 10000000 tantalumPentoxideRows

/-- materials/data/titanium_oxide.csv, lines 2-51 -/
def titaniumOxideRows0 : List (ℤ × ℤ × ℤ) := [
  (200602492, 1919332825, 1273978672000000000000000000000000000000000000000000000000000000000000000000000000000000000000000000000000000000000000000000000000000000000000000000000000000000000000000000000000000000000000000000000000000000000000000000000000000000000000000000000000000000000000000000000000000000000000000000000000000000000000000000000000000),
  (201760583, 1924812230, 1278812136000000000000000000000000000000000000000000000000000000000000000000000000000000000000000000000000000000000000000000000000000000000000000000000000000000000000000000000000000000000000000000000000000000000000000000000000000000000000000000000000000000000000000000000000000000000000000000000000000000000000000000000000000),
  (202925359, 1930641143, 1283915961000000000000000000000000000000000000000000000000000000000000000000000000000000000000000000000000000000000000000000000000000000000000000000000000000000000000000000000000000000000000000000000000000000000000000000000000000000000000000000000000000000000000000000000000000000000000000000000000000000000000000000000000000),
  (204096860, 1936834271, 1289268884000000000000000000000000000000000000000000000000000000000000000000000000000000000000000000000000000000000000000000000000000000000000000000000000000000000000000000000000000000000000000000000000000000000000000000000000000000000000000000000000000000000000000000000000000000000000000000000000000000000000000000000000000),
  (205275124, 1943404972, 1294849587000000000000000000000000000000000000000000000000000000000000000000000000000000000000000000000000000000000000000000000000000000000000000000000000000000000000000000000000000000000000000000000000000000000000000000000000000000000000000000000000000000000000000000000000000000000000000000000000000000000000000000000000000),
  (206460191, 1950365309, 1300636761000000000000000000000000000000000000000000000000000000000000000000000000000000000000000000000000000000000000000000000000000000000000000000000000000000000000000000000000000000000000000000000000000000000000000000000000000000000000000000000000000000000000000000000000000000000000000000000000000000000000000000000000000),
  (207652098, 1957726110, 1306609173000000000000000000000000000000000000000000000000000000000000000000000000000000000000000000000000000000000000000000000000000000000000000000000000000000000000000000000000000000000000000000000000000000000000000000000000000000000000000000000000000000000000000000000000000000000000000000000000000000000000000000000000000),
  (208850887, 1965497026, 1312745730000000000000000000000000000000000000000000000000000000000000000000000000000000000000000000000000000000000000000000000000000000000000000000000000000000000000000000000000000000000000000000000000000000000000000000000000000000000000000000000000000000000000000000000000000000000000000000000000000000000000000000000000000),
  (210056596, 1973686583, 1319025535000000000000000000000000000000000000000000000000000000000000000000000000000000000000000000000000000000000000000000000000000000000000000000000000000000000000000000000000000000000000000000000000000000000000000000000000000000000000000000000000000000000000000000000000000000000000000000000000000000000000000000000000000),
  (211269266, 1982302247, 1325427946000000000000000000000000000000000000000000000000000000000000000000000000000000000000000000000000000000000000000000000000000000000000000000000000000000000000000000000000000000000000000000000000000000000000000000000000000000000000000000000000000000000000000000000000000000000000000000000000000000000000000000000000000),
  (212488937, 1991350471, 1331932637000000000000000000000000000000000000000000000000000000000000000000000000000000000000000000000000000000000000000000000000000000000000000000000000000000000000000000000000000000000000000000000000000000000000000000000000000000000000000000000000000000000000000000000000000000000000000000000000000000000000000000000000000),
  (213715649, 2000836765, 1338519654000000000000000000000000000000000000000000000000000000000000000000000000000000000000000000000000000000000000000000000000000000000000000000000000000000000000000000000000000000000000000000000000000000000000000000000000000000000000000000000000000000000000000000000000000000000000000000000000000000000000000000000000000),
  (214949443, 2010765753, 1345169476000000000000000000000000000000000000000000000000000000000000000000000000000000000000000000000000000000000000000000000000000000000000000000000000000000000000000000000000000000000000000000000000000000000000000000000000000000000000000000000000000000000000000000000000000000000000000000000000000000000000000000000000000),
  (216190360, 2021141244, 1351863077000000000000000000000000000000000000000000000000000000000000000000000000000000000000000000000000000000000000000000000000000000000000000000000000000000000000000000000000000000000000000000000000000000000000000000000000000000000000000000000000000000000000000000000000000000000000000000000000000000000000000000000000000),
  (217438440, 2031966309, 1358581986000000000000000000000000000000000000000000000000000000000000000000000000000000000000000000000000000000000000000000000000000000000000000000000000000000000000000000000000000000000000000000000000000000000000000000000000000000000000000000000000000000000000000000000000000000000000000000000000000000000000000000000000000),
  (218693726, 2043243366, 1365308347000000000000000000000000000000000000000000000000000000000000000000000000000000000000000000000000000000000000000000000000000000000000000000000000000000000000000000000000000000000000000000000000000000000000000000000000000000000000000000000000000000000000000000000000000000000000000000000000000000000000000000000000000),
  (219956259, 2054974273, 1372024983000000000000000000000000000000000000000000000000000000000000000000000000000000000000000000000000000000000000000000000000000000000000000000000000000000000000000000000000000000000000000000000000000000000000000000000000000000000000000000000000000000000000000000000000000000000000000000000000000000000000000000000000000),
  (221226080, 2067160439, 1378715457000000000000000000000000000000000000000000000000000000000000000000000000000000000000000000000000000000000000000000000000000000000000000000000000000000000000000000000000000000000000000000000000000000000000000000000000000000000000000000000000000000000000000000000000000000000000000000000000000000000000000000000000000),
  (222503232, 2079802943, 1385364122000000000000000000000000000000000000000000000000000000000000000000000000000000000000000000000000000000000000000000000000000000000000000000000000000000000000000000000000000000000000000000000000000000000000000000000000000000000000000000000000000000000000000000000000000000000000000000000000000000000000000000000000000),
  (223787757, 2092902681, 1391956176000000000000000000000000000000000000000000000000000000000000000000000000000000000000000000000000000000000000000000000000000000000000000000000000000000000000000000000000000000000000000000000000000000000000000000000000000000000000000000000000000000000000000000000000000000000000000000000000000000000000000000000000000),
  (225079698, 2106460517, 1398477705000000000000000000000000000000000000000000000000000000000000000000000000000000000000000000000000000000000000000000000000000000000000000000000000000000000000000000000000000000000000000000000000000000000000000000000000000000000000000000000000000000000000000000000000000000000000000000000000000000000000000000000000000),
  (226379097, 2120477468, 1404915705000000000000000000000000000000000000000000000000000000000000000000000000000000000000000000000000000000000000000000000000000000000000000000000000000000000000000000000000000000000000000000000000000000000000000000000000000000000000000000000000000000000000000000000000000000000000000000000000000000000000000000000000000),
  (227685998, 2134954902, 1411258104000000000000000000000000000000000000000000000000000000000000000000000000000000000000000000000000000000000000000000000000000000000000000000000000000000000000000000000000000000000000000000000000000000000000000000000000000000000000000000000000000000000000000000000000000000000000000000000000000000000000000000000000000),
  (229000444, 2149894766, 1417493744000000000000000000000000000000000000000000000000000000000000000000000000000000000000000000000000000000000000000000000000000000000000000000000000000000000000000000000000000000000000000000000000000000000000000000000000000000000000000000000000000000000000000000000000000000000000000000000000000000000000000000000000000),
  (230322478, 2165299831, 1423612350000000000000000000000000000000000000000000000000000000000000000000000000000000000000000000000000000000000000000000000000000000000000000000000000000000000000000000000000000000000000000000000000000000000000000000000000000000000000000000000000000000000000000000000000000000000000000000000000000000000000000000000000000),
  (231652144, 2181173966, 1429604458000000000000000000000000000000000000000000000000000000000000000000000000000000000000000000000000000000000000000000000000000000000000000000000000000000000000000000000000000000000000000000000000000000000000000000000000000000000000000000000000000000000000000000000000000000000000000000000000000000000000000000000000000),
  (232989486, 2197522434, 1435461299000000000000000000000000000000000000000000000000000000000000000000000000000000000000000000000000000000000000000000000000000000000000000000000000000000000000000000000000000000000000000000000000000000000000000000000000000000000000000000000000000000000000000000000000000000000000000000000000000000000000000000000000000),
  (234334549, 2214352199, 1441174638000000000000000000000000000000000000000000000000000000000000000000000000000000000000000000000000000000000000000000000000000000000000000000000000000000000000000000000000000000000000000000000000000000000000000000000000000000000000000000000000000000000000000000000000000000000000000000000000000000000000000000000000000),
  (235687377, 2231672262, 1446736546000000000000000000000000000000000000000000000000000000000000000000000000000000000000000000000000000000000000000000000000000000000000000000000000000000000000000000000000000000000000000000000000000000000000000000000000000000000000000000000000000000000000000000000000000000000000000000000000000000000000000000000000000),
  (237048015, 2249493991, 1452139109000000000000000000000000000000000000000000000000000000000000000000000000000000000000000000000000000000000000000000000000000000000000000000000000000000000000000000000000000000000000000000000000000000000000000000000000000000000000000000000000000000000000000000000000000000000000000000000000000000000000000000000000000),
  (238416509, 2267831462, 1457374052000000000000000000000000000000000000000000000000000000000000000000000000000000000000000000000000000000000000000000000000000000000000000000000000000000000000000000000000000000000000000000000000000000000000000000000000000000000000000000000000000000000000000000000000000000000000000000000000000000000000000000000000000),
  (239792902, 2286701784, 1462432271000000000000000000000000000000000000000000000000000000000000000000000000000000000000000000000000000000000000000000000000000000000000000000000000000000000000000000000000000000000000000000000000000000000000000000000000000000000000000000000000000000000000000000000000000000000000000000000000000000000000000000000000000),
  (241177242, 2306125399, 1467303267000000000000000000000000000000000000000000000000000000000000000000000000000000000000000000000000000000000000000000000000000000000000000000000000000000000000000000000000000000000000000000000000000000000000000000000000000000000000000000000000000000000000000000000000000000000000000000000000000000000000000000000000000),
  (242569573, 2326126335, 1471974463000000000000000000000000000000000000000000000000000000000000000000000000000000000000000000000000000000000000000000000000000000000000000000000000000000000000000000000000000000000000000000000000000000000000000000000000000000000000000000000000000000000000000000000000000000000000000000000000000000000000000000000000000),
  (243969942, 2346732397, 1476430411000000000000000000000000000000000000000000000000000000000000000000000000000000000000000000000000000000000000000000000000000000000000000000000000000000000000000000000000000000000000000000000000000000000000000000000000000000000000000000000000000000000000000000000000000000000000000000000000000000000000000000000000000),
  (245378396, 2367975255, 1480651860000000000000000000000000000000000000000000000000000000000000000000000000000000000000000000000000000000000000000000000000000000000000000000000000000000000000000000000000000000000000000000000000000000000000000000000000000000000000000000000000000000000000000000000000000000000000000000000000000000000000000000000000000),
  (246794981, 2389890414, 1484614713000000000000000000000000000000000000000000000000000000000000000000000000000000000000000000000000000000000000000000000000000000000000000000000000000000000000000000000000000000000000000000000000000000000000000000000000000000000000000000000000000000000000000000000000000000000000000000000000000000000000000000000000000),
  (248219744, 2412517012, 1488288845000000000000000000000000000000000000000000000000000000000000000000000000000000000000000000000000000000000000000000000000000000000000000000000000000000000000000000000000000000000000000000000000000000000000000000000000000000000000000000000000000000000000000000000000000000000000000000000000000000000000000000000000000),
  (249652732, 2435897409, 1491636818000000000000000000000000000000000000000000000000000000000000000000000000000000000000000000000000000000000000000000000000000000000000000000000000000000000000000000000000000000000000000000000000000000000000000000000000000000000000000000000000000000000000000000000000000000000000000000000000000000000000000000000000000),
  (251093993, 2460076527, 1494612502000000000000000000000000000000000000000000000000000000000000000000000000000000000000000000000000000000000000000000000000000000000000000000000000000000000000000000000000000000000000000000000000000000000000000000000000000000000000000000000000000000000000000000000000000000000000000000000000000000000000000000000000000),
  (252543575, 2485100876, 1497159628000000000000000000000000000000000000000000000000000000000000000000000000000000000000000000000000000000000000000000000000000000000000000000000000000000000000000000000000000000000000000000000000000000000000000000000000000000000000000000000000000000000000000000000000000000000000000000000000000000000000000000000000000),
  (254001525, 2511017217, 1499210337000000000000000000000000000000000000000000000000000000000000000000000000000000000000000000000000000000000000000000000000000000000000000000000000000000000000000000000000000000000000000000000000000000000000000000000000000000000000000000000000000000000000000000000000000000000000000000000000000000000000000000000000000),
  (255467892, 2537870818, 1500683774000000000000000000000000000000000000000000000000000000000000000000000000000000000000000000000000000000000000000000000000000000000000000000000000000000000000000000000000000000000000000000000000000000000000000000000000000000000000000000000000000000000000000000000000000000000000000000000000000000000000000000000000000),
  (256942724, 2565703239, 1501484828000000000000000000000000000000000000000000000000000000000000000000000000000000000000000000000000000000000000000000000000000000000000000000000000000000000000000000000000000000000000000000000000000000000000000000000000000000000000000000000000000000000000000000000000000000000000000000000000000000000000000000000000000),
  (258426070, 2594549628, 1501503119000000000000000000000000000000000000000000000000000000000000000000000000000000000000000000000000000000000000000000000000000000000000000000000000000000000000000000000000000000000000000000000000000000000000000000000000000000000000000000000000000000000000000000000000000000000000000000000000000000000000000000000000000),
  (259917980, 2624435493, 1500612376000000000000000000000000000000000000000000000000000000000000000000000000000000000000000000000000000000000000000000000000000000000000000000000000000000000000000000000000000000000000000000000000000000000000000000000000000000000000000000000000000000000000000000000000000000000000000000000000000000000000000000000000000),
  (261418503, 2655372990, 1498670376000000000000000000000000000000000000000000000000000000000000000000000000000000000000000000000000000000000000000000000000000000000000000000000000000000000000000000000000000000000000000000000000000000000000000000000000000000000000000000000000000000000000000000000000000000000000000000000000000000000000000000000000000),
  (262927689, 2687356747, 1495519616000000000000000000000000000000000000000000000000000000000000000000000000000000000000000000000000000000000000000000000000000000000000000000000000000000000000000000000000000000000000000000000000000000000000000000000000000000000000000000000000000000000000000000000000000000000000000000000000000000000000000000000000000),
  (264445587, 2720359379, 1490988935000000000000000000000000000000000000000000000000000000000000000000000000000000000000000000000000000000000000000000000000000000000000000000000000000000000000000000000000000000000000000000000000000000000000000000000000000000000000000000000000000000000000000000000000000000000000000000000000000000000000000000000000000),
  (265972248, 2754326849, 1484896274000000000000000000000000000000000000000000000000000000000000000000000000000000000000000000000000000000000000000000000000000000000000000000000000000000000000000000000000000000000000000000000000000000000000000000000000000000000000000000000000000000000000000000000000000000000000000000000000000000000000000000000000000)]

/-- materials/data/titanium_oxide.csv, lines 52-101 -/
def titaniumOxideRows1 : List (ℤ × ℤ × ℤ) := [
  (267507722, 2789173955, 1477052767000000000000000000000000000000000000000000000000000000000000000000000000000000000000000000000000000000000000000000000000000000000000000000000000000000000000000000000000000000000000000000000000000000000000000000000000000000000000000000000000000000000000000000000000000000000000000000000000000000000000000000000000000),
  (269052061, 2824780311, 1467268270000000000000000000000000000000000000000000000000000000000000000000000000000000000000000000000000000000000000000000000000000000000000000000000000000000000000000000000000000000000000000000000000000000000000000000000000000000000000000000000000000000000000000000000000000000000000000000000000000000000000000000000000000),
  (270605316, 2860987245, 1455358385000000000000000000000000000000000000000000000000000000000000000000000000000000000000000000000000000000000000000000000000000000000000000000000000000000000000000000000000000000000000000000000000000000000000000000000000000000000000000000000000000000000000000000000000000000000000000000000000000000000000000000000000000),
  (272167537, 2897596157, 1441152857000000000000000000000000000000000000000000000000000000000000000000000000000000000000000000000000000000000000000000000000000000000000000000000000000000000000000000000000000000000000000000000000000000000000000000000000000000000000000000000000000000000000000000000000000000000000000000000000000000000000000000000000000),
  (273738778, 2934368840, 1424505081000000000000000000000000000000000000000000000000000000000000000000000000000000000000000000000000000000000000000000000000000000000000000000000000000000000000000000000000000000000000000000000000000000000000000000000000000000000000000000000000000000000000000000000000000000000000000000000000000000000000000000000000000),
  (275319089, 2971030311, 1405302227000000000000000000000000000000000000000000000000000000000000000000000000000000000000000000000000000000000000000000000000000000000000000000000000000000000000000000000000000000000000000000000000000000000000000000000000000000000000000000000000000000000000000000000000000000000000000000000000000000000000000000000000000),
  (276908523, 3007274489, 1383475275000000000000000000000000000000000000000000000000000000000000000000000000000000000000000000000000000000000000000000000000000000000000000000000000000000000000000000000000000000000000000000000000000000000000000000000000000000000000000000000000000000000000000000000000000000000000000000000000000000000000000000000000000),
  (278507134, 3042772940, 1359008080000000000000000000000000000000000000000000000000000000000000000000000000000000000000000000000000000000000000000000000000000000000000000000000000000000000000000000000000000000000000000000000000000000000000000000000000000000000000000000000000000000000000000000000000000000000000000000000000000000000000000000000000000),
  (280114973, 3077186514, 1331944430000000000000000000000000000000000000000000000000000000000000000000000000000000000000000000000000000000000000000000000000000000000000000000000000000000000000000000000000000000000000000000000000000000000000000000000000000000000000000000000000000000000000000000000000000000000000000000000000000000000000000000000000000),
  (281732094, 3110179390, 1302392102000000000000000000000000000000000000000000000000000000000000000000000000000000000000000000000000000000000000000000000000000000000000000000000000000000000000000000000000000000000000000000000000000000000000000000000000000000000000000000000000000000000000000000000000000000000000000000000000000000000000000000000000000),
  (283358551, 3141434636, 1270523029000000000000000000000000000000000000000000000000000000000000000000000000000000000000000000000000000000000000000000000000000000000000000000000000000000000000000000000000000000000000000000000000000000000000000000000000000000000000000000000000000000000000000000000000000000000000000000000000000000000000000000000000000),
  (284994398, 3170670042, 1236569026000000000000000000000000000000000000000000000000000000000000000000000000000000000000000000000000000000000000000000000000000000000000000000000000000000000000000000000000000000000000000000000000000000000000000000000000000000000000000000000000000000000000000000000000000000000000000000000000000000000000000000000000000),
  (286639689, 3197652813, 1200812935000000000000000000000000000000000000000000000000000000000000000000000000000000000000000000000000000000000000000000000000000000000000000000000000000000000000000000000000000000000000000000000000000000000000000000000000000000000000000000000000000000000000000000000000000000000000000000000000000000000000000000000000000),
  (288294478, 3222211638, 1163575605000000000000000000000000000000000000000000000000000000000000000000000000000000000000000000000000000000000000000000000000000000000000000000000000000000000000000000000000000000000000000000000000000000000000000000000000000000000000000000000000000000000000000000000000000000000000000000000000000000000000000000000000000),
  (289958820, 3244244878, 1125199579000000000000000000000000000000000000000000000000000000000000000000000000000000000000000000000000000000000000000000000000000000000000000000000000000000000000000000000000000000000000000000000000000000000000000000000000000000000000000000000000000000000000000000000000000000000000000000000000000000000000000000000000000),
  (291632771, 3263723918, 1086030806000000000000000000000000000000000000000000000000000000000000000000000000000000000000000000000000000000000000000000000000000000000000000000000000000000000000000000000000000000000000000000000000000000000000000000000000000000000000000000000000000000000000000000000000000000000000000000000000000000000000000000000000000),
  (293316385, 3280691274, 1046399899000000000000000000000000000000000000000000000000000000000000000000000000000000000000000000000000000000000000000000000000000000000000000000000000000000000000000000000000000000000000000000000000000000000000000000000000000000000000000000000000000000000000000000000000000000000000000000000000000000000000000000000000000),
  (295009719, 3295253500, 1006604526000000000000000000000000000000000000000000000000000000000000000000000000000000000000000000000000000000000000000000000000000000000000000000000000000000000000000000000000000000000000000000000000000000000000000000000000000000000000000000000000000000000000000000000000000000000000000000000000000000000000000000000000000),
  (296712829, 3307569454, 966894382000000000000000000000000000000000000000000000000000000000000000000000000000000000000000000000000000000000000000000000000000000000000000000000000000000000000000000000000000000000000000000000000000000000000000000000000000000000000000000000000000000000000000000000000000000000000000000000000000000000000000000000000000),
  (298425770, 3317834820, 927459912000000000000000000000000000000000000000000000000000000000000000000000000000000000000000000000000000000000000000000000000000000000000000000000000000000000000000000000000000000000000000000000000000000000000000000000000000000000000000000000000000000000000000000000000000000000000000000000000000000000000000000000000000),
  (300148601, 3326264045, 888425686000000000000000000000000000000000000000000000000000000000000000000000000000000000000000000000000000000000000000000000000000000000000000000000000000000000000000000000000000000000000000000000000000000000000000000000000000000000000000000000000000000000000000000000000000000000000000000000000000000000000000000000000000),
  (301881378, 3333070975, 849848970000000000000000000000000000000000000000000000000000000000000000000000000000000000000000000000000000000000000000000000000000000000000000000000000000000000000000000000000000000000000000000000000000000000000000000000000000000000000000000000000000000000000000000000000000000000000000000000000000000000000000000000000000),
  (303624158, 3338449577, 811723762000000000000000000000000000000000000000000000000000000000000000000000000000000000000000000000000000000000000000000000000000000000000000000000000000000000000000000000000000000000000000000000000000000000000000000000000000000000000000000000000000000000000000000000000000000000000000000000000000000000000000000000000000),
  (305377000, 3342556216, 773990292000000000000000000000000000000000000000000000000000000000000000000000000000000000000000000000000000000000000000000000000000000000000000000000000000000000000000000000000000000000000000000000000000000000000000000000000000000000000000000000000000000000000000000000000000000000000000000000000000000000000000000000000000),
  (307139960, 3345495026, 736549600000000000000000000000000000000000000000000000000000000000000000000000000000000000000000000000000000000000000000000000000000000000000000000000000000000000000000000000000000000000000000000000000000000000000000000000000000000000000000000000000000000000000000000000000000000000000000000000000000000000000000000000000000),
  (308913099, 3347307940, 699282422000000000000000000000000000000000000000000000000000000000000000000000000000000000000000000000000000000000000000000000000000000000000000000000000000000000000000000000000000000000000000000000000000000000000000000000000000000000000000000000000000000000000000000000000000000000000000000000000000000000000000000000000000),
  (310696473, 3347970884, 662071018000000000000000000000000000000000000000000000000000000000000000000000000000000000000000000000000000000000000000000000000000000000000000000000000000000000000000000000000000000000000000000000000000000000000000000000000000000000000000000000000000000000000000000000000000000000000000000000000000000000000000000000000000),
  (312490144, 3347397253, 624821934000000000000000000000000000000000000000000000000000000000000000000000000000000000000000000000000000000000000000000000000000000000000000000000000000000000000000000000000000000000000000000000000000000000000000000000000000000000000000000000000000000000000000000000000000000000000000000000000000000000000000000000000000),
  (314294169, 3345449140, 587487110000000000000000000000000000000000000000000000000000000000000000000000000000000000000000000000000000000000000000000000000000000000000000000000000000000000000000000000000000000000000000000000000000000000000000000000000000000000000000000000000000000000000000000000000000000000000000000000000000000000000000000000000000),
  (316108609, 3341955695, 550080434000000000000000000000000000000000000000000000000000000000000000000000000000000000000000000000000000000000000000000000000000000000000000000000000000000000000000000000000000000000000000000000000000000000000000000000000000000000000000000000000000000000000000000000000000000000000000000000000000000000000000000000000000),
  (317933524, 3336736741, 512687041000000000000000000000000000000000000000000000000000000000000000000000000000000000000000000000000000000000000000000000000000000000000000000000000000000000000000000000000000000000000000000000000000000000000000000000000000000000000000000000000000000000000000000000000000000000000000000000000000000000000000000000000000),
  (319768974, 3329628593, 475463545000000000000000000000000000000000000000000000000000000000000000000000000000000000000000000000000000000000000000000000000000000000000000000000000000000000000000000000000000000000000000000000000000000000000000000000000000000000000000000000000000000000000000000000000000000000000000000000000000000000000000000000000000),
  (321615021, 3320508329, 438628806000000000000000000000000000000000000000000000000000000000000000000000000000000000000000000000000000000000000000000000000000000000000000000000000000000000000000000000000000000000000000000000000000000000000000000000000000000000000000000000000000000000000000000000000000000000000000000000000000000000000000000000000000),
  (323471724, 3309312824, 402446598000000000000000000000000000000000000000000000000000000000000000000000000000000000000000000000000000000000000000000000000000000000000000000000000000000000000000000000000000000000000000000000000000000000000000000000000000000000000000000000000000000000000000000000000000000000000000000000000000000000000000000000000000),
  (325339147, 3296049866, 367203015000000000000000000000000000000000000000000000000000000000000000000000000000000000000000000000000000000000000000000000000000000000000000000000000000000000000000000000000000000000000000000000000000000000000000000000000000000000000000000000000000000000000000000000000000000000000000000000000000000000000000000000000000),
  (327217350, 3280800175, 333182330000000000000000000000000000000000000000000000000000000000000000000000000000000000000000000000000000000000000000000000000000000000000000000000000000000000000000000000000000000000000000000000000000000000000000000000000000000000000000000000000000000000000000000000000000000000000000000000000000000000000000000000000000),
  (329106397, 3263710979, 300644969000000000000000000000000000000000000000000000000000000000000000000000000000000000000000000000000000000000000000000000000000000000000000000000000000000000000000000000000000000000000000000000000000000000000000000000000000000000000000000000000000000000000000000000000000000000000000000000000000000000000000000000000000),
  (331006349, 3244983155, 269810400000000000000000000000000000000000000000000000000000000000000000000000000000000000000000000000000000000000000000000000000000000000000000000000000000000000000000000000000000000000000000000000000000000000000000000000000000000000000000000000000000000000000000000000000000000000000000000000000000000000000000000000000000),
  (332917269, 3224854738, 240846436000000000000000000000000000000000000000000000000000000000000000000000000000000000000000000000000000000000000000000000000000000000000000000000000000000000000000000000000000000000000000000000000000000000000000000000000000000000000000000000000000000000000000000000000000000000000000000000000000000000000000000000000000),
  (334839222, 3203583603, 213865080000000000000000000000000000000000000000000000000000000000000000000000000000000000000000000000000000000000000000000000000000000000000000000000000000000000000000000000000000000000000000000000000000000000000000000000000000000000000000000000000000000000000000000000000000000000000000000000000000000000000000000000000000),
  (336772270, 3181431616, 188923971000000000000000000000000000000000000000000000000000000000000000000000000000000000000000000000000000000000000000000000000000000000000000000000000000000000000000000000000000000000000000000000000000000000000000000000000000000000000000000000000000000000000000000000000000000000000000000000000000000000000000000000000000),
  (338716477, 3158651695, 166031931000000000000000000000000000000000000000000000000000000000000000000000000000000000000000000000000000000000000000000000000000000000000000000000000000000000000000000000000000000000000000000000000000000000000000000000000000000000000000000000000000000000000000000000000000000000000000000000000000000000000000000000000000),
  (340671909, 3135478420, 145156933000000000000000000000000000000000000000000000000000000000000000000000000000000000000000000000000000000000000000000000000000000000000000000000000000000000000000000000000000000000000000000000000000000000000000000000000000000000000000000000000000000000000000000000000000000000000000000000000000000000000000000000000000),
  (342638629, 3112122158, 126235036000000000000000000000000000000000000000000000000000000000000000000000000000000000000000000000000000000000000000000000000000000000000000000000000000000000000000000000000000000000000000000000000000000000000000000000000000000000000000000000000000000000000000000000000000000000000000000000000000000000000000000000000000),
  (344616703, 3088766233, 109179156000000000000000000000000000000000000000000000000000000000000000000000000000000000000000000000000000000000000000000000000000000000000000000000000000000000000000000000000000000000000000000000000000000000000000000000000000000000000000000000000000000000000000000000000000000000000000000000000000000000000000000000000000),
  (346606197, 3065566491, 93886970000000000000000000000000000000000000000000000000000000000000000000000000000000000000000000000000000000000000000000000000000000000000000000000000000000000000000000000000000000000000000000000000000000000000000000000000000000000000000000000000000000000000000000000000000000000000000000000000000000000000000000000000000),
  (348607177, 3042652558, 80247564000000000000000000000000000000000000000000000000000000000000000000000000000000000000000000000000000000000000000000000000000000000000000000000000000000000000000000000000000000000000000000000000000000000000000000000000000000000000000000000000000000000000000000000000000000000000000000000000000000000000000000000000000),
  (350619708, 3020130186, 68146726000000000000000000000000000000000000000000000000000000000000000000000000000000000000000000000000000000000000000000000000000000000000000000000000000000000000000000000000000000000000000000000000000000000000000000000000000000000000000000000000000000000000000000000000000000000000000000000000000000000000000000000000000),
  (352643858, 2998084204, 57470940000000000000000000000000000000000000000000000000000000000000000000000000000000000000000000000000000000000000000000000000000000000000000000000000000000000000000000000000000000000000000000000000000000000000000000000000000000000000000000000000000000000000000000000000000000000000000000000000000000000000000000000000000),
  (354679693, 2976581707, 48110237000000000000000000000000000000000000000000000000000000000000000000000000000000000000000000000000000000000000000000000000000000000000000000000000000000000000000000000000000000000000000000000000000000000000000000000000000000000000000000000000000000000000000000000000000000000000000000000000000000000000000000000000000)]

/-- materials/data/titanium_oxide.csv, lines 102-151 -/
def titaniumOxideRows2 : List (ℤ × ℤ × ℤ) := [
  (356727281, 2955675292, 39960099000000000000000000000000000000000000000000000000000000000000000000000000000000000000000000000000000000000000000000000000000000000000000000000000000000000000000000000000000000000000000000000000000000000000000000000000000000000000000000000000000000000000000000000000000000000000000000000000000000000000000000000000000),
  (358786690, 2935406233, 32922617000000000000000000000000000000000000000000000000000000000000000000000000000000000000000000000000000000000000000000000000000000000000000000000000000000000000000000000000000000000000000000000000000000000000000000000000000000000000000000000000000000000000000000000000000000000000000000000000000000000000000000000000000),
  (360857988, 2915807649, 26907082000000000000000000000000000000000000000000000000000000000000000000000000000000000000000000000000000000000000000000000000000000000000000000000000000000000000000000000000000000000000000000000000000000000000000000000000000000000000000000000000000000000000000000000000000000000000000000000000000000000000000000000000000),
  (362941244, 2896907944, 21830154000000000000000000000000000000000000000000000000000000000000000000000000000000000000000000000000000000000000000000000000000000000000000000000000000000000000000000000000000000000000000000000000000000000000000000000000000000000000000000000000000000000000000000000000000000000000000000000000000000000000000000000000000),
  (365036527, 2878735503, 17615748000000000000000000000000000000000000000000000000000000000000000000000000000000000000000000000000000000000000000000000000000000000000000000000000000000000000000000000000000000000000000000000000000000000000000000000000000000000000000000000000000000000000000000000000000000000000000000000000000000000000000000000000000),
  (367143906, 2861331566, 14193178000000000000000000000000000000000000000000000000000000000000000000000000000000000000000000000000000000000000000000000000000000000000000000000000000000000000000000000000000000000000000000000000000000000000000000000000000000000000000000000000000000000000000000000000000000000000000000000000000000000000000000000000000),
  (369263451, 2844754292, 11448502000000000000000000000000000000000000000000000000000000000000000000000000000000000000000000000000000000000000000000000000000000000000000000000000000000000000000000000000000000000000000000000000000000000000000000000000000000000000000000000000000000000000000000000000000000000000000000000000000000000000000000000000000),
  (371395232, 2828999505, 9244534000000000000000000000000000000000000000000000000000000000000000000000000000000000000000000000000000000000000000000000000000000000000000000000000000000000000000000000000000000000000000000000000000000000000000000000000000000000000000000000000000000000000000000000000000000000000000000000000000000000000000000000000000),
  (373539320, 2814033296, 7472892000000000000000000000000000000000000000000000000000000000000000000000000000000000000000000000000000000000000000000000000000000000000000000000000000000000000000000000000000000000000000000000000000000000000000000000000000000000000000000000000000000000000000000000000000000000000000000000000000000000000000000000000000),
  (375695786, 2799811622, 6047299000000000000000000000000000000000000000000000000000000000000000000000000000000000000000000000000000000000000000000000000000000000000000000000000000000000000000000000000000000000000000000000000000000000000000000000000000000000000000000000000000000000000000000000000000000000000000000000000000000000000000000000000000),
  (377864701, 2786286984, 4898981000000000000000000000000000000000000000000000000000000000000000000000000000000000000000000000000000000000000000000000000000000000000000000000000000000000000000000000000000000000000000000000000000000000000000000000000000000000000000000000000000000000000000000000000000000000000000000000000000000000000000000000000000),
  (380046138, 2773411776, 3973052000000000000000000000000000000000000000000000000000000000000000000000000000000000000000000000000000000000000000000000000000000000000000000000000000000000000000000000000000000000000000000000000000000000000000000000000000000000000000000000000000000000000000000000000000000000000000000000000000000000000000000000000000),
  (382240168, 2761140053, 3225668000000000000000000000000000000000000000000000000000000000000000000000000000000000000000000000000000000000000000000000000000000000000000000000000000000000000000000000000000000000000000000000000000000000000000000000000000000000000000000000000000000000000000000000000000000000000000000000000000000000000000000000000000),
  (384446865, 2749428435, 2621769000000000000000000000000000000000000000000000000000000000000000000000000000000000000000000000000000000000000000000000000000000000000000000000000000000000000000000000000000000000000000000000000000000000000000000000000000000000000000000000000000000000000000000000000000000000000000000000000000000000000000000000000000),
  (386666301, 2738236524, 2133294000000000000000000000000000000000000000000000000000000000000000000000000000000000000000000000000000000000000000000000000000000000000000000000000000000000000000000000000000000000000000000000000000000000000000000000000000000000000000000000000000000000000000000000000000000000000000000000000000000000000000000000000000),
  (388898550, 2727527034, 1737762000000000000000000000000000000000000000000000000000000000000000000000000000000000000000000000000000000000000000000000000000000000000000000000000000000000000000000000000000000000000000000000000000000000000000000000000000000000000000000000000000000000000000000000000000000000000000000000000000000000000000000000000000),
  (391143686, 2717265746, 1417145000000000000000000000000000000000000000000000000000000000000000000000000000000000000000000000000000000000000000000000000000000000000000000000000000000000000000000000000000000000000000000000000000000000000000000000000000000000000000000000000000000000000000000000000000000000000000000000000000000000000000000000000000),
  (393401783, 2707421377, 1156976000000000000000000000000000000000000000000000000000000000000000000000000000000000000000000000000000000000000000000000000000000000000000000000000000000000000000000000000000000000000000000000000000000000000000000000000000000000000000000000000000000000000000000000000000000000000000000000000000000000000000000000000000),
  (395672916, 2697965389, 945630000000000000000000000000000000000000000000000000000000000000000000000000000000000000000000000000000000000000000000000000000000000000000000000000000000000000000000000000000000000000000000000000000000000000000000000000000000000000000000000000000000000000000000000000000000000000000000000000000000000000000000000000000),
  (397957161, 2688871779, 773757000000000000000000000000000000000000000000000000000000000000000000000000000000000000000000000000000000000000000000000000000000000000000000000000000000000000000000000000000000000000000000000000000000000000000000000000000000000000000000000000000000000000000000000000000000000000000000000000000000000000000000000000000),
  (400254593, 2680116861, 633834000000000000000000000000000000000000000000000000000000000000000000000000000000000000000000000000000000000000000000000000000000000000000000000000000000000000000000000000000000000000000000000000000000000000000000000000000000000000000000000000000000000000000000000000000000000000000000000000000000000000000000000000000),
  (402565287, 2671679055, 519797000000000000000000000000000000000000000000000000000000000000000000000000000000000000000000000000000000000000000000000000000000000000000000000000000000000000000000000000000000000000000000000000000000000000000000000000000000000000000000000000000000000000000000000000000000000000000000000000000000000000000000000000000),
  (404889322, 2663538686, 426755000000000000000000000000000000000000000000000000000000000000000000000000000000000000000000000000000000000000000000000000000000000000000000000000000000000000000000000000000000000000000000000000000000000000000000000000000000000000000000000000000000000000000000000000000000000000000000000000000000000000000000000000000),
  (407226774, 2655677795, 350760000000000000000000000000000000000000000000000000000000000000000000000000000000000000000000000000000000000000000000000000000000000000000000000000000000000000000000000000000000000000000000000000000000000000000000000000000000000000000000000000000000000000000000000000000000000000000000000000000000000000000000000000000),
  (409577720, 2648079970, 288620000000000000000000000000000000000000000000000000000000000000000000000000000000000000000000000000000000000000000000000000000000000000000000000000000000000000000000000000000000000000000000000000000000000000000000000000000000000000000000000000000000000000000000000000000000000000000000000000000000000000000000000000000),
  (411942238, 2640730187, 237754000000000000000000000000000000000000000000000000000000000000000000000000000000000000000000000000000000000000000000000000000000000000000000000000000000000000000000000000000000000000000000000000000000000000000000000000000000000000000000000000000000000000000000000000000000000000000000000000000000000000000000000000000),
  (414320406, 2633614673, 196071000000000000000000000000000000000000000000000000000000000000000000000000000000000000000000000000000000000000000000000000000000000000000000000000000000000000000000000000000000000000000000000000000000000000000000000000000000000000000000000000000000000000000000000000000000000000000000000000000000000000000000000000000),
  (416712304, 2626720776, 161876000000000000000000000000000000000000000000000000000000000000000000000000000000000000000000000000000000000000000000000000000000000000000000000000000000000000000000000000000000000000000000000000000000000000000000000000000000000000000000000000000000000000000000000000000000000000000000000000000000000000000000000000000),
  (419118010, 2620036852, 133792000000000000000000000000000000000000000000000000000000000000000000000000000000000000000000000000000000000000000000000000000000000000000000000000000000000000000000000000000000000000000000000000000000000000000000000000000000000000000000000000000000000000000000000000000000000000000000000000000000000000000000000000000),
  (421537605, 2613552169, 110703000000000000000000000000000000000000000000000000000000000000000000000000000000000000000000000000000000000000000000000000000000000000000000000000000000000000000000000000000000000000000000000000000000000000000000000000000000000000000000000000000000000000000000000000000000000000000000000000000000000000000000000000000),
  (423971168, 2607256811, 91700000000000000000000000000000000000000000000000000000000000000000000000000000000000000000000000000000000000000000000000000000000000000000000000000000000000000000000000000000000000000000000000000000000000000000000000000000000000000000000000000000000000000000000000000000000000000000000000000000000000000000000000000000),
  (426418780, 2601141602, 76000000000000000000000000000000000000000000000000000000000000000000000000000000000000000000000000000000000000000000000000000000000000000000000000000000000000000000000000000000000000000000000000000000000000000000000000000000000000000000000000000000000000000000000000000000000000000000000000000000000000000000000000000000),
  (428880523, 2595198032, 63100000000000000000000000000000000000000000000000000000000000000000000000000000000000000000000000000000000000000000000000000000000000000000000000000000000000000000000000000000000000000000000000000000000000000000000000000000000000000000000000000000000000000000000000000000000000000000000000000000000000000000000000000000),
  (431356477, 2589418198, 52500000000000000000000000000000000000000000000000000000000000000000000000000000000000000000000000000000000000000000000000000000000000000000000000000000000000000000000000000000000000000000000000000000000000000000000000000000000000000000000000000000000000000000000000000000000000000000000000000000000000000000000000000000),
  (433846725, 2583794742, 43600000000000000000000000000000000000000000000000000000000000000000000000000000000000000000000000000000000000000000000000000000000000000000000000000000000000000000000000000000000000000000000000000000000000000000000000000000000000000000000000000000000000000000000000000000000000000000000000000000000000000000000000000000),
  (436351350, 2578320807, 36400000000000000000000000000000000000000000000000000000000000000000000000000000000000000000000000000000000000000000000000000000000000000000000000000000000000000000000000000000000000000000000000000000000000000000000000000000000000000000000000000000000000000000000000000000000000000000000000000000000000000000000000000000),
  (438870434, 2572989985, 30300000000000000000000000000000000000000000000000000000000000000000000000000000000000000000000000000000000000000000000000000000000000000000000000000000000000000000000000000000000000000000000000000000000000000000000000000000000000000000000000000000000000000000000000000000000000000000000000000000000000000000000000000000),
  (441404060, 2567796283, 25300000000000000000000000000000000000000000000000000000000000000000000000000000000000000000000000000000000000000000000000000000000000000000000000000000000000000000000000000000000000000000000000000000000000000000000000000000000000000000000000000000000000000000000000000000000000000000000000000000000000000000000000000000),
  (443952314, 2562734086, 21100000000000000000000000000000000000000000000000000000000000000000000000000000000000000000000000000000000000000000000000000000000000000000000000000000000000000000000000000000000000000000000000000000000000000000000000000000000000000000000000000000000000000000000000000000000000000000000000000000000000000000000000000000),
  (446515278, 2557798123, 17700000000000000000000000000000000000000000000000000000000000000000000000000000000000000000000000000000000000000000000000000000000000000000000000000000000000000000000000000000000000000000000000000000000000000000000000000000000000000000000000000000000000000000000000000000000000000000000000000000000000000000000000000000),
  (449093039, 2552983439, 14800000000000000000000000000000000000000000000000000000000000000000000000000000000000000000000000000000000000000000000000000000000000000000000000000000000000000000000000000000000000000000000000000000000000000000000000000000000000000000000000000000000000000000000000000000000000000000000000000000000000000000000000000000),
  (451685682, 2548285371, 12400000000000000000000000000000000000000000000000000000000000000000000000000000000000000000000000000000000000000000000000000000000000000000000000000000000000000000000000000000000000000000000000000000000000000000000000000000000000000000000000000000000000000000000000000000000000000000000000000000000000000000000000000000),
  (454293292, 2543699523, 10400000000000000000000000000000000000000000000000000000000000000000000000000000000000000000000000000000000000000000000000000000000000000000000000000000000000000000000000000000000000000000000000000000000000000000000000000000000000000000000000000000000000000000000000000000000000000000000000000000000000000000000000000000),
  (456915955, 2539221746, 8750000000000000000000000000000000000000000000000000000000000000000000000000000000000000000000000000000000000000000000000000000000000000000000000000000000000000000000000000000000000000000000000000000000000000000000000000000000000000000000000000000000000000000000000000000000000000000000000000000000000000000000000000000),
  (459553760, 2534848118, 7350000000000000000000000000000000000000000000000000000000000000000000000000000000000000000000000000000000000000000000000000000000000000000000000000000000000000000000000000000000000000000000000000000000000000000000000000000000000000000000000000000000000000000000000000000000000000000000000000000000000000000000000000000),
  (462206793, 2530574927, 6190000000000000000000000000000000000000000000000000000000000000000000000000000000000000000000000000000000000000000000000000000000000000000000000000000000000000000000000000000000000000000000000000000000000000000000000000000000000000000000000000000000000000000000000000000000000000000000000000000000000000000000000000000),
  (464875142, 2526398660, 5210000000000000000000000000000000000000000000000000000000000000000000000000000000000000000000000000000000000000000000000000000000000000000000000000000000000000000000000000000000000000000000000000000000000000000000000000000000000000000000000000000000000000000000000000000000000000000000000000000000000000000000000000000),
  (467558895, 2522315980, 4400000000000000000000000000000000000000000000000000000000000000000000000000000000000000000000000000000000000000000000000000000000000000000000000000000000000000000000000000000000000000000000000000000000000000000000000000000000000000000000000000000000000000000000000000000000000000000000000000000000000000000000000000000),
  (470258142, 2518323722, 3710000000000000000000000000000000000000000000000000000000000000000000000000000000000000000000000000000000000000000000000000000000000000000000000000000000000000000000000000000000000000000000000000000000000000000000000000000000000000000000000000000000000000000000000000000000000000000000000000000000000000000000000000000),
  (472972972, 2514418878, 3140000000000000000000000000000000000000000000000000000000000000000000000000000000000000000000000000000000000000000000000000000000000000000000000000000000000000000000000000000000000000000000000000000000000000000000000000000000000000000000000000000000000000000000000000000000000000000000000000000000000000000000000000000)]

/-- materials/data/titanium_oxide.csv, lines 152-201 -/
def titaniumOxideRows3 : List (ℤ × ℤ × ℤ) := [
  (475703475, 2510598584, 2660000000000000000000000000000000000000000000000000000000000000000000000000000000000000000000000000000000000000000000000000000000000000000000000000000000000000000000000000000000000000000000000000000000000000000000000000000000000000000000000000000000000000000000000000000000000000000000000000000000000000000000000000000),
  (478449741, 2506860113, 2250000000000000000000000000000000000000000000000000000000000000000000000000000000000000000000000000000000000000000000000000000000000000000000000000000000000000000000000000000000000000000000000000000000000000000000000000000000000000000000000000000000000000000000000000000000000000000000000000000000000000000000000000000),
  (481211861, 2503200868, 1910000000000000000000000000000000000000000000000000000000000000000000000000000000000000000000000000000000000000000000000000000000000000000000000000000000000000000000000000000000000000000000000000000000000000000000000000000000000000000000000000000000000000000000000000000000000000000000000000000000000000000000000000000),
  (483989928, 2499618369, 1620000000000000000000000000000000000000000000000000000000000000000000000000000000000000000000000000000000000000000000000000000000000000000000000000000000000000000000000000000000000000000000000000000000000000000000000000000000000000000000000000000000000000000000000000000000000000000000000000000000000000000000000000000),
  (486784032, 2496110249, 1370000000000000000000000000000000000000000000000000000000000000000000000000000000000000000000000000000000000000000000000000000000000000000000000000000000000000000000000000000000000000000000000000000000000000000000000000000000000000000000000000000000000000000000000000000000000000000000000000000000000000000000000000000),
  (489594267, 2492674245, 1170000000000000000000000000000000000000000000000000000000000000000000000000000000000000000000000000000000000000000000000000000000000000000000000000000000000000000000000000000000000000000000000000000000000000000000000000000000000000000000000000000000000000000000000000000000000000000000000000000000000000000000000000000),
  (492420726, 2489308195, 994000000000000000000000000000000000000000000000000000000000000000000000000000000000000000000000000000000000000000000000000000000000000000000000000000000000000000000000000000000000000000000000000000000000000000000000000000000000000000000000000000000000000000000000000000000000000000000000000000000000000000000000000000),
  (495263501, 2486010029, 847000000000000000000000000000000000000000000000000000000000000000000000000000000000000000000000000000000000000000000000000000000000000000000000000000000000000000000000000000000000000000000000000000000000000000000000000000000000000000000000000000000000000000000000000000000000000000000000000000000000000000000000000000),
  (498122689, 2482777763, 722000000000000000000000000000000000000000000000000000000000000000000000000000000000000000000000000000000000000000000000000000000000000000000000000000000000000000000000000000000000000000000000000000000000000000000000000000000000000000000000000000000000000000000000000000000000000000000000000000000000000000000000000000),
  (500998382, 2479609497, 616000000000000000000000000000000000000000000000000000000000000000000000000000000000000000000000000000000000000000000000000000000000000000000000000000000000000000000000000000000000000000000000000000000000000000000000000000000000000000000000000000000000000000000000000000000000000000000000000000000000000000000000000000),
  (503890678, 2476503409, 527000000000000000000000000000000000000000000000000000000000000000000000000000000000000000000000000000000000000000000000000000000000000000000000000000000000000000000000000000000000000000000000000000000000000000000000000000000000000000000000000000000000000000000000000000000000000000000000000000000000000000000000000000),
  (506799670, 2473457749, 450000000000000000000000000000000000000000000000000000000000000000000000000000000000000000000000000000000000000000000000000000000000000000000000000000000000000000000000000000000000000000000000000000000000000000000000000000000000000000000000000000000000000000000000000000000000000000000000000000000000000000000000000000),
  (509725457, 2470470839, 385000000000000000000000000000000000000000000000000000000000000000000000000000000000000000000000000000000000000000000000000000000000000000000000000000000000000000000000000000000000000000000000000000000000000000000000000000000000000000000000000000000000000000000000000000000000000000000000000000000000000000000000000000),
  (512668134, 2467541064, 330000000000000000000000000000000000000000000000000000000000000000000000000000000000000000000000000000000000000000000000000000000000000000000000000000000000000000000000000000000000000000000000000000000000000000000000000000000000000000000000000000000000000000000000000000000000000000000000000000000000000000000000000000),
  (515627799, 2464666874, 283000000000000000000000000000000000000000000000000000000000000000000000000000000000000000000000000000000000000000000000000000000000000000000000000000000000000000000000000000000000000000000000000000000000000000000000000000000000000000000000000000000000000000000000000000000000000000000000000000000000000000000000000000),
  (518604551, 2461846776, 243000000000000000000000000000000000000000000000000000000000000000000000000000000000000000000000000000000000000000000000000000000000000000000000000000000000000000000000000000000000000000000000000000000000000000000000000000000000000000000000000000000000000000000000000000000000000000000000000000000000000000000000000000),
  (521598488, 2459079334, 209000000000000000000000000000000000000000000000000000000000000000000000000000000000000000000000000000000000000000000000000000000000000000000000000000000000000000000000000000000000000000000000000000000000000000000000000000000000000000000000000000000000000000000000000000000000000000000000000000000000000000000000000000),
  (524609709, 2456363164, 180000000000000000000000000000000000000000000000000000000000000000000000000000000000000000000000000000000000000000000000000000000000000000000000000000000000000000000000000000000000000000000000000000000000000000000000000000000000000000000000000000000000000000000000000000000000000000000000000000000000000000000000000000),
  (527638314, 2453696936, 155000000000000000000000000000000000000000000000000000000000000000000000000000000000000000000000000000000000000000000000000000000000000000000000000000000000000000000000000000000000000000000000000000000000000000000000000000000000000000000000000000000000000000000000000000000000000000000000000000000000000000000000000000),
  (530684403, 2451079363, 133000000000000000000000000000000000000000000000000000000000000000000000000000000000000000000000000000000000000000000000000000000000000000000000000000000000000000000000000000000000000000000000000000000000000000000000000000000000000000000000000000000000000000000000000000000000000000000000000000000000000000000000000000),
  (533748077, 2448509208, 115000000000000000000000000000000000000000000000000000000000000000000000000000000000000000000000000000000000000000000000000000000000000000000000000000000000000000000000000000000000000000000000000000000000000000000000000000000000000000000000000000000000000000000000000000000000000000000000000000000000000000000000000000),
  (536829439, 2445985276, 99100000000000000000000000000000000000000000000000000000000000000000000000000000000000000000000000000000000000000000000000000000000000000000000000000000000000000000000000000000000000000000000000000000000000000000000000000000000000000000000000000000000000000000000000000000000000000000000000000000000000000000000000000),
  (539928589, 2443506414, 85600000000000000000000000000000000000000000000000000000000000000000000000000000000000000000000000000000000000000000000000000000000000000000000000000000000000000000000000000000000000000000000000000000000000000000000000000000000000000000000000000000000000000000000000000000000000000000000000000000000000000000000000000),
  (543045631, 2441071506, 74000000000000000000000000000000000000000000000000000000000000000000000000000000000000000000000000000000000000000000000000000000000000000000000000000000000000000000000000000000000000000000000000000000000000000000000000000000000000000000000000000000000000000000000000000000000000000000000000000000000000000000000000000),
  (546180667, 2438679478, 64000000000000000000000000000000000000000000000000000000000000000000000000000000000000000000000000000000000000000000000000000000000000000000000000000000000000000000000000000000000000000000000000000000000000000000000000000000000000000000000000000000000000000000000000000000000000000000000000000000000000000000000000000),
  (549333803, 2436329289, 55500000000000000000000000000000000000000000000000000000000000000000000000000000000000000000000000000000000000000000000000000000000000000000000000000000000000000000000000000000000000000000000000000000000000000000000000000000000000000000000000000000000000000000000000000000000000000000000000000000000000000000000000000),
  (552505141, 2434019934, 48100000000000000000000000000000000000000000000000000000000000000000000000000000000000000000000000000000000000000000000000000000000000000000000000000000000000000000000000000000000000000000000000000000000000000000000000000000000000000000000000000000000000000000000000000000000000000000000000000000000000000000000000000),
  (555694788, 2431750440, 41700000000000000000000000000000000000000000000000000000000000000000000000000000000000000000000000000000000000000000000000000000000000000000000000000000000000000000000000000000000000000000000000000000000000000000000000000000000000000000000000000000000000000000000000000000000000000000000000000000000000000000000000000),
  (558902849, 2429519866, 36200000000000000000000000000000000000000000000000000000000000000000000000000000000000000000000000000000000000000000000000000000000000000000000000000000000000000000000000000000000000000000000000000000000000000000000000000000000000000000000000000000000000000000000000000000000000000000000000000000000000000000000000000),
  (562129431, 2427327302, 31500000000000000000000000000000000000000000000000000000000000000000000000000000000000000000000000000000000000000000000000000000000000000000000000000000000000000000000000000000000000000000000000000000000000000000000000000000000000000000000000000000000000000000000000000000000000000000000000000000000000000000000000000),
  (565374639, 2425171863, 27400000000000000000000000000000000000000000000000000000000000000000000000000000000000000000000000000000000000000000000000000000000000000000000000000000000000000000000000000000000000000000000000000000000000000000000000000000000000000000000000000000000000000000000000000000000000000000000000000000000000000000000000000),
  (568638583, 2423052697, 23800000000000000000000000000000000000000000000000000000000000000000000000000000000000000000000000000000000000000000000000000000000000000000000000000000000000000000000000000000000000000000000000000000000000000000000000000000000000000000000000000000000000000000000000000000000000000000000000000000000000000000000000000),
  (571921369, 2420968976, 20700000000000000000000000000000000000000000000000000000000000000000000000000000000000000000000000000000000000000000000000000000000000000000000000000000000000000000000000000000000000000000000000000000000000000000000000000000000000000000000000000000000000000000000000000000000000000000000000000000000000000000000000000),
  (575223107, 2418919896, 18100000000000000000000000000000000000000000000000000000000000000000000000000000000000000000000000000000000000000000000000000000000000000000000000000000000000000000000000000000000000000000000000000000000000000000000000000000000000000000000000000000000000000000000000000000000000000000000000000000000000000000000000000),
  (578543906, 2416904679, 15800000000000000000000000000000000000000000000000000000000000000000000000000000000000000000000000000000000000000000000000000000000000000000000000000000000000000000000000000000000000000000000000000000000000000000000000000000000000000000000000000000000000000000000000000000000000000000000000000000000000000000000000000),
  (581883877, 2414922570, 13800000000000000000000000000000000000000000000000000000000000000000000000000000000000000000000000000000000000000000000000000000000000000000000000000000000000000000000000000000000000000000000000000000000000000000000000000000000000000000000000000000000000000000000000000000000000000000000000000000000000000000000000000),
  (585243129, 2412972838, 12000000000000000000000000000000000000000000000000000000000000000000000000000000000000000000000000000000000000000000000000000000000000000000000000000000000000000000000000000000000000000000000000000000000000000000000000000000000000000000000000000000000000000000000000000000000000000000000000000000000000000000000000000),
  (588621775, 2411054770, 10500000000000000000000000000000000000000000000000000000000000000000000000000000000000000000000000000000000000000000000000000000000000000000000000000000000000000000000000000000000000000000000000000000000000000000000000000000000000000000000000000000000000000000000000000000000000000000000000000000000000000000000000000),
  (592019925, 2409167678, 9210000000000000000000000000000000000000000000000000000000000000000000000000000000000000000000000000000000000000000000000000000000000000000000000000000000000000000000000000000000000000000000000000000000000000000000000000000000000000000000000000000000000000000000000000000000000000000000000000000000000000000000000000),
  (595437693, 2407310889, 8060000000000000000000000000000000000000000000000000000000000000000000000000000000000000000000000000000000000000000000000000000000000000000000000000000000000000000000000000000000000000000000000000000000000000000000000000000000000000000000000000000000000000000000000000000000000000000000000000000000000000000000000000),
  (598875193, 2405483754, 7060000000000000000000000000000000000000000000000000000000000000000000000000000000000000000000000000000000000000000000000000000000000000000000000000000000000000000000000000000000000000000000000000000000000000000000000000000000000000000000000000000000000000000000000000000000000000000000000000000000000000000000000000),
  (602332537, 2403685640, 6190000000000000000000000000000000000000000000000000000000000000000000000000000000000000000000000000000000000000000000000000000000000000000000000000000000000000000000000000000000000000000000000000000000000000000000000000000000000000000000000000000000000000000000000000000000000000000000000000000000000000000000000000),
  (605809841, 2401915932, 5430000000000000000000000000000000000000000000000000000000000000000000000000000000000000000000000000000000000000000000000000000000000000000000000000000000000000000000000000000000000000000000000000000000000000000000000000000000000000000000000000000000000000000000000000000000000000000000000000000000000000000000000000),
  (609307219, 2400174031, 4760000000000000000000000000000000000000000000000000000000000000000000000000000000000000000000000000000000000000000000000000000000000000000000000000000000000000000000000000000000000000000000000000000000000000000000000000000000000000000000000000000000000000000000000000000000000000000000000000000000000000000000000000),
  (612824788, 2398459357, 4180000000000000000000000000000000000000000000000000000000000000000000000000000000000000000000000000000000000000000000000000000000000000000000000000000000000000000000000000000000000000000000000000000000000000000000000000000000000000000000000000000000000000000000000000000000000000000000000000000000000000000000000000),
  (616362664, 2396771343, 3670000000000000000000000000000000000000000000000000000000000000000000000000000000000000000000000000000000000000000000000000000000000000000000000000000000000000000000000000000000000000000000000000000000000000000000000000000000000000000000000000000000000000000000000000000000000000000000000000000000000000000000000000),
  (619920965, 2395109440, 3230000000000000000000000000000000000000000000000000000000000000000000000000000000000000000000000000000000000000000000000000000000000000000000000000000000000000000000000000000000000000000000000000000000000000000000000000000000000000000000000000000000000000000000000000000000000000000000000000000000000000000000000000),
  (623499807, 2393473112, 2840000000000000000000000000000000000000000000000000000000000000000000000000000000000000000000000000000000000000000000000000000000000000000000000000000000000000000000000000000000000000000000000000000000000000000000000000000000000000000000000000000000000000000000000000000000000000000000000000000000000000000000000000),
  (627099311, 2391861837, 2490000000000000000000000000000000000000000000000000000000000000000000000000000000000000000000000000000000000000000000000000000000000000000000000000000000000000000000000000000000000000000000000000000000000000000000000000000000000000000000000000000000000000000000000000000000000000000000000000000000000000000000000000),
  (630719595, 2390275109, 2190000000000000000000000000000000000000000000000000000000000000000000000000000000000000000000000000000000000000000000000000000000000000000000000000000000000000000000000000000000000000000000000000000000000000000000000000000000000000000000000000000000000000000000000000000000000000000000000000000000000000000000000000)]

/-- materials/data/titanium_oxide.csv, lines 202-251 -/
def titaniumOxideRows4 : List (ℤ × ℤ × ℤ) := [
  (634360779, 2388712432, 1930000000000000000000000000000000000000000000000000000000000000000000000000000000000000000000000000000000000000000000000000000000000000000000000000000000000000000000000000000000000000000000000000000000000000000000000000000000000000000000000000000000000000000000000000000000000000000000000000000000000000000000000000),
  (638022984, 2387173324, 1700000000000000000000000000000000000000000000000000000000000000000000000000000000000000000000000000000000000000000000000000000000000000000000000000000000000000000000000000000000000000000000000000000000000000000000000000000000000000000000000000000000000000000000000000000000000000000000000000000000000000000000000000),
  (641706331, 2385657318, 1490000000000000000000000000000000000000000000000000000000000000000000000000000000000000000000000000000000000000000000000000000000000000000000000000000000000000000000000000000000000000000000000000000000000000000000000000000000000000000000000000000000000000000000000000000000000000000000000000000000000000000000000000),
  (645410942, 2384163954, 1310000000000000000000000000000000000000000000000000000000000000000000000000000000000000000000000000000000000000000000000000000000000000000000000000000000000000000000000000000000000000000000000000000000000000000000000000000000000000000000000000000000000000000000000000000000000000000000000000000000000000000000000000),
  (649136940, 2382692788, 1150000000000000000000000000000000000000000000000000000000000000000000000000000000000000000000000000000000000000000000000000000000000000000000000000000000000000000000000000000000000000000000000000000000000000000000000000000000000000000000000000000000000000000000000000000000000000000000000000000000000000000000000000),
  (652884448, 2381243385, 1010000000000000000000000000000000000000000000000000000000000000000000000000000000000000000000000000000000000000000000000000000000000000000000000000000000000000000000000000000000000000000000000000000000000000000000000000000000000000000000000000000000000000000000000000000000000000000000000000000000000000000000000000),
  (656653591, 2379815320, 886000000000000000000000000000000000000000000000000000000000000000000000000000000000000000000000000000000000000000000000000000000000000000000000000000000000000000000000000000000000000000000000000000000000000000000000000000000000000000000000000000000000000000000000000000000000000000000000000000000000000000000000000),
  (660444494, 2378408181, 776000000000000000000000000000000000000000000000000000000000000000000000000000000000000000000000000000000000000000000000000000000000000000000000000000000000000000000000000000000000000000000000000000000000000000000000000000000000000000000000000000000000000000000000000000000000000000000000000000000000000000000000000),
  (664257281, 2377021563, 679000000000000000000000000000000000000000000000000000000000000000000000000000000000000000000000000000000000000000000000000000000000000000000000000000000000000000000000000000000000000000000000000000000000000000000000000000000000000000000000000000000000000000000000000000000000000000000000000000000000000000000000000),
  (668092080, 2375655073, 593000000000000000000000000000000000000000000000000000000000000000000000000000000000000000000000000000000000000000000000000000000000000000000000000000000000000000000000000000000000000000000000000000000000000000000000000000000000000000000000000000000000000000000000000000000000000000000000000000000000000000000000000),
  (671949018, 2374308328, 516000000000000000000000000000000000000000000000000000000000000000000000000000000000000000000000000000000000000000000000000000000000000000000000000000000000000000000000000000000000000000000000000000000000000000000000000000000000000000000000000000000000000000000000000000000000000000000000000000000000000000000000000),
  (675828222, 2372980951, 449000000000000000000000000000000000000000000000000000000000000000000000000000000000000000000000000000000000000000000000000000000000000000000000000000000000000000000000000000000000000000000000000000000000000000000000000000000000000000000000000000000000000000000000000000000000000000000000000000000000000000000000000),
  (679729821, 2371672576, 389000000000000000000000000000000000000000000000000000000000000000000000000000000000000000000000000000000000000000000000000000000000000000000000000000000000000000000000000000000000000000000000000000000000000000000000000000000000000000000000000000000000000000000000000000000000000000000000000000000000000000000000000),
  (683653944, 2370382846, 335000000000000000000000000000000000000000000000000000000000000000000000000000000000000000000000000000000000000000000000000000000000000000000000000000000000000000000000000000000000000000000000000000000000000000000000000000000000000000000000000000000000000000000000000000000000000000000000000000000000000000000000000),
  (687600721, 2369111412, 287000000000000000000000000000000000000000000000000000000000000000000000000000000000000000000000000000000000000000000000000000000000000000000000000000000000000000000000000000000000000000000000000000000000000000000000000000000000000000000000000000000000000000000000000000000000000000000000000000000000000000000000000),
  (691570284, 2367857931, 245000000000000000000000000000000000000000000000000000000000000000000000000000000000000000000000000000000000000000000000000000000000000000000000000000000000000000000000000000000000000000000000000000000000000000000000000000000000000000000000000000000000000000000000000000000000000000000000000000000000000000000000000),
  (695562763, 2366622072, 207000000000000000000000000000000000000000000000000000000000000000000000000000000000000000000000000000000000000000000000000000000000000000000000000000000000000000000000000000000000000000000000000000000000000000000000000000000000000000000000000000000000000000000000000000000000000000000000000000000000000000000000000),
  (699578290, 2365403507, 173000000000000000000000000000000000000000000000000000000000000000000000000000000000000000000000000000000000000000000000000000000000000000000000000000000000000000000000000000000000000000000000000000000000000000000000000000000000000000000000000000000000000000000000000000000000000000000000000000000000000000000000000),
  (703617000, 2364201918, 143000000000000000000000000000000000000000000000000000000000000000000000000000000000000000000000000000000000000000000000000000000000000000000000000000000000000000000000000000000000000000000000000000000000000000000000000000000000000000000000000000000000000000000000000000000000000000000000000000000000000000000000000),
  (707679025, 2363016994, 116000000000000000000000000000000000000000000000000000000000000000000000000000000000000000000000000000000000000000000000000000000000000000000000000000000000000000000000000000000000000000000000000000000000000000000000000000000000000000000000000000000000000000000000000000000000000000000000000000000000000000000000000),
  (711764501, 2361848430, 91500000000000000000000000000000000000000000000000000000000000000000000000000000000000000000000000000000000000000000000000000000000000000000000000000000000000000000000000000000000000000000000000000000000000000000000000000000000000000000000000000000000000000000000000000000000000000000000000000000000000000000000000),
  (715873562, 2360695928, 69600000000000000000000000000000000000000000000000000000000000000000000000000000000000000000000000000000000000000000000000000000000000000000000000000000000000000000000000000000000000000000000000000000000000000000000000000000000000000000000000000000000000000000000000000000000000000000000000000000000000000000000000),
  (720006345, 2359559197, 49900000000000000000000000000000000000000000000000000000000000000000000000000000000000000000000000000000000000000000000000000000000000000000000000000000000000000000000000000000000000000000000000000000000000000000000000000000000000000000000000000000000000000000000000000000000000000000000000000000000000000000000000),
  (724162987, 2358437951, 32200000000000000000000000000000000000000000000000000000000000000000000000000000000000000000000000000000000000000000000000000000000000000000000000000000000000000000000000000000000000000000000000000000000000000000000000000000000000000000000000000000000000000000000000000000000000000000000000000000000000000000000000),
  (728343626, 2357331913, 16200000000000000000000000000000000000000000000000000000000000000000000000000000000000000000000000000000000000000000000000000000000000000000000000000000000000000000000000000000000000000000000000000000000000000000000000000000000000000000000000000000000000000000000000000000000000000000000000000000000000000000000000),
  (732548399, 2356240809, 1770000000000000000000000000000000000000000000000000000000000000000000000000000000000000000000000000000000000000000000000000000000000000000000000000000000000000000000000000000000000000000000000000000000000000000000000000000000000000000000000000000000000000000000000000000000000000000000000000000000000000000000000),
  (736777447, 2355164372, 0),
  (741030910, 2354102341, 0),
  (745308928, 2353054459, 0),
  (749611643, 2352020475, 0),
  (753939199, 2351000146, 0),
  (758291737, 2349993228, 0),
  (762669403, 2348999489, 0),
  (767072342, 2348018695, 0),
  (771500699, 2347050621, 0),
  (775954621, 2346095046, 0),
  (780434256, 2345151752, 0),
  (784939752, 2344220526, 0),
  (789471258, 2343301159, 0),
  (794028926, 2342393446, 0),
  (798612905, 2341497186, 0),
  (803223347, 2340612182, 0),
  (807860406, 2339738241, 0),
  (812524235, 2338875173, 0),
  (817214989, 2338022791, 0),
  (821932823, 2337180914, 0),
  (826677893, 2336349361, 0),
  (831450356, 2335527957, 0),
  (836250371, 2334716528, 0),
  (841078098, 2333914905, 0)]

/-- materials/data/titanium_oxide.csv, lines 252-301 -/
def titaniumOxideRows5 : List (ℤ × ℤ × ℤ) := [
  (845933694, 2333122922, 0),
  (850817323, 2332340413, 0),
  (855729145, 2331567219, 0),
  (860669323, 2330803182, 0),
  (865638021, 2330048145, 0),
  (870635404, 2329301957, 0),
  (875661637, 2328564468, 0),
  (880716887, 2327835529, 0),
  (885801321, 2327114996, 0),
  (890915108, 2326402727, 0),
  (896058417, 2325698582, 0),
  (901231419, 2325002421, 0),
  (906434284, 2324314111, 0),
  (911667187, 2323633518, 0),
  (916930299, 2322960510, 0),
  (922223795, 2322294958, 0),
  (927547851, 2321636735, 0),
  (932902643, 2320985717, 0),
  (938288349, 2320341780, 0),
  (943705147, 2319704803, 0),
  (949153216, 2319074667, 0),
  (954632738, 2318451255, 0),
  (960143892, 2317834450, 0),
  (965686864, 2317224140, 0),
  (971261835, 2316620210, 0),
  (976868990, 2316022553, 0),
  (982508517, 2315431057, 0),
  (988180600, 2314845617, 0),
  (993885429, 2314266125, 0),
  (999623192, 2313692479, 0),
  (1005394080, 2313124575, 0),
  (1011198283, 2312562313, 0),
  (1017035995, 2312005591, 0),
  (1022907408, 2311454312, 0),
  (1028812716, 2310908378, 0),
  (1034752117, 2310367695, 0),
  (1040725806, 2309832166, 0),
  (1046733982, 2309301700, 0),
  (1052776843, 2308776204, 0),
  (1058854590, 2308255587, 0),
  (1064967424, 2307739759, 0),
  (1071115548, 2307228633, 0),
  (1077299166, 2306722121, 0),
  (1083518482, 2306220136, 0),
  (1089773702, 2305722593, 0),
  (1096065035, 2305229409, 0),
  (1102392687, 2304740501, 0),
  (1108756870, 2304255785, 0),
  (1115157793, 2303775182, 0),
  (1121595669, 2303298611, 0)]

/-- materials/data/titanium_oxide.csv, lines 302-351 -/
def titaniumOxideRows6 : List (ℤ × ℤ × ℤ) := [
  (1128070712, 2302825992, 0),
  (1134583135, 2302357249, 0),
  (1141133155, 2301892302, 0),
  (1147720988, 2301431076, 0),
  (1154346854, 2300973495, 0),
  (1161010971, 2300519485, 0),
  (1167713561, 2300068970, 0),
  (1174454844, 2299621879, 0),
  (1181235046, 2299178138, 0),
  (1188054391, 2298737676, 0),
  (1194913103, 2298300423, 0),
  (1201811412, 2297866307, 0),
  (1208749545, 2297435259, 0),
  (1215727732, 2297007211, 0),
  (1222746205, 2296582094, 0),
  (1229805196, 2296159841, 0),
  (1236904939, 2295740384, 0),
  (1244045669, 2295323659, 0),
  (1251227623, 2294909598, 0),
  (1258451039, 2294498138, 0),
  (1265716156, 2294089212, 0),
  (1273023215, 2293682759, 0),
  (1280372458, 2293278713, 0),
  (1287764129, 2292877013, 0),
  (1295198473, 2292477596, 0),
  (1302675735, 2292080400, 0),
  (1310196164, 2291685363, 0),
  (1317760009, 2291292426, 0),
  (1325367521, 2290901527, 0),
  (1333018951, 2290512606, 0),
  (1340714553, 2290125605, 0),
  (1348454583, 2289740463, 0),
  (1356239296, 2289357122, 0),
  (1364068951, 2288975524, 0),
  (1371943807, 2288595611, 0),
  (1379864125, 2288217325, 0),
  (1387830168, 2287840609, 0),
  (1395842199, 2287465406, 0),
  (1403900484, 2287091659, 0),
  (1412005290, 2286719313, 0),
  (1420156885, 2286348311, 0),
  (1428355540, 2285978598, 0),
  (1436601527, 2285610119, 0),
  (1444895118, 2285242818, 0),
  (1453236588, 2284876640, 0),
  (1461626215, 2284511532, 677295),
  (1470064275, 2284147438, 26952917670),
  (1478551049, 2283784305, 934592844689000),
  (1487086817, 2283422078, 28300000000000000000),
  (1495671863, 2283060705, 749000000000000000000000)]

/-- materials/data/titanium_oxide.csv, lines 352-401 -/
def titaniumOxideRows7 : List (ℤ × ℤ × ℤ) := [
  (1504306471, 2282700132, 17300000000000000000000000000),
  (1512990927, 2282340305, 353000000000000000000000000000000),
  (1521725519, 2281981172, 6300000000000000000000000000000000000),
  (1530510536, 2281622679, 99000000000000000000000000000000000000000),
  (1539346270, 2281264774, 1370000000000000000000000000000000000000000000),
  (1548233013, 2280907403, 16800000000000000000000000000000000000000000000000),
  (1557171060, 2280550516, 181000000000000000000000000000000000000000000000000000),
  (1566160706, 2280194059, 1730000000000000000000000000000000000000000000000000000000),
  (1575202251, 2279837980, 14700000000000000000000000000000000000000000000000000000000000),
  (1584295992, 2279482227, 111000000000000000000000000000000000000000000000000000000000000000),
  (1593442233, 2279126748, 742000000000000000000000000000000000000000000000000000000000000000000),
  (1602641275, 2278771492, 4430000000000000000000000000000000000000000000000000000000000000000000000),
  (1611893425, 2278416405, 23600000000000000000000000000000000000000000000000000000000000000000000000000),
  (1621198987, 2278061437, 112000000000000000000000000000000000000000000000000000000000000000000000000000000),
  (1630558271, 2277706535, 476000000000000000000000000000000000000000000000000000000000000000000000000000000000),
  (1639971586, 2277351649, 1810000000000000000000000000000000000000000000000000000000000000000000000000000000000000),
  (1649439246, 2276996726, 6170000000000000000000000000000000000000000000000000000000000000000000000000000000000000000),
  (1658961562, 2276641715, 18900000000000000000000000000000000000000000000000000000000000000000000000000000000000000000000),
  (1668538852, 2276286563, 52100000000000000000000000000000000000000000000000000000000000000000000000000000000000000000000000),
  (1678171432, 2275931221, 129000000000000000000000000000000000000000000000000000000000000000000000000000000000000000000000000000),
  (1687859621, 2275575636, 289000000000000000000000000000000000000000000000000000000000000000000000000000000000000000000000000000000),
  (1697603741, 2275219756, 582000000000000000000000000000000000000000000000000000000000000000000000000000000000000000000000000000000000),
  (1707404115, 2274863530, 1060000000000000000000000000000000000000000000000000000000000000000000000000000000000000000000000000000000000000),
  (1717261066, 2274506906, 1750000000000000000000000000000000000000000000000000000000000000000000000000000000000000000000000000000000000000000),
  (1727174922, 2274149833, 2610000000000000000000000000000000000000000000000000000000000000000000000000000000000000000000000000000000000000000000),
  (1737146012, 2273792258, 3540000000000000000000000000000000000000000000000000000000000000000000000000000000000000000000000000000000000000000000000),
  (1747174665, 2273434131, 4360000000000000000000000000000000000000000000000000000000000000000000000000000000000000000000000000000000000000000000000000),
  (1757261215, 2273075399, 4870000000000000000000000000000000000000000000000000000000000000000000000000000000000000000000000000000000000000000000000000000),
  (1767405994, 2272716010, 4960000000000000000000000000000000000000000000000000000000000000000000000000000000000000000000000000000000000000000000000000000000),
  (1777609341, 2272355913, 4610000000000000000000000000000000000000000000000000000000000000000000000000000000000000000000000000000000000000000000000000000000000),
  (1787871591, 2271995055, 3900000000000000000000000000000000000000000000000000000000000000000000000000000000000000000000000000000000000000000000000000000000000000),
  (1798193087, 2271633384, 3020000000000000000000000000000000000000000000000000000000000000000000000000000000000000000000000000000000000000000000000000000000000000000),
  (1808574169, 2271270847, 2130000000000000000000000000000000000000000000000000000000000000000000000000000000000000000000000000000000000000000000000000000000000000000000),
  (1819015181, 2270907393, 1380000000000000000000000000000000000000000000000000000000000000000000000000000000000000000000000000000000000000000000000000000000000000000000000),
  (1829516471, 2270542969, 818000000000000000000000000000000000000000000000000000000000000000000000000000000000000000000000000000000000000000000000000000000000000000000000000),
  (1840078384, 2270177522, 445000000000000000000000000000000000000000000000000000000000000000000000000000000000000000000000000000000000000000000000000000000000000000000000000000),
  (1850701273, 2269810999, 222000000000000000000000000000000000000000000000000000000000000000000000000000000000000000000000000000000000000000000000000000000000000000000000000000000),
  (1861385488, 2269443348, 102000000000000000000000000000000000000000000000000000000000000000000000000000000000000000000000000000000000000000000000000000000000000000000000000000000000),
  (1872131384, 2269074514, 43200000000000000000000000000000000000000000000000000000000000000000000000000000000000000000000000000000000000000000000000000000000000000000000000000000000000),
  (1882939316, 2268704445, 16800000000000000000000000000000000000000000000000000000000000000000000000000000000000000000000000000000000000000000000000000000000000000000000000000000000000000),
  (1893809643, 2268333088, 6040000000000000000000000000000000000000000000000000000000000000000000000000000000000000000000000000000000000000000000000000000000000000000000000000000000000000000),
  (1904742726, 2267960387, 2000000000000000000000000000000000000000000000000000000000000000000000000000000000000000000000000000000000000000000000000000000000000000000000000000000000000000000000),
  (1915738925, 2267586290, 613000000000000000000000000000000000000000000000000000000000000000000000000000000000000000000000000000000000000000000000000000000000000000000000000000000000000000000000),
  (1926798607, 2267210743, 174000000000000000000000000000000000000000000000000000000000000000000000000000000000000000000000000000000000000000000000000000000000000000000000000000000000000000000000000),
  (1937922137, 2266833690, 45500000000000000000000000000000000000000000000000000000000000000000000000000000000000000000000000000000000000000000000000000000000000000000000000000000000000000000000000000),
  (1949109883, 2266455077, 11100000000000000000000000000000000000000000000000000000000000000000000000000000000000000000000000000000000000000000000000000000000000000000000000000000000000000000000000000000),
  (1960362217, 2266074849, 2490000000000000000000000000000000000000000000000000000000000000000000000000000000000000000000000000000000000000000000000000000000000000000000000000000000000000000000000000000000),
  (1971679512, 2265692952, 522000000000000000000000000000000000000000000000000000000000000000000000000000000000000000000000000000000000000000000000000000000000000000000000000000000000000000000000000000000000),
  (1983062142, 2265309330, 101000000000000000000000000000000000000000000000000000000000000000000000000000000000000000000000000000000000000000000000000000000000000000000000000000000000000000000000000000000000000),
  (1994510485, 2264923926, 18300000000000000000000000000000000000000000000000000000000000000000000000000000000000000000000000000000000000000000000000000000000000000000000000000000000000000000000000000000000000000)]

/-- materials/data/titanium_oxide.csv, lines 402-451 -/
def titaniumOxideRows8 : List (ℤ × ℤ × ℤ) := [
  (2006024919, 2264536685, 3090000000000000000000000000000000000000000000000000000000000000000000000000000000000000000000000000000000000000000000000000000000000000000000000000000000000000000000000000000000000000000),
  (2017605828, 2264147551, 484000000000000000000000000000000000000000000000000000000000000000000000000000000000000000000000000000000000000000000000000000000000000000000000000000000000000000000000000000000000000000000),
  (2029253593, 2263756467, 70900000000000000000000000000000000000000000000000000000000000000000000000000000000000000000000000000000000000000000000000000000000000000000000000000000000000000000000000000000000000000000000),
  (2040968602, 2263363376, 9680000000000000000000000000000000000000000000000000000000000000000000000000000000000000000000000000000000000000000000000000000000000000000000000000000000000000000000000000000000000000000000000),
  (2052751242, 2262968222, 1230000000000000000000000000000000000000000000000000000000000000000000000000000000000000000000000000000000000000000000000000000000000000000000000000000000000000000000000000000000000000000000000000),
  (2064601905, 2262570945, 147000000000000000000000000000000000000000000000000000000000000000000000000000000000000000000000000000000000000000000000000000000000000000000000000000000000000000000000000000000000000000000000000000),
  (2076520982, 2262171489, 16400000000000000000000000000000000000000000000000000000000000000000000000000000000000000000000000000000000000000000000000000000000000000000000000000000000000000000000000000000000000000000000000000000),
  (2088508868, 2261769794, 1720000000000000000000000000000000000000000000000000000000000000000000000000000000000000000000000000000000000000000000000000000000000000000000000000000000000000000000000000000000000000000000000000000000),
  (2100565961, 2261365803, 168000000000000000000000000000000000000000000000000000000000000000000000000000000000000000000000000000000000000000000000000000000000000000000000000000000000000000000000000000000000000000000000000000000000),
  (2112692661, 2260959456, 15500000000000000000000000000000000000000000000000000000000000000000000000000000000000000000000000000000000000000000000000000000000000000000000000000000000000000000000000000000000000000000000000000000000000),
  (2124889369, 2260550694, 1330000000000000000000000000000000000000000000000000000000000000000000000000000000000000000000000000000000000000000000000000000000000000000000000000000000000000000000000000000000000000000000000000000000000000),
  (2137156489, 2260139457, 108000000000000000000000000000000000000000000000000000000000000000000000000000000000000000000000000000000000000000000000000000000000000000000000000000000000000000000000000000000000000000000000000000000000000000),
  (2149494428, 2259725684, 8240000000000000000000000000000000000000000000000000000000000000000000000000000000000000000000000000000000000000000000000000000000000000000000000000000000000000000000000000000000000000000000000000000000000000000),
  (2161903595, 2259309314, 591000000000000000000000000000000000000000000000000000000000000000000000000000000000000000000000000000000000000000000000000000000000000000000000000000000000000000000000000000000000000000000000000000000000000000000),
  (2174384400, 2258890288, 39900000000000000000000000000000000000000000000000000000000000000000000000000000000000000000000000000000000000000000000000000000000000000000000000000000000000000000000000000000000000000000000000000000000000000000000),
  (2186937258, 2258468542, 2540000000000000000000000000000000000000000000000000000000000000000000000000000000000000000000000000000000000000000000000000000000000000000000000000000000000000000000000000000000000000000000000000000000000000000000000),
  (2199562585, 2258044015, 153000000000000000000000000000000000000000000000000000000000000000000000000000000000000000000000000000000000000000000000000000000000000000000000000000000000000000000000000000000000000000000000000000000000000000000000000),
  (2212260798, 2257616644, 8650000000000000000000000000000000000000000000000000000000000000000000000000000000000000000000000000000000000000000000000000000000000000000000000000000000000000000000000000000000000000000000000000000000000000000000000000),
  (2225032319, 2257186366, 463000000000000000000000000000000000000000000000000000000000000000000000000000000000000000000000000000000000000000000000000000000000000000000000000000000000000000000000000000000000000000000000000000000000000000000000000000),
  (2237877571, 2256753117, 23400000000000000000000000000000000000000000000000000000000000000000000000000000000000000000000000000000000000000000000000000000000000000000000000000000000000000000000000000000000000000000000000000000000000000000000000000000),
  (2250796979, 2256316834, 1120000000000000000000000000000000000000000000000000000000000000000000000000000000000000000000000000000000000000000000000000000000000000000000000000000000000000000000000000000000000000000000000000000000000000000000000000000000),
  (2263790972, 2255877451, 50700000000000000000000000000000000000000000000000000000000000000000000000000000000000000000000000000000000000000000000000000000000000000000000000000000000000000000000000000000000000000000000000000000000000000000000000000000000),
  (2276859980, 2255434904, 2180000000000000000000000000000000000000000000000000000000000000000000000000000000000000000000000000000000000000000000000000000000000000000000000000000000000000000000000000000000000000000000000000000000000000000000000000000000000),
  (2290004436, 2254989127, 88500000000000000000000000000000000000000000000000000000000000000000000000000000000000000000000000000000000000000000000000000000000000000000000000000000000000000000000000000000000000000000000000000000000000000000000000000000000000),
  (2303224776, 2254540052, 3410000000000000000000000000000000000000000000000000000000000000000000000000000000000000000000000000000000000000000000000000000000000000000000000000000000000000000000000000000000000000000000000000000000000000000000000000000000000000),
  (2316521438, 2254087615, 125000000000000000000000000000000000000000000000000000000000000000000000000000000000000000000000000000000000000000000000000000000000000000000000000000000000000000000000000000000000000000000000000000000000000000000000000000000000000000),
  (2329894862, 2253631746, 4340000000000000000000000000000000000000000000000000000000000000000000000000000000000000000000000000000000000000000000000000000000000000000000000000000000000000000000000000000000000000000000000000000000000000000000000000000000000000000),
  (2343345492, 2253172378, 143000000000000000000000000000000000000000000000000000000000000000000000000000000000000000000000000000000000000000000000000000000000000000000000000000000000000000000000000000000000000000000000000000000000000000000000000000000000000000000),
  (2356873773, 2252709442, 4500000000000000000000000000000000000000000000000000000000000000000000000000000000000000000000000000000000000000000000000000000000000000000000000000000000000000000000000000000000000000000000000000000000000000000000000000000000000000000000),
  (2370480154, 2252242869, 135000000000000000000000000000000000000000000000000000000000000000000000000000000000000000000000000000000000000000000000000000000000000000000000000000000000000000000000000000000000000000000000000000000000000000000000000000000000000000000000),
  (2384165085, 2251772588, 3830000000000000000000000000000000000000000000000000000000000000000000000000000000000000000000000000000000000000000000000000000000000000000000000000000000000000000000000000000000000000000000000000000000000000000000000000000000000000000000000),
  (2397929020, 2251298529, 104000000000000000000000000000000000000000000000000000000000000000000000000000000000000000000000000000000000000000000000000000000000000000000000000000000000000000000000000000000000000000000000000000000000000000000000000000000000000000000000000),
  (2411772416, 2250820621, 2680000000000000000000000000000000000000000000000000000000000000000000000000000000000000000000000000000000000000000000000000000000000000000000000000000000000000000000000000000000000000000000000000000000000000000000000000000000000000000000000000),
  (2425695730, 2250338791, 66200000000000000000000000000000000000000000000000000000000000000000000000000000000000000000000000000000000000000000000000000000000000000000000000000000000000000000000000000000000000000000000000000000000000000000000000000000000000000000000000000),
  (2439699424, 2249852967, 1560000000000000000000000000000000000000000000000000000000000000000000000000000000000000000000000000000000000000000000000000000000000000000000000000000000000000000000000000000000000000000000000000000000000000000000000000000000000000000000000000000),
  (2453783962, 2249363075, 35000000000000000000000000000000000000000000000000000000000000000000000000000000000000000000000000000000000000000000000000000000000000000000000000000000000000000000000000000000000000000000000000000000000000000000000000000000000000000000000000000000),
  (2467949812, 2248869041, 751000000000000000000000000000000000000000000000000000000000000000000000000000000000000000000000000000000000000000000000000000000000000000000000000000000000000000000000000000000000000000000000000000000000000000000000000000000000000000000000000000000),
  (2482197442, 2248370789, 15400000000000000000000000000000000000000000000000000000000000000000000000000000000000000000000000000000000000000000000000000000000000000000000000000000000000000000000000000000000000000000000000000000000000000000000000000000000000000000000000000000000),
  (2496527324, 2247868245, 303000000000000000000000000000000000000000000000000000000000000000000000000000000000000000000000000000000000000000000000000000000000000000000000000000000000000000000000000000000000000000000000000000000000000000000000000000000000000000000000000000000000),
  (2510939933, 2247361330, 5700000000000000000000000000000000000000000000000000000000000000000000000000000000000000000000000000000000000000000000000000000000000000000000000000000000000000000000000000000000000000000000000000000000000000000000000000000000000000000000000000000000000),
  (2525435748, 2246849969, 103000000000000000000000000000000000000000000000000000000000000000000000000000000000000000000000000000000000000000000000000000000000000000000000000000000000000000000000000000000000000000000000000000000000000000000000000000000000000000000000000000000000000),
  (2540015247, 2246334082, 1770000000000000000000000000000000000000000000000000000000000000000000000000000000000000000000000000000000000000000000000000000000000000000000000000000000000000000000000000000000000000000000000000000000000000000000000000000000000000000000000000000000000000),
  (2554678915, 2245813590, 29300000000000000000000000000000000000000000000000000000000000000000000000000000000000000000000000000000000000000000000000000000000000000000000000000000000000000000000000000000000000000000000000000000000000000000000000000000000000000000000000000000000000000),
  (2569427238, 2245288414, 465000000000000000000000000000000000000000000000000000000000000000000000000000000000000000000000000000000000000000000000000000000000000000000000000000000000000000000000000000000000000000000000000000000000000000000000000000000000000000000000000000000000000000),
  (2584260703, 2244758473, 7090000000000000000000000000000000000000000000000000000000000000000000000000000000000000000000000000000000000000000000000000000000000000000000000000000000000000000000000000000000000000000000000000000000000000000000000000000000000000000000000000000000000000000),
  (2599179803, 2244223684, 104000000000000000000000000000000000000000000000000000000000000000000000000000000000000000000000000000000000000000000000000000000000000000000000000000000000000000000000000000000000000000000000000000000000000000000000000000000000000000000000000000000000000000000),
  (2614185032, 2243683965, 1460000000000000000000000000000000000000000000000000000000000000000000000000000000000000000000000000000000000000000000000000000000000000000000000000000000000000000000000000000000000000000000000000000000000000000000000000000000000000000000000000000000000000000000),
  (2629276887, 2243139233, 19700000000000000000000000000000000000000000000000000000000000000000000000000000000000000000000000000000000000000000000000000000000000000000000000000000000000000000000000000000000000000000000000000000000000000000000000000000000000000000000000000000000000000000000),
  (2644455868, 2242589403, 256000000000000000000000000000000000000000000000000000000000000000000000000000000000000000000000000000000000000000000000000000000000000000000000000000000000000000000000000000000000000000000000000000000000000000000000000000000000000000000000000000000000000000000000),
  (2659722478, 2242034389, 3200000000000000000000000000000000000000000000000000000000000000000000000000000000000000000000000000000000000000000000000000000000000000000000000000000000000000000000000000000000000000000000000000000000000000000000000000000000000000000000000000000000000000000000000)]

/-- materials/data/titanium_oxide.csv, lines 452-501 -/
def titaniumOxideRows9 : List (ℤ × ℤ × ℤ) := [
  (2675077224, 2241474105, 38500000000000000000000000000000000000000000000000000000000000000000000000000000000000000000000000000000000000000000000000000000000000000000000000000000000000000000000000000000000000000000000000000000000000000000000000000000000000000000000000000000000000000000000000),
  (2690520613, 2240908463, 447000000000000000000000000000000000000000000000000000000000000000000000000000000000000000000000000000000000000000000000000000000000000000000000000000000000000000000000000000000000000000000000000000000000000000000000000000000000000000000000000000000000000000000000000),
  (2706053158, 2240337374, 5000000000000000000000000000000000000000000000000000000000000000000000000000000000000000000000000000000000000000000000000000000000000000000000000000000000000000000000000000000000000000000000000000000000000000000000000000000000000000000000000000000000000000000000000000),
  (2721675373, 2239760749, 53800000000000000000000000000000000000000000000000000000000000000000000000000000000000000000000000000000000000000000000000000000000000000000000000000000000000000000000000000000000000000000000000000000000000000000000000000000000000000000000000000000000000000000000000000),
  (2737387777, 2239178497, 560000000000000000000000000000000000000000000000000000000000000000000000000000000000000000000000000000000000000000000000000000000000000000000000000000000000000000000000000000000000000000000000000000000000000000000000000000000000000000000000000000000000000000000000000000),
  (2753190889, 2238590527, 5610000000000000000000000000000000000000000000000000000000000000000000000000000000000000000000000000000000000000000000000000000000000000000000000000000000000000000000000000000000000000000000000000000000000000000000000000000000000000000000000000000000000000000000000000000),
  (2769085233, 2237996744, 54400000000000000000000000000000000000000000000000000000000000000000000000000000000000000000000000000000000000000000000000000000000000000000000000000000000000000000000000000000000000000000000000000000000000000000000000000000000000000000000000000000000000000000000000000000),
  (2785071337, 2237397055, 509000000000000000000000000000000000000000000000000000000000000000000000000000000000000000000000000000000000000000000000000000000000000000000000000000000000000000000000000000000000000000000000000000000000000000000000000000000000000000000000000000000000000000000000000000000),
  (2801149729, 2236791364, 4600000000000000000000000000000000000000000000000000000000000000000000000000000000000000000000000000000000000000000000000000000000000000000000000000000000000000000000000000000000000000000000000000000000000000000000000000000000000000000000000000000000000000000000000000000000),
  (2817320943, 2236179575, 40200000000000000000000000000000000000000000000000000000000000000000000000000000000000000000000000000000000000000000000000000000000000000000000000000000000000000000000000000000000000000000000000000000000000000000000000000000000000000000000000000000000000000000000000000000000),
  (2833585514, 2235561591, 340000000000000000000000000000000000000000000000000000000000000000000000000000000000000000000000000000000000000000000000000000000000000000000000000000000000000000000000000000000000000000000000000000000000000000000000000000000000000000000000000000000000000000000000000000000000),
  (2849943982, 2234937311, 2780000000000000000000000000000000000000000000000000000000000000000000000000000000000000000000000000000000000000000000000000000000000000000000000000000000000000000000000000000000000000000000000000000000000000000000000000000000000000000000000000000000000000000000000000000000000),
  (2866396888, 2234306636, 22000000000000000000000000000000000000000000000000000000000000000000000000000000000000000000000000000000000000000000000000000000000000000000000000000000000000000000000000000000000000000000000000000000000000000000000000000000000000000000000000000000000000000000000000000000000000),
  (2882944778, 2233669463, 169000000000000000000000000000000000000000000000000000000000000000000000000000000000000000000000000000000000000000000000000000000000000000000000000000000000000000000000000000000000000000000000000000000000000000000000000000000000000000000000000000000000000000000000000000000000000),
  (2899588200, 2233025691, 1250000000000000000000000000000000000000000000000000000000000000000000000000000000000000000000000000000000000000000000000000000000000000000000000000000000000000000000000000000000000000000000000000000000000000000000000000000000000000000000000000000000000000000000000000000000000000),
  (2916327705, 2232375214, 9020000000000000000000000000000000000000000000000000000000000000000000000000000000000000000000000000000000000000000000000000000000000000000000000000000000000000000000000000000000000000000000000000000000000000000000000000000000000000000000000000000000000000000000000000000000000000),
  (2933163849, 2231717927, 62900000000000000000000000000000000000000000000000000000000000000000000000000000000000000000000000000000000000000000000000000000000000000000000000000000000000000000000000000000000000000000000000000000000000000000000000000000000000000000000000000000000000000000000000000000000000000),
  (2950097188, 2231053722, 426000000000000000000000000000000000000000000000000000000000000000000000000000000000000000000000000000000000000000000000000000000000000000000000000000000000000000000000000000000000000000000000000000000000000000000000000000000000000000000000000000000000000000000000000000000000000000),
  (2967128285, 2230382491, 2800000000000000000000000000000000000000000000000000000000000000000000000000000000000000000000000000000000000000000000000000000000000000000000000000000000000000000000000000000000000000000000000000000000000000000000000000000000000000000000000000000000000000000000000000000000000000000),
  (2984257704, 2229704124, 17900000000000000000000000000000000000000000000000000000000000000000000000000000000000000000000000000000000000000000000000000000000000000000000000000000000000000000000000000000000000000000000000000000000000000000000000000000000000000000000000000000000000000000000000000000000000000000),
  (3001486011, 2229018510, 111000000000000000000000000000000000000000000000000000000000000000000000000000000000000000000000000000000000000000000000000000000000000000000000000000000000000000000000000000000000000000000000000000000000000000000000000000000000000000000000000000000000000000000000000000000000000000000),
  (3018813779, 2228325533, 666000000000000000000000000000000000000000000000000000000000000000000000000000000000000000000000000000000000000000000000000000000000000000000000000000000000000000000000000000000000000000000000000000000000000000000000000000000000000000000000000000000000000000000000000000000000000000000),
  (3036241581, 2227625081, 3900000000000000000000000000000000000000000000000000000000000000000000000000000000000000000000000000000000000000000000000000000000000000000000000000000000000000000000000000000000000000000000000000000000000000000000000000000000000000000000000000000000000000000000000000000000000000000000),
  (3053769995, 2226917037, 22200000000000000000000000000000000000000000000000000000000000000000000000000000000000000000000000000000000000000000000000000000000000000000000000000000000000000000000000000000000000000000000000000000000000000000000000000000000000000000000000000000000000000000000000000000000000000000000),
  (3071399602, 2226201282, 123000000000000000000000000000000000000000000000000000000000000000000000000000000000000000000000000000000000000000000000000000000000000000000000000000000000000000000000000000000000000000000000000000000000000000000000000000000000000000000000000000000000000000000000000000000000000000000000),
  (3089130985, 2225477697, 660000000000000000000000000000000000000000000000000000000000000000000000000000000000000000000000000000000000000000000000000000000000000000000000000000000000000000000000000000000000000000000000000000000000000000000000000000000000000000000000000000000000000000000000000000000000000000000000),
  (3106964733, 2224746161, 3460000000000000000000000000000000000000000000000000000000000000000000000000000000000000000000000000000000000000000000000000000000000000000000000000000000000000000000000000000000000000000000000000000000000000000000000000000000000000000000000000000000000000000000000000000000000000000000000),
  (3124901436, 2224006550, 17600000000000000000000000000000000000000000000000000000000000000000000000000000000000000000000000000000000000000000000000000000000000000000000000000000000000000000000000000000000000000000000000000000000000000000000000000000000000000000000000000000000000000000000000000000000000000000000000),
  (3142941689, 2223258738, 87600000000000000000000000000000000000000000000000000000000000000000000000000000000000000000000000000000000000000000000000000000000000000000000000000000000000000000000000000000000000000000000000000000000000000000000000000000000000000000000000000000000000000000000000000000000000000000000000),
  (3161086090, 2222502600, 424000000000000000000000000000000000000000000000000000000000000000000000000000000000000000000000000000000000000000000000000000000000000000000000000000000000000000000000000000000000000000000000000000000000000000000000000000000000000000000000000000000000000000000000000000000000000000000000000),
  (3179335239, 2221738006, 2000000000000000000000000000000000000000000000000000000000000000000000000000000000000000000000000000000000000000000000000000000000000000000000000000000000000000000000000000000000000000000000000000000000000000000000000000000000000000000000000000000000000000000000000000000000000000000000000000),
  (3197689741, 2220964826, 9200000000000000000000000000000000000000000000000000000000000000000000000000000000000000000000000000000000000000000000000000000000000000000000000000000000000000000000000000000000000000000000000000000000000000000000000000000000000000000000000000000000000000000000000000000000000000000000000000),
  (3216150206, 2220182926, 41300000000000000000000000000000000000000000000000000000000000000000000000000000000000000000000000000000000000000000000000000000000000000000000000000000000000000000000000000000000000000000000000000000000000000000000000000000000000000000000000000000000000000000000000000000000000000000000000000),
  (3234717243, 2219392173, 181000000000000000000000000000000000000000000000000000000000000000000000000000000000000000000000000000000000000000000000000000000000000000000000000000000000000000000000000000000000000000000000000000000000000000000000000000000000000000000000000000000000000000000000000000000000000000000000000000),
  (3253391470, 2218592430, 771000000000000000000000000000000000000000000000000000000000000000000000000000000000000000000000000000000000000000000000000000000000000000000000000000000000000000000000000000000000000000000000000000000000000000000000000000000000000000000000000000000000000000000000000000000000000000000000000000),
  (3272173504, 2217783557, 3220000000000000000000000000000000000000000000000000000000000000000000000000000000000000000000000000000000000000000000000000000000000000000000000000000000000000000000000000000000000000000000000000000000000000000000000000000000000000000000000000000000000000000000000000000000000000000000000000000),
  (3291063968, 2216965414, 13100000000000000000000000000000000000000000000000000000000000000000000000000000000000000000000000000000000000000000000000000000000000000000000000000000000000000000000000000000000000000000000000000000000000000000000000000000000000000000000000000000000000000000000000000000000000000000000000000000),
  (3310063487, 2216137857, 52100000000000000000000000000000000000000000000000000000000000000000000000000000000000000000000000000000000000000000000000000000000000000000000000000000000000000000000000000000000000000000000000000000000000000000000000000000000000000000000000000000000000000000000000000000000000000000000000000000),
  (3329172692, 2215300740, 203000000000000000000000000000000000000000000000000000000000000000000000000000000000000000000000000000000000000000000000000000000000000000000000000000000000000000000000000000000000000000000000000000000000000000000000000000000000000000000000000000000000000000000000000000000000000000000000000000000),
  (3348392216, 2214453917, 770000000000000000000000000000000000000000000000000000000000000000000000000000000000000000000000000000000000000000000000000000000000000000000000000000000000000000000000000000000000000000000000000000000000000000000000000000000000000000000000000000000000000000000000000000000000000000000000000000000),
  (3367722695, 2213597236, 2860000000000000000000000000000000000000000000000000000000000000000000000000000000000000000000000000000000000000000000000000000000000000000000000000000000000000000000000000000000000000000000000000000000000000000000000000000000000000000000000000000000000000000000000000000000000000000000000000000000),
  (3387164770, 2212730546, 10400000000000000000000000000000000000000000000000000000000000000000000000000000000000000000000000000000000000000000000000000000000000000000000000000000000000000000000000000000000000000000000000000000000000000000000000000000000000000000000000000000000000000000000000000000000000000000000000000000000),
  (3406719086, 2211853690, 37000000000000000000000000000000000000000000000000000000000000000000000000000000000000000000000000000000000000000000000000000000000000000000000000000000000000000000000000000000000000000000000000000000000000000000000000000000000000000000000000000000000000000000000000000000000000000000000000000000000),
  (3426386290, 2210966511, 129000000000000000000000000000000000000000000000000000000000000000000000000000000000000000000000000000000000000000000000000000000000000000000000000000000000000000000000000000000000000000000000000000000000000000000000000000000000000000000000000000000000000000000000000000000000000000000000000000000000),
  (3446167034, 2210068850, 438000000000000000000000000000000000000000000000000000000000000000000000000000000000000000000000000000000000000000000000000000000000000000000000000000000000000000000000000000000000000000000000000000000000000000000000000000000000000000000000000000000000000000000000000000000000000000000000000000000000),
  (3466061973, 2209160542, 1460000000000000000000000000000000000000000000000000000000000000000000000000000000000000000000000000000000000000000000000000000000000000000000000000000000000000000000000000000000000000000000000000000000000000000000000000000000000000000000000000000000000000000000000000000000000000000000000000000000000),
  (3486071767, 2208241423, 4770000000000000000000000000000000000000000000000000000000000000000000000000000000000000000000000000000000000000000000000000000000000000000000000000000000000000000000000000000000000000000000000000000000000000000000000000000000000000000000000000000000000000000000000000000000000000000000000000000000000),
  (3506197079, 2207311323, 15300000000000000000000000000000000000000000000000000000000000000000000000000000000000000000000000000000000000000000000000000000000000000000000000000000000000000000000000000000000000000000000000000000000000000000000000000000000000000000000000000000000000000000000000000000000000000000000000000000000000),
  (3526438576, 2206370071, 47900000000000000000000000000000000000000000000000000000000000000000000000000000000000000000000000000000000000000000000000000000000000000000000000000000000000000000000000000000000000000000000000000000000000000000000000000000000000000000000000000000000000000000000000000000000000000000000000000000000000),
  (3546796928, 2205417493, 147000000000000000000000000000000000000000000000000000000000000000000000000000000000000000000000000000000000000000000000000000000000000000000000000000000000000000000000000000000000000000000000000000000000000000000000000000000000000000000000000000000000000000000000000000000000000000000000000000000000000)]

/-- materials/data/titanium_oxide.csv, lines 502-551 -/
def titaniumOxideRows10 : List (ℤ × ℤ × ℤ) := [
  (3567272810, 2204453411, 445000000000000000000000000000000000000000000000000000000000000000000000000000000000000000000000000000000000000000000000000000000000000000000000000000000000000000000000000000000000000000000000000000000000000000000000000000000000000000000000000000000000000000000000000000000000000000000000000000000000000),
  (3587866901, 2203477645, 1320000000000000000000000000000000000000000000000000000000000000000000000000000000000000000000000000000000000000000000000000000000000000000000000000000000000000000000000000000000000000000000000000000000000000000000000000000000000000000000000000000000000000000000000000000000000000000000000000000000000000),
  (3608579883, 2202490010, 3820000000000000000000000000000000000000000000000000000000000000000000000000000000000000000000000000000000000000000000000000000000000000000000000000000000000000000000000000000000000000000000000000000000000000000000000000000000000000000000000000000000000000000000000000000000000000000000000000000000000000),
  (3629412442, 2201490320, 10900000000000000000000000000000000000000000000000000000000000000000000000000000000000000000000000000000000000000000000000000000000000000000000000000000000000000000000000000000000000000000000000000000000000000000000000000000000000000000000000000000000000000000000000000000000000000000000000000000000000000),
  (3650365268, 2200478384, 30400000000000000000000000000000000000000000000000000000000000000000000000000000000000000000000000000000000000000000000000000000000000000000000000000000000000000000000000000000000000000000000000000000000000000000000000000000000000000000000000000000000000000000000000000000000000000000000000000000000000000),
  (3671439057, 2199454008, 83300000000000000000000000000000000000000000000000000000000000000000000000000000000000000000000000000000000000000000000000000000000000000000000000000000000000000000000000000000000000000000000000000000000000000000000000000000000000000000000000000000000000000000000000000000000000000000000000000000000000000),
  (3692634506, 2198416994, 225000000000000000000000000000000000000000000000000000000000000000000000000000000000000000000000000000000000000000000000000000000000000000000000000000000000000000000000000000000000000000000000000000000000000000000000000000000000000000000000000000000000000000000000000000000000000000000000000000000000000000),
  (3713952318, 2197367140, 595000000000000000000000000000000000000000000000000000000000000000000000000000000000000000000000000000000000000000000000000000000000000000000000000000000000000000000000000000000000000000000000000000000000000000000000000000000000000000000000000000000000000000000000000000000000000000000000000000000000000000),
  (3735393198, 2196304243, 1550000000000000000000000000000000000000000000000000000000000000000000000000000000000000000000000000000000000000000000000000000000000000000000000000000000000000000000000000000000000000000000000000000000000000000000000000000000000000000000000000000000000000000000000000000000000000000000000000000000000000000),
  (3756957859, 2195228092, 3950000000000000000000000000000000000000000000000000000000000000000000000000000000000000000000000000000000000000000000000000000000000000000000000000000000000000000000000000000000000000000000000000000000000000000000000000000000000000000000000000000000000000000000000000000000000000000000000000000000000000000),
  (3778647013, 2194138475, 9930000000000000000000000000000000000000000000000000000000000000000000000000000000000000000000000000000000000000000000000000000000000000000000000000000000000000000000000000000000000000000000000000000000000000000000000000000000000000000000000000000000000000000000000000000000000000000000000000000000000000000),
  (3800461380, 2193035173, 24500000000000000000000000000000000000000000000000000000000000000000000000000000000000000000000000000000000000000000000000000000000000000000000000000000000000000000000000000000000000000000000000000000000000000000000000000000000000000000000000000000000000000000000000000000000000000000000000000000000000000000),
  (3822401683, 2191917967, 59600000000000000000000000000000000000000000000000000000000000000000000000000000000000000000000000000000000000000000000000000000000000000000000000000000000000000000000000000000000000000000000000000000000000000000000000000000000000000000000000000000000000000000000000000000000000000000000000000000000000000000),
  (3844468649, 2190786629, 143000000000000000000000000000000000000000000000000000000000000000000000000000000000000000000000000000000000000000000000000000000000000000000000000000000000000000000000000000000000000000000000000000000000000000000000000000000000000000000000000000000000000000000000000000000000000000000000000000000000000000000),
  (3866663009, 2189640927, 335000000000000000000000000000000000000000000000000000000000000000000000000000000000000000000000000000000000000000000000000000000000000000000000000000000000000000000000000000000000000000000000000000000000000000000000000000000000000000000000000000000000000000000000000000000000000000000000000000000000000000000),
  (3888985498, 2188480629, 776000000000000000000000000000000000000000000000000000000000000000000000000000000000000000000000000000000000000000000000000000000000000000000000000000000000000000000000000000000000000000000000000000000000000000000000000000000000000000000000000000000000000000000000000000000000000000000000000000000000000000000),
  (3911436856, 2187305492, 1770000000000000000000000000000000000000000000000000000000000000000000000000000000000000000000000000000000000000000000000000000000000000000000000000000000000000000000000000000000000000000000000000000000000000000000000000000000000000000000000000000000000000000000000000000000000000000000000000000000000000000000),
  (3934017828, 2186115272, 3960000000000000000000000000000000000000000000000000000000000000000000000000000000000000000000000000000000000000000000000000000000000000000000000000000000000000000000000000000000000000000000000000000000000000000000000000000000000000000000000000000000000000000000000000000000000000000000000000000000000000000000),
  (3956729160, 2184909719, 8750000000000000000000000000000000000000000000000000000000000000000000000000000000000000000000000000000000000000000000000000000000000000000000000000000000000000000000000000000000000000000000000000000000000000000000000000000000000000000000000000000000000000000000000000000000000000000000000000000000000000000000),
  (3979571607, 2183688575, 19000000000000000000000000000000000000000000000000000000000000000000000000000000000000000000000000000000000000000000000000000000000000000000000000000000000000000000000000000000000000000000000000000000000000000000000000000000000000000000000000000000000000000000000000000000000000000000000000000000000000000000000),
  (4002545925, 2182451579, 40800000000000000000000000000000000000000000000000000000000000000000000000000000000000000000000000000000000000000000000000000000000000000000000000000000000000000000000000000000000000000000000000000000000000000000000000000000000000000000000000000000000000000000000000000000000000000000000000000000000000000000000),
  (4025652874, 2181198463, 86200000000000000000000000000000000000000000000000000000000000000000000000000000000000000000000000000000000000000000000000000000000000000000000000000000000000000000000000000000000000000000000000000000000000000000000000000000000000000000000000000000000000000000000000000000000000000000000000000000000000000000000),
  (4048893222, 2179928955, 179000000000000000000000000000000000000000000000000000000000000000000000000000000000000000000000000000000000000000000000000000000000000000000000000000000000000000000000000000000000000000000000000000000000000000000000000000000000000000000000000000000000000000000000000000000000000000000000000000000000000000000000),
  (4072267738, 2178642773, 368000000000000000000000000000000000000000000000000000000000000000000000000000000000000000000000000000000000000000000000000000000000000000000000000000000000000000000000000000000000000000000000000000000000000000000000000000000000000000000000000000000000000000000000000000000000000000000000000000000000000000000000),
  (4095777196, 2177339631, 745000000000000000000000000000000000000000000000000000000000000000000000000000000000000000000000000000000000000000000000000000000000000000000000000000000000000000000000000000000000000000000000000000000000000000000000000000000000000000000000000000000000000000000000000000000000000000000000000000000000000000000000),
  (4119422376, 2176019237, 1490000000000000000000000000000000000000000000000000000000000000000000000000000000000000000000000000000000000000000000000000000000000000000000000000000000000000000000000000000000000000000000000000000000000000000000000000000000000000000000000000000000000000000000000000000000000000000000000000000000000000000000000),
  (4143204061, 2174681288, 2920000000000000000000000000000000000000000000000000000000000000000000000000000000000000000000000000000000000000000000000000000000000000000000000000000000000000000000000000000000000000000000000000000000000000000000000000000000000000000000000000000000000000000000000000000000000000000000000000000000000000000000000),
  (4167123039, 2173325477, 5680000000000000000000000000000000000000000000000000000000000000000000000000000000000000000000000000000000000000000000000000000000000000000000000000000000000000000000000000000000000000000000000000000000000000000000000000000000000000000000000000000000000000000000000000000000000000000000000000000000000000000000000),
  (4191180103, 2171951488, 10900000000000000000000000000000000000000000000000000000000000000000000000000000000000000000000000000000000000000000000000000000000000000000000000000000000000000000000000000000000000000000000000000000000000000000000000000000000000000000000000000000000000000000000000000000000000000000000000000000000000000000000000),
  (4215376049, 2170558997, 20600000000000000000000000000000000000000000000000000000000000000000000000000000000000000000000000000000000000000000000000000000000000000000000000000000000000000000000000000000000000000000000000000000000000000000000000000000000000000000000000000000000000000000000000000000000000000000000000000000000000000000000000),
  (4239711681, 2169147671, 38400000000000000000000000000000000000000000000000000000000000000000000000000000000000000000000000000000000000000000000000000000000000000000000000000000000000000000000000000000000000000000000000000000000000000000000000000000000000000000000000000000000000000000000000000000000000000000000000000000000000000000000000),
  (4264187803, 2167717170, 70700000000000000000000000000000000000000000000000000000000000000000000000000000000000000000000000000000000000000000000000000000000000000000000000000000000000000000000000000000000000000000000000000000000000000000000000000000000000000000000000000000000000000000000000000000000000000000000000000000000000000000000000),
  (4288805228, 2166267140, 129000000000000000000000000000000000000000000000000000000000000000000000000000000000000000000000000000000000000000000000000000000000000000000000000000000000000000000000000000000000000000000000000000000000000000000000000000000000000000000000000000000000000000000000000000000000000000000000000000000000000000000000000),
  (4313564771, 2164797223, 231000000000000000000000000000000000000000000000000000000000000000000000000000000000000000000000000000000000000000000000000000000000000000000000000000000000000000000000000000000000000000000000000000000000000000000000000000000000000000000000000000000000000000000000000000000000000000000000000000000000000000000000000),
  (4338467252, 2163307045, 410000000000000000000000000000000000000000000000000000000000000000000000000000000000000000000000000000000000000000000000000000000000000000000000000000000000000000000000000000000000000000000000000000000000000000000000000000000000000000000000000000000000000000000000000000000000000000000000000000000000000000000000000),
  (4363513497, 2161796223, 719000000000000000000000000000000000000000000000000000000000000000000000000000000000000000000000000000000000000000000000000000000000000000000000000000000000000000000000000000000000000000000000000000000000000000000000000000000000000000000000000000000000000000000000000000000000000000000000000000000000000000000000000),
  (4388704335, 2160264363, 1250000000000000000000000000000000000000000000000000000000000000000000000000000000000000000000000000000000000000000000000000000000000000000000000000000000000000000000000000000000000000000000000000000000000000000000000000000000000000000000000000000000000000000000000000000000000000000000000000000000000000000000000000),
  (4414040602, 2158711057, 2130000000000000000000000000000000000000000000000000000000000000000000000000000000000000000000000000000000000000000000000000000000000000000000000000000000000000000000000000000000000000000000000000000000000000000000000000000000000000000000000000000000000000000000000000000000000000000000000000000000000000000000000000),
  (4439523137, 2157135885, 3610000000000000000000000000000000000000000000000000000000000000000000000000000000000000000000000000000000000000000000000000000000000000000000000000000000000000000000000000000000000000000000000000000000000000000000000000000000000000000000000000000000000000000000000000000000000000000000000000000000000000000000000000),
  (4465152783, 2155538411, 6050000000000000000000000000000000000000000000000000000000000000000000000000000000000000000000000000000000000000000000000000000000000000000000000000000000000000000000000000000000000000000000000000000000000000000000000000000000000000000000000000000000000000000000000000000000000000000000000000000000000000000000000000),
  (4490930392, 2153918185, 10000000000000000000000000000000000000000000000000000000000000000000000000000000000000000000000000000000000000000000000000000000000000000000000000000000000000000000000000000000000000000000000000000000000000000000000000000000000000000000000000000000000000000000000000000000000000000000000000000000000000000000000000000),
  (4516856816, 2152274738, 16400000000000000000000000000000000000000000000000000000000000000000000000000000000000000000000000000000000000000000000000000000000000000000000000000000000000000000000000000000000000000000000000000000000000000000000000000000000000000000000000000000000000000000000000000000000000000000000000000000000000000000000000000),
  (4542932915, 2150607585, 26500000000000000000000000000000000000000000000000000000000000000000000000000000000000000000000000000000000000000000000000000000000000000000000000000000000000000000000000000000000000000000000000000000000000000000000000000000000000000000000000000000000000000000000000000000000000000000000000000000000000000000000000000),
  (4569159553, 2148916223, 42500000000000000000000000000000000000000000000000000000000000000000000000000000000000000000000000000000000000000000000000000000000000000000000000000000000000000000000000000000000000000000000000000000000000000000000000000000000000000000000000000000000000000000000000000000000000000000000000000000000000000000000000000),
  (4595537599, 2147200122, 67300000000000000000000000000000000000000000000000000000000000000000000000000000000000000000000000000000000000000000000000000000000000000000000000000000000000000000000000000000000000000000000000000000000000000000000000000000000000000000000000000000000000000000000000000000000000000000000000000000000000000000000000000),
  (4622067927, 2145458734, 105000000000000000000000000000000000000000000000000000000000000000000000000000000000000000000000000000000000000000000000000000000000000000000000000000000000000000000000000000000000000000000000000000000000000000000000000000000000000000000000000000000000000000000000000000000000000000000000000000000000000000000000000000),
  (4648751416, 2143691483, 164000000000000000000000000000000000000000000000000000000000000000000000000000000000000000000000000000000000000000000000000000000000000000000000000000000000000000000000000000000000000000000000000000000000000000000000000000000000000000000000000000000000000000000000000000000000000000000000000000000000000000000000000000),
  (4675588951, 2141897763, 251000000000000000000000000000000000000000000000000000000000000000000000000000000000000000000000000000000000000000000000000000000000000000000000000000000000000000000000000000000000000000000000000000000000000000000000000000000000000000000000000000000000000000000000000000000000000000000000000000000000000000000000000000),
  (4702581420, 2140076944, 382000000000000000000000000000000000000000000000000000000000000000000000000000000000000000000000000000000000000000000000000000000000000000000000000000000000000000000000000000000000000000000000000000000000000000000000000000000000000000000000000000000000000000000000000000000000000000000000000000000000000000000000000000),
  (4729729719, 2138228352, 576000000000000000000000000000000000000000000000000000000000000000000000000000000000000000000000000000000000000000000000000000000000000000000000000000000000000000000000000000000000000000000000000000000000000000000000000000000000000000000000000000000000000000000000000000000000000000000000000000000000000000000000000000)]

/-- materials/data/titanium_oxide.csv, lines 552-601 -/
def titaniumOxideRows11 : List (ℤ × ℤ × ℤ) := [
  (4757034747, 2136351284, 858000000000000000000000000000000000000000000000000000000000000000000000000000000000000000000000000000000000000000000000000000000000000000000000000000000000000000000000000000000000000000000000000000000000000000000000000000000000000000000000000000000000000000000000000000000000000000000000000000000000000000000000000000),
  (4784497408, 2134444989, 1270000000000000000000000000000000000000000000000000000000000000000000000000000000000000000000000000000000000000000000000000000000000000000000000000000000000000000000000000000000000000000000000000000000000000000000000000000000000000000000000000000000000000000000000000000000000000000000000000000000000000000000000000000),
  (4812118613, 2132508673, 1850000000000000000000000000000000000000000000000000000000000000000000000000000000000000000000000000000000000000000000000000000000000000000000000000000000000000000000000000000000000000000000000000000000000000000000000000000000000000000000000000000000000000000000000000000000000000000000000000000000000000000000000000000),
  (4839899277, 2130541491, 2690000000000000000000000000000000000000000000000000000000000000000000000000000000000000000000000000000000000000000000000000000000000000000000000000000000000000000000000000000000000000000000000000000000000000000000000000000000000000000000000000000000000000000000000000000000000000000000000000000000000000000000000000000),
  (4867840320, 2128542541, 3860000000000000000000000000000000000000000000000000000000000000000000000000000000000000000000000000000000000000000000000000000000000000000000000000000000000000000000000000000000000000000000000000000000000000000000000000000000000000000000000000000000000000000000000000000000000000000000000000000000000000000000000000000),
  (4895942669, 2126510867, 5490000000000000000000000000000000000000000000000000000000000000000000000000000000000000000000000000000000000000000000000000000000000000000000000000000000000000000000000000000000000000000000000000000000000000000000000000000000000000000000000000000000000000000000000000000000000000000000000000000000000000000000000000000),
  (4924207255, 2124445442, 7750000000000000000000000000000000000000000000000000000000000000000000000000000000000000000000000000000000000000000000000000000000000000000000000000000000000000000000000000000000000000000000000000000000000000000000000000000000000000000000000000000000000000000000000000000000000000000000000000000000000000000000000000000),
  (4952635014, 2122345174, 10800000000000000000000000000000000000000000000000000000000000000000000000000000000000000000000000000000000000000000000000000000000000000000000000000000000000000000000000000000000000000000000000000000000000000000000000000000000000000000000000000000000000000000000000000000000000000000000000000000000000000000000000000000),
  (4981226887, 2120208901, 15000000000000000000000000000000000000000000000000000000000000000000000000000000000000000000000000000000000000000000000000000000000000000000000000000000000000000000000000000000000000000000000000000000000000000000000000000000000000000000000000000000000000000000000000000000000000000000000000000000000000000000000000000000),
  (5009983824, 2118035381, 20600000000000000000000000000000000000000000000000000000000000000000000000000000000000000000000000000000000000000000000000000000000000000000000000000000000000000000000000000000000000000000000000000000000000000000000000000000000000000000000000000000000000000000000000000000000000000000000000000000000000000000000000000000),
  (5038906776, 2115823301, 28100000000000000000000000000000000000000000000000000000000000000000000000000000000000000000000000000000000000000000000000000000000000000000000000000000000000000000000000000000000000000000000000000000000000000000000000000000000000000000000000000000000000000000000000000000000000000000000000000000000000000000000000000000),
  (5067996703, 2113571272, 38000000000000000000000000000000000000000000000000000000000000000000000000000000000000000000000000000000000000000000000000000000000000000000000000000000000000000000000000000000000000000000000000000000000000000000000000000000000000000000000000000000000000000000000000000000000000000000000000000000000000000000000000000000),
  (5097254567, 2111277836, 50900000000000000000000000000000000000000000000000000000000000000000000000000000000000000000000000000000000000000000000000000000000000000000000000000000000000000000000000000000000000000000000000000000000000000000000000000000000000000000000000000000000000000000000000000000000000000000000000000000000000000000000000000000),
  (5126681339, 2108941468, 67700000000000000000000000000000000000000000000000000000000000000000000000000000000000000000000000000000000000000000000000000000000000000000000000000000000000000000000000000000000000000000000000000000000000000000000000000000000000000000000000000000000000000000000000000000000000000000000000000000000000000000000000000000),
  (5156277993, 2106560591, 89300000000000000000000000000000000000000000000000000000000000000000000000000000000000000000000000000000000000000000000000000000000000000000000000000000000000000000000000000000000000000000000000000000000000000000000000000000000000000000000000000000000000000000000000000000000000000000000000000000000000000000000000000000),
  (5186045511, 2104133588, 116923000000000000000000000000000000000000000000000000000000000000000000000000000000000000000000000000000000000000000000000000000000000000000000000000000000000000000000000000000000000000000000000000000000000000000000000000000000000000000000000000000000000000000000000000000000000000000000000000000000000000000000000000000),
  (5215984878, 2101658822, 151879000000000000000000000000000000000000000000000000000000000000000000000000000000000000000000000000000000000000000000000000000000000000000000000000000000000000000000000000000000000000000000000000000000000000000000000000000000000000000000000000000000000000000000000000000000000000000000000000000000000000000000000000000),
  (5246097088, 2099134662, 195796000000000000000000000000000000000000000000000000000000000000000000000000000000000000000000000000000000000000000000000000000000000000000000000000000000000000000000000000000000000000000000000000000000000000000000000000000000000000000000000000000000000000000000000000000000000000000000000000000000000000000000000000000),
  (5276383137, 2096559509, 250538000000000000000000000000000000000000000000000000000000000000000000000000000000000000000000000000000000000000000000000000000000000000000000000000000000000000000000000000000000000000000000000000000000000000000000000000000000000000000000000000000000000000000000000000000000000000000000000000000000000000000000000000000),
  (5306844029, 2093931842, 318239000000000000000000000000000000000000000000000000000000000000000000000000000000000000000000000000000000000000000000000000000000000000000000000000000000000000000000000000000000000000000000000000000000000000000000000000000000000000000000000000000000000000000000000000000000000000000000000000000000000000000000000000000),
  (5337480774, 2091250248, 401321000000000000000000000000000000000000000000000000000000000000000000000000000000000000000000000000000000000000000000000000000000000000000000000000000000000000000000000000000000000000000000000000000000000000000000000000000000000000000000000000000000000000000000000000000000000000000000000000000000000000000000000000000),
  (5368294386, 2088513479, 502500000000000000000000000000000000000000000000000000000000000000000000000000000000000000000000000000000000000000000000000000000000000000000000000000000000000000000000000000000000000000000000000000000000000000000000000000000000000000000000000000000000000000000000000000000000000000000000000000000000000000000000000000000),
  (5399285888, 2085720503, 624789000000000000000000000000000000000000000000000000000000000000000000000000000000000000000000000000000000000000000000000000000000000000000000000000000000000000000000000000000000000000000000000000000000000000000000000000000000000000000000000000000000000000000000000000000000000000000000000000000000000000000000000000000),
  (5430456306, 2082870554, 771491000000000000000000000000000000000000000000000000000000000000000000000000000000000000000000000000000000000000000000000000000000000000000000000000000000000000000000000000000000000000000000000000000000000000000000000000000000000000000000000000000000000000000000000000000000000000000000000000000000000000000000000000000),
  (5461806672, 2079963213, 946180000000000000000000000000000000000000000000000000000000000000000000000000000000000000000000000000000000000000000000000000000000000000000000000000000000000000000000000000000000000000000000000000000000000000000000000000000000000000000000000000000000000000000000000000000000000000000000000000000000000000000000000000000),
  (5493338026, 2076998440, 1152676000000000000000000000000000000000000000000000000000000000000000000000000000000000000000000000000000000000000000000000000000000000000000000000000000000000000000000000000000000000000000000000000000000000000000000000000000000000000000000000000000000000000000000000000000000000000000000000000000000000000000000000000000),
  (5525051413, 2073976664, 1395005000000000000000000000000000000000000000000000000000000000000000000000000000000000000000000000000000000000000000000000000000000000000000000000000000000000000000000000000000000000000000000000000000000000000000000000000000000000000000000000000000000000000000000000000000000000000000000000000000000000000000000000000000),
  (5556947883, 2070898821, 1677346000000000000000000000000000000000000000000000000000000000000000000000000000000000000000000000000000000000000000000000000000000000000000000000000000000000000000000000000000000000000000000000000000000000000000000000000000000000000000000000000000000000000000000000000000000000000000000000000000000000000000000000000000),
  (5589028493, 2067766425, 2003971000000000000000000000000000000000000000000000000000000000000000000000000000000000000000000000000000000000000000000000000000000000000000000000000000000000000000000000000000000000000000000000000000000000000000000000000000000000000000000000000000000000000000000000000000000000000000000000000000000000000000000000000000),
  (5621294306, 2064581606, 2379163000000000000000000000000000000000000000000000000000000000000000000000000000000000000000000000000000000000000000000000000000000000000000000000000000000000000000000000000000000000000000000000000000000000000000000000000000000000000000000000000000000000000000000000000000000000000000000000000000000000000000000000000000),
  (5653746393, 2061347150, 2807132000000000000000000000000000000000000000000000000000000000000000000000000000000000000000000000000000000000000000000000000000000000000000000000000000000000000000000000000000000000000000000000000000000000000000000000000000000000000000000000000000000000000000000000000000000000000000000000000000000000000000000000000000),
  (5686385827, 2058066530, 3291910000000000000000000000000000000000000000000000000000000000000000000000000000000000000000000000000000000000000000000000000000000000000000000000000000000000000000000000000000000000000000000000000000000000000000000000000000000000000000000000000000000000000000000000000000000000000000000000000000000000000000000000000000),
  (5719213690, 2054743907, 3837251000000000000000000000000000000000000000000000000000000000000000000000000000000000000000000000000000000000000000000000000000000000000000000000000000000000000000000000000000000000000000000000000000000000000000000000000000000000000000000000000000000000000000000000000000000000000000000000000000000000000000000000000000),
  (5752231071, 2051384130, 4446508000000000000000000000000000000000000000000000000000000000000000000000000000000000000000000000000000000000000000000000000000000000000000000000000000000000000000000000000000000000000000000000000000000000000000000000000000000000000000000000000000000000000000000000000000000000000000000000000000000000000000000000000000),
  (5785439064, 2047992710, 5122517000000000000000000000000000000000000000000000000000000000000000000000000000000000000000000000000000000000000000000000000000000000000000000000000000000000000000000000000000000000000000000000000000000000000000000000000000000000000000000000000000000000000000000000000000000000000000000000000000000000000000000000000000),
  (5818838768, 2044575777, 5867479000000000000000000000000000000000000000000000000000000000000000000000000000000000000000000000000000000000000000000000000000000000000000000000000000000000000000000000000000000000000000000000000000000000000000000000000000000000000000000000000000000000000000000000000000000000000000000000000000000000000000000000000000),
  (5852431291, 2041140011, 6682840000000000000000000000000000000000000000000000000000000000000000000000000000000000000000000000000000000000000000000000000000000000000000000000000000000000000000000000000000000000000000000000000000000000000000000000000000000000000000000000000000000000000000000000000000000000000000000000000000000000000000000000000000),
  (5886217745, 2037692553, 7569184000000000000000000000000000000000000000000000000000000000000000000000000000000000000000000000000000000000000000000000000000000000000000000000000000000000000000000000000000000000000000000000000000000000000000000000000000000000000000000000000000000000000000000000000000000000000000000000000000000000000000000000000000),
  (5920199251, 2034240908, 8526129000000000000000000000000000000000000000000000000000000000000000000000000000000000000000000000000000000000000000000000000000000000000000000000000000000000000000000000000000000000000000000000000000000000000000000000000000000000000000000000000000000000000000000000000000000000000000000000000000000000000000000000000000),
  (5954376934, 2030792792, 9552247000000000000000000000000000000000000000000000000000000000000000000000000000000000000000000000000000000000000000000000000000000000000000000000000000000000000000000000000000000000000000000000000000000000000000000000000000000000000000000000000000000000000000000000000000000000000000000000000000000000000000000000000000),
  (5988751928, 2027356025, 10644991000000000000000000000000000000000000000000000000000000000000000000000000000000000000000000000000000000000000000000000000000000000000000000000000000000000000000000000000000000000000000000000000000000000000000000000000000000000000000000000000000000000000000000000000000000000000000000000000000000000000000000000000000),
  (6023325370, 2023938339, 11800653000000000000000000000000000000000000000000000000000000000000000000000000000000000000000000000000000000000000000000000000000000000000000000000000000000000000000000000000000000000000000000000000000000000000000000000000000000000000000000000000000000000000000000000000000000000000000000000000000000000000000000000000000),
  (6058098407, 2020547237, 13014342000000000000000000000000000000000000000000000000000000000000000000000000000000000000000000000000000000000000000000000000000000000000000000000000000000000000000000000000000000000000000000000000000000000000000000000000000000000000000000000000000000000000000000000000000000000000000000000000000000000000000000000000000),
  (6093072190, 2017189791, 14279991000000000000000000000000000000000000000000000000000000000000000000000000000000000000000000000000000000000000000000000000000000000000000000000000000000000000000000000000000000000000000000000000000000000000000000000000000000000000000000000000000000000000000000000000000000000000000000000000000000000000000000000000000),
  (6128247880, 2013872485, 15590386000000000000000000000000000000000000000000000000000000000000000000000000000000000000000000000000000000000000000000000000000000000000000000000000000000000000000000000000000000000000000000000000000000000000000000000000000000000000000000000000000000000000000000000000000000000000000000000000000000000000000000000000000),
  (6163626641, 2010601033, 16937232000000000000000000000000000000000000000000000000000000000000000000000000000000000000000000000000000000000000000000000000000000000000000000000000000000000000000000000000000000000000000000000000000000000000000000000000000000000000000000000000000000000000000000000000000000000000000000000000000000000000000000000000000),
  (6199209646, 2007380218, 18311242000000000000000000000000000000000000000000000000000000000000000000000000000000000000000000000000000000000000000000000000000000000000000000000000000000000000000000000000000000000000000000000000000000000000000000000000000000000000000000000000000000000000000000000000000000000000000000000000000000000000000000000000000),
  (6234998074, 2004213732, 19702252000000000000000000000000000000000000000000000000000000000000000000000000000000000000000000000000000000000000000000000000000000000000000000000000000000000000000000000000000000000000000000000000000000000000000000000000000000000000000000000000000000000000000000000000000000000000000000000000000000000000000000000000000),
  (6270993111, 2001104048, 21099366000000000000000000000000000000000000000000000000000000000000000000000000000000000000000000000000000000000000000000000000000000000000000000000000000000000000000000000000000000000000000000000000000000000000000000000000000000000000000000000000000000000000000000000000000000000000000000000000000000000000000000000000000),
  (6307195949, 1998052307, 22491116000000000000000000000000000000000000000000000000000000000000000000000000000000000000000000000000000000000000000000000000000000000000000000000000000000000000000000000000000000000000000000000000000000000000000000000000000000000000000000000000000000000000000000000000000000000000000000000000000000000000000000000000000)]

/-- materials/data/titanium_oxide.csv, lines 602-651 -/
def titaniumOxideRows12 : List (ℤ × ℤ × ℤ) := [
  (6343607788, 1995058222, 23865644000000000000000000000000000000000000000000000000000000000000000000000000000000000000000000000000000000000000000000000000000000000000000000000000000000000000000000000000000000000000000000000000000000000000000000000000000000000000000000000000000000000000000000000000000000000000000000000000000000000000000000000000000),
  (6380229836, 1992120029, 25210892000000000000000000000000000000000000000000000000000000000000000000000000000000000000000000000000000000000000000000000000000000000000000000000000000000000000000000000000000000000000000000000000000000000000000000000000000000000000000000000000000000000000000000000000000000000000000000000000000000000000000000000000000),
  (6417063305, 1989234468, 26514808000000000000000000000000000000000000000000000000000000000000000000000000000000000000000000000000000000000000000000000000000000000000000000000000000000000000000000000000000000000000000000000000000000000000000000000000000000000000000000000000000000000000000000000000000000000000000000000000000000000000000000000000000),
  (6454109415, 1986396753, 27765542000000000000000000000000000000000000000000000000000000000000000000000000000000000000000000000000000000000000000000000000000000000000000000000000000000000000000000000000000000000000000000000000000000000000000000000000000000000000000000000000000000000000000000000000000000000000000000000000000000000000000000000000000),
  (6491369396, 1983600648, 28951651000000000000000000000000000000000000000000000000000000000000000000000000000000000000000000000000000000000000000000000000000000000000000000000000000000000000000000000000000000000000000000000000000000000000000000000000000000000000000000000000000000000000000000000000000000000000000000000000000000000000000000000000000),
  (6528844480, 1980838502, 30062292000000000000000000000000000000000000000000000000000000000000000000000000000000000000000000000000000000000000000000000000000000000000000000000000000000000000000000000000000000000000000000000000000000000000000000000000000000000000000000000000000000000000000000000000000000000000000000000000000000000000000000000000000),
  (6566535911, 1978101352, 31087393000000000000000000000000000000000000000000000000000000000000000000000000000000000000000000000000000000000000000000000000000000000000000000000000000000000000000000000000000000000000000000000000000000000000000000000000000000000000000000000000000000000000000000000000000000000000000000000000000000000000000000000000000),
  (6604444936, 1975379030, 32017824000000000000000000000000000000000000000000000000000000000000000000000000000000000000000000000000000000000000000000000000000000000000000000000000000000000000000000000000000000000000000000000000000000000000000000000000000000000000000000000000000000000000000000000000000000000000000000000000000000000000000000000000000),
  (6642572813, 1972660332, 32845528000000000000000000000000000000000000000000000000000000000000000000000000000000000000000000000000000000000000000000000000000000000000000000000000000000000000000000000000000000000000000000000000000000000000000000000000000000000000000000000000000000000000000000000000000000000000000000000000000000000000000000000000000),
  (6680920804, 1969933134, 33563644000000000000000000000000000000000000000000000000000000000000000000000000000000000000000000000000000000000000000000000000000000000000000000000000000000000000000000000000000000000000000000000000000000000000000000000000000000000000000000000000000000000000000000000000000000000000000000000000000000000000000000000000000),
  (6719490181, 1967184590, 34166593000000000000000000000000000000000000000000000000000000000000000000000000000000000000000000000000000000000000000000000000000000000000000000000000000000000000000000000000000000000000000000000000000000000000000000000000000000000000000000000000000000000000000000000000000000000000000000000000000000000000000000000000000),
  (6758282221, 1964401294, 34650138000000000000000000000000000000000000000000000000000000000000000000000000000000000000000000000000000000000000000000000000000000000000000000000000000000000000000000000000000000000000000000000000000000000000000000000000000000000000000000000000000000000000000000000000000000000000000000000000000000000000000000000000000),
  (6797298210, 1961569474, 35011423000000000000000000000000000000000000000000000000000000000000000000000000000000000000000000000000000000000000000000000000000000000000000000000000000000000000000000000000000000000000000000000000000000000000000000000000000000000000000000000000000000000000000000000000000000000000000000000000000000000000000000000000000),
  (6836539441, 1958675158, 35248977000000000000000000000000000000000000000000000000000000000000000000000000000000000000000000000000000000000000000000000000000000000000000000000000000000000000000000000000000000000000000000000000000000000000000000000000000000000000000000000000000000000000000000000000000000000000000000000000000000000000000000000000000),
  (6876007214, 1955704369, 35362695000000000000000000000000000000000000000000000000000000000000000000000000000000000000000000000000000000000000000000000000000000000000000000000000000000000000000000000000000000000000000000000000000000000000000000000000000000000000000000000000000000000000000000000000000000000000000000000000000000000000000000000000000),
  (6915702837, 1952643258, 35353793000000000000000000000000000000000000000000000000000000000000000000000000000000000000000000000000000000000000000000000000000000000000000000000000000000000000000000000000000000000000000000000000000000000000000000000000000000000000000000000000000000000000000000000000000000000000000000000000000000000000000000000000000),
  (6955627625, 1949478299, 35224744000000000000000000000000000000000000000000000000000000000000000000000000000000000000000000000000000000000000000000000000000000000000000000000000000000000000000000000000000000000000000000000000000000000000000000000000000000000000000000000000000000000000000000000000000000000000000000000000000000000000000000000000000),
  (6995782901, 1946196404, 34979193000000000000000000000000000000000000000000000000000000000000000000000000000000000000000000000000000000000000000000000000000000000000000000000000000000000000000000000000000000000000000000000000000000000000000000000000000000000000000000000000000000000000000000000000000000000000000000000000000000000000000000000000000),
  (7036169997, 1942785027, 34621852000000000000000000000000000000000000000000000000000000000000000000000000000000000000000000000000000000000000000000000000000000000000000000000000000000000000000000000000000000000000000000000000000000000000000000000000000000000000000000000000000000000000000000000000000000000000000000000000000000000000000000000000000),
  (7076790249, 1939232312, 34158390000000000000000000000000000000000000000000000000000000000000000000000000000000000000000000000000000000000000000000000000000000000000000000000000000000000000000000000000000000000000000000000000000000000000000000000000000000000000000000000000000000000000000000000000000000000000000000000000000000000000000000000000000),
  (7117645005, 1935527135, 33595308000000000000000000000000000000000000000000000000000000000000000000000000000000000000000000000000000000000000000000000000000000000000000000000000000000000000000000000000000000000000000000000000000000000000000000000000000000000000000000000000000000000000000000000000000000000000000000000000000000000000000000000000000),
  (7158735619, 1931659180, 32939807000000000000000000000000000000000000000000000000000000000000000000000000000000000000000000000000000000000000000000000000000000000000000000000000000000000000000000000000000000000000000000000000000000000000000000000000000000000000000000000000000000000000000000000000000000000000000000000000000000000000000000000000000),
  (7200063450, 1927618960, 32199657000000000000000000000000000000000000000000000000000000000000000000000000000000000000000000000000000000000000000000000000000000000000000000000000000000000000000000000000000000000000000000000000000000000000000000000000000000000000000000000000000000000000000000000000000000000000000000000000000000000000000000000000000),
  (7241629870, 1923397899, 31383061000000000000000000000000000000000000000000000000000000000000000000000000000000000000000000000000000000000000000000000000000000000000000000000000000000000000000000000000000000000000000000000000000000000000000000000000000000000000000000000000000000000000000000000000000000000000000000000000000000000000000000000000000),
  (7283436256, 1918988248, 30498525000000000000000000000000000000000000000000000000000000000000000000000000000000000000000000000000000000000000000000000000000000000000000000000000000000000000000000000000000000000000000000000000000000000000000000000000000000000000000000000000000000000000000000000000000000000000000000000000000000000000000000000000000),
  (7325483992, 1914383141, 29554732000000000000000000000000000000000000000000000000000000000000000000000000000000000000000000000000000000000000000000000000000000000000000000000000000000000000000000000000000000000000000000000000000000000000000000000000000000000000000000000000000000000000000000000000000000000000000000000000000000000000000000000000000),
  (7367774473, 1909576499, 28560423000000000000000000000000000000000000000000000000000000000000000000000000000000000000000000000000000000000000000000000000000000000000000000000000000000000000000000000000000000000000000000000000000000000000000000000000000000000000000000000000000000000000000000000000000000000000000000000000000000000000000000000000000),
  (7410309099, 1904563068, 27524283000000000000000000000000000000000000000000000000000000000000000000000000000000000000000000000000000000000000000000000000000000000000000000000000000000000000000000000000000000000000000000000000000000000000000000000000000000000000000000000000000000000000000000000000000000000000000000000000000000000000000000000000000),
  (7453089280, 1899338238, 26454844000000000000000000000000000000000000000000000000000000000000000000000000000000000000000000000000000000000000000000000000000000000000000000000000000000000000000000000000000000000000000000000000000000000000000000000000000000000000000000000000000000000000000000000000000000000000000000000000000000000000000000000000000),
  (7496116434, 1893898073, 25360393000000000000000000000000000000000000000000000000000000000000000000000000000000000000000000000000000000000000000000000000000000000000000000000000000000000000000000000000000000000000000000000000000000000000000000000000000000000000000000000000000000000000000000000000000000000000000000000000000000000000000000000000000),
  (7539391987, 1888239210, 24248896000000000000000000000000000000000000000000000000000000000000000000000000000000000000000000000000000000000000000000000000000000000000000000000000000000000000000000000000000000000000000000000000000000000000000000000000000000000000000000000000000000000000000000000000000000000000000000000000000000000000000000000000000),
  (7582917371, 1882358704, 23127933000000000000000000000000000000000000000000000000000000000000000000000000000000000000000000000000000000000000000000000000000000000000000000000000000000000000000000000000000000000000000000000000000000000000000000000000000000000000000000000000000000000000000000000000000000000000000000000000000000000000000000000000000),
  (7626694031, 1876254011, 22004644000000000000000000000000000000000000000000000000000000000000000000000000000000000000000000000000000000000000000000000000000000000000000000000000000000000000000000000000000000000000000000000000000000000000000000000000000000000000000000000000000000000000000000000000000000000000000000000000000000000000000000000000000),
  (7670723416, 1869922826, 20885695000000000000000000000000000000000000000000000000000000000000000000000000000000000000000000000000000000000000000000000000000000000000000000000000000000000000000000000000000000000000000000000000000000000000000000000000000000000000000000000000000000000000000000000000000000000000000000000000000000000000000000000000000),
  (7715006986, 1863363010, 19777248000000000000000000000000000000000000000000000000000000000000000000000000000000000000000000000000000000000000000000000000000000000000000000000000000000000000000000000000000000000000000000000000000000000000000000000000000000000000000000000000000000000000000000000000000000000000000000000000000000000000000000000000000),
  (7759546207, 1856572480, 18684950000000000000000000000000000000000000000000000000000000000000000000000000000000000000000000000000000000000000000000000000000000000000000000000000000000000000000000000000000000000000000000000000000000000000000000000000000000000000000000000000000000000000000000000000000000000000000000000000000000000000000000000000000),
  (7804342556, 1849549058, 17613935000000000000000000000000000000000000000000000000000000000000000000000000000000000000000000000000000000000000000000000000000000000000000000000000000000000000000000000000000000000000000000000000000000000000000000000000000000000000000000000000000000000000000000000000000000000000000000000000000000000000000000000000000),
  (7849397518, 1842290430, 16568838000000000000000000000000000000000000000000000000000000000000000000000000000000000000000000000000000000000000000000000000000000000000000000000000000000000000000000000000000000000000000000000000000000000000000000000000000000000000000000000000000000000000000000000000000000000000000000000000000000000000000000000000000),
  (7894712584, 1834793952, 15553821000000000000000000000000000000000000000000000000000000000000000000000000000000000000000000000000000000000000000000000000000000000000000000000000000000000000000000000000000000000000000000000000000000000000000000000000000000000000000000000000000000000000000000000000000000000000000000000000000000000000000000000000000),
  (7940289257, 1827056604, 14572614000000000000000000000000000000000000000000000000000000000000000000000000000000000000000000000000000000000000000000000000000000000000000000000000000000000000000000000000000000000000000000000000000000000000000000000000000000000000000000000000000000000000000000000000000000000000000000000000000000000000000000000000000),
  (7986129047, 1819074859, 13628566000000000000000000000000000000000000000000000000000000000000000000000000000000000000000000000000000000000000000000000000000000000000000000000000000000000000000000000000000000000000000000000000000000000000000000000000000000000000000000000000000000000000000000000000000000000000000000000000000000000000000000000000000),
  (8032233473, 1810844562, 12724713000000000000000000000000000000000000000000000000000000000000000000000000000000000000000000000000000000000000000000000000000000000000000000000000000000000000000000000000000000000000000000000000000000000000000000000000000000000000000000000000000000000000000000000000000000000000000000000000000000000000000000000000000),
  (8078604063, 1802360857, 11863860000000000000000000000000000000000000000000000000000000000000000000000000000000000000000000000000000000000000000000000000000000000000000000000000000000000000000000000000000000000000000000000000000000000000000000000000000000000000000000000000000000000000000000000000000000000000000000000000000000000000000000000000000),
  (8125242354, 1793618041, 11048672000000000000000000000000000000000000000000000000000000000000000000000000000000000000000000000000000000000000000000000000000000000000000000000000000000000000000000000000000000000000000000000000000000000000000000000000000000000000000000000000000000000000000000000000000000000000000000000000000000000000000000000000000),
  (8172149890, 1784609532, 10281786000000000000000000000000000000000000000000000000000000000000000000000000000000000000000000000000000000000000000000000000000000000000000000000000000000000000000000000000000000000000000000000000000000000000000000000000000000000000000000000000000000000000000000000000000000000000000000000000000000000000000000000000000),
  (8219328226, 1775327712, 9565932000000000000000000000000000000000000000000000000000000000000000000000000000000000000000000000000000000000000000000000000000000000000000000000000000000000000000000000000000000000000000000000000000000000000000000000000000000000000000000000000000000000000000000000000000000000000000000000000000000000000000000000000000),
  (8266778925, 1765763901, 8904080000000000000000000000000000000000000000000000000000000000000000000000000000000000000000000000000000000000000000000000000000000000000000000000000000000000000000000000000000000000000000000000000000000000000000000000000000000000000000000000000000000000000000000000000000000000000000000000000000000000000000000000000000),
  (8314503561, 1755908271, 8299589000000000000000000000000000000000000000000000000000000000000000000000000000000000000000000000000000000000000000000000000000000000000000000000000000000000000000000000000000000000000000000000000000000000000000000000000000000000000000000000000000000000000000000000000000000000000000000000000000000000000000000000000000),
  (8362503714, 1745749743, 7756390000000000000000000000000000000000000000000000000000000000000000000000000000000000000000000000000000000000000000000000000000000000000000000000000000000000000000000000000000000000000000000000000000000000000000000000000000000000000000000000000000000000000000000000000000000000000000000000000000000000000000000000000000),
  (8410780975, 1735276035, 7279170000000000000000000000000000000000000000000000000000000000000000000000000000000000000000000000000000000000000000000000000000000000000000000000000000000000000000000000000000000000000000000000000000000000000000000000000000000000000000000000000000000000000000000000000000000000000000000000000000000000000000000000000000)]

/-- materials/data/titanium_oxide.csv, lines 652-701 -/
def titaniumOxideRows13 : List (ℤ × ℤ × ℤ) := [
  (8459336943, 1724473535, 6873589000000000000000000000000000000000000000000000000000000000000000000000000000000000000000000000000000000000000000000000000000000000000000000000000000000000000000000000000000000000000000000000000000000000000000000000000000000000000000000000000000000000000000000000000000000000000000000000000000000000000000000000000000),
  (8508173228, 1713327302, 6546507000000000000000000000000000000000000000000000000000000000000000000000000000000000000000000000000000000000000000000000000000000000000000000000000000000000000000000000000000000000000000000000000000000000000000000000000000000000000000000000000000000000000000000000000000000000000000000000000000000000000000000000000000),
  (8557291448, 1701821180, 6306225000000000000000000000000000000000000000000000000000000000000000000000000000000000000000000000000000000000000000000000000000000000000000000000000000000000000000000000000000000000000000000000000000000000000000000000000000000000000000000000000000000000000000000000000000000000000000000000000000000000000000000000000000),
  (8606693231, 1689937739, 6162753000000000000000000000000000000000000000000000000000000000000000000000000000000000000000000000000000000000000000000000000000000000000000000000000000000000000000000000000000000000000000000000000000000000000000000000000000000000000000000000000000000000000000000000000000000000000000000000000000000000000000000000000000),
  (8656380213, 1677658340, 6128083000000000000000000000000000000000000000000000000000000000000000000000000000000000000000000000000000000000000000000000000000000000000000000000000000000000000000000000000000000000000000000000000000000000000000000000000000000000000000000000000000000000000000000000000000000000000000000000000000000000000000000000000000),
  (8706354042, 1664963266, 6216482000000000000000000000000000000000000000000000000000000000000000000000000000000000000000000000000000000000000000000000000000000000000000000000000000000000000000000000000000000000000000000000000000000000000000000000000000000000000000000000000000000000000000000000000000000000000000000000000000000000000000000000000000),
  (8756616372, 1651831930, 6444792000000000000000000000000000000000000000000000000000000000000000000000000000000000000000000000000000000000000000000000000000000000000000000000000000000000000000000000000000000000000000000000000000000000000000000000000000000000000000000000000000000000000000000000000000000000000000000000000000000000000000000000000000),
  (8807168870, 1638242931, 6832743000000000000000000000000000000000000000000000000000000000000000000000000000000000000000000000000000000000000000000000000000000000000000000000000000000000000000000000000000000000000000000000000000000000000000000000000000000000000000000000000000000000000000000000000000000000000000000000000000000000000000000000000000),
  (8858013211, 1624174381, 7403264000000000000000000000000000000000000000000000000000000000000000000000000000000000000000000000000000000000000000000000000000000000000000000000000000000000000000000000000000000000000000000000000000000000000000000000000000000000000000000000000000000000000000000000000000000000000000000000000000000000000000000000000000),
  (8909151079, 1609604139, 8182800000000000000000000000000000000000000000000000000000000000000000000000000000000000000000000000000000000000000000000000000000000000000000000000000000000000000000000000000000000000000000000000000000000000000000000000000000000000000000000000000000000000000000000000000000000000000000000000000000000000000000000000000000),
  (8960584170, 1594510146, 9201625000000000000000000000000000000000000000000000000000000000000000000000000000000000000000000000000000000000000000000000000000000000000000000000000000000000000000000000000000000000000000000000000000000000000000000000000000000000000000000000000000000000000000000000000000000000000000000000000000000000000000000000000000),
  (9012314186, 1578870821, 10494142000000000000000000000000000000000000000000000000000000000000000000000000000000000000000000000000000000000000000000000000000000000000000000000000000000000000000000000000000000000000000000000000000000000000000000000000000000000000000000000000000000000000000000000000000000000000000000000000000000000000000000000000000),
  (9064342844, 1562665558, 12099173000000000000000000000000000000000000000000000000000000000000000000000000000000000000000000000000000000000000000000000000000000000000000000000000000000000000000000000000000000000000000000000000000000000000000000000000000000000000000000000000000000000000000000000000000000000000000000000000000000000000000000000000000),
  (9116671866, 1545875136, 14060228000000000000000000000000000000000000000000000000000000000000000000000000000000000000000000000000000000000000000000000000000000000000000000000000000000000000000000000000000000000000000000000000000000000000000000000000000000000000000000000000000000000000000000000000000000000000000000000000000000000000000000000000000),
  (9169302987, 1528482398, 16425745000000000000000000000000000000000000000000000000000000000000000000000000000000000000000000000000000000000000000000000000000000000000000000000000000000000000000000000000000000000000000000000000000000000000000000000000000000000000000000000000000000000000000000000000000000000000000000000000000000000000000000000000000),
  (9222237951, 1510472944, 19249299000000000000000000000000000000000000000000000000000000000000000000000000000000000000000000000000000000000000000000000000000000000000000000000000000000000000000000000000000000000000000000000000000000000000000000000000000000000000000000000000000000000000000000000000000000000000000000000000000000000000000000000000000),
  (9275478512, 1491835729, 22589758000000000000000000000000000000000000000000000000000000000000000000000000000000000000000000000000000000000000000000000000000000000000000000000000000000000000000000000000000000000000000000000000000000000000000000000000000000000000000000000000000000000000000000000000000000000000000000000000000000000000000000000000000),
  (9329026434, 1472564060, 26511400000000000000000000000000000000000000000000000000000000000000000000000000000000000000000000000000000000000000000000000000000000000000000000000000000000000000000000000000000000000000000000000000000000000000000000000000000000000000000000000000000000000000000000000000000000000000000000000000000000000000000000000000000),
  (9382883491, 1452656473, 31083941000000000000000000000000000000000000000000000000000000000000000000000000000000000000000000000000000000000000000000000000000000000000000000000000000000000000000000000000000000000000000000000000000000000000000000000000000000000000000000000000000000000000000000000000000000000000000000000000000000000000000000000000000),
  (9437051469, 1432117733, 36382490000000000000000000000000000000000000000000000000000000000000000000000000000000000000000000000000000000000000000000000000000000000000000000000000000000000000000000000000000000000000000000000000000000000000000000000000000000000000000000000000000000000000000000000000000000000000000000000000000000000000000000000000000),
  (9491532161, 1410960076, 42487387000000000000000000000000000000000000000000000000000000000000000000000000000000000000000000000000000000000000000000000000000000000000000000000000000000000000000000000000000000000000000000000000000000000000000000000000000000000000000000000000000000000000000000000000000000000000000000000000000000000000000000000000000),
  (9546327375, 1389204426, 49483898000000000000000000000000000000000000000000000000000000000000000000000000000000000000000000000000000000000000000000000000000000000000000000000000000000000000000000000000000000000000000000000000000000000000000000000000000000000000000000000000000000000000000000000000000000000000000000000000000000000000000000000000000),
  (9601438924, 1366881906, 57461720000000000000000000000000000000000000000000000000000000000000000000000000000000000000000000000000000000000000000000000000000000000000000000000000000000000000000000000000000000000000000000000000000000000000000000000000000000000000000000000000000000000000000000000000000000000000000000000000000000000000000000000000000),
  (9656868636, 1344035424, 66514245000000000000000000000000000000000000000000000000000000000000000000000000000000000000000000000000000000000000000000000000000000000000000000000000000000000000000000000000000000000000000000000000000000000000000000000000000000000000000000000000000000000000000000000000000000000000000000000000000000000000000000000000000),
  (9712618347, 1320721350, 76737502000000000000000000000000000000000000000000000000000000000000000000000000000000000000000000000000000000000000000000000000000000000000000000000000000000000000000000000000000000000000000000000000000000000000000000000000000000000000000000000000000000000000000000000000000000000000000000000000000000000000000000000000000),
  (9768689904, 1297011412, 88228690000000000000000000000000000000000000000000000000000000000000000000000000000000000000000000000000000000000000000000000000000000000000000000000000000000000000000000000000000000000000000000000000000000000000000000000000000000000000000000000000000000000000000000000000000000000000000000000000000000000000000000000000000),
  (9825085167, 1272994678, 101084166000000000000000000000000000000000000000000000000000000000000000000000000000000000000000000000000000000000000000000000000000000000000000000000000000000000000000000000000000000000000000000000000000000000000000000000000000000000000000000000000000000000000000000000000000000000000000000000000000000000000000000000000000),
  (9881806002, 1248779417, 115396768000000000000000000000000000000000000000000000000000000000000000000000000000000000000000000000000000000000000000000000000000000000000000000000000000000000000000000000000000000000000000000000000000000000000000000000000000000000000000000000000000000000000000000000000000000000000000000000000000000000000000000000000000),
  (9938854291, 1224494787, 131252325000000000000000000000000000000000000000000000000000000000000000000000000000000000000000000000000000000000000000000000000000000000000000000000000000000000000000000000000000000000000000000000000000000000000000000000000000000000000000000000000000000000000000000000000000000000000000000000000000000000000000000000000000),
  (9996231923, 1200292281, 148725183000000000000000000000000000000000000000000000000000000000000000000000000000000000000000000000000000000000000000000000000000000000000000000000000000000000000000000000000000000000000000000000000000000000000000000000000000000000000000000000000000000000000000000000000000000000000000000000000000000000000000000000000000),
  (10053940800, 1176346190, 167872708000000000000000000000000000000000000000000000000000000000000000000000000000000000000000000000000000000000000000000000000000000000000000000000000000000000000000000000000000000000000000000000000000000000000000000000000000000000000000000000000000000000000000000000000000000000000000000000000000000000000000000000000000),
  (10111982830, 1152852627, 188728798000000000000000000000000000000000000000000000000000000000000000000000000000000000000000000000000000000000000000000000000000000000000000000000000000000000000000000000000000000000000000000000000000000000000000000000000000000000000000000000000000000000000000000000000000000000000000000000000000000000000000000000000000),
  (10170359950, 1130027157, 211296568000000000000000000000000000000000000000000000000000000000000000000000000000000000000000000000000000000000000000000000000000000000000000000000000000000000000000000000000000000000000000000000000000000000000000000000000000000000000000000000000000000000000000000000000000000000000000000000000000000000000000000000000000),
  (10229074080, 1108099488, 235540867000000000000000000000000000000000000000000000000000000000000000000000000000000000000000000000000000000000000000000000000000000000000000000000000000000000000000000000000000000000000000000000000000000000000000000000000000000000000000000000000000000000000000000000000000000000000000000000000000000000000000000000000000),
  (10288127160, 1087305407, 261381456000000000000000000000000000000000000000000000000000000000000000000000000000000000000000000000000000000000000000000000000000000000000000000000000000000000000000000000000000000000000000000000000000000000000000000000000000000000000000000000000000000000000000000000000000000000000000000000000000000000000000000000000000),
  (10347521170, 1067875821, 288688099000000000000000000000000000000000000000000000000000000000000000000000000000000000000000000000000000000000000000000000000000000000000000000000000000000000000000000000000000000000000000000000000000000000000000000000000000000000000000000000000000000000000000000000000000000000000000000000000000000000000000000000000000),
  (10407258060, 1050022991, 317279098000000000000000000000000000000000000000000000000000000000000000000000000000000000000000000000000000000000000000000000000000000000000000000000000000000000000000000000000000000000000000000000000000000000000000000000000000000000000000000000000000000000000000000000000000000000000000000000000000000000000000000000000000),
  (10467339820, 1033926137, 346924304000000000000000000000000000000000000000000000000000000000000000000000000000000000000000000000000000000000000000000000000000000000000000000000000000000000000000000000000000000000000000000000000000000000000000000000000000000000000000000000000000000000000000000000000000000000000000000000000000000000000000000000000000),
  (10527768430, 1019717235, 377353483000000000000000000000000000000000000000000000000000000000000000000000000000000000000000000000000000000000000000000000000000000000000000000000000000000000000000000000000000000000000000000000000000000000000000000000000000000000000000000000000000000000000000000000000000000000000000000000000000000000000000000000000000),
  (10588545900, 1007470267, 408269348000000000000000000000000000000000000000000000000000000000000000000000000000000000000000000000000000000000000000000000000000000000000000000000000000000000000000000000000000000000000000000000000000000000000000000000000000000000000000000000000000000000000000000000000000000000000000000000000000000000000000000000000000),
  (10649674240, 997195143, 439363879000000000000000000000000000000000000000000000000000000000000000000000000000000000000000000000000000000000000000000000000000000000000000000000000000000000000000000000000000000000000000000000000000000000000000000000000000000000000000000000000000000000000000000000000000000000000000000000000000000000000000000000000000),
  (10711155480, 988837408, 470335603000000000000000000000000000000000000000000000000000000000000000000000000000000000000000000000000000000000000000000000000000000000000000000000000000000000000000000000000000000000000000000000000000000000000000000000000000000000000000000000000000000000000000000000000000000000000000000000000000000000000000000000000000),
  (10772991660, 982283767, 500905236000000000000000000000000000000000000000000000000000000000000000000000000000000000000000000000000000000000000000000000000000000000000000000000000000000000000000000000000000000000000000000000000000000000000000000000000000000000000000000000000000000000000000000000000000000000000000000000000000000000000000000000000000),
  (10835184820, 977371138, 530828292000000000000000000000000000000000000000000000000000000000000000000000000000000000000000000000000000000000000000000000000000000000000000000000000000000000000000000000000000000000000000000000000000000000000000000000000000000000000000000000000000000000000000000000000000000000000000000000000000000000000000000000000000),
  (10897737020, 973898197, 559903430000000000000000000000000000000000000000000000000000000000000000000000000000000000000000000000000000000000000000000000000000000000000000000000000000000000000000000000000000000000000000000000000000000000000000000000000000000000000000000000000000000000000000000000000000000000000000000000000000000000000000000000000000),
  (10960650350, 971637564, 587976614000000000000000000000000000000000000000000000000000000000000000000000000000000000000000000000000000000000000000000000000000000000000000000000000000000000000000000000000000000000000000000000000000000000000000000000000000000000000000000000000000000000000000000000000000000000000000000000000000000000000000000000000000),
  (11023926870, 970346714, 614942171000000000000000000000000000000000000000000000000000000000000000000000000000000000000000000000000000000000000000000000000000000000000000000000000000000000000000000000000000000000000000000000000000000000000000000000000000000000000000000000000000000000000000000000000000000000000000000000000000000000000000000000000000),
  (11087568700, 969777517, 640741510000000000000000000000000000000000000000000000000000000000000000000000000000000000000000000000000000000000000000000000000000000000000000000000000000000000000000000000000000000000000000000000000000000000000000000000000000000000000000000000000000000000000000000000000000000000000000000000000000000000000000000000000000),
  (11151577930, 969683914, 665360714000000000000000000000000000000000000000000000000000000000000000000000000000000000000000000000000000000000000000000000000000000000000000000000000000000000000000000000000000000000000000000000000000000000000000000000000000000000000000000000000000000000000000000000000000000000000000000000000000000000000000000000000000),
  (11215956690, 969828334, 688827593000000000000000000000000000000000000000000000000000000000000000000000000000000000000000000000000000000000000000000000000000000000000000000000000000000000000000000000000000000000000000000000000000000000000000000000000000000000000000000000000000000000000000000000000000000000000000000000000000000000000000000000000000)]

/-- materials/data/titanium_oxide.csv, lines 702-751 -/
def titaniumOxideRows14 : List (ℤ × ℤ × ℤ) := [
  (11280707120, 969986822, 711209000000000000000000000000000000000000000000000000000000000000000000000000000000000000000000000000000000000000000000000000000000000000000000000000000000000000000000000000000000000000000000000000000000000000000000000000000000000000000000000000000000000000000000000000000000000000000000000000000000000000000000000000000000),
  (11345831350, 969954345, 732607932000000000000000000000000000000000000000000000000000000000000000000000000000000000000000000000000000000000000000000000000000000000000000000000000000000000000000000000000000000000000000000000000000000000000000000000000000000000000000000000000000000000000000000000000000000000000000000000000000000000000000000000000000),
  (11411331550, 969549431, 753161207000000000000000000000000000000000000000000000000000000000000000000000000000000000000000000000000000000000000000000000000000000000000000000000000000000000000000000000000000000000000000000000000000000000000000000000000000000000000000000000000000000000000000000000000000000000000000000000000000000000000000000000000000),
  (11477209880, 968619760, 773036494000000000000000000000000000000000000000000000000000000000000000000000000000000000000000000000000000000000000000000000000000000000000000000000000000000000000000000000000000000000000000000000000000000000000000000000000000000000000000000000000000000000000000000000000000000000000000000000000000000000000000000000000000),
  (11543468540, 967048422, 792428409000000000000000000000000000000000000000000000000000000000000000000000000000000000000000000000000000000000000000000000000000000000000000000000000000000000000000000000000000000000000000000000000000000000000000000000000000000000000000000000000000000000000000000000000000000000000000000000000000000000000000000000000000),
  (11610109710, 964760230, 811553477000000000000000000000000000000000000000000000000000000000000000000000000000000000000000000000000000000000000000000000000000000000000000000000000000000000000000000000000000000000000000000000000000000000000000000000000000000000000000000000000000000000000000000000000000000000000000000000000000000000000000000000000000),
  (11677135610, 961728384, 830642719000000000000000000000000000000000000000000000000000000000000000000000000000000000000000000000000000000000000000000000000000000000000000000000000000000000000000000000000000000000000000000000000000000000000000000000000000000000000000000000000000000000000000000000000000000000000000000000000000000000000000000000000000),
  (11744548440, 957980532, 849931438000000000000000000000000000000000000000000000000000000000000000000000000000000000000000000000000000000000000000000000000000000000000000000000000000000000000000000000000000000000000000000000000000000000000000000000000000000000000000000000000000000000000000000000000000000000000000000000000000000000000000000000000000),
  (11812350460, 953602724, 869646257000000000000000000000000000000000000000000000000000000000000000000000000000000000000000000000000000000000000000000000000000000000000000000000000000000000000000000000000000000000000000000000000000000000000000000000000000000000000000000000000000000000000000000000000000000000000000000000000000000000000000000000000000),
  (11880543910, 948739879, 889989654000000000000000000000000000000000000000000000000000000000000000000000000000000000000000000000000000000000000000000000000000000000000000000000000000000000000000000000000000000000000000000000000000000000000000000000000000000000000000000000000000000000000000000000000000000000000000000000000000000000000000000000000000),
  (11949131030, 943591930, 911122337000000000000000000000000000000000000000000000000000000000000000000000000000000000000000000000000000000000000000000000000000000000000000000000000000000000000000000000000000000000000000000000000000000000000000000000000000000000000000000000000000000000000000000000000000000000000000000000000000000000000000000000000000),
  (12018114120, 938403640, 933145865000000000000000000000000000000000000000000000000000000000000000000000000000000000000000000000000000000000000000000000000000000000000000000000000000000000000000000000000000000000000000000000000000000000000000000000000000000000000000000000000000000000000000000000000000000000000000000000000000000000000000000000000000),
  (12087495450, 933448187, 956087350000000000000000000000000000000000000000000000000000000000000000000000000000000000000000000000000000000000000000000000000000000000000000000000000000000000000000000000000000000000000000000000000000000000000000000000000000000000000000000000000000000000000000000000000000000000000000000000000000000000000000000000000000),
  (12157277320, 929004835, 979889177000000000000000000000000000000000000000000000000000000000000000000000000000000000000000000000000000000000000000000000000000000000000000000000000000000000000000000000000000000000000000000000000000000000000000000000000000000000000000000000000000000000000000000000000000000000000000000000000000000000000000000000000000),
  (12227462050, 925332295, 1004406507000000000000000000000000000000000000000000000000000000000000000000000000000000000000000000000000000000000000000000000000000000000000000000000000000000000000000000000000000000000000000000000000000000000000000000000000000000000000000000000000000000000000000000000000000000000000000000000000000000000000000000000000000),
  (12298051960, 922641595, 1029413262000000000000000000000000000000000000000000000000000000000000000000000000000000000000000000000000000000000000000000000000000000000000000000000000000000000000000000000000000000000000000000000000000000000000000000000000000000000000000000000000000000000000000000000000000000000000000000000000000000000000000000000000000),
  (12369049390, 921070947, 1054617791000000000000000000000000000000000000000000000000000000000000000000000000000000000000000000000000000000000000000000000000000000000000000000000000000000000000000000000000000000000000000000000000000000000000000000000000000000000000000000000000000000000000000000000000000000000000000000000000000000000000000000000000000),
  (12440456690, 920666542, 1079686208000000000000000000000000000000000000000000000000000000000000000000000000000000000000000000000000000000000000000000000000000000000000000000000000000000000000000000000000000000000000000000000000000000000000000000000000000000000000000000000000000000000000000000000000000000000000000000000000000000000000000000000000000),
  (12512276230, 921371771, 1104270576000000000000000000000000000000000000000000000000000000000000000000000000000000000000000000000000000000000000000000000000000000000000000000000000000000000000000000000000000000000000000000000000000000000000000000000000000000000000000000000000000000000000000000000000000000000000000000000000000000000000000000000000000),
  (12584510390, 923025502, 1128039142000000000000000000000000000000000000000000000000000000000000000000000000000000000000000000000000000000000000000000000000000000000000000000000000000000000000000000000000000000000000000000000000000000000000000000000000000000000000000000000000000000000000000000000000000000000000000000000000000000000000000000000000000),
  (12657161560, 925368877, 1150705825000000000000000000000000000000000000000000000000000000000000000000000000000000000000000000000000000000000000000000000000000000000000000000000000000000000000000000000000000000000000000000000000000000000000000000000000000000000000000000000000000000000000000000000000000000000000000000000000000000000000000000000000000),
  (12730232150, 928060146, 1172055513000000000000000000000000000000000000000000000000000000000000000000000000000000000000000000000000000000000000000000000000000000000000000000000000000000000000000000000000000000000000000000000000000000000000000000000000000000000000000000000000000000000000000000000000000000000000000000000000000000000000000000000000000),
  (12803724580, 930695125, 1191964288000000000000000000000000000000000000000000000000000000000000000000000000000000000000000000000000000000000000000000000000000000000000000000000000000000000000000000000000000000000000000000000000000000000000000000000000000000000000000000000000000000000000000000000000000000000000000000000000000000000000000000000000000),
  (12877641290, 932831349, 1210413857000000000000000000000000000000000000000000000000000000000000000000000000000000000000000000000000000000000000000000000000000000000000000000000000000000000000000000000000000000000000000000000000000000000000000000000000000000000000000000000000000000000000000000000000000000000000000000000000000000000000000000000000000),
  (12951984730, 934014645, 1227499565000000000000000000000000000000000000000000000000000000000000000000000000000000000000000000000000000000000000000000000000000000000000000000000000000000000000000000000000000000000000000000000000000000000000000000000000000000000000000000000000000000000000000000000000000000000000000000000000000000000000000000000000000),
  (13026757350, 933806660, 1243432230000000000000000000000000000000000000000000000000000000000000000000000000000000000000000000000000000000000000000000000000000000000000000000000000000000000000000000000000000000000000000000000000000000000000000000000000000000000000000000000000000000000000000000000000000000000000000000000000000000000000000000000000000),
  (13101961640, 931811839, 1258534734000000000000000000000000000000000000000000000000000000000000000000000000000000000000000000000000000000000000000000000000000000000000000000000000000000000000000000000000000000000000000000000000000000000000000000000000000000000000000000000000000000000000000000000000000000000000000000000000000000000000000000000000000),
  (13177600090, 927704175, 1273232008000000000000000000000000000000000000000000000000000000000000000000000000000000000000000000000000000000000000000000000000000000000000000000000000000000000000000000000000000000000000000000000000000000000000000000000000000000000000000000000000000000000000000000000000000000000000000000000000000000000000000000000000000),
  (13253675210, 921251865, 1288035857000000000000000000000000000000000000000000000000000000000000000000000000000000000000000000000000000000000000000000000000000000000000000000000000000000000000000000000000000000000000000000000000000000000000000000000000000000000000000000000000000000000000000000000000000000000000000000000000000000000000000000000000000),
  (13330189510, 912339069, 1303524298000000000000000000000000000000000000000000000000000000000000000000000000000000000000000000000000000000000000000000000000000000000000000000000000000000000000000000000000000000000000000000000000000000000000000000000000000000000000000000000000000000000000000000000000000000000000000000000000000000000000000000000000000),
  (13407145530, 900984231, 1320314208000000000000000000000000000000000000000000000000000000000000000000000000000000000000000000000000000000000000000000000000000000000000000000000000000000000000000000000000000000000000000000000000000000000000000000000000000000000000000000000000000000000000000000000000000000000000000000000000000000000000000000000000000),
  (13484545830, 887352294, 1339028515000000000000000000000000000000000000000000000000000000000000000000000000000000000000000000000000000000000000000000000000000000000000000000000000000000000000000000000000000000000000000000000000000000000000000000000000000000000000000000000000000000000000000000000000000000000000000000000000000000000000000000000000000),
  (13562392960, 871758082, 1360259423000000000000000000000000000000000000000000000000000000000000000000000000000000000000000000000000000000000000000000000000000000000000000000000000000000000000000000000000000000000000000000000000000000000000000000000000000000000000000000000000000000000000000000000000000000000000000000000000000000000000000000000000000),
  (13640689510, 854660125, 1384527154000000000000000000000000000000000000000000000000000000000000000000000000000000000000000000000000000000000000000000000000000000000000000000000000000000000000000000000000000000000000000000000000000000000000000000000000000000000000000000000000000000000000000000000000000000000000000000000000000000000000000000000000000),
  (13719438070, 836640547, 1412241486000000000000000000000000000000000000000000000000000000000000000000000000000000000000000000000000000000000000000000000000000000000000000000000000000000000000000000000000000000000000000000000000000000000000000000000000000000000000000000000000000000000000000000000000000000000000000000000000000000000000000000000000000),
  (13798641250, 818372537, 1443668492000000000000000000000000000000000000000000000000000000000000000000000000000000000000000000000000000000000000000000000000000000000000000000000000000000000000000000000000000000000000000000000000000000000000000000000000000000000000000000000000000000000000000000000000000000000000000000000000000000000000000000000000000),
  (13878301680, 800577111, 1478908745000000000000000000000000000000000000000000000000000000000000000000000000000000000000000000000000000000000000000000000000000000000000000000000000000000000000000000000000000000000000000000000000000000000000000000000000000000000000000000000000000000000000000000000000000000000000000000000000000000000000000000000000000),
  (13958421990, 783974068, 1517891689000000000000000000000000000000000000000000000000000000000000000000000000000000000000000000000000000000000000000000000000000000000000000000000000000000000000000000000000000000000000000000000000000000000000000000000000000000000000000000000000000000000000000000000000000000000000000000000000000000000000000000000000000),
  (14039004840, 769234255, 1560387530000000000000000000000000000000000000000000000000000000000000000000000000000000000000000000000000000000000000000000000000000000000000000000000000000000000000000000000000000000000000000000000000000000000000000000000000000000000000000000000000000000000000000000000000000000000000000000000000000000000000000000000000000),
  (14120052900, 756940786, 1606033125000000000000000000000000000000000000000000000000000000000000000000000000000000000000000000000000000000000000000000000000000000000000000000000000000000000000000000000000000000000000000000000000000000000000000000000000000000000000000000000000000000000000000000000000000000000000000000000000000000000000000000000000000),
  (14201568850, 747563051, 1654368450000000000000000000000000000000000000000000000000000000000000000000000000000000000000000000000000000000000000000000000000000000000000000000000000000000000000000000000000000000000000000000000000000000000000000000000000000000000000000000000000000000000000000000000000000000000000000000000000000000000000000000000000000),
  (14283555400, 741445934, 1704875231000000000000000000000000000000000000000000000000000000000000000000000000000000000000000000000000000000000000000000000000000000000000000000000000000000000000000000000000000000000000000000000000000000000000000000000000000000000000000000000000000000000000000000000000000000000000000000000000000000000000000000000000000),
  (14366015270, 738812061, 1757012598000000000000000000000000000000000000000000000000000000000000000000000000000000000000000000000000000000000000000000000000000000000000000000000000000000000000000000000000000000000000000000000000000000000000000000000000000000000000000000000000000000000000000000000000000000000000000000000000000000000000000000000000000),
  (14448951180, 739773304, 1810246007000000000000000000000000000000000000000000000000000000000000000000000000000000000000000000000000000000000000000000000000000000000000000000000000000000000000000000000000000000000000000000000000000000000000000000000000000000000000000000000000000000000000000000000000000000000000000000000000000000000000000000000000000),
  (14532365880, 744347356, 1864067726000000000000000000000000000000000000000000000000000000000000000000000000000000000000000000000000000000000000000000000000000000000000000000000000000000000000000000000000000000000000000000000000000000000000000000000000000000000000000000000000000000000000000000000000000000000000000000000000000000000000000000000000000),
  (14616262150, 752475804, 1918009093000000000000000000000000000000000000000000000000000000000000000000000000000000000000000000000000000000000000000000000000000000000000000000000000000000000000000000000000000000000000000000000000000000000000000000000000000000000000000000000000000000000000000000000000000000000000000000000000000000000000000000000000000),
  (14700642750, 764040828, 1971646934000000000000000000000000000000000000000000000000000000000000000000000000000000000000000000000000000000000000000000000000000000000000000000000000000000000000000000000000000000000000000000000000000000000000000000000000000000000000000000000000000000000000000000000000000000000000000000000000000000000000000000000000000),
  (14785510490, 778879616, 2024604997000000000000000000000000000000000000000000000000000000000000000000000000000000000000000000000000000000000000000000000000000000000000000000000000000000000000000000000000000000000000000000000000000000000000000000000000000000000000000000000000000000000000000000000000000000000000000000000000000000000000000000000000000),
  (14870868170, 796795618, 2076553349000000000000000000000000000000000000000000000000000000000000000000000000000000000000000000000000000000000000000000000000000000000000000000000000000000000000000000000000000000000000000000000000000000000000000000000000000000000000000000000000000000000000000000000000000000000000000000000000000000000000000000000000000),
  (14956718630, 817567270, 2127205973000000000000000000000000000000000000000000000000000000000000000000000000000000000000000000000000000000000000000000000000000000000000000000000000000000000000000000000000000000000000000000000000000000000000000000000000000000000000000000000000000000000000000000000000000000000000000000000000000000000000000000000000000)]

/-- materials/data/titanium_oxide.csv, lines 752-801 -/
def titaniumOxideRows15 : List (ℤ × ℤ × ℤ) := [
  (15043064710, 840954401, 2176318280000000000000000000000000000000000000000000000000000000000000000000000000000000000000000000000000000000000000000000000000000000000000000000000000000000000000000000000000000000000000000000000000000000000000000000000000000000000000000000000000000000000000000000000000000000000000000000000000000000000000000000000000000),
  (15129909270, 866703001, 2223684893000000000000000000000000000000000000000000000000000000000000000000000000000000000000000000000000000000000000000000000000000000000000000000000000000000000000000000000000000000000000000000000000000000000000000000000000000000000000000000000000000000000000000000000000000000000000000000000000000000000000000000000000000),
  (15217255190, 894549103, 2269137552000000000000000000000000000000000000000000000000000000000000000000000000000000000000000000000000000000000000000000000000000000000000000000000000000000000000000000000000000000000000000000000000000000000000000000000000000000000000000000000000000000000000000000000000000000000000000000000000000000000000000000000000000),
  (15305105360, 924221845, 2312544259000000000000000000000000000000000000000000000000000000000000000000000000000000000000000000000000000000000000000000000000000000000000000000000000000000000000000000000000000000000000000000000000000000000000000000000000000000000000000000000000000000000000000000000000000000000000000000000000000000000000000000000000000),
  (15393462700, 955446483, 2353808525000000000000000000000000000000000000000000000000000000000000000000000000000000000000000000000000000000000000000000000000000000000000000000000000000000000000000000000000000000000000000000000000000000000000000000000000000000000000000000000000000000000000000000000000000000000000000000000000000000000000000000000000000),
  (15482330130, 987947866, 2392867901000000000000000000000000000000000000000000000000000000000000000000000000000000000000000000000000000000000000000000000000000000000000000000000000000000000000000000000000000000000000000000000000000000000000000000000000000000000000000000000000000000000000000000000000000000000000000000000000000000000000000000000000000),
  (15571710600, 1021453235, 2429694759000000000000000000000000000000000000000000000000000000000000000000000000000000000000000000000000000000000000000000000000000000000000000000000000000000000000000000000000000000000000000000000000000000000000000000000000000000000000000000000000000000000000000000000000000000000000000000000000000000000000000000000000000),
  (15661607060, 1055696264, 2464294439000000000000000000000000000000000000000000000000000000000000000000000000000000000000000000000000000000000000000000000000000000000000000000000000000000000000000000000000000000000000000000000000000000000000000000000000000000000000000000000000000000000000000000000000000000000000000000000000000000000000000000000000000),
  (15752022510, 1090420528, 2496704920000000000000000000000000000000000000000000000000000000000000000000000000000000000000000000000000000000000000000000000000000000000000000000000000000000000000000000000000000000000000000000000000000000000000000000000000000000000000000000000000000000000000000000000000000000000000000000000000000000000000000000000000000),
  (15842959920, 1125383517, 2526994934000000000000000000000000000000000000000000000000000000000000000000000000000000000000000000000000000000000000000000000000000000000000000000000000000000000000000000000000000000000000000000000000000000000000000000000000000000000000000000000000000000000000000000000000000000000000000000000000000000000000000000000000000),
  (15934422330, 1160360666, 2555261380000000000000000000000000000000000000000000000000000000000000000000000000000000000000000000000000000000000000000000000000000000000000000000000000000000000000000000000000000000000000000000000000000000000000000000000000000000000000000000000000000000000000000000000000000000000000000000000000000000000000000000000000000),
  (16026412750, 1195148666, 2581627286000000000000000000000000000000000000000000000000000000000000000000000000000000000000000000000000000000000000000000000000000000000000000000000000000000000000000000000000000000000000000000000000000000000000000000000000000000000000000000000000000000000000000000000000000000000000000000000000000000000000000000000000000),
  (16118934250, 1229568954, 2606237878000000000000000000000000000000000000000000000000000000000000000000000000000000000000000000000000000000000000000000000000000000000000000000000000000000000000000000000000000000000000000000000000000000000000000000000000000000000000000000000000000000000000000000000000000000000000000000000000000000000000000000000000000),
  (16211989870, 1263470636, 2629256181000000000000000000000000000000000000000000000000000000000000000000000000000000000000000000000000000000000000000000000000000000000000000000000000000000000000000000000000000000000000000000000000000000000000000000000000000000000000000000000000000000000000000000000000000000000000000000000000000000000000000000000000000),
  (16305582710, 1296732178, 2650859329000000000000000000000000000000000000000000000000000000000000000000000000000000000000000000000000000000000000000000000000000000000000000000000000000000000000000000000000000000000000000000000000000000000000000000000000000000000000000000000000000000000000000000000000000000000000000000000000000000000000000000000000000),
  (16399715860, 1329263145, 2671232739000000000000000000000000000000000000000000000000000000000000000000000000000000000000000000000000000000000000000000000000000000000000000000000000000000000000000000000000000000000000000000000000000000000000000000000000000000000000000000000000000000000000000000000000000000000000000000000000000000000000000000000000000),
  (16494392460, 1361004464, 2690565377000000000000000000000000000000000000000000000000000000000000000000000000000000000000000000000000000000000000000000000000000000000000000000000000000000000000000000000000000000000000000000000000000000000000000000000000000000000000000000000000000000000000000000000000000000000000000000000000000000000000000000000000000),
  (16589615620, 1391927881, 2709044766000000000000000000000000000000000000000000000000000000000000000000000000000000000000000000000000000000000000000000000000000000000000000000000000000000000000000000000000000000000000000000000000000000000000000000000000000000000000000000000000000000000000000000000000000000000000000000000000000000000000000000000000000),
  (16685388520, 1422034546, 2726852108000000000000000000000000000000000000000000000000000000000000000000000000000000000000000000000000000000000000000000000000000000000000000000000000000000000000000000000000000000000000000000000000000000000000000000000000000000000000000000000000000000000000000000000000000000000000000000000000000000000000000000000000000),
  (16781714320, 1451352894, 2744157455000000000000000000000000000000000000000000000000000000000000000000000000000000000000000000000000000000000000000000000000000000000000000000000000000000000000000000000000000000000000000000000000000000000000000000000000000000000000000000000000000000000000000000000000000000000000000000000000000000000000000000000000000),
  (16878596210, 1479935831, 2761115328000000000000000000000000000000000000000000000000000000000000000000000000000000000000000000000000000000000000000000000000000000000000000000000000000000000000000000000000000000000000000000000000000000000000000000000000000000000000000000000000000000000000000000000000000000000000000000000000000000000000000000000000000),
  (16976037410, 1507856496, 2777862497000000000000000000000000000000000000000000000000000000000000000000000000000000000000000000000000000000000000000000000000000000000000000000000000000000000000000000000000000000000000000000000000000000000000000000000000000000000000000000000000000000000000000000000000000000000000000000000000000000000000000000000000000),
  (17074041150, 1535204567, 2794514644000000000000000000000000000000000000000000000000000000000000000000000000000000000000000000000000000000000000000000000000000000000000000000000000000000000000000000000000000000000000000000000000000000000000000000000000000000000000000000000000000000000000000000000000000000000000000000000000000000000000000000000000000),
  (17172610660, 1562082008, 2811164459000000000000000000000000000000000000000000000000000000000000000000000000000000000000000000000000000000000000000000000000000000000000000000000000000000000000000000000000000000000000000000000000000000000000000000000000000000000000000000000000000000000000000000000000000000000000000000000000000000000000000000000000000),
  (17271749220, 1588597979, 2827881990000000000000000000000000000000000000000000000000000000000000000000000000000000000000000000000000000000000000000000000000000000000000000000000000000000000000000000000000000000000000000000000000000000000000000000000000000000000000000000000000000000000000000000000000000000000000000000000000000000000000000000000000000),
  (17371460120, 1614864946, 2844713873000000000000000000000000000000000000000000000000000000000000000000000000000000000000000000000000000000000000000000000000000000000000000000000000000000000000000000000000000000000000000000000000000000000000000000000000000000000000000000000000000000000000000000000000000000000000000000000000000000000000000000000000000),
  (17471746650, 1640994326, 2861684749000000000000000000000000000000000000000000000000000000000000000000000000000000000000000000000000000000000000000000000000000000000000000000000000000000000000000000000000000000000000000000000000000000000000000000000000000000000000000000000000000000000000000000000000000000000000000000000000000000000000000000000000000),
  (17572612150, 1667093058, 2878798505000000000000000000000000000000000000000000000000000000000000000000000000000000000000000000000000000000000000000000000000000000000000000000000000000000000000000000000000000000000000000000000000000000000000000000000000000000000000000000000000000000000000000000000000000000000000000000000000000000000000000000000000000),
  (17674059940, 1693260176, 2896041054000000000000000000000000000000000000000000000000000000000000000000000000000000000000000000000000000000000000000000000000000000000000000000000000000000000000000000000000000000000000000000000000000000000000000000000000000000000000000000000000000000000000000000000000000000000000000000000000000000000000000000000000000),
  (17776093410, 1719584576, 2913382556000000000000000000000000000000000000000000000000000000000000000000000000000000000000000000000000000000000000000000000000000000000000000000000000000000000000000000000000000000000000000000000000000000000000000000000000000000000000000000000000000000000000000000000000000000000000000000000000000000000000000000000000000),
  (17878715910, 1746143108, 2930780468000000000000000000000000000000000000000000000000000000000000000000000000000000000000000000000000000000000000000000000000000000000000000000000000000000000000000000000000000000000000000000000000000000000000000000000000000000000000000000000000000000000000000000000000000000000000000000000000000000000000000000000000000),
  (17981930870, 1772999587, 2948182271000000000000000000000000000000000000000000000000000000000000000000000000000000000000000000000000000000000000000000000000000000000000000000000000000000000000000000000000000000000000000000000000000000000000000000000000000000000000000000000000000000000000000000000000000000000000000000000000000000000000000000000000000),
  (18085741690, 1800203834, 2965529144000000000000000000000000000000000000000000000000000000000000000000000000000000000000000000000000000000000000000000000000000000000000000000000000000000000000000000000000000000000000000000000000000000000000000000000000000000000000000000000000000000000000000000000000000000000000000000000000000000000000000000000000000),
  (18190151810, 1827792305, 2982757742000000000000000000000000000000000000000000000000000000000000000000000000000000000000000000000000000000000000000000000000000000000000000000000000000000000000000000000000000000000000000000000000000000000000000000000000000000000000000000000000000000000000000000000000000000000000000000000000000000000000000000000000000),
  (18295164710, 1855788327, 2999803176000000000000000000000000000000000000000000000000000000000000000000000000000000000000000000000000000000000000000000000000000000000000000000000000000000000000000000000000000000000000000000000000000000000000000000000000000000000000000000000000000000000000000000000000000000000000000000000000000000000000000000000000000),
  (18400783840, 1884202817, 3016601475000000000000000000000000000000000000000000000000000000000000000000000000000000000000000000000000000000000000000000000000000000000000000000000000000000000000000000000000000000000000000000000000000000000000000000000000000000000000000000000000000000000000000000000000000000000000000000000000000000000000000000000000000),
  (18507012730, 1913035718, 3033090970000000000000000000000000000000000000000000000000000000000000000000000000000000000000000000000000000000000000000000000000000000000000000000000000000000000000000000000000000000000000000000000000000000000000000000000000000000000000000000000000000000000000000000000000000000000000000000000000000000000000000000000000000),
  (18613854880, 1942277371, 3049213726000000000000000000000000000000000000000000000000000000000000000000000000000000000000000000000000000000000000000000000000000000000000000000000000000000000000000000000000000000000000000000000000000000000000000000000000000000000000000000000000000000000000000000000000000000000000000000000000000000000000000000000000000),
  (18721313840, 1971909665, 3064917088000000000000000000000000000000000000000000000000000000000000000000000000000000000000000000000000000000000000000000000000000000000000000000000000000000000000000000000000000000000000000000000000000000000000000000000000000000000000000000000000000000000000000000000000000000000000000000000000000000000000000000000000000),
  (18829393160, 2001907876, 3080153841000000000000000000000000000000000000000000000000000000000000000000000000000000000000000000000000000000000000000000000000000000000000000000000000000000000000000000000000000000000000000000000000000000000000000000000000000000000000000000000000000000000000000000000000000000000000000000000000000000000000000000000000000),
  (18938096430, 2032241758, 3094883183000000000000000000000000000000000000000000000000000000000000000000000000000000000000000000000000000000000000000000000000000000000000000000000000000000000000000000000000000000000000000000000000000000000000000000000000000000000000000000000000000000000000000000000000000000000000000000000000000000000000000000000000000),
  (19047427260, 2062877202, 3109070397000000000000000000000000000000000000000000000000000000000000000000000000000000000000000000000000000000000000000000000000000000000000000000000000000000000000000000000000000000000000000000000000000000000000000000000000000000000000000000000000000000000000000000000000000000000000000000000000000000000000000000000000000),
  (19157389250, 2093777159, 3122687268000000000000000000000000000000000000000000000000000000000000000000000000000000000000000000000000000000000000000000000000000000000000000000000000000000000000000000000000000000000000000000000000000000000000000000000000000000000000000000000000000000000000000000000000000000000000000000000000000000000000000000000000000),
  (19267986070, 2124903050, 3135711366000000000000000000000000000000000000000000000000000000000000000000000000000000000000000000000000000000000000000000000000000000000000000000000000000000000000000000000000000000000000000000000000000000000000000000000000000000000000000000000000000000000000000000000000000000000000000000000000000000000000000000000000000),
  (19379221370, 2156215383, 3148126171000000000000000000000000000000000000000000000000000000000000000000000000000000000000000000000000000000000000000000000000000000000000000000000000000000000000000000000000000000000000000000000000000000000000000000000000000000000000000000000000000000000000000000000000000000000000000000000000000000000000000000000000000),
  (19491098830, 2187674618, 3159920503000000000000000000000000000000000000000000000000000000000000000000000000000000000000000000000000000000000000000000000000000000000000000000000000000000000000000000000000000000000000000000000000000000000000000000000000000000000000000000000000000000000000000000000000000000000000000000000000000000000000000000000000000),
  (19603622170, 2219241702, 3171088152000000000000000000000000000000000000000000000000000000000000000000000000000000000000000000000000000000000000000000000000000000000000000000000000000000000000000000000000000000000000000000000000000000000000000000000000000000000000000000000000000000000000000000000000000000000000000000000000000000000000000000000000000),
  (19716795120, 2250879089, 3181626609000000000000000000000000000000000000000000000000000000000000000000000000000000000000000000000000000000000000000000000000000000000000000000000000000000000000000000000000000000000000000000000000000000000000000000000000000000000000000000000000000000000000000000000000000000000000000000000000000000000000000000000000000),
  (19830621420, 2282550458, 3191537476000000000000000000000000000000000000000000000000000000000000000000000000000000000000000000000000000000000000000000000000000000000000000000000000000000000000000000000000000000000000000000000000000000000000000000000000000000000000000000000000000000000000000000000000000000000000000000000000000000000000000000000000000),
  (19945104850, 2314221143, 3200825702000000000000000000000000000000000000000000000000000000000000000000000000000000000000000000000000000000000000000000000000000000000000000000000000000000000000000000000000000000000000000000000000000000000000000000000000000000000000000000000000000000000000000000000000000000000000000000000000000000000000000000000000000)]

/-- materials/data/titanium_oxide.csv, lines 802-851 -/
def titaniumOxideRows16 : List (ℤ × ℤ × ℤ) := [
  (20060249190, 2345858579, 3209498711000000000000000000000000000000000000000000000000000000000000000000000000000000000000000000000000000000000000000000000000000000000000000000000000000000000000000000000000000000000000000000000000000000000000000000000000000000000000000000000000000000000000000000000000000000000000000000000000000000000000000000000000000),
  (20176058280, 2377432024, 3217566464000000000000000000000000000000000000000000000000000000000000000000000000000000000000000000000000000000000000000000000000000000000000000000000000000000000000000000000000000000000000000000000000000000000000000000000000000000000000000000000000000000000000000000000000000000000000000000000000000000000000000000000000000),
  (20292535930, 2408912701, 3225040888000000000000000000000000000000000000000000000000000000000000000000000000000000000000000000000000000000000000000000000000000000000000000000000000000000000000000000000000000000000000000000000000000000000000000000000000000000000000000000000000000000000000000000000000000000000000000000000000000000000000000000000000000),
  (20409686020, 2440273997, 3231935216000000000000000000000000000000000000000000000000000000000000000000000000000000000000000000000000000000000000000000000000000000000000000000000000000000000000000000000000000000000000000000000000000000000000000000000000000000000000000000000000000000000000000000000000000000000000000000000000000000000000000000000000000),
  (20527512420, 2471491004, 3238264206000000000000000000000000000000000000000000000000000000000000000000000000000000000000000000000000000000000000000000000000000000000000000000000000000000000000000000000000000000000000000000000000000000000000000000000000000000000000000000000000000000000000000000000000000000000000000000000000000000000000000000000000000),
  (20646019050, 2502540802, 3244043380000000000000000000000000000000000000000000000000000000000000000000000000000000000000000000000000000000000000000000000000000000000000000000000000000000000000000000000000000000000000000000000000000000000000000000000000000000000000000000000000000000000000000000000000000000000000000000000000000000000000000000000000000),
  (20765209820, 2533401921, 3249289357000000000000000000000000000000000000000000000000000000000000000000000000000000000000000000000000000000000000000000000000000000000000000000000000000000000000000000000000000000000000000000000000000000000000000000000000000000000000000000000000000000000000000000000000000000000000000000000000000000000000000000000000000),
  (20885088680, 2564054983, 3254018692000000000000000000000000000000000000000000000000000000000000000000000000000000000000000000000000000000000000000000000000000000000000000000000000000000000000000000000000000000000000000000000000000000000000000000000000000000000000000000000000000000000000000000000000000000000000000000000000000000000000000000000000000),
  (21005659610, 2594481134, 3258249567000000000000000000000000000000000000000000000000000000000000000000000000000000000000000000000000000000000000000000000000000000000000000000000000000000000000000000000000000000000000000000000000000000000000000000000000000000000000000000000000000000000000000000000000000000000000000000000000000000000000000000000000000),
  (21126926610, 2624664049, 3261998977000000000000000000000000000000000000000000000000000000000000000000000000000000000000000000000000000000000000000000000000000000000000000000000000000000000000000000000000000000000000000000000000000000000000000000000000000000000000000000000000000000000000000000000000000000000000000000000000000000000000000000000000000),
  (21248893690, 2654587532, 3265285523000000000000000000000000000000000000000000000000000000000000000000000000000000000000000000000000000000000000000000000000000000000000000000000000000000000000000000000000000000000000000000000000000000000000000000000000000000000000000000000000000000000000000000000000000000000000000000000000000000000000000000000000000),
  (21371564890, 2684237019, 3268127312000000000000000000000000000000000000000000000000000000000000000000000000000000000000000000000000000000000000000000000000000000000000000000000000000000000000000000000000000000000000000000000000000000000000000000000000000000000000000000000000000000000000000000000000000000000000000000000000000000000000000000000000000),
  (21494944280, 2713598663, 3270542935000000000000000000000000000000000000000000000000000000000000000000000000000000000000000000000000000000000000000000000000000000000000000000000000000000000000000000000000000000000000000000000000000000000000000000000000000000000000000000000000000000000000000000000000000000000000000000000000000000000000000000000000000),
  (21619035950, 2742659840, 3272550716000000000000000000000000000000000000000000000000000000000000000000000000000000000000000000000000000000000000000000000000000000000000000000000000000000000000000000000000000000000000000000000000000000000000000000000000000000000000000000000000000000000000000000000000000000000000000000000000000000000000000000000000000),
  (21743844000, 2771408205, 3274169748000000000000000000000000000000000000000000000000000000000000000000000000000000000000000000000000000000000000000000000000000000000000000000000000000000000000000000000000000000000000000000000000000000000000000000000000000000000000000000000000000000000000000000000000000000000000000000000000000000000000000000000000000),
  (21869372580, 2799832305, 3275419086000000000000000000000000000000000000000000000000000000000000000000000000000000000000000000000000000000000000000000000000000000000000000000000000000000000000000000000000000000000000000000000000000000000000000000000000000000000000000000000000000000000000000000000000000000000000000000000000000000000000000000000000000),
  (21995625850, 2827921576, 3276317712000000000000000000000000000000000000000000000000000000000000000000000000000000000000000000000000000000000000000000000000000000000000000000000000000000000000000000000000000000000000000000000000000000000000000000000000000000000000000000000000000000000000000000000000000000000000000000000000000000000000000000000000000),
  (22122607980, 2855665524, 3276885492000000000000000000000000000000000000000000000000000000000000000000000000000000000000000000000000000000000000000000000000000000000000000000000000000000000000000000000000000000000000000000000000000000000000000000000000000000000000000000000000000000000000000000000000000000000000000000000000000000000000000000000000000),
  (22250323190, 2883054536, 3277142230000000000000000000000000000000000000000000000000000000000000000000000000000000000000000000000000000000000000000000000000000000000000000000000000000000000000000000000000000000000000000000000000000000000000000000000000000000000000000000000000000000000000000000000000000000000000000000000000000000000000000000000000000),
  (22378775710, 2910079291, 3277108403000000000000000000000000000000000000000000000000000000000000000000000000000000000000000000000000000000000000000000000000000000000000000000000000000000000000000000000000000000000000000000000000000000000000000000000000000000000000000000000000000000000000000000000000000000000000000000000000000000000000000000000000000),
  (22507969790, 2936731360, 3276804536000000000000000000000000000000000000000000000000000000000000000000000000000000000000000000000000000000000000000000000000000000000000000000000000000000000000000000000000000000000000000000000000000000000000000000000000000000000000000000000000000000000000000000000000000000000000000000000000000000000000000000000000000),
  (22637909720, 2963002374, 3276252243000000000000000000000000000000000000000000000000000000000000000000000000000000000000000000000000000000000000000000000000000000000000000000000000000000000000000000000000000000000000000000000000000000000000000000000000000000000000000000000000000000000000000000000000000000000000000000000000000000000000000000000000000),
  (22768599800, 2988884545, 3275473736000000000000000000000000000000000000000000000000000000000000000000000000000000000000000000000000000000000000000000000000000000000000000000000000000000000000000000000000000000000000000000000000000000000000000000000000000000000000000000000000000000000000000000000000000000000000000000000000000000000000000000000000000),
  (22900044360, 3014371286, 3274491293000000000000000000000000000000000000000000000000000000000000000000000000000000000000000000000000000000000000000000000000000000000000000000000000000000000000000000000000000000000000000000000000000000000000000000000000000000000000000000000000000000000000000000000000000000000000000000000000000000000000000000000000000),
  (23032247760, 3039455716, 3273329047000000000000000000000000000000000000000000000000000000000000000000000000000000000000000000000000000000000000000000000000000000000000000000000000000000000000000000000000000000000000000000000000000000000000000000000000000000000000000000000000000000000000000000000000000000000000000000000000000000000000000000000000000),
  (23165214380, 3064132207, 3272011464000000000000000000000000000000000000000000000000000000000000000000000000000000000000000000000000000000000000000000000000000000000000000000000000000000000000000000000000000000000000000000000000000000000000000000000000000000000000000000000000000000000000000000000000000000000000000000000000000000000000000000000000000),
  (23298948620, 3088396108, 3270563844000000000000000000000000000000000000000000000000000000000000000000000000000000000000000000000000000000000000000000000000000000000000000000000000000000000000000000000000000000000000000000000000000000000000000000000000000000000000000000000000000000000000000000000000000000000000000000000000000000000000000000000000000),
  (23433454920, 3112243230, 3269013064000000000000000000000000000000000000000000000000000000000000000000000000000000000000000000000000000000000000000000000000000000000000000000000000000000000000000000000000000000000000000000000000000000000000000000000000000000000000000000000000000000000000000000000000000000000000000000000000000000000000000000000000000),
  (23568737730, 3135671000, 3267386569000000000000000000000000000000000000000000000000000000000000000000000000000000000000000000000000000000000000000000000000000000000000000000000000000000000000000000000000000000000000000000000000000000000000000000000000000000000000000000000000000000000000000000000000000000000000000000000000000000000000000000000000000),
  (23704801540, 3158678067, 3265713005000000000000000000000000000000000000000000000000000000000000000000000000000000000000000000000000000000000000000000000000000000000000000000000000000000000000000000000000000000000000000000000000000000000000000000000000000000000000000000000000000000000000000000000000000000000000000000000000000000000000000000000000000),
  (23841650850, 3181264201, 3264022535000000000000000000000000000000000000000000000000000000000000000000000000000000000000000000000000000000000000000000000000000000000000000000000000000000000000000000000000000000000000000000000000000000000000000000000000000000000000000000000000000000000000000000000000000000000000000000000000000000000000000000000000000),
  (23979290200, 3203431001, 3262346318000000000000000000000000000000000000000000000000000000000000000000000000000000000000000000000000000000000000000000000000000000000000000000000000000000000000000000000000000000000000000000000000000000000000000000000000000000000000000000000000000000000000000000000000000000000000000000000000000000000000000000000000000),
  (24117724160, 3225181968, 3260716626000000000000000000000000000000000000000000000000000000000000000000000000000000000000000000000000000000000000000000000000000000000000000000000000000000000000000000000000000000000000000000000000000000000000000000000000000000000000000000000000000000000000000000000000000000000000000000000000000000000000000000000000000),
  (24256957300, 3246523211, 3259166327000000000000000000000000000000000000000000000000000000000000000000000000000000000000000000000000000000000000000000000000000000000000000000000000000000000000000000000000000000000000000000000000000000000000000000000000000000000000000000000000000000000000000000000000000000000000000000000000000000000000000000000000000),
  (24396994240, 3267462191, 3257730293000000000000000000000000000000000000000000000000000000000000000000000000000000000000000000000000000000000000000000000000000000000000000000000000000000000000000000000000000000000000000000000000000000000000000000000000000000000000000000000000000000000000000000000000000000000000000000000000000000000000000000000000000),
  (24537839620, 3288009929, 3256443310000000000000000000000000000000000000000000000000000000000000000000000000000000000000000000000000000000000000000000000000000000000000000000000000000000000000000000000000000000000000000000000000000000000000000000000000000000000000000000000000000000000000000000000000000000000000000000000000000000000000000000000000000),
  (24679498120, 3308179823, 3255341343000000000000000000000000000000000000000000000000000000000000000000000000000000000000000000000000000000000000000000000000000000000000000000000000000000000000000000000000000000000000000000000000000000000000000000000000000000000000000000000000000000000000000000000000000000000000000000000000000000000000000000000000000),
  (24821974420, 3327988712, 3254460510000000000000000000000000000000000000000000000000000000000000000000000000000000000000000000000000000000000000000000000000000000000000000000000000000000000000000000000000000000000000000000000000000000000000000000000000000000000000000000000000000000000000000000000000000000000000000000000000000000000000000000000000000),
  (24965273240, 3347456943, 3253836999000000000000000000000000000000000000000000000000000000000000000000000000000000000000000000000000000000000000000000000000000000000000000000000000000000000000000000000000000000000000000000000000000000000000000000000000000000000000000000000000000000000000000000000000000000000000000000000000000000000000000000000000000),
  (25109399330, 3366607678, 3253507647000000000000000000000000000000000000000000000000000000000000000000000000000000000000000000000000000000000000000000000000000000000000000000000000000000000000000000000000000000000000000000000000000000000000000000000000000000000000000000000000000000000000000000000000000000000000000000000000000000000000000000000000000),
  (25254357480, 3385468875, 3253507842000000000000000000000000000000000000000000000000000000000000000000000000000000000000000000000000000000000000000000000000000000000000000000000000000000000000000000000000000000000000000000000000000000000000000000000000000000000000000000000000000000000000000000000000000000000000000000000000000000000000000000000000000),
  (25400152470, 3404071576, 3253872952000000000000000000000000000000000000000000000000000000000000000000000000000000000000000000000000000000000000000000000000000000000000000000000000000000000000000000000000000000000000000000000000000000000000000000000000000000000000000000000000000000000000000000000000000000000000000000000000000000000000000000000000000),
  (25546789150, 3422451919, 3254636047000000000000000000000000000000000000000000000000000000000000000000000000000000000000000000000000000000000000000000000000000000000000000000000000000000000000000000000000000000000000000000000000000000000000000000000000000000000000000000000000000000000000000000000000000000000000000000000000000000000000000000000000000),
  (25694272380, 3440648922, 3255829617000000000000000000000000000000000000000000000000000000000000000000000000000000000000000000000000000000000000000000000000000000000000000000000000000000000000000000000000000000000000000000000000000000000000000000000000000000000000000000000000000000000000000000000000000000000000000000000000000000000000000000000000000),
  (25842607030, 3458707036, 3257482619000000000000000000000000000000000000000000000000000000000000000000000000000000000000000000000000000000000000000000000000000000000000000000000000000000000000000000000000000000000000000000000000000000000000000000000000000000000000000000000000000000000000000000000000000000000000000000000000000000000000000000000000000),
  (25991798030, 3476673948, 3259621980000000000000000000000000000000000000000000000000000000000000000000000000000000000000000000000000000000000000000000000000000000000000000000000000000000000000000000000000000000000000000000000000000000000000000000000000000000000000000000000000000000000000000000000000000000000000000000000000000000000000000000000000000),
  (26141850320, 3494601813, 3262270745000000000000000000000000000000000000000000000000000000000000000000000000000000000000000000000000000000000000000000000000000000000000000000000000000000000000000000000000000000000000000000000000000000000000000000000000000000000000000000000000000000000000000000000000000000000000000000000000000000000000000000000000000),
  (26292768870, 3512546025, 3265448466000000000000000000000000000000000000000000000000000000000000000000000000000000000000000000000000000000000000000000000000000000000000000000000000000000000000000000000000000000000000000000000000000000000000000000000000000000000000000000000000000000000000000000000000000000000000000000000000000000000000000000000000000),
  (26444558680, 3530566508, 3269169171000000000000000000000000000000000000000000000000000000000000000000000000000000000000000000000000000000000000000000000000000000000000000000000000000000000000000000000000000000000000000000000000000000000000000000000000000000000000000000000000000000000000000000000000000000000000000000000000000000000000000000000000000),
  (26597224780, 3548725043, 3273442951000000000000000000000000000000000000000000000000000000000000000000000000000000000000000000000000000000000000000000000000000000000000000000000000000000000000000000000000000000000000000000000000000000000000000000000000000000000000000000000000000000000000000000000000000000000000000000000000000000000000000000000000000)]

/-- materials/data/titanium_oxide.csv, lines 852-901 -/
def titaniumOxideRows17 : List (ℤ × ℤ × ℤ) := [
  (26750772240, 3567087507, 3278272941000000000000000000000000000000000000000000000000000000000000000000000000000000000000000000000000000000000000000000000000000000000000000000000000000000000000000000000000000000000000000000000000000000000000000000000000000000000000000000000000000000000000000000000000000000000000000000000000000000000000000000000000000),
  (26905206130, 3585719710, 3283658191000000000000000000000000000000000000000000000000000000000000000000000000000000000000000000000000000000000000000000000000000000000000000000000000000000000000000000000000000000000000000000000000000000000000000000000000000000000000000000000000000000000000000000000000000000000000000000000000000000000000000000000000000),
  (27060531580, 3604691661, 3289588751000000000000000000000000000000000000000000000000000000000000000000000000000000000000000000000000000000000000000000000000000000000000000000000000000000000000000000000000000000000000000000000000000000000000000000000000000000000000000000000000000000000000000000000000000000000000000000000000000000000000000000000000000),
  (27216753730, 3624071623, 3296050158000000000000000000000000000000000000000000000000000000000000000000000000000000000000000000000000000000000000000000000000000000000000000000000000000000000000000000000000000000000000000000000000000000000000000000000000000000000000000000000000000000000000000000000000000000000000000000000000000000000000000000000000000),
  (27373877770, 3643930248, 3303018700000000000000000000000000000000000000000000000000000000000000000000000000000000000000000000000000000000000000000000000000000000000000000000000000000000000000000000000000000000000000000000000000000000000000000000000000000000000000000000000000000000000000000000000000000000000000000000000000000000000000000000000000000),
  (27531908890, 3664335840, 3310464852000000000000000000000000000000000000000000000000000000000000000000000000000000000000000000000000000000000000000000000000000000000000000000000000000000000000000000000000000000000000000000000000000000000000000000000000000000000000000000000000000000000000000000000000000000000000000000000000000000000000000000000000000),
  (27690852330, 3685355578, 3318351337000000000000000000000000000000000000000000000000000000000000000000000000000000000000000000000000000000000000000000000000000000000000000000000000000000000000000000000000000000000000000000000000000000000000000000000000000000000000000000000000000000000000000000000000000000000000000000000000000000000000000000000000000),
  (27850713370, 3707054191, 3326633605000000000000000000000000000000000000000000000000000000000000000000000000000000000000000000000000000000000000000000000000000000000000000000000000000000000000000000000000000000000000000000000000000000000000000000000000000000000000000000000000000000000000000000000000000000000000000000000000000000000000000000000000000),
  (28011497290, 3729493098, 3335260012000000000000000000000000000000000000000000000000000000000000000000000000000000000000000000000000000000000000000000000000000000000000000000000000000000000000000000000000000000000000000000000000000000000000000000000000000000000000000000000000000000000000000000000000000000000000000000000000000000000000000000000000000),
  (28173209430, 3752729561, 3344172107000000000000000000000000000000000000000000000000000000000000000000000000000000000000000000000000000000000000000000000000000000000000000000000000000000000000000000000000000000000000000000000000000000000000000000000000000000000000000000000000000000000000000000000000000000000000000000000000000000000000000000000000000),
  (28335855140, 3776815875, 3353305033000000000000000000000000000000000000000000000000000000000000000000000000000000000000000000000000000000000000000000000000000000000000000000000000000000000000000000000000000000000000000000000000000000000000000000000000000000000000000000000000000000000000000000000000000000000000000000000000000000000000000000000000000),
  (28499439820, 3801798606, 3362588039000000000000000000000000000000000000000000000000000000000000000000000000000000000000000000000000000000000000000000000000000000000000000000000000000000000000000000000000000000000000000000000000000000000000000000000000000000000000000000000000000000000000000000000000000000000000000000000000000000000000000000000000000),
  (28663968880, 3827717901, 3371945091000000000000000000000000000000000000000000000000000000000000000000000000000000000000000000000000000000000000000000000000000000000000000000000000000000000000000000000000000000000000000000000000000000000000000000000000000000000000000000000000000000000000000000000000000000000000000000000000000000000000000000000000000),
  (28829447780, 3854606875, 3381295571000000000000000000000000000000000000000000000000000000000000000000000000000000000000000000000000000000000000000000000000000000000000000000000000000000000000000000000000000000000000000000000000000000000000000000000000000000000000000000000000000000000000000000000000000000000000000000000000000000000000000000000000000),
  (28995882000, 3882491094, 3390555052000000000000000000000000000000000000000000000000000000000000000000000000000000000000000000000000000000000000000000000000000000000000000000000000000000000000000000000000000000000000000000000000000000000000000000000000000000000000000000000000000000000000000000000000000000000000000000000000000000000000000000000000000),
  (29163277050, 3911388161, 3399636130000000000000000000000000000000000000000000000000000000000000000000000000000000000000000000000000000000000000000000000000000000000000000000000000000000000000000000000000000000000000000000000000000000000000000000000000000000000000000000000000000000000000000000000000000000000000000000000000000000000000000000000000000),
  (29331638490, 3941307410, 3408449306000000000000000000000000000000000000000000000000000000000000000000000000000000000000000000000000000000000000000000000000000000000000000000000000000000000000000000000000000000000000000000000000000000000000000000000000000000000000000000000000000000000000000000000000000000000000000000000000000000000000000000000000000),
  (29500971880, 3972249721, 3416903890000000000000000000000000000000000000000000000000000000000000000000000000000000000000000000000000000000000000000000000000000000000000000000000000000000000000000000000000000000000000000000000000000000000000000000000000000000000000000000000000000000000000000000000000000000000000000000000000000000000000000000000000000),
  (29671282850, 4004207442, 3424908914000000000000000000000000000000000000000000000000000000000000000000000000000000000000000000000000000000000000000000000000000000000000000000000000000000000000000000000000000000000000000000000000000000000000000000000000000000000000000000000000000000000000000000000000000000000000000000000000000000000000000000000000000),
  (29842577040, 4037164424, 3432374040000000000000000000000000000000000000000000000000000000000000000000000000000000000000000000000000000000000000000000000000000000000000000000000000000000000000000000000000000000000000000000000000000000000000000000000000000000000000000000000000000000000000000000000000000000000000000000000000000000000000000000000000000),
  (30014860110, 4071096176, 3439210450000000000000000000000000000000000000000000000000000000000000000000000000000000000000000000000000000000000000000000000000000000000000000000000000000000000000000000000000000000000000000000000000000000000000000000000000000000000000000000000000000000000000000000000000000000000000000000000000000000000000000000000000000),
  (30188137790, 4105970107, 3445331693000000000000000000000000000000000000000000000000000000000000000000000000000000000000000000000000000000000000000000000000000000000000000000000000000000000000000000000000000000000000000000000000000000000000000000000000000000000000000000000000000000000000000000000000000000000000000000000000000000000000000000000000000),
  (30362415810, 4141745870, 3450654487000000000000000000000000000000000000000000000000000000000000000000000000000000000000000000000000000000000000000000000000000000000000000000000000000000000000000000000000000000000000000000000000000000000000000000000000000000000000000000000000000000000000000000000000000000000000000000000000000000000000000000000000000),
  (30537699950, 4178375791, 3455099462000000000000000000000000000000000000000000000000000000000000000000000000000000000000000000000000000000000000000000000000000000000000000000000000000000000000000000000000000000000000000000000000000000000000000000000000000000000000000000000000000000000000000000000000000000000000000000000000000000000000000000000000000),
  (30713996020, 4215805369, 3458591836000000000000000000000000000000000000000000000000000000000000000000000000000000000000000000000000000000000000000000000000000000000000000000000000000000000000000000000000000000000000000000000000000000000000000000000000000000000000000000000000000000000000000000000000000000000000000000000000000000000000000000000000000),
  (30891309850, 4253973832, 3461062018000000000000000000000000000000000000000000000000000000000000000000000000000000000000000000000000000000000000000000000000000000000000000000000000000000000000000000000000000000000000000000000000000000000000000000000000000000000000000000000000000000000000000000000000000000000000000000000000000000000000000000000000000),
  (31069647330, 4292814757, 3462446128000000000000000000000000000000000000000000000000000000000000000000000000000000000000000000000000000000000000000000000000000000000000000000000000000000000000000000000000000000000000000000000000000000000000000000000000000000000000000000000000000000000000000000000000000000000000000000000000000000000000000000000000000),
  (31249014360, 4332256711, 3462686442000000000000000000000000000000000000000000000000000000000000000000000000000000000000000000000000000000000000000000000000000000000000000000000000000000000000000000000000000000000000000000000000000000000000000000000000000000000000000000000000000000000000000000000000000000000000000000000000000000000000000000000000000),
  (31429416890, 4372223936, 3461731750000000000000000000000000000000000000000000000000000000000000000000000000000000000000000000000000000000000000000000000000000000000000000000000000000000000000000000000000000000000000000000000000000000000000000000000000000000000000000000000000000000000000000000000000000000000000000000000000000000000000000000000000000),
  (31610860900, 4412637038, 3459537639000000000000000000000000000000000000000000000000000000000000000000000000000000000000000000000000000000000000000000000000000000000000000000000000000000000000000000000000000000000000000000000000000000000000000000000000000000000000000000000000000000000000000000000000000000000000000000000000000000000000000000000000000),
  (31793352390, 4453413690, 3456066688000000000000000000000000000000000000000000000000000000000000000000000000000000000000000000000000000000000000000000000000000000000000000000000000000000000000000000000000000000000000000000000000000000000000000000000000000000000000000000000000000000000000000000000000000000000000000000000000000000000000000000000000000),
  (31976897410, 4494469327, 3451288593000000000000000000000000000000000000000000000000000000000000000000000000000000000000000000000000000000000000000000000000000000000000000000000000000000000000000000000000000000000000000000000000000000000000000000000000000000000000000000000000000000000000000000000000000000000000000000000000000000000000000000000000000),
  (32161502060, 4535717838, 3445180218000000000000000000000000000000000000000000000000000000000000000000000000000000000000000000000000000000000000000000000000000000000000000000000000000000000000000000000000000000000000000000000000000000000000000000000000000000000000000000000000000000000000000000000000000000000000000000000000000000000000000000000000000),
  (32347172430, 4577072232, 3437725573000000000000000000000000000000000000000000000000000000000000000000000000000000000000000000000000000000000000000000000000000000000000000000000000000000000000000000000000000000000000000000000000000000000000000000000000000000000000000000000000000000000000000000000000000000000000000000000000000000000000000000000000000),
  (32533914700, 4618445285, 3428915736000000000000000000000000000000000000000000000000000000000000000000000000000000000000000000000000000000000000000000000000000000000000000000000000000000000000000000000000000000000000000000000000000000000000000000000000000000000000000000000000000000000000000000000000000000000000000000000000000000000000000000000000000),
  (32721735040, 4659750158, 3418748712000000000000000000000000000000000000000000000000000000000000000000000000000000000000000000000000000000000000000000000000000000000000000000000000000000000000000000000000000000000000000000000000000000000000000000000000000000000000000000000000000000000000000000000000000000000000000000000000000000000000000000000000000),
  (32910639680, 4700900977, 3407229242000000000000000000000000000000000000000000000000000000000000000000000000000000000000000000000000000000000000000000000000000000000000000000000000000000000000000000000000000000000000000000000000000000000000000000000000000000000000000000000000000000000000000000000000000000000000000000000000000000000000000000000000000),
  (33100634870, 4741813383, 3394368562000000000000000000000000000000000000000000000000000000000000000000000000000000000000000000000000000000000000000000000000000000000000000000000000000000000000000000000000000000000000000000000000000000000000000000000000000000000000000000000000000000000000000000000000000000000000000000000000000000000000000000000000000),
  (33291726920, 4782405035, 3380184128000000000000000000000000000000000000000000000000000000000000000000000000000000000000000000000000000000000000000000000000000000000000000000000000000000000000000000000000000000000000000000000000000000000000000000000000000000000000000000000000000000000000000000000000000000000000000000000000000000000000000000000000000),
  (33483922160, 4822596075, 3364699297000000000000000000000000000000000000000000000000000000000000000000000000000000000000000000000000000000000000000000000000000000000000000000000000000000000000000000000000000000000000000000000000000000000000000000000000000000000000000000000000000000000000000000000000000000000000000000000000000000000000000000000000000),
  (33677226950, 4862309551, 3347942987000000000000000000000000000000000000000000000000000000000000000000000000000000000000000000000000000000000000000000000000000000000000000000000000000000000000000000000000000000000000000000000000000000000000000000000000000000000000000000000000000000000000000000000000000000000000000000000000000000000000000000000000000),
  (33871647700, 4901471794, 3329949303000000000000000000000000000000000000000000000000000000000000000000000000000000000000000000000000000000000000000000000000000000000000000000000000000000000000000000000000000000000000000000000000000000000000000000000000000000000000000000000000000000000000000000000000000000000000000000000000000000000000000000000000000),
  (34067190860, 4940012749, 3310757151000000000000000000000000000000000000000000000000000000000000000000000000000000000000000000000000000000000000000000000000000000000000000000000000000000000000000000000000000000000000000000000000000000000000000000000000000000000000000000000000000000000000000000000000000000000000000000000000000000000000000000000000000),
  (34263862900, 4977866269, 3290409834000000000000000000000000000000000000000000000000000000000000000000000000000000000000000000000000000000000000000000000000000000000000000000000000000000000000000000000000000000000000000000000000000000000000000000000000000000000000000000000000000000000000000000000000000000000000000000000000000000000000000000000000000),
  (34461670340, 5014970359, 3268954638000000000000000000000000000000000000000000000000000000000000000000000000000000000000000000000000000000000000000000000000000000000000000000000000000000000000000000000000000000000000000000000000000000000000000000000000000000000000000000000000000000000000000000000000000000000000000000000000000000000000000000000000000),
  (34660619730, 5051267379, 3246442408000000000000000000000000000000000000000000000000000000000000000000000000000000000000000000000000000000000000000000000000000000000000000000000000000000000000000000000000000000000000000000000000000000000000000000000000000000000000000000000000000000000000000000000000000000000000000000000000000000000000000000000000000),
  (34860717670, 5086704210, 3222927130000000000000000000000000000000000000000000000000000000000000000000000000000000000000000000000000000000000000000000000000000000000000000000000000000000000000000000000000000000000000000000000000000000000000000000000000000000000000000000000000000000000000000000000000000000000000000000000000000000000000000000000000000),
  (35061970790, 5121232379, 3198465504000000000000000000000000000000000000000000000000000000000000000000000000000000000000000000000000000000000000000000000000000000000000000000000000000000000000000000000000000000000000000000000000000000000000000000000000000000000000000000000000000000000000000000000000000000000000000000000000000000000000000000000000000),
  (35264385760, 5154808140, 3173116528000000000000000000000000000000000000000000000000000000000000000000000000000000000000000000000000000000000000000000000000000000000000000000000000000000000000000000000000000000000000000000000000000000000000000000000000000000000000000000000000000000000000000000000000000000000000000000000000000000000000000000000000000),
  (35467969280, 5187392531, 3146941084000000000000000000000000000000000000000000000000000000000000000000000000000000000000000000000000000000000000000000000000000000000000000000000000000000000000000000000000000000000000000000000000000000000000000000000000000000000000000000000000000000000000000000000000000000000000000000000000000000000000000000000000000)]

/-- materials/data/titanium_oxide.csv, lines 902-922 -/
def titaniumOxideRows18 : List (ℤ × ℤ × ℤ) := [
  (35672728100, 5218951384, 3120001539000000000000000000000000000000000000000000000000000000000000000000000000000000000000000000000000000000000000000000000000000000000000000000000000000000000000000000000000000000000000000000000000000000000000000000000000000000000000000000000000000000000000000000000000000000000000000000000000000000000000000000000000000),
  (35878669010, 5249455316, 3092361353000000000000000000000000000000000000000000000000000000000000000000000000000000000000000000000000000000000000000000000000000000000000000000000000000000000000000000000000000000000000000000000000000000000000000000000000000000000000000000000000000000000000000000000000000000000000000000000000000000000000000000000000000),
  (36085798830, 5278879681, 3064084703000000000000000000000000000000000000000000000000000000000000000000000000000000000000000000000000000000000000000000000000000000000000000000000000000000000000000000000000000000000000000000000000000000000000000000000000000000000000000000000000000000000000000000000000000000000000000000000000000000000000000000000000000),
  (36294124420, 5307204500, 3035236122000000000000000000000000000000000000000000000000000000000000000000000000000000000000000000000000000000000000000000000000000000000000000000000000000000000000000000000000000000000000000000000000000000000000000000000000000000000000000000000000000000000000000000000000000000000000000000000000000000000000000000000000000),
  (36503652680, 5334414362, 3005880155000000000000000000000000000000000000000000000000000000000000000000000000000000000000000000000000000000000000000000000000000000000000000000000000000000000000000000000000000000000000000000000000000000000000000000000000000000000000000000000000000000000000000000000000000000000000000000000000000000000000000000000000000),
  (36714390570, 5360498307, 2976081035000000000000000000000000000000000000000000000000000000000000000000000000000000000000000000000000000000000000000000000000000000000000000000000000000000000000000000000000000000000000000000000000000000000000000000000000000000000000000000000000000000000000000000000000000000000000000000000000000000000000000000000000000),
  (36926345060, 5385449684, 2945902376000000000000000000000000000000000000000000000000000000000000000000000000000000000000000000000000000000000000000000000000000000000000000000000000000000000000000000000000000000000000000000000000000000000000000000000000000000000000000000000000000000000000000000000000000000000000000000000000000000000000000000000000000),
  (37139523180, 5409265993, 2915406887000000000000000000000000000000000000000000000000000000000000000000000000000000000000000000000000000000000000000000000000000000000000000000000000000000000000000000000000000000000000000000000000000000000000000000000000000000000000000000000000000000000000000000000000000000000000000000000000000000000000000000000000000),
  (37353931980, 5431948716, 2884656108000000000000000000000000000000000000000000000000000000000000000000000000000000000000000000000000000000000000000000000000000000000000000000000000000000000000000000000000000000000000000000000000000000000000000000000000000000000000000000000000000000000000000000000000000000000000000000000000000000000000000000000000000),
  (37569578590, 5453503118, 2853710164000000000000000000000000000000000000000000000000000000000000000000000000000000000000000000000000000000000000000000000000000000000000000000000000000000000000000000000000000000000000000000000000000000000000000000000000000000000000000000000000000000000000000000000000000000000000000000000000000000000000000000000000000),
  (37786470130, 5473938060, 2822627545000000000000000000000000000000000000000000000000000000000000000000000000000000000000000000000000000000000000000000000000000000000000000000000000000000000000000000000000000000000000000000000000000000000000000000000000000000000000000000000000000000000000000000000000000000000000000000000000000000000000000000000000000),
  (38004613800, 5493265780, 2791464906000000000000000000000000000000000000000000000000000000000000000000000000000000000000000000000000000000000000000000000000000000000000000000000000000000000000000000000000000000000000000000000000000000000000000000000000000000000000000000000000000000000000000000000000000000000000000000000000000000000000000000000000000),
  (38224016830, 5511501680, 2760276883000000000000000000000000000000000000000000000000000000000000000000000000000000000000000000000000000000000000000000000000000000000000000000000000000000000000000000000000000000000000000000000000000000000000000000000000000000000000000000000000000000000000000000000000000000000000000000000000000000000000000000000000000),
  (38444686490, 5528664100, 2729115941000000000000000000000000000000000000000000000000000000000000000000000000000000000000000000000000000000000000000000000000000000000000000000000000000000000000000000000000000000000000000000000000000000000000000000000000000000000000000000000000000000000000000000000000000000000000000000000000000000000000000000000000000),
  (38666630090, 5544774096, 2698032233000000000000000000000000000000000000000000000000000000000000000000000000000000000000000000000000000000000000000000000000000000000000000000000000000000000000000000000000000000000000000000000000000000000000000000000000000000000000000000000000000000000000000000000000000000000000000000000000000000000000000000000000000),
  (38889854980, 5559855204, 2667073485000000000000000000000000000000000000000000000000000000000000000000000000000000000000000000000000000000000000000000000000000000000000000000000000000000000000000000000000000000000000000000000000000000000000000000000000000000000000000000000000000000000000000000000000000000000000000000000000000000000000000000000000000),
  (39114368560, 5573933211, 2636284900000000000000000000000000000000000000000000000000000000000000000000000000000000000000000000000000000000000000000000000000000000000000000000000000000000000000000000000000000000000000000000000000000000000000000000000000000000000000000000000000000000000000000000000000000000000000000000000000000000000000000000000000000),
  (39340178280, 5587035926, 2605709079000000000000000000000000000000000000000000000000000000000000000000000000000000000000000000000000000000000000000000000000000000000000000000000000000000000000000000000000000000000000000000000000000000000000000000000000000000000000000000000000000000000000000000000000000000000000000000000000000000000000000000000000000),
  (39567291600, 5599192953, 2575385965000000000000000000000000000000000000000000000000000000000000000000000000000000000000000000000000000000000000000000000000000000000000000000000000000000000000000000000000000000000000000000000000000000000000000000000000000000000000000000000000000000000000000000000000000000000000000000000000000000000000000000000000000),
  (39795716070, 5610435461, 2545352799000000000000000000000000000000000000000000000000000000000000000000000000000000000000000000000000000000000000000000000000000000000000000000000000000000000000000000000000000000000000000000000000000000000000000000000000000000000000000000000000000000000000000000000000000000000000000000000000000000000000000000000000000),
  (40025459250, 5620795969, 2515644100000000000000000000000000000000000000000000000000000000000000000000000000000000000000000000000000000000000000000000000000000000000000000000000000000000000000000000000000000000000000000000000000000000000000000000000000000000000000000000000000000000000000000000000000000000000000000000000000000000000000000000000000000)]

/-- materials/data/titanium_oxide.csv (921 rows), as scaled integers -/
def titaniumOxideRows : List (ℤ × ℤ × ℤ) :=
  [titaniumOxideRows0, titaniumOxideRows1, titaniumOxideRows2, titaniumOxideRows3, titaniumOxideRows4, titaniumOxideRows5, titaniumOxideRows6, titaniumOxideRows7, titaniumOxideRows8, titaniumOxideRows9, titaniumOxideRows10, titaniumOxideRows11, titaniumOxideRows12, titaniumOxideRows13, titaniumOxideRows14, titaniumOxideRows15, titaniumOxideRows16, titaniumOxideRows17, titaniumOxideRows18].flatten

/-- materials/data/titanium_oxide.csv -/
def titaniumOxideTable : List (MatRow ℚ) := mkTable 1000000000 1000000000 1000000000000000000000000000000000000000000000000000000000000000000000000000000000000000000000000000000000000000000000000000000000000000000000000000000000000000000000000000000000000000000000000000000000000000000000000000000000000000000000000000000000000000000000000000000000000000000000000000000000000000000000000000000000000 titaniumOxideRows

/-- materials/data/zinc_oxide.csv, lines 2-51 -/
def zincOxideRows0 : List (ℤ × ℤ × ℤ) := [
  (2100, 1417, 3),
  (2200, 1418, 3),
  (2300, 1421, 3),
  (2400, 1425, 3),
  (2500, 1430, 4),
  (2600, 1436, 4),
  (2700, 1444, 4),
  (2800, 1451, 5),
  (2900, 1459, 5),
  (3000, 1469, 5),
  (3100, 1476, 6),
  (3200, 1486, 6),
  (3300, 1499, 7),
  (3400, 1508, 7),
  (3500, 1523, 8),
  (3600, 1565, 10),
  (3700, 1627, 9),
  (3800, 1614, 6),
  (3900, 1572, 6),
  (4000, 1557, 6),
  (4100, 1550, 6),
  (4200, 1547, 6),
  (4300, 1546, 6),
  (4400, 1547, 7),
  (4500, 1548, 7),
  (4600, 1550, 7),
  (4700, 1553, 7),
  (4800, 1556, 8),
  (4900, 1559, 8),
  (5000, 1560, 8),
  (5100, 1561, 8),
  (5200, 1563, 8),
  (5300, 1566, 9),
  (5402, 1568, 9),
  (5500, 1570, 9),
  (5600, 1571, 9),
  (5700, 1573, 9),
  (5800, 1575, 10),
  (5900, 1577, 10),
  (6000, 1579, 10),
  (6100, 1581, 10),
  (6200, 1583, 10),
  (6300, 1584, 10),
  (6400, 1586, 11),
  (6500, 1587, 11),
  (6600, 1588, 11),
  (6700, 1590, 11),
  (6800, 1592, 11),
  (6900, 1594, 12),
  (7000, 1596, 12)]

/-- materials/data/zinc_oxide.csv, lines 52-101 -/
def zincOxideRows1 : List (ℤ × ℤ × ℤ) := [
  (7100, 1597, 12),
  (7200, 1599, 12),
  (7300, 1601, 12),
  (7400, 1602, 13),
  (7500, 1604, 13),
  (7600, 1606, 13),
  (7700, 1608, 13),
  (7800, 1609, 14),
  (7900, 1610, 14),
  (8000, 1612, 14),
  (8100, 1612, 14),
  (8200, 1614, 14),
  (8300, 1616, 15),
  (8400, 1617, 15),
  (8500, 1619, 15),
  (8600, 1622, 16),
  (8700, 1624, 16),
  (8800, 1627, 16),
  (8900, 1630, 17),
  (9000, 1633, 17),
  (9100, 1636, 17),
  (9200, 1638, 17),
  (9300, 1641, 17),
  (9400, 1643, 18),
  (9500, 1646, 18),
  (9600, 1648, 18),
  (9700, 1650, 18),
  (9800, 1652, 18),
  (9900, 1654, 18),
  (10000, 1656, 19),
  (10100, 1658, 19),
  (10200, 1659, 19),
  (10300, 1662, 19),
  (10400, 1663, 19),
  (10500, 1664, 19),
  (10600, 1666, 19),
  (10700, 1668, 20),
  (10800, 1669, 20),
  (10900, 1671, 20),
  (11000, 1672, 20),
  (11100, 1673, 20),
  (11200, 1675, 20),
  (11300, 1678, 21),
  (11400, 1680, 21),
  (11500, 1681, 21),
  (11600, 1682, 21),
  (11700, 1683, 21),
  (11800, 1684, 21),
  (11900, 1685, 21),
  (12000, 1687, 21)]

/-- materials/data/zinc_oxide.csv, lines 102-151 -/
def zincOxideRows2 : List (ℤ × ℤ × ℤ) := [
  (12100, 1688, 21),
  (12200, 1689, 21),
  (12300, 1690, 21),
  (12400, 1691, 21),
  (12500, 1692, 21),
  (12600, 1693, 21),
  (12700, 1694, 22),
  (12800, 1695, 22),
  (12900, 1695, 22),
  (13000, 1696, 22),
  (13100, 1697, 22),
  (13200, 1697, 22),
  (13300, 1698, 22),
  (13400, 1699, 22),
  (13500, 1700, 22),
  (13600, 1701, 22),
  (13700, 1701, 22),
  (13800, 1702, 22),
  (13900, 1702, 22),
  (14000, 1703, 22),
  (14100, 1704, 22),
  (14200, 1704, 22),
  (14300, 1705, 23),
  (14400, 1706, 23),
  (14500, 1707, 23),
  (14600, 1707, 23),
  (14700, 1708, 23),
  (14800, 1708, 23),
  (14900, 1709, 23),
  (15000, 1709, 23),
  (15100, 1710, 23),
  (15200, 1711, 23),
  (15300, 1709, 23),
  (15400, 1709, 23),
  (15500, 1712, 23),
  (15600, 1713, 23),
  (15700, 1713, 23),
  (15800, 1712, 23),
  (15900, 1712, 24),
  (16000, 1714, 24),
  (16100, 1714, 24),
  (16200, 1714, 24),
  (16300, 1715, 24),
  (16400, 1716, 24),
  (16500, 1716, 24),
  (16600, 1717, 24),
  (16700, 1717, 24),
  (16800, 1717, 24),
  (16900, 1717, 24),
  (17000, 1718, 24)]

/-- materials/data/zinc_oxide.csv, lines 152-201 -/
def zincOxideRows3 : List (ℤ × ℤ × ℤ) := [
  (17100, 1718, 24),
  (17200, 1719, 24),
  (17300, 1720, 24),
  (17400, 1720, 24),
  (17500, 1721, 24),
  (17600, 1721, 24),
  (17700, 1722, 24),
  (17800, 1722, 24),
  (17900, 1723, 24),
  (18000, 1722, 24),
  (18100, 1720, 24),
  (18200, 1721, 25),
  (18300, 1723, 25),
  (18400, 1725, 25),
  (18500, 1724, 24),
  (18600, 1722, 24),
  (18700, 1722, 25),
  (18800, 1723, 25),
  (18900, 1724, 25),
  (19000, 1725, 25),
  (19100, 1725, 25),
  (19200, 1726, 25),
  (19300, 1726, 25),
  (19400, 1727, 25),
  (19500, 1728, 25),
  (19600, 1728, 25),
  (19700, 1728, 25),
  (19800, 1728, 25),
  (19900, 1728, 25),
  (20000, 1728, 25),
  (20100, 1728, 25),
  (20200, 1728, 26),
  (20300, 1729, 26),
  (20400, 1729, 26),
  (20500, 1730, 26),
  (20600, 1730, 26),
  (20700, 1730, 26),
  (20800, 1730, 26),
  (20900, 1731, 26),
  (21000, 1730, 26),
  (21100, 1730, 26),
  (21200, 1731, 26),
  (21300, 1731, 26),
  (21400, 1732, 26),
  (21500, 1732, 26),
  (21600, 1732, 26),
  (21700, 1732, 26),
  (21800, 1733, 26),
  (21900, 1733, 26),
  (22000, 1733, 26)]

/-- materials/data/zinc_oxide.csv, lines 202-251 -/
def zincOxideRows4 : List (ℤ × ℤ × ℤ) := [
  (22100, 1733, 26),
  (22200, 1733, 26),
  (22300, 1733, 26),
  (22400, 1734, 26),
  (22500, 1734, 26),
  (22600, 1734, 26),
  (22700, 1734, 26),
  (22800, 1734, 26),
  (22900, 1734, 27),
  (23000, 1735, 27),
  (23100, 1735, 27),
  (23200, 1735, 27),
  (23300, 1735, 27),
  (23400, 1736, 27),
  (23500, 1736, 27),
  (23600, 1736, 27),
  (23700, 1736, 27),
  (23800, 1736, 27),
  (23900, 1737, 27),
  (24000, 1737, 27),
  (24100, 1738, 27),
  (24200, 1738, 27),
  (24300, 1738, 27),
  (24400, 1738, 27),
  (24500, 1738, 27),
  (24600, 1739, 27),
  (24700, 1739, 27),
  (24800, 1739, 27),
  (24900, 1739, 27),
  (25000, 1740, 28),
  (25063, 1742, 28),
  (25126, 1745, 28),
  (25189, 1743, 27),
  (25253, 1745, 27),
  (25316, 1745, 27),
  (25381, 1745, 27),
  (25445, 1746, 27),
  (25510, 1745, 26),
  (25575, 1744, 27),
  (25641, 1745, 26),
  (25707, 1743, 26),
  (25773, 1744, 26),
  (25840, 1743, 27),
  (25907, 1747, 26),
  (25974, 1744, 26),
  (26042, 1747, 26),
  (26110, 1743, 26),
  (26178, 1746, 26),
  (26247, 1747, 25),
  (26316, 1748, 25)]

/-- materials/data/zinc_oxide.csv, lines 252-301 -/
def zincOxideRows5 : List (ℤ × ℤ × ℤ) := [
  (26385, 1746, 24),
  (26455, 1745, 25),
  (26525, 1746, 24),
  (26596, 1742, 24),
  (26667, 1744, 25),
  (26738, 1748, 24),
  (26810, 1747, 23),
  (26882, 1745, 22),
  (26954, 1739, 21),
  (27027, 1735, 21),
  (27100, 1734, 22),
  (27174, 1734, 23),
  (27248, 1735, 22),
  (27322, 1732, 22),
  (27397, 1733, 22),
  (27473, 1732, 22),
  (27548, 1731, 22),
  (27624, 1730, 21),
  (27701, 1726, 22),
  (27778, 1726, 22),
  (27855, 1723, 22),
  (27933, 1725, 23),
  (28011, 1726, 22),
  (28090, 1722, 22),
  (28169, 1719, 23),
  (28249, 1721, 24),
  (28329, 1721, 24),
  (28409, 1721, 24),
  (28490, 1720, 24),
  (28571, 1720, 24),
  (28653, 1720, 25),
  (28736, 1719, 25),
  (28818, 1719, 25),
  (28902, 1720, 25),
  (28986, 1721, 25),
  (29070, 1716, 25),
  (29155, 1716, 26),
  (29240, 1717, 27),
  (29326, 1719, 27),
  (29412, 1718, 27),
  (29499, 1717, 27),
  (29586, 1718, 28),
  (29674, 1717, 28),
  (29762, 1717, 29),
  (29851, 1721, 30),
  (29940, 1723, 29),
  (30030, 1721, 29),
  (30120, 1724, 30),
  (30211, 1723, 29),
  (30303, 1721, 30)]

/-- materials/data/zinc_oxide.csv, lines 302-351 -/
def zincOxideRows6 : List (ℤ × ℤ × ℤ) := [
  (30395, 1725, 30),
  (30488, 1722, 30),
  (30581, 1726, 30),
  (30675, 1724, 30),
  (30769, 1722, 30),
  (30864, 1725, 32),
  (30960, 1726, 31),
  (31056, 1726, 32),
  (31153, 1728, 31),
  (31250, 1727, 31),
  (31348, 1728, 31),
  (31447, 1729, 32),
  (31546, 1731, 32),
  (31646, 1730, 31),
  (31746, 1728, 31),
  (31847, 1730, 32),
  (31949, 1732, 32),
  (32051, 1729, 31),
  (32154, 1729, 32),
  (32258, 1733, 33),
  (32362, 1733, 32),
  (32468, 1730, 32),
  (32573, 1733, 33),
  (32680, 1735, 33),
  (32787, 1736, 32),
  (32895, 1735, 32),
  (33003, 1733, 32),
  (33113, 1737, 33),
  (33223, 1738, 32),
  (33333, 1736, 32),
  (33445, 1734, 31),
  (33557, 1733, 32),
  (33670, 1735, 32),
  (33784, 1735, 32),
  (33898, 1735, 32),
  (34014, 1732, 32),
  (34130, 1731, 32),
  (34247, 1731, 33),
  (34364, 1735, 33),
  (34483, 1734, 33),
  (34602, 1737, 33),
  (34722, 1736, 33),
  (34843, 1734, 33),
  (34965, 1732, 33),
  (35088, 1734, 34),
  (35211, 1736, 35),
  (35336, 1740, 35),
  (35461, 1738, 33),
  (35587, 1736, 34),
  (35714, 1741, 35)]

/-- materials/data/zinc_oxide.csv, lines 352-401 -/
def zincOxideRows7 : List (ℤ × ℤ × ℤ) := [
  (35842, 1740, 33),
  (35971, 1737, 34),
  (36101, 1741, 34),
  (36232, 1740, 34),
  (36364, 1743, 34),
  (36496, 1739, 33),
  (36630, 1740, 35),
  (36765, 1741, 34),
  (36900, 1740, 34),
  (37037, 1739, 34),
  (37175, 1740, 35),
  (37313, 1743, 34),
  (37453, 1740, 34),
  (37594, 1741, 35),
  (37736, 1742, 34),
  (37879, 1744, 34),
  (38023, 1743, 33),
  (38168, 1740, 34),
  (38314, 1743, 34),
  (38462, 1745, 34),
  (38610, 1742, 33),
  (38760, 1740, 34),
  (38911, 1742, 34),
  (39063, 1744, 34),
  (39216, 1745, 34),
  (39370, 1745, 34),
  (39526, 1744, 33),
  (39683, 1744, 33),
  (39841, 1742, 33),
  (40000, 1743, 34),
  (40161, 1745, 33),
  (40323, 1744, 32),
  (40486, 1742, 32),
  (40650, 1742, 33),
  (40816, 1743, 33),
  (40984, 1743, 33),
  (41152, 1744, 33),
  (41322, 1744, 32),
  (41494, 1742, 32),
  (41667, 1741, 32),
  (41841, 1744, 33),
  (42017, 1741, 31),
  (42194, 1742, 32),
  (42373, 1741, 31),
  (42553, 1739, 32),
  (42735, 1738, 32),
  (42918, 1739, 33),
  (43103, 1741, 32),
  (43290, 1740, 32),
  (43478, 1738, 32)]

/-- materials/data/zinc_oxide.csv, lines 402-451 -/
def zincOxideRows8 : List (ℤ × ℤ × ℤ) := [
  (43668, 1739, 32),
  (43860, 1738, 32),
  (44053, 1738, 32),
  (44248, 1738, 32),
  (44444, 1737, 31),
  (44643, 1736, 32),
  (44843, 1736, 32),
  (45045, 1734, 32),
  (45249, 1737, 32),
  (45455, 1736, 32),
  (45662, 1737, 32),
  (45872, 1737, 32),
  (46083, 1735, 32),
  (46296, 1735, 32),
  (46512, 1735, 31),
  (46729, 1732, 31),
  (46948, 1733, 32),
  (47170, 1730, 32),
  (47393, 1731, 33),
  (47619, 1732, 33),
  (47847, 1732, 32),
  (48077, 1732, 33),
  (48309, 1733, 32),
  (48544, 1730, 33),
  (48780, 1731, 33),
  (49020, 1730, 33),
  (49261, 1729, 33),
  (49505, 1729, 34),
  (49751, 1729, 34),
  (50000, 1730, 36),
  (50251, 1734, 36),
  (50505, 1734, 34),
  (50761, 1734, 33),
  (51020, 1733, 33),
  (51282, 1731, 33),
  (51546, 1731, 33),
  (51813, 1731, 33),
  (52083, 1730, 33),
  (52356, 1731, 33),
  (52632, 1730, 32),
  (52910, 1730, 32),
  (53191, 1729, 32),
  (53476, 1729, 31),
  (53763, 1726, 31),
  (54054, 1727, 32),
  (54348, 1729, 32),
  (54645, 1727, 30),
  (54945, 1725, 30),
  (55249, 1726, 30),
  (55556, 1724, 30)]

/-- materials/data/zinc_oxide.csv, lines 452-501 -/
def zincOxideRows9 : List (ℤ × ℤ × ℤ) := [
  (55866, 1724, 30),
  (56180, 1723, 29),
  (56497, 1722, 28),
  (56818, 1718, 27),
  (57143, 1713, 28),
  (57471, 1713, 30),
  (57803, 1713, 31),
  (58140, 1713, 32),
  (58480, 1714, 32),
  (58824, 1716, 31),
  (59172, 1712, 30),
  (59524, 1713, 31),
  (59880, 1713, 30),
  (60241, 1710, 31),
  (60606, 1712, 31),
  (60976, 1709, 28),
  (61350, 1706, 29),
  (61728, 1706, 30),
  (62112, 1705, 30),
  (62500, 1702, 30),
  (62893, 1701, 31),
  (63291, 1701, 31),
  (63694, 1699, 31),
  (64103, 1702, 33),
  (64516, 1702, 30),
  (64935, 1699, 30),
  (65359, 1695, 30),
  (65789, 1695, 30),
  (66225, 1694, 30),
  (66667, 1691, 31),
  (67114, 1692, 31),
  (67568, 1688, 30),
  (68027, 1685, 31),
  (68493, 1684, 31),
  (68966, 1681, 32),
  (69444, 1683, 34),
  (69930, 1682, 34),
  (70423, 1682, 34),
  (70922, 1677, 34),
  (71429, 1679, 36),
  (71942, 1677, 33),
  (72464, 1673, 34),
  (72993, 1670, 37),
  (74074, 1673, 38),
  (74627, 1671, 35),
  (75188, 1667, 36),
  (75758, 1666, 37),
  (76336, 1665, 38),
  (76923, 1663, 37),
  (77519, 1661, 37)]

/-- materials/data/zinc_oxide.csv, lines 502-551 -/
def zincOxideRows10 : List (ℤ × ℤ × ℤ) := [
  (78125, 1659, 37),
  (78740, 1657, 37),
  (79365, 1655, 39),
  (80000, 1654, 37),
  (80645, 1649, 40),
  (81301, 1651, 42),
  (81967, 1649, 39),
  (82645, 1644, 39),
  (83333, 1643, 40),
  (84034, 1640, 40),
  (84746, 1638, 41),
  (85470, 1635, 39),
  (86207, 1630, 40),
  (86957, 1627, 41),
  (87719, 1624, 43),
  (88496, 1621, 43),
  (89286, 1618, 44),
  (90090, 1615, 44),
  (90909, 1610, 45),
  (91743, 1608, 48),
  (92593, 1605, 49),
  (93458, 1601, 49),
  (94340, 1597, 50),
  (95238, 1592, 52),
  (96154, 1588, 54),
  (97087, 1586, 58),
  (98039, 1584, 57),
  (99010, 1578, 58),
  (100000, 1574, 60),
  (101010, 1574, 62),
  (102041, 1569, 59),
  (103093, 1562, 60),
  (104167, 1559, 61),
  (105263, 1554, 59),
  (106383, 1546, 61),
  (107527, 1541, 61),
  (108696, 1533, 62),
  (109890, 1528, 66),
  (111111, 1523, 65),
  (112360, 1515, 67),
  (113636, 1510, 69),
  (114943, 1504, 69),
  (116279, 1499, 69),
  (117647, 1491, 67),
  (119048, 1484, 66),
  (120482, 1473, 62),
  (121951, 1460, 62),
  (123457, 1448, 62),
  (125000, 1436, 63),
  (126582, 1422, 62)]

/-- materials/data/zinc_oxide.csv, lines 552-601 -/
def zincOxideRows11 : List (ℤ × ℤ × ℤ) := [
  (128205, 1408, 63),
  (129870, 1392, 62),
  (131579, 1375, 62),
  (133333, 1354, 64),
  (135135, 1335, 69),
  (136986, 1317, 71),
  (138889, 1296, 73),
  (140845, 1272, 73),
  (142857, 1246, 76),
  (144928, 1215, 75),
  (147059, 1183, 81),
  (149254, 1150, 83),
  (151515, 1109, 84),
  (153846, 1063, 86),
  (156250, 1004, 89),
  (158730, 936, 97),
  (161290, 859, 110),
  (163934, 765, 125),
  (166667, 631, 152),
  (169492, 462, 250),
  (172414, 331, 421),
  (175439, 258, 621),
  (178571, 235, 818),
  (181818, 236, 1001),
  (185185, 254, 1179),
  (188679, 286, 1350),
  (192308, 328, 1522),
  (196078, 384, 1693),
  (200000, 451, 1861),
  (204082, 521, 2026),
  (208333, 587, 2199),
  (212766, 644, 2400),
  (217391, 704, 2659),
  (222222, 797, 3017),
  (227273, 1021, 3510),
  (232558, 1509, 4071),
  (238095, 2434, 4628),
  (243902, 3940, 4458),
  (250000, 4884, 3404),
  (256410, 5090, 2304),
  (263158, 4985, 1505),
  (270270, 4644, 838),
  (277778, 4223, 533),
  (285714, 3910, 366),
  (294118, 3646, 301),
  (303030, 3484, 289),
  (312500, 3376, 256),
  (322581, 3283, 222),
  (333333, 3193, 182),
  (344828, 3105, 162)]

/-- materials/data/zinc_oxide.csv, lines 602-612 -/
def zincOxideRows12 : List (ℤ × ℤ × ℤ) := [
  (357143, 3036, 147),
  (370370, 2972, 133),
  (384615, 2915, 127),
  (400000, 2864, 127),
  (416667, 2830, 135),
  (434783, 2803, 132),
  (454545, 2775, 129),
  (476190, 2754, 124),
  (500000, 2725, 108),
  (526316, 2697, 109),
  (555556, 2664, 121)]

/-- materials/data/zinc_oxide.csv (611 rows), as scaled integers -/
def zincOxideRows : List (ℤ × ℤ × ℤ) :=
  [zincOxideRows0, zincOxideRows1, zincOxideRows2, zincOxideRows3, zincOxideRows4, zincOxideRows5, zincOxideRows6, zincOxideRows7, zincOxideRows8, zincOxideRows9, zincOxideRows10, zincOxideRows11, zincOxideRows12].flatten

/-- materials/data/zinc_oxide.csv -/
def zincOxideTable : List (MatRow ℚ) := mkTable 10000 1000 1000 zincOxideRows

/-- The content of the folder materials/data (file names and tables); glob may list it in any order. -/
def shippedFiles : List (String × List (MatRow ℚ)) :=
  [("aluminium_arsenide.csv", aluminiumArsenideTable),
   ("aluminium_nitride.csv", aluminiumNitrideTable),
   ("aluminium_oxide.csv", aluminiumOxideTable),
   ("gallium_arsenide.csv", galliumArsenideTable),
   ("germanium.csv", germaniumTable),
   ("indium_arsenide.csv", indiumArsenideTable),
   ("silicon_nitride.csv", siliconNitrideTable),
   ("tantalum_pentoxide.csv", tantalumPentoxideTable),
   ("titanium_oxide.csv", titaniumOxideTable),
   ("zinc_oxide.csv", zincOxideTable)]

end Nidn
