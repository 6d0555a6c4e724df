import Verif.Atmosphere.MsisRuns
import Mathlib.Data.Real.Basic
import Mathlib.Data.Rat.Cast.Order
import Mathlib.Tactic.NormNum
import Mathlib.Tactic.IntervalCases

/-
The tables of NRLMSISE-00 as compiled in (src/atmosphere/nrlmsise00_data.cpp), generated by script;
`(m, k)` stands for m / 10^k.
-/
namespace Verif.Atmosphere.Msis.Data

/-- `pma[0]` (src/atmosphere/nrlmsise00_data.cpp, array starting at line 49). -/
def pma0 : List (ℤ × ℕ) :=
  [(981637,6), (-141317,8), (387323,7), (0,0), (0,0), (0,0), (0,0), (0,0), (0,0), (-358707,7),
   (-863658,8), (0,0), (0,0), (-202226,5), (0,0), (-869424,8), (-191397,7), (876779,4),
   (452188,8), (0,0), (22376,6), (0,0), (0,0), (0,0), (0,0), (0,0), (-707572,8), (0,0), (0,0),
   (0,0), (-41121,7), (35006,3), (0,0), (0,0), (0,0), (0,0), (0,0), (-836657,8), (161347,4),
   (0,0), (0,0), (0,0), (0,0), (0,0), (0,0), (0,0), (0,0), (-14513,6), (0,0), (0,0), (0,0),
   (0,0), (0,0), (0,0), (0,0), (0,0), (0,0), (0,0), (0,0), (0,0), (0,0), (0,0), (0,0), (0,0),
   (124152,8), (643365,9), (0,0), (0,0), (0,0), (0,0), (0,0), (0,0), (0,0), (0,0), (133255,8),
   (242657,8), (160666,8), (-185728,8), (-146874,8), (-479163,11), (122464,5), (35351,3),
   (0,0), (449223,6), (-477466,4), (470681,6), (841861,5), (-288198,6), (167854,3), (0,0),
   (711493,9), (605601,9), (0,0), (0,0), (0,0), (0,0), (0,0), (0,0), (0,0), (2,0)]

/-- `pma[1]` (src/atmosphere/nrlmsise00_data.cpp, array starting at line 49). -/
def pma1 : List (ℤ × ℕ) :=
  [(100422,5), (-711212,8), (52448,7), (0,0), (0,0), (0,0), (0,0), (0,0), (0,0), (-528914,7),
   (-241301,7), (0,0), (0,0), (-212219,4), (-10383,6), (-328077,8), (165727,7), (168564,5),
   (-668154,8), (0,0), (145155,7), (0,0), (842365,8), (0,0), (0,0), (0,0), (-434645,8), (0,0),
   (0,0), (21678,6), (0,0), (-138459,3), (0,0), (0,0), (0,0), (0,0), (0,0), (704573,8),
   (-473204,4), (0,0), (0,0), (0,0), (0,0), (0,0), (0,0), (0,0), (0,0), (108767,7), (0,0),
   (0,0), (0,0), (0,0), (0,0), (0,0), (0,0), (0,0), (0,0), (0,0), (0,0), (-808279,8), (0,0),
   (0,0), (0,0), (0,0), (521769,9), (-227387,9), (0,0), (0,0), (0,0), (0,0), (0,0), (0,0),
   (0,0), (0,0), (326769,8), (316901,8), (460316,9), (-101431,9), (102131,8), (996601,9),
   (125707,5), (250114,4), (0,0), (424472,6), (-277655,4), (344625,6), (275412,4), (0,0),
   (794251,3), (0,0), (245835,8), (138871,8), (0,0), (0,0), (0,0), (0,0), (0,0), (0,0), (0,0),
   (2,0)]

/-- `pma[2]` (src/atmosphere/nrlmsise00_data.cpp, array starting at line 49). -/
def pma2 : List (ℤ × ℕ) :=
  [(10189,4), (-246603,7), (100078,7), (0,0), (0,0), (0,0), (0,0), (0,0), (0,0), (-670977,7),
   (-402286,7), (0,0), (0,0), (-229466,4), (-747019,8), (22658,7), (263931,7), (372625,4),
   (-639041,8), (0,0), (958383,8), (0,0), (0,0), (0,0), (0,0), (0,0), (-185291,8), (0,0),
   (0,0), (0,0), (0,0), (139717,3), (0,0), (0,0), (0,0), (0,0), (0,0), (919771,8),
   (-369121,3), (0,0), (0,0), (0,0), (0,0), (0,0), (0,0), (0,0), (0,0), (-157067,7), (0,0),
   (0,0), (0,0), (0,0), (0,0), (0,0), (0,0), (0,0), (0,0), (0,0), (0,0), (-707265,8), (0,0),
   (0,0), (0,0), (0,0), (-292953,8), (-277739,8), (-440092,9), (0,0), (0,0), (0,0), (0,0),
   (0,0), (0,0), (0,0), (24728,7), (295035,9), (-181246,8), (281945,8), (427296,8),
   (978863,9), (140545,5), (-619173,5), (0,0), (0,0), (-793632,4), (444643,6), (-403085,3),
   (0,0), (115603,4), (0,0), (225068,8), (848557,9), (-298493,9), (0,0), (0,0), (0,0), (0,0),
   (0,0), (0,0), (2,0)]

/-- `pma[3]` (src/atmosphere/nrlmsise00_data.cpp, array starting at line 49). -/
def pma3 : List (ℤ × ℕ) :=
  [(975801,6), (38068,6), (-305198,7), (0,0), (0,0), (0,0), (0,0), (0,0), (0,0), (385575,7),
   (504057,7), (0,0), (0,0), (-176046,3), (144594,7), (-148297,8), (-36856,7), (302185,4),
   (-323338,8), (0,0), (153569,7), (0,0), (-115558,7), (0,0), (0,0), (0,0), (48962,7), (0,0),
   (0,0), (-100616,7), (-821324,8), (-157757,3), (0,0), (0,0), (0,0), (0,0), (0,0),
   (663564,8), (45841,3), (0,0), (0,0), (0,0), (0,0), (0,0), (0,0), (0,0), (0,0), (-25128,6),
   (0,0), (0,0), (0,0), (0,0), (0,0), (0,0), (0,0), (0,0), (0,0), (0,0), (0,0), (991215,8),
   (0,0), (0,0), (0,0), (0,0), (-873148,9), (-129648,8), (-732026,10), (0,0), (0,0), (0,0),
   (0,0), (0,0), (0,0), (0,0), (-46811,7), (-466003,8), (-131567,8), (-73939,8), (632499,9),
   (-465588,9), (-129785,5), (-157139,3), (0,0), (25835,5), (-369453,4), (410672,6),
   (978196,5), (-152064,6), (-385084,2), (0,0), (-852706,9), (-140945,8), (-726786,9), (0,0),
   (0,0), (0,0), (0,0), (0,0), (0,0), (2,0)]

/-- `pma[4]` (src/atmosphere/nrlmsise00_data.cpp, array starting at line 49). -/
def pma4 : List (ℤ × ℕ) :=
  [(960722,6), (703757,7), (-300266,7), (0,0), (0,0), (0,0), (0,0), (0,0), (0,0), (222671,7),
   (410423,7), (0,0), (0,0), (-16307,2), (106073,7), (540747,9), (779481,8), (144908,3),
   (151484,9), (0,0), (197547,7), (0,0), (-141844,7), (0,0), (0,0), (0,0), (577884,8), (0,0),
   (0,0), (974319,8), (0,0), (-288015,2), (0,0), (0,0), (0,0), (0,0), (0,0), (-444902,8),
   (-29276,3), (0,0), (0,0), (0,0), (0,0), (0,0), (0,0), (0,0), (0,0), (234419,7), (0,0),
   (0,0), (0,0), (0,0), (0,0), (0,0), (0,0), (0,0), (0,0), (0,0), (0,0), (536685,8), (0,0),
   (0,0), (0,0), (0,0), (-465325,9), (-550628,9), (331465,9), (0,0), (0,0), (0,0), (0,0),
   (0,0), (0,0), (0,0), (-206179,8), (-308575,8), (-793589,9), (-108629,9), (595511,9),
   (-90505,8), (118997,5), (415924,4), (0,0), (-472064,6), (-94715,2), (398723,6), (198304,4),
   (0,0), (373219,2), (0,0), (-15004,7), (-114933,8), (-156769,9), (0,0), (0,0), (0,0), (0,0),
   (0,0), (0,0), (2,0)]

/-- `pma[5]` (src/atmosphere/nrlmsise00_data.cpp, array starting at line 49). -/
def pma5 : List (ℤ × ℕ) :=
  [(103123,5), (-705124,7), (871615,8), (0,0), (0,0), (0,0), (0,0), (0,0), (0,0), (-382621,7),
   (-980975,8), (0,0), (0,0), (289286,4), (957341,8), (0,0), (0,0), (866153,4), (791938,9),
   (0,0), (0,0), (0,0), (468917,8), (0,0), (0,0), (0,0), (786638,8), (0,0), (0,0), (990827,8),
   (0,0), (655573,4), (0,0), (0,0), (0,0), (0,0), (0,0), (0,0), (-4002,2), (0,0), (0,0),
   (0,0), (0,0), (0,0), (0,0), (0,0), (0,0), (707457,8), (0,0), (0,0), (0,0), (0,0), (0,0),
   (0,0), (0,0), (0,0), (0,0), (0,0), (0,0), (572268,8), (0,0), (0,0), (0,0), (0,0),
   (-20497,8), (12156,7), (-805579,11), (0,0), (0,0), (0,0), (0,0), (0,0), (0,0), (0,0),
   (-249941,8), (-457256,9), (-159311,9), (296481,9), (-177318,8), (-637918,9), (102395,5),
   (128172,4), (0,0), (149903,6), (-263818,4), (0,0), (470628,4), (-222139,6), (482292,7),
   (0,0), (-867075,9), (-586479,9), (532462,9), (0,0), (0,0), (0,0), (0,0), (0,0), (0,0),
   (2,0)]

/-- `pma[6]` (src/atmosphere/nrlmsise00_data.cpp, array starting at line 49). -/
def pma6 : List (ℤ × ℕ) :=
  [(100828,5), (-910404,7), (-226549,7), (0,0), (0,0), (0,0), (0,0), (0,0), (0,0), (-23242,6),
   (-908925,8), (0,0), (0,0), (336105,4), (0,0), (0,0), (0,0), (-124957,4), (-587939,8),
   (0,0), (0,0), (0,0), (0,0), (0,0), (0,0), (0,0), (0,0), (0,0), (0,0), (0,0), (0,0),
   (279765,4), (0,0), (0,0), (0,0), (0,0), (0,0), (0,0), (201237,2), (0,0), (0,0), (0,0),
   (0,0), (0,0), (0,0), (0,0), (0,0), (-175553,7), (0,0), (0,0), (0,0), (0,0), (0,0), (0,0),
   (0,0), (0,0), (0,0), (0,0), (0,0), (0,0), (0,0), (0,0), (0,0), (0,0), (329699,8),
   (126659,8), (268402,9), (0,0), (0,0), (0,0), (0,0), (0,0), (0,0), (0,0), (117894,8),
   (148746,8), (106478,9), (134743,9), (-220939,8), (-623523,9), (636539,6), (113621,4),
   (0,0), (-393777,6), (238687,2), (0,0), (661865,3), (-121434,6), (927608,5), (0,0),
   (168478,9), (124892,8), (171345,8), (0,0), (0,0), (0,0), (0,0), (0,0), (0,0), (2,0)]

/-- `pma[7]` (src/atmosphere/nrlmsise00_data.cpp, array starting at line 49). -/
def pma7 : List (ℤ × ℕ) :=
  [(157293,5), (-6784,4), (6475,4), (0,0), (0,0), (0,0), (0,0), (0,0), (0,0), (-762974,7),
   (-360423,6), (0,0), (0,0), (128358,3), (0,0), (0,0), (0,0), (468038,4), (0,0), (0,0),
   (0,0), (0,0), (0,0), (0,0), (0,0), (0,0), (-167898,6), (0,0), (0,0), (0,0), (0,0),
   (290994,1), (0,0), (0,0), (0,0), (0,0), (0,0), (0,0), (315706,4), (0,0), (0,0), (0,0),
   (0,0), (0,0), (0,0), (0,0), (0,0), (0,0), (0,0), (0,0), (0,0), (0,0), (0,0), (0,0), (0,0),
   (0,0), (0,0), (0,0), (0,0), (0,0), (0,0), (0,0), (0,0), (0,0), (0,0), (0,0), (0,0), (0,0),
   (0,0), (0,0), (0,0), (0,0), (0,0), (0,0), (0,0), (0,0), (0,0), (0,0), (0,0), (0,0), (0,0),
   (0,0), (0,0), (0,0), (0,0), (0,0), (0,0), (0,0), (0,0), (0,0), (0,0), (0,0), (0,0), (0,0),
   (0,0), (0,0), (0,0), (0,0), (0,0), (2,0)]

/-- `pma[8]` (src/atmosphere/nrlmsise00_data.cpp, array starting at line 49). -/
def pma8 : List (ℤ × ℕ) :=
  [(860028,6), (377052,6), (0,0), (0,0), (0,0), (0,0), (0,0), (0,0), (0,0), (-11757,4), (0,0),
   (0,0), (0,0), (777757,8), (0,0), (0,0), (0,0), (101024,3), (0,0), (0,0), (0,0), (0,0),
   (0,0), (0,0), (0,0), (0,0), (0,0), (0,0), (0,0), (0,0), (0,0), (654251,3), (0,0), (0,0),
   (0,0), (0,0), (0,0), (0,0), (0,0), (0,0), (0,0), (0,0), (0,0), (0,0), (0,0), (0,0), (0,0),
   (0,0), (0,0), (0,0), (0,0), (0,0), (0,0), (0,0), (0,0), (0,0), (0,0), (0,0), (0,0), (0,0),
   (0,0), (0,0), (0,0), (0,0), (0,0), (0,0), (0,0), (0,0), (0,0), (0,0), (0,0), (0,0), (0,0),
   (0,0), (-156959,7), (191001,7), (315971,7), (100982,7), (-671565,8), (257693,8),
   (138692,5), (282132,6), (0,0), (0,0), (381511,3), (0,0), (0,0), (0,0), (0,0), (0,0), (0,0),
   (0,0), (0,0), (0,0), (0,0), (0,0), (0,0), (0,0), (0,0), (2,0)]

/-- `pma[9]` (src/atmosphere/nrlmsise00_data.cpp, array starting at line 49). -/
def pma9 : List (ℤ × ℕ) :=
  [(106029,5), (-525231,7), (373034,6), (0,0), (0,0), (0,0), (0,0), (0,0), (0,0), (331072,7),
   (-388409,6), (0,0), (0,0), (-165295,3), (-213801,6), (-438916,7), (-322716,6), (-882393,4),
   (118458,6), (0,0), (-435863,6), (0,0), (0,0), (0,0), (0,0), (0,0), (-119782,6), (0,0),
   (0,0), (0,0), (0,0), (262229,4), (0,0), (0,0), (0,0), (0,0), (0,0), (0,0), (-537443,4),
   (0,0), (0,0), (0,0), (0,0), (0,0), (0,0), (0,0), (0,0), (-455788,6), (0,0), (0,0), (0,0),
   (0,0), (0,0), (0,0), (0,0), (0,0), (0,0), (0,0), (0,0), (0,0), (0,0), (0,0), (0,0), (0,0),
   (384009,7), (396733,7), (0,0), (0,0), (0,0), (0,0), (0,0), (0,0), (0,0), (0,0), (505494,7),
   (739617,7), (1922,5), (-846151,8), (-134244,7), (196338,7), (150421,5), (188368,4), (0,0),
   (0,0), (-513114,4), (0,0), (0,0), (0,0), (0,0), (0,0), (511923,7), (361225,7), (0,0),
   (0,0), (0,0), (0,0), (0,0), (0,0), (0,0), (2,0)]

/-- `pd[0]` (src/atmosphere/nrlmsise00_data.cpp, array starting at line 261). -/
def pd0 : List (ℤ × ℕ) :=
  [(109979,5), (-48806,6), (-197501,6), (-91028,6), (-696558,8), (242136,7), (391333,6),
   (-720068,8), (-322718,7), (141508,5), (168194,6), (185282,7), (109384,6), (-724282,5),
   (0,0), (296377,6), (-49721,6), (104114,3), (-861108,7), (-729177,9), (148998,11),
   (108629,8), (0,0), (0,0), (83109,6), (112818,6), (-575005,7), (-129919,7), (-178849,7),
   (-286343,11), (0,0), (-151187,3), (-665902,8), (0,0), (-202069,8), (0,0), (0,0),
   (432264,7), (-280444,4), (-326789,8), (247461,8), (0,0), (0,0), (9821,5), (122714,6),
   (-39645,6), (0,0), (-276489,8), (0,0), (187723,8), (-809813,8), (434428,10), (-770932,8),
   (0,0), (-228894,8), (-56907,7), (-522193,8), (600692,8), (-780434,2), (-348336,8),
   (-638362,8), (-18219,7), (0,0), (-758976,4), (-217875,7), (-172524,7), (-906287,8), (0,0),
   (244725,7), (86604,6), (105712,6), (302543,1), (0,0), (0,0), (0,0), (-601364,2),
   (-564668,8), (-254157,8), (0,0), (315611,3), (-569158,8), (0,0), (0,0), (-447216,8),
   (-449523,8), (464428,8), (0,0), (0,0), (0,0), (0,0), (451236,7), (24652,6), (617794,8),
   (0,0), (0,0), (-362944,6), (-480022,7), (-75723,3), (-199656,8), (0,0), (-51878,7),
   (-17399,6), (-903485,8), (748465,8), (153267,7), (106296,7), (118655,7), (255569,8),
   (16902,7), (351936,7), (-181242,7), (0,0), (-100529,6), (-510574,8), (0,0), (210228,8),
   (0,0), (0,0), (-173255,3), (507833,6), (-241408,6), (875414,8), (277527,8), (-890353,10),
   (-525148,5), (-583899,8), (-209122,7), (-96353,7), (977164,8), (407051,8), (253555,9),
   (-552875,5), (-355993,6), (-249231,8), (0,0), (0,0), (286026,4), (0,0), (342722,9), (0,0),
   (0,0), (0,0), (0,0), (0,0), (0,0), (0,0), (0,0), (0,0), (0,0), (0,0)]

/-- `pd[1]` (src/atmosphere/nrlmsise00_data.cpp, array starting at line 261). -/
def pd1 : List (ℤ × ℕ) :=
  [(102315,5), (-15971,5), (-10663,5), (-177074,7), (-442726,8), (344803,7), (445613,7),
   (-333751,7), (-573598,7), (35036,5), (633053,7), (216221,7), (542577,7), (-574193,5),
   (0,0), (190891,6), (-139194,7), (101102,3), (816363,7), (133717,9), (654403,11),
   (310295,8), (0,0), (0,0), (538205,7), (12391,5), (-139831,7), (0,0), (0,0), (-395915,11),
   (0,0), (-714651,6), (-501027,8), (0,0), (-324756,8), (0,0), (0,0), (442173,7), (-131598,4),
   (-315626,8), (124574,8), (-147626,8), (-155461,8), (640682,7), (134898,6), (-242415,7),
   (0,0), (0,0), (0,0), (613666,9), (-540373,8), (261635,10), (-333012,8), (0,0), (-308101,8),
   (-242679,8), (-336086,8), (0,0), (-118979,2), (-504738,7), (-261547,8), (-103132,8),
   (191583,9), (-838132,4), (-140517,7), (-114167,7), (-408012,8), (173522,9), (-139644,7),
   (-664128,7), (-685152,7), (-134414,1), (0,0), (0,0), (0,0), (607916,3), (-41222,7),
   (-220996,8), (0,0), (170277,2), (-463015,8), (0,0), (0,0), (-22536,7), (-296204,8), (0,0),
   (0,0), (0,0), (0,0), (0,0), (392786,7), (131186,7), (-178086,8), (0,0), (0,0), (-390083,6),
   (-284741,7), (-7784,2), (-102601,8), (0,0), (-726485,9), (-542181,8), (-559305,8),
   (122825,7), (123868,7), (668835,8), (-103303,7), (-951903,8), (270021,9), (-257084,7),
   (-13243,6), (0,0), (-381,4), (-31681,7), (0,0), (0,0), (0,0), (0,0), (0,0), (0,0), (0,0),
   (-905762,9), (-21459,7), (-117824,8), (366732,5), (-379729,9), (-613966,8), (-509082,8),
   (-196332,8), (-30828,7), (-975222,9), (403315,5), (-25271,5), (0,0), (0,0), (0,0), (0,0),
   (0,0), (0,0), (0,0), (0,0), (0,0), (0,0), (0,0), (0,0), (0,0), (0,0), (0,0), (0,0), (0,0)]

/-- `pd[2]` (src/atmosphere/nrlmsise00_data.cpp, array starting at line 261). -/
def pd2 : List (ℤ × ℕ) :=
  [(116112,5), (0,0), (0,0), (333725,7), (0,0), (348637,7), (-544368,8), (0,0), (-67394,6),
   (174754,6), (0,0), (0,0), (0,0), (174712,3), (0,0), (126733,6), (0,0), (103154,3),
   (552075,7), (0,0), (0,0), (813525,9), (0,0), (0,0), (866784,7), (158727,6), (0,0), (0,0),
   (0,0), (0,0), (0,0), (-250482,4), (0,0), (0,0), (0,0), (0,0), (0,0), (0,0), (0,0),
   (-248894,8), (616053,9), (-579716,9), (295482,8), (847001,7), (170147,6), (0,0), (0,0),
   (0,0), (0,0), (0,0), (0,0), (247425,10), (0,0), (0,0), (0,0), (0,0), (0,0), (0,0), (0,0),
   (0,0), (0,0), (0,0), (0,0), (0,0), (0,0), (0,0), (0,0), (0,0), (0,0), (0,0), (0,0), (0,0),
   (0,0), (0,0), (0,0), (0,0), (0,0), (0,0), (0,0), (0,0), (0,0), (0,0), (0,0), (0,0), (0,0),
   (0,0), (0,0), (0,0), (0,0), (0,0), (0,0), (0,0), (0,0), (0,0), (0,0), (0,0), (0,0), (0,0),
   (0,0), (0,0), (0,0), (0,0), (0,0), (0,0), (0,0), (0,0), (0,0), (0,0), (0,0), (0,0), (0,0),
   (0,0), (0,0), (0,0), (0,0), (0,0), (0,0), (0,0), (0,0), (0,0), (0,0), (0,0), (0,0), (0,0),
   (0,0), (0,0), (0,0), (0,0), (0,0), (0,0), (0,0), (0,0), (0,0), (0,0), (0,0), (0,0), (0,0),
   (0,0), (0,0), (0,0), (0,0), (0,0), (0,0), (0,0), (0,0), (0,0), (0,0), (0,0), (0,0), (0,0)]

/-- `pd[3]` (src/atmosphere/nrlmsise00_data.cpp, array starting at line 261). -/
def pd3 : List (ℤ × ℕ) :=
  [(944846,6), (0,0), (0,0), (-308617,7), (0,0), (-244019,7), (648607,8), (0,0), (308181,7),
   (459392,7), (0,0), (0,0), (0,0), (174712,3), (0,0), (21326,6), (0,0), (-356958,3), (0,0),
   (182278,9), (0,0), (307472,9), (0,0), (0,0), (866784,7), (158727,6), (0,0), (0,0), (0,0),
   (0,0), (0,0), (0,0), (383054,8), (0,0), (0,0), (-193065,8), (-14509,7), (0,0), (0,0),
   (0,0), (0,0), (-123493,8), (136736,8), (847001,7), (170147,6), (371469,8), (0,0), (0,0),
   (0,0), (0,0), (51025,7), (247425,10), (0,0), (0,0), (0,0), (0,0), (0,0), (0,0), (0,0),
   (0,0), (0,0), (0,0), (0,0), (0,0), (0,0), (0,0), (0,0), (0,0), (0,0), (0,0), (0,0), (0,0),
   (0,0), (0,0), (0,0), (0,0), (0,0), (0,0), (0,0), (0,0), (0,0), (0,0), (0,0), (0,0), (0,0),
   (0,0), (0,0), (0,0), (0,0), (0,0), (0,0), (0,0), (0,0), (0,0), (0,0), (0,0), (368756,8),
   (0,0), (0,0), (0,0), (0,0), (0,0), (0,0), (0,0), (0,0), (0,0), (0,0), (0,0), (0,0), (0,0),
   (0,0), (0,0), (0,0), (0,0), (0,0), (0,0), (0,0), (0,0), (0,0), (0,0), (0,0), (0,0), (0,0),
   (0,0), (0,0), (0,0), (0,0), (0,0), (0,0), (0,0), (0,0), (0,0), (0,0), (0,0), (0,0), (0,0),
   (0,0), (0,0), (0,0), (0,0), (0,0), (0,0), (0,0), (0,0), (0,0), (0,0), (0,0), (0,0), (0,0),
   (0,0)]

/-- `pd[4]` (src/atmosphere/nrlmsise00_data.cpp, array starting at line 261). -/
def pd4 : List (ℤ × ℕ) :=
  [(13558,4), (144816,6), (0,0), (607767,7), (0,0), (294777,7), (7469,5), (0,0), (-923822,7),
   (857342,7), (0,0), (0,0), (0,0), (238636,4), (0,0), (771653,7), (0,0), (818751,4),
   (187736,7), (0,0), (0,0), (149667,7), (0,0), (0,0), (866784,7), (158727,6), (0,0), (0,0),
   (0,0), (0,0), (0,0), (-367874,3), (548158,8), (0,0), (0,0), (0,0), (0,0), (0,0), (0,0),
   (0,0), (0,0), (0,0), (0,0), (847001,7), (170147,6), (122631,7), (0,0), (0,0), (0,0), (0,0),
   (817187,8), (371617,10), (0,0), (0,0), (0,0), (0,0), (0,0), (0,0), (0,0), (0,0), (0,0),
   (0,0), (0,0), (0,0), (-210826,8), (-31364,7), (0,0), (0,0), (0,0), (0,0), (0,0), (0,0),
   (0,0), (0,0), (0,0), (0,0), (0,0), (0,0), (0,0), (0,0), (0,0), (0,0), (0,0), (0,0), (0,0),
   (0,0), (0,0), (0,0), (0,0), (0,0), (-735742,7), (-500266,7), (0,0), (0,0), (0,0), (0,0),
   (194965,7), (0,0), (0,0), (0,0), (0,0), (0,0), (0,0), (0,0), (0,0), (0,0), (0,0), (0,0),
   (0,0), (0,0), (0,0), (0,0), (0,0), (0,0), (0,0), (0,0), (0,0), (0,0), (0,0), (0,0), (0,0),
   (0,0), (0,0), (0,0), (0,0), (0,0), (0,0), (0,0), (0,0), (0,0), (0,0), (0,0), (0,0), (0,0),
   (0,0), (0,0), (0,0), (0,0), (0,0), (0,0), (0,0), (0,0), (0,0), (0,0), (0,0), (0,0), (0,0),
   (0,0), (0,0), (0,0)]

/-- `pd[5]` (src/atmosphere/nrlmsise00_data.cpp, array starting at line 261). -/
def pd5 : List (ℤ × ℕ) :=
  [(104761,5), (200165,6), (237697,6), (368552,7), (0,0), (357202,7), (-214075,6), (0,0),
   (-108018,6), (-373981,6), (0,0), (310022,7), (-116305,8), (-207596,4), (0,0), (864502,7),
   (0,0), (974908,4), (516707,7), (0,0), (0,0), (0,0), (0,0), (0,0), (866784,7), (158727,6),
   (0,0), (0,0), (0,0), (0,0), (0,0), (346193,3), (134297,7), (0,0), (0,0), (0,0), (0,0),
   (0,0), (0,0), (-348509,8), (-154689,9), (0,0), (0,0), (847001,7), (170147,6), (147753,7),
   (0,0), (0,0), (0,0), (0,0), (18932,6), (368181,10), (13257,6), (0,0), (0,0), (359719,8),
   (744328,8), (-100023,8), (-650528,2), (0,0), (103485,7), (-100983,8), (-406916,8),
   (-660864,4), (-171533,7), (110605,7), (1203,5), (-520034,8), (0,0), (0,0), (0,0), (0,0),
   (0,0), (0,0), (0,0), (-262769,2), (713755,8), (417999,8), (0,0), (12591,0), (0,0), (0,0),
   (0,0), (-223595,8), (460217,8), (571794,8), (0,0), (0,0), (0,0), (0,0), (-318353,7),
   (-235526,7), (-136189,7), (0,0), (0,0), (0,0), (203522,7), (-667837,4), (-109724,8), (0,0),
   (-138821,7), (160468,7), (0,0), (0,0), (0,0), (0,0), (0,0), (0,0), (0,0), (151574,7),
   (-54447,8), (0,0), (728224,7), (659413,7), (0,0), (-515692,8), (0,0), (0,0), (-370367,2),
   (0,0), (0,0), (136131,7), (538153,8), (0,0), (476285,5), (-175677,7), (226301,7), (0,0),
   (176631,7), (477162,8), (0,0), (539354,5), (0,0), (-75171,7), (0,0), (0,0), (-882736,4),
   (0,0), (0,0), (0,0), (0,0), (0,0), (0,0), (0,0), (0,0), (0,0), (0,0), (0,0), (0,0), (0,0)]

/-- `pd[6]` (src/atmosphere/nrlmsise00_data.cpp, array starting at line 261). -/
def pd6 : List (ℤ × ℕ) :=
  [(126376,5), (-214304,6), (-149984,6), (230404,6), (298237,7), (268673,7), (296228,6),
   (2219,5), (-207655,7), (452506,6), (120105,6), (32442,6), (424816,7), (-914313,5), (0,0),
   (247178,7), (-288229,7), (812805,4), (51038,6), (-580611,8), (251236,10), (-124083,7),
   (0,0), (0,0), (866784,7), (158727,6), (-34819,6), (0,0), (0,0), (289885,10), (0,0),
   (153595,3), (-168604,7), (0,0), (101015,7), (0,0), (0,0), (0,0), (0,0), (284552,9),
   (-122181,8), (0,0), (0,0), (847001,7), (170147,6), (-104927,7), (0,0), (0,0), (0,0),
   (-591313,8), (-230501,7), (314758,10), (0,0), (0,0), (126956,7), (835489,8), (310513,9),
   (0,0), (342119,2), (-245017,8), (-427154,9), (545152,9), (189896,8), (289121,4),
   (-649973,8), (-193855,7), (-148492,7), (0,0), (-510576,7), (787306,7), (951981,7),
   (-149422,1), (0,0), (0,0), (0,0), (265503,3), (0,0), (0,0), (0,0), (0,0), (0,0), (0,0),
   (0,0), (63711,7), (324789,9), (0,0), (0,0), (0,0), (0,0), (0,0), (614274,7), (100376,7),
   (-841083,9), (0,0), (0,0), (0,0), (-127099,7), (0,0), (0,0), (0,0), (-394077,8),
   (-128601,7), (-797616,8), (0,0), (0,0), (0,0), (0,0), (0,0), (0,0), (0,0), (0,0), (0,0),
   (0,0), (0,0), (0,0), (0,0), (0,0), (0,0), (0,0), (0,0), (0,0), (-671465,8), (-169799,8),
   (193772,8), (38114,4), (-77929,7), (-182589,7), (-12586,6), (-104311,7), (-302465,8),
   (243063,8), (363237,5), (0,0), (0,0), (0,0), (0,0), (0,0), (0,0), (0,0), (0,0), (0,0),
   (0,0), (0,0), (0,0), (0,0), (0,0), (0,0), (0,0), (0,0), (0,0)]

/-- `pd[7]` (src/atmosphere/nrlmsise00_data.cpp, array starting at line 261). -/
def pd7 : List (ℤ × ℕ) :=
  [(709557,4), (-32674,5), (0,0), (-516829,6), (-171664,8), (90931,6), (-6715,4), (-147771,6),
   (-927471,7), (-230862,6), (-15641,5), (134455,7), (-119717,6), (252151,5), (0,0),
   (-241582,6), (592939,7), (439756,5), (91528,6), (441292,8), (0,0), (866807,8), (0,0),
   (0,0), (866784,7), (158727,6), (974701,7), (0,0), (0,0), (0,0), (0,0), (670217,4),
   (-13166,7), (0,0), (-165317,7), (0,0), (0,0), (850247,7), (277428,4), (498658,8),
   (615115,8), (950156,8), (-212723,7), (847001,7), (170147,6), (-238645,7), (0,0), (0,0),
   (0,0), (13738,7), (-841918,8), (280145,10), (712383,8), (0,0), (-166209,7), (103533,9),
   (-168898,7), (0,0), (364526,2), (0,0), (654077,8), (36913,8), (994419,9), (842803,4),
   (-116124,7), (-774414,8), (-168844,8), (142809,8), (-192955,8), (117225,6), (-241512,7),
   (150521,1), (0,0), (0,0), (0,0), (160261,2), (0,0), (0,0), (0,0), (0,0), (0,0), (0,0),
   (0,0), (-354403,9), (-18727,6), (0,0), (0,0), (0,0), (0,0), (0,0), (276439,7), (643207,8),
   (-3543,5), (0,0), (0,0), (0,0), (-280221,7), (811228,4), (-675255,9), (0,0), (-105162,7),
   (-348292,8), (-697321,8), (0,0), (0,0), (0,0), (0,0), (0,0), (0,0), (0,0), (0,0), (0,0),
   (0,0), (0,0), (0,0), (0,0), (0,0), (0,0), (0,0), (0,0), (0,0), (-145546,8), (-13197,6),
   (-357751,8), (-109021,5), (-150181,7), (-712841,8), (-66459,7), (-35261,7), (-187773,7),
   (-222432,8), (-393895,6), (0,0), (0,0), (0,0), (0,0), (0,0), (0,0), (0,0), (0,0), (0,0),
   (0,0), (0,0), (0,0), (0,0), (0,0), (0,0), (0,0), (0,0), (0,0)]

/-- `pd[8]` (src/atmosphere/nrlmsise00_data.cpp, array starting at line 261). -/
def pd8 : List (ℤ × ℕ) :=
  [(60405,6), (157034,5), (299387,7), (0,0), (0,0), (0,0), (0,0), (0,0), (0,0), (-151018,5),
   (0,0), (0,0), (0,0), (-86165,4), (126454,7), (0,0), (0,0), (0,0), (0,0), (0,0), (0,0),
   (550878,8), (0,0), (0,0), (866784,7), (158727,6), (0,0), (0,0), (0,0), (0,0), (0,0), (0,0),
   (623881,7), (0,0), (0,0), (0,0), (0,0), (0,0), (0,0), (0,0), (0,0), (0,0), (0,0),
   (847001,7), (170147,6), (-945934,7), (0,0), (0,0), (0,0), (0,0), (0,0), (0,0), (0,0),
   (0,0), (0,0), (0,0), (0,0), (0,0), (0,0), (0,0), (0,0), (0,0), (0,0), (0,0), (0,0), (0,0),
   (0,0), (0,0), (0,0), (0,0), (0,0), (0,0), (0,0), (0,0), (0,0), (0,0), (0,0), (0,0), (0,0),
   (0,0), (0,0), (0,0), (0,0), (0,0), (0,0), (0,0), (0,0), (0,0), (0,0), (0,0), (0,0), (0,0),
   (0,0), (0,0), (0,0), (0,0), (0,0), (0,0), (0,0), (0,0), (0,0), (0,0), (0,0), (0,0), (0,0),
   (0,0), (0,0), (0,0), (0,0), (0,0), (0,0), (0,0), (0,0), (0,0), (0,0), (0,0), (0,0), (0,0),
   (0,0), (0,0), (0,0), (0,0), (0,0), (0,0), (0,0), (0,0), (0,0), (0,0), (0,0), (0,0), (0,0),
   (0,0), (0,0), (0,0), (0,0), (0,0), (0,0), (0,0), (0,0), (0,0), (0,0), (0,0), (0,0), (0,0),
   (0,0), (0,0), (0,0), (0,0), (0,0), (0,0)]

/-- `ptl[0]` (src/atmosphere/nrlmsise00_data.cpp, array starting at line 542). -/
def ptl0 : List (ℤ × ℕ) :=
  [(100858,5), (456011,7), (-222972,7), (-544388,7), (523136,9), (-188849,7), (523707,7),
   (-943646,8), (631707,8), (-78046,6), (-48843,6), (0,0), (0,0), (-76025,4), (0,0),
   (-144635,7), (-176843,7), (-121517,3), (285647,7), (0,0), (0,0), (631792,9), (0,0),
   (577197,8), (866784,7), (158727,6), (0,0), (0,0), (0,0), (0,0), (0,0), (-890272,2),
   (330611,8), (302172,8), (0,0), (-213673,8), (-32091,8), (0,0), (0,0), (276034,8),
   (282487,8), (-297592,9), (-421534,8), (847001,7), (170147,6), (896456,8), (0,0),
   (-108596,7), (0,0), (0,0), (557917,8), (0,0), (0,0), (0,0), (0,0), (0,0), (0,0), (0,0),
   (0,0), (0,0), (0,0), (0,0), (0,0), (0,0), (0,0), (0,0), (0,0), (0,0), (0,0), (0,0), (0,0),
   (0,0), (0,0), (0,0), (0,0), (0,0), (0,0), (0,0), (0,0), (0,0), (0,0), (0,0), (0,0), (0,0),
   (0,0), (0,0), (0,0), (0,0), (0,0), (0,0), (0,0), (0,0), (0,0), (0,0), (0,0), (0,0),
   (965405,8), (0,0), (0,0), (2,0)]

/-- `ptl[1]` (src/atmosphere/nrlmsise00_data.cpp, array starting at line 542). -/
def ptl1 : List (ℤ × ℕ) :=
  [(939664,6), (856514,7), (-679989,8), (265929,7), (-474283,8), (121855,7), (-214905,7),
   (649651,8), (-205477,7), (-424952,7), (0,0), (0,0), (0,0), (119148,4), (0,0), (118777,7),
   (-72823,6), (-815965,4), (173887,7), (0,0), (0,0), (0,0), (-144691,7), (280259,9),
   (866784,7), (158727,6), (0,0), (0,0), (0,0), (0,0), (0,0), (216584,3), (318713,8),
   (737479,8), (0,0), (-255018,8), (-392806,8), (0,0), (0,0), (-289757,8), (-133549,8),
   (102661,8), (353775,9), (847001,7), (170147,6), (-917497,8), (0,0), (0,0), (0,0), (0,0),
   (356082,8), (0,0), (0,0), (0,0), (0,0), (0,0), (0,0), (0,0), (0,0), (0,0), (0,0), (0,0),
   (0,0), (0,0), (0,0), (0,0), (0,0), (0,0), (0,0), (0,0), (0,0), (0,0), (0,0), (0,0), (0,0),
   (0,0), (0,0), (0,0), (0,0), (0,0), (0,0), (0,0), (0,0), (0,0), (0,0), (0,0), (0,0), (0,0),
   (0,0), (0,0), (0,0), (0,0), (0,0), (0,0), (0,0), (0,0), (-100902,7), (0,0), (0,0), (2,0)]

/-- `ptl[2]` (src/atmosphere/nrlmsise00_data.cpp, array starting at line 542). -/
def ptl2 : List (ℤ × ℕ) :=
  [(985982,6), (-455435,7), (121106,7), (204127,7), (-240836,8), (111383,7), (-451926,7),
   (135074,7), (-654139,8), (115275,6), (128247,6), (0,0), (0,0), (-530705,5), (0,0),
   (-379332,7), (-624741,7), (771062,6), (296315,7), (0,0), (0,0), (0,0), (681051,8),
   (-434767,8), (866784,7), (158727,6), (0,0), (0,0), (0,0), (0,0), (0,0), (107003,4),
   (-276907,8), (432474,9), (0,0), (131497,8), (-647517,9), (0,0), (-220621,4), (-110804,8),
   (-809338,9), (418184,9), (42965,7), (847001,7), (170147,6), (0,0), (0,0), (0,0), (0,0),
   (0,0), (-404337,8), (0,0), (0,0), (0,0), (0,0), (0,0), (0,0), (0,0), (0,0), (0,0), (0,0),
   (0,0), (0,0), (0,0), (-95255,8), (856253,9), (433114,9), (0,0), (0,0), (0,0), (0,0), (0,0),
   (0,0), (0,0), (121223,8), (238694,9), (915245,9), (128385,8), (867668,9), (-561425,11),
   (104445,5), (341112,4), (0,0), (-840704,6), (-239639,3), (706668,6), (-205873,4),
   (-363696,6), (239245,4), (0,0), (-106657,8), (-767292,9), (154534,9), (0,0), (0,0), (0,0),
   (0,0), (0,0), (0,0), (2,0)]

/-- `ptl[3]` (src/atmosphere/nrlmsise00_data.cpp, array starting at line 542). -/
def ptl3 : List (ℤ × ℕ) :=
  [(10032,4), (383501,7), (-238983,8), (28395,7), (420956,8), (586619,9), (219054,7),
   (-100946,7), (-350259,8), (417392,7), (-844404,8), (0,0), (0,0), (496949,5), (0,0),
   (-706478,8), (-146494,7), (313258,4), (-186493,8), (0,0), (-167499,7), (0,0), (0,0),
   (512686,9), (866784,7), (158727,6), (-464167,8), (0,0), (0,0), (0,0), (437353,8),
   (-199069,3), (0,0), (-534884,8), (0,0), (162458,8), (293016,8), (267926,8), (590449,3),
   (0,0), (0,0), (-117266,8), (-35889,8), (847001,7), (170147,6), (0,0), (0,0), (138673,7),
   (0,0), (0,0), (0,0), (0,0), (0,0), (0,0), (0,0), (0,0), (0,0), (0,0), (0,0), (0,0), (0,0),
   (0,0), (0,0), (0,0), (160571,8), (628078,9), (505469,10), (0,0), (0,0), (0,0), (0,0),
   (0,0), (0,0), (0,0), (-157829,8), (-400855,9), (504077,10), (-139001,8), (-233406,8),
   (-481197,9), (146758,5), (620332,5), (0,0), (366476,6), (-61976,3), (309198,6),
   (-198999,4), (0,0), (-329933,3), (0,0), (-11008,7), (-93931,9), (139638,9), (0,0), (0,0),
   (0,0), (0,0), (0,0), (0,0), (2,0)]

/-- `pdl[0]` (src/atmosphere/nrlmsise00_data.cpp, array starting at line 634). -/
def pdl0 : List (ℤ × ℕ) :=
  [(10993,4), (390631,5), (307165,5), (986161,6), (163536,4), (46383,4), (1,0), (0,0), (0,0),
   (0,0), (0,0), (0,0), (0,0), (0,0), (0,0), (0,0), (0,0), (0,0), (0,0), (0,0), (0,0), (0,0),
   (12884,4), (310302,7), (118339,6)]

/-- `pdl[1]` (src/atmosphere/nrlmsise00_data.cpp, array starting at line 634). -/
def pdl1 : List (ℤ × ℕ) :=
  [(1,0), (7,1), (11502,4), (344689,5), (12884,4), (1,0), (108738,5), (122947,5), (110016,5),
   (734129,6), (115241,5), (222784,5), (795046,6), (401612,5), (447749,5), (123435,3),
   (-760535,7), (168986,11), (744294,6), (103604,5), (172783,3), (11502,4), (344689,5),
   (-74623,5), (949154,6)]

/-- `pt` (src/atmosphere/nrlmsise00_data.cpp, array starting at line 648). -/
def pt : List (ℤ × ℕ) :=
  [(986573,6), (162228,7), (15527,6), (-104323,6), (-375801,8), (-118538,8), (-124043,6),
   (45682,7), (876018,8), (-136235,6), (-352427,7), (884181,8), (-592127,8), (-86165,4),
   (0,0), (128492,7), (0,0), (130096,3), (104567,7), (165686,8), (-553887,11), (29781,7),
   (0,0), (513122,8), (866784,7), (158727,6), (0,0), (0,0), (0,0), (-727026,11), (0,0),
   (674494,5), (493933,8), (221656,8), (250802,8), (0,0), (0,0), (-208841,7), (-179873,5),
   (145103,8), (281769,9), (-144703,8), (-516394,10), (847001,7), (170147,6), (572562,8),
   (507493,10), (436148,8), (117863,9), (474364,8), (661278,8), (434292,10), (144373,8),
   (24147,9), (284426,8), (85656,8), (204028,8), (0,0), (-315994,2), (-246423,8), (113843,8),
   (420512,9), (0,0), (-977214,4), (677794,8), (527499,8), (114936,8), (0,0), (-661311,8),
   (-184255,7), (-196259,7), (298618,1), (0,0), (0,0), (0,0), (644574,3), (884668,9),
   (505066,9), (0,0), (402881,2), (-189503,8), (0,0), (0,0), (821407,9), (20678,7), (0,0),
   (0,0), (0,0), (0,0), (0,0), (-12041,6), (-363963,8), (99207,9), (-115284,9), (-633059,10),
   (-605545,6), (834218,8), (-913036,4), (371042,9), (0,0), (419,6), (270928,8), (331507,8),
   (-444508,8), (-496334,8), (-160449,8), (395119,8), (248924,8), (509815,9), (405302,8),
   (224076,8), (0,0), (684256,8), (466354,9), (0,0), (-368328,9), (0,0), (0,0), (-14687,2),
   (0,0), (0,0), (109501,8), (465156,9), (562583,9), (321596,5), (643168,9), (31486,7),
   (340738,8), (178481,8), (962532,9), (558171,9), (343731,5), (-233195,6), (510289,9), (0,0),
   (0,0), (-925347,1), (0,0), (-199639,8), (0,0), (0,0), (0,0), (0,0), (0,0), (0,0), (0,0),
   (0,0), (0,0), (0,0), (0,0)]

/-- `ps` (src/atmosphere/nrlmsise00_data.cpp, array starting at line 681). -/
def ps : List (ℤ × ℕ) :=
  [(956827,6), (620637,7), (318433,7), (0,0), (0,0), (3949,5), (0,0), (0,0), (-924882,8),
   (-794023,8), (0,0), (0,0), (0,0), (174712,3), (0,0), (0,0), (0,0), (0,0), (0,0), (0,0),
   (0,0), (274677,8), (0,0), (154951,7), (866784,7), (158727,6), (0,0), (0,0), (0,0), (0,0),
   (0,0), (0,0), (0,0), (-699007,9), (0,0), (0,0), (0,0), (0,0), (0,0), (0,0), (0,0),
   (124362,7), (-528756,8), (847001,7), (170147,6), (0,0), (0,0), (0,0), (0,0), (0,0), (0,0),
   (247425,10), (0,0), (0,0), (0,0), (0,0), (0,0), (0,0), (0,0), (0,0), (0,0), (0,0), (0,0),
   (0,0), (0,0), (0,0), (0,0), (0,0), (0,0), (0,0), (0,0), (0,0), (0,0), (0,0), (0,0), (0,0),
   (0,0), (0,0), (0,0), (0,0), (0,0), (0,0), (0,0), (0,0), (0,0), (0,0), (0,0), (0,0), (0,0),
   (0,0), (0,0), (0,0), (0,0), (0,0), (0,0), (0,0), (0,0), (0,0), (0,0), (0,0), (0,0), (0,0),
   (0,0), (0,0), (0,0), (0,0), (0,0), (0,0), (0,0), (0,0), (0,0), (0,0), (0,0), (0,0), (0,0),
   (0,0), (0,0), (0,0), (0,0), (0,0), (0,0), (0,0), (0,0), (0,0), (0,0), (0,0), (0,0), (0,0),
   (0,0), (0,0), (0,0), (0,0), (0,0), (0,0), (0,0), (0,0), (0,0), (0,0), (0,0), (0,0), (0,0),
   (0,0), (0,0), (0,0), (0,0), (0,0), (0,0), (0,0), (0,0), (0,0)]

/-- `ptm` (src/atmosphere/nrlmsise00_data.cpp, from line 5). -/
def ptm : List (ℤ × ℕ) :=
  [(10413,1), (386,0), (195,0), (166728,4), (213,0), (120,0), (240,0), (187,0), (-2,0), (0,0)]

/-- `pavgm` (src/atmosphere/nrlmsise00_data.cpp, from line 40). -/
def pavgm : List (ℤ × ℕ) :=
  [(261,0), (264,0), (229,0), (217,0), (217,0), (223,0), (28676,2), (-29394,4), (25,1), (0,0)]

/-- `pdm[0]` (src/atmosphere/nrlmsise00_data.cpp, array starting at line 10). -/
def pdm0 : List (ℤ × ℕ) :=
  [(24560000,0), (671072,11), (100,0), (0,0), (110,0), (10,0), (0,0), (0,0), (0,0), (0,0)]

/-- `pdm[1]` (src/atmosphere/nrlmsise00_data.cpp, array starting at line 10). -/
def pdm1 : List (ℤ × ℕ) :=
  [(85940000000,0), (1,0), (105,0), (-8,0), (110,0), (10,0), (90,0), (2,0), (0,0), (0,0)]

/-- `pdm[2]` (src/atmosphere/nrlmsise00_data.cpp, array starting at line 10). -/
def pdm2 : List (ℤ × ℕ) :=
  [(281000000000,0), (0,0), (105,0), (28,0), (2895,2), (0,0), (0,0), (0,0), (0,0), (0,0)]

/-- `pdm[3]` (src/atmosphere/nrlmsise00_data.cpp, array starting at line 10). -/
def pdm3 : List (ℤ × ℕ) :=
  [(33000000000,0), (26827,5), (105,0), (1,0), (110,0), (10,0), (110,0), (-10,0), (0,0),
   (0,0)]

/-- `pdm[4]` (src/atmosphere/nrlmsise00_data.cpp, array starting at line 10). -/
def pdm4 : List (ℤ × ℕ) :=
  [(1330000000,0), (119615,7), (105,0), (0,0), (110,0), (10,0), (0,0), (0,0), (0,0), (0,0)]

/-- `pdm[5]` (src/atmosphere/nrlmsise00_data.cpp, array starting at line 10). -/
def pdm5 : List (ℤ × ℕ) :=
  [(176100,0), (1,0), (95,0), (-8,0), (110,0), (10,0), (90,0), (2,0), (0,0), (0,0)]

/-- `pdm[6]` (src/atmosphere/nrlmsise00_data.cpp, array starting at line 10). -/
def pdm6 : List (ℤ × ℕ) :=
  [(10000000,0), (1,0), (105,0), (-8,0), (110,0), (10,0), (90,0), (2,0), (0,0), (0,0)]

/-- `pdm[7]` (src/atmosphere/nrlmsise00_data.cpp, array starting at line 10). -/
def pdm7 : List (ℤ × ℕ) :=
  [(1000000,0), (1,0), (105,0), (-8,0), (550,0), (76,0), (90,0), (2,0), (0,0), (4000,0)]

/-- The parameter arrays. -/
def arr : Arr → List (ℤ × ℕ)
  | .pt => pt
  | .ps => ps
  | .pd 0 => pd0
  | .pd 1 => pd1
  | .pd 2 => pd2
  | .pd 3 => pd3
  | .pd 4 => pd4
  | .pd 5 => pd5
  | .pd 6 => pd6
  | .pd 7 => pd7
  | .pd 8 => pd8
  | .pma 0 => pma0
  | .pma 1 => pma1
  | .pma 2 => pma2
  | .pma 3 => pma3
  | .pma 4 => pma4
  | .pma 5 => pma5
  | .pma 6 => pma6
  | .pma 7 => pma7
  | .pma 8 => pma8
  | .pma 9 => pma9
  | .ptl 0 => ptl0
  | .ptl 1 => ptl1
  | .ptl 2 => ptl2
  | .ptl 3 => ptl3
  | _ => []

/-- The rows of `pdm`. -/
def pdmRows : List (List (ℤ × ℕ)) := [pdm0, pdm1, pdm2, pdm3, pdm4, pdm5, pdm6, pdm7]

/-- A table entry as a number. -/
def num (q : ℤ × ℕ) : ℚ := q.1 / 10 ^ q.2

/-- Entry `c` of a row (0 beyond the initialisers). -/
def ent (l : List (ℤ × ℕ)) (c : ℕ) : ℚ := num (l.getD c (0, 0))

/-- The tables over the rational numbers. -/
def tabQ : Tab ℚ where
  p := fun a c => ent (arr a) c
  ptm := fun c => ent ptm c
  pdm := fun r c => ent (pdmRows.getD r []) c
  pavgm := fun c => ent pavgm c
  pdl := fun r c => ent ([pdl0, pdl1].getD r []) c

/-- The tables over the real numbers. -/
noncomputable def tabR : Tab ℝ where
  p := fun a c => ((tabQ.p a c : ℚ) : ℝ)
  ptm := fun c => ((tabQ.ptm c : ℚ) : ℝ)
  pdm := fun r c => ((tabQ.pdm r c : ℚ) : ℝ)
  pavgm := fun c => ((tabQ.pavgm c : ℚ) : ℝ)
  pdl := fun r c => ((tabQ.pdl r c : ℚ) : ℝ)

/-- The arrays passed to `globe7`. -/
def gList : List Arr := [.pt, .ps, .pd 0, .pd 1, .pd 2, .pd 3, .pd 4, .pd 5, .pd 6, .pd 7, .pd 8]

/-- The arrays passed to `glob7s`. -/
def sList : List Arr := [.ptl 0, .ptl 1, .ptl 2, .ptl 3, .pma 0, .pma 1, .pma 2, .pma 3, .pma 4,
  .pma 5, .pma 6, .pma 7, .pma 8, .pma 9]

theorem mem_gList (a : Arr) (h : GArr a) : a ∈ gList := by
  rcases h with rfl | rfl | ⟨k, hk, rfl⟩
  · decide
  · decide
  · interval_cases k <;> decide

theorem mem_sList (a : Arr) (h : SArr a) : a ∈ sList := by
  rcases h with ⟨k, hk, rfl⟩ | ⟨k, hk, rfl⟩
  · interval_cases k <;> decide
  · interval_cases k <;> decide

theorem g_ok : ∀ a ∈ gList, ∀ b ∈ gList, ∀ c ∈ [13, 17, 31, 38],
    tabQ.p a c = tabQ.p b c ∨ |tabQ.p a c - tabQ.p b c| > nearzero := by decide +kernel

theorem s_ok : ∀ a ∈ sList, ∀ b ∈ sList, ∀ c ∈ [13, 17, 31],
    tabQ.p a c = tabQ.p b c ∨ |tabQ.p a c - tabQ.p b c| > nearzero := by decide +kernel

theorem s39_ok : ∀ a ∈ sList, ∀ b ∈ sList,
    tabQ.p a 37 = 0 ∨ |tabQ.p b 39 - tabQ.p a 38| > nearzero := by decide +kernel

theorem p51_ok : ∀ a ∈ gList, tabQ.p a 51 = 0 ∨ |tabQ.p a 51| > nearzero := by decide +kernel

theorem pd3_ok : |tabQ.p (.pd 3) 51| > nearzero := by decide +kernel

/-- The compiled tables satisfy what the caches need. -/
theorem tabQ_ok : TabOk tabQ where
  g := fun a b ha hb c hc => g_ok a (mem_gList a ha) b (mem_gList b hb) c hc
  s := fun a b ha hb c hc => s_ok a (mem_sList a ha) b (mem_sList b hb) c hc
  s39 := fun a b ha hb => s39_ok a (mem_sList a ha) b (mem_sList b hb)
  p51 := fun a ha => p51_ok a (mem_gList a ha)
  pd3 := pd3_ok

theorem nearzero_cast : ((nearzero : ℚ) : ℝ) = nearzero := by unfold nearzero; norm_num

theorem cast_gt (q : ℚ) (h : |q| > nearzero) : |(q : ℝ)| > nearzero := by
  rw [← nearzero_cast, ← Rat.cast_abs]
  exact Rat.cast_lt.mpr h

/-- The same over the real numbers. -/
theorem tabR_ok : TabOk tabR where
  g := fun a b ha hb c hc => by
    rcases tabQ_ok.g a b ha hb c hc with h | h
    · exact Or.inl (by simp only [tabR, h])
    · exact Or.inr (by simpa [tabR] using cast_gt _ h)
  s := fun a b ha hb c hc => by
    rcases tabQ_ok.s a b ha hb c hc with h | h
    · exact Or.inl (by simp only [tabR, h])
    · exact Or.inr (by simpa [tabR] using cast_gt _ h)
  s39 := fun a b ha hb => by
    rcases tabQ_ok.s39 a b ha hb with h | h
    · exact Or.inl (by simp only [tabR, h, Rat.cast_zero])
    · exact Or.inr (by simpa [tabR] using cast_gt _ h)
  p51 := fun a ha => by
    rcases tabQ_ok.p51 a ha with h | h
    · exact Or.inl (by simp only [tabR, h, Rat.cast_zero])
    · exact Or.inr (cast_gt _ h)
  pd3 := cast_gt _ tabQ_ok.pd3

/-- The molecular weight used by the unit theorems (`gtd7_units`). -/
theorem tabR_weight : nearzero ≤ |tabR.pdm 2 4| :=
  (cast_gt _ (by decide +kernel : |tabQ.pdm 2 4| > nearzero)).le

end Verif.Atmosphere.Msis.Data
