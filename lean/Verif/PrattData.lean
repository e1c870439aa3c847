import Mathlib.Data.Nat.Notation

/-! Generated by tools/gen_primes.py: for every prime a primitive root and the prime factors of p - 1. -/

namespace Verif.Hash

def certs0 : List (ℕ × ℕ × List ℕ) := [
  (3, 2, [2]),
  (5, 2, [2, 2]),
  (7, 3, [2, 3]),
  (11, 2, [2, 5]),
  (13, 2, [2, 2, 3]),
  (17, 3, [2, 2, 2, 2]),
  (19, 2, [2, 3, 3]),
  (23, 5, [2, 11]),
  (29, 2, [2, 2, 7]),
  (31, 3, [2, 3, 5]),
  (37, 2, [2, 2, 3, 3]),
  (41, 6, [2, 2, 2, 5]),
  (43, 3, [2, 3, 7]),
  (47, 5, [2, 23]),
  (53, 2, [2, 2, 13]),
  (59, 2, [2, 29]),
  (61, 2, [2, 2, 3, 5]),
  (67, 2, [2, 3, 11]),
  (71, 7, [2, 5, 7]),
  (73, 5, [2, 2, 2, 3, 3]),
  (79, 3, [2, 3, 13]),
  (83, 2, [2, 41]),
  (89, 3, [2, 2, 2, 11]),
  (97, 5, [2, 2, 2, 2, 2, 3]),
  (101, 2, [2, 2, 5, 5]),
  (103, 5, [2, 3, 17]),
  (107, 2, [2, 53]),
  (109, 6, [2, 2, 3, 3, 3]),
  (113, 3, [2, 2, 2, 2, 7]),
  (127, 3, [2, 3, 3, 7]),
  (131, 2, [2, 5, 13]),
  (137, 3, [2, 2, 2, 17]),
  (139, 2, [2, 3, 23]),
  (151, 6, [2, 3, 5, 5]),
  (157, 5, [2, 2, 3, 13]),
  (163, 2, [2, 3, 3, 3, 3]),
  (167, 5, [2, 83]),
  (173, 2, [2, 2, 43]),
  (179, 2, [2, 89]),
  (181, 2, [2, 2, 3, 3, 5]),
  (193, 5, [2, 2, 2, 2, 2, 2, 3]),
  (197, 2, [2, 2, 7, 7]),
  (199, 3, [2, 3, 3, 11]),
  (211, 2, [2, 3, 5, 7]),
  (227, 2, [2, 113]),
  (233, 3, [2, 2, 2, 29]),
  (239, 7, [2, 7, 17]),
  (241, 7, [2, 2, 2, 2, 3, 5]),
  (251, 6, [2, 5, 5, 5]),
  (263, 5, [2, 131]),
  (271, 6, [2, 3, 3, 3, 5]),
  (281, 3, [2, 2, 2, 5, 7]),
  (283, 3, [2, 3, 47]),
  (293, 2, [2, 2, 73]),
  (307, 5, [2, 3, 3, 17]),
  (311, 17, [2, 5, 31]),
  (349, 2, [2, 2, 3, 29]),
  (353, 3, [2, 2, 2, 2, 2, 11]),
  (359, 7, [2, 179]),
  (367, 6, [2, 3, 61])]

def certs1 : List (ℕ × ℕ × List ℕ) := [
  (373, 2, [2, 2, 3, 31]),
  (397, 5, [2, 2, 3, 3, 11]),
  (401, 3, [2, 2, 2, 2, 5, 5]),
  (409, 21, [2, 2, 2, 3, 17]),
  (419, 2, [2, 11, 19]),
  (421, 2, [2, 2, 3, 5, 7]),
  (433, 5, [2, 2, 2, 2, 3, 3, 3]),
  (439, 15, [2, 3, 73]),
  (443, 2, [2, 13, 17]),
  (449, 3, [2, 2, 2, 2, 2, 2, 7]),
  (461, 2, [2, 2, 5, 23]),
  (467, 2, [2, 233]),
  (503, 5, [2, 251]),
  (509, 2, [2, 2, 127]),
  (521, 3, [2, 2, 2, 5, 13]),
  (523, 2, [2, 3, 3, 29]),
  (547, 2, [2, 3, 7, 13]),
  (571, 3, [2, 3, 5, 19]),
  (587, 2, [2, 293]),
  (593, 3, [2, 2, 2, 2, 37]),
  (599, 7, [2, 13, 23]),
  (617, 3, [2, 2, 2, 7, 11]),
  (631, 3, [2, 3, 3, 5, 7]),
  (641, 3, [2, 2, 2, 2, 2, 2, 2, 5]),
  (709, 2, [2, 2, 3, 59]),
  (719, 11, [2, 359]),
  (739, 3, [2, 3, 3, 41]),
  (773, 2, [2, 2, 193]),
  (809, 3, [2, 2, 2, 101]),
  (829, 2, [2, 2, 3, 3, 23]),
  (839, 11, [2, 419]),
  (883, 2, [2, 3, 3, 7, 7]),
  (907, 2, [2, 3, 151]),
  (941, 2, [2, 2, 5, 47]),
  (947, 2, [2, 11, 43]),
  (967, 5, [2, 3, 7, 23]),
  (977, 3, [2, 2, 2, 2, 61]),
  (1013, 3, [2, 2, 11, 23]),
  (1019, 2, [2, 509]),
  (1049, 3, [2, 2, 2, 131]),
  (1051, 7, [2, 3, 5, 5, 7]),
  (1093, 5, [2, 2, 3, 7, 13]),
  (1103, 5, [2, 19, 29]),
  (1171, 2, [2, 3, 3, 5, 13]),
  (1187, 2, [2, 593]),
  (1229, 2, [2, 2, 307]),
  (1277, 2, [2, 2, 11, 29]),
  (1289, 6, [2, 2, 2, 7, 23]),
  (1297, 10, [2, 2, 2, 2, 3, 3, 3, 3]),
  (1361, 3, [2, 2, 2, 2, 5, 17]),
  (1399, 13, [2, 3, 233]),
  (1427, 2, [2, 23, 31]),
  (1429, 6, [2, 2, 3, 7, 17]),
  (1439, 7, [2, 719]),
  (1597, 11, [2, 2, 3, 7, 19]),
  (1607, 5, [2, 11, 73]),
  (1619, 2, [2, 809]),
  (1637, 2, [2, 2, 409]),
  (1693, 2, [2, 2, 3, 3, 47]),
  (1723, 3, [2, 3, 7, 41])]

def certs2 : List (ℕ × ℕ × List ℕ) := [
  (1741, 2, [2, 2, 3, 5, 29]),
  (1847, 5, [2, 13, 71]),
  (1867, 2, [2, 3, 311]),
  (1999, 3, [2, 3, 3, 3, 37]),
  (2039, 7, [2, 1019]),
  (2053, 2, [2, 2, 3, 3, 3, 19]),
  (2131, 2, [2, 3, 5, 71]),
  (2141, 2, [2, 2, 5, 107]),
  (2207, 5, [2, 1103]),
  (2237, 2, [2, 2, 13, 43]),
  (2251, 7, [2, 3, 3, 5, 5, 5]),
  (2311, 3, [2, 3, 5, 7, 11]),
  (2459, 2, [2, 1229]),
  (2549, 2, [2, 2, 7, 7, 13]),
  (2657, 3, [2, 2, 2, 2, 2, 83]),
  (2659, 2, [2, 3, 443]),
  (2713, 5, [2, 2, 2, 3, 113]),
  (2729, 3, [2, 2, 2, 11, 31]),
  (2801, 3, [2, 2, 2, 2, 5, 5, 7]),
  (2851, 2, [2, 3, 5, 5, 19]),
  (3067, 2, [2, 3, 7, 73]),
  (3083, 2, [2, 23, 67]),
  (3181, 7, [2, 2, 3, 5, 53]),
  (3259, 3, [2, 3, 3, 181]),
  (3347, 2, [2, 7, 239]),
  (3373, 5, [2, 2, 3, 281]),
  (3491, 2, [2, 5, 349]),
  (3529, 17, [2, 2, 2, 3, 3, 7, 7]),
  (3533, 2, [2, 2, 883]),
  (4231, 3, [2, 3, 3, 5, 47]),
  (4283, 2, [2, 2141]),
  (4391, 14, [2, 5, 439]),
  (4409, 3, [2, 2, 2, 19, 29]),
  (4423, 3, [2, 3, 11, 67]),
  (4441, 21, [2, 2, 2, 3, 5, 37]),
  (4637, 2, [2, 2, 19, 61]),
  (4691, 2, [2, 5, 7, 67]),
  (4919, 13, [2, 2459]),
  (5081, 3, [2, 2, 2, 5, 127]),
  (5099, 2, [2, 2549]),
  (5147, 2, [2, 31, 83]),
  (5153, 5, [2, 2, 2, 2, 2, 7, 23]),
  (5503, 3, [2, 3, 7, 131]),
  (6073, 10, [2, 2, 2, 3, 11, 23]),
  (6229, 2, [2, 2, 3, 3, 173]),
  (6389, 2, [2, 2, 1597]),
  (6577, 5, [2, 2, 2, 2, 3, 137]),
  (6791, 7, [2, 5, 7, 97]),
  (6959, 7, [2, 7, 7, 71]),
  (7043, 2, [2, 7, 503]),
  (7349, 2, [2, 2, 11, 167]),
  (7351, 6, [2, 3, 5, 5, 7, 7]),
  (7841, 12, [2, 2, 2, 2, 2, 5, 7, 7]),
  (7901, 2, [2, 2, 5, 5, 79]),
  (8689, 13, [2, 2, 2, 2, 3, 181]),
  (9203, 2, [2, 43, 107]),
  (9497, 3, [2, 2, 2, 1187]),
  (9547, 2, [2, 3, 37, 43]),
  (9643, 2, [2, 3, 1607]),
  (9839, 7, [2, 4919])]

def certs3 : List (ℕ × ℕ × List ℕ) := [
  (10453, 5, [2, 2, 3, 13, 67]),
  (10567, 6, [2, 3, 3, 587]),
  (11471, 11, [2, 5, 31, 37]),
  (11801, 3, [2, 2, 2, 5, 5, 59]),
  (12119, 7, [2, 73, 83]),
  (13259, 6, [2, 7, 947]),
  (13399, 3, [2, 3, 7, 11, 29]),
  (15233, 3, [2, 2, 2, 2, 2, 2, 2, 7, 17]),
  (15331, 2, [2, 3, 5, 7, 73]),
  (15473, 3, [2, 2, 2, 2, 967]),
  (15683, 2, [2, 7841]),
  (16481, 6, [2, 2, 2, 2, 2, 5, 103]),
  (17231, 13, [2, 5, 1723]),
  (19087, 19, [2, 3, 3181]),
  (19231, 6, [2, 3, 5, 641]),
  (20051, 2, [2, 5, 5, 401]),
  (22013, 2, [2, 2, 5503]),
  (22349, 2, [2, 2, 37, 151]),
  (23531, 2, [2, 5, 13, 181]),
  (23603, 2, [2, 11801]),
  (24917, 2, [2, 2, 6229]),
  (26647, 3, [2, 3, 4441]),
  (26777, 3, [2, 2, 2, 3347]),
  (33577, 5, [2, 2, 2, 3, 1399]),
  (34781, 2, [2, 2, 5, 37, 47]),
  (35311, 11, [2, 3, 5, 11, 107]),
  (35753, 3, [2, 2, 2, 41, 109]),
  (37097, 3, [2, 2, 2, 4637]),
  (37321, 23, [2, 2, 2, 3, 5, 311]),
  (37991, 7, [2, 5, 29, 131]),
  (38677, 5, [2, 2, 3, 11, 293]),
  (40993, 5, [2, 2, 2, 2, 2, 3, 7, 61]),
  (43019, 2, [2, 137, 157]),
  (44027, 2, [2, 22013]),
  (45641, 11, [2, 2, 2, 5, 7, 163]),
  (46901, 11, [2, 2, 5, 5, 7, 67]),
  (47881, 29, [2, 2, 2, 3, 3, 5, 7, 19]),
  (51239, 23, [2, 11, 17, 137]),
  (52967, 5, [2, 71, 373]),
  (53597, 2, [2, 2, 13399]),
  (53653, 2, [2, 2, 3, 17, 263]),
  (55219, 2, [2, 3, 9203]),
  (59009, 3, [2, 2, 2, 2, 2, 2, 2, 461]),
  (60271, 3, [2, 3, 5, 7, 7, 41]),
  (61717, 2, [2, 2, 3, 37, 139]),
  (68743, 3, [2, 3, 3, 3, 19, 67]),
  (71761, 44, [2, 2, 2, 2, 3, 5, 13, 23]),
  (75983, 5, [2, 37991]),
  (78577, 5, [2, 2, 2, 2, 3, 1637]),
  (79039, 6, [2, 3, 3, 4391]),
  (79451, 6, [2, 5, 5, 7, 227]),
  (83233, 7, [2, 2, 2, 2, 2, 3, 3, 17, 17]),
  (84401, 3, [2, 2, 2, 2, 5, 5, 211]),
  (97579, 2, [2, 3, 3, 3, 13, 139]),
  (103387, 5, [2, 3, 17231]),
  (119179, 3, [2, 3, 3, 3, 2207]),
  (121889, 3, [2, 2, 2, 2, 2, 13, 293]),
  (137633, 5, [2, 2, 2, 2, 2, 11, 17, 23]),
  (151841, 3, [2, 2, 2, 2, 2, 5, 13, 73]),
  (151967, 5, [2, 75983])]

def certs4 : List (ℕ × ℕ × List ℕ) := [
  (154127, 5, [2, 7, 101, 109]),
  (161599, 6, [2, 3, 23, 1171]),
  (168029, 2, [2, 2, 7, 17, 353]),
  (168803, 2, [2, 84401]),
  (178781, 2, [2, 2, 5, 7, 1277]),
  (197311, 7, [2, 3, 5, 6577]),
  (223429, 2, [2, 2, 3, 43, 433]),
  (231433, 5, [2, 2, 2, 3, 9643]),
  (246923, 2, [2, 13, 9497]),
  (265547, 2, [2, 31, 4283]),
  (268189, 2, [2, 2, 3, 22349]),
  (286411, 2, [2, 3, 5, 9547]),
  (287579, 2, [2, 53, 2713]),
  (293617, 5, [2, 2, 2, 2, 3, 3, 2039]),
  (303683, 2, [2, 151841]),
  (317011, 2, [2, 3, 5, 10567]),
  (326831, 13, [2, 5, 7, 7, 23, 29]),
  (352217, 3, [2, 2, 2, 44027]),
  (352463, 5, [2, 11, 37, 433]),
  (381323, 2, [2, 37, 5153]),
  (382253, 2, [2, 2, 13, 7351]),
  (387613, 2, [2, 2, 3, 3, 3, 37, 97]),
  (402299, 2, [2, 13, 15473]),
  (488339, 2, [2, 19, 71, 181]),
  (508727, 5, [2, 113, 2251]),
  (603457, 5, [2, 2, 2, 2, 2, 2, 3, 7, 449]),
  (646397, 2, [2, 2, 161599]),
  (678343, 3, [2, 3, 7, 31, 521]),
  (730217, 3, [2, 2, 2, 97, 941]),
  (905189, 2, [2, 2, 23, 9839]),
  (1109281, 14, [2, 2, 2, 2, 2, 3, 5, 2311]),
  (1338851, 2, [2, 5, 5, 26777]),
  (1357787, 2, [2, 401, 1693]),
  (1436221, 6, [2, 2, 3, 3, 5, 79, 101]),
  (1527521, 6, [2, 2, 2, 2, 2, 5, 9547]),
  (1739951, 11, [2, 5, 5, 17, 23, 89]),
  (1787393, 3, [2, 2, 2, 2, 2, 2, 2, 2, 2, 3491]),
  (1822811, 2, [2, 5, 11, 73, 227]),
  (2036687, 5, [2, 19, 53597]),
  (2437667, 5, [2, 7, 11, 11, 1439]),
  (2546563, 3, [2, 3, 37, 11471]),
  (2593051, 2, [2, 3, 5, 5, 59, 293]),
  (3055043, 2, [2, 1527521]),
  (3160561, 7, [2, 2, 2, 2, 3, 5, 13, 1013]),
  (3278939, 2, [2, 13, 13, 89, 109]),
  (3747319, 3, [2, 3, 41, 15233]),
  (4582577, 3, [2, 2, 2, 2, 286411]),
  (4776841, 7, [2, 2, 2, 3, 3, 3, 5, 4423]),
  (6873871, 3, [2, 3, 5, 29, 7901]),
  (7122179, 6, [2, 7, 508727]),
  (7645061, 2, [2, 2, 5, 382253]),
  (9437189, 2, [2, 2, 61, 38677]),
  (9588181, 2, [2, 2, 3, 5, 7, 37, 617]),
  (9849211, 3, [2, 3, 5, 7, 46901]),
  (10310819, 2, [2, 7, 157, 4691]),
  (10555033, 5, [2, 2, 2, 3, 19, 79, 293]),
  (10617403, 5, [2, 3, 1093, 1619]),
  (11092391, 7, [2, 5, 19, 79, 739]),
  (15466229, 2, [2, 2, 19, 109, 1867]),
  (17320939, 2, [2, 3, 83, 34781])]

def certs5 : List (ℕ × ℕ × List ℕ) := [
  (18874379, 2, [2, 9437189]),
  (19451777, 3, [2, 2, 2, 2, 2, 2, 2, 151967]),
  (23199347, 2, [2, 31, 593, 631]),
  (24352067, 2, [2, 79, 154127]),
  (25156613, 2, [2, 2, 13, 373, 1297]),
  (28057891, 2, [2, 3, 5, 7, 7, 19087]),
  (34799021, 3, [2, 2, 5, 1739951]),
  (35273837, 2, [2, 2, 13, 678343]),
  (42469613, 2, [2, 2, 10617403]),
  (52198537, 5, [2, 2, 2, 3, 13, 293, 571]),
  (52282387, 3, [2, 3, 3, 13, 223429]),
  (78297827, 2, [2, 101, 387613]),
  (88877699, 2, [2, 7, 13, 488339]),
  (99402379, 3, [2, 3, 241, 68743]),
  (117446801, 3, [2, 2, 2, 2, 5, 5, 293617]),
  (123177517, 2, [2, 2, 3, 7, 11, 11, 12119]),
  (126660397, 6, [2, 2, 3, 10555033]),
  (176170229, 2, [2, 2, 13, 461, 7349]),
  (186497107, 3, [2, 3, 17, 43, 101, 421]),
  (264255353, 3, [2, 2, 2, 271, 121889]),
  (277056779, 2, [2, 29, 4776841]),
  (346103801, 3, [2, 2, 2, 5, 5, 7, 173, 1429]),
  (396383041, 13, [2, 2, 2, 2, 2, 2, 3, 3, 5, 137633]),
  (454216361, 6, [2, 2, 2, 5, 13, 53, 16481]),
  (506641589, 2, [2, 2, 126660397]),
  (594574583, 5, [2, 7, 42469613]),
  (611175121, 13, [2, 2, 2, 2, 3, 5, 2546563]),
  (621627529, 7, [2, 2, 2, 3, 29, 37, 101, 239]),
  (747392993, 3, [2, 2, 2, 2, 2, 139, 168029]),
  (891861923, 6, [2, 7, 17, 3747319]),
  (1337792887, 3, [2, 3, 3, 67, 1109281]),
  (1483536191, 7, [2, 5, 83, 1787393]),
  (1969957697, 3, [2, 2, 2, 2, 2, 2, 7, 19, 231433]),
  (2006689337, 3, [2, 2, 2, 29, 211, 40993]),
  (2285744647, 19, [2, 3, 23, 199, 83233]),
  (2403706457, 3, [2, 2, 2, 53, 79, 71761]),
  (3010034021, 12, [2, 2, 5, 7, 61, 352463]),
  (4026291443, 2, [2, 443, 523, 8689]),
  (4344243131, 6, [2, 5, 43, 211, 47881]),
  (4515051137, 3, [2, 2, 2, 2, 2, 2, 2, 35273837]),
  (6772576709, 2, [2, 2, 37097, 45641]),
  (7776155911, 6, [2, 3, 5, 401, 646397]),
  (8164741309, 2, [2, 2, 3, 37, 181, 283, 359]),
  (10158865069, 6, [2, 2, 3, 11, 29, 43, 61717]),
  (10463501903, 5, [2, 7, 747392993]),
  (12496833917, 2, [2, 2, 7, 37, 2851, 4231]),
  (13668119653, 5, [2, 2, 3, 11, 41, 107, 23603]),
  (14638349021, 2, [2, 2, 5, 109, 1051, 6389]),
  (15238297621, 14, [2, 2, 3, 3, 5, 7, 13, 211, 4409]),
  (18112761361, 11, [2, 2, 2, 2, 3, 3, 5, 25156613]),
  (22857446471, 13, [2, 5, 2285744647]),
  (34286169707, 2, [2, 29, 83, 7122179]),
  (34753945049, 3, [2, 2, 2, 4344243131]),
  (51429254599, 6, [2, 3, 3, 37, 977, 79039]),
  (70453953989, 2, [2, 2, 11, 167, 9588181]),
  (77143881917, 2, [2, 2, 59009, 326831]),
  (115715822899, 2, [2, 3, 13, 1483536191]),
  (163452039077, 2, [2, 2, 17, 2403706457]),
  (173573734363, 2, [2, 3, 7, 79, 197, 265547]),
  (236105337463, 3, [2, 3, 211, 186497107])]

def certs6 : List (ℕ × ℕ × List ℕ) := [
  (260360601547, 2, [2, 3, 71, 611175121]),
  (370708747187, 2, [2, 19, 349, 1049, 26647]),
  (390540902329, 11, [2, 2, 2, 3, 3, 3, 163, 11092391]),
  (585811353559, 6, [2, 3, 29, 1847, 1822811]),
  (768555504947, 2, [2, 19, 73, 277056779]),
  (769889431147, 2, [2, 3, 11, 53, 2801, 78577]),
  (878717030339, 2, [2, 7, 2237, 28057891]),
  (1043090993663, 5, [2, 839, 621627529]),
  (1318075545511, 3, [2, 3, 3, 5, 89, 3067, 53653]),
  (1977113318311, 3, [2, 3, 3, 5, 13, 17, 99402379]),
  (2965669977497, 3, [2, 2, 2, 370708747187]),
  (3280777796227, 2, [2, 3, 7, 359, 1289, 168803]),
  (4448504966249, 3, [2, 2, 2, 7, 41, 5081, 381323]),
  (5594472617641, 13, [2, 2, 2, 3, 5, 1427, 2131, 15331]),
  (6672757449409, 11, [2, 2, 2, 2, 2, 2, 3, 34753945049]),
  (10009136174239, 3, [2, 3, 3, 3, 3, 43019, 1436221]),
  (14546742756031, 3, [2, 3, 3, 5, 467, 346103801]),
  (15013704261371, 2, [2, 5, 263, 1741, 3278939]),
  (21902573236319, 38, [2, 67, 163452039077]),
  (22520556392057, 3, [2, 2, 2, 773, 37321, 97579]),
  (28884834602237, 2, [2, 2, 193, 51239, 730217]),
  (33780834588157, 6, [2, 2, 3, 1429, 1969957697]),
  (50671251882247, 3, [2, 3, 79, 211, 506641589]),
  (76006877823377, 3, [2, 2, 2, 2, 19, 31, 89, 367, 246923]),
  (114010316735089, 13, [2, 2, 2, 2, 3, 227, 10463501903]),
  (171015475102649, 3, [2, 2, 2, 11, 197311, 9849211]),
  (206869148364773, 2, [2, 2, 3533, 14638349021]),
  (256523212653977, 3, [2, 2, 2, 43, 287579, 2593051]),
  (320028340632683, 2, [2, 11, 14546742756031]),
  (384784818980971, 10, [2, 3, 5, 193, 2729, 24352067]),
  (577177228471507, 2, [2, 3, 13, 73, 13259, 7645061]),
  (865765842707309, 2, [2, 2, 401, 6073, 88877699]),
  (1298648764060979, 6, [2, 11, 3259, 18112761361]),
  (1947973146091477, 2, [2, 2, 3, 7, 1338851, 17320939]),
  (2921959719137273, 3, [2, 2, 2, 11, 2657, 12496833917]),
  (3949099718979091, 2, [2, 3, 5, 13, 79, 6791, 18874379]),
  (4382939578705967, 5, [2, 17, 7043, 60271, 303683]),
  (6574409368058969, 3, [2, 2, 2, 67, 3373, 11471, 317011]),
  (9861614052088471, 3, [2, 3, 5, 7, 103387, 454216361]),
  (14041243445258987, 5, [2, 11, 829, 769889431147]),
  (14792421078132871, 3, [2, 3, 5, 709, 35753, 19451777]),
  (22188631617199337, 3, [2, 2, 2, 2659, 1043090993663]),
  (33282947425799017, 10, [2, 2, 2, 3, 3, 11, 5147, 8164741309]),
  (49924421138698549, 2, [2, 2, 3, 13, 320028340632683]),
  (74886631708047827, 2, [2, 181, 206869148364773]),
  (112329947562071807, 5, [2, 7, 17, 1999, 236105337463]),
  (168494921343107851, 3, [2, 3, 5, 5, 61, 352217, 52282387]),
  (252742382014661767, 3, [2, 3, 3, 14041243445258987]),
  (379113573021992729, 3, [2, 2, 2, 587, 20051, 4026291443]),
  (568670359532989111, 3, [2, 3, 5, 2437667, 7776155911]),
  (853005539299483657, 5, [2, 2, 2, 3, 3, 3, 3949099718979091]),
  (1279508308949225477, 2, [2, 2, 11, 79, 89, 33577, 123177517]),
  (1919262463423838231, 19, [2, 5, 23, 173, 3529, 13668119653]),
  (2878893695135757317, 2, [2, 2, 24917, 28884834602237]),
  (4318340542703636011, 2, [2, 3, 5, 37, 55219, 70453953989]),
  (6477510814055453699, 2, [2, 29, 5099, 21902573236319]),
  (9716266221083181299, 6, [2, 7, 11, 19231, 3280777796227]),
  (14574399331624771603, 2, [2, 3, 3160561, 768555504947]),
  (18446744073709551557, 2, [2, 2, 11, 137, 547, 5594472617641])]

def certs : List (ℕ × ℕ × List ℕ) := certs0 ++ certs1 ++ certs2 ++ certs3 ++ certs4 ++ certs5 ++ certs6

end Verif.Hash
