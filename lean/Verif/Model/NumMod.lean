/-
Model of the remainder of a symbolic number: `__mod__` of the four classes, `find_period` and
`exp_mod_special_cases` (/repo/tm/num.py L193, L409, L688, L869-947, L1336-2239).

The exponent's own remainder is a recursive call on a smaller term, so no bound on the nesting is
needed.  The comparison `1 < exp` (L885) is taken from the operators of `Verif.Model.Num`.

Simplifications: `log2(mod)` (L914) and `round(log(mod / 2, 3))` (L1338, L1353) are taken exact.
`ExpModLimit`, `ModDepthLimit` and failed assertions are the error `other`.  `strict` is not in the
Python: it stops with the error `strict` in the two branches of `Exp.__mod__` that are wrong.
-/
import Mathlib.Data.Nat.Log
import Verif.Model.Num

namespace BB
namespace Sym

/-- `values` for the modulus 54 (num.py L1360-1380). -/
def table54 : List (Nat × Nat) := [
  (0, 28), (1, 2), (2, 4), (3, 8), (4, 16), (5, 32), (6, 10), (7, 20), (8, 40), (9, 26),
  (10, 52), (11, 50), (12, 46), (13, 38), (14, 22), (15, 44), (16, 34), (17, 14)]

/-- `values` for the modulus 162 (num.py L1381-1437). -/
def table162 : List (Nat × Nat) := [
  (0, 82), (1, 2), (2, 4), (3, 8), (4, 16), (5, 32), (6, 64), (7, 128), (8, 94), (9, 26),
  (10, 52), (11, 104), (12, 46), (13, 92), (14, 22), (15, 44), (16, 88), (17, 14), (18, 28),
  (19, 56), (20, 112), (21, 62), (22, 124), (23, 86), (24, 10), (25, 20), (26, 40), (27, 80),
  (28, 160), (29, 158), (30, 154), (31, 146), (32, 130), (33, 98), (34, 34), (35, 68),
  (36, 136), (37, 110), (38, 58), (39, 116), (40, 70), (41, 140), (42, 118), (43, 74),
  (44, 148), (45, 134), (46, 106), (47, 50), (48, 100), (49, 38), (50, 76), (51, 152),
  (52, 142), (53, 122)]

/-- `values` for the modulus 486 (num.py L1438-1602). -/
def table486 : List (Nat × Nat) := [
  (0, 244), (1, 2), (2, 4), (3, 8), (4, 16), (5, 32), (6, 64), (7, 128), (8, 256), (9, 26),
  (10, 52), (11, 104), (12, 208), (13, 416), (14, 346), (15, 206), (16, 412), (17, 338),
  (18, 190), (19, 380), (20, 274), (21, 62), (22, 124), (23, 248), (24, 10), (25, 20),
  (26, 40), (27, 80), (28, 160), (29, 320), (30, 154), (31, 308), (32, 130), (33, 260),
  (34, 34), (35, 68), (36, 136), (37, 272), (38, 58), (39, 116), (40, 232), (41, 464),
  (42, 442), (43, 398), (44, 310), (45, 134), (46, 268), (47, 50), (48, 100), (49, 200),
  (50, 400), (51, 314), (52, 142), (53, 284), (54, 82), (55, 164), (56, 328), (57, 170),
  (58, 340), (59, 194), (60, 388), (61, 290), (62, 94), (63, 188), (64, 376), (65, 266),
  (66, 46), (67, 92), (68, 184), (69, 368), (70, 250), (71, 14), (72, 28), (73, 56), (74, 112),
  (75, 224), (76, 448), (77, 410), (78, 334), (79, 182), (80, 364), (81, 242), (82, 484),
  (83, 482), (84, 478), (85, 470), (86, 454), (87, 422), (88, 358), (89, 230), (90, 460),
  (91, 434), (92, 382), (93, 278), (94, 70), (95, 140), (96, 280), (97, 74), (98, 148),
  (99, 296), (100, 106), (101, 212), (102, 424), (103, 362), (104, 238), (105, 476),
  (106, 466), (107, 446), (108, 406), (109, 326), (110, 166), (111, 332), (112, 178),
  (113, 356), (114, 226), (115, 452), (116, 418), (117, 350), (118, 214), (119, 428),
  (120, 370), (121, 254), (122, 22), (123, 44), (124, 88), (125, 176), (126, 352), (127, 218),
  (128, 436), (129, 386), (130, 286), (131, 86), (132, 172), (133, 344), (134, 202),
  (135, 404), (136, 322), (137, 158), (138, 316), (139, 146), (140, 292), (141, 98),
  (142, 196), (143, 392), (144, 298), (145, 110), (146, 220), (147, 440), (148, 394),
  (149, 302), (150, 118), (151, 236), (152, 472), (153, 458), (154, 430), (155, 374),
  (156, 262), (157, 38), (158, 76), (159, 152), (160, 304), (161, 122)]

/-- `values` for the modulus 1458 (num.py L1603-2091). -/
def table1458 : List (Nat × Nat) := [
  (0, 730), (1, 2), (2, 4), (3, 8), (4, 16), (5, 32), (6, 64), (7, 128), (8, 256), (9, 512),
  (10, 1024), (11, 590), (12, 1180), (13, 902), (14, 346), (15, 692), (16, 1384), (17, 1310),
  (18, 1162), (19, 866), (20, 274), (21, 548), (22, 1096), (23, 734), (24, 10), (25, 20),
  (26, 40), (27, 80), (28, 160), (29, 320), (30, 640), (31, 1280), (32, 1102), (33, 746),
  (34, 34), (35, 68), (36, 136), (37, 272), (38, 544), (39, 1088), (40, 718), (41, 1436),
  (42, 1414), (43, 1370), (44, 1282), (45, 1106), (46, 754), (47, 50), (48, 100), (49, 200),
  (50, 400), (51, 800), (52, 142), (53, 284), (54, 568), (55, 1136), (56, 814), (57, 170),
  (58, 340), (59, 680), (60, 1360), (61, 1262), (62, 1066), (63, 674), (64, 1348), (65, 1238),
  (66, 1018), (67, 578), (68, 1156), (69, 854), (70, 250), (71, 500), (72, 1000), (73, 542),
  (74, 1084), (75, 710), (76, 1420), (77, 1382), (78, 1306), (79, 1154), (80, 850), (81, 242),
  (82, 484), (83, 968), (84, 478), (85, 956), (86, 454), (87, 908), (88, 358), (89, 716),
  (90, 1432), (91, 1406), (92, 1354), (93, 1250), (94, 1042), (95, 626), (96, 1252),
  (97, 1046), (98, 634), (99, 1268), (100, 1078), (101, 698), (102, 1396), (103, 1334),
  (104, 1210), (105, 962), (106, 466), (107, 932), (108, 406), (109, 812), (110, 166),
  (111, 332), (112, 664), (113, 1328), (114, 1198), (115, 938), (116, 418), (117, 836),
  (118, 214), (119, 428), (120, 856), (121, 254), (122, 508), (123, 1016), (124, 574),
  (125, 1148), (126, 838), (127, 218), (128, 436), (129, 872), (130, 286), (131, 572),
  (132, 1144), (133, 830), (134, 202), (135, 404), (136, 808), (137, 158), (138, 316),
  (139, 632), (140, 1264), (141, 1070), (142, 682), (143, 1364), (144, 1270), (145, 1082),
  (146, 706), (147, 1412), (148, 1366), (149, 1274), (150, 1090), (151, 722), (152, 1444),
  (153, 1430), (154, 1402), (155, 1346), (156, 1234), (157, 1010), (158, 562), (159, 1124),
  (160, 790), (161, 122), (162, 244), (163, 488), (164, 976), (165, 494), (166, 988),
  (167, 518), (168, 1036), (169, 614), (170, 1228), (171, 998), (172, 538), (173, 1076),
  (174, 694), (175, 1388), (176, 1318), (177, 1178), (178, 898), (179, 338), (180, 676),
  (181, 1352), (182, 1246), (183, 1034), (184, 610), (185, 1220), (186, 982), (187, 506),
  (188, 1012), (189, 566), (190, 1132), (191, 806), (192, 154), (193, 308), (194, 616),
  (195, 1232), (196, 1006), (197, 554), (198, 1108), (199, 758), (200, 58), (201, 116),
  (202, 232), (203, 464), (204, 928), (205, 398), (206, 796), (207, 134), (208, 268),
  (209, 536), (210, 1072), (211, 686), (212, 1372), (213, 1286), (214, 1114), (215, 770),
  (216, 82), (217, 164), (218, 328), (219, 656), (220, 1312), (221, 1166), (222, 874),
  (223, 290), (224, 580), (225, 1160), (226, 862), (227, 266), (228, 532), (229, 1064),
  (230, 670), (231, 1340), (232, 1222), (233, 986), (234, 514), (235, 1028), (236, 598),
  (237, 1196), (238, 934), (239, 410), (240, 820), (241, 182), (242, 364), (243, 728),
  (244, 1456), (245, 1454), (246, 1450), (247, 1442), (248, 1426), (249, 1394), (250, 1330),
  (251, 1202), (252, 946), (253, 434), (254, 868), (255, 278), (256, 556), (257, 1112),
  (258, 766), (259, 74), (260, 148), (261, 296), (262, 592), (263, 1184), (264, 910),
  (265, 362), (266, 724), (267, 1448), (268, 1438), (269, 1418), (270, 1378), (271, 1298),
  (272, 1138), (273, 818), (274, 178), (275, 356), (276, 712), (277, 1424), (278, 1390),
  (279, 1322), (280, 1186), (281, 914), (282, 370), (283, 740), (284, 22), (285, 44),
  (286, 88), (287, 176), (288, 352), (289, 704), (290, 1408), (291, 1358), (292, 1258),
  (293, 1058), (294, 658), (295, 1316), (296, 1174), (297, 890), (298, 322), (299, 644),
  (300, 1288), (301, 1118), (302, 778), (303, 98), (304, 196), (305, 392), (306, 784),
  (307, 110), (308, 220), (309, 440), (310, 880), (311, 302), (312, 604), (313, 1208),
  (314, 958), (315, 458), (316, 916), (317, 374), (318, 748), (319, 38), (320, 76), (321, 152),
  (322, 304), (323, 608), (324, 1216), (325, 974), (326, 490), (327, 980), (328, 502),
  (329, 1004), (330, 550), (331, 1100), (332, 742), (333, 26), (334, 52), (335, 104),
  (336, 208), (337, 416), (338, 832), (339, 206), (340, 412), (341, 824), (342, 190),
  (343, 380), (344, 760), (345, 62), (346, 124), (347, 248), (348, 496), (349, 992),
  (350, 526), (351, 1052), (352, 646), (353, 1292), (354, 1126), (355, 794), (356, 130),
  (357, 260), (358, 520), (359, 1040), (360, 622), (361, 1244), (362, 1030), (363, 602),
  (364, 1204), (365, 950), (366, 442), (367, 884), (368, 310), (369, 620), (370, 1240),
  (371, 1022), (372, 586), (373, 1172), (374, 886), (375, 314), (376, 628), (377, 1256),
  (378, 1054), (379, 650), (380, 1300), (381, 1142), (382, 826), (383, 194), (384, 388),
  (385, 776), (386, 94), (387, 188), (388, 376), (389, 752), (390, 46), (391, 92), (392, 184),
  (393, 368), (394, 736), (395, 14), (396, 28), (397, 56), (398, 112), (399, 224), (400, 448),
  (401, 896), (402, 334), (403, 668), (404, 1336), (405, 1214), (406, 970), (407, 482),
  (408, 964), (409, 470), (410, 940), (411, 422), (412, 844), (413, 230), (414, 460),
  (415, 920), (416, 382), (417, 764), (418, 70), (419, 140), (420, 280), (421, 560),
  (422, 1120), (423, 782), (424, 106), (425, 212), (426, 424), (427, 848), (428, 238),
  (429, 476), (430, 952), (431, 446), (432, 892), (433, 326), (434, 652), (435, 1304),
  (436, 1150), (437, 842), (438, 226), (439, 452), (440, 904), (441, 350), (442, 700),
  (443, 1400), (444, 1342), (445, 1226), (446, 994), (447, 530), (448, 1060), (449, 662),
  (450, 1324), (451, 1190), (452, 922), (453, 386), (454, 772), (455, 86), (456, 172),
  (457, 344), (458, 688), (459, 1376), (460, 1294), (461, 1130), (462, 802), (463, 146),
  (464, 292), (465, 584), (466, 1168), (467, 878), (468, 298), (469, 596), (470, 1192),
  (471, 926), (472, 394), (473, 788), (474, 118), (475, 236), (476, 472), (477, 944),
  (478, 430), (479, 860), (480, 262), (481, 524), (482, 1048), (483, 638), (484, 1276),
  (485, 1094)]

/-- `values` for the modulus 4374 (num.py L2092-2107). -/
def table4374 : List (Nat × Nat) := [
  (267, 4364), (296, 4090), (655, 614), (695, 1994), (696, 3988), (870, 1846), (896, 2398),
  (919, 326), (989, 2768), (1004, 2560), (1231, 1532), (1258, 3004), (1307, 104)]

/-- `values` for the modulus 13122 (num.py L2108-2122). -/
def table13122 : List (Nat × Nat) := [
  (296, 12838), (919, 4700), (1231, 5906), (1258, 11752), (2354, 6772), (2447, 2768),
  (2462, 2560), (2765, 104), (3183, 8738), (3571, 4988), (3611, 6368), (3612, 12736)]

/-- `values` for the modulus 39366 (num.py L2123-2136). -/
def table39366 : List (Nat × Nat) := [
  (919, 4700), (2447, 2768), (2765, 26348), (3571, 4988), (4670, 39082), (5632, 11752),
  (6836, 28804), (7986, 25858), (9979, 32150), (11102, 19894), (11931, 8738)]

/-- `values` for the modulus 118098 (num.py L2137-2149). -/
def table118098 : List (Nat × Nat) := [
  (2447, 2768), (3571, 44354), (5632, 11752), (6836, 68170), (27163, 44066), (29009, 26348),
  (30914, 39082), (34230, 25858), (38175, 48104), (36223, 110882)]

/-- `values` for the modulus 354294 (num.py L2150-2161). -/
def table354294 : List (Nat × Nat) := [
  (6836, 68170), (29009, 144446), (30914, 157180), (41813, 238964), (42937, 162452),
  (73596, 143956), (75589, 110882), (84364, 247948), (105895, 162164)]

/-- `values` for the modulus 1062882 (num.py L2162-2172). -/
def table1062882 : List (Nat × Nat) := [
  (29009, 498740), (84364, 956536), (149012, 511474), (223993, 516458), (243032, 422464),
  (278009, 238964), (309792, 143956), (311785, 110882)]

/-- `values` for the modulus 3188646 (num.py L2173-2182). -/
def table3188646 : List (Nat × Nat) := [
  (223993, 516458), (309792, 2269720), (597326, 422464), (632303, 2364728), (737597, 1561622),
  (792952, 2019418), (857600, 511474)]

/-- `values` for the modulus 9565938 (num.py L2183-2192). -/
def table9565938 : List (Nat × Nat) := [
  (223993, 516458), (737597, 4750268), (857600, 3700120), (1660208, 422464),
  (1855834, 5208064), (2435556, 5458366), (2758067, 8742020)]

/-- `values` for the modulus 28697814 (num.py L2193-2201). -/
def table28697814 : List (Nat × Nat) := [
  (857600, 3700120), (1660208, 9988402), (2758067, 8742020), (7114889, 23882144),
  (8233126, 5208064), (8812848, 24590242)]

/-- `values` for the modulus 86093442 (num.py L2202-2209). -/
def table86093442 : List (Nat × Nat) := [
  (2758067, 66137648), (7114889, 23882144), (19989476, 61095748), (20792084, 67384030),
  (27944724, 81985870)]

/-- `values` for the modulus 258280326 (num.py L2210-2216). -/
def table258280326 : List (Nat × Nat) := [
  (7114889, 109975586), (27944724, 168079312), (77385104, 233282632), (78187712, 153477472)]

/-- `values` for the modulus 774840978 (num.py L2217-2222). -/
def table774840978 : List (Nat × Nat) := [
  (7114889, 626536238), (114038166, 684639964), (250374596, 153477472)]

/-- `values` for the modulus 2324522934 (num.py L2223-2227). -/
def table2324522934 : List (Nat × Nat) := [
  (265395215, 626536238), (766935248, 153477472)]

/-- `values` for the modulus 6973568802 (num.py L2228-2231). -/
def table6973568802 : List (Nat × Nat) := [
  (1541776226, 153477472)]

/-- The `match mod` of `exp_mod_special_cases` (num.py L1359-2233). -/
def expTables : List (Nat × List (Nat × Nat)) := [
  (54, table54),
  (162, table162),
  (486, table486),
  (1458, table1458),
  (4374, table4374),
  (13122, table13122),
  (39366, table39366),
  (118098, table118098),
  (354294, table354294),
  (1062882, table1062882),
  (3188646, table3188646),
  (9565938, table9565938),
  (28697814, table28697814),
  (86093442, table86093442),
  (258280326, table258280326),
  (774840978, table774840978),
  (2324522934, table2324522934),
  (6973568802, table6973568802)]

/-- `mod == 2 * (3 ** round(log(mod / 2, 3)))` (num.py L1338, L1353). -/
def isTwoThree (m : Int) : Bool :=
  decide (m = 2 * 3 ^ Nat.log 3 (m.toNat / 2))

/-- The loop of `find_period` (num.py L1341-1349): `n` values of `period` are left. -/
def periodLoop (base mod : Int) : Nat → Int → Nat → Nat
  | 0, _, _ => 0
  | n + 1, val, period =>
    let val' := (val * base).fmod mod
    if val' = 1 then period else periodLoop base mod n val' (period + 1)

/-- `find_period` (num.py L1336-1349). -/
def findPeriod (base mod : Int) : Nat :=
  if base = 2 ∧ isTwoThree mod then 0
  else periodLoop base mod (mod.toNat - 1) 1 1

/-- The square-and-multiply loop (num.py L936-945). -/
def powLoop (mod : Int) : Nat → Int → Int → Int → R Int
  | 0, _, _, _ => .error .fuel
  | n + 1, base, exp, res =>
    if exp ≤ 0 ∨ res ≤ 0 then .ok res
    else
      let res' := if exp.fmod 2 = 1 then (res * base).fmod mod else res
      powLoop mod n ((base ^ 2).fmod mod) (exp.fdiv 2) res'

/-- `exp_mod_special_cases` (num.py L1352-2239). -/
def expModSpecial (mod base : Int) (emod : Int → R Int) : R Int :=
  if base ≠ 2 ∨ !isTwoThree mod then .error .other
  else do
    let period ← emod (mod.fdiv 3)
    match expTables.lookup mod.toNat with
    | none => .error .other
    | some values =>
      match values.lookup period.toNat with
      | none => .error .other
      | some v => return v

/-- End of `Exp.__mod__` (num.py L928-947) for an exponent that is an integer. -/
def expModInt (base mod exp : Int) : R Int :=
  if exp = 0 then .ok 1 else powLoop mod (exp.toNat + 1) base exp 1

/-- From L925 on, when the exponent is an integer. -/
def expModTailInt (base mod exp : Int) : R Int :=
  let period := findPeriod base mod
  if 0 < period then expModInt base mod (exp.fmod period) else expModInt base mod exp

/-- From L925 on; `emod k` is `exp % k`. -/
def expModTail (base : Int) (exp : Num) (emod : Int → R Int) (mod : Int) : R Int :=
  match exp with
  | .int k => expModTailInt base mod k
  | _ =>
    let period := findPeriod base mod
    if 0 < period then do
      let k ← emod period
      expModInt base mod k
    else expModSpecial mod base emod

/-- `int(log_mod := log2(mod)) == log_mod` (num.py L914). -/
def isPowTwo (m : Int) : Bool := decide (m = 2 ^ Nat.log 2 m.toNat)

/-- The `match base` of `Exp.__mod__` (num.py L887-923) and the rest. -/
def expModMatch (strict : Bool) (base : Int) (exp : Num) (emod : Int → R Int) (mod : Int) : R Int :=
  if base = 2 ∧ mod = 4 then .ok 0
  else if base = 2 ∧ mod = 6 then do
    let k ← emod 2
    if k = 0 then return 4 else return 2
  else if base = 2 ∧ mod = 12 then do
    let k ← emod 2
    if k = 0 then return 4 else return 8
  else if base = 2 ∧ mod = 30 then do
    let k ← emod 4
    if k = 3 then return 8
    else if k = 0 then
      if strict then throw .strict else return 15
    else if k = 1 then return 2
    else return 4
  else if base = 3 ∧ mod = 6 then .ok 3
  else if base = 3 ∧ isPowTwo mod then
    if strict && decide (mod = 4) then .error .strict
    else do
      let k ← emod (2 ^ (Nat.log 2 mod.toNat - 2))
      expModTailInt base mod k
  else if base = 6 ∧ mod = 10 then .ok 6
  else if base = 7 ∧ mod = 12 then do
    let k ← emod 2
    if k = 0 then return 1 else return 7
  else expModTail base exp emod mod

/-- `Exp.__mod__` (num.py L869-947). -/
def expMod (strict : Bool) (gt1 : R Bool) (base : Int) (exp : Num) (emod : Int → R Int)
    (mod : Int) : R Int :=
  if mod = 1 then .ok 0
  else if mod = base then .ok 0
  else if mod = 2 then .ok (base.fmod 2)
  else if mod = 0 then .error .other
  else if base.fmod mod = 0 then .error .other
  else do
    if !(← gt1) then throw .other
    else expModMatch strict base exp emod mod

/-- `x % mod` (num.py L193, L409, L688, L869). -/
def numMod (strict : Bool) (o : Ops) : Num → Int → R Int
  | .int n, m => if m = 0 then .error .other else .ok (n.fmod m)
  | .add l r, m =>
    if m = 1 then .ok 0 else do
      let x ← numMod strict o l m
      let y ← numMod strict o r m
      if m = 0 then throw .other else return (x + y).fmod m
  | .mul l r, m =>
    if m = 1 then .ok 0 else do
      let x ← numMod strict o l m
      if x = 0 then return 0
      else
        let y ← numMod strict o r m
        if y = 0 then return 0
        else if m = 0 then throw .other else return (x * y).fmod m
  | .div n d, m =>
    if m = 1 then .ok 0
    else if 200 < n.depth then .error .other
    else do
      let x ← numMod strict o n (m * d)
      if d = 0 then throw .other
      else if x.fmod d ≠ 0 then throw .other
      else if m = 0 then throw .other
      else return (x.fdiv d).fmod m
  | .exp b e, m => expMod strict (o.lt (.int 1) e) b e (fun k => numMod strict o e k) m

end Sym
end BB
