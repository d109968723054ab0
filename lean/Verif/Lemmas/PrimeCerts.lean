import Verif.Lemmas.Pocklington
/-! Generated by tools/genprimes.py: Pocklington certificates, checked by the kernel. -/
namespace FireFly
set_option maxRecDepth 100000

/-- certificates of table entries 0.. -/
def certs63_0 : List (List CertEntry) := [
  [(5, 2, [(2, 2)]), (11, 2, [(5, 1)]), (67, 2, [(11, 1)]), (269, 2, [(67, 1)]), (2153, 2, [(269, 1)]), (51673, 2, [(2153, 1)]), (456065899, 2, [(51673, 1)]), (3, 2, [(2, 1)]), (19, 2, [(3, 2)]), (419, 2, [(19, 1), (11, 1)]), (7, 2, [(3, 1)]), (127, 3, [(7, 1), (3, 2)]), (319279, 2, [(419, 1), (127, 1)]), (9223372036854775783, 2, [(456065899, 1), (319279, 1)])],
  [(17, 3, [(2, 4)]), (239, 2, [(17, 1)]), (479, 2, [(239, 1)]), (35447, 2, [(479, 1)]), (3, 2, [(2, 1)]), (19, 2, [(3, 2)]), (229, 2, [(19, 1)]), (1115780248529, 2, [(35447, 1), (229, 1)]), (9223372036854775643, 2, [(1115780248529, 1)])],
  [(3, 2, [(2, 1)]), (7, 2, [(3, 1)]), (29, 2, [(7, 1)]), (13, 2, [(3, 1), (2, 2)]), (11311, 2, [(29, 1), (13, 1)]), (67867, 2, [(11311, 1)]), (252736709, 2, [(67867, 1)]), (342062455008707, 2, [(252736709, 1)]), (9223372036854775549, 2, [(342062455008707, 1)])],
  [(3, 2, [(2, 1)]), (13, 2, [(3, 1), (2, 2)]), (157, 2, [(13, 1)]), (19, 2, [(3, 2)]), (35797, 2, [(157, 1), (19, 1)]), (214783, 2, [(35797, 1)]), (36942677, 2, [(214783, 1)]), (7, 2, [(3, 1)]), (127, 3, [(7, 1), (3, 2)]), (3049, 2, [(127, 1)]), (9223372036854775507, 2, [(36942677, 1), (3049, 1)])],
  [(3, 2, [(2, 1)]), (7, 2, [(3, 1)]), (5, 2, [(2, 2)]), (71, 2, [(7, 1), (5, 1)]), (569, 2, [(71, 1)]), (15270823, 2, [(569, 1), (71, 1)]), (13, 2, [(3, 1), (2, 2)]), (53, 2, [(13, 1)]), (107, 2, [(53, 1)]), (3853, 2, [(107, 1)]), (254299, 2, [(3853, 1)]), (458235892133087, 2, [(15270823, 1), (254299, 1)]), (31160040665049917, 2, [(458235892133087, 1)]), (9223372036854775433, 2, [(31160040665049917, 1)])],
  [(3, 2, [(2, 1)]), (73, 2, [(3, 2)]), (439, 2, [(73, 1)]), (7, 2, [(3, 1)]), (197, 2, [(7, 2)]), (49814209, 2, [(439, 1), (197, 1)]), (63961444357, 2, [(49814209, 1)]), (9223372036854775421, 2, [(63961444357, 1)])],
  [(3, 2, [(2, 1)]), (7, 2, [(3, 1)]), (2017, 3, [(7, 1), (3, 2)]), (8069, 2, [(2017, 1)]), (19, 2, [(3, 2)]), (5, 2, [(2, 2)]), (1901, 2, [(19, 1), (5, 2)]), (1073741831, 2, [(8069, 1), (1901, 1)]), (29, 2, [(7, 1)]), (17, 3, [(2, 4)]), (4931, 2, [(29, 1), (17, 1)]), (29587, 2, [(4931, 1)]), (9223372036854775417, 2, [(1073741831, 1), (29587, 1)])],
  [(17, 3, [(2, 4)]), (103, 2, [(17, 1)]), (3, 2, [(2, 1)]), (237313, 2, [(103, 1), (3, 2)]), (13, 2, [(3, 1), (2, 2)]), (313, 2, [(13, 1), (3, 1)]), (349408270177, 2, [(237313, 1), (313, 1)]), (108316563754871, 2, [(349408270177, 1)]), (1537228672809129233, 2, [(108316563754871, 1)]), (9223372036854775399, 2, [(1537228672809129233, 1)])],
  [(17, 3, [(2, 4)]), (5, 2, [(2, 2)]), (11, 2, [(5, 1)]), (11969, 2, [(17, 1), (11, 1)]), (1220839, 2, [(11969, 1)]), (4883357, 2, [(1220839, 1)]), (3, 2, [(2, 1)]), (13, 2, [(3, 1), (2, 2)]), (7, 2, [(3, 1)]), (178361, 2, [(13, 1), (7, 3)]), (128908064805797, 2, [(4883357, 1), (178361, 1)]), (9223372036854775351, 2, [(128908064805797, 1)])],
  [(3, 2, [(2, 1)]), (97, 5, [(3, 1), (2, 5)]), (8731, 2, [(97, 1)]), (7159421, 2, [(8731, 1)]), (357971051, 2, [(7159421, 1)]), (5, 2, [(2, 2)]), (1801, 3, [(5, 2), (3, 2)]), (266549, 2, [(1801, 1)]), (9223372036854775337, 2, [(357971051, 1), (266549, 1)])],
  [(3, 2, [(2, 1)]), (433, 3, [(3, 3)]), (97, 5, [(3, 1), (2, 5)]), (389, 2, [(97, 1)]), (1010623, 2, [(433, 1), (389, 1)]), (1297, 2, [(3, 4)]), (14565365480473, 2, [(1010623, 1), (1297, 1)]), (174784385765677, 2, [(14565365480473, 1)]), (9223372036854775291, 2, [(174784385765677, 1)])],
  [(3, 2, [(2, 1)]), (13, 2, [(3, 1), (2, 2)]), (131, 2, [(13, 1)]), (1049, 2, [(131, 1)]), (2099, 2, [(1049, 1)]), (205703, 2, [(2099, 1)]), (658249601, 2, [(205703, 1)]), (1316499203, 2, [(658249601, 1)]), (15797990437, 2, [(1316499203, 1)]), (512409557603043071, 2, [(15797990437, 1)]), (9223372036854775279, 2, [(512409557603043071, 1)])],
  [(5, 2, [(2, 2)]), (11, 2, [(5, 1)]), (67, 2, [(11, 1)]), (269, 2, [(67, 1)]), (69941, 2, [(269, 1)]), (139883, 2, [(69941, 1)]), (3, 2, [(2, 1)]), (19, 2, [(3, 2)]), (2281, 2, [(19, 1), (5, 1)]), (36497, 2, [(2281, 1)]), (165003614384321, 2, [(139883, 1), (36497, 1)]), (9223372036854775259, 2, [(165003614384321, 1)])],
  [(3, 2, [(2, 1)]), (37, 2, [(3, 2)]), (223, 2, [(37, 1)]), (2677, 2, [(223, 1)]), (10709, 2, [(2677, 1)]), (7, 2, [(3, 1)]), (883, 2, [(7, 2)]), (1191461923, 2, [(10709, 1), (883, 1)]), (5, 2, [(2, 2)]), (11, 2, [(5, 1)]), (67, 2, [(11, 1)]), (1609, 2, [(67, 1)]), (97, 5, [(3, 1), (2, 5)]), (6242921, 2, [(1609, 1), (97, 1)]), (12485843, 2, [(6242921, 1)]), (9223372036854775181, 2, [(1191461923, 1), (12485843, 1)])],
  [(3, 2, [(2, 1)]), (13, 2, [(3, 1), (2, 2)]), (53, 2, [(13, 1)]), (107, 2, [(53, 1)]), (1499, 2, [(107, 1)]), (2999, 2, [(1499, 1)]), (7, 2, [(3, 1)]), (5, 2, [(2, 2)]), (701, 2, [(7, 1), (5, 2)]), (3287995637, 2, [(2999, 1), (701, 1)]), (9223372036854775159, 2, [(3287995637, 1)])],
  [(3, 2, [(2, 1)]), (13, 2, [(3, 1), (2, 2)]), (53, 2, [(13, 1)]), (107, 2, [(53, 1)]), (6421, 2, [(107, 1)]), (1528199, 2, [(6421, 1)]), (5, 2, [(2, 2)]), (101, 2, [(5, 2)]), (607, 2, [(101, 1)]), (3643, 2, [(607, 1)]), (9223372036854775139, 2, [(1528199, 1), (3643, 1)])],
  [(5, 2, [(2, 2)]), (101, 2, [(5, 2)]), (809, 2, [(101, 1)]), (616459, 2, [(809, 1)]), (17160985643, 2, [(616459, 1)]), (9223372036854775097, 2, [(17160985643, 1)])],
  [(3, 2, [(2, 1)]), (7, 2, [(3, 1)]), (43, 2, [(7, 1)]), (10837, 2, [(43, 1), (7, 1)]), (6350483, 2, [(10837, 1)]), (12700967, 2, [(6350483, 1)]), (2159164391, 2, [(12700967, 1)]), (5, 2, [(2, 2)]), (11, 2, [(5, 1)]), (23, 2, [(11, 1)]), (47, 2, [(23, 1)]), (659, 2, [(47, 1)]), (209563, 2, [(659, 1)]), (9223372036854775073, 2, [(2159164391, 1), (209563, 1)])],
  [(3, 2, [(2, 1)]), (73, 2, [(3, 2)]), (439, 2, [(73, 1)]), (35999, 2, [(439, 1)]), (719981, 2, [(35999, 1)]), (16486124939, 2, [(719981, 1)]), (9223372036854775057, 2, [(16486124939, 1)])],
  [(5, 2, [(2, 2)]), (11, 2, [(5, 1)]), (23, 2, [(11, 1)]), (47, 2, [(23, 1)]), (1129, 2, [(47, 1)]), (3, 2, [(2, 1)]), (7, 2, [(3, 1)]), (449, 3, [(7, 1), (2, 6)]), (7512569221, 2, [(1129, 1), (449, 1)]), (9223372036854774959, 2, [(7512569221, 1)])],
  [(3, 2, [(2, 1)]), (7, 2, [(3, 1)]), (5, 2, [(2, 2)]), (7001, 3, [(7, 1), (5, 3)]), (101, 2, [(5, 2)]), (809, 2, [(101, 1)]), (1619, 2, [(809, 1)]), (4465839887, 2, [(7001, 1), (1619, 1)]), (9223372036854774937, 2, [(4465839887, 1)])],
  [(5, 2, [(2, 2)]), (3, 2, [(2, 1)]), (31, 3, [(5, 1), (3, 1)]), (11, 2, [(5, 1)]), (23, 2, [(11, 1)]), (1427, 2, [(31, 1), (23, 1)]), (234029, 2, [(1427, 1)]), (468059, 2, [(234029, 1)]), (936119, 2, [(468059, 1)]), (1872239, 2, [(936119, 1)]), (7777280807, 2, [(1872239, 1)]), (718107446033539, 2, [(7777280807, 1)]), (9223372036854774917, 2, [(718107446033539, 1)])],
  [(5, 2, [(2, 2)]), (11, 2, [(5, 1)]), (3, 2, [(2, 1)]), (7, 2, [(3, 1)]), (10781, 2, [(11, 1), (7, 2)]), (776233, 2, [(10781, 1)]), (17077127, 2, [(776233, 1)]), (89, 2, [(11, 1)]), (45569, 3, [(89, 1), (2, 9)]), (2305843009213693723, 2, [(17077127, 1), (45569, 1)]), (9223372036854774893, 2, [(2305843009213693723, 1)])],
  [(17, 3, [(2, 4)]), (5, 2, [(2, 2)]), (1361, 2, [(17, 1), (5, 1)]), (11, 2, [(5, 1)]), (23, 2, [(11, 1)]), (139, 2, [(23, 1)]), (557, 2, [(139, 1)]), (3096047114161, 2, [(1361, 1), (557, 1), (17, 1)]), (402486124840931, 2, [(3096047114161, 1)]), (9223372036854774797, 2, [(402486124840931, 1)])],
  [(3, 2, [(2, 1)]), (1297, 2, [(3, 4)]), (5, 2, [(2, 2)]), (61, 2, [(5, 1), (3, 1)]), (11867551, 2, [(1297, 1), (61, 1)]), (427231837, 2, [(11867551, 1)]), (153553957927193, 2, [(427231837, 1)]), (9223372036854774739, 2, [(153553957927193, 1)])]]
lemma certs63_0_ok : certs63_0.all (fun c => checkChain c [2]) = true := by decide +kernel

/-- certificates of table entries 25.. -/
def certs63_1 : List (List CertEntry) := [
  [(3, 2, [(2, 1)]), (37, 2, [(3, 2)]), (5, 2, [(2, 2)]), (11, 2, [(5, 1)]), (23, 2, [(11, 1)]), (30637, 2, [(37, 1), (23, 1)]), (183823, 2, [(30637, 1)]), (2101096891, 2, [(183823, 1)]), (15793445268586943, 2, [(2101096891, 1)]), (9223372036854774713, 2, [(15793445268586943, 1)])],
  [(3, 2, [(2, 1)]), (13, 2, [(3, 1), (2, 2)]), (53, 2, [(13, 1)]), (107, 2, [(53, 1)]), (857, 2, [(107, 1)]), (51421, 2, [(857, 1)]), (7, 2, [(3, 1)]), (127, 3, [(7, 1), (3, 2)]), (11950754611, 2, [(51421, 1), (127, 1)]), (6076002659324621, 2, [(11950754611, 1)]), (9223372036854774679, 2, [(6076002659324621, 1)])],
  [(3, 2, [(2, 1)]), (97, 5, [(3, 1), (2, 5)]), (5, 2, [(2, 2)]), (11, 2, [(5, 1)]), (67, 2, [(11, 1)]), (3431473, 2, [(97, 1), (67, 1)]), (208228644587, 2, [(3431473, 1)]), (9223372036854774629, 2, [(208228644587, 1)])],
  [(5, 2, [(2, 2)]), (3, 2, [(2, 1)]), (31, 3, [(5, 1), (3, 1)]), (17, 3, [(2, 4)]), (2450551, 2, [(31, 2), (17, 1)]), (90596870471, 2, [(2450551, 1)]), (200508087757712491, 2, [(90596870471, 1)]), (9223372036854774587, 2, [(200508087757712491, 1)])],
  [(5, 2, [(2, 2)]), (11, 2, [(5, 1)]), (89, 2, [(11, 1)]), (179, 2, [(89, 1)]), (359, 2, [(179, 1)]), (719, 2, [(359, 1)]), (17, 3, [(2, 4)]), (239, 2, [(17, 1)]), (1031047, 2, [(719, 1), (239, 1)]), (4124189, 2, [(1031047, 1)]), (3, 2, [(2, 1)]), (13, 2, [(3, 1), (2, 2)]), (12377, 2, [(17, 1), (13, 1)]), (9223372036854774571, 2, [(4124189, 1), (12377, 1)])],
  [(3, 2, [(2, 1)]), (7, 2, [(3, 1)]), (29, 2, [(7, 1)]), (349, 2, [(29, 1)]), (30713, 2, [(349, 1)]), (13, 2, [(3, 1), (2, 2)]), (937, 2, [(13, 1), (3, 2)]), (28111, 2, [(937, 1)]), (5, 2, [(2, 2)]), (11, 2, [(5, 1)]), (23, 2, [(11, 1)]), (967, 2, [(23, 1), (7, 1)]), (9223372036854774559, 2, [(30713, 1), (28111, 1), (967, 1)])],
  [(17, 3, [(2, 4)]), (3, 2, [(2, 1)]), (307, 5, [(17, 1), (3, 2)]), (47279, 2, [(307, 1)]), (13332679, 2, [(47279, 1)]), (159992149, 2, [(13332679, 1)]), (5, 2, [(2, 2)]), (11, 2, [(5, 1)]), (89, 2, [(11, 1)]), (4273, 2, [(89, 1)]), (230743, 2, [(4273, 1)]), (922973, 2, [(230743, 1)]), (5537839, 2, [(922973, 1)]), (9223372036854774511, 2, [(159992149, 1), (5537839, 1)])],
  [(3, 2, [(2, 1)]), (7, 2, [(3, 1)]), (29, 2, [(7, 1)]), (233, 2, [(29, 1)]), (467, 2, [(233, 1)]), (2803, 2, [(467, 1)]), (117727, 2, [(2803, 1)]), (35789009, 2, [(117727, 1)]), (71578019, 2, [(35789009, 1)]), (19, 2, [(3, 2)]), (1103, 3, [(29, 1), (19, 1)]), (13, 2, [(3, 1), (2, 2)]), (79, 2, [(13, 1)]), (1219919, 2, [(1103, 1), (79, 1)]), (9223372036854774509, 2, [(71578019, 1), (1219919, 1)])],
  [(3, 2, [(2, 1)]), (19, 2, [(3, 2)]), (17, 3, [(2, 4)]), (647, 2, [(19, 1), (17, 1)]), (7, 2, [(3, 1)]), (113, 3, [(7, 1), (2, 4)]), (11697761, 2, [(647, 1), (113, 1)]), (75169812187, 2, [(11697761, 1)]), (372842268447521, 2, [(75169812187, 1)]), (9223372036854774499, 2, [(372842268447521, 1)])],
  [(5, 2, [(2, 2)]), (3, 2, [(2, 1)]), (31, 3, [(5, 1), (3, 1)]), (311, 2, [(31, 1)]), (7, 2, [(3, 1)]), (43, 2, [(7, 1)]), (561667, 2, [(311, 1), (43, 1)]), (4615779407, 2, [(561667, 1)]), (9223372036854774451, 2, [(4615779407, 1)])],
  [(3, 2, [(2, 1)]), (7, 2, [(3, 1)]), (43, 2, [(7, 1)]), (173, 2, [(43, 1)]), (17, 3, [(2, 4)]), (229399, 2, [(173, 1), (17, 1)]), (954758639, 2, [(229399, 1)]), (2269, 2, [(7, 1), (3, 4)]), (5, 2, [(2, 2)]), (41, 6, [(5, 1), (2, 3)]), (83, 2, [(41, 1)]), (10546313, 2, [(2269, 1), (83, 1)]), (9223372036854774413, 2, [(954758639, 1), (10546313, 1)])],
  [(3, 2, [(2, 1)]), (13, 2, [(3, 1), (2, 2)]), (53, 2, [(13, 1)]), (743, 2, [(53, 1)]), (1487, 2, [(743, 1)]), (98143, 2, [(1487, 1)]), (297962149, 2, [(98143, 1)]), (5, 2, [(2, 2)]), (151, 3, [(5, 2)]), (907, 2, [(151, 1)]), (37, 2, [(3, 2)]), (1342361, 2, [(907, 1), (37, 1)]), (9223372036854774341, 2, [(297962149, 1), (1342361, 1)])],
  [(5, 2, [(2, 2)]), (11, 2, [(5, 1)]), (89, 2, [(11, 1)]), (179, 2, [(89, 1)]), (359, 2, [(179, 1)]), (719, 2, [(359, 1)]), (461599, 2, [(719, 1)]), (800412667, 2, [(461599, 1)]), (3, 2, [(2, 1)]), (7, 2, [(3, 1)]), (197, 2, [(7, 2)]), (109, 3, [(3, 3)]), (73867121, 2, [(197, 1), (109, 1)]), (147734243, 2, [(73867121, 1)]), (9223372036854774319, 2, [(800412667, 1), (147734243, 1)])],
  [(5, 2, [(2, 2)]), (3, 2, [(2, 1)]), (31, 3, [(5, 1), (3, 1)]), (19, 2, [(3, 2)]), (7069, 2, [(31, 1), (19, 1)]), (28277, 2, [(7069, 1)]), (508987, 2, [(28277, 1)]), (373, 2, [(31, 1)]), (1493, 2, [(373, 1)]), (7099150135123, 2, [(508987, 1), (1493, 1)]), (9223372036854774307, 2, [(7099150135123, 1)])],
  [(5, 2, [(2, 2)]), (11, 2, [(5, 1)]), (23, 2, [(11, 1)]), (3, 2, [(2, 1)]), (829, 2, [(23, 1), (3, 2)]), (33161, 2, [(829, 1)]), (198967, 2, [(33161, 1)]), (1989671, 2, [(198967, 1)]), (11938027, 2, [(1989671, 1)]), (47752109, 2, [(11938027, 1)]), (156158946851801, 2, [(47752109, 1)]), (768614336404564523, 2, [(156158946851801, 1)]), (9223372036854774277, 2, [(768614336404564523, 1)])],
  [(3, 2, [(2, 1)]), (7, 2, [(3, 1)]), (43, 2, [(7, 1)]), (1033, 2, [(43, 1)]), (10331, 2, [(1033, 1)]), (61987, 2, [(10331, 1)]), (351714239, 2, [(61987, 1)]), (29, 2, [(7, 1)]), (59, 2, [(29, 1)]), (1889, 2, [(59, 1)]), (3779, 2, [(1889, 1)]), (7559, 2, [(3779, 1)]), (5170357, 2, [(7559, 1)]), (9223372036854774257, 2, [(351714239, 1), (5170357, 1)])],
  [(5, 2, [(2, 2)]), (101, 2, [(5, 2)]), (3, 2, [(2, 1)]), (13, 2, [(3, 1), (2, 2)]), (79, 2, [(13, 1)]), (15959, 2, [(101, 1), (79, 1)]), (4628111, 2, [(15959, 1)]), (4817252640349, 2, [(4628111, 1)]), (9223372036854774247, 2, [(4817252640349, 1)])],
  [(3, 2, [(2, 1)]), (97, 5, [(3, 1), (2, 5)]), (971, 2, [(97, 1)]), (7, 2, [(3, 1)]), (3915073, 2, [(971, 1), (7, 1)]), (29, 2, [(7, 1)]), (59, 2, [(29, 1)]), (43, 2, [(7, 1)]), (50741, 2, [(59, 1), (43, 1)]), (101483, 2, [(50741, 1)]), (8668582741404863, 2, [(3915073, 1), (101483, 1)]), (9223372036854774233, 2, [(8668582741404863, 1)])],
  [(5, 2, [(2, 2)]), (11, 2, [(5, 1)]), (3, 2, [(2, 1)]), (7, 2, [(3, 1)]), (15401, 2, [(11, 1), (7, 1), (5, 2)]), (13, 2, [(3, 1), (2, 2)]), (53, 2, [(13, 1)]), (107, 2, [(53, 1)]), (11953917379, 2, [(15401, 1), (107, 1)]), (9223372036854774199, 2, [(11953917379, 1)])],
  [(17, 3, [(2, 4)]), (103, 2, [(17, 1)]), (1031, 2, [(103, 1)]), (2063, 2, [(1031, 1)]), (12379, 2, [(2063, 1)]), (16389797, 2, [(12379, 1)]), (1894234398479, 2, [(16389797, 1)]), (9223372036854774179, 2, [(1894234398479, 1)])],
  [(3, 2, [(2, 1)]), (13, 2, [(3, 1), (2, 2)]), (937, 2, [(13, 1), (3, 2)]), (5, 2, [(2, 2)]), (11, 2, [(5, 1)]), (67, 2, [(11, 1)]), (6780133, 2, [(937, 1), (67, 1)]), (251, 3, [(5, 3)]), (7, 2, [(3, 1)]), (29, 2, [(7, 1)]), (59, 2, [(29, 1)]), (148091, 2, [(251, 1), (59, 1)]), (9223372036854774173, 2, [(6780133, 1), (148091, 1)])],
  [(5, 2, [(2, 2)]), (101, 2, [(5, 2)]), (607, 2, [(101, 1)]), (254941, 2, [(607, 1)]), (3, 2, [(2, 1)]), (7, 2, [(3, 1)]), (211, 2, [(7, 1), (5, 1)]), (115223644243, 2, [(254941, 1), (211, 1)]), (9223372036854774053, 2, [(115223644243, 1)])],
  [(5, 2, [(2, 2)]), (11, 2, [(5, 1)]), (89, 2, [(11, 1)]), (11263663, 2, [(89, 2)]), (67, 2, [(11, 1)]), (1609, 2, [(67, 1)]), (236290721854147, 2, [(11263663, 1), (1609, 1)]), (9223372036854773999, 2, [(236290721854147, 1)])],
  [(5, 2, [(2, 2)]), (3, 2, [(2, 1)]), (61, 2, [(5, 1), (3, 1)]), (733, 2, [(61, 1)]), (158329, 2, [(733, 1)]), (769162283, 2, [(158329, 1)]), (37, 2, [(3, 2)]), (5477, 2, [(37, 2)]), (76679, 2, [(5477, 1)]), (153359, 2, [(76679, 1)]), (2760463, 2, [(153359, 1)]), (9223372036854773977, 2, [(769162283, 1), (2760463, 1)])],
  [(3, 2, [(2, 1)]), (7, 2, [(3, 1)]), (43, 2, [(7, 1)]), (431, 2, [(43, 1)]), (3449, 2, [(431, 1)]), (197, 2, [(7, 2)]), (24460309, 2, [(3449, 1), (197, 1)]), (5, 2, [(2, 2)]), (11, 2, [(5, 1)]), (89, 2, [(11, 1)]), (179, 2, [(89, 1)]), (359, 2, [(179, 1)]), (11489, 2, [(359, 1)]), (689341, 2, [(11489, 1)]), (9223372036854773953, 2, [(24460309, 1), (689341, 1)])]]
lemma certs63_1_ok : certs63_1.all (fun c => checkChain c [2]) = true := by decide +kernel

/-- certificates of table entries 50.. -/
def certs63_2 : List (List CertEntry) := [
  [(5, 2, [(2, 2)]), (3, 2, [(2, 1)]), (31, 3, [(5, 1), (3, 1)]), (107137, 2, [(31, 1), (3, 3)]), (256485979, 2, [(107137, 1)]), (7, 2, [(3, 1)]), (113, 3, [(7, 1), (2, 4)]), (43, 2, [(7, 1)]), (7084423, 2, [(113, 1), (43, 1)]), (1537228672809128983, 2, [(256485979, 1), (7084423, 1)]), (9223372036854773899, 2, [(1537228672809128983, 1)])],
  [(3, 2, [(2, 1)]), (7, 2, [(3, 1)]), (5, 2, [(2, 2)]), (631, 3, [(7, 1), (5, 1)]), (138821, 2, [(631, 1)]), (277643, 2, [(138821, 1)]), (11, 2, [(5, 1)]), (23, 2, [(11, 1)]), (47, 2, [(23, 1)]), (2351, 3, [(47, 1), (5, 2)]), (262400954587, 2, [(277643, 1), (2351, 1)]), (9223372036854773867, 2, [(262400954587, 1)])],
  [(5, 2, [(2, 2)]), (151, 3, [(5, 2)]), (907, 2, [(151, 1)]), (3, 2, [(2, 1)]), (37, 2, [(3, 2)]), (149, 2, [(37, 1)]), (56760061, 2, [(907, 1), (149, 1)]), (6811207321, 2, [(56760061, 1)]), (3761570977510103, 2, [(6811207321, 1)]), (7523141955020207, 2, [(3761570977510103, 1)]), (9223372036854773783, 2, [(7523141955020207, 1)])],
  [(3, 2, [(2, 1)]), (19, 2, [(3, 2)]), (5, 2, [(2, 2)]), (2281, 2, [(19, 1), (5, 1)]), (4758167, 2, [(2281, 1)]), (11, 2, [(5, 1)]), (23, 2, [(11, 1)]), (1013, 3, [(23, 1), (11, 1)]), (2027, 2, [(1013, 1)]), (1003194696199127, 2, [(4758167, 1), (2027, 1)]), (9223372036854773639, 2, [(1003194696199127, 1)])],
  [(3, 2, [(2, 1)]), (97, 5, [(3, 1), (2, 5)]), (5, 2, [(2, 2)]), (41, 6, [(5, 1), (2, 3)]), (31817, 3, [(97, 1), (41, 1)]), (3690773, 2, [(31817, 1)]), (1092468809, 2, [(3690773, 1)]), (61, 2, [(5, 1), (3, 1)]), (21961, 2, [(61, 1), (5, 1)]), (9223372036854773561, 2, [(1092468809, 1), (21961, 1)])],
  [(5, 2, [(2, 2)]), (11, 2, [(5, 1)]), (89, 2, [(11, 1)]), (179, 2, [(89, 1)]), (17, 3, [(2, 4)]), (468623, 2, [(179, 1), (17, 1)]), (65607221, 2, [(468623, 1)]), (131214443, 2, [(65607221, 1)]), (3, 2, [(2, 1)]), (19, 2, [(3, 2)]), (761, 2, [(19, 1), (5, 1)]), (9133, 2, [(761, 1)]), (9223372036854773557, 2, [(131214443, 1), (9133, 1)])],
  [(17, 3, [(2, 4)]), (239, 2, [(17, 1)]), (1913, 2, [(239, 1)]), (5, 2, [(2, 2)]), (11, 2, [(5, 1)]), (23, 2, [(11, 1)]), (47, 2, [(23, 1)]), (659, 2, [(47, 1)]), (1319, 2, [(659, 1)]), (24980145301, 2, [(1913, 1), (1319, 1)]), (9223372036854773519, 2, [(24980145301, 1)])],
  [(5, 2, [(2, 2)]), (3, 2, [(2, 1)]), (61, 2, [(5, 1), (3, 1)]), (13, 2, [(3, 1), (2, 2)]), (53, 2, [(13, 1)]), (41, 6, [(5, 1), (2, 3)]), (59648851, 2, [(61, 1), (53, 1), (41, 1)]), (7, 2, [(3, 1)]), (29, 2, [(7, 1)]), (59, 2, [(29, 1)]), (1889, 2, [(59, 1)]), (763157, 2, [(1889, 1)]), (28999967, 2, [(763157, 1)]), (148764065110560863, 2, [(59648851, 1), (28999967, 1)]), (9223372036854773507, 2, [(148764065110560863, 1)])],
  [(3, 2, [(2, 1)]), (13, 2, [(3, 1), (2, 2)]), (53, 2, [(13, 1)]), (107, 2, [(53, 1)]), (3853, 2, [(107, 1)]), (3043871, 2, [(3853, 1)]), (17094379537, 2, [(3043871, 1)]), (9223372036854773489, 2, [(17094379537, 1)])],
  [(3, 2, [(2, 1)]), (7, 2, [(3, 1)]), (379, 2, [(7, 1), (3, 3)]), (15161, 2, [(379, 1)]), (13190071, 2, [(15161, 1)]), (17236468221097, 2, [(13190071, 1)]), (9223372036854773477, 2, [(17236468221097, 1)])],
  [(3, 2, [(2, 1)]), (7, 2, [(3, 1)]), (197, 2, [(7, 2)]), (115837, 3, [(197, 1), (7, 2)]), (5650297187, 2, [(115837, 1)]), (9223372036854773443, 2, [(5650297187, 1)])],
  [(5, 2, [(2, 2)]), (11, 2, [(5, 1)]), (4357, 2, [(11, 2)]), (278849, 2, [(4357, 1)]), (23, 2, [(11, 1)]), (1151, 2, [(23, 1), (5, 2)]), (89779, 2, [(1151, 1)]), (9223372036854773429, 2, [(278849, 1), (89779, 1)])],
  [(17, 3, [(2, 4)]), (103, 2, [(17, 1)]), (1031, 2, [(103, 1)]), (3, 2, [(2, 1)]), (193, 5, [(3, 1), (2, 6)]), (8357287, 2, [(1031, 1), (193, 1)]), (7, 2, [(3, 1)]), (43, 2, [(7, 1)]), (96149, 2, [(43, 2)]), (1730683, 2, [(96149, 1)]), (9223372036854773407, 2, [(8357287, 1), (1730683, 1)])],
  [(3, 2, [(2, 1)]), (73, 2, [(3, 2)]), (1753, 2, [(73, 1)]), (157771, 2, [(1753, 1)]), (1577711, 2, [(157771, 1)]), (230345807, 2, [(1577711, 1)]), (13, 2, [(3, 1), (2, 2)]), (79, 2, [(13, 1)]), (317, 2, [(79, 1)]), (5, 2, [(2, 2)]), (31, 3, [(5, 1), (3, 1)]), (471697, 2, [(317, 1), (31, 1)]), (9223372036854773353, 2, [(230345807, 1), (471697, 1)])],
  [(3, 2, [(2, 1)]), (7, 2, [(3, 1)]), (449, 3, [(7, 1), (2, 6)]), (3593, 2, [(449, 1)]), (21559, 2, [(3593, 1)]), (37, 2, [(3, 2)]), (593, 2, [(37, 1)]), (1187, 2, [(593, 1)]), (104255831443, 2, [(21559, 1), (1187, 1)]), (9223372036854773293, 2, [(104255831443, 1)])],
  [(3, 2, [(2, 1)]), (7, 2, [(3, 1)]), (43, 2, [(7, 1)]), (947, 2, [(43, 1)]), (73, 2, [(3, 2)]), (439, 2, [(73, 1)]), (366676507, 2, [(947, 1), (439, 1)]), (16867119323, 2, [(366676507, 1)]), (9223372036854773173, 2, [(16867119323, 1)])],
  [(3, 2, [(2, 1)]), (109, 3, [(3, 3)]), (1091, 2, [(109, 1)]), (5, 2, [(2, 2)]), (601, 2, [(5, 2)]), (1311383, 2, [(1091, 1), (601, 1)]), (11, 2, [(5, 1)]), (23, 2, [(11, 1)]), (139, 2, [(23, 1)]), (7, 2, [(3, 1)]), (38921, 2, [(139, 1), (7, 1)]), (36953204525933, 2, [(1311383, 1), (38921, 1)]), (9223372036854773069, 2, [(36953204525933, 1)])],
  [(3, 2, [(2, 1)]), (97, 5, [(3, 1), (2, 5)]), (13, 2, [(3, 1), (2, 2)]), (53, 2, [(13, 1)]), (19, 2, [(3, 2)]), (55677031, 2, [(97, 1), (53, 1), (19, 2)]), (3759424487183, 2, [(55677031, 1)]), (10902331012830701, 2, [(3759424487183, 1)]), (9223372036854773047, 2, [(10902331012830701, 1)])],
  [(3, 2, [(2, 1)]), (13, 2, [(3, 1), (2, 2)]), (53, 2, [(13, 1)]), (107, 2, [(53, 1)]), (1499, 2, [(107, 1)]), (2999, 2, [(1499, 1)]), (17, 3, [(2, 4)]), (137, 2, [(17, 1)]), (19859473969, 2, [(2999, 1), (137, 1)]), (9223372036854772961, 2, [(19859473969, 1)])],
  [(3, 2, [(2, 1)]), (2593, 2, [(3, 4)]), (834947, 2, [(2593, 1)]), (1073741843, 2, [(834947, 1)]), (256204778801521471, 2, [(1073741843, 1)]), (9223372036854772957, 2, [(256204778801521471, 1)])],
  [(3, 2, [(2, 1)]), (7, 2, [(3, 1)]), (43, 2, [(7, 1)]), (431, 2, [(43, 1)]), (863, 2, [(431, 1)]), (5179, 2, [(863, 1)]), (173, 2, [(43, 1)]), (26896929341, 2, [(5179, 1), (173, 1)]), (9223372036854772949, 2, [(26896929341, 1)])],
  [(17, 3, [(2, 4)]), (103, 2, [(17, 1)]), (1031, 2, [(103, 1)]), (824801, 2, [(1031, 1)]), (16496021, 2, [(824801, 1)]), (4363197554501, 2, [(16496021, 1)]), (9223372036854772903, 2, [(4363197554501, 1)])],
  [(3, 2, [(2, 1)]), (37, 2, [(3, 2)]), (5, 2, [(2, 2)]), (177601, 3, [(37, 1), (5, 2)]), (1776011, 2, [(177601, 1)]), (7739855939, 2, [(1776011, 1)]), (9223372036854772847, 2, [(7739855939, 1)])],
  [(5, 2, [(2, 2)]), (11, 2, [(5, 1)]), (353, 3, [(11, 1), (2, 5)]), (2485121, 2, [(353, 1), (11, 1)]), (3, 2, [(2, 1)]), (31, 3, [(5, 1), (3, 1)]), (683, 3, [(31, 1)]), (1367, 2, [(683, 1)]), (1921535841011411, 2, [(2485121, 1), (1367, 1)]), (9223372036854772801, 2, [(1921535841011411, 1)])],
  [(3, 2, [(2, 1)]), (769, 11, [(3, 1), (2, 8)]), (37, 2, [(3, 2)]), (41427569, 2, [(769, 1), (37, 1)]), (82855139, 2, [(41427569, 1)]), (84705128543593, 2, [(82855139, 1)]), (508230771261559, 2, [(84705128543593, 1)]), (9223372036854772733, 2, [(508230771261559, 1)])]]
lemma certs63_2_ok : certs63_2.all (fun c => checkChain c [2]) = true := by decide +kernel

/-- certificates of table entries 75.. -/
def certs63_3 : List (List CertEntry) := [
  [(3, 2, [(2, 1)]), (109, 3, [(3, 3)]), (3271, 2, [(109, 1)]), (71963, 2, [(3271, 1)]), (427604147, 2, [(71963, 1)]), (5, 2, [(2, 2)]), (11, 2, [(5, 1)]), (3631, 2, [(11, 2)]), (17, 3, [(2, 4)]), (13826849, 2, [(3631, 1), (17, 1)]), (9223372036854772681, 2, [(427604147, 1), (13826849, 1)])],
  [(17, 3, [(2, 4)]), (5, 2, [(2, 2)]), (1531, 2, [(17, 1), (5, 1)]), (3, 2, [(2, 1)]), (13, 2, [(3, 1), (2, 2)]), (521, 2, [(13, 1), (5, 1)]), (360538253, 2, [(1531, 1), (521, 1)]), (11, 2, [(5, 1)]), (23, 2, [(11, 1)]), (277, 2, [(23, 1)]), (36011, 2, [(277, 1)]), (1800551, 2, [(36011, 1)]), (345705793, 2, [(1800551, 1)]), (9223372036854772547, 2, [(360538253, 1), (345705793, 1)])],
  [(5, 2, [(2, 2)]), (11, 2, [(5, 1)]), (23, 2, [(11, 1)]), (47, 2, [(23, 1)]), (1129, 2, [(47, 1)]), (4517, 2, [(1129, 1)]), (36137, 2, [(4517, 1)]), (170928011, 2, [(36137, 1)]), (1367424089, 2, [(170928011, 1)]), (3, 2, [(2, 1)]), (7, 2, [(3, 1)]), (29, 2, [(7, 1)]), (19, 2, [(3, 2)]), (14327, 2, [(29, 1), (19, 1)]), (200579, 2, [(14327, 1)]), (9223372036854772469, 2, [(1367424089, 1), (200579, 1)])],
  [(17, 3, [(2, 4)]), (5, 2, [(2, 2)]), (11, 2, [(5, 1)]), (1871, 2, [(17, 1), (11, 1)]), (3, 2, [(2, 1)]), (7, 2, [(3, 1)]), (29, 2, [(7, 1)]), (19, 2, [(3, 2)]), (1103, 3, [(29, 1), (19, 1)]), (3145098613, 2, [(1871, 1), (1103, 1)]), (9223372036854772429, 2, [(3145098613, 1)])],
  [(17, 3, [(2, 4)]), (3, 2, [(2, 1)]), (7, 2, [(3, 1)]), (2381, 2, [(17, 1), (7, 1)]), (5, 2, [(2, 2)]), (11, 2, [(5, 1)]), (67, 2, [(11, 1)]), (7657297, 2, [(2381, 1), (67, 1)]), (2810427088723, 2, [(7657297, 1)]), (112417083548921, 2, [(2810427088723, 1)]), (9223372036854772367, 2, [(112417083548921, 1)])],
  [(17, 3, [(2, 4)]), (5, 2, [(2, 2)]), (1021, 2, [(17, 1), (5, 1)]), (10211, 2, [(1021, 1)]), (3, 2, [(2, 1)]), (19, 2, [(3, 2)]), (7, 2, [(3, 1)]), (4789, 2, [(19, 1), (7, 1)]), (350323031557, 2, [(10211, 1), (4789, 1)]), (531790361903527, 2, [(350323031557, 1)]), (9223372036854772289, 2, [(531790361903527, 1)])],
  [(3, 2, [(2, 1)]), (13, 2, [(3, 1), (2, 2)]), (53, 2, [(13, 1)]), (107, 2, [(53, 1)]), (16693, 2, [(107, 1), (13, 1)]), (130973279, 2, [(16693, 1)]), (7, 2, [(3, 1)]), (29, 2, [(7, 1)]), (233, 2, [(29, 1)]), (19, 2, [(3, 2)]), (191, 2, [(19, 1)]), (445031, 2, [(233, 1), (191, 1)]), (890063, 2, [(445031, 1)]), (9223372036854772241, 2, [(130973279, 1), (890063, 1)])],
  [(3, 2, [(2, 1)]), (7, 2, [(3, 1)]), (449, 3, [(7, 1), (2, 6)]), (3593, 2, [(449, 1)]), (546137, 2, [(3593, 1)]), (5, 2, [(2, 2)]), (751, 2, [(5, 3)]), (58579, 2, [(751, 1)]), (9223372036854772169, 2, [(546137, 1), (58579, 1)])],
  [(5, 2, [(2, 2)]), (11, 2, [(5, 1)]), (23, 2, [(11, 1)]), (461, 2, [(23, 1)]), (17, 3, [(2, 4)]), (3, 2, [(2, 1)]), (13, 2, [(3, 1), (2, 2)]), (443, 2, [(17, 1), (13, 1)]), (3267569, 2, [(461, 1), (443, 1)]), (257, 3, [(2, 8)]), (1543, 2, [(257, 1)]), (6173, 2, [(1543, 1)]), (25979866026857, 2, [(3267569, 1), (6173, 1)]), (9223372036854772141, 2, [(25979866026857, 1)])],
  [(5, 2, [(2, 2)]), (3, 2, [(2, 1)]), (241, 7, [(5, 1), (3, 1), (2, 4)]), (1447, 2, [(241, 1)]), (865307, 2, [(1447, 1)]), (474188237, 2, [(865307, 1)]), (7, 2, [(3, 1)]), (1471, 2, [(7, 2)]), (2009387, 2, [(1471, 1)]), (88413029, 2, [(2009387, 1)]), (9223372036854772061, 2, [(474188237, 1), (88413029, 1)])],
  [(3, 2, [(2, 1)]), (7, 2, [(3, 1)]), (43, 2, [(7, 1)]), (5, 2, [(2, 2)]), (11, 2, [(5, 1)]), (19867, 2, [(43, 1), (11, 1)]), (17999503, 2, [(19867, 1)]), (71998013, 2, [(17999503, 1)]), (1871948339, 2, [(71998013, 1)]), (13, 2, [(3, 1), (2, 2)]), (53, 2, [(13, 1)]), (23, 2, [(11, 1)]), (65827, 2, [(53, 1), (23, 1)]), (9223372036854772051, 2, [(1871948339, 1), (65827, 1)])],
  [(3, 2, [(2, 1)]), (97, 5, [(3, 1), (2, 5)]), (6791, 2, [(97, 1)]), (5, 2, [(2, 2)]), (151, 3, [(5, 2)]), (605010191, 2, [(6791, 1), (151, 1)]), (46582687054822081, 2, [(605010191, 1)]), (9223372036854772039, 2, [(46582687054822081, 1)])],
  [(5, 2, [(2, 2)]), (3, 2, [(2, 1)]), (61, 2, [(5, 1), (3, 1)]), (367, 2, [(61, 1)]), (65327, 2, [(367, 1)]), (7, 2, [(3, 1)]), (127, 3, [(7, 1), (3, 2)]), (5843, 2, [(127, 1)]), (35059, 2, [(5843, 1)]), (691670386487, 2, [(65327, 1), (35059, 1)]), (9223372036854771989, 2, [(691670386487, 1)])],
  [(3, 2, [(2, 1)]), (13, 2, [(3, 1), (2, 2)]), (79, 2, [(13, 1)]), (293723, 2, [(79, 1), (13, 2)]), (1015106689, 2, [(293723, 1)]), (17, 3, [(2, 4)]), (5, 2, [(2, 2)]), (2551, 2, [(17, 1), (5, 2)]), (9223372036854771977, 2, [(1015106689, 1), (2551, 1)])],
  [(5, 2, [(2, 2)]), (41, 6, [(5, 1), (2, 3)]), (83, 2, [(41, 1)]), (29881, 2, [(83, 1), (5, 1)]), (53785801, 2, [(29881, 1)]), (322714807, 2, [(53785801, 1)]), (2706931801117, 2, [(322714807, 1)]), (9223372036854771973, 2, [(2706931801117, 1)])],
  [(3, 2, [(2, 1)]), (7, 2, [(3, 1)]), (24697, 2, [(7, 3)]), (109, 3, [(3, 3)]), (2617, 2, [(109, 1)]), (410672039347, 2, [(24697, 1), (2617, 1)]), (9223372036854771953, 2, [(410672039347, 1)])],
  [(3, 2, [(2, 1)]), (7, 2, [(3, 1)]), (29, 2, [(7, 1)]), (17, 3, [(2, 4)]), (11833, 2, [(29, 1), (17, 1)]), (257, 3, [(2, 8)]), (1222514563, 2, [(11833, 1), (257, 1)]), (5, 2, [(2, 2)]), (11, 2, [(5, 1)]), (1277, 2, [(29, 1), (11, 1)]), (48527, 2, [(1277, 1)]), (7667267, 2, [(48527, 1)]), (2305843009213692967, 2, [(1222514563, 1), (7667267, 1)]), (9223372036854771869, 2, [(2305843009213692967, 1)])],
  [(3, 2, [(2, 1)]), (97, 5, [(3, 1), (2, 5)]), (6791, 2, [(97, 1)]), (5, 2, [(2, 2)]), (151, 3, [(5, 2)]), (605010191, 2, [(6791, 1), (151, 1)]), (577, 5, [(3, 2), (2, 6)]), (9223372036854771841, 2, [(605010191, 1), (577, 1)])],
  [(3, 2, [(2, 1)]), (7, 2, [(3, 1)]), (491, 2, [(7, 2)]), (42227, 2, [(491, 1)]), (5, 2, [(2, 2)]), (11, 2, [(5, 1)]), (23, 2, [(11, 1)]), (139, 2, [(23, 1)]), (2503, 2, [(139, 1)]), (81384519371, 2, [(42227, 1), (2503, 1)]), (9223372036854771833, 2, [(81384519371, 1)])],
  [(3, 2, [(2, 1)]), (13, 2, [(3, 1), (2, 2)]), (5, 2, [(2, 2)]), (11, 2, [(5, 1)]), (8009, 2, [(13, 1), (11, 1)]), (544613, 2, [(8009, 1)]), (1089227, 2, [(544613, 1)]), (65353621, 2, [(1089227, 1)]), (84698292817, 2, [(65353621, 1)]), (9223372036854771797, 2, [(84698292817, 1)])],
  [(5, 2, [(2, 2)]), (3, 2, [(2, 1)]), (181, 2, [(5, 1), (3, 2)]), (1087, 2, [(181, 1)]), (17393, 2, [(1087, 1)]), (182139497, 2, [(17393, 1)]), (7390522465428503, 2, [(182139497, 1)]), (2305843009213692937, 2, [(7390522465428503, 1)]), (9223372036854771749, 2, [(2305843009213692937, 1)])],
  [(3, 2, [(2, 1)]), (7, 2, [(3, 1)]), (127, 3, [(7, 1), (3, 2)]), (509, 2, [(127, 1)]), (4073, 2, [(509, 1)]), (24439, 2, [(4073, 1)]), (2052877, 2, [(24439, 1)]), (163, 2, [(3, 4)]), (5869, 2, [(163, 1)]), (1760701, 2, [(5869, 1)]), (9223372036854771737, 2, [(2052877, 1), (1760701, 1)])],
  [(3, 2, [(2, 1)]), (13, 2, [(3, 1), (2, 2)]), (285611, 2, [(13, 4)]), (571223, 2, [(285611, 1)]), (7, 2, [(3, 1)]), (127, 3, [(7, 1), (3, 2)]), (509, 2, [(127, 1)]), (91621, 2, [(509, 1)]), (9223372036854771727, 2, [(571223, 1), (91621, 1)])],
  [(3, 2, [(2, 1)]), (13, 2, [(3, 1), (2, 2)]), (313, 2, [(13, 1), (3, 1)]), (5, 2, [(2, 2)]), (41, 6, [(5, 1), (2, 3)]), (83, 2, [(41, 1)]), (167, 2, [(83, 1)]), (104543, 2, [(313, 1), (167, 1)]), (7, 2, [(3, 1)]), (29, 2, [(7, 1)]), (59, 2, [(29, 1)]), (1889, 2, [(59, 1)]), (1291530494581, 2, [(104543, 1), (1889, 1)]), (54244280772403, 2, [(1291530494581, 1)]), (9223372036854771703, 2, [(54244280772403, 1)])],
  [(3, 2, [(2, 1)]), (37, 2, [(3, 2)]), (1777, 3, [(37, 1), (3, 1)]), (7109, 2, [(1777, 1)]), (5, 2, [(2, 2)]), (181, 2, [(5, 1), (3, 2)]), (1087, 2, [(181, 1)]), (41, 6, [(5, 1), (2, 3)]), (89994653392151, 2, [(7109, 1), (1087, 1), (41, 1)]), (9223372036854771689, 2, [(89994653392151, 1)])]]
lemma certs63_3_ok : certs63_3.all (fun c => checkChain c [2]) = true := by decide +kernel

/-- certificates of table entries 100.. -/
def certs63_4 : List (List CertEntry) := [
  [(3, 2, [(2, 1)]), (97, 5, [(3, 1), (2, 5)]), (19, 2, [(3, 2)]), (129011, 2, [(97, 1), (19, 1)]), (23221981, 2, [(129011, 1)]), (5, 2, [(2, 2)]), (11, 2, [(5, 1)]), (23, 2, [(11, 1)]), (2359801, 2, [(23, 1), (19, 1), (5, 2)]), (9223372036854771673, 2, [(23221981, 1), (2359801, 1)])],
  [(5, 2, [(2, 2)]), (11, 2, [(5, 1)]), (661, 2, [(11, 1), (5, 1)]), (3967, 2, [(661, 1)]), (63473, 2, [(3967, 1)]), (17, 3, [(2, 4)]), (103, 2, [(17, 1)]), (619, 2, [(103, 1)]), (2477, 2, [(619, 1)]), (82070208163, 2, [(63473, 1), (2477, 1)]), (9223372036854771613, 2, [(82070208163, 1)])],
  [(3, 2, [(2, 1)]), (7, 2, [(3, 1)]), (127, 3, [(7, 1), (3, 2)]), (2287, 2, [(127, 1)]), (13723, 2, [(2287, 1)]), (5, 2, [(2, 2)]), (61, 2, [(5, 1), (3, 1)]), (19, 2, [(3, 2)]), (4637, 2, [(61, 1), (19, 1)]), (47088827741, 2, [(13723, 1), (4637, 1)]), (9223372036854771571, 2, [(47088827741, 1)])],
  [(3, 2, [(2, 1)]), (13, 2, [(3, 1), (2, 2)]), (157, 2, [(13, 1)]), (5653, 2, [(157, 1)]), (79, 2, [(13, 1)]), (1423, 2, [(79, 1)]), (10167892817, 2, [(5653, 1), (1423, 1)]), (105136011727781, 2, [(10167892817, 1)]), (9223372036854771569, 2, [(105136011727781, 1)])],
  [(5, 2, [(2, 2)]), (11, 2, [(5, 1)]), (23, 2, [(11, 1)]), (47, 2, [(23, 1)]), (3, 2, [(2, 1)]), (4513, 7, [(47, 1), (3, 1)]), (37, 2, [(3, 2)]), (22709417, 2, [(4513, 1), (37, 1)]), (7, 2, [(3, 1)]), (43, 2, [(7, 1)]), (41, 6, [(5, 1), (2, 3)]), (24683, 2, [(43, 1), (41, 1)]), (9223372036854771563, 2, [(22709417, 1), (24683, 1)])],
  [(3, 2, [(2, 1)]), (37, 2, [(3, 2)]), (7, 2, [(3, 1)]), (23311, 3, [(37, 1), (7, 1)]), (29, 2, [(7, 1)]), (59, 2, [(29, 1)]), (709, 2, [(59, 1)]), (2837, 2, [(709, 1)]), (925866299, 2, [(23311, 1), (2837, 1)]), (2263959753768967, 2, [(925866299, 1)]), (9223372036854771559, 2, [(2263959753768967, 1)])],
  [(3, 2, [(2, 1)]), (13, 2, [(3, 1), (2, 2)]), (5, 2, [(2, 2)]), (11, 2, [(5, 1)]), (8009, 2, [(13, 1), (11, 1)]), (144163, 2, [(8009, 1)]), (122538551, 2, [(144163, 1)]), (458294180741, 2, [(122538551, 1)]), (3666353445929, 2, [(458294180741, 1)]), (87992482702297, 2, [(3666353445929, 1)]), (9223372036854771541, 2, [(87992482702297, 1)])],
  [(5, 2, [(2, 2)]), (3, 2, [(2, 1)]), (241, 7, [(5, 1), (3, 1), (2, 4)]), (1447, 2, [(241, 1)]), (78139, 2, [(1447, 1)]), (1875337, 2, [(78139, 1)]), (3295803509303, 2, [(1875337, 1)]), (65916070186061, 2, [(3295803509303, 1)]), (9223372036854771487, 2, [(65916070186061, 1)])],
  [(3, 2, [(2, 1)]), (13, 2, [(3, 1), (2, 2)]), (79, 2, [(13, 1)]), (7, 2, [(3, 1)]), (29, 2, [(7, 1)]), (59, 2, [(29, 1)]), (9323, 2, [(79, 1), (59, 1)]), (673, 5, [(7, 1), (3, 1), (2, 5)]), (371342846737, 2, [(9323, 1), (673, 1)]), (9223372036854771457, 2, [(371342846737, 1)])],
  [(5, 2, [(2, 2)]), (3, 2, [(2, 1)]), (31, 3, [(5, 1), (3, 1)]), (7, 2, [(3, 1)]), (31249, 2, [(31, 1), (7, 1)]), (17, 3, [(2, 4)]), (1531, 2, [(17, 1), (5, 1)]), (7654755041, 2, [(31249, 1), (1531, 1)]), (343514787219917, 2, [(7654755041, 1)]), (9223372036854771451, 2, [(343514787219917, 1)])],
  [(3, 2, [(2, 1)]), (13, 2, [(3, 1), (2, 2)]), (131, 2, [(13, 1)]), (1049, 2, [(131, 1)]), (151057, 2, [(1049, 1)]), (2719027, 2, [(151057, 1)]), (67181719117, 2, [(2719027, 1)]), (4611686018427385619, 2, [(67181719117, 1)]), (9223372036854771239, 2, [(4611686018427385619, 1)])],
  [(3, 2, [(2, 1)]), (37, 2, [(3, 2)]), (7, 2, [(3, 1)]), (6217, 2, [(37, 1), (7, 1)]), (62171, 2, [(6217, 1)]), (50482853, 2, [(62171, 1)]), (5, 2, [(2, 2)]), (41, 6, [(5, 1), (2, 3)]), (83, 2, [(41, 1)]), (11, 2, [(5, 1)]), (10957, 2, [(83, 1), (11, 1)]), (271275648142787389, 2, [(50482853, 1), (10957, 1)]), (9223372036854771227, 2, [(271275648142787389, 1)])],
  [(3, 2, [(2, 1)]), (7, 2, [(3, 1)]), (43, 2, [(7, 1)]), (173, 2, [(43, 1)]), (347, 2, [(173, 1)]), (2083, 2, [(347, 1)]), (5, 2, [(2, 2)]), (11, 2, [(5, 1)]), (67, 2, [(11, 1)]), (42705667, 2, [(2083, 1), (67, 1)]), (23, 2, [(11, 1)]), (829, 2, [(23, 1), (3, 2)]), (58031, 2, [(829, 1)]), (9223372036854771149, 2, [(42705667, 1), (58031, 1)])],
  [(5, 2, [(2, 2)]), (101, 2, [(5, 2)]), (3, 2, [(2, 1)]), (7, 2, [(3, 1)]), (29, 2, [(7, 1)]), (140593, 2, [(101, 1), (29, 1)]), (843559, 2, [(140593, 1)]), (151840621, 2, [(843559, 1)]), (5824909902803, 2, [(151840621, 1)]), (9223372036854771109, 2, [(5824909902803, 1)])],
  [(5, 2, [(2, 2)]), (11, 2, [(5, 1)]), (23, 2, [(11, 1)]), (47, 2, [(23, 1)]), (3, 2, [(2, 1)]), (37, 2, [(3, 2)]), (243461, 2, [(47, 1), (37, 1)]), (16068427, 2, [(243461, 1)]), (7, 2, [(3, 1)]), (211, 2, [(7, 1), (5, 1)]), (29, 2, [(7, 1)]), (59, 2, [(29, 1)]), (398369, 2, [(211, 1), (59, 1)]), (9223372036854771071, 2, [(16068427, 1), (398369, 1)])],
  [(5, 2, [(2, 2)]), (11, 2, [(5, 1)]), (3631, 2, [(11, 2)]), (3, 2, [(2, 1)]), (7, 2, [(3, 1)]), (29, 2, [(7, 1)]), (59, 2, [(29, 1)]), (827, 2, [(59, 1)]), (1069009973, 2, [(3631, 1), (827, 1)]), (1031466342748241, 2, [(1069009973, 1)]), (9223372036854771023, 2, [(1031466342748241, 1)])],
  [(17, 3, [(2, 4)]), (3, 2, [(2, 1)]), (7, 2, [(3, 1)]), (953, 3, [(17, 1), (7, 1)]), (5, 2, [(2, 2)]), (251, 3, [(5, 3)]), (1435219, 2, [(953, 1), (251, 1)]), (232505479, 2, [(1435219, 1)]), (29, 2, [(7, 1)]), (59, 2, [(29, 1)]), (11, 2, [(5, 1)]), (31153, 3, [(59, 1), (11, 1)]), (88686269585142029, 2, [(232505479, 1), (31153, 1)]), (9223372036854771017, 2, [(88686269585142029, 1)])],
  [(17, 3, [(2, 4)]), (5, 2, [(2, 2)]), (1531, 2, [(17, 1), (5, 1)]), (872671, 2, [(1531, 1)]), (8334008051, 2, [(872671, 1)]), (9223372036854770939, 2, [(8334008051, 1)])],
  [(3, 2, [(2, 1)]), (7, 2, [(3, 1)]), (5, 2, [(2, 2)]), (701, 2, [(7, 1), (5, 2)]), (68699, 2, [(701, 1)]), (13190209, 2, [(68699, 1)]), (23109246169, 2, [(13190209, 1)]), (92298329198987, 2, [(23109246169, 1)]), (9223372036854770911, 2, [(92298329198987, 1)])],
  [(5, 2, [(2, 2)]), (22501, 2, [(5, 4)]), (1575071, 2, [(22501, 1)]), (18900853, 2, [(1575071, 1)]), (3, 2, [(2, 1)]), (37, 2, [(3, 2)]), (223, 2, [(37, 1)]), (11, 2, [(5, 1)]), (809491, 2, [(223, 1), (11, 2)]), (121360158379668037, 2, [(18900853, 1), (809491, 1)]), (9223372036854770813, 2, [(121360158379668037, 1)])],
  [(3, 2, [(2, 1)]), (7, 2, [(3, 1)]), (43, 2, [(7, 1)]), (13, 2, [(3, 1), (2, 2)]), (5591, 2, [(43, 1), (13, 1)]), (33547, 2, [(5591, 1)]), (14223929, 2, [(33547, 1)]), (5, 2, [(2, 2)]), (11, 2, [(5, 1)]), (23, 2, [(11, 1)]), (47, 2, [(23, 1)]), (283, 2, [(47, 1)]), (16981, 2, [(283, 1)]), (1222633, 2, [(16981, 1)]), (9223372036854770749, 2, [(14223929, 1), (1222633, 1)])],
  [(3, 2, [(2, 1)]), (7, 2, [(3, 1)]), (5, 2, [(2, 2)]), (211, 2, [(7, 1), (5, 1)]), (29, 2, [(7, 1)]), (232523, 2, [(211, 1), (29, 1)]), (4650461, 2, [(232523, 1)]), (17, 3, [(2, 4)]), (239, 2, [(17, 1)]), (479, 2, [(239, 1)]), (71, 2, [(7, 1), (5, 1)]), (748199, 2, [(479, 1), (71, 1)]), (1496399, 2, [(748199, 1)]), (9223372036854770723, 2, [(4650461, 1), (1496399, 1)])],
  [(5, 2, [(2, 2)]), (11, 2, [(5, 1)]), (23, 2, [(11, 1)]), (3, 2, [(2, 1)]), (7, 2, [(3, 1)]), (1391041, 2, [(23, 1), (7, 1), (5, 1), (3, 3)]), (31, 3, [(5, 1), (3, 1)]), (311, 2, [(31, 1)]), (11197, 2, [(311, 1)]), (35418655339099, 2, [(1391041, 1), (11197, 1)]), (9223372036854770591, 2, [(35418655339099, 1)])],
  [(5, 2, [(2, 2)]), (11, 2, [(5, 1)]), (3, 2, [(2, 1)]), (199, 2, [(11, 1), (3, 2)]), (17, 3, [(2, 4)]), (121789, 3, [(199, 1), (17, 1)]), (23, 2, [(11, 1)]), (7, 2, [(3, 1)]), (967, 2, [(23, 1), (7, 1)]), (7281716812291, 2, [(121789, 1), (967, 1)]), (9223372036854770569, 2, [(7281716812291, 1)])],
  [(5, 2, [(2, 2)]), (11, 2, [(5, 1)]), (67, 2, [(11, 1)]), (14741, 2, [(67, 1), (11, 1)]), (3, 2, [(2, 1)]), (769, 11, [(3, 1), (2, 8)]), (446994409129, 2, [(14741, 1), (769, 1)]), (1787977636517, 2, [(446994409129, 1)]), (9223372036854770351, 2, [(1787977636517, 1)])]]
lemma certs63_4_ok : certs63_4.all (fun c => checkChain c [2]) = true := by decide +kernel

/-- certificates of table entries 125.. -/
def certs63_5 : List (List CertEntry) := [
  [(3, 2, [(2, 1)]), (7, 2, [(3, 1)]), (29, 2, [(7, 1)]), (5, 2, [(2, 2)]), (1451, 2, [(29, 1), (5, 2)]), (2903, 2, [(1451, 1)]), (5807, 2, [(2903, 1)]), (13, 2, [(3, 1), (2, 2)]), (53, 2, [(13, 1)]), (743, 2, [(53, 1)]), (11000109766309, 2, [(5807, 1), (743, 1)]), (9223372036854770321, 2, [(11000109766309, 1)])],
  [(5, 2, [(2, 2)]), (3, 2, [(2, 1)]), (271, 2, [(5, 1), (3, 3)]), (34147, 2, [(271, 1)]), (5736697, 2, [(34147, 1)]), (13, 2, [(3, 1), (2, 2)]), (7, 2, [(3, 1)]), (547, 2, [(13, 1), (7, 1)]), (9223372036854770309, 2, [(5736697, 1), (547, 1)])],
  [(5, 2, [(2, 2)]), (3, 2, [(2, 1)]), (61, 2, [(5, 1), (3, 1)]), (6101, 2, [(61, 1), (5, 2)]), (12203, 2, [(6101, 1)]), (86641301, 2, [(12203, 1)]), (6038032266691, 2, [(86641301, 1)]), (9223372036854770287, 2, [(6038032266691, 1)])],
  [(5, 2, [(2, 2)]), (3, 2, [(2, 1)]), (31, 3, [(5, 1), (3, 1)]), (27901, 2, [(31, 1), (5, 2)]), (158198671, 2, [(27901, 1)]), (59799097639, 2, [(158198671, 1)]), (9223372036854770203, 2, [(59799097639, 1)])],
  [(5, 2, [(2, 2)]), (3, 2, [(2, 1)]), (31, 3, [(5, 1), (3, 1)]), (311, 2, [(31, 1)]), (1867, 2, [(311, 1)]), (66192619, 2, [(1867, 1), (311, 1)]), (264770477, 2, [(66192619, 1)]), (42145105446953, 2, [(264770477, 1)]), (1152921504606846269, 2, [(42145105446953, 1)]), (9223372036854770153, 2, [(1152921504606846269, 1)])],
  [(5, 2, [(2, 2)]), (11, 2, [(5, 1)]), (23, 2, [(11, 1)]), (47, 2, [(23, 1)]), (283, 2, [(47, 1)]), (3, 2, [(2, 1)]), (37, 2, [(3, 2)]), (104711, 2, [(283, 1), (37, 1)]), (628267, 2, [(104711, 1)]), (22515832747, 2, [(628267, 1)]), (30340039594917007, 2, [(22515832747, 1)]), (9223372036854770129, 2, [(30340039594917007, 1)])],
  [(5, 2, [(2, 2)]), (11, 2, [(5, 1)]), (3, 2, [(2, 1)]), (7, 2, [(3, 1)]), (463, 2, [(11, 1), (7, 1)]), (23, 2, [(11, 1)]), (9136843, 2, [(463, 1), (23, 1)]), (491, 2, [(7, 2)]), (54011, 2, [(491, 1)]), (4611686018427385013, 2, [(9136843, 1), (54011, 1)]), (9223372036854770027, 2, [(4611686018427385013, 1)])],
  [(17, 3, [(2, 4)]), (103, 2, [(17, 1)]), (3, 2, [(2, 1)]), (13, 2, [(3, 1), (2, 2)]), (53, 2, [(13, 1)]), (6649063, 2, [(103, 1), (53, 1)]), (944166947, 2, [(6649063, 1)]), (79310023549, 2, [(944166947, 1)]), (9223372036854769939, 2, [(79310023549, 1)])],
  [(3, 2, [(2, 1)]), (19, 2, [(3, 2)]), (5, 2, [(2, 2)]), (1901, 2, [(19, 1), (5, 2)]), (11, 2, [(5, 1)]), (881, 2, [(11, 1), (5, 1)]), (87088613, 2, [(1901, 1), (881, 1)]), (522531679, 2, [(87088613, 1)]), (7, 2, [(3, 1)]), (29, 2, [(7, 1)]), (59, 2, [(29, 1)]), (13, 2, [(3, 1), (2, 2)]), (53, 2, [(13, 1)]), (656671, 2, [(59, 1), (53, 1)]), (9223372036854769921, 2, [(522531679, 1), (656671, 1)])],
  [(3, 2, [(2, 1)]), (109, 3, [(3, 3)]), (2617, 2, [(109, 1)]), (141319, 2, [(2617, 1)]), (5, 2, [(2, 2)]), (11, 2, [(5, 1)]), (199, 2, [(11, 1), (3, 2)]), (13, 2, [(3, 1), (2, 2)]), (46567, 2, [(199, 1), (13, 1)]), (372420739596817, 2, [(141319, 1), (46567, 1)]), (9223372036854769823, 2, [(372420739596817, 1)])],
  [(5, 2, [(2, 2)]), (3001, 2, [(5, 3)]), (210071, 2, [(3001, 1)]), (11, 2, [(5, 1)]), (3, 2, [(2, 1)]), (397, 3, [(11, 1), (3, 2)]), (58211934527, 2, [(210071, 1), (397, 1)]), (103500819589007, 2, [(58211934527, 1)]), (9223372036854769799, 2, [(103500819589007, 1)])],
  [(3, 2, [(2, 1)]), (7, 2, [(3, 1)]), (29, 2, [(7, 1)]), (19, 2, [(3, 2)]), (27551, 2, [(29, 1), (19, 1)]), (5, 2, [(2, 2)]), (11, 2, [(5, 1)]), (11617, 2, [(11, 2)]), (13, 2, [(3, 1), (2, 2)]), (157, 2, [(13, 1)]), (5653, 2, [(157, 1)]), (4611686018427384881, 2, [(27551, 1), (11617, 1), (5653, 1)]), (9223372036854769763, 2, [(4611686018427384881, 1)])],
  [(3, 2, [(2, 1)]), (97, 5, [(3, 1), (2, 5)]), (389, 2, [(97, 1)]), (109, 3, [(3, 3)]), (12215304091, 2, [(389, 1), (109, 1), (97, 1)]), (9223372036854769721, 2, [(12215304091, 1)])],
  [(3, 2, [(2, 1)]), (7, 2, [(3, 1)]), (29, 2, [(7, 1)]), (59, 2, [(29, 1)]), (5, 2, [(2, 2)]), (11, 2, [(5, 1)]), (6491, 2, [(59, 1), (11, 1)]), (12983, 2, [(6491, 1)]), (43, 2, [(7, 1)]), (6913603297, 2, [(12983, 1), (43, 2)]), (318025751663, 2, [(6913603297, 1)]), (9223372036854769459, 2, [(318025751663, 1)])],
  [(3, 2, [(2, 1)]), (19, 2, [(3, 2)]), (457, 3, [(19, 1), (3, 1)]), (21023, 2, [(457, 1)]), (33426571, 2, [(21023, 1)]), (524061780139, 2, [(33426571, 1)]), (9223372036854769421, 2, [(524061780139, 1)])],
  [(3, 2, [(2, 1)]), (19, 2, [(3, 2)]), (191, 2, [(19, 1)]), (6113, 2, [(191, 1)]), (12227, 2, [(6113, 1)]), (73363, 2, [(12227, 1)]), (5, 2, [(2, 2)]), (31, 3, [(5, 1), (3, 1)]), (7, 2, [(3, 1)]), (3907, 2, [(31, 1), (7, 1)]), (15629, 2, [(3907, 1)]), (31259, 2, [(15629, 1)]), (35238141225223, 2, [(73363, 1), (31259, 1)]), (20226693063278003, 2, [(35238141225223, 1)]), (9223372036854769369, 2, [(20226693063278003, 1)])],
  [(5, 2, [(2, 2)]), (11, 2, [(5, 1)]), (89, 2, [(11, 1)]), (179, 2, [(89, 1)]), (3, 2, [(2, 1)]), (73, 2, [(3, 2)]), (4312111, 2, [(179, 1), (73, 1)]), (61, 2, [(5, 1), (3, 1)]), (13, 2, [(3, 1), (2, 2)]), (4759, 2, [(61, 1), (13, 1)]), (41863525947961, 2, [(4312111, 1), (4759, 1)]), (5023623113755321, 2, [(41863525947961, 1)]), (9223372036854769357, 2, [(5023623113755321, 1)])],
  [(3, 2, [(2, 1)]), (7, 2, [(3, 1)]), (5, 2, [(2, 2)]), (33601, 3, [(7, 1), (5, 2), (3, 1)]), (940829, 2, [(33601, 1)]), (863681023, 2, [(940829, 1)]), (19, 2, [(3, 2)]), (17, 3, [(2, 4)]), (647, 2, [(19, 1), (17, 1)]), (23293, 2, [(647, 1)]), (9223372036854769331, 2, [(863681023, 1), (23293, 1)])],
  [(5, 2, [(2, 2)]), (41, 6, [(5, 1), (2, 3)]), (3691, 2, [(41, 1), (5, 1)]), (22147, 2, [(3691, 1)]), (445774817, 2, [(22147, 1)]), (35341027491761, 2, [(445774817, 1)]), (9223372036854769303, 2, [(35341027491761, 1)])],
  [(5, 2, [(2, 2)]), (11, 2, [(5, 1)]), (3, 2, [(2, 1)]), (397, 3, [(11, 1), (3, 2)]), (13499, 2, [(397, 1)]), (11042183, 2, [(13499, 1)]), (348778392239, 2, [(11042183, 1)]), (9223372036854769289, 2, [(348778392239, 1)])],
  [(3, 2, [(2, 1)]), (487, 2, [(3, 5)]), (5, 2, [(2, 2)]), (31, 3, [(5, 1), (3, 1)]), (311, 2, [(31, 1)]), (11425916081, 2, [(487, 1), (311, 1)]), (9223372036854769249, 2, [(11425916081, 1)])],
  [(5, 2, [(2, 2)]), (11, 2, [(5, 1)]), (3, 2, [(2, 1)]), (397, 3, [(11, 1), (3, 2)]), (97, 5, [(3, 1), (2, 5)]), (389, 2, [(97, 1)]), (560591791, 2, [(397, 1), (389, 1)]), (7, 2, [(3, 1)]), (71, 2, [(7, 1), (5, 1)]), (13, 2, [(3, 1), (2, 2)]), (53, 2, [(13, 1)]), (270937, 2, [(71, 1), (53, 1)]), (9223372036854769243, 2, [(560591791, 1), (270937, 1)])],
  [(5, 2, [(2, 2)]), (11, 2, [(5, 1)]), (67, 2, [(11, 1)]), (269, 2, [(67, 1)]), (20983, 2, [(269, 1)]), (125899, 2, [(20983, 1)]), (2266183, 2, [(125899, 1)]), (122373883, 2, [(2266183, 1)]), (17, 3, [(2, 4)]), (3, 2, [(2, 1)]), (307, 5, [(17, 1), (3, 2)]), (109, 3, [(3, 3)]), (200779, 2, [(307, 1), (109, 1)]), (9223372036854769231, 2, [(122373883, 1), (200779, 1)])],
  [(5, 2, [(2, 2)]), (3, 2, [(2, 1)]), (61, 2, [(5, 1), (3, 1)]), (19, 2, [(3, 2)]), (4637, 2, [(61, 1), (19, 1)]), (17, 3, [(2, 4)]), (43355951, 2, [(4637, 1), (17, 1)]), (2161, 2, [(5, 1), (3, 3)]), (7, 2, [(3, 1)]), (757, 2, [(7, 1), (3, 3)]), (9815263, 3, [(2161, 1), (757, 1)]), (9223372036854769163, 2, [(43355951, 1), (9815263, 1)])],
  [(5, 2, [(2, 2)]), (3001, 2, [(5, 3)]), (3199067, 2, [(3001, 1)]), (52131995833, 2, [(3199067, 1)]), (625583949997, 2, [(52131995833, 1)]), (9223372036854769141, 2, [(625583949997, 1)])]]
lemma certs63_5_ok : certs63_5.all (fun c => checkChain c [2]) = true := by decide +kernel

/-- certificates of table entries 150.. -/
def certs63_6 : List (List CertEntry) := [
  [(5, 2, [(2, 2)]), (3, 2, [(2, 1)]), (61, 2, [(5, 1), (3, 1)]), (41, 6, [(5, 1), (2, 3)]), (5003, 2, [(61, 1), (41, 1)]), (8865317, 2, [(5003, 1)]), (14255429737, 2, [(8865317, 1)]), (9223372036854769103, 2, [(14255429737, 1)])],
  [(5, 2, [(2, 2)]), (3, 2, [(2, 1)]), (181, 2, [(5, 1), (3, 2)]), (1811, 2, [(181, 1)]), (17, 3, [(2, 4)]), (239, 2, [(17, 1)]), (479, 2, [(239, 1)]), (123692404711, 2, [(1811, 1), (479, 1)]), (695893468904087, 2, [(123692404711, 1)]), (9223372036854769099, 2, [(695893468904087, 1)])],
  [(3, 2, [(2, 1)]), (13, 2, [(3, 1), (2, 2)]), (7, 2, [(3, 1)]), (8737, 2, [(13, 1), (7, 1), (3, 1)]), (34949, 2, [(8737, 1)]), (1158559351, 2, [(34949, 1)]), (192538661423989, 2, [(1158559351, 1)]), (1537228672809128177, 2, [(192538661423989, 1)]), (9223372036854769063, 2, [(1537228672809128177, 1)])],
  [(5, 2, [(2, 2)]), (3, 2, [(2, 1)]), (31, 3, [(5, 1), (3, 1)]), (1117, 2, [(31, 1), (3, 2)]), (31277, 2, [(1117, 1)]), (562987, 2, [(31277, 1)]), (3377923, 2, [(562987, 1)]), (2970241473131, 2, [(3377923, 1)]), (9223372036854769061, 2, [(2970241473131, 1)])],
  [(3, 2, [(2, 1)]), (73, 2, [(3, 2)]), (5, 2, [(2, 2)]), (11, 2, [(5, 1)]), (23, 2, [(11, 1)]), (627947, 2, [(73, 1), (23, 1)]), (17, 3, [(2, 4)]), (137, 2, [(17, 1)]), (95551260119911, 2, [(627947, 1), (137, 1)]), (9223372036854769009, 2, [(95551260119911, 1)])],
  [(3, 2, [(2, 1)]), (13, 2, [(3, 1), (2, 2)]), (53, 2, [(13, 1)]), (107, 2, [(53, 1)]), (6421, 2, [(107, 1)]), (22922971, 2, [(6421, 1)]), (10374203139529, 2, [(22922971, 1)]), (9223372036854768973, 2, [(10374203139529, 1)])],
  [(5, 2, [(2, 2)]), (41, 6, [(5, 1), (2, 3)]), (3, 2, [(2, 1)]), (2953, 3, [(41, 1), (3, 2)]), (11, 2, [(5, 1)]), (67, 2, [(11, 1)]), (45110029, 2, [(2953, 1), (67, 1)]), (19, 2, [(3, 2)]), (419, 2, [(19, 1), (11, 1)]), (20113, 2, [(419, 1)]), (9223372036854768967, 2, [(45110029, 1), (20113, 1)])],
  [(3, 2, [(2, 1)]), (7, 2, [(3, 1)]), (29, 2, [(7, 1)]), (59, 2, [(29, 1)]), (5, 2, [(2, 2)]), (11, 2, [(5, 1)]), (27259, 2, [(59, 1), (11, 1)]), (109037, 2, [(27259, 1)]), (654223, 2, [(109037, 1)]), (84528228493, 2, [(654223, 1)]), (9223372036854768841, 2, [(84528228493, 1)])],
  [(3, 2, [(2, 1)]), (7, 2, [(3, 1)]), (29, 2, [(7, 1)]), (9397, 2, [(29, 1), (3, 4)]), (13, 2, [(3, 1), (2, 2)]), (79, 2, [(13, 1)]), (138079519, 2, [(9397, 1), (79, 1)]), (552318077, 2, [(138079519, 1)]), (5, 2, [(2, 2)]), (151, 3, [(5, 2)]), (2719, 2, [(151, 1)]), (353471, 2, [(2719, 1)]), (21915203, 2, [(353471, 1)]), (9223372036854768823, 2, [(552318077, 1), (21915203, 1)])],
  [(3, 2, [(2, 1)]), (17497, 2, [(3, 7)]), (5, 2, [(2, 2)]), (31, 3, [(5, 1), (3, 1)]), (11, 2, [(5, 1)]), (23, 2, [(11, 1)]), (1427, 2, [(31, 1), (23, 1)]), (67763746367, 2, [(17497, 1), (1427, 1)]), (9223372036854768773, 2, [(67763746367, 1)])],
  [(3, 2, [(2, 1)]), (109, 3, [(3, 3)]), (17, 3, [(2, 4)]), (48179, 2, [(109, 1), (17, 1)]), (6166913, 2, [(48179, 1)]), (142122676999, 2, [(6166913, 1)]), (9223372036854768743, 2, [(142122676999, 1)])],
  [(3, 2, [(2, 1)]), (7, 2, [(3, 1)]), (29, 2, [(7, 1)]), (349, 2, [(29, 1)]), (5, 2, [(2, 2)]), (41, 6, [(5, 1), (2, 3)]), (83, 2, [(41, 1)]), (3360173, 2, [(349, 1), (83, 1)]), (19, 2, [(3, 2)]), (13, 2, [(3, 1), (2, 2)]), (4447, 2, [(19, 1), (13, 1)]), (17789, 2, [(4447, 1)]), (1537228672809128113, 2, [(3360173, 1), (17789, 1)]), (9223372036854768679, 2, [(1537228672809128113, 1)])],
  [(17, 3, [(2, 4)]), (239, 2, [(17, 1)]), (3347, 2, [(239, 1)]), (100411, 2, [(3347, 1)]), (96997027, 2, [(100411, 1)]), (3, 2, [(2, 1)]), (13, 2, [(3, 1), (2, 2)]), (79, 2, [(13, 1)]), (65729, 2, [(79, 1), (13, 1)]), (9223372036854768539, 2, [(96997027, 1), (65729, 1)])],
  [(5, 2, [(2, 2)]), (641, 3, [(5, 1), (2, 7)]), (49999, 2, [(641, 1)]), (107697847, 2, [(49999, 1)]), (21808167830419, 2, [(107697847, 1)]), (9223372036854768509, 2, [(21808167830419, 1)])],
  [(3, 2, [(2, 1)]), (97, 5, [(3, 1), (2, 5)]), (3881, 2, [(97, 1)]), (10020743, 2, [(3881, 1)]), (8004509383943, 2, [(10020743, 1)]), (9223372036854768497, 2, [(8004509383943, 1)])],
  [(3, 2, [(2, 1)]), (13, 2, [(3, 1), (2, 2)]), (5, 2, [(2, 2)]), (11, 2, [(5, 1)]), (13729, 2, [(13, 1), (11, 1)]), (23, 2, [(11, 1)]), (47, 2, [(23, 1)]), (1886749013, 2, [(13729, 1), (47, 1)]), (7, 2, [(3, 1)]), (547, 2, [(13, 1), (7, 1)]), (31, 3, [(5, 1), (3, 1)]), (43647319, 2, [(547, 1), (31, 1)]), (4611686018427384233, 2, [(1886749013, 1), (43647319, 1)]), (9223372036854768467, 2, [(4611686018427384233, 1)])],
  [(3, 2, [(2, 1)]), (97, 5, [(3, 1), (2, 5)]), (19, 2, [(3, 2)]), (1946209, 2, [(97, 1), (19, 1)]), (5, 2, [(2, 2)]), (31, 3, [(5, 1), (3, 1)]), (1861, 2, [(31, 1), (5, 1)]), (241931, 2, [(1861, 1)]), (483863, 2, [(241931, 1)]), (41434735116149, 2, [(1946209, 1), (483863, 1)]), (8784163844623589, 2, [(41434735116149, 1)]), (9223372036854768451, 2, [(8784163844623589, 1)])],
  [(5, 2, [(2, 2)]), (41, 6, [(5, 1), (2, 3)]), (12301, 2, [(41, 1), (5, 2)]), (196817, 2, [(12301, 1)]), (78629178769, 2, [(196817, 1), (41, 1)]), (9223372036854768427, 2, [(78629178769, 1)])],
  [(3, 2, [(2, 1)]), (193, 5, [(3, 1), (2, 6)]), (10037, 2, [(193, 1)]), (5, 2, [(2, 2)]), (11, 2, [(5, 1)]), (199, 2, [(11, 1), (3, 2)]), (519314381, 2, [(10037, 1), (199, 1)]), (922302340657, 2, [(519314381, 1)]), (9223372036854768347, 2, [(922302340657, 1)])],
  [(3, 2, [(2, 1)]), (7, 2, [(3, 1)]), (43, 2, [(7, 1)]), (19, 2, [(3, 2)]), (4903, 2, [(43, 1), (19, 1)]), (2029843, 2, [(4903, 1)]), (3734911121, 2, [(2029843, 1)]), (9223372036854768337, 2, [(3734911121, 1)])],
  [(3, 2, [(2, 1)]), (7, 2, [(3, 1)]), (127, 3, [(7, 1), (3, 2)]), (509, 2, [(127, 1)]), (1019, 2, [(509, 1)]), (2039, 2, [(1019, 1)]), (4079, 2, [(2039, 1)]), (9871181, 2, [(4079, 1)]), (34114801537, 2, [(9871181, 1)]), (9223372036854768269, 2, [(34114801537, 1)])],
  [(5, 2, [(2, 2)]), (11, 2, [(5, 1)]), (661, 2, [(11, 1), (5, 1)]), (3, 2, [(2, 1)]), (193, 5, [(3, 1), (2, 6)]), (10460987, 2, [(661, 1), (193, 1)]), (83687897, 2, [(10460987, 1)]), (19, 2, [(3, 2)]), (17, 3, [(2, 4)]), (647, 2, [(19, 1), (17, 1)]), (9059, 2, [(647, 1)]), (9223372036854768157, 2, [(83687897, 1), (9059, 1)])],
  [(17, 3, [(2, 4)]), (3, 2, [(2, 1)]), (7, 2, [(3, 1)]), (1429, 3, [(17, 1), (7, 1)]), (40013, 2, [(1429, 1)]), (182059151, 2, [(40013, 1)]), (13, 2, [(3, 1), (2, 2)]), (5, 2, [(2, 2)]), (11, 2, [(5, 1)]), (7151, 3, [(13, 1), (11, 1)]), (14303, 2, [(7151, 1)]), (286061, 2, [(14303, 1)]), (9223372036854768101, 2, [(182059151, 1), (286061, 1)])],
  [(3, 2, [(2, 1)]), (7, 2, [(3, 1)]), (113, 3, [(7, 1), (2, 4)]), (13, 2, [(3, 1), (2, 2)]), (1131131, 2, [(113, 1), (13, 1)]), (606286217, 2, [(1131131, 1)]), (320119122577, 2, [(606286217, 1)]), (159023655807840829, 2, [(320119122577, 1)]), (9223372036854768083, 2, [(159023655807840829, 1)])],
  [(3, 2, [(2, 1)]), (37, 2, [(3, 2)]), (149, 2, [(37, 1)]), (5, 2, [(2, 2)]), (26821, 2, [(149, 1), (5, 1)]), (268211, 2, [(26821, 1)]), (536423, 2, [(268211, 1)]), (20380855463, 2, [(536423, 1)]), (1345136460559, 2, [(20380855463, 1)]), (9223372036854767971, 2, [(1345136460559, 1)])]]
lemma certs63_6_ok : certs63_6.all (fun c => checkChain c [2]) = true := by decide +kernel

/-- certificates of table entries 175.. -/
def certs63_7 : List (List CertEntry) := [
  [(3, 2, [(2, 1)]), (7, 2, [(3, 1)]), (43, 2, [(7, 1)]), (173, 2, [(43, 1)]), (347, 2, [(173, 1)]), (6247, 2, [(347, 1)]), (587219, 2, [(6247, 1)]), (4697753, 2, [(587219, 1)]), (5, 2, [(2, 2)]), (11, 2, [(5, 1)]), (473089, 29, [(11, 1), (7, 1), (3, 1), (2, 11)]), (1892357, 2, [(473089, 1)]), (2329134352741103, 2, [(4697753, 1), (1892357, 1)]), (9223372036854767881, 2, [(2329134352741103, 1)])],
  [(3, 2, [(2, 1)]), (7, 2, [(3, 1)]), (5, 2, [(2, 2)]), (71, 2, [(7, 1), (5, 1)]), (1847, 2, [(71, 1)]), (313991, 2, [(1847, 1)]), (63142962119, 2, [(313991, 1)]), (54934377043531, 2, [(63142962119, 1)]), (9223372036854767839, 2, [(54934377043531, 1)])],
  [(3, 2, [(2, 1)]), (7, 2, [(3, 1)]), (29, 2, [(7, 1)]), (59, 2, [(29, 1)]), (838391, 2, [(59, 1), (29, 1)]), (613702213, 2, [(838391, 1)]), (5, 2, [(2, 2)]), (811, 3, [(5, 1), (3, 4)]), (9223372036854767819, 2, [(613702213, 1), (811, 1)])],
  [(3, 2, [(2, 1)]), (13, 2, [(3, 1), (2, 2)]), (5, 2, [(2, 2)]), (1171, 2, [(13, 1), (5, 1)]), (81971, 2, [(1171, 1)]), (36886951, 2, [(81971, 1)]), (56805904541, 2, [(36886951, 1)]), (9223372036854767713, 2, [(56805904541, 1)])],
  [(5, 2, [(2, 2)]), (11, 2, [(5, 1)]), (3, 2, [(2, 1)]), (6337, 3, [(11, 1), (3, 2)]), (13878031, 2, [(6337, 1)]), (39857705033, 2, [(13878031, 1)]), (9223372036854767633, 2, [(39857705033, 1)])],
  [(5, 2, [(2, 2)]), (101, 2, [(5, 2)]), (3, 2, [(2, 1)]), (77569, 2, [(101, 1), (3, 1)]), (13, 2, [(3, 1), (2, 2)]), (131, 2, [(13, 1)]), (263, 2, [(131, 1)]), (1579, 2, [(263, 1)]), (425903769710693, 2, [(77569, 1), (1579, 1)]), (9223372036854767609, 2, [(425903769710693, 1)])],
  [(5, 2, [(2, 2)]), (3, 2, [(2, 1)]), (61, 2, [(5, 1), (3, 1)]), (13, 2, [(3, 1), (2, 2)]), (4759, 2, [(61, 1), (13, 1)]), (2084443, 2, [(4759, 1)]), (37, 2, [(3, 2)]), (1777, 3, [(37, 1), (3, 1)]), (497561, 2, [(1777, 1)]), (45634051915013, 2, [(2084443, 1), (497561, 1)]), (9223372036854767509, 2, [(45634051915013, 1)])],
  [(5, 2, [(2, 2)]), (11, 2, [(5, 1)]), (23, 2, [(11, 1)]), (17, 3, [(2, 4)]), (2347, 2, [(23, 1), (17, 1)]), (14083, 2, [(2347, 1)]), (56333, 2, [(14083, 1)]), (104216051, 2, [(56333, 1)]), (3, 2, [(2, 1)]), (193, 5, [(3, 1), (2, 6)]), (6949, 2, [(193, 1)]), (83389, 2, [(6949, 1)]), (4611686018427383741, 2, [(104216051, 1), (83389, 1)]), (9223372036854767483, 2, [(4611686018427383741, 1)])],
  [(5, 2, [(2, 2)]), (11, 2, [(5, 1)]), (89, 2, [(11, 1)]), (3, 2, [(2, 1)]), (7, 2, [(3, 1)]), (71, 2, [(7, 1), (5, 1)]), (176933, 2, [(89, 1), (71, 1)]), (353867, 2, [(176933, 1)]), (37, 2, [(3, 2)]), (1777, 3, [(37, 1), (3, 1)]), (109, 3, [(3, 3)]), (1091, 2, [(109, 1)]), (9223372036854767383, 2, [(353867, 1), (1777, 1), (1091, 1)])],
  [(3, 2, [(2, 1)]), (7, 2, [(3, 1)]), (29, 2, [(7, 1)]), (349, 2, [(29, 1)]), (667987, 2, [(349, 1), (29, 1)]), (13, 2, [(3, 1), (2, 2)]), (937, 2, [(13, 1), (3, 2)]), (26237, 2, [(937, 1)]), (287601248420791, 2, [(667987, 1), (26237, 1)]), (9223372036854767371, 2, [(287601248420791, 1)])],
  [(3, 2, [(2, 1)]), (37, 2, [(3, 2)]), (7, 2, [(3, 1)]), (29, 2, [(7, 1)]), (32191, 2, [(37, 1), (29, 1)]), (3090337, 2, [(32191, 1)]), (1013630537, 2, [(3090337, 1)]), (20773360443366593, 2, [(1013630537, 1)]), (9223372036854767293, 2, [(20773360443366593, 1)])],
  [(3, 2, [(2, 1)]), (13, 2, [(3, 1), (2, 2)]), (79, 2, [(13, 1)]), (3319, 2, [(79, 1)]), (1354153, 2, [(3319, 1)]), (29791367, 2, [(1354153, 1)]), (5, 2, [(2, 2)]), (11, 2, [(5, 1)]), (67, 2, [(11, 1)]), (7, 2, [(3, 1)]), (29, 2, [(7, 1)]), (17626897, 2, [(67, 1), (29, 1), (7, 1)]), (9223372036854767237, 2, [(29791367, 1), (17626897, 1)])],
  [(3, 2, [(2, 1)]), (7, 2, [(3, 1)]), (29, 2, [(7, 1)]), (59, 2, [(29, 1)]), (1181, 2, [(59, 1)]), (66137, 2, [(1181, 1)]), (43, 2, [(7, 1)]), (5, 2, [(2, 2)]), (11, 2, [(5, 1)]), (23, 2, [(11, 1)]), (49451, 2, [(43, 1), (23, 1)]), (9223372036854767161, 2, [(66137, 1), (49451, 1)])],
  [(3, 2, [(2, 1)]), (7, 2, [(3, 1)]), (29, 2, [(7, 1)]), (9397, 2, [(29, 1), (3, 4)]), (37589, 2, [(9397, 1)]), (451069, 2, [(37589, 1)]), (2134458509, 2, [(451069, 1)]), (4268917019, 2, [(2134458509, 1)]), (9223372036854767131, 2, [(4268917019, 1)])],
  [(3, 2, [(2, 1)]), (7, 2, [(3, 1)]), (197, 2, [(7, 2)]), (3547, 2, [(197, 1)]), (19, 2, [(3, 2)]), (5, 2, [(2, 2)]), (761, 2, [(19, 1), (5, 1)]), (21594137, 2, [(3547, 1), (761, 1)]), (1065411531307, 2, [(21594137, 1)]), (9223372036854767087, 2, [(1065411531307, 1)])],
  [(3, 2, [(2, 1)]), (13, 2, [(3, 1), (2, 2)]), (313, 2, [(13, 1), (3, 1)]), (5, 2, [(2, 2)]), (101, 2, [(5, 2)]), (2086459, 2, [(313, 1), (101, 1)]), (246202163, 2, [(2086459, 1)]), (197946539053, 2, [(246202163, 1)]), (1187679234319, 2, [(197946539053, 1)]), (9223372036854767083, 2, [(1187679234319, 1)])],
  [(3, 2, [(2, 1)]), (13, 2, [(3, 1), (2, 2)]), (53, 2, [(13, 1)]), (107, 2, [(53, 1)]), (2141, 2, [(107, 1)]), (4283, 2, [(2141, 1)]), (2629763, 2, [(4283, 1)]), (15778579, 2, [(2629763, 1)]), (17, 3, [(2, 4)]), (239, 2, [(17, 1)]), (7, 2, [(3, 1)]), (29, 2, [(7, 1)]), (59, 2, [(29, 1)]), (253819, 2, [(239, 1), (59, 1)]), (9223372036854767021, 2, [(15778579, 1), (253819, 1)])],
  [(5, 2, [(2, 2)]), (3, 2, [(2, 1)]), (31, 3, [(5, 1), (3, 1)]), (19, 2, [(3, 2)]), (95419, 2, [(31, 1), (19, 1)]), (156296323, 2, [(95419, 1)]), (55793723606603, 2, [(156296323, 1)]), (781112130492443, 2, [(55793723606603, 1)]), (384307168202281957, 2, [(781112130492443, 1)]), (9223372036854766969, 2, [(384307168202281957, 1)])],
  [(5, 2, [(2, 2)]), (3, 2, [(2, 1)]), (61, 2, [(5, 1), (3, 1)]), (367, 2, [(61, 1)]), (109, 3, [(3, 3)]), (7840589, 2, [(367, 1), (109, 1)]), (423391807, 2, [(7840589, 1)]), (610738447679431, 2, [(423391807, 1)]), (9223372036854766963, 2, [(610738447679431, 1)])],
  [(3, 2, [(2, 1)]), (7, 2, [(3, 1)]), (29, 2, [(7, 1)]), (5, 2, [(2, 2)]), (9281, 2, [(29, 1), (5, 1)]), (17, 3, [(2, 4)]), (13, 2, [(3, 1), (2, 2)]), (1327, 2, [(17, 1), (13, 1)]), (12882417803, 2, [(9281, 1), (1327, 1)]), (9223372036854766943, 2, [(12882417803, 1)])],
  [(3, 2, [(2, 1)]), (7, 2, [(3, 1)]), (113, 3, [(7, 1), (2, 4)]), (5, 2, [(2, 2)]), (41, 6, [(5, 1), (2, 3)]), (157523, 2, [(113, 1), (41, 1)]), (4725691, 2, [(157523, 1)]), (163, 2, [(3, 4)]), (44077398935527, 2, [(4725691, 1), (163, 1)]), (9223372036854766859, 2, [(44077398935527, 1)])],
  [(5, 2, [(2, 2)]), (3, 2, [(2, 1)]), (271, 2, [(5, 1), (3, 3)]), (56369, 2, [(271, 1)]), (11, 2, [(5, 1)]), (23, 2, [(11, 1)]), (3037, 2, [(23, 1), (11, 1)]), (18223, 2, [(3037, 1)]), (101016056303581, 2, [(56369, 1), (18223, 1)]), (9223372036854766787, 2, [(101016056303581, 1)])],
  [(5, 2, [(2, 2)]), (11, 2, [(5, 1)]), (89, 2, [(11, 1)]), (3, 2, [(2, 1)]), (13, 2, [(3, 1), (2, 2)]), (79, 2, [(13, 1)]), (224993, 2, [(89, 1), (79, 1)]), (449987, 2, [(224993, 1)]), (5802132379, 2, [(449987, 1)]), (162459706613, 2, [(5802132379, 1)]), (9223372036854766771, 2, [(162459706613, 1)])],
  [(3, 2, [(2, 1)]), (13, 2, [(3, 1), (2, 2)]), (5, 2, [(2, 2)]), (11, 2, [(5, 1)]), (859, 2, [(13, 1), (11, 1)]), (23, 2, [(11, 1)]), (1303963, 2, [(859, 1), (23, 1)]), (52082890147, 2, [(1303963, 1)]), (9223372036854766751, 2, [(52082890147, 1)])],
  [(5, 2, [(2, 2)]), (41, 6, [(5, 1), (2, 3)]), (821, 2, [(41, 1)]), (11, 2, [(5, 1)]), (3, 2, [(2, 1)]), (199, 2, [(11, 1), (3, 2)]), (212065943, 2, [(821, 1), (199, 1)]), (424131887, 2, [(212065943, 1)]), (5937846419, 2, [(424131887, 1)]), (5997224883191, 2, [(5937846419, 1)]), (9223372036854766541, 2, [(5997224883191, 1)])]]
lemma certs63_7_ok : certs63_7.all (fun c => checkChain c [2]) = true := by decide +kernel

/-- certificates of table entries 200.. -/
def certs63_8 : List (List CertEntry) := [
  [(5, 2, [(2, 2)]), (3, 2, [(2, 1)]), (181, 2, [(5, 1), (3, 2)]), (1811, 2, [(181, 1)]), (14489, 2, [(1811, 1)]), (147092329, 2, [(14489, 1)]), (269767331387, 2, [(147092329, 1)]), (94418565985451, 2, [(269767331387, 1)]), (9223372036854766387, 2, [(94418565985451, 1)])],
  [(3, 2, [(2, 1)]), (19, 2, [(3, 2)]), (7, 2, [(3, 1)]), (1597, 2, [(19, 1), (7, 1)]), (111791, 2, [(1597, 1)]), (267180491, 2, [(111791, 1)]), (9311, 2, [(19, 1), (7, 2)]), (658812288346769027, 2, [(267180491, 1), (9311, 1)]), (9223372036854766379, 2, [(658812288346769027, 1)])],
  [(3, 2, [(2, 1)]), (7, 2, [(3, 1)]), (673, 5, [(7, 1), (3, 1), (2, 5)]), (257, 3, [(2, 8)]), (5, 2, [(2, 2)]), (241, 7, [(5, 1), (3, 1), (2, 4)]), (396192956909569, 2, [(673, 1), (257, 1), (241, 1)]), (9223372036854766321, 2, [(396192956909569, 1)])],
  [(17, 3, [(2, 4)]), (3, 2, [(2, 1)]), (409, 2, [(17, 1), (3, 1)]), (119429, 2, [(409, 1)]), (13614907, 2, [(119429, 1)]), (5, 2, [(2, 2)]), (31, 3, [(5, 1), (3, 1)]), (11, 2, [(5, 1)]), (27281, 2, [(31, 1), (11, 1)]), (54563, 2, [(27281, 1)]), (9223372036854766261, 2, [(13614907, 1), (54563, 1)])],
  [(5, 2, [(2, 2)]), (41, 6, [(5, 1), (2, 3)]), (83, 2, [(41, 1)]), (167, 2, [(83, 1)]), (11, 2, [(5, 1)]), (67, 2, [(11, 1)]), (89513, 2, [(167, 1), (67, 1)]), (17, 3, [(2, 4)]), (103, 2, [(17, 1)]), (619, 2, [(103, 1)]), (2477, 2, [(619, 1)]), (10199290247, 2, [(89513, 1), (2477, 1)]), (9223372036854766243, 2, [(10199290247, 1)])],
  [(3, 2, [(2, 1)]), (97, 5, [(3, 1), (2, 5)]), (3881, 2, [(97, 1)]), (8111291, 2, [(3881, 1)]), (13, 2, [(3, 1), (2, 2)]), (131, 2, [(13, 1)]), (263, 2, [(131, 1)]), (1579, 2, [(263, 1)]), (963191, 2, [(1579, 1)]), (9223372036854766199, 2, [(8111291, 1), (963191, 1)])],
  [(3, 2, [(2, 1)]), (37, 2, [(3, 2)]), (21313, 2, [(37, 1), (3, 2)]), (9846607, 2, [(21313, 1)]), (1078301932571, 2, [(9846607, 1)]), (9223372036854766169, 2, [(1078301932571, 1)])],
  [(17, 3, [(2, 4)]), (3, 2, [(2, 1)]), (7, 2, [(3, 1)]), (1667, 2, [(17, 1), (7, 2)]), (63347, 2, [(1667, 1)]), (886859, 2, [(63347, 1)]), (1773719, 2, [(886859, 1)]), (5, 2, [(2, 2)]), (61, 2, [(5, 1), (3, 1)]), (41, 6, [(5, 1), (2, 3)]), (390157, 3, [(61, 1), (41, 1)]), (9223372036854766129, 2, [(1773719, 1), (390157, 1)])],
  [(3, 2, [(2, 1)]), (7, 2, [(3, 1)]), (29, 2, [(7, 1)]), (523, 2, [(29, 1)]), (13, 2, [(3, 1), (2, 2)]), (53, 2, [(13, 1)]), (1496827, 2, [(523, 1), (53, 1)]), (113, 3, [(7, 1), (2, 4)]), (3617, 2, [(113, 1)]), (4915933119173, 2, [(1496827, 1), (3617, 1)]), (9223372036854766061, 2, [(4915933119173, 1)])],
  [(17, 3, [(2, 4)]), (3, 2, [(2, 1)]), (13, 2, [(3, 1), (2, 2)]), (443, 2, [(17, 1), (13, 1)]), (19, 2, [(3, 2)]), (44812109, 2, [(443, 1), (19, 1)]), (9948288199, 2, [(44812109, 1)]), (9223372036854766033, 2, [(9948288199, 1)])],
  [(5, 2, [(2, 2)]), (3, 2, [(2, 1)]), (181, 2, [(5, 1), (3, 2)]), (1811, 2, [(181, 1)]), (86929, 2, [(1811, 1)]), (17, 3, [(2, 4)]), (239, 2, [(17, 1)]), (3208899540013, 2, [(86929, 1), (239, 1)]), (9223372036854766031, 2, [(3208899540013, 1)])],
  [(3, 2, [(2, 1)]), (109, 3, [(3, 3)]), (2399, 2, [(109, 1)]), (4799, 2, [(2399, 1)]), (257, 3, [(2, 8)]), (49333721, 2, [(4799, 1), (257, 1)]), (5373034221553, 2, [(49333721, 1)]), (9223372036854766013, 2, [(5373034221553, 1)])],
  [(3, 2, [(2, 1)]), (13, 2, [(3, 1), (2, 2)]), (7, 2, [(3, 1)]), (5, 2, [(2, 2)]), (16381, 2, [(13, 1), (7, 1), (5, 1)]), (2341, 2, [(13, 1), (5, 1)]), (1073741789, 2, [(16381, 1), (2341, 1)]), (19, 2, [(3, 2)]), (17, 3, [(2, 4)]), (87211, 3, [(19, 1), (17, 1)]), (39768217, 2, [(87211, 1)]), (9223372036854766009, 2, [(1073741789, 1), (39768217, 1)])],
  [(5, 2, [(2, 2)]), (11, 2, [(5, 1)]), (23, 2, [(11, 1)]), (47, 2, [(23, 1)]), (1693, 2, [(47, 1)]), (16931, 2, [(1693, 1)]), (2539651, 2, [(16931, 1)]), (3, 2, [(2, 1)]), (13, 2, [(3, 1), (2, 2)]), (2003, 2, [(13, 1), (11, 1)]), (4007, 2, [(2003, 1)]), (272477, 2, [(4007, 1)]), (53975725871107, 2, [(2539651, 1), (272477, 1)]), (5181669683626273, 2, [(53975725871107, 1)]), (9223372036854765941, 2, [(5181669683626273, 1)])],
  [(5, 2, [(2, 2)]), (41, 6, [(5, 1), (2, 3)]), (83, 2, [(41, 1)]), (1993, 2, [(83, 1)]), (507928009, 2, [(1993, 1), (41, 1)]), (11, 2, [(5, 1)]), (89, 2, [(11, 1)]), (3, 2, [(2, 1)]), (7, 2, [(3, 1)]), (119617, 2, [(89, 1), (7, 1)]), (4611686018427382913, 2, [(507928009, 1), (119617, 1)]), (9223372036854765827, 2, [(4611686018427382913, 1)])],
  [(5, 2, [(2, 2)]), (11, 2, [(5, 1)]), (23, 2, [(11, 1)]), (3, 2, [(2, 1)]), (829, 2, [(23, 1), (3, 2)]), (101, 2, [(5, 2)]), (171476993, 2, [(829, 1), (101, 1)]), (396454807817, 2, [(171476993, 1)]), (9223372036854765809, 2, [(396454807817, 1)])],
  [(3, 2, [(2, 1)]), (19, 2, [(3, 2)]), (191, 2, [(19, 1)]), (13, 2, [(3, 1), (2, 2)]), (53, 2, [(13, 1)]), (7, 2, [(3, 1)]), (29, 2, [(7, 1)]), (190231417, 2, [(191, 1), (53, 1), (29, 1)]), (59, 2, [(29, 1)]), (3187, 2, [(59, 1)]), (395189, 2, [(3187, 1)]), (790379, 2, [(395189, 1)]), (9223372036854765793, 2, [(190231417, 1), (790379, 1)])],
  [(3, 2, [(2, 1)]), (7, 2, [(3, 1)]), (5, 2, [(2, 2)]), (281, 2, [(7, 1), (5, 1)]), (271, 2, [(5, 1), (3, 3)]), (83156893, 2, [(281, 1), (271, 1)]), (11897256681511, 2, [(83156893, 1)]), (9223372036854765773, 2, [(11897256681511, 1)])],
  [(5, 2, [(2, 2)]), (3, 2, [(2, 1)]), (61, 2, [(5, 1), (3, 1)]), (13, 2, [(3, 1), (2, 2)]), (53, 2, [(13, 1)]), (174583, 2, [(61, 1), (53, 1)]), (11, 2, [(5, 1)]), (4951, 2, [(11, 1), (5, 2)]), (65691392909, 2, [(174583, 1), (4951, 1)]), (9223372036854765767, 2, [(65691392909, 1)])],
  [(5, 2, [(2, 2)]), (11, 2, [(5, 1)]), (67, 2, [(11, 1)]), (269, 2, [(67, 1)]), (118361, 2, [(269, 1), (11, 1)]), (236723, 2, [(118361, 1)]), (3, 2, [(2, 1)]), (7, 2, [(3, 1)]), (127, 3, [(7, 1), (3, 2)]), (13, 2, [(3, 1), (2, 2)]), (53, 2, [(13, 1)]), (40387, 2, [(127, 1), (53, 1)]), (26788610106403, 2, [(236723, 1), (40387, 1)]), (9223372036854765707, 2, [(26788610106403, 1)])],
  [(5, 2, [(2, 2)]), (11, 2, [(5, 1)]), (3, 2, [(2, 1)]), (7, 2, [(3, 1)]), (15401, 2, [(11, 1), (7, 1), (5, 2)]), (30803, 2, [(15401, 1)]), (369637, 2, [(30803, 1)]), (89, 2, [(11, 1)]), (179, 2, [(89, 1)]), (359, 2, [(179, 1)]), (39200017156933, 2, [(369637, 1), (359, 1)]), (9223372036854765571, 2, [(39200017156933, 1)])],
  [(3, 2, [(2, 1)]), (7, 2, [(3, 1)]), (197, 2, [(7, 2)]), (13397, 2, [(197, 1)]), (43, 2, [(7, 1)]), (6336781001, 2, [(13397, 1), (43, 1)]), (9223372036854765557, 2, [(6336781001, 1)])],
  [(5, 2, [(2, 2)]), (3, 2, [(2, 1)]), (241, 7, [(5, 1), (3, 1), (2, 4)]), (28921, 2, [(241, 1)]), (18509441, 2, [(28921, 1)]), (98106367528823, 2, [(18509441, 1)]), (9223372036854765523, 2, [(98106367528823, 1)])],
  [(3, 2, [(2, 1)]), (7, 2, [(3, 1)]), (43, 2, [(7, 1)]), (17, 3, [(2, 4)]), (289477, 2, [(43, 1), (17, 1)]), (29, 2, [(7, 1)]), (13, 2, [(3, 1), (2, 2)]), (11311, 2, [(29, 1), (13, 1)]), (64843729167989, 2, [(289477, 1), (11311, 1)]), (907812208351847, 2, [(64843729167989, 1)]), (9223372036854765521, 2, [(907812208351847, 1)])],
  [(17, 3, [(2, 4)]), (3, 2, [(2, 1)]), (307, 5, [(17, 1), (3, 2)]), (29473, 2, [(307, 1)]), (71619391, 2, [(29473, 1)]), (689649471874889, 2, [(71619391, 1)]), (9223372036854765487, 2, [(689649471874889, 1)])]]
lemma certs63_8_ok : certs63_8.all (fun c => checkChain c [2]) = true := by decide +kernel

/-- certificates of table entries 225.. -/
def certs63_9 : List (List CertEntry) := [
  [(3, 2, [(2, 1)]), (7, 2, [(3, 1)]), (29, 2, [(7, 1)]), (59, 2, [(29, 1)]), (20533, 2, [(59, 1), (29, 1)]), (234076201, 2, [(20533, 1)]), (6340656132689, 2, [(234076201, 1)]), (240944933042183, 2, [(6340656132689, 1)]), (69874030582233071, 2, [(240944933042183, 1)]), (9223372036854765373, 2, [(69874030582233071, 1)])],
  [(3, 2, [(2, 1)]), (7, 2, [(3, 1)]), (43, 2, [(7, 1)]), (431, 2, [(43, 1)]), (863, 2, [(431, 1)]), (5179, 2, [(863, 1)]), (10523729, 2, [(5179, 1)]), (5, 2, [(2, 2)]), (11, 2, [(5, 1)]), (23, 2, [(11, 1)]), (47, 2, [(23, 1)]), (1129, 2, [(47, 1)]), (1142549, 2, [(1129, 1)]), (9140393, 2, [(1142549, 1)]), (9223372036854765343, 2, [(10523729, 1), (9140393, 1)])],
  [(5, 2, [(2, 2)]), (41, 6, [(5, 1), (2, 3)]), (3, 2, [(2, 1)]), (7, 2, [(3, 1)]), (2297, 2, [(41, 1), (7, 1)]), (32159, 2, [(2297, 1)]), (271, 2, [(5, 1), (3, 3)]), (2004470471, 2, [(32159, 1), (271, 1)]), (8334588218419, 2, [(2004470471, 1)]), (9223372036854765323, 2, [(8334588218419, 1)])],
  [(3, 2, [(2, 1)]), (37, 2, [(3, 2)]), (223, 2, [(37, 1)]), (17, 3, [(2, 4)]), (68239, 2, [(223, 1), (17, 1)]), (1794958657, 2, [(68239, 1)]), (5, 2, [(2, 2)]), (61, 2, [(5, 1), (3, 1)]), (11, 2, [(5, 1)]), (23, 2, [(11, 1)]), (8419, 2, [(61, 1), (23, 1)]), (4950373, 2, [(8419, 1)]), (9223372036854765319, 2, [(1794958657, 1), (4950373, 1)])],
  [(17, 3, [(2, 4)]), (3, 2, [(2, 1)]), (7, 2, [(3, 1)]), (1429, 3, [(17, 1), (7, 1)]), (160049, 2, [(1429, 1)]), (5, 2, [(2, 2)]), (11, 2, [(5, 1)]), (23, 2, [(11, 1)]), (3313, 2, [(23, 1), (3, 2)]), (55145203049, 2, [(160049, 1), (3313, 1)]), (992613654883, 2, [(55145203049, 1)]), (9223372036854765299, 2, [(992613654883, 1)])],
  [(3, 2, [(2, 1)]), (7, 2, [(3, 1)]), (29, 2, [(7, 1)]), (17, 3, [(2, 4)]), (41413, 2, [(29, 1), (17, 1)]), (5, 2, [(2, 2)]), (11, 2, [(5, 1)]), (881, 2, [(11, 1), (5, 1)]), (29835196661927, 2, [(41413, 1), (881, 1)]), (1969122979687183, 2, [(29835196661927, 1)]), (9223372036854765173, 2, [(1969122979687183, 1)])],
  [(3, 2, [(2, 1)]), (7, 2, [(3, 1)]), (113, 3, [(7, 1), (2, 4)]), (3617, 2, [(113, 1)]), (137447, 2, [(3617, 1)]), (6047669, 2, [(137447, 1)]), (12095339, 2, [(6047669, 1)]), (43, 2, [(7, 1)]), (1721, 2, [(43, 1)]), (1583321, 2, [(1721, 1)]), (9223372036854765143, 2, [(12095339, 1), (1583321, 1)])],
  [(5, 2, [(2, 2)]), (3, 2, [(2, 1)]), (541, 2, [(5, 1), (3, 3)]), (9739, 2, [(541, 1)]), (7, 2, [(3, 1)]), (43, 2, [(7, 1)]), (1216128409, 2, [(9739, 1), (43, 1)]), (71, 2, [(7, 1), (5, 1)]), (853, 2, [(71, 1)]), (13649, 2, [(853, 1)]), (1337603, 2, [(13649, 1)]), (9223372036854765091, 2, [(1216128409, 1), (1337603, 1)])],
  [(3, 2, [(2, 1)]), (19, 2, [(3, 2)]), (229, 2, [(19, 1)]), (7, 2, [(3, 1)]), (29, 2, [(7, 1)]), (59, 2, [(29, 1)]), (2107717, 2, [(229, 1), (59, 1)]), (43, 2, [(7, 1)]), (1033, 2, [(43, 1)]), (10331, 2, [(1033, 1)]), (20663, 2, [(10331, 1)]), (909173, 2, [(20663, 1)]), (1818347, 2, [(909173, 1)]), (9223372036854765019, 2, [(2107717, 1), (1818347, 1)])],
  [(17, 3, [(2, 4)]), (239, 2, [(17, 1)]), (35851, 2, [(239, 1)]), (14555507, 2, [(35851, 1)]), (5, 2, [(2, 2)]), (3, 2, [(2, 1)]), (31, 3, [(5, 1), (3, 1)]), (19, 2, [(3, 2)]), (7069, 2, [(31, 1), (19, 1)]), (169657, 2, [(7069, 1)]), (9223372036854765001, 2, [(14555507, 1), (169657, 1)])],
  [(5, 2, [(2, 2)]), (11, 2, [(5, 1)]), (23, 2, [(11, 1)]), (139, 2, [(23, 1)]), (3, 2, [(2, 1)]), (7, 2, [(3, 1)]), (29, 2, [(7, 1)]), (128993, 2, [(139, 1), (29, 1)]), (257987, 2, [(128993, 1)]), (19937235361, 2, [(257987, 1)]), (1156359650939, 2, [(19937235361, 1)]), (9223372036854764947, 2, [(1156359650939, 1)])],
  [(5, 2, [(2, 2)]), (11, 2, [(5, 1)]), (89, 2, [(11, 1)]), (179, 2, [(89, 1)]), (359, 2, [(179, 1)]), (3, 2, [(2, 1)]), (7, 2, [(3, 1)]), (211, 2, [(7, 1), (5, 1)]), (10150367, 2, [(359, 1), (211, 1)]), (243608809, 2, [(10150367, 1)]), (19, 2, [(3, 2)]), (229, 2, [(19, 1)]), (41221, 2, [(229, 1)]), (9223372036854764923, 2, [(243608809, 1), (41221, 1)])],
  [(3, 2, [(2, 1)]), (13, 2, [(3, 1), (2, 2)]), (7, 2, [(3, 1)]), (2549, 2, [(13, 1), (7, 2)]), (5099, 2, [(2549, 1)]), (1417523, 2, [(5099, 1)]), (448861492997, 2, [(1417523, 1)]), (9223372036854764891, 2, [(448861492997, 1)])],
  [(3, 2, [(2, 1)]), (163, 2, [(3, 4)]), (653, 2, [(163, 1)]), (23509, 2, [(653, 1)]), (5, 2, [(2, 2)]), (11, 2, [(5, 1)]), (67, 2, [(11, 1)]), (269, 2, [(67, 1)]), (3229, 2, [(269, 1)]), (6541213041371, 2, [(23509, 1), (3229, 1)]), (4611686018427382421, 2, [(6541213041371, 1)]), (9223372036854764843, 2, [(4611686018427382421, 1)])],
  [(3, 2, [(2, 1)]), (19, 2, [(3, 2)]), (191, 2, [(19, 1)]), (35527, 2, [(191, 1)]), (53858933, 2, [(35527, 1)]), (107717867, 2, [(53858933, 1)]), (446522658639367, 2, [(107717867, 1)]), (9223372036854764753, 2, [(446522658639367, 1)])],
  [(5, 2, [(2, 2)]), (401, 2, [(5, 2)]), (3, 2, [(2, 1)]), (7, 2, [(3, 1)]), (71, 2, [(7, 1), (5, 1)]), (170827, 2, [(401, 1), (71, 1)]), (416817881, 2, [(170827, 1)]), (184777867554587, 2, [(416817881, 1)]), (9223372036854764693, 2, [(184777867554587, 1)])],
  [(3, 2, [(2, 1)]), (7, 2, [(3, 1)]), (29, 2, [(7, 1)]), (349, 2, [(29, 1)]), (18149, 2, [(349, 1)]), (36299, 2, [(18149, 1)]), (39711107, 2, [(36299, 1)]), (5, 2, [(2, 2)]), (641, 3, [(5, 1), (2, 7)]), (820481, 2, [(641, 1), (5, 1)]), (24614431, 2, [(820481, 1)]), (13684528244591639, 2, [(39711107, 1), (24614431, 1)]), (9223372036854764687, 2, [(13684528244591639, 1)])],
  [(5, 2, [(2, 2)]), (11, 2, [(5, 1)]), (331, 3, [(11, 1), (5, 1)]), (9931, 2, [(331, 1)]), (3, 2, [(2, 1)]), (37, 2, [(3, 2)]), (149, 2, [(37, 1)]), (2548076119, 2, [(9931, 1), (149, 1)]), (67, 2, [(11, 1)]), (13, 2, [(3, 1), (2, 2)]), (41809, 2, [(67, 1), (13, 1)]), (9223372036854764639, 2, [(2548076119, 1), (41809, 1)])],
  [(5, 2, [(2, 2)]), (3, 2, [(2, 1)]), (181, 2, [(5, 1), (3, 2)]), (7603, 2, [(181, 1)]), (2448167, 2, [(7603, 1)]), (3508428957029, 2, [(2448167, 1)]), (9223372036854764623, 2, [(3508428957029, 1)])],
  [(5, 2, [(2, 2)]), (11, 2, [(5, 1)]), (3, 2, [(2, 1)]), (199, 2, [(11, 1), (3, 2)]), (797, 2, [(199, 1)]), (4783, 2, [(797, 1)]), (57397, 2, [(4783, 1)]), (229589, 2, [(57397, 1)]), (1264576213, 2, [(229589, 1)]), (991, 2, [(11, 1), (5, 1)]), (188291, 2, [(991, 1)]), (1129747, 2, [(188291, 1)]), (9223372036854764617, 2, [(1264576213, 1), (1129747, 1)])],
  [(3, 2, [(2, 1)]), (7, 2, [(3, 1)]), (29, 2, [(7, 1)]), (59, 2, [(29, 1)]), (1063, 2, [(59, 1)]), (6379, 2, [(1063, 1)]), (2372989, 2, [(6379, 1)]), (617807686151, 2, [(2372989, 1)]), (9223372036854764597, 2, [(617807686151, 1)])],
  [(3, 2, [(2, 1)]), (193, 5, [(3, 1), (2, 6)]), (1931, 2, [(193, 1)]), (3863, 2, [(1931, 1)]), (2178733, 2, [(3863, 1)]), (7, 2, [(3, 1)]), (29, 2, [(7, 1)]), (33641, 2, [(29, 2)]), (9223372036854764557, 2, [(2178733, 1), (33641, 1)])],
  [(3, 2, [(2, 1)]), (7, 2, [(3, 1)]), (113, 3, [(7, 1), (2, 4)]), (227, 2, [(113, 1)]), (14983, 2, [(227, 1)]), (17590043, 2, [(14983, 1)]), (5312192987, 2, [(17590043, 1)]), (74370701819, 2, [(5312192987, 1)]), (9223372036854764549, 2, [(74370701819, 1)])],
  [(5, 2, [(2, 2)]), (11, 2, [(5, 1)]), (23, 2, [(11, 1)]), (691, 2, [(23, 1), (5, 1)]), (3, 2, [(2, 1)]), (31, 3, [(5, 1), (3, 1)]), (2313469, 2, [(691, 1), (31, 1)]), (3389, 2, [(11, 2)]), (6779, 2, [(3389, 1)]), (135581, 2, [(6779, 1)]), (9223372036854764513, 2, [(2313469, 1), (135581, 1)])],
  [(3, 2, [(2, 1)]), (13, 2, [(3, 1), (2, 2)]), (53, 2, [(13, 1)]), (107, 2, [(53, 1)]), (857, 2, [(107, 1)]), (299951, 2, [(857, 1)]), (4283900183, 2, [(299951, 1)]), (9223372036854764501, 2, [(4283900183, 1)])]]
lemma certs63_9_ok : certs63_9.all (fun c => checkChain c [2]) = true := by decide +kernel

/-- certificates of table entries 250.. -/
def certs63_10 : List (List CertEntry) := [
  [(5, 2, [(2, 2)]), (11, 2, [(5, 1)]), (3, 2, [(2, 1)]), (7, 2, [(3, 1)]), (10781, 2, [(11, 1), (7, 2)]), (29, 2, [(7, 1)]), (3451644961, 2, [(10781, 1), (29, 1)]), (41419739533, 2, [(3451644961, 1)]), (9223372036854764471, 2, [(41419739533, 1)])],
  [(5, 2, [(2, 2)]), (11, 2, [(5, 1)]), (3, 2, [(2, 1)]), (7, 2, [(3, 1)]), (463, 2, [(11, 1), (7, 1)]), (30559, 2, [(463, 1)]), (17, 3, [(2, 4)]), (409, 2, [(17, 1), (3, 1)]), (2797918538399, 2, [(30559, 1), (409, 1)]), (72057594037927847, 2, [(2797918538399, 1)]), (9223372036854764417, 2, [(72057594037927847, 1)])],
  [(3, 2, [(2, 1)]), (433, 3, [(3, 3)]), (5, 2, [(2, 2)]), (11, 2, [(5, 1)]), (23, 2, [(11, 1)]), (677213, 2, [(433, 1), (23, 1)]), (13544261, 2, [(677213, 1)]), (606593273147, 2, [(13544261, 1)]), (9223372036854764401, 2, [(606593273147, 1)])],
  [(3, 2, [(2, 1)]), (7, 2, [(3, 1)]), (5, 2, [(2, 2)]), (421, 2, [(7, 1), (5, 1)]), (6737, 2, [(421, 1)]), (13, 2, [(3, 1), (2, 2)]), (131, 2, [(13, 1)]), (263, 2, [(131, 1)]), (1579, 2, [(263, 1)]), (82293425129, 2, [(6737, 1), (1579, 1)]), (56947050189269, 2, [(82293425129, 1)]), (9223372036854764317, 2, [(56947050189269, 1)])],
  [(3, 2, [(2, 1)]), (7, 2, [(3, 1)]), (127, 3, [(7, 1), (3, 2)]), (5843, 2, [(127, 1)]), (35059, 2, [(5843, 1)]), (4838143, 2, [(35059, 1)]), (541872017, 2, [(4838143, 1)]), (5, 2, [(2, 2)]), (241, 7, [(5, 1), (3, 1), (2, 4)]), (30367, 2, [(241, 1)]), (1537228672809127381, 2, [(541872017, 1), (30367, 1)]), (9223372036854764287, 2, [(1537228672809127381, 1)])],
  [(5, 2, [(2, 2)]), (11, 2, [(5, 1)]), (23, 2, [(11, 1)]), (461, 2, [(23, 1)]), (2767, 2, [(461, 1)]), (94079, 2, [(2767, 1)]), (188159, 2, [(94079, 1)]), (1908308579, 2, [(188159, 1)]), (47, 2, [(23, 1)]), (659, 2, [(47, 1)]), (9223372036854764251, 2, [(1908308579, 1), (659, 1)])],
  [(3, 2, [(2, 1)]), (19, 2, [(3, 2)]), (229, 2, [(19, 1)]), (20611, 2, [(229, 1)]), (5317639, 2, [(20611, 1)]), (5, 2, [(2, 2)]), (61, 2, [(5, 1), (3, 1)]), (27817, 2, [(61, 1), (19, 1)]), (9223372036854764233, 2, [(5317639, 1), (27817, 1)])],
  [(3, 2, [(2, 1)]), (37, 2, [(3, 2)]), (149, 2, [(37, 1)]), (8941, 2, [(149, 1)]), (5, 2, [(2, 2)]), (4801, 2, [(5, 2), (3, 1)]), (365984867767, 2, [(8941, 1), (4801, 1)]), (1463939471069, 2, [(365984867767, 1)]), (9223372036854764083, 2, [(1463939471069, 1)])],
  [(17, 3, [(2, 4)]), (103, 2, [(17, 1)]), (7829, 2, [(103, 1)]), (3, 2, [(2, 1)]), (73, 2, [(3, 2)]), (293, 2, [(73, 1)]), (1759, 2, [(293, 1)]), (275424221, 2, [(7829, 1), (1759, 1)]), (42103549815829, 2, [(275424221, 1)]), (9223372036854764057, 2, [(42103549815829, 1)])],
  [(3, 2, [(2, 1)]), (13, 2, [(3, 1), (2, 2)]), (79, 2, [(13, 1)]), (7, 2, [(3, 1)]), (29, 2, [(7, 1)]), (59, 2, [(29, 1)]), (55933, 2, [(79, 1), (59, 1)]), (19, 2, [(3, 2)]), (42979, 2, [(29, 1), (19, 1)]), (17, 3, [(2, 4)]), (239, 2, [(17, 1)]), (9223372036854764023, 2, [(55933, 1), (42979, 1), (239, 1)])],
  [(5, 2, [(2, 2)]), (41, 6, [(5, 1), (2, 3)]), (3, 2, [(2, 1)]), (19, 2, [(3, 2)]), (60763, 2, [(41, 1), (19, 1)]), (13, 2, [(3, 1), (2, 2)]), (79, 2, [(13, 1)]), (317, 2, [(79, 1)]), (17913540031, 2, [(60763, 1), (317, 1)]), (9223372036854764011, 2, [(17913540031, 1)])],
  [(3, 2, [(2, 1)]), (19, 2, [(3, 2)]), (457, 3, [(19, 1), (3, 1)]), (111509, 2, [(457, 1)]), (2676217, 2, [(111509, 1)]), (5, 2, [(2, 2)]), (61, 2, [(5, 1), (3, 1)]), (7, 2, [(3, 1)]), (29, 2, [(7, 1)]), (42457, 2, [(61, 1), (29, 1)]), (9223372036854763939, 2, [(2676217, 1), (42457, 1)])],
  [(3, 2, [(2, 1)]), (7, 2, [(3, 1)]), (379, 2, [(7, 1), (3, 3)]), (10613, 2, [(379, 1)]), (5, 2, [(2, 2)]), (11, 2, [(5, 1)]), (23, 2, [(11, 1)]), (2531, 2, [(23, 1), (11, 1)]), (2417535271, 2, [(10613, 1), (2531, 1)]), (29, 2, [(7, 1)]), (59, 2, [(29, 1)]), (3187, 2, [(59, 1)]), (146603, 2, [(3187, 1)]), (9223372036854763913, 2, [(2417535271, 1), (146603, 1)])],
  [(3, 2, [(2, 1)]), (7, 2, [(3, 1)]), (43, 2, [(7, 1)]), (173, 2, [(43, 1)]), (347, 2, [(173, 1)]), (56909, 2, [(347, 1)]), (113819, 2, [(56909, 1)]), (179151107, 2, [(113819, 1)]), (18369079605139, 2, [(179151107, 1)]), (9223372036854763847, 2, [(18369079605139, 1)])],
  [(5, 2, [(2, 2)]), (11, 2, [(5, 1)]), (23, 2, [(11, 1)]), (47, 2, [(23, 1)]), (3, 2, [(2, 1)]), (31, 3, [(5, 1), (3, 1)]), (26227, 3, [(47, 1), (31, 1)]), (157363, 2, [(26227, 1)]), (7, 2, [(3, 1)]), (113, 3, [(7, 1), (2, 4)]), (17, 3, [(2, 4)]), (103, 2, [(17, 1)]), (93113, 2, [(113, 1), (103, 1)]), (8117507724527, 2, [(157363, 1), (93113, 1)]), (5958250669802819, 2, [(8117507724527, 1)]), (9223372036854763813, 2, [(5958250669802819, 1)])],
  [(3, 2, [(2, 1)]), (7, 2, [(3, 1)]), (29, 2, [(7, 1)]), (929, 3, [(29, 1), (2, 5)]), (5, 2, [(2, 2)]), (641, 3, [(5, 1), (2, 7)]), (91705307, 2, [(929, 1), (641, 1)]), (11, 2, [(5, 1)]), (67, 2, [(11, 1)]), (1609, 2, [(67, 1)]), (627511, 2, [(1609, 1)]), (9223372036854763807, 2, [(91705307, 1), (627511, 1)])],
  [(5, 2, [(2, 2)]), (3, 2, [(2, 1)]), (31, 3, [(5, 1), (3, 1)]), (13, 2, [(3, 1), (2, 2)]), (16927, 2, [(31, 1), (13, 1)]), (67709, 2, [(16927, 1)]), (1625017, 2, [(67709, 1)]), (4072292603, 2, [(1625017, 1)]), (768614336404563643, 2, [(4072292603, 1)]), (9223372036854763717, 2, [(768614336404563643, 1)])],
  [(3, 2, [(2, 1)]), (13, 2, [(3, 1), (2, 2)]), (5, 2, [(2, 2)]), (11, 2, [(5, 1)]), (193051, 2, [(13, 1), (11, 1), (5, 2)]), (13899673, 2, [(193051, 1)]), (15234041609, 2, [(13899673, 1)]), (9223372036854763651, 2, [(15234041609, 1)])],
  [(5, 2, [(2, 2)]), (11, 2, [(5, 1)]), (23, 2, [(11, 1)]), (461, 2, [(23, 1)]), (11987, 2, [(461, 1)]), (1750103, 2, [(11987, 1)]), (3500207, 2, [(1750103, 1)]), (3, 2, [(2, 1)]), (31, 3, [(5, 1), (3, 1)]), (311, 2, [(31, 1)]), (14929, 2, [(311, 1)]), (27903951221803, 2, [(3500207, 1), (14929, 1)]), (9223372036854763621, 2, [(27903951221803, 1)])],
  [(3, 2, [(2, 1)]), (7, 2, [(3, 1)]), (43, 2, [(7, 1)]), (5, 2, [(2, 2)]), (11, 2, [(5, 1)]), (1390621, 2, [(43, 1), (11, 1), (7, 2)]), (16086703729, 2, [(1390621, 1)]), (9223372036854763583, 2, [(16086703729, 1)])],
  [(17, 3, [(2, 4)]), (5, 2, [(2, 2)]), (1021, 2, [(17, 1), (5, 1)]), (144983, 2, [(1021, 1)]), (160931131, 2, [(144983, 1)]), (3, 2, [(2, 1)]), (31, 3, [(5, 1), (3, 1)]), (7, 2, [(3, 1)]), (3907, 2, [(31, 1), (7, 1)]), (9223372036854763499, 2, [(160931131, 1), (3907, 1)])],
  [(3, 2, [(2, 1)]), (73, 2, [(3, 2)]), (7, 2, [(3, 1)]), (20441, 3, [(73, 1), (7, 1)]), (40883, 2, [(20441, 1)]), (19623841, 2, [(40883, 1)]), (61721218694657, 2, [(19623841, 1)]), (9223372036854763453, 2, [(61721218694657, 1)])],
  [(3, 2, [(2, 1)]), (19, 2, [(3, 2)]), (5, 2, [(2, 2)]), (11, 2, [(5, 1)]), (419, 2, [(19, 1), (11, 1)]), (839, 2, [(419, 1)]), (31883, 2, [(839, 1)]), (446363, 2, [(31883, 1)]), (41065397, 2, [(446363, 1)]), (4558587590177, 2, [(41065397, 1)]), (9223372036854763393, 2, [(4558587590177, 1)])],
  [(3, 2, [(2, 1)]), (7, 2, [(3, 1)]), (113, 3, [(7, 1), (2, 4)]), (2939, 2, [(113, 1)]), (769, 11, [(3, 1), (2, 8)]), (1464538969, 2, [(2939, 1), (769, 1)]), (5, 2, [(2, 2)]), (11, 2, [(5, 1)]), (67, 2, [(11, 1)]), (29, 2, [(7, 1)]), (59, 2, [(29, 1)]), (7907, 2, [(67, 1), (59, 1)]), (9223372036854763373, 2, [(1464538969, 1), (7907, 1)])],
  [(3, 2, [(2, 1)]), (37, 2, [(3, 2)]), (593, 2, [(37, 1)]), (1187, 2, [(593, 1)]), (7, 2, [(3, 1)]), (29, 2, [(7, 1)]), (59, 2, [(29, 1)]), (238112201, 2, [(1187, 1), (59, 1)]), (5, 2, [(2, 2)]), (11, 2, [(5, 1)]), (67, 2, [(11, 1)]), (19, 2, [(3, 2)]), (127301, 2, [(67, 1), (19, 1)]), (9223372036854763283, 2, [(238112201, 1), (127301, 1)])]]
lemma certs63_10_ok : certs63_10.all (fun c => checkChain c [2]) = true := by decide +kernel

/-- certificates of table entries 275.. -/
def certs63_11 : List (List CertEntry) := [
  [(5, 2, [(2, 2)]), (11, 2, [(5, 1)]), (23, 2, [(11, 1)]), (17, 3, [(2, 4)]), (93059, 2, [(23, 1), (17, 2)]), (186119, 2, [(93059, 1)]), (5207237383, 2, [(186119, 1)]), (9223372036854763153, 2, [(5207237383, 1)])],
  [(3, 2, [(2, 1)]), (7, 2, [(3, 1)]), (491, 2, [(7, 2)]), (983, 2, [(491, 1)]), (491501, 2, [(983, 1)]), (109, 3, [(3, 3)]), (5669, 2, [(109, 1)]), (72366281457269, 2, [(491501, 1), (5669, 1)]), (9223372036854763127, 2, [(72366281457269, 1)])],
  [(5, 2, [(2, 2)]), (11, 2, [(5, 1)]), (13553, 3, [(11, 2)]), (6776501, 2, [(13553, 1)]), (3, 2, [(2, 1)]), (241, 7, [(5, 1), (3, 1), (2, 4)]), (7, 2, [(3, 1)]), (29, 2, [(7, 1)]), (125803, 2, [(241, 1), (29, 1)]), (9223372036854763057, 2, [(6776501, 1), (125803, 1)])],
  [(5, 2, [(2, 2)]), (3, 2, [(2, 1)]), (61, 2, [(5, 1), (3, 1)]), (1831, 2, [(61, 1)]), (10987, 2, [(1831, 1)]), (1186597, 2, [(10987, 1)]), (35092419679, 2, [(1186597, 1)]), (9223372036854763027, 2, [(35092419679, 1)])],
  [(3, 2, [(2, 1)]), (7, 2, [(3, 1)]), (29, 2, [(7, 1)]), (5, 2, [(2, 2)]), (11, 2, [(5, 1)]), (23, 2, [(11, 1)]), (12007, 2, [(29, 1), (23, 1)]), (43, 2, [(7, 1)]), (173, 2, [(43, 1)]), (315736073, 2, [(12007, 1), (173, 1)]), (1013, 3, [(23, 1), (11, 1)]), (61, 2, [(5, 1), (3, 1)]), (367, 2, [(61, 1)]), (4461253, 2, [(1013, 1), (367, 1)]), (9223372036854763013, 2, [(315736073, 1), (4461253, 1)])],
  [(3, 2, [(2, 1)]), (7, 2, [(3, 1)]), (29, 2, [(7, 1)]), (59, 2, [(29, 1)]), (431173, 2, [(59, 1), (29, 1)]), (48291377, 2, [(431173, 1)]), (43, 2, [(7, 1)]), (173, 2, [(43, 1)]), (13, 2, [(3, 1), (2, 2)]), (131, 2, [(13, 1)]), (226631, 2, [(173, 1), (131, 1)]), (9223372036854762799, 2, [(48291377, 1), (226631, 1)])],
  [(5, 2, [(2, 2)]), (251, 3, [(5, 3)]), (503, 2, [(251, 1)]), (11, 2, [(5, 1)]), (3, 2, [(2, 1)]), (7, 2, [(3, 1)]), (463, 2, [(11, 1), (7, 1)]), (89, 2, [(11, 1)]), (654977023601, 2, [(503, 1), (463, 1), (89, 1)]), (9223372036854762779, 2, [(654977023601, 1)])],
  [(3, 2, [(2, 1)]), (7, 2, [(3, 1)]), (5, 2, [(2, 2)]), (71, 2, [(7, 1), (5, 1)]), (569, 2, [(71, 1)]), (34141, 2, [(569, 1)]), (409693, 2, [(34141, 1)]), (28678511, 2, [(409693, 1)]), (17, 3, [(2, 4)]), (103, 2, [(17, 1)]), (8447, 2, [(103, 1)]), (3598423, 2, [(8447, 1)]), (40453386126555977, 2, [(28678511, 1), (3598423, 1)]), (9223372036854762757, 2, [(40453386126555977, 1)])],
  [(17, 3, [(2, 4)]), (3, 2, [(2, 1)]), (613, 2, [(17, 1), (3, 2)]), (6131, 2, [(613, 1)]), (110359, 2, [(6131, 1)]), (153399011, 2, [(110359, 1)]), (1227192089, 2, [(153399011, 1)]), (7, 2, [(3, 1)]), (29, 2, [(7, 1)]), (19, 2, [(3, 2)]), (4409, 2, [(29, 1), (19, 1)]), (8819, 2, [(4409, 1)]), (9223372036854762713, 2, [(1227192089, 1), (8819, 1)])],
  [(3, 2, [(2, 1)]), (7, 2, [(3, 1)]), (43, 2, [(7, 1)]), (5, 2, [(2, 2)]), (11, 2, [(5, 1)]), (23, 2, [(11, 1)]), (1979, 2, [(43, 1), (23, 1)]), (17359789, 2, [(1979, 1), (43, 1)]), (17, 3, [(2, 4)]), (5849, 2, [(43, 1), (17, 1)]), (1415459, 2, [(5849, 1)]), (4177251828285671, 2, [(17359789, 1), (1415459, 1)]), (8354503656571343, 2, [(4177251828285671, 1)]), (9223372036854762673, 2, [(8354503656571343, 1)])],
  [(5, 2, [(2, 2)]), (3, 2, [(2, 1)]), (31, 3, [(5, 1), (3, 1)]), (7, 2, [(3, 1)]), (8681, 5, [(31, 1), (7, 1)]), (5173877, 2, [(8681, 1)]), (72434279, 2, [(5173877, 1)]), (17, 3, [(2, 4)]), (13, 2, [(3, 1), (2, 2)]), (443, 2, [(17, 1), (13, 1)]), (6203, 2, [(443, 1)]), (9223372036854762643, 2, [(72434279, 1), (6203, 1)])],
  [(5, 2, [(2, 2)]), (41, 6, [(5, 1), (2, 3)]), (83, 2, [(41, 1)]), (5147, 2, [(83, 1)]), (257351, 2, [(5147, 1)]), (12842329603, 2, [(257351, 1)]), (9223372036854762551, 2, [(12842329603, 1)])],
  [(3, 2, [(2, 1)]), (7, 2, [(3, 1)]), (5, 2, [(2, 2)]), (71, 2, [(7, 1), (5, 1)]), (569, 2, [(71, 1)]), (34141, 2, [(569, 1)]), (409693, 2, [(34141, 1)]), (28678511, 2, [(409693, 1)]), (17, 3, [(2, 4)]), (103, 2, [(17, 1)]), (8447, 2, [(103, 1)]), (3598423, 2, [(8447, 1)]), (9223372036854762529, 2, [(28678511, 1), (3598423, 1)])],
  [(3, 2, [(2, 1)]), (13, 2, [(3, 1), (2, 2)]), (7, 2, [(3, 1)]), (2549, 2, [(13, 1), (7, 2)]), (20393, 2, [(2549, 1)]), (40787, 2, [(20393, 1)]), (4894441, 2, [(40787, 1)]), (5, 2, [(2, 2)]), (11, 2, [(5, 1)]), (67, 2, [(11, 1)]), (32563, 2, [(67, 1), (3, 5)]), (130253, 2, [(32563, 1)]), (65026593604447, 2, [(4894441, 1), (130253, 1)]), (9223372036854762481, 2, [(65026593604447, 1)])],
  [(17, 3, [(2, 4)]), (3, 2, [(2, 1)]), (7, 2, [(3, 1)]), (2143, 3, [(17, 1), (7, 1)]), (73, 2, [(3, 2)]), (41299897, 2, [(2143, 1), (73, 1)]), (4377789083, 2, [(41299897, 1)]), (140089250657, 2, [(4377789083, 1)]), (37263740674763, 2, [(140089250657, 1)]), (74527481349527, 2, [(37263740674763, 1)]), (9223372036854762467, 2, [(74527481349527, 1)])],
  [(3, 2, [(2, 1)]), (13, 2, [(3, 1), (2, 2)]), (79, 2, [(13, 1)]), (1423, 2, [(79, 1)]), (8539, 2, [(1423, 1)]), (34157, 2, [(8539, 1)]), (11135183, 2, [(34157, 1)]), (27621667705409, 2, [(11135183, 1)]), (9223372036854762463, 2, [(27621667705409, 1)])],
  [(3, 2, [(2, 1)]), (193, 5, [(3, 1), (2, 6)]), (1931, 2, [(193, 1)]), (3863, 2, [(1931, 1)]), (7727, 2, [(3863, 1)]), (7, 2, [(3, 1)]), (43, 2, [(7, 1)]), (39594878849, 2, [(7727, 1), (43, 1)]), (461168601842738123, 2, [(39594878849, 1)]), (9223372036854762461, 2, [(461168601842738123, 1)])],
  [(3, 2, [(2, 1)]), (13, 2, [(3, 1), (2, 2)]), (157, 2, [(13, 1)]), (11933, 2, [(157, 1)]), (5, 2, [(2, 2)]), (41, 6, [(5, 1), (2, 3)]), (83, 2, [(41, 1)]), (146584973, 2, [(11933, 1), (83, 1)]), (5979201048671, 2, [(146584973, 1)]), (251126444044183, 2, [(5979201048671, 1)]), (1004505776176733, 2, [(251126444044183, 1)]), (9223372036854762407, 2, [(1004505776176733, 1)])],
  [(3, 2, [(2, 1)]), (7, 2, [(3, 1)]), (5, 2, [(2, 2)]), (281, 2, [(7, 1), (5, 1)]), (563, 2, [(281, 1)]), (37, 2, [(3, 2)]), (416621, 2, [(563, 1), (37, 1)]), (3127157227, 2, [(416621, 1)]), (9223372036854762179, 2, [(3127157227, 1)])],
  [(3, 2, [(2, 1)]), (13, 2, [(3, 1), (2, 2)]), (5, 2, [(2, 2)]), (521, 2, [(13, 1), (5, 1)]), (247997, 2, [(521, 1)]), (51087383, 2, [(247997, 1)]), (3285940474561, 2, [(51087383, 1)]), (9223372036854762121, 2, [(3285940474561, 1)])],
  [(3, 2, [(2, 1)]), (19, 2, [(3, 2)]), (5, 2, [(2, 2)]), (2281, 2, [(19, 1), (5, 1)]), (36497, 2, [(2281, 1)]), (284457619, 2, [(36497, 1)]), (101, 2, [(5, 2)]), (460561, 2, [(101, 1), (19, 1)]), (9223372036854762119, 2, [(284457619, 1), (460561, 1)])],
  [(5, 2, [(2, 2)]), (3, 2, [(2, 1)]), (61, 2, [(5, 1), (3, 1)]), (41, 6, [(5, 1), (2, 3)]), (465187, 2, [(61, 1), (41, 1)]), (7, 2, [(3, 1)]), (197, 2, [(7, 2)]), (923933020799, 2, [(465187, 1), (197, 1)]), (3786277519234303, 2, [(923933020799, 1)]), (9223372036854762109, 2, [(3786277519234303, 1)])],
  [(5, 2, [(2, 2)]), (11, 2, [(5, 1)]), (23, 2, [(11, 1)]), (139, 2, [(23, 1)]), (19183, 2, [(139, 1)]), (76733, 2, [(19183, 1)]), (6905971, 2, [(76733, 1)]), (6463988857, 2, [(6905971, 1)]), (9223372036854762071, 2, [(6463988857, 1)])],
  [(3, 2, [(2, 1)]), (13, 2, [(3, 1), (2, 2)]), (79, 2, [(13, 1)]), (19, 2, [(3, 2)]), (9007, 2, [(79, 1), (19, 1)]), (306239, 2, [(9007, 1)]), (73, 2, [(3, 2)]), (4673, 2, [(73, 1)]), (3752388949086559, 2, [(306239, 1), (4673, 1)]), (9223372036854762023, 2, [(3752388949086559, 1)])],
  [(3, 2, [(2, 1)]), (13, 2, [(3, 1), (2, 2)]), (4057, 2, [(13, 2)]), (11830213, 2, [(4057, 1)]), (2957553251, 2, [(11830213, 1)]), (1804965173552791, 2, [(2957553251, 1)]), (9223372036854762011, 2, [(1804965173552791, 1)])]]
lemma certs63_11_ok : certs63_11.all (fun c => checkChain c [2]) = true := by decide +kernel

/-- certificates of table entries 0.. -/
def certs128_0 : List (List CertEntry) := [
  [(3, 2, [(2, 1)]), (109, 3, [(3, 3)]), (1091, 2, [(109, 1)]), (21821, 2, [(1091, 1)]), (13, 2, [(3, 1), (2, 2)]), (313, 2, [(13, 1), (3, 1)]), (13147, 2, [(313, 1)]), (62826870453001, 2, [(21821, 1), (13147, 1)]), (5, 2, [(2, 2)]), (641, 3, [(5, 1), (2, 7)]), (1283, 2, [(641, 1)]), (957119, 2, [(1283, 1)]), (42113237, 2, [(957119, 1)]), (340282366920938463463374607431768211297, 2, [(62826870453001, 1), (42113237, 1)])],
  [(17, 3, [(2, 4)]), (3, 2, [(2, 1)]), (7, 2, [(3, 1)]), (1667, 2, [(17, 1), (7, 2)]), (610123, 2, [(1667, 1)]), (1269055841, 2, [(610123, 1)]), (2414025939978703, 2, [(1269055841, 1)]), (275198957157572143, 2, [(2414025939978703, 1)]), (163, 2, [(3, 4)]), (5, 2, [(2, 2)]), (40751, 2, [(163, 1), (5, 3)]), (1370537633, 2, [(40751, 1)]), (340282366920938463463374607431768211283, 2, [(275198957157572143, 1), (1370537633, 1)])],
  [(5, 2, [(2, 2)]), (11, 2, [(5, 1)]), (3, 2, [(2, 1)]), (7, 2, [(3, 1)]), (617, 2, [(11, 1), (7, 1)]), (37021, 2, [(617, 1)]), (444253, 2, [(37021, 1)]), (8821, 2, [(7, 2), (5, 1)]), (12185770602656227, 2, [(444253, 1), (8821, 1)]), (123319998498881017241, 2, [(12185770602656227, 1)]), (246639996997762034483, 2, [(123319998498881017241, 1)]), (1479839981986572206899, 2, [(246639996997762034483, 1)]), (340282366920938463463374607431768211223, 2, [(1479839981986572206899, 1)])],
  [(5, 2, [(2, 2)]), (251, 3, [(5, 3)]), (503, 2, [(251, 1)]), (17, 3, [(2, 4)]), (239, 2, [(17, 1)]), (479, 2, [(239, 1)]), (4336867, 2, [(503, 1), (479, 1)]), (6983977858259, 2, [(4336867, 1)]), (3, 2, [(2, 1)]), (31, 3, [(5, 1), (3, 1)]), (11, 2, [(5, 1)]), (45013, 2, [(31, 1), (11, 2)]), (23, 2, [(11, 1)]), (7, 2, [(3, 1)]), (9661, 2, [(23, 1), (7, 1)]), (3727710723197, 2, [(45013, 1), (9661, 1)]), (13381604064540480913357687823, 2, [(6983977858259, 1), (3727710723197, 1)]), (340282366920938463463374607431768211219, 2, [(13381604064540480913357687823, 1)])],
  [(3, 2, [(2, 1)]), (7, 2, [(3, 1)]), (43, 2, [(7, 1)]), (173, 2, [(43, 1)]), (5, 2, [(2, 2)]), (31, 3, [(5, 1), (3, 1)]), (15552701, 2, [(173, 1), (31, 1)]), (41, 6, [(5, 1), (2, 3)]), (83, 2, [(41, 1)]), (499, 2, [(83, 1)]), (29, 2, [(7, 1)]), (694609, 2, [(499, 1), (29, 1)]), (799425410579267, 2, [(15552701, 1), (694609, 1)]), (3162526924251580253, 2, [(799425410579267, 1)]), (599653055161190634931837, 2, [(3162526924251580253, 1)]), (16188504610891458775612493217496109, 2, [(599653055161190634931837, 1)]), (340282366920938463463374607431768211181, 2, [(16188504610891458775612493217496109, 1)])],
  [(5, 2, [(2, 2)]), (3, 2, [(2, 1)]), (181, 2, [(5, 1), (3, 2)]), (23531, 2, [(181, 1)]), (11, 2, [(5, 1)]), (67, 2, [(11, 1)]), (646396571, 2, [(23531, 1), (67, 1)]), (19391897131, 2, [(646396571, 1)]), (163948950010973461931, 2, [(19391897131, 1)]), (340282366920938463463374607431768211099, 2, [(163948950010973461931, 1)])],
  [(3, 2, [(2, 1)]), (7, 2, [(3, 1)]), (29, 2, [(7, 1)]), (349, 2, [(29, 1)]), (5, 2, [(2, 2)]), (11, 2, [(5, 1)]), (331, 3, [(11, 1), (5, 1)]), (252986611, 2, [(349, 1), (331, 1)]), (73, 2, [(3, 2)]), (439, 2, [(73, 1)]), (67607, 2, [(439, 1)]), (3785993, 2, [(67607, 1)]), (23, 2, [(11, 1)]), (829, 2, [(23, 1), (3, 2)]), (252017, 2, [(829, 1)]), (340282366920938463463374607431768210781, 2, [(252986611, 1), (3785993, 1), (252017, 1)])],
  [(5, 2, [(2, 2)]), (101, 2, [(5, 2)]), (809, 2, [(101, 1)]), (1619, 2, [(809, 1)]), (294659, 2, [(1619, 1)]), (46556123, 2, [(294659, 1)]), (3, 2, [(2, 1)]), (181, 2, [(5, 1), (3, 2)]), (2897, 2, [(181, 1)]), (17383, 2, [(2897, 1)]), (98969659868572276519, 2, [(46556123, 1), (17383, 1)]), (340282366920938463463374607431768210743, 2, [(98969659868572276519, 1)])],
  [(5, 2, [(2, 2)]), (11, 2, [(5, 1)]), (89, 2, [(11, 1)]), (179, 2, [(89, 1)]), (3581, 2, [(179, 1)]), (3316007, 2, [(3581, 1)]), (23, 2, [(11, 1)]), (47, 2, [(23, 1)]), (941, 2, [(47, 1)]), (104482220863109, 2, [(3316007, 1), (941, 1)]), (83315753884128718614942437, 2, [(104482220863109, 1)]), (340282366920938463463374607431768210659, 2, [(83315753884128718614942437, 1)])],
  [(5, 2, [(2, 2)]), (11, 2, [(5, 1)]), (23, 2, [(11, 1)]), (47, 2, [(23, 1)]), (41, 6, [(5, 1), (2, 3)]), (2705509, 2, [(47, 1), (41, 1)]), (48699163, 2, [(2705509, 1)]), (124475060629, 2, [(48699163, 1)]), (2888477390162314831, 2, [(124475060629, 1)]), (751, 2, [(5, 3)]), (139, 2, [(23, 1)]), (3, 2, [(2, 1)]), (31, 3, [(5, 1), (3, 1)]), (15371280251, 2, [(751, 1), (139, 1), (31, 1)]), (340282366920938463463374607431768210263, 2, [(2888477390162314831, 1), (15371280251, 1)])]]
lemma certs128_0_ok : certs128_0.all (fun c => checkChain c [2]) = true := by decide +kernel

def certs63 : List (List CertEntry) := certs63_0 ++ certs63_1 ++ certs63_2 ++ certs63_3 ++ certs63_4 ++ certs63_5 ++ certs63_6 ++ certs63_7 ++ certs63_8 ++ certs63_9 ++ certs63_10 ++ certs63_11
lemma certs63_ok : certs63.all (fun c => checkChain c [2]) = true := by
  simp only [certs63, List.all_append, Bool.and_eq_true]
  exact ⟨⟨⟨⟨⟨⟨⟨⟨⟨⟨⟨certs63_0_ok, certs63_1_ok⟩, certs63_2_ok⟩, certs63_3_ok⟩, certs63_4_ok⟩, certs63_5_ok⟩, certs63_6_ok⟩, certs63_7_ok⟩, certs63_8_ok⟩, certs63_9_ok⟩, certs63_10_ok⟩, certs63_11_ok⟩

end FireFly
