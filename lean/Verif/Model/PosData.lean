import Verif.Model.Utf8

/-!
# The tables of hmm/pos

Generated by tools/posdata.py. A decimal `-m / 10^e` of the source is the pair `(m, e)`. Not here: `probEmit`.
-/

namespace Gse.PosData

/-- hmm/pos/prob_trans.go:22-37 -/
noncomputable def trans0 : List (Nat × List (Nat × Nat × Nat)) := [
  (100, [(200, (50648453069648755, 19)), (300, (5287963037107507, 15))]),
  (101, [(201, (7479013978476627, 19)), (301, (7198613337130562, 15))]),
  (102, []),
  (103, [(203, (0, 1))]),
  (104, [(204, (6753917715798491, 17)), (304, (27286269787493125, 16))]),
  (105, []),
  (106, [(206, (4442738163948101, 17)), (306, (31360307468646766, 16))]),
  (107, [(207, (4677309521554972, 17)), (307, (30857425240950174, 16))]),
  (108, [(208, (0, 1))]),
  (109, []),
  (110, [(210, (5870760082677792, 17)), (310, (2864396271492904, 15))]),
  (111, []),
  (112, [(212, (1914032315305203, 17)), (312, (3965512906408017, 15))]),
  (113, []),
  (114, [(214, (0, 1))]),
  (115, [(215, (75100009018967535, 16)), (315, (5477305718588087, 19))])]

/-- hmm/pos/prob_trans.go:38-53 -/
noncomputable def trans1 : List (Nat × List (Nat × Nat × Nat)) := [
  (116, [(316, (0, 1))]),
  (117, [(217, (2543207374058728, 16)), (317, (14936259227444613, 16))]),
  (118, [(318, (0, 1))]),
  (119, []),
  (120, [(220, (368054609970312, 14)), (320, (2553239955770466, 17))]),
  (121, [(321, (0, 1))]),
  (122, [(222, (1861592793620009, 16)), (322, (17727887176378618, 16))]),
  (123, []),
  (124, [(224, (9316228008055788, 16)), (324, (5007333022296009, 16))]),
  (125, [(225, (1386970766026951, 16)), (325, (204401015913586, 14))]),
  (126, []),
  (127, [(227, (9187994754319938, 16)), (327, (5091566178045187, 16))]),
  (128, [(228, (6898863081052478, 16)), (328, (6964187211005602, 16))]),
  (129, [(229, (19889046807373303, 17)), (329, (17127985687430378, 16))]),
  (130, [(230, (30583032091031265, 17)), (330, (1333745856818688, 15))]),
  (131, [(231, (585632199504386, 14)), (331, (28658525153568088, 19))])]

/-- hmm/pos/prob_trans.go:54-69 -/
noncomputable def trans2 : List (Nat × List (Nat × Nat × Nat)) := [
  (132, [(232, (5116528585143264, 16)), (332, (9150511614331327, 16))]),
  (133, [(233, (15615808279732152, 17)), (333, (19339496252366735, 16))]),
  (134, [(234, (5180550387437946, 19)), (334, (7565688085284925, 15))]),
  (135, [(235, (23327551934156823, 17)), (335, (15699064300606476, 16))]),
  (136, [(236, (0, 1))]),
  (137, []),
  (138, [(238, (1687625300447763, 17)), (338, (4090274052396829, 15))]),
  (139, []),
  (140, [(240, (2239526957026909, 15)), (340, (11261887810814913, 17))]),
  (141, [(241, (0, 1))]),
  (142, [(242, (15465951118050396, 18)), (342, (4176837382501129, 15))]),
  (143, [(243, (6198448272867337, 17)), (343, (28117033638171693, 16))]),
  (144, []),
  (145, [(245, (2170492159178564, 20)), (345, (107379823741081, 13))]),
  (146, []),
  (147, [])]

/-- hmm/pos/prob_trans.go:70-85 -/
noncomputable def trans3 : List (Nat × List (Nat × Nat × Nat)) := [
  (148, []),
  (149, []),
  (150, []),
  (151, []),
  (152, [(252, (12409266514635869, 18)), (352, (4395510002912934, 15))]),
  (153, [(253, (0, 1))]),
  (154, []),
  (155, [(355, (0, 1))]),
  (156, [(256, (1102649184048478, 17)), (356, (4512962732418981, 15))]),
  (157, [(257, (0, 1))]),
  (158, []),
  (159, []),
  (160, [(260, (46236917718409775, 19)), (360, (5378872763286892, 15))]),
  (161, []),
  (162, [(262, (5543440297742611, 16)), (362, (854370382921828, 15))]),
  (163, [])]

/-- hmm/pos/prob_trans.go:86-101 -/
noncomputable def trans4 : List (Nat × List (Nat × Nat × Nat)) := [
  (200, [(100, (34301509494938407, 16)), (101, (6530359369866237, 15)), (103, (6905890270156357, 15)), (104, (5525983558928292, 15)), (106, (4069370617491082, 15)), (107, (4117261312051237, 15)), (108, (9965267808870705, 15)), (110, (11323391293023898, 15)), (112, (5717589226727901, 15)), (115, (6038496946808002, 15)), (117, (6104838894944724, 15)), (120, (5522952743340017, 15)), (122, (4436632687260457, 15)), (124, (8361560571145588, 15)), (125, (1479406075636878, 15)), (127, (4831656636089442, 15)), (128, (8451711668139886, 15)), (129, (71944663972050185, 16)), (130, (5321701425373129, 15)), (131, (7642880088580479, 15)), (132, (6519370248290642, 15)), (133, (978294625207675, 14)), (134, (60958541085369085, 16)), (135, (7907487763972047, 15)), (138, (4479759806376397, 15)), (140, (13520615870360118, 15)), (141, (9965267808870705, 15)), (142, (6188246664431055, 15)), (143, (5039464450291145, 15)), (145, (6332203133863164, 15)), (152, (22068977276606287, 16)), (153, (8586141937229426, 15)), (155, (11574705721304804, 15)), (156, (3354802515634624, 15)), (157, (12827468689800172, 15)), (160, (8458020837333152, 15)), (162, (633069369961431, 14)), (400, (4841303829467445, 15)), (401, (10812565669257907, 15)), (402, (7868126690091467, 15)), (403, (10812565669257907, 15)), (404, (73657577763437, 13)), (406, (3544575125142281, 15)), (407, (3378426427593927, 15)), (409, (9649414859452227, 15)), (410, (9031979500627978, 15)), (412, (5155641891921391, 15)), (413, (7752294874566346, 15)), (414, (9736426236441856, 15)), (417, (6561217358226142, 15)), (419, (6495966839906481, 15)), (422, (473967475678773, 14)), (423, (11574705721304804, 15)), (425, (4191071250905458, 15)), (426, (4934829887478268, 15)), (427, (63589938674209305, 16)), (433, (10630244112463952, 15)), (434, (3686853600315555, 15)), (435, (4984600924703292, 15)), (438, (3947717891287047, 15)), (439, (12827468689800172, 15)), (444, (7777612682550635, 15)), (445, (4923872400185871, 15)), (446, (5816254702449806, 15)), (447, (7628971658534347, 15)), (448, (15134881880027917, 16)), (449, (4426247674636356, 15)), (450, (34773228981331137, 16)), (451, (7270640628100635, 15)), (452, (31548103981230424, 16)), (454, (63809555343951985, 16)), (456, (9994255345743957, 15)), (459, (9230156429211727, 15)), (460, (5506941727527432, 15))]),
  (201, [(100, (3669490663077246, 15)), (101, (5577421564067343, 15)), (103, (7408859517113575, 15)), (104, (6442419001553947, 15)), (106, (5341996757640598, 15)), (107, (4558153015609841, 15)), (108, (9172448109374933, 15)), (112, (66204021567493045, 16)), (115, (5892163656378089, 15)), (117, (6861564213566192, 15)), (120, (5997872543403312, 15)), (122, (5595897840234916, 15)), (124, (8824141415106718, 15)), (125, (26719094715397667, 16)), (127, (5990928071050501, 15)), (128, (9259459486364563, 15)), (129, (7745331753734787, 15)), (130, (6245708707307894, 15)), (131, (8949304558060723, 15)), (132, (7482967489267296, 15)), (133, (9577913217483097, 15)), (134, (5436764589063194, 15)), (135, (9259459486364563, 15)), (138, (5405450875997045, 15)), (142, (7062234909028343, 15)), (143, (6152023223230571, 15)), (145, (6379240099932416, 15)), (152, (6987018824779084, 16)), (153, (9018297429547674, 15)), (155, (10964207578602988, 15)), (156, (30646831065707905, 16)), (160, (971144461010762, 14)), (162, (78506922693926136, 16)), (400, (5554796164549365, 15)), (401, (9865595289934879, 15)), (402, (9172448109374933, 15)), (404, (8884766036923152, 15)), (406, (44880047424923335, 16)), (407, (3535874384412182, 15)), (409, (10271060398043042, 15)), (410, (10964207578602988, 15)), (412, (5483568655260997, 15)), (413, (8712915779996493, 15)), (414, (9865595289934879, 15)), (417, (7725529126438608, 15)), (419, (7275328124489052, 15)), (422, (5537057340211983, 15)), (425, (5825472281879416, 15)), (426, (68290410218606326, 16)), (427, (7745331753734787, 15)), (433, (9172448109374933, 15)), (434, (3226155280913672, 15)), (435, (601544768822482, 14)), (438, (52772322222631685, 16)), (444, (9172448109374933, 15)), (445, (72147035026726165, 16)), (446, (7380688640146878, 15)), (447, (7968475305048997, 15)), (448, (27833266366065983, 16)), (449, (5257097313854112, 15)), (450, (36745970571518205, 16)), (451, (8884766036923152, 15)), (452, (2244971905780595, 15)), (454, (6300768484490921, 15)), (459, (971144461010762, 14)), (460, (73006459324733415, 16))]),
  (202, []),
  (203, [(100, (36052367516663226, 16)), (101, (5932878424497706, 15)), (103, (5820082930352362, 15)), (104, (5474131949776605, 15)), (106, (3354245843284712, 15)), (107, (324087671226596, 14)), (108, (9038958755220563, 15)), (112, (496708704885052, 14)), (115, (5847111602740281, 15)), (117, (5978687960529, 12)), (120, (5428040842576338, 15)), (122, (4790463513171203, 15)), (124, (7940346466552453, 15)), (125, (16296204338393674, 16)), (127, (4682249928530971, 15)), (128, (8191660894833358, 15)), (129, (7304357699832456, 15)), (130, (5350079301106626, 15)), (131, (7572621686427135, 15)), (132, (6641063482422192, 15)), (133, (10137571043888672, 15)), (134, (5446223161659528, 15)), (135, (8345811574660617, 15)), (138, (4104484822089871, 15)), (142, (6353381409970411, 15)), (143, (4849304013194137, 15)), (145, (6736373662226517, 15)), (152, (2148688790579445, 15)), (153, (9038958755220563, 15)), (155, (9444423863328726, 15)), (156, (30106802349898643, 16)), (160, (8191660894833358, 15)), (162, (6148586997324398, 15)), (400, (5094145926969426, 15)), (401, (10137571043888672, 15)), (402, (8058129502208836, 15)), (404, (7304357699832456, 15)), (406, (2728434599968544, 15)), (407, (29349098473654345, 16)), (409, (8751276682768781, 15)), (410, (7834985950894627, 15)), (412, (4565417011710908, 15)), (413, (7652664394100672, 15)), (414, (9444423863328726, 15)), (417, (6526653131244448, 15)), (419, (7498513714273414, 15)), (422, (4699491734965477, 15)), (425, (464040281859547, 14)), (426, (5100618441475043, 15)), (427, (6959517213540726, 15)), (434, (3524186825509113, 15)), (435, (58068377036023415, 16)), (438, (35135058160887787, 16)), (444, (6641063482422192, 15)), (445, (4478088828129051, 15)), (446, (6010436658843581, 15)), (447, (7364982321648891, 15)), (448, (20789273316730545, 16)), (449, (4363019498344264, 15)), (450, (4271102986955375, 15)), (451, (6641063482422192, 15)), (452, (3071957680290955, 15)), (454, (6026697179715361, 15)), (459, (9444423863328726, 15)), (460, (522491615815262, 14))]),
  (204, [(100, (4707673302574278, 15)), (101, (7800150133419737, 15)), (103, (6283289297017788, 15)), (104, (4557557781934221, 15)), (106, (6218462133938539, 15)), (107, (5577520032648095, 15)), (112, (56289933828534355, 16)), (114, (12354027025020278, 15)), (115, (7343391730924022, 15)), (117, (5482935730409732, 15)), (120, (5224729476090905, 15)), (121, (12354027025020278, 15)), (122, (4711023389459561, 15)), (124, (850387942331022, 14)), (125, (7488506003459426, 16)), (127, (5464435716665812, 15)), (128, (9175973194672332, 15)), (129, (7653546659227862, 15)), (130, (4893536719194941, 15)), (131, (6744555229835318, 15)), (132, (5697300500841886, 15)), (133, (11660879844460332, 15)), (134, (6151491507832356, 15)), (135, (7810732242750274, 15)), (138, (5393679295918971, 15)), (141, (10967732663900387, 15)), (142, (6102123141854389, 15)), (143, (611570239998077, 14)), (145, (6614234112841044, 15)), (152, (2302248786072008, 15)), (153, (9869120375232278, 15)), (156, (2882707963426864, 15)), (157, (11660879844460332, 15)), (160, (10408116875964964, 15)), (162, (7758907174885688, 15)), (400, (4857374586851995, 15)), (402, (8164372282993853, 15)), (404, (5649612670056171, 15)), (405, (12354027025020278, 15)), (406, (4680338895752548, 15)), (407, (4707673302574278, 15)), (409, (10274585483340442, 15)), (412, (4603412292249869, 15)), (413, (7748856839032187, 15)), (414, (8210892298628746, 15)), (417, (6216299970934044, 15)), (419, (6424437881630383, 15)), (422, (4805998055085264, 15)), (425, (3636344972854637, 15)), (426, (4001944353667641, 15)), (427, (7278853209786451, 15)), (433, (10967732663900387, 15)), (434, (3903828702428319, 15)), (435, (4428869512795575, 15)), (438, (56883433072378695, 16)), (444, (8328675334285128, 15)), (445, (563139723016483, 14)), (446, (8827666500404117, 15)), (447, (8690465378890632, 15)), (448, (2512468069106317, 15)), (449, (7463677896798524, 15)), (450, (6064311454111281, 15)), (451, (8023293684733947, 15)), (452, (27256344294304595, 16)), (454, (5935662089084067, 15)), (456, (9463655267124114, 15)), (459, (8857519463553798, 15)), (460, (8422201392295952, 15)), (461, (12354027025020278, 15))]),
  (205, []),
  (206, [(100, (4316505787725195, 15)), (101, (5657713206360876, 15)), (103, (7810927842700653, 15)), (104, (4974044769755475, 15)), (106, (4096441559872942, 15)), (107, (34848930231958763, 16)), (108, (856861354439817, 14)), (110, (12192954477374535, 15)), (112, (5183093975455244, 15)), (114, (1288610165793448, 14)), (115, (5377862883255817, 15)), (116, (1288610165793448, 14)), (117, (52189434026153325, 16)), (120, (5076560333281069, 15)), (122, (3738914100963566, 15)), (124, (6469369375422154, 15)), (125, (18458874846215843, 16)), (127, (38640204354190053, 16)), (128, (7302605349152781, 15)), (129, (62985516431096835, 16)), (130, (38921775165230805, 16)), (131, (597734687861926, 14)), (132, (5659892647833808, 15)), (133, (966722583306628, 14)), (134, (4471605864756585, 15)), (135, (6472642700767123, 15)), (138, (28554089311630637, 16)), (140, (10940191508879167, 15)), (141, (839746528820234, 14)), (142, (5159447993086838, 15)), (143, (36728654828462717, 16)), (145, (8504075023260599, 15)), (152, (19334021670253692, 16)), (153, (8491652503262042, 15)), (156, (4158485479613413, 15)), (157, (1288610165793448, 14)), (160, (1288610165793448, 14)), (162, (700556867153378, 14)), (400, (4554515414303727, 15)), (401, (10806660116254644, 15)), (402, (7937341767556312, 15)), (403, (11787489369266371, 15)), (404, (6746217105708225, 15)), (406, (5593083978161698, 15)), (407, (2590031623121201, 15)), (409, (10052888313878263, 15)), (410, (994166267876804, 14)), (412, (5548513914395884, 15)), (413, (77621376785312215, 16)), (414, (8251372669704844, 15)), (417, (5773774213223569, 15)), (419, (886074996719933, 14)), (422, (4506792173881629, 15)), (423, (11787489369266371, 15)), (425, (4452942462128252, 15)), (426, (58481956944872975, 16)), (427, (5767275408872402, 15)), (431, (1288610165793448, 14)), (433, (9553897147759276, 15)), (434, (2483628296436571, 15)), (435, (5585628843666681, 15)), (438, (2536487015571298, 15)), (439, (12192954477374535, 15)), (444, (747000125573006, 14)), (445, (6286231158721643, 15)), (446, (7792351457127718, 15)), (447, (7817197455714249, 15)), (448, (6159868255575733, 15)), (449, (880856421402876, 14)), (450, (8301134179263908, 15)), (451, (975060744200533, 14)), (452, (2224569093260564, 15)), (454, (6443561491466282, 15)), (456, (10247044328319221, 15)), (459, (9222540011804833, 15)), (460, (8241710758793108, 15))]),
  (207, [(100, (28017387321396003, 16)), (101, (4976725806196074, 15)), (103, (6517554503391935, 15)), (104, (6088576745933047, 15)), (106, (5389947368737205, 15)), (107, (38123735976947555, 16)), (108, (8525193106593266, 15)), (110, (11610537538836944, 15)), (112, (6389506266248981, 15)), (115, (4684451303170083, 15)), (117, (6955387420543832, 15)), (120, (546957598058305, 14)), (122, (4507215476310831, 15)), (124, (8646553963597533, 15)), (125, (2893408012444315, 15)), (127, (5092681644858881, 15)), (128, (8679343786420525, 15)), (129, (7033252556338388, 15)), (130, (5892687806969307, 15)), (131, (8172526184052073, 15)), (132, (7138898745473375, 15)), (133, (8734152022915518, 15)), (134, (572686702153749, 14)), (135, (8230393566372621, 15)), (138, (4512988688222151, 15)), (141, (10163618555900618, 15)), (142, (6546361477812658, 15)), (143, (56165761115303745, 16)), (145, (6994180163458288, 15)), (152, (10992734839585843, 16)), (153, (759190479835054, 14)), (155, (12080541168082679, 15)), (156, (406514778922512, 14)), (157, (9700995033952506, 15)), (160, (1069424680696279, 14)), (162, (63286036515394315, 16)), (400, (3961440330445193, 15)), (401, (10471103255648579, 15)), (402, (79469758927072975, 16)), (404, (806596157432944, 14)), (406, (5224921643521071, 15)), (407, (27332776619458645, 16)), (409, (9579105216343468, 15)), (410, (9562844695471687, 15)), (412, (549990203079773, 14)), (413, (7887860705139717, 15)), (414, (9738735361935353, 15)), (417, (7120497660102484, 15)), (419, (9470471375340674, 15)), (422, (46755319453646464, 16)), (423, (1129208380771841, 14)), (425, (50330239467253834, 16)), (426, (6327333810098955, 15)), (427, (69089214545806, 13)), (433, (9515591810621142, 15)), (434, (26661829812307816, 16)), (435, (5613774553277754, 15)), (438, (4301074200624354, 15)), (439, (1368997908051678, 14)), (444, (7628522161588763, 15)), (445, (608657974077611, 14)), (446, (7079283035799021, 15)), (447, (7316659290939767, 15)), (448, (3663654618021589, 15)), (449, (7112117722795733, 15)), (450, (4379883875403605, 15)), (451, (8391661713968743, 15)), (452, (16807549996611406, 16)), (454, (5703474141962785, 15)), (456, (1149275450318056, 14)), (459, (10052392920790394, 15)), (460, (7483403153791852, 15))]),
  (208, [(100, (46866377692261105, 16)), (101, (5142113297908936, 15)), (103, (73015975472623085, 16)), (104, (7013915474810528, 15)), (106, (5627621113690637, 15)), (107, (3957558579440102, 15)), (108, (5566996491874202, 15)), (112, (7707062655370473, 15)), (115, (4374858145195269, 15)), (117, (8400209835930418, 15)), (120, (576115250631516, 14)), (122, (49344739331306915, 16)), (124, (7707062655370473, 15)), (125, (3458567413321114, 15)), (127, (4736648189800772, 15)), (128, (7707062655370473, 15)), (129, (8400209835930418, 15)), (130, (7013915474810528, 15)), (134, (6002314563132048, 15)), (135, (8400209835930418, 15)), (138, (33376148029034516, 16)), (142, (6097624742936373, 15)), (143, (6454299686875105, 15)), (145, (7013915474810528, 15)), (152, (18606238803127486, 16)), (153, (8400209835930418, 15)), (156, (46866377692261105, 16)), (162, (73015975472623085, 16)), (400, (39004001656001535, 16)), (402, (8400209835930418, 15)), (404, (7707062655370473, 15)), (406, (4903702274463938, 15)), (407, (2277717026416032, 15)), (412, (5455770856763977, 15)), (417, (8400209835930418, 15)), (422, (4241326752570746, 15)), (425, (4488186830502272, 15)), (426, (7013915474810528, 15)), (427, (6608450366702363, 15)), (434, (27268865687589257, 16)), (435, (6454299686875105, 15)), (438, (25537710608726942, 16)), (445, (5068005325755214, 15)), (448, (4873849311314257, 15)), (449, (36127180931483722, 16)), (450, (8400209835930418, 15)), (452, (11229621092989344, 16)), (454, (5627621113690637, 15)), (460, (5455770856763977, 15))]),
  (209, []),
  (210, [(100, (6498282149476434, 15)), (106, (5111987788356543, 15)), (107, (3665068805420218, 15)), (110, (313098631948996, 14)), (117, (6498282149476434, 15)), (120, (5111987788356543, 15)), (122, (27140925155581725, 16)), (124, (6498282149476434, 15)), (125, (2293589530085468, 15)), (127, (3453759711753011, 15)), (130, (5805134968916488, 15)), (132, (5805134968916488, 15)), (134, (6498282149476434, 15)), (135, (6498282149476434, 15)), (138, (28094026953624978, 16)), (141, (6498282149476434, 15)), (142, (6498282149476434, 15)), (143, (4706522680248379, 15)), (152, (39333327920148973, 16)), (156, (6498282149476434, 15)), (400, (28347205033467873, 16)), (404, (5805134968916488, 15)), (406, (5805134968916488, 15)), (407, (3202445283472105, 15)), (410, (53996698608083245, 16)), (417, (43010575721402144, 16)), (422, (39333327920148973, 16)), (425, (37256934272366524, 16)), (426, (43010575721402144, 16)), (427, (43010575721402144, 16)), (434, (43010575721402144, 16)), (435, (5805134968916488, 15)), (438, (14678442280839983, 16)), (445, (5111987788356543, 15)), (447, (5805134968916488, 15)), (448, (5111987788356543, 15)), (449, (4418840607796598, 15)), (450, (4013375499688434, 15)), (452, (24378391389300145, 16)), (454, (4552372000421121, 15)), (460, (35538431703099933, 16))]),
  (211, []),
  (212, [(100, (4337384778823908, 15)), (101, (5930084750763245, 15)), (103, (6992620982957545, 15)), (104, (5075814171829403, 15)), (106, (4413538177181877, 15)), (107, (34622158465989212, 16)), (108, (9064219347176355, 15)), (112, (4533974775212322, 15)), (115, (5740983506983912, 15)), (117, (5418443133479925, 15)), (120, (568727196773766, 14)), (122, (33639848257358396, 16)), (124, (7885564350834709, 15)), (125, (17839096235433134, 16)), (127, (4024834639794114, 15)), (128, (7348171699683997, 15)), (129, (6303418580688616, 15)), (130, (3519774592923733, 15)), (131, (63900706977498265, 16)), (132, (5693695972699015, 15)), (133, (8469512239429662, 15)), (134, (5252707523344598, 15)), (135, (681292754856986, 14)), (138, (38025011330766483, 16)), (140, (12529955249976082, 15)), (141, (9234118383971753, 15)), (142, (520151789708092, 14)), (143, (5099841111414281, 15)), (145, (7262097090912754, 15)), (152, (20380978692772542, 16)), (153, (7955244271472699, 15)), (156, (4273347905349924, 15)), (157, (11836808069416136, 15)), (160, (10920517337541982, 15)), (162, (6262754701434719, 15)), (400, (4305791737338221, 15)), (401, (10738195780748027, 15)), (402, (7904982436691811, 15)), (403, (11836808069416136, 15)), (404, (6849782640959014, 15)), (406, (4005389304230431, 15)), (407, (26761307424590544, 16)), (409, (8974607188486669, 15)), (410, (10584045100920768, 15)), (412, (4918112850395665, 15)), (413, (7382460773162629, 15)), (414, (9064219347176355, 15)), (417, (56434236074455715, 16)), (419, (7602701564818877, 15)), (422, (4199091636751338, 15)), (423, (10584045100920768, 15)), (425, (43493543023816335, 16)), (426, (5235577950687261, 15)), (427, (5800131179486606, 15)), (433, (931107942510788, 14)), (434, (30611814059072415, 16)), (435, (5033302811807799, 15)), (438, (34923029858256154, 16)), (439, (11836808069416136, 15)), (443, (12529955249976082, 15)), (444, (7602701564818877, 15)), (445, (5482438028618786, 15)), (446, (855966333642396, 14)), (447, (8111114642179484, 15)), (448, (2077479612579614, 15)), (449, (6655024519124051, 15)), (450, (7168663084266656, 15)), (451, (9821905048873871, 15)), (452, (2342680700957058, 15)), (454, (6129697804667261, 15)), (456, (11836808069416136, 15)), (459, (9585516270809642, 15)), (460, (7140883520159581, 15))]),
  (213, []),
  (214, [(107, (4442651256490317, 15)), (125, (2995165300987837, 16)), (132, (37495040759303713, 16)), (152, (3056356895370426, 15)), (404, (4442651256490317, 15)), (425, (2833213344056216, 15)), (448, (2245426679154097, 15))]),
  (215, [(100, (471147680000632, 14)), (101, (5813383984571282, 15)), (103, (8349062959732706, 15)), (104, (6242644830354667, 15)), (106, (3466024322741158, 15)), (107, (3158713672249576, 15)), (108, (9249849505070895, 15)), (110, (10716186573864322, 15)), (112, (489610364351196, 14)), (115, (33807699123769632, 16)), (117, (67975190257175075, 16)), (120, (4583511858204817, 15)), (122, (43705502130357266, 16)), (124, (7625144120506007, 15)), (125, (2788140972989545, 15)), (127, (38061006795439027, 16)), (128, (73604515662789245, 16)), (129, (6496678868688216, 15)), (130, (5140237470718006, 15)), (131, (7625144120506007, 15)), (132, (6363760408966732, 15)), (133, (8318291301065951, 15)), (134, (5523229722974112, 15)), (135, (77039249983591205, 16)), (138, (37280809422285266, 16)), (141, (986888871347712, 14)), (142, (5683572373049291, 15)), (143, (4362976626004502, 15)), (145, (576979354849642, 14)), (152, (24600984400494132, 16)), (153, (9735357320852597, 15)), (156, (5560970050956959, 15)), (160, (7105268661220098, 15)), (162, (6208996796236435, 15)), (400, (4760349204399492, 15)), (401, (9042210140292651, 15)), (402, (77039249983591205, 16)), (403, (11121651681972487, 15)), (404, (6909524084094002, 15)), (406, (360821524821168, 14)), (407, (28120978553344935, 16)), (409, (8636745032184486, 15)), (410, (8008136372762113, 15)), (412, (4917093919403796, 15)), (413, (7160838512374909, 15)), (414, (8518961996528104, 15)), (417, (62853697750210085, 16)), (419, (6293337944670186, 15)), (422, (4695163224514796, 15)), (425, (4648532888398794, 15)), (426, (5294177734973736, 15)), (427, (56857486524718865, 16)), (433, (9329892212744431, 15)), (434, (33516395596086803, 16)), (435, (5318023872346569, 15)), (438, (30909167578739454, 16)), (439, (11814798862532433, 15)), (444, (694726441207685, 14)), (445, (42630866471811215, 16)), (446, (745809003584284, 14)), (447, (74080796152681785, 16)), (448, (16368664643265434, 16)), (449, (4025344296445759, 15)), (450, (25504439022500107, 16)), (451, (7610106243141466, 15)), (452, (26487239068542645, 16)), (454, (5786520342301734, 15)), (456, (10716186573864322, 15)), (459, (9416903589734062, 15)), (460, (4795502208817387, 15))])]

/-- hmm/pos/prob_trans.go:102-117 -/
noncomputable def trans5 : List (Nat × List (Nat × Nat × Nat)) := [
  (216, [(107, (203688192726104, 14)), (122, (31354942159291497, 16)), (125, (31354942159291497, 16)), (127, (31354942159291497, 16)), (129, (203688192726104, 14)), (132, (24423470353692043, 16)), (406, (31354942159291497, 16)), (407, (203688192726104, 14)), (434, (1749199854809259, 15)), (444, (31354942159291497, 16)), (452, (24423470353692043, 16)), (460, (31354942159291497, 16))]),
  (217, [(100, (4817381150280411, 15)), (101, (571856911396881, 14)), (103, (76453906664616005, 16)), (104, (5092962815798105, 15)), (106, (5278726716783033, 15)), (107, (39690899945545244, 16)), (108, (11864898371637707, 15)), (112, (5031866638851507, 15)), (115, (678972455640388, 14)), (117, (36924515532949287, 16)), (120, (61347985886641325, 16)), (122, (4105710933129911, 15)), (124, (7804455361091288, 15)), (125, (11883209358684308, 16)), (127, (4740420109144283, 15)), (128, (8497602541651233, 15)), (129, (7036584634335406, 15)), (130, (4222374237404805, 15)), (131, (60359527540275, 13)), (132, (5050355474377749, 15)), (133, (11171751191077762, 15)), (134, (5973254159811936, 15)), (135, (7354038865120858, 15)), (138, (5150727841728235, 15)), (141, (9156848170535497, 15)), (142, (57601051392227225, 16)), (143, (45358046353911154, 16)), (145, (6571593546913215, 15)), (152, (17662141698383198, 16)), (153, (7508189544948116, 15)), (156, (29994455458840847, 16)), (157, (11864898371637707, 15)), (160, (11864898371637707, 15)), (162, (8686844541289762, 15)), (400, (4736402425957671, 15)), (401, (10766286082969598, 15)), (402, (8281379433181597, 15)), (404, (5308120015479665, 15)), (406, (388077641293478, 14)), (407, (3306947187749302, 15)), (409, (9299949014176171, 15)), (410, (10766286082969598, 15)), (412, (4403257979429132, 15)), (413, (8309550310148294, 15)), (414, (10255460459203606, 15)), (417, (52870370139166605, 16)), (419, (7192069537175801, 15)), (422, (4070899282133712, 15)), (425, (3580899067389181, 15)), (426, (5042700981017217, 15)), (427, (6740934392234449, 15)), (433, (11864898371637707, 15)), (434, (35708487315356794, 16)), (435, (37726589649134965, 16)), (438, (5335479533375482, 15)), (444, (5998430314704411, 15)), (445, (4496558685326327, 15)), (446, (8569061505633378, 15)), (447, (8253980458993484, 15)), (448, (3071893280340176, 15)), (449, (6909071314036447, 15)), (450, (7857565186405236, 15)), (451, (843091116715256, 14)), (452, (2840767103182672, 15)), (454, (5652292275886189, 15)), (456, (10766286082969598, 15)), (459, (10073138902409653, 15)), (460, (8058235881867388, 15)), (461, (11864898371637707, 15))]),
  (218, [(125, (916290731874155, 15)), (156, (16094379124341003, 16)), (422, (16094379124341003, 16)), (448, (16094379124341003, 16))]),
  (219, []),
  (220, [(100, (4281994308212445, 15)), (101, (5631355414286653, 15)), (103, (7781973234434385, 15)), (104, (5206986151539336, 15)), (106, (36487758283119094, 16)), (107, (34303213085337663, 16)), (108, (9494951825809325, 15)), (110, (10283409186173595, 15)), (112, (4843592257351859, 15)), (114, (11892847098607696, 15)), (115, (4812820598685105, 15)), (117, (57232363661162395, 16)), (120, (4488567980570427, 15)), (122, (4232732779433767, 15)), (124, (7229408004495628, 15)), (125, (19874613487884873, 16)), (127, (4183090234153531, 15)), (128, (76301672215663805, 16)), (129, (6780859310251152, 15)), (130, (4471669570012302, 15)), (131, (667791134099871, 14)), (132, (5982050454567168, 15)), (133, (9184796897505485, 15)), (134, (511976672295216, 14)), (135, (7338970207007155, 15)), (138, (35985474897504606, 16)), (141, (8897114825053704, 15)), (142, (5792528146587632, 15)), (143, (4407355490576941, 15)), (145, (5916496189309762, 15)), (152, (22468357764662827, 16)), (153, (9120258376367914, 15)), (155, (11892847098607696, 15)), (156, (3873234304207428, 15)), (160, (8458859894122549, 15)), (162, (6842991091358159, 15)), (400, (4584304301068506, 15)), (401, (10794234809939587, 15)), (402, (825526093888131, 14)), (404, (6494684397089943, 15)), (406, (328563040454387, 14)), (407, (281649536663483, 14)), (409, (9494951825809325, 15)), (410, (8396339537141216, 15)), (412, (4153487895918597, 15)), (413, (77497123722161625, 16)), (414, (9184796897505485, 15)), (417, (60263790416743985, 16)), (419, (66888404115309, 13)), (422, (4333287602599996, 15)), (423, (11892847098607696, 15)), (425, (4068401167730077, 15)), (426, (5246456583759966, 15)), (427, (60179163677556655, 16)), (433, (981340555692786, 14)), (434, (3020079568696759, 15)), (435, (4843592257351859, 15)), (438, (3145018490118953, 15)), (444, (7426938979953112, 15)), (445, (4567039596011923, 15)), (446, (7248456199466323, 15)), (447, (7210715871483476, 15)), (448, (1999409881925069, 15)), (449, (4667365625825401, 15)), (450, (4095555825060223, 15)), (451, (7815309654701976, 15)), (452, (2593397551559737, 15)), (454, (6437525983249994, 15)), (456, (10506552737487805, 15)), (459, (10101087629379641, 15)), (460, (5233553178924058, 15))]),
  (221, [(100, (36635616461296463, 16)), (107, (29704144655697013, 16)), (125, (1466337068793427, 15)), (130, (36635616461296463, 16)), (131, (36635616461296463, 16)), (143, (36635616461296463, 16)), (152, (15841201044498106, 16)), (406, (36635616461296463, 16)), (407, (2277267285009756, 15)), (412, (36635616461296463, 16)), (425, (25649493574615367, 16)), (434, (29704144655697013, 16)), (448, (2277267285009756, 15)), (452, (36635616461296463, 16))]),
  (222, [(100, (34312981852350974, 16)), (101, (6006821180675518, 15)), (103, (7110240120503148, 15)), (104, (45609797564036345, 16)), (106, (4739222979044614, 15)), (107, (39444158261482496, 16)), (108, (8877339027909251, 15)), (110, (11036823277262624, 15)), (112, (4381211341445001, 15)), (114, (13051726297804889, 15)), (115, (5178509242942146, 15)), (117, (4918726079221275, 15)), (120, (53433156305475205, 16)), (122, (39961701396295717, 16)), (124, (8146451519366458, 15)), (125, (12428418586344567, 16)), (127, (4136428352686779, 15)), (128, (8172719446187068, 15)), (129, (670258730642509, 14)), (130, (4445423931316875, 15)), (131, (6700840581090149, 15)), (132, (5532576340135065, 15)), (133, (8862071555778464, 15)), (134, (6041865795885597, 15)), (135, (6600466298043695, 15)), (138, (4274941914103396, 15)), (140, (13051726297804889, 15)), (141, (1037757764837836, 14)), (142, (5703460568971786, 15)), (143, (4520531586752837, 15)), (145, (8031140672855464, 15)), (152, (2286794983034085, 15)), (153, (9223084901315794, 15)), (156, (4136831388898321, 15)), (157, (11547648901028614, 15)), (160, (8885061074003161, 15)), (162, (5454580887140518, 15)), (400, (35027731247083813, 16)), (401, (11179924120903296, 15)), (402, (7368146530466206, 15)), (403, (11346978205566463, 15)), (404, (6055960141500038, 15)), (405, (13744873478364834, 15)), (406, (4432427883451497, 15)), (407, (308158527471424, 14)), (409, (9139703292376742, 15)), (410, (9180525286896998, 15)), (412, (4028318095180343, 15)), (413, (7057764870498319, 15)), (414, (8342196096492554, 15)), (417, (5936550427973778, 15)), (419, (76490489159326085, 16)), (422, (4276099634295993, 15)), (423, (11953114009136778, 15)), (425, (2584047725401541, 15)), (426, (4605170185988091, 15)), (427, (6031982516874704, 15)), (431, (12358579117244943, 15)), (433, (9234013971847984, 15)), (434, (34681685652706618, 16)), (435, (45302423249714945, 16)), (438, (4087222527690592, 15)), (439, (13744873478364834, 15)), (444, (70162448652801315, 16)), (445, (5667115914627914, 15)), (446, (8397765947647365, 15)), (447, (8041091003708633, 15)), (448, (33506609737697177, 16)), (449, (5751591150263242, 15)), (450, (6294212682153294, 15)), (451, (8563089928072749, 15)), (452, (25891802554522334, 16)), (454, (5722960699379124, 15)), (456, (10107287318638448, 15)), (459, (8824892552536708, 15)), (460, (6280936873895908, 15))]),
  (223, []),
  (224, [(100, (4102081544724253, 15)), (101, (6251903883165888, 15)), (103, (74150546929715695, 16)), (104, (5139498272365443, 15)), (106, (5011117105717236, 15)), (107, (38926234464952976, 16)), (112, (4300058998590761, 15)), (115, (5692288095230466, 15)), (117, (4470615713805129, 15)), (120, (5590505400920524, 15)), (122, (4919098206996984, 15)), (124, (8331345424845724, 15)), (125, (11575148271658653, 16)), (127, (4919098206996984, 15)), (128, (9429957713513835, 15)), (129, (74150546929715695, 16)), (130, (4506333796407208, 15)), (131, (7032062440715464, 15)), (132, (61341208475095055, 16)), (133, (9429957713513835, 15)), (134, (6191279261349454, 15)), (135, (8177194745018467, 15)), (138, (4484750224740034, 15)), (142, (5263292489712107, 15)), (143, (608005362623923, 14)), (145, (6512186981429555, 15)), (152, (22702770817920355, 16)), (153, (74150546929715695, 16)), (156, (333076046660297, 14)), (160, (1012310489407378, 14)), (162, (6385435275790411, 15)), (400, (3871201010907891, 15)), (402, (698761067814463, 14)), (404, (64855187343473935, 16)), (406, (4634167167917093, 15)), (407, (3211357593822105, 15)), (409, (9429957713513835, 15)), (412, (3201446709922651, 15)), (413, (8513666981639679, 15)), (414, (8513666981639679, 15)), (417, (5995970509028688, 15)), (419, (9024492605405669, 15)), (422, (4597651954941996, 15)), (425, (2239281679181627, 15)), (426, (5132672307295043, 15)), (427, (6596744369457618, 15)), (433, (1012310489407378, 14)), (434, (3844583469907935, 15)), (435, (4865609522045998, 15)), (438, (4273780114126921, 15)), (444, (873681053295389, 14)), (445, (5903597188897673, 15)), (446, (7820519801079734, 15)), (447, (8177194745018467, 15)), (448, (27700229735583473, 16)), (449, (7725209621275409, 15)), (450, (63164424043034595, 16)), (451, (1012310489407378, 14)), (452, (29286680429734453, 16)), (454, (6409532827369472, 15)), (459, (1012310489407378, 14)), (460, (8177194745018467, 15))]),
  (225, [(100, (3978080739676936, 15)), (101, (566511002885322, 14)), (103, (7226405423299325, 15)), (104, (5180636619931472, 15)), (106, (4190342829817711, 15)), (107, (34944759036200104, 16)), (108, (9747411617977368, 15)), (110, (11829165299415585, 15)), (112, (473057541992539, 14)), (114, (14026389876751804, 15)), (115, (5891042927845096, 15)), (116, (15818149345979858, 15)), (117, (5768485683286129, 15)), (120, (5674897141113285, 15)), (121, (13738707804300022, 15)), (122, (4315425743494227, 15)), (124, (8021269003196336, 15)), (125, (15681852668440757, 16)), (127, (4176030634548956, 15)), (128, (7857476737591742, 15)), (129, (6497072932409011, 15)), (130, (4627304180183864, 15)), (131, (6569839042752047, 15)), (132, (5824501213735774, 15)), (133, (9081182387978004, 15)), (134, (5564674159804854, 15)), (135, (6871253822091411, 15)), (138, (4237621308874419, 15)), (140, (13420254073181487, 15)), (141, (10201378248313288, 15)), (142, (5680815718996385, 15)), (143, (4820777330015851, 15)), (145, (5920026155942882, 15)), (152, (19576816748949826, 16)), (153, (7835391643968746, 15)), (155, (12321641784513378, 15)), (156, (34432626270142315, 16)), (157, (11946948335071967, 15)), (160, (8971206206394479, 15)), (162, (6491449172887481, 15)), (400, (4463563321458343, 15)), (401, (10848336046403858, 15)), (402, (8012674720709002, 15)), (403, (11675014619588326, 15)), (404, (6352779233827144, 15)), (406, (3269153885047312, 15)), (407, (2843798856577224, 15)), (409, (8438517193370306, 15)), (410, (956048175809722, 14)), (412, (32992131105507476, 16)), (413, (7393071443471427, 15)), (414, (9078812718622684, 15)), (417, (605157031071119, 14)), (419, (5577225735733038, 15)), (422, (4139353573657507, 15)), (423, (11461440519290267, 15)), (425, (40025817700435695, 16)), (426, (4867518253150814, 15)), (427, (5886852092804464, 15)), (431, (13515564252985813, 15)), (433, (960554325022834, 14)), (434, (302036718444358, 14)), (435, (4609902920306358, 15)), (438, (4088613625268949, 15)), (439, (12450853515993385, 15)), (443, (15818149345979858, 15)), (444, (7514396930416446, 15)), (445, (4439406914477365, 15)), (446, (8510947031215121, 15)), (447, (7750059719701615, 15)), (448, (26041753509928776, 16)), (449, (6198484655569791, 15)), (450, (7019845627494879, 15)), (451, (8139822989472973, 15)), (452, (25678396434451454, 16)), (454, (61850279881302805, 16)), (456, (10333352412489203, 15)), (459, (9153740325629451, 15)), (460, (6125876773892667, 15))]),
  (226, []),
  (227, [(100, (48510677626421845, 16)), (101, (57730519464060785, 16)), (103, (8937924040051959, 15)), (104, (6217255374990538, 15)), (106, (494735395033205, 14)), (107, (34849255221566655, 16)), (108, (10008365451753372, 15)), (110, (10500841936851167, 15)), (112, (5053712792408054, 15)), (115, (5352554962307688, 15)), (116, (13591884390209483, 15)), (117, (6552224040347407, 15)), (120, (59317700710355545, 16)), (122, (4240478577954697, 15)), (124, (806245530269806, 14)), (125, (2215924780312412, 15)), (127, (3092945179586863, 15)), (128, (6730173049728752, 15)), (129, (5017932864974637, 15)), (130, (42940827424633055, 16)), (131, (7532761194627686, 15)), (132, (581367291569699, 14)), (133, (8293567023661446, 15)), (134, (6002042878026825, 15)), (135, (8031202759193954, 15)), (138, (4444164380214968, 15)), (140, (12898737209649537, 15)), (141, (9274396276673173, 15)), (142, (5003115000304024, 15)), (143, (45453579034715155, 16)), (145, (6356985969894652, 15)), (152, (20990187856170266, 16)), (153, (10647445411043043, 15)), (156, (5154383967702493, 15)), (157, (11026935032747947, 15)), (160, (9548833122374933, 15)), (162, (6252346694801808, 15)), (400, (4393717819165009, 15)), (401, (10259679880034279, 15)), (402, (6779539296032004, 15)), (403, (1164597424115417, 14)), (404, (6165930733131942, 15)), (406, (3553254243731061, 15)), (407, (27497772603161366, 16)), (409, (8438592795711704, 15)), (410, (8492017962385285, 15)), (412, (4177624061886849, 15)), (413, (59924830567936676, 16)), (414, (9584551204977013, 15)), (417, (4797210988826062, 15)), (419, (6774053818755333, 15)), (422, (41913369671653555, 16)), (423, (10819295667969701, 15)), (425, (32610397831490916, 16)), (426, (4049725450293434, 15)), (427, (433599720327733, 14)), (431, (13591884390209483, 15)), (433, (9070095813160442, 15)), (434, (26531504246270647, 16)), (435, (38870307199596144, 16)), (438, (4153771198535428, 15)), (439, (8254346310508165, 15)), (443, (10259679880034279, 15)), (444, (5890684209352036, 15)), (445, (362584466301639, 14)), (446, (7176787431037887, 15)), (447, (7496059827777258, 15)), (448, (272112786103457, 14)), (449, (5437671695295254, 15)), (450, (7210068372803384, 15)), (451, (6729126477158082, 15)), (452, (20218227338684454, 16)), (454, (4549252862659409, 15)), (456, (10647445411043043, 15)), (459, (6955937834522836, 15)), (460, (63869918800048096, 16)), (461, (12898737209649537, 15)), (463, (12205590029089592, 15))]),
  (228, [(100, (4722301912631971, 15)), (101, (5214199526512442, 15)), (103, (7986788248752224, 15)), (104, (5651413332935188, 15)), (106, (4421961443308267, 15)), (107, (30839856594591835, 16)), (108, (977854771798028, 14)), (112, (4880707918029367, 15)), (115, (5060048846685184, 15)), (117, (5396521083306397, 15)), (120, (516342720113902, 14)), (122, (38253043836924947, 16)), (124, (7832637568924966, 15)), (125, (21427608565846947, 16)), (127, (2720649780568422, 15)), (128, (4880707918029367, 15)), (129, (6114986071850632, 15)), (130, (4403269310296114, 15)), (131, (5846722085255953, 15)), (132, (5886727419869652, 15)), (133, (8392253356860389, 15)), (134, (5771214532747808, 15)), (135, (977854771798028, 14)), (138, (4241213450961743, 15)), (141, (8169109805546178, 15)), (142, (4754667197134003, 15)), (143, (43318103463139686, 16)), (145, (6734025280256856, 15)), (152, (1925331329824207, 15)), (153, (9085400537420334, 15)), (156, (4974526673247023, 15)), (160, (977854771798028, 14)), (162, (6344560513495133, 15)), (400, (443144018726281, 14)), (402, (7986788248752224, 15)), (404, (6559671893112078, 15)), (406, (4500433058749762, 15)), (407, (31611447400058017, 16)), (409, (9085400537420334, 15)), (410, (977854771798028, 14)), (412, (40387548058010445, 16)), (413, (5324200421726771, 15)), (414, (9085400537420334, 15)), (417, (575319602724513, 14)), (419, (7699106176300443, 15)), (422, (4165419611592209, 15)), (423, (977854771798028, 14)), (425, (37920957126958412, 16)), (426, (4888198589758526, 15)), (427, (5153574904696008, 15)), (434, (27818662298037404, 16)), (435, (40848155791775795, 16)), (438, (39525476105998285, 16)), (444, (60408780996969105, 16)), (445, (4515857529075394, 15)), (446, (7832637568924966, 15)), (447, (6782815444426288, 15)), (448, (23579688125694784, 16)), (449, (575319602724513, 14)), (450, (9085400537420334, 15)), (451, (8392253356860389, 15)), (452, (2238988888679249, 15)), (454, (4991055975198233, 15)), (456, (9085400537420334, 15)), (459, (9085400537420334, 15)), (460, (648271085197595, 14))]),
  (229, [(100, (4103149768384549, 15)), (101, (6169770621635323, 15)), (103, (7824819045321476, 15)), (104, (5907896433139415, 15)), (106, (4916098148757115, 15)), (107, (37238299403807074, 16)), (108, (10532869246423687, 15)), (112, (4703923628813479, 15)), (115, (4889190695837191, 15)), (117, (6102052447580373, 15)), (120, (5874158293507565, 15)), (122, (4047470943219932, 15)), (124, (8517966225881421, 15)), (125, (17629737014516949, 16)), (127, (26547139099203623, 16)), (128, (7115142562810321, 15)), (129, (3537103090118836, 15)), (130, (37433345988289806, 16)), (131, (7218683241751161, 15)), (132, (478826477724723, 14)), (133, (9280106277928319, 15)), (134, (6038630621142877, 15)), (135, (6516486225671298, 15)), (138, (4615320382265873, 15)), (141, (9434256957755577, 15)), (142, (5178644247937354, 15)), (143, (4744439297707201, 15)), (145, (6935556985835241, 15)), (152, (21201480766041603, 16)), (153, (10532869246423687, 15)), (156, (4812557469816275, 15)), (157, (10532869246423687, 15)), (160, (10127404138315523, 15)), (162, (6819297179719379, 15)), (400, (4559059634554425, 15)), (401, (10127404138315523, 15)), (402, (6306035501155507, 15)), (403, (11226016426983632, 15)), (404, (6748679612505425, 15)), (406, (38982358885620005, 16)), (407, (3153861118795382, 15)), (409, (818149398926021, 14)), (410, (8335644669087467, 15)), (412, (4385469897694945, 15)), (413, (635081910378248, 14)), (414, (9434256957755577, 15)), (417, (4204932462694492, 15)), (419, (6228804153219516, 15)), (422, (39875195860892667, 16)), (423, (11226016426983632, 15)), (425, (30755485153596283, 16)), (426, (4076884828426225, 15)), (427, (48475902433320455, 16)), (433, (10532869246423687, 15)), (434, (31021621638777184, 16)), (435, (3884532574620471, 15)), (438, (4272332216113095, 15)), (439, (7615098514339407, 15)), (444, (5312513421345361, 15)), (445, (4404908954727167, 15)), (446, (7670668365494218, 15)), (447, (9280106277928319, 15)), (448, (2972528398637727, 15)), (449, (5947901767753114, 15)), (450, (7615098514339407, 15)), (451, (7562454780853986, 15)), (452, (2433618684626726, 15)), (454, (5309814364376197, 15)), (456, (11226016426983632, 15)), (459, (769965590236747, 14)), (460, (684398979230975, 14)), (461, (11226016426983632, 15))]),
  (230, [(100, (4533345781203185, 15)), (101, (6417350824011239, 15)), (103, (8632653132767416, 15)), (104, (4862640865016976, 15)), (106, (53415260690694515, 16)), (107, (4463330330418472, 15)), (108, (11921055020284227, 15)), (110, (13530492932718326, 15)), (112, (35763122658666804, 16)), (115, (6795901272745379, 15)), (117, (44404011333383195, 16)), (120, (5754377455619585, 15)), (121, (12837345752158381, 15)), (122, (4206734593706587, 15)), (124, (8647691010131956, 15)), (125, (12788161453831373, 16)), (127, (36954448334047196, 16)), (128, (7969811301702799, 15)), (129, (5336816266763086, 15)), (130, (21933742915728085, 16)), (131, (5630968460686129, 15)), (132, (4611307322672897, 15)), (133, (10891435603103067, 15)), (134, (6810272777583032, 15)), (135, (771636240089326, 14)), (138, (4822514106096005, 15)), (141, (11132597659919956, 15)), (142, (4323959799085098, 15)), (143, (4303590472443165, 15)), (145, (6907756608768487, 15)), (152, (25084760916737308, 16)), (153, (961846992729018, 14)), (155, (13530492932718326, 15)), (156, (4318054762659997, 15)), (157, (10822442731616116, 15)), (160, (10640121174822163, 15)), (162, (7502214412487628, 15)), (400, (4648934444079351, 15)), (401, (1096554357525679, 14)), (402, (7713381772755122, 15)), (404, (6523797705881286, 15)), (406, (3698877392419994, 15)), (407, (3757057119542472, 15)), (409, (9946973994262217, 15)), (410, (11132597659919956, 15)), (412, (3947348394873541, 15)), (413, (693744839857589, 14)), (414, (9680345331008269, 15)), (417, (4971198565283454, 15)), (419, (7504626958893012, 15)), (422, (405678879594157, 14)), (423, (13530492932718326, 15)), (425, (31798546505869276, 16)), (426, (4434890238212567, 15)), (427, (5394267377809866, 15)), (433, (10891435603103067, 15)), (434, (342202579949566, 14)), (435, (4609035353770444, 15)), (438, (4929510215572406, 15)), (439, (11921055020284227, 15)), (443, (13530492932718326, 15)), (444, (5458337624530077, 15)), (445, (41341710431167025, 16)), (446, (9136043778045888, 15)), (447, (8640143804496573, 15)), (448, (29164604224458333, 16)), (449, (7497406710919526, 15)), (450, (688800613135107, 14)), (451, (846789789969136, 14)), (452, (30720576133813164, 16)), (454, (6226649707440623, 15)), (456, (10586053953551886, 15)), (459, (8560679633142326, 15)), (460, (7777920293892693, 15))]),
  (231, [(100, (4972479528443855, 15)), (101, (52608818025832305, 16)), (103, (7974712366600939, 15)), (104, (42600804163845885, 16)), (106, (5235275851678058, 15)), (107, (38810927047367874, 16)), (108, (1111020658253009, 14)), (112, (5440325659549569, 15)), (115, (7281565186040994, 15)), (117, (4866039681866353, 15)), (120, (6060350575280552, 15)), (121, (1111020658253009, 14)), (122, (3779801370685687, 15)), (124, (7349006466836527, 15)), (125, (1267424905111356, 15)), (127, (48411102988238275, 16)), (128, (8545257225068552, 15)), (129, (6779473242243758, 15)), (130, (35315497319353266, 16)), (131, (3518344867640156, 15)), (132, (4709949137221268, 15)), (134, (4560555840296279, 15)), (135, (9500768670095988, 15)), (138, (5299065589553389, 15)), (141, (1111020658253009, 14)), (142, (5832091923299572, 15)), (143, (4077582321502083, 15)), (145, (6535495604026706, 15)), (152, (17587139307980229, 16)), (153, (840215638142788, 14)), (156, (38942315798786233, 16)), (160, (1111020658253009, 14)), (162, (9030765040850254, 15)), (400, (5613038357236888, 15)), (402, (10417059401970144, 15)), (404, (36085721246466758, 16)), (406, (34648088831014556, 16)), (407, (32941927433710614, 16)), (409, (10417059401970144, 15)), (410, (1111020658253009, 14)), (412, (4833563093188445, 15)), (413, (1111020658253009, 14)), (414, (9723912221410199, 15)), (417, (6356616391423724, 15)), (419, (891298200519387, 14)), (422, (3554824638289816, 15)), (425, (4601437445558408, 15)), (426, (6140393282954089, 15)), (427, (7178380949805764, 15)), (434, (304180362396039, 14)), (435, (4134792655074137, 15)), (438, (5447246102394144, 15)), (439, (8471149252914831, 15)), (444, (7421327128416153, 15)), (445, (432236160022051, 14)), (446, (9723912221410199, 15)), (447, (1111020658253009, 14)), (448, (28425009177676634, 16)), (449, (8807621489536043, 15)), (450, (9723912221410199, 15)), (451, (9723912221410199, 15)), (452, (3562704899715122, 15)), (454, (781436971652576, 14)), (459, (10417059401970144, 15)), (460, (8807621489536043, 15))])]

/-- hmm/pos/prob_trans.go:118-133 -/
noncomputable def trans6 : List (Nat × List (Nat × Nat × Nat)) := [
  (232, [(100, (49490278735999, 13)), (101, (6253492216472158, 15)), (103, (8843759381917984, 15)), (104, (46983596488956, 13)), (106, (51094969219562305, 16)), (107, (4328201354619581, 15)), (108, (11195134639081463, 15)), (112, (41273886237903845, 16)), (115, (6600014788946872, 15)), (117, (5381004107256396, 15)), (120, (6350947552622872, 15)), (122, (3640276118040787, 15)), (124, (78629301289062585, 16)), (125, (11714669262892294, 16)), (127, (38902825016616775, 16)), (128, (8017080808733517, 15)), (129, (5801507092729101, 15)), (130, (3911343062681973, 15)), (131, (5906867608386928, 15)), (132, (3331867915071889, 15)), (133, (10096522350413352, 15)), (134, (5964026022226876, 15)), (135, (7544476397787724, 15)), (138, (502239074475797, 14)), (141, (10789669530973297, 15)), (142, (5848027108363993, 15)), (143, (4577063435221779, 15)), (145, (6625591630736523, 15)), (152, (2334635471465447, 15)), (153, (9115693097401627, 15)), (155, (11888281819641408, 15)), (156, (38926382153541366, 16)), (160, (10501987458521517, 15)), (162, (7051999912689929, 15)), (400, (4481571089463768, 15)), (401, (11888281819641408, 15)), (402, (7196933937412264, 15)), (403, (11888281819641408, 15)), (404, (6123090716856563, 15)), (406, (3635835729394455, 15)), (407, (3576883541204767, 15)), (409, (10278843907207307, 15)), (410, (10789669530973297, 15)), (412, (3474672944481741, 15)), (413, (6897849232862671, 15)), (414, (8843759381917984, 15)), (417, (4734448018062565, 15)), (419, (6395220376300859, 15)), (422, (404130083750262, 14)), (423, (10501987458521517, 15)), (425, (33175478612971405, 16)), (426, (4065436529361635, 15)), (427, (5619185535935146, 15)), (433, (10096522350413352, 15)), (434, (3319825334287629, 15)), (435, (420257875840686, 14)), (438, (4670104981238, 12)), (439, (10096522350413352, 15)), (444, (6541174288923939, 15)), (445, (4105057803305371, 15)), (446, (77611474345963165, 16)), (447, (8304762881185297, 15)), (448, (3027640777867532, 15)), (449, (6806877454656944, 15)), (450, (7020747369185825, 15)), (451, (8556077309466204, 15)), (452, (28506295554909413, 16)), (454, (5937639267053681, 15)), (456, (9180231618539198, 15)), (459, (815061220135804, 14)), (460, (7044094733182816, 15))]),
  (233, [(100, (57903423608503095, 16)), (101, (8562931083090092, 15)), (103, (8562931083090092, 15)), (104, (8562931083090092, 15)), (106, (6365706505753872, 15)), (107, (4671110784979464, 15)), (110, (8562931083090092, 15)), (112, (7464318794421981, 15)), (115, (6260345990096045, 15)), (117, (6260345990096045, 15)), (120, (5997981725628555, 15)), (122, (2245766396342807, 15)), (124, (7464318794421981, 15)), (125, (34691808822833288, 16)), (127, (4712783481380033, 15)), (129, (7869783902530146, 15)), (130, (6365706505753872, 15)), (132, (7464318794421981, 15)), (133, (2690813293614675, 15)), (134, (8562931083090092, 15)), (135, (8562931083090092, 15)), (138, (4899369436960445, 15)), (142, (6260345990096045, 15)), (143, (616503581029172, 14)), (152, (25467739233917377, 16)), (156, (7464318794421981, 15)), (162, (6771171613862037, 15)), (400, (5230726572914887, 15)), (402, (7869783902530146, 15)), (406, (57903423608503095, 16)), (407, (3249725104048304, 15)), (409, (8562931083090092, 15)), (410, (5923873753474832, 15)), (412, (55184086453666685, 16)), (417, (459263916953797, 14)), (422, (31512850312350515, 16)), (425, (4519879815255541, 15)), (426, (6483489541410255, 15)), (427, (5923873753474832, 15)), (433, (3326489120260142, 15)), (434, (4631105450365766, 15)), (435, (3532493161697656, 15)), (438, (39882201045867083, 16)), (444, (7869783902530146, 15)), (445, (50365705584739295, 16)), (446, (7464318794421981, 15)), (447, (8562931083090092, 15)), (448, (23403548150187223, 16)), (449, (5304834545068609, 15)), (450, (17773434380821618, 16)), (451, (4849359016385783, 15)), (452, (19549304577940043, 16)), (454, (50365705584739295, 16)), (459, (4358238463699125, 15)), (460, (5007583021600677, 15))]),
  (234, [(100, (3707686938726001, 15)), (101, (5171603498030898, 15)), (103, (74460177140582475, 16)), (104, (4260468893306113, 15)), (106, (6470410405027673, 15)), (107, (3937378650534441, 15)), (112, (4929217700494293, 15)), (115, (5748874221205041, 15)), (117, (4469921415021115, 15)), (120, (5156011403271061, 15)), (122, (3366833792066828, 15)), (124, (5905572673111098, 15)), (125, (12672095197672428, 16)), (127, (3707686938726001, 15)), (128, (7059244738962235, 15)), (129, (5970111194248669, 15)), (130, (34303857260110813, 16)), (131, (4620184477299653, 15)), (132, (4969245914476523, 15)), (133, (9525459255738083, 15)), (134, (5844948051294663, 15)), (135, (6414416135673098, 15)), (138, (2954265106216899, 15)), (140, (9930924363846247, 15)), (141, (8059122186944656, 15)), (142, (4696257024374667, 15)), (143, (3535941045960784, 15)), (145, (8544630002726358, 15)), (152, (182571749752844, 14)), (153, (7985014214790934, 15)), (156, (34046735555274314, 16)), (162, (7117513647086211, 15)), (400, (423103835946917, 14)), (402, (8111765920430077, 15)), (404, (65693922385765235, 16)), (406, (569923624011327, 14)), (407, (4625962454579542, 15)), (409, (977677368401899, 14)), (412, (516165316717773, 14)), (413, (7200895256025262, 15)), (414, (7851482822166411, 15)), (417, (5368313792276952, 15)), (419, (9014633631972092, 15)), (422, (4000892056256767, 15)), (423, (11722683833074303, 15)), (425, (4115799301854673, 15)), (426, (5310865565364406, 15)), (427, (56045866350329545, 16)), (431, (11029536652514357, 15)), (433, (10113245920640201, 15)), (434, (35493903941080744, 16)), (435, (51816538338844, 13)), (438, (3182164816354568, 15)), (444, (7697332142339153, 15)), (445, (6795430147917098, 15)), (446, (8631641379715987, 15)), (447, (9324788560275932, 15)), (448, (4737967512956037, 15)), (449, (4653660406496043, 15)), (450, (8085097673347917, 15)), (451, (9014633631972092, 15)), (452, (3303324002006828, 15)), (454, (6409477854032515, 15)), (456, (10624071544406192, 15)), (459, (9237777183286303, 15)), (460, (9083626503459044, 15))]),
  (235, [(100, (37031528191769754, 16)), (101, (6543262742292252, 15)), (103, (6646446978527482, 15)), (104, (49105679676938845, 16)), (106, (4973830164471851, 15)), (107, (4134729071288826, 15)), (112, (35763738406865895, 16)), (115, (5704403750550913, 15)), (117, (5381338174209815, 15)), (120, (59212114834160365, 16)), (122, (3649628338761271, 15)), (124, (8865650462582478, 15)), (125, (12517330659629002, 16)), (127, (4468735215414845, 15)), (128, (9376476086348468, 15)), (129, (6068369127752325, 15)), (130, (42003263537746385, 16)), (131, (7641875030960361, 15)), (132, (6044271576173264, 15)), (133, (8683328905788523, 15)), (134, (6432037107182027, 15)), (135, (435699117697523, 14)), (138, (4439606942491821, 15)), (142, (5282131524126367, 15)), (143, (4473673497055428, 15)), (145, (7256212550148377, 15)), (152, (2149055689061499, 15)), (153, (59212114834160365, 16)), (156, (42003263537746385, 16)), (160, (10475088375016577, 15)), (162, (7216991836995096, 15)), (400, (4083171261623976, 15)), (402, (7530649395850137, 15)), (404, (6316205291656906, 15)), (406, (41172461085084775, 16)), (407, (32131612823138265, 16)), (409, (9376476086348468, 15)), (412, (44911520943293874, 16)), (413, (8172503282022532, 15)), (414, (8865650462582478, 15)), (417, (5132754123051766, 15)), (419, (8395646833336741, 15)), (422, (37322077392246746, 16)), (425, (33251715388844687, 16)), (426, (5063442323161538, 15)), (427, (6270395755625612, 15)), (433, (10475088375016577, 15)), (434, (31284332118400386, 16)), (435, (4207887826475215, 15)), (438, (4926012290121358, 15)), (439, (9376476086348468, 15)), (444, (6919740313527164, 15)), (445, (5526328484638409, 15)), (446, (9376476086348468, 15)), (447, (8277863797680357, 15)), (448, (2728787712785138, 15)), (449, (8395646833336741, 15)), (450, (7179251509012248, 15)), (451, (10475088375016577, 15)), (452, (25481248301535993, 16)), (454, (5986452005284438, 15)), (456, (9376476086348468, 15)), (459, (9088794013896687, 15)), (460, (6919740313527164, 15))]),
  (236, [(125, (6931471805599453, 16)), (435, (6931471805599453, 16))]),
  (237, []),
  (238, [(100, (3546611504512179, 15)), (101, (5605998004408728, 15)), (103, (6694425832790958, 15)), (104, (5161194529167501, 15)), (106, (4892411646081026, 15)), (107, (3478237052952054, 15)), (108, (8340153746630259, 15)), (110, (12456477215571136, 15)), (112, (5405198959836823, 15)), (114, (13555089504239245, 15)), (115, (4812196032727107, 15)), (117, (6073533802329728, 15)), (120, (5275646016526579, 15)), (122, (38052777443071637, 16)), (124, (7864730049915184, 15)), (125, (1497882363047387, 15)), (127, (452591136133717, 14)), (128, (8062028060898696, 15)), (129, (69661630267057255, 16)), (130, (5044518189131894, 15)), (131, (7400231410222827, 15)), (132, (6189276667029772, 15)), (133, (9124272705395931, 15)), (134, (5911127555236715, 15)), (135, (7888662816126812, 15)), (138, (39153071147734493, 16)), (140, (11945651591805143, 15)), (141, (9477552060333526, 15)), (142, (5034103514584311, 15)), (143, (462023916394948, 14)), (145, (6710274025030982, 15)), (152, (2022822302480277, 15)), (153, (9022490011085988, 15)), (156, (40450149787871394, 16)), (157, (10721876160183028, 15)), (160, (8726775766936944, 15)), (162, (6184229337702528, 15)), (400, (39618023355855, 13)), (401, (10559357230685254, 15)), (402, (7805696518330991, 15)), (403, (128619423236793, 13)), (404, (6573154827082856, 15)), (406, (5016917906437816, 15)), (407, (2510217571191138, 15)), (409, (883659063294415, 14)), (410, (9224356163952914, 15)), (412, (56360970160739985, 16)), (413, (76857925911054705, 16)), (414, (8037636607774537, 15)), (417, (6365921765818922, 15)), (419, (9033300927190204, 15)), (422, (4268529106351653, 15)), (423, (12168795143119354, 15)), (425, (34480898423381343, 16)), (426, (5313122944007442, 15)), (427, (6330336098471274, 15)), (431, (13555089504239245, 15)), (433, (9683888493331354, 15)), (434, (3278384591145073, 15)), (435, (4629768087295359, 15)), (438, (3897310692677474, 15)), (439, (128619423236793, 13)), (443, (13555089504239245, 15)), (444, (7571153223552054, 15)), (445, (54920265929124525, 16)), (446, (7558637415620224, 15)), (447, (7486663915995134, 15)), (448, (2551091465751927, 15)), (449, (58126874824234624, 16)), (450, (7200719463441894, 15)), (451, (857835576181867, 14)), (452, (2186253833298424, 15)), (454, (6453413532619801, 15)), (456, (10336213679371044, 15)), (459, (9320982999641986, 15)), (460, (5442561740760607, 15))]),
  (239, []),
  (240, [(100, (510594547390058, 14)), (104, (510594547390058, 14)), (106, (4412798293340635, 15)), (107, (30265039322207445, 16)), (108, (510594547390058, 14)), (112, (4412798293340635, 15)), (115, (510594547390058, 14)), (122, (510594547390058, 14)), (127, (510594547390058, 14)), (129, (510594547390058, 14)), (130, (510594547390058, 14)), (138, (31600353248452673, 16)), (140, (510594547390058, 14)), (142, (510594547390058, 14)), (145, (4412798293340635, 15)), (152, (23333567516607996, 16)), (156, (4412798293340635, 15)), (162, (510594547390058, 14)), (400, (34965075614664802, 16)), (404, (510594547390058, 14)), (406, (34965075614664802, 16)), (407, (216150649473414, 14)), (422, (4412798293340635, 15)), (425, (510594547390058, 14)), (427, (510594547390058, 14)), (434, (2540996116439044, 15)), (438, (34965075614664802, 16)), (448, (11741198411762548, 16)), (449, (510594547390058, 14)), (452, (270805020110221, 14))]),
  (241, [(100, (2993855513541131, 15)), (101, (6970417040106848, 15)), (103, (6682734967655067, 15)), (104, (5235815984718742, 15)), (106, (5989587787095122, 15)), (107, (4240387932285863, 15)), (112, (5671134055976587, 15)), (115, (3738295988488627, 15)), (117, (5871804751438739, 15)), (120, (5360979127672747, 15)), (122, (4773192462770629, 15)), (125, (7672069866370257, 16)), (127, (28928795962011287, 16)), (128, (61231191797196445, 16)), (129, (62772698595469025, 16)), (130, (36623100815107046, 16)), (131, (6459591416340857, 15)), (132, (5671134055976587, 15)), (134, (8069029328774958, 15)), (138, (6682734967655067, 15)), (141, (8069029328774958, 15)), (142, (5766444235780912, 15)), (143, (4177209030664331, 15)), (152, (2981432993542574, 15)), (156, (4736824818599754, 15)), (162, (5504079971313421, 15)), (400, (28167559007283276, 16)), (402, (6459591416340857, 15)), (404, (4240387932285863, 15)), (406, (6970417040106848, 15)), (407, (4043677638039808, 15)), (412, (50245068910515345, 16)), (413, (8069029328774958, 15)), (417, (5235815984718742, 15)), (422, (4850153503906757, 15)), (425, (4177209030664331, 15)), (426, (4431443169048572, 15)), (427, (4405467682645312, 15)), (434, (36870026941010763, 16)), (435, (4810932790753475, 15)), (437, (8069029328774958, 15)), (438, (6459591416340857, 15)), (444, (8069029328774958, 15)), (445, (73758821482150125, 16)), (446, (73758821482150125, 16)), (448, (8069029328774958, 15)), (452, (2993855513541131, 15)), (454, (5766444235780912, 15))]),
  (242, [(100, (4116698496101698, 15)), (101, (59592873005373885, 16)), (103, (7419246796694014, 15)), (104, (5049543867229909, 15)), (106, (4762634891067116, 15)), (107, (34165826462256597, 16)), (108, (991245224929671, 14)), (110, (1152189016173081, 14)), (112, (5134169445599974, 15)), (115, (5301299991631071, 15)), (117, (5850286585438844, 15)), (120, (5554462192451069, 15)), (122, (39432333111360474, 16)), (124, (8071902615899223, 15)), (125, (1632146626986941, 15)), (127, (44945756476910335, 16)), (128, (8207704157058284, 15)), (129, (6978595379460806, 15)), (130, (4685093971689167, 15)), (131, (7630069863620183, 15)), (132, (6359965420088328, 15)), (133, (6863179208814689, 15)), (134, (6251457998672309, 15)), (135, (648169606539301, 14)), (138, (422853240373676, 14)), (141, (9817142069492384, 15)), (142, (4763795657303079, 15)), (143, (5371287393284531, 15)), (145, (7079238905240493, 15)), (152, (18412024695773868, 16)), (153, (10017812764954536, 15)), (156, (38433324576231236, 16)), (157, (9575980012675497, 15)), (160, (9817142069492384, 15)), (162, (5628865687436081, 15)), (400, (4331214127398602, 15)), (401, (11116425053622645, 15)), (402, (7682437849137499, 15)), (403, (11116425053622645, 15)), (404, (6569590444647518, 15)), (406, (4375117982278173, 15)), (407, (27868474074614724, 16)), (409, (8120692780068655, 15)), (410, (8996161517422555, 15)), (412, (465704238375995, 14)), (413, (7339840019089603, 15)), (414, (9079543126361605, 15)), (417, (6389037234910305, 15)), (419, (8154594331744336, 15)), (422, (4153865982599834, 15)), (425, (39414455440911236, 16)), (426, (50364918585270555, 16)), (427, (6334504355890055, 15)), (431, (12215037342290755, 15)), (433, (8120692780068655, 15)), (434, (3571211499941152, 15)), (435, (5267100273675786, 15)), (438, (38373361296931168, 16)), (444, (68969173484465385, 16)), (445, (5266140119977443, 15)), (446, (8244745428738634, 15)), (447, (7324688214069002, 15)), (448, (2274494881803616, 15)), (449, (5738064979401073, 15)), (450, (728778365713355, 14)), (451, (7640326363787373, 15)), (452, (19623023616446913, 16)), (454, (6160597996021385, 15)), (456, (991245224929671, 14)), (459, (88138399606286, 13)), (460, (65246778879666945, 16))]),
  (243, [(100, (44115592866919, 13)), (101, (5931133218221465, 15)), (103, (7986690387030758, 15)), (104, (5373950365732873, 15)), (106, (5017890995836355, 15)), (107, (359535407533881, 14)), (108, (985849256393235, 14)), (110, (1225638783673072, 14)), (112, (3725094520935701, 15)), (114, (11340097104856564, 15)), (115, (5983510830184553, 15)), (116, (11850922728622557, 15)), (117, (4968827196420996, 15)), (120, (5821841317943267, 15)), (121, (12949535017290666, 15)), (122, (3327946292450591, 15)), (124, (5868667120599883, 15)), (125, (17392699079529312, 16)), (127, (37356011098043527, 16)), (128, (7144400048374177, 15)), (129, (64289138897319695, 16)), (130, (36552212115383043, 16)), (131, (5780185000620066, 15)), (132, (53317754406821605, 16)), (133, (1087009347561083, 14)), (134, (5601591194141978, 15)), (135, (6983388278166974, 15)), (138, (3857415276701914, 15)), (140, (12949535017290666, 15)), (141, (8701039775241307, 15)), (142, (5119506934756826, 15)), (143, (3385584392748595, 15)), (145, (5780185000620066, 15)), (152, (20780565212948656, 16)), (153, (7912582414877036, 15)), (156, (4354270290454273, 15)), (157, (10551639744492295, 15)), (160, (10464628367502666, 15)), (162, (71843439145058205, 16)), (400, (44813220080961464, 16)), (401, (11157775548062611, 15)), (402, (823103614599557, 14)), (403, (12949535017290666, 15)), (404, (69188497570294025, 16)), (406, (4686460181488068, 15)), (407, (26197671702657876, 16)), (409, (9078334006382775, 15)), (410, (9653698151286337, 15)), (412, (40086439495052035, 16)), (413, (7473071465359155, 15)), (414, (9905012579567243, 15)), (417, (5271208660783779, 15)), (419, (901770938456634, 14)), (422, (33582271688067187, 16)), (423, (9814040801361516, 15)), (425, (4311186704317961, 15)), (426, (393180899159387, 14)), (427, (5618474712072033, 15)), (431, (12949535017290666, 15)), (433, (100591632593945, 13)), (434, (3227389501434992, 15)), (435, (468285657398477, 14)), (438, (34420574140919467, 16)), (443, (11003624868235352, 15)), (444, (6461850998806055, 15)), (445, (5429842613174126, 15)), (446, (7626525038152257, 15)), (447, (768684482838578, 14)), (448, (26619762493340455, 16)), (449, (5661290616270541, 15)), (450, (8240004815978331, 15)), (451, (9338617104646442, 15)), (452, (2632283553831678, 15)), (454, (6021977111012348, 15)), (456, (10241484816188455, 15)), (459, (977148118694272, 14)), (460, (7117652540007149, 15))]),
  (244, []),
  (245, [(100, (3591552560215763, 15)), (101, (5404747310163883, 15)), (103, (7092146764067696, 15)), (104, (5002621103321234, 15)), (106, (3391178512634755, 15)), (107, (29328414725531347, 16)), (108, (9316770315592029, 15)), (110, (1070306467671192, 14)), (112, (5482708851633595, 15)), (115, (4916167295345212, 15)), (117, (58588775902533285, 16)), (120, (5097262610415923, 15)), (122, (4126595107663696, 15)), (124, (63210380420380385, 16)), (125, (21061365172768287, 16)), (127, (417656981714113, 14)), (128, (77586256975454795, 16)), (129, (6559929950320387, 15)), (130, (4455021802203491, 15)), (131, (66957314914794495, 16)), (132, (5843252272350248, 15)), (133, (6831863665804029, 15)), (134, (4937873573927075, 15)), (135, (621442830697978, 14)), (138, (3096677286939268, 15)), (141, (821815802692392, 14)), (142, (5585070864295165, 15)), (143, (3898450156649296, 15)), (145, (6118097198041348, 15)), (152, (22208770944944978, 16)), (153, (960445238804381, 14)), (156, (4744639983682138, 15)), (160, (8911305207483865, 15)), (162, (54097598519874275, 16)), (400, (40412099361666085, 16)), (402, (7484188851843719, 15)), (403, (1070306467671192, 14)), (404, (6677712985976771, 15)), (406, (42928897947457525, 16)), (407, (2473553557747463, 15)), (409, (8623623135032084, 15)), (410, (8064007347096661, 15)), (412, (5783083750883795, 15)), (413, (7658542238988497, 15)), (414, (10009917496151974, 15)), (417, (6049104326554397, 15)), (419, (8623623135032084, 15)), (422, (44207979298159135, 16)), (423, (1070306467671192, 14)), (425, (4375127892982725, 15)), (426, (5414797646017385, 15)), (427, (6237156558057336, 15)), (433, (7707332403157929, 15)), (434, (30252011760337094, 16)), (435, (5515678870871165, 15)), (438, (26923731375816184, 16)), (444, (799501447560971, 14)), (445, (6159769894441916, 15)), (446, (7869851332655704, 15)), (447, (8138115319250383, 15)), (448, (26296617077255147, 16)), (449, (5002621103321234, 15)), (450, (5273719047757479, 15)), (452, (22363230287917806, 16)), (454, (5783083750883795, 15)), (456, (1070306467671192, 14)), (459, (909362676427782, 14)), (460, (5634160474491688, 15))]),
  (246, []),
  (247, [])]

/-- hmm/pos/prob_trans.go:134-149 -/
noncomputable def trans7 : List (Nat × List (Nat × Nat × Nat)) := [
  (248, []),
  (249, []),
  (250, []),
  (251, []),
  (252, [(100, (38989602169930455, 16)), (101, (5664196681536004, 15)), (103, (7241241872313853, 15)), (104, (4983028657736162, 15)), (106, (43380116903822, 13)), (107, (38745522679749045, 16)), (108, (10032168700504307, 15)), (110, (11316993601459338, 15)), (112, (4943164989794456, 15)), (114, (12415605890127447, 15)), (115, (5688363278650623, 15)), (116, (14261432580625778, 15)), (117, (53950859946696585, 16)), (120, (5490165807931589, 15)), (121, (12962149596495518, 15)), (122, (35306822505857616, 16)), (124, (7025093237871435, 15)), (125, (16039998551365695, 16)), (127, (4019082792649434, 15)), (128, (74248153294769805, 16)), (129, (6382393461475447, 15)), (130, (3744887778540468, 15)), (131, (6079525662696459, 15)), (132, (5510169086206409, 15)), (133, (9353691709692155, 15)), (134, (5648989817302444, 15)), (135, (7203534643213922, 15)), (136, (15360044869293889, 15)), (138, (35669605605219843, 16)), (140, (11696483223164241, 15)), (141, (8953164883224574, 15)), (142, (5184318885799832, 15)), (143, (4342268548704642, 15)), (145, (7170522758545795, 15)), (152, (20813343688678403, 16)), (153, (8046158037660426, 15)), (155, (13057459776299842, 15)), (156, (37598963830655916, 16)), (157, (11083378750277832, 15)), (160, (8855756695757242, 15)), (162, (6985798687197583, 15)), (400, (4397101743290844, 15)), (401, (11249171005120576, 15)), (402, (7838726889094648, 15)), (403, (11958847487631733, 15)), (404, (6800942274800441, 15)), (405, (14666897688733943, 15)), (406, (38437550700482332, 16)), (407, (343503624391392, 14)), (409, (8829167241568003, 15)), (410, (924194767125254, 14)), (412, (4217342859093619, 15)), (413, (73231480966088185, 16)), (414, (8639824714158593, 15)), (417, (5620724662971672, 15)), (419, (662403748472467, 14)), (422, (4031138400953819, 15)), (423, (11671165415179951, 15)), (425, (3930272778440694, 15)), (426, (4673089656997769, 15)), (427, (57769692138324595, 16)), (431, (12962149596495518, 15)), (433, (9626703592396142, 15)), (434, (3045831077644524, 15)), (435, (480202103532547, 14)), (438, (33708541699088914, 16)), (439, (12315522431570464, 15)), (443, (13568285400065832, 15)), (444, (7429479015059923, 15)), (445, (5276488295017099, 15)), (446, (66060419357996265, 16)), (447, (60622432215477104, 16)), (448, (27223489109035683, 16)), (449, (30502430380012373, 16)), (450, (6114916671832042, 15)), (451, (5113712570631263, 15)), (452, (268146236274217, 14)), (454, (61368869936070904, 16)), (456, (1039720023903398, 14)), (459, (9163600741499367, 15)), (460, (5864375190449522, 15))]),
  (253, [(100, (3306416029258377, 15)), (101, (6725402952484031, 15)), (103, (69877672169515215, 16)), (104, (6032255771924086, 15)), (106, (5358526677221241, 15)), (107, (36273918298096217, 16)), (108, (9290352309945568, 15)), (112, (66512949803303085, 16)), (115, (7344442160890254, 15)), (117, (6517763587705786, 15)), (120, (66512949803303085, 16)), (122, (3421055396811793, 15)), (125, (24017798503802044, 16)), (127, (68054456601575675, 16)), (129, (8597205129385623, 15)), (130, (66512949803303085, 16)), (131, (8597205129385623, 15)), (132, (8597205129385623, 15)), (134, (7344442160890254, 15)), (135, (9290352309945568, 15)), (138, (47470575276755635, 16)), (142, (7093127732609348, 15)), (143, (6199309856587251, 15)), (145, (9290352309945568, 15)), (152, (7653893812649694, 16)), (153, (8191740021277457, 15)), (156, (2348195604246098, 15)), (160, (9290352309945568, 15)), (162, (7344442160890254, 15)), (400, (43345252523443065, 16)), (406, (4400003181723814, 15)), (407, (38831805384854485, 16)), (412, (6294620036391576, 15)), (413, (9290352309945568, 15)), (417, (9290352309945568, 15)), (419, (9290352309945568, 15)), (422, (4279717015849312, 15)), (425, (5679434397301343, 15)), (426, (69877672169515215, 16)), (427, (7680914397511467, 15)), (434, (4131297010731038, 15)), (435, (5358526677221241, 15)), (438, (6154858094016418, 15)), (445, (6582302108843358, 15)), (446, (7498592840717513, 15)), (447, (7680914397511467, 15)), (448, (29273242064051024, 16)), (449, (4160453595022494, 15)), (450, (5378329304517421, 15)), (451, (7344442160890254, 15)), (452, (28967615559949356, 16)), (454, (7344442160890254, 15)), (460, (8597205129385623, 15))]),
  (254, []),
  (255, [(100, (22512917986064953, 16)), (104, (29444389791664407, 16)), (107, (31675825304806504, 16)), (115, (38607297110405954, 16)), (122, (2474435349920705, 15)), (125, (10881409888008142, 16)), (130, (4553876891600541, 15)), (138, (2762117422372486, 15)), (142, (4553876891600541, 15)), (143, (38607297110405954, 16)), (152, (38607297110405954, 16)), (156, (3455264602932431, 15)), (400, (38607297110405954, 16)), (407, (4553876891600541, 15)), (412, (4553876891600541, 15)), (417, (3455264602932431, 15)), (425, (3455264602932431, 15)), (434, (31675825304806504, 16)), (435, (38607297110405954, 16)), (438, (4553876891600541, 15)), (452, (38607297110405954, 16))]),
  (256, [(100, (4235664336765162, 15)), (101, (5524392453954045, 15)), (103, (74911762261521115, 16)), (104, (5168876240552239, 15)), (106, (4043072489013538, 15)), (107, (37895152698882213, 16)), (108, (1064929584159924, 14)), (110, (1359373482076568, 14)), (112, (5059881188456336, 15)), (114, (1359373482076568, 14)), (115, (6636237449888729, 15)), (117, (56113184739379465, 16)), (118, (1359373482076568, 14)), (120, (5682044300057342, 15)), (122, (4591895723366838, 15)), (124, (8064305733254256, 15)), (125, (10298723530045988, 16)), (127, (48745808573031395, 16)), (128, (8280528841723893, 15)), (129, (7004808343232161, 15)), (130, (4762022902944103, 15)), (131, (6746791681180301, 15)), (132, (6083304264387674, 15)), (133, (11028785463304143, 15)), (134, (57475360052682545, 16)), (135, (812567467963055, 14)), (138, (4438907158719756, 15)), (140, (1359373482076568, 14)), (141, (1001021588230957, 14)), (142, (6084399554749089, 15)), (143, (4911705386896508, 15)), (145, (6933159670925995, 15)), (152, (2225881371689506, 15)), (153, (8100673377425132, 15)), (156, (30687035065292996, 16)), (157, (12900587640205735, 15)), (160, (927624670722937, 14)), (162, (8275614826921464, 15)), (400, (4913402891972262, 15)), (401, (11801975351537624, 15)), (402, (896876200748141, 14)), (404, (7022851858426096, 15)), (406, (31133530444938566, 16)), (407, (33569944942353125, 16)), (409, (8603302233986945, 15)), (410, (10549212383042258, 15)), (412, (36644333333365724, 16)), (413, (8280528841723893, 15)), (414, (951619737685996, 14)), (417, (6083304264387674, 15)), (419, (6652544765697305, 15)), (422, (449869307315296, 14)), (423, (1220744045964579, 14)), (425, (41613715251439904, 16)), (426, (5009069914234431, 15)), (427, (6993864321552843, 15)), (433, (1198429690833158, 14)), (434, (33008776672862745, 16)), (435, (5208474300610268, 15)), (438, (4350249850197195, 15)), (439, (1220744045964579, 14)), (443, (12900587640205735, 15)), (444, (8164389191811239, 15)), (445, (45877162458631195, 16)), (446, (7332243136444638, 15)), (447, (6922968499919806, 15)), (448, (2521658147877695, 15)), (449, (4946917861555937, 15)), (450, (7536950807537056, 15)), (451, (6591578866362059, 15)), (452, (32021274819991996, 16)), (454, (7046949410005157, 15)), (456, (1119583954796731, 14)), (459, (9787072330995361, 15)), (460, (6886872484162933, 15))]),
  (257, [(100, (4941642422609305, 15)), (101, (6327936783729195, 15)), (103, (6327936783729195, 15)), (104, (5634789603169249, 15)), (106, (4248495242049359, 15)), (107, (4718498871295094, 15)), (112, (453617731450114, 14)), (115, (52293244950610855, 16)), (120, (6327936783729195, 15)), (122, (20938302791319354, 16)), (125, (22503993398234754, 16)), (127, (3032099917724866, 15)), (128, (6327936783729195, 15)), (130, (20374773425808037, 16)), (131, (6327936783729195, 15)), (132, (6327936783729195, 15)), (135, (6327936783729195, 15)), (138, (24777891820191362, 16)), (142, (6327936783729195, 15)), (143, (4718498871295094, 15)), (152, (38430301339411947, 16)), (156, (6327936783729195, 15)), (160, (6327936783729195, 15)), (400, (31924425678000454, 16)), (406, (5634789603169249, 15)), (407, (35553480614894135, 16)), (412, (52293244950610855, 16)), (417, (5634789603169249, 15)), (422, (402535169073515, 14)), (425, (2744417845273085, 15)), (426, (5634789603169249, 15)), (427, (4718498871295094, 15)), (434, (4941642422609305, 15)), (435, (4382026634673881, 15)), (438, (2744417845273085, 15)), (444, (52293244950610855, 16)), (447, (6327936783729195, 15)), (448, (2772588722239781, 15)), (449, (33834978045627544, 16)), (452, (3332204510175204, 15)), (460, (453617731450114, 14))]),
  (258, []),
  (259, []),
  (260, [(100, (4603957329562882, 15)), (101, (6714170529909472, 15)), (103, (8100464891029363, 15)), (104, (6714170529909472, 15)), (106, (26755148735479595, 16)), (107, (27581306390645515, 16)), (112, (5797879798035317, 15)), (115, (4804628025025033, 15)), (117, (74073177104694174, 16)), (120, (4436903244899716, 15)), (122, (4075113200294213, 15)), (124, (6491026978595262, 15)), (125, (24067327522266626, 16)), (127, (2924315158455533, 15)), (128, (8100464891029363, 15)), (129, (6714170529909472, 15)), (130, (4768260380854159, 15)), (131, (8100464891029363, 15)), (132, (6714170529909472, 15)), (133, (8100464891029363, 15)), (134, (4699267509367207, 15)), (135, (8100464891029363, 15)), (138, (28481914629827325, 16)), (141, (8100464891029363, 15)), (142, (5903240313693143, 15)), (143, (35571701087593586, 16)), (145, (8100464891029363, 15)), (152, (26032966657361607, 16)), (156, (5156025911862922, 15)), (160, (4603957329562882, 15)), (162, (74073177104694174, 16)), (400, (4057413623194813, 15)), (402, (5903240313693143, 15)), (404, (5903240313693143, 15)), (406, (3381966019734268, 15)), (407, (233214389523559, 14)), (409, (8100464891029363, 15)), (410, (6491026978595262, 15)), (412, (5797879798035317, 15)), (413, (74073177104694174, 16)), (417, (5535515533567826, 15)), (422, (5156025911862922, 15)), (425, (40061203288072615, 16)), (426, (5615558241241362, 15)), (427, (4666477686544217, 15)), (434, (32721511537270613, 16)), (435, (5615558241241362, 15)), (438, (21241139817314285, 16)), (444, (6021023349349527, 15)), (445, (5535515533567826, 15)), (446, (6154554741974049, 15)), (447, (74073177104694174, 16)), (448, (63087054218013074, 16)), (449, (74073177104694174, 16)), (450, (74073177104694174, 16)), (451, (74073177104694174, 16)), (452, (2524515787883046, 15)), (454, (5797879798035317, 15)), (459, (7001852602361253, 15)), (460, (4666477686544217, 15))]),
  (261, []),
  (262, [(100, (3784718459481977, 15)), (101, (698058652610505, 14)), (103, (7062264557119317, 15)), (104, (6108391114096119, 15)), (106, (5107277189912887, 15)), (107, (4358478754803564, 15)), (110, (10912412158829376, 15)), (112, (5868987041910129, 15)), (115, (4969612783702675, 15)), (117, (7062264557119317, 15)), (120, (5770748602326716, 15)), (122, (3663908086458765, 15)), (124, (860982706583533, 14)), (125, (19243407207567418, 16)), (127, (4774685104743141, 15)), (128, (9302974246395275, 15)), (129, (7105749669059056, 15)), (130, (5584535990039795, 15)), (131, (912065268960132, 14)), (132, (6923428112265102, 15)), (133, (8427505509041376, 15)), (134, (6663916916780017, 15)), (135, (8273354829214117, 15)), (138, (4974875953746949, 15)), (141, (9813799870161265, 15)), (142, (571391512756355, 14)), (143, (5487462141347973, 15)), (145, (8139823436589595, 15)), (152, (20855308146987426, 16)), (153, (8715187581493156, 15)), (156, (5104269668848931, 15)), (160, (9813799870161265, 15)), (162, (4502237276863209, 15)), (400, (4400666829184647, 15)), (402, (7223532704715439, 15)), (403, (10912412158829376, 15)), (404, (5551119993119951, 15)), (406, (4220328416322747, 15)), (407, (36832982810360737, 16)), (409, (8715187581493156, 15)), (410, (7867889721105953, 15)), (412, (5487462141347973, 15)), (413, (7446676256029649, 15)), (414, (10912412158829376, 15)), (417, (6530385524155494, 15)), (419, (7151212043135813, 15)), (422, (4476261790459948, 15)), (425, (3993716939808904, 15)), (426, (4792114739878425, 15)), (427, (615023822403162, 14)), (431, (10912412158829376, 15)), (433, (9302974246395275, 15)), (434, (36681846432260254, 16)), (435, (5018009324564525, 15)), (438, (4241645837983501, 15)), (444, (7446676256029649, 15)), (445, (5104269668848931, 15)), (446, (7580207648654172, 15)), (447, (7867889721105953, 15)), (448, (15104601831521456, 16)), (449, (5403023822201399, 15)), (450, (2414401786829912, 15)), (451, (6818067596607275, 15)), (452, (2147265737190354, 15)), (454, (5527917096040286, 15)), (456, (9526117797709485, 15)), (459, (860982706583533, 14)), (460, (6834874714923656, 15))]),
  (263, [])]

/-- hmm/pos/prob_trans.go:150-165 -/
noncomputable def trans8 : List (Nat × List (Nat × Nat × Nat)) := [
  (300, [(200, (15225895278450224, 17)), (300, (19573362843447062, 16))]),
  (301, [(201, (640037355245997, 15)), (301, (7492366472109889, 16))]),
  (302, []),
  (303, []),
  (304, [(204, (3697100476728258, 17)), (304, (33160498792268744, 16))]),
  (305, []),
  (306, [(206, (3618898524754362, 16)), (306, (11919094133166193, 16))]),
  (307, [(207, (14864590735645855, 18)), (307, (4216196443872451, 15))]),
  (308, []),
  (309, []),
  (310, [(210, (0, 1))]),
  (311, []),
  (312, [(212, (0, 1))]),
  (313, []),
  (314, []),
  (315, [(215, (7026619410944851, 16)), (315, (6837220980982187, 16))])]

/-- hmm/pos/prob_trans.go:166-181 -/
noncomputable def trans9 : List (Nat × List (Nat × Nat × Nat)) := [
  (316, [(216, (6931471805599453, 16)), (316, (6931471805599453, 16))]),
  (317, [(217, (14026125751410626, 17)), (317, (20335595159078217, 16))]),
  (318, [(218, (0, 1))]),
  (319, []),
  (320, [(220, (6103493408406276, 16)), (320, (7834244394528702, 16))]),
  (321, [(221, (6931471805599453, 16)), (321, (6931471805599453, 16))]),
  (322, [(222, (24867623061733957, 17)), (322, (1513366287948698, 15))]),
  (323, []),
  (324, [(224, (20181594737323828, 18)), (324, (39130580682712353, 16))]),
  (325, [(225, (14378203809805257, 17)), (325, (20104865313727696, 16))]),
  (326, []),
  (327, [(227, (33952407837838455, 18)), (327, (3399723676897525, 15))]),
  (328, [(228, (24812491911998164, 18)), (328, (3708788640097414, 15))]),
  (329, [(229, (43009105470816617, 17)), (329, (10511082812555934, 16))]),
  (330, [(230, (41538716750484356, 17)), (330, (1079058715594638, 15))]),
  (331, [(231, (10619399219246302, 16)), (331, (42431826412433127, 17))])]

/-- hmm/pos/prob_trans.go:182-197 -/
noncomputable def trans10 : List (Nat × List (Nat × Nat × Nat)) := [
  (332, [(232, (6129122790767475, 16)), (332, (7803857433216695, 16))]),
  (333, [(233, (43913545259227216, 17)), (333, (10344929668659584, 16))]),
  (334, [(234, (0, 1))]),
  (335, [(235, (5887911556507256, 16)), (335, (8096760200284628, 16))]),
  (336, []),
  (337, []),
  (338, [(238, (1225584220815199, 18)), (338, (6704950363246782, 15))]),
  (339, []),
  (340, [(240, (0, 1))]),
  (341, []),
  (342, [(242, (38706454714843914, 18)), (342, (32710397079253735, 16))]),
  (343, [(243, (390980816630263, 16)), (343, (3261167222997749, 15))]),
  (344, []),
  (345, [(245, (0, 1))]),
  (346, []),
  (347, [])]

/-- hmm/pos/prob_trans.go:198-213 -/
noncomputable def trans11 : List (Nat × List (Nat × Nat × Nat)) := [
  (348, []),
  (349, []),
  (350, []),
  (351, []),
  (352, [(252, (2741220765591975, 17)), (352, (36104416243987187, 16))]),
  (353, []),
  (354, []),
  (355, [(255, (0, 1))]),
  (356, [(256, (5719329272592161, 18)), (356, (516676204219196, 14))]),
  (357, []),
  (358, []),
  (359, []),
  (360, [(260, (0, 1))]),
  (361, []),
  (362, [(262, (2694884162268495, 16)), (362, (14429499090882365, 16))]),
  (363, [])]

/-- hmm/pos/prob_trans.go:214-229 -/
noncomputable def trans12 : List (Nat × List (Nat × Nat × Nat)) := [
  (400, [(100, (4882268156170318, 15)), (101, (726639576964248, 14)), (103, (8094236458007124, 15)), (104, (5938156924782082, 15)), (106, (4575014898361772, 15)), (107, (4518890361306889, 15)), (108, (10030887281649642, 15)), (110, (12078580125014897, 15)), (112, (5706968277783041, 15)), (115, (66042108146865015, 16)), (116, (13464874486134788, 15)), (117, (5855507948180576, 15)), (120, (6165077119376627, 15)), (122, (3640321921686802, 15)), (124, (8395970283914556, 15)), (125, (15213751269156488, 16)), (127, (4008377408535394, 15)), (128, (831158289163701, 14)), (129, (6749491099800107, 15)), (130, (4607643991932841, 15)), (131, (8217850413974302, 15)), (132, (5942474254747663, 15)), (133, (9337740101089697, 15)), (134, (678905126449994, 14)), (135, (6283282541522923, 15)), (138, (4909037671126346, 15)), (141, (10899925128673251, 15)), (142, (5736018662282245, 15)), (143, (5077106842159008, 15)), (145, (7540618688720256, 15)), (152, (2858363682368508, 15)), (153, (904603387833819, 14)), (156, (4333902049542178, 15)), (160, (9108165659445197, 15)), (162, (690101895960266, 14)), (400, (34485941061235375, 16)), (401, (10979967836346788, 15)), (402, (6040112724311578, 15)), (403, (9095426633667767, 15)), (404, (6462718531731166, 15)), (406, (4129223923193158, 15)), (407, (33661902843354006, 16)), (409, (8636560748832487, 15)), (410, (902222322964447, 14)), (412, (4871831982435112, 15)), (413, (5620241841670107, 15)), (414, (8132155692869418, 15)), (417, (4824932829459497, 15)), (419, (6466364843884187, 15)), (422, (40801607272138245, 16)), (423, (9636233089645692, 15)), (425, (25035098376626337, 16)), (426, (3385544655402463, 15)), (427, (472198101462265, 14)), (431, (12771727305574842, 15)), (433, (902222322964447, 14)), (434, (35267922888341605, 16)), (435, (35263094069859635, 16)), (438, (4241617888892058, 15)), (439, (11267649908798568, 15)), (443, (12366262197466678, 15)), (444, (6808147961956396, 15)), (445, (547599223282556, 14)), (446, (5130402931533845, 15)), (447, (6744654330999492, 15)), (448, (25906269560137267, 16)), (449, (37186257100251514, 16)), (450, (567417845496005, 14)), (451, (5990102303736918, 15)), (452, (2018836966706191, 15)), (454, (4905388382528299, 15)), (456, (8352886697778244, 15)), (459, (6413885039066743, 15)), (460, (5131363777151846, 15)), (463, (13464874486134788, 15))]),
  (401, [(100, (5972111818592167, 15)), (101, (6377576926700331, 15)), (104, (70707241072602764, 16)), (106, (6377576926700331, 15)), (107, (450577474979874, 14)), (112, (6377576926700331, 15)), (115, (5972111818592167, 15)), (117, (6377576926700331, 15)), (120, (70707241072602764, 16)), (122, (4298135385020496, 15)), (124, (70707241072602764, 16)), (125, (4180352349364112, 15)), (127, (45858174574722765, 16)), (129, (423751076320406, 14)), (130, (5124813958204963, 15)), (132, (5972111818592167, 15)), (134, (70707241072602764, 16)), (138, (38126275692387948, 16)), (142, (5124813958204963, 15)), (143, (5684429746140386, 15)), (145, (6377576926700331, 15)), (152, (26640048599960235, 16)), (156, (70707241072602764, 16)), (162, (70707241072602764, 16)), (400, (37748872412559478, 16)), (401, (5124813958204963, 15)), (402, (5461286194826176, 15)), (406, (45858174574722765, 16)), (407, (32865344733420154, 16)), (409, (70707241072602764, 16)), (412, (5684429746140386, 15)), (413, (3264061617489957, 15)), (414, (5972111818592167, 15)), (417, (5684429746140386, 15)), (419, (6377576926700331, 15)), (422, (4126285128093836, 15)), (425, (38126275692387948, 16)), (426, (3851848282392076, 15)), (427, (4672828834461907, 15)), (434, (2616376811006769, 15)), (435, (30633909220278057, 16)), (438, (4298135385020496, 15)), (444, (5684429746140386, 15)), (445, (4873499529924057, 15)), (446, (70707241072602764, 16)), (448, (4180352349364112, 15)), (449, (5972111818592167, 15)), (450, (6377576926700331, 15)), (452, (9704051552402126, 16)), (454, (29435897222151852, 16)), (459, (45858174574722765, 16)), (460, (70707241072602764, 16))]),
  (402, [(100, (4577175405927603, 15)), (101, (6896289800872859, 15)), (103, (960434000197507, 14)), (104, (6063380677937755, 15)), (106, (52285829803147825, 16)), (107, (4846448728969314, 15)), (108, (10297487182535015, 15)), (112, (6007027741386623, 15)), (115, (6219949738629295, 15)), (117, (6831751279735288, 15)), (120, (6713968244078904, 15)), (122, (4881386780330594, 15)), (124, (8911192821415124, 15)), (125, (23961098287423988, 16)), (127, (3291698163281512, 15)), (128, (7899591909736643, 15)), (129, (456738739956144, 14)), (130, (4890315411074895, 15)), (132, (5903038027862576, 15)), (133, (8505727713306959, 15)), (134, (7161992966605864, 15)), (135, (7899591909736643, 15)), (138, (52223133673011874, 16)), (141, (960434000197507, 14)), (142, (6107832440508589, 15)), (143, (5348727292156846, 15)), (145, (7658429852919756, 15)), (152, (3147570346402906, 15)), (153, (9198874893866904, 15)), (156, (5597006816742598, 15)), (160, (7899591909736643, 15)), (162, (63854641771068685, 16)), (400, (33640641568042993, 16)), (401, (960434000197507, 14)), (402, (3475289791914524, 15)), (403, (10297487182535015, 15)), (404, (5775698605485974, 15)), (405, (960434000197507, 14)), (406, (43160729712805335, 16)), (407, (327819052881997, 14)), (409, (7732537825073478, 15)), (410, (7899591909736643, 15)), (412, (4587060165160144, 15)), (413, (3477470817860884, 15)), (414, (8911192821415124, 15)), (417, (4157602630308759, 15)), (419, (5293540876589555, 15)), (422, (4717757356548792, 15)), (423, (7658429852919756, 15)), (425, (22300245155249567, 16)), (426, (2319176212667293, 15)), (427, (38758649147284965, 16)), (433, (6405666884424388, 15)), (434, (4013353021464212, 15)), (435, (34973171142328145, 16)), (438, (4092929419966324, 15)), (439, (8351577033479701, 15)), (444, (4587060165160144, 15)), (445, (4655580111596901, 15)), (446, (6896289800872859, 15)), (447, (7732537825073478, 15)), (448, (3698978153920499, 15)), (449, (5254062065615768, 15)), (450, (6048991940485656, 15)), (451, (6659901022808628, 15)), (452, (18385588992507527, 16)), (454, (36141262367687395, 16)), (459, (4367898039145119, 15)), (460, (4931511167513163, 15)), (461, (960434000197507, 14)), (463, (10297487182535015, 15))]),
  (403, [(100, (4527980547296962, 15)), (103, (6473890696352274, 15)), (106, (4276666119016055, 15)), (107, (3908941338890738, 15)), (115, (5780743515792329, 15)), (120, (5780743515792329, 15)), (122, (5375278407684165, 15)), (125, (2623743094642216, 15)), (127, (4276666119016055, 15)), (130, (6473890696352274, 15)), (132, (6473890696352274, 15)), (138, (4527980547296962, 15)), (143, (5780743515792329, 15)), (152, (24849066497880004, 16)), (156, (5780743515792329, 15)), (160, (6473890696352274, 15)), (162, (6473890696352274, 15)), (400, (358351893845611, 14)), (402, (5780743515792329, 15)), (403, (50875963352323845, 16)), (404, (6473890696352274, 15)), (406, (358351893845611, 14)), (407, (2396353252446555, 15)), (412, (3765840495250065, 15)), (413, (4276666119016055, 15)), (417, (5375278407684165, 15)), (419, (4527980547296962, 15)), (422, (5375278407684165, 15)), (425, (2396353252446555, 15)), (426, (27850112422383386, 16)), (427, (4276666119016055, 15)), (434, (3834833366737016, 15)), (435, (358351893845611, 14)), (438, (3765840495250065, 15)), (444, (5780743515792329, 15)), (445, (3908941338890738, 15)), (447, (6473890696352274, 15)), (448, (2890371757896165, 15)), (449, (5375278407684165, 15)), (450, (6473890696352274, 15)), (452, (17203005052459102, 16)), (454, (3908941338890738, 15)), (460, (4527980547296962, 15))]),
  (404, [(100, (55501579721628405, 16)), (101, (842560407984233, 14)), (103, (9054212739264702, 15)), (104, (6103216359552103, 15)), (106, (62064005957873345, 16)), (107, (5491747210006426, 15)), (108, (9524216368510439, 15)), (110, (11133654280944539, 15)), (112, (6103216359552103, 15)), (115, (6726935033680286, 15)), (117, (6388722152581289, 15)), (120, (6199180347813847, 15)), (122, (5201409093496529, 15)), (124, (9341894811716484, 15)), (125, (8080411794071395, 16)), (127, (4843938710035542, 15)), (128, (11133654280944539, 15)), (129, (7039309718722438, 15)), (130, (503109568633097, 14)), (131, (6856988161928484, 15)), (132, (6406266462232199, 15)), (133, (11133654280944539, 15)), (134, (8137922007390548, 15)), (135, (8831069187950494, 15)), (138, (527572112646108, 14)), (141, (11133654280944539, 15)), (142, (6590359498674536, 15)), (143, (6569306089476703, 15)), (145, (842560407984233, 14)), (152, (29527733389481496, 16)), (153, (10440507100384593, 15)), (156, (38922879976222213, 16)), (160, (11133654280944539, 15)), (162, (7914778456076339, 15)), (400, (4348066635936609, 15)), (401, (11133654280944539, 15)), (402, (7326991791174219, 15)), (404, (3777374404393791, 15)), (406, (5033335328924475, 15)), (407, (39437321101987313, 16)), (409, (893642970360832, 14)), (410, (11133654280944539, 15)), (412, (4179015416063551, 15)), (413, (55315354600648385, 16)), (414, (7667918378144813, 15)), (417, (5242010069118768, 15)), (419, (68029209406582085, 16)), (422, (4703934802905402, 15)), (423, (9341894811716484, 15)), (425, (221206321738056, 14)), (426, (35845715701322534, 16)), (427, (552418248575958, 14)), (433, (8361065558704757, 15)), (434, (35322519463608057, 16)), (435, (4266720996482658, 15)), (438, (51623924411540765, 16)), (439, (11133654280944539, 15)), (444, (6764206428477518, 15)), (445, (5509636774757201, 15)), (446, (8300440936888323, 15)), (447, (1003504199227643, 14)), (448, (37324230165315244, 16)), (449, (799816006501539, 14)), (450, (8137922007390548, 15)), (451, (842560407984233, 14)), (452, (2242417851428477, 15)), (454, (5865796121881211, 15)), (456, (9054212739264702, 15)), (459, (6829589187740369, 15)), (460, (7732456899282384, 15)), (463, (1003504199227643, 14))]),
  (405, [(125, (24159137783010487, 16)), (127, (402535169073515, 14)), (400, (29267394020670396, 16)), (402, (2639057329615259, 15)), (406, (402535169073515, 14)), (409, (3332204510175204, 15)), (412, (402535169073515, 14)), (413, (22335922215070942, 16)), (417, (29267394020670396, 16)), (425, (3332204510175204, 15)), (426, (2639057329615259, 15)), (427, (402535169073515, 14)), (435, (3332204510175204, 15)), (438, (402535169073515, 14)), (452, (13862943611198906, 16)), (454, (29267394020670396, 16)), (459, (3332204510175204, 15)), (460, (402535169073515, 14))]),
  (406, [(100, (3749888765843523, 15)), (101, (5751212180108722, 15)), (103, (6839186070571776, 15)), (104, (4513975282142273, 15)), (106, (4925731962812107, 15)), (107, (38634270737943943, 16)), (108, (8945438869702269, 15)), (112, (4951635536702046, 15)), (114, (12080933085631418, 15)), (115, (5971685502867053, 15)), (117, (5125578827850003, 15)), (120, (4973917195798404, 15)), (122, (398754719657121, 14)), (124, (7391881415662625, 15)), (125, (13248137093316992, 16)), (127, (33451265889875033, 16)), (128, (8220203374590824, 15)), (129, (6244661427929139, 15)), (130, (32528419087133984, 16)), (131, (5618293720387238, 15)), (132, (5084709158661673, 15)), (133, (10694638724511528, 15)), (134, (5304711196611131, 15)), (135, (7164608471006404, 15)), (138, (3721212753039745, 15)), (140, (1098232079696331, 14)), (141, (9308344363391637, 15)), (142, (5163722647878527, 15)), (143, (4300629997723045, 15)), (145, (938969000284559, 14)), (152, (18979878131047012, 16)), (153, (806005567529119, 14)), (156, (33817934077513097, 16)), (157, (12774080266191364, 15)), (160, (1346722744675131, 14)), (162, (7100756999019872, 15)), (400, (4146240554688063, 15)), (401, (10576855688855144, 15)), (402, (7065310250024123, 15)), (403, (10066030065089153, 15)), (404, (6540650413528584, 15)), (405, (12774080266191364, 15)), (406, (59700202235479916, 16)), (407, (2981552207713544, 15)), (409, (966056495698099, 14)), (410, (12774080266191364, 15)), (412, (5020885996307023, 15)), (413, (6609713384205919, 15)), (414, (6678255703759139, 15)), (417, (5473269899177744, 15)), (419, (7289283332700709, 15)), (422, (4234147587805637, 15)), (423, (10422705009027887, 15)), (425, (3771502343491089, 15)), (426, (5150193970258906, 15)), (427, (55391818458765325, 16)), (431, (1346722744675131, 14)), (433, (10471495173197319, 15)), (434, (30984661834181555, 16)), (435, (5177687962127168, 15)), (438, (344942954803777, 14)), (439, (11069332173952938, 15)), (443, (1346722744675131, 14)), (444, (7451070287052956, 15)), (445, (6664832683426998, 15)), (446, (7205735762430267, 15)), (447, (7325190041163953, 15)), (448, (6239564948022655, 15)), (449, (921873220470195, 14)), (450, (79065458157357815, 16)), (451, (8483620825042973, 15)), (452, (2535299743524074, 15)), (454, (5499254267088374, 15)), (456, (938969000284559, 14)), (459, (8592030123550158, 15)), (460, (9555204441323163, 15))]),
  (407, [(100, (3247460873265525, 15)), (101, (5180368772925723, 15)), (103, (72331315265056615, 16)), (104, (6141564276760761, 15)), (106, (5854471537397445, 15)), (107, (33844620971140142, 16)), (108, (7414829252961232, 15)), (110, (11750250834371018, 15)), (112, (6904939520700147, 15)), (114, (14389308163986277, 15)), (115, (5296963350247802, 15)), (117, (7628893472902849, 15)), (120, (5482779246391759, 15)), (122, (44466960567661, 13)), (124, (8908669240644286, 15)), (125, (3558332801482778, 15)), (127, (4900200336947887, 15)), (128, (9277320375629735, 15)), (129, (7263220890687153, 15)), (130, (6287933492757696, 15)), (131, (9301711828753893, 15)), (132, (756602204163059, 14)), (133, (8712554361717995, 15)), (134, (6003591335358426, 15)), (135, (6971727761571733, 15)), (138, (4805819285378473, 15)), (141, (11556094819930061, 15)), (142, (6960380969184005, 15)), (143, (5802215845190373, 15)), (145, (6735338983507503, 15)), (152, (1552700715240268, 15)), (153, (778672027179694, 14)), (155, (11253813948057127, 15)), (156, (5258443993511891, 15)), (157, (9372028327171353, 15)), (160, (8639915178078024, 15)), (162, (6510773967845916, 15)), (400, (2849594722259666, 15)), (401, (10778390251342053, 15)), (402, (6714226306269944, 15)), (404, (768244582738353, 14)), (405, (14389308163986277, 15)), (406, (5706770039983202, 15)), (407, (2671989848466785, 15)), (409, (7655906272148918, 15)), (410, (9994859009313839, 15)), (412, (5232263089068319, 15)), (413, (6927667771777703, 15)), (414, (858417319506979, 14)), (417, (6654749319631521, 15)), (419, (8433470794521446, 15)), (422, (39899360515534585, 16)), (423, (12443398014930963, 15)), (425, (4253320965211914, 15)), (426, (5506083933707282, 15)), (427, (6596546443169752, 15)), (433, (9207524613694192, 15)), (434, (25374848351799977, 16)), (435, (5086479772574943, 15)), (438, (4810304990426035, 15)), (439, (12086723070992232, 15)), (443, (11344785726262854, 15)), (444, (6879972897969686, 15)), (445, (6023635780211282, 15)), (446, (5282441200486371, 15)), (447, (5801097485334759, 15)), (448, (5992250773810021, 15)), (449, (6478717551729799, 15)), (450, (818273223726135, 14)), (451, (7007183798248764, 15)), (452, (11370329366057388, 16)), (454, (4917450039578993, 15)), (456, (10700428709872341, 15)), (459, (8311665920637243, 15)), (460, (8273416038503242, 15)), (461, (12779870251552177, 15))]),
  (408, []),
  (409, [(100, (30847761839373105, 16)), (101, (5975147941833475, 15)), (103, (6973676771944603, 15)), (104, (822643974043997, 14)), (106, (6280529591384657, 15)), (107, (46569070439586, 13)), (112, (7127827451771861, 15)), (115, (5875064483276493, 15)), (117, (7533292559880025, 15)), (120, (684014537932008, 14)), (122, (61469981987601345, 16)), (125, (2987341733551905, 15)), (127, (41833884726054205, 16)), (129, (574153309065197, 14)), (130, (61469981987601345, 16)), (132, (7127827451771861, 15)), (133, (8919586920999915, 15)), (134, (8919586920999915, 15)), (138, (5587382410824712, 15)), (142, (7533292559880025, 15)), (143, (5923854647445925, 15)), (152, (3078945263626517, 15)), (156, (5923854647445925, 15)), (162, (65216916482015455, 16)), (400, (16775045617429536, 16)), (402, (39023070841849914, 16)), (403, (8919586920999915, 15)), (404, (7820974632331806, 15)), (406, (5181917302716547, 15)), (407, (32601047052402943, 16)), (409, (661700182800587, 14)), (410, (8919586920999915, 15)), (412, (5623750054995586, 15)), (413, (4700079215823809, 15)), (414, (7533292559880025, 15)), (417, (4237455693875696, 15)), (419, (822643974043997, 14)), (422, (28913084007692174, 16)), (425, (33248755413980766, 16)), (426, (3856991887972949, 15)), (427, (4021747121049004, 15)), (433, (8919586920999915, 15)), (434, (3246263653828423, 15)), (435, (3942853178579341, 15)), (438, (4344875942496532, 15)), (444, (7127827451771861, 15)), (445, (3011503982830985, 15)), (446, (5181917302716547, 15)), (447, (822643974043997, 14)), (448, (4760703837640244, 15)), (449, (5875064483276493, 15)), (450, (5700711096131715, 15)), (451, (7310149008565815, 15)), (452, (16117141402362094, 16)), (454, (3819720493175717, 15)), (459, (3819720493175717, 15)), (460, (5336067982543805, 15)), (461, (8919586920999915, 15))]),
  (410, [(100, (50759357200325885, 16)), (101, (7180069874302796, 15)), (103, (8789507786736896, 15)), (104, (6997748317508842, 15)), (106, (4458774446450565, 15)), (107, (319852080622604, 14)), (108, (7180069874302796, 15)), (110, (6843597637681583, 15)), (112, (6081457585634687, 15)), (115, (5422211956750423, 15)), (120, (4541012544687538, 15)), (122, (4370667178940299, 15)), (124, (7403213425617006, 15)), (125, (2649623234510641, 15)), (127, (32326797250373587, 16)), (128, (671006624505706, 14)), (129, (6081457585634687, 15)), (130, (5611453956388951, 15)), (132, (622455842927536, 14)), (133, (6592283209400677, 15)), (134, (6016919064497116, 15)), (138, (28652519893223647, 16)), (141, (76908954980687865, 16)), (142, (622455842927536, 14)), (143, (4135547436579373, 15)), (145, (8096360606176951, 15)), (152, (2889610433154405, 15)), (156, (6150450457121638, 15)), (160, (76908954980687865, 16)), (162, (6391612513938526, 15)), (400, (36190237916987447, 16)), (401, (8789507786736896, 15)), (402, (55706319618686955, 16)), (404, (6843597637681583, 15)), (406, (595629444268068, 14)), (407, (2966461891253878, 15)), (410, (2770914572240662, 15)), (412, (622455842927536, 14)), (413, (402733385193914, 14)), (417, (487748478130875, 14)), (419, (8096360606176951, 15)), (422, (4819215873184775, 15)), (425, (4035917595630532, 15)), (426, (431217097225869, 14)), (427, (402733385193914, 14)), (433, (7180069874302796, 15)), (434, (4300871417004757, 15)), (435, (4458774446450565, 15)), (438, (16554140655440306, 16)), (444, (6486922693742851, 15)), (445, (6081457585634687, 15)), (446, (76908954980687865, 16)), (447, (8789507786736896, 15)), (448, (50759357200325885, 16)), (449, (32882495761921695, 16)), (450, (4939360185026838, 15)), (451, (5845068807570456, 15)), (452, (24597868812142, 13)), (454, (4819215873184775, 15)), (456, (8789507786736896, 15)), (459, (5028307671043334, 15)), (460, (3217353754559132, 15))]),
  (411, []),
  (412, [(100, (45189380050412975, 16)), (101, (5568568393368359, 15)), (103, (8630886271681646, 15)), (104, (5295175036697232, 15)), (106, (4829520114262749, 15)), (107, (34704187423213764, 16)), (108, (9391856048580353, 15)), (110, (12336295027746793, 15)), (112, (5595381734710225, 15)), (115, (5543576558753014, 15)), (117, (5531311026800602, 15)), (120, (576447879422421, 14)), (122, (3292520980620059, 15)), (124, (5557889420792505, 15)), (125, (22833391691771365, 16)), (127, (4006556545236259, 15)), (128, (78665628126538065, 16)), (129, (6526152537099683, 15)), (130, (4008166073991903, 15)), (131, (6479314708018606, 15)), (132, (5854717898470362, 15)), (133, (8136589949866867, 15)), (134, (55213862991310085, 16)), (135, (7394652605137489, 15)), (138, (4091085553064239, 15)), (140, (13434907316414902, 15)), (141, (9543087018304277, 15)), (142, (5524683609317559, 15)), (143, (4941597065461997, 15)), (145, (7075333447742525, 15)), (152, (18726489774260204, 16)), (153, (8590720229956311, 15)), (155, (12336295027746793, 15)), (156, (4586398015526823, 15)), (157, (10439175042860912, 15)), (160, (10299413100485754, 15)), (162, (6242725257701657, 15)), (400, (4341662716314968, 15)), (401, (10490468337248462, 15)), (402, (7385173861182945, 15)), (403, (11825469403980803, 15)), (404, (6248763011892578, 15)), (406, (4694410586483091, 15)), (407, (26193579613346563, 16)), (409, (88916125341449, 13)), (410, (9969171413615177, 15)), (412, (4242934601796906, 15)), (413, (63373584658001105, 16)), (414, (9245252574388477, 15)), (417, (4714446803689248, 15)), (419, (7594265659041505, 15)), (422, (4017715389901488, 15)), (423, (11355465774735068, 15)), (425, (3206225167167223, 15)), (426, (4366476190621413, 15)), (427, (5358391988862574, 15)), (433, (8479080258813642, 15)), (434, (3130900198163625, 15)), (435, (4120206929114477, 15)), (438, (37766172247244008, 16)), (439, (10950000666626902, 15)), (444, (67231669213587235, 16)), (445, (5226415564674522, 15)), (446, (72993424253331645, 16)), (447, (7562789526939487, 15)), (448, (2442689475065116, 15)), (449, (4533268384114577, 15)), (450, (7594265659041505, 15)), (451, (8172217127510017, 15)), (452, (19293589957837238, 16)), (454, (5149646182345955, 15)), (456, (8980560020161395, 15)), (459, (8107031147625323, 15)), (460, (72907216822892575, 16)), (461, (13434907316414902, 15))]),
  (413, [(100, (5476266964133363, 15)), (101, (722211673205734, 14)), (103, (8976135873302548, 15)), (104, (6491229223514548, 15)), (106, (560501594687767, 14)), (107, (453610241935431, 14)), (108, (10480213270078822, 15)), (112, (5793463097098308, 15)), (115, (6609012259170931, 15)), (117, (7772163068976612, 15)), (120, (7241534817914442, 15)), (122, (4950784182567399, 15)), (124, (9381600981410712, 15)), (125, (2927713549764907, 15)), (127, (35941924832426912, 16)), (128, (7995306620290822, 15)), (129, (5597411347492451, 15)), (130, (512362699540681, 14)), (131, (9227450301583454, 15)), (132, (6283011322417013, 15)), (133, (9381600981410712, 15)), (134, (7261337445210621, 15)), (135, (7995306620290822, 15)), (138, (5353277520286405, 15)), (141, (11173360450638768, 15)), (142, (5705300309503636, 15)), (143, (5608840043316074, 15)), (145, (7646999926022606, 15)), (152, (32602052647106996, 16)), (156, (58262529199212985, 16)), (160, (10480213270078822, 15)), (162, (6939253946041508, 15)), (400, (3550696499315172, 15)), (401, (7509798804509121, 15)), (402, (4379894318058758, 15)), (404, (5601206418461003, 15)), (405, (8775465177840397, 15)), (406, (4357720460564436, 15)), (407, (3363819125985357, 15)), (409, (6939253946041508, 15)), (410, (6568190264650676, 15)), (412, (415944497582824, 14)), (413, (24561695174156326, 16)), (414, (834014710658255, 14)), (417, (38331736153186515, 16)), (419, (6049396471235508, 15)), (422, (453610241935431, 14)), (423, (7562442537994543, 15)), (425, (21568475756427414, 16)), (426, (2455514745743852, 15)), (427, (35575693786029343, 16)), (431, (9787066089518877, 15)), (433, (6002876455600616, 15)), (434, (3668418382242596, 15)), (435, (35151329244774154, 16)), (438, (4273637343353895, 15)), (439, (8608411093177232, 15)), (444, (5267998602584197, 15)), (445, (44246009031470885, 16)), (446, (7646999926022606, 15)), (447, (7806064620652293, 15)), (448, (4073333284009507, 15)), (449, (6268085672200338, 15)), (450, (5816774175966755, 15)), (451, (6882901009490376, 15)), (452, (17862975002691117, 16)), (454, (3248926265751207, 15)), (456, (8976135873302548, 15)), (459, (3428790641284272, 15)), (460, (5659931704473785, 15)), (463, (8870775357644721, 15))]),
  (414, [(100, (4294919559325406, 15)), (101, (29543936166610956, 16)), (103, (7057036981697891, 15)), (104, (39509566509750353, 16)), (106, (52934483894365325, 16)), (107, (39584473227041928, 16)), (112, (5670742620578001, 15)), (115, (4337936944409097, 15)), (117, (5237878538281722, 15)), (120, (4878504537373825, 15)), (122, (4572130331909891, 15)), (124, (8155649270366002, 15)), (125, (8545014645099691, 16)), (127, (3633860693316961, 15)), (128, (6450901178127576, 15)), (129, (6140746249823736, 15)), (130, (41853573568138795, 16)), (131, (6450901178127576, 15)), (132, (4689913367566275, 15)), (134, (8155649270366002, 15)), (135, (5211210291199561, 15)), (138, (4139266249613613, 15)), (141, (8848796450925946, 15)), (142, (5211210291199561, 15)), (143, (4721662065880855, 15)), (145, (8155649270366002, 15)), (152, (4078111826460282, 15)), (153, (7057036981697891, 15)), (156, (32690666249397244, 16)), (162, (6209739121310688, 15)), (400, (5211210291199561, 15)), (401, (8848796450925946, 15)), (402, (6076207728686165, 15)), (404, (7239358538491846, 15)), (406, (495697615281532, 14)), (407, (4194836100768423, 15)), (409, (7462502089806056, 15)), (410, (8848796450925946, 15)), (412, (54475990692637914, 16)), (413, (54475990692637914, 16)), (414, (6651571873589727, 15)), (417, (37612001156935624, 16)), (419, (7057036981697891, 15)), (422, (45583370097775555, 16)), (425, (31893142351663255, 16)), (426, (35454915428668707, 16)), (427, (4754451888703846, 15)), (434, (4112598002531451, 15)), (435, (37989404436764094, 16)), (438, (3492210176253934, 15)), (439, (676935490924611, 14)), (444, (676935490924611, 14)), (445, (4878504537373825, 15)), (446, (8155649270366002, 15)), (447, (7239358538491846, 15)), (448, (4382888332271363, 15)), (449, (6651571873589727, 15)), (450, (6651571873589727, 15)), (451, (8155649270366002, 15)), (452, (42436262649378556, 16)), (454, (4771259007020227, 15)), (459, (8848796450925946, 15)), (460, (6902886301870633, 15))]),
  (415, [])]

/-- hmm/pos/prob_trans.go:230-245 -/
noncomputable def trans13 : List (Nat × List (Nat × Nat × Nat)) := [
  (416, []),
  (417, [(100, (5172473979259473, 15)), (101, (687283716800434, 14)), (103, (8009601222636825, 15)), (104, (5893345707834273, 15)), (106, (5573068157133041, 15)), (107, (46084038409746695, 16)), (108, (1141079860429898, 14)), (110, (10717651423739035, 15)), (112, (4908758464680218, 15)), (115, (685692171269844, 14)), (117, (5335452573210296, 15)), (120, (6578492845727142, 15)), (122, (473308561832221, 14)), (124, (9464888455243667, 15)), (125, (1945544732919786, 15)), (127, (33086664146643545, 16)), (128, (7945062701499254, 15)), (129, (4648647299175636, 15)), (130, (35537047393964882, 16)), (131, (6933461789820774, 15)), (132, (4892389051545124, 15)), (133, (8390373718154619, 15)), (134, (652799668171261, 14)), (135, (8319756150940664, 15)), (138, (5250646691672848, 15)), (141, (1002450424317909, 14)), (142, (5098156765605424, 15)), (143, (5267686507581859, 15)), (145, (7582157207809885, 15)), (152, (2874979948759578, 15)), (153, (9706050512060555, 15)), (156, (4615092829125467, 15)), (160, (11005333496190817, 15)), (162, (7638037666204342, 15)), (400, (30959664250144248, 16)), (401, (79930719206856145, 16)), (402, (5816087224697141, 15)), (403, (10717651423739035, 15)), (404, (5418084837790567, 15)), (405, (1141079860429898, 14)), (406, (37580155228799095, 16)), (407, (3389378234022441, 15)), (409, (7914291042832501, 15)), (410, (9464888455243667, 15)), (412, (3656102671577482, 15)), (413, (471006749475117, 14)), (414, (6776069616069345, 15)), (417, (2551080104548453, 15)), (419, (6516697126458676, 15)), (422, (404025315058941, 14)), (423, (9906721207522706, 15)), (425, (2173475560992911, 15)), (426, (3277504743076347, 15)), (427, (4037738216852662, 15)), (432, (12103945784858926, 15)), (433, (7550068893258385, 15)), (434, (353510936029085, 14)), (435, (3522464103560327, 15)), (438, (4578845038733125, 15)), (439, (8638209882059199, 15)), (444, (5921860878142295, 15)), (445, (4292782399833648, 15)), (446, (6674600155904485, 15)), (447, (8845849246837444, 15)), (448, (39122057635814684, 16)), (449, (7308155239262185, 15)), (450, (561019194500724, 14)), (451, (79930719206856145, 16)), (452, (22954834527319083, 16)), (454, (4727437658532706, 15)), (456, (10312186315630871, 15)), (459, (5334303808006423, 15)), (460, (6719450722069837, 15)), (461, (980136069186488, 14))]),
  (418, []),
  (419, [(100, (4430072474283456, 15)), (101, (5732752695362214, 15)), (103, (8130647968160584, 15)), (104, (4668595310777154, 15)), (106, (4510236313324109, 15)), (107, (3051072091526119, 15)), (108, (7562663930554645, 15)), (112, (5347090214550229, 15)), (114, (109638613122168, 13)), (115, (4804765923724867, 15)), (117, (6348740795375541, 15)), (120, (5100230136618703, 15)), (122, (4013046543774216, 15)), (124, (8565966039418429, 15)), (125, (16616712866107384, 16)), (127, (48657870300505595, 16)), (128, (825581111111459, 14)), (129, (7072041014106174, 15)), (130, (5776475506376045, 15)), (131, (7300299666087153, 15)), (132, (5839897332813541, 15)), (133, (8398911954755263, 15)), (134, (5593223284089137, 15)), (135, (66331279719304685, 16)), (138, (417827366720887, 14)), (142, (496244643425565, 14)), (143, (51232196548434015, 16)), (145, (6184737819105271, 15)), (152, (20100920176673456, 16)), (153, (9577566951096909, 15)), (156, (4719694411553064, 15)), (157, (109638613122168, 13)), (160, (986524902354869, 14)), (162, (6431261819063544, 15)), (400, (4418511651882381, 15)), (401, (9017951163161486, 15)), (402, (7113713710506741, 15)), (404, (67443536070406935, 16)), (406, (36223774598536393, 16)), (407, (23396090485071546, 16)), (409, (6729754807619541, 15)), (410, (10270714131656854, 15)), (412, (4676002752055016, 15)), (413, (6729754807619541, 15)), (414, (84789546624288, 13)), (417, (6281730085092581, 15)), (419, (5680657583478811, 15)), (422, (4051118491723623, 15)), (423, (109638613122168, 13)), (425, (39644388447088392, 16)), (426, (4852393972714122, 15)), (427, (6509514015963292, 15)), (433, (8884419770536963, 15)), (434, (28920181626076418, 16)), (435, (4907077298988176, 15)), (438, (434512232869958, 14)), (444, (7032035679492474, 15)), (445, (5158726343300311, 15)), (446, (738034237376069, 14)), (447, (7596565482230326, 15)), (448, (25749561411020934, 16)), (449, (7300299666087153, 15)), (450, (8073489554320636, 15)), (451, (8661276219222755, 15)), (452, (2081886127967933, 15)), (454, (555221526036176, 14)), (456, (10270714131656854, 15)), (459, (7872818858858484, 15)), (460, (6509514015963292, 15))]),
  (420, []),
  (421, []),
  (422, [(100, (4681467579073693, 15)), (101, (6248786735889066, 15)), (103, (834941116733404, 14)), (104, (5113227428758092, 15)), (106, (5254608839888542, 15)), (107, (4753386346811339, 15)), (108, (10603469219433425, 15)), (110, (12449295909931756, 15)), (112, (43012358973762925, 16)), (114, (1285476101803992, 14)), (115, (7054154358748179, 15)), (117, (5180840465761266, 15)), (120, (6371653666582722, 15)), (121, (13547908198599865, 15)), (122, (4314046631582337, 15)), (124, (6713799459786027, 15)), (125, (16921663778419098, 16)), (127, (403605681623546, 14)), (128, (8423944219196606, 15)), (129, (6333403784448722, 15)), (130, (38279228996058547, 16)), (131, (5443506890678253, 15)), (132, (5290263240391638, 15)), (133, (10775319476360085, 15)), (134, (6049592327832884, 15)), (135, (5522718876709031, 15)), (136, (13547908198599865, 15)), (138, (4779956288836445, 15)), (141, (10908850868984608, 15)), (142, (5970786267723187, 15)), (143, (4277131457819852, 15)), (145, (7653505364335015, 15)), (152, (2304235670613051, 15)), (153, (9504856930765316, 15)), (156, (4725733437653786, 15)), (160, (10908850868984608, 15)), (162, (7761010817233158, 15)), (400, (36441706773085305, 16)), (401, (11150012925801494, 15)), (402, (7296004315433977, 15)), (403, (13547908198599865, 15)), (404, (6346737315318187, 15)), (405, (13547908198599865, 15)), (406, (4536628707421936, 15)), (407, (3693505853754229, 15)), (409, (988434655247022, 14)), (410, (10412413982670715, 15)), (412, (4305778504134276, 15)), (413, (66572990784526995, 16)), (414, (8635253312863814, 15)), (417, (5061380421494514, 15)), (419, (6692499399989938, 15)), (422, (207154298894144, 14)), (423, (10775319476360085, 15)), (425, (2513244366522365, 15)), (426, (3786329892246431, 15)), (427, (56640849837077125, 16)), (431, (13547908198599865, 15)), (433, (1071469485454365, 14)), (434, (32018203312933133, 16)), (435, (4091880310874579, 15)), (438, (4736404948441626, 15)), (439, (9763718564681605, 15)), (444, (5929165820929453, 15)), (445, (6098410193217016, 15)), (446, (77702558753772095, 16)), (447, (7857548744275805, 15)), (448, (3411920999825503, 15)), (449, (548075915868976, 14)), (450, (6323154792831895, 15)), (451, (10146710816937711, 15)), (452, (21327389024275285, 16)), (454, (5230630432378631, 15)), (456, (1011392099411472, 14)), (459, (7968178372613644, 15)), (460, (6600932206464448, 15))]),
  (423, [(100, (5269145989247757, 15)), (104, (6655440350367647, 15)), (106, (5046002437933547, 15)), (107, (4709530201312334, 15)), (115, (6655440350367647, 15)), (120, (5269145989247757, 15)), (122, (5556828061699537, 15)), (125, (2685148436815526, 15)), (127, (40163830207523885, 16)), (129, (5556828061699537, 15)), (130, (4458215773031428, 15)), (131, (6655440350367647, 15)), (132, (4458215773031428, 15)), (133, (6655440350367647, 15)), (134, (5962293169807702, 15)), (138, (5962293169807702, 15)), (142, (5962293169807702, 15)), (143, (5556828061699537, 15)), (152, (3189704447567921, 15)), (400, (43528552573736015, 16)), (402, (4709530201312334, 15)), (404, (5962293169807702, 15)), (406, (5556828061699537, 15)), (407, (3765068592471483, 15)), (409, (6655440350367647, 15)), (412, (3765068592471483, 15)), (413, (2917770732084279, 15)), (417, (41705337005796475, 16)), (419, (4863680881139593, 15)), (422, (34773865200197016, 16)), (423, (5046002437933547, 15)), (425, (19640924681385037, 16)), (426, (19826115159057414, 16)), (427, (3189704447567921, 15)), (434, (34773865200197016, 16)), (435, (33232358401924436, 16)), (438, (31290798257514862, 16)), (439, (5556828061699537, 15)), (444, (43528552573736015, 16)), (445, (33596034843633182, 16)), (446, (6655440350367647, 15)), (448, (5556828061699537, 15)), (450, (5269145989247757, 15)), (452, (2577902906461928, 15)), (454, (39473901492654373, 16)), (459, (3822227006311431, 15))]),
  (424, []),
  (425, [(100, (4686340403757639, 15)), (101, (6376123176014915, 15)), (103, (8580965984236023, 15)), (104, (56517715300296745, 16)), (106, (4494207478442838, 15)), (107, (36985628652441704, 16)), (108, (9426915226751934, 15)), (110, (1114591534169756, 14)), (112, (4765614408579322, 15)), (114, (14090354320864, 12)), (115, (5741106520297211, 15)), (116, (14090354320864, 12)), (117, (5969171078785172, 15)), (120, (59134004526382205, 16)), (122, (4233172521204384, 15)), (124, (845556471769475, 14)), (125, (2139541734531748, 15)), (127, (38383600940569904, 16)), (128, (792493646663258, 14)), (129, (6198275899615881, 15)), (130, (44897301627753174, 16)), (131, (7394555403805509, 15)), (132, (5803832947182764, 15)), (133, (843087210510438, 14)), (134, (6179763708607522, 15)), (135, (7639883898719824, 15)), (138, (4299251898922663, 15)), (141, (10479436408219776, 15)), (142, (5148285627819775, 15)), (143, (4802127410230747, 15)), (145, (6129681712475883, 15)), (152, (23490351109974346, 16)), (153, (9127509690604093, 15)), (155, (13397207140304054, 15)), (156, (4829225782055713, 15)), (157, (11257140976807785, 15)), (160, (8797049496139508, 15)), (162, (63730030486786715, 16)), (400, (38619250389526267, 16)), (401, (10139110602282573, 15)), (402, (6618422242618879, 15)), (403, (960171795113186, 14)), (404, (590584056783028, 14)), (405, (13397207140304054, 15)), (406, (37021900670569434, 16)), (407, (27155421580234065, 16)), (409, (7954789429782262, 15)), (410, (864361694919769, 14)), (412, (3303305861076636, 15)), (413, (5406630258560132, 15)), (414, (888086816802258, 14)), (417, (4874131285729662, 15)), (419, (61161656515779885, 16)), (422, (4063985638952057, 15)), (423, (993147123750433, 14)), (425, (2560001596571246, 15)), (426, (3387087381052046, 15)), (427, (46523207628750365, 16)), (431, (1299174203219589, 14)), (433, (8334612107277088, 15)), (434, (31431155344510278, 16)), (435, (39510439398565893, 16)), (438, (37057068525176384, 16)), (439, (10999311867505686, 15)), (444, (6090004825539316, 15)), (445, (4403345081773321, 15)), (446, (6884719144453637, 15)), (447, (75111031088538995, 16)), (448, (2910791930970953, 15)), (449, (5339512945488468, 15)), (450, (6671573438113207, 15)), (451, (7500053272667315, 15)), (452, (19713112343069297, 16)), (454, (4846192400412307, 15)), (456, (8832858948836218, 15)), (459, (6674577345448607, 15)), (460, (5386183761117614, 15)), (463, (13397207140304054, 15))]),
  (426, [(100, (4697871606694985, 15)), (101, (6304364008899328, 15)), (103, (894568634514544, 14)), (104, (5642819573212852, 15)), (106, (47012810883476055, 16)), (107, (37775499809823483, 16)), (108, (9099837024972697, 15)), (110, (11297061602308917, 15)), (112, (4788540881684308, 15)), (115, (5838895534818984, 15)), (117, (6204334419494189, 15)), (120, (6116214820235219, 15)), (122, (4321959249867169, 15)), (124, (8444430172395599, 15)), (125, (21141095564293915, 16)), (127, (35597361016571902, 16)), (128, (7790503704988935, 15)), (129, (590192005112534, 14)), (130, (4448702533283436, 15)), (131, (7304995889207234, 15)), (132, (5639904968992771, 15)), (133, (8826141194495657, 15)), (134, (6207409767894436, 15)), (135, (7790503704988935, 15)), (138, (44395475397635265, 16)), (140, (13088821071536971, 15)), (141, (9425259425407326, 15)), (142, (54656680030600695, 16)), (143, (4886338624960435, 15)), (145, (6750226993333789, 15)), (152, (2366368997756193, 15)), (153, (1031623234929719, 14)), (156, (49953587970357916, 16)), (157, (1170252671041708, 14)), (160, (89299379881773, 13)), (162, (6512351502488747, 15)), (400, (37492962411799633, 16)), (401, (9099837024972697, 15)), (402, (57702815229690705, 16)), (403, (11479383159102872, 15)), (404, (60749055967264445, 16)), (405, (12395673890977026, 15)), (406, (3817385600200978, 15)), (407, (28382393242190087, 16)), (409, (7677175019681932, 15)), (410, (8556221578383715, 15)), (412, (3375042294228816, 15)), (413, (4515247546684627, 15)), (414, (9011283627631252, 15)), (417, (4625028656847849, 15)), (419, (585392265122214, 14)), (422, (4085012985069802, 15)), (423, (9953326855607822, 15)), (425, (26526192099772157, 16)), (426, (29829234280735464, 16)), (427, (44907854922766335, 16)), (431, (12395673890977026, 15)), (433, (8252539164585494, 15)), (434, (3054085982391171, 15)), (435, (37196836878137916, 16)), (438, (37349865999220597, 16)), (439, (10044298633813549, 15)), (443, (13088821071536971, 15)), (444, (60597335073873095, 16)), (445, (431683063500473, 14)), (446, (7280678581556528, 15)), (447, (7169927217263825, 15)), (448, (3261620787172963, 15)), (449, (6311174477901855, 15)), (450, (6430810025666223, 15)), (451, (7464803565349633, 15)), (452, (1996119085650453, 15)), (454, (44010415795452005, 16)), (456, (911852915798485, 14)), (459, (5687589807123957, 15)), (460, (6055314587249274, 15)), (461, (11479383159102872, 15)), (463, (1170252671041708, 14))]),
  (427, [(100, (52245052086251365, 16)), (101, (69481268726859735, 16)), (103, (986889610776651, 14)), (104, (6202489509504631, 15)), (106, (53740369425961, 13)), (107, (4238879783349917, 15)), (108, (10274361215874674, 15)), (110, (11372973504542783, 15)), (112, (54171361350779526, 16)), (115, (6194002895627312, 15)), (117, (6288468361880072, 15)), (120, (68034304961978425, 16)), (122, (4442478738591157, 15)), (124, (9021598247379305, 15)), (125, (17432322467199572, 16)), (127, (32703870791519933, 16)), (128, (7803440808061413, 15)), (129, (49586952109920235, 16)), (130, (4310353514999731, 15)), (131, (8304920569409166, 15)), (132, (5677559279557099, 15)), (133, (9501171327641192, 15)), (134, (6895636690064577, 15)), (135, (8377241230988792, 15)), (138, (5033496424074722, 15)), (140, (12066120685102728, 15)), (141, (9986679143422892, 15)), (142, (5439402935853703, 15)), (143, (47978976639431625, 16)), (145, (6984716320118265, 15)), (152, (27372864190787567, 16)), (153, (10679826323982837, 15)), (156, (5629970316733301, 15)), (160, (10456682772668628, 15)), (162, (7110293627501467, 15)), (400, (34741911475724736, 16)), (401, (9358070484000518, 15)), (402, (586764196861042, 14)), (403, (12066120685102728, 15)), (404, (5181634033059946, 15)), (405, (10967508396434619, 15)), (406, (4133040913222314, 15)), (407, (32773748031645935, 16)), (409, (8664923303440572, 15)), (410, (8569613123636248, 15)), (412, (4131965451566406, 15)), (413, (412767513393794, 14)), (414, (8455202772458504, 15)), (417, (4008426490287141, 15)), (419, (64457198193855785, 16)), (422, (43073601409450655, 16)), (423, (8770283819098399, 15)), (425, (25035753446592652, 16)), (426, (31405333460724467, 16)), (427, (33559957577805206, 16)), (431, (11372973504542783, 15)), (433, (8194919674194837, 15)), (434, (30260942507962234, 16)), (435, (38497623527165725, 16)), (438, (4068121367122998, 15)), (439, (9293531962862946, 15)), (443, (10679826323982837, 15)), (444, (5389037223855593, 15)), (445, (4049142938340466, 15)), (446, (6777853654408193, 15)), (447, (5333909978635522, 15)), (448, (35616075468438653, 16)), (449, (6615082231537028, 15)), (450, (6623702974580935, 15)), (451, (8174300386992101, 15)), (452, (2032350762303678, 15)), (454, (39275559478410957, 16)), (456, (10967508396434619, 15)), (459, (53080261806749975, 16)), (460, (6577182958946042, 15)), (461, (11372973504542783, 15)), (463, (12066120685102728, 15))]),
  (428, []),
  (429, []),
  (430, []),
  (431, [(130, (1791759469228055, 15)), (156, (39318256327243257, 16)), (400, (39318256327243257, 16)), (404, (39318256327243257, 16)), (407, (4624972813284271, 15)), (412, (4624972813284271, 15)), (413, (32386784521643803, 16)), (417, (4978384282391796, 16)), (419, (4624972813284271, 15)), (426, (4624972813284271, 15)), (434, (4624972813284271, 15)), (435, (35263605246161616, 16)), (452, (4624972813284271, 15)), (454, (4624972813284271, 15)), (459, (35263605246161616, 16))])]

/-- hmm/pos/prob_trans.go:246-261 -/
noncomputable def trans14 : List (Nat × List (Nat × Nat × Nat)) := [
  (432, [(132, (0, 1))]),
  (433, [(100, (6403905268952571, 15)), (101, (8013343181386672, 15)), (104, (7607878073278508, 15)), (106, (53391945319601435, 16)), (107, (5487614537078416, 15)), (110, (8706490361946617, 15)), (112, (7097052449512517, 15)), (115, (7097052449512517, 15)), (117, (8013343181386672, 15)), (120, (6760580212891304, 15)), (122, (3418223331252082, 15)), (124, (8706490361946617, 15)), (125, (3464743346886975, 15)), (127, (4968820743663249, 15)), (129, (7097052449512517, 15)), (130, (5710758088392626, 15)), (132, (8706490361946617, 15)), (133, (4337042509479596, 15)), (134, (7607878073278508, 15)), (138, (5762051382780177, 15)), (142, (6914730892718563, 15)), (143, (6509265784610398, 15)), (152, (3349904087274605, 15)), (156, (8013343181386672, 15)), (162, (7320196000826726, 15)), (400, (4516835619920192, 15)), (401, (8706490361946617, 15)), (402, (5410653495942288, 15)), (404, (7320196000826726, 15)), (406, (6067433032331358, 15)), (407, (4101320175958526, 15)), (410, (6627048820266781, 15)), (412, (5410653495942288, 15)), (413, (3669537759532988, 15)), (417, (46289529180408975, 16)), (419, (8706490361946617, 15)), (422, (4899827872176298, 15)), (425, (3524706811654532, 15)), (426, (3122994053164918, 15)), (427, (448698265677051, 14)), (433, (1313842841224994, 15)), (434, (4992918295242309, 15)), (435, (3944316427148861, 15)), (438, (4006009996154201, 15)), (439, (7320196000826726, 15)), (444, (6760580212891304, 15)), (445, (6403905268952571, 15)), (446, (7607878073278508, 15)), (447, (8013343181386672, 15)), (448, (2353860965627051, 15)), (449, (5122971423490507, 15)), (450, (2211224806009609, 15)), (451, (5710758088392626, 15)), (452, (2267139990846519, 15)), (454, (42638391054563005, 16)), (459, (4184701784897577, 15)), (460, (38236884393602466, 16))]),
  (434, [(100, (405760152463721, 14)), (101, (6282052474887318, 15)), (103, (7575710610013756, 15)), (104, (4492210551788535, 15)), (106, (6715195970417627, 15)), (107, (4516276894329455, 15)), (108, (12945185170878121, 15)), (110, (13638332351438066, 15)), (112, (44327030591920025, 16)), (114, (13232867243329903, 15)), (115, (59542383010092195, 16)), (117, (5078846247831577, 15)), (118, (14331479531998012, 15)), (120, (5366144958193173, 15)), (122, (337680328913977, 14)), (124, (6221953872245138, 15)), (125, (13806449631903925, 16)), (127, (3105503074903735, 15)), (128, (7286574414868641, 15)), (129, (5915654834970063, 15)), (130, (2672075600649059, 15)), (131, (5251589589405894, 15)), (132, (5002112453600188, 15)), (133, (9788184749728007, 15)), (134, (7061166645918987, 15)), (135, (6444270946184079, 15)), (138, (30878855462669708, 16)), (140, (10930282150335856, 15)), (141, (8624369267249136, 15)), (142, (37880082620180042, 16)), (143, (35438319543421133, 16)), (145, (9231613104173814, 15)), (152, (2439809459619229, 15)), (153, (8604631784410815, 15)), (155, (13638332351438066, 15)), (156, (4057187331617344, 15)), (157, (14331479531998012, 15)), (160, (11846572882210012, 15)), (162, (6723105057617228, 15)), (400, (4130780456793973, 15)), (401, (11153425701650066, 15)), (402, (7424724753349458, 15)), (403, (11335747258444021, 15)), (404, (6235880830619823, 15)), (406, (5605485150983441, 15)), (407, (4566507199318629, 15)), (409, (9327533226052552, 15)), (410, (1111260370712981, 14)), (412, (4083055664428541, 15)), (413, (648763089384554, 14)), (414, (8303201011767314, 15)), (417, (49554552443808975, 16)), (419, (77248293457997965, 16)), (422, (3215738554304725, 15)), (423, (1036118761844589, 14)), (425, (33559461412555853, 16)), (426, (4578059340726505, 15)), (427, (5163629211642781, 15)), (431, (11195985316068862, 15)), (433, (10027414438793842, 15)), (434, (4259853867184403, 15)), (435, (4434261592475479, 15)), (438, (2678661698375892, 15)), (439, (1111260370712981, 14)), (443, (1272204161956391, 14)), (444, (6014934814068613, 15)), (445, (5979632793169767, 15)), (446, (7661981442140132, 15)), (447, (73265975422851515, 16)), (448, (5456472045949615, 15)), (449, (5268827432921433, 15)), (450, (6617694915399257, 15)), (451, (6574000765413833, 15)), (452, (316988616655602, 14)), (454, (5692776923184577, 15)), (456, (9503165794695711, 15)), (459, (8445375500547856, 15)), (460, (7885759712612433, 15)), (461, (14331479531998012, 15)), (463, (14331479531998012, 15))]),
  (435, [(100, (4030448538636748, 15)), (101, (6522417525558315, 15)), (103, (7867067185406487, 15)), (104, (5265547775110294, 15)), (106, (4874497803261004, 15)), (107, (4011670227810285, 15)), (108, (9242890246659082, 15)), (110, (1006956881984355, 14)), (112, (4541463359262635, 15)), (115, (5305768207175917, 15)), (117, (5950918866720331, 15)), (120, (5704954813646845, 15)), (122, (4120539671266992, 15)), (124, (78410916990032264, 16)), (125, (16252126137552978, 16)), (127, (39681827457501795, 16)), (128, (7943607262528821, 15)), (129, (6185553439402308, 15)), (130, (4340242372304078, 15)), (131, (7093067908217447, 15)), (132, (5659371308202973, 15)), (133, (9143799344014852, 15)), (134, (6365331710075294, 15)), (135, (7383991474593398, 15)), (138, (4081323735362541, 15)), (140, (12420944077007029, 15)), (141, (9307428767796653, 15)), (142, (5650154653098048, 15)), (143, (4706043513411534, 15)), (145, (7294008327214612, 15)), (152, (24596122347864617, 16)), (153, (8683274458723659, 15)), (156, (4662824216266903, 15)), (157, (11322331788338918, 15)), (160, (8614281587236707, 15)), (162, (6316150844592043, 15)), (400, (34753508062001304, 16)), (401, (97467954275805, 13)), (402, (6651061800646303, 15)), (403, (10629184607778972, 15)), (404, (5937836725549829, 15)), (406, (4038425788917392, 15)), (407, (3160861613136031, 15)), (409, (8277809350615495, 15)), (410, (7830887528828985, 15)), (412, (36236978403035005, 16)), (413, (5465351468610731, 15)), (414, (8986956872521882, 15)), (417, (4880322548349875, 15)), (419, (5880635838945534, 15)), (422, (3790332918555234, 15)), (423, (1006956881984355, 14)), (425, (26125367307211698, 16)), (426, (3629610083705677, 15)), (427, (5033544291742475, 15)), (433, (8732064622893091, 15)), (434, (3264479278000163, 15)), (435, (3740357338682355, 15)), (438, (34628542856513613, 16)), (439, (10916866680230754, 15)), (443, (13114091257566974, 15)), (444, (6238859170290397, 15)), (445, (4992313838405899, 15)), (446, (7219688423302123, 15)), (447, (7458099446747121, 15)), (448, (32362805518208284, 16)), (449, (5217166601298109, 15)), (450, (6238859170290397, 15)), (451, (6597898181524009, 15)), (452, (2235893133027296, 15)), (454, (4951004881983758, 15)), (456, (9222270959456347, 15)), (459, (6752788779993978, 15)), (460, (434567253070957, 14)), (461, (12420944077007029, 15))]),
  (436, []),
  (437, [(435, (0, 1))]),
  (438, [(100, (4524933076979363, 15)), (101, (5679875906367215, 15)), (103, (8304326538634133, 15)), (104, (573303527464731, 14)), (106, (4915612769062181, 15)), (107, (31377376796068925, 16)), (108, (7424793390495161, 15)), (110, (11179772646313621, 15)), (112, (5108573131186785, 15)), (114, (13887822847415832, 15)), (115, (5252135761951804, 15)), (116, (13194675666855886, 15)), (117, (6923687234997586, 15)), (120, (5589532213056549, 15)), (122, (29914354356356574, 16)), (124, (7824037638728223, 15)), (125, (22677933875314014, 16)), (127, (4620913123951754, 15)), (128, (8370369950951122, 15)), (129, (7056948612769651, 15)), (130, (62272373857125745, 16)), (131, (8953348914285138, 15)), (132, (7178518507157532, 15)), (133, (8656714230561244, 15)), (134, (6271047038717458, 15)), (135, (6131627503467713, 15)), (138, (3668430263484182, 15)), (140, (13194675666855886, 15)), (141, (914289071905258, 14)), (142, (476576739030722, 14)), (143, (4521676024301448, 15)), (145, (6718472830745231, 15)), (152, (2121084965626463, 15)), (153, (1030430390895972, 14)), (155, (12096063378187775, 15)), (156, (5173912218921906, 15)), (157, (9862471156680682, 15)), (160, (9713435577520194, 15)), (162, (6109611372903338, 15)), (400, (4533468715300743, 15)), (401, (11248765517800573, 15)), (402, (7778575264651465, 15)), (403, (1140291619762783, 14)), (404, (6151515750867546, 15)), (406, (44905051071095, 13)), (407, (2250390337029464, 15)), (409, (9531114020726239, 15)), (410, (8800226512183446, 15)), (412, (5345937043409222, 15)), (413, (7118180870563328, 15)), (414, (9205691620291612, 15)), (417, (6399529332256403, 15)), (419, (6226766465054001, 15)), (422, (36704373802970287, 16)), (423, (11941912698360518, 15)), (425, (3584720600449714, 15)), (426, (4857446812659925, 15)), (427, (6350392810829322, 15)), (431, (13194675666855886, 15)), (433, (8997473719194078, 15)), (434, (2989159448161055, 15)), (435, (34468190558606673, 16)), (438, (37558062712891553, 16)), (439, (13194675666855886, 15)), (444, (7316939885076247, 15)), (445, (51806706720764275, 16)), (446, (68179487189572585, 16)), (447, (7987925493833339, 15)), (448, (2757696320054855, 15)), (449, (6068588393556761, 15)), (450, (712163113275548, 14)), (451, (8489660145898078, 15)), (452, (17177608727420508, 16)), (454, (59376729597638125, 16)), (456, (9744688121024298, 15)), (459, (8315668815238066, 15)), (460, (5562032321529741, 15))]),
  (439, [(100, (4983606621708336, 15)), (104, (4983606621708336, 15)), (106, (4647134385087123, 15)), (107, (4395819956806218, 15)), (112, (58998973535824915, 16)), (117, (6593044534142437, 15)), (120, (58998973535824915, 16)), (122, (4513602992462601, 15)), (125, (2465910149097345, 15)), (127, (2721843523234546, 15)), (128, (6593044534142437, 15)), (129, (2661218901418111, 15)), (130, (4395819956806218, 15)), (131, (58998973535824915, 16)), (132, (3414990703794491, 15)), (134, (6593044534142437, 15)), (135, (4983606621708336, 15)), (142, (58998973535824915, 16)), (143, (5494432245474327, 15)), (145, (58998973535824915, 16)), (152, (2622752620590315, 15)), (156, (4983606621708336, 15)), (400, (3457550318213287, 15)), (402, (4983606621708336, 15)), (404, (4395819956806218, 15)), (406, (4290459441148391, 15)), (407, (40280951766809, 13)), (412, (37026727762462723, 16)), (413, (3457550318213287, 15)), (417, (38204558119026557, 16)), (419, (4801285064914382, 15)), (422, (3884994333040227, 15)), (425, (33741687092742363, 16)), (426, (2018333555639054, 15)), (427, (4647134385087123, 15)), (434, (3648605554975996, 15)), (435, (3502002080784121, 15)), (438, (4647134385087123, 15)), (444, (58998973535824915, 16)), (445, (4290459441148391, 15)), (446, (6593044534142437, 15)), (448, (3597312260588446, 15)), (450, (6593044534142437, 15)), (452, (2764403137653342, 15)), (454, (3597312260588446, 15)), (456, (6593044534142437, 15)), (459, (5206750173022546, 15)), (460, (5494432245474327, 15))]),
  (440, []),
  (441, []),
  (442, []),
  (443, [(112, (3506557897319982, 15)), (125, (3506557897319982, 15)), (127, (2659260036932778, 15)), (130, (4605170185988091, 15)), (132, (3912023005428146, 15)), (138, (3506557897319982, 15)), (143, (4605170185988091, 15)), (152, (2995732273553991, 15)), (406, (4605170185988091, 15)), (407, (28134107167600364, 16)), (412, (4605170185988091, 15)), (413, (4605170185988091, 15)), (417, (4605170185988091, 15)), (419, (3912023005428146, 15)), (425, (23025850929940455, 16)), (427, (32188758248682006, 16)), (434, (3506557897319982, 15)), (435, (2659260036932778, 15)), (438, (3912023005428146, 15)), (444, (3912023005428146, 15)), (448, (2995732273553991, 15)), (449, (4605170185988091, 15)), (452, (12378743560016174, 16))]),
  (444, [(100, (5510668424580223, 15)), (101, (7354613646978849, 15)), (103, (8489593579817834, 15)), (104, (6343012735300369, 15)), (106, (5977287955841718, 15)), (107, (4789664289517312, 15)), (112, (58585044198517515, 16)), (115, (6754992524429727, 15)), (117, (6187008486823788, 15)), (120, (7252830952668907, 15)), (122, (41573993188918275, 16)), (124, (9300523796034161, 15)), (125, (27806393167592383, 16)), (127, (356395149855497, 14)), (128, (7103299218697942, 15)), (129, (56179139549338215, 16)), (130, (13578950693509222, 16)), (131, (6143523374884048, 15)), (132, (5717004857578052, 15)), (133, (10686818157154052, 15)), (134, (7190310595687572, 15)), (135, (8201911507366052, 15)), (138, (5516334162115901, 15)), (141, (10686818157154052, 15)), (142, (5959430338441712, 15)), (143, (4412056135912114, 15)), (145, (8607376615474216, 15)), (152, (3008954656475842, 15)), (153, (9993670976594107, 15)), (156, (5941886028790803, 15)), (157, (10686818157154052, 15)), (162, (74287216191325705, 16)), (400, (3715149552428263, 15)), (401, (9993670976594107, 15)), (402, (6661466466418903, 15)), (403, (10686818157154052, 15)), (404, (6643766889319503, 15)), (406, (4899920775787345, 15)), (407, (2996532136477285, 15)), (409, (8288922884355681, 15)), (410, (8740908008098739, 15)), (412, (4253878064414873, 15)), (413, (5358941988364472, 15)), (414, (8047760827538793, 15)), (417, (4986374583763366, 15)), (419, (6679484971921582, 15)), (422, (4586499205133989, 15)), (423, (9300523796034161, 15)), (425, (265705963671323, 14)), (426, (3586790990524793, 15)), (427, (5070047059487481, 15)), (431, (10686818157154052, 15)), (433, (8895058687925998, 15)), (434, (274090855854092, 14)), (435, (3617794730575793, 15)), (438, (443298934557858, 14)), (439, (10686818157154052, 15)), (443, (10686818157154052, 15)), (444, (3991019240095561, 15)), (445, (5077346361969093, 15)), (446, (6754992524429727, 15)), (447, (8121868799692516, 15)), (448, (4118740245742076, 15)), (449, (4188536007677619, 15)), (450, (7103299218697942, 15)), (451, (8607376615474216, 15)), (452, (20451090910402474, 16)), (454, (4690366068535032, 15)), (456, (10686818157154052, 15)), (459, (654368343076252, 14)), (460, (6626375146607633, 15))]),
  (445, [(100, (4060820938042829, 15)), (101, (6703913242870266, 15)), (103, (79441760486014035, 16)), (104, (45052920172623265, 16)), (106, (5164142283512511, 15)), (107, (4611195442151311, 15)), (108, (11079670264530552, 15)), (112, (5875663577453757, 15)), (115, (6317496329732797, 15)), (116, (11772817445090498, 15)), (117, (5828706594365986, 15)), (120, (5694029069810841, 15)), (122, (35922164974960498, 16)), (124, (8161899532446274, 15)), (125, (16086208433540188, 16)), (127, (4198772439718298, 15)), (128, (8096516773183422, 15)), (129, (6634082148366926, 15)), (130, (4664982554392703, 15)), (131, (7721032497287193, 15)), (132, (6229595035446739, 15)), (133, (1052005447659513, 14)), (134, (6176249054741446, 15)), (135, (733606591072737, 14)), (138, (4185506939067882, 15)), (140, (12465964625650443, 15)), (141, (10856526713216343, 15)), (142, (5832646192370067, 15)), (143, (53684157750356505, 16)), (145, (7613934361730826, 15)), (152, (21293967979731776, 16)), (153, (9521525646484003, 15)), (156, (4172915485881999, 15)), (160, (10268740048314225, 15)), (162, (7568124825699532, 15)), (400, (38152900428597247, 16)), (401, (11367352336982334, 15)), (402, (7177697594955908, 15)), (403, (957559286775428, 14)), (404, (6803004145514498, 15)), (406, (4962123878951492, 15)), (407, (336443515953244, 14)), (409, (7621777539191852, 15)), (410, (10856526713216343, 15)), (412, (4499031127245604, 15)), (413, (6528428420568017, 15)), (414, (77746167434213, 13)), (417, (4902764033292373, 15)), (419, (8175505184502052, 15)), (422, (3665699974340108, 15)), (423, (11772817445090498, 15)), (425, (22963123472499105, 16)), (426, (2942055160270633, 15)), (427, (5673620198179634, 15)), (433, (11367352336982334, 15)), (434, (3529009021425217, 15)), (435, (37912549963592226, 16)), (438, (39600346265129165, 16)), (444, (63217789915247975, 16)), (445, (556422741899387, 14)), (446, (68064824098908225, 16)), (447, (7234856008795857, 15)), (448, (4808209354515578, 15)), (449, (65826422371621645, 16)), (450, (3886548091054074, 15)), (451, (4890892926142882, 15)), (452, (2074572132732893, 15)), (454, (4232727124945173, 15)), (456, (9330470409721293, 15)), (459, (8355090761477133, 15)), (460, (7821573726509071, 15)), (463, (12465964625650443, 15))]),
  (446, [(100, (31518593137220194, 16)), (101, (5886559768042297, 15)), (103, (8761664053807674, 15)), (104, (6815753904752361, 15)), (106, (6347374971233627, 15)), (107, (2965882660650804, 15)), (108, (9550121414171944, 15)), (110, (9773264965486154, 15)), (112, (5961062295340219, 15)), (115, (31812483567383234, 16)), (117, (7099116316059625, 15)), (120, (4435726885784836, 15)), (122, (37799271739964917, 16)), (124, (7758361944943889, 15)), (125, (27553108942059414, 16)), (127, (39457910184874034, 16)), (128, (7693823423806318, 15)), (129, (6292024876150462, 15)), (130, (5400657552728764, 15)), (131, (9367799857377989, 15)), (132, (6515168427464672, 15)), (133, (6189746027030044, 15)), (134, (7082021882700325, 15)), (135, (8386970604366264, 15)), (138, (3417157304790263, 15)), (141, (9080117784926209, 15)), (142, (5472583970266225, 15)), (143, (58077011931299785, 16)), (145, (8386970604366264, 15)), (152, (25053906801627295, 16)), (156, (6129121405213609, 15)), (157, (11159559326606045, 15)), (160, (9213649177550732, 15)), (162, (37473989916608397, 16)), (400, (2925259690909791, 15)), (402, (7016424600214512, 15)), (404, (811503688888262, 14)), (406, (53943682238212, 13)), (407, (20242658289527733, 16)), (409, (7267739028495418, 15)), (410, (8962334749269825, 15)), (412, (441785863195399, 14)), (413, (6882893207589989, 15)), (414, (104664121460461, 13)), (417, (5866254501881552, 15)), (419, (8386970604366264, 15)), (422, (32656141883700855, 16)), (423, (104664121460461, 13)), (425, (3186748542484641, 15)), (426, (48698437556970475, 16)), (427, (58562544185469685, 16)), (433, (6752840079341792, 15)), (434, (34674459870105783, 16)), (435, (4736312363072525, 15)), (438, (33323184248532334, 16)), (439, (11159559326606045, 15)), (444, (6855494233401875, 15)), (445, (5531938212915407, 15)), (446, (7247536321177899, 15)), (447, (5287441537130629, 15)), (448, (4799985457933667, 15)), (449, (36210643271925793, 16)), (450, (7758361944943889, 15)), (451, (5479386717588977, 15)), (452, (19145277148399316, 16)), (454, (6109703319356508, 15)), (456, (11159559326606045, 15)), (459, (79014627885845625, 16)), (460, (6372067583823998, 15))]),
  (447, [(100, (4212048792566965, 15)), (101, (6357448302038598, 15)), (103, (7502580606341601, 15)), (104, (5982754852597188, 15)), (106, (4818627956818451, 15)), (107, (4456358932865219, 15)), (108, (1014163793595686, 14)), (112, (5281825531595188, 15)), (115, (5641828265626595, 15)), (117, (6302185623363549, 15)), (120, (5974972712155133, 15)), (122, (22268375618321037, 16)), (124, (6586289874467446, 15)), (125, (22186519772456643, 16)), (127, (3962657015177819, 15)), (128, (7369049213717078, 15)), (129, (6249817637846233, 15)), (130, (39062472983521395, 16)), (131, (7400797912031659, 15)), (132, (5759611301282979, 15)), (133, (1014163793595686, 14)), (134, (655811899750075, 14)), (135, (73382775550503245, 16)), (138, (2926030377733559, 15)), (141, (8062196394277024, 15)), (142, (5593038101457163, 15)), (143, (4466597930166313, 15)), (145, (5851178494808469, 15)), (152, (3208214910226145, 15)), (153, (9225347204082706, 15)), (156, (4915891262243659, 15)), (160, (9225347204082706, 15)), (162, (6883541397935378, 15)), (400, (27231570382090657, 16)), (402, (6691650390125273, 15)), (403, (10834785116516805, 15)), (404, (7028122626746486, 15)), (406, (4894613863796374, 15)), (407, (3796879153069623, 15)), (409, (743358773485465, 14)), (410, (8269835759055269, 15)), (412, (4464884133688578, 15)), (413, (71971989567904195, 16)), (414, (9448490755396914, 15)), (417, (5886025226138637, 15)), (419, (8755343574836969, 15)), (422, (32893953669049814, 16)), (423, (9736172827848696, 15)), (425, (282708510363278, 14)), (426, (447175701297634, 14)), (427, (4926702178347874, 15)), (431, (10834785116516805, 15)), (433, (9448490755396914, 15)), (434, (4400238597729352, 15)), (435, (407321234771275, 14)), (438, (267169874093359, 14)), (444, (5990598030058214, 15)), (445, (6116286245221711, 15)), (446, (4770999907829197, 15)), (447, (7502580606341601, 15)), (448, (2848620256184078, 15)), (449, (25465020713091144, 16)), (450, (722386720387258, 14)), (451, (5258836013370489, 15)), (452, (2651108533896148, 15)), (454, (60985866681223095, 16)), (456, (1014163793595686, 14)), (459, (904302564728875, 14)), (460, (5383746662951104, 15))])]

/-- hmm/pos/prob_trans.go:262-277 -/
noncomputable def trans15 : List (Nat × List (Nat × Nat × Nat)) := [
  (448, [(100, (33174172564405104, 16)), (101, (5952569054914462, 15)), (103, (5994046844318946, 15)), (104, (4240407040754704, 15)), (106, (5044076023252886, 15)), (107, (4406817606884705, 15)), (108, (11295899620601222, 15)), (110, (1190900409348763, 14)), (112, (5375327068602986, 15)), (114, (1103996624646402, 14)), (115, (5749746090148603, 15)), (116, (13087659089829277, 15)), (117, (5489510418483815, 15)), (118, (14473953450949168, 15)), (120, (51242860137518855, 16)), (121, (12394511909269331, 15)), (122, (3436438204523975, 15)), (124, (7547376417726443, 15)), (125, (7152037388066569, 16)), (127, (4297618314919713, 15)), (128, (8277509323154646, 15)), (129, (65070199525443275, 16)), (130, (4275969595653588, 15)), (131, (6811015600487632, 15)), (132, (5471868017793444, 15)), (133, (9583604322727414, 15)), (134, (6925397471779294, 15)), (135, (727203713341754, 14)), (138, (4325208666853718, 15)), (140, (1190900409348763, 14)), (141, (9338155013898906, 15)), (142, (5168302899168659, 15)), (143, (527214940999527, 14)), (145, (8624628671002307, 15)), (152, (2394987168536261, 15)), (153, (7543458684997541, 15)), (156, (27399666008690535, 16)), (160, (11141748940773963, 15)), (162, (669993837369844, 14)), (400, (4015632958654051, 15)), (401, (1217136835795512, 14)), (402, (751170998668296, 14)), (403, (10863035538304942, 15)), (404, (6088921163135269, 15)), (405, (13780806270389222, 15)), (406, (5641949519692896, 15)), (407, (4297732502758833, 15)), (409, (10396416007043447, 15)), (410, (10031302194458851, 15)), (412, (5595874194822732, 15)), (413, (7336675013688781, 15)), (414, (8293936797296594, 15)), (417, (594206871078994, 14)), (419, (802823363156359, 14)), (422, (460754490665446, 14)), (423, (12076058178150797, 15)), (425, (31169919755256617, 16)), (426, (5411301351872589, 15)), (427, (5923518925753128, 15)), (431, (13375341162281057, 15)), (433, (9801124616487261, 15)), (434, (5192316197090951, 15)), (435, (5258824562241187, 15)), (438, (4473883800566795, 15)), (439, (11701364728709386, 15)), (443, (13780806270389222, 15)), (444, (79939088890225145, 16)), (445, (7956282178036892, 15)), (446, (98105143568371, 13)), (447, (8928776006469604, 15)), (448, (7965184313977486, 15)), (449, (7291601339063904, 15)), (450, (76594105536892085, 16)), (451, (9941353957795911, 15)), (452, (34068152135657073, 16)), (454, (6502177328068539, 15)), (456, (9450072930102891, 15)), (459, (9098675043265002, 15)), (460, (67508333586828355, 16))]),
  (449, [(100, (3616755007317491, 15)), (101, (5796477741523672, 15)), (103, (7389440816754267, 15)), (104, (4993032090981543, 15)), (106, (4173182794428145, 15)), (107, (3677543992753583, 15)), (108, (981718905270232, 14)), (110, (10117293645152657, 15)), (112, (5146439221068246, 15)), (115, (5315323883189958, 15)), (117, (5479656269027064, 15)), (118, (12419878738146704, 15)), (120, (5223566769302124, 15)), (121, (11503588006272548, 15)), (122, (19410426658290847, 16)), (124, (626078334965477, 14)), (125, (17777927421467123, 16)), (127, (3364264211373676, 15)), (128, (701046732409308, 14)), (129, (6083053007000262, 15)), (130, (37355622336944077, 16)), (131, (6339945543051113, 15)), (132, (5426404583762029, 15)), (133, (8538314940203266, 15)), (134, (5801139754629483, 15)), (135, (7194132064433502, 15)), (138, (3005822312522409, 15)), (140, (11503588006272548, 15)), (141, (8440197084244742, 15)), (142, (4893430464529568, 15)), (143, (3947369154357106, 15)), (145, (7141764078916186, 15)), (152, (25798636085661486, 16)), (153, (8795537805170337, 15)), (156, (4467263626495703, 15)), (160, (9124041872142374, 15)), (162, (6291918446450183, 15)), (400, (38784808580336483, 16)), (401, (11726731557586758, 15)), (402, (7688075901225246, 15)), (403, (11726731557586758, 15)), (404, (6567676258372229, 15)), (406, (4925726648551501, 15)), (407, (33013795698361004, 16)), (409, (9241824907798758, 15)), (410, (77013798668516085, 16)), (412, (5372361516789407, 15)), (413, (7131611707452167, 15)), (414, (8878919414109388, 15)), (417, (5576661980302137, 15)), (419, (8682209119863336, 15)), (422, (3524043652666177, 15)), (423, (10628119268918647, 15)), (425, (3422669707358005, 15)), (426, (5039311277596791, 15)), (427, (5001697915419915, 15)), (431, (11726731557586758, 15)), (433, (8850346041665333, 15)), (434, (39465329465107417, 16)), (435, (3921155063014127, 15)), (438, (24740982734203234, 16)), (439, (11503588006272548, 15)), (444, (7263701138759789, 15)), (445, (6619272078854962, 15)), (446, (7556197857007111, 15)), (447, (8001038130350105, 15)), (448, (5312862848313688, 15)), (449, (8822566477558258, 15)), (450, (7575691651688111, 15)), (451, (9502108006062423, 15)), (452, (2892940902305051, 15)), (454, (6317320143533134, 15)), (456, (10404975717604438, 15)), (459, (8954142835346977, 15)), (460, (4944822988470596, 15)), (463, (13113025918706649, 15))]),
  (450, [(100, (4628041966911131, 15)), (101, (5920532105901576, 15)), (103, (8384385346491744, 15)), (104, (6766648631242949, 15)), (106, (5701652953373824, 15)), (107, (4152697222758766, 15)), (108, (10869291996279744, 15)), (110, (9259854083845644, 15)), (112, (596772779723785, 14)), (115, (5466614614407464, 15)), (117, (750199616629327, 14)), (120, (6073501450683003, 15)), (122, (4724033975992345, 15)), (124, (892338184722443, 14)), (125, (3198164091848165, 15)), (127, (5115133314298476, 15)), (128, (8618000197673249, 15)), (129, (7801239061146127, 15)), (130, (5422554624613434, 15)), (131, (995300126440559, 14)), (132, (688030794971547, 14)), (133, (7712291575129631, 15)), (134, (586870703803699, 14)), (135, (7691238165931798, 15)), (138, (54182535427140435, 16)), (142, (6499844143812722, 15)), (143, (555855210973315, 14)), (145, (8343563351971488, 15)), (152, (11082036105401516, 16)), (153, (8566706903285699, 15)), (155, (1046382688817158, 14)), (156, (41281817947065536, 16)), (160, (10869291996279744, 15)), (162, (6750254821467272, 15)), (400, (462415469282273, 14)), (401, (10176144815719798, 15)), (402, (725837408363552, 14)), (403, (995300126440559, 14)), (404, (7898877530710043, 15)), (406, (4849482976162619, 15)), (407, (35892837433955562, 16)), (409, (9770679707611635, 15)), (410, (75921472632875675, 16)), (412, (4593588798497741, 15)), (413, (7231705836553358, 15)), (414, (9770679707611635, 15)), (417, (6085975624908179, 15)), (419, (6987728198336306, 15)), (422, (48954823844104824, 16)), (423, (10869291996279744, 15)), (425, (3965544738695146, 15)), (426, (39848053442369613, 16)), (427, (6115701805173379, 15)), (433, (8384385346491744, 15)), (434, (26112582103820863, 16)), (435, (4203608278497335, 15)), (438, (4961209058110813, 15)), (444, (725837408363552, 14)), (445, (5803537402962409, 15)), (446, (8789850454599907, 15)), (447, (7167990022167251, 15)), (448, (4400041679483971, 15)), (449, (7451565312666378, 15)), (450, (7205730350150097, 15)), (451, (907753252705169, 14)), (452, (11814449633304263, 16)), (454, (5534160656608991, 15)), (456, (11562439176839689, 15)), (459, (8672067418943525, 15)), (460, (7271979735691298, 15))]),
  (451, [(100, (36847973057368475, 16)), (101, (6299867942373015, 15)), (103, (7058766500495741, 15)), (104, (5513478835072804, 15)), (106, (5407497394216512, 15)), (107, (37995503504894175, 16)), (108, (9208588838937377, 15)), (110, (9747585339670064, 15)), (112, (5482895411700723, 15)), (114, (11693495488725377, 15)), (115, (5142415153681972, 15)), (117, (6295332787207624, 15)), (120, (55259789978370355, 16)), (122, (2507652748349594, 15)), (124, (6818298165524225, 15)), (125, (15932083602146407, 16)), (127, (32867870304844113, 16)), (128, (6841465224805759, 15)), (129, (5999763349922677, 15)), (130, (4699562513502188, 15)), (131, (7582621624552066, 15)), (132, (6051588417787263, 15)), (133, (7742251770143949, 15)), (134, (7239148192471869, 15)), (135, (7108528010054805, 15)), (138, (31235201118701696, 16)), (140, (11000348308165432, 15)), (141, (78868329989550565, 16)), (142, (4805942917060759, 15)), (143, (4958903828752429, 15)), (145, (8167134964109215, 15)), (152, (26797784582540083, 16)), (153, (9901736019497323, 15)), (156, (5236725833153214, 15)), (157, (11693495488725377, 15)), (160, (961405394704554, 14)), (162, (5012640809935162, 15)), (400, (37042740799101006, 16)), (402, (7239148192471869, 15)), (403, (10307201127605486, 15)), (404, (670306290194664, 14)), (406, (5658014056200621, 15)), (407, (3451792328995558, 15)), (409, (8920906766485595, 15)), (410, (8397658622721048, 15)), (412, (555145808313802, 14)), (413, (6766241803568172, 15)), (414, (9496270911389157, 15)), (417, (5818564757873347, 15)), (419, (9054438159110118, 15)), (422, (4438610678648039, 15)), (423, (10594883200057266, 15)), (425, (2685638565367101, 15)), (426, (496726208636663, 14)), (427, (4968461846558534, 15)), (433, (8082577576081151, 15)), (434, (37586239227802, 13)), (435, (39819465090962307, 16)), (438, (2419898667114179, 15)), (444, (7650444220890827, 15)), (445, (6380289509683589, 15)), (446, (8082577576081151, 15)), (447, (78868329989550565, 16)), (448, (37898991991110753, 16)), (449, (5031640748180066, 15)), (450, (8920906766485595, 15)), (451, (9054438159110118, 15)), (452, (22393465649914, 13)), (454, (6095073529727002, 15)), (456, (10084057576291276, 15)), (459, (8558001272796227, 15)), (460, (4911303432718586, 15))]),
  (452, [(100, (4244285160192155, 15)), (101, (595251064842533, 14)), (103, (7751567260771836, 15)), (104, (5474726402012031, 15)), (106, (50807413505320165, 16)), (107, (4097275563085078, 15)), (108, (8676206282037462, 15)), (110, (10238852032964804, 15)), (112, (5583328279708699, 15)), (114, (14487347275014162, 15)), (115, (5436588972862445, 15)), (116, (13571056543140008, 15)), (117, (5973359214546873, 15)), (118, (15180494455574108, 15)), (120, (5663920165751617, 15)), (121, (14487347275014162, 15)), (122, (32656969966726006, 16)), (124, (7588632740684174, 15)), (125, (20667602022011873, 16)), (127, (36437938719531098, 16)), (128, (7595213376934982, 15)), (129, (6107464034562532, 15)), (130, (38325379778670166, 16)), (131, (644095803301443, 14)), (132, (5694266291028855, 15)), (133, (9086924685528972, 15)), (134, (5687911779896509, 15)), (135, (7210445150597972, 15)), (138, (35243348225179716, 16)), (140, (12236055476407667, 15)), (141, (9302758673794468, 15)), (142, (5433602235261054, 15)), (143, (4582985105067373, 15)), (145, (7608506006196667, 15)), (152, (23674672508364196, 16)), (153, (7768938167762944, 15)), (156, (4746584555525431, 15)), (157, (1144282483729074, 14)), (160, (9191533038684245, 15)), (162, (6826290892652333, 15)), (400, (3744082931704126, 15)), (401, (9348611978290592, 15)), (402, (684818610335499, 14)), (403, (10056530476170849, 15)), (404, (6137626437541674, 15)), (405, (12541437125958849, 15)), (406, (5002486060864022, 15)), (407, (34127949979671715, 16)), (409, (804719850067804, 14)), (410, (8361570390298587, 15)), (412, (4212141005669752, 15)), (413, (568437381843574, 14)), (414, (8946083729855737, 15)), (417, (5004235443321953, 15)), (419, (7090092158980787, 15)), (422, (3976883363182774, 15)), (423, (10507665621112201, 15)), (425, (29524548599183777, 16)), (426, (3962718877903181, 15)), (427, (491573752967251, 14)), (431, (12983269878237888, 15)), (433, (869738710411691, 14)), (434, (30310874041630016, 16)), (435, (370677770382916, 14)), (438, (30141454496435216, 16)), (439, (10890035014425717, 15)), (443, (12290122697677942, 15)), (444, (6843385326011633, 15)), (445, (5451598413770024, 15)), (446, (4700562092264176, 15)), (447, (5261478101420352, 15)), (448, (3836958527586723, 15)), (449, (3027854232841401, 15)), (450, (653702109824754, 14)), (451, (39542116034809975, 16)), (452, (20158132429772246, 16)), (454, (5014450349366935, 15)), (456, (9277861122172741, 15)), (459, (7030315185891782, 15)), (460, (55300299330049185, 16)), (461, (14487347275014162, 15)), (463, (13571056543140008, 15))]),
  (453, []),
  (454, [(100, (4766108483951023, 15)), (101, (7053015764225838, 15)), (103, (8867248089305953, 15)), (104, (593001202243357, 14)), (106, (5184066656306654, 15)), (107, (4382705891106475, 15)), (108, (10348852630230168, 15)), (110, (10859678253996158, 15)), (112, (5915657708981887, 15)), (115, (5979404777763146, 15)), (117, (6094659367066171, 15)), (120, (6295330062528322, 15)), (122, (4002514761130081, 15)), (124, (866245367665994, 14)), (125, (21407967032951163, 16)), (127, (31965837741976286, 16)), (128, (7016648120054964, 15)), (129, (5753732780095578, 15)), (130, (4291600342584183, 15)), (131, (7576263907990387, 15)), (132, (571996591762476, 14)), (133, (882279632673512, 14)), (134, (7179167049552738, 15)), (135, (810814294095421, 14)), (138, (47133489963272615, 16)), (141, (11265143362104324, 15)), (142, (5679769118498424, 15)), (143, (46707299023545445, 16)), (145, (7831156157619176, 15)), (152, (29461572367122635, 16)), (153, (9878849000984433, 15)), (155, (11958290542664269, 15)), (156, (5384610375703622, 15)), (157, (11958290542664269, 15)), (160, (939334118520273, 14)), (162, (6981556800243694, 15)), (400, (3605971994438265, 15)), (401, (9878849000984433, 15)), (402, (5136093152043777, 15)), (403, (931923321304901, 14)), (404, (615315557374778, 14)), (405, (11265143362104324, 15)), (406, (4209830518764571, 15)), (407, (3254451822974022, 15)), (409, (7333317729379997, 15)), (410, (824471847595996, 14)), (412, (4158127472271308, 15)), (413, (3987895635472839, 15)), (414, (7738782837488161, 15)), (417, (421893133997517, 14)), (419, (5727809095085786, 15)), (422, (4130650996297846, 15)), (423, (866245367665994, 14)), (425, (23555703021285765, 16)), (426, (2603070909370001, 15)), (427, (42516776287000715, 16)), (431, (11265143362104324, 15)), (433, (7373323063993696, 15)), (434, (33807551222418692, 16)), (435, (34829615553467295, 16)), (438, (332100587099021, 14)), (439, (882279632673512, 14)), (443, (11958290542664269, 15)), (444, (5376265403771442, 15)), (445, (4315286907103551, 15)), (446, (58141049085386225, 16)), (447, (6345162436276198, 15)), (448, (4179660395338459, 15)), (449, (409080197396514, 14)), (450, (5889864954420158, 15)), (451, (50923994677808295, 16)), (452, (1943485253996187, 15)), (454, (385237934467776, 14)), (456, (8197090426970705, 15)), (459, (510288174405434, 14)), (460, (5979404777763146, 15)), (461, (10859678253996158, 15)), (463, (10571996181544378, 15))]),
  (455, []),
  (456, [(100, (5462418377228463, 15)), (101, (7659642954564682, 15)), (104, (6561030665896573, 15)), (106, (4826429610508466, 15)), (107, (4076124016108572, 15)), (112, (5580201412884847, 15)), (115, (5713732805509369, 15)), (117, (7659642954564682, 15)), (122, (5020585624949423, 15)), (125, (17434408919572473, 16)), (127, (3970763500450746, 15)), (128, (6050205042130582, 15)), (129, (48870542323249015, 16)), (130, (5867883485336628, 15)), (132, (62733485934447915, 16)), (134, (62733485934447915, 16)), (138, (4481589124216737, 15)), (142, (5261747681766312, 15)), (143, (5174736304776682, 15)), (152, (3024913966335047, 15)), (156, (5580201412884847, 15)), (162, (6966495774004737, 15)), (400, (3382976835548627, 15)), (401, (6966495774004737, 15)), (402, (5357057861570636, 15)), (404, (5580201412884847, 15)), (406, (28889583300990176, 16)), (407, (28974690197669264, 16)), (409, (7659642954564682, 15)), (412, (34401352493885757, 16)), (413, (4826429610508466, 15)), (417, (4826429610508466, 15)), (419, (6561030665896573, 15)), (422, (4524148738635533, 15)), (425, (17488463105241552, 16)), (426, (33691835134162913, 16)), (427, (4826429610508466, 15)), (434, (3670658908000408, 15)), (435, (4258445572902527, 15)), (438, (36893510410125607, 16)), (444, (6561030665896573, 15)), (445, (4327438444389479, 15)), (446, (6966495774004737, 15)), (447, (6966495774004737, 15)), (448, (36523097693322115, 16)), (449, (6561030665896573, 15)), (450, (7659642954564682, 15)), (451, (7659642954564682, 15)), (452, (2221563645641487, 15)), (454, (4440767129696482, 15)), (456, (5580201412884847, 15)), (459, (62733485934447915, 16)), (460, (6050205042130582, 15))]),
  (457, []),
  (458, []),
  (459, [(100, (5527565702477573, 15)), (101, (7724790279813792, 15)), (103, (9228867676590067, 15)), (104, (6626177991145682, 15)), (106, (5914681671917541, 15)), (107, (4872158849900475, 15)), (112, (62331354030360755, 16)), (115, (6703139032281811, 15)), (117, (9922014857150012, 15)), (120, (7282957527534753, 15)), (122, (51345231143679655, 16)), (124, (8823402568481901, 15)), (125, (32151525205472646, 16)), (127, (35976558947687005, 16)), (128, (8535720496030121, 15)), (129, (56879083525527525, 16)), (130, (5970771138568584, 15)), (131, (9228867676590067, 15)), (132, (7088801513093796, 15)), (133, (8535720496030121, 15)), (134, (7524119584351641, 15)), (135, (7842573315470176, 15)), (138, (5515295609885759, 15)), (142, (6071867255439953, 15)), (143, (6366666795660598, 15)), (145, (7357065499688475, 15)), (152, (3562440988477634, 15)), (156, (6284428697423626, 15)), (162, (7149426134910231, 15)), (400, (34087847462377048, 16)), (401, (7282957527534753, 15)), (402, (4122922202689486, 15)), (403, (9922014857150012, 15)), (404, (559128151686368, 14)), (405, (7842573315470176, 15)), (406, (485311065492978, 14)), (407, (35940780734208166, 16)), (409, (6743961026802066, 15)), (410, (6877492419426589, 15)), (412, (4757228883226498, 15)), (413, (22751834657195293, 16)), (414, (8823402568481901, 15)), (417, (38628916615682147, 16)), (419, (6115352367379692, 15)), (422, (4701659032071687, 15)), (423, (6786520641220862, 15)), (425, (2424807633946694, 15)), (426, (24795221343555713, 16)), (427, (31874231971770635, 16)), (433, (5659334980108696, 15)), (434, (37907883676668708, 16)), (435, (3410269527505284, 15)), (438, (424526105488173, 14)), (439, (666391831912853, 14)), (444, (563155541600162, 14)), (445, (5039212934563641, 15)), (446, (7282957527534753, 15)), (447, (831257694471591, 14)), (448, (4096014749769561, 15)), (449, (6115352367379692, 15)), (450, (5914681671917541, 15)), (451, (6366666795660598, 15)), (452, (17075496963908263, 16)), (454, (30112640691880763, 16)), (456, (9228867676590067, 15)), (459, (2756521382089166, 15)), (460, (531684467116192, 14)), (461, (9922014857150012, 15)), (463, (8535720496030121, 15))]),
  (460, [(100, (5035070048455653, 15)), (101, (6579044920106327, 15)), (103, (862921607948605, 14)), (104, (6259691503816894, 15)), (106, (338584238655653, 14)), (107, (32457801518356866, 16)), (108, (76388173754581725, 16)), (110, (79752896120793855, 16)), (112, (5680736690782604, 15)), (115, (5921165878383839, 15)), (117, (6311363514361215, 15)), (120, (4993656262904896, 15)), (122, (4133689070947785, 15)), (124, (6787446189683333, 15)), (125, (22688440200037006, 16)), (127, (26912740302422082, 16)), (128, (6588995250959495, 15)), (129, (584230730347152, 14)), (130, (4505810723000824, 15)), (131, (5796002735429833, 15)), (132, (4648815776613167, 15)), (133, (7019778167051949, 15)), (134, (5538173626127733, 15)), (135, (8796270164149215, 15)), (138, (2852755225485721, 15)), (141, (79752896120793855, 16)), (142, (5809670374158497, 15)), (143, (3706991742733847, 15)), (145, (7409975803029325, 15)), (152, (2872987129457306, 15)), (153, (9807871075827695, 15)), (156, (5696997211654384, 15)), (157, (11194165436947586, 15)), (160, (8996940859611367, 15)), (162, (6824717584480565, 15)), (400, (3677188212343265, 15)), (401, (1050101825638764, 14)), (402, (6799716282275147, 15)), (404, (6349978350488994, 15)), (406, (43493499577393235, 16)), (407, (28773763098760687, 16)), (409, (8555108107332327, 15)), (410, (5709368503456931, 15)), (412, (5467317689360389, 15)), (413, (5460824160049841, 15)), (414, (836095209289137, 14)), (417, (5098340874515361, 15)), (419, (9402405967719531, 15)), (422, (4381820342770107, 15)), (423, (1050101825638764, 14)), (425, (3870334870745269, 15)), (426, (4709530201312334, 15)), (427, (4206675189946595, 15)), (431, (9584727524513486, 15)), (433, (6863432096661255, 15)), (434, (3750501753831995, 15)), (435, (50182981668418245, 16)), (438, (16485678519067353, 16)), (444, (6118991621713759, 15)), (445, (467501814900719, 14)), (446, (69746577317714795, 16)), (447, (72429217183661585, 16)), (448, (4942261553781697, 15)), (449, (6088219963047005, 15)), (450, (5818887029263421, 15)), (451, (79752896120793855, 16)), (452, (2367430838726674, 15)), (454, (5507190080607766, 15)), (456, (11194165436947586, 15)), (459, (6559436448717951, 15)), (460, (4479994907038114, 15))]),
  (461, [(125, (30204248861443626, 16)), (129, (2327277705584417, 15)), (132, (3713572066704308, 15)), (152, (3713572066704308, 15)), (156, (3713572066704308, 15)), (400, (2327277705584417, 15)), (407, (3713572066704308, 15)), (413, (3713572066704308, 15)), (417, (21041341542702074, 16)), (422, (30204248861443626, 16)), (425, (30204248861443626, 16)), (426, (30204248861443626, 16)), (427, (3713572066704308, 15)), (434, (30204248861443626, 16)), (435, (21041341542702074, 16)), (438, (3713572066704308, 15)), (444, (3713572066704308, 15)), (452, (21041341542702074, 16))]),
  (462, []),
  (463, [(152, (3713572066704308, 15)), (400, (3713572066704308, 15)), (402, (30204248861443626, 16)), (407, (3713572066704308, 15)), (412, (3713572066704308, 15)), (413, (21041341542702074, 16)), (417, (3713572066704308, 15)), (425, (26149597780361984, 16)), (426, (26149597780361984, 16)), (427, (26149597780361984, 16)), (433, (30204248861443626, 16)), (435, (30204248861443626, 16)), (444, (30204248861443626, 16)), (452, (16341305250244718, 16)), (454, (2327277705584417, 15)), (459, (3713572066704308, 15)), (460, (3713572066704308, 15))])]

/-- `probTrans`, hmm/pos/prob_trans.go:21-278: for each state the next states with their values. -/
noncomputable def trans : List (Nat × List (Nat × Nat × Nat)) :=
  [trans0, trans1, trans2, trans3, trans4, trans5, trans6, trans7, trans8, trans9, trans10, trans11, trans12, trans13, trans14, trans15].flatten

/-- hmm/pos/prob_start.go:4-67 -/
noncomputable def start0 : List (Nat × Nat × Nat) := [
  (100, (4762305214596967, 15)),
  (101, (6680066036784177, 15)),
  (102, (314 * 10 ^ 98, 0)),
  (103, (8697083223018778, 15)),
  (104, (5018374362109218, 15)),
  (105, (314 * 10 ^ 98, 0)),
  (106, (3423880184954888, 15)),
  (107, (39750475297585357, 16)),
  (108, (8888974230828882, 15)),
  (109, (314 * 10 ^ 98, 0)),
  (110, (8563551830394255, 15)),
  (111, (314 * 10 ^ 98, 0)),
  (112, (5491630418482717, 15)),
  (113, (314 * 10 ^ 98, 0)),
  (114, (13533365129970255, 15)),
  (115, (61157847275557105, 16)),
  (116, (314 * 10 ^ 98, 0)),
  (117, (50576191284681915, 16)),
  (118, (314 * 10 ^ 98, 0)),
  (119, (314 * 10 ^ 98, 0)),
  (120, (4905883584659895, 15)),
  (121, (314 * 10 ^ 98, 0)),
  (122, (36524299819046386, 16)),
  (123, (314 * 10 ^ 98, 0)),
  (124, (678695300139688, 14)),
  (125, (16966257797548328, 16)),
  (126, (314 * 10 ^ 98, 0)),
  (127, (22310495913769506, 16)),
  (128, (5873722175405573, 15)),
  (129, (4985642733519195, 15)),
  (130, (28228438314969213, 16)),
  (131, (4846091668182416, 15)),
  (132, (394698846057672, 14)),
  (133, (8433498702146057, 15)),
  (134, (4200984132085048, 15)),
  (135, (6998123858956596, 15)),
  (136, (314 * 10 ^ 98, 0)),
  (137, (314 * 10 ^ 98, 0)),
  (138, (34098187790818413, 16)),
  (139, (314 * 10 ^ 98, 0)),
  (140, (12434752841302146, 15)),
  (141, (7946116471570005, 15)),
  (142, (5522673590839954, 15)),
  (143, (33647479094528574, 16)),
  (144, (314 * 10 ^ 98, 0)),
  (145, (9163917277503234, 15)),
  (146, (314 * 10 ^ 98, 0)),
  (147, (314 * 10 ^ 98, 0)),
  (148, (314 * 10 ^ 98, 0)),
  (149, (314 * 10 ^ 98, 0)),
  (150, (314 * 10 ^ 98, 0)),
  (151, (314 * 10 ^ 98, 0)),
  (152, (26740584874265685, 16)),
  (153, (9044728760238115, 15)),
  (154, (314 * 10 ^ 98, 0)),
  (155, (12434752841302146, 15)),
  (156, (43315610890163585, 16)),
  (157, (12147070768850364, 15)),
  (158, (314 * 10 ^ 98, 0)),
  (159, (314 * 10 ^ 98, 0)),
  (160, (9844485675856319, 15)),
  (161, (314 * 10 ^ 98, 0)),
  (162, (7045681111485645, 15)),
  (163, (314 * 10 ^ 98, 0))]

/-- hmm/pos/prob_start.go:68-131 -/
noncomputable def start1 : List (Nat × Nat × Nat) := [
  (200, (314 * 10 ^ 98, 0)),
  (201, (314 * 10 ^ 98, 0)),
  (202, (314 * 10 ^ 98, 0)),
  (203, (314 * 10 ^ 98, 0)),
  (204, (314 * 10 ^ 98, 0)),
  (205, (314 * 10 ^ 98, 0)),
  (206, (314 * 10 ^ 98, 0)),
  (207, (314 * 10 ^ 98, 0)),
  (208, (314 * 10 ^ 98, 0)),
  (209, (314 * 10 ^ 98, 0)),
  (210, (314 * 10 ^ 98, 0)),
  (211, (314 * 10 ^ 98, 0)),
  (212, (314 * 10 ^ 98, 0)),
  (213, (314 * 10 ^ 98, 0)),
  (214, (314 * 10 ^ 98, 0)),
  (215, (314 * 10 ^ 98, 0)),
  (216, (314 * 10 ^ 98, 0)),
  (217, (314 * 10 ^ 98, 0)),
  (218, (314 * 10 ^ 98, 0)),
  (219, (314 * 10 ^ 98, 0)),
  (220, (314 * 10 ^ 98, 0)),
  (221, (314 * 10 ^ 98, 0)),
  (222, (314 * 10 ^ 98, 0)),
  (223, (314 * 10 ^ 98, 0)),
  (224, (314 * 10 ^ 98, 0)),
  (225, (314 * 10 ^ 98, 0)),
  (226, (314 * 10 ^ 98, 0)),
  (227, (314 * 10 ^ 98, 0)),
  (228, (314 * 10 ^ 98, 0)),
  (229, (314 * 10 ^ 98, 0)),
  (230, (314 * 10 ^ 98, 0)),
  (231, (314 * 10 ^ 98, 0)),
  (232, (314 * 10 ^ 98, 0)),
  (233, (314 * 10 ^ 98, 0)),
  (234, (314 * 10 ^ 98, 0)),
  (235, (314 * 10 ^ 98, 0)),
  (236, (314 * 10 ^ 98, 0)),
  (237, (314 * 10 ^ 98, 0)),
  (238, (314 * 10 ^ 98, 0)),
  (239, (314 * 10 ^ 98, 0)),
  (240, (314 * 10 ^ 98, 0)),
  (241, (314 * 10 ^ 98, 0)),
  (242, (314 * 10 ^ 98, 0)),
  (243, (314 * 10 ^ 98, 0)),
  (244, (314 * 10 ^ 98, 0)),
  (245, (314 * 10 ^ 98, 0)),
  (246, (314 * 10 ^ 98, 0)),
  (247, (314 * 10 ^ 98, 0)),
  (248, (314 * 10 ^ 98, 0)),
  (249, (314 * 10 ^ 98, 0)),
  (250, (314 * 10 ^ 98, 0)),
  (251, (314 * 10 ^ 98, 0)),
  (252, (314 * 10 ^ 98, 0)),
  (253, (314 * 10 ^ 98, 0)),
  (254, (314 * 10 ^ 98, 0)),
  (255, (314 * 10 ^ 98, 0)),
  (256, (314 * 10 ^ 98, 0)),
  (257, (314 * 10 ^ 98, 0)),
  (258, (314 * 10 ^ 98, 0)),
  (259, (314 * 10 ^ 98, 0)),
  (260, (314 * 10 ^ 98, 0)),
  (261, (314 * 10 ^ 98, 0)),
  (262, (314 * 10 ^ 98, 0)),
  (263, (314 * 10 ^ 98, 0))]

/-- hmm/pos/prob_start.go:132-195 -/
noncomputable def start2 : List (Nat × Nat × Nat) := [
  (300, (314 * 10 ^ 98, 0)),
  (301, (314 * 10 ^ 98, 0)),
  (302, (314 * 10 ^ 98, 0)),
  (303, (314 * 10 ^ 98, 0)),
  (304, (314 * 10 ^ 98, 0)),
  (305, (314 * 10 ^ 98, 0)),
  (306, (314 * 10 ^ 98, 0)),
  (307, (314 * 10 ^ 98, 0)),
  (308, (314 * 10 ^ 98, 0)),
  (309, (314 * 10 ^ 98, 0)),
  (310, (314 * 10 ^ 98, 0)),
  (311, (314 * 10 ^ 98, 0)),
  (312, (314 * 10 ^ 98, 0)),
  (313, (314 * 10 ^ 98, 0)),
  (314, (314 * 10 ^ 98, 0)),
  (315, (314 * 10 ^ 98, 0)),
  (316, (314 * 10 ^ 98, 0)),
  (317, (314 * 10 ^ 98, 0)),
  (318, (314 * 10 ^ 98, 0)),
  (319, (314 * 10 ^ 98, 0)),
  (320, (314 * 10 ^ 98, 0)),
  (321, (314 * 10 ^ 98, 0)),
  (322, (314 * 10 ^ 98, 0)),
  (323, (314 * 10 ^ 98, 0)),
  (324, (314 * 10 ^ 98, 0)),
  (325, (314 * 10 ^ 98, 0)),
  (326, (314 * 10 ^ 98, 0)),
  (327, (314 * 10 ^ 98, 0)),
  (328, (314 * 10 ^ 98, 0)),
  (329, (314 * 10 ^ 98, 0)),
  (330, (314 * 10 ^ 98, 0)),
  (331, (314 * 10 ^ 98, 0)),
  (332, (314 * 10 ^ 98, 0)),
  (333, (314 * 10 ^ 98, 0)),
  (334, (314 * 10 ^ 98, 0)),
  (335, (314 * 10 ^ 98, 0)),
  (336, (314 * 10 ^ 98, 0)),
  (337, (314 * 10 ^ 98, 0)),
  (338, (314 * 10 ^ 98, 0)),
  (339, (314 * 10 ^ 98, 0)),
  (340, (314 * 10 ^ 98, 0)),
  (341, (314 * 10 ^ 98, 0)),
  (342, (314 * 10 ^ 98, 0)),
  (343, (314 * 10 ^ 98, 0)),
  (344, (314 * 10 ^ 98, 0)),
  (345, (314 * 10 ^ 98, 0)),
  (346, (314 * 10 ^ 98, 0)),
  (347, (314 * 10 ^ 98, 0)),
  (348, (314 * 10 ^ 98, 0)),
  (349, (314 * 10 ^ 98, 0)),
  (350, (314 * 10 ^ 98, 0)),
  (351, (314 * 10 ^ 98, 0)),
  (352, (314 * 10 ^ 98, 0)),
  (353, (314 * 10 ^ 98, 0)),
  (354, (314 * 10 ^ 98, 0)),
  (355, (314 * 10 ^ 98, 0)),
  (356, (314 * 10 ^ 98, 0)),
  (357, (314 * 10 ^ 98, 0)),
  (358, (314 * 10 ^ 98, 0)),
  (359, (314 * 10 ^ 98, 0)),
  (360, (314 * 10 ^ 98, 0)),
  (361, (314 * 10 ^ 98, 0)),
  (362, (314 * 10 ^ 98, 0)),
  (363, (314 * 10 ^ 98, 0))]

/-- hmm/pos/prob_start.go:196-259 -/
noncomputable def start3 : List (Nat × Nat × Nat) := [
  (400, (39025396831295227, 16)),
  (401, (11048458480182255, 15)),
  (402, (6954113917960154, 15)),
  (403, (1284021794941031, 14)),
  (404, (6472888763970454, 15)),
  (405, (314 * 10 ^ 98, 0)),
  (406, (4786966795861212, 15)),
  (407, (3903919764181873, 15)),
  (408, (314 * 10 ^ 98, 0)),
  (409, (8948397651299683, 15)),
  (410, (5942513006281674, 15)),
  (411, (314 * 10 ^ 98, 0)),
  (412, (5194820249981676, 15)),
  (413, (6507826815331734, 15)),
  (414, (8650563207383884, 15)),
  (415, (314 * 10 ^ 98, 0)),
  (416, (314 * 10 ^ 98, 0)),
  (417, (4911992119644354, 15)),
  (418, (314 * 10 ^ 98, 0)),
  (419, (6940320595827818, 15)),
  (420, (314 * 10 ^ 98, 0)),
  (421, (314 * 10 ^ 98, 0)),
  (422, (3269200652116097, 15)),
  (423, (10825314928868044, 15)),
  (424, (314 * 10 ^ 98, 0)),
  (425, (38551483897645107, 16)),
  (426, (4913434861102905, 15)),
  (427, (4483663103956885, 15)),
  (428, (314 * 10 ^ 98, 0)),
  (429, (314 * 10 ^ 98, 0)),
  (430, (314 * 10 ^ 98, 0)),
  (431, (12147070768850364, 15)),
  (432, (314 * 10 ^ 98, 0)),
  (433, (8464460927750023, 15)),
  (434, (29868401813596317, 16)),
  (435, (4888658618255058, 15)),
  (436, (314 * 10 ^ 98, 0)),
  (437, (314 * 10 ^ 98, 0)),
  (438, (27635336784127853, 16)),
  (439, (10275268591948773, 15)),
  (440, (314 * 10 ^ 98, 0)),
  (441, (314 * 10 ^ 98, 0)),
  (442, (314 * 10 ^ 98, 0)),
  (443, (314 * 10 ^ 98, 0)),
  (444, (6272842531880403, 15)),
  (445, (6940320595827818, 15)),
  (446, (7728230161053767, 15)),
  (447, (75394037026636855, 16)),
  (448, (685251045118004, 14)),
  (449, (84153713175535, 13)),
  (450, (815808672228609, 14)),
  (451, (9299258625372996, 15)),
  (452, (3053292303412302, 15)),
  (453, (314 * 10 ^ 98, 0)),
  (454, (59430181843676895, 16)),
  (455, (314 * 10 ^ 98, 0)),
  (456, (11453923588290419, 15)),
  (457, (314 * 10 ^ 98, 0)),
  (458, (314 * 10 ^ 98, 0)),
  (459, (8427419656069674, 15)),
  (460, (61970794699489575, 16)),
  (461, (13533365129970255, 15)),
  (462, (314 * 10 ^ 98, 0)),
  (463, (314 * 10 ^ 98, 0))]

/-- `probStart`, hmm/pos/prob_start.go:3-260. -/
noncomputable def start : List (Nat × Nat × Nat) := [start0, start1, start2, start3].flatten

/-- hmm/pos/char_state_tab.go:62-125 -/
noncomputable def chars0 : List (Nat × List Nat) := [
  (19968, [122, 422, 107, 100, 322, 125, 145, 238, 222, 307, 142, 138, 115, 256, 204, 315, 104, 143, 117, 120, 320, 106, 306, 327, 124, 243, 152, 325, 332, 200, 225, 252, 343, 207, 156, 112, 304, 227, 220, 130, 317, 224, 338, 127, 215, 331, 132, 228, 352, 229, 217, 330, 129, 131, 328, 329, 232, 135, 335, 324]),
  (19969, [127, 427, 227, 225, 330, 325, 125, 327, 332, 229, 232, 207, 133, 122, 454, 331, 130, 215, 252, 322, 315, 426, 230, 329, 128, 320, 333, 132, 115, 152, 220, 143, 129, 104, 228]),
  (19971, [122, 322, 422, 222, 143, 125, 130, 115, 315, 327, 132, 230, 227, 332, 330, 104, 325, 120, 243, 331, 225, 131, 117, 127, 320, 232, 324, 317]),
  (19975, [122, 422, 222, 322, 125, 132, 127, 315, 104, 130, 143, 115, 107, 327, 227, 320, 215, 229, 120, 325, 124, 332, 129, 330, 135, 324, 100, 131, 117, 128, 329, 152, 220, 230, 328]),
  (19976, [125, 222, 435, 225, 325, 215, 152, 227, 422, 315, 320, 132, 327, 229, 115, 220]),
  (19977, [122, 422, 322, 124, 222, 125, 327, 130, 117, 132, 104, 330, 243, 143, 325, 115, 315, 332, 129, 120, 320, 207, 343, 238, 227, 225, 138, 317, 215, 127, 131, 331, 152, 232, 228, 217, 156, 142, 324, 220, 328, 307, 224, 352, 304]),
  (19978, [412, 152, 242, 130, 212, 252, 143, 125, 225, 207, 112, 104, 117, 243, 220, 131, 352, 315, 325, 320, 120, 230, 215, 127, 142, 327, 156, 132, 122, 129, 306, 100, 312, 204, 304, 330, 115, 227, 162, 343, 262, 322, 331, 229, 317, 124, 300, 329, 332, 324]),
  (19979, [412, 152, 252, 212, 225, 222, 242, 125, 143, 112, 325, 207, 322, 243, 320, 220, 215, 200, 204, 104, 120, 306, 352, 238, 315, 256, 130, 317, 156, 100, 307, 230, 330, 422, 327, 312, 343, 227, 115, 229, 304, 331, 135, 232, 129, 132, 356, 224, 324, 107, 332, 231]),
  (19981, [407, 152, 107, 100, 125, 106, 315, 320, 352, 122, 207, 115, 120, 108, 307, 220, 162, 325, 306, 143, 300, 330, 130, 104, 343, 142, 132, 156, 327, 206, 129, 332, 322, 217, 362, 101, 304, 329, 127, 317]),
  (19982, [434, 252, 106, 325, 115, 152, 145, 120, 315, 327, 125, 331, 107, 320, 332, 227, 130, 215]),
  (19984, [225, 413, 327, 227, 125]),
  (19985, [400, 125, 100, 225, 222, 252, 227, 320, 152, 315, 322, 115, 327, 243, 143, 120, 332, 215, 203, 217, 417, 343, 200]),
  (19987, [125, 107, 407, 152, 156, 104, 100, 120, 320, 217, 101, 225, 317, 115, 132, 227, 327, 117, 331, 325, 204, 315, 304, 220, 231]),
  (19988, [206, 406, 106, 207, 120, 130, 315, 252, 320, 227]),
  (19989, [413, 227, 327, 228]),
  (19990, [125, 426, 327, 252, 225, 332, 325, 229, 227, 343, 143, 120, 142, 315, 127, 131, 156, 243, 215, 117, 132, 320, 220, 217, 104, 230, 204, 324, 331, 115, 152, 207, 322, 122, 328, 352, 222, 232, 100, 256, 330, 329]),
  (19992, [125, 225, 127, 230, 427, 227, 325, 435, 327, 330, 426, 229, 130, 315, 331, 332, 232, 129, 215, 132, 142, 329]),
  (19993, [125, 325, 423, 332, 327, 122, 227, 132, 228, 315, 232]),
  (19994, [225, 325, 125, 252, 331, 256, 426, 217, 356, 112, 220, 232, 204, 227, 320, 352, 104, 107, 215, 332, 231, 425, 327, 315, 117, 330, 238, 229, 304, 120, 230, 343, 407, 132, 115, 228]),
  (19995, [225, 125, 427, 127, 112, 152, 227, 435, 325, 426, 320, 327, 322, 222, 135, 235, 315, 142, 130, 115, 362, 262]),
  (19996, [125, 230, 112, 130, 412, 225, 142, 227, 127, 330, 143, 327, 117, 132, 212, 331, 104, 131, 325, 152, 115, 229, 332, 242, 315, 320, 232, 312, 120, 129, 231, 228, 156, 329, 252, 128, 220, 118, 328, 317]),
  (19997, [225, 125, 425, 222, 122, 435, 325, 315, 252, 227, 120, 104, 327, 132, 362, 232, 224, 324, 229, 129, 320, 162, 262, 230, 220, 115, 332, 256, 422, 322, 330, 215, 135, 204, 329]),
  (19998, [125, 325, 327, 225, 228]),
  (20002, [452, 152, 100, 120, 115, 127]),
  (20004, [122, 422, 125, 112, 222, 322, 138, 117, 104, 130, 315, 225, 325, 120, 115, 320, 162, 317, 143, 215, 152, 327, 132, 331, 156, 332, 220, 227, 352, 129]),
  (20005, [100, 101, 400, 127, 152, 200, 125, 225, 103, 207, 130, 327, 115, 227, 162, 362, 252, 215, 143, 332, 220, 107, 120, 315, 128, 325, 330, 117, 232, 153, 320, 156]),
  (20007, [152, 454, 125, 200, 252, 315, 115, 256, 426, 320, 100, 104, 325, 120, 117, 332]),
  (20010, [222, 238, 435, 422, 125, 204, 322, 100, 207, 135, 235, 325, 307, 343, 243, 338, 117, 152, 320, 120, 138, 225, 130, 122, 317, 156, 352, 332, 327, 345]),
  (20011, [125, 327, 425, 325, 225, 426, 227, 352, 330]),
  (20013, [412, 130, 125, 238, 242, 131, 117, 112, 252, 132, 104, 212, 143, 152, 230, 331, 327, 225, 320, 207, 330, 325, 227, 317, 129, 229, 315, 100, 217, 243, 304, 120, 220, 107, 342, 156, 127, 232, 228, 200, 332, 215, 115, 142, 312, 231, 356, 204, 256, 352, 328, 343, 318]),
  (20016, [100, 230, 402, 232, 127, 132, 227, 152, 125, 115, 130, 331, 427, 327, 330, 252, 229, 315, 120, 131, 156, 320, 220, 332, 129, 325, 228, 352, 215, 200, 329]),
  (20018, [452, 225, 222, 152, 125, 252, 156, 104, 320, 256, 130, 115, 325, 227, 117, 232, 120, 435, 315]),
  (20020, [252, 104, 152, 452, 130, 230, 156, 227, 125, 315, 327, 331, 129, 115, 332, 107, 325, 320, 132, 131, 120, 330, 117, 228, 232, 220]),
  (20024, [225, 426, 435, 125, 227, 232, 327, 315, 325, 132]),
  (20025, [230, 130, 227, 127, 427, 225, 125, 327, 417, 330, 332, 325, 252, 426, 132, 129, 315, 131, 229, 115, 331, 232, 320, 215, 120]),
  (20026, [434, 252, 206, 152, 207, 134, 138, 225, 315, 227, 320, 145, 327, 120, 215, 125, 115, 106, 230, 129, 220, 228, 325, 238, 232, 100, 300, 331, 330, 256]),
  (20027, [125, 104, 325, 252, 225, 425, 152, 200, 101, 156, 332, 215, 331, 227, 320, 330, 327, 120, 352, 117, 220, 129, 304, 356, 315, 230, 229, 253]),
  (20029, [200, 327, 227, 427, 130, 127, 262, 230, 315, 229, 329, 125, 330, 131, 225, 325, 129, 402, 215, 132, 332, 454, 252, 328, 320, 228, 100]),
  (20030, [152, 452, 252, 125, 207, 115, 238, 225, 315, 325, 227, 215, 120, 320, 220, 327, 107, 156, 332, 352, 331, 256, 228]),
  (20035, [452, 106, 152, 327, 227, 325, 252, 125, 130, 330, 320, 315, 127]),
  (20037, [400, 222, 200, 238, 152, 207, 107, 343, 204, 325, 243, 227, 315, 320, 327, 115, 215, 162, 322, 120, 220, 143, 252, 352, 201, 100, 129, 127, 132, 230, 225, 130, 330]),
  (20039, [435, 227]),
  (20040, [238, 338, 460, 427, 207, 220, 252, 206, 320, 227, 127, 327]),
  (20041, [225, 125, 252, 426, 227, 325, 327, 427, 220, 232, 204, 230, 215, 330, 120, 256, 315, 130, 115, 200, 132, 332, 331, 100, 152, 431, 320, 229, 131, 352, 129, 228, 356, 156, 329, 127]),
  (20043, [445, 112, 138, 315, 320, 327, 206, 227, 106, 207, 352, 130, 215, 325, 322, 306, 125, 252, 324, 220, 234, 225, 228, 332, 342, 243, 127, 222, 115, 334, 330]),
  (20044, [130, 125, 127, 417, 129, 162, 327, 132, 115, 227, 330, 230, 315, 225, 329, 232, 131, 362, 262, 325, 229, 215, 117, 152, 320, 231]),
  (20045, [407, 452, 130, 315, 120, 227]),
  (20046, [207, 252, 460, 262, 362, 315, 320, 434, 215, 200, 220, 227, 206, 327, 256]),
  (20047, [252, 100, 200, 452, 325, 215, 120, 203, 315, 152, 332, 400, 454]),
  (20048, [225, 125, 100, 325, 400, 200, 127, 256, 227, 230, 252, 152, 331, 130, 315, 332, 327, 330, 320, 215, 232, 243, 115, 229, 452, 162, 129, 132, 220, 120, 352, 204, 362, 262, 343, 231, 228, 317]),
  (20050, [125, 417, 117, 333, 133, 331, 227, 217]),
  (20051, [325, 433, 217, 333, 233, 331]),
  (20052, [127, 227, 125, 427, 327, 129, 130, 115, 332, 229, 329, 426, 152, 117, 128, 132, 330, 131, 104]),
  (20054, [400, 125, 100, 225, 207, 107, 252, 162, 227, 327, 315]),
  (20056, [452, 125, 152, 107, 232, 252, 227, 134, 225, 115, 315, 120, 132, 262, 327, 215, 325, 224, 220, 156, 200, 104, 256, 320, 330]),
  (20057, [125, 425, 325, 332, 227, 327, 132, 120, 122, 225, 422, 104, 423, 128, 317, 328, 232]),
  (20060, [427, 152, 127, 227, 327]),
  (20061, [122, 322, 422, 327, 130, 222, 143, 125, 132, 227, 117, 315, 127, 243, 115, 332, 131, 225, 220, 142, 325, 104, 320, 324, 330, 331, 217, 120, 232, 335, 343, 204, 129, 328]),
  (20062, [152, 125, 252, 130, 315, 225, 156]),
  (20063, [407, 107, 207, 160, 120, 330, 130, 215, 327, 320, 227, 331, 228, 315, 131, 220]),
  (20064, [252, 125, 325, 452, 256, 225, 152, 127, 115, 227, 327, 162, 262, 454, 128, 343, 332, 130, 315, 215, 426, 427]),
  (20065, [425, 225, 125, 252, 230, 142, 330, 222, 325, 215, 238, 227, 220, 315, 327, 232, 120, 332, 320, 229, 104, 422, 256, 322, 129, 328, 331, 130, 329]),
  (20070, [225, 425, 125, 325, 252, 238, 327, 227, 331, 152, 256, 104, 232, 142, 332, 315, 107, 220, 130, 115, 215, 127, 117, 320, 228, 132, 230, 328, 330, 120]),
  (20073, [459, 252])]

/-- hmm/pos/char_state_tab.go:126-189 -/
noncomputable def chars1 : List (Nat × List Nat) := [
  (20080, [452, 152, 252, 125, 325, 330, 230, 156, 315, 320, 327, 127, 256, 120, 329, 129, 220, 115, 104, 331, 332]),
  (20081, [407, 200, 252, 225, 152, 125, 315, 215, 207, 162, 115, 256, 320, 220, 120, 352, 232, 325, 130, 201, 362, 227, 217, 203, 332, 100]),
  (20083, [125, 426, 325, 225, 252, 232, 152, 454, 130, 104, 320, 227, 132, 315, 115, 256, 332]),
  (20094, [417, 127, 143, 327, 227, 125, 426, 132, 117, 130, 315, 230, 228]),
  (20102, [449, 234, 152, 252, 220, 260, 100, 315, 245, 320, 207, 243, 115, 225, 215, 120, 352, 327, 127, 204, 125, 227, 228, 325, 256]),
  (20104, [252, 152, 454, 452, 227, 327, 256, 315, 320, 115, 325, 228]),
  (20105, [225, 256, 152, 232, 452, 156, 325, 125, 252, 220, 227, 115, 327, 107, 320, 215, 315, 100, 120, 162, 330, 352, 131, 217]),
  (20107, [125, 425, 225, 252, 325, 120, 238, 204, 215, 315, 107, 143, 320, 331, 332, 200, 152, 220, 115, 256, 207, 352, 327, 232, 227, 217, 330, 231, 317, 104, 356]),
  (20108, [122, 422, 322, 222, 125, 129, 104, 332, 243, 327, 130, 143, 138, 325, 106, 238, 227, 117, 225, 320, 343, 315, 215, 132, 120, 331, 127, 115, 152, 204, 307, 124, 217, 330, 317, 220, 324, 131, 228, 232, 230]),
  (20109, [459, 225]),
  (20110, [252, 434, 234, 206, 207, 106, 127, 315, 320, 225, 327, 128, 130, 220, 227, 107, 255, 325, 229, 120, 115, 129, 328]),
  (20111, [156, 452, 252, 152, 207, 125, 225, 320, 107, 220, 315, 100, 215]),
  (20113, [425, 130, 227, 225, 125, 327, 127, 230, 330, 315, 152, 252, 132, 325, 131, 117, 215, 262, 232, 220, 320, 120, 332, 229, 115, 129, 328, 142, 228, 331, 145, 245]),
  (20114, [207, 107, 152, 125, 407, 320, 252, 120, 325, 115, 156, 317, 331, 104, 130, 315, 227, 132]),
  (20115, [427, 127, 327]),
  (20116, [122, 322, 422, 125, 225, 222, 143, 243, 117, 130, 132, 115, 315, 104, 129, 327, 227, 124, 343, 120, 127, 325, 320, 330, 220, 332, 317, 156, 331, 228, 232, 131, 217, 215]),
  (20117, [225, 425, 125, 127, 130, 230, 152, 325, 227, 142, 327, 252, 315, 115, 229, 332, 232, 330, 215, 129, 320, 132, 331, 162, 120]),
  (20120, [252, 125, 115, 330]),
  (20122, [230, 130, 417, 125, 227, 327, 330, 127, 232, 229, 129, 331, 325, 117, 332, 131, 132, 352, 329, 225, 217, 317, 328, 228]),
  (20123, [238, 222, 435, 207, 322, 343, 122, 100, 107, 227, 422, 104]),
  (20127, [152, 407, 107, 120, 227]),
  (20129, [252, 454, 152, 256, 452, 325, 215, 225, 125, 220, 115, 332, 315, 320, 120]),
  (20130, [427, 100, 200, 152, 225, 127, 215, 115, 315, 227, 252, 327, 125]),
  (20132, [125, 152, 252, 325, 452, 156, 317, 331, 225, 117, 204, 120, 315, 256, 131, 352, 332, 215, 115, 320, 130, 227, 220, 143, 132, 104, 330, 327, 129, 217, 107, 100]),
  (20133, [332, 330, 222, 322, 320, 143, 315]),
  (20134, [407, 152, 227, 327, 315, 127, 320, 115, 138, 207, 130]),
  (20135, [125, 225, 256, 325, 152, 252, 217, 452, 117, 320, 331, 204, 156, 220, 120, 317, 332, 304, 215, 143, 227, 356, 352, 132, 327, 104, 343, 118, 330, 232]),
  (20136, [129, 427, 227, 327, 225, 330, 127, 315, 152, 130, 229]),
  (20137, [222, 435, 422, 235, 238, 225, 156, 117, 125, 152]),
  (20139, [152, 252, 452, 125, 120, 454, 227, 327, 315, 156, 130, 325, 215, 320]),
  (20140, [230, 417, 331, 130, 330, 125, 132, 252, 325, 227, 232, 327, 117, 332, 225, 131, 229, 228, 129, 217, 328, 315, 317]),
  (20141, [426, 227, 125, 225, 327, 230, 232, 330, 229, 115, 315, 325, 130]),
  (20142, [452, 200, 227, 252, 225, 125, 152, 262, 100, 327, 162, 362, 228, 120, 220, 325, 315, 132, 204, 330, 332, 215, 320]),
  (20146, [225, 125, 107, 452, 100, 152, 252, 327, 104, 227, 325, 120, 215, 315, 256, 320, 204, 115, 162, 362, 220, 200, 343, 232, 156]),
  (20147, [459, 130, 227]),
  (20149, [152, 252, 100]),
  (20154, [425, 225, 125, 238, 325, 229, 315, 252, 227, 330, 200, 331, 320, 120, 204, 117, 115, 215, 131, 132, 107, 256, 220, 232, 327, 104, 332, 322, 228, 317, 130, 152, 240, 135, 352, 217, 122, 156, 300, 121, 343, 329, 304]),
  (20159, [122, 422, 322, 222, 320, 132, 327, 227, 104, 224, 125]),
  (20160, [138, 338, 320, 352, 330, 230, 229, 125, 329, 227, 325, 225, 130, 332, 129, 327, 232]),
  (20161, [227, 327, 426, 127, 225, 125, 130, 215, 252, 100, 315, 232, 330, 115, 230, 332, 331, 129, 325, 200, 229, 320, 329, 120, 402, 132]),
  (20163, [459, 330, 215, 200, 228, 227]),
  (20164, [225, 262, 125]),
  (20165, [407, 206, 207, 107, 152, 307, 320, 120, 315, 115, 227, 327]),
  (20166, [125, 426, 227, 225, 327, 315, 215, 332, 152, 330, 115]),
  (20167, [125, 252, 425, 127, 225, 315, 152, 215, 325, 220, 227, 256, 327, 156, 115, 427, 128]),
  (20169, [427, 327]),
  (20170, [143, 444, 243, 207, 320, 225, 127, 125, 315, 227, 220, 115, 327, 215, 252, 325, 129, 217, 228]),
  (20171, [152, 327, 225, 125, 252, 325, 427, 227, 127, 217, 426, 320, 130, 315, 317, 117, 454, 332, 128, 256, 100]),
  (20173, [407, 107, 252, 227, 327]),
  (20174, [434, 107, 106, 152, 252, 234, 127, 143, 225, 120, 104, 100, 115, 327, 207, 215, 315, 125, 320, 130, 156, 325, 227, 162, 362, 352, 256]),
  (20177, [330, 225, 230, 227, 235, 413, 325, 327, 232, 229]),
  (20179, [125, 427, 252, 426, 227, 325, 225, 101, 230, 127, 327, 100, 117, 156, 152, 162, 215, 330, 232, 130, 132, 229, 320, 115, 104, 129]),
  (20180, [101, 426, 227, 404, 225, 325, 332, 362, 162, 327, 330, 125, 230, 129]),
  (20181, [425, 125, 225, 227, 327, 252, 215]),
  (20182, [438, 138, 238, 125, 120, 338, 340, 325, 230, 156, 225, 330, 252, 320, 142, 220, 327, 115, 332, 315, 132, 152, 331]),
  (20183, [425, 252, 225, 100, 115, 452, 325, 227, 152, 220, 215, 315, 331, 320]),
  (20184, [252, 256, 152, 452, 225, 127, 325, 120, 125, 320, 115, 327, 227, 224, 315, 156, 356, 204]),
  (20185, [426, 125, 225, 227, 327, 130, 325, 330, 132, 252, 315, 332, 215, 152, 232, 120, 320, 230, 115, 131, 328, 220, 129]),
  (20189, [227, 327, 427, 127]),
  (20190, [435, 220, 227, 327, 230]),
  (20191, [422, 322, 122, 227]),
  (20193, [132]),
  (20195, [243, 225, 125, 152, 252, 435, 222, 325, 356, 156, 332, 227, 127, 315, 327, 331, 320, 422, 215, 204, 217, 220, 212, 330, 120, 224, 352, 324, 229, 322, 317, 256, 329, 115, 129, 130, 132, 231, 232, 107, 117, 128, 304, 328]),
  (20196, [225, 452, 129, 325, 252, 120, 227, 125, 327, 206, 320, 115, 315, 230, 215, 127, 220, 235, 330, 304, 229, 331, 128, 232])]

/-- hmm/pos/char_state_tab.go:190-253 -/
noncomputable def chars2 : List (Nat × List Nat) := [
  (20197, [434, 112, 252, 106, 206, 207, 152, 107, 320, 315, 143, 327, 130, 115, 120, 125, 132, 134, 131, 117, 325, 215, 127, 232, 227, 328, 225]),
  (20200, [422, 122, 225, 222]),
  (20202, [125, 225, 227, 426, 232, 327, 419, 127, 130, 325, 132, 117, 252, 120, 115, 315, 331, 320, 215, 229, 156, 228, 330]),
  (20203, [132, 330]),
  (20204, [238, 419, 225, 325, 330, 320, 230, 240, 332, 227]),
  (20208, [225, 452, 252, 152, 107, 120, 127, 227, 130, 315, 125, 256, 325, 115, 327, 320, 156, 220]),
  (20210, [327, 152, 227, 127, 427, 156, 225, 125, 143, 130, 332, 315, 117, 331, 129, 328]),
  (20211, [459]),
  (20213, [125, 427, 127, 459]),
  (20214, [225, 222, 224, 435, 422, 220, 325, 320, 207, 232, 217, 125, 252, 327, 227, 332, 315]),
  (20215, [125, 225, 252, 425, 320, 256, 325, 200, 315, 232, 120, 215, 115, 227, 220, 207, 100, 204, 331, 327, 332, 304, 217]),
  (20219, [452, 225, 252, 138, 125, 152, 127, 325, 220, 107, 204, 222, 227, 128, 104, 100, 115, 315, 327, 215, 422, 156, 331, 320, 130, 120, 228, 256]),
  (20221, [225, 222, 125, 435, 232, 325, 224, 204, 422, 320, 243, 231, 331, 235, 238, 132, 200, 324, 352, 252, 315, 330]),
  (20223, [107, 152, 252, 452, 125, 225, 104, 156, 325, 327, 132, 227, 328, 425]),
  (20225, [125, 426, 317, 152, 217, 325, 225, 417, 320, 327, 227, 332, 117, 331, 304, 315, 104, 156, 256]),
  (20233, [125, 427, 227]),
  (20234, [130, 132, 127, 417, 129, 327, 227, 330, 229, 329, 125, 152, 332, 225, 331, 230, 131, 232, 117, 320, 222, 315]),
  (20237, [225, 127, 252, 422, 227, 325, 327, 122, 427, 322, 129, 330, 329, 130, 222, 125, 230, 128, 220]),
  (20238, [426, 125, 225, 227, 315]),
  (20239, [252, 452, 127, 130, 152, 217, 125, 215, 227, 343, 327, 222, 135, 220, 243, 315, 143, 320, 235, 132, 352, 435, 325, 225, 256, 100, 224, 131, 330, 156, 456, 120, 322]),
  (20240, [225, 452, 252, 330, 217, 325, 332, 227, 327, 152, 315, 215, 125, 256, 156, 456, 220]),
  (20241, [152, 452, 252, 156, 125, 227, 256, 220, 325, 215, 130, 115, 327, 352, 132, 225, 320, 129, 343, 230, 143, 330, 217, 232, 131, 317]),
  (20247, [225, 426, 125, 122, 115, 252, 315, 215, 320, 332, 325, 227, 207, 231, 327, 200, 331, 317, 352, 204, 220, 217, 132, 330, 120, 256, 117, 322, 356, 232, 425]),
  (20248, [125, 100, 152, 156, 104, 162, 402, 352, 204, 120, 325, 252, 207, 227, 115, 320, 217, 215, 225, 327, 129, 315, 132, 228, 317, 220, 256]),
  (20249, [225, 125, 325, 252, 435, 238, 222, 224, 338, 152, 210, 227, 330, 327, 220, 352, 104, 256]),
  (20250, [452, 225, 252, 125, 325, 231, 217, 152, 322, 227, 320, 232, 143, 338, 331, 220, 222, 238, 332, 224, 135, 156, 356, 327, 130, 117, 330, 315, 215, 307, 230, 129, 100, 142, 132, 256, 120, 107, 352]),
  (20251, [152, 452]),
  (20254, [425, 125, 225, 252, 320, 227, 104, 152, 325, 232, 327]),
  (20255, [227, 100, 200, 327, 427, 125, 132, 320, 228, 328, 220, 315]),
  (20256, [125, 152, 452, 156, 256, 252, 325, 327, 225, 227, 220, 232, 215, 100, 204, 320, 331, 120, 115, 315, 132, 304, 104, 332, 229, 117, 228, 143]),
  (20258, [125]),
  (20260, [252, 452, 125, 152, 225, 100, 156, 200, 325, 256, 203, 215, 115, 315, 120, 220, 142, 227, 332, 317, 327, 103, 320]),
  (20261, [215, 125]),
  (20262, [130, 330, 227, 327, 125, 230, 427, 127, 331, 315, 229, 131, 225, 129, 426, 262, 332, 329, 232, 215, 252, 325, 120, 220, 152, 228, 135]),
  (20263, [252, 459, 228]),
  (20266, [125, 417, 152, 256, 200, 225, 252, 217, 130, 320, 117, 317, 227, 104, 325, 315, 327]),
  (20267, [152, 454, 227]),
  (20271, [327, 127, 230, 227, 330, 125, 225, 427, 325, 332, 130, 426, 329, 129, 232, 331, 229, 328, 228, 131, 115, 132]),
  (20272, [125, 152, 256, 252, 452, 325, 320, 327, 225, 229, 156, 227]),
  (20276, [152, 225, 452, 252, 125, 325, 227, 156, 327, 232]),
  (20278, [100, 315, 225, 130, 115, 330, 362, 262, 327, 320, 332]),
  (20280, [152, 252, 452, 227, 115, 125, 327, 104, 156, 215, 325, 225, 320, 228, 100, 132, 315]),
  (20282, [152, 107, 156, 252, 132]),
  (20284, [107, 252, 145, 200, 407, 454, 315, 325, 115, 120, 327, 227, 320, 352]),
  (20285, [127, 225, 129, 125, 130, 332, 325]),
  (20291, [125, 452, 252, 325, 227, 327, 225]),
  (20294, [406, 106, 206, 127, 152, 107, 129, 330, 125, 115, 120]),
  (20301, [225, 222, 152, 435, 125, 252, 241, 238, 422, 256, 325, 204, 320, 224, 127, 220, 227, 331, 120, 315, 215, 115, 317, 327, 207, 332, 130, 236, 232, 217]),
  (20302, [400, 252, 152, 125, 200, 100, 225, 107, 325, 104, 142, 317, 204, 214, 115, 362, 342, 103, 117, 132, 120, 162, 215, 101, 320, 304, 262, 217, 220, 315]),
  (20303, [452, 252, 125, 152, 207, 325, 200, 215, 352, 256, 220, 320, 315, 227, 132, 217, 317, 131, 304, 117, 156, 327, 331]),
  (20304, [454, 252, 227, 327, 125, 129, 152, 130, 225, 156, 330, 127, 229, 329, 131, 228, 232]),
  (20305, [252, 232, 228, 152, 256]),
  (20307, [225, 125, 200, 152, 425, 426, 142, 325, 356, 207, 320, 204, 252, 327, 227, 156, 220, 127, 217, 306, 100, 307, 232, 315, 331, 231, 215, 352, 304, 117, 330, 120, 115, 332, 162, 362, 256, 132, 143, 317]),
  (20309, [238, 138, 438, 107, 127, 106, 225, 220, 338, 152, 215, 125, 320, 252, 325, 227, 315, 115, 207, 327, 100, 128, 330, 120, 129, 228, 130, 332, 132]),
  (20311, [227, 413, 228, 332]),
  (20312, [127, 427, 130]),
  (20313, [122, 422, 238, 322, 320, 222, 125, 127, 225, 252, 325, 200, 204, 130, 256, 152, 315, 215, 128, 227, 230, 138, 327, 220, 330, 129, 332, 243, 331, 120, 115, 156]),
  (20314, [454, 252, 125, 227, 225, 215, 327]),
  (20315, [132, 125, 425, 207, 130, 225, 252, 227, 331, 325, 327, 330, 332, 230, 229, 129, 215, 320, 232, 131, 315, 115, 329]),
  (20316, [256, 125, 152, 252, 452, 225, 325, 320, 315, 327, 230, 220, 215, 331, 115, 352, 117, 330, 227, 156, 200, 217, 132, 328, 332, 131, 204, 356, 104, 304]),
  (20317, [125, 152]),
  (20318, [225, 125, 200]),
  (20319, [127, 427, 227]),
  (20320, [438, 138, 120, 115, 204, 320, 227, 327, 125, 304, 220, 325])]

/-- hmm/pos/char_state_tab.go:254-317 -/
noncomputable def chars3 : List (Nat × List Nat) := [
  (20323, [125, 252, 426, 320, 325, 256, 225, 327]),
  (20324, [132, 417, 330, 229]),
  (20325, [413, 227, 325, 125]),
  (20329, [152, 327, 127, 252, 452, 227, 129, 125, 331, 330, 225, 130, 220, 329, 229, 132]),
  (20332, [426, 232, 332, 225, 220, 330, 227, 325]),
  (20335, [152, 252]),
  (20336, [327, 227, 422, 322, 122, 222, 332]),
  (20339, [262, 400, 125, 227, 327, 200, 217, 130, 252, 132, 315, 232, 131, 143, 325, 320, 229, 331, 115, 328]),
  (20342, [227, 413, 115, 327]),
  (20347, [200, 413]),
  (20348, [125, 325]),
  (20350, [413]),
  (20351, [452, 152, 252, 206, 225, 125, 227, 120, 325, 200, 315, 215, 327, 331, 320, 107, 232, 352, 204]),
  (20355, [252, 452, 227, 115, 315, 207, 327, 107, 120, 152, 328]),
  (20356, [125, 225, 325]),
  (20360, [325, 200, 454, 215, 152, 320, 100, 227]),
  (20361, [125]),
  (20363, [225, 152, 425, 125, 422, 207, 222, 252, 320, 325, 156, 215, 115, 224, 304, 220, 256, 227]),
  (20365, [125, 427, 127, 152, 252, 225, 327, 454, 325]),
  (20367, [143, 125, 127, 104]),
  (20369, [413, 227, 327]),
  (20372, [227, 413]),
  (20375, [417, 132, 227, 330, 327, 125]),
  (20379, [252, 156, 452, 125, 152, 120, 115, 320, 325, 225, 215, 117, 131, 317, 227, 204, 331]),
  (20381, [107, 152, 452, 125, 227, 162, 327, 134, 252, 127, 315, 120, 115, 262, 232, 330, 332, 130, 230, 220, 156, 132, 256, 329, 320, 331, 215, 225, 100, 129]),
  (20384, [227, 225, 427, 125, 325, 100, 426, 332, 327, 115, 320]),
  (20387, [225, 332, 125, 325]),
  (20389, [100, 101]),
  (20390, [152, 125, 454, 217, 156, 120, 332, 227, 252, 325, 132, 327]),
  (20391, [212, 452, 112, 125, 152, 225, 107, 215, 156, 242, 132, 252, 327, 315, 115, 435, 325]),
  (20392, [225, 125, 426, 152, 325, 417, 331, 132, 227, 217, 117, 427, 330, 327]),
  (20393, [225, 413, 325]),
  (20394, [225, 125, 413, 238, 327]),
  (20396, [413, 227, 229]),
  (20398, [152, 252, 454, 225, 125, 132, 256]),
  (20399, [127, 227, 225, 427, 327, 325, 426, 125, 130, 129, 230, 330, 215, 128, 120, 220]),
  (20405, [152, 252, 454, 156, 125, 325, 227, 320, 132, 130, 332]),
  (20415, [407, 152, 200, 100, 206, 207, 201, 252, 225, 125, 227, 122, 104, 320, 325, 362, 262, 156, 160, 220, 352, 315, 215, 330, 327, 115, 143, 322, 130, 232, 120]),
  (20419, [152, 252, 452, 200, 156, 125, 331, 201, 315, 100, 225, 132, 115, 317, 227, 120, 217]),
  (20420, [130, 417, 330, 230, 125, 117, 131, 132, 217, 107, 104, 331, 327, 325, 229]),
  (20421, [459, 227, 327]),
  (20426, [327, 227, 427, 400, 100, 200, 315, 125, 127, 225, 132, 162, 328, 115, 129]),
  (20430, [427, 315, 225, 215, 327]),
  (20431, [400, 200, 452, 100, 125, 215, 227, 252, 152, 325, 327, 162]),
  (20432, [200, 227, 215, 459, 315, 327, 220]),
  (20433, [426, 225, 325, 227, 125, 330]),
  (20439, [225, 200, 400, 152, 125, 120, 215, 252, 325, 315, 352, 100, 320, 227, 327, 115, 356, 220]),
  (20440, [125, 252, 452, 152, 225, 256, 325]),
  (20442, [125, 200]),
  (20444, [459]),
  (20445, [152, 125, 452, 217, 252, 256, 325, 227, 156, 100, 130, 327, 127, 132, 129, 320, 225, 331, 232, 330, 107, 117, 120, 128, 317, 315, 104, 229, 131, 230, 115, 207, 332, 220]),
  (20446, [127, 427, 327, 227, 128]),
  (20447, [459, 327, 229]),
  (20449, [125, 425, 252, 225, 152, 256, 227, 331, 232, 217, 325, 127, 200, 327, 130, 132, 315, 156, 115, 215, 231, 320, 332, 228, 131, 104, 229, 220, 107, 238, 120, 129, 317, 230, 117, 304, 330]),
  (20451, [459, 325, 327, 227]),
  (20454, [413, 227]),
  (20456, [152]),
  (20457, [422, 238, 225, 122, 222, 215, 322]),
  (20458, [225, 413, 227, 327]),
  (20461, [227, 200, 402, 315, 320, 100, 152, 327, 201, 215]),
  (20462, [152, 452, 252, 125, 256, 127, 227, 156, 327, 325, 130, 100, 228, 332, 217, 220, 229, 315, 120, 129, 330, 352, 115, 317, 132, 320, 225]),
  (20463, [152, 452, 115, 125, 227, 120, 320]),
  (20465, [409, 125, 315, 152, 320, 100, 227, 327, 331, 232, 317, 332]),
  (20467, [426, 125, 227])]

/-- hmm/pos/char_state_tab.go:318-381 -/
noncomputable def chars4 : List (Nat × List Nat) := [
  (20472, [427, 125, 225, 327, 227]),
  (20474, [438, 138, 227]),
  (20478, [129, 454, 130]),
  (20492, [413, 225]),
  (20493, [422, 222, 435, 125, 152, 207, 325, 107, 215, 327, 204, 220, 227, 127, 304, 132, 332, 315, 225, 322, 320]),
  (20495, [107, 409]),
  (20498, [452, 152, 252, 207, 125, 100, 315, 120, 215, 107, 320, 325, 115, 200, 256, 106, 225, 220, 156, 130, 327, 153, 352, 332, 362, 262]),
  (20500, [100, 400]),
  (20504, [106, 406, 152]),
  (20505, [225, 252, 238, 220, 452, 207, 125, 104, 325, 256, 120, 152, 127, 227, 243, 204, 327, 331, 156, 332, 232]),
  (20506, [452, 152, 227, 215, 252, 115, 327, 220, 125, 315]),
  (20508, [227, 459, 315, 100, 327]),
  (20511, [152, 452, 125, 234, 252, 134, 107, 156, 115, 120, 334, 325, 320, 215, 256, 315]),
  (20513, [252, 152, 454, 125, 320, 325, 227, 327]),
  (20517, [100, 315, 459]),
  (20518, [200, 400, 252, 100, 125, 215]),
  (20520, [402, 100, 413, 315]),
  (20521, [227, 452, 327, 125, 427, 315]),
  (20522, [127, 427, 225, 227, 220, 459, 327, 128]),
  (20524, [413, 227, 327]),
  (20525, [426, 125, 252]),
  (20526, [413]),
  (20538, [125, 425, 225, 252, 256, 325, 115, 220, 320, 331, 120, 315]),
  (20540, [225, 252, 425, 152, 220, 325, 125, 100, 156, 320, 256, 120, 200, 315, 227, 215, 217, 452, 331, 327, 352, 332, 204]),
  (20542, [152, 125, 452, 352, 325, 204, 115, 315, 156, 320, 327, 162, 107, 215, 227, 120, 332]),
  (20547, [130, 115, 329, 125, 152]),
  (20551, [400, 125, 152, 225, 252, 106, 200, 143, 343, 243, 156, 315, 325, 320, 215, 104, 220, 120, 117, 115, 256, 162, 317, 227, 217, 327, 132, 331]),
  (20552, [413, 125, 227]),
  (20556, [104, 438, 227]),
  (20558, [452, 252, 152, 227, 220, 115, 315]),
  (20559, [407, 400, 125, 152, 107, 207, 100, 112, 315, 103, 325, 320, 132, 156, 162, 130, 115, 252, 225, 104, 120, 332]),
  (20565, [454, 152, 315, 330, 327]),
  (20570, [452, 152, 252, 125, 352, 320, 215, 315, 115, 100, 220, 227, 325, 120, 327]),
  (20572, [152, 452, 252, 207, 125, 325, 352, 100, 115, 315, 156, 227, 220, 120, 327, 317, 320, 225, 256, 356, 162, 362]),
  (20581, [100, 200, 152, 227, 427, 225, 452, 125, 201, 325, 327, 156, 252, 320, 132, 332, 232, 315, 228, 162, 362, 120, 130, 107, 331, 131, 304]),
  (20588, [200, 215, 459]),
  (20598, [107, 100, 225, 125, 407, 425, 252, 215, 101, 325, 104, 327, 152, 227, 115, 220, 217, 332, 320, 232, 132, 156]),
  (20599, [452, 152, 107, 207, 115, 225, 315, 156, 125, 117, 120, 153, 320, 215]),
  (20603, [252, 325, 225, 459]),
  (20606, [413]),
  (20607, [256, 252, 152, 207, 325, 454, 215, 125, 315, 426, 156, 332, 320, 204]),
  (20608, [125, 327]),
  (20613, [225, 127, 427, 227, 232, 327, 128, 315, 130, 320, 152]),
  (20616, [132, 427, 330, 227]),
  (20621, [143, 452, 315, 252, 227, 456, 115]),
  (20643, [132, 417, 330, 125]),
  (20645, [215, 406, 200]),
  (20647, [125]),
  (20648, [125, 156, 217, 452, 152, 252, 256, 325, 127, 331, 225, 317, 327, 232, 120, 227, 454, 117, 132, 304, 332]),
  (20649, [413, 125]),
  (20652, [152, 452, 125, 156, 115, 132, 327, 120, 356, 227]),
  (20658, [200, 400, 100, 227, 107, 152, 125, 215, 127, 315, 115, 252, 327, 120, 220]),
  (20666, [459]),
  (20667, [400, 125, 152, 162, 120, 252, 200, 315, 215, 220, 115, 227, 327, 362]),
  (20687, [452, 252, 225, 152, 325, 256, 207, 125, 100, 200, 300, 320, 120, 332, 132, 327, 315, 232, 229]),
  (20694, [413, 327, 129, 227, 329]),
  (20698, [225, 125, 320, 325, 356]),
  (20710, [413]),
  (20711, [227, 425, 125, 225, 327, 232, 117, 229, 115, 127, 426, 320, 132, 325, 315]),
  (20716, [459]),
  (20717, [413]),
  (20718, [225, 125]),
  (20723, [232, 332, 330, 459]),
  (20725, [125, 400, 152, 100, 162, 252, 320, 156, 200, 215, 401, 325, 327, 225, 362, 262])]

/-- hmm/pos/char_state_tab.go:382-445 -/
noncomputable def chars5 : List (Nat × List Nat) := [
  (20731, [200, 402, 100, 125, 315, 325, 327]),
  (20742, [413, 315, 352, 152, 227]),
  (20743, [413]),
  (20747, [130, 413, 227]),
  (20754, [125, 227, 426, 417, 327, 132, 225, 162, 215, 325, 315, 228, 328, 120, 220]),
  (20769, [225, 325, 459, 227]),
  (20799, [225, 425, 125, 238, 227, 222, 207, 325, 243, 252, 220, 235, 327, 343, 320, 330, 262, 200, 322, 232, 332, 143, 120, 224, 426, 315, 215, 131, 331, 115, 229, 242, 132, 217, 212, 152, 117, 352, 204, 233, 333, 317]),
  (20800, [402, 107, 252, 327, 227, 125, 325]),
  (20801, [152, 454, 227, 200, 252, 327, 127, 100, 220, 125, 115, 315, 256]),
  (20803, [222, 422, 235, 435, 225, 143, 125, 343, 327, 325, 127, 227, 232, 356, 132, 252, 320, 130, 243, 228, 204, 230, 330, 229, 100, 129, 332, 352, 215, 328, 135, 331]),
  (20804, [125, 225, 426, 227, 327, 325, 320, 317, 331, 115, 120]),
  (20805, [101, 152, 252, 100, 125, 452, 227, 107, 230, 325, 327, 320, 115, 315, 120, 132, 330, 156, 256, 104, 352]),
  (20806, [327, 422, 225, 135, 227, 232, 454, 125, 215, 132, 332, 222, 426, 328, 325, 136, 152]),
  (20808, [407, 125, 207, 107, 100, 327, 256, 252, 143, 152, 225, 227, 325, 104, 315, 115, 243, 220, 215, 320, 112, 135, 317, 228, 117, 331, 120, 130, 132, 217, 304, 229]),
  (20809, [225, 125, 425, 227, 252, 327, 152, 325, 100, 232, 315, 117, 206, 115, 256, 127, 162, 332, 230, 320, 120, 107, 131, 262, 132, 204, 329, 331, 243, 215, 130, 156, 122, 220, 328, 104, 322, 135, 200, 129, 330, 229, 362, 352, 300, 228, 317, 217, 128, 231, 143]),
  (20811, [327, 227, 225, 435, 330, 230, 325, 422, 222, 229, 127, 232, 152, 235, 129, 130, 332, 252, 329, 132, 135, 125, 331, 231, 115, 131, 328, 304, 215, 122, 200, 228, 315, 352, 322, 156, 256, 320, 204]),
  (20813, [252, 152, 207, 452, 125, 206, 220, 156, 215, 325, 256, 320, 107, 104, 227, 317, 315, 352, 115, 132, 120, 327]),
  (20817, [452, 152, 252, 256, 125, 227, 156, 325, 220]),
  (20820, [426, 125, 225, 227, 325, 215, 115, 327, 315, 252, 320, 120, 243, 143, 132]),
  (20821, [413, 227]),
  (20822, [130, 413, 132, 327, 117, 227, 131]),
  (20826, [225, 425, 125, 231, 325, 131, 331, 142, 252, 117, 238, 132, 127, 227, 230, 217, 232, 332, 320, 120, 315, 115, 215, 130, 256, 327, 304]),
  (20828, [452, 152, 225, 142, 125, 320, 325, 227, 222, 425, 422, 232, 322, 252]),
  (20834, [315, 215, 362, 262, 115, 228]),
  (20837, [252, 225, 452, 152, 125, 315, 325, 130, 227, 215, 320, 256, 220, 317, 327, 129, 115, 100, 217, 156, 332, 120, 304, 331, 117, 352]),
  (20840, [125, 400, 201, 122, 203, 101, 107, 252, 325, 104, 131, 200, 127, 132, 227, 115, 317, 315, 156, 327, 331, 120, 332, 215, 152, 320, 225, 220, 232, 117, 362, 262, 328, 322, 130, 230, 228, 129, 343, 330, 304]),
  (20843, [122, 322, 125, 422, 222, 315, 143, 117, 320, 325, 225, 130, 243, 327, 332, 215, 132, 120, 115, 104, 131, 330, 331, 227, 124, 304, 343, 335, 142, 362, 232, 129, 317]),
  (20844, [125, 325, 152, 101, 322, 135, 143, 104, 225, 426, 227, 335, 331, 122, 127, 327, 100, 256, 320, 404, 330, 156, 107, 315, 131, 115, 217, 332, 200, 120, 304, 252, 130, 215, 117, 207, 132, 317, 220, 356, 238, 438, 230, 232, 352, 229, 129, 328, 204, 103]),
  (20845, [122, 322, 422, 222, 125, 143, 130, 243, 117, 315, 327, 330, 115, 227, 132, 229, 320, 317, 104, 325, 331, 329, 220, 332, 230, 232, 124, 225, 128, 142, 215]),
  (20846, [460, 227, 362, 262, 215, 320, 327, 220]),
  (20848, [230, 227, 330, 327, 332, 127, 417, 325, 130, 225, 331, 125, 129, 232, 229, 329, 132, 427, 228, 131, 217, 135, 426, 322, 117, 152, 315, 122, 215]),
  (20849, [407, 125, 107, 331, 330, 152, 204, 217, 207, 325, 252, 320, 120, 315, 317, 104, 332, 327, 117, 132, 156, 131, 130, 215, 220, 227, 115, 225]),
  (20851, [125, 152, 252, 256, 134, 225, 452, 230, 127, 320, 130, 156, 325, 330, 220, 227, 112, 327, 142, 315, 215, 131, 243, 425, 231, 117, 331, 132, 128, 332, 120, 100, 304, 352, 204, 217, 115]),
  (20852, [152, 200, 204, 125, 452, 252, 230, 227, 130, 330, 327, 100, 256, 115, 220, 331, 225, 315, 232, 162, 325, 207, 320, 107, 117, 229, 120, 362, 132, 262, 127, 228, 231, 129, 317, 332, 131, 328, 201, 215]),
  (20853, [225, 425, 125, 252, 227, 325, 256, 315, 327, 115, 152, 232, 215, 332, 120, 317, 352, 330, 231, 217, 331, 320, 130, 131, 220, 228, 156, 356]),
  (20854, [438, 138, 207, 107, 206, 106, 315, 230, 112, 327, 143, 227, 330, 325, 320, 140, 307, 125, 115, 132, 306, 352, 332, 120, 328, 225, 331, 204, 228, 127]),
  (20855, [152, 225, 100, 454, 252, 222, 320, 220, 422, 325, 315, 106, 125, 327, 332, 227, 120, 232, 115, 330, 215, 352]),
  (20856, [125, 225, 230, 204, 426, 325, 227, 100, 152, 327, 331, 315, 332, 252, 215, 330, 156, 232]),
  (20857, [227, 327, 330, 439, 230, 235, 129, 229, 232, 329, 331, 115, 215, 315, 125, 225]),
  (20859, [252, 225, 452, 152, 156, 125, 325, 127, 327, 320, 256, 315, 115, 227, 120, 332, 100, 215, 352, 117, 304, 132, 220, 129, 331, 130, 317]),
  (20860, [452, 152, 315, 115, 320, 227, 252, 125, 327, 156, 207, 120, 215, 317]),
  (20861, [225, 426, 125, 227, 215, 315, 327, 325, 252, 132, 120, 220]),
  (20864, [130, 417, 127, 317, 427, 331, 252, 131, 217, 227, 330, 327, 125, 256, 117, 225, 132]),
  (20869, [412, 242, 125, 112, 212, 142, 325, 130, 245, 225, 342, 243, 330, 152, 104, 127, 232, 327, 100, 230, 229, 207, 332, 227, 129, 204, 115, 317, 131, 238, 156, 117, 320, 312, 217, 331, 329, 220, 252, 315, 307, 215, 256, 120, 200, 132, 162]),
  (20872, [230, 330, 130, 225, 229, 132, 129, 232, 127, 125, 325, 227, 329, 331]),
  (20873, [127, 207, 107, 227, 427, 327, 463]),
  (20876, [252, 225, 435, 222, 152, 325, 422, 125, 220, 227, 331, 327, 215, 217, 232, 130]),
  (20877, [407, 107, 207, 152, 106, 327, 115, 315, 125, 120, 227, 129, 215, 320, 325, 156, 332, 117]),
  (20882, [452, 152, 252, 125, 256, 100, 315, 115, 156, 325, 225, 362, 162, 320, 153, 317, 104, 356, 220, 227]),
  (20885, [252, 426, 225, 315, 227, 129, 130, 325, 327, 125]),
  (20887, [402, 100, 125, 200, 207]),
  (20889, [452, 152, 252, 125, 225, 325, 215, 156, 204, 227, 256, 217, 352, 315, 327, 332, 132]),
  (20891, [225, 125, 425, 227, 252, 217, 231, 331, 327, 142, 104, 325, 315, 117, 320, 120, 228, 256, 131, 215, 130, 152, 330, 115, 220, 304, 156, 317, 332, 232, 352, 343, 229, 132]),
  (20892, [125, 426, 117, 225, 331, 325, 127, 132, 120, 232, 131, 227, 252, 217, 152, 204, 332, 304, 327, 330, 104, 317, 320, 229, 130, 256, 220, 230, 129, 215, 315]),
  (20896, [125, 452, 225, 327, 227, 152, 120, 315, 115, 252, 325, 132, 215, 204, 217, 320, 117, 332, 232, 328, 130, 417, 220, 330, 104, 156]),
  (20898, [426, 327, 225, 229, 227, 115]),
  (20900, [125, 452, 152, 252, 315, 117, 115, 225, 215, 320, 120]),
  (20901, [426, 125, 120, 320, 200, 156, 227, 115, 100, 327, 315, 152, 252]),
  (20908, [143, 444, 125, 252, 243, 152, 227, 225, 327, 117, 127, 120, 343, 320, 129, 130, 220, 104, 325, 132, 330, 315, 233, 156, 352, 100, 333, 262, 328, 332]),
  (20911, [127, 427, 422, 227, 327, 128, 130, 229, 315]),
  (20912, [125, 425, 327, 227, 162, 143, 330, 252, 152, 325, 225, 127, 130, 256, 142, 115, 362, 262, 215, 131, 129, 315, 132, 228, 343, 320, 331]),
  (20914, [452, 156, 152, 125, 225, 227, 252, 100, 134, 256, 215, 362, 262, 327, 315, 162, 325, 130, 230, 115, 228, 328, 132, 332, 120, 232, 103, 352, 330]),
  (20915, [152, 252, 125, 407, 201, 256, 107, 452, 325, 352, 156, 215, 320, 115, 220, 200, 227, 315, 204, 327, 454, 317, 120, 332]),
  (20917, [225, 206, 106, 220, 427, 127, 315, 320, 227, 325, 107, 426, 125, 327, 215, 331])]

/-- hmm/pos/char_state_tab.go:446-509 -/
noncomputable def chars6 : List (Nat × List Nat) := [
  (20918, [125, 217, 152, 454, 230, 327, 227, 252, 156, 330, 200, 331, 225, 256, 320, 328, 131, 100]),
  (20919, [400, 125, 152, 100, 200, 127, 156, 262, 162, 227, 107, 230, 320, 252, 362, 225, 256, 325, 103, 115, 130, 327, 204, 352, 215, 143, 332, 315, 132, 117, 120, 217, 129, 104, 330, 307]),
  (20923, [152, 452, 252, 125, 225, 256, 325, 343, 215, 327, 315, 320, 220, 227, 104, 332]),
  (20924, [127, 427, 128]),
  (20925, [200, 227, 413]),
  (20928, [125, 400, 200, 152, 252, 325, 362, 262, 215, 227, 332, 330, 220, 315, 162, 327, 320, 130, 100, 232, 225, 132]),
  (20932, [100, 402, 162, 103, 200, 115, 362, 315, 215, 262]),
  (20934, [152, 225, 252, 400, 125, 100, 130, 325, 356, 332, 227, 320, 352, 200, 107, 156, 343, 331, 207, 132, 327, 204, 120, 101, 228, 117, 217, 215, 307, 315]),
  (20935, [459, 225, 227, 327]),
  (20937, [452, 200, 125, 227, 100, 262, 252, 327, 129, 330, 130, 230, 203, 162, 220, 325, 152, 132, 215, 243, 362, 417, 320, 225, 400, 156]),
  (20939, [152, 100, 454, 315]),
  (20940, [127, 143, 152, 100, 427, 227, 327, 252, 225, 330, 130, 315, 132, 230, 156, 256, 454, 125, 320, 128, 362, 232, 262, 332, 426, 129, 328, 120]),
  (20943, [152, 252, 156, 452, 125, 256, 315, 117, 215, 325, 132, 120, 220, 332]),
  (20945, [452, 152, 200, 100, 252, 304, 215, 227, 362, 162, 101, 256, 220]),
  (20955, [162, 315, 215, 262, 100, 327]),
  (20957, [152, 325, 454, 125, 100, 256, 127, 227, 327, 132, 252, 315, 162, 120, 156, 225, 332, 200]),
  (20960, [122, 107, 322, 422, 125, 130, 138, 222, 225, 327, 215, 330, 120, 220, 320, 206, 315, 238, 207, 124, 115, 227, 325, 229, 117, 152, 324]),
  (20961, [407, 107, 262, 125, 227, 207, 130, 200, 127, 327, 230, 220, 252, 229, 315, 320, 115, 142, 215, 317, 129, 329, 122, 362, 100, 120, 325]),
  (20964, [127, 327, 125, 227, 130, 426, 427, 225, 132, 325, 115, 315, 230, 215, 232, 129, 332, 330, 229, 320]),
  (20971, [152]),
  (20973, [434, 134, 125, 252, 107, 225, 152, 130, 215, 227, 315, 327, 104, 115, 325, 320]),
  (20975, [227, 127, 129, 427, 327, 125, 132, 152, 130, 330, 232, 426, 115, 252, 230, 228, 325, 329, 229]),
  (20976, [225, 330, 426, 332, 227, 220, 325, 232, 315, 327, 459]),
  (20979, [225, 426, 125, 227, 220]),
  (20982, [400, 100, 125, 225, 252, 115, 315, 103, 152, 101, 162, 320, 156]),
  (20984, [152, 402, 125, 454, 225, 320, 332, 120, 100, 156, 327, 325, 227, 315]),
  (20985, [400, 152, 125, 225, 120, 132, 200, 227, 156, 320, 228]),
  (20986, [152, 252, 452, 156, 125, 200, 225, 100, 222, 115, 356, 315, 215, 325, 331, 256, 120, 320, 352, 117, 157, 122, 220, 322, 300, 104, 317, 422, 327, 227, 132, 129, 332, 204]),
  (20987, [252, 256, 152, 325, 454, 215, 204, 320, 225, 220, 227, 327, 315, 125, 156, 232, 115, 331]),
  (20988, [413, 130, 327, 227]),
  (20989, [125, 425, 225, 320, 252, 325, 227, 152, 156, 327, 117, 331, 315]),
  (20991, [452, 252, 200, 152, 125, 315, 215, 220, 225, 227, 115, 320, 120]),
  (20992, [425, 225, 125, 222, 252, 315, 115, 227, 325, 352, 327, 320, 215, 220, 104, 232, 422, 332, 435, 330, 128, 120]),
  (20993, [127, 400, 100, 152, 125, 115, 252, 427, 325, 227, 320, 128, 156]),
  (20995, [426, 225, 315, 325, 215, 125, 227, 327, 152, 252]),
  (20998, [152, 225, 156, 125, 435, 107, 222, 207, 325, 201, 252, 422, 220, 322, 122, 320, 224, 315, 135, 104, 120, 324, 100, 115, 200, 235, 227, 256, 130, 331, 327, 243, 215, 117, 300, 352, 132, 229, 204, 332, 142, 217, 129, 362, 262, 335]),
  (20999, [238, 201, 200, 152, 452, 101, 125, 252, 107, 315, 256, 215, 120, 327, 156, 325, 129, 227, 320, 225, 207, 362, 262, 115, 220, 130, 104, 132, 329, 230, 162, 100, 330, 131, 332, 229, 232, 127]),
  (21000, [454, 152, 227]),
  (21002, [225, 152, 125, 252, 426, 238, 454, 325, 227, 320, 327, 232, 117, 332]),
  (21005, [252, 152, 325, 125]),
  (21006, [252, 413]),
  (21009, [125, 425, 225, 252, 104, 117, 220, 127, 120, 325, 115, 315, 256, 215, 132, 152, 327, 331, 332]),
  (21010, [225, 152, 252, 452, 325, 320, 100, 104, 125, 232, 331, 315, 256, 220, 207, 217, 227, 304, 352, 204, 120, 156, 228, 115, 327, 332]),
  (21014, [413]),
  (21015, [222, 252, 452, 152, 225, 235, 125, 325, 204, 230, 127, 327, 330, 156, 130, 227, 129, 315, 422, 329, 352, 217, 220, 115, 331, 320, 229, 131, 122, 356, 256, 304, 135, 322, 332]),
  (21016, [127, 427, 128, 327, 227, 130, 125, 129, 131, 132, 117, 230, 330]),
  (21017, [407, 225, 206, 222, 327, 200, 307, 227, 252, 422, 325, 320, 230, 315, 330, 215, 145, 120, 128, 201, 220, 328, 329, 204]),
  (21018, [407, 107, 207, 143, 227, 125, 225, 100, 325, 130, 327, 115, 127, 215, 228, 330, 103, 200, 320, 315, 230, 131]),
  (21019, [125, 152, 156, 225, 454, 252, 117, 256, 325, 132, 232, 227, 217, 131, 332, 320, 327, 331, 315, 115, 317, 104, 204]),
  (21021, [412, 243, 107, 112, 207, 143, 125, 152, 104, 227, 204, 120, 127, 327, 343, 156, 315, 115, 232, 325, 252, 220, 332, 238, 224, 215, 320, 117, 228, 132, 217, 317]),
  (21024, [152, 452, 252, 115, 156, 125, 227]),
  (21028, [152, 256, 252, 452, 156, 125, 325, 225, 115, 220, 327, 227, 332]),
  (21032, [452, 125, 115, 152, 225, 325, 132]),
  (21033, [125, 225, 152, 330, 325, 230, 200, 425, 352, 256, 327, 227, 252, 100, 201, 127, 232, 320, 229, 130, 332, 220, 331, 315, 329, 129, 215, 132, 304, 356, 204, 120, 115, 131, 228, 217, 328, 362, 162, 231, 156, 343]),
  (21035, [207, 138, 407, 225, 252, 200, 125, 152, 330, 127, 100, 325, 115, 215, 352, 315, 106, 120, 256, 104, 332, 227, 327, 132, 107, 356, 320, 129, 331, 230, 162, 362, 220, 130, 329]),
  (21037, [413, 227]),
  (21038, [452, 152, 252, 125, 115, 325, 156, 315, 362, 132, 162, 225, 120, 262]),
  (21040, [452, 252, 107, 152, 220, 156, 320, 120, 315, 200, 256, 215, 125, 327, 325, 332, 317, 227]),
  (21043, [413]),
  (21046, [252, 152, 125, 225, 452, 256, 325, 156, 320, 204, 315, 227, 352, 217, 331, 304, 220, 232, 327, 332, 132, 317, 356, 215, 129, 200, 120, 307]),
  (21047, [252, 152, 452, 256, 325, 362, 262, 125, 225, 220, 162, 133, 332, 132]),
  (21048, [225, 125, 325, 331, 426, 231, 352, 232, 220, 332, 330, 320, 215, 317]),
  (21049, [143, 125, 452, 343, 225, 152, 320, 330, 227, 229, 252, 332]),
  (21050, [152, 452, 125, 252, 225, 100, 256, 162, 325, 320, 227, 327, 130, 315, 133, 352, 132, 220, 332, 232, 156])]

/-- hmm/pos/char_state_tab.go:510-573 -/
noncomputable def chars7 : List (Nat × List Nat) := [
  (21051, [207, 225, 222, 200, 452, 238, 152, 125, 252, 215, 107, 343, 100, 115, 322, 325, 101, 220, 320, 315, 324, 227, 243, 156, 256, 129, 135]),
  (21053, [125]),
  (21055, [413]),
  (21056, [227, 459, 327]),
  (21057, [452, 152]),
  (21058, [225, 426, 125, 435, 232, 252, 325, 227, 320]),
  (21059, [452, 156, 125, 152, 325]),
  (21066, [152, 252, 452, 325, 200, 100, 204, 125, 115, 256, 227, 120, 225, 327, 332, 232, 104]),
  (21068, [452, 327, 233]),
  (21069, [412, 243, 212, 125, 112, 152, 252, 242, 143, 138, 142, 115, 200, 315, 227, 320, 104, 120, 207, 230, 215, 327, 204, 325, 117, 220, 130, 132, 229, 312, 330, 228, 342, 225, 129, 343, 332, 352, 201, 331, 256, 306, 131, 232]),
  (21072, [452, 215]),
  (21073, [425, 225, 227, 327, 125, 130, 131, 252, 232, 215, 256, 331, 315, 115, 220, 132, 325, 320, 328, 228, 127, 129]),
  (21076, [152, 252, 452, 315, 425, 220, 125, 100, 115, 132]),
  (21078, [152, 325, 125, 252, 452, 156, 215, 320, 115, 227, 327]),
  (21084, [452, 115]),
  (21086, [459]),
  (21089, [452, 130, 227]),
  (21093, [152, 452, 125, 252, 256, 156, 215, 227, 315, 320, 133, 132]),
  (21095, [225, 125, 252, 100, 425, 207, 325, 331, 152, 238, 320, 330, 352, 156, 232, 117, 332, 327]),
  (21097, [120, 152, 252, 452, 125, 156, 220, 315, 320, 327, 227]),
  (21098, [452, 125, 156, 152, 252, 256, 225, 132, 327, 115, 227, 332]),
  (21103, [404, 125, 222, 315, 204, 317, 104, 225, 325, 252, 320, 422, 327, 217, 215]),
  (21106, [252, 452, 152, 220, 225, 325, 125, 320, 156, 129, 215, 315, 256, 343, 115, 332]),
  (21117, [100, 152, 156, 125]),
  (21119, [452, 252, 152, 256, 156]),
  (21121, [452]),
  (21122, [459]),
  (21128, [452, 107, 152, 115, 125, 133, 225, 120, 333, 252, 215, 132, 156]),
  (21139, [413]),
  (21147, [225, 125, 425, 207, 252, 201, 325, 200, 152, 227, 220, 320, 327, 232, 215, 315, 132, 115, 204, 229, 332, 331, 256, 330, 231, 120, 328, 129, 128, 228, 304, 217, 329, 230, 352]),
  (21149, [452, 152, 252, 156, 227, 125, 132, 330, 220, 327, 230, 331, 115]),
  (21150, [125, 452, 252, 152, 156, 225, 325, 217, 256, 331, 204, 320, 227, 215, 231, 117, 317, 232, 132, 220, 327]),
  (21151, [125, 200, 425, 225, 325, 252, 227, 304, 315, 115, 228, 215, 352, 320, 327, 120, 256, 132, 330, 156, 220, 229, 232, 331]),
  (21152, [152, 252, 207, 452, 156, 330, 130, 125, 325, 127, 230, 106, 327, 227, 129, 331, 315, 256, 232, 107, 352, 135, 229, 131, 225, 320, 132, 332, 104, 120, 215, 220, 329, 122, 115, 306, 322, 317, 117, 253, 217]),
  (21153, [225, 256, 325, 331, 204, 407, 107, 152, 320, 220, 315, 217, 426, 327, 227, 215, 125, 332, 409, 229, 317, 252, 454, 130, 328, 304, 343]),
  (21154, [413, 227]),
  (21155, [200, 125, 225, 400, 104, 320, 217, 204, 402, 152, 426, 252, 315, 327, 115, 220]),
  (21160, [256, 252, 125, 325, 225, 452, 200, 152, 207, 320, 201, 220, 204, 315, 215, 232, 356, 117, 103, 100, 332, 107, 304, 352, 120, 227, 331, 115, 156, 343, 330, 327, 300, 231, 203, 132, 104]),
  (21161, [252, 256, 352, 125, 452, 152, 325, 156, 104, 225, 315, 227, 204, 215, 207, 320, 115, 120, 200, 117, 327, 304, 330, 220, 332, 132, 317]),
  (21162, [101, 327, 452, 129, 227, 152, 330, 320, 130, 230, 329, 229, 325, 127]),
  (21163, [252, 452, 152, 425, 125, 315, 225, 227, 325, 215, 156, 115, 143, 320, 256, 220, 120, 327]),
  (21164, [413, 100, 227]),
  (21165, [227, 413, 327, 228]),
  (21169, [252, 256, 125, 115, 427, 127, 227, 325, 327, 152, 454, 220]),
  (21170, [200, 425, 125, 252, 307, 225, 327, 152, 325, 227, 300, 100, 207, 220, 315, 215, 352, 132]),
  (21171, [156, 125, 200, 320, 452, 127, 120, 225, 152, 100, 252, 327, 215, 325, 315, 331, 227, 330, 115, 329, 232, 131, 132, 229, 129, 220, 130, 143, 230, 201, 117, 332, 101, 217, 343, 256]),
  (21182, [252, 413, 227, 327]),
  (21183, [225, 125, 426, 252, 207, 315, 107, 253, 115, 215, 325, 227, 320, 220, 100, 120, 327, 232, 330, 230, 200]),
  (21187, [215, 315, 402, 156, 200, 327, 227, 132, 162, 115, 130, 320, 262, 232, 201, 225, 220, 127, 129, 152, 120, 330, 362, 125, 352, 229]),
  (21191, [227, 125, 100, 425, 200, 152, 207, 327, 215, 315, 325, 225, 220, 204, 115, 228, 402, 101, 252, 320, 427, 407, 120, 352, 217]),
  (21193, [152, 454, 201, 227, 252, 200, 115, 327, 362, 162, 215, 409, 130]),
  (21195, [227, 125, 426, 225, 327, 132, 252]),
  (21200, [413, 130, 227, 129, 327]),
  (21202, [227, 452, 330, 327, 229, 232, 230, 225, 152, 129, 125, 325, 252, 329, 315, 331, 130, 332, 132]),
  (21206, [413, 227, 327]),
  (21208, [156, 152, 454, 252, 125, 325, 217, 327]),
  (21215, [152, 454, 200, 252, 256, 156, 125, 325]),
  (21220, [225, 100, 400, 200, 125, 227, 152, 101, 327, 252, 256, 325, 120, 217, 317, 115, 130, 331, 162, 362, 230, 201, 229, 232, 117, 330, 315, 220, 332, 215, 320]),
  (21232, [413, 227, 327]),
  (21242, [435, 225, 125, 227, 222, 426, 327, 422, 252, 129, 232, 325]),
  (21246, [152, 452, 125, 127, 129, 362, 262, 115, 315, 227, 162, 225, 232]),
  (21247, [407, 207, 252, 125, 315, 327, 227, 115, 120, 320]),
  (21248, [200, 452, 100, 201, 252, 230, 107, 104, 256, 327, 120, 330, 332, 227, 400, 125, 262, 162]),
  (21253, [152, 452, 125, 225, 127, 252, 156, 325, 222, 130, 320, 132, 422, 315, 215, 115, 120, 327, 220, 227, 217, 232, 131, 104, 332, 200, 256, 128, 330])]

/-- hmm/pos/char_state_tab.go:574-637 -/
noncomputable def chars8 : List (Nat × List Nat) := [
  (21254, [162, 262, 100, 307, 207, 362, 101, 215, 315, 327, 227]),
  (21256, [125, 130, 417, 132, 131]),
  (21261, [152, 125]),
  (21263, [459, 327]),
  (21264, [252, 459, 325]),
  (21269, [125, 315]),
  (21270, [252, 256, 125, 225, 325, 452, 217, 152, 332, 320, 230, 120, 227, 327, 331, 232, 220, 317, 127, 330, 315, 115, 215, 243, 200, 156, 204, 343, 231, 129, 130, 132, 131, 104, 229, 328, 207, 228]),
  (21271, [130, 412, 112, 230, 242, 212, 125, 143, 330, 312, 131, 127, 117, 142, 325, 132, 343, 152, 104, 331, 327, 227, 317, 225, 320, 120, 220, 215, 217, 315, 252, 342, 129, 232, 332, 229, 329, 115, 328]),
  (21273, [225, 325, 125, 229]),
  (21277, [435, 454, 125, 362, 262, 227, 225]),
  (21280, [225, 426, 125, 325, 227, 215, 315, 115, 320, 220, 230]),
  (21281, [327, 127, 427, 152, 227, 315, 454, 115]),
  (21283, [125, 225, 230, 325]),
  (21286, [413]),
  (21290, [225, 426, 125, 252, 115, 409, 320, 256, 227, 325]),
  (21294, [152, 454, 315, 215]),
  (21305, [222, 152, 225, 435, 332, 130, 422, 325, 125, 156, 315, 115, 331, 227, 330, 454, 107, 229, 132, 129]),
  (21306, [225, 125, 230, 425, 242, 152, 325, 128, 238, 231, 217, 227, 142, 104, 204, 127, 252, 331, 220, 232, 162, 262, 156, 320, 112, 120, 332, 304, 352, 327, 117, 215, 132, 229, 356, 256]),
  (21307, [125, 225, 452, 117, 325, 331, 252, 104, 152, 227, 332, 426, 156, 217, 320, 220, 327, 315, 130, 256, 215, 317, 132, 204]),
  (21310, [425, 125, 225, 327, 232]),
  (21311, [252, 454, 152, 315, 125, 227, 156, 325, 256]),
  (21313, [322, 122, 107, 422, 222, 143, 117, 125, 120, 162, 132, 320, 115, 325, 124, 327, 130, 215, 315, 329, 332, 243, 252, 331, 225, 152, 227, 324, 330, 220, 131, 104, 317, 352, 232]),
  (21315, [122, 322, 335, 222, 422, 115, 135, 125, 315, 320, 127, 130, 327, 120, 225, 215, 107, 124, 227, 332, 104, 325, 252, 324, 132, 228, 220, 328, 224, 330]),
  (21317, [332, 422, 222, 122, 322]),
  (21319, [252, 152, 452, 156, 227, 325, 125, 222, 327, 220, 120, 235, 129, 100, 232, 315, 132, 256, 230, 229, 228, 225, 117, 130, 215, 329, 320, 332, 104, 224]),
  (21320, [243, 143, 444, 125, 130, 332, 325, 152, 222, 343, 227, 327, 225, 322, 320, 220, 117]),
  (21321, [225, 426, 227, 325, 327, 331]),
  (21322, [122, 422, 343, 125, 222, 330, 325, 322, 207, 143, 115, 252, 142, 315, 320, 104, 120, 127, 130, 107, 243, 327, 212, 124, 152, 225, 215, 162, 227, 352, 362, 317, 132, 156]),
  (21326, [130, 417, 232, 132, 125, 227, 127, 330, 325, 331, 200, 252, 327, 225, 131, 100, 217, 230, 332, 228, 256, 315, 129, 117, 215, 229, 128, 322, 104, 231, 220, 115, 328, 120, 135, 329, 320, 343, 122, 262]),
  (21327, [125, 152, 331, 217, 454, 231, 252, 156, 332, 325, 132, 315, 227, 225, 131, 117, 320, 327, 107, 409, 317, 115, 104]),
  (21329, [225, 125, 100, 402, 330, 200, 315, 215, 130, 325, 120, 115, 227, 103, 332, 320]),
  (21330, [426, 225, 454, 227, 215, 200, 125, 315, 327, 252, 409, 152]),
  (21331, [100, 127, 227, 427, 327, 115, 315, 125, 162, 330, 152, 130, 129, 262, 132, 328, 120]),
  (21333, [125, 407, 200, 225, 104, 100, 107, 127, 252, 207, 217, 206, 152, 132, 325, 320, 115, 227, 362, 262, 327, 352, 230, 315, 120, 330, 130, 317, 322, 229, 356, 128, 304]),
  (21334, [452, 252, 152, 125, 325, 100, 315, 120, 115, 327, 156, 220, 256, 320, 225, 331, 215, 132, 332, 352, 232]),
  (21335, [230, 130, 412, 112, 330, 212, 242, 143, 125, 127, 325, 312, 331, 227, 327, 117, 225, 131, 132, 129, 156, 332, 152, 142, 229, 120, 320, 104, 315, 217, 115, 317, 234, 232, 342, 220, 329, 228, 128]),
  (21338, [125, 227, 127, 427, 152, 327, 330, 130, 252, 325, 100, 426, 156, 454, 230, 200, 417, 115, 129, 317, 120, 220, 232, 229, 132, 315, 217, 332, 215, 256, 117, 329, 331, 262, 228, 131, 320]),
  (21340, [225, 427, 127, 327, 252, 325, 227, 329, 125, 426, 454, 152, 328, 330, 315, 320, 220, 128, 229]),
  (21342, [127, 427, 227, 327]),
  (21343, [459]),
  (21344, [452, 152, 252, 127, 125, 325, 327, 227, 330, 256, 120, 315, 156, 332, 220, 215, 328]),
  (21345, [127, 425, 225, 125, 327, 129, 227, 130, 132, 230, 330, 325, 229, 252, 332, 152, 329, 235, 232, 135, 452, 320, 104, 238, 256, 217, 131, 331, 224]),
  (21346, [127, 130, 125, 417, 327, 227, 427, 225, 230, 129, 330, 128, 132, 325, 329, 229, 332, 135, 232]),
  (21347, [413, 227]),
  (21348, [125, 425, 452, 152, 225, 332, 325, 100, 132, 232]),
  (21350, [425, 225, 252, 325, 227, 330, 256, 125, 215, 435]),
  (21351, [452, 125, 130, 252, 152, 315, 104, 120, 115, 225, 227, 220, 325, 352, 156, 215, 330, 256]),
  (21355, [125, 252, 103, 325, 225, 452, 227, 127, 327, 256, 131, 331, 332, 217, 230, 232, 330, 229, 132, 104, 129, 130, 117, 320, 152, 220, 427, 315, 352, 215, 120, 143, 317, 328]),
  (21358, [413, 227]),
  (21359, [222, 252, 220, 225, 315, 320, 322, 115, 215, 143, 125]),
  (21360, [130, 125, 452, 152, 252, 225, 132, 156, 127, 325, 331, 227, 131, 117, 327, 232, 256, 320, 215, 332, 204, 317, 220, 315, 129]),
  (21361, [125, 103, 152, 100, 320, 225, 427, 115, 252, 200, 215, 315, 127, 130, 426, 227, 417, 132, 262, 256, 454, 402, 220, 327, 325, 117, 330, 131, 229, 228, 317]),
  (21363, [452, 207, 106, 107, 152, 315, 143, 252, 130, 104, 125, 320, 327, 215, 115, 120, 132]),
  (21364, [407, 107, 152, 252, 127, 256, 325, 315, 220, 115, 332, 327, 232, 330]),
  (21365, [425, 125, 252, 225, 325, 256, 104, 343, 327, 215, 320]),
  (21367, [222, 435, 422, 225, 125, 152, 252, 115, 320, 325, 232, 227, 315, 120, 204, 132, 238, 130, 327, 330, 256, 142, 215, 217, 156, 104]),
  (21368, [452, 152, 252, 256, 325, 327, 232, 132, 115, 315, 317]),
  (21370, [252, 413]),
  (21375, [227, 427, 225, 426, 127, 327, 330, 228, 115, 315, 215, 320]),
  (21378, [225, 125, 425, 252, 325, 231, 230, 238, 117, 352, 227, 330, 327, 217, 320, 130, 332, 104]),
  (21380, [417, 130, 125, 327, 227, 129, 229, 329, 230, 203, 225, 131, 132, 352]),
  (21381, [225, 425, 125, 231, 227, 230, 242, 304, 104, 332, 327, 117, 215, 232]),
  (21382, [125, 225, 152, 252, 107, 452, 243, 330, 127, 232, 104, 407, 227, 130, 115, 325, 120, 315, 331, 230, 207, 327, 329, 320, 454, 129, 343, 304, 220, 256, 204, 332]),
  (21385, [100, 201, 107, 200, 215, 127, 427, 125, 315, 327, 227, 152, 115, 128, 120, 402])]

/-- hmm/pos/char_state_tab.go:638-701 -/
noncomputable def chars9 : List (Nat × List Nat) := [
  (21387, [125, 225, 252, 452, 152, 325, 256, 156, 107, 362, 262, 232, 204, 120, 315, 132, 332, 320, 104, 220, 217, 115]),
  (21388, [152, 252, 454, 315, 156, 215, 125, 225, 220, 320, 325, 200, 227]),
  (21389, [413, 127, 227]),
  (21397, [125, 225, 426, 325, 252]),
  (21400, [122, 135, 435, 322, 335, 230, 235, 156, 327, 330, 152, 225, 125, 215, 325, 315]),
  (21402, [400, 200, 125, 100, 227, 162, 362, 225, 327, 215, 132, 315, 115, 152, 252, 325, 220, 207, 107, 320, 204, 131, 262]),
  (21405, [330, 229]),
  (21407, [125, 225, 404, 107, 230, 152, 100, 325, 252, 127, 227, 120, 330, 104, 327, 115, 229, 156, 130, 331, 215, 132, 315, 256, 204, 232, 352, 320, 142, 231, 117, 332, 217, 220, 304]),
  (21410, [225, 125, 435, 426, 332, 315, 227, 232, 104, 320, 330, 215, 229]),
  (21411, [413]),
  (21413, [225, 438, 252, 332, 227, 327, 325, 315]),
  (21414, [130, 225, 417, 131, 230, 215, 231, 332, 132, 227, 327, 315, 125, 426, 232, 117]),
  (21416, [125, 426, 225, 252, 232, 130, 117]),
  (21417, [225, 125]),
  (21422, [152, 225, 315, 156]),
  (21430, [413]),
  (21435, [452, 252, 243, 143, 152, 125, 315, 157, 215, 220, 320, 327, 325, 132, 362, 262, 227, 225, 115, 120]),
  (21439, [230, 425, 125, 225, 238, 227, 104, 327, 325, 229, 330, 117, 252, 304, 156, 220, 231, 130, 331]),
  (21441, [422, 122, 227, 222, 322]),
  (21442, [152, 125, 425, 225, 325, 417, 156, 320, 227, 327, 100, 331, 115, 162, 315, 117, 330, 217, 132, 120, 232, 228, 454, 131]),
  (21448, [407, 125, 320, 327, 120, 227, 315, 332, 127, 106]),
  (21449, [425, 325, 252, 452, 225, 227, 152, 256, 125, 204, 327, 220, 320, 232]),
  (21450, [406, 206, 252, 106, 101, 230, 215, 315, 330, 107, 134, 325, 152, 227, 125, 225, 234, 327, 332, 220, 331, 320, 228, 352, 304, 115]),
  (21451, [225, 125, 100, 426, 227, 327, 425, 220, 252, 130, 232, 215, 325, 127, 152, 217, 332, 320, 331, 132, 330, 315, 129, 131, 228, 256, 117, 230, 229, 204]),
  (21452, [125, 422, 122, 222, 104, 127, 132, 327, 238, 107, 130, 330, 322, 227, 315, 117, 152, 252, 143, 320, 215, 115, 217, 120, 131, 328, 228, 129, 317, 230, 325, 124, 332, 232]),
  (21453, [152, 452, 107, 156, 252, 125, 325, 100, 106, 320, 315, 112, 115, 117, 206, 120, 215, 132, 204, 256, 217, 332, 104, 352, 220, 317, 131]),
  (21457, [152, 156, 252, 125, 452, 325, 100, 120, 225, 217, 207, 331, 232, 256, 215, 422, 320, 227, 327, 222, 332, 315, 204, 117, 220, 115, 132, 330, 231, 317, 143, 104, 230, 304, 229, 352, 328, 130, 200, 224, 324, 228]),
  (21460, [425, 227, 225, 125, 327, 325, 229, 129, 132, 328]),
  (21462, [252, 152, 452, 125, 115, 315, 156, 227, 325, 320, 220, 327, 200, 215, 256, 117, 317, 120, 132, 229, 332, 331, 330]),
  (21463, [452, 152, 252, 125, 200, 120, 325, 100, 315, 215, 156, 220, 115, 320, 327, 204, 332, 227, 256, 352, 130]),
  (21464, [156, 152, 252, 452, 125, 320, 225, 256, 232, 215, 325, 120, 262, 115, 220, 327, 315, 200, 132, 332, 217, 227, 352, 204, 104, 304]),
  (21465, [152, 452, 130, 125, 252, 156, 227, 327, 225, 325, 120, 320, 131, 215, 330]),
  (21467, [152, 125, 252, 315, 256, 156, 325, 215]),
  (21471, [413, 227, 225, 327, 315]),
  (21472, [252, 452, 222, 152, 343, 125, 262, 325, 332, 304, 322, 362, 156, 162, 227, 315, 327, 225, 232, 256, 320, 220, 115, 130]),
  (21475, [225, 256, 435, 125, 222, 242, 325, 230, 252, 315, 142, 152, 330, 331, 227, 207, 200, 156, 215, 220, 115, 304, 327, 320, 229, 130, 422, 120, 332, 324, 217, 352, 307, 224, 201, 232, 338, 204, 317, 107, 300, 104, 100]),
  (21476, [125, 143, 400, 230, 325, 100, 127, 130, 330, 104, 256, 207, 227, 225, 320, 332, 243, 327, 152, 252, 315, 329, 132, 129, 115, 331, 343, 107, 229, 120, 131, 215, 262, 362, 162, 128, 220, 307, 317, 232, 200, 204]),
  (21477, [222, 435, 225, 125, 306, 235, 135, 330, 215, 422, 315, 130, 252, 322, 220, 120, 207, 320, 325]),
  (21478, [438, 106, 107, 125, 115, 152, 120, 227, 327, 315]),
  (21480, [252, 262, 362, 152, 256]),
  (21481, [152, 454, 125, 252, 327, 227]),
  (21482, [407, 222, 107, 152, 106, 422, 225, 115, 206, 227, 104, 120, 207, 315, 125, 215, 325, 330, 352]),
  (21483, [452, 152, 252, 125, 215, 325, 256, 227, 115, 156, 320, 327, 315, 100, 104, 262, 328, 130]),
  (21484, [152, 427, 252, 227, 454, 426, 325, 327, 125, 156, 330, 230, 256, 115]),
  (21485, [225, 433, 325, 333, 233, 125, 232, 133, 220]),
  (21486, [152, 452, 133, 320, 333, 227, 120, 315, 327]),
  (21487, [152, 452, 106, 252, 100, 125, 315, 120, 320, 327, 207, 307, 325, 227, 225, 256, 306, 115, 156, 215, 107, 104, 132, 229, 162, 330, 220, 352, 130, 332, 129, 331, 131, 228, 329, 230, 232, 317]),
  (21488, [225, 130, 435, 252, 125, 222, 230, 142, 330, 422, 325, 231, 117, 227, 327, 127, 131, 220, 232, 332, 229, 217, 315, 104, 238, 331, 320, 317, 242, 132, 207, 304, 224, 228, 215, 204, 135, 352, 129, 122, 329, 322]),
  (21489, [152, 115, 252]),
  (21490, [225, 426, 125, 127, 325, 227, 320, 104, 330, 331, 232, 327, 115, 252, 220, 130, 315, 317, 215, 129, 132, 120, 204, 329, 128, 230, 217, 332]),
  (21491, [222, 412, 125, 112, 322, 315, 142, 104, 325, 227, 225, 130, 327, 320, 220, 330, 317, 252, 204, 129, 215, 328, 229, 217, 132]),
  (21493, [152, 315]),
  (21494, [225, 127, 125, 425, 325, 243, 417, 227, 452, 222, 130, 327, 212, 427, 232, 315, 215, 422, 229, 129, 332, 230, 128, 132, 220, 115, 426, 330, 435, 331, 320, 343, 120]),
  (21495, [225, 435, 422, 125, 152, 222, 252, 325, 232, 204, 315, 227, 120, 320, 220, 215, 356, 256, 332, 327, 304]),
  (21496, [225, 125, 127, 426, 231, 325, 235, 425, 227, 327, 220, 252, 230, 115, 222, 129, 128, 131, 315, 332, 130, 330, 331, 352, 152, 117, 104, 217, 215, 132, 229, 304, 317, 232]),
  (21497, [452, 252, 152, 227, 325, 215, 315, 115, 320, 200, 256, 125, 220]),
  (21499, [413, 230, 330]),
  (21500, [452]),
  (21501, [133, 433, 333, 233, 225, 152, 120]),
  (21505, [252, 315, 454, 215, 362, 262, 152, 410, 227, 325, 433, 327]),
  (21507, [452, 152, 100, 252, 315, 200, 125, 120, 320, 225, 115, 325, 220, 215, 227, 117, 352]),
  (21508, [138, 438, 320, 120, 100, 115, 330, 229, 227, 230, 327, 152, 315, 329, 162, 325, 130, 104]),
  (21510, [152, 452, 125, 120, 156, 320, 227]),
  (21512, [252, 152, 256, 125, 325, 156, 100, 452, 331, 225, 320, 304, 130, 300, 227, 315, 215, 120, 332, 330, 327, 217, 115, 230, 204, 132, 104, 220, 232, 117, 107, 131, 352, 317, 356, 200, 207, 342, 229, 129, 362, 262, 228])]

/-- hmm/pos/char_state_tab.go:702-765 -/
noncomputable def chars10 : List (Nat × List Nat) := [
  (21513, [127, 130, 327, 125, 417, 227, 330, 129, 230, 100, 332, 229, 132, 131, 215, 315, 325, 115, 225, 329, 262, 120, 252, 331, 117, 220, 320, 232, 228]),
  (21514, [452, 125, 152, 252, 315, 225, 132, 120, 115, 325, 156, 327, 130, 320, 215, 104]),
  (21516, [200, 434, 106, 125, 107, 117, 207, 152, 252, 225, 104, 112, 306, 325, 153, 315, 215, 230, 234, 320, 115, 227, 130, 327, 331, 156, 220, 256, 127, 132, 138, 120, 143, 355, 330, 129, 131, 332, 228, 122, 232, 352, 217, 304, 342]),
  (21517, [125, 252, 435, 222, 225, 200, 422, 152, 315, 325, 115, 327, 320, 215, 100, 120, 220, 227, 256, 230, 130, 330, 117, 204, 207, 132, 253, 127, 232, 300, 343, 129, 228]),
  (21518, [412, 212, 243, 125, 206, 207, 143, 112, 225, 138, 227, 200, 152, 252, 156, 242, 320, 127, 115, 315, 104, 220, 325, 215, 130, 204, 327, 312, 132, 117, 217, 317, 120, 342, 129, 343, 352, 331, 330, 142, 332, 329]),
  (21519, [225, 125, 426, 227, 215, 327, 130, 232]),
  (21520, [452, 130, 252, 152, 325, 315, 125, 215, 256, 225, 127, 132, 327, 227, 320, 133, 129, 115, 330, 331, 120, 329]),
  (21521, [434, 225, 252, 152, 207, 127, 107, 325, 125, 327, 204, 212, 134, 320, 200, 315, 217, 215, 304, 256, 130, 232, 328, 229, 104, 128, 227, 129, 132, 143, 332, 220, 156, 331, 115]),
  (21522, [229, 413, 227]),
  (21523, [452, 152, 252, 227, 256, 100, 325, 327, 315]),
  (21525, [127, 427, 327, 227, 130, 125, 329, 129, 225, 330, 229, 232, 315, 215]),
  (21526, [459, 125, 227]),
  (21527, [460, 252, 125, 325]),
  (21531, [425, 125, 227, 132, 225, 327, 130, 120, 315, 452, 252, 229, 325, 230, 330, 220, 129, 331, 232, 300, 332, 152, 426, 328, 115, 215, 127, 320, 238, 352]),
  (21533, [100, 152, 252, 200, 454, 125, 315, 227]),
  (21534, [152, 452, 315, 125, 252, 115, 156, 362, 262, 120, 325, 330, 130, 200, 225, 215]),
  (21535, [252, 452, 152, 362, 262, 227, 327, 215, 225, 228, 115, 315, 156, 232]),
  (21536, [454, 225, 125, 252, 215, 315, 320]),
  (21537, [125, 332, 132, 325]),
  (21539, [452, 227]),
  (21542, [252, 106, 152, 454, 460, 245, 352, 215, 125, 320, 315, 115, 227, 325, 225]),
  (21543, [460, 225, 133, 152, 125, 233, 227, 325, 220, 232]),
  (21544, [222, 435, 422, 325, 104, 125, 304, 235, 322, 225, 135, 117]),
  (21545, [152, 156, 225, 325, 125]),
  (21547, [452, 125, 252, 152, 100, 127, 115, 156, 227, 327, 362, 162, 225, 132, 325, 120, 300, 315, 320, 130, 129]),
  (21548, [452, 152, 252, 125, 200, 315, 227, 100, 225, 215, 115, 325, 127, 256, 327, 320, 156, 120, 352, 104, 132]),
  (21549, [152, 452, 220, 133, 315, 252, 227]),
  (21550, [452, 252, 152, 227]),
  (21551, [152, 452, 252, 327, 156, 227, 243, 125, 130, 120, 315, 320, 132, 104, 129, 328, 304]),
  (21553, [433, 152, 233, 133, 333, 125, 325, 227]),
  (21554, [125, 459]),
  (21556, [127, 427, 230, 130, 227, 125, 327, 128, 331, 332, 117, 115, 329, 131, 232, 129]),
  (21557, [452, 152, 252, 352, 256, 320, 227, 156, 125, 325]),
  (21560, [152, 452, 252, 125, 325, 320, 156, 220, 256, 132, 120, 225, 204, 104, 232, 315, 327, 304]),
  (21561, [452, 152, 252, 315, 125, 156, 115, 320, 325, 227, 327, 120, 215, 132]),
  (21563, [452, 225, 152, 252, 125, 325, 227]),
  (21564, [452, 152, 252, 125, 227, 325, 215, 225, 156]),
  (21566, [438, 332, 227, 330, 252, 327, 352, 138, 230, 331, 315, 228, 129, 320, 120]),
  (21568, [460, 210, 233, 333, 360, 260, 227, 325, 225, 327, 315]),
  (21571, [460, 152]),
  (21574, [452, 125, 362, 215, 252, 162, 100, 262, 325, 152, 227, 115, 117, 327, 315, 225]),
  (21576, [452, 152, 252, 327, 227, 225, 125, 215, 220, 315, 127, 130]),
  (21578, [225, 152, 252, 452, 325, 125, 120, 315, 320, 227, 256, 220, 332, 215, 115, 130, 343, 217, 327, 156]),
  (21579, [125, 325, 132, 332]),
  (21584, [152, 460, 225, 125, 156, 315, 120, 325, 227, 327]),
  (21587, [225, 125]),
  (21588, [410, 413]),
  (21589, [152, 460, 156, 115, 252, 215]),
  (21590, [233, 133]),
  (21591, [460, 233]),
  (21592, [225, 325, 331, 125, 435, 252, 222, 327, 220, 425, 227, 315, 256, 317, 320, 217, 127, 422, 215, 130, 304, 330]),
  (21593, [427]),
  (21595, [452, 252, 100, 152]),
  (21596, [433, 152, 120, 320, 110, 315, 227, 327]),
  (21602, [460, 125, 225, 260, 152, 132, 227, 156]),
  (21604, [225, 459, 232, 325, 227]),
  (21606, [410]),
  (21608, [243, 143, 125, 127, 427, 325, 112, 222, 212, 422, 227, 152, 225, 122, 100, 238, 130, 156, 132, 327, 322, 315, 128, 135, 230, 228, 320, 115, 129, 120, 435, 200, 312, 101, 229, 330, 217, 300, 252, 103, 215]),
  (21617, [133, 233, 362, 162, 152, 252, 115, 315, 333, 262]),
  (21618, [452]),
  (21619, [225, 352, 125, 426, 252, 207, 325, 215, 222, 200, 315, 232, 220, 227, 332, 331, 327, 320, 204, 132, 422, 115, 100, 330, 256, 300]),
  (21621, [452, 460, 152, 156, 362, 262, 315, 125, 227, 352, 130, 327, 200]),
  (21622, [413]),
  (21623, [452, 227])]

/-- hmm/pos/char_state_tab.go:766-829 -/
noncomputable def chars11 : List (Nat × List Nat) := [
  (21624, [410]),
  (21627, [152, 315]),
  (21628, [152, 252, 452, 125, 127, 130, 225, 315, 320, 362, 115, 325, 133, 262, 156, 120, 215, 210, 117, 227, 162, 132, 333, 327, 352, 256, 129, 220, 330, 131]),
  (21629, [256, 225, 425, 125, 252, 152, 325, 232, 215, 331, 207, 332, 227, 220, 320, 315, 330, 200, 327, 204, 100, 352, 120, 262, 356, 104, 452, 156, 143, 115]),
  (21632, [152, 230, 315]),
  (21634, [452, 152, 325, 125]),
  (21636, [115, 315, 152]),
  (21638, [152, 120, 125]),
  (21643, [438, 138, 152, 362, 162]),
  (21644, [406, 125, 132, 330, 127, 252, 200, 325, 225, 100, 232, 327, 152, 130, 230, 227, 156, 332, 228, 331, 115, 256, 229, 120, 217, 215, 129, 315, 143, 362, 320, 162, 220, 262, 104, 328, 304, 131, 101, 204]),
  (21646, [252, 426, 215, 320, 115, 220, 315, 227]),
  (21647, [152, 225, 125, 252, 228, 325, 328]),
  (21648, [252, 256, 459, 220]),
  (21650, [452, 252, 125, 152, 225, 315, 156]),
  (21652, [433, 133, 125]),
  (21653, [133, 433, 152, 252, 233, 362, 333, 262, 220, 320]),
  (21654, [125, 132]),
  (21657, [225, 459]),
  (21658, [233, 433, 133, 333, 262, 327, 227]),
  (21659, [252, 459, 320, 220]),
  (21661, [433, 125, 325, 227]),
  (21667, [433, 133, 227]),
  (21668, [315, 252, 459]),
  (21670, [410, 327]),
  (21671, [452, 362, 262, 152, 315, 125, 325, 327]),
  (21672, [156, 125, 117, 331, 217, 143, 332, 132]),
  (21673, [433]),
  (21674, [125, 225, 132, 233, 133, 332, 325, 227, 327]),
  (21675, [315, 125, 115, 120]),
  (21676, [452, 152, 115, 125, 252, 352, 120, 315, 227, 156, 327, 325, 320, 225]),
  (21677, [433]),
  (21679, [133, 452, 233, 152, 225, 333, 232, 325, 460, 227, 327]),
  (21681, [138, 438]),
  (21683, [152, 452, 256, 252, 132, 225, 125, 325, 410, 115, 332]),
  (21684, [459, 133, 333]),
  (21688, [130, 400, 125, 127, 227, 427, 327, 132, 330, 320, 252, 426]),
  (21691, [413, 262, 362]),
  (21693, [452, 252, 125, 152, 220, 320, 215, 225, 325, 227]),
  (21695, [133, 333, 115]),
  (21696, [152, 454, 100, 125, 200, 203, 103, 252, 327, 227, 315, 130, 115, 132, 156, 162, 320, 402]),
  (21697, [225, 125, 325, 452, 222, 152, 320, 331, 220, 217, 204, 252, 227, 352, 327, 232, 422, 330, 332, 156, 315, 115, 135, 238, 304, 317, 127, 129, 215, 104]),
  (21698, [454, 152]),
  (21700, [452, 152, 362, 262, 252, 156, 315, 115, 125, 227, 327, 256, 225]),
  (21702, [152, 352, 162, 362]),
  (21703, [460, 133, 230, 233, 330, 325, 229, 120, 110]),
  (21704, [330, 417, 130, 127, 129, 233, 133, 327, 320, 120, 131, 132, 125, 325, 229, 227, 230, 329, 331, 333, 332, 232, 362, 262, 117, 210, 352, 225, 162, 110, 252, 152, 215, 128]),
  (21705, [460, 227, 200, 220, 215, 315, 245, 327, 320]),
  (21708, [125, 325, 332, 225, 132]),
  (21709, [256, 452, 152, 225, 325, 252, 125, 222, 100, 220, 215, 227, 162, 130, 115, 422, 327, 400, 200]),
  (21710, [410, 110, 160]),
  (21711, [252]),
  (21712, [433, 133]),
  (21713, [125, 452, 200, 115, 325, 215, 225, 252, 162, 217, 120, 104, 352, 320, 132]),
  (21714, [433, 233, 459, 252, 125, 333]),
  (21716, [125]),
  (21717, [413]),
  (21719, [454, 133, 252, 152, 162, 333, 115, 362, 315, 433, 227, 327]),
  (21721, [227, 413]),
  (21722, [225, 227]),
  (21724, [413]),
  (21725, [252, 459]),
  (21726, [433]),
  (21727, [460, 210, 227]),
  (21733, [225, 125, 425, 130, 230, 227, 330, 327, 331, 325, 131, 127, 132, 104, 232, 329, 129, 315, 417, 332])]

/-- hmm/pos/char_state_tab.go:830-893 -/
noncomputable def chars12 : List (Nat × List Nat) := [
  (21734, [410, 252, 433]),
  (21735, [233, 433, 333, 133]),
  (21736, [426, 125, 225, 435, 252, 227, 233, 200, 262, 325, 362, 229]),
  (21737, [460, 435, 227, 225, 362, 332, 162, 320]),
  (21738, [138, 438, 106, 124, 129, 120, 327, 227]),
  (21741, [452, 252, 152, 125, 315, 115, 120, 362, 162, 215, 220, 256, 320, 227, 156, 132, 327]),
  (21742, [252, 125, 320, 325]),
  (21746, [125, 427, 327, 227, 130, 129, 225, 332, 426, 331, 217, 315, 328, 117, 200, 228]),
  (21747, [459]),
  (21754, [125, 152, 454, 120, 215, 252, 156, 327]),
  (21756, [452, 152, 252, 362, 262, 125, 162, 133, 315]),
  (21757, [152, 452]),
  (21759, [413, 327]),
  (21761, [252, 125, 256]),
  (21766, [252, 152, 325]),
  (21767, [225, 426, 125, 227, 132, 325, 315, 115, 327, 120, 320, 352, 117]),
  (21769, [410, 115, 152]),
  (21775, [152]),
  (21776, [127, 143, 427, 243, 417, 130, 227, 444, 232, 125, 200, 327, 332, 217, 129, 325, 330, 152, 329, 128, 431, 132, 131, 230, 229, 331, 228]),
  (21777, [225, 459, 232, 325, 332]),
  (21780, [460, 233]),
  (21787, [413]),
  (21792, [152, 452, 362, 162, 156, 252]),
  (21794, [125]),
  (21795, [200, 459]),
  (21796, [454, 252, 227, 152, 315, 256, 215, 327, 325, 320]),
  (21799, [133, 233, 252, 452, 125, 333, 262, 362, 152]),
  (21802, [413, 227]),
  (21804, [452, 252, 152]),
  (21806, [256, 252, 452, 325, 125, 152, 120, 156, 317, 320, 217, 220, 132, 332]),
  (21807, [104, 125, 407, 152, 325, 227, 107, 120, 100, 327, 320, 115, 315, 132, 130]),
  (21809, [452, 252, 152, 125, 325, 225, 256, 315, 120, 227, 320, 220, 331, 156, 115, 217, 332, 327, 352]),
  (21811, [215, 413]),
  (21815, [459, 227, 233]),
  (21820, [459]),
  (21822, [125, 452, 152, 115]),
  (21823, [459, 125]),
  (21825, [459, 133]),
  (21827, [452, 320, 120, 315, 152]),
  (21828, [452, 125, 152, 215, 233]),
  (21830, [125, 225, 152, 425, 252, 331, 131, 130, 325, 127, 256, 317, 143, 120, 227, 332, 117, 156, 217, 327, 320, 232, 330, 304, 243, 315, 343, 132, 104, 231, 220]),
  (21833, [225, 459, 227]),
  (21834, [460, 110, 227, 125, 327]),
  (21840, [452]),
  (21845, [207, 320, 252, 413]),
  (21846, [454, 227]),
  (21852, [454, 152, 125]),
  (21857, [225, 325, 459, 332, 227]),
  (21860, [125, 217, 331, 325, 225, 132]),
  (21861, [438, 238, 138, 125]),
  (21862, [460, 233, 333, 262, 227, 325, 332, 362, 125, 232, 225]),
  (21863, [233, 133, 433, 120, 320, 115, 315, 125, 325, 410]),
  (21866, [433, 233, 333, 133]),
  (21868, [200, 402, 325, 413, 327]),
  (21869, [413, 252]),
  (21870, [125, 454, 104, 152, 252]),
  (21877, [460]),
  (21878, [225, 459, 325, 232, 332]),
  (21879, [459, 233]),
  (21880, [225, 252, 452, 227, 327, 125, 220, 120, 152, 215, 228, 127]),
  (21883, [413, 252, 207, 327]),
  (21884, [152, 452, 362, 262, 225, 125, 115, 156, 227, 320, 315]),
  (21886, [459, 233]),
  (21888, [130, 417, 330, 327, 132, 227, 133, 225, 433, 125, 329, 332, 131, 129])]

/-- hmm/pos/char_state_tab.go:894-957 -/
noncomputable def chars13 : List (Nat × List Nat) := [
  (21889, [413]),
  (21890, [452, 152, 156, 252, 227]),
  (21891, [233, 133, 225, 115, 315, 325, 252, 332, 227, 327, 256]),
  (21892, [252, 452, 152, 200, 125, 100, 227, 201, 327, 315, 230, 115, 409, 320, 330, 215, 225, 325, 402, 220, 130, 120, 352, 204, 229, 331]),
  (21895, [125, 427, 330, 227, 325, 327, 225, 233, 333, 320, 130]),
  (21896, [227, 459]),
  (21897, [125, 426, 225, 325, 252, 132, 215, 332, 220]),
  (21898, [452, 252, 152, 125, 315, 325, 227, 256, 156, 215, 320, 115, 327]),
  (21899, [115, 315, 152, 325]),
  (21903, [410, 252, 459, 227]),
  (21905, [152, 215]),
  (21908, [433, 410]),
  (21912, [452, 152, 225, 315, 325, 252, 215, 162, 156, 232, 362, 262, 352, 125]),
  (21913, [426, 215]),
  (21916, [152, 452, 125, 252, 225, 200, 227, 100, 115, 130, 327, 315, 215, 162, 220, 320, 325, 330, 207, 256, 120, 230, 362, 262, 132, 352, 129, 156, 228, 232, 229, 332, 103]),
  (21917, [454, 152, 252, 156, 220, 227, 320, 315, 325, 200, 120, 130, 125, 225, 215, 256]),
  (21919, [413, 152, 256]),
  (21927, [152, 454, 156, 315, 125, 115, 252, 100, 227, 327, 402]),
  (21937, [459, 332, 225, 325]),
  (21939, [233, 333, 433, 133]),
  (21941, [433]),
  (21943, [152, 452, 125, 252, 104, 156, 352, 362, 262, 132, 232, 315, 162, 325, 115, 327, 204, 227, 120, 100, 320, 225, 304, 130]),
  (21945, [125, 225, 132]),
  (21947, [215, 225, 127, 252, 427, 315, 152, 227, 454, 426, 256, 320, 327, 130]),
  (21949, [125, 460, 445, 327]),
  (21950, [413, 229, 227]),
  (21956, [410, 413]),
  (21957, [452, 125, 152]),
  (21961, [125]),
  (21964, [413]),
  (21965, [452]),
  (21969, [452, 252]),
  (21970, [433, 233]),
  (21971, [125, 435, 426, 325, 332, 225, 352]),
  (21972, [152, 252, 315]),
  (21974, [433, 233, 133, 362, 262]),
  (21980, [454, 125, 152, 115]),
  (21981, [252, 225, 125, 352]),
  (21983, [152, 115, 252, 315]),
  (21985, [233, 133, 433]),
  (21987, [327, 426, 227, 143, 225, 252, 328, 125]),
  (21988, [454, 115, 233, 152]),
  (21989, [413, 225, 152, 327]),
  (21990, [252, 459, 200, 262]),
  (21992, [410, 110]),
  (21994, [225, 413, 325, 232]),
  (21995, [152, 162, 362]),
  (21996, [410, 110, 227]),
  (21999, [410]),
  (22002, [320, 120]),
  (22003, [410, 125]),
  (22005, [433]),
  (22007, [233, 133, 152, 115, 352, 315]),
  (22013, [252, 325]),
  (22014, [413]),
  (22016, [152, 320, 362, 162, 133]),
  (22017, [333, 133]),
  (22024, [100, 162, 362]),
  (22025, [417, 327, 127, 130, 227, 143, 132, 125, 330, 230, 232, 152, 217, 200, 156, 129, 332, 331, 131, 229, 325]),
  (22028, [413, 125, 325, 332]),
  (22030, [433, 133, 327, 233, 330, 227, 333, 230, 132, 228, 129, 232, 130, 127, 162]),
  (22031, [413, 227]),
  (22040, [252, 452, 125, 325, 225, 115, 362, 262, 220, 410, 152, 320, 256]),
  (22043, [460, 225, 325, 230, 330])]

/-- hmm/pos/char_state_tab.go:958-1021 -/
noncomputable def chars14 : List (Nat × List Nat) := [
  (22046, [460]),
  (22047, [152, 233, 433, 133, 362, 162, 135, 333, 262, 227, 327]),
  (22051, [433, 362]),
  (22052, [433, 227]),
  (22055, [125, 459, 325, 227]),
  (22060, [452]),
  (22061, [433]),
  (22065, [152, 252, 225, 454, 156, 320, 325, 215]),
  (22066, [152, 252, 454, 156, 315, 220, 256, 125, 215]),
  (22068, [425, 125, 142, 252, 225, 230, 227, 315, 325, 100, 330, 220, 215, 152, 232, 320, 327, 207, 200, 120, 115, 352]),
  (22070, [454, 100, 152, 315, 225, 215, 327, 433]),
  (22073, [100]),
  (22075, [433, 362, 262, 152, 162, 410, 227, 115, 327, 210]),
  (22079, [233, 133, 410]),
  (22092, [433, 459]),
  (22093, [454]),
  (22094, [452, 152, 252, 315, 125]),
  (22100, [433, 233]),
  (22103, [433, 133]),
  (22104, [452, 152]),
  (22105, [452, 227]),
  (22108, [233, 225, 252, 333, 235, 100, 262, 220]),
  (22114, [460, 410]),
  (22116, [225, 115, 125, 220]),
  (22120, [225, 125, 425, 325, 232, 220, 227, 343, 320, 152, 231, 331, 252, 419, 200, 215, 327, 104, 352, 156, 115, 228, 204, 217, 315, 120, 332, 304, 330]),
  (22121, [125, 362, 262, 200, 215, 315]),
  (22122, [125, 252, 426, 200, 320, 332, 215, 454, 256, 225, 100, 325]),
  (22123, [410, 110]),
  (22124, [252, 454, 125, 320, 115, 215]),
  (22129, [125]),
  (22134, [330, 459, 129, 130, 325, 125, 227, 332, 132]),
  (22139, [125, 220, 225, 325]),
  (22140, [133, 333]),
  (22149, [252, 459, 262, 362]),
  (22150, [459]),
  (22158, [452, 152, 107, 252, 215, 225, 125, 227]),
  (22159, [225, 252, 125, 233]),
  (22163, [233, 433, 333]),
  (22179, [252, 100, 256, 454, 315, 120, 227, 225, 325, 200]),
  (22191, [410]),
  (22199, [452, 252, 152, 352, 362, 262, 256]),
  (22204, [452, 252, 315, 125, 320, 152, 325]),
  (22218, [225, 426, 125, 152, 142, 325, 200, 227, 315, 215, 362, 262, 115, 252, 120, 232, 129, 330, 130]),
  (22228, [252, 262, 362, 152]),
  (22234, [125, 454, 152, 225, 252, 325, 156]),
  (22235, [122, 422, 322, 130, 222, 124, 125, 117, 112, 327, 243, 107, 143, 325, 115, 343, 152, 129, 332, 131, 225, 132, 227, 315, 320, 104, 215, 120, 230, 330, 238, 331, 229, 232, 317, 217, 304, 127, 220]),
  (22238, [152, 452, 252, 125, 222, 156, 224, 132, 256, 320, 130, 315, 330, 325, 115, 227, 243, 422, 215, 327, 362, 262, 220, 120, 225, 230, 204, 128, 304, 331]),
  (22239, [125]),
  (22240, [106, 434, 225, 125, 306, 115, 327, 227, 229, 152, 352, 107, 315, 325, 215, 329, 320, 330, 232, 252, 120, 230, 129, 130, 134, 156, 132, 332, 228]),
  (22241, [225]),
  (22242, [225, 125, 425, 231, 325, 100, 222, 152, 252, 331, 422, 207, 107, 332, 238, 315, 232, 320, 227, 130, 215, 200, 220, 217, 115, 117, 352, 104, 327, 120, 131, 317, 304, 135, 162, 362, 156, 143, 356]),
  (22244, [452, 152, 115, 225]),
  (22251, [107, 115]),
  (22253, [225, 125, 426, 230, 227, 330, 142, 325, 327, 217, 252, 435, 232, 229, 315, 332, 256, 238, 152, 356, 156, 231, 132, 104, 317]),
  (22256, [103, 125, 200, 452, 100, 152, 252, 325, 315, 204, 215, 120, 256, 352, 115, 320, 217, 356, 327]),
  (22257, [225, 459]),
  (22260, [225, 212, 152, 452, 252, 125, 325, 227, 156, 320, 220, 115, 327, 120, 315, 230, 204, 330, 331, 130, 132, 232]),
  (22261, [207, 315, 459]),
  (22265, [315, 125]),
  (22266, [100, 252, 125, 417, 200, 120, 152, 106, 325, 104, 454, 227, 130, 256, 215, 327, 320, 115, 230, 332, 132, 217, 229, 232, 201, 330, 129, 156, 225, 352, 315, 131]),
  (22269, [230, 125, 225, 425, 331, 142, 325, 238, 131, 327, 252, 320, 156, 117, 132, 227, 332, 104, 231, 127, 200, 330, 143, 204, 152, 256, 243, 120, 229, 315, 232, 115, 215, 228, 130, 304, 317, 220, 129, 328, 242, 217, 352, 356, 329]),
  (22270, [425, 125, 225, 252, 227, 129, 327, 325, 130, 230, 232, 256, 315, 152, 229, 330, 215, 331, 320, 332, 127, 329, 220, 217, 120, 115, 228, 156, 132, 135]),
  (22271, [454, 225, 152]),
  (22275, [426, 225, 227, 327, 130, 325])]

/-- hmm/pos/char_state_tab.go:1022-1085 -/
noncomputable def chars15 : List (Nat × List Nat) := [
  (22276, [215, 225, 459]),
  (22278, [125, 454, 225, 425, 325, 100, 227, 327, 252, 130, 262, 120, 162, 362, 152, 200, 452, 320, 315, 143, 104, 400, 215, 127, 232, 220, 132, 117, 228, 328, 343, 352]),
  (22280, [225, 222, 125, 435, 452, 152, 425, 325, 232, 352, 130, 156, 320, 422, 135, 252, 327, 227, 230, 132, 220]),
  (22281, [413, 327]),
  (22282, [413]),
  (22300, [459, 125, 227]),
  (22303, [125, 225, 425, 252, 130, 325, 330, 315, 132, 120, 320, 227, 331, 215, 327, 152, 115, 232, 256, 129, 352, 332, 100, 127, 217, 131, 362, 162, 104, 220, 229, 230, 156, 143, 117]),
  (22307, [125, 417, 130, 230, 227, 327, 200, 143, 129, 132, 252, 100, 225, 232, 127, 320, 331, 330, 325, 231, 315, 352, 215, 131, 343, 228, 329]),
  (22312, [434, 252, 243, 152, 207, 145, 225, 315, 204, 325, 156, 320, 104, 327, 352, 220, 362, 262, 115, 215, 138, 129, 100, 125, 227, 107, 120, 200, 332, 331, 228]),
  (22313, [125, 230, 130, 228]),
  (22314, [125, 130]),
  (22316, [413]),
  (22317, [230, 130, 417, 227, 125, 330, 327, 325, 225, 315, 129, 331, 131]),
  (22318, [413]),
  (22319, [227, 413]),
  (22320, [450, 125, 225, 142, 317, 242, 330, 238, 262, 252, 207, 325, 230, 215, 130, 152, 245, 315, 220, 232, 132, 320, 127, 332, 327, 227, 307, 229, 117, 120, 100, 129, 115, 104, 352, 217, 331, 342, 256, 131, 304, 235, 204, 306, 356, 343, 143, 156]),
  (22323, [230, 330, 331, 325]),
  (22329, [426, 225]),
  (22330, [225, 125, 222, 435, 242, 252, 325, 224, 142, 352, 230, 207, 238, 220, 320, 422, 215, 315, 112, 204, 217, 330, 322, 135, 235, 332, 327, 331, 200, 256, 231, 227, 232, 122, 317]),
  (22331, [230, 227, 413, 330, 327]),
  (22334, [225, 325, 459]),
  (22336, [225, 426, 252, 227, 230, 256, 330, 327, 325]),
  (22338, [330, 425, 225, 230, 127, 327, 229, 129, 130, 132]),
  (22343, [407, 200, 217, 100, 125, 325, 227, 152, 320, 207, 327, 352, 132, 101, 315, 130, 332, 156, 304, 230, 129]),
  (22346, [225, 426, 230, 125, 227, 232, 330, 327, 325, 130, 332, 304]),
  (22348, [413]),
  (22349, [152, 452, 252]),
  (22350, [426, 129, 100, 225, 227, 125, 130, 327, 135, 325, 229, 120, 329, 362, 162, 230]),
  (22351, [252, 400, 125, 152, 225, 325, 215, 320, 220, 317, 120, 262, 332, 362, 227, 315]),
  (22352, [452, 152, 252, 125, 115, 215, 325, 320, 225, 120, 315, 227, 156, 104, 132, 327, 256]),
  (22353, [425, 225, 125, 252, 230, 152, 120, 320, 315, 229, 220, 227, 325, 452, 330, 100]),
  (22359, [225, 222, 435, 238, 207, 242, 307, 125, 422, 252, 325, 215, 135, 332, 342, 232, 132, 320, 315]),
  (22362, [152, 100, 101, 227, 400, 115, 427, 125, 327, 225, 256, 325, 330, 153, 315, 252, 320, 215, 120, 129, 220, 331, 207, 131, 401, 135, 322, 230, 122, 426]),
  (22363, [225, 426, 435, 331, 230, 125, 227, 327, 120, 320, 330, 332, 232, 325, 315, 252, 130, 217]),
  (22364, [230, 330]),
  (22365, [225, 425, 125, 230, 227, 142, 330, 252, 325, 130, 331, 232, 229]),
  (22366, [426, 230, 225, 125, 330]),
  (22367, [425, 125, 225, 252, 315, 230, 325]),
  (22368, [452, 152, 215, 252, 125, 225, 325, 315, 232, 156]),
  (22369, [225, 425, 230, 125, 227, 252, 325, 330, 320, 331, 232, 229, 130, 228, 142, 256]),
  (22372, [130, 225, 230, 330, 232, 215, 125, 228, 227, 129]),
  (22374, [125, 230, 200, 227, 100, 330, 152, 417, 327, 325, 130, 331, 229, 232, 329, 332, 129, 101, 115, 162, 362, 132, 315, 320, 117, 262, 131]),
  (22376, [452, 435, 125, 325, 230]),
  (22377, [125]),
  (22378, [452, 230, 225, 227, 330, 130, 327, 426, 229, 232, 129, 125]),
  (22379, [413]),
  (22381, [413]),
  (22383, [225, 425, 125, 325, 252, 232]),
  (22387, [413, 225]),
  (22390, [459]),
  (22391, [200, 325, 320, 362, 262, 125]),
  (22395, [230, 330, 413]),
  (22396, [413]),
  (22402, [152, 452, 125, 252, 115, 227, 325, 225, 327, 315, 162, 320, 104]),
  (22403, [125, 225]),
  (22404, [152, 426, 125, 120, 325, 225, 227, 327]),
  (22406, [413, 327]),
  (22411, [225, 419, 204, 256, 125, 252, 325, 232, 238, 352, 227, 320, 330, 217, 327, 332, 356, 331]),
  (22412, [413, 227]),
  (22418, [225, 452, 252, 227, 125, 215, 152, 327, 325, 204, 232, 330, 331, 332, 315]),
  (22419, [413, 327]),
  (22427, [225, 452, 125, 325, 435, 227, 252]),
  (22432, [200, 220, 227, 426, 215, 327]),
  (22433, [413, 130])]

/-- hmm/pos/char_state_tab.go:1086-1149 -/
noncomputable def chars16 : List (Nat × List Nat) := [
  (22434, [426, 225, 315, 215, 252, 227]),
  (22435, [225, 426, 227, 230, 330, 229, 130, 215, 327, 320, 220, 315, 232]),
  (22436, [413, 327]),
  (22438, [252, 452, 156, 225, 152, 125, 256, 325, 130, 129, 227, 331, 232, 330]),
  (22439, [435, 222, 422]),
  (22441, [325, 225, 413, 343]),
  (22443, [452, 225, 125, 152, 325, 129, 252, 130, 232, 132]),
  (22445, [413, 125, 327, 227]),
  (22446, [452, 252, 152, 362, 262, 200]),
  (22452, [413]),
  (22456, [426, 225]),
  (22466, [426, 225, 327, 230, 227, 125, 330]),
  (22467, [130, 127, 230, 417, 225, 129, 327, 227, 330, 315, 331, 132, 435, 231, 329, 131, 125, 229, 332, 325, 117, 122]),
  (22475, [152, 452, 252, 256, 315, 325, 115, 156, 100, 352, 125]),
  (22478, [125, 425, 230, 225, 142, 130, 227, 252, 330, 152, 117, 325, 317, 229, 104, 327, 112, 132, 238, 329, 242, 315, 215, 331, 232, 332, 131, 120, 220, 256, 228, 115, 129, 217, 320, 328]),
  (22479, [227, 413]),
  (22482, [413, 227]),
  (22484, [330, 230, 331, 413, 327, 227, 130, 325, 332]),
  (22485, [413, 227]),
  (22488, [425]),
  (22489, [426, 225]),
  (22490, [225, 413, 227]),
  (22493, [413]),
  (22495, [225, 230, 425, 227, 325, 220, 125, 327, 356, 142, 426, 229, 352]),
  (22496, [426, 225, 230, 327, 330, 125, 238]),
  (22500, [459]),
  (22509, [413]),
  (22511, [413]),
  (22516, [413]),
  (22520, [413]),
  (22521, [152, 156, 256, 227, 125, 327, 452, 330, 320, 235, 252, 332, 220, 325, 132, 230, 129, 127]),
  (22522, [125, 100, 426, 225, 132, 107, 227, 134, 325, 330, 327, 332, 331, 127, 229, 130, 120, 252, 230, 152, 129, 320, 232, 131, 143, 329, 117, 217, 317, 352, 315, 228, 256, 417]),
  (22525, [413]),
  (22530, [225, 435, 227, 125, 230, 262, 315, 162, 252, 222, 115, 232, 327, 217, 320, 220, 325, 215, 231, 100, 200, 362, 330, 426, 207, 107, 242, 331, 129, 422, 229, 332, 228]),
  (22534, [452, 152, 225, 222, 125, 252, 435, 156, 220, 115, 227, 425, 230, 352, 330, 130, 232]),
  (22535, [225, 125]),
  (22539, [413, 227]),
  (22545, [225, 125, 220, 315, 325]),
  (22549, [152, 452, 315, 227]),
  (22553, [413]),
  (22558, [413, 225]),
  (22560, [413]),
  (22561, [230, 426, 227, 225, 125, 229, 331, 327, 330, 232, 332, 325, 132]),
  (22564, [225, 425, 125, 252, 142, 227, 327, 230, 232, 215, 229, 320, 130]),
  (22570, [252, 452, 152, 315, 227, 130, 220, 330, 215, 320, 200, 125, 327, 454, 230, 332, 120]),
  (22576, [426, 230, 227, 130, 225, 330, 132, 327, 232, 125]),
  (22581, [152, 452, 252, 222, 127, 256, 215, 217, 325, 156, 125, 330, 320, 327]),
  (22596, [413, 227]),
  (22604, [252, 452, 152, 315, 256, 362, 262, 100, 125, 156, 200, 132, 325]),
  (22605, [413, 227, 225, 230]),
  (22609, [125, 225, 152, 426, 325, 332, 252, 227, 320, 232, 132, 215, 256, 315, 327, 331, 117, 129, 217, 454]),
  (22612, [417, 225, 130, 327, 227, 127, 330, 129, 229, 125, 132, 230, 232, 332, 329, 325, 104, 304, 131, 331, 215, 231, 320]),
  (22616, [225, 417, 230, 330, 130, 327, 125, 227, 426, 229, 142, 332, 129]),
  (22622, [452, 252, 330, 225, 130, 327, 127, 227, 129, 142, 325, 125, 152, 256, 230, 229, 329, 332, 315, 200, 132, 331, 120, 117, 115, 131, 352, 217, 215, 210, 232]),
  (22629, [413]),
  (22635, [152, 452, 252, 125, 315, 227, 132, 104, 327, 325, 156, 215, 115, 120]),
  (22636, [426, 227, 230, 327]),
  (22654, [225, 125]),
  (22656, [227, 225, 413]),
  (22657, [452]),
  (22659, [225, 142, 426, 125, 242, 256, 252, 220, 325, 227, 217, 215, 331, 315, 327, 352, 343, 112, 232, 117]),
  (22661, [225, 459, 325, 330, 227, 304]),
  (22665, [227, 327, 413, 228]),
  (22674, [426, 252, 125, 227])]

/-- hmm/pos/char_state_tab.go:1150-1213 -/
noncomputable def chars17 : List (Nat × List Nat) := [
  (22675, [425, 125, 225, 252, 325, 217, 256, 215, 230]),
  (22681, [225, 425, 125, 142, 252, 315, 227, 215, 325, 232, 115, 320, 220, 104, 132, 217, 230, 130]),
  (22682, [413]),
  (22686, [152, 125, 452, 252, 327, 227, 156, 315, 215, 325, 132, 130, 320, 230, 104, 317, 229, 120, 220, 256, 304]),
  (22687, [225, 426, 327, 130]),
  (22696, [125, 130, 225, 425, 127, 252, 327, 227, 325, 129, 230, 320, 315, 330, 104, 162, 115, 215, 204, 131]),
  (22697, [452, 225, 125, 227, 362, 435, 327, 262, 230, 426, 229, 325]),
  (22716, [459]),
  (22721, [225, 125, 426, 242, 227, 142, 230, 215, 315, 435, 325, 252, 327, 222, 330, 232, 152, 304, 120, 104, 220, 320, 130, 132, 332, 115]),
  (22725, [413, 152]),
  (22737, [426, 225, 227, 325, 215, 327, 315, 252, 220]),
  (22741, [225, 125, 230, 332]),
  (22756, [225, 252, 230, 125, 325, 315, 215, 330, 332, 130]),
  (22763, [225, 125, 327, 426, 230, 227, 330, 127, 332, 325, 329, 222, 215, 331, 232, 252, 315, 220, 228, 120, 132, 229, 104, 129, 320, 130, 335, 115, 328]),
  (22764, [122, 125, 130]),
  (22766, [452, 200, 100, 152, 125, 330, 215, 327, 132, 227, 252, 315, 320, 325, 143, 101, 115, 120, 204, 220, 217, 201, 225, 352]),
  (22768, [125, 225, 222, 435, 207, 252, 315, 201, 152, 227, 320, 325, 215, 115, 204, 220, 327, 322, 120, 330, 232, 135, 235, 117, 228, 256, 331, 362, 262, 332, 156, 229, 422, 132]),
  (22771, [225, 425, 325, 125, 320, 132, 227, 232, 252, 215, 426, 131, 217, 331]),
  (22774, [225, 435, 426, 130, 227, 125, 252, 315, 330]),
  (22777, [422, 122, 227, 222, 327, 322]),
  (22788, [152, 425, 225, 242, 207, 222, 252, 125, 238, 156, 107, 422, 220, 215, 320, 325, 327, 352, 315, 231, 232, 104, 356, 115, 120, 256, 322, 204, 317, 227, 362, 262, 304, 143, 135, 230, 235, 332, 331, 117]),
  (22791, [252, 225, 256, 452, 325, 152, 200, 227, 125, 204, 156, 228, 331, 327, 220, 215, 315, 320, 162, 132, 232, 332, 107, 104, 115, 343]),
  (22797, [152, 252, 100, 207, 407, 125, 406, 327, 156, 320, 227, 315, 256, 404, 325, 409, 104, 427, 131, 132, 253, 215, 225, 331, 120, 220, 200, 229, 143, 343, 304, 130, 332, 117, 352, 228, 454]),
  (22799, [143, 127, 444, 225, 230, 227, 125, 243, 130, 330, 327, 331, 132, 332, 320, 228, 325, 252, 117, 329, 229, 256, 152, 232, 129, 131, 128, 120]),
  (22804, [427, 227, 130, 125]),
  (22805, [212, 125, 444, 243, 215, 225, 315, 330, 227, 331, 120, 343, 327, 220, 325, 130, 132, 115]),
  (22806, [125, 412, 206, 242, 212, 112, 256, 200, 252, 152, 207, 320, 325, 225, 104, 217, 220, 204, 331, 215, 131, 142, 315, 130, 227, 156, 117, 230, 317, 352, 132, 245, 327, 120, 332, 243, 100, 232, 115, 129, 229, 307, 362]),
  (22809, [125, 115]),
  (22810, [422, 122, 222, 322, 138, 107, 125, 207, 220, 252, 152, 104, 129, 100, 330, 315, 130, 200, 320, 120, 327, 156, 230, 329, 127, 132, 307, 229, 162, 225, 343, 115, 227, 325, 215, 332, 124, 238, 228, 232, 262, 331, 362, 217, 204, 117, 103]),
  (22812, [143, 243, 444, 225, 222, 125, 207, 252, 204, 152, 315, 215, 320, 220, 120, 115, 325, 227, 343, 127, 422, 104, 232, 327, 130, 129, 117, 156, 132]),
  (22815, [252, 452, 200, 152, 100, 120, 327, 320, 227]),
  (22820, [413, 143, 227, 152]),
  (22821, [413]),
  (22823, [125, 400, 200, 107, 122, 252, 138, 217, 130, 104, 331, 327, 330, 152, 132, 332, 204, 325, 115, 207, 315, 230, 127, 322, 320, 120, 101, 232, 225, 162, 117, 362, 156, 129, 227, 100, 131, 215, 143, 352, 231, 343, 304, 220, 256, 228, 142, 135, 317, 328, 329, 229, 112, 316, 262, 300, 356, 128, 307]),
  (22825, [125, 243, 222, 435, 238, 130, 225, 327, 422, 132, 104, 315, 325, 127, 135, 235, 115, 252, 142, 152, 227, 207, 320, 120, 215, 232, 129, 262, 332, 143, 230, 100, 304, 131, 330, 331, 117, 220, 352, 322, 307, 328, 107, 110, 112, 228, 128, 231, 256, 122]),
  (22826, [125, 407, 130, 327, 225, 325, 127, 227, 117, 129, 132, 100, 232, 332, 330, 142, 317, 331, 120, 329, 315, 352, 230, 228, 131, 115, 107, 217, 162, 362, 320, 152]),
  (22827, [225, 125, 227, 327, 425, 229, 230, 332, 325, 329, 130, 252, 426, 315, 330, 232, 129, 320, 331, 215, 220, 115, 228, 120]),
  (22829, [152, 454, 426, 215, 315, 227, 327, 100]),
  (22830, [225, 117, 331, 454, 231, 325, 330, 152, 227, 327, 131, 229, 317, 304, 220, 230]),
  (22831, [425, 152, 227, 125, 452, 256, 325]),
  (22833, [152, 252, 225, 452, 125, 156, 100, 315, 256, 215, 320, 352, 115, 325, 200, 220, 262, 362, 327, 229, 120, 132]),
  (22836, [225, 425, 252, 125, 222, 212, 242, 142, 325, 315, 320, 230, 100, 207, 204, 152, 115, 220, 227, 330, 104, 215, 307, 200, 256, 232, 112, 120, 327, 132, 143, 422, 352, 331, 322, 332, 107, 362, 229, 130, 343, 300]),
  (22839, [426, 227, 330, 230, 225, 252, 327, 315, 232, 130, 215, 152, 120, 125, 331, 402]),
  (22840, [152, 129, 452, 125, 252, 115, 315, 227, 327, 130, 325, 132, 220, 135, 156, 120]),
  (22841, [452, 152, 125, 225, 104, 320, 315, 130, 120, 325, 227, 156, 115, 132, 204, 232]),
  (22842, [252, 152, 452, 325, 315, 115, 215, 227, 320, 327, 256, 220, 307, 304, 156, 117, 130]),
  (22844, [413]),
  (22849, [413, 225]),
  (22850, [413, 227, 215, 327]),
  (22852, [315, 115, 215, 262, 162, 120, 320]),
  (22855, [152, 227, 200, 125, 402, 100, 225, 327, 229, 132, 115, 215, 104, 315, 325, 400, 427, 230, 232, 130, 332, 320, 220, 329, 129, 252, 304, 330, 162, 256, 156, 228, 401]),
  (22856, [207, 454, 315, 152, 327, 227, 307, 225, 331, 206, 200, 130, 215, 330, 129, 320, 230, 132, 125, 220, 252, 229]),
  (22857, [452, 152, 252, 130, 227, 327, 125, 315, 129, 320, 156, 225, 115, 325, 120]),
  (22859, [252, 152, 107, 200, 315, 325, 454, 115, 120, 220, 228, 320, 201, 227, 225, 327, 215, 132, 332, 125, 156, 256]),
  (22862, [227, 327, 427, 125, 129, 130, 329, 328, 230]),
  (22863, [452, 225, 252, 125, 325, 152, 227, 256, 204, 327, 215]),
  (22865, [125, 130, 426, 200, 227, 327, 152, 225, 127, 329, 454, 325, 252, 229, 156, 104, 132, 129, 201, 330, 230]),
  (22868, [452, 152, 252, 315, 227, 330, 162, 125, 320, 115, 229, 327, 132, 156, 131, 129, 232]),
  (22869, [215, 315, 162, 262]),
  (22870, [425, 225, 125, 232, 252, 156, 256, 152, 325, 227, 238, 332, 320, 120, 327, 217]),
  (22871, [222, 435, 125, 225, 200, 152, 422, 204, 232, 252, 325, 238, 230, 120, 220, 156, 227, 215, 132, 327, 315, 115, 104, 352, 322]),
  (22872, [227, 327, 413]),
  (22874, [427, 127, 152, 227, 327]),
  (22880, [152, 125, 454, 252, 327, 227, 256])]

/-- hmm/pos/char_state_tab.go:1214-1277 -/
noncomputable def chars18 : List (Nat × List Nat) := [
  (22882, [100, 125, 402, 152, 315, 227, 156, 200, 120]),
  (22885, [417, 127, 130, 132, 125, 117, 129, 327, 227, 229, 331, 200, 329, 330, 332, 232, 131, 317, 100, 230, 325, 217, 225, 115]),
  (22899, [125, 225, 404, 325, 132, 227, 315, 220, 320, 215, 327, 127, 117, 331, 120, 104, 317, 152, 115, 330, 130, 343, 352, 204, 228, 232, 230, 332]),
  (22900, [125, 225, 426, 325, 120, 152, 227, 229, 327, 156, 330, 115, 129]),
  (22902, [125, 225, 425, 325, 252, 327, 227, 232, 320, 120, 220, 256, 130]),
  (22904, [125, 225, 400, 252, 152, 100, 215, 315, 325, 426, 320]),
  (22905, [438, 138]),
  (22909, [400, 200, 207, 252, 152, 125, 107, 100, 122, 262, 225, 260, 220, 120, 300, 315, 162, 325, 320, 115, 130, 227, 362, 132, 322, 215, 327, 110, 217, 331, 332, 256, 228, 124, 352]),
  (22913, [225]),
  (22914, [452, 106, 138, 252, 143, 152, 320, 315, 115, 206, 327, 125, 120, 107, 227, 306, 200, 238, 130, 162, 127, 300, 343, 215, 225, 220, 228, 352, 325, 100, 230, 132]),
  (22915, [225, 227, 125, 328, 325, 327, 228, 232]),
  (22916, [152, 407, 315, 200, 125, 204, 225, 115, 156, 320]),
  (22918, [252, 325, 426, 225, 315, 125, 454, 152, 327, 227, 256, 204, 320, 332]),
  (22919, [225, 125, 426, 417, 227, 325, 117, 120, 332, 115, 331, 215, 217, 315, 327, 320, 343]),
  (22920, [225, 425, 125, 227, 320, 325, 327, 130, 215, 315, 120, 129]),
  (22922, [152, 143, 156, 117]),
  (22925, [227, 427, 252, 327, 100, 200, 125]),
  (22930, [252, 152, 125, 315, 115, 325, 156]),
  (22931, [125, 225, 252]),
  (22934, [125, 100, 225, 132, 115, 325, 152, 315, 362, 162, 129]),
  (22935, [413, 327, 227]),
  (22937, [200, 400, 215, 125, 127, 315, 225, 227, 327, 115, 130, 204, 220, 100, 320, 103, 129, 325, 203, 120]),
  (22942, [125, 426, 227, 225, 325, 252, 327]),
  (22947, [215, 413]),
  (22948, [227, 225, 459, 327]),
  (22949, [400, 200, 152, 100, 101, 252, 227, 232, 362, 125, 332, 162, 325, 225, 262, 130]),
  (22952, [252, 152, 207, 238, 132]),
  (22953, [100, 115, 327]),
  (22954, [225, 413]),
  (22955, [413, 127, 227]),
  (22958, [225, 229, 125, 129, 227, 325, 327, 329, 232]),
  (22959, [125]),
  (22962, [413, 227, 327]),
  (22969, [225, 125, 425, 227, 327, 325]),
  (22971, [125, 225, 426, 325, 227, 238, 252, 315, 115, 120, 215, 320, 220, 132, 229]),
  (22974, [425, 225, 252, 215]),
  (22982, [227, 327, 459, 225, 229, 330, 230, 332, 325, 329, 129, 320, 232, 125, 331, 235, 127]),
  (22986, [125, 425, 327, 325, 227]),
  (22987, [252, 454, 107, 200, 152, 325, 125, 327, 320, 115, 315, 330, 232, 215, 256, 225, 207, 352, 230, 129, 227, 130, 329, 204, 220]),
  (22992, [225, 125, 227, 425, 327, 325, 215, 230]),
  (22993, [125, 225, 425, 325, 227, 327, 152, 107, 130, 330, 104, 115, 230, 409, 120, 320, 315]),
  (22994, [413, 227]),
  (22995, [225, 452, 125, 252, 204, 215, 228, 327, 230, 227, 325, 315, 220, 256]),
  (22996, [125, 225, 331, 152, 417, 325, 217, 231, 317, 227, 130, 100, 156, 320, 117, 107, 115, 454, 327, 315, 101, 252, 120, 426, 232, 131, 304, 332, 228]),
  (22999, [115, 315, 427, 227, 327]),
  (23000, [125, 152]),
  (23002, [127, 227, 230, 422, 427, 122, 128, 325, 327, 330, 130, 222]),
  (23004, [127, 425, 225, 327, 227, 125, 130, 128, 115]),
  (23005, [413, 227, 327]),
  (23011, [162, 125]),
  (23013, [327, 227, 125, 225, 228, 328, 330, 130]),
  (23016, [125, 327, 425, 225, 227, 325, 220]),
  (23020, [427, 127, 227, 225, 327, 220, 228, 129, 128, 229]),
  (23033, [115]),
  (23035, [225, 125, 252, 325, 315, 327, 332]),
  (23039, [125, 225, 426, 315, 200, 215, 320, 227, 220, 327, 325, 232]),
  (23041, [156, 125, 225, 227, 230, 130, 426, 129, 427, 100, 330, 327, 252, 325, 152, 132, 232, 115, 215, 320, 127, 331, 315, 256, 131, 220, 329, 332, 120, 229, 228]),
  (23043, [426, 225, 125, 227, 132, 325, 327, 229, 131, 232, 331]),
  (23044, [127, 417, 130, 427, 330, 125, 225, 227, 352]),
  (23045, [227, 459, 229, 327]),
  (23046, [200, 459, 215]),
  (23047, [100, 452, 227, 252, 125, 400, 152, 327, 162, 115, 315, 225, 215, 325, 362, 120, 200]),
  (23048, [125, 327, 413]),
  (23049, [162, 362])]

/-- hmm/pos/char_state_tab.go:1278-1341 -/
noncomputable def chars19 : List (Nat × List Nat) := [
  (23052, [459, 225, 327, 227]),
  (23057, [262, 125, 130, 120, 320]),
  (23059, [120, 320, 115, 315, 107, 207, 227, 127, 327]),
  (23064, [225, 425, 125, 227, 327, 325, 252, 220, 320, 330, 329]),
  (23068, [227, 459, 229, 327, 129, 232, 262, 200, 315, 362, 330, 230]),
  (23071, [100, 228, 225, 227, 229, 328]),
  (23072, [252, 343, 256, 413]),
  (23075, [413, 227]),
  (23077, [225, 330, 320, 125, 227]),
  (23081, [252, 454, 325]),
  (23089, [156, 125, 454, 252, 225, 200, 227, 325, 327]),
  (23090, [225, 459, 320, 227, 327]),
  (23092, [100, 327]),
  (23094, [452, 252, 152, 156, 225, 215, 220]),
  (23100, [125, 252, 225, 215, 256, 220, 325]),
  (23104, [100, 115]),
  (23110, [225, 125, 227, 426, 327, 325, 315, 129, 162, 115, 130, 228, 132, 332, 252, 230, 120, 220, 215]),
  (23113, [200, 100, 327, 409, 402, 107, 152, 262, 120, 201, 227, 162, 125]),
  (23114, [125]),
  (23125, [227, 459, 327, 125]),
  (23130, [252, 125, 426, 325, 225, 143, 117, 156, 256, 120, 315, 220, 152, 215, 104, 332, 132, 454]),
  (23138, [225, 125, 315]),
  (23143, [227, 413, 327]),
  (23146, [200, 459, 227, 315]),
  (23156, [125, 426, 225, 227, 325, 252, 327, 229, 332, 117, 132]),
  (23157, [125, 225, 327]),
  (23158, [125, 225, 325, 327]),
  (23159, [227, 327, 459, 232, 215, 315, 262, 362, 229]),
  (23162, [130, 125]),
  (23167, [225, 426, 252, 215, 227]),
  (23186, [125, 225, 426, 325, 252, 220, 315, 215, 331, 152, 227]),
  (23194, [200, 454, 327, 252, 125, 227, 203, 315, 215, 100, 152]),
  (23195, [459, 227, 327, 229]),
  (23210, [413, 227, 327]),
  (23218, [152]),
  (23219, [125, 225, 325, 426, 327, 227, 320]),
  (23221, [413]),
  (23224, [413, 327, 225]),
  (23230, [152, 252]),
  (23233, [452, 252, 152, 225, 125, 115, 215, 320, 325]),
  (23234, [125, 225, 426, 227, 325, 327]),
  (23241, [152, 454, 115, 252, 315, 256]),
  (23244, [452, 125, 252, 152, 225, 200, 220, 227, 115, 327]),
  (23250, [459, 225, 227]),
  (23252, [227, 413, 225, 125, 327]),
  (23254, [452, 152, 125, 320, 156]),
  (23256, [413, 125]),
  (23260, [413]),
  (23264, [413]),
  (23265, [125, 104, 152]),
  (23267, [228, 115, 104, 315, 162, 327, 120]),
  (23270, [125, 120, 327]),
  (23273, [400, 200, 125, 230, 130, 330, 104, 227, 327, 262, 162, 331, 362, 325, 217, 220]),
  (23275, [413]),
  (23281, [413, 227, 327]),
  (23305, [152, 454, 115, 120, 227, 327, 215, 125, 156]),
  (23318, [413]),
  (23319, [152, 252, 156]),
  (23346, [413]),
  (23348, [413, 127, 327, 227]),
  (23351, [125, 225, 227, 327]),
  (23360, [225, 152, 125]),
  (23376, [225, 426, 227, 125, 325, 327, 222, 127, 220, 252, 320, 232, 230, 238, 315, 330, 215, 235, 322, 332, 352, 130, 243, 331, 229, 231, 143, 120, 207, 304, 115, 129, 356, 328, 317, 200, 329, 132, 128, 228]),
  (23377, [125, 115])]

/-- hmm/pos/char_state_tab.go:1342-1405 -/
noncomputable def chars20 : List (Nat × List Nat) := [
  (23379, [225]),
  (23380, [127, 225, 425, 125, 252, 227, 427, 327, 128, 204, 325, 130, 315, 215, 120, 256, 220, 229, 129, 232, 330, 104, 115, 329, 332]),
  (23381, [252, 125, 152, 417, 143, 325, 256, 426, 225, 132, 343, 117, 454, 227, 327, 332]),
  (23383, [425, 225, 125, 325, 252, 232, 320, 220, 315, 356, 256, 115, 215, 327, 352, 227, 331, 332, 304, 330, 204, 207, 132, 128, 130]),
  (23384, [152, 252, 125, 452, 225, 156, 325, 327, 256, 227, 320, 315, 220, 215, 200, 117, 107, 343, 332, 304, 228, 120, 132, 128, 115]),
  (23385, [127, 427, 227, 225, 125, 327, 128, 325, 330, 132, 230, 215, 315, 130, 320, 220, 228, 329]),
  (23386, [227, 454, 232, 129, 327, 331, 332, 320, 130, 330]),
  (23387, [413, 227]),
  (23388, [332, 330, 230, 232, 362, 262, 120, 320, 115, 315, 229, 125, 329, 343]),
  (23389, [426, 327, 227, 125, 152, 130, 252, 200, 329, 225, 129, 132, 215, 115, 320, 328, 325, 315, 127, 220, 156, 330]),
  (23391, [127, 417, 130, 327, 125, 227, 129, 132, 100, 325, 330, 329, 230, 143, 128, 331, 228, 115, 131, 229]),
  (23394, [125, 225, 232, 332, 325]),
  (23395, [125, 324, 243, 222, 225, 426, 127, 120, 327, 227, 204, 325, 220, 435, 422, 238, 320, 217, 252, 304, 132, 129, 427, 330, 329, 128, 229, 115, 156, 230, 328, 143]),
  (23396, [400, 125, 100, 152, 426, 115, 127, 162, 120, 315, 227, 252, 327, 130, 362, 104, 225, 330, 220, 320, 101, 117]),
  (23397, [413, 227]),
  (23398, [225, 125, 325, 452, 231, 152, 331, 252, 327, 220, 320, 332, 227, 256, 217, 200, 315, 229, 232, 120, 317, 352, 115, 215, 304, 104, 117, 330, 132, 130, 128, 129, 156, 228, 230, 328, 143]),
  (23401, [125, 225, 325, 332, 426, 327, 227, 352]),
  (23402, [104, 125]),
  (23404, [125]),
  (23408, [438, 120, 320, 152]),
  (23409, [100]),
  (23411, [152]),
  (23413, [152, 452, 143, 156, 125, 132]),
  (23418, [225, 125, 315, 228, 129, 327, 115]),
  (23421, [402, 225, 252, 125, 315, 132, 115]),
  (23425, [227, 230, 130, 330, 417, 127, 327, 107, 200, 100, 229, 232, 325, 128, 331, 125, 152, 217, 228, 225, 215, 115, 206, 332, 315, 132, 129, 329, 407, 317, 131, 106, 320, 252, 120]),
  (23427, [438, 138, 238, 225, 315]),
  (23428, [459, 225]),
  (23429, [225, 426, 125, 325, 227, 327, 315, 204, 229, 132, 130]),
  (23431, [125, 227, 225, 127, 327, 120, 427, 132, 232, 315, 331, 426, 332, 330, 142, 215, 129, 231, 328, 229]),
  (23432, [252, 452, 152, 225, 200, 125, 327, 256, 325, 227, 315, 100, 215, 115, 320, 120, 220, 156, 129, 330, 328, 127, 356]),
  (23433, [152, 452, 103, 230, 130, 127, 225, 227, 200, 100, 330, 232, 325, 125, 327, 252, 331, 132, 229, 215, 129, 332, 115, 315, 117, 162, 220, 362, 320, 120, 131, 143, 262, 135, 128, 156, 317, 222, 235, 231, 329, 101, 228, 217, 256, 328, 224]),
  (23435, [127, 427, 243, 143, 227, 327, 125, 435, 128, 444, 130, 204, 129, 131, 325, 330, 120]),
  (23436, [152, 101, 452, 100, 252, 125, 320, 127, 115, 327, 129, 362, 162, 315, 130, 120, 227, 132, 156]),
  (23439, [125, 327, 100, 427, 227, 132, 417, 315, 200, 330, 232, 230, 332, 262, 220, 130, 120, 320, 328, 432, 331, 129, 228, 152]),
  (23443, [427, 127, 227, 327]),
  (23445, [413, 252, 320, 220, 129, 327]),
  (23447, [125, 327, 227, 222, 435, 127, 225, 229, 232, 204, 328, 422, 315, 252, 215, 130, 132, 330, 322, 129, 131, 325, 331, 228]),
  (23448, [125, 225, 425, 252, 127, 227, 327, 130, 220, 315, 325, 330, 152, 132, 120, 352, 230, 320, 115, 304, 129, 229, 331, 332, 156, 317]),
  (23449, [225, 325, 320, 129, 227, 413, 327, 332]),
  (23450, [252, 207, 225, 200, 452, 325, 125, 152, 156, 107, 204, 256, 220, 320, 230, 327, 130, 227, 215, 330, 315, 104, 120, 203, 232, 129, 307, 304, 352, 332, 262, 331, 217, 328, 132]),
  (23451, [227, 127, 152, 230, 427, 130, 232, 407, 327, 153, 129, 332, 325, 330, 100]),
  (23452, [454, 252, 200, 225, 130, 215, 327, 100, 152, 227, 127, 330, 320, 125, 315, 132, 325, 129, 220, 229, 230, 352, 228, 232]),
  (23453, [127, 125, 425, 225, 227, 327, 132, 232, 130, 100, 325, 129, 229, 215, 315, 131, 330, 204, 252, 332, 220, 452, 230, 328, 304, 331, 115, 228, 317, 120]),
  (23454, [152, 125, 107, 207, 225, 200, 252, 201, 400, 156, 320, 325, 362, 227, 215, 262, 100, 315, 162, 115, 120, 327, 332, 220, 104, 301, 232, 331, 132, 142, 204, 143, 307, 228, 256, 101, 131]),
  (23456, [452, 152, 125, 252, 200, 256, 315, 227, 327, 215, 225, 115, 120]),
  (23457, [152, 156, 252, 452, 225, 256, 100, 125, 317, 325, 327, 115, 330, 204, 217, 331, 227, 132, 230, 117]),
  (23458, [125, 225, 426, 227, 252, 100, 325, 217, 152, 215, 327, 117, 229, 320, 162, 362, 200, 256, 220, 315, 331, 317, 232, 120, 332, 132, 330]),
  (23459, [152, 156, 125, 127, 327, 427, 227, 130, 143, 331, 215, 317, 320, 117, 332, 315, 217, 329]),
  (23460, [225, 425, 142, 125, 227, 232, 231, 327, 252, 325, 215, 315, 229, 217, 224, 331]),
  (23461, [413, 252, 225, 227]),
  (23462, [125, 427, 225, 127, 227, 327, 215, 152]),
  (23466, [125, 227, 327, 217, 325, 427, 256, 225, 332, 417, 129, 252, 131, 426, 320, 215, 328, 130, 329]),
  (23467, [125, 225, 427, 127, 142, 227, 426, 230, 252, 112, 327, 330, 129, 325, 352, 130, 229, 232, 120, 220, 329, 104, 315, 331]),
  (23472, [125, 452, 252, 127, 227, 152, 229, 325, 327, 315, 143, 330, 132]),
  (23475, [252, 152, 225, 200, 452, 325, 125, 220, 100, 256, 215, 315, 204, 332, 227, 115, 352, 217, 320, 356, 132]),
  (23476, [225, 125, 426, 252, 152, 427, 227, 327, 230, 320, 229]),
  (23477, [225, 444, 343, 227, 125, 243, 315, 152, 115, 327]),
  (23478, [225, 435, 125, 238, 222, 422, 142, 252, 327, 220, 325, 331, 117, 330, 230, 315, 228, 320, 227, 332, 207, 120, 304, 232, 115, 132, 152, 127, 215, 135, 235, 204, 100, 256, 317, 338, 104, 310, 352, 200, 129, 130, 322, 328, 229, 329]),
  (23480, [227, 413, 327, 332]),
  (23481, [225, 100, 252, 125, 452, 320, 152, 325, 227, 315, 127, 200, 256, 327, 307, 215, 262, 115, 220, 230, 130, 129, 330, 232, 362, 156, 229, 132, 317, 104, 352, 332]),
  (23485, [400, 100, 125, 252, 152, 227, 225, 327, 156, 115, 217, 162, 130, 362, 120, 215, 256, 104, 315, 320, 220, 132, 331]),
  (23486, [230, 125, 225, 425, 227, 327, 325, 127, 130, 330, 229, 252, 215, 331, 329, 131, 315, 256, 332, 129, 320, 115, 427, 220, 132, 120]),
  (23487, [125, 252, 452, 127, 225, 130, 435, 152, 227, 220, 325, 327, 215, 330, 230, 256, 315])]

/-- hmm/pos/char_state_tab.go:1406-1469 -/
noncomputable def chars21 : List (Nat × List Nat) := [
  (23490, [100, 252, 200, 402, 162, 203, 215, 262, 227, 315, 152, 325, 120, 327]),
  (23492, [452, 152, 327, 125, 156, 252, 325, 115, 127, 256, 227, 130]),
  (23493, [423, 227, 328, 327, 222, 320, 143, 322, 115, 125, 243]),
  (23494, [125, 200, 101, 225, 400, 100, 152, 325, 201, 227, 130, 252, 327, 230, 162, 362, 256, 315, 229, 120, 330, 204, 215, 156, 132, 129, 127, 320, 331, 304, 131, 329, 104, 332, 115, 352, 232]),
  (23495, [225, 427, 127, 426, 229, 227, 327, 215, 315, 125]),
  (23500, [200, 225, 125, 400, 152, 100, 127, 330, 327, 227, 232, 252, 315, 130, 132, 115, 325, 220, 129, 131, 320, 229, 156, 120, 128, 230, 332, 215, 331, 328, 352, 104, 356, 228, 329]),
  (23504, [454, 315, 252, 215]),
  (23506, [125, 100, 402, 225, 400, 200, 152, 203, 204, 127, 252, 315, 427, 227, 327, 325, 143, 256, 215, 130, 243, 342, 220, 120, 320, 115, 132, 332]),
  (23507, [125, 225, 454, 152, 252, 325, 120, 115, 327, 227, 304]),
  (23517, [125, 426, 454, 225, 252, 120, 215, 315, 227, 115]),
  (23518, [200, 215, 402, 227, 413]),
  (23519, [252, 325, 225, 417, 152, 256, 204, 227, 331, 130, 125, 330, 454, 327, 315, 115, 317, 129, 220, 332, 230, 320, 229, 156, 120]),
  (23521, [125, 402, 315, 225, 115, 252, 320, 152, 325, 120, 100, 327, 204, 215, 220, 317]),
  (23524, [152]),
  (23525, [162, 262, 115, 315, 427, 200, 100, 327]),
  (23528, [426, 225, 227, 230, 125, 330, 327, 229, 232, 215, 331, 325, 332, 220]),
  (23534, [413, 230, 229]),
  (23536, [125, 215, 225, 220, 228, 327]),
  (23544, [225, 222, 435, 422, 315, 115, 125, 120, 200, 235, 320, 325, 220, 327, 252, 152, 215]),
  (23545, [434, 134, 207, 152, 125, 252, 156, 222, 234, 325, 107, 120, 320, 100, 112, 200, 422, 142, 215, 225, 306, 115, 220, 315, 304, 101, 132, 312, 322, 352, 327, 131, 256, 331, 122, 104, 332, 130, 227]),
  (23546, [426, 230, 125, 227, 225, 142, 327, 232, 238, 130, 229, 330, 129]),
  (23547, [152, 452, 252, 127, 100, 315, 320, 227, 115, 120, 327, 156, 125, 130, 215]),
  (23548, [225, 152, 125, 325, 252, 256, 452, 204, 217, 227, 156, 417, 320, 215, 327, 220, 331, 304, 332, 104]),
  (23551, [125, 225, 227, 127, 327, 427, 130, 230, 426, 200, 325, 252, 315, 215, 115, 330, 454, 232, 204, 331, 320, 156]),
  (23553, [435, 252, 125, 100, 152, 127, 222, 120, 230, 330, 225, 227, 325, 156, 304, 327, 256, 320, 143, 315, 130, 115, 422, 132, 215, 207, 117, 331, 220, 129, 204, 332]),
  (23556, [252, 125, 325, 452, 156, 152, 225, 256, 220, 232, 320, 204, 332, 227, 130, 331, 215, 327, 352, 304, 315, 342, 120, 131, 132, 129]),
  (23558, [407, 125, 225, 207, 143, 107, 325, 327, 315, 115, 215, 152, 227, 252, 220, 320, 130, 104, 129, 330]),
  (23561, [225, 227, 127, 427, 327, 130, 125]),
  (23562, [152, 435, 125, 222, 252, 100, 225, 327, 227, 325, 315, 256, 422, 215, 156, 115, 320, 120, 220, 129]),
  (23567, [125, 400, 127, 327, 225, 204, 200, 152, 317, 252, 325, 207, 104, 107, 162, 362, 101, 320, 217, 262, 315, 115, 130, 304, 132, 129, 229, 120, 220, 227, 143, 352, 122, 100, 322, 335, 328, 331, 156, 117, 215, 330, 329, 128, 231, 230, 131, 332]),
  (23569, [400, 252, 238, 207, 222, 125, 122, 327, 325, 152, 200, 100, 220, 120, 322, 215, 225, 320, 127, 107, 130, 227, 115, 117, 315, 331, 132, 129, 131, 104, 330, 317, 217, 124, 128, 229, 162, 362]),
  (23572, [227, 330, 327, 230, 329, 427, 229, 332, 127, 325, 232, 207, 225, 331, 129, 231, 106, 328, 315, 335, 215, 461, 135, 320, 115, 125, 343, 100, 252, 130, 138]),
  (23573, [130, 332, 330]),
  (23574, [400, 100, 225, 125, 152, 325, 104, 252, 200, 130, 220, 227, 327, 120, 204, 320, 115, 300, 315, 304, 156, 217, 230, 330]),
  (23576, [225, 426, 125, 315, 115, 227, 252, 325, 215, 152, 256, 327, 232, 220, 320, 332]),
  (23578, [407, 107, 225, 125, 152, 127, 327, 227, 200, 252, 106, 320, 229, 130, 315, 100, 115, 332, 129, 330, 128, 325, 352, 120, 110, 132, 215]),
  (23580, [459]),
  (23581, [152, 452, 207, 252, 156, 315, 327, 125, 227, 320, 120, 115]),
  (23588, [107, 407, 127, 327, 225, 227, 129, 130, 125, 315, 215, 132, 252, 128, 325, 320, 229, 117, 330, 329]),
  (23589, [152]),
  (23591, [427, 227, 327, 125, 130, 330, 129, 225, 215, 329, 229]),
  (23596, [200, 459, 215, 203]),
  (23601, [407, 107, 152, 207, 225, 320, 252, 106, 315, 306, 215, 125, 128, 307, 115, 325, 227, 120, 220, 327, 156, 132]),
  (23604, [100, 315, 103]),
  (23608, [125, 426, 225, 152, 252, 227, 315, 325, 115, 215, 120, 132, 332]),
  (23609, [127, 427, 227, 225, 327, 232, 130, 128]),
  (23610, [125, 222, 225, 435, 227, 215, 235, 422, 325, 315, 220, 304, 320, 252, 115, 352, 332, 330]),
  (23611, [413]),
  (23612, [227, 330, 327, 417, 130, 127, 229, 325, 230, 125, 225, 332, 129, 232, 331, 329, 132, 131, 320, 117, 220]),
  (23613, [106, 452, 107, 252, 207, 152, 315, 112, 215, 120, 115, 200, 320, 220, 227, 327, 225, 262, 204, 100]),
  (23614, [425, 125, 225, 325, 215, 435, 252, 230, 222, 152, 229, 130, 327, 112, 243, 227, 315, 352, 422, 115, 330, 220, 426, 129, 256, 132]),
  (23615, [425, 325, 125, 252, 225, 452, 152, 332, 227, 315, 117]),
  (23616, [225, 125, 425, 231, 217, 152, 238, 252, 222, 325, 227, 100, 422, 331, 117, 215, 220, 304, 115, 232, 104, 317, 315, 320, 330, 132]),
  (23617, [125, 425, 252, 225, 327, 115, 227, 320, 325, 315, 352]),
  (23618, [225, 435, 222, 125, 204, 212, 422, 304, 325, 135, 235, 320, 220, 115, 252, 322, 162, 227, 122, 207, 217, 132, 362, 262, 327, 315, 120, 232, 352, 152, 200]),
  (23621, [125, 452, 252, 327, 152, 225, 107, 127, 328, 325, 227, 120, 130, 315, 115, 229, 117, 156, 135, 230, 217, 332, 256, 215, 129, 220, 320, 330, 232, 331, 204]),
  (23624, [252, 125, 152, 127, 452, 315, 115, 215, 256, 225, 200, 327, 227, 130, 100, 325, 220]),
  (23625, [225, 304, 125, 332]),
  (23626, [222, 238, 107, 422, 217, 204, 435, 332, 252, 152, 331, 125, 225, 215, 320, 142]),
  (23627, [225, 125, 142, 425, 252, 230, 232, 132, 315, 325, 327, 330, 227, 329, 215, 331, 130]),
  (23630, [425, 252, 225, 125, 325]),
  (23631, [125, 426, 225, 152, 227, 130, 327, 132, 330, 229, 252, 315, 115, 230, 232, 320, 120]),
  (23632, [225, 413]),
  (23633, [225, 425, 325, 252, 315, 426, 232, 200, 215])]

/-- hmm/pos/char_state_tab.go:1470-1533 -/
noncomputable def chars22 : List (Nat × List Nat) := [
  (23637, [256, 252, 152, 320, 325, 454, 125, 217, 231, 225, 156, 227, 331, 327, 127, 232, 215, 220, 200, 330, 426, 104, 332, 128, 362, 262, 328, 117, 132, 352]),
  (23641, [413]),
  (23646, [452, 225, 152, 252, 125, 256, 325, 204, 220, 332, 227, 330, 320, 100, 327, 331, 215, 304, 217, 156]),
  (23648, [156, 152, 125, 452, 127, 325, 227, 327, 225, 332, 215, 232, 315, 330, 229, 130]),
  (23649, [407, 107, 207, 115, 120, 320]),
  (23651, [413, 225, 220]),
  (23653, [152, 125, 227, 454, 104, 225, 426, 327, 315, 320, 220, 156, 215, 325, 115]),
  (23654, [413]),
  (23663, [452, 152, 125, 230, 227, 130, 327, 225, 330, 252, 426, 315, 156]),
  (23665, [125, 230, 425, 130, 225, 227, 330, 142, 127, 252, 325, 327, 315, 129, 332, 215, 229, 320, 256, 232, 331, 132, 115, 131, 120, 112, 220, 152, 228, 328, 329, 117, 231, 217, 342]),
  (23673, [227, 152, 454, 315, 327, 320, 107]),
  (23674, [413, 327]),
  (23679, [225, 426, 227, 230, 330, 327]),
  (23681, [422, 222, 225, 435, 125, 143, 256, 325, 252, 243, 315, 227, 320, 220, 115, 215, 352, 120, 327, 132, 235]),
  (23682, [407, 152, 107, 115, 106, 227, 327, 125, 328]),
  (23688, [413]),
  (23692, [115, 315, 162, 362]),
  (23693, [413]),
  (23696, [130, 426, 227, 327, 229, 129, 328]),
  (23697, [127, 227, 427, 327, 128, 100, 130]),
  (23700, [452, 125, 152, 330, 225, 252, 204, 130, 320, 342, 352, 230, 227]),
  (23702, [200, 315, 459]),
  (23703, [425, 125, 325, 230, 227, 252, 225, 256, 327, 330, 130, 142, 320, 229, 317, 120, 331, 220]),
  (23704, [227, 413, 130, 230]),
  (23705, [413, 327]),
  (23706, [227, 427, 130, 327, 230, 229, 225]),
  (23707, [230, 225, 425, 125, 142, 227, 325, 229, 330, 331, 327, 232, 217, 332, 228, 130, 127, 129, 315, 329]),
  (23708, [413]),
  (23714, [413, 327, 129, 227]),
  (23715, [413, 130]),
  (23721, [225, 125, 227, 427, 230, 327, 426, 330, 232, 130, 252, 325, 129, 220, 152, 115, 315, 229, 331, 328]),
  (23723, [413, 130, 227, 327, 132]),
  (23724, [125]),
  (23725, [230, 425, 225, 227, 229, 125, 325, 330, 327, 215, 142, 130, 332, 220, 232, 131, 217, 252, 426, 331]),
  (23729, [228, 130, 129, 125, 328, 230, 330]),
  (23731, [127, 227, 125, 425, 225, 130, 230, 327, 330, 131, 426, 129, 229, 232, 215, 132]),
  (23733, [413, 227]),
  (23735, [130, 413, 227, 327, 132]),
  (23736, [225, 242, 212, 425, 142, 325, 125, 252, 227, 256, 327, 315, 229, 230, 200, 330, 215, 331, 127, 220, 328, 162, 232, 228]),
  (23741, [413, 227]),
  (23743, [115, 107]),
  (23745, [413, 227, 225, 327]),
  (23748, [413, 227, 130]),
  (23755, [459, 262, 220, 215, 227]),
  (23762, [413, 330, 230, 227]),
  (23769, [252, 454, 227, 330, 230, 327]),
  (23777, [225, 230, 125, 417, 227, 332, 325, 331, 330, 130, 327, 320, 426]),
  (23780, [227, 413, 327]),
  (23781, [162, 227, 427, 327, 315, 115]),
  (23782, [225, 413, 315, 227, 327, 320]),
  (23784, [130, 262, 125, 115, 330, 229]),
  (23786, [413, 227, 330, 327, 230, 129, 229]),
  (23789, [125, 200, 402, 315, 100, 227, 215, 262, 220, 327]),
  (23792, [225, 227, 125, 427, 230, 325, 435, 222, 330, 232, 327, 132, 229, 115, 315, 217, 252, 422, 426, 332, 130, 228, 220]),
  (23803, [200, 402, 315, 227, 262, 203, 327, 100, 125, 320, 152, 325, 330, 232]),
  (23810, [413, 130]),
  (23811, [413, 330, 230, 327, 227]),
  (23814, [130, 413]),
  (23815, [129, 152, 327, 427, 252, 100, 130, 227, 115, 132, 454, 125, 320, 143, 131, 256, 315, 402]),
  (23822, [100, 230, 330, 115, 229, 327, 227]),
  (23828, [127, 427, 327, 128, 227]),
  (23830, [426, 225, 125, 227, 315, 230, 327, 142, 130, 152, 232, 325, 330]),
  (23835, [152, 200]),
  (23838, [413])]

/-- hmm/pos/char_state_tab.go:1534-1597 -/
noncomputable def chars23 : List (Nat × List Nat) := [
  (23844, [413, 115]),
  (23846, [459, 125]),
  (23849, [152, 452, 315, 252, 225, 125, 325, 327, 156, 215]),
  (23853, [104, 115, 401, 362, 262, 152, 227]),
  (23854, [413, 230, 332]),
  (23860, [452, 230, 227, 327]),
  (23869, [125, 325, 225]),
  (23879, [127, 427, 132, 327, 227]),
  (23882, [413, 130, 129]),
  (23883, [413, 225, 325, 227, 327]),
  (23884, [452, 252, 152, 325, 227, 125, 132, 156]),
  (23896, [262, 227, 459, 215, 315, 327]),
  (23899, [413, 330, 327]),
  (23901, [413, 230, 227]),
  (23913, [130, 413, 227, 327, 332, 125, 228, 129]),
  (23915, [459, 225]),
  (23916, [413, 227, 330]),
  (23919, [459, 162]),
  (23924, [413]),
  (23938, [413, 225, 215, 227]),
  (23961, [162, 320, 315]),
  (23965, [413]),
  (23991, [413, 227, 330]),
  (24005, [125, 225, 426, 227]),
  (24013, [227, 427, 327, 162, 262, 362, 107, 130, 115, 127, 228]),
  (24029, [230, 225, 417, 330, 227, 130, 331, 127, 229, 327, 125, 232, 132, 117, 332, 325, 115, 220, 129, 215, 343, 207, 228, 315]),
  (24030, [230, 425, 330, 227, 225, 125, 331, 327, 238, 232, 229, 325, 332, 104, 217, 315]),
  (24033, [125, 152, 435, 156, 454, 252, 227, 120, 327, 132, 332, 317, 228, 256, 315]),
  (24034, [225, 425, 127, 130, 125, 252, 227, 452, 327, 320, 325, 232, 132, 315, 330, 331, 215, 304]),
  (24037, [125, 156, 225, 256, 325, 252, 425, 117, 331, 320, 120, 217, 227, 100, 332, 132, 232, 220, 104, 317, 315, 215, 207, 130, 152, 304, 327, 330, 231, 352, 115, 103, 200, 362, 162, 228, 131, 127, 229]),
  (24038, [122, 412, 127, 125, 112, 322, 115, 142, 128, 130, 117, 327, 320, 330, 252, 230, 204, 120, 227, 104, 129, 229, 152, 315, 107, 132, 331, 100]),
  (24039, [225, 200, 127, 400, 100, 207, 152, 125, 227, 401, 315, 115, 327, 215, 325, 252, 320, 328, 129, 201, 156]),
  (24040, [100, 125, 104, 127, 402, 426, 200, 327, 132, 315, 227, 325, 156, 130, 152, 115, 129, 332, 131, 304, 120]),
  (24041, [152, 127, 130, 227, 427, 125, 228, 327]),
  (24043, [125, 427, 127, 130, 225, 426, 215, 327, 315, 330, 227, 115]),
  (24046, [125, 400, 225, 120, 252, 200, 107, 152, 315, 320, 227, 115, 325, 156, 220, 215, 256, 132, 100, 129]),
  (24047, [125, 413, 227]),
  (24049, [238, 438, 125, 215, 225, 315, 227, 325, 332, 220, 252, 122, 320, 138, 327, 115, 132]),
  (24050, [407, 107, 152, 207, 260, 252, 129, 200, 320, 215, 220, 315, 238, 325, 143, 156, 125, 227, 327, 245, 225, 332]),
  (24051, [423, 222, 227, 229, 327, 322, 143]),
  (24052, [130, 225, 127, 417, 330, 327, 325, 129, 125, 230, 227, 152, 329, 262, 362, 132, 332, 229, 252, 117, 331, 131, 120, 207, 307, 200, 232, 320, 315, 352, 215, 220, 233, 235, 104, 204, 304, 162]),
  (24055, [426, 225, 125, 215, 142, 152, 227, 315, 230, 325, 220, 130, 232, 327, 320, 330]),
  (24061, [413, 327, 227, 130]),
  (24062, [225, 426, 327, 227, 320, 115, 325, 104, 315, 125, 215, 132, 120]),
  (24065, [225, 320, 425, 331, 325, 125, 252, 356, 217, 220, 227, 256, 232, 327, 127]),
  (24066, [125, 225, 252, 230, 425, 142, 217, 325, 331, 152, 238, 352, 330, 104, 320, 117, 120, 327, 204, 215, 332, 227, 315, 130, 304, 229, 356, 220, 115, 122, 317, 135, 132, 256, 322, 129, 127]),
  (24067, [252, 125, 127, 225, 425, 152, 330, 325, 130, 227, 327, 129, 230, 132, 329, 229, 215, 232, 304, 120, 315, 320, 156, 331, 256, 220, 117, 131, 452, 104, 115, 332]),
  (24069, [225, 227, 400, 127, 325, 252, 327, 427, 100, 125, 454, 232, 426]),
  (24070, [227, 425, 125, 232, 225, 315, 327, 252, 325, 228, 220]),
  (24072, [225, 426, 125, 127, 227, 327, 252, 152, 325, 331, 230, 315, 215, 217, 231, 117, 330, 332, 320, 220, 104, 115, 317, 343, 304, 156, 238, 232, 256, 129, 120, 143]),
  (24076, [152, 130, 327, 127, 330, 417, 227, 125, 129, 452, 132, 332, 229, 232, 131, 100, 329, 120, 156, 115, 331, 320]),
  (24079, [125]),
  (24080, [435, 125, 426, 225, 252, 222, 215, 132, 325]),
  (24081, [413, 225]),
  (24084, [413, 225, 215]),
  (24085, [127, 426, 225, 327, 130, 227, 129, 329, 330, 332, 229, 132, 230, 232]),
  (24086, [435, 225, 125, 426, 200, 227, 222, 252, 315, 362, 262, 325, 422]),
  (24088, [225, 125, 435, 426, 325, 315, 220, 227, 252, 232]),
  (24089, [435, 320, 225, 327]),
  (24090, [225, 426, 325, 315]),
  (24091, [426, 225, 227, 125, 327, 252, 215]),
  (24092, [225, 215, 426, 315, 435, 252, 227, 327]),
  (24093, [225, 125, 227, 417, 229, 252, 325, 426, 327, 127, 330, 332, 331, 232, 115, 129, 215, 320, 130, 217, 315]),
  (24102, [452, 152, 225, 252, 325, 125, 304, 315, 227, 320, 107, 232, 256, 132, 327, 204, 229, 215, 207, 217, 156, 100, 332, 130, 331, 307])]

/-- hmm/pos/char_state_tab.go:1598-1661 -/
noncomputable def chars24 : List (Nat × List Nat) := [
  (24103, [435, 225, 222, 227, 422, 327]),
  (24109, [225, 252, 125, 435, 325, 222, 152, 320, 127, 422, 315, 115, 220, 227, 215, 331, 207, 107, 327, 330, 129, 128]),
  (24110, [152, 452, 125, 222, 225, 224, 217, 252, 227, 325, 320, 120, 156, 330, 327, 317, 232, 422]),
  (24119, [125, 426, 315, 325, 227, 225, 327]),
  (24120, [207, 200, 407, 125, 100, 107, 204, 152, 104, 127, 130, 325, 331, 243, 120, 117, 215, 252, 227, 225, 327, 156, 356, 304, 315, 320, 220, 229, 230, 262, 362, 128, 132, 352, 332, 129, 317, 256, 162, 330, 115]),
  (24123, [413, 227]),
  (24124, [315, 204, 320]),
  (24125, [225, 125, 425, 252, 325, 426, 320, 232, 327, 352, 330]),
  (24130, [425, 125, 227, 225]),
  (24132, [215, 413, 225, 325]),
  (24133, [225, 207, 125, 222, 435, 307, 217, 204, 422, 238, 115, 215, 320, 327]),
  (24140, [125, 230, 330]),
  (24148, [225, 125]),
  (24149, [225, 435, 125, 252, 222, 325, 142, 422, 204, 227, 425, 130, 327, 317, 115, 320]),
  (24155, [225]),
  (24158, [413]),
  (24161, [426, 225, 107, 327, 120, 227]),
  (24162, [435, 222, 225, 422, 362, 227, 262]),
  (24178, [452, 125, 152, 100, 225, 222, 107, 252, 322, 325, 330, 127, 162, 230, 362, 227, 220, 117, 320, 327, 315, 156, 200, 132, 215, 120, 115, 229, 217, 232, 130, 317, 262, 143, 329, 256, 332, 204, 228]),
  (24179, [100, 225, 125, 135, 452, 227, 330, 143, 152, 322, 230, 127, 200, 325, 252, 130, 327, 122, 115, 315, 232, 204, 162, 332, 132, 215, 156, 320, 120, 362, 262, 107, 131, 229, 228, 104, 220, 331, 129, 117, 352, 217, 101, 328, 329, 317, 304, 128]),
  (24180, [422, 222, 243, 435, 125, 143, 225, 238, 207, 100, 325, 117, 320, 343, 152, 104, 252, 227, 304, 235, 315, 217, 352, 120, 331, 135, 112, 220, 215, 122, 115, 127, 162, 232, 329, 228, 230, 356, 130, 330, 332, 327, 204, 224, 322, 212, 317, 132, 324, 256]),
  (24182, [406, 152, 106, 252, 107, 125, 207, 156, 315, 120, 130, 325, 115, 320, 225, 327, 256, 317, 104, 227]),
  (24184, [100, 225, 107, 200, 127, 426, 152, 252, 454, 125, 227, 115, 207, 201, 327, 120, 409, 215, 315, 256, 325, 130, 320]),
  (24186, [427, 327, 227, 225, 315]),
  (24187, [125, 225, 454, 152, 252, 127, 200, 315, 215, 325, 204, 320, 426, 227, 220, 132, 327, 332]),
  (24188, [125, 207, 402, 143, 100, 426, 225, 127, 325, 327, 217, 130, 215, 227, 220, 120, 320, 104, 117, 200, 315, 252, 317, 115]),
  (24189, [125, 100, 426, 402, 262, 152, 162, 327, 200, 362, 227, 454, 325, 215, 156, 103, 329, 252]),
  (24191, [130, 100, 125, 400, 104, 252, 132, 127, 156, 327, 232, 131, 227, 152, 217, 117, 200, 332, 315, 330, 331, 107, 120, 320, 215, 129, 417, 325, 228, 115, 143, 225, 328, 229, 231, 230, 317]),
  (24192, [413]),
  (24196, [227, 125, 127, 225, 427, 230, 100, 327, 130, 200, 330, 128, 426, 325, 232, 315, 252, 238, 329, 331, 332, 228, 402, 220, 229, 120]),
  (24198, [230, 454, 227, 243, 327, 152, 225, 330, 343, 125, 331, 252, 332, 130, 132, 232, 215, 228, 325, 229, 156, 127, 231, 129, 128, 120, 131]),
  (24199, [454, 152, 252, 327, 225, 125, 227, 325, 332]),
  (24202, [225, 125, 425, 252, 256, 232, 222, 325, 315, 320, 132, 332, 422]),
  (24203, [413]),
  (24207, [225, 125, 425, 200, 220, 252, 325, 320, 315, 352, 256, 227, 215, 327, 107, 304, 228, 332]),
  (24208, [130, 426, 225, 227, 125, 215, 230, 330, 132, 327, 252, 115, 320, 131]),
  (24209, [426, 225]),
  (24211, [125, 225, 425, 127, 129, 130, 227, 232, 330, 327, 325, 252, 230, 329, 217, 220, 229, 331, 152, 332, 135, 131, 132]),
  (24212, [152, 452, 252, 256, 156, 225, 325, 125, 220, 315, 327, 127, 207, 115, 320, 215, 227, 132, 130, 104, 230, 120, 232, 352, 228, 128, 332, 328, 330]),
  (24213, [412, 243, 207, 225, 201, 125, 112, 252, 242, 325, 220, 215, 342, 130, 330, 230, 227, 315, 329, 204, 229, 120, 320, 256, 332, 132, 232, 327, 356, 362, 262]),
  (24214, [426, 215, 125, 129, 115]),
  (24215, [225, 425, 125, 230, 252, 330, 238, 232, 231, 325, 130, 304, 332, 327, 229]),
  (24217, [425, 225, 125, 230, 227, 130, 327, 352, 330, 325]),
  (24218, [227, 327, 427, 122, 229, 132, 125, 325, 220, 232, 252, 332, 322, 129]),
  (24220, [225, 231, 426, 427, 227, 417, 220, 325, 125, 230, 327, 130, 330, 331, 204, 129, 315, 317, 215, 229, 117, 332]),
  (24222, [100, 127, 225, 427, 327, 115, 129, 227, 330, 130, 331, 125, 132, 329, 128]),
  (24223, [452, 152, 125, 252, 256, 325, 215, 200, 327, 104, 156, 225, 320, 315, 115, 402, 329, 117]),
  (24224, [413, 227, 125]),
  (24229, [413, 227, 327]),
  (24230, [225, 224, 207, 230, 435, 200, 222, 330, 325, 152, 220, 422, 252, 332, 256, 125, 227, 215, 204, 331, 315, 352, 327, 232, 156, 320, 115, 243, 229, 235, 217, 356, 120, 322]),
  (24231, [222, 435, 225, 125, 422, 252, 232, 227, 152, 325, 200, 304, 115, 220, 330, 332, 215, 132, 327, 320, 127]),
  (24237, [225, 227, 125, 426, 325, 252, 230, 327, 315, 152, 215, 220, 207, 320, 330, 231, 242, 304, 232, 104, 352, 112, 217, 328]),
  (24243, [413]),
  (24245, [426, 227, 225, 327, 230, 125]),
  (24246, [125, 200, 106, 225, 104, 325, 327]),
  (24247, [200, 127, 125, 227, 417, 327, 225, 230, 427, 152, 130, 132, 232, 128, 330, 325, 100, 331, 220, 332, 129, 131, 156, 115, 229, 315, 362, 262, 143, 329]),
  (24248, [100, 200, 330, 225, 320, 207, 125, 315, 229, 228, 162, 115, 152, 362, 325, 252, 327]),
  (24249, [435, 427, 127]),
  (24254, [127, 427, 330, 327, 227]),
  (24265, [402, 100, 200, 125, 229, 152, 127, 227, 220, 327, 225, 315, 329, 120, 320, 330, 252, 130, 115, 215, 331]),
  (24266, [225, 426, 125, 130, 227, 230]),
  (24273, [227, 413]),
  (24274, [413]),
  (24275, [225, 127, 152, 262, 200, 156, 330])]

/-- hmm/pos/char_state_tab.go:1662-1725 -/
noncomputable def chars25 : List (Nat × List Nat) := [
  (24278, [127, 427, 327, 329, 120, 227, 330, 129]),
  (24283, [225, 413]),
  (24296, [413]),
  (24298, [413, 225, 227, 327]),
  (24310, [152, 227, 252, 130, 327, 417, 127, 125, 225, 129, 454, 132, 315, 115, 131, 320, 325, 330, 156, 230, 328, 200]),
  (24311, [225, 327, 413, 227, 230, 125, 325, 320, 331, 330, 229, 129, 127, 231]),
  (24314, [152, 125, 156, 252, 452, 200, 327, 230, 117, 320, 325, 132, 217, 131, 227, 331, 225, 330, 130, 129, 332, 143, 127, 232, 328, 204, 104, 128, 115, 229, 228, 317, 256, 120, 315, 220, 343]),
  (24319, [122, 422, 322, 222]),
  (24320, [152, 252, 452, 125, 201, 130, 327, 132, 156, 100, 222, 315, 120, 320, 331, 225, 422, 325, 115, 227, 215, 330, 220, 129, 230, 332, 104, 135, 112, 352, 143, 304, 131, 217, 107, 228, 200, 232, 117, 229, 362, 162, 329, 145]),
  (24321, [413, 227, 225]),
  (24322, [125, 225, 100, 454, 200, 107, 252, 320, 325, 104, 115, 215, 227, 152, 315, 352, 262, 327, 220, 120, 132, 232, 156, 256, 402, 304, 332, 129]),
  (24323, [252, 454, 325, 327, 152, 215, 315, 227, 256, 125, 115, 120, 320]),
  (24324, [452, 252, 152, 125, 315, 115, 225, 230, 256, 327, 330, 130, 320]),
  (24328, [252, 256, 454, 325, 125, 227, 327]),
  (24330, [426, 125, 225, 215, 252, 256, 325, 220]),
  (24331, [327, 426, 252, 130, 125, 227, 330]),
  (24335, [225, 419, 201, 204, 426, 220, 232, 327, 227, 200, 320, 125, 325, 352, 238, 152, 335, 207, 229, 332, 356, 331, 217, 315]),
  (24337, [454, 152]),
  (24339, [452, 125, 127, 425, 225, 227, 232, 252, 315, 215, 327, 325, 152, 220, 204, 230, 130]),
  (24341, [152, 452, 252, 125, 325, 227, 115, 225, 256, 120, 327, 320, 117, 332, 156, 315, 215, 132, 232]),
  (24343, [127, 409, 129, 327, 130, 227, 329, 232, 304, 229, 131, 330, 320, 315, 325, 132, 235, 100, 332]),
  (24344, [127, 227, 327, 427, 152, 143, 125, 200, 132, 328]),
  (24347, [200, 454, 256, 125, 100, 227, 228, 220, 215]),
  (24351, [225, 125, 425, 227, 325, 220, 327, 215, 217, 315, 331, 320]),
  (24352, [127, 435, 225, 222, 252, 200, 152, 128, 130, 227, 422, 315, 327, 325, 132, 115, 125, 262, 256, 230, 362, 215, 220, 238, 100, 320, 204, 304, 129, 330, 332]),
  (24357, [152, 125, 407, 325, 402, 327, 225, 320, 227, 120, 454, 115, 132, 315, 130, 330, 129, 228]),
  (24358, [425, 225, 325, 125, 227, 252, 315, 127, 115, 215, 327]),
  (24359, [125, 425, 225, 325, 332, 104, 320]),
  (24361, [426, 315, 125, 227, 325, 225]),
  (24362, [413]),
  (24365, [427, 252]),
  (24367, [152, 452, 252, 125, 225, 362, 162, 425, 315, 352, 325, 400, 220, 320, 256, 262, 215, 227, 100]),
  (24369, [400, 200, 252, 125, 225, 152, 220, 201, 100, 320, 325, 262, 315, 215, 115, 104, 227, 317, 327, 332]),
  (24377, [225, 252, 125, 452, 152, 325, 220, 156, 115, 227, 256, 215, 315, 120, 352, 332, 320, 317, 217]),
  (24378, [252, 400, 100, 152, 125, 200, 227, 225, 156, 120, 107, 127, 315, 320, 325, 228, 204, 104, 115, 215, 231, 327, 132, 229, 232, 217, 220, 362, 262, 332, 238, 230, 330, 304, 131, 328, 201, 117]),
  (24380, [227, 413, 327, 328, 252, 215, 228, 128]),
  (24384, [425]),
  (24402, [452, 152, 252, 156, 125, 315, 215, 325, 127, 115, 225, 207, 227, 120, 220, 327, 230, 130, 129, 320, 330, 132, 331, 256]),
  (24403, [143, 434, 107, 152, 252, 200, 207, 142, 125, 352, 112, 225, 315, 234, 134, 115, 320, 206, 215, 130, 220, 233, 156, 362, 262, 330, 332, 325, 329, 229, 327, 227, 120, 133, 230, 333, 300, 312, 343]),
  (24405, [252, 225, 452, 152, 125, 325, 227, 327, 256, 232, 156, 332, 320, 217, 315, 352, 331, 215]),
  (24406, [413]),
  (24407, [125, 325, 327]),
  (24408, [413, 227]),
  (24413, [417, 132, 330, 227, 327, 130, 125, 120]),
  (24418, [125, 152, 225, 426, 252, 204, 325, 320, 315, 120, 115, 307, 215, 330, 227, 230, 220, 232, 327, 256, 342, 104, 352, 332, 200]),
  (24420, [228, 262, 362, 125]),
  (24422, [413, 327, 227, 330, 128, 225, 332, 229]),
  (24425, [125, 225, 426, 200, 104, 215, 227, 327, 204, 315, 252, 325, 232, 256, 320, 220, 120, 132, 152, 362, 129, 117, 330, 262, 332, 304, 115]),
  (24426, [227, 435, 327, 115, 100, 152, 228, 104]),
  (24428, [315, 115, 228, 232, 215, 130]),
  (24429, [127, 427, 130, 227, 422, 327, 129, 228, 232, 229, 128, 100]),
  (24432, [252, 402, 130, 152, 215, 227, 327, 325, 200, 220]),
  (24433, [156, 225, 125, 425, 325, 252, 104, 315, 227, 215, 256, 331, 152, 320, 327, 115, 426, 217, 120, 220, 454, 352, 330, 129, 332, 343, 117]),
  (24435, [459, 125]),
  (24439, [152]),
  (24441, [225, 426, 252, 204, 232, 256, 325, 152, 238, 125, 227, 327, 320, 215, 129, 230, 330, 231]),
  (24443, [101, 252, 454, 330, 200, 227, 107, 315, 115, 327, 162, 331, 125, 329, 120, 156, 229, 362]),
  (24444, [138, 438, 330, 129, 315, 125, 130, 143, 215, 320, 327, 329, 115, 120, 332, 227]),
  (24448, [434, 252, 207, 107, 143, 152, 243, 256, 156, 125, 215, 315, 153, 352, 227, 220, 320, 327, 104]),
  (24449, [225, 152, 252, 452, 227, 125, 156, 325, 327, 315, 117, 230, 256, 232, 217, 215, 330, 331, 332, 228, 220, 132]),
  (24450, [413]),
  (24452, [225, 125, 426, 107, 204, 315, 227, 320, 220, 325, 215, 252, 327, 331, 130, 132]),
  (24453, [252, 452, 125, 215, 152, 325, 315, 320, 225, 107, 156, 115, 327, 256, 227, 120, 220, 332]),
  (24455, [454, 152, 115, 315, 120])]

/-- hmm/pos/char_state_tab.go:1726-1789 -/
noncomputable def chars26 : List (Nat × List Nat) := [
  (24456, [407, 122, 100, 107, 120, 322, 125, 327]),
  (24457, [252, 459]),
  (24458, [252, 454, 459]),
  (24459, [225, 125, 427, 207, 327, 330, 325, 227, 426, 220, 252, 230, 331, 215, 454, 256, 232, 352, 320, 152, 204, 315, 332, 117]),
  (24460, [427, 227]),
  (24464, [127, 427, 130, 227, 207, 327, 107, 128, 228, 125, 162, 129, 120, 320, 230, 131, 152, 315, 330, 262, 132]),
  (24466, [225, 407, 125, 320, 227, 327, 107, 152, 215, 115, 252, 229, 330, 104, 329, 315, 325, 120, 130, 220, 206]),
  (24469, [252, 459, 327]),
  (24471, [446, 252, 152, 207, 307, 352, 325, 100, 200, 225, 320, 327, 330, 315, 125, 220, 215, 227, 300, 115, 229, 230, 130, 232, 120, 203, 329, 204, 132, 228, 131, 332, 256, 331, 129, 156]),
  (24472, [152]),
  (24473, [454, 225, 252, 315]),
  (24476, [152]),
  (24481, [454, 252, 125, 325, 327, 152, 227, 104, 129, 130, 156, 115, 332]),
  (24488, [252, 459]),
  (24490, [156, 252, 454, 325, 315, 120, 115, 227, 152, 125, 107, 130, 327, 104, 215, 230, 330, 132, 304]),
  (24493, [125, 320, 120]),
  (24494, [125, 207, 156, 100, 407, 107, 400, 200, 152, 104, 227, 325, 120, 115, 327, 252, 122, 215, 135, 117, 262, 362, 162, 203, 220, 256, 315, 130, 204, 402, 232, 131, 320, 322, 222, 332, 132, 335, 330, 230]),
  (24501, [227, 413, 327]),
  (24503, [130, 227, 327, 417, 225, 229, 127, 330, 230, 125, 117, 129, 132, 243, 232, 131, 329, 215, 252, 332, 325, 115, 200, 331, 315, 217, 228, 328, 335, 104, 320, 220, 231, 128, 352, 120]),
  (24508, [413]),
  (24509, [230, 330, 125, 225, 417, 327, 227, 426, 232, 331, 130, 329, 325, 328]),
  (24515, [225, 125, 142, 252, 425, 200, 315, 152, 325, 115, 207, 215, 100, 201, 327, 220, 320, 227, 231, 242, 204, 127, 120, 104, 238, 232, 230, 330, 132, 256, 229, 156, 116, 117, 304, 352, 317, 331, 362, 262, 332, 328, 300, 228, 356]),
  (24517, [107, 207, 407, 100, 152, 120, 125, 320, 315, 327, 352, 156, 227, 325, 115, 215, 332, 330, 238, 132, 129]),
  (24518, [252, 225, 227, 325, 452, 315, 327, 152, 127, 120, 156, 220, 125, 454, 332]),
  (24524, [452, 225, 152, 252, 315, 215, 325, 220, 227, 156, 143, 256, 125]),
  (24525, [152, 452, 252, 200, 115, 315, 320, 215, 227, 107, 125, 220, 325, 327, 132, 156, 328]),
  (24527, [152, 156, 125, 252]),
  (24528, [115, 100]),
  (24529, [315, 200, 459]),
  (24530, [407, 327, 227, 262, 362]),
  (24534, [252, 152]),
  (24535, [225, 425, 327, 227, 125, 230, 325, 252, 331, 215, 115, 330, 127, 315, 143, 152, 332, 352, 220, 328, 130, 129, 128, 232, 120, 229, 228, 132, 304]),
  (24536, [452, 152, 252, 325, 315, 215, 115, 200, 104, 320, 125, 107, 256, 220, 120, 227]),
  (24537, [452, 207, 252, 201, 200, 100, 152, 362, 262, 227, 215, 315, 107, 225, 162, 220, 320, 115, 120, 327, 125, 325, 307]),
  (24541, [454, 227, 327]),
  (24544, [227, 427, 125, 327, 100, 152, 252, 115, 454, 315, 200, 104, 120, 225, 130, 330, 129, 320, 228, 230, 328, 127]),
  (24545, [215, 315, 225, 459]),
  (24548, [402, 152, 120, 327, 252]),
  (24551, [252, 452, 100, 152, 156, 125, 315, 225, 115, 215, 232, 227, 220, 426, 200, 325, 320, 103]),
  (24554, [215, 200, 459]),
  (24555, [400, 207, 107, 252, 200, 100, 125, 262, 162, 215, 220, 132, 320, 315, 362, 152, 156, 225, 115, 325, 331, 227, 204, 217, 117, 201, 327, 120, 300, 104, 103, 130]),
  (24557, [413, 227]),
  (24558, [413]),
  (24561, [225, 426, 227, 200, 215, 327]),
  (24565, [225, 452, 252, 325, 152, 125, 315, 115, 227, 327, 330, 127, 130, 352, 100, 332, 220, 320, 256, 104, 304, 215, 331]),
  (24568, [100, 115]),
  (24571, [130, 427, 127, 227, 327, 330]),
  (24573, [107, 407, 152, 320, 252, 162, 207, 362, 120, 327, 227, 315, 262, 322, 133, 256, 132, 200, 115]),
  (24574, [215, 413, 315]),
  (24575, [100, 115, 315, 125]),
  (24576, [152, 452, 142, 125, 227, 252, 127, 327, 225, 256, 130, 315, 215, 320, 129, 120, 156, 115, 143, 220, 230, 207, 200, 330, 307, 228, 329, 132, 262, 328, 332]),
  (24577, [225, 125, 425, 252, 325, 220, 320, 215, 315, 426, 227, 352, 256, 200, 327, 332]),
  (24578, [454, 152, 227]),
  (24580, [452, 152]),
  (24581, [200, 100, 107, 115, 307]),
  (24582, [200, 413, 203]),
  (24586, [413]),
  (24589, [413]),
  (24590, [138, 438, 320, 106, 120, 327]),
  (24591, [262, 162, 115, 315, 362]),
  (24594, [252, 454, 125, 200, 115, 152, 130, 227, 315, 215, 225, 320, 132, 162, 327, 330, 120, 156, 325]),
  (24596, [452, 152, 252, 125, 227, 362, 262]),
  (24597, [452, 252, 207, 200, 206, 100, 320, 315, 215, 220, 152, 125, 217]),
  (24598, [200, 325, 454, 215, 220, 327, 227])]

/-- hmm/pos/char_state_tab.go:1790-1853 -/
noncomputable def chars27 : List (Nat × List Nat) := [
  (24601, [413, 115]),
  (24603, [413, 227]),
  (24604, [252, 152, 200, 454, 362, 215, 352, 325, 115, 156, 227, 327, 320, 256, 315]),
  (24605, [125, 225, 152, 327, 227, 252, 452, 325, 315, 200, 220, 127, 215, 320, 132, 115, 229, 120, 130, 156, 129, 256, 332, 232, 330, 230, 328, 228, 329]),
  (24608, [402, 152, 200, 125, 100, 320, 227]),
  (24609, [454, 227, 100, 327, 132, 125, 215, 152, 115, 162, 129, 130, 131]),
  (24613, [452, 200, 107, 125, 152, 100, 162, 256, 215, 115, 104, 315, 252, 320, 362, 101, 120, 156, 225, 204, 317, 325, 262, 220, 132, 332, 117, 331]),
  (24614, [233, 133, 120, 162, 433]),
  (24615, [225, 125, 425, 204, 325, 207, 320, 227, 252, 352, 315, 220, 256, 156, 100, 232, 200, 426, 327, 356, 217, 215, 152, 332, 343, 120, 115]),
  (24616, [252, 452, 125, 225, 152, 115, 107, 200, 215, 315, 320, 456, 156, 325, 220]),
  (24617, [200, 459, 315]),
  (24618, [252, 452, 400, 125, 200, 225, 207, 215, 100, 107, 315, 152, 120, 220, 227, 320, 162, 362, 115, 232, 307, 352, 262, 130]),
  (24619, [413]),
  (24623, [400, 200, 100, 162, 262, 125, 252, 203, 152, 362]),
  (24629, [454, 252, 115]),
  (24635, [125, 404, 107, 152, 106, 325, 331, 227, 104, 225, 252, 327, 120, 117, 204, 332, 207, 320, 132, 256, 217, 330, 220, 131, 317, 130, 142, 156, 228]),
  (24636, [413, 252]),
  (24639, [413, 227]),
  (24641, [413, 145]),
  (24642, [227, 413, 327]),
  (24643, [454, 252, 315, 115, 227, 215]),
  (24651, [252, 152, 452, 125, 352, 256, 115, 315, 320, 227, 225, 325, 332, 327, 456]),
  (24653, [454, 100, 115, 107, 152, 315, 362, 162, 101, 227, 200, 327]),
  (24656, [107, 407, 100, 103, 200, 125, 252, 315, 215, 152, 225, 227, 132, 320, 327]),
  (24658, [125, 427, 132, 227, 117, 262, 103, 252, 325, 332, 130, 327, 426, 402, 215, 100, 320, 230, 101, 129, 131, 232, 115, 328, 228]),
  (24661, [454, 427, 252, 152, 227, 327, 120, 256]),
  (24665, [215, 262, 220, 125, 225]),
  (24666, [413, 227]),
  (24674, [152, 402, 125, 100, 143, 227, 327, 320, 215, 315, 104, 220]),
  (24675, [107, 152, 315, 115]),
  (24676, [252, 325, 256, 125]),
  (24679, [413]),
  (24680, [452, 252, 107, 225, 200, 256, 127, 215, 115, 152, 320, 332, 125, 315, 327, 325, 220]),
  (24681, [227, 327, 252, 427, 125, 426, 127, 225, 417, 229, 329, 315, 129, 130, 220, 152, 325, 343, 100, 156, 230, 331, 132, 115, 232, 330, 162, 362, 320]),
  (24682, [152, 228, 120]),
  (24683, [156]),
  (24684, [100, 228, 115, 315, 162, 200]),
  (24685, [100, 402, 152, 227, 315, 362, 162, 327, 200, 125, 215, 130, 332, 252, 120, 115, 320, 156, 228]),
  (24687, [225, 252, 425, 325, 204, 227, 125, 352, 215, 315, 356, 220, 115, 152, 332, 331, 200, 256, 232, 320, 343, 327, 130, 243, 231, 426, 454]),
  (24688, [107, 407, 207, 100, 152, 306, 106, 115, 130, 327, 227, 330, 229, 230, 127, 129]),
  (24691, [152, 200, 100, 362, 262, 125, 300]),
  (24694, [400, 125, 100, 152, 200, 252, 225, 315, 104, 120, 162, 115, 107, 215, 227, 325, 320, 327, 256, 220, 362, 103, 232, 203, 317]),
  (24696, [200, 413, 152]),
  (24697, [262, 162, 362]),
  (24698, [227, 413, 327, 328, 129]),
  (24699, [115, 402, 215, 200, 152, 327]),
  (24700, [200, 452, 152, 100, 252, 203, 115, 220, 256]),
  (24701, [127, 427, 227, 327, 128]),
  (24703, [252, 459, 227, 327]),
  (24707, [413]),
  (24708, [107, 362, 207, 162, 262, 120, 125, 325, 327, 227]),
  (24713, [252, 107, 401, 454, 130, 327, 227, 131, 120, 132, 330]),
  (24716, [413, 227, 327]),
  (24717, [200, 107, 203, 125, 215, 100, 115]),
  (24722, [162, 200, 262]),
  (24724, [252, 454, 152, 115, 315, 320, 325, 220, 215, 125, 256, 156, 327, 227]),
  (24726, [454, 125, 252, 352, 215, 152, 100]),
  (24730, [315, 413, 100, 200, 227]),
  (24731, [215, 413]),
  (24733, [227, 413]),
  (24735, [452, 252, 225, 215, 327, 152, 125, 229, 227, 200, 256, 331, 220, 330, 454, 325, 230]),
  (24736, [100, 262, 162, 362, 252, 452, 115, 101, 103, 227, 152, 120, 327, 320, 325, 225]),
  (24739, [125, 452, 225, 152, 215, 252, 115, 217, 315, 317, 325, 320, 216, 220]),
  (24742, [200, 454, 227, 100, 315, 252, 132, 327, 130, 402, 325, 203])]

/-- hmm/pos/char_state_tab.go:1854-1917 -/
noncomputable def chars28 : List (Nat × List Nat) := [
  (24744, [438, 120, 138, 140, 320, 227]),
  (24747, [402, 227]),
  (24748, [452, 152, 125, 100, 115, 252, 320, 315, 227, 325, 215, 132, 327, 156]),
  (24749, [100, 413]),
  (24751, [252, 413, 256, 262, 315, 227, 327]),
  (24753, [315, 454, 100]),
  (24754, [100, 125, 200, 403, 454, 103, 115, 152, 225, 215, 315, 327, 402, 120, 220, 162, 101, 362, 252, 320, 227]),
  (24756, [200, 413, 220]),
  (24760, [252, 215, 156, 225]),
  (24763, [107, 207, 307]),
  (24764, [325, 252, 152, 454, 327, 125, 256, 156]),
  (24773, [125, 225, 425, 252, 200, 315, 325, 152, 207, 115, 215, 120, 320, 256, 220, 227, 100, 238, 143, 327, 331, 343, 332, 352, 132, 203, 317]),
  (24774, [100]),
  (24778, [100, 452, 152, 252, 200, 315, 115, 215, 125, 320, 227, 220, 101, 120, 156, 143, 327, 325]),
  (24779, [100, 252]),
  (24785, [252, 200, 256, 452, 315, 325, 220, 320, 152, 225, 227, 454, 327, 115]),
  (24789, [252, 325, 413, 227, 215, 327, 315]),
  (24792, [200, 162, 115]),
  (24794, [200, 215, 362, 262, 459, 201]),
  (24796, [252, 454, 200, 152, 127, 227, 315, 215, 327, 220, 320, 115, 256, 100, 156]),
  (24797, [100, 459]),
  (24799, [407, 152, 104, 206, 107, 406, 327, 227, 115, 315, 106, 252, 445]),
  (24800, [256, 127, 327, 130, 427, 200, 227, 252, 426, 325, 132, 152, 225, 320, 232, 230, 217, 129, 215, 131, 115, 315, 454, 229, 330]),
  (24806, [152, 452, 227]),
  (24807, [203, 452, 252, 200, 152, 325, 215, 125, 327, 100]),
  (24808, [100, 125, 400, 200, 152, 162, 115, 362, 262, 315, 156, 401, 215, 227]),
  (24809, [152, 252, 454, 156, 125, 225, 315, 115, 120, 325]),
  (24811, [252, 200, 320, 413, 100, 325]),
  (24812, [100]),
  (24813, [100, 200, 402, 315, 215, 227]),
  (24814, [215, 252, 454]),
  (24815, [225, 125, 452, 352, 152, 325, 252, 107, 215, 315, 156, 320]),
  (24816, [125, 402, 200, 120, 132]),
  (24819, [452, 152, 225, 252, 320, 125, 256, 120, 325, 215, 107, 315, 115, 227, 331, 220, 352, 232, 327, 300, 156, 356, 200]),
  (24820, [115, 315, 162, 262, 362]),
  (24822, [100, 315, 200, 115, 162, 215, 262, 201, 362]),
  (24825, [452, 152, 252, 115, 120, 100, 315, 330, 230, 227, 327, 200, 320]),
  (24826, [315, 362, 262, 115, 120, 320, 215, 100, 162]),
  (24832, [459]),
  (24833, [452, 252, 200, 125, 115, 100, 315, 225, 327, 320, 215, 120, 227, 330, 220]),
  (24838, [413, 225, 152]),
  (24840, [407, 107, 252, 207, 152, 120, 320, 227, 228, 315, 327, 220, 325, 328]),
  (24841, [100, 200]),
  (24845, [413, 327]),
  (24846, [413, 315, 203]),
  (24847, [125, 252, 225, 426, 207, 152, 130, 100, 325, 200, 215, 315, 320, 201, 300, 330, 120, 220, 115, 227, 352, 307, 156, 331, 204, 417, 132, 332, 131, 327, 256, 232, 117, 304]),
  (24853, [100, 200, 252]),
  (24858, [227, 100, 452, 125, 152, 115, 225, 127, 215, 327, 120, 143, 200, 315, 220]),
  (24863, [152, 125, 225, 454, 200, 252, 325, 100, 320, 120, 156, 115, 143, 204, 230, 315, 227, 132, 352, 330, 215, 220, 203, 232, 256, 332]),
  (24864, [152, 125]),
  (24867, [452, 152, 252, 362, 262, 162, 215]),
  (24868, [152, 200, 100, 225, 456, 107, 315, 207, 115, 156, 252, 220, 454, 256, 325, 125, 426, 201, 120, 203]),
  (24870, [413, 200]),
  (24871, [200, 252, 454, 215, 100, 207, 352, 152, 125, 315, 320, 227, 101, 220, 327, 256]),
  (24875, [413, 225, 227, 327]),
  (24895, [452, 152, 252, 225, 125, 325, 215, 207, 315, 331, 352, 220, 227, 256, 217, 327, 115, 320, 204]),
  (24904, [100, 129, 127, 402, 227, 125, 200, 327, 130, 315, 320, 229, 115, 332, 330, 232, 331]),
  (24906, [413, 227]),
  (24908, [400, 452, 101, 200, 203, 100, 315, 362, 162, 325, 201, 115, 262, 252, 152, 320, 225]),
  (24910, [200, 100, 207, 215, 152, 400, 127, 227, 220, 327, 427, 315, 120, 225, 402, 228, 115, 401]),
  (24913, [252, 454, 225, 256, 325, 152]),
  (24917, [127, 252, 130, 427, 327, 330, 426, 152, 227, 220, 225, 454, 256, 120, 331, 332, 125, 230]),
  (24925, [413]),
  (24930, [107, 207, 400, 200, 104, 252, 125, 162, 220, 225, 152, 115, 132, 325, 320, 256, 304, 120, 315, 227, 362, 106, 143, 327])]

/-- hmm/pos/char_state_tab.go:1918-1981 -/
noncomputable def chars29 : List (Nat × List Nat) := [
  (24935, [127, 227, 225, 327, 426, 200, 129, 125, 320, 220, 330, 315, 100, 120, 132]),
  (24936, [200, 252, 315, 201, 152, 107, 320, 426, 215, 402, 156, 225, 115, 120, 327, 300, 227]),
  (24944, [252, 152, 200, 454, 227, 327, 125, 256, 156, 325, 215, 203]),
  (24949, [413, 100]),
  (24951, [100, 115, 101, 454, 315, 227, 220, 327]),
  (24971, [452, 100, 120]),
  (24974, [152, 454, 225, 200, 315, 215, 402, 327]),
  (24980, [100, 320]),
  (24989, [413]),
  (24999, [152, 320, 220]),
  (25000, [426, 100, 152, 200, 327, 125, 120, 362, 227, 162, 402]),
  (25001, [252, 454, 152, 256, 227]),
  (25004, [252, 152]),
  (25015, [413, 252, 227]),
  (25022, [200, 225, 426, 252, 215, 402, 125, 220]),
  (25026, [452, 152, 100, 252, 200, 220, 320, 215, 315, 262, 227, 325]),
  (25032, [454, 200, 262, 100, 215, 320, 315, 252, 220]),
  (25034, [152, 156]),
  (25035, [413, 227, 327, 125, 132]),
  (25041, [200, 413, 225]),
  (25042, [400, 152, 125, 162, 100, 252, 200, 225, 215, 352, 315, 220, 327]),
  (25044, [413, 227]),
  (25062, [402, 101, 200, 125, 100, 327]),
  (25077, [452, 152, 120, 320, 362, 162, 227]),
  (25087, [413, 227, 327, 125]),
  (25096, [127, 125, 327, 227, 427, 252, 129, 225, 330, 229, 315, 332, 329, 426, 215, 220, 132, 230, 130, 325, 320, 232, 222, 128, 235]),
  (25098, [423, 125, 120, 325, 122, 132, 327, 332, 227, 232, 143]),
  (25099, [459]),
  (25100, [320, 222, 332, 325, 322, 143]),
  (25101, [454, 152, 252, 204, 125, 325, 227, 225, 331, 327]),
  (25102, [427, 127, 227, 125, 115, 327, 152, 315, 225, 215, 229, 252, 120]),
  (25103, [125, 225, 425, 252, 152, 331, 325, 220, 215, 132, 352, 315, 320, 232, 217, 117, 343, 131, 156, 332, 227]),
  (25104, [252, 152, 452, 125, 100, 228, 227, 222, 130, 320, 325, 127, 225, 315, 327, 332, 156, 229, 115, 256, 215, 422, 107, 204, 230, 232, 120, 328, 104, 220, 132, 143, 317, 352, 330, 117, 131, 200, 122, 300, 129, 322, 329, 128, 207, 124, 331]),
  (25105, [438, 138, 125, 238, 320, 315, 225, 325, 252, 115, 132, 204, 215, 120, 207, 227, 327, 229]),
  (25106, [225, 125, 452, 152, 256, 252, 325, 115, 215, 315, 156, 130, 220, 320, 343, 327, 100, 132, 227]),
  (25109, [152, 156]),
  (25110, [406, 106, 107, 206, 307, 207, 320, 227, 152, 125]),
  (25111, [452, 200]),
  (25112, [125, 252, 454, 225, 332, 156, 232, 256, 152, 325, 143, 217, 331, 127, 215, 320, 315, 204, 220, 227, 115, 229, 327, 162, 132, 200, 238, 228, 120, 117, 330, 317]),
  (25114, [225, 127, 427, 325, 227, 200, 315, 327, 130, 252, 220, 128, 125]),
  (25115, [130, 115, 325]),
  (25119, [426, 225, 227, 325, 215, 315, 327]),
  (25121, [454, 152, 227, 327]),
  (25122, [427]),
  (25124, [413]),
  (25125, [452]),
  (25130, [152, 452, 252, 222, 125, 315, 115, 107, 156, 325, 322, 207, 225, 332, 256, 435, 327]),
  (25132, [227, 413, 327]),
  (25134, [252, 256, 115, 315]),
  (25139, [452, 152, 225, 125, 252, 352, 327]),
  (25140, [452, 127, 252, 225, 315, 132, 330, 120, 327, 129, 227, 115, 128, 256, 152, 215, 325, 130, 320]),
  (25143, [225, 435, 125, 222, 252, 325, 422, 215, 315, 230, 142, 238, 220, 117, 127, 330, 327, 132, 207, 227, 332, 130, 135, 235, 256, 232, 217, 229, 115]),
  (25149, [452]),
  (25150, [413, 200, 262]),
  (25151, [125, 225, 117, 425, 252, 142, 325, 256, 127, 130, 330, 227, 152, 230, 132, 315, 327, 232, 217, 204, 220, 332, 156, 331, 131, 320]),
  (25152, [445, 106, 225, 125, 104, 252, 152, 315, 217, 306, 231, 222, 320, 422, 325, 115, 230, 120, 238, 215, 107, 327, 232, 130, 227, 129, 342, 330, 229, 220]),
  (25153, [400, 125, 104, 127, 162, 227, 120, 152, 327, 362, 325]),
  (25155, [413]),
  (25159, [435, 225, 125, 222, 452, 152, 425, 252, 422, 215, 315, 115, 327, 232, 325, 132, 130]),
  (25160, [127, 200, 125, 427, 215, 330, 329, 130, 227, 327]),
  (25161, [225, 125]),
  (25163, [125, 425, 225, 252, 142, 152, 207, 222, 325, 315, 104, 422, 332, 115, 200, 320, 215, 204, 220, 132, 100, 362, 352, 120, 107, 227, 322, 327, 256, 304, 117, 231, 330, 229, 300, 232, 130]),
  (25165, [407, 225, 243, 227, 207, 152, 125, 315, 327, 252, 215, 107, 115, 200, 330, 220, 325, 120, 256, 127, 228, 320, 130, 329, 328]),
  (25166, [252, 452, 100, 152, 130, 327, 330, 129, 225, 227, 156, 315, 229, 127, 162, 362, 230, 215, 125, 329, 325, 132, 256, 115])]

/-- hmm/pos/char_state_tab.go:1982-2045 -/
noncomputable def chars30 : List (Nat × List Nat) := [
  (25169, [452, 152, 133, 225, 252, 125, 115, 325, 120, 362, 262, 162, 320, 315, 256, 327, 100]),
  (25170, [452, 152, 125, 315, 330, 227, 225, 156]),
  (25171, [152, 452, 252, 125, 315, 120, 225, 222, 115, 320, 156, 331, 215, 234, 325, 232, 220, 132, 352, 227, 117, 327, 256, 230, 422, 207, 332, 107, 130, 330]),
  (25172, [452, 152]),
  (25176, [252, 452, 225, 152, 325, 127, 125, 227, 327, 129, 229, 330, 256, 352, 230, 332, 329, 130, 156, 204, 331, 315, 132, 232, 217, 120, 117]),
  (25179, [452, 152, 120]),
  (25187, [152, 452, 225, 252, 125, 215, 220, 115, 227, 325, 232, 320, 156, 327]),
  (25190, [152, 125]),
  (25191, [152, 156, 452, 125, 252, 100, 107, 325, 200, 227, 315, 327, 115, 120, 331, 225, 117, 132, 320, 330]),
  (25193, [152, 454, 227, 125, 156, 317, 325, 120, 104, 132, 256]),
  (25194, [115, 315]),
  (25195, [152, 452, 252, 125, 100, 315, 156, 120, 352, 320, 115, 325, 332, 232, 117, 256]),
  (25196, [252, 130, 454, 152, 315, 227, 215, 125, 132, 127, 115, 200, 327, 230, 330, 229, 256, 329, 225, 325, 320, 156, 107, 452, 129, 120, 228, 352, 232, 362, 262]),
  (25197, [152, 452, 125, 200, 120, 362, 262, 252, 100, 162, 115, 315, 320, 132]),
  (25198, [252, 152, 452, 215, 125, 320]),
  (25199, [452, 252, 152, 320, 220, 215, 315, 156]),
  (25200, [252, 452, 152, 156, 256, 325, 220, 332, 125, 215, 227, 315, 327]),
  (25203, [452, 125, 152, 225, 456]),
  (25206, [452, 152, 252, 130, 127, 125, 156, 227, 325, 115, 204, 315, 327, 162, 107, 120, 331, 232, 117, 132, 332, 131, 320]),
  (25209, [222, 152, 435, 252, 125, 156, 207, 107, 322, 325, 422, 204, 320, 225, 120, 256, 122, 330, 117, 115]),
  (25212, [152, 454, 100, 320, 101, 120, 156]),
  (25214, [452, 152, 252, 125, 200, 320, 132, 120]),
  (25215, [152, 252, 327, 125, 427, 325, 227, 156, 454, 127, 225, 130, 417, 215, 220, 115, 320, 132, 256, 232, 104, 100, 315, 120, 328, 304, 352, 332]),
  (25216, [125, 225, 325, 232, 426, 331, 120, 117, 417, 304, 217, 231, 330, 315, 215, 317, 320, 332, 327, 152, 227, 220, 252, 352, 104]),
  (25220, [452, 152, 252, 125, 325, 225, 204, 120, 227, 156, 256]),
  (25225, [152, 156, 454]),
  (25226, [434, 222, 152, 125, 225, 325, 320, 252, 352, 232, 422, 215, 220, 322, 343, 315, 327, 132, 332, 227, 120, 115]),
  (25233, [152, 252, 454, 100, 125, 106, 115, 132, 156, 327, 120, 325, 256, 227, 332, 320]),
  (25234, [152, 125, 156, 454, 315, 227]),
  (25235, [152, 452, 252, 125, 320, 115, 220, 132, 120, 215, 156]),
  (25237, [156, 125, 152, 452, 252, 217, 315, 331, 115, 117, 317, 132, 332, 325, 330, 230, 320, 231, 215, 327, 120, 100, 256]),
  (25238, [452, 252, 152, 315, 115, 362, 262, 156, 227, 120, 327]),
  (25239, [152, 452, 252, 156, 125, 132, 256, 325, 120, 117, 225, 131, 227, 320, 327, 315, 215, 104, 331, 232, 330, 332, 204]),
  (25240, [152, 452, 125, 225, 200, 252, 422, 222, 256, 325, 156, 315, 127, 215, 352, 227, 104, 220, 327, 362, 262, 320, 130, 132, 115]),
  (25242, [454, 152, 225, 252, 327, 130, 227, 256, 125, 330, 156, 115, 325, 132, 131, 331, 315]),
  (25243, [452, 152, 125, 156, 115, 120]),
  (25247, [452, 227]),
  (25248, [452, 100, 152, 120, 320]),
  (25249, [452, 227]),
  (25250, [152, 452, 100, 252, 125, 227, 315, 320, 120, 217, 325, 132, 130, 327, 156]),
  (25252, [252, 325, 125, 152, 452, 256, 225, 132, 156, 327, 227, 320, 330, 230, 332, 232, 215, 331]),
  (25253, [225, 125, 152, 425, 252, 238, 256, 232, 325, 156, 315, 231, 217, 331, 227, 320, 120, 215, 115, 220, 327, 130, 230, 132, 332]),
  (25256, [152]),
  (25259, [152, 452, 125, 252, 115, 315, 225, 120, 327, 132, 227, 330, 131]),
  (25260, [152, 452, 315, 125, 120, 252, 320, 325]),
  (25265, [452, 152, 252, 225, 100, 125, 115, 227, 315, 327, 120, 320, 304, 220, 130, 129]),
  (25269, [152, 156, 452, 252, 125, 207, 320, 225, 107, 204]),
  (25273, [452, 252, 152, 222, 125, 315, 215, 227, 320, 352]),
  (25275, [452]),
  (25276, [252, 452, 256, 152, 125, 325, 100, 327, 227, 225, 156]),
  (25277, [152, 452, 100, 125, 120, 156, 315, 132, 362, 162, 104, 232, 331, 143, 115, 107]),
  (25279, [452, 227, 125]),
  (25282, [452, 252, 143, 152, 115, 327, 125, 256, 227, 315]),
  (25284, [452, 152]),
  (25285, [152, 252, 156, 225, 452, 125, 222, 435, 325, 320, 115, 227, 220, 422, 315, 235]),
  (25286, [152, 452, 252, 125, 325, 156, 315, 332, 120, 352, 225, 117, 227, 327]),
  (25287, [325, 125]),
  (25288, [452, 152, 115, 315]),
  (25289, [452, 330, 152, 327, 229, 325, 127, 227, 130, 230, 129, 329, 125, 332, 225, 132, 252, 235, 117, 232, 331, 320, 120, 256, 315, 362, 262, 217, 222, 233, 322, 115, 304, 333, 131, 156, 162, 215, 200, 220, 101, 100]),
  (25290, [413]),
  (25292, [452, 252, 152, 325, 156, 256, 320, 225, 332]),
  (25293, [152, 452, 252, 125, 225, 325, 115, 315, 227, 320, 120, 220, 352, 331, 256, 327]),
  (25294, [452, 125, 227]),
  (25296, [125, 452, 152, 115, 142, 325, 227, 225, 320, 252, 327, 217, 220, 317])]

/-- hmm/pos/char_state_tab.go:2046-2109 -/
noncomputable def chars31 : List (Nat × List Nat) := [
  (25298, [152, 454, 252, 120, 130, 115, 215, 320, 132, 327]),
  (25299, [152, 252, 452, 127, 125, 325, 227, 315, 320, 132, 327, 200, 232, 304]),
  (25300, [225, 452, 252, 152, 327, 200, 315, 227, 115, 215, 100, 320, 156, 325, 125, 232]),
  (25302, [452, 152, 125, 325, 217, 156, 320, 220, 132, 115, 100, 227, 162, 362, 252, 327, 322, 315, 230, 120, 122, 231]),
  (25303, [400, 125, 200, 252, 152, 100, 327]),
  (25304, [152, 454, 100, 252, 315, 125, 217, 332, 156]),
  (25305, [200, 402, 100, 215, 130, 227, 125, 252, 315]),
  (25306, [152]),
  (25307, [152, 125, 425, 156, 131, 117, 452, 127, 222, 352, 225, 115, 120, 315, 252, 227, 325, 217, 101, 327, 130, 320, 220, 132, 215, 330, 422, 256, 332]),
  (25308, [452, 230, 152, 252, 225, 330, 125, 325, 227, 327, 129, 130, 131, 343, 215, 229, 220, 315, 132, 127, 243, 256, 332]),
  (25311, [452, 252, 152, 204, 107, 125, 256, 215, 325, 304, 332, 104, 352, 156]),
  (25314, [252, 452, 320, 227, 152, 107, 256]),
  (25315, [452, 252, 152, 315, 362, 262, 325, 327]),
  (25317, [152, 452, 252, 100, 315, 125, 227, 215, 327, 115, 120, 352, 156, 320, 217]),
  (25318, [152, 452, 252, 107, 125, 327, 132, 156, 232, 227]),
  (25319, [452, 152, 120, 320, 227]),
  (25320, [452, 152, 252, 115, 227, 325, 315, 125, 256, 107, 117, 132]),
  (25321, [252, 452, 325, 152, 220, 315, 256, 107, 327, 227, 115, 156, 125, 120, 225, 130, 132]),
  (25324, [252, 452, 125, 227, 325, 200, 332, 228, 315]),
  (25325, [454, 252, 115, 152]),
  (25326, [100, 125, 152]),
  (25327, [152, 227, 454, 327]),
  (25329, [452, 152, 125, 327, 130, 252, 325, 225, 227, 120, 232, 131, 104, 315]),
  (25331, [125, 225, 425, 222, 252, 315, 227, 215, 115, 452, 232, 152, 325, 320]),
  (25332, [452, 227, 125, 327, 225, 152]),
  (25334, [413, 252]),
  (25335, [454, 152, 125, 156, 352, 132]),
  (25340, [152, 452, 107, 252, 125, 120, 325, 315, 156, 115, 227, 225, 132, 327]),
  (25341, [452, 220, 227]),
  (25342, [252, 452, 152, 215, 120, 115, 315, 227, 124, 220, 422, 125, 327]),
  (25343, [452, 152, 330, 252, 125, 100, 120, 332, 325, 227, 315, 331, 327, 225, 230, 256, 320, 130, 229, 115, 127, 129, 228]),
  (25345, [252, 152, 153, 452, 125, 325, 227, 100, 315, 200, 225, 327, 256, 115, 143, 304, 215, 120, 320]),
  (25346, [452, 152, 252, 125, 225, 315, 215, 132, 256, 224, 320, 227, 332, 325, 120, 322, 104, 352, 122, 115, 232]),
  (25351, [125, 152, 452, 225, 156, 217, 325, 252, 232, 332, 320, 315, 115, 215, 330, 120, 352, 227, 327, 107, 331, 132, 256, 220]),
  (25352, [413, 252, 315]),
  (25353, [434, 134, 152, 107, 115, 125, 225, 156, 120, 327, 227, 325, 104, 320, 215]),
  (25358, [452, 125]),
  (25361, [156, 152, 452, 125, 315, 115, 320, 200, 120, 252, 352, 362, 327, 162, 225, 262, 100]),
  (25366, [452, 152, 125, 252, 115, 227, 132, 120, 325]),
  (25370, [200, 402, 125, 227, 327, 100]),
  (25371, [256, 325, 152, 252, 225]),
  (25373, [230, 459, 332, 330, 331]),
  (25374, [252, 413, 315, 152, 327]),
  (25375, [452, 152, 252, 115, 256]),
  (25376, [452, 252, 215, 152, 225, 125, 315, 130, 220]),
  (25377, [452, 252, 152, 225, 125, 215, 320, 325, 156, 115]),
  (25378, [413]),
  (25379, [152, 452, 252, 315, 227]),
  (25380, [452, 152, 252, 200, 156, 115, 315, 120, 132, 125, 256, 362, 162]),
  (25381, [252, 452, 152, 325, 225, 125, 227, 115, 120, 215, 315, 327, 331, 220, 320, 332, 156]),
  (25384, [452, 152, 107, 315, 115, 200, 227, 307, 120, 362, 262]),
  (25386, [130, 452, 152, 252, 125, 131, 417, 132, 327, 315, 320]),
  (25387, [252, 452, 125, 152, 215, 220, 120]),
  (25391, [152, 452, 327, 225, 252, 125, 156, 227, 200, 325, 220, 215, 115, 315, 127, 132, 454, 320, 332, 120, 130, 328, 330]),
  (25394, [252, 459]),
  (25401, [125, 413, 152]),
  (25402, [407, 152, 452, 227, 200, 100, 262, 115, 362, 327, 320, 252, 162, 215, 125, 228, 315]),
  (25405, [152, 452, 125, 315, 327, 332]),
  (25410, [452, 152, 327]),
  (25411, [413]),
  (25413, [452, 152, 120]),
  (25414, [452, 152, 222, 104, 252, 125, 325, 232, 422]),
  (25417, [452, 252, 152, 315, 115, 120, 156, 330]),
  (25419, [452, 152, 315])]

/-- hmm/pos/char_state_tab.go:2110-2173 -/
noncomputable def chars32 : List (Nat × List Nat) := [
  (25420, [422, 122, 227, 322, 222]),
  (25421, [152, 125]),
  (25422, [452, 152, 107]),
  (25423, [452, 152, 252, 120, 200, 362, 262, 315, 320, 132, 115]),
  (25424, [152, 452, 125, 315, 256, 225, 120, 325, 252, 215]),
  (25429, [252, 152, 452, 125, 225, 115, 325, 156, 132, 256, 320]),
  (25438, [452, 252, 152, 315, 330, 256, 325, 120, 225, 125, 130]),
  (25439, [125, 152, 256, 252, 454, 456, 225, 156, 325, 115, 215, 227, 352, 320, 220, 200, 327, 315]),
  (25441, [452, 152, 252, 120]),
  (25442, [252, 452, 152, 132, 106, 320, 315, 129, 325, 256, 156, 125, 215, 332, 327, 227, 317, 220]),
  (25443, [152, 452, 252, 125, 352, 315]),
  (25447, [452, 252, 152, 227, 315, 120, 156, 327, 256]),
  (25449, [252, 413, 325]),
  (25453, [315]),
  (25454, [225, 234, 434, 152, 252, 325, 107, 125, 330, 220, 115, 200, 256, 320, 215, 315, 352, 327]),
  (25462, [452, 152, 115, 315]),
  (25463, [130, 200, 417, 227, 225, 327, 125, 252, 262, 132, 232, 220, 115, 330, 325, 207, 329, 356, 320, 215, 127, 315, 152, 131, 129, 229, 228]),
  (25466, [315, 425, 452, 252]),
  (25467, [452, 125, 225, 152, 325]),
  (25472, [152, 452, 115]),
  (25474, [452, 152, 352, 115]),
  (25479, [252, 413]),
  (25480, [225, 152, 454, 252, 227, 320, 125, 156, 315, 104, 327, 256, 325, 115, 132, 304, 220, 331]),
  (25481, [452, 252, 152, 115, 320, 215, 120]),
  (25482, [413]),
  (25484, [152, 125, 425, 225, 452, 252, 117, 127, 215, 104, 327, 325, 227, 156, 315, 232, 320, 115, 220, 120]),
  (25486, [115, 413]),
  (25487, [152, 452, 227]),
  (25488, [452, 152, 115, 320]),
  (25490, [152, 252, 125, 452, 256, 222, 156, 225, 132, 242, 207, 422, 115, 320, 317, 120, 315, 217, 143, 325, 231, 227, 130, 331, 117, 352, 330, 100]),
  (25494, [452, 230, 252, 130, 330, 256]),
  (25496, [252, 452, 152, 325, 125, 327, 315, 256, 332]),
  (25504, [152, 452, 252, 325, 125, 220, 156, 256, 315, 320, 107, 104, 115]),
  (25506, [152, 452, 125, 252, 156, 256, 127, 225, 325, 115, 227, 315, 327, 320, 132, 120, 143]),
  (25507, [452, 152, 215, 320, 156, 252]),
  (25509, [152, 201, 452, 252, 106, 204, 125, 107, 306, 325, 120, 225, 315, 115, 256, 156, 320, 215, 117, 227, 132, 332, 327, 104, 304, 317, 220]),
  (25511, [152, 256, 252, 452, 125, 217, 156, 204, 225, 325, 332, 132, 232, 120, 331, 117]),
  (25512, [152, 452, 125, 156, 256, 115, 252, 325, 220, 315, 227, 320, 132, 332, 204, 352, 120, 215]),
  (25513, [152, 452, 252, 125, 156, 115, 352, 315, 332, 215, 120, 256, 220, 327]),
  (25514, [125, 225, 215, 252, 152, 115, 454, 156, 227, 129, 327, 130, 325, 120, 127]),
  (25516, [452, 215, 220, 327]),
  (25517, [452]),
  (25518, [125]),
  (25520, [452, 152, 327, 252]),
  (25523, [454, 152]),
  (25524, [452]),
  (25527, [452, 252, 215, 125, 315, 115, 152]),
  (25528, [452, 130, 325, 125]),
  (25530, [152, 452, 125, 132, 120]),
  (25534, [413]),
  (25540, [252, 413]),
  (25542, [413, 227]),
  (25545, [452, 152, 315, 227]),
  (25549, [452, 252]),
  (25550, [452, 115]),
  (25551, [152, 252, 225, 452, 325, 315, 125, 227, 156, 115]),
  (25552, [152, 452, 225, 125, 325, 156, 252, 227, 327, 204, 315, 115, 230, 330, 320, 220, 104, 215, 229, 129, 329, 130, 304, 232, 120, 331, 256, 132, 332, 107, 317]),
  (25554, [452, 152, 125, 252, 115, 315, 156, 225, 320, 132, 325, 120, 107, 130]),
  (25558, [454, 327, 252, 227, 215, 152]),
  (25568, [115]),
  (25569, [252, 452, 152, 220, 132, 215, 115, 325, 125, 327]),
  (25571, [452, 152, 252, 227]),
  (25577, [452, 152, 227]),
  (25578, [452, 100, 152, 115])]

/-- hmm/pos/char_state_tab.go:2174-2237 -/
noncomputable def chars33 : List (Nat × List Nat) := [
  (25581, [152, 452, 256, 252, 125, 130, 115, 120, 127, 215, 129, 315]),
  (25586, [413]),
  (25588, [252, 156, 454, 256, 152, 125, 225, 327, 317, 325, 215, 227, 332, 228, 220, 315, 217, 107]),
  (25590, [152]),
  (25597, [452, 320, 252, 152, 220, 215, 227, 315, 332, 327, 335]),
  (25600, [452, 152, 227]),
  (25601, [452, 252, 152, 132, 227]),
  (25602, [452, 152, 252, 125]),
  (25605, [452, 152, 252, 125, 315, 227, 156]),
  (25611, [452]),
  (25615, [152, 454, 252, 225, 426, 156, 325, 227, 332, 320, 220, 215, 327]),
  (25616, [252, 413, 152]),
  (25619, [452, 252, 152, 125, 132, 115]),
  (25620, [452, 152, 315, 115, 325]),
  (25627, [452]),
  (25628, [152, 452, 156, 132, 125, 115, 327, 320, 220, 131]),
  (25630, [452, 152, 252, 100, 200, 125, 120]),
  (25632, [452, 227, 327]),
  (25633, [252, 452, 352, 227]),
  (25638, [413, 252]),
  (25642, [125, 152, 452, 252]),
  (25644, [452, 152, 252, 156, 125, 315, 115, 120, 227]),
  (25645, [452, 152, 252, 125, 156, 325, 320, 362, 262, 120, 227, 315]),
  (25652, [413]),
  (25658, [152, 452, 304, 125, 252, 315, 204, 132, 120, 227, 325, 115, 320, 327]),
  (25661, [452, 152, 115, 227, 327]),
  (25663, [413]),
  (25665, [452]),
  (25668, [152, 125, 454, 252, 122, 322, 104, 135, 325, 315, 331, 228, 115, 132, 156]),
  (25669, [413]),
  (25670, [152, 452, 252, 125, 320, 225, 352, 215, 120, 315, 156, 104, 256, 332, 325]),
  (25671, [152, 452, 352, 252, 327, 125, 115, 315, 162, 362, 227, 215, 204, 120, 201, 320, 220, 256, 132, 156, 304, 325]),
  (25672, [152, 454]),
  (25674, [125, 425, 452, 152, 222, 225, 252, 256, 325, 142, 352, 220, 227, 422]),
  (25682, [152, 454, 120]),
  (25684, [452, 152, 225, 156, 220, 125]),
  (25688, [452, 152, 125, 252, 225, 156, 120, 315, 256, 227, 325]),
  (25694, [222, 452, 435]),
  (25703, [152, 454, 215, 156, 115, 125, 315, 227]),
  (25705, [132, 417, 125, 327, 152, 252, 130, 156, 129, 230, 227, 229, 330, 115, 100, 232, 127, 332, 325, 320, 452, 256, 117, 162, 331, 224, 329, 131, 315]),
  (25709, [413, 227]),
  (25720, [452, 252, 152, 125, 315, 120, 207, 215, 320, 227, 325, 362, 332, 162, 220, 304, 115, 256]),
  (25721, [452, 252, 152, 125, 227, 327]),
  (25722, [452, 152, 125]),
  (25730, [452, 152, 227]),
  (25732, [413, 327]),
  (25733, [452, 425, 262, 362]),
  (25735, [152, 452, 425, 222, 325, 435, 220, 320]),
  (25745, [252, 452, 152, 325, 125, 225, 227, 332, 120, 256]),
  (25746, [452, 152, 330, 125, 130, 230, 129, 252, 132, 229, 120, 227, 107, 327, 225, 325, 127, 115, 315, 329]),
  (25749, [452, 152, 120, 232]),
  (25750, [413]),
  (25753, [152]),
  (25758, [452, 152, 252, 256, 362, 262, 200, 215, 156, 325, 125, 315, 225, 220, 227]),
  (25764, [152, 452, 252, 156, 227, 132]),
  (25769, [452, 152, 100]),
  (25772, [452, 152, 125]),
  (25773, [256, 152, 452, 252, 325, 125, 331, 130, 229, 225, 220, 156, 227, 232, 304, 332, 315]),
  (25774, [452, 435, 152, 222, 125, 156, 322, 327]),
  (25776, [454, 152, 252, 125, 227, 325]),
  (25781, [452, 152]),
  (25783, [454, 152, 252]),
  (25784, [125]),
  (25786, [152])]

/-- hmm/pos/char_state_tab.go:2238-2301 -/
noncomputable def chars34 : List (Nat × List Nat) := [
  (25788, [252, 452, 152, 315, 325, 115, 120, 327, 320, 227]),
  (25792, [452, 125, 227, 332]),
  (25794, [152, 452, 215, 125, 352, 252, 115, 130]),
  (25797, [454, 152, 107, 252, 115]),
  (25805, [152, 452, 227, 125, 225, 127, 120, 325, 220, 115, 320, 252, 315, 425, 256, 327, 331, 100, 156]),
  (25806, [225, 227, 452, 152, 327, 125, 325, 315]),
  (25808, [413]),
  (25810, [452, 252, 152, 227, 315, 327, 120, 215, 115, 320, 132, 125]),
  (25816, [413, 225, 152]),
  (25822, [459, 215, 315, 252]),
  (25826, [413, 152, 252, 227, 115]),
  (25828, [452]),
  (25830, [452, 252, 256, 152, 325, 120, 125, 315, 220, 320, 225, 115, 132]),
  (25856, [152, 452, 130, 227, 327, 252, 125, 215, 115, 156, 320, 120, 131]),
  (25865, [452]),
  (25874, [452, 252, 320, 152, 125, 227, 315]),
  (25880, [454, 315, 215, 327, 120, 252, 262, 152]),
  (25893, [452]),
  (25899, [152]),
  (25902, [452, 125]),
  (25903, [152, 125, 222, 225, 435, 156, 252, 325, 422, 127, 330, 317, 315, 227, 232, 115, 352, 327, 132, 117, 230, 256, 215, 238, 217, 120, 320, 220, 162]),
  (25910, [125, 152, 252, 452, 325, 225, 156, 256, 315, 115, 320, 227, 220, 317, 217, 132, 215, 120, 327, 332, 117, 304, 143]),
  (25912, [152, 315, 130, 320]),
  (25913, [152, 156, 452, 252, 125, 320, 217, 327, 115, 107, 117, 227, 325, 315, 256, 215, 332, 132, 220, 317, 331, 130, 120]),
  (25915, [152, 252, 452, 256, 125, 156, 325, 227, 315, 115, 327, 215, 120, 320, 132]),
  (25918, [152, 252, 452, 325, 125, 331, 332, 220, 227, 107, 343, 315, 120, 128, 100, 156, 215, 262, 200, 115, 320, 327, 304, 204, 330, 256, 117, 228, 232, 352, 230, 356, 132, 225, 130, 317]),
  (25919, [125, 225, 325, 331, 252, 227, 426, 320, 327, 117, 152, 120, 217, 317, 132, 332, 215, 330, 256, 304, 130, 321, 131, 228, 220, 156, 315, 229, 231, 352, 115, 328]),
  (25925, [406, 125, 225, 107, 252, 130, 215, 207, 152, 106, 425, 315, 330, 115, 132, 120, 325, 220, 327, 304, 200, 320]),
  (25928, [125, 200, 225, 252, 325, 152, 204, 426, 215, 320, 327, 227, 315, 220, 217, 332, 256, 352, 232, 230]),
  (25929, [413, 327]),
  (25932, [125, 426, 252, 225, 100, 215, 142, 315, 256, 152, 120, 227, 320, 325, 454, 331, 220, 332, 115]),
  (25935, [227, 100, 402, 200, 327, 325, 252, 125, 230, 330, 204, 232, 256, 320, 225, 220, 215, 228, 332]),
  (25937, [452, 252, 152, 156, 125, 315, 256, 120, 325, 320, 115, 332, 215, 327, 225, 330, 317, 131, 104]),
  (25941, [426, 125, 454, 227, 130]),
  (25942, [127, 427, 227, 125, 327, 331, 130, 454, 132]),
  (25945, [125, 156, 232, 225, 452, 252, 325, 320, 152, 217, 331, 227, 327, 256, 117, 315, 215, 317, 220, 231, 330, 143, 120, 131, 332, 104, 304, 115, 129, 328]),
  (25947, [252, 454, 152, 256, 215, 200, 327, 115, 227]),
  (25949, [438, 200, 142, 215, 125, 138, 115, 315, 320]),
  (25950, [452, 200, 152, 104, 100, 320, 227, 125, 327, 228]),
  (25954, [207, 452, 125, 200, 152, 252, 320, 107, 115, 315, 227, 327, 120, 325, 352]),
  (25955, [252, 452, 152, 125, 200, 325, 215, 256, 100, 225, 315, 227, 104, 327, 220, 156, 217, 115, 352, 362, 262, 329, 320, 425, 332, 304, 328]),
  (25958, [230, 130, 227, 152, 331, 427, 125, 327, 225, 417, 330, 100, 328, 131, 229, 315, 162, 156, 362, 129, 402]),
  (25963, [413]),
  (25964, [152, 252, 327, 452, 127, 200, 227, 125, 362, 262, 215, 115, 156, 315, 120, 220, 320, 330, 228]),
  (25968, [225, 125, 222, 122, 422, 325, 322, 220, 252, 207, 320, 215, 117, 152, 232, 200, 120, 352, 156, 227, 115, 315, 327, 331, 143, 104, 129, 332, 132]),
  (25970, [452, 152, 252, 125, 115, 120, 315, 132, 220, 320, 215]),
  (25972, [256, 125, 104, 152, 200, 107, 252, 156, 122, 422, 100, 207, 452, 322, 325, 362, 162, 120, 132, 315, 222, 115, 262, 343, 227, 327, 220, 225, 332, 320, 331]),
  (25975, [452, 152, 252, 315, 227, 115, 125, 327, 132, 325, 156]),
  (25991, [125, 225, 327, 426, 325, 227, 127, 232, 132, 120, 252, 320, 238, 222, 117, 331, 130, 332, 315, 131, 330, 329, 142, 115, 243, 100, 328, 200, 230, 129, 229, 228, 352, 215, 162, 128, 217, 235, 422, 356, 152, 317, 256, 143, 304, 156, 362]),
  (25995, [426, 227, 152, 252, 225, 125, 232, 332, 327, 143, 343, 230, 130, 127, 320]),
  (25996, [227, 427, 327, 228]),
  (26000, [417, 327, 227, 130, 162, 129, 329]),
  (26001, [125, 225, 425, 162, 325, 262, 220, 320, 315, 362, 327, 215, 332, 130, 115]),
  (26003, [459, 262, 215, 220, 227, 327]),
  (26007, [156, 256, 452, 325, 252, 225, 125, 320, 222, 152, 227, 215, 332, 315, 107, 327, 130, 115, 132, 200, 220, 232, 330, 422, 228, 352, 304]),
  (26009, [225, 425, 252, 220, 152, 325, 320, 215, 207, 232, 256, 315, 125, 452, 227, 204, 115, 331, 230, 162, 332, 304, 330]),
  (26011, [435, 227, 225, 127]),
  (26012, [452, 252, 125, 152, 225, 362, 262, 325, 400, 112, 320, 104, 327, 132, 330, 115, 207, 232]),
  (26015, [152, 452, 315, 227, 327]),
  (26017, [330, 152, 332, 156]),
  (26020, [222, 435, 235, 422, 315, 125, 115, 325, 225, 224, 320, 328]),
  (26021, [252, 152, 454, 256, 315, 125, 325, 120, 320]),
  (26023, [426, 125, 225, 232, 325, 215, 227, 315, 156]),
  (26025, [452, 152, 115, 252, 315, 320, 204, 325, 232])]

/-- hmm/pos/char_state_tab.go:2302-2365 -/
noncomputable def chars35 : List (Nat × List Nat) := [
  (26027, [454, 327, 227]),
  (26029, [207, 252, 452, 152, 125, 215, 325, 225, 107, 200, 315, 115, 220, 256, 330, 320, 201, 156, 104, 230, 227, 304, 120, 132, 352, 327]),
  (26031, [227, 330, 230, 327, 127, 332, 229, 329, 225, 232, 130, 427, 438, 325, 331, 129, 439, 125, 417, 328, 132, 100, 131, 315, 426, 115, 352, 220, 231, 320]),
  (26032, [400, 125, 252, 130, 207, 104, 152, 200, 132, 100, 131, 327, 325, 204, 227, 332, 129, 232, 256, 330, 230, 127, 115, 215, 143, 107, 225, 217, 315, 156, 343, 120, 331, 220, 117, 317, 328, 320, 228, 329, 229, 304, 262, 128]),
  (26041, [125, 225, 435, 212, 242, 335, 306, 322, 222, 127, 325, 100, 327, 238, 320, 324, 107, 227, 235, 207, 315, 143, 331, 200, 215, 132, 252, 232, 332, 204, 217, 330, 130, 115, 362, 422, 230, 262, 304, 220, 352, 128, 120, 328, 307, 162, 329, 224, 231, 256, 228, 131, 129]),
  (26044, [427, 127, 410, 327, 227, 315]),
  (26045, [225, 252, 152, 156, 127, 452, 327, 125, 227, 215, 129, 315, 230, 220, 330, 128, 130, 325, 229, 131, 256, 352, 132, 329, 332, 320, 232, 115]),
  (26049, [112, 412, 212, 242, 138, 152, 125, 315, 130, 115, 320, 227, 225, 325, 330, 217, 120, 156]),
  (26051, [413, 325, 125, 227]),
  (26052, [413, 315]),
  (26053, [156, 125, 425, 152, 225, 217, 130, 331, 132, 332, 227, 117, 325, 131, 252, 232, 231, 327]),
  (26054, [413, 227]),
  (26059, [152, 125, 407, 252, 225, 325, 107, 256, 227, 315, 104, 327, 304, 132, 330, 120, 115]),
  (26060, [125, 320, 130, 152, 225, 129, 115]),
  (26062, [459, 200, 215, 320]),
  (26063, [225, 232, 426, 330, 325, 125, 238, 227, 435, 332, 320, 331, 252, 217, 352, 327, 304, 356, 215, 220]),
  (26066, [413, 225]),
  (26070, [100, 315, 120]),
  (26071, [125, 225, 425, 227, 230, 331, 315, 327, 115, 330, 252, 320, 325, 256, 332, 232, 231, 129, 220]),
  (26080, [452, 152, 107, 315, 125, 106, 115, 252, 104, 120, 100, 320, 122, 162, 130, 132, 143, 327, 127, 156, 204, 325, 227, 332, 220, 217, 207, 215, 101, 117, 304, 331, 322, 131, 103, 328]),
  (26082, [406, 106, 104, 315, 115, 125, 143, 227, 327, 120]),
  (26085, [422, 243, 130, 125, 417, 225, 222, 107, 143, 238, 332, 117, 104, 256, 207, 131, 152, 229, 315, 325, 320, 215, 330, 232, 204, 322, 115, 327, 127, 252, 220, 132, 122, 129, 227, 331, 120, 230, 329, 228, 135, 235, 100, 162, 328, 217, 343, 317, 156, 352, 304]),
  (26086, [207, 243, 225, 227, 331, 230, 417, 215, 426, 315, 435, 343, 232, 143, 325, 327, 125, 330, 217, 454, 252, 320]),
  (26087, [400, 125, 262, 207, 143, 200, 252, 225, 130, 104, 325, 230, 204, 217, 215, 320, 227, 315, 256, 115, 220, 330, 120, 129, 152, 317, 327]),
  (26088, [426, 225, 152, 125, 252, 227, 327, 325, 215]),
  (26089, [400, 143, 107, 207, 125, 243, 152, 112, 252, 220, 227, 320, 200, 315, 338, 115, 327, 131, 117, 225, 120, 307, 331, 156, 132, 332, 100, 127, 129, 232]),
  (26092, [243, 435, 222, 125, 426, 217, 130, 227, 322, 327]),
  (26093, [227, 327, 427, 328, 129, 125, 120, 130, 228, 115, 127]),
  (26094, [125, 327]),
  (26095, [225, 459, 227]),
  (26096, [413, 315]),
  (26097, [200, 125, 400, 225, 325, 156, 256, 252, 120, 117, 143, 343, 352, 227, 220, 327, 320]),
  (26102, [125, 426, 206, 243, 238, 207, 225, 204, 201, 107, 325, 320, 338, 252, 307, 327, 230, 152, 315, 200, 343, 127, 120, 128, 215, 222, 100, 227, 304, 332, 220, 143, 224, 115, 331, 235, 217, 229, 228, 162, 362, 131, 352, 132, 256, 130, 129, 104, 322, 330, 328]),
  (26103, [400, 127, 125, 200, 227, 427, 115, 315, 327, 104, 100, 107, 152, 362, 262, 215, 320]),
  (26106, [400, 100, 125, 227, 200, 330, 327, 127, 152, 320, 230, 129, 220, 215, 229, 225, 317, 228, 130]),
  (26112, [227, 413, 327]),
  (26114, [100, 452, 227, 200, 230, 152, 215, 327, 127, 362, 262, 229, 129, 225, 454, 315, 232, 120, 332, 115, 329, 162, 130, 330, 131, 228]),
  (26115, [413, 215]),
  (26118, [130, 125, 417, 227, 327, 330, 332, 117, 131, 129, 127, 228, 217, 230, 331, 132, 320]),
  (26122, [427, 227, 327, 130, 132, 232, 228]),
  (26124, [230, 227, 327, 127, 130, 330, 417, 229, 427, 320, 332, 132, 325, 100, 228, 232, 129, 315, 125, 331, 215, 131]),
  (26126, [252, 143, 100, 152, 225, 227, 400, 200, 101, 127, 125, 327, 407, 325, 207, 230, 232, 330, 107, 243, 315, 228, 215, 115, 120, 162, 130, 132, 220, 320, 362, 262, 343, 402, 331, 117, 156, 332, 229, 352, 129, 307, 329, 317, 304, 201, 256, 128, 104, 356, 235, 131, 328]),
  (26127, [243, 152, 452, 100, 162, 252, 315, 120, 156, 362, 125, 320, 115, 444, 215, 307, 107, 327, 456, 325, 227, 400, 225]),
  (26131, [225, 256, 325, 200, 400, 127, 331, 207, 220, 152, 315, 125, 227, 215, 100, 232, 327, 330, 229, 130, 329, 132, 332, 320, 204, 343, 252, 115, 120, 128, 156, 131, 104, 129, 328, 230]),
  (26132, [143, 444, 243, 327, 315, 227, 225, 215, 130, 207]),
  (26133, [227, 413, 327]),
  (26137, [115, 125]),
  (26141, [427, 127]),
  (26143, [225, 125, 425, 227, 232, 143, 325, 327, 304, 200, 132, 115, 127, 315, 207, 330, 331, 104, 320, 252, 152, 130, 220, 215, 204, 120, 224, 343, 362, 262, 332, 230, 217, 322, 222, 328, 129, 231, 324, 228]),
  (26144, [252, 452, 152, 325, 127, 125, 215, 227, 120, 327, 315, 256, 232]),
  (26149, [444, 125, 143, 227, 327, 230, 225, 127, 243, 330, 343, 256, 315, 252, 228, 132, 325, 115, 152, 217, 117, 120, 220, 332, 320, 232, 331, 215, 156, 130, 129, 317, 229, 131, 304, 328]),
  (26151, [200, 452, 225, 315, 104, 215, 325, 227]),
  (26152, [143, 444, 227, 327]),
  (26157, [454, 227, 327, 129, 152, 330, 130, 132, 315, 125, 262, 162, 115, 100, 402, 329, 320]),
  (26159, [452, 206, 225, 207, 252, 152, 320, 220, 120, 238, 106, 306, 125, 215, 315, 143, 115, 232, 327, 217, 325, 138, 328, 352]),
  (26161, [227, 413, 327]),
  (26164, [413, 227]),
  (26165, [454, 252, 200, 125, 227]),
  (26166, [227, 413, 327]),
  (26172, [125, 225, 426, 227, 120, 143, 115, 444]),
  (26174, [152, 200, 452, 101, 100, 125, 252, 227, 327, 115, 127, 104, 132, 325, 315, 320, 232, 120, 117, 130, 225, 352, 230, 328, 329]),
  (26177, [127, 427, 227, 327]),
  (26179, [452, 252, 362, 152, 262, 227, 315, 327, 162, 100, 200, 232, 125, 325, 107]),
  (26187, [417, 243, 127, 130, 217, 227, 152, 225, 327, 117, 143, 132, 131, 452, 129, 125, 230, 330, 156, 320, 331, 228, 315, 115])]

/-- hmm/pos/char_state_tab.go:2366-2429 -/
noncomputable def chars36 : List (Nat × List Nat) := [
  (26188, [222, 143, 435, 444, 243, 322, 252, 227]),
  (26191, [127, 227, 427, 327, 152, 330, 315, 215, 229, 402, 128]),
  (26194, [452, 252, 152, 125, 325, 215, 315, 229, 327, 227, 332, 132]),
  (26195, [327, 152, 252, 127, 454, 227, 215, 243, 328, 115, 220, 320, 130, 325, 232, 225, 125, 129, 256, 228]),
  (26196, [227, 413, 327]),
  (26197, [452, 252, 152, 225, 315, 115, 200, 162, 362, 227, 325, 320, 120, 215, 125]),
  (26198, [227, 427, 225, 327, 228, 332]),
  (26199, [227, 413, 327]),
  (26202, [143, 444, 243, 125, 207, 220, 225, 238, 152, 317, 315, 232, 227, 327, 325, 343, 332, 215, 228, 320, 117]),
  (26207, [227, 413, 327]),
  (26209, [413]),
  (26212, [252, 454, 325, 330, 331, 152, 227, 327]),
  (26214, [103, 200, 100, 215, 162, 315, 252, 125, 143]),
  (26216, [243, 125, 427, 227, 232, 332, 327, 444, 143, 152, 315, 228, 115, 331]),
  (26222, [101, 100, 427, 125, 227, 127, 327, 152, 132, 325, 130, 330, 156, 229, 332, 129, 230, 225, 204, 329, 232, 331, 131, 162, 362, 135, 115, 104, 402, 120, 117, 217, 228]),
  (26223, [225, 125, 426, 127, 325, 327, 100, 227, 130, 300, 132, 252, 315, 330, 230, 320, 152, 332, 220, 215, 256, 304, 232, 231, 128, 329]),
  (26224, [200, 252, 320, 325, 413, 227, 356]),
  (26228, [452, 227, 132, 125, 100, 327, 115, 120, 252, 152, 215, 220, 130, 225, 129, 162]),
  (26230, [125, 225, 325, 427, 227, 100, 327, 362, 262, 132, 332, 229, 115, 426, 117, 217, 120, 232, 228]),
  (26231, [413, 225, 215]),
  (26234, [125, 426, 227, 225, 127, 427, 327, 200, 130, 152, 417, 325, 215, 315, 328, 252, 320, 204, 115, 104, 220, 131, 232, 156, 317, 201, 217, 304, 117, 402, 229, 228]),
  (26238, [452, 152, 327, 227, 125]),
  (26242, [107, 407, 152, 200, 104, 125, 327, 227, 156]),
  (26244, [252, 413, 227]),
  (26247, [413, 225, 207, 215, 315, 227, 320]),
  (26252, [454, 152]),
  (26257, [252, 225, 143, 402, 444, 330, 125, 243, 325, 327, 220, 227, 320, 256, 315]),
  (26262, [400, 252, 203, 125, 327, 162, 200, 100, 362, 225, 325, 152, 320, 332, 227, 104, 215, 315, 204, 130, 256, 317, 132]),
  (26263, [107, 452, 152, 125, 200, 207, 225, 100, 400, 252, 262, 315, 156, 104, 115, 327, 215, 220, 320, 325, 401, 142, 162, 227]),
  (26269, [413]),
  (26279, [100, 125, 115]),
  (26280, [406, 131, 230, 117, 127, 330, 130, 325, 227, 327]),
  (26286, [444, 125, 143, 315, 402, 225, 120, 327, 243, 215, 227, 115, 325]),
  (26292, [152, 125, 225, 200, 425, 127, 100, 156, 315, 320, 115, 325, 252, 120, 400, 227, 215, 327, 201, 401]),
  (26297, [130, 459, 227]),
  (26302, [413, 227]),
  (26329, [327, 125, 132, 330, 328]),
  (26331, [413]),
  (26332, [413, 227, 327, 232]),
  (26333, [152, 454, 132, 125, 227, 315]),
  (26342, [227, 427, 225, 327]),
  (26345, [413]),
  (26352, [454, 252, 327, 227, 206, 220, 315, 215]),
  (26354, [225, 125, 435, 252, 100, 325, 127, 130, 222, 227, 230, 315, 362, 262, 162, 320, 330, 152, 327, 332, 115, 229, 220, 200, 120, 331, 129, 422, 204, 256, 132]),
  (26355, [252, 125, 152, 325, 362, 320, 262, 132, 315]),
  (26356, [407, 107, 152, 252, 243, 120, 100, 315, 115, 327, 125, 156, 215, 106, 332, 325, 127, 227, 320, 104, 132, 229, 143]),
  (26359, [413]),
  (26361, [127, 427, 130, 327, 227, 225, 128, 230, 315, 125, 115, 238, 320, 132]),
  (26364, [227, 330, 130, 229, 402, 127, 230, 327, 325, 225, 129, 125, 329, 232, 332, 331, 300, 131, 100, 128, 200, 117, 203, 132, 315, 152]),
  (26366, [407, 107, 207, 127, 227, 125, 130, 229, 327, 315, 128, 115, 228, 129]),
  (26367, [434, 252, 152, 125, 225, 115, 156, 215, 256, 325, 220, 332, 327, 320, 452, 232, 132]),
  (26368, [407, 100, 107, 112, 143, 125, 162, 104, 152, 131, 120, 207, 331, 142, 227, 327, 117]),
  (26376, [422, 425, 125, 243, 222, 225, 143, 238, 117, 343, 327, 435, 325, 252, 332, 227, 207, 315, 215, 232, 330, 352, 127, 115, 220, 130, 324, 132, 228, 320, 229, 224, 331, 256, 120, 230]),
  (26377, [452, 252, 138, 152, 100, 204, 125, 156, 107, 325, 120, 256, 206, 104, 315, 320, 327, 115, 215, 207, 127, 200, 122, 331, 352, 227, 220, 328, 304, 232, 306, 132, 343, 356, 332, 322, 117, 228, 217]),
  (26378, [413]),
  (26379, [125, 325, 426, 320, 225, 227, 315, 327, 352, 115, 215, 132]),
  (26381, [156, 225, 252, 125, 152, 452, 200, 325, 256, 320, 227, 222, 215, 315, 220, 362, 327, 232, 262, 100, 217, 162, 127, 332, 331, 422, 115, 143]),
  (26384, [413, 230, 330]),
  (26388, [417, 125, 315, 230, 143, 227, 130, 228, 327, 330, 232, 243, 132, 200]),
  (26389, [413, 227, 125, 327]),
  (26391, [227, 200, 230, 427, 327, 330, 152, 329, 129, 332, 225, 262, 162, 356, 229, 215, 320, 222, 325, 315, 130, 232, 228, 100, 115, 402, 331, 125, 156, 362, 220, 132]),
  (26395, [252, 452, 225, 200, 152, 127, 125, 227, 325, 315, 115, 256, 215, 327, 130, 232, 220, 243, 204, 320, 120, 132, 230, 229, 330, 329, 331, 332, 328, 143]),
  (26397, [434, 243, 125, 225, 130, 327, 227, 152, 134, 132, 315, 252, 330, 115, 224, 220, 131, 217, 117, 325, 320, 332, 127, 328, 156, 331, 215, 129, 230]),
  (26399, [225, 212, 256, 243, 125, 207, 204, 112, 435, 252, 152, 217, 222, 325, 320, 343, 238, 422, 143, 331, 227, 117, 315, 232, 352, 215, 104, 156, 332, 327, 115, 224])]

/-- hmm/pos/char_state_tab.go:2430-2493 -/
noncomputable def chars37 : List (Nat × List Nat) := [
  (26406, [100, 162, 362, 262, 125, 327, 227]),
  (26408, [125, 225, 425, 330, 127, 227, 327, 325, 230, 426, 252, 104, 315, 400, 320, 215, 232, 162, 115, 130, 229, 120, 100, 328, 132, 332, 129, 200, 331, 217, 329, 362, 204, 256, 220, 231]),
  (26410, [407, 143, 207, 152, 107, 315, 125, 320, 115, 227, 327, 325, 156, 130, 129, 120, 222, 329, 132, 328, 322, 232, 104]),
  (26411, [412, 243, 125, 206, 225, 112, 327, 227, 343, 143, 315, 329, 230, 325, 215, 320, 212, 200, 107, 120, 238, 330, 220]),
  (26412, [225, 138, 200, 438, 230, 325, 125, 143, 107, 220, 307, 330, 207, 222, 331, 320, 327, 204, 252, 227, 315, 238, 132, 134, 356, 127, 130, 422, 115, 152, 129, 229, 332, 215, 117, 328, 120, 304, 104, 228, 256, 329, 162, 362, 232, 224, 100]),
  (26413, [435, 426, 225, 125, 327, 130, 227, 129]),
  (26415, [225, 325, 452, 252, 426, 125, 331, 227, 220, 143, 320, 327, 330, 217, 215, 315, 204, 352, 332, 304]),
  (26417, [127, 427, 125, 227, 327, 128, 104, 129, 130, 315, 115, 131, 325, 225, 330, 132]),
  (26420, [200, 100, 127, 125, 427, 227, 225, 327, 115, 315, 129, 320, 262, 162, 362, 215, 128, 328, 228, 203]),
  (26421, [225, 222, 435, 227, 422, 230, 235, 135, 322, 320, 327, 125, 325, 129, 220, 132, 152]),
  (26426, [125, 225, 426, 325, 207, 204, 100, 256, 252, 104, 320, 315, 152, 220, 232, 156, 227, 142, 332, 330, 215, 238, 304, 331, 120, 217, 115, 131, 327, 229, 352, 132, 117, 317, 222, 101, 130]),
  (26429, [200, 262, 452, 225, 152, 127, 215, 320, 325, 252, 456, 115, 315]),
  (26432, [452, 152, 252, 125, 256, 115, 156, 315, 225, 325, 120, 132, 320, 215, 200, 332, 327, 232, 352, 130, 330, 220]),
  (26434, [200, 125, 452, 252, 400, 325, 156, 215, 100, 152, 115, 352, 315, 262, 204, 120, 320, 362, 256, 225, 220, 331, 232, 162, 201, 217, 327, 130, 132]),
  (26435, [225, 125, 425, 252, 325, 127, 227, 320, 217, 152, 327, 228, 315, 220, 107, 256, 332, 115, 331, 232, 221, 230, 330, 117, 207, 132, 120, 215, 317, 229, 143, 100]),
  (26438, [225, 125, 435, 222, 320, 325, 230, 132, 327, 232, 227, 204, 304, 422, 252]),
  (26440, [225, 425, 252]),
  (26441, [225, 426, 227, 330, 125, 232, 132, 325, 127, 331, 131, 327, 130, 129, 229]),
  (26444, [413, 125]),
  (26446, [127, 427, 128, 225, 227, 327, 125, 325, 130, 230, 315, 132, 215, 330, 131, 220, 115, 129]),
  (26447, [426, 125, 227, 225, 327, 130, 325, 104, 315, 232, 120]),
  (26448, [225, 125, 325, 425, 252, 227, 426, 320, 332, 232, 215, 315, 327, 220, 231, 331, 217, 132]),
  (26449, [125, 225, 425, 227, 230, 238, 142, 117, 104, 232, 327, 325, 229, 252, 130, 330, 120, 127, 156, 228, 220, 329, 320, 256, 331, 152, 332]),
  (26451, [413, 327, 227]),
  (26454, [225, 426, 327, 227, 252, 215, 330, 120]),
  (26460, [127, 125, 427, 152, 327, 227, 329, 130, 132, 332, 129, 454, 128, 331, 330, 131, 315, 229, 115, 120]),
  (26462, [130, 225, 325, 115, 125, 227, 131]),
  (26463, [252, 256, 225, 452, 152, 222, 325, 435, 115, 156, 127, 200, 125, 215, 204, 227, 327, 129, 422, 120, 320, 132]),
  (26464, [125, 225, 452, 252, 227, 230, 327]),
  (26465, [125, 222, 435, 225, 422, 224, 325, 200, 320, 307, 315, 120, 220, 238, 330, 362, 262, 252, 215, 207, 327, 229, 152, 332, 204, 227, 115, 230, 232, 130, 117, 352, 132, 331, 122]),
  (26469, [252, 452, 243, 152, 207, 212, 145, 125, 307, 220, 256, 206, 227, 143, 215, 230, 330, 315, 325, 320, 204, 229, 327, 225, 306, 127, 115, 352, 130, 362, 162, 332, 160, 232, 100, 120, 132, 228, 317, 129, 331, 156, 304, 200]),
  (26472, [127, 427, 227, 125, 225, 128, 327, 130, 325, 232, 330, 132, 230, 315, 215, 332, 228, 129, 120]),
  (26473, [459]),
  (26474, [413, 327, 227]),
  (26477, [127, 130, 417, 332, 125, 227, 230, 330, 327, 128, 131, 132, 229, 129]),
  (26479, [222, 225, 435, 125, 252, 232, 115, 325, 422, 142, 227, 200, 217, 322, 230, 320, 332, 235, 135, 215]),
  (26480, [227, 100, 327, 127, 427, 225, 125, 129, 426, 229, 130, 220, 215, 228, 315, 217, 332, 402, 329, 232]),
  (26482, [227, 427, 327]),
  (26483, [115, 402, 327, 227, 120, 152]),
  (26485, [452, 225, 125, 426, 227, 215, 327, 315]),
  (26487, [225, 459, 325, 330]),
  (26492, [413, 225, 227, 327, 215]),
  (26494, [200, 452, 225, 125, 130, 227, 100, 127, 252, 152, 327, 325, 256, 330, 229, 362, 129, 262, 132, 230, 232, 162, 131, 228, 117, 220, 304, 331, 332, 329]),
  (26495, [225, 125, 426, 325, 252, 232, 200, 227, 104, 130, 230, 315, 132, 100, 327, 320, 129, 330, 115, 332, 220, 328, 215, 217, 229, 352, 362, 262]),
  (26497, [201, 407, 107, 225, 125, 100, 325, 230, 200, 252, 145, 315, 122, 156, 152, 330, 320, 227, 215, 104, 204, 115, 331, 327, 356, 217, 352, 332, 129, 130, 117, 132, 228]),
  (26500, [225, 152, 125, 325, 454, 252, 120, 156, 426, 220, 227, 231, 327, 320, 256, 229, 356, 332]),
  (26503, [125, 130]),
  (26505, [454, 252, 315, 152, 325, 162, 227, 320, 115]),
  (26507, [413, 227, 327, 130, 225]),
  (26512, [256, 325, 252, 454, 220, 152, 320, 225, 215, 227, 327, 232, 332, 315]),
  (26517, [125, 452, 142, 225, 315, 252, 227, 327, 115, 152, 215, 426, 230, 220, 132, 120, 232, 104]),
  (26519, [225, 127, 227, 125, 426, 230, 327, 232, 330, 325, 332, 252, 142, 331, 229, 152, 130, 128, 217, 317, 220, 228, 129, 215, 132, 329, 112, 320, 117, 315, 231, 120, 131, 352, 304, 328]),
  (26520, [413]),
  (26522, [422, 222, 435, 325, 315, 227, 252, 228, 327, 132]),
  (26524, [206, 225, 107, 125, 426, 306, 325, 100, 230, 252, 227, 232, 215, 327, 330, 101, 115, 106, 127, 320, 315, 117, 217, 130, 129, 331, 104, 332, 317, 132, 229, 329, 152, 220, 343, 228]),
  (26525, [225, 435, 125, 222, 315, 227, 330, 325, 327, 130, 215, 115, 252, 422, 320, 426, 417, 162, 362, 220, 331, 204]),
  (26526, [130, 125]),
  (26530, [125, 225, 325, 320, 220, 132, 120, 332, 315]),
  (26531, [225, 425, 125, 130, 104, 129, 325, 327, 215, 230]),
  (26533, [413, 215, 227, 130, 252]),
  (26535, [413, 327]),
  (26536, [413]),
  (26538, [425, 225, 125, 222, 252, 220, 152, 325, 315, 227, 156, 232, 215, 115, 422, 320, 120, 132, 352]),
  (26539, [427, 227, 125, 130, 327, 426, 225, 132])]

/-- hmm/pos/char_state_tab.go:2494-2557 -/
noncomputable def chars38 : List (Nat × List Nat) := [
  (26541, [125, 152, 115, 225]),
  (26543, [125, 452, 152, 100, 143, 252, 162, 315, 325, 115, 227, 120, 103, 262]),
  (26544, [426, 227]),
  (26547, [125]),
  (26549, [413]),
  (26550, [225, 435, 422, 222, 252, 125, 152, 325, 142, 156, 230, 330, 232, 320, 315, 256, 122, 322, 227, 135, 130, 352, 215, 132, 332, 304]),
  (26551, [125, 315, 225]),
  (26552, [125, 132, 327]),
  (26561, [413]),
  (26563, [459]),
  (26564, [425, 225, 227, 327, 215, 426, 232, 125]),
  (26575, [130, 127, 327, 227, 225, 330, 125, 426, 427, 230, 132, 331, 228, 229, 325, 131, 129, 232]),
  (26576, [138, 438, 227, 238, 327, 225, 329, 229]),
  (26577, [125, 426, 225, 327]),
  (26578, [422, 122, 227, 322, 222]),
  (26579, [252, 256, 125, 325, 452, 152, 225, 215, 204, 227, 232, 320, 156, 132, 332, 220, 327, 343, 304]),
  (26580, [100, 200, 452, 125, 315, 227, 327, 230, 400, 103, 129, 120, 325, 330, 162, 362, 115, 152, 332, 220, 331, 320]),
  (26584, [413, 130, 327, 330, 227]),
  (26585, [413, 227]),
  (26586, [426, 125, 225, 327]),
  (26588, [225, 125, 426, 325, 227, 215, 232, 252, 142, 104, 132]),
  (26589, [413, 327]),
  (26590, [125, 130]),
  (26592, [125, 132]),
  (26594, [413, 215]),
  (26597, [256, 152, 252, 452, 127, 325, 129, 220, 227, 327, 331, 130, 330, 320, 156, 329, 225, 332, 315, 120, 230, 125, 229, 132]),
  (26601, [225]),
  (26604, [130, 417, 225, 131, 327, 125, 227, 132]),
  (26607, [127, 132, 227, 425, 327, 225, 129, 315, 332, 232, 330, 128, 325, 427, 131, 229]),
  (26608, [413]),
  (26609, [225, 425, 227, 125, 325, 327, 132, 222, 215, 256, 330, 328, 230, 235, 315, 422, 435, 232, 228]),
  (26611, [127, 425, 125, 426, 225, 130, 327, 227, 330, 129, 128, 117, 315, 115, 325, 229, 215, 104, 120, 132, 332, 230, 131, 328, 320]),
  (26612, [125, 425, 127, 225, 130, 252, 232, 325, 215, 115, 330, 315, 331, 120, 129, 227, 327, 217]),
  (26621, [125, 459, 227]),
  (26623, [426, 125, 225, 327, 227, 130]),
  (26624, [125, 426, 327]),
  (26629, [426, 225, 125, 227, 325, 330, 327, 232]),
  (26631, [125, 225, 252, 452, 325, 152, 217, 227, 156, 100, 220, 327, 331, 115, 120, 320, 132, 304, 315, 131, 307, 256, 352, 425, 317, 104, 232]),
  (26632, [225, 125, 426, 227, 315, 252]),
  (26633, [413, 315, 152, 227, 115, 327]),
  (26634, [413, 227]),
  (26635, [222, 227, 435, 238, 422, 327, 215, 125, 315, 115, 120]),
  (26636, [459, 225, 227]),
  (26638, [426, 225, 227, 327, 125, 130]),
  (26639, [225, 125, 425, 238, 252, 325, 227, 207, 230, 330, 327, 320, 256]),
  (26641, [125, 225, 452, 327, 142, 152, 227, 230, 325, 330, 252, 315, 320, 115, 130, 120, 104, 220, 215, 229, 228, 132, 332, 256, 329, 128, 328, 343, 232]),
  (26643, [225, 125, 426, 227, 325, 252, 327]),
  (26646, [152, 454, 204, 227, 327, 320, 125, 130, 325, 230, 330]),
  (26647, [225, 127, 125, 252, 227, 427, 215, 426, 327, 330, 230, 325, 256, 315, 115]),
  (26653, [125, 459]),
  (26657, [225, 125, 426, 217, 220, 152, 325, 238, 252, 231, 227, 327, 204, 142, 156, 452, 256, 112, 132, 117, 104, 331, 332, 130]),
  (26665, [115, 315, 162, 362]),
  (26666, [222, 435, 225, 130, 220, 125, 152, 156, 422, 315, 238, 227, 327, 115, 131, 331, 215]),
  (26674, [125]),
  (26675, [225, 459]),
  (26679, [238, 245, 207, 125, 225, 222, 435, 220, 320, 352, 325, 252, 215, 227, 426, 200, 204, 327, 256, 315, 322, 422, 332, 135, 235, 445, 324, 304, 224]),
  (26680, [125, 425, 225, 252, 152, 256, 156, 325, 120, 331, 320, 227, 117, 352, 304, 204, 327, 317, 332]),
  (26681, [134, 100, 125, 222, 435, 225, 230, 232, 330, 227, 332, 422, 252, 224, 327, 315, 152, 307, 320, 325, 229, 115, 331, 215, 207, 329, 129, 352, 130, 104, 156, 256]),
  (26684, [225, 125, 201, 327, 330, 127, 252, 417, 227, 107, 425, 132, 325, 229, 130, 129, 332, 331, 230, 232, 329, 215, 152, 115, 220, 131, 315, 352, 320, 235, 200, 356, 204, 335, 117]),
  (26685, [156, 452, 152, 225, 120, 252, 125, 320, 227, 327]),
  (26686, [127, 130, 427, 327, 227]),
  (26688, [427, 227, 115, 100, 327, 125, 315]),
  (26689, [125, 104]),
  (26690, [227, 130, 127, 327, 125, 417, 427, 225, 217, 331, 426, 132, 332, 117, 325, 229, 330, 215, 328, 252, 232, 128, 352, 131, 115])]

/-- hmm/pos/char_state_tab.go:2558-2621 -/
noncomputable def chars39 : List (Nat × List Nat) := [
  (26691, [225, 125, 425, 130, 325, 227, 330, 315, 327, 115, 232, 332, 320, 220, 104, 230]),
  (26692, [125, 452]),
  (26693, [426, 125, 225, 227, 327]),
  (26694, [125, 225, 452, 325, 435, 152, 232, 222, 422, 227, 332]),
  (26696, [225, 125, 426, 252, 238, 325, 222, 152, 315, 331, 256, 217, 215, 320, 220, 356, 227, 422, 317, 117, 115]),
  (26697, [125, 132, 225]),
  (26698, [413]),
  (26700, [125, 142, 225, 426, 222, 252, 352, 435, 325, 130, 327, 132, 422, 232]),
  (26702, [125, 152]),
  (26704, [225, 130, 227, 125, 426, 325, 327, 217, 132, 230, 127, 330]),
  (26705, [127, 125, 330, 225, 227, 426, 427, 130, 327, 229, 315, 132, 230, 215, 129, 325, 331, 220, 128, 232, 217, 131, 329, 332, 120]),
  (26707, [127, 413, 227, 327, 252, 225, 130]),
  (26708, [125, 427, 225, 104, 227, 426, 129, 327]),
  (26709, [225, 413, 325]),
  (26720, [225, 125]),
  (26721, [125]),
  (26722, [227, 413, 243, 327]),
  (26723, [125, 425, 204, 225, 222, 435, 252, 422, 331, 322, 320, 227, 217, 304, 256, 352, 132, 426, 215]),
  (26724, [413, 125, 327]),
  (26725, [425, 225, 230, 125, 227, 252, 142, 331, 232, 330, 327, 229, 332, 130, 325, 132, 215, 328, 315, 127, 220, 228, 129, 120]),
  (26726, [427, 125, 225, 227, 130, 325, 132, 327, 129, 232]),
  (26727, [227, 413, 327, 228, 125]),
  (26728, [225, 425, 125, 252, 232, 327, 227]),
  (26729, [222, 435, 425, 225, 252, 215, 125, 227, 325, 422]),
  (26731, [125]),
  (26740, [413]),
  (26742, [435, 222, 225, 238, 422, 104, 252, 325, 129, 232]),
  (26743, [413, 325]),
  (26753, [127, 225, 425, 130, 227, 327, 230, 315, 325, 330, 128, 252, 129, 125, 215, 220, 232, 332, 229, 320, 228, 115]),
  (26755, [125]),
  (26757, [227, 127, 125, 225, 426, 327, 427, 130, 129, 132, 230, 232, 325, 315, 330, 331, 329, 229, 332, 252, 417, 220, 343, 128, 228]),
  (26758, [125, 433, 325, 362, 262, 327, 162, 227]),
  (26767, [225, 413, 252]),
  (26771, [225, 129, 228, 230, 125, 252, 227, 130, 330]),
  (26775, [452, 152, 325, 225, 125, 252, 327, 215, 217, 100, 200]),
  (26786, [426, 225, 327, 125, 227, 220, 215, 252, 320, 325]),
  (26790, [425, 125, 327, 225, 252, 152, 232, 127, 227, 315, 325, 215, 115, 320, 132, 129, 220, 229, 120, 332, 330, 331]),
  (26791, [125, 130, 200, 229, 325, 228, 330]),
  (26792, [425, 125, 225, 227, 327, 325, 332, 130, 230, 115, 132, 330, 120, 232]),
  (26797, [125, 426, 252, 227, 435, 225, 229, 129, 327, 232, 325, 132, 215, 130, 204]),
  (26799, [225, 125, 426, 325, 332, 304, 227, 327, 127, 435, 230, 320, 232, 330]),
  (26800, [225, 325, 352, 356, 320, 304, 252, 331, 220, 152, 332, 156, 256]),
  (26803, [152, 452, 125, 204, 225, 115, 132, 232, 227, 256, 327, 325, 156]),
  (26805, [132, 130, 125, 133, 325, 129, 131]),
  (26816, [156, 152, 125, 252, 452, 217, 104, 325, 331, 317, 256, 227, 327, 225, 132, 332]),
  (26818, [413, 225, 327, 227]),
  (26825, [125, 426, 225, 132, 104, 325, 230, 130, 227, 217, 252, 327, 232, 330, 332, 231, 331]),
  (26827, [125, 425, 225, 315, 252, 227, 220, 327, 152, 325, 115, 215, 331, 130, 117]),
  (26829, [426, 225, 125, 325, 220, 315, 320]),
  (26834, [400, 225, 125, 215, 325, 227, 232, 327, 152, 332, 252, 315, 200, 130, 115, 162]),
  (26837, [125, 426, 104, 225, 227, 130, 332, 325, 204, 327]),
  (26840, [426, 225, 100, 125, 120, 215, 227, 327, 325, 104, 320]),
  (26842, [225, 425, 125, 142, 227, 252, 220, 327, 230, 325]),
  (26848, [225, 228, 325, 227, 125, 230, 130]),
  (26851, [328, 225, 230, 125, 330]),
  (26862, [125, 227, 327, 427, 330, 100, 127, 229, 232, 200, 362, 262, 315, 117, 230, 162, 331, 129, 320, 329, 132, 325, 402, 332, 115, 130]),
  (26864, [452, 225, 330]),
  (26865, [426, 125, 227, 315, 325, 204, 132, 327, 115, 330, 225, 320, 252, 332, 230, 200]),
  (26869, [222, 435, 330, 422, 125, 227, 327, 320]),
  (26873, [413, 227]),
  (26874, [125, 426, 225, 327, 252, 315, 320, 132]),
  (26876, [413]),
  (26881, [413, 225, 227, 327]),
  (26885, [225, 125, 426, 325, 227, 232, 327])]

/-- hmm/pos/char_state_tab.go:2622-2685 -/
noncomputable def chars40 : List (Nat × List Nat) := [
  (26891, [459, 125, 327, 227]),
  (26893, [125, 252, 325, 320, 452, 317, 152, 227, 120, 127, 327, 132, 230, 156, 330, 331, 104, 129, 256, 220, 143]),
  (26894, [320, 225, 125, 325]),
  (26896, [413]),
  (26898, [225, 426, 325, 227, 130, 327, 230, 125, 232]),
  (26911, [413]),
  (26912, [413]),
  (26916, [459, 225, 227]),
  (26925, [125]),
  (26928, [125, 426, 325, 332, 225, 227, 327, 130]),
  (26932, [125, 225]),
  (26937, [227, 459, 225, 332]),
  (26941, [426, 125, 227, 327]),
  (26943, [413, 227, 125, 327, 225, 325]),
  (26946, [225, 459, 325, 362, 262]),
  (26964, [125, 452, 120, 225, 232]),
  (26967, [413, 327]),
  (26970, [200, 127, 427, 417, 125, 130, 327, 362, 262, 227, 220, 225, 315, 115, 330, 243, 325, 129, 132, 215, 229, 230, 328, 128]),
  (26973, [325, 225, 125]),
  (26974, [330, 225, 125, 325, 230, 252, 362, 262]),
  (26976, [227, 125, 425, 327, 427, 130, 228, 129]),
  (26979, [413, 225, 227, 327]),
  (26982, [426, 225, 125, 327, 227]),
  (26987, [225, 426, 227, 327]),
  (26990, [427]),
  (26999, [125, 227, 427, 225, 426, 220, 417, 327]),
  (27000, [413, 225, 232, 125, 327]),
  (27001, [435, 227, 327, 125]),
  (27004, [125, 225, 425, 142, 252, 230, 227, 127, 332, 130, 315, 215, 112, 327, 325, 238, 228, 330, 128, 232, 120, 229, 320, 129, 231]),
  (27008, [435]),
  (27010, [125, 207, 152, 407, 225, 315, 320, 120, 426, 115, 227, 106, 117]),
  (27012, [325, 225, 413, 330, 327, 227]),
  (27014, [130, 426, 125, 227, 327, 225, 330, 230, 115, 215]),
  (27015, [413, 227, 225, 327]),
  (27016, [325, 225, 459, 330, 232, 332]),
  (27017, [225, 459, 125, 227]),
  (27021, [459]),
  (27028, [225, 125]),
  (27029, [125, 417, 426, 130, 227, 327, 132]),
  (27035, [125, 132, 228]),
  (27036, [425, 125, 252, 225, 227, 120, 315, 320, 215, 327, 115, 325, 228, 232, 229]),
  (27047, [225, 125]),
  (27048, [152, 125, 452, 252, 256, 156, 332, 204, 227, 315]),
  (27051, [125, 225, 325, 252]),
  (27053, [413, 225, 230, 330, 229, 227, 327, 215, 315]),
  (27057, [413]),
  (27060, [125, 325, 225, 227]),
  (27063, [413, 252, 227]),
  (27067, [425, 225, 252, 125, 325]),
  (27073, [413, 200, 125, 115, 227, 315]),
  (27082, [413, 227, 327, 315]),
  (27084, [426, 225, 252, 315]),
  (27086, [426, 225, 227]),
  (27088, [125, 427, 225, 227, 426, 330, 215, 327, 130]),
  (27092, [459]),
  (27099, [225, 413, 325]),
  (27103, [125, 225, 325]),
  (27104, [225, 413, 227]),
  (27117, [413]),
  (27122, [125, 132]),
  (27133, [426, 225, 125, 252, 227, 327, 325, 232, 132, 256]),
  (27135, [459, 227, 225, 327, 325]),
  (27146, [127, 130, 230, 427, 330, 125, 227, 327]),
  (27159, [413, 327, 125])]

/-- hmm/pos/char_state_tab.go:2686-2749 -/
noncomputable def chars41 : List (Nat × List Nat) := [
  (27160, [435]),
  (27167, [125, 130, 225, 230, 332]),
  (27169, [225, 125, 204, 152, 426, 100, 227, 315, 220, 320, 104, 162, 362, 352, 120, 325, 207, 115, 327, 217, 156, 132, 356, 229, 252, 232]),
  (27176, [225, 227, 459]),
  (27178, [452, 152, 125, 252, 130, 200, 315, 115, 227, 107, 320, 325, 327, 132, 120, 220, 104, 100, 232, 352, 215, 127, 201, 129]),
  (27183, [426, 225, 227, 125]),
  (27185, [125, 427, 426, 130, 227, 127, 327, 325, 132]),
  (27189, [125, 225, 330, 152, 229]),
  (27197, [426, 327, 125, 227, 315]),
  (27198, [413, 227, 327]),
  (27204, [125, 325, 130]),
  (27207, [413, 225]),
  (27216, [433, 328]),
  (27224, [225, 125, 104, 130, 127]),
  (27225, [125, 426, 225, 104, 227, 405, 232, 327, 332, 362, 262, 132]),
  (27227, [125]),
  (27233, [125, 325, 320, 132, 120]),
  (27237, [413]),
  (27249, [125, 225, 426]),
  (27257, [426, 227, 327, 225]),
  (27260, [459, 225, 332, 227]),
  (27264, [427, 227, 125, 225, 327, 426, 127, 130, 325]),
  (27268, [125]),
  (27278, [459, 225, 227]),
  (27280, [225, 426, 315, 125, 227, 325, 320]),
  (27281, [125, 413]),
  (27287, [225, 459]),
  (27296, [413]),
  (27305, [125, 426, 227]),
  (27307, [413]),
  (27308, [225, 459, 325, 332, 227]),
  (27424, [452, 152, 252, 225, 125, 315, 227, 120, 100, 156, 327, 115]),
  (27425, [222, 238, 207, 435, 422, 143, 206, 332, 125, 225, 352, 243, 204, 307, 104, 224, 152, 322, 252, 215, 325, 330, 327, 220, 235, 320, 230, 315, 135, 324, 107, 132, 120, 227, 129, 130]),
  (27426, [252, 152, 400, 100, 125, 227, 315, 115, 225, 130, 325, 327, 120, 352, 256, 320, 215, 220, 162, 362, 156, 332]),
  (27427, [152, 100, 227, 427, 454, 107, 327, 315, 115, 132, 200, 125, 129, 307, 230, 228, 328]),
  (27428, [460, 227]),
  (27431, [130, 125, 230, 417, 127, 117, 131, 132, 325, 129, 217, 227, 225, 104, 128, 331, 120, 327, 152, 330, 229, 252, 256, 232, 115, 135]),
  (27442, [407, 225, 315, 125, 252, 215, 320, 227, 120, 115, 152, 327, 325]),
  (27447, [459, 227]),
  (27449, [402, 410]),
  (27450, [152, 456, 156, 315, 115, 125, 454, 252, 100, 120, 215]),
  (27454, [225, 252, 425, 222, 422, 125, 325, 152, 204, 217, 238, 220, 256, 332, 232, 320, 227, 156, 100, 200, 120]),
  (27459, [152, 115]),
  (27462, [227, 413, 327, 100]),
  (27463, [452, 152, 252, 325, 225, 330, 327, 125, 227, 130, 304, 331, 329, 352]),
  (27465, [252, 200, 426, 125, 100, 402, 220, 156, 152]),
  (27468, [125, 225, 425, 152, 252, 227, 320, 222, 129, 115, 315, 327, 331, 215, 325, 232, 132, 422, 330, 229, 104, 130, 256, 127]),
  (27481, [413, 130, 125, 227]),
  (27490, [252, 452, 152, 245, 220, 225, 215, 107, 125, 325, 256, 156, 320, 127, 315, 227, 327, 120, 115, 132]),
  (27491, [407, 100, 207, 152, 101, 107, 125, 227, 252, 162, 327, 200, 143, 104, 315, 225, 228, 232, 304, 325, 130, 112, 132, 156, 332, 115, 215, 127, 120, 362, 262, 320, 328, 256, 129, 243, 117, 230, 124, 307, 331, 204, 131, 201, 220, 231, 330, 343]),
  (27492, [438, 206, 138, 238, 207, 106, 143, 306, 142, 320, 220, 315, 115, 124, 215, 120, 132, 227, 152, 327]),
  (27493, [207, 222, 125, 256, 225, 435, 252, 152, 253, 325, 320, 315, 127, 220, 135, 235, 327, 322, 215, 422, 132, 115, 332, 328, 227, 120, 317, 232, 352, 330, 230, 107, 117]),
  (27494, [125, 130, 127, 227, 152, 325, 225, 427, 327, 120, 320, 330, 117, 417, 252, 200, 243, 230, 131, 315, 132, 426, 229, 329, 331, 217, 215, 402, 100, 232, 304, 129, 156, 228, 128, 101, 317, 256, 352, 343]),
  (27495, [225, 152, 125, 402, 320, 227, 327, 156, 315, 325, 132, 304]),
  (27498, [452, 152, 362, 162, 215, 125, 115, 200, 262, 227, 320, 220, 327, 315, 400, 156]),
  (27513, [225, 125, 215, 402, 100, 315, 207]),
  (27515, [452, 252, 152, 125, 325, 315, 225, 115, 207, 215, 227, 162, 107, 362, 220, 320, 200, 100, 120, 256, 117, 352, 262, 156, 327, 332, 204, 130]),
  (27516, [152, 454, 252, 125, 256]),
  (27521, [413]),
  (27522, [413]),
  (27523, [252, 454, 152, 315, 225, 115]),
  (27524, [413, 315, 227]),
  (27526, [152, 407, 200, 215]),
  (27527, [454, 225, 327, 227])]

/-- hmm/pos/char_state_tab.go:2750-2813 -/
noncomputable def chars42 : List (Nat × List Nat) := [
  (27529, [152, 454, 125, 315, 320]),
  (27530, [200, 407, 325, 125, 152, 227, 220, 115, 100, 225, 327, 215, 320, 352, 107, 120, 331, 356, 332]),
  (27531, [125, 400, 100, 152, 252, 315, 256, 156, 200, 115, 325, 120, 217, 225, 331, 327, 332, 143, 320, 117, 162, 132, 204, 215, 317]),
  (27533, [225, 459, 315]),
  (27538, [152, 215]),
  (27539, [252, 454]),
  (27542, [125, 256, 252, 325, 152, 220, 156, 225, 204, 352, 232, 320, 332]),
  (27546, [115]),
  (27547, [413]),
  (27553, [152, 252, 125, 156, 256]),
  (27562, [413]),
  (27571, [427, 127, 227]),
  (27572, [152, 454, 252, 220]),
  (27573, [225, 222, 435, 325, 127, 212, 243, 238, 125, 320, 252, 422, 215, 227, 130, 256, 220, 128, 135, 217, 327]),
  (27575, [127, 100, 427, 125, 227, 104, 352, 143, 262, 162, 327, 101, 115, 433, 129]),
  (27583, [425, 225, 227, 125, 230, 327, 142, 152, 232, 215, 304, 426, 332, 330]),
  (27585, [252, 452, 152, 125, 115, 227, 156, 320, 325, 315, 332, 120]),
  (27586, [459, 225, 125, 227, 315]),
  (27589, [227, 200, 327, 107, 427, 125, 328, 115, 228, 100, 320]),
  (27595, [120, 407, 127, 106, 115, 315, 107, 327, 427, 227]),
  (27597, [225, 125, 404, 227, 325, 127, 327, 426, 104, 220, 320, 330, 232, 217, 115, 143, 230, 332, 117, 215, 315]),
  (27599, [138, 438, 134, 152, 207, 107, 120, 115, 320, 125, 132, 227, 327]),
  (27602, [125, 225, 252, 425, 256, 325, 152, 220, 200, 232, 320, 203, 352, 100, 315, 204, 217, 332, 215, 452, 115, 156, 304, 117, 162, 120, 132, 343]),
  (27603, [413, 327, 227, 132, 315]),
  (27604, [434, 107, 125, 217, 252, 152, 156, 330, 225, 130, 120, 127, 262, 327, 129, 320, 229, 230, 325, 331, 256, 315, 215, 115, 134, 227, 329, 332, 232, 352, 131, 235, 122, 207, 322, 132, 104, 220]),
  (27605, [107, 152, 454, 252, 125, 127, 315, 115, 327, 104, 130, 225, 227, 230, 132, 128, 427, 325, 129]),
  (27606, [413, 315]),
  (27607, [152, 129, 125, 225, 332, 156, 330]),
  (27609, [252, 452, 152, 215, 220]),
  (27611, [125, 427, 225, 127, 325, 227, 130, 327, 315, 104, 135, 115, 252, 162, 204, 132, 215, 220, 229, 100, 352, 362, 332, 331, 232, 117, 120, 129, 330, 320, 128]),
  (27617, [426, 125, 225, 215, 325]),
  (27626, [413]),
  (27627, [122, 135, 152, 120, 222, 107, 125, 435, 407, 225, 322, 215, 315, 115, 252, 335, 227, 320, 426, 327]),
  (27631, [225, 125, 304, 325, 232]),
  (27635, [413]),
  (27637, [459]),
  (27641, [225, 459]),
  (27645, [352, 125, 252]),
  (27653, [413, 225, 327]),
  (27654, [125]),
  (27655, [225, 459]),
  (27661, [125, 459]),
  (27663, [227, 426, 125, 327, 225, 322, 330, 204, 325, 229, 332, 232, 335, 230, 331]),
  (27664, [413]),
  (27665, [225, 125, 325, 426, 331, 227, 330, 104, 100, 320, 332, 252, 131, 315, 120, 117, 327, 132, 229, 256, 130, 152, 230, 115, 220, 215, 228, 352, 317, 143, 321, 232, 356, 217, 156, 343, 328]),
  (27667, [225, 459, 220, 325, 227]),
  (27668, [225, 125, 425, 252, 325, 200, 315, 320, 100, 115, 215, 152, 220, 162, 203, 327, 232, 356, 104, 231, 256, 331, 304, 207, 262, 330, 362, 217, 227, 120, 352, 332, 132, 156, 245, 201]),
  (27669, [413]),
  (27670, [125, 325]),
  (27672, [413, 125]),
  (27673, [125]),
  (27674, [413]),
  (27675, [225, 125]),
  (27679, [425, 125, 325, 132, 332, 225, 227, 232]),
  (27681, [413]),
  (27682, [125, 425, 225, 325, 252, 332, 227, 327, 232, 132]),
  (27684, [125, 152]),
  (27686, [425, 225, 125]),
  (27687, [325, 125, 152, 425, 225, 332, 252, 256, 204, 156, 227, 327, 132]),
  (27688, [125, 425, 325, 225, 332, 132, 129, 152]),
  (27689, [425, 132, 125]),
  (27690, [413]),
  (27694, [425, 125, 225, 325, 232, 152, 229, 132, 332]),
  (27695, [125, 425, 325, 152, 132, 332, 225, 232])]

/-- hmm/pos/char_state_tab.go:2814-2877 -/
noncomputable def chars43 : List (Nat × List Nat) := [
  (27696, [332, 125, 325, 132, 152, 320, 232]),
  (27698, [459, 225, 327, 252, 227]),
  (27700, [125, 225, 425, 325, 252, 142, 230, 227, 104, 127, 256, 327, 330, 120, 315, 115, 152, 320, 215, 204, 132, 130, 332, 331, 232, 229, 129, 220, 343, 217, 162, 117, 156, 131, 100, 352, 304, 317]),
  (27704, [107, 327, 130, 407, 227, 132, 127, 125, 104, 162, 152, 143, 120, 129, 128, 200, 328, 115, 229, 320, 315, 230, 228, 131, 215, 156, 330]),
  (27709, [452]),
  (27712, [230, 130, 229, 125, 232, 225, 228, 330, 129, 325, 332]),
  (27713, [225, 426, 125, 227, 215, 232, 325, 315, 327, 252]),
  (27714, [252, 225, 452, 152, 325, 315, 215, 220, 256, 227, 156, 125, 115, 330, 320, 327, 132, 120, 352, 331, 232, 129]),
  (27718, [452]),
  (27719, [452, 125, 225, 152, 156, 132, 325, 252, 331, 230, 131, 227, 332, 327, 229, 232, 330, 320, 142, 120, 256, 217, 220, 115, 315, 130]),
  (27721, [417, 125, 243, 132, 225, 127, 230, 130, 143, 227, 327, 330, 117, 217, 129, 232, 332, 331, 325, 152, 320, 229, 104, 215, 131, 220, 315, 228, 329, 128, 328, 352, 120, 252]),
  (27722, [125, 225, 330]),
  (27728, [225, 325, 413]),
  (27732, [413]),
  (27733, [130, 230, 417, 227, 330, 131, 125, 327]),
  (27735, [425, 230, 125, 227, 225, 252, 220, 115, 325, 320, 327, 162, 330, 120, 229, 315, 152]),
  (27739, [143, 225, 426, 256, 227, 327, 252, 325, 125]),
  (27740, [413, 227, 327, 130]),
  (27741, [327, 127, 438, 427, 130, 227, 125, 132, 328, 320, 439]),
  (27742, [425, 125, 225, 232, 335, 227]),
  (27743, [230, 130, 227, 427, 330, 125, 127, 327, 117, 225, 142, 232, 332, 212, 331, 132, 315, 325, 228, 128, 217, 229, 320, 129, 131, 115, 352, 215, 342, 317, 329, 220, 120]),
  (27744, [225, 426, 230, 125, 227, 427, 127, 330, 325, 435, 220, 130, 327, 129, 232, 142, 320, 315, 332, 229, 224, 252]),
  (27745, [156, 125, 252, 325, 426, 225, 152, 315, 256, 304, 215, 100, 454, 115, 200, 352, 332, 132, 317, 227]),
  (27748, [425, 127, 225, 125, 130, 227, 327, 232, 132, 252, 325, 315, 129, 215, 128, 330, 320, 220, 117, 331]),
  (27752, [130]),
  (27753, [233, 133]),
  (27754, [127, 452, 125, 262, 362, 162, 427, 115, 222, 315, 128, 227, 327, 230, 120, 330, 435, 129, 422]),
  (27760, [252, 220, 454, 325, 200, 152, 320]),
  (27762, [152, 127, 452, 227, 327, 115, 328]),
  (27764, [413, 130, 327, 129, 227, 330]),
  (27766, [130, 330, 413, 227, 225, 327, 232, 129, 331]),
  (27769, [152, 215, 315, 125, 262, 162, 320, 115, 100, 362]),
  (27773, [125, 217, 225, 331, 325, 320, 152, 117, 332, 132, 130, 231, 330]),
  (27774, [130, 230, 125, 332, 330, 327]),
  (27777, [130, 452, 227, 330, 230, 327, 115, 232, 152, 125, 120]),
  (27778, [417, 230, 130, 330, 125, 327, 227, 325]),
  (27779, [127, 200, 232, 132, 327, 427, 227, 130, 330, 129, 125, 230, 229, 115, 329, 454, 332, 131, 331, 315]),
  (27781, [130, 417, 227, 327]),
  (27782, [115, 125]),
  (27784, [127, 130, 417, 427, 132, 332, 131, 327, 227, 230, 217, 125, 117, 128, 330]),
  (27785, [152, 100, 452, 125, 200, 252, 262, 162, 362, 156, 315, 320, 115, 227, 215, 101, 225, 120, 327, 220, 256, 304, 228]),
  (27788, [200, 459, 215, 315, 362, 262]),
  (27791, [452, 152]),
  (27792, [152, 454, 132, 227, 320, 327, 252, 115, 129, 315]),
  (27795, [435, 222, 200, 315]),
  (27796, [413, 129, 227, 130]),
  (27801, [125, 127, 425, 225, 230, 330, 130, 227, 325, 132, 327, 232, 129, 152, 100, 252, 315, 215, 229, 220, 331, 329, 332, 131, 320, 256, 233, 133, 156, 115]),
  (27803, [200, 402, 227, 130, 327, 315, 220, 127, 252, 129, 228]),
  (27807, [425, 152, 230, 225, 125, 330, 142, 227, 129, 327, 252, 315, 325, 332, 130, 229, 352]),
  (27809, [152, 407, 120, 352, 252, 215, 100, 320, 207, 115, 315, 107, 101, 125, 300, 132, 327, 317, 156, 325, 227]),
  (27811, [427, 227, 130, 327]),
  (27812, [452, 156, 327]),
  (27813, [125, 426, 315, 233, 227, 362, 262, 327, 325, 152, 232, 225, 330, 132]),
  (27814, [152, 252, 125, 120, 156, 200, 320, 232]),
  (27815, [130, 330, 125, 115, 315, 230, 320, 131, 228, 327]),
  (27817, [413, 130, 125]),
  (27818, [417, 117, 125, 227, 332, 217, 132, 327, 130, 129, 330, 328, 228]),
  (27819, [225, 327, 352, 325, 320, 125, 215, 332]),
  (27821, [130, 417, 330, 227, 230]),
  (27822, [100, 125]),
  (27825, [330, 130, 132, 230, 125, 220, 200, 325, 131]),
  (27827, [130, 230, 125, 425, 225, 227, 330, 142, 252, 232, 325, 131, 127, 327, 229, 215, 228, 217, 315, 331, 132, 152, 332, 120, 129, 317, 220, 320, 117, 115, 256, 156, 343, 329]),
  (27832, [125, 152, 315, 454, 115, 252, 215, 327, 132]),
  (27833, [225, 125, 425, 325, 252, 331, 217, 232, 256, 162, 152, 115, 120, 320, 132, 117, 315, 215, 227, 362, 262, 220, 100, 332, 327, 330, 107, 231, 130, 204, 104, 156, 304, 317])]

/-- hmm/pos/char_state_tab.go:2878-2941 -/
noncomputable def chars44 : List (Nat × List Nat) := [
  (27835, [225, 152, 252, 325, 452, 330, 256, 320, 125, 331, 243, 227, 327, 332, 232, 220, 130, 230, 315, 229, 215, 156, 120, 352, 115, 132, 329, 328, 117, 304, 217, 228, 129, 317]),
  (27836, [125, 225, 426, 227, 327, 229]),
  (27837, [417, 230, 152, 330, 115, 325, 129, 215, 227, 130, 327, 315]),
  (27838, [452, 152, 315, 115, 227, 130, 327, 120, 215]),
  (27839, [112, 434, 134, 152, 125, 242, 107, 225, 104, 327, 142, 227, 130, 234, 215, 230, 325, 332]),
  (27844, [454, 252, 152, 315, 325, 125, 156, 327, 115, 120, 256]),
  (27845, [152, 452]),
  (27849, [225, 425, 227, 232, 130, 125, 230, 330, 325, 426, 327, 342, 315, 152, 229, 331, 332, 215, 220]),
  (27850, [225, 426, 252, 330, 125, 454, 230, 227, 327, 332, 152, 325, 200, 320, 130, 331, 256, 315]),
  (27852, [252, 225, 325, 125, 132, 152, 130, 332]),
  (27856, [413, 227]),
  (27859, [435, 227, 327]),
  (27860, [125, 325]),
  (27861, [225, 125, 417, 130, 252, 256, 325, 200, 207, 204, 320, 127, 227, 104, 331, 132, 327, 232, 215, 131, 238, 220, 315, 330, 129, 332, 217, 135, 352, 117, 152, 322, 317, 122, 356, 230, 156, 329, 120, 228, 229, 115, 304, 335]),
  (27862, [413]),
  (27863, [130, 417, 227, 325, 327, 229, 125, 330, 129, 230, 315]),
  (27867, [200, 452, 152, 117, 125, 317, 227, 325, 327, 207, 107, 320, 115, 252, 132, 130, 156, 120]),
  (27870, [225, 413, 200]),
  (27872, [427, 331, 227, 232, 162, 327]),
  (27873, [125, 452, 225, 252, 152, 132, 227, 425, 325, 120, 315, 204, 332, 327, 220, 230, 256]),
  (27874, [130, 156, 225, 125, 417, 227, 230, 127, 132, 327, 325, 252, 152, 425, 315, 330, 131, 129, 120, 329, 332, 229, 215, 115, 104, 220, 331, 320, 228, 232, 117]),
  (27875, [252, 426, 115, 454, 325, 152, 215, 315, 220, 225, 256, 125, 227]),
  (27877, [125, 225, 425, 325, 143, 252, 227, 231, 315, 327, 330, 215, 232, 115, 130, 220, 120, 152, 452, 331, 320, 332, 100]),
  (27880, [152, 252, 452, 125, 315, 225, 325, 227, 215, 320, 232, 332, 220, 327, 331, 256, 104, 132, 156, 352]),
  (27882, [225, 125, 425, 252, 320, 120, 162, 315, 115, 325, 215, 220, 227]),
  (27883, [413]),
  (27886, [227, 427, 127, 232, 327, 132]),
  (27887, [454, 152, 220, 327, 227]),
  (27888, [232, 130, 417, 127, 227, 125, 327, 132, 330, 230, 129, 162, 315, 332, 229, 225, 331, 329, 115, 325, 131, 215, 231, 104, 320, 228, 120, 200]),
  (27889, [115, 315, 262, 162, 327, 227]),
  (27891, [256, 225, 325, 454, 125, 252, 227, 327, 220, 328, 331, 332, 330]),
  (27893, [425, 225, 125, 232, 452, 227, 132, 304]),
  (27895, [413]),
  (27896, [130, 129, 132]),
  (27898, [413, 327, 130]),
  (27899, [252, 452, 125, 225, 152, 315, 320, 325, 425, 256, 220]),
  (27900, [452, 200, 125, 100, 152, 252, 220, 143, 327, 315, 227, 362, 262, 320, 133, 115, 352, 325, 225, 132, 330]),
  (27901, [327, 225, 227, 427, 325, 330, 127, 230, 125, 252, 426, 129, 232, 130, 229, 315, 215, 332]),
  (27902, [130, 230, 115, 325, 330, 331]),
  (27905, [200, 227, 402, 162, 325, 100, 252, 327, 262, 320, 125, 115, 132, 220, 225, 232, 332, 215, 352, 152, 228, 315, 217, 331, 120]),
  (27908, [152, 413, 320, 327]),
  (27911, [452, 327]),
  (27915, [225, 230, 125, 325, 402, 330, 232, 331, 204, 320, 315, 227, 427, 262, 362, 215, 152, 332, 130, 142, 327, 115, 252, 228, 404, 220, 162, 100, 117, 352, 256, 200, 120, 104, 132, 304]),
  (27916, [413, 200, 327, 227]),
  (27918, [227, 413]),
  (27922, [452, 200, 252, 152, 100, 138, 315, 215, 227, 120, 125, 362, 262, 327, 320]),
  (27927, [152, 452, 252, 125, 256, 132, 204, 325, 100, 227, 156, 115, 215, 120, 225, 320, 232, 220, 327, 352, 315, 117, 200, 332]),
  (27929, [227, 413, 327]),
  (27931, [130, 330, 327, 417, 227, 127, 129, 329, 125, 230, 332, 325, 132, 229, 131, 331, 232, 115]),
  (27934, [425, 225, 125, 227, 230, 152, 130, 327, 362, 262, 325, 200, 252, 115, 315, 330, 320, 117, 156, 220, 129, 352]),
  (27941, [230, 417, 330, 227, 331, 125, 327, 130, 315, 115, 229, 217, 117, 132, 252, 332, 220, 325, 215, 225, 362, 262, 320, 231, 131, 129, 127, 228]),
  (27943, [413, 227, 129, 327]),
  (27946, [127, 125, 227, 327, 427, 130, 252, 256, 143, 100, 325, 132, 225, 426, 320, 330, 115, 120, 230, 417, 332, 128, 131, 229, 315, 331, 152, 228, 232]),
  (27947, [225, 413]),
  (27950, [130, 230, 125, 330]),
  (27953, [130, 325, 230, 330, 129]),
  (27954, [230, 225, 325, 331, 426, 227, 330, 435, 217, 104, 232, 332, 327, 125, 304, 229]),
  (27955, [459, 225, 327, 227]),
  (27957, [227, 413, 327]),
  (27961, [413, 227]),
  (27963, [256, 156, 152, 425, 125, 200, 252, 325, 452, 225, 100, 107, 320, 207, 104, 215, 120, 162, 315, 117, 352, 343, 227, 115, 220, 327, 330, 143, 132, 356, 229, 400]),
  (27964, [125, 200, 400, 225, 320, 220, 325, 227, 327, 230, 130, 232, 330, 203]),
  (27965, [252, 152, 427, 125, 327, 227, 317, 156, 325, 402]),
  (27966, [452, 225, 152, 125, 252, 227, 222, 204, 200, 325, 238, 256, 422, 232, 327, 132, 320, 129, 315, 220, 331, 130, 231, 228])]

/-- hmm/pos/char_state_tab.go:2942-3005 -/
noncomputable def chars45 : List (Nat × List Nat) := [
  (27969, [225, 125, 152, 156, 452, 325, 252, 256, 330, 204, 315, 120, 320, 100, 200, 215, 227, 230, 115, 327, 238, 217, 104, 220, 130, 207, 342, 332, 304, 132, 331, 352, 162, 362, 232, 135, 117]),
  (27971, [315, 413, 327]),
  (27973, [400, 125, 104, 100, 225, 200, 252, 362, 127, 162, 215, 220, 227, 320, 152, 315, 327, 129, 130, 262, 156, 115, 328]),
  (27974, [225, 425, 125, 325, 252, 132, 152, 130, 256, 215, 452, 315, 227, 232]),
  (27975, [452, 152, 325, 315, 227, 125, 120, 100]),
  (27976, [413, 227, 327]),
  (27978, [403, 200, 125, 252, 327, 227, 325, 402, 315, 225, 130, 203, 204, 132]),
  (27979, [252, 256, 156, 152, 452, 325, 125, 132, 215, 227, 220, 229, 331, 217, 315, 225, 332, 327, 320]),
  (27981, [413, 227]),
  (27982, [225, 325, 130, 417, 320, 327, 227, 252, 331, 332, 454, 315, 200, 215, 230, 152, 220, 232, 330, 300, 328, 129, 132, 204, 125, 131, 127, 115, 317, 217, 229, 352, 304]),
  (27983, [130, 152, 125, 156]),
  (27985, [125, 400, 100, 130, 225, 162, 262, 227, 115, 120, 362, 327, 252, 200, 315, 320]),
  (27986, [332, 225, 413, 227, 232, 130, 129, 327]),
  (27987, [100, 125, 400, 152, 162, 362, 325, 120, 115, 156, 104, 227, 262, 327, 315, 232, 304, 320, 330, 220, 132]),
  (27988, [417, 130, 230, 327, 227, 330]),
  (27993, [130, 417, 217, 131, 132, 232, 227, 327, 125, 331, 117]),
  (27994, [426, 252, 227, 130, 327, 228]),
  (27996, [230, 225, 132]),
  (27998, [452, 227]),
  (28000, [413, 130, 227, 327]),
  (28003, [454, 125, 325, 327, 227]),
  (28006, [130, 230, 330, 131, 127, 417, 227, 427, 332, 217, 327, 232, 331, 117, 229, 129, 128, 132]),
  (28009, [227, 427, 330, 100, 402, 315, 327, 115, 125, 152, 130, 325, 320, 352, 162, 132, 120, 156, 232, 331, 228]),
  (28010, [425, 225, 125, 232, 152, 100, 325, 252, 215, 315, 227, 320, 220, 132, 327, 332, 256, 120, 200, 330, 331, 115, 304, 230, 130, 229, 131]),
  (28014, [452, 125, 152, 252, 156, 100, 120, 325, 200, 227, 127, 320, 130, 230, 115, 330, 315, 332, 327, 225, 256, 132, 232, 204, 215, 229]),
  (28015, [413, 327, 130, 227]),
  (28020, [252, 125, 456, 225, 227, 454, 256, 332, 115, 152, 327, 217, 325, 156]),
  (28023, [125, 230, 425, 142, 225, 330, 130, 212, 227, 331, 127, 132, 327, 131, 252, 232, 325, 129, 332, 152, 242, 215, 156, 135, 117, 122, 315, 229, 342, 120, 320, 115, 256, 104, 217, 317, 328, 322, 204, 228, 220, 329, 128, 335]),
  (28024, [152, 452, 252, 225, 125, 156, 327, 132, 325, 362, 262, 320]),
  (28028, [413]),
  (28034, [452, 200, 125, 152, 127, 225, 262, 315, 325, 215, 256, 252, 230, 362, 227, 229, 115, 330, 130, 327, 232, 132, 220, 156]),
  (28037, [426, 327, 227, 454, 330, 329, 229, 130, 129, 232, 230]),
  (28040, [125, 156, 152, 252, 452, 100, 325, 120, 104, 315, 220, 320, 117, 132, 331, 327, 227, 225]),
  (28041, [152, 252, 454, 156, 125, 325, 215, 320, 315, 227, 327, 256, 130, 220, 417, 115]),
  (28044, [152, 452, 252, 125, 215, 225, 227, 220, 232, 315, 200, 327, 229, 130, 330, 230]),
  (28046, [252, 315, 125, 325, 152, 115]),
  (28049, [413, 130]),
  (28051, [262, 162, 125, 327, 115, 227]),
  (28052, [413, 327, 330, 227, 362, 262]),
  (28053, [225, 426, 252, 315, 215, 125, 152, 115, 227]),
  (28059, [227, 225, 427, 315, 320, 125, 327, 426, 228, 232]),
  (28061, [225, 452, 252, 125, 320, 256, 327]),
  (28062, [413, 130, 327, 227, 129]),
  (28063, [130, 125, 262, 162, 362, 225]),
  (28064, [413]),
  (28065, [125, 225, 130, 320, 325]),
  (28067, [152, 315, 115]),
  (28068, [252, 125, 426, 325, 454, 327, 227, 256, 152, 315, 332, 132]),
  (28070, [225, 252, 452, 325, 200, 327, 227, 125, 152, 232, 156, 220, 130, 132, 331, 332, 230, 256, 215, 330, 362, 120, 262]),
  (28071, [426, 225, 227, 130, 327, 230, 229, 330]),
  (28072, [252, 452, 125, 152, 200, 117, 315, 156, 227, 327, 325, 220, 132, 320]),
  (28073, [200, 400, 252, 125, 215, 129, 152, 327, 130, 325]),
  (28074, [130, 129]),
  (28075, [413, 327, 227]),
  (28078, [452, 125, 252, 352, 152]),
  (28079, [225, 426, 215, 315, 320, 252, 227, 220, 332, 327]),
  (28082, [225, 125, 426, 156, 232, 252, 325, 220, 227, 132, 256, 315, 215, 332]),
  (28085, [225, 152, 125, 252, 227, 327, 454, 127, 256, 228, 325, 100]),
  (28088, [252, 115]),
  (28095, [130, 125]),
  (28096, [125, 252, 225, 230, 325, 330, 130, 256, 331, 320]),
  (28100, [130, 230, 330, 329]),
  (28101, [130, 362, 133, 162, 125]),
  (28102, [252, 315, 152, 320])]

/-- hmm/pos/char_state_tab.go:3006-3069 -/
noncomputable def chars46 : List (Nat × List Nat) := [
  (28103, [413, 227, 325, 130, 327, 132, 332]),
  (28107, [125, 452, 362, 262, 152, 115, 315, 320, 227, 156, 225, 215, 327, 220, 132, 325, 332, 100]),
  (28108, [452, 252, 330, 327]),
  (28113, [125, 200, 328, 315, 225, 129]),
  (28118, [413, 330, 225, 227, 327, 125]),
  (28120, [152, 452, 100, 125, 327, 320, 227, 325, 332, 132, 315]),
  (28121, [233, 133]),
  (28125, [413, 130]),
  (28126, [413, 327, 227, 330]),
  (28128, [413, 130]),
  (28129, [125, 400, 200, 162, 152, 262, 362, 104, 252, 315, 100, 225, 327, 227, 115, 220, 120, 143, 130, 320, 330, 117, 325, 203, 156]),
  (28132, [452, 152, 125, 252, 327, 225, 456, 320, 227, 220]),
  (28134, [427, 227, 327]),
  (28139, [100, 252, 402, 125, 315, 152, 200, 256, 332, 215, 156, 227, 220]),
  (28140, [156, 132, 152]),
  (28142, [130, 417, 217, 330, 227, 132, 327, 125, 230, 228, 317, 229, 129, 332, 131]),
  (28145, [400, 152, 130, 100, 125, 117, 142, 225, 107, 207, 131, 104, 132, 200, 115, 143, 252, 204, 227, 315, 120, 320, 215, 228, 327, 243, 332, 220, 307, 325, 229, 162, 362, 232, 129, 330]),
  (28147, [227, 402, 100, 229, 127, 132, 130, 327, 129, 330, 232]),
  (28151, [125, 156, 452, 152, 100, 104, 115, 252, 315, 120, 200, 132, 227, 332, 320, 217, 327, 225, 204, 117, 325, 162, 362]),
  (28153, [152, 452, 227, 225, 320, 125, 129, 252]),
  (28155, [452, 252, 152, 125, 315, 227, 115, 156, 120, 327, 320, 228]),
  (28156, [200, 215, 228]),
  (28165, [100, 400, 125, 143, 152, 252, 227, 327, 243, 156, 225, 130, 204, 162, 362, 131, 127, 220, 320, 343, 330, 117, 120, 115, 325, 200, 256, 315, 230, 132, 104, 129, 262, 215, 331, 228, 332, 229, 217, 203, 103, 232, 101, 328, 329]),
  (28170, [227, 426, 125, 327, 225, 100, 320, 230, 330, 315, 220, 215, 328, 127, 229, 228, 115]),
  (28172, [413, 262, 362, 227, 327]),
  (28173, [452, 225, 252, 352, 125, 325]),
  (28174, [252, 156, 152, 330, 125]),
  (28176, [207, 407, 107, 152, 125, 227, 315, 327, 115, 320, 215, 220, 228]),
  (28177, [130, 413]),
  (28180, [125, 417, 217, 227, 426, 317, 115, 327, 252, 331, 215, 330, 325, 225, 315, 120, 320, 130, 332, 152, 454, 228]),
  (28183, [152, 452, 125, 252, 325, 227, 232, 332, 156, 132, 117, 256]),
  (28186, [413, 230, 330, 327, 227, 130]),
  (28189, [417, 227, 131, 130, 332, 215, 220, 217, 327, 129]),
  (28192, [125, 425, 225, 227, 230, 127, 315, 325, 130, 327, 330, 152, 232]),
  (28193, [252, 452, 152, 125, 325, 227, 225, 327, 130, 230, 330, 132, 256, 332, 232, 315, 320, 127, 229, 228, 220, 129, 329]),
  (28195, [225, 425, 131, 132, 125, 325, 130, 227, 331, 232, 327]),
  (28196, [125, 130, 330, 317]),
  (28197, [130, 200, 331]),
  (28201, [125, 225, 452, 100, 127, 252, 103, 130, 227, 325, 327, 232, 200, 115, 320, 152, 162, 129, 204, 332, 330, 120, 426, 362, 229, 117, 217, 230, 331, 315, 220, 104, 131, 132, 317]),
  (28203, [413]),
  (28205, [130, 228, 315, 229, 330, 230]),
  (28207, [230, 125, 417, 225, 122, 322, 331, 325, 330, 227, 117, 332, 238, 232, 252, 130, 327, 217, 317, 104, 132, 220, 120, 304]),
  (28210, [152, 454, 227, 327]),
  (28212, [152, 400, 252, 225, 215, 200, 220, 452, 315, 327, 227, 156]),
  (28216, [125, 225, 452, 256, 152, 212, 325, 156, 252, 127, 104, 227, 217, 320, 115, 331, 330, 232, 352, 315, 120, 230, 220, 327, 332, 215, 229, 317]),
  (28218, [100, 402, 200, 215, 115, 315, 120, 227, 262, 327]),
  (28227, [252, 459, 215, 227, 327, 220, 200]),
  (28228, [130, 125, 129]),
  (28237, [402, 125, 100, 227, 225, 327]),
  (28238, [459, 252, 315]),
  (28243, [413]),
  (28244, [413]),
  (28246, [130, 230, 125, 425, 225, 227, 142, 132, 330, 325, 327, 131, 332, 115, 220, 212, 315, 252, 317, 217, 331, 320, 232, 215, 104, 117, 229, 120]),
  (28248, [417, 130, 117, 327, 227, 230, 125, 131, 132, 217, 332, 330, 331]),
  (28251, [130, 200, 127, 162, 227, 427, 327, 417, 331, 229, 362, 330]),
  (28255, [130, 413, 227, 327]),
  (28267, [413, 232, 227, 327]),
  (28270, [152, 115]),
  (28286, [230, 225, 452, 330, 227, 332, 331, 130, 125, 327, 435, 325, 232, 229, 242, 129, 304]),
  (28287, [152, 400, 125, 200, 452, 252, 225, 100, 325, 162, 320, 329, 262, 204, 227, 232, 362, 220, 332, 104, 317]),
  (28291, [252, 152, 454, 125, 325, 115, 215]),
  (28293, [452, 252, 152, 327]),
  (28294, [413, 130, 327, 227]),
  (28297, [256, 454, 252, 325, 220])]

/-- hmm/pos/char_state_tab.go:3070-3133 -/
noncomputable def chars47 : List (Nat × List Nat) := [
  (28303, [413, 220]),
  (28304, [225, 426, 152, 125, 227, 325, 352, 230, 252, 220, 232, 327, 115, 330, 315, 331, 332, 304, 215, 229, 204, 107, 207, 129, 132, 256, 228, 231, 217, 130, 328, 317]),
  (28312, [115]),
  (28316, [452, 362, 262, 222, 152, 307, 225, 200, 162, 435, 252, 320, 115, 327, 227, 233, 125, 325, 220, 315]),
  (28319, [413, 227, 327]),
  (28322, [125, 252, 452, 152, 227, 120, 220, 327, 256, 215, 325, 320]),
  (28325, [227, 127, 327, 427]),
  (28327, [130, 413]),
  (28330, [425, 227, 230, 125, 225, 327, 330, 130, 229, 232, 332, 325, 426, 142, 331]),
  (28335, [252, 454, 152, 320, 227, 327, 315, 332, 256]),
  (28337, [413]),
  (28338, [413]),
  (28340, [426, 125, 132, 332]),
  (28342, [125, 152, 452, 325, 227, 225, 252, 320, 332, 232, 327, 262, 162, 204]),
  (28343, [413, 100]),
  (28346, [454, 152, 252, 125, 225]),
  (28349, [125, 100]),
  (28353, [130, 125]),
  (28354, [320, 100, 125]),
  (28359, [417, 130, 129, 117, 125, 227, 327, 132]),
  (28363, [152, 125, 325, 452, 362, 262, 320, 227, 230, 327, 156, 120, 129, 232, 330, 132]),
  (28367, [130, 413, 227]),
  (28369, [252, 452, 152, 125, 200, 325, 100, 156, 127, 256, 130, 225, 120, 262, 132, 315, 162, 332, 227, 215, 327, 220, 320, 115, 330]),
  (28371, [413, 225, 330, 327]),
  (28372, [162, 262, 315, 227, 115, 454, 327, 120, 125, 320]),
  (28373, [127, 427, 227, 327, 332, 125, 130, 329, 229, 330]),
  (28375, [452]),
  (28378, [452, 152, 162, 262, 125, 252, 315, 120, 320, 225, 156, 325, 104, 132, 362, 220, 115, 327, 227]),
  (28382, [252, 152, 454, 125, 200, 315, 325, 256, 225, 156]),
  (28383, [220, 262, 459]),
  (28384, [413]),
  (28385, [400, 152, 252, 200, 125, 130, 107, 127, 132, 227, 327, 315, 320, 115, 120, 162, 362, 104, 330, 325, 217, 215, 143, 100, 225, 243, 332, 230, 117, 207, 331, 262, 128, 352, 228]),
  (28386, [227, 413, 327]),
  (28388, [452, 252, 125, 325, 152, 132, 332, 225, 227, 129]),
  (28389, [252, 152, 401, 400, 315, 220, 125, 120, 115, 215, 225, 320, 352, 156]),
  (28390, [130, 417, 230, 320, 331, 327, 129, 330, 227, 317]),
  (28392, [125, 230, 225, 426, 130, 330, 227, 327, 331, 332, 242, 127, 325, 229]),
  (28393, [225, 426, 125, 230, 227, 252, 327, 325, 331, 330, 229, 332, 232]),
  (28404, [452, 125, 225, 222, 152, 133, 215, 435, 325, 162, 115, 362, 262, 322, 333, 422, 227, 315, 130, 120, 332, 156, 220, 132, 356, 320, 327]),
  (28409, [130]),
  (28418, [100, 152, 452, 125, 225, 227, 362, 162, 115, 200, 156, 132, 327, 325, 315]),
  (28422, [225, 425, 162, 125, 127, 452, 362, 262, 232, 115, 215, 252, 325, 315, 332, 229]),
  (28425, [262, 362, 452]),
  (28431, [452, 252, 125, 152, 225, 132, 215, 120, 256, 115, 315, 156, 317, 352, 143, 325, 232]),
  (28435, [252, 315, 130, 215, 220, 417, 227, 200]),
  (28436, [152, 252, 125, 256, 225, 452, 156, 325, 320, 332, 327, 227, 215, 232, 331, 328, 117]),
  (28437, [152, 125, 130, 330]),
  (28448, [225, 230, 125, 200, 162, 130, 352, 252, 152, 325, 262, 115, 356, 120, 156, 228]),
  (28452, [452]),
  (28457, [125]),
  (28458, [327, 225, 413, 227, 125]),
  (28459, [100, 200, 325, 252, 452, 125, 225, 115, 152, 162, 156, 327, 220, 227, 262, 215, 120, 320, 130, 104, 332, 330]),
  (28461, [459]),
  (28463, [130]),
  (28465, [452, 252, 152, 327, 325, 227, 125, 332]),
  (28467, [130, 417, 230, 132, 330, 227, 125, 327]),
  (28470, [252, 459]),
  (28478, [252, 452, 227, 130, 327]),
  (28486, [459, 327]),
  (28487, [100, 130, 227, 327, 162, 262, 417, 362, 131, 115]),
  (28491, [320, 162, 459, 227]),
  (28493, [130]),
  (28504, [127, 427, 227, 130, 327, 229, 132, 128, 129, 330, 225, 125, 230, 329, 332]),
  (28508, [125, 452, 152, 104, 325, 256, 227, 107, 252, 130, 143, 156, 327, 115, 332, 132, 315, 120, 331])]

/-- hmm/pos/char_state_tab.go:3134-3197 -/
noncomputable def chars48 : List (Nat × List Nat) := [
  (28510, [413, 132, 130, 327, 227]),
  (28514, [413, 225, 130, 227, 320, 327, 252]),
  (28518, [100, 315, 320]),
  (28525, [425, 230, 225, 330, 227, 125, 327, 315, 229, 332, 130, 331, 325, 215, 220]),
  (28526, [225, 425, 125, 227, 100, 130, 252, 152, 325, 327, 215, 320, 315, 332, 231, 120, 129, 232, 230, 156, 162, 352, 331, 228, 220]),
  (28530, [452, 125]),
  (28532, [152, 130]),
  (28536, [115, 162, 262, 327, 227]),
  (28538, [262, 162, 233, 115, 133, 315]),
  (28540, [130, 230, 330, 413, 229, 227, 327]),
  (28548, [152, 452, 227, 130, 327, 100, 362, 262, 162, 417, 132, 129, 200]),
  (28552, [200, 413, 262, 320, 227, 327]),
  (28553, [130, 413]),
  (28556, [413, 327, 227]),
  (28557, [227, 327, 413]),
  (28558, [130, 152, 125, 315, 227, 417, 327, 427, 320]),
  (28572, [130, 225, 215, 228, 320, 315, 232, 227, 200, 325]),
  (28577, [252, 426, 125, 325, 225, 332, 454]),
  (28583, [130, 417, 227, 230, 327]),
  (28595, [130, 417, 125, 217, 131, 230, 330, 322, 132, 135, 227, 317, 122, 327, 329, 117, 129, 232, 229, 331]),
  (28598, [413, 130, 227]),
  (28601, [127, 100]),
  (28608, [252, 100, 125, 152, 325, 452, 315, 320, 120, 200, 156, 227, 115, 220, 327, 225, 132, 256, 332, 304]),
  (28610, [413, 227, 327]),
  (28617, [413, 130, 227]),
  (28625, [130, 127, 229, 129, 230]),
  (28626, [152, 454, 156, 104, 227, 327, 125]),
  (28638, [459, 227, 230]),
  (28640, [413, 227, 327, 130, 131]),
  (28641, [454, 315, 152, 327, 227]),
  (28654, [130, 427, 127, 327, 227]),
  (28655, [454, 252, 152, 327, 132]),
  (28689, [125, 426, 225, 330, 227, 327]),
  (28698, [227, 200, 125, 327, 413, 262, 315]),
  (28699, [413, 327, 227, 130, 225, 125, 132]),
  (28707, [315, 225]),
  (28725, [413]),
  (28729, [413]),
  (28748, [125, 156, 452, 152, 252, 225, 327, 227, 320, 130, 325, 117, 129, 315, 317, 120, 256, 104, 132, 332]),
  (28751, [413, 227, 327]),
  (28766, [459, 130]),
  (28779, [125, 425, 225, 252, 100, 325, 315, 152, 162, 320, 200, 107, 104, 215, 117, 115, 227, 204, 256, 130, 220, 120, 229, 327, 332, 330, 362, 262, 131, 132, 331, 232, 143, 300, 127, 128, 156, 230, 352, 217, 317]),
  (28781, [252, 452, 152, 325, 215, 227, 115, 315, 125, 220, 256, 352, 320, 232]),
  (28783, [225, 125, 425, 252, 315, 325, 227, 256, 143, 232, 115, 130, 332, 327, 230, 320, 215, 220, 132]),
  (28784, [125, 425, 325, 225, 162, 315, 402, 115, 152, 400, 320, 215, 227, 204, 332, 252, 220, 132, 200, 327, 217, 330, 100]),
  (28789, [125, 100, 225, 400, 227, 127, 130, 327, 200, 252, 325, 115, 230, 330, 215, 315, 129, 152, 320, 362, 262, 232, 229, 220, 104, 332, 156, 228, 132, 329]),
  (28790, [425, 225, 125, 252, 215, 227, 330, 327, 220]),
  (28792, [225, 413, 325, 227]),
  (28796, [454, 162, 200, 152, 262, 125, 256, 325, 315, 227, 252, 402, 327]),
  (28798, [125, 425, 225, 320, 256, 315, 252, 325, 215, 220, 120, 227]),
  (28799, [100, 227, 402, 362, 262, 315, 327, 115, 132, 120, 220, 320, 162]),
  (28800, [327, 129, 413, 227]),
  (28805, [413, 227, 327]),
  (28809, [225, 425, 125, 252, 132, 232, 227, 325, 115, 315, 220, 142, 327, 426, 130]),
  (28810, [125, 454, 225, 215, 252, 120]),
  (28814, [225, 426, 125, 100, 227, 327, 252, 129, 256, 232, 419, 262, 162, 315, 117, 325, 130, 132, 320, 120]),
  (28818, [152, 452, 252, 125, 156, 225, 227, 325, 120, 327]),
  (28820, [225, 125, 332]),
  (28821, [425, 125, 225, 142, 327, 252]),
  (28822, [452, 125, 252, 152, 132]),
  (28825, [315, 115, 100, 252, 152, 215]),
  (28828, [227, 427, 327]),
  (28829, [452]),
  (28843, [152, 454, 100, 227, 327, 125, 132])]

/-- hmm/pos/char_state_tab.go:3198-3261 -/
noncomputable def chars49 : List (Nat × List Nat) := [
  (28844, [225, 332, 413, 215, 327, 227, 325, 315]),
  (28845, [225, 425, 125, 325, 343, 252, 215, 152, 331, 132, 330, 130, 220, 332]),
  (28846, [225, 125, 425, 227, 252, 152, 220, 325, 452, 217, 130, 331, 320, 315, 115, 215, 156, 330]),
  (28847, [315, 262, 162, 228, 115, 215]),
  (28849, [413]),
  (28851, [227, 327, 413, 130, 252, 315, 328]),
  (28855, [435, 227]),
  (28856, [252, 125, 452, 325, 152, 320, 225, 215, 304, 256, 227, 327]),
  (28857, [225, 422, 222, 435, 152, 207, 125, 322, 352, 252, 256, 224, 307, 325, 315, 227, 327, 220, 215, 320, 331, 120, 324, 115, 122, 135, 232, 132, 304, 104, 338, 362, 262, 243, 204, 156, 200, 332, 217, 235]),
  (28859, [459, 125]),
  (28860, [252, 152, 452, 125, 156, 325, 227, 200, 256, 215, 117, 232, 327, 315, 332, 132, 331, 115, 220]),
  (28861, [100, 325, 402, 227, 200, 327, 204]),
  (28864, [452]),
  (28865, [252, 402, 362, 262, 413, 315, 227, 327]),
  (28866, [452, 252, 200, 400, 225, 125, 315, 262, 162, 215, 152, 362, 320, 327, 220, 325, 115, 227, 100, 132, 256, 120, 352]),
  (28867, [225, 425, 125, 227, 327]),
  (28872, [200, 400, 125, 227, 215, 315, 220, 225, 327, 201, 230, 104, 329, 162, 262, 204, 320, 330, 325, 132, 120, 115, 228, 252]),
  (28874, [459, 252, 327, 227]),
  (28888, [452, 152, 362, 262, 125, 320, 200, 227, 156, 115, 327]),
  (28889, [125, 452, 225, 227, 325, 327]),
  (28891, [225, 426, 125, 252, 227, 152, 215, 315, 327, 320, 156]),
  (28895, [125, 425, 225, 252, 325, 130, 315, 320, 115, 227, 132, 207, 256, 232, 327, 215, 152, 120, 204, 131, 332, 162, 220, 331, 317]),
  (28900, [452, 125, 252, 152, 325, 330, 256, 232, 132]),
  (28902, [100, 452, 203, 200, 252, 220, 315, 103, 215, 152, 125, 227, 325, 320, 327, 156, 400, 230, 330]),
  (28903, [452, 252, 152, 125, 325, 225, 315, 330, 204, 156, 215, 100, 220, 120, 327, 320, 132, 256]),
  (28904, [227, 427, 327]),
  (28905, [125, 452, 225, 327, 227]),
  (28907, [452, 262, 152, 100, 252, 225, 104, 204, 125, 220, 327]),
  (28908, [225, 220, 413, 227]),
  (28909, [125, 400, 100, 252, 325, 200, 152, 225, 262, 162, 120, 130, 115, 352, 215, 256, 320, 330, 156, 362, 220, 132, 315, 332, 101, 327, 129, 232, 229, 227, 104, 304, 203, 230, 329, 117, 204, 317, 356, 127]),
  (28911, [225, 459, 125, 325, 332, 232, 227, 327, 132]),
  (28919, [225, 125, 425, 232, 227, 327, 325, 332, 132]),
  (28921, [152, 452, 156, 125, 331, 215, 320, 132, 315, 227]),
  (28925, [125, 230, 330, 115, 228]),
  (28937, [452, 130, 215, 227, 315, 115, 327, 460, 220, 438]),
  (28938, [152, 452, 125, 225, 256, 156, 325, 204, 232, 132, 252, 227, 320]),
  (28944, [452]),
  (28947, [413, 227, 327]),
  (28949, [227, 454, 152, 327, 315, 115, 162, 402, 328]),
  (28950, [452, 252, 227, 125]),
  (28952, [227, 427]),
  (28953, [452, 152, 252, 327, 132, 227, 125]),
  (28954, [152, 454, 252, 125, 215, 115, 227, 327, 120, 220, 156]),
  (28966, [125, 100, 400, 127, 130, 252, 225, 256, 325, 115, 135, 200, 162, 152, 156, 227, 427, 417, 327, 232, 132, 426, 131, 320, 215, 315]),
  (28975, [452, 227, 327]),
  (28976, [225, 125, 325, 228, 220, 315, 227]),
  (28977, [413, 227, 327]),
  (28982, [207, 206, 106, 201, 325, 204, 200, 320, 438, 315, 262, 215, 227, 225, 252, 306, 220, 332, 343, 327, 331, 330, 238, 352, 253, 228, 229, 406, 232, 362]),
  (28997, [452, 152]),
  (29002, [227, 459, 100, 327]),
  (29004, [230, 200, 402, 413, 215, 227, 325, 330, 327, 331]),
  (29006, [452, 152, 252, 156, 125, 325, 362, 262, 225, 132, 327, 320]),
  (29020, [228]),
  (29022, [452, 162, 120, 125, 115, 215, 152, 252, 409, 225, 315, 327, 227]),
  (29028, [125, 425, 225, 117, 252, 217, 325, 132, 332, 256, 331, 152, 227, 131, 232, 130]),
  (29030, [227, 327, 427, 200, 362, 262, 100]),
  (29031, [234, 152, 452, 125, 252, 225, 107, 325, 227, 327, 217, 315, 320, 330, 215, 156, 220, 332, 104, 115, 256, 120, 132]),
  (29032, [452, 227]),
  (29038, [452, 152, 252, 327, 227, 315, 332]),
  (29042, [452, 225, 125, 232]),
  (29043, [400, 227]),
  (29048, [452, 125, 252]),
  (29050, [452]),
  (29053, [152, 100, 120, 125, 156])]

/-- hmm/pos/char_state_tab.go:3262-3325 -/
noncomputable def chars50 : List (Nat × List Nat) := [
  (29060, [152, 452, 125, 320, 225, 325, 156, 252, 327]),
  (29066, [127, 425, 125, 225, 325, 262, 162, 227, 327, 229, 315, 130, 115, 232, 320, 332, 252, 131, 331, 132]),
  (29071, [452, 156, 152, 252, 320, 125, 227, 132, 232, 327]),
  (29076, [125, 152, 452, 225, 120, 327, 156, 252, 227, 325, 232, 132, 320]),
  (29080, [452, 327]),
  (29081, [225, 232, 132, 115, 315, 328, 229, 228, 243, 162, 227, 127, 125, 330, 331]),
  (29087, [200, 152, 400, 452, 125, 100, 252, 315, 230, 325, 225, 215, 262, 220, 227, 115, 320, 120, 330, 256, 204, 332]),
  (29088, [262, 162, 115, 315, 327, 227]),
  (29096, [452, 152, 325, 125, 100, 327]),
  (29100, [452, 252, 152, 200, 256, 227]),
  (29107, [459, 200, 227]),
  (29109, [413, 225, 227]),
  (29113, [227, 132, 129, 100, 232]),
  (29123, [125, 152, 252, 454, 325, 204, 115, 200, 320, 215, 227, 332, 256, 327, 232, 117, 304]),
  (29134, [452, 215, 152, 220, 120, 125, 262, 320, 227, 327]),
  (29140, [413]),
  (29141, [127, 130, 427, 125, 227, 132, 327, 225, 131, 315, 426, 229, 325, 228, 115, 230, 120]),
  (29152, [100, 402, 227]),
  (29157, [200, 402, 100, 225, 125, 227, 220, 332, 325, 315, 215]),
  (29159, [225, 125, 129, 228]),
  (29166, [227, 413, 327]),
  (29177, [225, 413]),
  (29190, [152, 200, 125, 452, 252, 156, 325, 232, 332, 204, 104, 220, 225, 256, 362, 262, 217, 227, 120, 327]),
  (29213, [459]),
  (29224, [413, 227]),
  (29226, [426, 130, 125, 225, 215, 227, 329, 325, 332, 330]),
  (29228, [452, 152, 125, 252, 320, 215, 325, 120, 156]),
  (29232, [413, 227, 327]),
  (29233, [452, 125, 252, 327, 100, 200, 127, 152, 130, 225, 227, 132, 204, 129, 115, 330, 156, 220, 131, 256, 215, 120, 331, 300, 320, 315, 362, 262, 217, 229, 232, 325, 332, 329, 143, 128]),
  (29237, [225, 227, 426, 125, 252, 327, 215]),
  (29238, [125, 225, 426, 238, 227, 104, 325, 252, 327, 229, 320, 120, 117, 317, 315, 215, 143, 232, 332, 230, 115]),
  (29239, [225, 426, 227, 125, 325, 327, 330, 138, 320]),
  (29240, [225, 125, 425, 227, 327]),
  (29241, [425, 225, 125, 227, 327]),
  (29243, [413, 125, 227, 225]),
  (29245, [200, 100, 427, 227, 215, 132, 327, 252, 125, 262, 156, 362, 320, 129, 300, 115, 107, 325, 304, 402]),
  (29247, [435, 227, 327]),
  (29255, [225, 222, 435, 122, 125, 332, 252, 325, 100, 104, 422, 232, 238, 331, 322, 220, 142, 132, 315, 256, 115, 362, 262, 204, 320, 107, 127, 215, 327, 227, 230, 304, 152, 135, 352, 129]),
  (29256, [252, 425, 125, 325, 225, 331, 330, 256, 204, 238, 320, 130, 232, 220, 324, 132]),
  (29260, [225, 252, 425, 125, 204, 232, 325, 220, 215, 227, 331, 217, 356, 320, 229, 130, 330]),
  (29261, [225, 413, 215, 325, 315]),
  (29266, [413, 225, 220, 227]),
  (29270, [413, 225]),
  (29273, [230, 425, 125, 225, 330, 325, 252, 227, 315, 332, 130, 320, 331, 215, 220, 156, 232, 229, 132, 152, 131, 200, 120, 115]),
  (29275, [425, 125, 127, 225, 330, 252, 325, 227, 130, 232, 135, 131, 315, 327, 115, 230, 143, 332, 331, 320, 352, 120, 129, 132, 215, 220, 100, 231, 243, 256, 128, 317]),
  (29277, [125]),
  (29279, [127, 427, 230, 152, 325, 330, 120, 227, 130, 454, 327, 128]),
  (29281, [125, 130, 327, 120, 132, 131]),
  (29282, [400, 100, 207, 107, 125, 252, 225, 152, 352, 330, 227, 215, 327, 325, 200, 315, 115, 101, 426]),
  (29286, [125, 132]),
  (29287, [125, 325, 252, 417, 225, 127, 217, 227, 317, 427, 327, 152, 256, 332, 454, 156, 230, 331, 426, 352]),
  (29289, [225, 125, 325, 426, 220, 252, 120, 330, 217, 320, 231, 215, 238, 152, 227, 332, 331, 115, 315, 132, 232, 327, 229, 117, 204, 156, 317]),
  (29294, [413]),
  (29295, [125, 325]),
  (29298, [252, 125, 325, 225, 215, 220, 343, 332]),
  (29301, [152, 452, 125, 156, 132, 115, 227, 315, 100, 120, 252, 320, 215, 101]),
  (29305, [125, 107, 227, 100, 407, 104, 229, 327, 200, 330, 230, 127, 152, 325, 129, 232, 329, 332, 225, 320, 130, 331, 117, 235, 162, 132, 304, 156, 317, 315, 115, 120, 131, 224, 217, 222, 231]),
  (29306, [152, 125, 315, 320, 117]),
  (29310, [454, 252]),
  (29312, [125, 426, 100, 225, 227, 325, 315, 327, 115]),
  (29313, [425, 230, 330, 125, 227, 152, 325, 225, 452, 132, 327, 115, 252, 228]),
  (29316, [125]),
  (29322, [426, 225, 125, 220, 325, 320, 315]),
  (29323, [435])]

/-- hmm/pos/char_state_tab.go:3326-3389 -/
noncomputable def chars51 : List (Nat × List Nat) := [
  (29325, [130, 125]),
  (29327, [459]),
  (29330, [152, 125]),
  (29343, [400, 200, 125, 152, 227]),
  (29356, [426, 225, 125, 325, 227, 315, 115, 215, 320, 220]),
  (29359, [452, 156, 252, 225, 152, 125, 215, 207, 325, 315, 120, 320, 115, 227, 220, 256]),
  (29360, [125]),
  (29364, [227, 225, 459]),
  (29366, [125, 225, 426, 325, 320, 232, 252, 204, 227, 215, 152, 327, 220, 332, 256, 132, 131]),
  (29367, [200, 100]),
  (29368, [325, 225, 459]),
  (29369, [100, 152, 407, 125, 132, 320, 315, 115, 130, 120, 362, 162, 229, 227, 330, 327, 325, 252, 131, 103]),
  (29377, [459]),
  (29378, [200, 407, 125, 100, 152, 115, 215, 315, 252, 120, 156, 225, 325, 320, 220, 103, 227, 232, 327, 201]),
  (29379, [413]),
  (29380, [127, 427, 227, 327, 426, 330, 332, 129]),
  (29384, [201, 203, 459, 315]),
  (29389, [125]),
  (29390, [152, 100]),
  (29392, [125, 427, 232, 152, 426, 225, 115, 327, 325, 315, 227, 252, 331]),
  (29394, [125, 225]),
  (29399, [425, 125, 225, 227, 327, 315, 115, 215, 120, 127, 132, 325, 152, 252, 220, 232, 320, 243, 332, 143, 130]),
  (29401, [152, 125]),
  (29406, [200, 152, 220, 100, 320, 227]),
  (29408, [407, 107, 207, 362, 262, 100, 200, 152, 103, 252, 315, 320, 307, 101, 162, 215, 400]),
  (29409, [100, 153, 115, 125, 152]),
  (29417, [125, 232, 152, 129]),
  (29420, [152, 100, 125, 207, 107, 407, 115, 400, 315, 200, 156, 327, 104, 130, 120, 117, 101, 132, 320, 127, 325, 227, 206, 217, 252, 330, 230, 129, 352, 215, 331, 328]),
  (29421, [100, 104, 402, 162, 200, 125, 115]),
  (29422, [125, 425, 225, 130, 327, 230, 227, 426, 325, 232, 252, 332, 330, 129, 120, 315, 256]),
  (29423, [200, 413]),
  (29424, [100, 320, 120, 327]),
  (29425, [225, 252, 426, 142, 125, 256, 215, 325, 231, 315, 230]),
  (29426, [459, 225, 320]),
  (29427, [225]),
  (29428, [125, 459]),
  (29431, [459]),
  (29432, [225, 125, 325, 315, 227, 327]),
  (29434, [459]),
  (29435, [459, 327, 125]),
  (29436, [425, 225, 125, 115, 101, 227, 315, 325, 103, 130, 100, 230, 320, 327, 232, 330]),
  (29441, [225, 459]),
  (29443, [413]),
  (29450, [225, 227, 459]),
  (29454, [125, 252, 225, 426, 152, 325, 454, 227, 256, 327, 131, 156, 315, 220, 320]),
  (29461, [125]),
  (29462, [100, 101]),
  (29463, [460, 230, 330, 410, 129, 327, 227]),
  (29467, [407, 107, 200, 100, 152, 125, 227, 400, 315, 320, 143, 101, 201, 327, 225, 156, 130, 352, 203, 131]),
  (29468, [452, 152, 156, 252, 332, 227, 215, 315, 120, 229, 256]),
  (29469, [115, 152, 262, 107, 409, 125]),
  (29470, [125]),
  (29473, [459]),
  (29474, [125, 320, 120]),
  (29477, [152, 103, 200]),
  (29481, [225, 125, 162, 325, 327, 227]),
  (29482, [425, 125, 225, 252, 325, 227, 132, 332, 327, 315, 320, 120, 243, 143, 117]),
  (29483, [425, 225, 125, 452, 227, 232, 130, 327, 320, 152, 120, 315, 325, 115, 331]),
  (29484, [225, 413]),
  (29486, [225, 452, 327, 152, 252, 325, 227, 129, 125, 130, 331, 215, 315, 352, 320, 120]),
  (29489, [413]),
  (29492, [426, 125, 225, 132, 325, 327, 227, 252, 315, 120, 215, 243, 143, 320, 115, 352, 130]),
  (29495, [227, 413, 327]),
  (29502, [200, 215, 413])]

/-- hmm/pos/char_state_tab.go:3390-3453 -/
noncomputable def chars52 : List (Nat × List Nat) := [
  (29503, [426, 225, 125, 227, 325, 315, 215]),
  (29517, [413]),
  (29520, [125, 115, 325]),
  (29522, [413, 227]),
  (29527, [200, 459]),
  (29536, [125, 315]),
  (29548, [459, 125]),
  (29549, [225, 413, 325]),
  (29551, [459, 132]),
  (29566, [413, 225, 125]),
  (29572, [127, 327, 400, 125, 227, 130, 100, 315, 328, 215, 115, 225, 325]),
  (29575, [225, 452, 152, 107, 232, 252, 200, 204, 227, 325, 327, 217, 220, 100, 320, 207, 201, 332, 125, 120, 115, 315, 256]),
  (29577, [227, 125, 327, 425, 127, 130, 225, 132, 315, 215, 115, 229, 232, 129, 152, 325, 328, 330, 120, 230, 329, 228, 320, 217, 331, 332]),
  (29579, [127, 427, 125, 225, 229, 227, 327, 232, 325, 128, 252, 130, 330, 331, 320, 315, 230, 215, 120, 332, 220, 115, 228, 129, 132, 117, 328, 343, 143]),
  (29582, [459]),
  (29585, [225, 227, 413, 232, 215, 327]),
  (29590, [422, 227, 122, 327, 222]),
  (29595, [227, 127, 427, 327, 330, 125, 130, 229, 129, 132, 325, 232, 230, 332, 329, 331]),
  (29602, [459, 327, 227]),
  (29609, [452, 125, 152, 352, 252, 225, 115, 200, 315, 332, 300, 227, 325, 120, 327, 132, 156]),
  (29611, [125, 327, 132, 225]),
  (29614, [427, 227, 327, 228, 200]),
  (29615, [125, 117, 452, 256, 225, 152, 320, 227, 230, 325, 130, 132, 204, 215, 327, 330, 332, 232, 331, 120, 242, 317, 143, 304, 220, 131, 315, 228]),
  (29616, [252, 143, 125, 444, 152, 142, 156, 104, 107, 325, 215, 256, 317, 227, 320, 115, 327, 304, 217, 262, 131, 331, 220, 315, 330, 100, 352, 332, 120, 225]),
  (29618, [227, 327, 100, 427, 315, 115, 228]),
  (29619, [125, 325]),
  (29623, [152]),
  (29626, [227, 426, 225, 125, 327, 228]),
  (29627, [125, 417, 130, 325, 129, 120, 320, 331, 132, 332, 227, 117, 131, 156]),
  (29632, [225, 229, 129, 325, 130, 132, 330, 329, 125]),
  (29634, [228]),
  (29640, [413, 225, 229, 330, 327, 227]),
  (29641, [227, 427]),
  (29642, [125, 230, 332, 252, 228, 327, 329, 129, 229, 325, 215, 330, 115, 315]),
  (29645, [227, 100, 125, 152, 426, 204, 327, 130, 454, 320, 225, 132, 115, 325, 215, 315, 129, 229, 200, 156, 304, 228, 232]),
  (29647, [227, 327, 413]),
  (29648, [125]),
  (29649, [200, 215, 315, 459, 227]),
  (29657, [125, 413, 227, 130, 327]),
  (29662, [132, 225, 129, 130]),
  (29664, [225, 426, 130, 125, 227, 325, 132, 417, 117, 232, 327, 330, 332, 215, 331, 115, 231, 230, 315, 304, 220, 320, 217, 229, 131, 228]),
  (29669, [225, 413]),
  (29671, [327, 413, 227, 325]),
  (29673, [227, 413, 152, 132]),
  (29677, [330, 425, 125, 252, 225, 325, 127, 222, 256, 227, 332, 142, 320, 132, 152, 232, 327, 230, 130, 422, 215, 229, 129, 331, 238, 143, 217, 115, 117, 120, 204, 253, 329, 100]),
  (29678, [327]),
  (29682, [413, 130, 227]),
  (29699, [225, 125, 425, 325, 252, 356, 227, 331, 332, 330, 232, 230, 256, 327, 217, 120, 220, 231, 132, 352, 343]),
  (29701, [225, 315, 130, 115, 228, 325, 362, 162]),
  (29702, [225, 125, 256, 252, 325, 152, 200, 425, 331, 320, 452, 227, 215, 230, 220, 115, 315, 327, 332, 217, 317, 229, 304, 330, 238, 120, 156, 129, 356, 127, 207, 352, 130, 132, 201, 100, 107, 232, 131, 300, 228, 117, 104]),
  (29705, [125, 130, 132, 327, 325]),
  (29706, [413]),
  (29711, [227, 413, 327, 225]),
  (29712, [200, 402, 100, 125, 203, 227, 327]),
  (29722, [427, 227]),
  (29723, [413, 227, 230, 327, 130]),
  (29730, [152, 452, 252, 327, 227, 215, 120, 352, 315]),
  (29733, [125]),
  (29734, [327, 227, 427, 232]),
  (29736, [227, 413, 327]),
  (29738, [227, 327, 413, 325, 115, 315, 228, 229]),
  (29740, [227, 413, 327]),
  (29742, [227, 413, 327]),
  (29744, [227, 413, 327])]

/-- hmm/pos/char_state_tab.go:3454-3517 -/
noncomputable def chars53 : List (Nat × List Nat) := [
  (29747, [227, 229, 129, 327, 427, 115, 330, 332, 125, 230, 329, 228]),
  (29748, [225, 425, 227, 125, 325, 330, 252, 327, 232, 129, 115, 215, 230, 220, 320, 130, 228, 315, 329, 128, 229, 235]),
  (29749, [125, 130, 320]),
  (29750, [225, 459, 325, 330, 320]),
  (29756, [332, 227, 417, 130, 129, 427, 132, 327, 125, 426, 115, 127, 330, 315, 229, 325]),
  (29761, [227, 225, 459]),
  (29781, [125, 262, 332, 215, 115, 225]),
  (29783, [227, 413]),
  (29785, [225, 330, 125, 229, 129, 325, 230, 329]),
  (29786, [225, 325, 232, 459, 227, 125, 327]),
  (29787, [227, 327, 413]),
  (29788, [227, 427, 125, 327, 320, 228, 215, 315]),
  (29790, [130, 227, 417, 327, 127, 117, 330, 232, 125, 131, 129, 132, 332, 229, 200, 331, 426, 325, 329, 225, 228, 135, 252]),
  (29791, [426, 227, 327, 262, 229, 329, 162, 325, 152, 225, 129, 232, 330, 215, 230, 130]),
  (29805, [227, 413, 327]),
  (29808, [225, 325, 162, 125, 227, 100]),
  (29814, [227, 417, 327, 125, 132, 330, 130, 315, 115]),
  (29815, [459, 327, 227]),
  (29822, [227, 427, 327]),
  (29824, [162, 120, 320]),
  (29825, [413, 227, 327]),
  (29827, [225, 325, 320, 330, 220, 231, 332, 459, 227, 232]),
  (29831, [413, 227, 327, 125, 228]),
  (29835, [227, 413, 327, 252]),
  (29838, [125]),
  (29840, [227, 427, 325, 327]),
  (29852, [227, 427, 327, 225, 229]),
  (29854, [427, 227, 426, 125, 327, 315]),
  (29863, [225, 315, 230, 228, 215, 252, 130, 330]),
  (29864, [262, 320, 413, 220, 227]),
  (29865, [227, 427, 127, 327]),
  (29882, [425]),
  (29906, [227, 427, 327]),
  (29916, [225, 425, 125, 152, 330, 325, 230, 130, 129, 315, 215, 327, 115, 227, 132, 332, 331, 329, 229, 320]),
  (29918, [413]),
  (29920, [413, 125, 227]),
  (29922, [425, 222, 125, 115, 225, 320, 152, 215, 227, 435, 220]),
  (29923, [225, 435, 426, 125, 325, 204, 320]),
  (29924, [426, 125, 225, 325]),
  (29926, [222, 425, 127, 327, 125, 230, 330, 227, 152, 129, 225, 229, 235, 325, 329, 322, 422, 130, 315, 335, 332, 232, 132, 135, 452, 331, 162, 215, 320, 435, 115, 252]),
  (29934, [425, 130, 120, 320, 225, 115, 215, 327]),
  (29935, [417, 225, 130, 230, 227, 125, 330]),
  (29940, [413, 215]),
  (29942, [425, 125, 225, 222, 325, 104, 215, 227, 422, 238, 320, 252, 330, 332, 327, 232]),
  (29943, [225, 125, 426, 325, 232, 227, 220, 104, 100, 132, 327]),
  (29951, [413]),
  (29956, [127, 152, 427, 227, 327, 156]),
  (29965, [413]),
  (29967, [426]),
  (29969, [427, 227, 125]),
  (29971, [413]),
  (29976, [130, 125, 127, 152, 427, 315, 417, 252, 330, 129, 217, 454, 227, 320, 327, 100, 325, 317, 132, 115, 401, 256, 332, 200, 104, 229, 331, 131, 120, 117]),
  (29977, [413, 232, 225]),
  (29978, [107, 409, 138, 162, 152, 315, 320, 106, 200, 227, 306, 207, 215, 115, 104, 245, 125, 327]),
  (29980, [125, 400, 227, 100, 200, 162, 362, 327, 115, 315, 220, 225, 215, 132, 104]),
  (29983, [156, 252, 125, 225, 152, 452, 325, 227, 204, 120, 203, 320, 331, 315, 100, 215, 352, 256, 327, 127, 207, 200, 143, 115, 232, 343, 222, 332, 117, 229, 362, 262, 220, 107, 243, 217, 304, 317, 104, 238, 228, 330, 132, 230, 307, 322, 300]),
  (29989, [225, 325, 125]),
  (29992, [252, 434, 225, 152, 256, 125, 325, 204, 200, 207, 220, 107, 120, 156, 320, 327, 227, 230, 331, 231, 215, 232, 315, 238, 100, 115, 352, 332, 132, 328, 317, 356, 304, 131]),
  (29993, [452, 152, 125, 120, 227, 132, 156]),
  (29995, [227, 407, 327, 225, 230, 232, 332, 329, 129, 328]),
  (29996, [125, 417, 130, 327, 330, 227, 117, 132]),
  (29997, [452, 407, 106, 152, 227]),
  (30000, [425, 127, 225, 125, 227, 230, 327, 232, 252, 330, 320, 231, 130, 128, 142, 332, 325, 331, 229, 129, 120, 215, 220, 152, 217, 315, 117, 131, 228, 356, 156, 329]),
  (30001, [434, 106, 200, 225, 107, 325, 307, 127, 315, 252, 207, 327, 120, 234, 125, 320, 331, 220, 356, 227, 352, 115, 304, 330, 332, 228, 128])]

/-- hmm/pos/char_state_tab.go:3518-3581 -/
noncomputable def chars54 : List (Nat × List Nat) := [
  (30002, [425, 125, 204, 225, 325, 227, 132, 327, 230, 122, 120, 332, 104, 252, 330, 452, 315, 422, 220, 423, 215, 322, 217, 130, 232, 129, 320, 131, 143, 117, 331, 128]),
  (30003, [152, 127, 452, 132, 252, 227, 125, 327, 222, 215, 156, 325, 130, 322, 232, 230, 131, 143, 417, 129, 332, 329, 128, 117, 217]),
  (30005, [125, 425, 225, 325, 252, 217, 256, 331, 156, 332, 104, 352, 320, 120, 232, 204, 152, 220, 132, 117, 317, 315, 231, 304, 227, 327, 115, 129, 330, 356, 131, 130, 143]),
  (30007, [125, 404, 227, 115, 120, 320, 325, 225, 117, 315, 327, 331, 152, 104, 332, 131]),
  (30008, [230, 225, 362, 262, 325, 125, 330, 228, 331, 229, 130, 332]),
  (30010, [230, 330, 127, 130]),
  (30011, [225, 452, 125, 252, 325, 152, 315, 115, 331, 227, 215, 327, 320, 220, 120, 132, 352, 304, 232, 256, 142, 204, 330]),
  (30014, [413, 125, 325, 332]),
  (30016, [413]),
  (30021, [200, 400, 100, 152, 115, 227, 127, 125, 252, 315, 101, 330, 162, 120, 156, 327, 228, 320, 215]),
  (30024, [435, 227]),
  (30027, [227, 413, 152]),
  (30028, [225, 425, 332, 325, 125, 320, 238, 129, 331, 252, 132, 419, 152, 204, 227, 232, 230, 304, 215, 327, 217, 142, 220, 130, 330, 104, 256]),
  (30030, [413]),
  (30031, [454, 152, 252, 315, 100, 215, 227, 115, 220, 352, 256, 225, 327, 125, 204]),
  (30036, [225, 426, 230, 227, 242, 327]),
  (30041, [152, 252, 452, 256, 125, 325, 327, 227, 320, 343, 130, 315, 156, 215, 120, 115, 230, 204, 330, 129, 225, 331, 132]),
  (30042, [125]),
  (30043, [413, 125, 327, 227]),
  (30044, [125, 225, 426, 217, 325, 252, 425, 152, 232, 132, 315, 227]),
  (30053, [225, 407, 252, 152, 325, 107, 256, 227, 207, 201, 200, 125, 330, 215, 115, 315, 327, 229, 230, 130, 120, 320, 220, 129, 329]),
  (30054, [435, 426, 225, 227, 125]),
  (30058, [222, 435, 125, 130, 230, 207, 252, 243, 325, 315, 330, 220, 227, 215, 327, 322, 132, 331, 422]),
  (30066, [417, 132, 330, 227]),
  (30068, [227, 225, 413, 143, 327, 315]),
  (30072, [125, 426, 252, 152, 115, 315]),
  (30073, [130]),
  (30079, [413, 125, 232, 227, 229, 330, 327]),
  (30083, [413, 227]),
  (30086, [230, 125, 242, 330, 225, 227, 417, 331, 215, 325, 315, 332, 252, 327, 217, 320, 220]),
  (30091, [413]),
  (30095, [152, 456, 454, 200, 225, 125, 100, 156, 227, 130, 315, 120, 262, 215, 325, 115, 317, 362, 162, 327, 252, 117, 220, 129, 132]),
  (30097, [252, 207, 125, 200, 152, 325, 454, 320, 215, 426, 225, 220, 362, 262, 227, 315, 256, 115, 120, 327, 203]),
  (30100, [225]),
  (30102, [125]),
  (30103, [252, 225, 125, 325, 152, 454, 256, 320, 220, 217, 332]),
  (30105, [125, 320, 325, 362, 162, 327, 315]),
  (30106, [200, 413, 203, 201, 325]),
  (30109, [125]),
  (30111, [125, 225, 325]),
  (30112, [225, 413]),
  (30113, [225, 413, 325]),
  (30115, [413, 225, 125]),
  (30116, [425, 225, 125, 252]),
  (30117, [125, 315]),
  (30123, [125, 256, 252, 325, 225, 426, 220, 331]),
  (30124, [225, 459]),
  (30126, [225, 425, 125, 315, 115, 215, 325, 332]),
  (30127, [100, 452, 125, 252, 152, 327, 162, 362, 220, 320, 315, 225, 325]),
  (30128, [125]),
  (30129, [125, 225, 425, 325]),
  (30130, [100, 400, 152, 315, 120, 125, 115, 215, 101]),
  (30131, [125, 225]),
  (30132, [225, 413]),
  (30133, [225, 125, 215]),
  (30136, [225, 459]),
  (30137, [225, 125, 352, 325]),
  (30140, [125, 452, 252, 400, 200, 152, 100, 262, 315, 325, 362, 220, 103, 156]),
  (30141, [225, 413]),
  (30142, [125, 426, 325, 225, 152, 315, 227, 320, 107, 115, 262, 215, 409, 101, 331, 332, 402]),
  (30146, [425, 252, 225, 227]),
  (30147, [459, 225]),
  (30148, [125]),
  (30149, [225, 125, 425, 252, 152, 325, 238, 315, 256, 227, 207, 156, 117, 220, 115, 100, 215, 317, 120, 162, 217, 320, 132, 362, 331, 104])]

/-- hmm/pos/char_state_tab.go:3582-3645 -/
noncomputable def chars55 : List (Nat × List Nat) := [
  (30151, [225, 125, 426, 252, 232, 215, 220, 315, 217, 332]),
  (30152, [125, 315]),
  (30153, [156, 125, 325]),
  (30154, [152]),
  (30157, [315, 225, 215, 413]),
  (30162, [400, 200, 252, 100, 215, 225, 262, 220, 320, 162]),
  (30164, [125, 225, 132]),
  (30165, [125, 225, 426, 320, 227]),
  (30166, [413]),
  (30168, [225, 125, 252, 232, 325]),
  (30171, [225, 103, 400, 200, 152, 100, 252, 125, 315, 115, 256, 325, 162, 362, 207, 220, 120, 215, 107, 320, 227, 156, 203, 332]),
  (30174, [125, 225, 325]),
  (30178, [125, 325, 225]),
  (30179, [425, 225]),
  (30180, [125]),
  (30182, [125]),
  (30183, [256, 225, 252]),
  (30184, [125, 225]),
  (30186, [252, 459]),
  (30187, [225, 459, 325, 332]),
  (30192, [425, 252, 225, 125, 325, 115, 132]),
  (30193, [125]),
  (30196, [400, 162, 125, 152, 225, 362, 115, 215, 127, 262, 100, 315, 252, 227, 325, 320, 156, 327, 200, 401, 120]),
  (30201, [252, 426, 315, 256, 200, 225, 125, 325]),
  (30204, [125]),
  (30207, [252, 413, 125]),
  (30208, [413, 220, 225, 125, 252, 325]),
  (30209, [215, 454, 252, 200]),
  (30213, [459]),
  (30218, [125]),
  (30220, [225, 325, 125]),
  (30224, [459]),
  (30229, [413]),
  (30231, [413]),
  (30232, [413, 225, 125]),
  (30233, [100, 413]),
  (30235, [459]),
  (30239, [125, 452, 225, 325, 362]),
  (30240, [200, 402, 100, 352]),
  (30242, [125]),
  (30244, [225, 425, 220, 325, 125, 227, 426, 331]),
  (30246, [400, 100, 200, 125, 162, 262, 215, 362, 132, 225, 120, 315, 130, 104, 327, 220]),
  (30249, [225, 220, 262, 362, 325, 459, 215, 227]),
  (30250, [400, 200, 125, 362, 162, 152, 262, 252]),
  (30251, [152, 452, 225, 252, 125, 256]),
  (30256, [125]),
  (30259, [427]),
  (30260, [315, 125, 225]),
  (30261, [413]),
  (30264, [452, 125]),
  (30268, [413]),
  (30270, [425, 225, 252, 200, 325, 125, 220]),
  (30271, [413, 225, 227, 325]),
  (30272, [232, 459]),
  (30275, [125, 413]),
  (30284, [225, 125, 425, 256, 252, 325, 331]),
  (30285, [425]),
  (30292, [125, 132]),
  (30294, [426, 225, 125]),
  (30300, [325, 225, 413]),
  (30302, [125, 120]),
  (30307, [225, 425, 115]),
  (30315, [125, 227, 100, 454, 252, 362, 262, 325, 132]),
  (30319, [413, 200])]

/-- hmm/pos/char_state_tab.go:3646-3709 -/
noncomputable def chars56 : List (Nat × List Nat) := [
  (30328, [423, 122, 227, 132, 327, 322]),
  (30331, [152, 452, 252, 125, 327, 227, 156, 130, 107, 132, 229, 230, 129, 315, 330, 200, 120, 232, 115, 215, 331, 325, 225, 329, 320, 362, 262]),
  (30333, [125, 127, 252, 400, 325, 225, 130, 262, 143, 227, 200, 327, 330, 162, 132, 152, 220, 362, 204, 320, 115, 230, 107, 315, 207, 215, 331, 100, 129, 128, 104, 120, 232, 228, 256, 229, 332, 201, 131, 342, 352, 156]),
  (30334, [322, 125, 122, 222, 325, 422, 327, 315, 115, 132, 130, 320, 120, 107, 232, 104, 332, 217, 227, 215, 317, 331, 220, 124, 330, 131, 117, 127, 224]),
  (30338, [225, 125, 320, 325, 152, 315, 130, 132]),
  (30340, [448, 238, 225, 262, 245, 207, 145, 220, 107, 320, 325, 232, 228, 330, 306, 252, 204, 125, 227, 130, 327, 215, 315, 307, 120, 332, 200]),
  (30342, [407, 315, 227, 327, 115, 320, 129]),
  (30343, [125, 426, 225, 327, 227, 330, 130, 331, 325, 201, 215, 232, 132, 315, 127, 200, 329, 256, 100, 115, 320, 207, 152, 362, 230, 262, 128, 229, 131]),
  (30344, [152, 325]),
  (30347, [227, 230, 413, 130, 327, 330, 129, 228, 220]),
  (30350, [162]),
  (30353, [262, 162, 215, 315, 362]),
  (30355, [228, 132, 315, 115, 125, 100]),
  (30358, [417, 130, 125, 132, 217, 227, 117, 327, 330, 331]),
  (30361, [227, 262, 413, 327]),
  (30372, [413, 227]),
  (30382, [125, 225, 425, 127, 325, 200, 320, 252, 327, 112, 220, 227, 129, 315, 115, 232, 215, 120, 229, 329, 204, 130, 330, 100, 230, 332, 352, 132, 256]),
  (30385, [225, 452, 125, 425, 152, 227, 162, 215, 232, 362, 252, 315]),
  (30386, [152]),
  (30388, [425, 452, 152, 125]),
  (30399, [225, 459, 227, 327]),
  (30402, [225, 413, 327, 130]),
  (30405, [435, 225, 426, 227, 125]),
  (30406, [125, 225, 330, 425, 435, 222, 343, 230, 130, 220, 227, 315, 327, 262, 320, 252, 325, 152, 232]),
  (30408, [125, 325, 454, 327, 227, 200, 220, 320, 262, 152, 252, 162, 362, 132, 130, 104, 215, 225, 315, 304, 232, 256, 332]),
  (30410, [225, 325, 207, 252, 227, 127, 352, 200, 427, 327, 125, 130, 315, 132, 256, 220, 215, 107, 426, 320, 129, 152, 409, 120, 230, 454, 217, 332, 330, 262, 232, 115, 328, 343]),
  (30413, [413]),
  (30414, [135, 162, 132, 322, 320, 122, 315]),
  (30415, [435, 222, 225, 325, 232, 422, 327]),
  (30416, [425, 125, 225, 130, 325, 117, 252, 232, 227, 152, 330, 320, 327, 132, 215, 129, 315, 156]),
  (30417, [156, 225, 125, 317, 417, 152, 327, 227, 331, 325, 426, 454, 130, 217, 117, 252, 256, 332, 132, 115, 131, 330]),
  (30418, [225, 435, 125, 222, 426, 104, 422, 325, 232, 327, 238]),
  (30420, [225, 125, 315, 132]),
  (30422, [452, 252, 225, 325, 127, 125, 227, 152, 315, 129, 327, 130, 228, 230, 229, 220, 330, 115, 320, 128, 132, 256, 232]),
  (30423, [454, 152, 225, 125, 256, 156, 252, 215, 315, 325, 120, 332, 115]),
  (30424, [225, 435, 252, 325, 152, 125, 142, 222, 330, 127, 227, 207, 130, 156, 256, 315, 327, 320, 232, 422, 129, 215, 115, 100, 230, 220, 332, 229, 132, 143]),
  (30427, [452, 152, 200, 125, 127, 227, 232, 330, 104, 327, 262, 130, 143, 320, 204, 115, 331, 252, 120, 132, 315, 325, 332, 215, 220, 128, 229, 230, 129, 328]),
  (30431, [225, 217, 125, 325, 425, 252, 230, 231, 331, 220, 227, 426, 215, 332, 330, 256, 232, 152, 327, 315, 356]),
  (30437, [104, 125, 152]),
  (30446, [143, 225, 125, 426, 315, 215, 252, 152, 201, 115, 222, 200, 227, 325, 220, 320, 230, 330, 422, 253, 327, 120, 435, 204, 232, 256, 229, 130, 156]),
  (30447, [452, 152, 262, 362]),
  (30449, [130]),
  (30450, [125, 101, 426, 225, 100, 252, 325, 152, 454, 117, 115, 327, 156, 331]),
  (30452, [207, 101, 407, 152, 125, 252, 104, 130, 200, 315, 100, 227, 162, 115, 217, 262, 156, 327, 325, 120, 362, 132, 330, 320, 225, 131, 107, 215, 230, 117, 129, 232, 317, 331, 352, 304, 204]),
  (30456, [152, 107, 407, 100, 225, 207, 125, 315, 120, 252, 327, 227, 127, 115, 320, 325, 204, 306, 106, 200, 130, 232, 215, 330, 156, 256, 220, 132, 328, 332, 229]),
  (30457, [426, 252, 125, 352]),
  (30460, [452, 152, 252, 127, 227, 215, 125, 327, 315, 320, 232, 132, 256]),
  (30462, [203, 435, 125, 225, 227, 220, 215, 325, 332, 422, 222, 232, 330, 327]),
  (30465, [230, 425, 125, 225, 238, 331, 217, 252, 152, 104, 117, 142, 330, 100, 227, 231, 315, 229, 352, 215, 115, 132, 327, 325, 156, 317, 256, 120, 328, 220, 320, 200, 332]),
  (30468, [454]),
  (30471, [413, 227]),
  (30472, [215, 315, 459]),
  (30473, [125, 425, 227, 315, 225, 115, 330, 252, 352, 230, 327, 320, 130, 142, 215, 325, 220]),
  (30475, [452, 152, 252, 245, 125, 200, 220, 215, 320, 120, 156, 206, 315, 306, 352, 115, 227, 327, 225]),
  (30477, [452]),
  (30489, [230, 330, 413]),
  (30490, [426]),
  (30495, [107, 407, 125, 100, 201, 227, 252, 327, 200, 325, 127, 232, 207, 320, 315, 115, 225, 120, 204, 215, 332, 132, 206, 362, 129, 104, 256, 229, 262, 220, 162, 307, 330, 152, 300, 331, 131, 228, 329]),
  (30496, [252, 454, 256, 325, 227, 220, 343, 320, 215, 230, 225, 130, 327, 228, 332, 125, 115]),
  (30498, [413]),
  (30502, [413, 315, 252]),
  (30504, [452, 152, 315, 120]),
  (30505, [152, 454, 215, 252, 125, 315, 220, 227]),
  (30508, [252])]

/-- hmm/pos/char_state_tab.go:3710-3773 -/
noncomputable def chars57 : List (Nat × List Nat) := [
  (30509, [427, 327]),
  (30511, [452, 362, 262, 152, 227, 327]),
  (30517, [413, 225]),
  (30518, [225, 426, 220, 315, 252]),
  (30519, [225, 125, 152, 156, 315, 215]),
  (30520, [125, 225, 252, 315]),
  (30522, [152, 252, 454, 227, 327, 215]),
  (30524, [125, 425, 143, 222, 225, 142, 207, 152, 252, 200, 320, 325, 315, 107, 220, 352, 215, 343, 120, 115, 100, 132, 227, 327, 332, 243, 422, 300, 330, 204, 104, 331]),
  (30528, [451, 252, 234, 206, 152, 220, 100, 200, 320, 107, 125, 222, 225, 238, 207, 352, 325, 315, 260, 201, 160, 245, 422, 215, 332, 327, 156, 162, 362]),
  (30529, [452, 207, 307, 125, 215, 327, 315, 227]),
  (30531, [452]),
  (30535, [454, 252]),
  (30544, [252, 320, 413, 227]),
  (30545, [225, 413, 125]),
  (30554, [115, 152, 413, 129]),
  (30555, [225, 215, 207, 426, 227, 327, 232, 125, 320]),
  (30561, [452, 152, 252, 125, 256, 156, 220, 227, 132, 115, 325]),
  (30562, [427, 130, 227, 252, 459]),
  (30563, [225, 256, 332, 454, 152, 325, 125, 331, 227, 156, 327, 217, 232]),
  (30565, [115, 459, 120]),
  (30566, [402, 200, 125, 327, 120, 315, 227, 220, 362, 215, 256, 262, 332]),
  (30568, [454, 252, 315, 320]),
  (30571, [125, 215, 325, 132, 225]),
  (30572, [252, 452, 256, 327, 215]),
  (30585, [252, 215, 452, 220, 115, 454, 320, 315, 325, 327]),
  (30589, [215, 315, 413]),
  (30590, [125, 225, 325, 332]),
  (30591, [100, 228, 129, 329, 320]),
  (30592, [413]),
  (30596, [152, 452, 132, 125, 227]),
  (30597, [452, 152, 227, 327, 315]),
  (30604, [152, 352, 125]),
  (30605, [413]),
  (30606, [452, 327, 125, 152, 315, 320, 325, 225, 456, 252, 120]),
  (30609, [152, 315]),
  (30610, [452, 252, 320, 152, 115, 315]),
  (30623, [452, 152]),
  (30624, [120, 152, 115]),
  (30626, [413]),
  (30629, [452, 152, 225, 435, 456]),
  (30631, [452, 152, 252, 220, 227, 300]),
  (30633, [152, 315, 320, 215]),
  (30634, [452, 315, 152, 362, 262, 325, 352, 200]),
  (30636, [143, 322, 243, 115, 320, 315, 343, 207, 107, 120, 125]),
  (30637, [152, 125]),
  (30640, [252, 413, 325]),
  (30643, [125, 252, 325]),
  (30645, [454]),
  (30651, [325, 454, 225, 152, 315, 115, 227, 215, 327, 220, 125, 156]),
  (30653, [413]),
  (30655, [127, 427, 128, 227, 327, 125]),
  (30663, [152]),
  (30669, [100]),
  (30679, [152, 252]),
  (30683, [103, 425, 125, 320, 225, 315, 227, 327, 325, 215, 427]),
  (30684, [100, 454, 227, 200, 327, 152, 252]),
  (30690, [426, 125, 227, 115, 315, 215, 152, 225]),
  (30691, [460, 215, 227, 145]),
  (30693, [152, 252, 125, 452, 225, 100, 315, 215, 325, 227, 327, 220, 320, 200, 256, 120, 115, 156, 352, 331, 228, 330, 230, 104, 131, 130, 132]),
  (30697, [225, 125, 426, 227, 362, 262, 220, 215, 332, 104, 200, 327, 315]),
  (30699, [152, 427, 100, 127, 156, 115, 125, 227, 104, 402, 132, 327, 200]),
  (30700, [125]),
  (30701, [104, 400, 125, 252, 100, 162, 152, 262, 225, 317, 362, 215, 200, 325, 315, 115, 320, 304, 135, 132, 352, 232, 220, 217, 327, 332, 117, 156]),
  (30702, [400, 452, 200, 125, 100, 325, 162, 152, 225, 362, 104])]

/-- hmm/pos/char_state_tab.go:3774-3837 -/
noncomputable def chars58 : List (Nat × List Nat) := [
  (30707, [125, 225, 426, 127, 227, 130, 117, 325, 327, 317, 330, 230, 425, 343, 331, 315, 232, 132, 417, 131, 215, 252, 143, 320, 104, 115, 332, 152, 128, 256, 229, 220, 304, 228, 217, 120, 129]),
  (30710, [413, 230, 330, 227, 331]),
  (30712, [125, 325]),
  (30717, [125, 132]),
  (30718, [325, 225, 125, 332, 130]),
  (30719, [125, 225, 425, 325, 252, 320, 217, 204, 117, 232, 256, 230, 152, 104, 317, 327, 227, 238, 231, 331, 330, 120, 220]),
  (30720, [130, 413, 227]),
  (30721, [225, 125, 452, 207, 325, 252, 220, 152, 435, 320, 330, 256, 217, 130, 332]),
  (30722, [125, 425, 225, 325, 315, 227, 132, 232, 204, 332, 230, 330, 252, 327]),
  (30729, [433, 327]),
  (30732, [452, 252, 152, 204, 125, 220]),
  (30733, [452, 152, 125, 252, 156, 115, 320, 315]),
  (30737, [413]),
  (30738, [125]),
  (30740, [156, 125, 152, 117, 225, 452, 256, 331, 252, 325, 317, 217, 227, 132, 142, 327, 332, 330, 104]),
  (30742, [125, 425, 225, 227, 325, 252, 132, 315, 327, 232, 104, 320]),
  (30743, [459, 125]),
  (30744, [452]),
  (30746, [426, 225, 327, 125, 227, 330]),
  (30748, [413, 232, 225, 227]),
  (30749, [125]),
  (30751, [125]),
  (30755, [452, 225, 125]),
  (30757, [315, 426, 152, 156, 327, 227, 115]),
  (30758, [413, 225, 227]),
  (30759, [125, 426, 225, 227]),
  (30761, [413]),
  (30764, [125, 413]),
  (30765, [454, 252, 315, 230, 125, 256]),
  (30768, [433, 227, 327]),
  (30772, [152, 452, 256, 252, 125, 325, 315, 115, 100, 229, 156, 215, 120, 327, 320, 162, 362, 227, 220, 130, 352, 143, 225, 331]),
  (30775, [425, 125, 227, 225, 325, 120]),
  (30776, [452, 152, 115, 317, 320]),
  (30777, [413]),
  (30778, [426, 252, 454, 227, 327, 256, 125]),
  (30779, [452, 330, 230, 132, 227, 327, 125, 130]),
  (30780, [425, 232]),
  (30782, [125, 225, 325, 252]),
  (30784, [225, 325, 426, 220, 320, 227, 252, 327, 125, 331]),
  (30789, [425, 125, 225, 132, 325, 232, 332, 117, 330, 227]),
  (30791, [130, 125]),
  (30796, [452]),
  (30798, [413, 227]),
  (30800, [413]),
  (30802, [425, 232, 125]),
  (30805, [125, 402, 227, 200, 327, 100, 229, 115, 120, 330]),
  (30806, [413, 130, 227]),
  (30807, [459]),
  (30813, [125, 425, 225, 325, 120, 152, 332, 132, 327, 232, 452]),
  (30826, [413]),
  (30827, [125, 425, 152, 225, 252, 325, 332, 132, 232, 227, 130]),
  (30828, [400, 125, 200, 152, 107, 120, 320, 325, 100, 162, 217, 252, 317, 104, 315, 262, 132, 156, 227, 215, 131, 331]),
  (30829, [459]),
  (30830, [152, 200, 201, 101, 407, 325, 207, 100, 125, 301, 215, 130, 320, 307, 227, 120, 107, 352, 117]),
  (30839, [425, 452]),
  (30844, [425, 125, 225, 325, 227, 232, 132, 332, 327]),
  (30855, [413, 225]),
  (30857, [125]),
  (30860, [200, 362, 262, 252, 207, 125, 115, 315, 129, 256, 130, 320]),
  (30861, [225, 252, 452, 325, 100, 152, 204, 115, 315, 352, 320, 120, 215, 332]),
  (30862, [252, 125, 400, 452, 200, 315, 152, 215, 225, 325, 232, 327, 115, 362, 262, 132, 256, 203, 332, 162]),
  (30865, [225, 425, 125, 227, 304, 232, 215, 327, 230, 315, 330, 130, 252]),
  (30867, [413, 225, 327]),
  (30871, [435, 222, 225, 125, 325, 422, 330, 425, 327, 320, 227, 315, 332, 220, 132, 252])]

/-- hmm/pos/char_state_tab.go:3838-3901 -/
noncomputable def chars59 : List (Nat × List Nat) := [
  (30872, [425, 125, 132, 325, 232, 332]),
  (30874, [413, 227, 330, 327]),
  (30875, [413, 225, 325]),
  (30876, [252, 459, 200]),
  (30879, [426, 435, 225, 125, 327, 325, 227]),
  (30881, [225, 459]),
  (30883, [125, 227, 225, 426, 130, 330]),
  (30885, [413]),
  (30887, [426, 327, 125, 127, 162, 315, 227, 225, 402, 130, 200, 120, 320, 132, 230, 262]),
  (30896, [152, 452, 156, 252, 107, 352, 120, 320, 125, 227, 325, 327]),
  (30897, [225, 425, 125, 325, 220, 120, 152, 332, 356, 132, 232, 331, 452, 215, 256]),
  (30898, [413, 125]),
  (30899, [425, 125, 225, 325, 232, 152, 132, 426, 220, 332]),
  (30900, [225, 220, 325, 125, 252, 352]),
  (30905, [413]),
  (30910, [452, 125, 152, 156, 130, 325, 227, 332]),
  (30913, [125, 325, 426, 225, 152, 320, 130, 132, 232, 156, 327, 252, 304, 104, 330, 217]),
  (30917, [422, 435, 225, 222, 315, 425, 252, 152, 452, 129, 125, 156, 227, 130]),
  (30922, [227, 427, 315, 100, 228, 327, 115]),
  (30923, [156, 252, 215, 315]),
  (30928, [426, 125, 227, 315, 215, 327, 129, 130]),
  (30932, [413, 225, 227]),
  (30933, [452, 152, 362, 162, 352, 125, 320]),
  (30937, [225, 125]),
  (30952, [252, 452, 152, 125, 325, 200, 225, 256, 156, 315, 132, 162, 362, 320, 215, 332, 115, 327, 220, 104, 120, 330, 232]),
  (30956, [426, 227, 225, 327]),
  (30962, [225, 459]),
  (30964, [435, 130]),
  (30967, [125, 425, 132, 225, 325, 156, 232, 227, 332, 327, 117, 104]),
  (30970, [225, 125, 132, 325, 332, 330]),
  (30971, [130]),
  (30977, [425, 225, 125, 227, 230, 252, 327, 130]),
  (30981, [413]),
  (30995, [225, 459]),
  (31006, [459]),
  (31012, [459]),
  (31028, [215, 252, 256, 459]),
  (31034, [252, 225, 152, 256, 325, 454, 156, 125, 227, 320, 315, 104, 332, 327, 215, 120, 220, 330, 129]),
  (31036, [125, 425, 225, 252, 227, 327, 232, 103, 152, 200, 325, 315, 215, 115, 320, 143, 256, 204, 130, 220, 352, 229, 343, 230, 132, 201]),
  (31038, [125, 225, 425, 231, 325, 156, 120, 331, 320, 117, 220, 227, 131, 217, 230, 252, 238, 327, 229, 356, 317, 330, 232, 130, 256, 352, 104, 332, 228, 132]),
  (31040, [252, 413, 227, 325, 327, 125]),
  (31041, [130, 127, 427, 227, 125, 327, 128]),
  (31046, [459]),
  (31048, [152, 454, 426, 327, 227, 132, 104]),
  (31049, [225, 426, 227]),
  (31059, [413]),
  (31062, [125, 225, 227, 127, 325, 427, 327, 426, 229, 156, 252, 128, 120, 315, 230, 215, 320, 115, 330, 129, 130, 256, 328, 228, 332]),
  (31063, [413, 225, 227]),
  (31066, [227, 327, 413, 220, 252, 329]),
  (31067, [152, 454, 125, 315, 132]),
  (31068, [413, 332, 227, 229, 330, 327]),
  (31069, [452, 152, 252, 127, 156, 227, 125, 327, 229, 225, 128, 330, 230, 130, 325]),
  (31070, [125, 225, 425, 100, 325, 120, 315, 252, 227, 320, 132, 115, 127, 130, 215, 327, 200, 152, 232, 220, 332, 162, 330, 131, 362, 156, 230, 104, 229, 352, 329, 331, 201, 129]),
  (31071, [215, 315, 252, 413, 225, 200]),
  (31072, [426, 125, 227, 230, 225, 327]),
  (31074, [413, 125]),
  (31077, [227, 327, 427, 225, 262, 325, 100, 426, 130, 200, 230, 315, 228, 127, 402, 132, 232, 332, 330, 128, 320, 120, 215, 252, 229, 125]),
  (31079, [225, 413]),
  (31080, [225, 125, 425, 252, 325, 222, 256, 422, 220, 215, 320, 227, 152, 330, 331]),
  (31085, [452, 152, 125, 252, 327, 456, 156, 227, 220, 225, 256]),
  (31087, [229, 227, 413, 327, 228]),
  (31095, [252, 454, 152, 125, 156, 325, 327]),
  (31096, [425, 225, 125, 215, 315, 252, 115, 220, 152, 320, 120, 325]),
  (31098, [327, 227, 413])]

/-- hmm/pos/char_state_tab.go:3902-3965 -/
noncomputable def chars60 : List (Nat × List Nat) := [
  (31104, [152, 252, 125]),
  (31105, [252, 152, 207, 452, 125, 325, 256, 215, 225, 156, 320, 315, 227, 327, 204, 130, 332, 352, 120, 317, 117, 132, 217, 343]),
  (31108, [227, 225, 327, 127, 427, 426, 130, 125, 220, 328, 215, 230, 232, 325]),
  (31109, [426, 125, 225, 227, 252, 152, 327, 325, 330, 132, 130]),
  (31114, [413]),
  (31119, [130, 327, 425, 125, 200, 127, 227, 132, 232, 330, 225, 230, 252, 331, 131, 229, 256, 129, 215, 325, 220, 315, 329, 115, 117, 120, 328, 152, 128, 228, 320, 332, 100]),
  (31143, [229, 327, 227, 413, 232, 204, 220, 225]),
  (31155, [400, 327, 227]),
  (31161, [127, 227, 427, 232, 130, 327, 320, 228, 230]),
  (31162, [230, 330, 227, 413, 325, 327, 332]),
  (31163, [152, 452, 252, 225, 125, 325, 256, 315, 215, 156, 100, 130, 227, 115, 332, 200, 207, 327, 104, 220, 320, 120, 304, 132, 117, 317]),
  (31165, [225, 426, 125, 315, 227, 325, 256, 332]),
  (31166, [426, 125, 225, 227, 132, 327, 232, 320, 230, 104]),
  (31168, [200, 227, 402, 327, 125, 100, 215, 225, 232, 325, 130, 252, 162, 330, 315, 127, 262, 115, 328, 230, 129, 228, 120]),
  (31169, [125, 100, 402, 104, 107, 225, 152, 256, 156, 315, 325, 200, 252, 215, 204, 220, 320, 117, 207, 227, 217, 120, 115]),
  (31171, [400, 125, 262, 362, 152, 225, 325, 162]),
  (31174, [426, 225, 125, 204, 325, 227]),
  (31177, [327, 152, 454, 125, 227, 107, 115, 328, 315]),
  (31179, [225, 327, 444, 143, 227, 125, 127, 243, 343, 152, 328, 315, 115, 132, 120, 215, 320, 325, 317, 252, 352, 129, 220, 262, 130, 104, 332, 330]),
  (31181, [238, 222, 225, 125, 435, 422, 252, 152, 135, 235, 204, 320, 325, 127, 256, 220, 200, 215, 120, 217, 322, 115, 243, 227, 315, 332, 130, 352, 330, 117]),
  (31185, [125, 225, 425, 331, 227, 325, 127, 320, 232, 230, 130, 327, 332, 129, 229, 238, 217, 317, 104, 330, 117, 329, 132, 152, 204, 220, 315, 131, 252, 120, 215, 231, 200, 304, 115, 352, 228]),
  (31186, [425, 435, 422, 222, 125, 238, 235, 215, 225, 227, 315, 325, 252, 204, 327]),
  (31189, [225, 125]),
  (31192, [125, 200, 130, 426, 225, 252, 227, 417, 325, 327, 320, 362, 352, 152, 115, 262, 131, 120, 331]),
  (31199, [452, 152, 225, 125, 325, 252, 220, 320, 256, 332]),
  (31203, [225, 413, 315, 227, 115, 327]),
  (31204, [425, 225, 125, 325, 252, 232]),
  (31206, [127, 427, 130, 243, 143, 125, 227, 417, 332, 327, 117, 132, 230, 129, 128, 131, 330, 315, 120, 325, 115, 232, 228, 331]),
  (31207, [125, 425, 252, 325, 225, 452, 256, 352, 327, 227]),
  (31209, [125, 426, 227, 115, 327, 437, 332, 152]),
  (31211, [125]),
  (31213, [130, 413]),
  (31215, [225, 101, 252, 125, 152, 325, 452, 207, 256, 315, 227, 327, 220, 320, 156, 115, 120, 130, 229, 330]),
  (31216, [452, 152, 252, 225, 125, 200, 325, 327, 100, 315, 201, 115, 320, 227, 120, 256, 217, 129, 156, 130]),
  (31224, [225, 125]),
  (31227, [252, 156, 452, 152, 125, 256, 225, 215, 315, 327, 227, 115, 104, 331, 325, 320, 332, 132, 220]),
  (31229, [200, 225, 125, 215, 100, 315]),
  (31232, [100, 400, 125, 152, 200, 162, 207, 120, 320, 362, 215, 104, 130, 227, 115, 132, 225, 156, 327, 352, 315, 220, 252, 232, 426, 325, 332]),
  (31234, [413, 315]),
  (31235, [413, 225]),
  (31243, [225, 125, 325, 425, 127, 220, 204, 227, 252, 435, 222, 207, 152, 232, 331, 327, 320, 104, 304, 315, 332, 215, 256, 128, 217, 352, 228, 230, 115, 422]),
  (31245, [407, 107, 207, 152, 120, 115, 112]),
  (31246, [225, 125, 425, 252, 325, 217, 104, 317, 256, 331, 143, 117, 220, 215, 332, 131, 327, 204, 304, 232, 152, 132, 330]),
  (31252, [454, 200, 227]),
  (31255, [426, 125, 115, 225, 327]),
  (31258, [200, 100, 125, 325, 228, 225, 328, 120]),
  (31262, [225, 325, 227, 125]),
  (31264, [100, 400, 200, 227, 325, 315, 332, 125, 115]),
  (31267, [227, 413, 325]),
  (31283, [100, 200, 400, 125, 452, 107, 152, 252, 101, 120, 325, 362, 115, 104, 227, 162, 215, 262, 315, 132, 300, 327, 220, 304, 320]),
  (31287, [225, 413, 227, 130, 327]),
  (31289, [227]),
  (31291, [225, 125, 426, 320, 327, 331, 132, 252, 325, 227, 332, 352, 130, 217]),
  (31292, [225, 325, 127, 328, 125, 320]),
  (31293, [427, 152, 200, 125, 315, 330, 227, 252, 325, 220, 327, 156, 332, 215, 256, 217]),
  (31295, [225, 426, 125, 252, 325, 232, 217, 256, 220]),
  (31302, [132, 127, 129, 327, 227, 330, 200, 427, 417, 131, 230, 329, 332, 228, 201, 128, 229, 331, 130]),
  (31313, [459, 225, 227]),
  (31319, [425, 225, 125, 227, 120, 132, 327, 252, 325, 232, 229, 417, 343, 330, 152]),
  (31344, [413, 227, 327]),
  (31348, [225, 426, 435, 125, 152, 252, 315, 327, 215, 230, 304, 325, 330, 220, 115]),
  (31350, [256, 325, 107, 252, 331, 207, 454, 407, 225, 220, 315, 342, 200, 320, 152, 317, 227, 304]),
  (31351, [400, 125, 207, 215, 115, 100, 200, 262, 315, 203, 152, 325, 362, 220, 252, 120, 227, 217, 132, 320, 327]),
  (31352, [459, 225])]

/-- hmm/pos/char_state_tab.go:3966-4029 -/
noncomputable def chars61 : List (Nat × List Nat) := [
  (31353, [125, 225]),
  (31354, [125, 225, 400, 325, 142, 242, 152, 256, 252, 100, 227, 331, 127, 104, 162, 315, 320, 107, 452, 215, 115, 120, 352, 262, 207, 220, 217, 317, 200, 156, 231, 117, 232, 132, 204, 131, 103, 130, 327, 332, 362, 330, 229, 329, 328]),
  (31359, [452, 152, 252, 125, 104, 215, 315, 115, 156, 325, 200, 120, 320, 220, 132, 256, 232]),
  (31360, [459, 125]),
  (31361, [101, 156, 100, 152, 125, 256, 407, 115, 130, 225, 315, 132, 252, 325, 107, 227, 232, 327, 215, 217]),
  (31363, [454, 252, 152, 325, 315, 115, 125, 120, 320, 256, 156, 225]),
  (31364, [400, 200, 107, 100, 225, 252, 162, 362, 215, 125]),
  (31366, [413]),
  (31368, [100, 115, 327]),
  (31373, [426, 125, 225, 252, 315, 215, 220]),
  (31377, [425, 125, 225, 227, 232, 230, 252, 330, 332, 325, 130, 256, 426]),
  (31378, [152, 100]),
  (31381, [459, 200, 315, 227]),
  (31382, [225, 425, 152]),
  (31383, [142, 125, 225, 426, 252, 232, 315, 227, 115, 435, 327, 215, 104]),
  (31384, [452, 100, 125, 252, 200, 227, 327]),
  (31388, [452, 252, 215, 152, 320]),
  (31389, [425, 225, 125, 100, 452, 325, 307, 152, 327, 230, 332, 320, 252, 120, 329, 220, 330, 315]),
  (31391, [225, 426, 125, 230, 325, 215]),
  (31392, [425, 125, 315, 225]),
  (31397, [152, 454, 325, 252, 315, 125, 227, 115, 215]),
  (31398, [127, 427, 225, 227, 325, 125, 330, 327, 315]),
  (31400, [452, 325, 125]),
  (31404, [413, 252]),
  (31405, [413]),
  (31411, [413]),
  (31423, [225, 325]),
  (31435, [252, 107, 452, 152, 125, 322, 327, 156, 227, 325, 135, 204, 315, 104, 127, 117, 130, 115, 143, 215, 122, 330, 232, 256, 132, 129, 120, 331, 356, 320, 304, 220, 229, 328, 225, 228, 332, 200, 128, 231, 352]),
  (31446, [452, 152, 125, 207, 315, 425, 320, 327, 215, 130]),
  (31449, [452, 225, 152, 125, 142, 222, 230, 231, 232, 238, 252, 325, 227, 304, 120, 220, 217, 422, 130, 117, 256, 327, 330]),
  (31454, [156, 125, 152, 454, 107, 227, 120, 327, 320, 252, 315, 325, 100, 207]),
  (31455, [207, 407, 107, 152, 130, 227, 252, 327, 315]),
  (31456, [225, 222, 227, 435, 127, 125, 238, 422, 215, 327, 252, 320, 256, 230, 130, 315, 325, 128, 330, 228, 232, 217, 104, 229, 220, 129]),
  (31459, [152, 227, 252, 454, 125, 317]),
  (31461, [225, 127, 125, 427, 143, 425, 227, 325, 327, 220, 320, 331, 232, 315, 330, 215, 332, 115, 120, 132, 229, 217, 343]),
  (31462, [413, 227]),
  (31469, [107, 252, 215, 225, 403, 115, 402, 152, 315, 200, 120, 227, 325]),
  (31471, [225, 452, 212, 125, 152, 222, 227, 143, 100, 362, 327, 207, 262, 204, 215, 130, 217, 320, 220, 252, 162, 132, 242, 325, 200, 127, 315, 352, 129, 229, 112, 422]),
  (31481, [125, 426, 225, 227, 327, 230, 215, 132, 325, 315, 330, 130, 129, 104, 120, 127, 352, 332, 425, 229]),
  (31482, [230, 227, 427, 127, 327, 325, 128]),
  (31485, [413, 315, 225]),
  (31487, [426, 225, 315, 125, 325, 215, 327, 320, 252, 332, 227]),
  (31491, [402, 152, 162, 227, 262, 327, 100, 325, 200]),
  (31492, [413, 252]),
  (31494, [225, 125, 325]),
  (31496, [413, 225, 227, 252]),
  (31498, [125]),
  (31499, [225, 425, 125, 215, 227, 232, 230, 130, 426]),
  (31503, [413, 227, 327, 315]),
  (31505, [452, 252, 125, 256, 227, 220, 162, 152, 200, 315, 225, 215, 320, 327, 115, 120, 325, 127, 352]),
  (31508, [125, 435, 225, 222, 238, 252, 162, 422, 207, 325, 315, 152, 332, 320, 130, 227, 327, 215, 120, 232, 115, 156, 220, 132]),
  (31509, [413, 327]),
  (31513, [425, 227, 125, 225, 327]),
  (31515, [425, 125, 225, 127, 227, 426, 327, 325, 252]),
  (31518, [454, 252, 227, 327]),
  (31520, [225, 227, 215]),
  (31524, [125]),
  (31525, [413, 327]),
  (31526, [152, 125, 225, 452, 252, 325, 127, 227, 232, 327, 315, 130, 156, 454, 220, 320, 427]),
  (31528, [400, 100, 200, 125, 120, 320, 115, 300, 227]),
  (31530, [427, 227]),
  (31531, [413]),
  (31532, [122, 422, 132, 143, 125, 227, 325, 120, 330, 225, 104, 331, 320, 322, 131, 130, 252, 232, 332, 229, 327, 222, 215, 129, 127, 230, 220, 207, 315, 124, 329]),
  (31534, [413, 227])]

/-- hmm/pos/char_state_tab.go:4030-4093 -/
noncomputable def chars62 : List (Nat × List Nat) := [
  (31539, [413, 227, 320, 327]),
  (31544, [125]),
  (31546, [452, 225, 125, 227, 325]),
  (31548, [225, 152, 252, 452, 125, 425, 256, 100, 325, 115, 227, 426, 101, 327, 232, 120]),
  (31550, [413]),
  (31557, [459]),
  (31559, [413, 125, 227]),
  (31561, [445, 152, 145, 245, 204, 125, 252, 200, 222, 238, 325, 320, 422, 207, 104, 225, 224, 155, 156, 115, 162, 220, 304, 130, 120, 327, 215, 356, 331, 256, 332, 315, 229, 352, 132]),
  (31563, [225, 425, 125, 252, 115, 320, 315, 232, 332, 227, 100, 325, 132]),
  (31564, [227, 413]),
  (31567, [225, 426, 125, 325, 130, 327, 227]),
  (31568, [425, 225, 222, 125, 327, 435, 227]),
  (31569, [225, 325, 452, 252, 152, 220, 304, 156, 227, 215, 327, 331, 132, 131, 328]),
  (31570, [225, 435, 426, 125, 325, 104, 304, 320, 332, 227, 232, 330, 152, 130]),
  (31572, [252, 152, 452, 125, 156, 330, 230, 227, 256, 120, 220, 362, 262, 333, 233, 315, 325, 327, 352, 329, 232]),
  (31574, [225, 125, 227, 426, 152, 325, 252, 215, 156, 327, 220, 331, 232, 130, 315, 256, 332, 129, 329, 229]),
  (31576, [413]),
  (31578, [125, 115, 413]),
  (31579, [452, 152, 125, 156, 225, 327, 232, 252, 315, 352]),
  (31581, [225, 425, 325, 227, 215, 327]),
  (31584, [227, 327, 413, 130, 228]),
  (31598, [413, 225]),
  (31601, [327, 413, 227, 127]),
  (31602, [413, 125]),
  (31605, [125, 225]),
  (31607, [125, 225, 426, 325]),
  (31609, [152, 217, 325, 452, 125, 252, 327, 227, 315, 225, 215, 320, 156, 220, 331, 117]),
  (31611, [413]),
  (31614, [152, 452, 325, 252, 125, 225, 156, 220, 227, 256, 327, 332]),
  (31616, [100, 152, 107, 125, 425, 127, 225, 120, 227, 252, 315, 327, 162, 362, 427, 215, 104, 132, 128, 156, 200, 320, 130]),
  (31629, [452, 325, 225, 152, 232, 125]),
  (31632, [413, 227]),
  (31635, [225, 228]),
  (31636, [225, 125, 217, 325]),
  (31637, [413, 225, 125, 315]),
  (31639, [252, 452, 152, 325, 225, 256, 207, 125, 220, 200, 120, 215, 331, 315, 304, 352, 227, 217, 204, 320, 156, 327, 115, 332]),
  (31644, [125]),
  (31645, [125]),
  (31649, [156, 206, 452, 225, 125, 256, 252, 152, 325, 331, 127, 320, 217, 317, 130, 227, 327, 117, 112, 232, 132, 220, 120, 332, 315, 215, 129, 115, 300, 128, 204, 207]),
  (31650, [459]),
  (31654, [413]),
  (31655, [413, 215]),
  (31656, [413]),
  (31657, [426, 125, 225, 227, 327]),
  (31658, [115]),
  (31659, [426, 252, 225, 227, 125, 327]),
  (31660, [125]),
  (31661, [425, 225, 325, 125, 256, 220, 227, 252, 315, 130, 331, 115, 215, 327, 320, 332, 330, 230, 120]),
  (31665, [225, 125, 435, 222, 325, 232, 252, 112, 315, 142, 104, 327, 422, 130, 132, 204, 117]),
  (31668, [125, 228]),
  (31681, [413, 230, 227, 225]),
  (31686, [426, 125, 417, 225]),
  (31687, [222, 435, 320, 422, 325, 225, 204, 125, 315, 238, 252, 227, 215, 220, 322]),
  (31692, [225, 459]),
  (31697, [215, 413]),
  (31699, [225, 125, 435, 426, 222, 325]),
  (31705, [426, 225, 330]),
  (31706, [413]),
  (31709, [125, 115]),
  (31713, [152]),
  (31717, [225, 459]),
  (31718, [225, 125]),
  (31722, [227, 413]),
  (31726, [125, 225, 417, 435, 252, 232, 325, 256, 142, 227, 231, 320, 117, 330, 332, 426, 331, 132, 317])]

/-- hmm/pos/char_state_tab.go:4094-4157 -/
noncomputable def chars63 : List (Nat × List Nat) := [
  (31729, [125, 225, 315, 230]),
  (31735, [225, 425, 325, 204, 125, 227]),
  (31740, [413]),
  (31742, [225, 125]),
  (31751, [152, 426, 435, 235, 135, 162, 215, 227, 322, 222, 252, 225, 132, 125, 262]),
  (31755, [426]),
  (31756, [262, 162, 362]),
  (31759, [413]),
  (31766, [413]),
  (31775, [413]),
  (31782, [413]),
  (31783, [225, 425, 325, 125, 215, 232, 227]),
  (31786, [125, 225, 152, 332]),
  (31792, [130]),
  (31800, [252, 125, 256, 262, 362]),
  (31807, [426, 225, 125, 315, 327]),
  (31808, [413]),
  (31809, [225, 426, 315, 327, 320, 227]),
  (31821, [225, 426, 227, 125, 204, 127, 252, 331, 152, 325, 217, 200, 332, 215, 256]),
  (31859, [222, 435, 422, 235, 225, 127, 125, 330, 325, 327, 229, 227, 129, 130, 332, 329, 315, 132, 256, 252, 320, 230, 335, 232, 220, 331, 131, 115, 104, 215]),
  (31860, [452, 227]),
  (31867, [225, 435, 125, 238, 222, 152, 256, 204, 325, 422, 320, 215, 252, 227, 232, 315, 220, 104, 327, 120, 332, 130, 331]),
  (31868, [125, 325, 225]),
  (31869, [225, 426, 325, 125, 327, 252, 204, 227, 232]),
  (31881, [225, 125, 425, 152, 104, 325, 115, 252, 232, 227, 327, 215, 220, 332, 162, 315, 452, 132, 156, 256, 320]),
  (31889, [413, 225, 227]),
  (31890, [125, 225, 435, 222, 325, 422, 332, 320, 252, 227, 327, 120, 132, 230, 352, 232]),
  (31893, [225, 413, 232]),
  (31895, [400, 100, 125, 101, 152, 115, 207, 107, 215, 262, 225, 220, 104, 120, 200, 227, 320, 315, 162]),
  (31896, [125, 452, 152, 325, 100, 156, 132, 162, 204, 332, 362, 232]),
  (31900, [452]),
  (31901, [413, 225, 227]),
  (31902, [413]),
  (31903, [427, 225, 127, 227, 125, 325, 426, 215, 327, 129]),
  (31906, [413]),
  (31908, [417, 130, 125, 227, 327, 132, 332, 230, 117, 131, 317, 232]),
  (31909, [425, 225, 104, 315, 232, 220, 320, 252, 115]),
  (31914, [425, 125, 225, 325, 215, 252, 327]),
  (31918, [125, 425, 225, 325, 120, 217, 252, 117, 331, 227, 315, 215, 230, 330, 131, 327, 317, 332, 115, 256, 132, 320]),
  (31921, [225, 427, 325, 227, 327, 315, 215, 320, 332]),
  (31922, [100]),
  (31923, [125, 225]),
  (31929, [200, 207, 225, 325, 204, 327, 426, 227, 203]),
  (31932, [162, 262, 320, 220]),
  (31933, [125]),
  (31934, [125, 100, 400, 152, 225, 101, 115, 315, 252, 327, 325, 130, 227, 132, 232, 104, 120, 220, 215, 331, 332, 162, 256, 129, 156, 304, 317, 362, 131, 103]),
  (31937, [413]),
  (31941, [152, 252, 454]),
  (31943, [413]),
  (31944, [413]),
  (31946, [200, 100, 362, 452, 252, 262, 125, 225, 152, 315, 320, 162, 325, 220, 352, 115, 256, 156]),
  (31948, [125]),
  (31949, [125]),
  (31957, [225, 200, 426, 125, 232, 132]),
  (31958, [225, 125, 425, 252, 325, 227, 331, 332, 327, 132, 152, 120, 315]),
  (31959, [413]),
  (31961, [200, 400, 125, 325, 362, 262, 227]),
  (31964, [127, 152, 427, 225, 100, 125, 227, 156, 232]),
  (31967, [452, 100, 152, 215, 400, 362, 262, 125, 225, 115, 325, 132, 156]),
  (31968, [425, 452, 252, 125, 225, 332, 315, 327, 227, 232]),
  (31976, [125, 400]),
  (31983, [426, 125, 204, 402]),
  (31995, [225, 125, 452, 252, 322, 135, 320, 204, 220, 325, 122, 304, 227, 152, 120, 232, 231, 327, 132, 238, 142, 332, 331, 315, 104, 356, 156]),
  (32010, [100, 215, 402, 227])]

/-- hmm/pos/char_state_tab.go:4158-4221 -/
noncomputable def chars64 : List (Nat × List Nat) := [
  (32032, [225, 425, 125, 227, 152, 220, 327, 200, 107, 232, 426, 325, 215, 207, 100, 230, 115, 252, 409, 400, 130, 330, 315, 329, 331, 320, 129, 332, 229, 143, 401]),
  (32034, [252, 127, 225, 227, 152, 107, 327, 427, 125, 256, 230, 130, 330, 417, 454, 325, 215, 200, 132, 229, 129, 426, 262, 315, 320, 220, 362, 329, 332, 162, 222, 115, 156, 131, 217, 232, 331, 343, 120]),
  (32039, [100, 207, 400, 252, 107, 152, 407, 101, 200, 156, 106, 125, 320, 220, 120, 115, 104, 225, 232, 162, 332, 227, 325, 327, 362, 315, 132, 331]),
  (32043, [125, 400, 127, 130, 327, 104, 227, 325, 132, 131, 200, 315, 225, 215, 120, 129, 204, 162, 331, 230]),
  (32047, [152, 252, 400, 452, 200, 220, 330, 162, 156, 262, 320, 103, 315, 227, 125, 325, 107, 256, 225, 215, 362, 100, 120, 201, 130, 331]),
  (32110, [327, 452, 225, 125, 152, 362, 162, 227, 252]),
  (32119, [413]),
  (32166, [130, 127, 427]),
  (32174, [459]),
  (32315, [252, 413, 227]),
  (32321, [152, 100, 200, 125, 425, 315, 115, 227, 327, 454, 130, 220, 120, 156, 325, 129, 132, 320]),
  (32327, [227, 434, 327]),
  (32386, [252, 413, 152, 227, 325]),
  (32411, [413]),
  (32416, [152, 125, 454, 220, 362, 262, 117, 156, 227]),
  (32417, [413, 327, 252, 227, 115]),
  (32418, [125, 400, 127, 225, 325, 227, 252, 327, 262, 132, 204, 130, 331, 220, 100, 320, 152, 162, 131, 117, 315, 232, 120, 362, 332, 104, 115, 215, 228, 317, 330, 304, 300, 156, 229, 230]),
  (32419, [129, 315, 225, 329]),
  (32420, [125, 225, 320, 426, 325, 100, 152, 120, 252, 232, 227, 115, 332, 231, 327, 331, 132]),
  (32421, [232, 459, 227, 327]),
  (32422, [407, 225, 252, 207, 156, 230, 152, 325, 129, 217, 125, 331, 262, 130, 330, 107, 315, 362, 200, 132, 227, 327, 256, 115, 356, 304, 320, 229, 220, 215, 127, 232, 332, 352, 329, 131]),
  (32423, [225, 204, 435, 200, 256, 252, 238, 125, 222, 325, 422, 220, 320, 331, 207, 217, 227, 315, 352, 332, 224, 356, 304]),
  (32424, [125, 115, 120]),
  (32425, [413]),
  (32426, [225, 125, 243, 152, 343, 127, 325, 227, 327, 427, 117, 232, 426, 352, 320, 332, 256, 224, 317, 330, 331, 215, 120, 252, 104, 220, 217, 129]),
  (32427, [325, 413, 225, 252, 327, 332]),
  (32428, [225, 426, 327, 125, 325, 204, 227, 130, 315]),
  (32429, [459, 215, 262, 320]),
  (32431, [400, 200, 100, 125, 227, 152, 107, 104, 252, 327, 325, 315, 132, 232, 256, 115, 328]),
  (32432, [125, 452]),
  (32433, [225, 425, 125, 252, 325, 227, 327, 256, 232, 132]),
  (32434, [425, 125, 227, 225, 325, 252, 327, 315, 228, 115, 320, 204]),
  (32435, [252, 152, 227, 452, 230, 127, 125, 330, 327, 132, 229, 225, 325, 232, 130, 417, 129, 117, 122, 329, 256, 315, 100, 332, 331, 231, 320, 322, 215, 131]),
  (32437, [152, 452, 252, 125, 107, 106, 115, 320, 325, 315, 229, 232, 200, 327, 215, 100, 227, 331, 406, 217, 256, 332, 120, 400, 132]),
  (32438, [225, 227, 459, 232, 215, 327, 115, 125, 325, 315, 220, 332, 200]),
  (32439, [207, 107, 225, 315, 100, 402, 215, 125, 152, 262, 115, 362, 162, 320, 325, 120, 101]),
  (32440, [225, 425, 125, 252, 325, 222, 232, 256, 315, 332, 115, 352, 132, 120, 422, 320, 220]),
  (32441, [225, 426, 325, 125, 227, 327, 115, 204, 232, 330, 332, 315]),
  (32442, [125, 217, 325, 152, 452, 204, 332, 225, 252, 232, 156, 227, 132, 130, 331]),
  (32445, [130, 225, 417, 125, 131, 220, 327, 129, 332, 331, 227, 329, 229]),
  (32446, [413, 227, 152, 315, 327]),
  (32447, [225, 425, 125, 325, 242, 222, 232, 217, 212, 304, 256, 220, 252, 204, 227, 320, 120, 142, 327, 422, 215, 104, 331, 231, 132, 332, 117, 315, 130, 330]),
  (32448, [225, 413, 327, 325]),
  (32449, [413, 225]),
  (32450, [413, 227]),
  (32451, [256, 452, 152, 200, 252, 225, 325, 127, 125, 315, 227, 100, 327, 156, 215, 130, 228, 320, 207, 330, 132]),
  (32452, [152, 256, 125, 225, 435, 120, 331, 222, 325, 320, 252, 422, 317, 425, 238, 104, 327, 135, 235, 217, 328, 227, 117, 231, 156, 322, 332, 122, 204]),
  (32453, [225, 125, 220, 132, 232]),
  (32454, [125, 400, 201, 200, 100, 325, 152, 162, 225, 207, 107, 330, 362, 315, 320, 304, 352, 120, 327, 156, 115, 215, 262, 252, 227, 132, 204, 332, 129, 127, 232, 130, 220]),
  (32455, [252, 225, 325, 231, 125, 452, 152, 204, 220, 232, 331, 332, 217, 227, 320, 156, 315, 130, 352, 327, 104, 304, 330, 356, 256, 129]),
  (32456, [207, 107, 125, 407, 152, 252, 122, 243, 127, 215, 315, 130, 227, 220, 325, 320, 322, 115, 256, 132]),
  (32457, [262, 362, 125, 225]),
  (32458, [452, 225, 152, 125, 362, 262, 252]),
  (32459, [413]),
  (32460, [215, 413]),
  (32461, [252, 130, 227, 327, 427, 325, 230, 330, 132, 125, 129, 127, 315, 225, 328, 131]),
  (32462, [252, 315, 227, 413, 325, 327]),
  (32463, [125, 207, 434, 134, 225, 156, 325, 152, 107, 252, 320, 204, 120, 315, 220, 331, 117, 327, 332, 127, 200, 217, 227, 232, 215, 115, 300, 131, 256, 330, 317, 130, 304, 100, 201, 343, 301, 328, 230, 132, 262, 128, 352]),
  (32464, [413]),
  (32465, [452, 152, 252, 125, 220, 304, 156, 132]),
  (32466, [125, 225, 425, 325, 227, 232, 327, 252, 362, 162]),
  (32467, [125, 152, 252, 452, 156, 200, 225, 325, 100, 315, 320, 120, 362, 162, 352, 227, 127, 327, 256, 332, 115, 317, 220, 217, 117, 215, 331, 330, 356, 229, 130, 132, 262, 232]),
  (32468, [459, 315, 225, 327]),
  (32469, [252, 452, 152, 125, 227, 225, 215, 327, 130, 325, 156, 315, 332, 220, 320, 120, 100])]

/-- hmm/pos/char_state_tab.go:4222-4285 -/
noncomputable def chars65 : List (Nat × List Nat) := [
  (32471, [452]),
  (32472, [125, 252, 452, 152, 225, 256, 115, 315, 227, 325, 327, 156, 332, 331]),
  (32473, [434, 252, 152, 256, 125, 325, 315, 330, 320, 117, 156, 225, 327, 132, 215, 331, 227]),
  (32474, [100, 115, 120]),
  (32475, [404, 125, 227, 327, 230, 130, 330]),
  (32476, [225, 252, 452, 256, 325, 115, 125, 120, 352, 200, 152, 315, 327, 331, 227, 220, 320, 232, 304, 332, 104]),
  (32477, [107, 252, 407, 122, 152, 125, 100, 215, 230, 315, 220, 320, 120, 104, 115, 225, 156, 162, 200, 262, 143, 227, 322, 325, 352]),
  (32478, [452, 125, 325, 152, 115, 220, 435]),
  (32479, [225, 152, 156, 125, 452, 325, 220, 120, 331, 227, 200, 107, 207, 327, 252, 320, 332, 217, 243, 352, 115, 315, 117, 232, 131, 204, 215, 229, 304, 201, 132, 317, 130]),
  (32480, [413]),
  (32481, [413, 225, 227, 327, 232]),
  (32482, [425, 225, 125, 227, 229, 327, 325, 132]),
  (32483, [452, 225, 125, 152, 327, 227, 315, 132, 232, 115, 330, 320, 252, 325, 332, 156]),
  (32485, [130, 417, 152, 217, 327, 227, 129, 330, 229, 230, 125, 132]),
  (32486, [125, 325]),
  (32487, [152, 454, 207, 125, 327, 106, 156, 227, 256, 215, 252, 325, 315, 332, 115, 232, 143, 328, 220]),
  (32488, [413]),
  (32489, [225, 125, 227, 104, 426, 325, 220, 327, 130, 252]),
  (32490, [225, 325, 252, 426, 227, 327, 215, 352, 315, 125, 220, 243, 320]),
  (32491, [152, 125]),
  (32493, [252, 253, 200, 207, 325, 225, 256, 452, 127, 152, 125, 215, 315, 320, 156, 227, 307, 204, 332, 327, 220]),
  (32494, [100, 228, 127, 328]),
  (32495, [125, 162]),
  (32496, [125, 452, 315, 200, 227, 215, 115, 320, 100, 130, 327, 362, 262]),
  (32497, [452]),
  (32498, [452, 227, 125]),
  (32499, [125, 225, 426, 427, 327, 230, 252, 227, 115, 330, 232, 220, 325, 228, 132, 320, 454, 204, 215]),
  (32500, [152, 225, 125, 330, 327, 227, 222, 127, 130, 156, 132, 325, 220, 427, 417, 129, 117, 329, 435, 232, 320, 332, 331, 422, 229, 252, 230, 352, 315, 131, 162, 115, 322, 454, 256, 217, 228, 426, 356]),
  (32501, [400, 125, 262, 152, 130, 225, 162, 200, 320, 100, 325, 227, 327, 362, 315, 220, 252, 115, 120, 101, 328, 228, 332, 131]),
  (32502, [327, 426, 225, 227, 125, 325, 215]),
  (32503, [452, 125, 152, 362, 262, 225]),
  (32504, [225, 125, 426, 320, 315, 325, 152, 327, 227]),
  (32506, [435]),
  (32507, [459, 200]),
  (32508, [156, 125, 117, 426, 325, 120, 315, 152, 106, 227, 262, 131, 454, 327, 132, 331, 217, 332]),
  (32509, [454, 152, 225, 215, 227, 315]),
  (32510, [452, 227]),
  (32511, [125, 400, 325, 327, 252, 227, 156, 262, 330, 127, 225, 204, 362, 129, 132, 162, 120, 315, 200, 115, 215, 152, 320, 328, 130, 332, 131, 220, 352, 104, 232]),
  (32512, [452, 252, 225, 227, 125]),
  (32513, [413]),
  (32514, [459, 125]),
  (32515, [413, 227, 327]),
  (32516, [454, 152, 315, 227, 156]),
  (32517, [130, 452, 152, 131, 417, 125, 132, 229, 329]),
  (32518, [225, 125, 425, 325, 452, 220, 232, 227, 331]),
  (32519, [413, 227, 327]),
  (32520, [200, 215, 459, 262, 362]),
  (32521, [252, 152, 325, 125, 156, 256, 225]),
  (32523, [413]),
  (32524, [413, 227]),
  (32526, [426, 225, 125, 227, 132]),
  (32527, [413]),
  (32529, [413, 127]),
  (32530, [452]),
  (32531, [152, 100, 252, 452, 107, 207, 200, 125, 215, 115, 327, 156, 315, 201, 227, 162, 362, 217, 262, 120, 132, 325]),
  (32532, [152, 125, 252, 320, 156]),
  (32533, [222, 435, 262, 215, 162, 315, 362, 227, 325, 200, 422, 320, 152, 229]),
  (32534, [125, 152, 452, 252, 225, 256, 325, 217, 117, 320, 120, 104, 156, 204, 332, 132, 331, 215, 315]),
  (32535, [435, 227]),
  (32536, [225, 425, 125, 252, 227, 325, 212, 134, 315, 138, 256, 215, 352, 327, 204, 320, 220, 232, 434, 200, 152, 115, 132, 332, 242]),
  (32537, [125, 413, 130, 227, 327, 228]),
  (32538, [454, 252, 256, 125, 215, 325, 315]),
  (32539, [413, 200, 315]),
  (32540, [100])]

/-- hmm/pos/char_state_tab.go:4286-4349 -/
noncomputable def chars66 : List (Nat × List Nat) := [
  (32541, [225, 452, 125, 325, 152, 252, 256, 425, 215, 132, 204, 220, 315, 352, 332, 320, 156]),
  (32543, [413, 125, 227]),
  (32544, [452, 152, 252, 225, 100, 200, 215, 315, 327, 125, 115, 320, 362, 132, 162]),
  (32545, [413, 227]),
  (32546, [252, 413, 125]),
  (32547, [413]),
  (32548, [315, 162, 120]),
  (32549, [100, 315, 162, 362]),
  (32551, [459, 125]),
  (32552, [426, 227, 225, 325, 125, 252, 327, 232]),
  (32553, [252, 152, 452, 256, 125, 325, 217, 220, 156, 315, 320, 115, 352, 227, 304, 232, 332, 225]),
  (32554, [127, 215, 327, 427, 227, 435, 252, 229, 129, 225]),
  (32555, [152, 125, 156]),
  (32556, [413, 227, 327, 125]),
  (32557, [152, 452, 315, 227, 100]),
  (32558, [252, 152]),
  (32559, [413, 227]),
  (32560, [125, 426, 252, 215, 325, 327, 315]),
  (32561, [459, 100]),
  (32562, [452]),
  (32563, [413]),
  (32564, [152, 252, 452, 225, 325, 156, 256, 125, 327, 220]),
  (32565, [413, 227]),
  (32568, [425, 225, 125, 232, 204, 325, 252, 227, 132, 130]),
  (32570, [152, 125, 452, 252, 200, 156, 220, 325, 225, 315, 115, 215, 100, 120, 227, 320, 332, 256]),
  (32578, [125, 327]),
  (32580, [454, 252, 115, 227]),
  (32581, [125]),
  (32592, [125, 225, 435, 325, 222, 142, 104, 320, 220, 232, 204, 252, 327, 422]),
  (32593, [125, 225, 425, 142, 252, 232, 325, 152, 315, 215, 227, 331, 320, 132, 231, 115, 131, 327, 117, 352, 256, 120, 130, 104, 332, 217, 220]),
  (32596, [413, 315, 115, 152, 227]),
  (32597, [100, 401, 329, 252, 227, 229, 402, 230, 315, 232, 327, 330, 200, 325]),
  (32599, [127, 330, 130, 417, 327, 227, 229, 125, 230, 325, 252, 129, 225, 232, 329, 332, 315, 152, 343, 331, 132, 100, 104, 204, 128, 131, 120, 320, 304, 156, 220, 328]),
  (32600, [413, 230, 330]),
  (32602, [256, 452, 252, 152, 225, 125, 325, 315, 320, 117, 215, 156]),
  (32607, [413, 225]),
  (32609, [459, 227, 225, 327, 125, 315]),
  (32610, [452, 152, 160, 260, 252, 315, 227, 352, 115, 332, 156, 125]),
  (32616, [413]),
  (32617, [452, 225, 252, 125, 220, 327, 227, 232, 132]),
  (32618, [425, 125, 252, 256, 225, 325, 115, 215, 232, 220, 300, 320, 315, 120, 327]),
  (32622, [252, 225, 452, 256, 152, 125, 325, 315, 327, 115, 132, 320, 156, 215, 120, 332, 304, 232, 229]),
  (32625, [452, 425]),
  (32626, [252, 225, 426, 152, 231, 125, 117, 327, 220, 227, 325, 238]),
  (32628, [413]),
  (32633, [152, 125]),
  (32638, [413]),
  (32641, [152, 125, 402, 252, 215, 156, 227, 220, 327]),
  (32650, [125, 425, 225, 227, 127, 327, 325, 230, 252, 130, 220, 330, 315, 132, 115, 331, 215, 232, 332, 320, 256, 228, 352, 243, 128, 143, 317]),
  (32652, [427, 417, 130, 132, 330, 227, 229, 225, 125, 217]),
  (32654, [130, 417, 135, 322, 125, 122, 131, 200, 100, 117, 330, 132, 230, 327, 127, 227, 232, 256, 225, 252, 152, 217, 331, 320, 325, 104, 156, 317, 332, 215, 315, 115, 120, 129, 229, 207, 107, 162, 220, 231, 228, 328, 262, 362, 103]),
  (32660, [125, 225, 426, 252, 325, 227]),
  (32666, [125, 225, 325, 132, 152]),
  (32669, [413]),
  (32670, [452, 100, 152, 200, 125, 315, 252, 162, 325, 227, 362, 120, 156, 225, 115, 400]),
  (32671, [125, 132, 325, 332]),
  (32673, [152, 252, 427, 327, 320, 227, 454, 256, 225, 200, 315]),
  (32676, [125, 435, 225, 222, 227, 330, 252, 315, 152, 327, 120, 320, 217, 115, 230, 220, 325, 107, 215, 200, 317, 156, 422, 352, 130, 117, 304, 104, 232, 132, 256, 131, 228]),
  (32679, [125, 459, 325]),
  (32687, [125, 332, 232]),
  (32688, [125, 459]),
  (32690, [227, 327, 413, 328, 225, 228]),
  (32696, [162]),
  (32697, [426, 225, 327, 125, 320, 315, 215, 227, 232])]

/-- hmm/pos/char_state_tab.go:4350-4413 -/
noncomputable def chars67 : List (Nat × List Nat) := [
  (32700, [413]),
  (32701, [227, 125, 427, 435, 225, 127, 327, 152, 417, 130, 204, 315, 426, 222, 331, 115, 252, 229, 129, 228, 325, 422, 120]),
  (32703, [427, 229, 227, 127, 327]),
  (32705, [426, 225, 127, 427, 227, 315, 327, 230, 130, 330, 125, 320, 229]),
  (32709, [426, 125, 325, 327, 252, 225, 315, 227, 229, 332]),
  (32714, [327, 413, 227]),
  (32716, [143]),
  (32718, [426, 125, 227, 327, 225, 325, 232]),
  (32724, [227, 252, 230, 427, 100, 325, 232, 327, 256, 228, 132, 330, 332, 229]),
  (32725, [152]),
  (32728, [452, 152, 227, 225, 125, 115, 327, 325, 320, 120]),
  (32735, [127, 427, 227]),
  (32736, [426, 227, 127, 225, 327, 125, 162, 262, 130, 200, 325, 252, 315, 402, 330, 320, 220, 230, 129, 215]),
  (32737, [125, 130, 327]),
  (32741, [227, 413, 327]),
  (32742, [427, 227, 128]),
  (32745, [227, 127, 320, 115, 315, 220, 215, 162, 402, 120, 252, 152, 325, 125, 327]),
  (32750, [227, 413]),
  (32752, [229, 132, 125, 227, 426, 332, 327, 230, 330, 329, 331, 232, 129]),
  (32753, [152, 156, 327]),
  (32755, [413, 227, 225, 252]),
  (32763, [152, 452, 252, 115, 125, 120, 315, 225, 320, 232, 227, 156, 215, 327, 256, 107, 325]),
  (32764, [225, 426, 215, 315, 227, 125, 327, 130, 325, 242, 330, 217, 232, 104, 204, 332, 252, 207, 230, 212, 320, 228]),
  (32768, [252, 327, 227, 100, 452, 200, 331, 115, 125, 130, 132, 225, 315, 454, 328, 325, 228]),
  (32769, [125, 400, 127, 200, 225, 327, 325, 100, 130, 256, 227, 143, 252, 320, 315, 104, 238, 152, 115, 107, 120, 138, 352, 215, 162, 362, 117, 128, 217, 129, 317, 132, 330, 307, 220, 156, 230, 331, 131, 332]),
  (32771, [152, 156, 252, 452, 125, 325, 220, 256, 227, 327, 225, 230, 129, 330, 332, 217, 127, 143, 130, 315, 320, 100, 117, 331, 317, 329, 229]),
  (32772, [115, 125]),
  (32773, [225, 419, 206, 238, 306, 227, 325, 320, 315, 232, 217, 327, 331, 215, 220, 132, 330, 130]),
  (32774, [230, 426, 125, 227, 330]),
  (32779, [315, 225, 413]),
  (32780, [406, 106, 206, 315, 145, 207, 320, 160, 306, 325, 107, 143, 152, 327, 227, 129, 352, 304, 307, 115, 362, 328, 120]),
  (32781, [452, 252, 152, 120, 225, 200, 320]),
  (32784, [100, 452, 125, 300, 252, 132, 152, 225, 104, 115, 120, 200, 103, 327, 101, 215, 227, 127, 325, 315, 320, 156, 129, 220, 228]),
  (32786, [130, 125]),
  (32789, [125, 152, 452, 156, 227, 252, 325, 315, 320, 327, 256, 225, 132, 304]),
  (32790, [425]),
  (32791, [252, 152, 225, 452, 125, 325, 256, 204, 220, 227, 327, 320, 315]),
  (32792, [252, 454, 227, 325, 327, 125, 228, 225]),
  (32793, [425, 452, 125, 225, 215, 132, 152]),
  (32796, [227, 413, 225]),
  (32800, [452]),
  (32802, [425, 452]),
  (32805, [459]),
  (32806, [156]),
  (32807, [413]),
  (32808, [413]),
  (32809, [413]),
  (32810, [452, 152]),
  (32817, [252, 413]),
  (32819, [125, 425, 330, 225, 227, 325, 142, 152, 315, 200, 207, 115, 327, 215, 235, 156, 220, 332, 252, 100, 320, 331, 120, 132, 229]),
  (32821, [125, 459]),
  (32822, [127, 417, 227, 327, 130, 131, 460, 129, 329, 229, 331, 330, 125, 325, 132, 225, 332]),
  (32823, [152, 227, 320, 262, 362]),
  (32824, [454, 152, 252, 315, 115, 325, 125, 320, 227, 327]),
  (32827, [200, 125, 225, 452, 215, 152, 315, 325, 220, 252, 320, 156, 227, 115, 203]),
  (32829, [152, 427, 227, 100]),
  (32831, [127, 315, 215, 427, 115, 227, 100, 327, 130, 125, 120, 320, 128]),
  (32834, [127, 330, 427, 128, 329, 130, 327, 227]),
  (32835, [413, 227, 327]),
  (32838, [152, 454, 227, 327]),
  (32842, [452, 152, 200, 252, 130, 315, 132, 125, 115, 107, 352, 215, 325, 327]),
  (32843, [452, 125, 256, 215, 315, 252, 317, 227]),
  (32844, [125, 426, 252, 225, 256, 325, 152, 204, 320, 315, 215, 200, 217, 232, 117, 220, 227, 156, 327, 317, 304, 120, 132]),
  (32845, [225, 459])]

/-- hmm/pos/char_state_tab.go:4414-4477 -/
noncomputable def chars68 : List (Nat × List Nat) := [
  (32850, [100, 252]),
  (32852, [152, 125, 230, 454, 317, 325, 131, 331, 256, 225, 252, 217, 117, 330, 120, 156, 232, 132, 130, 227, 327, 231, 320, 332, 107, 315, 220, 104, 352, 100, 304]),
  (32856, [252, 152, 452, 325, 125, 227, 256, 327]),
  (32858, [152, 452, 252, 125, 325, 332, 120, 156, 327, 227, 115, 132, 130, 315, 232, 215, 256, 320, 330]),
  (32873, [200, 215, 413]),
  (32874, [100, 227, 125, 402, 115, 315, 327, 232, 252, 120, 320, 325, 228]),
  (32881, [315, 100, 459]),
  (32895, [328, 327]),
  (32899, [230, 200, 427, 100, 330, 152, 227, 201, 327, 252, 156, 115, 325, 454, 125, 130, 331, 101, 129, 329, 162]),
  (32900, [152, 125]),
  (32902, [207, 422, 152, 200, 115, 107, 225, 426, 252, 215, 320, 156, 327, 227, 315]),
  (32903, [130, 156, 427, 327, 125, 227, 129, 152, 332, 328, 132, 128]),
  (32905, [225, 425, 125, 315, 204, 320, 325, 252, 215, 100, 104, 332, 220, 152, 120, 227, 304, 327, 132, 232, 143, 217, 117]),
  (32907, [425, 125, 225, 320]),
  (32908, [125, 426, 225, 325, 152, 315, 129, 320, 132, 220]),
  (32915, [459, 215, 225]),
  (32918, [127, 125, 427, 204, 327, 227, 215, 225, 220, 315, 454, 330, 130, 129, 128, 230]),
  (32920, [426, 252, 125, 225, 215, 115, 256, 315]),
  (32922, [125, 426, 112, 322, 325, 225, 252, 320, 215, 352, 230, 152, 315, 122, 220]),
  (32923, [125, 225]),
  (32924, [413, 227]),
  (32925, [425, 125, 225, 325, 115, 252, 320, 315, 220, 215, 332, 232, 117, 132]),
  (32927, [413, 232, 325]),
  (32928, [225, 125, 425, 325, 320, 315, 252, 215, 220, 327, 152, 332, 227, 256]),
  (32929, [125, 435, 225, 222, 252, 422, 238, 332, 325, 256, 227, 120, 331, 135, 117, 232, 320, 152, 327, 220, 115, 217, 132, 307, 215]),
  (32930, [225, 426, 125, 325, 252, 152, 204, 315]),
  (32932, [225, 325, 426, 125, 252, 332, 100, 215, 315, 227, 232]),
  (32933, [100, 225, 125, 425, 252, 230, 325, 452, 320, 256, 330, 130, 315, 227, 400, 331, 156, 132, 332, 327, 215, 129, 162, 362, 120, 104, 220, 115]),
  (32937, [125, 425, 142, 225, 152, 207, 252, 320, 120, 220, 315, 327, 215, 325, 227, 232, 115, 204, 452]),
  (32938, [225, 325, 459, 304]),
  (32939, [413, 225]),
  (32941, [459]),
  (32942, [100, 101]),
  (32943, [152, 252, 452, 130, 227, 207, 127, 327, 125, 330, 129, 100, 200, 229, 132, 131, 232, 225, 329, 256, 206, 230, 331, 332]),
  (32945, [225, 125, 325, 220]),
  (32946, [256, 252, 325, 225, 220, 152, 454, 327, 156, 331, 320, 227, 343, 125, 330, 104, 229, 315, 129, 130, 332, 217, 132, 328, 329]),
  (32948, [225, 413, 125, 215, 227]),
  (32951, [413]),
  (32954, [425, 125, 225, 220, 252, 115, 215, 315, 325, 320]),
  (32956, [413, 225, 232]),
  (32957, [426, 225, 232, 125, 325]),
  (32958, [125, 425, 252, 120, 225, 152, 132, 325, 104]),
  (32959, [125, 225, 452, 252, 152, 320, 200, 220, 325, 315, 156, 215, 331]),
  (32960, [217, 220, 252, 400, 325, 317, 320, 225, 152, 215, 332, 162, 256, 362, 200]),
  (32961, [256, 426, 152, 252, 454, 225, 325, 125, 315, 327, 115]),
  (32962, [413]),
  (32963, [425, 125, 225, 252, 200, 120, 227, 132, 325, 320, 352]),
  (32964, [413, 225, 227, 228, 327]),
  (32966, [125, 201, 425, 100, 225, 215, 115, 315, 152, 252, 227, 320, 207, 325, 327, 120, 132, 162, 317]),
  (32972, [452, 125, 152, 112, 225, 252, 115, 107, 315, 227, 325, 215, 220, 156, 327, 100, 142, 230, 204, 200, 132, 320, 332, 120, 352]),
  (32973, [413]),
  (32974, [225, 125, 435, 252, 325, 104, 222, 256, 220, 315, 231, 227, 232, 422, 115, 132, 356, 215]),
  (32982, [125, 400, 200, 162, 325, 362, 262, 327, 252, 227, 315, 100, 225, 215, 304]),
  (32983, [413, 227]),
  (32985, [413]),
  (32986, [125, 325, 225, 320]),
  (32987, [225, 325]),
  (32988, [156, 252, 452, 325, 125, 227, 225, 152, 315, 327, 215, 320, 230, 232, 330, 120, 220, 204, 131, 115, 132, 332, 130, 328, 217, 228, 200, 329, 127, 229, 256, 143]),
  (32989, [225, 459, 315]),
  (32990, [225, 325, 204, 220, 125, 331, 330]),
  (32993, [127, 125, 427, 152, 227, 115, 107, 225, 128, 327, 325, 407, 320, 132, 330, 120, 130, 352, 315, 100, 362, 156, 129, 162, 329, 229, 426, 142]),
  (32996, [413, 227, 327]),
  (32997, [127, 227, 427, 327, 130, 125]),
  (32999, [200, 459, 362, 262, 227, 325])]

/-- hmm/pos/char_state_tab.go:4478-4541 -/
noncomputable def chars69 : List (Nat × List Nat) := [
  (33000, [413]),
  (33001, [413]),
  (33002, [413]),
  (33003, [426, 315, 125]),
  (33004, [459, 125]),
  (33005, [125]),
  (33007, [426, 125, 327]),
  (33008, [125, 426, 120, 325, 217]),
  (33009, [225, 459, 325, 327, 125, 132]),
  (33011, [125, 120, 152]),
  (33012, [125]),
  (33014, [225, 425, 125, 130, 152, 325, 104, 132, 256, 232, 315, 120, 156, 452, 220, 332, 115, 204, 320]),
  (33016, [125, 426, 142, 225, 115, 325, 252, 315, 215, 220, 156, 207, 425, 117, 327, 120, 320]),
  (33018, [225, 425, 232, 325, 132, 332, 227, 327]),
  (33020, [125, 115]),
  (33021, [252, 452, 125, 225, 152, 325, 217, 327, 204, 207, 307, 315, 320, 200, 127, 227, 256, 232, 352, 332, 215, 115, 331, 100, 220, 304, 120, 356, 230, 231, 132, 129, 229, 130]),
  (33026, [125, 225, 325, 230, 220, 315, 330, 232, 252, 130, 104]),
  (33030, [207, 100, 400, 200, 125, 225, 315, 320, 162, 232, 262, 362, 132]),
  (33033, [225, 426, 230, 125, 435, 320, 325, 227, 215, 220, 252, 315, 327, 232, 262, 162, 120, 332]),
  (33034, [125, 426, 120, 225, 325, 227, 327, 330, 117, 315]),
  (33037, [115, 426, 454, 120]),
  (33038, [413]),
  (33039, [225, 400, 125, 325, 200, 315, 162, 100, 332, 320, 201, 120, 227, 331]),
  (33040, [426, 125, 225, 325, 315]),
  (33041, [125, 225, 425, 320, 215, 325, 220, 315, 352, 120, 231, 232, 252, 152, 262, 115, 207, 332, 200, 331, 132]),
  (33042, [413, 225, 232]),
  (33043, [125, 425, 325, 252]),
  (33044, [413, 225, 215]),
  (33046, [125, 426, 225, 352, 325, 320, 227]),
  (33048, [413, 225]),
  (33050, [425, 125, 225, 112, 252, 224, 215, 325, 315, 230, 152, 220, 312, 115, 262, 342, 200, 227, 320, 207, 327, 104, 204, 307]),
  (33054, [413]),
  (33065, [225]),
  (33068, [459]),
  (33071, [225, 413, 325, 125, 227]),
  (33073, [152, 252, 452, 115, 125, 156, 200, 330, 227, 315, 229, 127, 327, 362, 262, 120, 235, 220, 325, 332, 132, 256, 352, 331, 320, 232]),
  (33074, [413, 225, 132, 325, 232]),
  (33080, [425, 142, 125, 225, 207, 222, 252, 152, 215, 220, 200, 201, 227, 120, 320, 325, 327, 315, 300, 256, 115, 100]),
  (33086, [125, 425, 352, 225, 325, 215, 227, 320]),
  (33094, [200, 452]),
  (33096, [225, 125, 325]),
  (33098, [230, 325, 426, 143, 332, 125, 227, 327, 330, 225, 331, 320, 315, 124, 232, 229, 252, 329]),
  (33099, [426, 142, 125, 225, 315, 215]),
  (33100, [452, 152, 125, 132]),
  (33104, [103, 225, 152, 400, 125, 100, 325, 252, 200, 332, 320, 232, 104, 352, 315, 256, 220, 454, 132, 330, 227, 215]),
  (33105, [225, 413, 215, 315, 220]),
  (33107, [129, 132, 130, 125, 230]),
  (33108, [225, 435, 252, 222, 125, 204, 325, 315, 120, 320, 327, 426, 220]),
  (33109, [225, 426, 125, 142, 325, 252, 132, 220, 320, 227, 352]),
  (33113, [413]),
  (33120, [125, 426]),
  (33125, [400, 200, 125, 100, 325, 225, 315, 115, 332]),
  (33127, [125, 413]),
  (33129, [459, 225, 227]),
  (33133, [225, 125, 317]),
  (33134, [425, 125, 320, 215, 327, 225, 325, 204]),
  (33136, [425, 125, 252, 225, 207, 152, 325, 220, 352, 120, 115, 204, 320, 130, 215, 329, 132, 232]),
  (33137, [225, 125]),
  (33140, [200, 225, 402, 413]),
  (33145, [125, 426, 225, 152, 142, 315, 252, 325, 215, 115, 227, 352, 316, 320, 156, 332]),
  (33146, [225, 125, 325, 320, 220]),
  (33147, [200, 452, 225, 152, 362, 262, 100, 320, 162, 125]),
  (33148, [100]),
  (33150, [252, 452, 152, 227, 215, 225, 315, 327, 362, 262, 130, 330, 115, 120, 127, 256, 132, 325, 220, 320, 125, 232])]

/-- hmm/pos/char_state_tab.go:4542-4605 -/
noncomputable def chars70 : List (Nat × List Nat) := [
  (33151, [425, 225, 125, 252, 325, 207, 232, 220, 327, 320, 227, 332, 352, 100, 217]),
  (33152, [225, 125, 452, 320, 120, 232, 220]),
  (33154, [125]),
  (33160, [225, 325]),
  (33162, [225, 413, 325, 252, 320, 315, 220]),
  (33167, [225, 452, 125, 325, 232, 315, 215, 220, 115, 320, 332]),
  (33169, [227, 413]),
  (33176, [426, 115, 252, 125]),
  (33179, [225, 426, 327, 252, 125, 325]),
  (33180, [225, 425, 325, 232, 125, 152, 315, 252, 132]),
  (33181, [426, 125, 252, 225, 215, 227, 315, 320, 220]),
  (33187, [413]),
  (33190, [225, 413]),
  (33192, [320, 152, 325, 125, 120, 132, 100]),
  (33203, [426, 125, 252, 229, 225, 232]),
  (33210, [454, 252, 227, 215, 327]),
  (33211, [400, 200, 125, 215]),
  (33216, [125, 426, 227]),
  (33217, [413, 327]),
  (33218, [225, 425, 125, 315, 325, 215, 426, 252, 327, 227, 220, 204, 320, 332]),
  (33219, [100, 402]),
  (33222, [152, 225, 215, 426, 320, 156, 125, 227]),
  (33226, [400, 200, 125, 225, 252]),
  (33228, [125, 413]),
  (33251, [225, 425, 227, 125, 327, 215, 152, 252, 230, 315, 330, 229, 220, 426, 232]),
  (33255, [127, 427, 152, 128, 227, 125, 315]),
  (33258, [138, 434, 107, 152, 125, 100, 252, 207, 328, 120, 238, 156, 330, 315, 134, 115, 327, 325, 320, 332, 129, 227, 331, 104, 304, 130, 132, 307, 103, 131, 352, 162, 117, 230, 217, 232, 234, 300, 153]),
  (33260, [427, 225, 215]),
  (33261, [400, 125, 225, 152, 200, 252, 115, 315, 162, 227, 325, 100, 215, 262, 232, 327, 320, 120]),
  (33267, [434, 207, 252, 107, 134, 206, 307, 152, 120, 306, 327, 230, 227, 315, 320, 132, 243, 215, 234, 115, 125, 212, 220, 325, 262, 225, 330, 228, 332]),
  (33268, [252, 200, 152, 452, 207, 206, 225, 125, 315, 100, 215, 156, 325, 320, 327, 132, 227, 131, 352, 220, 203, 232, 331, 362, 328, 329, 262]),
  (33275, [427, 228, 454, 227, 315, 252, 320, 327]),
  (33276, [426, 125, 230, 225, 325, 252, 227, 215, 330]),
  (33278, [243, 320, 459, 230, 315, 227]),
  (33280, [452, 227, 125]),
  (33282, [452, 327, 227]),
  (33284, [413]),
  (33285, [225, 125, 425, 325, 227, 426, 215]),
  (33286, [125, 225, 115, 330, 230, 320]),
  (33292, [425, 125, 225, 215, 252, 325, 330, 220, 320, 352, 200, 152, 315, 227, 115, 120, 204, 156]),
  (33293, [225, 452, 152, 125, 215, 252, 327, 107, 325, 227, 229, 115, 129, 142, 256, 230, 330, 132, 329, 315, 220, 320, 127, 352, 130]),
  (33296, [454, 115]),
  (33298, [100, 127, 227, 125, 427, 152, 156, 327, 454, 162, 362, 129, 120, 200, 130, 132, 332, 225, 325, 402, 229, 128]),
  (33300, [452, 152]),
  (33307, [220, 125]),
  (33308, [413, 227, 327, 225, 331, 125, 232]),
  (33310, [125, 452, 252, 225, 325, 152, 315, 215, 227, 156, 220, 331, 130, 327, 320, 117, 115, 256, 131, 143, 120]),
  (33311, [425, 225, 130, 215, 227, 125, 232, 252, 315, 327, 120, 129, 330, 325, 228]),
  (33313, [413]),
  (33314, [125]),
  (33315, [413]),
  (33320, [459]),
  (33322, [125, 217, 252, 152, 426, 325, 225, 331, 227, 427, 156, 256, 117, 332, 131, 231, 232, 327, 132, 317, 330, 454, 130, 135, 228]),
  (33323, [225, 413, 227, 327]),
  (33324, [200, 145, 445, 238, 320, 207, 220, 125, 325, 315, 245, 215, 100, 352, 162, 262, 327, 225, 132, 227, 130, 204]),
  (33325, [459]),
  (33328, [225, 125, 426, 104, 331, 227, 332, 327, 231]),
  (33329, [225, 425, 125, 142, 252, 227, 330]),
  (33331, [459, 125]),
  (33332, [459, 125]),
  (33333, [425, 252, 125, 225, 215, 325, 327, 227]),
  (33334, [225, 426, 325, 227, 331, 125]),
  (33335, [426, 225, 125, 142, 132, 227]),
  (33336, [413, 227, 315, 327])]

/-- hmm/pos/char_state_tab.go:4606-4669 -/
noncomputable def chars71 : List (Nat × List Nat) := [
  (33337, [425, 125, 225, 142, 252, 256, 325, 217, 315, 232, 156, 220, 104, 227, 331, 130, 117, 129, 332, 327, 215, 320, 224, 120]),
  (33339, [413, 225]),
  (33342, [125]),
  (33348, [125]),
  (33351, [225, 425, 125, 227, 426, 331, 325]),
  (33353, [413]),
  (33355, [459, 225]),
  (33359, [413]),
  (33368, [422, 222, 435, 135]),
  (33370, [413]),
  (33375, [225, 459]),
  (33384, [459, 125]),
  (33390, [413, 332, 225, 227, 327]),
  (33391, [100, 200, 125, 227, 327, 262, 252, 400, 104, 407, 122, 225, 325, 427, 320, 130, 115, 315, 230, 120, 232, 162, 215, 256, 330, 129, 229, 332, 220, 328, 329, 331, 426, 322, 228, 132, 143, 152, 127]),
  (33392, [100, 115, 220, 402, 120, 225, 125, 315, 215, 262, 320, 227]),
  (33394, [225, 125, 426, 325, 204, 252, 215, 200, 330, 220, 315, 227, 320, 238, 224, 327, 130, 230, 256, 115, 332, 331, 129, 352, 104, 207, 132, 232, 152, 262]),
  (33395, [200, 400, 227, 100, 327, 125, 262, 152, 362, 315, 220, 320, 120, 215, 252, 228, 156, 325]),
  (33396, [413]),
  (33402, [125, 225, 325, 320, 426, 227, 252, 327, 331, 215, 220, 232, 132, 332, 330, 217, 120, 152, 231, 117, 315, 328, 115, 304, 317, 229, 228]),
  (33405, [427, 227, 327, 225, 459]),
  (33406, [127, 125, 427, 227, 327, 129, 330, 215, 130, 225, 315, 128, 132]),
  (33407, [459, 227, 225]),
  (33410, [225, 125, 152, 425, 256, 243, 143, 325, 252, 222, 422, 156, 227, 320, 100, 215, 230, 220, 120, 115, 217, 304, 315, 330, 327, 104, 204, 232, 332, 117, 130, 231, 228, 132, 362, 262]),
  (33416, [433]),
  (33418, [459, 227, 327]),
  (33419, [225, 125]),
  (33421, [125, 225, 132, 130]),
  (33422, [459, 225, 227]),
  (33423, [459, 327, 227]),
  (33425, [413, 227]),
  (33426, [225, 426, 125, 227, 315, 327, 130, 143, 215, 332, 129, 115, 330, 325, 220, 230, 252, 127, 229]),
  (33431, [125, 130]),
  (33432, [225, 459]),
  (33433, [125, 129, 130, 327, 325, 229, 315, 232, 332, 329, 115]),
  (33436, [130, 200, 230, 228, 100, 330, 125, 225, 332, 331, 325]),
  (33437, [125, 130, 131, 229, 225, 331, 325, 232, 330, 332, 227, 315, 228, 132]),
  (33439, [152]),
  (33441, [125, 252]),
  (33444, [125]),
  (33445, [125, 435, 225, 129, 227, 320, 327]),
  (33446, [125, 225, 127, 427, 330, 325, 130, 220, 227, 327, 332, 215, 315, 132, 320]),
  (33448, [125, 325, 225]),
  (33449, [427, 225, 227, 327]),
  (33450, [225, 459, 227]),
  (33451, [125]),
  (33452, [227, 130, 417, 125, 327, 129, 325, 330, 132, 229, 131, 230, 200, 232, 225]),
  (33453, [125, 331, 129]),
  (33454, [127, 427, 227, 130, 327]),
  (33455, [426, 125, 225, 435, 227, 325, 327, 222, 232, 332]),
  (33456, [413]),
  (33457, [225, 125, 452, 325, 127, 152, 315, 330, 252, 320, 227, 130, 215, 115, 162, 327, 131, 362, 232, 262, 230, 204, 132, 143, 120, 332, 331, 128, 256, 200, 104, 100, 129, 117, 220, 329, 228]),
  (33459, [227, 125, 327, 427, 225, 426, 252, 315, 402, 132, 228, 130, 232, 215, 332, 220, 320, 129, 331, 162]),
  (33460, [413, 125]),
  (33463, [459, 225, 130, 227, 327, 127]),
  (33464, [125, 115, 315, 327, 227, 262, 162, 228, 328]),
  (33465, [227, 125, 427, 327, 426, 225]),
  (33469, [252, 425, 225, 125, 227, 325, 327, 256, 320, 332, 129]),
  (33470, [459, 227]),
  (33473, [459, 325, 125, 227]),
  (33476, [459, 232, 227, 332, 132, 325]),
  (33479, [225, 125, 426, 325, 227, 327, 130, 128]),
  (33480, [459, 327, 325, 227]),
  (33482, [413]),
  (33483, [225, 125])]

/-- hmm/pos/char_state_tab.go:4670-4733 -/
noncomputable def chars72 : List (Nat × List Nat) := [
  (33484, [427, 227, 327]),
  (33485, [100, 125, 127, 162, 130, 427, 262, 315, 225, 362, 129, 215, 227, 325, 426, 320, 327, 120, 230, 229, 115, 103, 200]),
  (33486, [125]),
  (33487, [130, 252, 127, 230, 417, 330, 125, 117, 131, 227, 327, 132, 152, 331, 325, 225, 129, 229, 128, 332, 329, 200, 362, 262]),
  (33489, [426, 427, 227, 225, 230, 127, 327, 125, 330, 232, 229, 325]),
  (33490, [215, 459, 252, 220, 227]),
  (33491, [225, 227, 459, 325, 125, 327]),
  (33492, [426, 125, 225, 227, 120, 327, 325, 130]),
  (33493, [225, 125]),
  (33495, [225, 425, 125, 127, 132, 252, 330, 227, 100, 327, 130, 329, 325, 315, 256, 128, 115, 232, 328]),
  (33496, [125, 413]),
  (33499, [100, 152, 125, 200, 115, 120, 156]),
  (33500, [125, 320, 130]),
  (33502, [426, 125, 227, 225, 315, 320, 252, 325]),
  (33503, [152, 407, 115, 215, 315, 127, 320, 227, 406, 427, 125, 327]),
  (33504, [227]),
  (33505, [413, 225, 227]),
  (33507, [459, 225, 327, 125]),
  (33508, [125]),
  (33509, [406, 122, 206, 327, 315, 127, 227, 115, 106, 138, 225, 129, 252, 215, 152, 125, 130, 320, 262, 352, 330, 232, 207, 322, 228, 120, 452, 220]),
  (33510, [400, 203, 125, 252, 200, 152, 100, 207, 315, 107, 225, 215, 115, 201, 262, 362, 320, 220, 325, 327, 120, 256, 130, 352, 330, 101, 232]),
  (33515, [452, 125, 225]),
  (33519, [425, 125, 225, 325, 332, 132, 232, 131]),
  (33521, [130, 417, 125, 227, 132, 327, 131, 225, 100, 117, 127, 135, 122, 322, 325, 232, 229, 129, 330, 115, 317, 120, 335, 315, 104, 228, 332, 320, 328, 230, 101, 204, 329, 128, 331]),
  (33527, [459, 325, 225, 232, 332]),
  (33529, [125, 130, 131, 320, 132, 332, 331, 327]),
  (33531, [427, 327]),
  (33537, [100, 120, 101]),
  (33538, [227, 100, 400, 327, 200, 130, 215, 129, 325, 220, 232, 329, 252, 127, 332, 330, 320, 125, 262, 132]),
  (33539, [125, 252, 127, 225, 325, 256, 427, 227, 331, 356, 128, 327, 130, 220, 426, 304, 231, 330, 320, 132, 129]),
  (33540, [225, 125, 325, 332, 132]),
  (33541, [125, 127, 427, 225, 215, 130, 227, 132, 325, 315, 330, 230, 327, 115, 332, 329, 128]),
  (33542, [427, 230]),
  (33543, [413]),
  (33545, [125, 325, 225]),
  (33548, [427, 130]),
  (33550, [425, 225, 227, 125, 327, 320]),
  (33551, [459, 262, 327]),
  (33553, [413]),
  (33556, [225, 426]),
  (33557, [413]),
  (33559, [426, 252, 327, 227, 225]),
  (33562, [413, 132]),
  (33563, [225, 459]),
  (33564, [427, 125, 227, 327, 229]),
  (33575, [426, 225, 125, 227, 315, 325, 220, 327]),
  (33576, [229, 330, 230, 332, 227, 327, 329, 130, 129, 132, 232, 325, 331]),
  (33579, [262, 100, 162, 402, 200, 362, 120, 101, 220, 152, 215, 315, 320, 227, 115, 203]),
  (33580, [435, 222, 225, 252, 125, 325, 426, 352]),
  (33581, [125]),
  (33583, [125, 325]),
  (33585, [325, 125]),
  (33587, [327]),
  (33588, [125, 325]),
  (33589, [230, 330, 227, 426, 327, 125, 262, 215, 162, 362, 225, 325, 229]),
  (33590, [425, 125, 225, 252, 227, 327, 130, 325, 132, 232, 115, 315, 117, 120, 256, 230, 220, 330, 332, 331, 320]),
  (33592, [225, 262, 362, 125, 162, 327, 227]),
  (33593, [127, 227, 427, 315, 327, 115, 129, 225, 330, 230]),
  (33594, [459]),
  (33596, [125]),
  (33600, [127, 427, 227, 327, 128]),
  (33603, [227, 413, 327, 130]),
  (33606, [130, 127, 417, 330, 125, 427, 225, 327, 227, 315, 252, 325, 129, 115]),
  (33607, [459, 327])]

/-- hmm/pos/char_state_tab.go:4734-4797 -/
noncomputable def chars73 : List (Nat × List Nat) := [
  (33609, [125, 225, 425, 252, 325, 104, 227, 315, 120, 152, 327, 330, 232, 207, 107, 100, 156, 320, 115, 220, 129, 215, 229, 200, 332, 132, 204, 331, 130, 256, 101, 230, 117, 317, 127]),
  (33615, [315, 215, 152, 100, 320, 413, 227]),
  (33616, [252, 454, 256, 325, 152, 227, 215, 225, 327, 125, 332]),
  (33617, [413, 227, 327]),
  (33618, [125, 100, 452, 252, 225, 426, 315, 152, 115, 230, 215, 325, 120, 327, 130, 242, 320, 156, 220, 129, 217, 227, 330]),
  (33620, [125, 229, 130, 325, 129, 225, 330, 228, 232, 132]),
  (33626, [427, 125, 225, 252, 327]),
  (33627, [225, 413]),
  (33628, [459, 225, 315]),
  (33630, [125, 225, 132]),
  (33631, [152, 225, 315, 332, 327, 130]),
  (33632, [225, 125, 132, 332]),
  (33633, [252, 256, 452, 203, 315, 152, 200, 362, 262, 215, 352, 115, 225, 325, 330, 320, 227, 220, 230, 327, 125, 120, 162, 332]),
  (33635, [252, 227, 127, 125, 402, 327, 200, 152, 100, 225, 325, 115, 427, 215, 315, 132, 328, 130, 220, 320, 230, 330, 228, 229, 232, 128, 120, 331, 129]),
  (33636, [426, 125, 252, 225, 132]),
  (33637, [130, 413, 327, 227]),
  (33638, [227, 413, 327]),
  (33639, [125, 262, 162, 100, 327, 227]),
  (33640, [125]),
  (33641, [413]),
  (33642, [413, 227, 232]),
  (33643, [400, 225, 327, 227, 252, 426, 152, 100, 125, 454, 315, 325, 215, 220, 229, 330, 320, 328]),
  (33644, [459, 325]),
  (33647, [225, 125, 425, 252, 325, 104, 327, 232, 217, 332, 231, 331, 215, 131, 227, 220, 117, 238, 256, 320, 132, 115, 130, 315, 120, 330, 152]),
  (33655, [225, 130, 426, 125, 227, 129, 417, 327, 207, 131, 330, 332, 325, 132, 115, 204, 217, 127, 320, 220]),
  (33656, [125]),
  (33659, [425, 327, 427, 227, 127]),
  (33660, [215, 152, 325]),
  (33661, [225, 459]),
  (33669, [454, 152]),
  (33670, [130, 125]),
  (33673, [227, 459, 325, 225, 327, 129, 229, 329]),
  (33678, [127, 327, 130, 229, 125, 230, 329, 232, 225, 227, 330, 331, 332, 129]),
  (33682, [413, 130, 129, 327]),
  (33683, [225, 413, 327, 227, 332]),
  (33688, [427, 127, 227, 125, 325, 130, 327]),
  (33691, [413]),
  (33692, [125]),
  (33694, [230, 330, 417, 120, 327, 227, 152, 331]),
  (33696, [315, 262, 402, 215, 413, 125, 227]),
  (33704, [125, 459, 325, 327, 225, 315]),
  (33705, [459, 327]),
  (33706, [459, 230, 125, 330, 227]),
  (33707, [407, 127, 130, 107, 152, 115, 315, 327, 129, 207, 120, 227, 104, 131, 320, 329, 125, 229, 106, 132, 330, 332, 325, 128, 230, 232, 100, 331]),
  (33712, [413]),
  (33713, [327, 130, 435, 227, 129, 330, 230, 229, 332, 329, 127, 125, 132, 331, 131, 225, 232, 320]),
  (33714, [327, 125, 426, 227, 225, 325, 130, 129, 230, 131, 132, 330, 332, 232, 328, 228]),
  (33715, [459, 327, 125, 115, 227]),
  (33716, [125]),
  (33718, [459, 227, 225]),
  (33719, [152, 452, 252, 125, 156, 215, 315, 325, 227, 130, 120, 225, 332, 129, 327]),
  (33720, [413]),
  (33721, [200, 227, 427, 327, 315, 362, 262, 100, 127, 132]),
  (33722, [426, 225, 227, 327, 115, 325, 232, 315]),
  (33724, [125]),
  (33725, [227, 232, 427, 200, 228, 100, 225, 327, 162, 325, 262, 125, 362, 402, 130]),
  (33728, [459, 225, 227, 327]),
  (33729, [427, 227, 225, 232, 327, 125, 132]),
  (33733, [315, 427, 127, 426]),
  (33735, [225, 426, 325, 332, 125, 227, 252]),
  (33738, [426, 125, 227, 327, 225, 325, 332, 130, 228, 129, 215, 232]),
  (33740, [225, 425, 252, 125, 325, 220, 227, 320, 332, 304, 232]),
  (33743, [417, 130, 227]),
  (33748, [459, 332, 225, 227])]

/-- hmm/pos/char_state_tab.go:4798-4861 -/
noncomputable def chars74 : List (Nat × List Nat) := [
  (33750, [125, 325]),
  (33752, [413, 327]),
  (33756, [225, 425, 125, 325, 252, 327, 130, 227, 332, 220, 232, 215, 330, 132, 320, 352, 200]),
  (33757, [459, 125]),
  (33759, [125, 225]),
  (33760, [125, 325]),
  (33761, [227, 459, 125, 327]),
  (33765, [459, 327, 227]),
  (33769, [125, 120, 325, 130, 320]),
  (33770, [459, 225, 325, 315]),
  (33776, [413]),
  (33777, [227, 426, 232, 125, 332, 327, 132, 331, 130, 231, 230]),
  (33778, [327, 130, 417, 227, 129, 132, 329, 229, 200, 330, 125, 225, 152, 131, 332, 127, 230, 232, 315, 331, 325, 228]),
  (33785, [413, 227]),
  (33789, [426, 227, 130, 327, 125]),
  (33793, [413, 227, 225]),
  (33795, [152, 252, 215, 426, 454, 227, 225, 327]),
  (33796, [325, 225, 330, 332, 459, 331, 227, 252, 125]),
  (33798, [459]),
  (33803, [459]),
  (33804, [152, 227, 452, 427, 327, 130, 215, 132, 156]),
  (33805, [227, 427, 130, 327, 225, 125, 115]),
  (33806, [152, 100, 252, 125, 115, 452, 325]),
  (33807, [459, 225]),
  (33809, [413, 327]),
  (33816, [413, 125, 227, 332, 132, 232]),
  (33820, [413, 125, 225, 325]),
  (33821, [325, 125, 225, 227, 320, 120, 129, 327, 329]),
  (33828, [125, 225]),
  (33829, [256, 125, 425, 156, 225, 325, 204, 252, 152, 227, 230, 130, 327, 220, 215, 142, 315, 304, 120, 352, 330, 104, 229, 320, 132, 115, 143, 452, 331, 129]),
  (33830, [152, 327, 454, 220, 227]),
  (33831, [127, 427, 100, 162, 130, 327, 262, 227, 128, 125, 315, 115]),
  (33832, [127, 225, 330, 227, 230, 327, 427, 130, 325, 417, 129, 125, 332, 229, 329, 132, 320, 331, 117, 128, 232]),
  (33841, [125, 225]),
  (33848, [225, 459, 227, 327]),
  (33852, [125, 225, 325]),
  (33853, [252, 152, 452, 225, 100, 125, 215, 315, 325, 200, 220, 256, 320, 115, 262, 362, 120, 156, 130, 327, 227, 352, 342, 104, 230, 132, 330]),
  (33862, [327, 454, 330, 227, 252, 320]),
  (33873, [413, 327, 227]),
  (33878, [225]),
  (33879, [100, 452, 125, 200, 225, 152, 252, 227, 115, 325, 215, 327, 232]),
  (33881, [459]),
  (33882, [225, 227]),
  (33883, [327, 127, 130, 427, 225, 227, 125, 230, 131, 330, 332, 320, 128, 132]),
  (33884, [459, 225]),
  (33889, [125, 130, 417, 132, 325, 131, 117, 352, 327, 225]),
  (33891, [125, 127, 427, 225, 327, 227, 128, 325, 132, 130, 330, 332, 317]),
  (33897, [225, 426, 227]),
  (33899, [125, 325, 130, 320, 315, 132, 427, 332]),
  (33900, [252, 454, 225, 325, 125, 152, 315, 115, 256, 330]),
  (33901, [413, 327]),
  (33905, [425, 204, 225, 125, 162, 215, 315, 227, 327, 220, 262, 325, 320, 362, 232]),
  (33907, [100, 225, 325, 459, 227]),
  (33909, [225, 125, 129, 327, 130, 332]),
  (33910, [459, 125, 227]),
  (33912, [252, 413]),
  (33914, [252, 320, 413, 227]),
  (33922, [327, 227, 413, 330, 229, 315, 129, 225, 329, 130, 300, 332, 252, 215, 230, 325, 220, 125, 331]),
  (33927, [413]),
  (33928, [413]),
  (33929, [427]),
  (33931, [127, 417, 227, 427, 327, 128, 125, 120, 130]),
  (33932, [459]),
  (33934, [413])]

/-- hmm/pos/char_state_tab.go:4862-4925 -/
noncomputable def chars75 : List (Nat × List Nat) := [
  (33943, [229, 413, 227, 330]),
  (33945, [130, 330, 452, 127, 227, 132, 125, 152, 327, 120, 252, 230, 262, 320, 229, 256, 115, 129, 362, 162, 225, 100, 200, 128, 131, 156, 331, 352, 329, 325, 232, 220, 332, 228, 215]),
  (33948, [225, 425, 125, 252, 315]),
  (33953, [225, 332, 459]),
  (33967, [127, 427, 327]),
  (33970, [127, 427, 125, 225, 130, 229, 227, 135, 327, 129, 332]),
  (33972, [125, 413]),
  (33976, [125, 152, 452, 325, 256, 315, 115, 156, 227, 332, 232, 132, 225, 327, 252, 204, 130]),
  (33977, [413]),
  (33978, [125, 325]),
  (33981, [413, 125, 227]),
  (33983, [427, 227, 125, 225, 327]),
  (33985, [227, 459, 327]),
  (33988, [225, 152, 125, 452, 325, 200, 107, 252, 120, 215, 315, 156, 227, 327, 331]),
  (33991, [125]),
  (33993, [225, 227, 330, 417, 327, 215, 130, 232, 217, 315]),
  (33994, [162, 362]),
  (33997, [413, 125]),
  (34000, [413]),
  (34001, [125, 315]),
  (34003, [125, 129, 327]),
  (34006, [125]),
  (34013, [125, 127, 400, 117, 325, 130, 204, 227, 225, 327, 262, 132, 200, 104, 162, 232, 362, 315, 304, 215, 131, 317, 100, 220, 128, 129]),
  (34015, [127, 427, 130, 227, 327, 225, 325]),
  (34016, [225, 459]),
  (34019, [232, 459]),
  (34021, [330, 230]),
  (34022, [107]),
  (34028, [100, 452, 127, 130, 230, 227, 101, 115, 362, 262, 315, 225, 327, 120, 435, 162, 325, 125, 330, 232, 427, 129, 320]),
  (34044, [427, 327, 125]),
  (34047, [225, 459, 220, 325, 330]),
  (34058, [125]),
  (34065, [252, 152, 125, 256, 156]),
  (34067, [152, 225, 125, 325, 252, 120]),
  (34071, [225, 125, 426, 325, 130, 332, 330, 227]),
  (34074, [227, 427, 327, 130, 127, 120, 100, 402, 115, 125, 215, 104]),
  (34079, [413]),
  (34081, [127, 427, 330, 230, 327, 227, 128, 228, 132, 130]),
  (34091, [452, 162, 262, 120, 252, 325, 362]),
  (34092, [125, 225, 217, 117, 426, 332, 227, 132, 130, 315]),
  (34103, [125, 325, 327]),
  (34104, [435]),
  (34105, [459, 327]),
  (34106, [125, 427, 127, 227, 327, 230, 330]),
  (34107, [225, 315, 459, 327, 227]),
  (34108, [227, 413, 200, 327, 315]),
  (34109, [200, 252, 225, 452, 325, 315, 152, 256, 320, 220, 327, 352]),
  (34115, [230, 228, 325, 152, 125]),
  (34120, [413, 225]),
  (34121, [225, 426, 325, 327, 125, 227, 129, 320]),
  (34122, [225, 426, 227, 327, 320, 325]),
  (34134, [459, 227]),
  (34137, [227, 426, 327, 125, 132]),
  (34142, [459]),
  (34148, [459, 200, 125]),
  (34152, [125, 120, 225]),
  (34162, [413, 130, 125, 327, 227]),
  (34164, [152, 125, 225, 454, 227, 327, 230, 330, 130, 100, 252]),
  (34169, [125]),
  (34170, [459, 125]),
  (34171, [225, 327]),
  (34174, [225, 227, 325, 427, 327, 331, 125, 426]),
  (34180, [400, 125, 200, 100, 127, 162, 362, 315, 225, 227, 252, 132, 320, 327, 220, 128, 215, 204, 104, 120, 325, 352, 332, 129, 304]),
  (34181, [452])]

/-- hmm/pos/char_state_tab.go:4926-4989 -/
noncomputable def chars76 : List (Nat × List Nat) := [
  (34183, [413, 227, 225, 327, 325, 228]),
  (34191, [125, 132]),
  (34203, [127, 427, 327, 225, 227, 130]),
  (34204, [427, 125, 327, 227]),
  (34212, [413, 125]),
  (34216, [413, 227]),
  (34218, [125, 425, 227, 225, 252, 215, 325, 315, 426, 327, 320, 220]),
  (34222, [413, 225]),
  (34223, [225, 125, 132, 325]),
  (34224, [452, 227, 327, 152, 232]),
  (34231, [459, 225, 227]),
  (34233, [425, 225]),
  (34241, [413, 130]),
  (34249, [454, 252, 215, 200, 220, 256, 227, 232, 327]),
  (34255, [417, 252, 225, 230, 330, 125, 452, 132, 325, 152, 227, 127, 217, 332, 142, 104, 256, 327, 331, 115, 315, 220, 129, 130, 215, 320, 231, 352, 232, 329, 120, 156, 117, 304, 204, 200]),
  (34256, [152, 100]),
  (34259, [225, 320, 125]),
  (34261, [425, 327, 225, 125, 227, 115]),
  (34268, [413, 225, 325, 327, 227]),
  (34272, [125]),
  (34276, [425, 125, 327, 127, 227, 225, 104, 120, 129, 315, 232, 325, 130, 229, 132, 320]),
  (34281, [426, 227, 130, 125, 327, 225]),
  (34299, [426, 225, 125, 227, 325, 120, 327, 152, 330, 332, 230, 132]),
  (34303, [125]),
  (34309, [459, 227, 327, 127]),
  (34321, [125, 225, 132, 232, 352]),
  (34326, [225, 426, 252, 220]),
  (34328, [125]),
  (34343, [459]),
  (34345, [413, 227]),
  (34360, [452, 252, 327, 227]),
  (34364, [459, 125]),
  (34382, [425, 225, 227, 125, 327, 315, 130, 232, 215, 115, 325, 200, 143, 132, 228, 330, 152, 320, 220, 230, 120, 129, 138, 352, 229, 328, 332, 331, 162, 100, 127, 128, 329]),
  (34383, [426, 225, 332, 252, 227, 152, 325]),
  (34384, [252, 152, 402, 215, 200, 125, 256, 132, 320, 262, 325]),
  (34385, [252, 225, 454, 200, 256, 215, 315, 320, 227, 325, 327, 220, 330]),
  (34388, [100, 125, 228]),
  (34394, [407, 100, 125, 152, 200, 252, 315, 225, 227, 115, 104, 327, 215, 320, 101, 229, 156, 162, 325, 230, 362, 132, 330, 220, 232, 120]),
  (34398, [127, 227, 327, 427, 252, 443, 230, 426, 330, 130, 315, 125, 128]),
  (34402, [427, 227, 327, 215]),
  (34411, [225, 425, 125, 325, 252, 227, 232, 327, 315, 215, 332, 331, 256, 220, 320, 317]),
  (34412, [125]),
  (34414, [413]),
  (34417, [125, 225]),
  (34425, [225, 227, 425, 231, 232, 130, 125, 325, 215, 315, 327, 104, 330, 331, 120, 332, 127]),
  (34426, [459]),
  (34427, [413, 225, 227]),
  (34428, [459, 125, 227]),
  (34429, [106, 406, 115, 315, 120, 320]),
  (34430, [425, 225, 125, 227, 327, 115, 232, 325]),
  (34431, [413, 227, 225]),
  (34432, [252, 454, 256, 225, 325, 232, 152, 200, 215, 320, 125]),
  (34433, [225, 426, 125, 325, 220, 315, 330, 320]),
  (34434, [125, 320, 130, 115]),
  (34442, [125, 426, 225, 325, 227, 327]),
  (34443, [413, 227]),
  (34444, [130, 125, 225, 330, 315]),
  (34445, [115, 125, 120]),
  (34451, [225, 459]),
  (34453, [125, 225, 425, 152, 325, 227, 327, 232, 115, 320]),
  (34460, [125, 225, 325]),
  (34461, [425, 125]),
  (34467, [225, 459, 227, 325]),
  (34468, [413, 225, 325])]

/-- hmm/pos/char_state_tab.go:4990-5053 -/
noncomputable def chars77 : List (Nat × List Nat) := [
  (34471, [459, 225]),
  (34472, [459, 332]),
  (34473, [417, 125]),
  (34474, [225, 459]),
  (34476, [413, 132]),
  (34479, [125]),
  (34480, [125, 225]),
  (34481, [225, 125]),
  (34484, [413, 225]),
  (34486, [225, 125]),
  (34490, [459]),
  (34496, [452, 125, 252, 152, 325]),
  (34500, [459, 225]),
  (34502, [425, 125, 325]),
  (34503, [425, 225, 125, 315, 215, 227, 327, 325, 130, 320, 152, 220, 252, 243, 232, 330, 352]),
  (34505, [459, 225, 227]),
  (34506, [115, 152, 156]),
  (34507, [125, 425, 225, 325, 320, 252, 227, 315, 327, 232, 104, 332, 132]),
  (34510, [225, 413, 227, 325, 327]),
  (34511, [225, 125]),
  (34512, [125, 225, 325]),
  (34513, [459, 225]),
  (34516, [125, 325]),
  (34520, [413]),
  (34521, [426, 225, 125, 156, 327, 215, 320]),
  (34523, [225, 125, 115, 325, 332]),
  (34526, [459, 125]),
  (34527, [227, 426, 125, 130, 327]),
  (34532, [125, 426, 325, 327, 225, 320, 227]),
  (34537, [413]),
  (34541, [413, 125, 225, 227]),
  (34542, [407, 200, 125, 225, 227, 100, 400, 325, 315, 120, 152, 115, 320, 203]),
  (34544, [152, 243]),
  (34545, [459, 125]),
  (34546, [125]),
  (34547, [459, 225]),
  (34548, [459, 125]),
  (34552, [459, 225]),
  (34553, [413, 225, 125]),
  (34558, [225, 125, 320, 315]),
  (34560, [417, 130, 225, 125, 327, 132, 227, 443, 325, 320, 215, 120, 115]),
  (34562, [125, 225, 425, 152, 207, 227, 115, 325, 327, 252, 220, 426, 320, 104, 315, 130]),
  (34563, [315, 125]),
  (34567, [225, 452, 325, 243]),
  (34568, [125, 327]),
  (34569, [125, 315, 320, 225]),
  (34570, [225, 459]),
  (34573, [225, 459]),
  (34578, [252, 459, 225, 262, 125]),
  (34579, [225, 459, 315, 227]),
  (34581, [454, 152, 225, 115, 125]),
  (34583, [125, 225, 152]),
  (34584, [125, 132, 325]),
  (34586, [152, 315, 125, 120]),
  (34588, [125, 225, 425, 200, 227, 325, 315, 362, 262, 327, 320, 332, 252, 132, 330, 115]),
  (34590, [459]),
  (34593, [125, 425, 225, 325, 162, 252, 156, 232, 215, 362, 132, 262, 220, 115]),
  (34594, [459, 225, 227]),
  (34595, [125]),
  (34597, [125, 225]),
  (34601, [413]),
  (34606, [413, 225, 315]),
  (34609, [413]),
  (34612, [225, 459])]

/-- hmm/pos/char_state_tab.go:5054-5117 -/
noncomputable def chars78 : List (Nat × List Nat) := [
  (34615, [152, 452]),
  (34619, [125, 115, 325]),
  (34622, [125]),
  (34623, [152, 162]),
  (34631, [225, 426, 227, 215, 120, 152, 125, 115, 332, 104]),
  (34632, [125, 225, 325]),
  (34633, [425, 152, 125, 227, 215, 327, 315, 225, 220]),
  (34636, [125]),
  (34638, [426, 125, 225, 325, 227, 327, 252]),
  (34643, [225]),
  (34647, [125, 225, 252]),
  (34649, [125, 327]),
  (34656, [225, 459, 325, 227]),
  (34659, [225, 459]),
  (34660, [125, 459]),
  (34661, [225, 459]),
  (34670, [125]),
  (34672, [125]),
  (34674, [125]),
  (34676, [125, 130, 327]),
  (34678, [225, 426, 125, 325, 227, 132, 327, 330, 215]),
  (34683, [225]),
  (34684, [125]),
  (34685, [413, 227]),
  (34686, [125]),
  (34690, [225, 459, 332, 320]),
  (34691, [125]),
  (34693, [459, 225]),
  (34696, [459, 225, 227]),
  (34699, [459, 225]),
  (34701, [225, 156, 152, 325, 452, 125, 252, 127, 332, 130, 227, 317, 331, 120, 204, 327, 215, 262, 232, 200, 320, 162, 115, 315, 362, 228, 330, 256, 117, 129]),
  (34707, [115]),
  (34711, [413]),
  (34719, [225, 125, 325]),
  (34728, [413, 225, 325, 125]),
  (34731, [452, 125]),
  (34732, [225]),
  (34733, [413, 225]),
  (34735, [425, 132, 125, 227]),
  (34739, [125, 132, 120, 115]),
  (34741, [325, 459]),
  (34746, [125, 426, 225, 325, 227, 104, 327, 330, 130, 230, 132]),
  (34749, [125, 459]),
  (34752, [225, 459]),
  (34758, [459, 225, 227, 325, 320]),
  (34762, [413, 125]),
  (34763, [125]),
  (34769, [125]),
  (34770, [125, 225, 130, 330]),
  (34779, [459]),
  (34784, [227, 454, 125, 327, 130, 132, 230, 315, 215]),
  (34789, [225, 459]),
  (34794, [459, 125]),
  (34798, [459]),
  (34809, [426, 225, 125, 132, 332, 315, 252, 232]),
  (34814, [125, 228, 229, 115, 332]),
  (34819, [225, 459]),
  (34826, [459, 225]),
  (34835, [425, 125]),
  (34837, [152, 125, 162, 262, 120]),
  (34838, [459, 225, 325]),
  (34843, [459]),
  (34849, [413, 227, 327, 130, 315, 152]),
  (34850, [200, 400, 125, 115, 315, 100, 152, 227, 327])]

/-- hmm/pos/char_state_tab.go:5118-5181 -/
noncomputable def chars79 : List (Nat × List Nat) := [
  (34866, [413, 152]),
  (34873, [125, 225, 215]),
  (34876, [459, 125]),
  (34880, [125, 425, 252, 325, 225, 120, 256, 315, 162, 100, 115, 320, 215, 332, 152, 204, 220, 117, 227, 232, 132, 327, 104, 331, 217]),
  (34884, [413]),
  (34885, [252, 413, 320, 256, 325, 327]),
  (34892, [252, 125, 225, 452, 217, 325, 231, 152, 256, 156, 200, 207, 222, 238, 204, 227, 117, 315, 215, 327, 330, 320, 331, 230, 220, 127, 304, 115, 422, 352, 332, 107, 120, 143, 132, 232, 112, 343, 224, 324, 100, 130, 228, 229, 128, 356, 328, 317]),
  (34893, [152, 156, 252, 125, 454, 227, 327, 332, 315, 215, 325, 228, 132, 256]),
  (34900, [452, 225, 152, 252, 327, 227, 315, 125, 330, 325, 256]),
  (34903, [425, 125, 142, 225, 230, 252, 315, 242, 227, 332, 212, 320, 132, 325, 330, 115, 327, 117, 156, 130, 256]),
  (34905, [125, 225, 130, 329, 327, 325]),
  (34913, [200, 252, 152, 227, 130, 225, 325, 427, 127, 215, 327, 232, 125, 315, 256, 201, 332, 204, 220, 129, 320, 228, 104, 352, 131]),
  (34914, [130, 225]),
  (34915, [125, 225, 426, 325, 252, 127, 315, 115, 327, 227, 120, 215, 256, 232, 320, 317, 332, 204, 330, 131, 130]),
  (34917, [152, 452, 125, 156, 252, 320, 204, 315, 132, 325, 256, 327, 352, 227, 215, 225, 217, 115, 117, 332]),
  (34920, [152, 225, 125, 252, 425, 325, 156, 332, 227, 331, 220, 256, 327, 232, 315, 204, 320, 215, 115, 238, 120, 132, 330]),
  (34921, [425, 225, 459]),
  (34923, [225, 426, 327, 227, 320, 232, 132, 325, 315]),
  (34924, [125, 452, 152, 252, 225, 227, 232, 327]),
  (34926, [229, 227, 413, 115, 315, 327, 129]),
  (34928, [152, 402, 100, 225, 325, 156, 252, 320, 220, 125, 215, 227, 332, 315, 132]),
  (34930, [238, 413, 325, 227]),
  (34935, [225, 252, 215, 352, 207, 315, 107, 125, 104, 256, 325]),
  (34941, [413, 252, 225, 215]),
  (34942, [413, 227]),
  (34943, [413, 227, 327]),
  (34945, [127, 427, 327, 227, 128, 130, 125]),
  (34946, [207, 426, 252, 315]),
  (34948, [413, 225, 227]),
  (34949, [162, 262, 115, 315, 362, 220, 320, 152]),
  (34952, [125]),
  (34955, [225, 435, 222, 125, 325, 232, 142, 224, 104, 227, 422, 215, 220, 230, 329]),
  (34957, [225, 426, 125, 315, 325, 115]),
  (34962, [152, 252, 454, 120]),
  (34966, [225, 125, 452, 115, 104, 315, 204, 227, 252, 232, 325, 320, 120, 426, 327, 215]),
  (34972, [125, 225, 426, 325, 232]),
  (34978, [452, 225]),
  (34980, [200, 413, 227]),
  (34987, [434, 125, 225, 107, 152, 100, 156, 104, 120, 117, 327, 232, 315, 252, 317, 230]),
  (34989, [452, 252, 152, 256, 315, 227, 125, 332, 325, 327]),
  (34993, [225, 413, 325]),
  (34996, [320]),
  (34999, [459, 125]),
  (35004, [459]),
  (35009, [225, 152, 125, 252, 452, 256, 200, 325, 156, 201, 215, 227, 132, 317, 327, 315, 331, 117]),
  (35010, [252, 125, 452, 152, 325, 215, 225, 256, 156, 320, 331, 104, 327, 115, 217, 315]),
  (35013, [125, 252, 152, 452, 225, 104, 325, 320, 256, 204, 156, 115, 315, 220, 331, 217, 232, 120, 227, 332, 132, 327, 304, 352, 207, 228, 117, 343]),
  (35014, [225, 325, 204, 125]),
  (35017, [413]),
  (35022, [413]),
  (35026, [413]),
  (35028, [225, 427, 227, 327]),
  (35029, [200, 227, 427, 327, 232, 132, 332, 330, 320, 130, 315, 328, 325, 215, 454, 304]),
  (35032, [127, 427, 125, 227, 225, 215, 327, 315, 129]),
  (35033, [426, 225, 125, 227, 104, 232, 327, 120, 215]),
  (35039, [225, 459]),
  (35042, [225, 459]),
  (35043, [459, 152]),
  (35044, [125, 225, 426, 325, 217, 232, 227]),
  (35045, [225]),
  (35048, [315, 125, 127]),
  (35056, [225, 413]),
  (35057, [452, 252, 152]),
  (35059, [225, 426, 227, 327])]

/-- hmm/pos/char_state_tab.go:5182-5245 -/
noncomputable def chars80 : List (Nat × List Nat) := [
  (35060, [127, 427, 327, 227, 128]),
  (35064, [402, 152, 120, 104, 362, 262, 200, 125, 315, 156]),
  (35065, [452, 225, 252, 152, 125, 115, 315, 220, 327, 325]),
  (35068, [413, 327, 227]),
  (35070, [426, 225]),
  (35074, [426, 225, 125]),
  (35082, [402, 100]),
  (35088, [125, 325, 404, 426, 225, 132]),
  (35090, [152, 452, 227, 115, 125, 156, 129, 130, 320, 456, 252]),
  (35091, [225, 315]),
  (35097, [413, 252]),
  (35098, [127, 427, 327, 227]),
  (35099, [262, 220, 459, 315]),
  (35105, [125, 325]),
  (35109, [225, 125, 343, 325, 232]),
  (35114, [452, 152]),
  (35115, [152]),
  (35120, [413]),
  (35124, [162, 320, 115]),
  (35126, [125, 426, 225, 227, 325, 204, 327]),
  (35137, [125, 115]),
  (35140, [417, 130, 227, 327, 230, 129, 132, 329, 426, 454, 152, 229, 325, 125, 330]),
  (35166, [225, 413]),
  (35167, [225, 425, 315, 125, 204, 115, 227, 220, 327]),
  (35174, [413, 227]),
  (35195, [452, 225]),
  (35199, [230, 130, 225, 142, 412, 112, 125, 330, 127, 143, 227, 325, 327, 212, 229, 132, 312, 129, 131, 332, 317, 217, 331, 315, 152, 117, 320, 329, 104, 232, 120, 215, 242, 342, 304, 252, 220, 352, 115, 218]),
  (35201, [452, 204, 200, 252, 152, 207, 206, 125, 208, 106, 325, 225, 100, 320, 220, 315, 300, 120, 327, 201, 230, 115, 330, 156, 317, 215, 227]),
  (35203, [127, 427, 227, 327]),
  (35206, [152, 454, 125, 315, 252, 215, 227, 225, 320, 115, 156, 232, 132, 256, 325]),
  (35265, [452, 252, 152, 225, 200, 125, 315, 227, 327, 325, 215, 115, 206, 220, 352, 207, 320, 120, 307, 100, 122, 107, 238, 245, 229, 332, 322, 143, 228, 156, 232]),
  (35266, [225, 125, 152, 200, 454, 156, 252, 325, 227, 220, 232, 315, 256, 327, 330, 127, 215, 130, 320, 120, 230, 132, 115, 217, 332, 201, 331, 129]),
  (35268, [125, 152, 225, 304, 256, 426, 320, 252, 200, 300, 325, 156, 204, 227, 120, 356, 100, 307, 315, 162, 362, 215, 327, 331, 132, 220, 454, 117, 301, 229, 332, 217, 352, 115]),
  (35269, [152, 452, 252, 315, 220, 320, 227, 127, 454, 327]),
  (35270, [252, 125, 225, 454, 325, 152, 204, 217, 220, 331, 315, 115, 200, 256, 227, 215, 231, 356, 320, 332, 317, 232, 120, 156, 330, 117]),
  (35271, [413]),
  (35272, [252, 325, 256, 452, 225, 227, 320, 315, 454, 330, 327, 152, 332]),
  (35273, [152, 225, 252, 452, 207, 200, 215, 125, 227, 327, 325, 220, 320, 256, 329, 156, 129, 131, 127, 330, 230]),
  (35274, [152]),
  (35275, [413]),
  (35276, [413, 227]),
  (35278, [252, 459]),
  (35279, [454]),
  (35280, [252, 152, 413, 325, 256, 327, 227]),
  (35281, [452, 215, 252, 227]),
  (35282, [125, 225, 325, 435, 425, 330, 222, 212, 152, 215, 230, 232, 217, 320, 130, 227, 242, 422, 315, 327, 204, 342, 220, 229, 332, 252, 132, 156, 352, 142, 228, 135, 331]),
  (35286, [413]),
  (35290, [426]),
  (35292, [413]),
  (35294, [452, 225, 252]),
  (35299, [152, 252, 452, 125, 325, 225, 127, 331, 256, 132, 220, 156, 143, 215, 320, 200, 315, 227, 115, 327, 131, 130, 317, 120, 332, 100, 103, 217, 128, 352, 328, 117]),
  (35301, [115]),
  (35302, [252, 152, 452, 125, 315, 225, 115, 256, 325, 220, 304, 332, 132, 120, 204, 156, 227, 104, 320, 327]),
  (35307, [252]),
  (35311, [413]),
  (35313, [125]),
  (35315, [459, 152]),
  (35328, [225, 454, 245, 252, 315, 125, 325, 127, 320, 227, 152, 215, 115, 220, 206, 306, 238, 327, 204, 120, 207, 232, 228, 200, 331, 132, 330, 256, 332, 262]),
  (35335, [225, 459, 327, 227]),
  (35390, [427, 127]),
  (35400, [413]),
  (35449, [127, 427, 128, 129, 227, 327, 130, 329]),
  (35465, [225, 152, 426, 252, 325, 227, 256, 220, 215, 454, 315, 232, 327, 125, 200, 120]),
  (35466, [452, 152, 227, 125])]

/-- hmm/pos/char_state_tab.go:5246-5309 -/
noncomputable def chars81 : List (Nat × List Nat) := [
  (35475, [454, 252, 125, 225, 152, 107, 315, 215, 227, 115, 327, 325, 320]),
  (35591, [413, 227]),
  (35622, [459]),
  (35686, [125, 152, 225, 217, 156, 252, 426, 256, 325, 200, 331, 352, 320, 117, 104, 327, 132, 120, 227]),
  (35692, [152, 120]),
  (35745, [252, 125, 256, 152, 452, 225, 325, 315, 331, 215, 120, 156, 127, 220, 117, 207, 332, 227, 320, 232, 307, 352, 115, 104, 327, 304, 229, 132, 328, 129]),
  (35746, [252, 125, 152, 452, 156, 325, 104, 256]),
  (35747, [125]),
  (35748, [152, 252, 101, 452, 156, 125, 320, 352, 132, 215, 362, 162, 325, 225, 220, 227, 100, 115, 315, 331, 117]),
  (35749, [152, 454, 215, 156, 227]),
  (35750, [256, 413, 227]),
  (35751, [252, 413, 256]),
  (35752, [152, 252, 452, 325, 115, 256, 125, 156, 315, 120, 100, 215, 320, 104]),
  (35753, [452, 252, 152, 325, 227, 215, 156, 220, 327, 230, 229, 320, 332, 256, 125, 330, 225, 130]),
  (35754, [252, 152]),
  (35755, [413, 252, 225, 220, 327]),
  (35757, [156, 256, 225, 452, 125, 152, 252, 227, 325, 115, 217, 327, 332, 331, 117, 215, 330, 317]),
  (35758, [225, 125, 252, 452, 152, 325, 256, 215, 232, 331, 220, 227, 115, 156, 327, 231, 217, 330, 320, 120]),
  (35759, [232, 225, 426, 325, 252, 231, 125, 227, 315, 331, 152, 256, 320, 215, 217, 332, 156, 132, 327]),
  (35760, [125, 225, 152, 452, 252, 325, 332, 222, 232, 331, 227, 120, 320, 104, 115, 156, 327, 307, 132, 215, 200, 352, 217, 117, 317, 422, 304]),
  (35762, [452, 152, 125, 252, 325, 156, 220, 206, 320, 130, 256, 217, 120, 115, 227, 317, 315]),
  (35763, [252, 454, 215, 152, 115, 315, 256, 220, 227, 327]),
  (35764, [152]),
  (35765, [407]),
  (35766, [200, 252, 152]),
  (35767, [130, 262, 162, 200, 330]),
  (35768, [122, 207, 252, 422, 127, 152, 130, 125, 222, 322, 227, 225, 132, 325, 327, 128, 315, 452, 229, 256, 338, 332, 330]),
  (35769, [452, 125, 152, 215, 315, 225, 325, 156]),
  (35770, [225, 452, 125, 252, 206, 152, 256, 156, 320, 325, 306, 215, 132, 220, 245, 315, 227, 352, 332, 115, 232, 331, 120, 327, 304]),
  (35772, [256, 454, 325, 220, 252, 125, 225, 215, 204, 117]),
  (35773, [152, 252, 156, 454, 125, 256, 215, 315, 227]),
  (35774, [256, 125, 152, 156, 452, 252, 331, 225, 325, 315, 220, 327, 227, 330, 106, 115, 204, 217, 130, 215, 320]),
  (35775, [252, 152, 452, 325, 225, 156, 215, 217, 125, 320, 227, 256, 327, 331, 115, 127, 117, 332]),
  (35776, [426, 225, 125, 152, 252, 156]),
  (35777, [125, 252, 152, 217, 425, 225, 331, 325, 117, 256, 227, 200, 332, 317, 320, 327, 232, 352, 120, 315, 132, 215, 330, 304]),
  (35778, [225, 413]),
  (35779, [413, 327, 227, 129]),
  (35780, [152, 156, 125, 252, 452, 225, 325, 256, 227, 217, 132, 220, 315, 331, 115, 327, 120, 117, 317]),
  (35781, [152, 252]),
  (35782, [225, 252, 325, 452, 152, 320, 315, 215, 220, 125, 207, 227, 100, 331, 120, 156, 115, 327, 256, 352, 204, 304, 132, 200]),
  (35784, [452, 152, 256, 156, 200, 252, 315, 125, 215, 325, 332, 227, 225, 456]),
  (35785, [252, 156, 152, 256, 425, 325, 125, 320, 215, 454, 120, 332, 304, 315, 227, 225]),
  (35786, [152, 252, 454, 125, 325, 225, 156, 217, 320, 256]),
  (35787, [152]),
  (35788, [454, 252]),
  (35789, [425, 225, 125, 215, 252, 227, 315, 325, 327, 207, 220, 320, 115, 352]),
  (35790, [402, 413]),
  (35791, [426, 125, 225, 227, 327, 130, 325]),
  (35793, [252, 452, 125, 225, 152, 325, 227, 320, 327, 204, 256, 117, 220, 331, 132, 217]),
  (35794, [413, 227, 327]),
  (35795, [452, 152]),
  (35796, [413]),
  (35797, [152, 156, 256, 452, 252, 125, 225, 325, 215, 352, 217, 315, 320, 332, 227, 132, 331]),
  (35798, [413, 152]),
  (35799, [125, 425, 225, 227, 252, 327, 127, 220, 115, 325, 120, 329, 320, 304, 152, 215, 132, 232, 315, 228]),
  (35800, [152, 252, 156]),
  (35801, [454, 100]),
  (35802, [227, 200, 100, 400, 125, 315, 152, 252, 327, 115, 107, 120, 207, 225, 325, 132, 232, 317, 320, 331, 201, 228, 256, 220, 300, 103]),
  (35803, [152, 315, 225, 215, 252, 115, 220]),
  (35804, [459]),
  (35805, [425, 225, 252, 245, 125, 238, 256, 220, 325, 320, 315, 306, 200, 215, 115, 206, 217, 120, 331, 152, 227, 327, 332, 232]),
  (35806, [152, 243, 343, 200, 325, 125, 225, 315, 320, 143]),
  (35807, [125, 152]),
  (35808, [152, 125])]

/-- hmm/pos/char_state_tab.go:5310-5373 -/
noncomputable def chars82 : List (Nat × List Nat) := [
  (35809, [100, 402, 125, 315, 152, 115, 327, 156]),
  (35810, [152, 256, 252, 454, 325, 227, 327, 331, 217, 332, 343, 125, 229]),
  (35811, [225, 452, 215, 227, 327]),
  (35812, [454, 252, 125, 227, 152]),
  (35813, [438, 252, 138, 152, 207, 107, 132, 315, 125, 227, 327]),
  (35814, [100, 101, 402, 252, 125, 152, 200, 215, 227, 362, 162, 327]),
  (35815, [100, 200, 320]),
  (35816, [125, 215, 252]),
  (35817, [413, 227, 252, 327]),
  (35819, [252, 256, 215, 152]),
  (35820, [152, 454, 156, 125, 252, 315]),
  (35821, [125, 225, 232, 426, 252, 215, 227, 452, 325, 220, 115, 327, 320, 127, 315, 152, 331, 352, 332, 131, 120, 130, 132]),
  (35822, [413, 252, 256, 227]),
  (35823, [225, 252, 125, 452, 152, 256, 156, 115, 227, 320, 120, 215, 220, 325, 315, 352]),
  (35824, [125, 156, 252]),
  (35825, [152, 156, 454, 125, 252, 100, 215, 120, 132, 256, 332, 327]),
  (35826, [252, 454, 115, 227, 315, 220, 327]),
  (35827, [452, 125]),
  (35828, [452, 152, 252, 225, 245, 220, 206, 125, 120, 315, 228, 320, 215, 325, 352, 115, 207, 200, 256, 306, 156, 227, 104, 331, 327]),
  (35829, [252, 454, 152, 227, 325, 256, 215, 327, 125, 225]),
  (35830, [410]),
  (35831, [452, 252, 152, 125, 325, 315, 227, 156, 327, 115, 320, 332, 215]),
  (35832, [438, 127, 125, 122, 138, 152, 227, 252, 327, 130, 330, 320, 120, 115, 315, 128, 331]),
  (35833, [413]),
  (35834, [252, 227, 132, 427, 129, 327, 330, 127, 130, 125, 230, 229, 426, 232, 329, 325, 332, 225, 331, 220, 320, 454, 131, 162, 362, 215, 315]),
  (35835, [252, 452, 152, 125, 256, 325, 204, 225, 217, 327, 220, 132, 227, 115, 332, 215, 331, 315, 200]),
  (35836, [413, 225]),
  (35837, [152, 125, 252, 156]),
  (35838, [125, 425, 252, 225, 143, 152, 104, 325, 256, 227, 217]),
  (35839, [454, 252, 220]),
  (35840, [413, 252, 315]),
  (35841, [438, 152, 138, 315, 115, 320, 215, 120, 227, 327]),
  (35842, [413, 227, 327]),
  (35843, [156, 252, 152, 452, 225, 125, 325, 100, 327, 200, 320, 132, 256, 220, 232, 315, 115, 227, 352, 215, 130, 217, 331, 332, 317, 117, 120]),
  (35844, [152, 315, 115]),
  (35845, [252, 152, 452, 227, 130, 256, 327, 320]),
  (35846, [207, 107, 120, 320, 115, 315]),
  (35847, [413]),
  (35848, [452, 156, 152, 252, 256, 325, 215, 225, 115, 127, 125, 315, 232, 320, 120, 220, 332, 200, 227, 352, 327, 132, 317]),
  (35850, [227, 225, 232, 327, 426, 330, 325, 252, 332, 331, 215, 256]),
  (35851, [225, 152, 452, 325, 252, 125, 315, 227, 215, 327, 320, 256, 220, 330, 331, 115, 230, 156, 228]),
  (35852, [427, 127, 227, 327]),
  (35853, [225, 125, 325, 332]),
  (35854, [426, 252, 125, 152, 325, 215, 227]),
  (35855, [454, 227, 252, 152, 256, 327, 220, 315, 215, 125, 130]),
  (35856, [200, 402, 125, 100, 252, 227, 162, 320, 215, 332]),
  (35857, [413, 252, 262, 227]),
  (35858, [454, 252, 227, 327, 152]),
  (35859, [252, 452, 220, 225, 125, 204, 227, 327, 454, 256, 115]),
  (35860, [459, 227]),
  (35861, [426, 225, 125, 252, 454, 227, 327]),
  (35862, [413, 227]),
  (35863, [454, 125, 315]),
  (35864, [413, 227, 129]),
  (35865, [252, 152, 100, 320]),
  (35866, [125, 225]),
  (35867, [225, 152]),
  (35868, [425, 125, 225, 252, 227, 352]),
  (35869, [413]),
  (35871, [413, 227, 327, 230, 330]),
  (35872, [413, 227, 327]),
  (35873, [413, 227, 225, 327]),
  (35874, [252, 127, 452, 152, 215, 227, 256, 325, 128, 229, 315, 327, 115, 125, 129, 320, 329, 130, 220, 132, 330]),
  (35875, [125, 225, 252, 426, 152, 227, 315, 156, 120, 327])]

/-- hmm/pos/char_state_tab.go:5374-5437 -/
noncomputable def chars83 : List (Nat × List Nat) := [
  (35876, [252, 413, 325, 152, 256]),
  (35877, [454, 125, 227]),
  (35878, [327, 227, 100, 427, 152, 454, 115, 228, 125, 315, 120, 229, 330]),
  (35879, [200, 413, 227, 327, 228]),
  (35880, [100, 407, 200, 315, 152, 227, 115, 327, 325]),
  (35881, [152, 156, 125]),
  (35882, [454, 152, 256, 227]),
  (35883, [413]),
  (35884, [200, 125, 427, 426, 225, 315, 325, 152, 227, 120]),
  (35885, [127, 456, 427, 227, 215, 327, 128]),
  (35886, [413]),
  (35887, [427, 125, 327, 130, 330]),
  (35888, [125]),
  (35889, [225, 452, 325, 125, 426, 227, 252, 220, 200, 152, 320, 204, 327, 232, 332, 300, 256, 352]),
  (35890, [200, 413]),
  (35891, [413, 227]),
  (35892, [152, 454]),
  (35893, [125, 152]),
  (35894, [125]),
  (35895, [225, 125, 426, 127, 227, 230, 427, 325, 130, 327, 231, 330, 229, 332, 215, 143, 315, 252, 132, 120, 232, 328, 115, 320, 129]),
  (35905, [152, 452, 125, 100, 115, 107, 200, 227]),
  (35910, [225, 125, 425, 325, 227, 332, 327, 127, 320, 315, 232, 215, 352, 230, 115, 130, 252, 104, 132, 331, 220]),
  (35911, [125]),
  (35913, [225, 459, 125]),
  (35916, [125, 325, 332]),
  (35925, [413, 315, 215]),
  (35930, [225, 125]),
  (35937, [225, 425, 252, 152, 325, 125, 200, 327, 220, 426, 227, 130, 120, 320, 331, 352, 215, 232, 315, 100, 129, 330, 230, 332, 115]),
  (35938, [454, 152]),
  (35944, [125]),
  (35946, [125, 100, 225, 402, 327, 227, 200, 129, 152, 325, 115, 320, 315, 220, 232, 132, 330, 229, 130]),
  (35947, [200, 417, 130, 220, 227, 217, 125, 327, 315, 317, 225, 362, 262, 320, 330, 117, 132, 252, 331]),
  (35955, [413]),
  (35960, [225, 413, 330]),
  (35961, [225, 425, 125, 227, 232, 215, 426, 220, 315, 325, 327, 229]),
  (35962, [125, 120, 115]),
  (35970, [425, 125, 225, 327, 325, 227, 252]),
  (35973, [225, 459]),
  (35977, [426, 215, 125]),
  (35978, [413]),
  (35980, [225, 426, 203, 232, 152, 315, 325, 215, 227, 320, 115, 220, 327, 120]),
  (35988, [125]),
  (35992, [413]),
  (36125, [127, 225, 125, 332, 327, 417, 130, 227, 129, 330, 329, 132, 235, 325, 331, 229, 232, 252, 131, 117, 315]),
  (36126, [327, 227, 427, 132, 225, 128, 125, 127, 315, 200, 120, 232, 325, 228, 100, 320, 331, 130, 104]),
  (36127, [125, 152, 452, 252, 104, 156, 225, 325, 320, 315, 215, 307, 115, 217, 220, 103, 120, 304, 256, 327, 332, 227]),
  (36129, [125, 427, 127, 227, 252, 230, 330, 130, 426, 327, 454, 225, 229, 325, 129]),
  (36130, [125, 252, 425, 131, 117, 225, 331, 315, 217, 215, 220, 320, 227, 327, 115, 200, 120, 317, 325, 232, 332]),
  (36131, [252, 125, 325, 152, 225, 320, 426, 220, 256, 115, 156, 331, 215, 227, 117, 317, 327, 315, 332, 120, 217]),
  (36132, [227, 426, 125, 225, 327, 315, 252, 229, 100, 320, 220, 330, 115, 120, 232, 215, 352, 402]),
  (36133, [252, 452, 203, 152, 125, 225, 315, 325, 320, 256, 227, 200, 115, 100, 352, 327, 220, 215, 120, 156, 104, 101, 232]),
  (36134, [125, 425, 252, 225, 304, 220, 256, 325, 217, 215]),
  (36135, [125, 225, 425, 320, 325, 252, 120, 331, 256, 232, 156, 115, 317, 217, 315, 215, 227, 132, 231, 131, 117, 332, 330, 230, 343]),
  (36136, [225, 125, 426, 325, 152, 204, 252, 220, 227, 100, 232, 117, 104, 356, 256, 320, 327, 331, 156, 215, 315, 131, 132, 330, 200, 352, 120, 115, 332]),
  (36137, [452, 152, 225, 325, 125, 156, 115, 320, 256, 227]),
  (36138, [152, 452, 100, 125, 115, 317, 315, 256, 120, 225]),
  (36139, [100, 125, 402, 156, 152, 200, 103, 256, 117, 252, 320, 315, 120, 204, 220, 215, 115, 331, 227, 317, 325, 225]),
  (36140, [152, 452, 252, 156, 125, 315, 220]),
  (36141, [252, 152, 256, 125, 454, 156, 325, 332, 225, 320, 132, 120, 330, 217]),
  (36142, [152, 452, 125, 256, 156, 325, 252, 217, 132, 227, 104]),
  (36143, [152, 227, 252, 427, 207, 315, 204, 327, 225, 200, 222, 325, 454, 215, 125, 322, 104, 328, 320, 115, 120]),
  (36144, [422, 122, 125, 227, 322]),
  (36145, [400, 125, 200, 225, 252, 152, 220, 115, 327, 315, 215, 320, 227]),
  (36146, [427, 227, 225, 125, 327, 127])]

/-- hmm/pos/char_state_tab.go:5438-5501 -/
noncomputable def chars84 : List (Nat × List Nat) := [
  (36147, [413]),
  (36148, [452, 225, 152, 252, 125, 156, 100, 200, 325, 256, 227, 315, 232, 132, 327, 320, 362, 262, 101]),
  (36149, [125, 200, 400, 130, 327, 227, 225, 100, 215, 330, 315, 152, 131, 132, 220, 129, 320, 115, 325, 228, 156, 120, 138, 331, 328, 329]),
  (36150, [413, 227]),
  (36151, [125, 225, 452, 217, 252, 325, 256, 227, 317, 215, 117, 352]),
  (36152, [156, 225, 217, 320, 125, 331, 107, 325, 425, 332, 304, 454, 117, 330, 132, 204, 317, 231, 227, 315, 426, 417]),
  (36153, [256, 225, 325, 125, 252, 452, 127, 100, 130, 152, 320, 129, 327, 227, 315, 120, 232, 207, 115, 329, 331, 215, 200, 132, 229, 203, 217, 332, 220, 128, 352, 101]),
  (36154, [127, 454, 252, 130, 227, 152, 327, 156, 125, 128, 200, 230, 330, 320, 229, 325]),
  (36155, [152, 454, 125, 327, 115, 227]),
  (36156, [425, 225, 125, 315, 400, 115, 162, 320, 215, 120, 252, 325]),
  (36157, [227, 413]),
  (36158, [127, 427, 327, 227, 225, 330, 128, 220, 215, 129, 130, 120, 229, 230]),
  (36159, [252, 152, 426, 325, 125, 117, 115, 454, 215, 256, 156, 352]),
  (36160, [413, 327, 215]),
  (36161, [252, 325, 452, 227]),
  (36162, [252, 426, 325, 315, 256]),
  (36163, [252, 125, 426, 315, 256, 225, 215]),
  (36164, [125, 256, 325, 225, 320, 252, 426, 104, 152, 220, 331, 217, 156, 130, 332, 232, 204, 120, 227, 327, 129, 132, 317, 215, 207, 117, 128]),
  (36165, [215, 454]),
  (36166, [413]),
  (36168, [152, 156, 220, 125]),
  (36169, [413, 327, 227, 229, 330]),
  (36170, [452, 152, 125]),
  (36171, [452, 152, 125, 225, 227, 425, 320, 220, 327, 252, 315, 232]),
  (36172, [452, 152, 125, 252, 220, 115, 256, 156, 317]),
  (36173, [413]),
  (36174, [152, 156, 452, 125, 315]),
  (36175, [252, 452, 152, 125, 100, 225, 320, 115, 325, 227, 215, 327, 256, 220, 156, 315, 332]),
  (36176, [452, 225, 252, 327, 152, 227, 256, 156, 315, 320, 325]),
  (36179, [227, 427, 327]),
  (36180, [152, 452, 252, 125, 120, 256, 332, 325, 115, 227, 156]),
  (36181, [413]),
  (36182, [252, 452, 225, 127, 325, 152, 352, 327, 120, 125, 227, 129, 215, 200, 331, 329, 315, 220, 230, 330, 229, 320]),
  (36184, [203, 402, 252, 125, 152, 320, 227]),
  (36185, [454, 152]),
  (36186, [452, 152, 252, 125, 227, 320, 220]),
  (36187, [256, 225, 452, 125, 132, 327, 227, 127, 252, 230, 152, 456, 325, 332, 143, 232, 330, 329, 129, 217, 115, 130, 156, 315, 320, 229, 120]),
  (36188, [413, 227, 327]),
  (36189, [405, 125]),
  (36190, [152, 252, 452, 227, 125, 327, 130, 225, 417, 156, 129, 115, 454, 228, 220, 120, 229, 215, 332, 132, 131, 329]),
  (36192, [252, 152, 452, 125, 256, 325, 227, 327, 156]),
  (36193, [454, 152, 125, 156, 225]),
  (36194, [452, 152, 125, 252, 225, 227, 327, 132, 325]),
  (36195, [417, 130, 217, 332, 132, 327, 227, 125, 112, 427]),
  (36196, [125, 454, 130, 227, 162, 402, 115, 100, 225, 327, 152, 215, 132, 127, 104, 129, 332, 229, 315, 120, 331, 325, 330, 362, 320, 262]),
  (36198, [152, 252, 215, 315, 125, 325, 256, 220, 156]),
  (36199, [413, 327, 200, 152, 227, 329]),
  (36203, [127, 227, 327, 162, 427, 200, 435, 129, 235, 130, 135, 229, 315, 262, 330, 115, 325, 332, 132, 232, 329, 220, 131, 120, 362, 230, 331]),
  (36205, [125, 104]),
  (36208, [452, 152, 125, 252, 315, 120, 325, 156, 115, 320, 220, 256, 215, 352, 100, 225, 227, 330, 200, 304, 217, 243, 104, 327]),
  (36211, [459, 262, 362]),
  (36212, [452, 252, 152, 215, 315, 115, 327, 320, 227]),
  (36213, [127, 427, 227, 327, 128, 243, 130, 215, 230, 125, 129]),
  (36214, [107, 152, 452, 252, 315, 115, 220, 325, 230, 143]),
  (36215, [152, 452, 252, 242, 125, 222, 320, 107, 156, 315, 352, 215, 422, 327, 325, 200, 332, 256, 220, 227, 230, 100, 115, 132, 104, 300, 225, 228, 207, 120, 145, 331, 306, 129, 143, 204, 328]),
  (36225, [452, 107, 134, 434, 115, 227, 120, 327]),
  (36228, [252, 452, 352]),
  (36229, [152, 452, 125, 227, 104, 327, 100, 200, 252, 114, 132, 142, 120, 117, 107, 156, 115, 217, 228, 130, 330, 162, 153, 131, 101, 256, 127, 315]),
  (36234, [407, 107, 207, 252, 130, 200, 227, 152, 127, 125, 325, 327, 156, 230, 225, 132, 232, 304, 315, 117, 215, 131, 120, 115, 320, 262, 217, 228, 129, 330, 343]),
  (36235, [125, 152, 452, 207, 215, 115, 320, 227, 156, 325]),
  (36241, [152]),
  (36244, [152, 352]),
  (36255, [222, 435, 422, 252, 125, 120, 352]),
  (36259, [225, 200, 125, 426, 252, 315, 220, 215, 352, 320, 325, 300, 227, 327, 402])]

/-- hmm/pos/char_state_tab.go:5502-5565 -/
noncomputable def chars85 : List (Nat × List Nat) := [
  (36273, [413, 227]),
  (36275, [200, 252, 400, 152, 325, 125, 315, 107, 215, 262, 225, 352, 207, 138, 320, 117, 112, 331, 115, 227, 327, 330, 230, 132, 220, 256, 317, 217, 204, 231, 153, 129]),
  (36276, [152, 452]),
  (36277, [125, 413]),
  (36280, [454, 125, 107]),
  (36282, [413, 152, 252]),
  (36284, [413, 327]),
  (36286, [225, 325, 115, 125]),
  (36287, [452, 152]),
  (36291, [252, 152, 454, 256, 201, 327, 227, 320, 115, 315, 332, 325, 304, 220, 125, 130, 120, 215, 225, 156, 228, 200]),
  (36292, [252, 262, 362, 459]),
  (36294, [125]),
  (36299, [227, 426, 152, 100, 315, 225, 115, 125, 156, 252]),
  (36300, [252, 452, 125, 152, 317, 362, 162, 320, 120, 325, 156, 100]),
  (36302, [459, 252, 315]),
  (36303, [459, 152]),
  (36305, [452, 252, 152, 125, 325, 225, 120, 230, 320, 256, 130, 215, 220, 132, 352, 315, 156, 330, 332, 331]),
  (36310, [413, 325, 125, 227]),
  (36311, [125]),
  (36314, [252, 459, 220, 227, 256]),
  (36315, [125, 152, 400]),
  (36317, [125, 434, 225, 252, 325, 332, 307, 232, 320, 256]),
  (36318, [459, 227]),
  (36319, [434, 152, 452, 112, 225, 125, 252, 307, 325, 352, 320, 327, 132, 156, 227, 107]),
  (36323, [413, 315]),
  (36324, [426, 252, 256]),
  (36328, [452, 152, 125, 156, 104, 252, 225, 120, 217]),
  (36330, [452, 152, 252, 125, 156]),
  (36331, [459, 227]),
  (36332, [413, 320, 125]),
  (36335, [225, 425, 125, 222, 142, 252, 230, 325, 232, 152, 320, 127, 227, 130, 238, 220, 330, 422, 215, 129, 327, 229, 132, 315, 212, 331, 322, 256, 332, 231, 335, 317, 204, 115, 329, 342, 120, 200, 228, 224, 112, 217]),
  (36339, [452, 152, 252, 156, 125, 215, 220, 315, 227, 325, 330, 225, 256, 104, 352, 331, 320, 162, 362, 327, 115, 132, 332]),
  (36341, [252, 152, 454, 229, 325, 327, 227, 220, 156]),
  (36343, [200, 452, 125, 325, 100, 225, 252, 227]),
  (36344, [252, 413]),
  (36345, [459, 252]),
  (36346, [452, 152, 352]),
  (36347, [152]),
  (36349, [413]),
  (36357, [452, 227]),
  (36361, [152, 162, 362]),
  (36362, [101]),
  (36364, [152, 115, 120]),
  (36367, [452, 152, 252, 100, 125, 307, 315, 325, 232, 362, 162, 156, 115, 327, 120, 256, 304, 130]),
  (36372, [413, 115]),
  (36381, [225, 125, 325]),
  (36382, [252, 454, 215, 315]),
  (36383, [152]),
  (36386, [452, 152, 215, 125, 120, 325]),
  (36387, [413]),
  (36393, [452, 152, 125]),
  (36394, [252, 125, 426, 225, 215, 315, 204, 325, 332, 256, 320, 232]),
  (36396, [454]),
  (36398, [452, 152]),
  (36399, [152, 325]),
  (36401, [452, 152]),
  (36405, [315, 413, 252, 215, 115, 225]),
  (36409, [452]),
  (36410, [125]),
  (36413, [162, 262, 115, 315]),
  (36416, [152, 413]),
  (36417, [152, 413]),
  (36418, [152, 156]),
  (36420, [325, 225, 125, 426, 215, 204, 332, 220, 227, 330, 132])]

/-- hmm/pos/char_state_tab.go:5566-5629 -/
noncomputable def chars86 : List (Nat × List Nat) := [
  (36423, [427, 215, 227, 402, 252]),
  (36424, [225, 325, 252, 315, 454, 215, 331, 152, 343, 227]),
  (36425, [152, 115]),
  (36426, [100, 320, 200, 315, 125]),
  (36427, [252, 452, 256]),
  (36433, [162, 362, 452, 152, 115]),
  (36434, [152, 320, 156]),
  (36441, [454, 152, 315]),
  (36448, [225]),
  (36454, [452, 152, 320, 352, 315, 362, 262, 125, 325, 227]),
  (36457, [100]),
  (36460, [452, 225, 152, 200, 125, 327, 252, 325]),
  (36461, [452, 252, 262, 362, 100]),
  (36463, [413]),
  (36464, [252, 459]),
  (36466, [452, 152, 125, 120]),
  (36468, [315, 413, 125]),
  (36470, [315, 413, 352, 215]),
  (36476, [425, 152, 225, 125]),
  (36479, [452, 152, 320]),
  (36481, [200, 452, 152, 100, 215, 125, 220, 156, 362, 262, 327]),
  (36485, [252, 459, 225]),
  (36487, [252, 315, 320, 459]),
  (36495, [252, 256, 459]),
  (36496, [413]),
  (36500, [413]),
  (36508, [413]),
  (36510, [252]),
  (36523, [125, 252, 142, 225, 238, 426, 152, 112, 315, 222, 207, 115, 256, 325, 320, 215, 200, 204, 120, 227, 220, 327, 232, 307, 422, 332, 228, 352, 201]),
  (36524, [152, 426, 454, 252, 315, 227, 120, 325, 115]),
  (36527, [125, 225, 426, 220, 252, 215]),
  (36530, [452, 152, 320, 120, 252, 315, 352, 227, 215, 220]),
  (36538, [452, 152, 252, 125, 227, 320, 325]),
  (36710, [225, 125, 425, 252, 325, 142, 127, 238, 331, 222, 117, 230, 130, 220, 152, 315, 204, 231, 256, 217, 330, 104, 232, 132, 422, 227, 115, 215, 327, 332, 120, 320, 229]),
  (36711, [252, 452, 152, 125, 325, 256, 332, 327, 217, 132, 227]),
  (36712, [125, 426, 225, 252, 204, 256, 325, 227, 132, 320, 215, 200]),
  (36713, [227, 427, 127, 115, 125, 100, 327, 426, 315, 130, 232, 132]),
  (36715, [413]),
  (36716, [152, 452, 252, 125, 156, 256, 325, 106, 315, 107, 227, 115, 143, 215, 200, 120, 320, 327, 220, 307, 225, 117, 304, 352, 217, 356, 332, 132, 317]),
  (36717, [413, 325]),
  (36718, [435, 125, 225, 222, 152, 325, 238, 107, 104, 422, 232, 156, 217, 331, 320, 130, 332, 231, 227, 315, 204, 304, 327, 228, 132]),
  (36719, [125, 400, 200, 100, 152, 120, 162, 117, 252, 225, 262, 115, 215, 132, 331, 104, 227, 217, 320, 327, 315, 325, 352, 201, 203]),
  (36720, [152, 452, 125, 115, 315, 133, 107, 252, 156, 333, 227, 362, 162, 120, 320]),
  (36721, [125, 152, 325, 320]),
  (36722, [459, 227, 327]),
  (36723, [225, 459]),
  (36724, [425, 225, 125, 325, 320, 232, 332, 132, 227, 435, 252, 352, 207, 224, 330, 215]),
  (36725, [413, 130]),
  (36726, [125]),
  (36728, [227, 413, 327]),
  (36729, [413, 227]),
  (36730, [413]),
  (36731, [400, 107, 200, 100, 125, 207, 252, 325, 162, 362, 152, 104, 315, 115, 117, 215, 156, 320, 352, 227, 327, 120, 130, 332, 217, 330, 232, 132, 220, 101, 331, 304]),
  (36732, [225, 227, 413, 228]),
  (36733, [252, 452, 125, 152, 204, 222, 256, 104, 225, 320, 315, 156, 325, 227, 215, 327, 422, 228, 115, 304, 132, 332]),
  (36734, [227, 459]),
  (36735, [125, 426, 417, 225, 325, 320, 220]),
  (36738, [413, 227, 327]),
  (36739, [407, 207, 100, 107, 252, 152, 134, 325, 215, 104, 156, 125, 130, 320, 332]),
  (36740, [207, 409, 315, 252, 413]),
  (36741, [225, 156, 152, 454, 125, 426, 227, 252, 327, 132, 315, 332, 320, 325, 230, 217]),
  (36742, [222, 225, 422, 435, 224, 325, 331, 122, 232, 322]),
  (36743, [413, 225, 332, 227]),
  (36744, [322, 225, 425, 125, 238, 222, 152, 320, 135, 220, 215, 343, 325, 315, 122, 422])]

/-- hmm/pos/char_state_tab.go:5630-5693 -/
noncomputable def chars87 : List (Nat × List Nat) := [
  (36745, [227, 100, 427, 225, 125, 315, 327, 252, 426, 130, 152, 325, 215, 230, 332, 132, 232, 131, 330, 129, 220]),
  (36746, [225, 232, 125]),
  (36747, [225, 413]),
  (36749, [454, 152, 252, 220]),
  (36750, [125]),
  (36751, [426, 252]),
  (36752, [152, 125, 325, 426, 332, 104, 225, 142, 132, 232, 227, 320]),
  (36753, [225, 435, 325, 152, 220, 256, 227, 422, 320, 454, 222, 125, 327, 252, 156]),
  (36755, [256, 152, 452, 325, 125, 156, 252, 120, 130, 331, 217, 215, 327, 132, 220, 227, 332, 117]),
  (36756, [125, 252, 315]),
  (36757, [225, 125, 327, 315, 330, 252, 227]),
  (36758, [452, 252, 325, 125, 225, 152, 142, 256]),
  (36759, [152, 115, 120]),
  (36760, [225, 125, 320, 220, 252]),
  (36761, [225, 215, 425, 227, 252, 200, 332, 220, 228, 327]),
  (36762, [459, 327, 227]),
  (36763, [152, 127, 100, 132, 427, 227, 200, 122, 330, 315, 162, 362, 327, 130, 229, 125, 225, 331, 129, 215, 325, 329, 230, 320, 120, 203, 131, 128, 332]),
  (36764, [152, 225, 127, 427, 220, 215, 227, 325]),
  (36766, [152, 452, 252, 225, 125, 215, 315, 227, 325, 320, 256, 232, 253, 220, 120, 327, 331, 115]),
  (36767, [252, 452, 127, 152, 200, 315, 320, 327, 256, 215, 125, 227]),
  (36771, [125, 452, 200, 262, 362, 400, 215, 327, 325, 220, 332, 204, 320, 227, 100, 162, 225]),
  (36776, [152, 454, 252, 100, 325, 256, 227, 156, 220, 315, 125]),
  (36777, [152, 125, 252, 454, 156, 325, 227, 120, 256, 253, 225, 220, 200, 215, 320, 115, 100]),
  (36779, [125, 426, 225, 325, 352, 320, 204]),
  (36784, [225, 426, 227, 327, 232, 125, 222, 315, 132, 129, 215, 423, 230, 130, 322, 143, 343, 320, 331]),
  (36785, [252, 225, 426, 152, 315, 454, 325, 215, 256, 227, 220, 156, 332]),
  (36793, [407, 212, 242, 207, 125, 225, 238, 142, 127, 230, 262, 112, 204, 325, 330, 227, 252, 104, 315, 352, 320, 152, 327, 229, 220, 228, 117, 215, 134, 332, 217, 317, 128, 331, 312, 232, 300, 256, 132]),
  (36797, [130, 417, 100, 230, 327, 227, 143, 117, 132, 225, 131, 129, 142, 330, 315, 125, 229, 217]),
  (36798, [452, 152, 252, 200, 227, 225, 320, 232, 330, 230, 129, 127, 327, 332, 229, 130, 125, 325, 215, 228, 329, 315, 231, 132, 220, 115, 331, 256, 328, 100, 120, 131, 101]),
  (36801, [452, 152, 252, 256, 227, 125, 325, 156, 327, 215, 230, 130, 228, 330, 320, 315]),
  (36802, [152, 100, 400, 115, 156, 125, 327, 227]),
  (36804, [107, 120, 452, 454, 227]),
  (36805, [101, 227, 100, 402, 327, 107, 115, 162, 125, 132, 331, 330, 332]),
  (36807, [447, 234, 252, 125, 152, 206, 143, 107, 207, 101, 320, 100, 257, 156, 200, 120, 220, 325, 315, 225, 127, 307, 132, 115, 230, 352, 327, 130, 306, 215, 212, 135, 300, 227, 104, 332, 229, 342]),
  (36808, [152, 452, 129, 200, 327, 227, 262, 329, 130, 230, 330, 132, 228, 225, 232, 320]),
  (36814, [152, 452, 252, 107, 327, 156, 115, 127, 227, 120, 125, 220, 215, 320, 256, 325, 130, 315, 117]),
  (36816, [125, 156, 152, 225, 252, 452, 332, 325, 320, 256, 317, 200, 217, 330, 120, 227, 327, 315, 130, 352, 132, 232, 115, 331, 117, 220, 231, 215, 131]),
  (36817, [400, 143, 252, 212, 243, 120, 125, 207, 152, 142, 107, 100, 200, 225, 112, 104, 315, 117, 115, 327, 320, 325, 129, 132, 331, 328, 156, 228, 304, 256, 227, 220, 130]),
  (36819, [413]),
  (36820, [152, 452, 252, 220, 125, 215, 320, 115, 225, 315, 227, 156, 104, 325]),
  (36821, [413]),
  (36824, [407, 152, 106, 252, 315, 125, 320, 156, 132, 120, 327, 227, 215, 325, 127, 130, 220]),
  (36825, [138, 438, 124, 141, 120, 107, 106, 320, 125, 132, 115, 143]),
  (36827, [152, 252, 452, 156, 107, 125, 200, 106, 325, 227, 327, 320, 228, 220, 215, 256, 331, 232, 217, 352, 115, 225, 315, 230, 332, 330, 117, 317, 131, 132, 127, 204, 328, 130, 229, 120]),
  (36828, [400, 207, 200, 152, 107, 125, 142, 227, 104, 325, 130, 162, 362, 327, 342, 315, 230, 143, 232, 252, 228, 229, 204, 262, 115, 220, 215, 330, 127, 120, 225, 331, 320, 100, 131, 304, 132, 203, 332, 212, 217, 129, 256, 156, 117]),
  (36829, [156, 152, 454, 252, 125, 120, 215, 115, 104, 227, 117, 217, 315, 327]),
  (36830, [445, 100, 107, 152, 125, 252, 207, 127, 230, 330, 156, 134, 120, 327, 325, 225, 227, 130, 315, 104, 162, 128, 320, 256, 331, 115, 215, 129, 332, 132, 217, 329, 317, 220, 362, 231, 232, 229]),
  (36831, [400, 100, 107, 252, 207, 152, 227, 220, 327, 362, 162, 127, 320, 215, 125, 115, 143, 256, 325, 315, 128]),
  (36834, [215, 315, 262, 162, 320, 220]),
  (36836, [459, 162, 262, 327]),
  (36837, [100, 115, 401, 227, 402, 107, 120, 327]),
  (36838, [413, 130, 227, 327, 325, 230, 330, 125, 129, 232, 229]),
  (36840, [413, 227]),
  (36841, [413, 215, 220, 225, 227, 315]),
  (36842, [127, 130, 227, 327, 232, 427, 332, 330, 132, 329, 129, 230, 229, 256, 325, 331, 131, 125, 315, 252, 228]),
  (36843, [152, 207, 252, 454, 200, 100, 115, 125, 256, 325, 215, 156, 104, 201]),
  (36845, [407, 207, 152, 256, 252, 227, 120, 156, 215, 330, 320, 327, 125, 129, 220, 332, 225]),
  (36846, [427]),
  (36848, [204, 252, 256, 454, 225, 206, 152, 227, 325, 327, 220, 125, 115, 328, 104]),
  (36855, [252, 152, 452, 100, 125, 225, 320, 104, 315, 362, 162, 120, 227, 200, 232, 215, 115, 256, 156, 329, 132, 327, 262, 129, 103]),
  (36856, [452, 152]),
  (36857, [225, 125, 426, 252, 215, 315, 327, 227, 320, 220, 325, 229]),
  (36861, [152, 452, 125, 252, 320, 315, 115, 156, 215, 120, 227, 327, 325, 132, 220]),
  (36864, [152, 452, 252, 125, 156, 315, 356, 120, 220, 215, 325, 115, 256, 117, 327, 217, 320, 352, 132, 227])]

/-- hmm/pos/char_state_tab.go:5694-5757 -/
noncomputable def chars88 : List (Nat × List Nat) := [
  (36865, [452, 152, 252, 325, 125, 315, 256, 227, 156, 320, 120, 225, 115, 132, 327, 232, 332]),
  (36866, [152, 100, 200, 454, 101, 125, 325, 107, 227, 115, 402, 104, 315, 203, 120, 327, 252, 228, 156, 220, 328]),
  (36867, [152, 452, 252, 215, 125, 315, 115, 317, 325, 256, 220, 332, 117, 156, 132]),
  (36868, [127, 427, 431]),
  (36869, [252, 459, 315]),
  (36870, [125, 454, 152, 153, 426, 252, 315, 225, 325, 107, 115, 104, 100, 156, 227, 320, 256, 217, 327, 117, 200, 120, 132]),
  (36873, [152, 252, 452, 125, 325, 225, 256, 320, 156, 227, 204, 217, 327, 132, 120, 232, 115, 215, 332, 228, 331]),
  (36874, [227, 454, 200, 232, 229, 100, 125, 327, 152, 304, 215, 230, 320, 132, 330, 329, 225, 130, 331]),
  (36875, [413, 327, 229, 227]),
  (36877, [100, 115, 125, 101, 130, 327]),
  (36879, [152, 452, 100, 252, 125, 325, 232, 200, 215, 162, 120, 217, 320, 104, 156, 256, 332, 132, 220, 327, 225, 315, 362, 129, 262]),
  (36880, [107, 252, 452, 325, 152, 315, 454, 320, 125, 115, 256, 120, 332]),
  (36881, [413, 215, 227]),
  (36882, [252, 152, 452, 256, 156, 325, 227, 231, 125, 220, 120, 130, 230]),
  (36884, [225, 125, 142, 207, 204, 426, 315, 152, 320, 325, 242, 227, 215, 217, 252, 342]),
  (36886, [227, 413, 327]),
  (36887, [152, 452, 252, 125, 100, 227, 327, 256, 325]),
  (36890, [134, 125, 225, 152, 452, 256, 107, 252, 117, 200, 156, 325, 232, 227, 120, 331, 127, 130, 100, 162, 230, 320, 222, 315, 233, 231, 215, 220, 115, 131, 327, 330, 132, 362, 262, 129, 217, 207, 422, 332, 229, 317, 104, 304, 228]),
  (36891, [452, 252, 152, 215]),
  (36893, [152, 252, 454, 215, 256, 125, 220, 120]),
  (36894, [454, 152, 252, 120, 315, 327, 227, 115, 215]),
  (36895, [207, 125, 225, 201, 252, 325, 426, 262, 232, 152, 200, 315, 332, 256, 204, 227, 327, 104, 156, 320, 115, 215, 330, 231, 132, 352, 331]),
  (36896, [252, 152, 325, 125, 452, 256, 225, 156, 204, 320, 120, 227, 315, 220, 331, 230, 327, 115, 215, 332, 304, 100]),
  (36897, [413, 152, 327]),
  (36898, [452, 252, 315, 215, 115, 327, 120, 227, 152, 256, 320]),
  (36902, [262, 459, 227]),
  (36909, [454]),
  (36910, [152, 452, 125]),
  (36911, [427, 127]),
  (36917, [227, 413]),
  (36918, [162]),
  (36920, [454, 227, 252, 315, 327, 200, 402, 125, 215, 262, 204, 152, 115, 232, 127, 217]),
  (36923, [125, 252, 325, 320, 332, 256, 120]),
  (36924, [452, 152, 252, 315, 100, 115, 162, 156, 320, 327, 120, 256]),
  (36926, [454, 152, 315, 320, 227, 143]),
  (36929, [454, 252, 152, 115, 227, 125]),
  (36930, [407, 227, 452, 152, 130, 327, 252, 125, 220, 200, 315, 325, 129, 225, 115, 215, 320, 328]),
  (36932, [413, 315]),
  (36935, [152, 225, 452, 252, 227, 215, 220, 327, 125, 320, 325, 315, 115, 330, 256, 127, 156]),
  (36941, [201, 222, 152, 435, 252, 200, 325, 315, 125, 115, 356, 320, 422, 212, 220, 352]),
  (36943, [152, 454, 215, 252, 327, 315, 115]),
  (36944, [152, 315, 320, 156, 402, 125, 115, 227, 327]),
  (36945, [402, 125]),
  (36946, [100, 220]),
  (36947, [435, 252, 225, 125, 207, 222, 325, 327, 227, 215, 132, 220, 117, 230, 200, 152, 127, 320, 315, 142, 330, 130, 232, 331, 422, 224, 324, 115, 143, 129, 328, 229, 300, 307, 242, 317, 120, 131, 332, 362, 228, 262, 352, 203, 217, 304, 342]),
  (36951, [125, 156, 152, 100, 454, 426, 252, 325, 225, 315, 215, 330, 115, 227, 327, 320, 331, 304, 120]),
  (36952, [413, 227]),
  (36955, [452, 152, 252]),
  (36962, [200, 262, 459]),
  (36963, [454, 252, 152, 204, 325, 315, 125, 256, 120, 115]),
  (36965, [100, 152, 125, 402, 426, 156, 200, 120, 115, 315, 320, 162, 262, 227, 230, 325, 220, 201, 330, 327, 307, 107]),
  (36968, [152, 454, 327]),
  (36973, [152, 452, 125, 222, 252, 225, 215, 422, 115]),
  (36974, [152, 452, 330, 115, 125, 352, 220, 120, 132, 315, 320, 156, 130, 327]),
  (36980, [152]),
  (36981, [152, 427, 130, 454, 327, 227, 132, 120, 330, 156]),
  (36989, [200, 107]),
  (36991, [152, 252, 452, 320, 125, 156, 315, 115, 130, 330, 227, 327, 352, 120, 325]),
  (36992, [152, 452, 252, 125, 227, 115, 256, 327]),
  (36994, [152, 115]),
  (36995, [200, 402, 227]),
  (37000, [227, 402, 100, 327]),
  (37003, [100, 162, 362]),
  (37009, [426, 227, 225, 230, 327, 330, 215, 228, 238, 229])]

/-- hmm/pos/char_state_tab.go:5758-5821 -/
noncomputable def chars89 : List (Nat × List Nat) := [
  (37011, [127, 427, 130, 227, 125, 327, 128, 129]),
  (37013, [227, 417, 130, 327]),
  (37015, [130, 413, 227, 327]),
  (37017, [130, 413, 227]),
  (37019, [413, 130, 227]),
  (37021, [127, 427]),
  (37025, [413, 230, 330]),
  (37026, [127, 427, 130, 227, 327, 132]),
  (37027, [138, 438, 127, 124, 106, 230, 130, 143, 343, 330, 243, 227, 120, 225, 229, 327, 325, 132, 232, 329, 320, 125, 129, 332, 331, 315]),
  (37030, [225, 227, 426, 327, 231, 230, 330, 331, 325, 232, 125, 362, 262, 129, 329, 215, 343, 315, 130, 252, 132, 229, 332, 320, 228, 127]),
  (37034, [400, 125, 100, 252, 225, 200, 227, 315, 215, 120, 115, 103]),
  (37036, [427, 127]),
  (37038, [125, 452, 230, 117, 152, 325, 256, 331, 332, 156, 320, 225, 317, 330, 131, 252, 217, 227, 132]),
  (37039, [130, 115, 125, 131]),
  (37040, [427, 127, 327, 227]),
  (37041, [127, 427, 327, 227, 330, 230, 130]),
  (37043, [413, 130, 330]),
  (37044, [127, 427]),
  (37045, [127, 427, 130, 125, 227, 327, 128, 230, 330]),
  (37046, [413]),
  (37048, [427, 225, 227, 127, 125, 230]),
  (37049, [127, 427, 130, 128, 227, 327, 431]),
  (37050, [413, 227, 327]),
  (37051, [125, 452, 252, 152, 225, 227, 315, 132, 320, 327, 325, 220, 215, 256, 156, 130]),
  (37054, [413]),
  (37057, [200, 127, 100, 125, 262, 427, 152, 315, 115, 325, 227, 162, 327, 225, 252, 362, 128, 320, 332, 130, 132]),
  (37060, [427, 127]),
  (37061, [413, 227, 327]),
  (37063, [427, 127]),
  (37066, [242, 142, 225, 426, 230, 227, 125, 217, 152, 330, 325, 342, 320, 115, 304]),
  (37070, [225, 426, 227, 127, 125, 325, 327, 222, 217, 330, 315, 320, 229, 220, 230, 329, 235, 120, 131, 232, 352, 233]),
  (37071, [427, 130, 127]),
  (37072, [413]),
  (37073, [130, 127, 427, 128, 131, 230, 100, 227, 330, 115, 117, 327, 229, 417, 132]),
  (37075, [130, 413]),
  (37079, [127, 227, 427]),
  (37083, [413]),
  (37084, [427, 127, 227]),
  (37085, [127, 427, 227, 327, 128]),
  (37089, [425, 227, 125, 130, 327, 225, 230, 329]),
  (37090, [413, 227, 130, 327]),
  (37094, [127, 227, 427, 128, 327]),
  (37095, [130, 413, 125, 227]),
  (37096, [125, 212, 225, 222, 322, 435, 325, 231, 152, 320, 238, 422, 324, 217, 117, 331, 227, 104, 252, 327, 232, 230, 315, 204, 304, 229, 352, 242, 330, 132, 156, 317]),
  (37099, [130]),
  (37101, [127, 427, 225, 227, 330, 327, 130, 128, 315, 325, 230]),
  (37103, [413, 130, 327]),
  (37108, [130, 417, 227, 327]),
  (37112, [230, 330, 130, 315, 325, 331]),
  (37117, [407, 230, 125, 225, 207, 252, 330, 127, 130, 325, 327, 227, 232, 331, 152, 229, 332, 132, 156, 129, 256, 315, 104, 128, 329]),
  (37118, [129, 413, 130, 227]),
  (37122, [130, 127, 417, 227, 217, 117, 132, 327, 332, 317, 125, 131, 232, 330, 331]),
  (37124, [413, 130, 227]),
  (37145, [152, 402, 200, 138, 100, 320, 125, 156, 227, 315, 115]),
  (37150, [413, 130]),
  (37154, [427, 127, 125, 227, 130]),
  (37155, [413, 130]),
  (37167, [130, 413]),
  (37169, [130, 330]),
  (37177, [413]),
  (37187, [413, 227]),
  (37190, [427, 127, 227]),
  (37193, [222, 130, 322, 230, 220, 227, 143]),
  (37194, [315, 426, 125, 252, 225])]

/-- hmm/pos/char_state_tab.go:5822-5885 -/
noncomputable def chars90 : List (Nat × List Nat) := [
  (37195, [125, 230, 426, 330, 225, 331, 227]),
  (37196, [252, 454, 107, 215, 152, 227, 120]),
  (37197, [152, 256, 252, 452, 156, 125, 100, 325, 200, 132, 220, 217, 227, 225, 232, 327, 201, 315, 317, 115, 320, 330]),
  (37198, [413]),
  (37200, [225, 232, 413, 325]),
  (37202, [425, 125, 225, 252, 256, 325, 130, 143, 315, 227, 115, 331, 152, 231, 232, 132, 215, 327, 220, 120, 320, 352, 104, 330, 131, 332, 129]),
  (37207, [152]),
  (37210, [225, 425, 232, 125, 132, 325, 120, 332]),
  (37213, [152, 143]),
  (37214, [132, 413, 225]),
  (37217, [454]),
  (37218, [413, 252]),
  (37219, [402, 152, 100, 262, 115, 107, 315, 125, 227, 327]),
  (37220, [413]),
  (37221, [400, 125, 100, 225, 152, 362, 204, 325, 262, 227, 162, 215, 327]),
  (37225, [115, 152]),
  (37226, [225, 132, 125, 325]),
  (37228, [225, 426, 252, 152, 125, 454, 220, 325, 215, 332, 156, 320, 352]),
  (37230, [413, 225, 232, 325, 125, 332]),
  (37231, [426, 225, 232, 125, 325, 220, 332, 132]),
  (37232, [125, 325, 459, 332, 225, 320, 232]),
  (37233, [425, 225, 125, 452, 325, 315, 320, 215, 232, 104, 132]),
  (37234, [413]),
  (37236, [413]),
  (37237, [252, 125, 325, 256, 152, 331, 132]),
  (37238, [425, 225, 220, 325, 125, 232, 227]),
  (37239, [200, 152, 407, 125, 100, 325, 320, 227, 120, 143]),
  (37240, [225, 325, 425, 125, 332, 232, 200, 100, 162, 252, 132, 203, 356, 152, 362, 115, 400, 220, 320, 315, 103, 256, 104]),
  (37241, [454]),
  (37245, [400]),
  (37246, [454]),
  (37247, [156, 252, 152, 452, 125, 225, 343, 227]),
  (37253, [413]),
  (37255, [225, 402, 232, 100, 227, 332, 200, 125, 132, 325, 229, 115, 327, 162, 315]),
  (37257, [452, 227, 252, 327, 125, 152, 127, 325, 256, 315, 215, 115, 228, 162, 220, 130, 320, 232, 132]),
  (37259, [425, 125, 225, 215, 252, 232, 325, 132, 320, 152, 332]),
  (37260, [225, 413, 232]),
  (37261, [125, 115, 459]),
  (37264, [225, 315]),
  (37265, [413]),
  (37266, [252, 452, 200, 152, 100, 220, 227, 215, 256, 327, 125, 320, 325, 120]),
  (37274, [225, 425, 232, 227]),
  (37275, [225, 425, 232, 325, 125, 320, 332]),
  (37282, [413]),
  (37290, [125, 262]),
  (37293, [413]),
  (37294, [413, 252, 327]),
  (37295, [413]),
  (37300, [130, 125]),
  (37301, [413]),
  (37306, [413, 262, 362, 252]),
  (37319, [152, 156, 452, 252, 125, 225, 127, 315, 215, 327, 325, 227, 132, 229, 130, 217, 200, 129, 332, 256, 220, 320, 117]),
  (37321, [425, 125, 225, 227, 325, 132]),
  (37322, [252, 152, 426, 225, 127, 125, 325, 315, 454, 227, 156, 256, 320, 162, 327, 132, 317, 215]),
  (37324, [412, 238, 242, 222, 235, 225, 112, 330, 230, 327, 229, 125, 329, 243, 325, 227, 130, 129, 207, 127, 315, 212, 215, 362, 320, 220, 422, 332, 115, 331, 132, 232, 228, 333, 135, 104, 120, 322, 122, 131, 107, 335]),
  (37325, [100, 125, 200, 152, 400, 252, 107, 156, 225, 130, 325, 222, 204, 104, 315, 327, 320, 162, 215, 143, 362, 220, 262, 115, 217, 120, 227, 132, 332, 207, 117, 131, 331, 317, 256, 201, 422, 129, 304, 135, 235, 328, 228, 330]),
  (37326, [125, 225, 104, 404, 100, 400, 252, 142, 227, 230, 325, 256, 215, 132, 331, 327, 200, 315, 115, 229, 156, 129, 232, 220, 320, 330, 217, 152, 127, 332, 120, 103, 130, 228]),
  (37327, [225, 425, 222, 252, 256, 207, 125, 325, 152, 220, 200, 204, 227, 120, 322, 304, 201, 320, 352, 217, 115, 215, 232, 315, 332, 331, 327, 330, 156, 218, 253]),
  (37329, [225, 125, 404, 127, 325, 426, 327, 132, 130, 227, 331, 252, 128, 332, 232, 330, 115, 220, 230, 129, 320, 315, 162, 217, 120, 143, 229, 243, 104, 304, 343, 204, 215, 329, 222, 117, 131, 100, 231, 228, 356, 256, 235, 328]),
  (37340, [315, 130, 115, 225]),
  (37492, [134, 156, 252, 152, 225, 427, 227, 125, 215, 426, 315, 327, 129, 130, 325, 352, 454, 256, 132, 115, 232, 331, 320]),
  (37518, [413, 227, 327]),
  (37550, [413, 325, 125, 330, 227, 327, 252, 204]),
  (37576, [413, 227])]

/-- hmm/pos/char_state_tab.go:5886-5949 -/
noncomputable def chars91 : List (Nat × List Nat) := [
  (37694, [452, 227, 125]),
  (37738, [459, 225]),
  (37775, [413, 104, 227, 327]),
  (37834, [125]),
  (37846, [152]),
  (37950, [413, 327, 227]),
  (37995, [227, 427, 327, 332, 132, 231, 232]),
  (38022, [413]),
  (38023, [413, 332, 227]),
  (38024, [134, 225, 125, 425, 152, 315, 115, 104, 252, 217, 325, 227, 215, 120, 204, 229, 232, 352, 327, 207, 132, 320, 220, 156]),
  (38025, [452, 125, 225, 315, 120, 227, 215, 220, 320, 232, 325, 352, 327, 152]),
  (38026, [227, 413, 327]),
  (38027, [426]),
  (38029, [426, 227]),
  (38030, [225, 426, 125, 227]),
  (38031, [327, 427, 227]),
  (38032, [413]),
  (38034, [425, 225, 332, 227, 125]),
  (38035, [152, 452, 130, 125, 252, 315, 320, 227, 120, 330, 225, 115]),
  (38036, [413]),
  (38037, [413, 125, 227, 327]),
  (38039, [227, 229, 327, 426, 325, 225, 215, 125, 315]),
  (38041, [425, 225, 125, 325, 152, 232, 132, 156, 227]),
  (38042, [425]),
  (38043, [425, 132, 225, 125, 325, 232, 327, 227]),
  (38044, [413, 327, 227]),
  (38045, [400, 200, 152, 215, 125, 100]),
  (38046, [426, 125, 225, 227, 325, 327, 256, 331]),
  (38047, [222, 425, 125, 225, 127, 235, 327, 227, 152, 130, 224, 220, 315, 215, 330, 325, 252, 115, 232, 328, 320, 128]),
  (38048, [425, 225, 232, 132, 125, 227, 332, 327]),
  (38049, [425, 125, 225, 227, 232, 327, 325]),
  (38050, [125, 225, 425, 325, 331, 227, 332, 252, 217, 327, 232, 132, 104, 231, 215, 320, 256, 120, 129, 228, 152, 330, 452, 117, 131]),
  (38051, [413, 125]),
  (38052, [454, 227, 125, 327]),
  (38053, [125, 426, 225, 227, 325, 215, 327]),
  (38054, [227, 427, 327, 417, 152, 125, 115, 130, 426, 454, 230, 129, 320, 330, 229]),
  (38055, [227, 435, 327, 125, 315, 215, 115, 320]),
  (38056, [425, 125, 325, 225, 232, 132, 332]),
  (38057, [425, 252, 225, 125, 452, 232, 152, 227, 325, 115, 215, 220, 320]),
  (38058, [413, 327]),
  (38059, [413, 227, 327]),
  (38060, [426]),
  (38061, [427, 127, 327, 227]),
  (38062, [225, 127, 427, 125, 227, 327, 304]),
  (38063, [413, 225, 227, 327, 232]),
  (38064, [227, 413, 327]),
  (38065, [425, 127, 252, 225, 125, 200, 130, 325, 235, 315, 129, 227, 128, 327, 132, 220, 232, 330, 320, 256, 229, 332, 352, 215]),
  (38066, [413, 227]),
  (38067, [452, 125, 152, 225, 227, 325, 115, 232]),
  (38068, [426, 225, 325, 125, 132, 232]),
  (38069, [426, 125, 225, 327, 227, 230, 315]),
  (38071, [413]),
  (38073, [425, 225, 227]),
  (38074, [426, 227, 225, 327, 215]),
  (38075, [452, 152, 125, 200, 225, 227, 117, 332, 315, 156, 327, 115, 220, 252, 325, 232, 132]),
  (38076, [426, 125, 232, 325, 227, 132, 327]),
  (38077, [426, 125, 332]),
  (38078, [425, 125, 225, 232, 132, 332, 227, 325]),
  (38079, [413, 227, 225, 327]),
  (38080, [425, 125, 225, 325, 327, 227]),
  (38081, [125, 225, 425, 332, 325, 127, 327, 331, 227, 252, 215, 130, 217, 162, 131, 115, 315, 320, 232, 330, 152, 132, 229, 452, 107, 104, 120, 220, 129, 256, 352, 230, 317, 328, 117, 128]),
  (38082, [425, 125, 227, 327]),
  (38083, [325, 225, 426, 125, 127, 227, 232, 327, 215, 320, 315, 132, 331, 304, 252, 220]),
  (38084, [200, 315])]

/-- hmm/pos/char_state_tab.go:5950-6013 -/
noncomputable def chars92 : List (Nat × List Nat) := [
  (38085, [425, 125, 152, 130, 232, 325, 225, 327, 227, 204, 132, 320, 332, 352]),
  (38086, [125, 152, 426, 454]),
  (38088, [425, 325, 232]),
  (38089, [227, 413, 327]),
  (38090, [413]),
  (38091, [413, 227, 225]),
  (38092, [426]),
  (38093, [413, 225, 227]),
  (38094, [227, 427, 327, 225]),
  (38096, [225, 452]),
  (38097, [413]),
  (38098, [413]),
  (38101, [425]),
  (38102, [227, 413]),
  (38103, [413]),
  (38105, [427, 125]),
  (38107, [225, 433, 315, 227, 327]),
  (38108, [425, 125, 225, 325, 130, 227, 129, 332, 327, 115, 132, 232, 217, 343, 330, 331, 315]),
  (38109, [425, 125, 225, 232, 217, 327, 104, 332, 132, 325, 227, 331]),
  (38110, [459]),
  (38111, [425, 232, 225, 227]),
  (38112, [125]),
  (38113, [452, 125]),
  (38114, [325, 222, 225, 315, 435, 422, 227]),
  (38115, [454, 125, 227, 152, 232, 132, 327]),
  (38116, [115]),
  (38117, [413]),
  (38119, [459, 225, 125, 227, 327]),
  (38120, [227, 413, 152, 327]),
  (38121, [413, 115, 152]),
  (38122, [413]),
  (38123, [413, 227, 327]),
  (38124, [425, 225, 125, 325, 227, 132, 232, 426, 332]),
  (38125, [227, 125, 426, 327, 225, 152, 315, 454, 120, 115]),
  (38126, [100, 200, 320, 220, 362, 162, 227, 327, 228, 120, 152]),
  (38127, [413, 225]),
  (38128, [452, 125, 152, 132, 332, 227]),
  (38129, [425, 426, 125, 227, 132]),
  (38130, [452, 152, 125, 225, 132, 227]),
  (38131, [426, 225, 227]),
  (38133, [225, 125, 232]),
  (38134, [125, 331, 426, 127, 225, 227, 232, 130, 325, 327, 217, 317, 132, 315, 104, 304, 117, 204, 330, 332, 256, 100, 120, 129, 252, 131, 220, 320]),
  (38135, [413, 327]),
  (38136, [452, 152, 125, 252, 227, 225, 156, 320, 115, 327, 325, 132, 328]),
  (38137, [413]),
  (38138, [452, 225, 152, 125, 115, 130, 230, 156, 100, 252, 232, 320, 325, 330, 132, 315, 332]),
  (38140, [413, 227]),
  (38141, [413]),
  (38142, [225, 426, 125, 435, 120, 227, 204, 232, 320, 327, 332, 107, 132]),
  (38143, [100, 433, 227, 115, 333, 133, 327]),
  (38144, [156, 252, 125, 256, 325, 452, 225, 152, 317, 115, 100, 220, 215, 320, 331, 120, 217, 332, 227, 315, 318]),
  (38145, [452, 252, 256, 152, 225, 125, 325, 327, 320, 227, 315, 132, 100, 232, 228, 352, 129, 215, 304, 229, 130]),
  (38146, [425, 132, 232, 227, 225]),
  (38147, [162, 120]),
  (38148, [452, 125, 152, 227, 327, 120, 225, 252]),
  (38149, [425, 225, 125, 325, 252, 320, 315, 220, 120, 352, 215, 132, 228, 327, 227]),
  (38150, [125, 129, 225, 232, 325]),
  (38151, [413]),
  (38152, [325, 125, 252, 425, 204, 225, 452, 152, 120, 332, 256, 227, 327]),
  (38153, [425, 452, 125, 225]),
  (38155, [225, 325, 252, 227, 427, 100, 125, 315, 426, 320, 327, 256, 115, 331, 220, 330, 228, 352]),
  (38156, [425, 225, 227, 325, 125, 232, 132, 327]),
  (38157, [413]),
  (38158, [413])]

/-- hmm/pos/char_state_tab.go:6014-6077 -/
noncomputable def chars93 : List (Nat × List Nat) := [
  (38159, [413, 225, 327]),
  (38160, [200, 400, 125, 152, 227, 100, 427, 327, 107, 215, 352, 225, 120, 325, 115, 232, 320]),
  (38161, [426, 325, 125, 232, 227]),
  (38162, [115, 125]),
  (38163, [413, 227]),
  (38164, [413, 125]),
  (38165, [413]),
  (38166, [459, 327, 227]),
  (38167, [425, 225, 227, 327, 232]),
  (38168, [413, 227]),
  (38169, [125, 200, 425, 452, 252, 152, 225, 215, 115, 227, 230, 315, 162, 100, 156, 325, 256, 320, 317, 352, 129, 130, 220, 204, 329, 330]),
  (38170, [425, 125, 252, 117, 225, 152, 104]),
  (38171, [452, 227, 327, 125]),
  (38173, [413]),
  (38174, [413, 327, 227]),
  (38175, [227, 413, 327]),
  (38177, [425, 327, 230, 130, 125, 227, 132, 330, 325, 332, 225, 129, 232, 117, 229, 331]),
  (38178, [413, 252, 225, 125, 256]),
  (38179, [425, 125, 315, 225, 320, 115, 252, 227, 330, 215, 232, 327]),
  (38180, [426, 225, 227, 325, 125, 222, 152, 315, 435, 320, 422, 332, 329, 232]),
  (38181, [452, 125, 325, 225, 320, 232, 315, 227, 215, 115]),
  (38182, [125, 426, 327, 130, 417, 227, 225, 115, 132, 315, 230, 330, 317, 325, 215, 129, 328, 220, 252, 402, 232, 152]),
  (38184, [425, 225, 426]),
  (38185, [452]),
  (38186, [452]),
  (38187, [413]),
  (38188, [413, 227]),
  (38189, [225, 435, 222, 125, 232, 422, 227, 327, 252]),
  (38190, [225, 425, 325, 125, 227, 327, 120, 427, 152, 104, 304, 332]),
  (38191, [125, 452, 252, 225, 325, 132, 425, 315]),
  (38192, [425, 125, 325, 225, 232, 227, 327]),
  (38193, [115, 413, 125, 327]),
  (38194, [115]),
  (38196, [227, 413, 327]),
  (38197, [200, 433, 315, 333, 233, 227, 327]),
  (38198, [426, 225, 232, 132, 227]),
  (38199, [413, 227, 327]),
  (38200, [425]),
  (38201, [425, 225, 327, 227]),
  (38202, [427, 227, 327]),
  (38203, [152, 125, 454, 225, 320, 332, 232, 227, 252, 327, 156]),
  (38206, [435, 227]),
  (38207, [413]),
  (38208, [125, 152, 452, 252, 325, 225, 256, 132]),
  (38209, [425, 225, 325, 125, 227, 132, 232, 327]),
  (38210, [152, 156, 252, 125, 115, 215, 315]),
  (38212, [413]),
  (38213, [413]),
  (38214, [459]),
  (38215, [425, 225, 230, 152, 227, 125, 130, 352, 100, 327, 238, 252, 229, 156, 325, 217, 129, 132, 115, 330, 332, 117, 131, 304, 228, 104]),
  (38217, [425, 225, 426, 232]),
  (38218, [452, 125]),
  (38220, [454, 152, 327, 227]),
  (38221, [425, 125, 225, 227]),
  (38222, [413]),
  (38223, [125]),
  (38224, [425, 227, 426, 225, 125, 327]),
  (38225, [422, 222, 235, 435, 227]),
  (38226, [435, 227]),
  (38227, [413, 225, 232, 227, 327]),
  (38228, [125]),
  (38229, [327]),
  (38230, [225, 425, 227, 125]),
  (38231, [433, 125, 227])]

/-- hmm/pos/char_state_tab.go:6078-6141 -/
noncomputable def chars94 : List (Nat × List Nat) := [
  (38232, [413, 327]),
  (38234, [325]),
  (38235, [227, 413]),
  (38236, [225, 426, 125, 232, 327, 227, 325, 130, 220, 252, 352, 117, 315, 115, 320, 330, 215, 129, 331]),
  (38237, [225, 413, 227]),
  (38238, [426, 225, 327]),
  (38241, [427]),
  (38242, [125]),
  (38243, [225, 125]),
  (38244, [413]),
  (38245, [413]),
  (38246, [413, 227, 232]),
  (38247, [125]),
  (38248, [413]),
  (38249, [225, 413]),
  (38251, [413, 225, 215, 227]),
  (38252, [413]),
  (38253, [425, 227, 104, 327]),
  (38255, [225, 125, 332]),
  (38256, [426, 125, 225, 227, 327, 252]),
  (38257, [413]),
  (38258, [425, 232]),
  (38259, [227, 413, 215, 327]),
  (38262, [452, 152, 125, 130, 227, 327, 252, 132, 330]),
  (38271, [225, 252, 400, 125, 130, 107, 325, 152, 200, 100, 327, 120, 317, 262, 362, 132, 162, 104, 129, 315, 227, 215, 115, 238, 117, 331, 131, 127, 330, 220, 204, 304, 332, 328, 320, 232, 217, 230, 228, 128, 352, 207, 156, 142]),
  (38376, [225, 425, 125, 142, 252, 230, 207, 325, 222, 330, 227, 320, 422, 127, 200, 315, 327, 331, 152, 215, 229, 332, 238, 115, 220, 232, 342, 132, 129, 356, 130, 338, 117, 242, 352, 217, 329, 204, 256, 307, 300, 231, 120]),
  (38377, [225, 425, 452, 227]),
  (38378, [152, 452, 125, 262, 162, 252, 362, 325, 320, 227, 220, 215, 315, 225, 115, 327, 104, 132, 130, 332]),
  (38379, [127, 427, 327]),
  (38381, [252, 452, 152, 325, 125, 153, 115, 204, 120, 256, 225, 100, 156, 320, 315, 104, 200, 317, 332, 352]),
  (38382, [125, 452, 152, 252, 225, 220, 256, 156, 227, 315, 320, 325, 232, 215, 115, 120, 127, 331, 327, 352]),
  (38383, [129, 452, 152, 327, 227, 125, 315, 120, 252, 228, 215]),
  (38384, [427, 125, 227, 404, 143, 327]),
  (38385, [413, 225, 227, 252, 327]),
  (38386, [452, 125, 152, 200, 252, 256, 320, 225, 262, 100, 315, 103, 215, 115, 104, 120, 325, 227, 143, 352, 327, 253, 300, 156, 201, 362]),
  (38387, [413, 227, 327]),
  (38388, [225, 212, 412, 243, 222, 125, 104, 325, 242, 207, 238, 252, 152, 220, 320, 215, 230, 422, 107, 332, 227, 120, 217, 327, 330, 315, 229, 132, 352, 331, 312, 232, 322, 256, 156]),
  (38389, [127, 427, 130, 227, 327]),
  (38390, [459]),
  (38391, [452, 200, 252, 125, 100, 103, 115, 315, 225, 120, 152, 362, 162, 352, 300, 107, 104, 201]),
  (38392, [425, 225, 125, 252, 325, 256, 130, 230, 452]),
  (38393, [452, 200, 152, 252, 125, 162, 362, 262, 320, 220, 352, 325, 120, 256, 227, 215, 156, 100, 130, 132]),
  (38394, [125, 315, 225, 325]),
  (38395, [225, 452, 152, 127, 325, 227, 215, 252, 315, 120, 327, 115, 331, 232, 200, 125, 220, 128, 320, 130, 317, 332, 228, 330, 132, 328, 230]),
  (38396, [413, 227]),
  (38397, [417, 130, 117, 125, 131, 132, 227, 327, 217, 129]),
  (38398, [427, 225, 127, 125, 330, 227, 327, 315]),
  (38400, [225, 425, 220, 125, 232]),
  (38401, [225, 227, 426, 125, 252, 325, 230, 327, 220, 232, 215, 330, 315]),
  (38402, [225, 454, 327]),
  (38403, [413]),
  (38404, [252, 426, 352]),
  (38405, [152, 252, 454, 156, 125, 256, 227, 327, 325, 225]),
  (38406, [459, 130, 125, 327, 227]),
  (38407, [125]),
  (38408, [125, 225]),
  (38409, [452, 125, 152]),
  (38410, [459, 327]),
  (38411, [413, 315, 227, 152, 320]),
  (38412, [413]),
  (38413, [426]),
  (38414, [127, 125, 427, 327, 325, 128, 225, 227]),
  (38415, [459, 125]),
  (38416, [152, 454, 227, 327, 156])]

/-- hmm/pos/char_state_tab.go:6142-6205 -/
noncomputable def chars95 : List (Nat × List Nat) := [
  (38417, [426, 125, 152, 227, 252, 327, 315]),
  (38418, [413, 115]),
  (38420, [200, 125, 400, 252, 315, 100, 227, 215, 152, 325, 203, 327, 320, 107, 130]),
  (38421, [435, 222, 225, 422, 227]),
  (38422, [215, 125, 115, 120]),
  (38423, [230, 413, 227, 327]),
  (38425, [427, 435, 227, 127, 426, 327, 225, 215, 152]),
  (38426, [127, 427]),
  (38428, [130, 230, 330, 320, 225, 229, 131, 331]),
  (38431, [225, 125, 425, 231, 222, 252, 325, 238, 320, 215, 217, 232, 422, 227, 220, 327, 142, 207, 256]),
  (38433, [125, 330, 228]),
  (38434, [459]),
  (38442, [230, 227, 130, 330, 331]),
  (38446, [127, 427, 227, 327, 128]),
  (38449, [225, 413]),
  (38450, [152, 252, 156, 125, 225, 452, 325, 117, 331, 204, 256, 120, 215, 132, 207, 320, 130, 115, 227, 104, 131, 232, 315, 327, 217, 317, 220, 229]),
  (38451, [230, 225, 125, 227, 330, 325, 127, 327, 404, 426, 130, 332, 252, 427, 243, 152, 232, 229, 320, 343, 331, 315, 328, 129, 115, 204, 132, 131, 220, 100, 228, 215, 120, 417, 231, 256, 402, 217]),
  (38452, [125, 400, 127, 100, 225, 230, 152, 130, 115, 330, 103, 227, 327, 162, 142, 325, 120, 229, 252, 315, 220, 104, 320, 342, 362, 143, 352, 232]),
  (38453, [222, 125, 426, 225, 322, 252, 227, 135, 152, 235, 142, 320, 215, 315, 343, 327, 325, 220, 156, 129, 217, 332, 331, 232, 256, 338, 304, 422, 317]),
  (38454, [125, 325, 426, 225, 320, 343, 120, 227, 132, 104, 327, 304, 215, 352, 328]),
  (38459, [152, 125, 252, 452, 225, 325, 156, 215, 227, 256, 220, 315, 132, 332]),
  (38460, [413]),
  (38461, [413]),
  (38463, [127, 130, 125, 417, 129, 327, 132, 330, 227, 230, 131, 329, 215, 152, 229, 115, 331, 117, 315, 225, 232, 325, 104, 133]),
  (38464, [325, 125, 225, 230, 330, 129, 229, 232, 200, 227]),
  (38466, [459, 230, 225, 125, 330, 130]),
  (38468, [112, 452, 125, 152, 252, 104, 156, 315, 325, 107, 117, 256, 317, 332, 115, 331, 330, 327, 215, 229, 227]),
  (38469, [225, 307, 212, 325, 331, 426, 220, 352, 204, 332, 215, 231, 320, 232, 125, 356, 252, 330, 454, 327, 262, 315, 304, 227, 256, 317, 343]),
  (38470, [225, 125, 127, 107, 252, 325, 242, 422, 230, 331, 130, 142, 227, 427, 327, 426, 232, 117, 131, 120, 307, 315, 317, 220, 152, 217, 132, 332, 330, 124, 417, 320, 224, 100, 128]),
  (38471, [417, 130, 132, 125, 227, 327, 129, 330, 225, 315]),
  (38472, [127, 427, 152, 128, 125, 315, 227, 100, 327, 252, 225, 130, 220, 325, 115, 230, 129, 132, 332]),
  (38473, [230, 413, 330]),
  (38475, [200, 125, 402, 315]),
  (38476, [100, 125, 402, 225, 142, 227, 152, 327]),
  (38477, [252, 152, 452, 125, 256, 325, 225, 156, 215, 227, 327, 243, 320, 115, 220, 317, 132, 332, 315, 352]),
  (38480, [325, 152, 225, 452, 200, 252, 125, 320, 331, 156, 243, 227, 315, 327, 120, 132, 352, 104, 332, 220, 217]),
  (38484, [413]),
  (38485, [130, 417, 117, 427, 131, 225, 227, 125, 327, 132, 230, 331, 330]),
  (38491, [125]),
  (38495, [413, 330, 327, 227, 115, 230]),
  (38497, [400, 100, 125, 107, 152, 130, 230]),
  (38498, [225, 125, 231, 425, 217, 220, 252, 325, 232, 331, 230, 227, 238, 142, 317, 242, 330, 327, 215, 229, 130, 320, 304, 256, 132, 117]),
  (38500, [434, 252, 134, 152, 106, 125, 120, 143, 132, 325, 315, 320, 156, 215, 332, 115, 227, 225, 256]),
  (38503, [459]),
  (38504, [125, 454, 152, 327]),
  (38505, [225, 203, 325, 252, 400, 100, 200, 125, 217, 107, 220, 215, 315, 256, 327, 331, 332, 231, 120, 152, 320, 227, 204]),
  (38506, [452, 152, 125, 252, 227, 156, 217, 225, 327, 325, 220, 120]),
  (38508, [413]),
  (38514, [225, 242, 413]),
  (38516, [413]),
  (38517, [225, 230, 426, 227, 125, 330, 325, 327, 130, 229, 332, 217, 231, 232, 329, 331, 152, 252, 328, 342]),
  (38518, [125, 127, 427, 152, 327, 225, 330, 227, 252, 256, 229, 320, 130, 332, 128, 230, 132, 325, 315, 402, 232, 156, 120, 454, 431, 129]),
  (38519, [152, 252, 452, 225, 125, 315, 325, 215, 120, 256]),
  (38533, [426, 225, 212, 315, 229, 330, 215, 220, 227]),
  (38534, [227, 230, 143, 127, 427, 152, 100, 233, 243, 327, 330, 133, 130, 125, 333, 200, 252, 232, 325, 362, 229, 101, 225, 132, 156, 215, 204, 332, 331, 262, 220, 329, 402, 328]),
  (38536, [413]),
  (38539, [143, 427, 127, 227, 444, 129]),
  (38541, [230, 330, 413, 130]),
  (38543, [134, 107, 452, 252, 101, 152, 125, 120, 115, 100, 325, 315, 104, 320, 130, 162, 362, 227, 230, 327, 225, 156, 215, 220]),
  (38544, [152, 125, 452, 162, 227, 100, 104, 262, 362, 315, 252, 330, 120, 115, 327, 320, 215, 325, 156, 230]),
  (38548, [452, 252, 152, 225, 156, 125, 142, 104, 320, 120, 132, 107, 227, 325, 115, 215, 315, 220, 130, 131]),
  (38551, [227, 127, 427, 327]),
  (38552, [225, 125, 200, 426, 325, 327]),
  (38553, [225, 426, 315, 207, 125, 215, 220])]

/-- hmm/pos/char_state_tab.go:6206-6269 -/
noncomputable def chars96 : List (Nat × List Nat) := [
  (38556, [252, 125, 225, 256, 325, 426, 304, 331, 152, 204, 315, 132, 332, 217, 317]),
  (38567, [125, 426, 325, 225, 331]),
  (38576, [413, 130, 227]),
  (38579, [413]),
  (38582, [225, 152, 325, 230, 417, 320, 125, 327, 227, 426, 331, 252]),
  (38585, [413, 227, 327]),
  (38588, [413, 225, 227, 327]),
  (38589, [459, 227, 100, 327, 315]),
  (38590, [400, 107, 203, 125, 152, 100, 225, 200, 252, 207, 315, 320, 120, 115, 325, 215, 220, 262, 256, 227, 204, 327, 132, 331, 330, 317, 217]),
  (38592, [225, 426, 315, 125, 325, 327, 330, 320, 132, 215, 130, 152, 227, 131, 304, 220, 230]),
  (38593, [327, 227, 425, 127, 130, 225, 125, 129, 330, 215, 132, 120, 232, 115, 315]),
  (38596, [225, 227, 125, 100, 404, 426, 104, 320, 230, 427, 327, 325, 162, 330, 115, 252, 152, 215, 120, 262, 315, 130, 332, 220, 200, 132, 229, 129, 328, 228]),
  (38597, [130, 200, 402, 227, 230, 327, 127, 125, 132, 330, 325, 129, 100, 229, 225, 215, 332, 262, 232, 329, 120, 152, 320, 203, 220, 331, 131]),
  (38598, [125, 152, 252, 435, 225, 331, 200, 325, 454, 156, 256, 227, 222, 230, 120, 132, 327, 332, 130, 215, 422, 104, 129, 217, 330, 320, 117, 232, 115, 304, 315, 343]),
  (38599, [152, 125, 452, 120, 252, 156, 325]),
  (38601, [426, 225, 125, 227, 327]),
  (38604, [404, 125, 120, 104, 320, 315, 132, 352, 325, 152, 332, 227]),
  (38605, [125, 227, 427, 127, 327, 417, 330, 130, 162, 115, 132, 120, 143, 325]),
  (38606, [227, 413, 225, 125]),
  (38607, [125, 426, 252, 225, 227, 327, 132, 215]),
  (38610, [427, 127, 230]),
  (38613, [125, 225, 452, 152, 227, 104, 315, 115, 215, 229, 120, 232, 325, 156]),
  (38624, [413]),
  (38632, [425, 225, 125, 227, 325, 252, 315, 215, 127, 327, 143, 220, 256, 228, 115, 320, 130, 120, 243, 232, 332, 204, 229]),
  (38633, [413, 230]),
  (38634, [225, 425, 125, 227, 127, 327, 252, 162, 132, 315, 325, 115, 256, 330, 220, 215, 130, 228, 152, 143, 320, 352, 129, 229, 142, 104, 232, 120, 328, 128]),
  (38639, [232, 227, 427, 327, 228]),
  (38643, [225, 215, 325, 227, 332]),
  (38646, [125, 156, 422, 322, 100, 122, 362, 124, 107, 252, 262, 142, 215, 315, 162, 222, 233, 152, 320, 227, 256, 115, 352, 143, 103, 327, 225, 333, 120, 131, 325]),
  (38647, [125, 127, 225, 227, 425, 327, 252, 325, 152, 130, 330, 329, 229, 315, 129, 115, 230, 215, 320, 256, 332, 120, 220, 331, 132, 232]),
  (38649, [225, 426, 125]),
  (38654, [225, 425, 125, 130, 252, 215, 162, 227, 330, 320, 327, 152, 325, 115, 220, 315, 120, 232, 332, 129]),
  (38656, [152, 125, 452, 225, 252, 325, 220, 156, 215, 320, 352, 227, 256, 327]),
  (38657, [454, 227, 327, 115, 125, 315]),
  (38660, [227, 225, 427, 315, 327, 125, 215, 330, 252, 115, 232]),
  (38662, [225, 227, 215, 413, 327, 315]),
  (38663, [152, 225, 156, 452, 227, 125, 327, 325, 115, 143, 252, 256, 132, 320, 220, 315, 228, 328, 352, 331, 130, 317]),
  (38664, [227, 413]),
  (38665, [325, 200, 125, 425, 452, 225, 252, 152, 332, 220, 100, 352, 156]),
  (38669, [127, 227, 427, 417, 130, 252, 107, 327, 125, 129, 131, 315, 330, 229, 215, 329, 230, 128, 325, 132]),
  (38670, [107, 343, 243, 143]),
  (38671, [162, 262, 327, 227]),
  (38675, [125, 225]),
  (38678, [227, 427, 327, 225, 125]),
  (38684, [425, 343, 225, 125, 227, 215, 232, 327, 143, 315, 332, 132, 152, 325, 204]),
  (38686, [227, 225, 425, 327, 125, 330, 426, 228, 230, 130, 315, 332, 120, 320, 220, 215, 427, 132]),
  (38698, [125, 459]),
  (38701, [426, 225, 227, 262, 162, 327]),
  (38704, [125, 325]),
  (38706, [252, 152, 452, 125, 225, 315, 227, 327, 232, 100, 215, 243, 320, 230, 332, 132, 129, 330, 256, 229, 325, 220, 200, 352, 130]),
  (38712, [125, 425, 227, 252, 152, 325, 225, 327, 130, 232, 454, 332, 215, 315, 120, 256, 230, 320, 220, 330, 229, 100]),
  (38713, [125, 315, 327, 132]),
  (38718, [225, 413]),
  (38738, [125, 130, 400, 227, 152, 327, 127, 225, 117, 325, 104, 331, 131, 262, 143, 115, 132, 100, 162, 317, 320, 252, 228, 120, 315, 200, 330, 204, 215, 256, 129, 232, 230, 220, 229, 362, 332, 217, 328]),
  (38739, [100, 413, 125, 227, 327, 315]),
  (38742, [243, 227, 127, 130, 327, 427, 252, 230, 417, 232, 330, 132, 229, 325, 315, 228]),
  (38745, [200, 125, 452, 152, 225, 227, 162, 362, 127, 400, 252, 327, 100, 325, 120, 130, 215, 156, 262, 220, 315, 132, 232, 329, 356, 129, 330, 228, 332, 115, 320, 328]),
  (38747, [104, 225, 125]),
  (38750, [107, 414, 104, 407, 252, 130, 230, 207, 125, 206, 225, 215, 162, 315, 227, 320, 115, 120, 327, 106, 330, 117, 129, 152, 331, 156, 325, 220, 132, 131, 317, 229, 332, 217, 127, 328, 228]),
  (38752, [452, 252, 200, 152, 325, 134, 125, 100, 215, 115, 120, 227, 315, 352, 232]),
  (38753, [454, 200, 252, 315, 215, 227, 103, 125, 325, 100, 115]),
  (38754, [225, 125, 212, 425, 152, 206, 112, 201, 207, 252, 325, 222, 204, 224, 142, 315, 115, 307, 220, 200, 320, 120, 215, 332, 100, 331, 227, 352, 422, 327, 232, 256, 330, 132, 329, 300, 322, 217, 362, 324, 262, 435, 130]),
  (38757, [413, 225, 227]),
  (38761, [256, 156, 332, 325, 225, 125, 454, 331, 320, 152, 220, 217, 252, 132, 227, 117, 330, 230, 352, 232, 327, 315, 129, 115, 130, 317, 229])]

/-- hmm/pos/char_state_tab.go:6270-6333 -/
noncomputable def chars97 : List (Nat × List Nat) := [
  (38771, [127, 427, 327, 227]),
  (38772, [426, 125, 225, 232, 132, 315, 332]),
  (38774, [434, 125, 435, 225, 252, 426, 256, 325, 227, 132]),
  (38780, [225, 459, 330]),
  (38789, [227, 459]),
  (38795, [225, 425, 125, 252, 325, 227, 215, 232, 220, 132, 332, 117, 130]),
  (38797, [426, 125, 225, 130, 330, 115, 327, 325, 227, 328, 331, 132, 131]),
  (38801, [125, 130]),
  (38802, [413, 227]),
  (38804, [452]),
  (38808, [225, 125, 252, 330, 325, 220]),
  (38816, [152, 427, 454, 127, 115, 125, 225, 327, 227, 128]),
  (38819, [452, 125, 152, 325]),
  (38827, [413]),
  (38829, [125, 425, 152, 225, 452, 252, 227, 325, 115, 215, 315, 156, 426, 220, 232]),
  (38831, [459, 225]),
  (38834, [459]),
  (38836, [459]),
  (38886, [127, 427, 227, 327, 230, 129, 225, 329, 229, 330, 130, 331, 132, 115, 128]),
  (38887, [125, 200, 402, 227, 120, 325, 315, 232, 332, 327, 201]),
  (38889, [127, 417, 130, 227, 128, 131, 132, 327, 125, 230, 129, 322, 330, 225, 331, 122, 427]),
  (38890, [215, 459, 327, 227]),
  (38891, [227, 413, 327]),
  (38892, [125, 115, 328, 152, 228, 127, 327, 315, 132]),
  (38893, [125, 132, 327]),
  (38899, [225, 125, 425, 325, 252, 227, 331, 131, 232, 320, 330, 327, 256, 215, 204, 315, 120, 115, 117, 132, 230, 220, 332]),
  (38901, [425, 225, 125, 227, 325, 200, 327, 332, 320, 315]),
  (38902, [130, 320, 227, 127, 327, 427, 417, 132, 131, 125]),
  (39029, [422, 222, 225, 125, 435, 325, 329, 320, 227, 204, 327]),
  (39030, [452, 225, 125, 112, 152, 222, 330, 107, 252, 325, 227, 115, 230, 315, 262, 100, 204, 327, 256, 215, 104, 422, 120, 242, 132, 320, 220, 162, 130, 331, 207, 200]),
  (39031, [222, 235, 143, 107, 207, 435, 115, 422, 327, 220, 129, 227]),
  (39032, [200]),
  (39033, [125, 222, 238, 225, 435, 422, 204, 127, 252, 232, 325, 130, 207, 320, 332, 115, 327, 230, 227, 128]),
  (39034, [227, 101, 125, 107, 452, 327, 400, 152, 134, 232, 143, 252, 100, 230, 200, 215, 130, 129, 115, 228, 330, 132, 229, 315, 243, 120, 162, 362, 117, 320, 104, 156, 331, 231, 256, 332, 328, 225, 325]),
  (39035, [207, 407, 225, 125, 127, 143, 252, 152, 327, 315, 325, 330, 120, 227, 130, 320, 229, 332, 215, 129]),
  (39036, [225, 227, 413, 327]),
  (39037, [100, 402, 125, 152, 200, 315, 327, 132, 120, 227, 325, 115]),
  (39038, [252, 127, 125, 452, 152, 315, 207, 215, 115, 225, 320, 331, 104, 120, 220, 327, 307, 227, 128, 100, 325, 256, 317, 130]),
  (39039, [107, 222, 252, 435, 230, 227, 229, 152, 235, 331, 315, 130, 200, 330, 220, 325, 327, 332, 125, 232, 452, 215, 115, 320, 422, 256, 129, 156, 343]),
  (39040, [162]),
  (39041, [152, 454, 156, 227, 327, 125, 256]),
  (39042, [252, 452, 152, 125, 454, 227, 315, 327, 228, 225, 220, 115]),
  (39043, [252, 459]),
  (39044, [152, 156, 125, 407, 252, 107, 256, 320, 227, 104, 327, 325, 304, 132, 315, 117, 120, 331, 143, 317]),
  (39045, [225, 426, 125, 142, 215, 252, 325]),
  (39046, [125, 252, 225, 452, 152, 156, 227, 325, 320, 120, 327, 315, 215, 204, 220, 104, 331, 232, 330]),
  (39047, [407, 152, 107, 232, 120, 203, 332, 330, 229, 262, 227, 315, 220]),
  (39048, [426, 225, 125, 325, 142, 252, 332]),
  (39049, [427, 327, 227, 232, 152]),
  (39050, [225, 426, 125]),
  (39052, [225, 325, 125]),
  (39053, [413, 130, 132, 327, 229, 227, 330]),
  (39055, [426, 225, 325]),
  (39056, [130, 115, 228, 152, 220, 132, 120, 252]),
  (39057, [125, 100, 225, 207, 107, 426, 204, 152, 402, 252, 256, 325, 227, 327, 232, 315, 320, 332, 217, 132]),
  (39059, [100, 125, 454, 162, 252, 227, 320, 315, 120]),
  (39060, [152, 454]),
  (39062, [427, 200, 227, 315, 327, 125, 100, 325, 228]),
  (39063, [222, 435, 125, 422, 132, 327, 325, 152]),
  (39064, [225, 125, 425, 152, 252, 325, 220, 315, 227, 320, 452, 200, 215, 332, 130]),
  (39066, [225, 125]),
  (39067, [125, 413, 130, 327]),
  (39068, [125, 127, 227, 315, 225, 327, 427, 426, 229, 330, 320, 417, 252, 215, 230, 115, 220, 120, 232]),
  (39069, [225, 125, 425, 204, 252, 104, 325, 130, 107, 127, 128, 232, 215, 327, 227, 129, 253, 207, 115, 320])]

/-- hmm/pos/char_state_tab.go:6334-6397 -/
noncomputable def chars98 : List (Nat × List Nat) := [
  (39070, [125]),
  (39071, [100]),
  (39072, [152, 452, 230, 115, 156, 315, 125, 362, 262, 100, 400, 215, 220, 162, 242, 252, 227, 120, 352]),
  (39073, [413]),
  (39074, [227, 413, 327]),
  (39076, [152, 452, 252, 162, 225, 125, 362, 256, 215, 315, 156, 325, 220]),
  (39077, [225]),
  (39078, [413, 320, 215, 252]),
  (39079, [125]),
  (39118, [125, 225, 425, 252, 315, 227, 325, 115, 320, 152, 100, 220, 327, 215, 120, 256, 230, 330, 332, 232, 352, 200, 229, 104, 238, 156, 132, 228, 130, 331, 131, 317, 342, 217, 117, 129, 328, 304]),
  (39121, [413]),
  (39122, [162, 262, 315, 120, 107, 327, 227, 200]),
  (39123, [125]),
  (39125, [433, 262, 362, 233, 133]),
  (39128, [152, 452, 362, 252, 107, 315, 262, 100, 162, 125, 156, 327, 115, 200, 227, 120, 320, 256, 127, 352]),
  (39129, [152, 225, 320, 228, 125]),
  (39130, [252, 228]),
  (39134, [125, 452, 152, 227, 252, 156, 327, 132, 315, 325, 162, 107, 115, 215, 127, 217, 320, 225, 130, 331, 232, 220, 228, 120, 256, 131, 330, 104, 129, 100, 204, 229]),
  (39135, [125, 225, 452, 252, 152, 320, 325, 215, 120, 104, 315, 327, 115, 331, 220, 204, 332, 256, 132, 330, 232, 217, 156]),
  (39143, [413]),
  (39144, [454, 210, 125, 152]),
  (39181, [413]),
  (39184, [125, 225, 426, 252, 222, 325, 256, 220, 315, 215, 238, 422, 217, 115]),
  (39214, [459, 225, 315, 227, 327]),
  (39252, [413, 227]),
  (39253, [125, 115]),
  (39268, [225]),
  (39269, [125, 426, 252, 115, 315, 120, 200, 352, 152, 402, 215, 320, 220]),
  (39270, [225]),
  (39271, [452, 125]),
  (39272, [459, 225]),
  (39273, [413]),
  (39274, [252, 225, 413, 331]),
  (39275, [413]),
  (39276, [413, 252]),
  (39277, [425, 252, 225, 125, 143, 220, 325, 330, 215, 315, 320, 227, 204, 115, 256, 132, 120, 352, 229]),
  (39278, [125, 452, 152, 225, 252, 325, 120, 320, 115, 315, 227, 156, 215, 117, 232, 327, 130]),
  (39279, [152, 225]),
  (39280, [252, 225, 452, 325, 125, 152, 227, 315, 204, 256, 320, 331, 132, 232, 332]),
  (39281, [152, 400, 452, 100, 332, 156, 115, 225, 125, 315, 320, 120, 215, 252, 220, 227, 304, 325, 356]),
  (39282, [125, 152, 454, 252, 325, 132, 104]),
  (39283, [225]),
  (39284, [125, 215, 225, 315]),
  (39285, [125, 225, 426, 227, 325]),
  (39286, [452, 152, 127, 200, 252, 230, 120, 227, 215, 330, 320, 327, 130, 325, 427, 115]),
  (39287, [225, 125, 252]),
  (39290, [125, 426, 225]),
  (39292, [225, 425, 125, 252, 325, 227, 315, 332, 132, 232]),
  (39293, [125, 225]),
  (39294, [125]),
  (39295, [452, 152, 225, 125, 252, 215, 115, 325, 320, 120]),
  (39296, [413, 227, 327]),
  (39297, [200, 454, 252, 215]),
  (39300, [125]),
  (39301, [426, 125, 225, 252, 232, 204, 352]),
  (39302, [225, 426, 125, 230, 231, 325, 130, 238, 227, 256, 252, 232, 352, 331, 215, 152, 320, 217]),
  (39303, [459]),
  (39304, [252, 152, 225, 156, 125, 325]),
  (39305, [125]),
  (39306, [400, 125]),
  (39307, [400, 252, 200, 125, 115]),
  (39309, [225, 125, 252, 232]),
  (39310, [125]),
  (39311, [252, 125, 325, 225, 452])]

/-- hmm/pos/char_state_tab.go:6398-6461 -/
noncomputable def chars99 : List (Nat × List Nat) := [
  (39312, [413, 225]),
  (39313, [459, 225]),
  (39314, [125, 130, 327]),
  (39315, [426, 125, 225]),
  (39316, [413, 225, 315]),
  (39317, [413, 227]),
  (39318, [125, 122, 107, 422, 143, 252, 152, 225, 104, 222, 115, 215, 315, 156, 212, 322, 327, 132, 130, 230, 325, 131, 330, 320, 243, 117, 227, 120, 220, 331, 207, 217, 332, 328]),
  (39319, [225, 413, 227, 327]),
  (39320, [413]),
  (39321, [130, 125, 400, 225, 227, 327, 127, 252, 131, 325, 330, 100, 132, 162, 332, 200, 315, 129, 215, 232, 204, 229, 362, 320, 120, 104, 262, 331, 115, 230, 220, 128, 228]),
  (39333, [227, 162, 402, 327, 229, 328]),
  (39336, [227, 200, 426, 225, 125, 327, 325, 203, 220]),
  (39532, [425, 127, 225, 125, 230, 130, 252, 330, 327, 107, 325, 227, 232, 315, 129, 329, 207, 215, 135, 229, 332, 132, 128, 115, 220, 100, 320, 117, 331, 322, 120, 304, 352, 328, 122, 131, 256, 143, 231, 307, 104, 243]),
  (39533, [252, 315, 325, 125]),
  (39534, [452, 152, 125, 332]),
  (39535, [125, 152, 452, 227, 215, 100, 200, 156]),
  (39536, [454, 252, 152, 115, 227, 315, 215, 200, 232, 327, 331, 256, 132, 120, 332]),
  (39537, [152, 454, 125, 156, 225, 252, 325, 315, 227, 215, 320, 332, 327]),
  (39539, [252, 452, 152, 125, 262, 220, 256, 325, 156, 227, 100, 225, 362, 315, 200]),
  (39540, [425, 225, 125, 227, 325, 315, 327, 215, 152, 220, 115, 130, 120, 252]),
  (39541, [413]),
  (39542, [252, 325, 152, 454, 332, 452, 227]),
  (39543, [115, 125, 315]),
  (39544, [125]),
  (39545, [225, 426, 227, 327, 125, 330, 315, 325]),
  (39546, [413]),
  (39547, [452, 125, 152, 252, 156, 130, 331, 227, 115, 131]),
  (39548, [225, 452, 125, 325, 332, 228]),
  (39549, [100, 125]),
  (39550, [152, 452, 125, 252, 222, 225, 227, 132, 117, 315, 327, 115, 435, 422, 120, 256]),
  (39551, [125, 230, 152, 228, 130, 330]),
  (39552, [459]),
  (39553, [100, 125, 115, 327]),
  (39554, [452, 252, 152, 215, 125, 315, 362, 162, 256, 120, 325, 220, 225]),
  (39556, [100, 402, 125, 115, 227, 225, 315, 120, 215, 327]),
  (39557, [230, 330, 427, 227, 125]),
  (39558, [125, 127, 427, 130, 132, 227, 325, 327]),
  (39559, [200, 115, 315, 162, 100, 125, 225, 330]),
  (39560, [125]),
  (39562, [413, 130, 227, 327, 315]),
  (39563, [252, 454, 215, 327, 227, 320]),
  (39564, [256, 225, 252, 325, 152, 452, 156, 200, 125, 331, 227, 315, 220, 332, 204, 120, 327, 132]),
  (39567, [227, 426, 125, 327, 332, 402, 129]),
  (39568, [413, 125, 227, 327]),
  (39569, [452, 125, 152, 225, 227, 325, 327, 130, 252, 115, 104, 331, 315, 256, 215, 352]),
  (39570, [125]),
  (39571, [413]),
  (39574, [452]),
  (39575, [452, 252, 125, 152, 256, 325, 215, 220]),
  (39576, [225, 413, 227]),
  (39578, [152, 225, 400, 252, 215, 125, 156, 230, 327, 227, 115, 320, 220, 232]),
  (39579, [413, 315, 220, 225, 215]),
  (39580, [227, 315, 200, 327, 413]),
  (39581, [413, 227, 225]),
  (39582, [227, 413, 327, 228]),
  (39583, [452]),
  (39584, [125, 459, 325, 227]),
  (39585, [125, 426, 225]),
  (39586, [227, 413, 327]),
  (39587, [413]),
  (39588, [225, 107, 407, 152, 220, 201, 125, 315, 156, 227, 320, 115]),
  (39589, [227, 327, 427, 215, 426, 315, 225]),
  (39591, [227, 454, 217, 327, 315, 228]),
  (39592, [125, 426, 225, 325, 152, 215, 315, 252, 227, 262, 327, 320, 200, 132, 115, 220, 307, 120, 332, 162, 330, 352, 331, 133])]

/-- hmm/pos/char_state_tab.go:6462-6525 -/
noncomputable def chars100 : List (Nat × List Nat) := [
  (39600, [125]),
  (39601, [413]),
  (39606, [325, 125]),
  (39607, [125]),
  (39608, [225, 125, 215, 325]),
  (39610, [459]),
  (39612, [225, 325, 459]),
  (39616, [413, 115]),
  (39617, [413]),
  (39618, [125]),
  (39621, [225, 459]),
  (39627, [125]),
  (39628, [125]),
  (39633, [125]),
  (39635, [225, 413, 325, 125, 215, 252]),
  (39640, [400, 125, 252, 100, 200, 107, 152, 127, 104, 327, 225, 325, 330, 130, 117, 227, 120, 315, 142, 320, 132, 328, 115, 332, 331, 162, 229, 362, 129, 204, 128, 304, 207, 131, 215, 217, 220, 232, 317, 262, 156, 329, 352, 228, 230, 103, 256]),
  (39649, [413, 227]),
  (39654, [413, 200, 227, 252, 327]),
  (39659, [413, 225]),
  (39661, [413, 125]),
  (39663, [426, 225, 327, 125, 227]),
  (39673, [413]),
  (39675, [413, 225, 330]),
  (39683, [426, 225, 125, 330]),
  (39688, [413]),
  (39695, [413]),
  (39699, [426, 125, 225, 315, 227, 320, 215]),
  (39711, [225, 413, 227, 327, 315]),
  (39715, [125, 426]),
  (39727, [413, 327]),
  (39730, [426, 227]),
  (39739, [454, 315, 232]),
  (39740, [425, 125, 225, 252, 315, 115, 400, 227, 320, 215, 325, 152, 127, 220, 100, 120, 352, 143]),
  (39745, [225, 100, 130, 125, 315, 252, 228, 327, 328]),
  (39746, [225, 425, 315, 125, 252, 115, 325, 200, 204, 120, 227, 215, 327, 220, 332]),
  (39747, [225, 459]),
  (39748, [225, 215, 125, 426, 200, 315, 220, 115, 227, 327]),
  (39749, [125, 225, 315, 220, 120]),
  (39751, [225, 252]),
  (39752, [459, 225, 327]),
  (39753, [459, 225, 215]),
  (39757, [459, 125, 315]),
  (39759, [127, 427, 243, 227, 117, 327, 130, 129, 315, 125, 444, 128, 220, 143]),
  (39761, [413, 115, 125, 227]),
  (39764, [125, 426, 225, 315, 227, 327, 252, 104, 352, 220, 115, 120, 132]),
  (40060, [425, 125, 225, 252, 127, 227, 330, 115, 325, 232, 315, 215, 220, 327, 130, 320, 120, 152, 107, 230, 132, 332]),
  (40063, [125, 352, 132]),
  (40065, [127, 327, 330, 425, 227, 325, 230, 130, 232, 331, 317, 200, 128, 132, 129, 229, 117, 100, 329, 332, 417, 225, 228, 131, 125, 217, 115, 427, 252]),
  (40066, [413, 227, 225]),
  (40069, [125, 130]),
  (40070, [413, 227, 225]),
  (40071, [125, 129]),
  (40072, [413, 125, 227, 225]),
  (40075, [413, 227]),
  (40077, [127, 427, 125, 327, 129, 227, 115]),
  (40078, [413]),
  (40080, [413]),
  (40081, [125, 225]),
  (40082, [413]),
  (40084, [413]),
  (40085, [413]),
  (40090, [413]),
  (40091, [413, 325, 227, 225, 125]),
  (40092, [230, 125, 100, 200, 400, 332, 330, 162, 325, 127, 152, 225, 331, 215, 115, 315, 227, 256, 252, 327, 204, 104, 120, 132, 317, 220, 129, 130])]

/-- hmm/pos/char_state_tab.go:6526-6589 -/
noncomputable def chars101 : List (Nat × List Nat) := [
  (40094, [413, 225]),
  (40095, [225, 413, 125]),
  (40096, [225, 315, 100]),
  (40097, [225, 459]),
  (40098, [125, 225]),
  (40099, [125]),
  (40100, [426, 125, 132, 227, 225, 115, 327, 330, 130]),
  (40101, [125]),
  (40102, [459]),
  (40103, [413]),
  (40104, [125, 225, 232, 132, 325]),
  (40105, [413]),
  (40107, [125, 215]),
  (40109, [413]),
  (40110, [125, 325]),
  (40112, [413]),
  (40113, [125]),
  (40114, [125]),
  (40115, [125, 225]),
  (40116, [413]),
  (40117, [225, 413]),
  (40118, [125]),
  (40119, [413, 125, 225]),
  (40120, [426, 227, 225, 125, 327, 152, 325, 315]),
  (40122, [413]),
  (40123, [413]),
  (40124, [413]),
  (40125, [413]),
  (40131, [425, 152, 325]),
  (40132, [426, 225, 125]),
  (40133, [459, 225, 227]),
  (40134, [459]),
  (40135, [125, 426]),
  (40138, [125]),
  (40140, [413, 227, 125, 225, 315, 130]),
  (40141, [225, 425, 325]),
  (40142, [413, 225]),
  (40143, [125, 115]),
  (40144, [413, 227]),
  (40147, [413]),
  (40148, [425, 225, 125]),
  (40149, [125, 225]),
  (40150, [425, 225, 125, 215, 325]),
  (40151, [125, 426, 225, 252, 327]),
  (40152, [413]),
  (40153, [125]),
  (40156, [125]),
  (40157, [225, 125]),
  (40158, [425, 125, 225, 315, 227, 327, 325, 115, 152, 262, 162]),
  (40159, [225, 125, 325]),
  (40162, [413, 225]),
  (40479, [425, 125, 225, 152, 227, 325, 315, 215, 115, 327, 132, 220, 320, 252, 232, 130, 127, 129]),
  (40480, [127, 225, 229, 115, 315]),
  (40481, [425, 125, 225, 230, 115, 325, 315, 130, 152, 252, 132, 215, 120, 330, 227, 332, 327, 320, 232, 352, 256, 129, 243, 331, 143]),
  (40482, [125, 426, 225, 227]),
  (40483, [252, 452, 227, 325, 152, 327, 454, 125, 215, 256, 225, 315, 115, 220, 156, 229, 130, 320, 330, 120, 129, 232, 238, 328, 128, 230, 228]),
  (40485, [225, 426, 227, 327, 125]),
  (40486, [125, 132, 225, 115, 332, 252, 320, 330, 130]),
  (40488, [125, 225]),
  (40489, [426, 125, 315]),
  (40490, [225, 459, 327, 325]),
  (40491, [413]),
  (40492, [125]),
  (40493, [426, 125, 225, 130, 330, 325, 232, 132, 252, 304, 315])]

/-- hmm/pos/char_state_tab.go:6590-6653 -/
noncomputable def chars102 : List (Nat × List Nat) := [
  (40495, [225, 459, 227, 325, 215, 327]),
  (40497, [413, 125]),
  (40498, [413, 125]),
  (40499, [125, 325, 327, 315]),
  (40501, [125, 120, 225]),
  (40502, [225, 459]),
  (40503, [200, 125]),
  (40504, [125]),
  (40505, [459, 225]),
  (40506, [459]),
  (40509, [125, 225, 426, 227, 332, 232, 327, 132]),
  (40510, [427, 227, 125, 327, 315, 252, 115]),
  (40511, [327, 227, 427, 125, 426, 402, 225, 315, 228, 132, 332, 127, 115, 215, 130, 229, 325, 320, 129, 232]),
  (40513, [125]),
  (40514, [225, 427, 459, 327, 227]),
  (40515, [227, 459, 225, 325, 320, 332, 327]),
  (40516, [426, 227, 327, 225, 315, 320]),
  (40517, [225, 425, 125, 232, 130, 325, 332, 330, 104, 132, 115, 327, 315, 320, 227, 120, 331]),
  (40518, [459, 225]),
  (40519, [225, 459]),
  (40520, [125]),
  (40521, [225, 325, 459, 227, 315]),
  (40522, [426, 225, 227, 130, 315, 125, 115, 330]),
  (40523, [225, 459]),
  (40524, [125]),
  (40526, [413]),
  (40527, [227, 427, 327, 225, 232, 132, 328, 228, 115, 330, 130]),
  (40529, [225, 459, 115, 227]),
  (40533, [459, 225]),
  (40535, [426, 227]),
  (40536, [230, 459, 315]),
  (40538, [225, 459]),
  (40539, [413]),
  (40540, [215, 426, 320, 225]),
  (40542, [426, 125, 225, 104, 227]),
  (40547, [413]),
  (40548, [425, 227, 225, 327, 130, 125, 115, 315, 232, 215, 129, 325, 132, 330, 320, 131, 228, 120, 331, 328]),
  (40550, [125, 115, 327]),
  (40551, [125]),
  (40552, [413, 225]),
  (40553, [459, 125, 225, 227]),
  (40554, [125]),
  (40555, [130, 425, 225, 327, 227]),
  (40556, [115, 125]),
  (40557, [426, 227, 225, 125, 130, 232, 327]),
  (40560, [425, 227, 225, 125, 232, 327, 132, 325, 332, 130, 104, 129, 115, 330, 120, 229]),
  (40561, [413]),
  (40563, [225, 413, 130, 227, 332, 327]),
  (40574, [413]),
  (40575, [127, 425, 225, 125, 227, 327, 330, 130, 232, 332, 230, 427, 315, 229, 252, 115, 220, 129, 215]),
  (40578, [125, 225]),
  (40583, [413, 227]),
  (40584, [413, 327]),
  (40587, [125]),
  (40594, [125, 327, 130]),
  (40595, [212, 225, 426, 227, 327, 331, 242, 230]),
  (40605, [125]),
  (40607, [227, 225, 426, 327, 315, 330, 325, 132, 129, 232, 115]),
  (40614, [225, 127, 125, 426, 230, 227, 130, 427, 132, 327, 129, 330, 229, 325, 332, 104, 152, 252, 331, 315, 232, 352, 143]),
  (40628, [427]),
  (40632, [125, 225]),
  (40635, [125, 225, 425, 127, 103, 152, 100, 325, 327, 362, 262, 227, 252, 115, 215, 320, 156, 162, 452, 130, 131, 200, 220, 104, 217, 331, 315, 330, 232, 352, 129, 230, 132, 332]),
  (40637, [459]),
  (40638, [125])]

/-- hmm/pos/char_state_tab.go:6654-6709 -/
noncomputable def chars103 : List (Nat × List Nat) := [
  (40644, [125, 127, 130, 400, 143, 225, 325, 204, 262, 227, 117, 132, 128, 131, 327, 252, 315, 120, 330, 217, 320, 232, 162, 230, 115, 152, 229, 215, 332, 362, 331, 200, 104, 129, 352, 317]),
  (40649, [413]),
  (40653, [426, 225, 125]),
  (40654, [230, 127, 143, 330, 417, 227, 130, 327, 125, 320, 331, 132, 131, 129, 228, 325, 332, 128]),
  (40655, [125, 400, 100, 152]),
  (40657, [125, 400, 130, 127, 262, 162, 252, 100, 230, 227, 104, 325, 330, 120, 229, 315, 129, 132, 225, 327, 115, 204, 220, 320, 131, 215, 200, 362, 232, 352, 331, 217, 332]),
  (40660, [417, 130, 217, 327, 131, 232, 117, 227, 125, 129, 115, 330, 332]),
  (40664, [200, 162, 362, 252, 207, 107, 329, 152, 452, 227, 327, 315, 100, 120, 115, 129, 320, 325, 330, 232, 127, 225, 229, 256, 156, 132, 131, 125, 101, 130]),
  (40667, [127, 327, 426, 227, 225, 125, 129, 328]),
  (40668, [252, 315, 152]),
  (40669, [162, 262, 362, 125]),
  (40671, [130, 413]),
  (40672, [200, 125, 413]),
  (40674, [262, 362, 402]),
  (40677, [413]),
  (40679, [162]),
  (40681, [315, 152]),
  (40687, [162, 100, 115, 120, 103]),
  (40697, [225, 413]),
  (40699, [413, 315]),
  (40700, [413, 115]),
  (40702, [459, 227, 152]),
  (40715, [130, 125]),
  (40717, [413]),
  (40718, [227, 426, 225, 162, 315, 327, 152, 252, 320, 232, 215, 115, 220, 130, 107, 125, 325, 120, 328, 332, 330, 230, 132]),
  (40720, [227, 413, 327, 215]),
  (40723, [152, 452, 125, 225, 252, 215, 315, 325, 362, 162, 220, 227, 330, 320, 327, 120, 262, 130, 425, 132, 115, 232, 156, 129, 100]),
  (40727, [413, 227]),
  (40729, [459]),
  (40736, [225, 425, 125, 325, 315, 252, 227, 215, 426, 143, 115, 152, 220, 243, 120, 232]),
  (40738, [125]),
  (40748, [225, 125]),
  (40751, [125]),
  (40761, [125, 225]),
  (40763, [125, 426, 252, 227, 325, 152, 200, 315, 225, 230, 352, 320, 215, 142, 120, 220, 115, 330, 132, 332, 327, 204]),
  (40766, [125, 252, 152]),
  (40772, [413]),
  (40784, [400, 127, 207, 407, 100, 200, 152, 227, 243, 230, 125, 330, 132, 107, 327, 315, 252, 130, 328, 362, 262, 115, 215, 162, 229, 120, 320, 128, 104, 101, 331, 129, 452, 329, 220, 131, 352, 222]),
  (40785, [413, 125]),
  (40831, [225, 425, 125, 215, 325, 252, 227, 315, 220, 204, 132, 320, 232, 120, 207, 332]),
  (40832, [413, 227]),
  (40835, [125]),
  (40836, [225, 227, 426, 204, 325, 435, 352, 252, 327, 304, 356, 125, 331, 330, 228]),
  (40837, [125]),
  (40838, [413, 227]),
  (40839, [452, 115]),
  (40840, [225, 413, 325]),
  (40841, [459, 225]),
  (40842, [459, 200, 215]),
  (40843, [125, 252]),
  (40844, [100, 315]),
  (40857, [425, 125, 227, 330, 225, 127, 130, 230, 232, 327, 325, 132, 315, 332, 229, 115, 129, 215, 128, 320, 228, 331, 104, 131, 252, 217, 117, 220, 120, 243, 143]),
  (40858, [127, 427, 327, 227, 128, 130]),
  (40859, [426, 225]),
  (40863, [425, 225, 125, 130, 132, 327, 227, 152, 325, 120, 232, 330, 129, 426, 315]),
  (40864, [413])]

/-- `charStateTab`, hmm/pos/char_state_tab.go:61-6710. -/
noncomputable def chars : List (Nat × List Nat) :=
  [chars0, chars1, chars2, chars3, chars4, chars5, chars6, chars7, chars8, chars9,
   chars10, chars11, chars12, chars13, chars14, chars15, chars16, chars17, chars18, chars19,
   chars20, chars21, chars22, chars23, chars24, chars25, chars26, chars27, chars28, chars29,
   chars30, chars31, chars32, chars33, chars34, chars35, chars36, chars37, chars38, chars39,
   chars40, chars41, chars42, chars43, chars44, chars45, chars46, chars47, chars48, chars49,
   chars50, chars51, chars52, chars53, chars54, chars55, chars56, chars57, chars58, chars59,
   chars60, chars61, chars62, chars63, chars64, chars65, chars66, chars67, chars68, chars69,
   chars70, chars71, chars72, chars73, chars74, chars75, chars76, chars77, chars78, chars79,
   chars80, chars81, chars82, chars83, chars84, chars85, chars86, chars87, chars88, chars89,
   chars90, chars91, chars92, chars93, chars94, chars95, chars96, chars97, chars98, chars99,
   chars100, chars101, chars102, chars103].flatten

/-- `poss`, hmm/pos/char_state_tab.go:6713. -/
noncomputable def poss : List Bytes := [str "a", str "ad", str "ag", str "an", str "b", str "bg", str "c", str "d", str "df", str "dg", str "e", str "en", str "f", str "g", str "h", str "i",
  str "in", str "j", str "jn", str "k", str "l", str "ln", str "m", str "mg", str "mq", str "n", str "ng", str "nr", str "nrfg", str "nrt", str "ns", str "nt",
  str "nz", str "o", str "p", str "q", str "qe", str "qg", str "r", str "rg", str "rr", str "rz", str "s", str "t", str "tg", str "u", str "ud", str "ug",
  str "uj", str "ul", str "uv", str "uz", str "v", str "vd", str "vg", str "vi", str "vn", str "vq", str "w", str "x", str "y", str "yg", str "z", str "zg"]

end Gse.PosData
