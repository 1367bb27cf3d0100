/-!
# Points for the inversion of the ICON estimate (generated)

Certificates: `(n, a, b)` stands for `v = n / 2^20` items per row and bounds `a`, `b` of the cells hit
per row.  The bounds are checked in `Verif.CpcInverse`.
-/

namespace Verif.Cpc

/-- bounds in units of `2^-16`, part 0 -/
def icGrid0 : List (Nat × Nat × Nat) := [
  (40000, 2484, 2485), (40275, 2501, 2502), (40552, 2518, 2519), (40831, 2535, 2536),
  (41112, 2552, 2553), (41395, 2570, 2571), (41680, 2587, 2588), (41967, 2605, 2606),
  (42256, 2623, 2624), (42547, 2641, 2642), (42840, 2659, 2660), (43135, 2677, 2678),
  (43432, 2695, 2696), (43731, 2714, 2715), (44032, 2732, 2733), (44335, 2751, 2752),
  (44640, 2770, 2771), (44947, 2789, 2790), (45256, 2808, 2809), (45568, 2827, 2828),
  (45882, 2846, 2847), (46198, 2866, 2867), (46516, 2885, 2886), (46836, 2905, 2906),
  (47159, 2925, 2926), (47484, 2945, 2946), (47811, 2965, 2966), (48140, 2985, 2986),
  (48472, 3006, 3007), (48806, 3026, 3027), (49142, 3047, 3048), (49480, 3068, 3069),
  (49821, 3089, 3090), (50164, 3110, 3111), (50509, 3131, 3132), (50857, 3153, 3154),
  (51207, 3174, 3175), (51560, 3196, 3197), (51915, 3218, 3219), (52273, 3240, 3241),
  (52633, 3262, 3263), (52995, 3284, 3285), (53360, 3306, 3307), (53728, 3329, 3330),
  (54098, 3352, 3353), (54471, 3375, 3376), (54846, 3398, 3399), (55224, 3421, 3422),
  (55604, 3444, 3445), (55987, 3468, 3469), (56373, 3491, 3492), (56761, 3515, 3516),
  (57152, 3539, 3540), (57546, 3563, 3564), (57942, 3588, 3589), (58341, 3612, 3613),
  (58743, 3637, 3638), (59148, 3662, 3663), (59555, 3687, 3688), (59965, 3712, 3713),
  (60378, 3737, 3738), (60794, 3763, 3764), (61213, 3788, 3789), (61635, 3814, 3815),
  (62060, 3840, 3841), (62488, 3867, 3868), (62918, 3893, 3894), (63351, 3919, 3920),
  (63787, 3946, 3947), (64226, 3973, 3974), (64668, 4000, 4001), (65113, 4027, 4028),
  (65562, 4055, 4056), (66014, 4082, 4083), (66469, 4110, 4111), (66927, 4138, 4139),
  (67388, 4167, 4168), (67852, 4195, 4196), (68319, 4223, 4224), (68790, 4252, 4253),
  (69264, 4281, 4282), (69741, 4310, 4311), (70221, 4340, 4341), (70705, 4369, 4370),
  (71192, 4399, 4400), (71682, 4429, 4430), (72176, 4459, 4460), (72673, 4490, 4491),
  (73174, 4520, 4521), (73678, 4551, 4552), (74186, 4582, 4583), (74697, 4613, 4614),
  (75212, 4645, 4646), (75730, 4676, 4677), (76252, 4708, 4709), (76777, 4740, 4741),
  (77306, 4772, 4773), (77839, 4805, 4806), (78375, 4838, 4839), (78915, 4870, 4871),
  (79459, 4904, 4905), (80006, 4937, 4938), (80557, 4971, 4972), (81112, 5004, 5005),
  (81671, 5038, 5039), (82234, 5073, 5074), (82801, 5107, 5108), (83372, 5142, 5143),
  (83946, 5177, 5178), (84524, 5212, 5213), (85106, 5247, 5248), (85692, 5283, 5284),
  (86282, 5319, 5320), (86877, 5355, 5356), (87476, 5392, 5393), (88079, 5428, 5429),
  (88686, 5465, 5466), (89297, 5502, 5503), (89912, 5540, 5541), (90532, 5577, 5578),
  (91156, 5615, 5616), (91784, 5653, 5654), (92416, 5692, 5693), (93053, 5730, 5731),
  (93694, 5769, 5770), (94340, 5808, 5809), (94990, 5848, 5849), (95645, 5888, 5889),
  (96304, 5928, 5929), (96968, 5968, 5969), (97636, 6008, 6009), (98309, 6049, 6050),
  (98986, 6090, 6091), (99668, 6131, 6132), (100355, 6173, 6174), (101047, 6215, 6216),
  (101743, 6257, 6258), (102444, 6299, 6300), (103150, 6342, 6343), (103861, 6385, 6386),
  (104577, 6428, 6429), (105298, 6472, 6473), (106024, 6516, 6517), (106755, 6560, 6561),
  (107491, 6605, 6606), (108232, 6649, 6650), (108978, 6694, 6695), (109729, 6740, 6741),
  (110485, 6785, 6786), (111246, 6831, 6832), (112013, 6878, 6879), (112785, 6924, 6925),
  (113562, 6971, 6972), (114345, 7018, 7019), (115133, 7066, 7067), (115927, 7114, 7115),
  (116726, 7162, 7163), (117531, 7210, 7211), (118341, 7259, 7260), (119157, 7308, 7309),
  (119978, 7357, 7358), (120805, 7407, 7408), (121638, 7457, 7458), (122476, 7508, 7509),
  (123320, 7558, 7559), (124170, 7610, 7611), (125026, 7661, 7662), (125888, 7713, 7714),
  (126756, 7765, 7766), (127630, 7817, 7818), (128510, 7870, 7871), (129396, 7923, 7924),
  (130288, 7977, 7978), (131186, 8031, 8032), (132090, 8085, 8086), (133000, 8139, 8140),
  (133917, 8194, 8195), (134840, 8250, 8251), (135769, 8305, 8306), (136705, 8361, 8362)]

/-- bounds in units of `2^-16`, part 1 -/
def icGrid1 : List (Nat × Nat × Nat) := [
  (137647, 8418, 8419), (138596, 8474, 8475), (139551, 8532, 8533), (140513, 8589, 8590),
  (141482, 8647, 8648), (142457, 8705, 8706), (143439, 8764, 8765), (144428, 8823, 8824),
  (145424, 8883, 8884), (146426, 8942, 8943), (147435, 9003, 9004), (148451, 9063, 9064),
  (149474, 9124, 9125), (150504, 9186, 9187), (151541, 9247, 9248), (152586, 9310, 9311),
  (153638, 9372, 9373), (154697, 9435, 9436), (155763, 9499, 9500), (156837, 9563, 9564),
  (157918, 9627, 9628), (159007, 9692, 9693), (160103, 9757, 9758), (161207, 9822, 9823),
  (162318, 9888, 9889), (163437, 9955, 9956), (164564, 10022, 10023), (165698, 10089, 10090),
  (166840, 10157, 10158), (167990, 10225, 10226), (169148, 10293, 10294), (170314, 10363, 10364),
  (171488, 10432, 10433), (172670, 10502, 10503), (173860, 10572, 10573), (175059, 10643, 10644),
  (176266, 10715, 10716), (177481, 10787, 10788), (178705, 10859, 10860), (179937, 10932, 10933),
  (181177, 11005, 11006), (182426, 11079, 11080), (183684, 11153, 11154), (184950, 11227, 11228),
  (186225, 11303, 11304), (187509, 11378, 11379), (188802, 11454, 11455), (190104, 11531, 11532),
  (191415, 11608, 11609), (192735, 11686, 11687), (194064, 11764, 11765), (195402, 11843, 11844),
  (196749, 11922, 11923), (198105, 12001, 12002), (199471, 12082, 12083), (200846, 12162, 12163),
  (202231, 12244, 12245), (203625, 12325, 12326), (205029, 12408, 12409), (206442, 12490, 12491),
  (207865, 12574, 12575), (209298, 12658, 12659), (210741, 12742, 12743), (212194, 12827, 12828),
  (213657, 12912, 12913), (215130, 12999, 13000), (216613, 13085, 13086), (218106, 13172, 13173),
  (219610, 13260, 13261), (221124, 13348, 13349), (222648, 13437, 13438), (224183, 13527, 13528),
  (225729, 13617, 13618), (227285, 13707, 13708), (228852, 13798, 13799), (230430, 13890, 13891),
  (232019, 13982, 13983), (233619, 14075, 14076), (235230, 14169, 14170), (236852, 14263, 14264),
  (238485, 14358, 14359), (240129, 14453, 14454), (241785, 14549, 14550), (243452, 14645, 14646),
  (245130, 14743, 14744), (246820, 14840, 14841), (248522, 14939, 14940), (250235, 15038, 15039),
  (251960, 15137, 15138), (253697, 15238, 15239), (255446, 15339, 15340), (257207, 15440, 15441),
  (258980, 15542, 15543), (260766, 15645, 15646), (262564, 15749, 15750), (264374, 15853, 15854),
  (266197, 15958, 15959), (268032, 16063, 16064), (269880, 16169, 16170), (271741, 16276, 16277),
  (273615, 16384, 16385), (275502, 16492, 16493), (277402, 16601, 16602), (279315, 16710, 16711),
  (281241, 16820, 16821), (283180, 16931, 16932), (285132, 17043, 17044), (287098, 17155, 17156),
  (289077, 17268, 17269), (291070, 17382, 17383), (293077, 17497, 17498), (295098, 17612, 17613),
  (297133, 17728, 17729), (299182, 17844, 17845), (301245, 17962, 17963), (303322, 18080, 18081),
  (305413, 18198, 18199), (307519, 18318, 18319), (309639, 18438, 18439), (311774, 18559, 18560),
  (313924, 18681, 18682), (316088, 18804, 18805), (318267, 18927, 18928), (320461, 19051, 19052),
  (322671, 19176, 19177), (324896, 19302, 19303), (327136, 19428, 19429), (329392, 19555, 19556),
  (331663, 19683, 19684), (333950, 19812, 19813), (336253, 19942, 19943), (338571, 20072, 20073),
  (340905, 20203, 20204), (343256, 20335, 20336), (345623, 20468, 20469), (348006, 20602, 20603),
  (350406, 20736, 20737), (352822, 20871, 20872), (355255, 21008, 21009), (357705, 21145, 21146),
  (360171, 21282, 21283), (362654, 21421, 21422), (365155, 21560, 21561), (367673, 21701, 21702),
  (370208, 21842, 21843), (372761, 21984, 21985), (375331, 22127, 22128), (377919, 22271, 22272),
  (380525, 22415, 22416), (383149, 22561, 22562), (385791, 22707, 22708), (388451, 22855, 22856),
  (391129, 23003, 23004), (393826, 23152, 23153), (396542, 23302, 23303), (399276, 23453, 23454),
  (402029, 23605, 23606), (404801, 23758, 23759), (407592, 23911, 23912), (410402, 24066, 24067),
  (413232, 24221, 24222), (416081, 24378, 24379), (418950, 24535, 24536), (421839, 24694, 24695),
  (424748, 24853, 24854), (427677, 25013, 25014), (430626, 25175, 25176), (433595, 25337, 25338),
  (436585, 25500, 25501), (439595, 25664, 25665), (442626, 25829, 25830), (445678, 25995, 25996),
  (448751, 26162, 26163), (451845, 26330, 26331), (454961, 26500, 26501), (458098, 26670, 26671),
  (461257, 26841, 26842), (464438, 27013, 27014), (467641, 27186, 27187), (470866, 27360, 27361)]

/-- bounds in units of `2^-16`, part 2 -/
def icGrid2 : List (Nat × Nat × Nat) := [
  (474113, 27535, 27536), (477382, 27712, 27713), (480674, 27889, 27890), (483988, 28067, 28068),
  (487325, 28247, 28248), (490685, 28427, 28428), (494069, 28609, 28610), (497476, 28791, 28792),
  (500906, 28975, 28976), (504360, 29159, 29160), (507838, 29345, 29346), (511340, 29532, 29533),
  (514866, 29720, 29721), (518416, 29909, 29910), (521991, 30099, 30100), (525590, 30290, 30291),
  (529214, 30482, 30483), (532863, 30676, 30677), (536537, 30870, 30871), (540237, 31066, 31067),
  (543962, 31263, 31264), (547713, 31461, 31462), (551490, 31660, 31661), (555293, 31860, 31861),
  (559122, 32062, 32063), (562978, 32264, 32265), (566860, 32468, 32469), (570769, 32673, 32674),
  (574705, 32879, 32880), (578668, 33086, 33087), (582658, 33294, 33295), (586676, 33504, 33505),
  (590722, 33715, 33716), (594795, 33927, 33928), (598897, 34140, 34141), (603027, 34354, 34355),
  (607185, 34570, 34571), (611372, 34786, 34787), (615588, 35005, 35006), (619833, 35224, 35225),
  (624107, 35444, 35445), (628411, 35666, 35667), (632744, 35889, 35890), (637107, 36113, 36114),
  (641500, 36338, 36339), (645924, 36565, 36566), (650378, 36793, 36794), (654863, 37022, 37023),
  (659379, 37253, 37254), (663926, 37484, 37485), (668504, 37717, 37718), (673114, 37952, 37953),
  (677756, 38187, 38188), (682430, 38424, 38425), (687136, 38663, 38664), (691874, 38902, 38903),
  (696645, 39143, 39144), (701449, 39385, 39386), (706286, 39629, 39630), (711156, 39873, 39874),
  (716060, 40119, 40120), (720998, 40367, 40368), (725970, 40616, 40617), (730976, 40866, 40867),
  (736017, 41117, 41118), (741092, 41370, 41371), (746202, 41624, 41625), (751348, 41880, 41881),
  (756529, 42137, 42138), (761746, 42395, 42396), (766999, 42655, 42656), (772288, 42916, 42917),
  (777614, 43178, 43179), (782976, 43442, 43443), (788375, 43708, 43709), (793812, 43974, 43975),
  (799286, 44242, 44243), (804798, 44512, 44513), (810348, 44783, 44784), (815936, 45055, 45056),
  (821563, 45329, 45330), (827228, 45604, 45605), (832933, 45881, 45882), (838677, 46159, 46160),
  (844460, 46438, 46439), (850283, 46719, 46720), (856147, 47002, 47003), (862051, 47285, 47286),
  (867996, 47571, 47572), (873982, 47858, 47859), (880009, 48146, 48147), (886078, 48436, 48437),
  (892188, 48727, 48728), (898341, 49020, 49021), (904536, 49314, 49315), (910774, 49609, 49610),
  (917055, 49907, 49908), (923379, 50205, 50206), (929747, 50506, 50507), (936159, 50807, 50808),
  (942615, 51111, 51112), (949115, 51415, 51416), (955660, 51722, 51723), (962250, 52029, 52030),
  (968886, 52339, 52340), (975567, 52649, 52650), (982295, 52962, 52963), (989069, 53276, 53277),
  (995890, 53591, 53592), (1002758, 53908, 53909), (1009673, 54227, 54228), (1016636, 54547, 54548),
  (1023647, 54869, 54870), (1030706, 55192, 55193), (1037814, 55517, 55518), (1044971, 55843, 55844),
  (1052177, 56171, 56172), (1059433, 56501, 56502), (1066739, 56832, 56833), (1074095, 57165, 57166),
  (1081502, 57499, 57500), (1088960, 57835, 57836), (1096470, 58172, 58173), (1104031, 58511, 58512),
  (1111645, 58852, 58853), (1119311, 59194, 59195), (1127030, 59538, 59539), (1134802, 59884, 59885),
  (1142628, 60231, 60232), (1150508, 60580, 60581), (1158442, 60930, 60931), (1166431, 61282, 61283),
  (1174475, 61636, 61637), (1182574, 61991, 61992), (1190729, 62348, 62349), (1198940, 62706, 62707),
  (1207208, 63066, 63067), (1215533, 63428, 63429), (1223915, 63791, 63792), (1232355, 64156, 64157),
  (1240854, 64523, 64524), (1249411, 64891, 64892), (1258027, 65261, 65262), (1266703, 65633, 65634),
  (1275438, 66006, 66007), (1284234, 66381, 66382), (1293090, 66758, 66759), (1302007, 67136, 67137),
  (1310986, 67516, 67517), (1320027, 67898, 67899), (1329130, 68281, 68282), (1338296, 68666, 68667),
  (1347525, 69052, 69053), (1356818, 69440, 69441), (1366175, 69830, 69831), (1375596, 70222, 70223),
  (1385082, 70615, 70616), (1394634, 71010, 71011), (1404252, 71406, 71407), (1413936, 71805, 71806),
  (1423687, 72205, 72206), (1433505, 72606, 72607), (1443391, 73009, 73010), (1453345, 73414, 73415),
  (1463368, 73821, 73822), (1473460, 74229, 74230), (1483621, 74639, 74640), (1493852, 75051, 75052),
  (1504154, 75464, 75465), (1514527, 75879, 75880), (1524972, 76296, 76297), (1535489, 76714, 76715),
  (1546078, 77134, 77135), (1556740, 77556, 77557), (1567476, 77979, 77980), (1578286, 78404, 78405),
  (1589170, 78831, 78832), (1600129, 79259, 79260), (1611164, 79689, 79690), (1622275, 80121, 80122)]

/-- bounds in units of `2^-16`, part 3 -/
def icGrid3 : List (Nat × Nat × Nat) := [
  (1633463, 80554, 80555), (1644728, 80990, 80991), (1656070, 81426, 81427), (1667491, 81865, 81866),
  (1678990, 82305, 82306), (1690569, 82747, 82748), (1702228, 83190, 83191), (1713967, 83635, 83636),
  (1725787, 84082, 84083), (1737688, 84530, 84531), (1749672, 84980, 84981), (1761738, 85432, 85433),
  (1773887, 85885, 85886), (1786120, 86341, 86342), (1798438, 86797, 86798), (1810841, 87256, 87257),
  (1823329, 87716, 87717), (1835903, 88177, 88178), (1848564, 88641, 88642), (1861312, 89105, 89106),
  (1874148, 89572, 89573), (1887073, 90040, 90041), (1900087, 90510, 90511), (1913191, 90982, 90983),
  (1926385, 91455, 91456), (1939670, 91929, 91930), (1953047, 92406, 92407), (1966516, 92884, 92885),
  (1980078, 93363, 93364), (1993733, 93844, 93845), (2007482, 94327, 94328), (2021326, 94811, 94812),
  (2035266, 95297, 95298), (2049302, 95785, 95786), (2063435, 96274, 96275), (2077665, 96765, 96766),
  (2091993, 97257, 97258), (2106420, 97751, 97752), (2120947, 98247, 98248), (2135574, 98744, 98745),
  (2150302, 99242, 99243), (2165131, 99743, 99744), (2180062, 100244, 100245), (2195096, 100747, 100748),
  (2210234, 101252, 101253), (2225476, 101759, 101760), (2240824, 102267, 102268), (2256277, 102776, 102777),
  (2271837, 103287, 103288), (2287504, 103799, 103800), (2303279, 104313, 104314), (2319163, 104829, 104830),
  (2335157, 105346, 105347), (2351261, 105864, 105865), (2367476, 106384, 106385), (2383803, 106906, 106907),
  (2400243, 107429, 107430), (2416796, 107953, 107954), (2433463, 108479, 108480), (2450245, 109006, 109007),
  (2467143, 109535, 109536), (2484157, 110065, 110066), (2501289, 110597, 110598), (2518539, 111130, 111131),
  (2535908, 111665, 111666), (2553397, 112201, 112202), (2571006, 112738, 112739), (2588737, 113277, 113278),
  (2606590, 113817, 113818), (2624566, 114358, 114359), (2642666, 114901, 114902), (2660891, 115446, 115447),
  (2679241, 115991, 115992), (2697718, 116538, 116539), (2716322, 117087, 117088), (2735055, 117636, 117637),
  (2753917, 118187, 118188), (2772909, 118740, 118741), (2792032, 119293, 119294), (2811287, 119848, 119849),
  (2830675, 120405, 120406), (2850196, 120962, 120963), (2869852, 121521, 121522), (2889644, 122081, 122082),
  (2909572, 122643, 122644), (2929638, 123205, 123206), (2949842, 123769, 123770), (2970185, 124335, 124336),
  (2990669, 124901, 124902), (3011294, 125469, 125470), (3032061, 126038, 126039), (3052971, 126608, 126609),
  (3074025, 127179, 127180), (3095225, 127751, 127752), (3116571, 128325, 128326), (3138064, 128900, 128901),
  (3159705, 129476, 129477), (3181496, 130053, 130054), (3203437, 130631, 130632), (3225529, 131210, 131211),
  (3247774, 131791, 131792), (3270172, 132373, 132374), (3292724, 132955, 132956), (3315432, 133539, 133540),
  (3338297, 134124, 134125), (3361319, 134710, 134711), (3384500, 135297, 135298), (3407841, 135885, 135886),
  (3431343, 136474, 136475), (3455007, 137065, 137066), (3478834, 137656, 137657), (3502825, 138248, 138249),
  (3526982, 138841, 138842), (3551306, 139436, 139437), (3575797, 140031, 140032), (3600457, 140627, 140628),
  (3625287, 141224, 141225), (3650288, 141822, 141823), (3675462, 142421, 142422), (3700810, 143021, 143022),
  (3726332, 143622, 143623), (3752030, 144224, 144225), (3777906, 144827, 144828), (3803960, 145430, 145431),
  (3830194, 146035, 146036), (3856609, 146640, 146641), (3883206, 147247, 147248), (3909986, 147854, 147855),
  (3936951, 148462, 148463), (3964102, 149070, 149071), (3991440, 149680, 149681), (4018967, 150290, 150291),
  (4046684, 150902, 150903), (4074592, 151514, 151515), (4102692, 152127, 152128), (4130986, 152740, 152741),
  (4159475, 153354, 153355), (4188161, 153969, 153970), (4217044, 154585, 154586), (4246127, 155202, 155203),
  (4275410, 155819, 155820), (4304895, 156437, 156438), (4334583, 157056, 157057), (4364476, 157675, 157676),
  (4394575, 158295, 158296), (4424882, 158916, 158917), (4455398, 159537, 159538), (4486124, 160159, 160160),
  (4517062, 160782, 160783), (4548214, 161405, 161406), (4579580, 162029, 162030), (4611163, 162654, 162655),
  (4642964, 163279, 163280), (4674984, 163905, 163906), (4707225, 164531, 164532), (4739688, 165158, 165159),
  (4772375, 165785, 165786), (4805287, 166413, 166414), (4838426, 167042, 167043), (4871794, 167671, 167672),
  (4905392, 168300, 168301), (4939222, 168930, 168931), (4973285, 169561, 169562), (5007583, 170192, 170193),
  (5042118, 170824, 170825), (5076891, 171456, 171457), (5111904, 172088, 172089), (5147158, 172721, 172722),
  (5182655, 173355, 173356), (5218397, 173989, 173990), (5254385, 174623, 174624), (5290622, 175258, 175259),
  (5327109, 175893, 175894), (5363847, 176529, 176530), (5400839, 177165, 177166), (5438086, 177801, 177802),
  (5475590, 178438, 178439), (5513352, 179075, 179076), (5551375, 179713, 179714), (5589660, 180351, 180352)]

/-- bounds in units of `2^-16`, part 4 -/
def icGrid4 : List (Nat × Nat × Nat) := [
  (5628209, 180989, 180990), (5667024, 181627, 181628), (5706106, 182266, 182267), (5745458, 182906, 182907),
  (5785081, 183545, 183546), (5824978, 184185, 184186), (5865150, 184825, 184826), (5905599, 185466, 185467),
  (5946327, 186107, 186108), (5987336, 186748, 186749), (6028627, 187389, 187390), (6070203, 188031, 188032),
  (6112066, 188673, 188674), (6154218, 189315, 189316), (6196660, 189957, 189958), (6239395, 190600, 190601),
  (6282425, 191243, 191244), (6325752, 191886, 191887), (6369377, 192529, 192530), (6413303, 193173, 193174),
  (6457532, 193817, 193818), (6502066, 194461, 194462), (6546907, 195105, 195106), (6592058, 195749, 195750),
  (6637520, 196394, 196395), (6683296, 197039, 197040), (6729387, 197684, 197685), (6775796, 198329, 198330),
  (6822525, 198974, 198975), (6869576, 199620, 199621), (6916952, 200266, 200267), (6964655, 200911, 200912),
  (7012687, 201557, 201558), (7061050, 202203, 202204), (7109746, 202850, 202851), (7158778, 203496, 203497),
  (7208148, 204143, 204144), (7257859, 204789, 204790), (7307913, 205436, 205437), (7358312, 206083, 206084),
  (7409058, 206730, 206731), (7460154, 207377, 207378), (7511603, 208025, 208026), (7563407, 208672, 208673),
  (7615568, 209319, 209320), (7668089, 209967, 209968), (7720972, 210615, 210616), (7774220, 211262, 211263),
  (7827835, 211910, 211911), (7881820, 212558, 212559), (7936177, 213206, 213207), (7990909, 213854, 213855),
  (8046018, 214502, 214503), (8101507, 215151, 215152), (8157379, 215799, 215800), (8213636, 216447, 216448),
  (8270281, 217096, 217097), (8327317, 217744, 217745), (8384746, 218393, 218394), (8442571, 219042, 219043),
  (8500795, 219690, 219691), (8559421, 220339, 220340), (8618451, 220988, 220989), (8677888, 221637, 221638),
  (8737735, 222286, 222287), (8797995, 222934, 222935), (8858670, 223583, 223584), (8919764, 224232, 224233),
  (8981279, 224882, 224883), (9043218, 225531, 225532), (9105585, 226180, 226181), (9168382, 226829, 226830),
  (9231612, 227478, 227479), (9295278, 228127, 228128), (9359383, 228777, 228778), (9423930, 229426, 229427),
  (9488922, 230075, 230076), (9554362, 230725, 230726), (9620254, 231374, 231375), (9686600, 232023, 232024),
  (9753404, 232673, 232674), (9820668, 233322, 233323), (9888396, 233972, 233973), (9956591, 234621, 234622),
  (10025257, 235271, 235272), (10094396, 235920, 235921), (10164012, 236570, 236571), (10234108, 237219, 237220),
  (10304688, 237869, 237870), (10375754, 238518, 238519), (10447310, 239168, 239169), (10519360, 239818, 239819),
  (10591907, 240467, 240468), (10664954, 241117, 241118), (10738505, 241767, 241768), (10812563, 242416, 242417),
  (10887132, 243066, 243067), (10962215, 243715, 243716), (11037816, 244365, 244366), (11113938, 245015, 245016),
  (11190585, 245665, 245666), (11267761, 246314, 246315), (11345469, 246964, 246965), (11423713, 247614, 247615),
  (11502497, 248263, 248264), (11581824, 248913, 248914), (11661698, 249563, 249564), (11742123, 250213, 250214),
  (11823103, 250862, 250863), (11904641, 251512, 251513), (11986741, 252162, 252163), (12069408, 252812, 252813),
  (12152645, 253461, 253462), (12236456, 254111, 254112), (12320845, 254761, 254762), (12405816, 255411, 255412),
  (12491373, 256060, 256061), (12577520, 256710, 256711), (12664261, 257360, 257361), (12751600, 258010, 258011),
  (12839542, 258660, 258661), (12928090, 259309, 259310), (13017249, 259959, 259960), (13107023, 260609, 260610),
  (13197416, 261259, 261260), (13288432, 261909, 261910), (13380076, 262558, 262559), (13472352, 263208, 263209),
  (13565264, 263858, 263859), (13658817, 264508, 264509), (13753015, 265158, 265159), (13847863, 265807, 265808),
  (13943365, 266457, 266458), (14039526, 267107, 267108), (14136350, 267757, 267758), (14233842, 268407, 268408),
  (14332006, 269056, 269057), (14430847, 269706, 269707), (14530370, 270356, 270357), (14630579, 271006, 271007),
  (14731479, 271656, 271657), (14833075, 272306, 272307), (14935372, 272955, 272956), (15038374, 273605, 273606),
  (15142086, 274255, 274256), (15246514, 274905, 274906), (15351662, 275555, 275556), (15457535, 276204, 276205),
  (15564138, 276854, 276855), (15671476, 277504, 277505), (15779555, 278154, 278155), (15888379, 278804, 278805),
  (15997954, 279454, 279455), (16108284, 280103, 280104), (16219375, 280753, 280754), (16331232, 281403, 281404),
  (16443861, 282053, 282054), (16557266, 282703, 282704), (16671454, 283353, 283354), (16786429, 284002, 284003),
  (16902197, 284652, 284653), (17018763, 285302, 285303), (17136133, 285952, 285953), (17254313, 286602, 286603),
  (17373308, 287251, 287252), (17493123, 287901, 287902), (17613765, 288551, 288552), (17735239, 289201, 289202),
  (17857550, 289851, 289852), (17980705, 290501, 290502), (18104709, 291150, 291151), (18229569, 291800, 291801),
  (18355290, 292450, 292451), (18481878, 293100, 293101), (18609339, 293750, 293751), (18737679, 294399, 294400),
  (18866904, 295049, 295050), (18997020, 295699, 295700), (19128033, 296349, 296350), (19259950, 296999, 297000)]

/-- bounds in units of `2^-16`, part 5 -/
def icGrid5 : List (Nat × Nat × Nat) := [
  (19392777, 297649, 297650), (19526520, 298298, 298299), (19661185, 298948, 298949), (19796779, 299598, 299599),
  (19933308, 300248, 300249), (20070779, 300898, 300899), (20209198, 301547, 301548), (20348571, 302197, 302198),
  (20488905, 302847, 302848), (20630207, 303497, 303498), (20772484, 304147, 304148), (20915742, 304796, 304797),
  (21059988, 305446, 305447), (21205229, 306096, 306097), (21351471, 306746, 306747), (21498722, 307396, 307397),
  (21646989, 308046, 308047), (21796278, 308695, 308696), (21946597, 309345, 309346), (22097952, 309995, 309996),
  (22250351, 310645, 310646), (22403801, 311295, 311296), (22558309, 311944, 311945), (22713883, 312594, 312595),
  (22870530, 313244, 313245), (23028257, 313894, 313895), (23187072, 314544, 314545), (23346982, 315193, 315194),
  (23507995, 315843, 315844), (23670119, 316493, 316494), (23833361, 317143, 317144), (23997729, 317793, 317794),
  (24163230, 318443, 318444), (24329872, 319092, 319093), (24497664, 319742, 319743), (24666613, 320392, 320393),
  (24836727, 321042, 321043), (25008014, 321692, 321693), (25180483, 322341, 322342), (25354141, 322991, 322992),
  (25528997, 323641, 323642), (25705059, 324291, 324292), (25882335, 324941, 324942), (26060833, 325591, 325592),
  (26240562, 326240, 326241), (26421531, 326890, 326891), (26603748, 327540, 327541), (26787222, 328190, 328191),
  (26971961, 328840, 328841), (27157974, 329489, 329490), (27345270, 330139, 330140), (27533858, 330789, 330790),
  (27723746, 331439, 331440), (27914944, 332089, 332090), (28107460, 332739, 332740), (28301304, 333388, 333389),
  (28496485, 334038, 334039), (28693012, 334688, 334689), (28890894, 335338, 335339), (29090141, 335988, 335989),
  (29290762, 336637, 336638), (29492767, 337287, 337288), (29696165, 337937, 337938), (29900966, 338587, 338588),
  (30107179, 339237, 339238), (30314814, 339887, 339888), (30523881, 340536, 340537), (30734390, 341186, 341187),
  (30946351, 341836, 341837), (31159774, 342486, 342487), (31374668, 343136, 343137), (31591045, 343786, 343787),
  (31808914, 344435, 344436), (32028285, 345085, 345086), (32249169, 345735, 345736), (32471577, 346385, 346386),
  (32695518, 347035, 347036), (32921004, 347685, 347686), (33148045, 348334, 348335), (33376652, 348984, 348985),
  (33606835, 349634, 349635), (33838606, 350284, 350285), (34071975, 350934, 350935), (34306954, 351583, 351584),
  (34543553, 352233, 352234), (34781784, 352883, 352884), (35021658, 353533, 353534), (35263186, 354183, 354184),
  (35506380, 354833, 354834), (35751251, 355482, 355483), (35997811, 356132, 356133), (36246071, 356782, 356783),
  (36496043, 357432, 357433), (36747739, 358082, 358083), (37001171, 358731, 358732), (37256351, 359381, 359382),
  (37513291, 360031, 360032), (37772003, 360681, 360682), (38032499, 361331, 361332), (38294792, 361981, 361982),
  (38558894, 362630, 362631), (38824817, 363280, 363281), (39092574, 363930, 363931), (39362177, 364580, 364581),
  (39633640, 365230, 365231), (39906975, 365879, 365880), (40182195, 366529, 366530), (40459313, 367179, 367180),
  (40738342, 367829, 367830), (41019296, 368479, 368480), (41302187, 369129, 369130), (41587029, 369778, 369779),
  (41873836, 370428, 370429), (42162621, 371078, 371079), (42453397, 371728, 371729), (42746179, 372378, 372379),
  (43040980, 373027, 373028), (43337814, 373677, 373678), (43636695, 374327, 374328)]

/-- bounds in units of `2^-16` -/
def icGrid : List (Nat × Nat × Nat) :=
  icGrid0 ++ icGrid1 ++ icGrid2 ++ icGrid3 ++ icGrid4 ++ icGrid5

/-- bounds in units of `1/512`, with a reserve of `2^-20` -/
def icGridE : List (Nat × Nat × Nat) := [
  (39845888, 2857, 2858), (40045117, 2860, 2861), (40245342, 2864, 2865), (40446568, 2868, 2869),
  (40648800, 2872, 2873), (40852044, 2875, 2876), (41056304, 2879, 2880), (41261585, 2883, 2884),
  (41467892, 2886, 2887), (41675231, 2890, 2891), (41883607, 2894, 2895), (42093025, 2897, 2898),
  (42303490, 2901, 2902), (42515007, 2905, 2906), (42727582, 2908, 2909), (42941219, 2912, 2913),
  (43155925, 2916, 2917), (43371704, 2919, 2920), (43588562, 2923, 2924), (43806504, 2927, 2928),
  (44025536, 2930, 2931), (44245663, 2934, 2935), (44466891, 2938, 2939), (44689225, 2942, 2943),
  (44912671, 2945, 2946), (45137234, 2949, 2950), (45362920, 2953, 2954), (45589734, 2956, 2957),
  (45817682, 2960, 2961), (46046770, 2964, 2965), (46277003, 2967, 2968), (46508388, 2971, 2972),
  (46740929, 2975, 2976), (46974633, 2978, 2979), (47209506, 2982, 2983), (47445553, 2986, 2987),
  (47682780, 2989, 2990), (47921193, 2993, 2994), (48160798, 2997, 2998), (48401601, 3000, 3001),
  (48643609, 3004, 3005), (48886827, 3008, 3009), (49131261, 3012, 3013), (49376917, 3015, 3016),
  (49623801, 3019, 3020), (49871920, 3023, 3024), (50121279, 3026, 3027), (50371885, 3030, 3031),
  (50623744, 3034, 3035), (50876862, 3037, 3038), (51131246, 3041, 3042), (51386902, 3045, 3046),
  (51643836, 3048, 3049), (51902055, 3052, 3053), (52161565, 3056, 3057), (52422372, 3059, 3060),
  (52684483, 3063, 3064), (52947905, 3067, 3068), (53212644, 3070, 3071), (53478707, 3074, 3075),
  (53746100, 3078, 3079), (54014830, 3082, 3083), (54284904, 3085, 3086), (54556328, 3089, 3090),
  (54829109, 3093, 3094), (55103254, 3096, 3097), (55378770, 3100, 3101), (55655663, 3104, 3105),
  (55933941, 3107, 3108), (56213610, 3111, 3112), (56494678, 3115, 3116), (56777151, 3118, 3119),
  (57061036, 3122, 3123), (57346341, 3126, 3127), (57633072, 3129, 3130), (57921237, 3133, 3134),
  (58210843, 3137, 3138), (58501897, 3140, 3141), (58794406, 3144, 3145), (59088378, 3148, 3149),
  (59383819, 3152, 3153), (59680738, 3155, 3156), (59979141, 3159, 3160), (60279036, 3163, 3164),
  (60580431, 3166, 3167), (60883333, 3170, 3171), (61187749, 3174, 3175), (61493687, 3177, 3178),
  (61801155, 3181, 3182), (62110160, 3185, 3186), (62420710, 3188, 3189), (62732813, 3192, 3193),
  (63046477, 3196, 3197), (63361709, 3199, 3200), (63678517, 3203, 3204), (63996909, 3207, 3208),
  (64316893, 3210, 3211), (64638477, 3214, 3215), (64961669, 3218, 3219), (65286477, 3222, 3223),
  (65612909, 3225, 3226), (65940973, 3229, 3230), (66270677, 3233, 3234), (66602030, 3236, 3237),
  (66935040, 3240, 3241), (67269715, 3244, 3245), (67606063, 3247, 3248), (67944093, 3251, 3252),
  (68283813, 3255, 3256), (68625232, 3258, 3259), (68968358, 3262, 3263), (69313199, 3266, 3267),
  (69659764, 3269, 3270), (70008062, 3273, 3274), (70358102, 3277, 3278), (70709892, 3280, 3281),
  (71063441, 3284, 3285), (71418758, 3288, 3289), (71775851, 3292, 3293), (72134730, 3295, 3296),
  (72495403, 3299, 3300), (72857880, 3303, 3304), (73222169, 3306, 3307), (73588279, 3310, 3311),
  (73956220, 3314, 3315), (74326001, 3317, 3318), (74697631, 3321, 3322), (75071119, 3325, 3326),
  (75446474, 3328, 3329), (75823706, 3332, 3333), (76202824, 3336, 3337), (76583838, 3339, 3340),
  (76966757, 3343, 3344), (77351590, 3347, 3348), (77738347, 3350, 3351), (78127038, 3354, 3355),
  (78517673, 3358, 3359), (78910261, 3362, 3363), (79304812, 3365, 3366), (79701336, 3369, 3370),
  (80099842, 3373, 3374), (80500341, 3376, 3377), (80902842, 3380, 3381), (81307356, 3384, 3385),
  (81713892, 3387, 3388), (82122461, 3391, 3392)]

/-- `rescale (2 ^ 17) (iconG 26)` -/
def iconRef : List Int := [
  0,
  256939392711706170778753759320144612787033785958695303241685612923188131091655149369167639389171213418236994852084092322337695086012310487040000,
  653440461842939476614678171212056758120722919557799098352822798618906236538253123645564234094859830621963742673383667255813291691212800000,
  1894078801904875234317781310393947751886469412852573753888646703251473409198418840160523082778360535782790740785717252721947443200000,
  6399192455960824880872900922123298945384365946327951253027630508757602366721231405218128199778912489169026595138781229088768000,
  -53399407018608744123841358019666406795529596727883766564565566491512261440003697710228506412776446202133659262669291520000,
  3346487596712634661020647747048243841149538575933348061176118252054527423713788718654903699558280041583861395619840000,
  -102187903188943281704597583094627869025431052691565482506323926924940199957239419628936884421410302548403814400000,
  2175002896519503280305297397804056813541383167842230044072807086563741055970978380148806652055494485606400000,
  -33047065889914819095985727656435096402779576105686896397055377140399209553790270442387663799451648000000,
  367603272251877598104415463964868482176037124619109779837008387054379385550204340445806329856000000,
  -3024202854436229519782961629715890530796272460202515574739530276668903293811355453227008000000,
  18258753984881045313324757041455971533952984926938747474701866297396305443640311808000000,
  -77338304260512749311612831617236123510731748840169597208397845125893351853260800000,
  191111327911361079446757066572024060195217682061757890801194886307512320000000,
  71970624198455688569435532317560637431095633519726784030319837184000000,
  -3134107597443062605832578016634942883833884695674276567496785920000,
  16068985020216990726711033727671936605049416241633034240000000,
  -49894390582840906880396588662383218580157573151850496000,
  106571894768526773043814053648173643230200463360000,
  -158481007799576119747452939491289013818490880,
  157743100727969121901542899712000000000,
  -94775043540382955601920000000000,
  26026021629564638360000000]

end Verif.Cpc
