/-!
# Tables of the composite estimator (generated)

`/repo/hll/composite_interpolation_xtables.go` l.23 ff. `compositeInterpolationXarrs`, in units of
`10^-12` (the literals have at most twelve decimals).
-/

namespace Verif.Hll

/-- `compositeInterpolationXarrs[0]`: `lgK = 4` -/
def xTab4 : List Nat := [
  10767999803534, 11237701481774, 11722738717438, 12223246391222, 12739366773787,
  13271184824495, 13818759686650, 14382159835785, 14961390904922, 15556414447178,
  16167227058768, 16793705840034, 17435831011559, 18093368824077, 18766214022468,
  19454114555153, 20156877376380, 20874309118151, 21606085061388, 22351926834624,
  23111406651437, 23884222842419, 24669953053285, 25468324695415, 26278740385032,
  27100807701976, 27934264623663, 28778498012717, 29633064579479, 30497559091830,
  31371415928956, 32254248998304, 33145649456017, 34045084140394, 34952069032314,
  35866210502243, 36787128772113, 37714316067007, 38647432342061, 39586020708848,
  40529738186256, 41478377527525, 42431435504179, 43388619067416, 44349650659292,
  45314111448463, 46281805382722, 47252472240229, 48225969481651, 49202042512440,
  50180350422249, 51160761480664, 52143032445587, 53127233235412, 54112986437616,
  55100182392694, 56088558030701, 57078156023607, 58068788167275, 59060493030644,
  60053033784417, 61046284072738, 62040286486621, 63034929032992, 64030027371399,
  65025588917110, 66021614945599, 67018177418440, 68015186786528, 69012467972526,
  70010014322660, 71007638150468, 72005472777573, 73003558069130, 74001925061314,
  75000323809106, 75998875046818, 76997735309722, 77996356820987, 78995236661037,
  79994185446564, 80993179953574, 81991936172868, 82991277726952, 83990564675011,
  84990016215330, 85989354175963, 86988664031183, 87988038383374, 88987487931153,
  89987011275632, 90986376635228, 91985802667485, 92985125933965, 93984894049744,
  94984597185523, 95984374633793, 96983987641198, 97983728001025, 98983151114601,
  99982917278162, 100982752268263, 101982610588914, 102982425129077, 103982425883214,
  104982193814993, 105982188025268, 106982005912713, 107981949640254, 108981777381902,
  109981767708570, 110981785341504, 111981686149156, 112981635012054, 113981557303839,
  114981412817204, 115981636136290, 116981451847734, 117981619278961, 118981656205677,
  119981462628717, 120981648197593, 121981672839888, 122981536601882, 123981424780957,
  124981245233627, 125981297203177, 126981469882453, 127981420558510, 128981470958251,
  129981803124940, 130981454077005, 131981307772677, 132981136552712, 133981060440468,
  134980764897921, 135980250123519, 136979947889981, 137979778713731, 138979651075854,
  139979521006237, 140979619490143, 141979418214464, 142979378742690, 143979006714929,
  144978789085341, 145978940618746, 146978699584620, 147978509489139, 148978375065557,
  149978382007245, 150978320879037, 151978431501891, 152978357310224, 153978079953131,
  154977867908315, 155977897282267, 156977732141540, 157977285841428, 158977381755450,
  159977107808858, 160976898092463, 161976945065052, 162976415653211, 163976063254486,
  164976168718176, 165976009634854, 166975746910144, 167975365498336, 168975302031315,
  169975145815395, 170975048401084, 171974904933990, 172974962856090, 173974307743427,
  174974505556696, 175974404122880, 176974154794798, 177973936891006, 178973909768514,
  179973629325330, 180973396428571, 181973041798012, 182972922327014, 183972453839631,
  184972389341638, 185971978290400, 186971721489488, 187971610992921, 188971432541974,
  189970886522529, 190970636748690, 191970543849249, 192970222044828, 193969945219163,
  194969816174441, 195969660267113, 196969306217626, 197969283141670, 198968952697752,
  199968650726389, 200968771498143, 201969063388798, 202968624157712, 203968385122471,
  204968459873029, 205968253426841, 206968128284823, 207968002441937, 208967981887571,
  209967853843352, 210967653026858, 211967601511385, 212967479077297, 213967293002672,
  214967265475369, 215967098197208, 216966915139758, 217966680984700, 218966156974161,
  219965788928685, 220965578199561, 221965550145047, 222965055562297, 223965041228123,
  224965088576052, 225964951649635, 226964837079061, 227964949815142, 228964753278386,
  229964358666956, 230964158288467, 231964118659643, 232964105599719, 233964013041408,
  234963810178150, 235963847138572, 236963634735645, 237963596910032, 238963659218725,
  239963498440155, 240963445597658, 241963141291971, 242962684055746, 243962664757583,
  244962762174588, 245962862664373, 246962595237647, 247962493432533, 248962292518484,
  249962622934132, 250962187495200, 251962038306920, 252961926735684, 253961867248643,
  254961699581530, 255961371028199]

/-- `compositeInterpolationXarrs[1]`: `lgK = 5` -/
def xTab5 : List Nat := [
  22304000309384, 23261989079230, 24249656493833, 25267226901899, 26314781734430,
  27392414068382, 28500177845081, 29638044883897, 30805888087516, 32003714838418,
  33231360682863, 34488477823483, 35774924122967, 37090293268866, 38434292452116,
  39806594197334, 41206691028159, 42634002763091, 44088065403269, 45568286128520,
  47074066947685, 48604745105475, 50159729872619, 51738339282229, 53339805618020,
  54963435280656, 56608464119077, 58274038434156, 59959403900602, 61663926660982,
  63386737477574, 65127093833107, 66884091606686, 68656959698762, 70445052178435,
  72247581860591, 74063607663774, 75892531705810, 77733879994604, 79586788509372,
  81450593478752, 83324645303244, 85208482496209, 87101116685537, 89002152917959,
  90911090999940, 92827275073114, 94750224301260, 96679773715696, 98615214511699,
  100556211548644, 102502148428334, 104452899214344, 106407767504404, 108366625832228,
  110329564692634, 112295481742874, 114264715056639, 116236769512562, 118211214593179,
  120188376370012, 122167746134232, 124148833002551, 126131612799989, 128116072530208,
  130102155735854, 132089449244974, 134077816832908, 136067404409248, 138057703527432,
  140049350564796, 142041756984355, 144034780624078, 146028584459531, 148022894428003,
  150017952482368, 152013358245376, 154009157360372, 156005076955043, 158001501688538,
  159998043891849, 161995141096448, 163992507770330, 165990019741406, 167987379363144,
  169985323168231, 171983371903769, 173981134136378, 175979306888599, 177977458741010,
  179975994045101, 181974478508488, 183973329438036, 185972061903815, 187971014174496,
  189969582278901, 191968450510061, 193967607022497, 195966726931677, 197965915341472,
  199964910588293, 201964427852336, 203964308576556, 205963778587196, 207963244179225,
  209962423156859, 211961859295409, 213961171237132, 215960624048009, 217959980906604,
  219959156277574, 221958692298143, 223958335010302, 225958329061602, 227957722024027,
  229957134954397, 231956897929205, 233956901572571, 235956650770311, 237956593290745,
  239956700470895, 241956192761863, 243956003327600, 245955794901574, 247955501305446,
  249954960233132, 251954510187803, 253954252376340, 255954011943050, 257953388008439,
  259953139524693, 261952918466928, 263952432910213, 265952485387126, 267952763908808,
  269952510701682, 271952383356830, 273951921008979, 275951766755515, 277951697578478,
  279951700548755, 281951805228218, 283951934023417, 285952140722678, 287952063941231,
  289951717207670, 291951294241955, 293950937111819, 295950900506385, 297950320403388,
  299949546547128, 301949474819234, 303949155377395, 305948725010033, 307948408553357,
  309948120512731, 311947897212148, 313947738181662, 315947255247579, 317946631669691,
  319946302193308, 321945855881155, 323945603079048, 325944930145876, 327945048538923,
  329944795565500, 331944227346318, 333943705422222, 335943231918970, 337942333069602,
  339942354997227, 341941890952026, 343941346276351, 345940653575739, 347940019001109,
  349940026817951, 351938944534275, 353938172407151, 355937584534690, 357937041224148,
  359936673631279, 361936179855216, 363936105840596, 365935367434940, 367935295315770,
  369934793960370, 371934314961518, 373933949277377, 375933420587284, 377933148188654,
  379932379363314, 381931900192237, 383930951130857, 385930667541762, 387930025971711,
  389929529183966, 391929116798157, 393928361940635, 395927673611921, 397927111110912,
  399926483516685, 401925799510661, 403924918492428, 405924540208915, 407924014467935,
  409923779779206, 411922979548363, 413922515268061, 415922148908645, 417921643066153,
  419921126587639, 421920766647684, 423920642824255, 425920411492484, 427920603679205,
  429920445437023, 431920286509746, 433919789058392, 435919408587813, 437918873200300,
  439918417416574, 441918192491069, 443918376503567, 445917692006023, 447917132642691,
  449917217997363, 451916924115487, 453916662151474, 455916485288107, 457915879851633,
  459915842501592, 461915547354915, 463914995141359, 465914585759187, 467914144928428,
  469913956069337, 471913046082896, 473912468624617, 475912322983182, 477912118100240,
  479911923664773, 481911518944025, 483911023761757, 485910386539830, 487910092345284,
  489910153786770, 491909575245360, 493908973823502, 495908577061168, 497908550221055,
  499908127020659, 501907710605296, 503907806972566, 505907336571662, 507907081330259,
  509906648846180, 511906201574892]

/-- `compositeInterpolationXarrs[2]`: `lgK = 6` -/
def xTab6 : List Nat := [
  45375999854524, 46820948326168, 48298703712049, 49809402685314, 51353165756275,
  52929933710602, 54539893242468, 56183033892089, 57859217068495, 59568519998303,
  61310801009963, 63085886926328, 64893798324934, 66734230191052, 68607173306372,
  70512210309984, 72449265953981, 74418007054647, 76417910710559, 78448929349152,
  80510585932256, 82602514696500, 84724061528721, 86875166381330, 89055217833675,
  91263852803721, 93500342620773, 95764451518395, 98055566319691, 100373234086043,
  102716794393386, 105085599217566, 107479363461004, 109897282858060, 112338907676111,
  114803401103124, 117290259931022, 119799265623507, 122329323908482, 124879681624600,
  127450299022993, 130040239267142, 132648756733593, 135275366525219, 137919720233989,
  140580778017562, 143258128898839, 145951552244700, 148660145472460, 151383257444852,
  154120434694643, 156871202914301, 159634634288797, 162410377522877, 165198249005575,
  167997420145534, 170807579918337, 173628020587905, 176458633641294, 179298282098581,
  182147449731726, 185005094444186, 187870899328937, 190744709255561, 193625572419776,
  196513740460772, 199408599560293, 202309940032246, 205217132295894, 208129828601313,
  211047995735211, 213970919426104, 216899109829571, 219832024990852, 222769136305806,
  225710258431247, 228655217514772, 231603984417526, 234555642012353, 237510635882749,
  240468820458907, 243429903849174, 246393192036307, 249359251612075, 252327416912482,
  255297598046767, 258269777722144, 261244337060733, 264219958654591, 267197643910088,
  270177202282129, 273157339433786, 276139287129066, 279122276848731, 282107226383752,
  285092136000673, 288078230550129, 291065256815999, 294053160971001, 297042401030971,
  300031784889467, 303022502412860, 306013581138287, 309005124942334, 311996910583050,
  314989635544162, 317982189300799, 320975762085573, 323969719809182, 326963672522149,
  329958419674913, 332953046205989, 335948338966110, 338943201657934, 341938798787180,
  344935321901459, 347931089897905, 350927355153871, 353923731760523, 356920383399325,
  359916863372939, 362914245241722, 365911216314347, 368908636150615, 371905028432797,
  374901981729273, 377899718967915, 380897391911925, 383894945428721, 386892974193389,
  389890517424427, 392889050804732, 395886893560179, 398884852345719, 401883235933616,
  404881805247652, 407880049402262, 410878410789472, 413876755787854, 416875140105536,
  419873758096660, 422872739431833, 425871627898739, 428870663138631, 431869475472357,
  434868378059774, 437867537661532, 440866274620049, 443865086570094, 446864282236320,
  449863630871851, 452862772062678, 455861877807413, 458860680461949, 461859728874700,
  464858478829514, 467857314559298, 470856707830759, 473855641079729, 476854880576501,
  479853812351976, 482852666825246, 485851471230749, 488850997731659, 491850420535006,
  494849118717584, 497848645341646, 500848230362352, 503847546143645, 506847285358235,
  509846275998715, 512845599444922, 515845441684852, 518844522015985, 521843923976006,
  524843281639782, 527842399994830, 530841152548296, 533840788827465, 536840058715879,
  539839578267778, 542839076801367, 545838441853502, 548837925005355, 551837456112430,
  554837041819817, 557836916936797, 560836116071833, 563834832988710, 566834107840572,
  569832763471368, 572831700689757, 575832050680783, 578831190216307, 581831249402778,
  584830325442080, 587828993643112, 590827962761832, 593827454067745, 596825833598259,
  599824193205007, 602822806340644, 605822276069352, 608821423024191, 611820006110523,
  614819016304854, 617818220240160, 620817311827644, 623816286470744, 626815211383752,
  629815077535810, 632813925717940, 635813392704099, 638812424935595, 641811289306882,
  644809932622788, 647808609610738, 650807771758015, 653806851303878, 656805452367508,
  659804133900742, 662803103749985, 665801910649522, 668800969589926, 671798796938405,
  674798110719805, 677797843657187, 680797711918663, 683796449689643, 686794998006462,
  689794205385109, 692792836542916, 695792195299304, 698790778974184, 701790704644168,
  704790168225574, 707789261680438, 710788674453657, 713787207421297, 716786043303658,
  719784740017888, 722783523691482, 725782739693893, 728781695938105, 731780295310459,
  734778719103047, 737778056368816, 740777014963309, 743776470087777, 746774710218241,
  749773897180146, 752772555359445, 755771799417720, 758770328749569, 761768940347768,
  764768630836408, 767767399121425]

/-- `compositeInterpolationXarrs[3]`: `lgK = 7` -/
def xTab7 : List Nat := [
  91554623000000, 93970317000000, 96431113000000, 98937264000000, 101488909000000,
  104086010000000, 106728780000000, 109417062000000, 112150914000000, 114930279000000,
  117755065000000, 120625143000000, 123540431000000, 126500927000000, 129506371000000,
  132556551000000, 135651450000000, 138790477000000, 141973357000000, 145200176000000,
  148470504000000, 151783478000000, 155139376000000, 158537455000000, 161977357000000,
  165458477000000, 168980630000000, 172543258000000, 176145951000000, 179788203000000,
  183469266000000, 187188166000000, 190945533000000, 194739618000000, 198570460000000,
  202437447000000, 206339379000000, 210276276000000, 214247092000000, 218251243000000,
  222288169000000, 226357728000000, 230458810000000, 234590263000000, 238751826000000,
  242942859000000, 247162518000000, 251410098000000, 255685517000000, 259987202000000,
  264314569000000, 268667458000000, 273044873000000, 277445418000000, 281869296000000,
  286316796000000, 290785471000000, 295276055000000, 299788143000000, 304319743000000,
  308869691000000, 313438842000000, 318026761000000, 322632499000000, 327254588000000,
  331892954000000, 336547483000000, 341217702000000, 345901880000000, 350601214000000,
  355313731000000, 360038868000000, 364777348000000, 369526476000000, 374288795000000,
  379061811000000, 383846122000000, 388640850000000, 393446218000000, 398260691000000,
  403084626000000, 407916053000000, 412755659000000, 417604951000000, 422461448000000,
  427324128000000, 432195028000000, 437072269000000, 441956190000000, 446846167000000,
  451741463000000, 456641868000000, 461549478000000, 466461280000000, 471377098000000,
  476297446000000, 481222717000000, 486151860000000, 491085033000000, 496022133000000,
  500962856000000, 505906586000000, 510853868000000, 515802981000000, 520755460000000,
  525711123000000, 530668833000000, 535629910000000, 540592334000000, 545557764000000,
  550525455000000, 555494082000000, 560463996000000, 565436164000000, 570410847000000,
  575385933000000, 580361996000000, 585339352000000, 590318151000000, 595300216000000,
  600281543000000, 605264482000000, 610250114000000, 615236608000000, 620222025000000,
  625208433000000, 630195367000000, 635183997000000, 640172271000000, 645162589000000,
  650153647000000, 655144276000000, 660133923000000, 665123818000000, 670115789000000,
  675109169000000, 680103270000000, 685097349000000, 690091960000000, 695086028000000,
  700080326000000, 705075670000000, 710069697000000, 715065265000000, 720062426000000,
  725058529000000, 730054916000000, 735050560000000, 740048508000000, 745044790000000,
  750041067000000, 755037833000000, 760035090000000, 765033371000000, 770029865000000,
  775025946000000, 780022408000000, 785021534000000, 790018699000000, 795016742000000,
  800013947000000, 805012680000000, 810009483000000, 815007921000000, 820008589000000,
  825007658000000, 830007411000000, 835006892000000, 840006917000000, 845006362000000,
  850004606000000, 855003367000000, 860001219000000, 864999491000000, 869999131000000,
  874998190000000, 879998460000000, 884997482000000, 889995952000000, 894995130000000,
  899994555000000, 904993474000000, 909991434000000, 914990519000000, 919991564000000,
  924992234000000, 929993901000000, 934992310000000, 939992013000000, 944993341000000,
  949993576000000, 954992981000000, 959993548000000, 964993781000000, 969993129000000,
  974994050000000, 979994706000000, 984994372000000, 989994395000000, 994995339000000,
  999995544000000, 1004995498000000, 1009996864000000, 1014997829000000, 1019996531000000,
  1024996724000000, 1029997574000000, 1034998591000000, 1039997807000000, 1044998954000000,
  1050000113000000, 1055000633000000, 1060000845000000, 1065000760000000, 1070000907000000,
  1075001248000000, 1080001187000000, 1084999775000000, 1089999105000000, 1094999647000000,
  1100001983000000, 1105003468000000, 1110004542000000, 1115005170000000, 1120006517000000,
  1125006493000000, 1130006837000000, 1135008369000000, 1140006966000000, 1145009225000000,
  1150008497000000, 1155009589000000, 1160009558000000, 1165011395000000, 1170009739000000,
  1175011131000000, 1180013303000000, 1185012525000000, 1190014190000000, 1195016399000000,
  1200016087000000, 1205016715000000, 1210018008000000, 1215018108000000, 1220019677000000,
  1225020269000000, 1230019468000000, 1235020515000000, 1240021850000000, 1245020961000000,
  1250019785000000, 1255020253000000, 1260020623000000, 1265020156000000, 1270020625000000,
  1275019028000000, 1280019972000000]

/-- `compositeInterpolationXarrs[4]`: `lgK = 8` -/
def xTab8 : List Nat := [
  183877784000000, 188720097000000, 193652407000000, 198675131000000, 203788397000000,
  208992238000000, 214286620000000, 219671580000000, 225147277000000, 230713559000000,
  236370208000000, 242117078000000, 247953569000000, 253880078000000, 259895869000000,
  266000405000000, 272193694000000, 278474457000000, 284843102000000, 291298228000000,
  297839692000000, 304466434000000, 311177471000000, 317972674000000, 324850719000000,
  331811076000000, 338852902000000, 345974709000000, 353175880000000, 360455237000000,
  367811613000000, 375244484000000, 382752472000000, 390334218000000, 397988777000000,
  405714596000000, 413510671000000, 421376147000000, 429308973000000, 437308197000000,
  445372302000000, 453500121000000, 461690796000000, 469942249000000, 478253652000000,
  486623402000000, 495049662000000, 503532193000000, 512068670000000, 520658371000000,
  529299186000000, 537990886000000, 546732097000000, 555520093000000, 564355935000000,
  573235689000000, 582159345000000, 591126063000000, 600133321000000, 609181348000000,
  618267848000000, 627392384000000, 636552822000000, 645748152000000, 654977601000000,
  664239902000000, 673534497000000, 682859448000000, 692213983000000, 701598606000000,
  711009376000000, 720446781000000, 729910995000000, 739397888000000, 748908546000000,
  758443812000000, 768000572000000, 777577584000000, 787174815000000, 796791250000000,
  806427107000000, 816079660000000, 825748493000000, 835435992000000, 845136828000000,
  854854141000000, 864583886000000, 874328396000000, 884085720000000, 893855568000000,
  903637568000000, 913431080000000, 923234553000000, 933049830000000, 942873895000000,
  952707793000000, 962551743000000, 972402421000000, 982263001000000, 992131464000000,
  1002006941000000, 1011888460000000, 1021777462000000, 1031671376000000, 1041569600000000,
  1051476632000000, 1061386996000000, 1071302834000000, 1081224251000000, 1091148847000000,
  1101080297000000, 1111013589000000, 1120951962000000, 1130893360000000, 1140838011000000,
  1150786112000000, 1160737100000000, 1170689817000000, 1180646908000000, 1190604979000000,
  1200565150000000, 1210527894000000, 1220492169000000, 1230460128000000, 1240429764000000,
  1250401749000000, 1260373274000000, 1270349608000000, 1280325544000000, 1290302087000000,
  1300279074000000, 1310257850000000, 1320238948000000, 1330221273000000, 1340203554000000,
  1350186669000000, 1360171345000000, 1370156233000000, 1380142561000000, 1390129535000000,
  1400119177000000, 1410107938000000, 1420097171000000, 1430087586000000, 1440077831000000,
  1450067996000000, 1460060299000000, 1470050059000000, 1480042995000000, 1490035101000000,
  1500026878000000, 1510021128000000, 1520014262000000, 1530008487000000, 1540002895000000,
  1549996342000000, 1559991075000000, 1569986665000000, 1579981202000000, 1589976021000000,
  1599969512000000, 1609964051000000, 1619959210000000, 1629957092000000, 1639953516000000,
  1649948113000000, 1659946715000000, 1669945253000000, 1679941736000000, 1689938651000000,
  1699937600000000, 1709936396000000, 1719933608000000, 1729931040000000, 1739930316000000,
  1749927141000000, 1759922600000000, 1769920847000000, 1779918614000000, 1789915707000000,
  1799913000000000, 1809910958000000, 1819908532000000, 1829906905000000, 1839903410000000,
  1849904217000000, 1859901705000000, 1869898815000000, 1879898869000000, 1889899032000000,
  1899899113000000, 1909896164000000, 1919893199000000, 1929894515000000, 1939894965000000,
  1949893184000000, 1959892164000000, 1969890794000000, 1979889035000000, 1989888005000000,
  1999888538000000, 2009888252000000, 2019888976000000, 2029890242000000, 2039890655000000,
  2049891065000000, 2059891068000000, 2069889204000000, 2079891120000000, 2089892462000000,
  2099892479000000, 2109891814000000, 2119893049000000, 2129893705000000, 2139893471000000,
  2149894162000000, 2159894213000000, 2169895041000000, 2179895987000000, 2189894721000000,
  2199894028000000, 2209896005000000, 2219898683000000, 2229898673000000, 2239898012000000,
  2249898018000000, 2259898215000000, 2269899380000000, 2279902590000000, 2289903144000000,
  2299902047000000, 2309904214000000, 2319903812000000, 2329904180000000, 2339902528000000,
  2349903057000000, 2359903089000000, 2369904512000000, 2379902563000000, 2389905522000000,
  2399903653000000, 2409902313000000, 2419904452000000, 2429905949000000, 2439905059000000,
  2449904954000000, 2459904977000000, 2469905111000000, 2479904049000000, 2489903762000000,
  2499902022000000, 2509904352000000, 2519903272000000, 2529901643000000, 2539900789000000,
  2549903045000000, 2559904334000000]

/-- `compositeInterpolationXarrs[5]`: `lgK = 9` -/
def xTab9 : List Nat := [
  368528954000000, 378224619000000, 388100156000000, 398155846000000, 408391912000000,
  418808631000000, 429406377000000, 440185048000000, 451144613000000, 462284693000000,
  473604932000000, 485105306000000, 496784844000000, 508643147000000, 520679581000000,
  532893098000000, 545282616000000, 557848295000000, 570587645000000, 583500268000000,
  596584345000000, 609838697000000, 623261582000000, 636851681000000, 650607666000000,
  664527320000000, 678608336000000, 692849674000000, 707248088000000, 721803089000000,
  736511331000000, 751372034000000, 766381798000000, 781538178000000, 796839808000000,
  812283881000000, 827867995000000, 843588520000000, 859444318000000, 875432109000000,
  891550599000000, 907795630000000, 924165943000000, 940657393000000, 957268601000000,
  973995685000000, 990837235000000, 1007789667000000, 1024850025000000, 1042016602000000,
  1059286426000000, 1076658199000000, 1094126523000000, 1111689346000000, 1129345589000000,
  1147092119000000, 1164926795000000, 1182844471000000, 1200846880000000, 1218929006000000,
  1237088281000000, 1255322930000000, 1273630393000000, 1292007269000000, 1310452948000000,
  1328963430000000, 1347538768000000, 1366176566000000, 1384871299000000, 1403626249000000,
  1422434094000000, 1441295238000000, 1460208340000000, 1479169853000000, 1498179265000000,
  1517234855000000, 1536335403000000, 1555477305000000, 1574659180000000, 1593881592000000,
  1613139378000000, 1632433516000000, 1651764587000000, 1671127255000000, 1690519577000000,
  1709942250000000, 1729393153000000, 1748871689000000, 1768377142000000, 1787907209000000,
  1807464755000000, 1827043146000000, 1846641976000000, 1866263022000000, 1885903553000000,
  1905564908000000, 1925240581000000, 1944936723000000, 1964648221000000, 1984375489000000,
  2004117246000000, 2023875053000000, 2043644075000000, 2063423514000000, 2083218689000000,
  2103026148000000, 2122840475000000, 2142669046000000, 2162505619000000, 2182351758000000,
  2202205963000000, 2222068658000000, 2241939010000000, 2261814547000000, 2281701803000000,
  2301591894000000, 2321490728000000, 2341393208000000, 2361298412000000, 2381211528000000,
  2401132345000000, 2421057721000000, 2440985510000000, 2460916691000000, 2480851468000000,
  2500792645000000, 2520738446000000, 2540683395000000, 2560634603000000, 2580586307000000,
  2600540530000000, 2620497170000000, 2640458137000000, 2660421783000000, 2680386186000000,
  2700352664000000, 2720321411000000, 2740291944000000, 2760264068000000, 2780238910000000,
  2800212546000000, 2820185829000000, 2840163952000000, 2860142145000000, 2880120568000000,
  2900102466000000, 2920081981000000, 2940062964000000, 2960046262000000, 2980029101000000,
  3000012591000000, 3019998424000000, 3039983637000000, 3059969573000000, 3079955927000000,
  3099942114000000, 3119930348000000, 3139919614000000, 3159909130000000, 3179899816000000,
  3199892231000000, 3219885316000000, 3239878917000000, 3259871675000000, 3279865195000000,
  3299856210000000, 3319848871000000, 3339840385000000, 3359834158000000, 3379830660000000,
  3399826361000000, 3419822855000000, 3439814714000000, 3459813765000000, 3479808673000000,
  3499804339000000, 3519797785000000, 3539791012000000, 3559789885000000, 3579785152000000,
  3599780237000000, 3619775480000000, 3639772724000000, 3659768920000000, 3679765735000000,
  3699766361000000, 3719765048000000, 3739762845000000, 3759761526000000, 3779757598000000,
  3799755719000000, 3819751149000000, 3839750182000000, 3859749673000000, 3879749344000000,
  3899749939000000, 3919749060000000, 3939748385000000, 3959750520000000, 3979750055000000,
  3999750104000000, 4019749963000000, 4039748453000000, 4059746737000000, 4079744522000000,
  4099744430000000, 4119741804000000, 4139740704000000, 4159742056000000, 4179740063000000,
  4199739155000000, 4219741718000000, 4239743433000000, 4259743115000000, 4279743265000000,
  4299745518000000, 4319746682000000, 4339750491000000, 4359748549000000, 4379747226000000,
  4399750319000000, 4419750379000000, 4439752339000000, 4459750561000000, 4479750612000000,
  4499747862000000, 4519750693000000, 4539747476000000, 4559749051000000, 4579750603000000,
  4599750089000000, 4619754781000000, 4639755536000000, 4659758879000000, 4679762145000000,
  4699762199000000, 4719763886000000, 4739765081000000, 4759765681000000, 4779765427000000,
  4799767582000000, 4819769915000000, 4839770107000000, 4859769398000000, 4879768976000000,
  4899768288000000, 4919768786000000, 4939768607000000, 4959772822000000, 4979772833000000,
  4999775808000000, 5019773468000000, 5039776181000000, 5059770860000000, 5079773006000000,
  5099773136000000, 5119772474000000]

/-- `compositeInterpolationXarrs[6]`: `lgK = 10` -/
def xTab10 : List Nat := [
  737833738000000, 757236338000000, 776997875000000, 797119465000000, 817602058000000,
  838445349000000, 859650320000000, 881216437000000, 903143414000000, 925430957000000,
  948079220000000, 971086231000000, 994451449000000, 1018173846000000, 1042251928000000,
  1066683804000000, 1091467648000000, 1116601416000000, 1142083017000000, 1167909918000000,
  1194079097000000, 1220588887000000, 1247435099000000, 1274614860000000, 1302125360000000,
  1329962942000000, 1358123177000000, 1386601609000000, 1415396299000000, 1444501692000000,
  1473913256000000, 1503628515000000, 1533642054000000, 1563948888000000, 1594544067000000,
  1625424305000000, 1656582169000000, 1688016543000000, 1719718553000000, 1751685990000000,
  1783912130000000, 1816393610000000, 1849122123000000, 1882095124000000, 1915305647000000,
  1948748605000000, 1982419843000000, 2016313904000000, 2050422277000000, 2084742618000000,
  2119270601000000, 2153998538000000, 2188920843000000, 2224034736000000, 2259333960000000,
  2294812594000000, 2330467059000000, 2366291844000000, 2402281356000000, 2438428954000000,
  2474734330000000, 2511187839000000, 2547786319000000, 2584527356000000, 2621406814000000,
  2658418551000000, 2695554270000000, 2732812564000000, 2770190157000000, 2807682744000000,
  2845287138000000, 2882995251000000, 2920807982000000, 2958719996000000, 2996728771000000,
  3034826885000000, 3073014082000000, 3111287116000000, 3149642093000000, 3188073159000000,
  3226577352000000, 3265156836000000, 3303803738000000, 3342515111000000, 3381291514000000,
  3420130671000000, 3459024315000000, 3497974631000000, 3536978221000000, 3576034737000000,
  3615138610000000, 3654285859000000, 3693480455000000, 3732715296000000, 3771991792000000,
  3811305300000000, 3850654870000000, 3890041152000000, 3929457167000000, 3968905021000000,
  4008381466000000, 4047886976000000, 4087419414000000, 4126978997000000, 4166562624000000,
  4206166726000000, 4245793284000000, 4285445151000000, 4325113012000000, 4364802795000000,
  4404506274000000, 4444228475000000, 4483965191000000, 4523719569000000, 4563487708000000,
  4603267460000000, 4643060387000000, 4682865430000000, 4722680718000000, 4762503248000000,
  4802341326000000, 4842185529000000, 4882039088000000, 4921900432000000, 4961772625000000,
  5001649566000000, 5041534380000000, 5081425809000000, 5121323013000000, 5161224908000000,
  5201130560000000, 5241044625000000, 5280962456000000, 5320882373000000, 5360810007000000,
  5400740058000000, 5440673843000000, 5480606748000000, 5520547394000000, 5560493520000000,
  5600438100000000, 5640383853000000, 5680335386000000, 5720292400000000, 5760250576000000,
  5800212705000000, 5840172984000000, 5880134991000000, 5920097923000000, 5960060294000000,
  6000031177000000, 6040003398000000, 6079981696000000, 6119954349000000, 6159929074000000,
  6199908569000000, 6239886163000000, 6279863659000000, 6319838261000000, 6359815405000000,
  6399795170000000, 6439777225000000, 6479755885000000, 6519738857000000, 6559723169000000,
  6599708549000000, 6639695186000000, 6679679788000000, 6719663289000000, 6759651052000000,
  6799634129000000, 6839624763000000, 6879615013000000, 6919605584000000, 6959591310000000,
  6999586006000000, 7039577399000000, 7079565236000000, 7119557222000000, 7159548481000000,
  7199533025000000, 7239519648000000, 7279511781000000, 7319507639000000, 7359506105000000,
  7399497488000000, 7439494944000000, 7479491545000000, 7519488415000000, 7559480534000000,
  7599475646000000, 7639470315000000, 7679468730000000, 7719460928000000, 7759455834000000,
  7799455686000000, 7839451758000000, 7879446841000000, 7919443884000000, 7959444138000000,
  7999443141000000, 8039446339000000, 8079445285000000, 8119444120000000, 8159443157000000,
  8199446480000000, 8239438893000000, 8279437597000000, 8319439714000000, 8359441566000000,
  8399440754000000, 8439439156000000, 8479440112000000, 8519442365000000, 8559444795000000,
  8599444497000000, 8639446714000000, 8679449177000000, 8719447620000000, 8759443423000000,
  8799445995000000, 8839446170000000, 8879449622000000, 8919450486000000, 8959450372000000,
  8999449731000000, 9039448449000000, 9079452579000000, 9119451596000000, 9159454020000000,
  9199456651000000, 9239460902000000, 9279460419000000, 9319461322000000, 9359464611000000,
  9399467790000000, 9439471448000000, 9479468426000000, 9519462982000000, 9559464881000000,
  9599462983000000, 9639461706000000, 9679457284000000, 9719457023000000, 9759455648000000,
  9799458786000000, 9839456980000000, 9879457411000000, 9919454971000000, 9959451735000000,
  9999451916000000, 10039443939000000, 10079435325000000, 10119432142000000, 10159431313000000,
  10199431306000000, 10239429671000000]

/-- `compositeInterpolationXarrs[7]`: `lgK = 11` -/
def xTab11 : List Nat := [
  1476444530000000, 1515260638000000, 1554794859000000, 1595048761000000, 1636023652000000,
  1677720065000000, 1720138513000000, 1763279158000000, 1807141823000000, 1851724811000000,
  1897027530000000, 1943048153000000, 1989784818000000, 2037234835000000, 2085395149000000,
  2134263580000000, 2183834818000000, 2234105548000000, 2285071077000000, 2336726064000000,
  2389065940000000, 2442084276000000, 2495776521000000, 2550134177000000, 2605153465000000,
  2660825522000000, 2717142881000000, 2774098631000000, 2831683790000000, 2889889911000000,
  2948711233000000, 3008137464000000, 3068158605000000, 3128766926000000, 3189951984000000,
  3251704129000000, 3314013826000000, 3376873018000000, 3440270569000000, 3504194851000000,
  3568636295000000, 3633586039000000, 3699031630000000, 3764962925000000, 3831371336000000,
  3898245744000000, 3965574384000000, 4033345701000000, 4101550888000000, 4170180686000000,
  4239221393000000, 4308664143000000, 4378497100000000, 4448712735000000, 4519296212000000,
  4590243535000000, 4661538747000000, 4733174738000000, 4805142002000000, 4877427081000000,
  4950019513000000, 5022915001000000, 5096098561000000, 5169567185000000, 5243312012000000,
  5317314578000000, 5391572253000000, 5466077564000000, 5540821377000000, 5615792025000000,
  5690985894000000, 5766392174000000, 5842007403000000, 5917816734000000, 5993815607000000,
  6069999957000000, 6146362662000000, 6222895187000000, 6299592875000000, 6376440778000000,
  6453443173000000, 6530588182000000, 6607874560000000, 6685288536000000, 6762829840000000,
  6840490840000000, 6918272948000000, 6996164556000000, 7074161694000000, 7152259404000000,
  7230451098000000, 7308737035000000, 7387113244000000, 7465575350000000, 7544120230000000,
  7622733447000000, 7701427750000000, 7780188044000000, 7859016102000000, 7937904850000000,
  8016853624000000, 8095860379000000, 8174919884000000, 8254034842000000, 8333197794000000,
  8412405307000000, 8491657429000000, 8570946804000000, 8650278289000000, 8729648657000000,
  8809056098000000, 8888496764000000, 8967966663000000, 9047466051000000, 9126993636000000,
  9206547289000000, 9286127523000000, 9365733732000000, 9445361201000000, 9525008810000000,
  9604680107000000, 9684363532000000, 9764066435000000, 9843787987000000, 9923523567000000,
  10003272886000000, 10083037524000000, 10162811803000000, 10242597755000000, 10322402415000000,
  10402216522000000, 10482042584000000, 10561877077000000, 10641722187000000, 10721570740000000,
  10801435848000000, 10881301249000000, 10961178474000000, 11041059765000000, 11120951444000000,
  11200845806000000, 11280746075000000, 11360652145000000, 11440567398000000, 11520476709000000,
  11600395391000000, 11680316855000000, 11760241900000000, 11840170134000000, 11920103548000000,
  12000038206000000, 12079975425000000, 12159912459000000, 12239857191000000, 12319802744000000,
  12399754385000000, 12479707055000000, 12559658981000000, 12639614004000000, 12719566502000000,
  12799526877000000, 12879488833000000, 12959451231000000, 13039416480000000, 13119388158000000,
  13199360789000000, 13279334923000000, 13359298927000000, 13439261641000000, 13519235871000000,
  13599204919000000, 13679181082000000, 13759157391000000, 13839137425000000, 13919112545000000,
  13999096522000000, 14079082789000000, 14159060487000000, 14239040581000000, 14319025236000000,
  14399006995000000, 14478994078000000, 14558980576000000, 14638962774000000, 14718952192000000,
  14798938522000000, 14878931501000000, 14958919062000000, 15038907891000000, 15118897247000000,
  15198889129000000, 15278881057000000, 15358873272000000, 15438867627000000, 15518861931000000,
  15598858206000000, 15678850014000000, 15758849382000000, 15838847872000000, 15918837658000000,
  15998837920000000, 16078831305000000, 16158827345000000, 16238815546000000, 16318817302000000,
  16398814389000000, 16478815820000000, 16558811634000000, 16638808126000000, 16718807170000000,
  16798805652000000, 16878813389000000, 16958806543000000, 17038807885000000, 17118813146000000,
  17198813752000000, 17278817574000000, 17358820511000000, 17438819443000000, 17518814262000000,
  17598815511000000, 17678814160000000, 17758816726000000, 17838817584000000, 17918814197000000,
  17998821276000000, 18078822342000000, 18158828474000000, 18238822064000000, 18318826732000000,
  18398827758000000, 18478827319000000, 18558834153000000, 18638835651000000, 18718839105000000,
  18798840903000000, 18878836463000000, 18958836015000000, 19038836351000000, 19118832583000000,
  19198829856000000, 19278822953000000, 19358824866000000, 19438823697000000, 19518826538000000,
  19598826954000000, 19678831393000000, 19758822279000000, 19838818757000000, 19918808247000000,
  19998804516000000, 20078809201000000, 20158808900000000, 20238806398000000, 20318798516000000,
  20398802224000000, 20478803179000000]

/-- `compositeInterpolationXarrs[8]`: `lgK = 12` -/
def xTab12 : List Nat := [
  2953666722000000, 3031310137000000, 3110389526000000, 3190908699000000, 3272865410000000,
  3356267166000000, 3441114376000000, 3527404284000000, 3615136846000000, 3704310976000000,
  3794924283000000, 3886973846000000, 3980451903000000, 4075355844000000, 4171681168000000,
  4269423939000000, 4368569738000000, 4469111760000000, 4571043603000000, 4674356370000000,
  4779038117000000, 4885076002000000, 4992460659000000, 5101176875000000, 5211214098000000,
  5322553631000000, 5435184633000000, 5549088369000000, 5664258175000000, 5780673987000000,
  5898312682000000, 6017158593000000, 6137195815000000, 6258397951000000, 6380761679000000,
  6504261630000000, 6628870413000000, 6754585867000000, 6881374325000000, 7009206926000000,
  7138080376000000, 7267979175000000, 7398866805000000, 7530722851000000, 7663531580000000,
  7797269872000000, 7931907340000000, 8067451667000000, 8203855692000000, 8341091306000000,
  8479155031000000, 8618026003000000, 8757682272000000, 8898095612000000, 9039253787000000,
  9181124777000000, 9323694329000000, 9466944202000000, 9610861899000000, 9755403639000000,
  9900578346000000, 10046356477000000, 10192718770000000, 10339635914000000, 10487081762000000,
  10635066232000000, 10783560130000000, 10932549371000000, 11082024055000000, 11231949071000000,
  11382332885000000, 11533122831000000, 11684327555000000, 11835935533000000, 11987926999000000,
  12140281619000000, 12292994375000000, 12446046449000000, 12599411083000000, 12753088314000000,
  12907079745000000, 13061355923000000, 13215895621000000, 13370722085000000, 13525795736000000,
  13681095971000000, 13836645692000000, 13992405906000000, 14148380716000000, 14304566860000000,
  14460959382000000, 14617539754000000, 14774296125000000, 14931214508000000, 15088271748000000,
  15245493870000000, 15402867309000000, 15560380994000000, 15718035423000000, 15875801492000000,
  16033687891000000, 16191701231000000, 16349808763000000, 16508026001000000, 16666336068000000,
  16824745049000000, 16983259302000000, 17141848044000000, 17300504517000000, 17459240272000000,
  17618060296000000, 17776914688000000, 17935848010000000, 18094852645000000, 18253914288000000,
  18413023567000000, 18572168358000000, 18731376016000000, 18890631505000000, 19049948196000000,
  19209279260000000, 19368638871000000, 19528043860000000, 19687498901000000, 19846941765000000,
  20006443084000000, 20165973535000000, 20325525957000000, 20485109520000000, 20644729917000000,
  20804363876000000, 20964021778000000, 21123698687000000, 21283379344000000, 21443080536000000,
  21602821439000000, 21762568135000000, 21922305338000000, 22082065878000000, 22241856145000000,
  22401629436000000, 22561435266000000, 22721262644000000, 22881080478000000, 23040916036000000,
  23200734053000000, 23360583255000000, 23520433188000000, 23680275065000000, 23840132678000000,
  24000012847000000, 24159886135000000, 24319788338000000, 24479654024000000, 24639540316000000,
  24799466449000000, 24959369335000000, 25119276072000000, 25279186502000000, 25439091982000000,
  25599020083000000, 25758930671000000, 25918847522000000, 26078773060000000, 26238704021000000,
  26398647566000000, 26558603366000000, 26718539855000000, 26878464425000000, 27038402892000000,
  27198344989000000, 27358270906000000, 27518203448000000, 27678169545000000, 27838133625000000,
  27998111630000000, 28158064264000000, 28318032491000000, 28477994153000000, 28637950838000000,
  28797910362000000, 28957884994000000, 29117861910000000, 29277814384000000, 29437774223000000,
  29597762256000000, 29757729819000000, 29917688497000000, 30077675371000000, 30237667941000000,
  30397639431000000, 30557644527000000, 30717622991000000, 30877622641000000, 31037598941000000,
  31197601527000000, 31357599118000000, 31517585221000000, 31677569983000000, 31837556138000000,
  31997527880000000, 32157500622000000, 32317491709000000, 32477504936000000, 32637501123000000,
  32797516330000000, 32957547336000000, 33117541765000000, 33277561207000000, 33437554332000000,
  33597564988000000, 33757565321000000, 33917561180000000, 34077580598000000, 34237597132000000,
  34397598246000000, 34557617536000000, 34717623318000000, 34877649722000000, 35037645029000000,
  35197681143000000, 35357700478000000, 35517701804000000, 35677734383000000, 35837736494000000,
  35997737103000000, 36157732045000000, 36317741539000000, 36477735602000000, 36637761491000000,
  36797742508000000, 36957734137000000, 37117742952000000, 37277789218000000, 37437793798000000,
  37597779066000000, 37757796449000000, 37917794116000000, 38077804399000000, 38237797507000000,
  38397788049000000, 38557768583000000, 38717768279000000, 38877752553000000, 39037747349000000,
  39197737646000000, 39357774395000000, 39517752643000000, 39677753347000000, 39837740038000000,
  39997719486000000, 40157709578000000, 40317708657000000, 40477719261000000, 40637726978000000,
  40797711139000000, 40957707784000000]

/-- `compositeInterpolationXarrs[9]`: `lgK = 13` -/
def xTab13 : List Nat := [
  5908111420000000, 6063410343000000, 6221578483000000, 6382623803000000, 6546553966000000,
  6713369171000000, 6883070010000000, 7055656719000000, 7231129758000000, 7409486672000000,
  7590720089000000, 7774822139000000, 7961786850000000, 8151601206000000, 8344261218000000,
  8539750086000000, 8738048786000000, 8939141702000000, 9143011205000000, 9349645220000000,
  9559003557000000, 9771078383000000, 9985846791000000, 10203277103000000, 10423349219000000,
  10646031323000000, 10871293001000000, 11099111735000000, 11329434411000000, 11562255804000000,
  11797522109000000, 12035204106000000, 12275263649000000, 12517670237000000, 12762388671000000,
  13009375491000000, 13258587519000000, 13510006825000000, 13763564399000000, 14019227089000000,
  14276975295000000, 14536745792000000, 14798511796000000, 15062215057000000, 15327806593000000,
  15595257499000000, 15864529774000000, 16135586770000000, 16408362074000000, 16682849583000000,
  16958977019000000, 17236708221000000, 17515990972000000, 17796798914000000, 18079096585000000,
  18362834517000000, 18647959152000000, 18934452073000000, 19222251998000000, 19511366053000000,
  19801717928000000, 20093269020000000, 20385960319000000, 20679772736000000, 20974698498000000,
  21270684814000000, 21567671010000000, 21865649193000000, 22164581341000000, 22464423293000000,
  22765172894000000, 23066785452000000, 23369201089000000, 23672387494000000, 23976354000000000,
  24281072155000000, 24586465328000000, 24892557323000000, 25199303712000000, 25506654130000000,
  25814626835000000, 26123148009000000, 26432247046000000, 26741889610000000, 27052042135000000,
  27362685181000000, 27673761784000000, 27985292246000000, 28297219809000000, 28609572368000000,
  28922317633000000, 29235448741000000, 29548944253000000, 29862766175000000, 30176910610000000,
  30491363107000000, 30806103787000000, 31121126024000000, 31436412153000000, 31751975134000000,
  32067737444000000, 32383768560000000, 32700017044000000, 33016458300000000, 33333101934000000,
  33649904492000000, 33966923435000000, 34284105041000000, 34601429152000000, 34918876076000000,
  35236481998000000, 35554235511000000, 35872093847000000, 36190101572000000, 36508190892000000,
  36826420800000000, 37144739624000000, 37463138566000000, 37781598984000000, 38100191087000000,
  38418846511000000, 38737587005000000, 39056391321000000, 39375255819000000, 39694182864000000,
  40013173503000000, 40332221146000000, 40651311460000000, 40970465534000000, 41289697002000000,
  41608913381000000, 41928242461000000, 42247585089000000, 42566988678000000, 42886409594000000,
  43205849396000000, 43525322840000000, 43844784209000000, 44164327769000000, 44483869861000000,
  44803383648000000, 45122975593000000, 45442593765000000, 45762258110000000, 46081937012000000,
  46401605265000000, 46721295022000000, 47041004034000000, 47360695978000000, 47680435451000000,
  48000192231000000, 48319953839000000, 48639726508000000, 48959506239000000, 49279318744000000,
  49599117846000000, 49918951926000000, 50238772730000000, 50558620076000000, 50878455501000000,
  51198285377000000, 51518135316000000, 51837976134000000, 52157809260000000, 52477635805000000,
  52797492063000000, 53117368983000000, 53437262930000000, 53757142921000000, 54077026859000000,
  54396907345000000, 54716835955000000, 55036713062000000, 55356640827000000, 55676537369000000,
  55996488865000000, 56316420754000000, 56636355217000000, 56956329593000000, 57276245282000000,
  57596202473000000, 57916159021000000, 58236077854000000, 58556010303000000, 58875938110000000,
  59195924442000000, 59515871947000000, 59835838035000000, 60155809948000000, 60475808167000000,
  60795765545000000, 61115766398000000, 61435725825000000, 61755677959000000, 62075688445000000,
  62395647263000000, 62715609853000000, 63035591787000000, 63355588060000000, 63675579841000000,
  63995560980000000, 64315552298000000, 64635582956000000, 64955538779000000, 65275512154000000,
  65595490993000000, 65915477332000000, 66235470693000000, 66555483426000000, 66875455452000000,
  67195455039000000, 67515435090000000, 67835418300000000, 68155401870000000, 68475404599000000,
  68795452423000000, 69115474466000000, 69435450344000000, 69755439668000000, 70075479966000000,
  70395468204000000, 70715475957000000, 71035472807000000, 71355513734000000, 71675486047000000,
  71995450475000000, 72315443410000000, 72635425138000000, 72955481520000000, 73275482426000000,
  73595476688000000, 73915469540000000, 74235426693000000, 74555381683000000, 74875368981000000,
  75195429157000000, 75515480428000000, 75835517265000000, 76155557945000000, 76475556134000000,
  76795579451000000, 77115605924000000, 77435604178000000, 77755572770000000, 78075576305000000,
  78395562526000000, 78715547599000000, 79035551674000000, 79355540615000000, 79675575726000000,
  79995547586000000, 80315544278000000, 80635546227000000, 80955555617000000, 81275540591000000,
  81595549538000000, 81915550079000000]

/-- `compositeInterpolationXarrs[10]`: `lgK = 14` -/
def xTab14 : List Nat := [
  11817000969000000, 12127609164000000, 12443958867000000, 12766059919000000, 13093926347000000,
  13427563687000000, 13766972021000000, 14112158775000000, 14463118632000000, 14819833221000000,
  15182310838000000, 15550514164000000, 15924452624000000, 16304097682000000, 16689414687000000,
  17080390156000000, 17476985675000000, 17879171048000000, 18286913146000000, 18700171223000000,
  19118909859000000, 19543074108000000, 19972606221000000, 20407466793000000, 20847600290000000,
  21292965548000000, 21743489087000000, 22199109276000000, 22659760749000000, 23125379711000000,
  23595914325000000, 24071277989000000, 24551407611000000, 25036233071000000, 25525671155000000,
  26019641791000000, 26518074136000000, 27020885189000000, 27528004081000000, 28039347478000000,
  28554818908000000, 29074343878000000, 29597869471000000, 30125254970000000, 30656449891000000,
  31191351228000000, 31729908970000000, 32272003587000000, 32817586623000000, 33366531359000000,
  33918769390000000, 34474232727000000, 35032798601000000, 35594423192000000, 36159024745000000,
  36726469786000000, 37296712851000000, 37869686035000000, 38445278953000000, 39023442285000000,
  39604084062000000, 40187147209000000, 40772503600000000, 41360148758000000, 41949978377000000,
  42541929077000000, 43135892496000000, 43731836459000000, 44329664552000000, 44929334224000000,
  45530772542000000, 46133919152000000, 46738746702000000, 47345120215000000, 47953051656000000,
  48562469011000000, 49173281212000000, 49785453501000000, 50398908717000000, 51013645932000000,
  51629563526000000, 52246635759000000, 52864820434000000, 53484057447000000, 54104303719000000,
  54725504675000000, 55347680019000000, 55970744363000000, 56594688890000000, 57219458967000000,
  57844949821000000, 58471197998000000, 59098180259000000, 59725774793000000, 60354058215000000,
  60982962558000000, 61612427469000000, 62242448368000000, 62873013426000000, 63504106743000000,
  64135672742000000, 64767665213000000, 65400082326000000, 66032949331000000, 66666219558000000,
  67299817447000000, 67933801373000000, 68568092593000000, 69202717636000000, 69837643507000000,
  70472852133000000, 71108305774000000, 71744023189000000, 72380016332000000, 73016168118000000,
  73652560876000000, 74289210741000000, 74926041959000000, 75563048434000000, 76200207724000000,
  76837505542000000, 77474999283000000, 78112608284000000, 78750375633000000, 79388254423000000,
  80026267074000000, 80664419197000000, 81302602941000000, 81940909776000000, 82579321050000000,
  83217801329000000, 83856420605000000, 84495098999000000, 85133832545000000, 85772588001000000,
  86411448347000000, 87050399262000000, 87689358100000000, 88328463714000000, 88967516990000000,
  89606618839000000, 90245788934000000, 90884986443000000, 91524243962000000, 92163523370000000,
  92802835394000000, 93442198790000000, 94081633840000000, 94721043838000000, 95360482304000000,
  96000002974000000, 96639518339000000, 97279069377000000, 97918584802000000, 98558189888000000,
  99197773242000000, 99837390001000000, 100476994827000000, 101116655652000000, 101756293703000000,
  102395977437000000, 103035662337000000, 103675360919000000, 104315063845000000, 104954783621000000,
  105594504004000000, 106234229823000000, 106874056079000000, 107513846129000000, 108153562857000000,
  108793393622000000, 109433202056000000, 110072966808000000, 110712777026000000, 111352577741000000,
  111992441538000000, 112632256702000000, 113272083743000000, 113911943484000000, 114551818432000000,
  115191687411000000, 115831584194000000, 116471522453000000, 117111338979000000, 117751192777000000,
  118391070556000000, 119030991702000000, 119670888488000000, 120310801509000000, 120950761000000000,
  121590691826000000, 122230618394000000, 122870618097000000, 123510616056000000, 124150552363000000,
  124790488946000000, 125430445483000000, 126070428297000000, 126710409643000000, 127350398562000000,
  127990397846000000, 128630413222000000, 129270354937000000, 129910365912000000, 130550332174000000,
  131190259646000000, 131830280970000000, 132470304278000000, 133110295205000000, 133750312426000000,
  134390364847000000, 135030321000000000, 135670319926000000, 136310335570000000, 136950324790000000,
  137590338289000000, 138230368657000000, 138870374084000000, 139510447896000000, 140150468353000000,
  140790441338000000, 141430438424000000, 142070440787000000, 142710431348000000, 143350433770000000,
  143990493350000000, 144630548409000000, 145270549935000000, 145910530486000000, 146550488808000000,
  147190510290000000, 147830509426000000, 148470575641000000, 149110541845000000, 149750592427000000,
  150390634921000000, 151030706500000000, 151670646574000000, 152310624482000000, 152950686127000000,
  153590659153000000, 154230646236000000, 154870720079000000, 155510614028000000, 156150596142000000,
  156790659641000000, 157430633386000000, 158070649047000000, 158710591350000000, 159350585980000000,
  159990557711000000, 160630530183000000, 161270499427000000, 161910521323000000, 162550516603000000,
  163190482792000000, 163830422631000000]

/-- `compositeInterpolationXarrs[11]`: `lgK = 15` -/
def xTab15 : List Nat := [
  23634780143000000, 24256008404000000, 24888717596000000, 25532934303000000, 26188680791000000,
  26855965949000000, 27534798395000000, 28225179199000000, 28927099457000000, 29640545847000000,
  30365501013000000, 31101936533000000, 31849825685000000, 32609111850000000, 33379755958000000,
  34161706474000000, 34954912131000000, 35759291030000000, 36574778310000000, 37401280667000000,
  38238742234000000, 39087060449000000, 39946133936000000, 40815861824000000, 41696151280000000,
  42586877221000000, 43487927203000000, 44399169293000000, 45320460825000000, 46251693279000000,
  47192741847000000, 48143464216000000, 49103716679000000, 50073349113000000, 51052208336000000,
  52040138165000000, 53036993192000000, 54042604241000000, 55056838449000000, 56079501709000000,
  57110434199000000, 58149484623000000, 59196455710000000, 60251226284000000, 61313593108000000,
  62383385277000000, 63460484960000000, 64544666337000000, 65635763495000000, 66733629361000000,
  67838096489000000, 68948987037000000, 70066117363000000, 71189338133000000, 72318464573000000,
  73453423815000000, 74593923438000000, 75739864335000000, 76891058098000000, 78047391508000000,
  79208654009000000, 80374753680000000, 81545514022000000, 82720817799000000, 83900405263000000,
  85084273208000000, 86272263471000000, 87464134340000000, 88659829437000000, 89859204804000000,
  91062115479000000, 92268425863000000, 93478041907000000, 94690804589000000, 95906647693000000,
  97125398400000000, 98347018145000000, 99571305992000000, 100798274503000000, 102027737913000000,
  103259574749000000, 104493727918000000, 105730035415000000, 106968465700000000, 108208988306000000,
  109451445144000000, 110695748927000000, 111941827269000000, 113189666448000000, 114439093665000000,
  115690116530000000, 116942608958000000, 118196501294000000, 119451722652000000, 120708276299000000,
  121966046247000000, 123225027480000000, 124485082349000000, 125746201609000000, 127008357433000000,
  128271416054000000, 129535417336000000, 130800297278000000, 132066008820000000, 133332483576000000,
  134599733640000000, 135867681429000000, 137136303792000000, 138405538969000000, 139675413251000000,
  140945839375000000, 142216787412000000, 143488232199000000, 144760234976000000, 146032650196000000,
  147305459198000000, 148578703708000000, 149852356585000000, 151126347770000000, 152400641475000000,
  153675275168000000, 154950179904000000, 156225390849000000, 157500864126000000, 158776585926000000,
  160052504602000000, 161328716398000000, 162605171897000000, 163881825931000000, 165158677102000000,
  166435646121000000, 167712814846000000, 168990136047000000, 170267619890000000, 171545238277000000,
  172823011460000000, 174100890250000000, 175378821293000000, 176656920467000000, 177935093547000000,
  179213318173000000, 180491692642000000, 181770130424000000, 183048727206000000, 184327217835000000,
  185605921891000000, 186884657773000000, 188163418059000000, 189442221838000000, 190721122201000000,
  192000068271000000, 193279087882000000, 194558139554000000, 195837195523000000, 197116400538000000,
  198395612565000000, 199674831001000000, 200954101970000000, 202233365695000000, 203512639968000000,
  204792003319000000, 206071379608000000, 207350730914000000, 208630080321000000, 209909544216000000,
  211189014497000000, 212468508049000000, 213748055445000000, 215027584964000000, 216307216078000000,
  217586896296000000, 218866477232000000, 220146109506000000, 221425767458000000, 222705465633000000,
  223985129542000000, 225264797531000000, 226544544335000000, 227824304232000000, 229104031191000000,
  230383739676000000, 231663424684000000, 232943198829000000, 234222906969000000, 235502669185000000,
  236782475696000000, 238062262723000000, 239342090234000000, 240622002668000000, 241901911022000000,
  243181742902000000, 244461690551000000, 245741531359000000, 247021432644000000, 248301277604000000,
  249581168404000000, 250861094078000000, 252141038818000000, 253421065594000000, 254701020169000000,
  255980887518000000, 257260848328000000, 258540873565000000, 259820905666000000, 261100908594000000,
  262380854763000000, 263660862699000000, 264940834842000000, 266220775656000000, 267500745402000000,
  268780761926000000, 270060823540000000, 271340798715000000, 272620823081000000, 273900881190000000,
  275180928531000000, 276460914606000000, 277740919081000000, 279020967358000000, 280301002010000000,
  281581054314000000, 282861097638000000, 284141109728000000, 285421181335000000, 286701182750000000,
  287981231437000000, 289261342952000000, 290541328315000000, 291821320901000000, 293101395969000000,
  294381402286000000, 295661374812000000, 296941357112000000, 298221462446000000, 299501443884000000,
  300781429735000000, 302061512800000000, 303341459364000000, 304621530042000000, 305901507763000000,
  307181541613000000, 308461506346000000, 309741474814000000, 311021458944000000, 312301373851000000,
  313581258984000000, 314861222655000000, 316141192042000000, 317421179698000000, 318701162346000000,
  319981143104000000, 321261185706000000, 322541120379000000, 323821065555000000, 325100961639000000,
  326380920540000000, 327660786948000000]

/-- `compositeInterpolationXarrs[12]`: `lgK = 16` -/
def xTab16 : List Nat := [
  47270338530000000, 48512804588000000, 49778235006000000, 51066679846000000, 52378178287000000,
  53712756179000000, 55070430016000000, 56451198432000000, 57855044557000000, 59281941569000000,
  60731855114000000, 62204727445000000, 63700498656000000, 65219087806000000, 66760381754000000,
  68324278827000000, 69910681844000000, 71519442760000000, 73150426782000000, 74803469853000000,
  76478400456000000, 78175038414000000, 79893184924000000, 81632639705000000, 83393214587000000,
  85174662642000000, 86976739912000000, 88799210643000000, 90641829434000000, 92504355605000000,
  94386478165000000, 96287925119000000, 98208422967000000, 100147694840000000, 102105387259000000,
  104081226364000000, 106074916897000000, 108086136683000000, 110114560800000000, 112159857579000000,
  114221724675000000, 116299785348000000, 118393731853000000, 120503258946000000, 122627958417000000,
  124767540962000000, 126921668848000000, 129090003274000000, 131272204811000000, 133467918004000000,
  135676870426000000, 137898595565000000, 140132829694000000, 142379269230000000, 144637536478000000,
  146907321805000000, 149188299797000000, 151480151490000000, 153782571459000000, 156095292246000000,
  158417834407000000, 160749983694000000, 163091465145000000, 165441984077000000, 167801236994000000,
  170168903670000000, 172544767987000000, 174928494171000000, 177319918928000000, 179718624717000000,
  182124426670000000, 184537056818000000, 186956260737000000, 189381869001000000, 191813551321000000,
  194251107949000000, 196694280093000000, 199142910671000000, 201596663557000000, 204055453662000000,
  206519090402000000, 208987322132000000, 211460079506000000, 213936962995000000, 216417945039000000,
  218902907481000000, 221391594168000000, 223883857806000000, 226379519239000000, 228878478995000000,
  231380515508000000, 233885422831000000, 236393251620000000, 238903734661000000, 241416885791000000,
  243932462444000000, 246450361381000000, 248970497360000000, 251492768859000000, 254017059221000000,
  256543244066000000, 259071366198000000, 261601098326000000, 264132472390000000, 266665477130000000,
  269200003838000000, 271735898262000000, 274273128446000000, 276811699617000000, 279351334667000000,
  281892176977000000, 284434126935000000, 286977141855000000, 289520993664000000, 292065816286000000,
  294611452586000000, 297157986206000000, 299705252956000000, 302253226506000000, 304801859484000000,
  307351170990000000, 309901148395000000, 312451594894000000, 315002530644000000, 317553961670000000,
  320105951895000000, 322658553440000000, 325211299379000000, 327764626147000000, 330318311300000000,
  332872331048000000, 335426696106000000, 337981358498000000, 340536275072000000, 343091446562000000,
  345646972942000000, 348202757347000000, 350758693296000000, 353314808579000000, 355871203754000000,
  358427702337000000, 360984491079000000, 363541449032000000, 366098493281000000, 368655687887000000,
  371213030472000000, 373770561193000000, 376328233445000000, 378886001706000000, 381443937538000000,
  384001856504000000, 386559857503000000, 389117926075000000, 391676219835000000, 394234530250000000,
  396792812601000000, 399351291660000000, 401909794770000000, 404468330377000000, 407026964781000000,
  409585614496000000, 412144407471000000, 414703175858000000, 417261980659000000, 419820958264000000,
  422379863083000000, 424938751186000000, 427497927620000000, 430056993719000000, 432616066348000000,
  435175266190000000, 437734382772000000, 440293531277000000, 442852711332000000, 445412016423000000,
  447971502143000000, 450530798765000000, 453090167199000000, 455649502729000000, 458208951251000000,
  460768459694000000, 463328053373000000, 465887570627000000, 468447239271000000, 471006792818000000,
  473566544068000000, 476126194227000000, 478685887605000000, 481245577573000000, 483805348711000000,
  486365028302000000, 488924844568000000, 491484612666000000, 494044321666000000, 496604011864000000,
  499163799789000000, 501723629793000000, 504283493711000000, 506843290195000000, 509403157856000000,
  511962990320000000, 514522941350000000, 517082791953000000, 519642848656000000, 522202833761000000,
  524762686522000000, 527322632758000000, 529882529037000000, 532442420851000000, 535002422317000000,
  537562386309000000, 540122357425000000, 542682434171000000, 545242468829000000, 547802466694000000,
  550362492718000000, 552922461624000000, 555482539495000000, 558042531431000000, 560602467437000000,
  563162648952000000, 565722750610000000, 568282702877000000, 570842810092000000, 573402917604000000,
  575962999235000000, 578523081937000000, 581083162584000000, 583643265455000000, 586203287883000000,
  588763260931000000, 591323292027000000, 593883252456000000, 596443273935000000, 599003353442000000,
  601563492606000000, 604123421135000000, 606683438234000000, 609243605174000000, 611803638038000000,
  614363628593000000, 616923690580000000, 619483675256000000, 622043744171000000, 624603673246000000,
  627163577236000000, 629723677960000000, 632283670157000000, 634843692958000000, 637403576097000000,
  639963511752000000, 642523482942000000, 645083419327000000, 647643330711000000, 650203272467000000,
  652763290376000000, 655323267522000000]

/-- `compositeInterpolationXarrs[13]`: `lgK = 17` -/
def xTab17 : List Nat := [
  94541455324000000, 97026403245000000, 99557280165000000, 102134178452000000, 104757187033000000,
  107426362674000000, 110141726029000000, 112903278005000000, 115710975458000000, 118564785344000000,
  121464629896000000, 124410377345000000, 127401910279000000, 130439087070000000, 133521683723000000,
  136649499031000000, 139822321627000000, 143039848320000000, 146301785984000000, 149607844773000000,
  152957695333000000, 156350945326000000, 159787233040000000, 163266157476000000, 166787301371000000,
  170350201319000000, 173954353438000000, 177599302692000000, 181284526367000000, 185009507089000000,
  188773757457000000, 192576638207000000, 196417619925000000, 200296089540000000, 204211494530000000,
  208163221220000000, 212150613086000000, 216173056150000000, 220229879308000000, 224320462264000000,
  228444146459000000, 232600284426000000, 236788187347000000, 241007264352000000, 245256725247000000,
  249535938618000000, 253844217048000000, 258180876528000000, 262545282090000000, 266936686787000000,
  271354453768000000, 275797958112000000, 280266429404000000, 284759298770000000, 289275861948000000,
  293815386243000000, 298377390708000000, 302961087179000000, 307565895452000000, 312191173759000000,
  316836362522000000, 321500721532000000, 326183652758000000, 330884723656000000, 335603197219000000,
  340338617624000000, 345090316855000000, 349857860719000000, 354640538362000000, 359438001710000000,
  364249638745000000, 369074940533000000, 373913351331000000, 378764438864000000, 383627767868000000,
  388502854215000000, 393389259584000000, 398286483436000000, 403194238263000000, 408111948151000000,
  413039292303000000, 417975909674000000, 422921304084000000, 427875195485000000, 432837200959000000,
  437807062429000000, 442784399966000000, 447768726662000000, 452760032525000000, 457757794185000000,
  462761810279000000, 467771737196000000, 472787226777000000, 477808283249000000, 482834411114000000,
  487865521166000000, 492901275392000000, 497941616150000000, 502986164281000000, 508034749030000000,
  513087210697000000, 518143298172000000, 523202692981000000, 528265454984000000, 533331384435000000,
  538400437943000000, 543472278711000000, 548546790172000000, 553623737338000000, 558703047575000000,
  563784666463000000, 568868524932000000, 573954251207000000, 579041935016000000, 584131557779000000,
  589222910016000000, 594315786547000000, 599410314112000000, 604506227555000000, 609603610432000000,
  614702124262000000, 619801918486000000, 624902903258000000, 630005085347000000, 635107990499000000,
  640211847431000000, 645316755403000000, 650422424613000000, 655529009211000000, 660636166872000000,
  665744170495000000, 670852806947000000, 675962099161000000, 681072042796000000, 686182458370000000,
  691293269596000000, 696404763335000000, 701516635253000000, 706628965299000000, 711741575313000000,
  716854769083000000, 721968220605000000, 727082027784000000, 732196114131000000, 737310594653000000,
  742425339665000000, 747540295793000000, 752655505647000000, 757770968129000000, 762886636891000000,
  768002527720000000, 773118559142000000, 778234871441000000, 783351273881000000, 788467944809000000,
  793584599211000000, 798701497594000000, 803818484285000000, 808935619316000000, 814053067243000000,
  819170390229000000, 824287946609000000, 829405450988000000, 834523054071000000, 839640856519000000,
  844758800102000000, 849876719924000000, 854994831607000000, 860112896788000000, 865231116455000000,
  870349453898000000, 875467910756000000, 880586444976000000, 885705102070000000, 890823822978000000,
  895942513436000000, 901061120048000000, 906179716020000000, 911298587548000000, 916417583647000000,
  921536507373000000, 926655570709000000, 931774690027000000, 936893879961000000, 942012956398000000,
  947132142141000000, 952251503479000000, 957370815448000000, 962490012685000000, 967609521437000000,
  972729002837000000, 977848339983000000, 982967824448000000, 988087392216000000, 993206992691000000,
  998326635354000000, 1003446304388000000, 1008565985024000000, 1013685706678000000, 1018805581548000000,
  1023925239073000000, 1029045157502000000, 1034165035124000000, 1039284843524000000, 1044404676526000000,
  1049524620186000000, 1054644441170000000, 1059764409794000000, 1064884318434000000, 1070004338968000000,
  1075124268749000000, 1080244471055000000, 1085364528193000000, 1090484511927000000, 1095604595114000000,
  1100724598478000000, 1105844666500000000, 1110964804168000000, 1116084864159000000, 1121204874577000000,
  1126325062599000000, 1131445152321000000, 1136565301592000000, 1141685638897000000, 1146805806800000000,
  1151925790859000000, 1157045932640000000, 1162166112443000000, 1167286221698000000, 1172406273611000000,
  1177526581875000000, 1182646832239000000, 1187766882661000000, 1192886884388000000, 1198006962839000000,
  1203127084377000000, 1208246959060000000, 1213366976076000000, 1218486763464000000, 1223606758568000000,
  1228726721761000000, 1233846593404000000, 1238966815228000000, 1244086865449000000, 1249206854850000000,
  1254326996667000000, 1259447092239000000, 1264567198081000000, 1269687499091000000, 1274807474194000000,
  1279927244161000000, 1285047273317000000, 1290167090035000000, 1295287035620000000, 1300406888764000000,
  1305526667946000000, 1310646540340000000]

/-- `compositeInterpolationXarrs[14]`: `lgK = 18` -/
def xTab18 : List Nat := [
  189083688921000000, 194053597973000000, 199115342781000000, 204269157017000000, 209515195566000000,
  214853553887000000, 220284295855000000, 225807399998000000, 231422826900000000, 237130469824000000,
  242930139690000000, 248821634191000000, 254804718978000000, 260879073467000000, 267044289594000000,
  273299936993000000, 279645549742000000, 286080586199000000, 292604521050000000, 299216651567000000,
  305916376160000000, 312702908374000000, 319575536730000000, 326533420485000000, 333575639430000000,
  340701388339000000, 347909713977000000, 355199642852000000, 362570108280000000, 370020154080000000,
  377548652175000000, 385154413997000000, 392836374125000000, 400593371525000000, 408424172521000000,
  416327671123000000, 424302406749000000, 432347292674000000, 440461014310000000, 448642241683000000,
  456889603709000000, 465201946081000000, 473577749277000000, 482015802141000000, 490514770444000000,
  499073243760000000, 507689794308000000, 516363149230000000, 525091902823000000, 533874850510000000,
  542710434311000000, 551597433198000000, 560534241273000000, 569520019389000000, 578553034265000000,
  587632180111000000, 596756084542000000, 605923440522000000, 615133037840000000, 624383626242000000,
  633673841133000000, 643002674316000000, 652368578283000000, 661770556501000000, 671207605795000000,
  680678417768000000, 690181818697000000, 699716780471000000, 709282084973000000, 718876864175000000,
  728499951143000000, 738150280049000000, 747827053968000000, 757529236597000000, 767255784062000000,
  777006100829000000, 786779065927000000, 796573507429000000, 806388828153000000, 816223976258000000,
  826078608350000000, 835951751956000000, 845842493689000000, 855750225870000000, 865674190527000000,
  875613809349000000, 885568425527000000, 895537272219000000, 905519763307000000, 915515310346000000,
  925523353103000000, 935543172648000000, 945574292664000000, 955616280042000000, 965668428231000000,
  975730535479000000, 985802055447000000, 995882596628000000, 1005971583108000000, 1016068664992000000,
  1026173649961000000, 1036285774891000000, 1046404955770000000, 1056530588186000000, 1066662648243000000,
  1076800535542000000, 1086944269881000000, 1097093058652000000, 1107247076183000000, 1117405990557000000,
  1127569310917000000, 1137737011345000000, 1147908717700000000, 1158084362020000000, 1168263501029000000,
  1178446221907000000, 1188632206842000000, 1198821131431000000, 1209013020373000000, 1219207570786000000,
  1229404854893000000, 1239604423801000000, 1249806433263000000, 1260010619993000000, 1270216819018000000,
  1280424774173000000, 1290634560600000000, 1300846097203000000, 1311059128630000000, 1321273628402000000,
  1331489832488000000, 1341707300774000000, 1351925947953000000, 1362145802925000000, 1372366802414000000,
  1382588547896000000, 1392811264776000000, 1403035227449000000, 1413259922280000000, 1423485322819000000,
  1433711916106000000, 1443938981360000000, 1454166596984000000, 1464394761679000000, 1474623684212000000,
  1484853156422000000, 1495083020146000000, 1505313735890000000, 1515544731764000000, 1525776086634000000,
  1536007742073000000, 1546239679012000000, 1556472212370000000, 1566704988763000000, 1576937965495000000,
  1587171446007000000, 1597405292186000000, 1607639395274000000, 1617873660775000000, 1628108037273000000,
  1638342741799000000, 1648577832828000000, 1658813325573000000, 1669048803784000000, 1679284679963000000,
  1689520927615000000, 1699757050010000000, 1709993263665000000, 1720229557663000000, 1730466102090000000,
  1740702604009000000, 1750939618504000000, 1761176930182000000, 1771414210528000000, 1781651713742000000,
  1791889218503000000, 1802126805234000000, 1812364257333000000, 1822602054007000000, 1832839687792000000,
  1843077871973000000, 1853315944762000000, 1863554202066000000, 1873792633125000000, 1884030883830000000,
  1894269182711000000, 1904507712050000000, 1914746469507000000, 1924985484753000000, 1935224245956000000,
  1945463225215000000, 1955702268883000000, 1965941321722000000, 1976180037370000000, 1986419052784000000,
  1996658429579000000, 2006897450283000000, 2017136904971000000, 2027376240039000000, 2037615549295000000,
  2047855197425000000, 2058094765906000000, 2068334279787000000, 2078573820075000000, 2088813469730000000,
  2099053348620000000, 2109293174176000000, 2119533012704000000, 2129772820132000000, 2140012744709000000,
  2150252607739000000, 2160492533017000000, 2170732406422000000, 2180972400110000000, 2191212436319000000,
  2201452637894000000, 2211692339292000000, 2221932460057000000, 2232172746036000000, 2242412892705000000,
  2252653174824000000, 2262893432271000000, 2273134002270000000, 2283374311008000000, 2293614537881000000,
  2303854703732000000, 2314095191374000000, 2324335236186000000, 2334575624526000000, 2344816313269000000,
  2355056224171000000, 2365296361285000000, 2375537048184000000, 2385777280284000000, 2396017222502000000,
  2406257145546000000, 2416497272190000000, 2426737212210000000, 2436977500856000000, 2447217897426000000,
  2457458423605000000, 2467698536697000000, 2477938448096000000, 2488178544726000000, 2498418640441000000,
  2508658160374000000, 2518898274852000000, 2529138509345000000, 2539378310538000000, 2549617989497000000,
  2559857504886000000, 2570097363128000000, 2580337195261000000, 2590576878833000000, 2600816572159000000,
  2611055930087000000, 2621295625004000000]

/-- `compositeInterpolationXarrs[15]`: `lgK = 19` -/
def xTab19 : List Nat := [
  378168156126000000, 388107986863000000, 398231517433000000, 408539178530000000, 419031252008000000,
  429707954086000000, 440569365328000000, 451615642722000000, 462846490174000000, 474261790112000000,
  485861190310000000, 497644259253000000, 509610438730000000, 521759095095000000, 534089573442000000,
  546600981190000000, 559292272697000000, 572162409622000000, 585210331052000000, 598434669889000000,
  611834157416000000, 625407271721000000, 639152543961000000, 653068262294000000, 667152777393000000,
  681404241581000000, 695820778241000000, 710400501586000000, 725141425404000000, 740041558661000000,
  755098503731000000, 770310107475000000, 785674192935000000, 801188297422000000, 816849950298000000,
  832656623960000000, 848606198026000000, 864696151343000000, 880923487841000000, 897285841319000000,
  913780530043000000, 930405131973000000, 947156655545000000, 964032974599000000, 981030762278000000,
  998147499138000000, 1015380659035000000, 1032727149847000000, 1050184616751000000, 1067750330789000000,
  1085421716664000000, 1103195771853000000, 1121069796650000000, 1139041324454000000, 1157107373802000000,
  1175265377022000000, 1193513201704000000, 1211847872855000000, 1230267133114000000, 1248768293478000000,
  1267348634472000000, 1286005987451000000, 1304738187318000000, 1323542421988000000, 1342416458954000000,
  1361357807871000000, 1380364530293000000, 1399434095493000000, 1418564587724000000, 1437754116682000000,
  1457000254889000000, 1476301275902000000, 1495654977143000000, 1515059332212000000, 1534512821906000000,
  1554013130304000000, 1573558585534000000, 1593147244450000000, 1612777978405000000, 1632448600136000000,
  1652157704100000000, 1671904308928000000, 1691686012962000000, 1711501716352000000, 1731349849417000000,
  1751229053668000000, 1771138423208000000, 1791076196899000000, 1811041338260000000, 1831032177526000000,
  1851048091817000000, 1871088096683000000, 1891150317142000000, 1911234619162000000, 1931339423184000000,
  1951463947205000000, 1971606994543000000, 1991767606441000000, 2011945852451000000, 2032140098239000000,
  2052349709954000000, 2072574274980000000, 2092812387905000000, 2113063537955000000, 2133327750182000000,
  2153603787963000000, 2173890933053000000, 2194188225246000000, 2214496333997000000, 2234814120065000000,
  2255140753372000000, 2275476675949000000, 2295820689602000000, 2316172220323000000, 2336530258616000000,
  2356894932256000000, 2377266633368000000, 2397645173978000000, 2418028419639000000, 2438417586475000000,
  2458812422593000000, 2479211306360000000, 2499615253217000000, 2520023375080000000, 2540436051898000000,
  2560851967345000000, 2581271569076000000, 2601694318944000000, 2622120693963000000, 2642549418269000000,
  2662981070023000000, 2683415520909000000, 2703852500003000000, 2724291876933000000, 2744733213126000000,
  2765177477758000000, 2785623320019000000, 2806070985142000000, 2826520234343000000, 2846971203929000000,
  2867423303616000000, 2887876396540000000, 2908331739769000000, 2928788290672000000, 2949245276635000000,
  2969704620226000000, 2990164657583000000, 3010625841710000000, 3031087855626000000, 3051550619090000000,
  3072014642350000000, 3092479163042000000, 3112944278087000000, 3133410101603000000, 3153876719100000000,
  3174343414117000000, 3194810517970000000, 3215278762802000000, 3235747174277000000, 3256216390486000000,
  3276685652553000000, 3297155394593000000, 3317625911419000000, 3338096547090000000, 3358567567862000000,
  3379038637659000000, 3399510649493000000, 3419983382105000000, 3440456231853000000, 3460929496047000000,
  3481403703904000000, 3501877874941000000, 3522351898403000000, 3542825527074000000, 3563300038829000000,
  3583775102749000000, 3604249896903000000, 3624724967423000000, 3645201027293000000, 3665676534460000000,
  3686152061202000000, 3706628308333000000, 3727104271827000000, 3747580803335000000, 3768057710876000000,
  3788534660048000000, 3809011720864000000, 3829489164523000000, 3849967204462000000, 3870445043912000000,
  3890923080446000000, 3911400767281000000, 3931879061622000000, 3952357218696000000, 3972836284463000000,
  3993314516935000000, 4013793278282000000, 4034272661280000000, 4054751814018000000, 4075230503334000000,
  4095708557968000000, 4116187919814000000, 4136667714093000000, 4157147152355000000, 4177627302553000000,
  4198107383728000000, 4218587174918000000, 4239066631662000000, 4259545994167000000, 4280026100110000000,
  4300506380609000000, 4320986617208000000, 4341466696312000000, 4361945995732000000, 4382426527708000000,
  4402907058309000000, 4423386556967000000, 4443867498542000000, 4464348284664000000, 4484828344391000000,
  4505309026083000000, 4525789774619000000, 4546270396129000000, 4566750818685000000, 4587231362126000000,
  4607711356124000000, 4628191883250000000, 4648673308942000000, 4669153953372000000, 4689634118530000000,
  4710114637510000000, 4730595217429000000, 4751075358693000000, 4771555492921000000, 4792035313408000000,
  4812516057037000000, 4832995761283000000, 4853475977619000000, 4873956732160000000, 4894436879314000000,
  4914917149285000000, 4935397069776000000, 4955877550351000000, 4976357852728000000, 4996838246842000000,
  5017318023169000000, 5037798008344000000, 5058278290403000000, 5078757968956000000, 5099237419344000000,
  5119716759591000000, 5140195935830000000, 5160675636320000000, 5181154980843000000, 5201633780713000000,
  5222113031789000000, 5242591881577000000]

/-- `compositeInterpolationXarrs[16]`: `lgK = 20` -/
def xTab20 : List Nat := [
  756337090537000000, 776216744995000000, 796463785646000000, 817079035290000000, 838063221300000000,
  859416678362000000, 881139576270000000, 903232151726000000, 925693940877000000, 948524600346000000,
  971723442348000000, 995289632784000000, 1019222059448000000, 1043519402588000000, 1068180163485000000,
  1093202854610000000, 1118585515820000000, 1144326031845000000, 1170421828997000000, 1196870617641000000,
  1223669453959000000, 1250815679160000000, 1278306298944000000, 1306137726017000000, 1334306782451000000,
  1362809672011000000, 1391643048887000000, 1420802665486000000, 1450284419390000000, 1480084556504000000,
  1510198362531000000, 1540621709038000000, 1571349988582000000, 1602377885766000000, 1633700853485000000,
  1665314443974000000, 1697213607484000000, 1729393242718000000, 1761847799154000000, 1794572464804000000,
  1827562002973000000, 1860811213417000000, 1894314858503000000, 1928067079352000000, 1962062774535000000,
  1996296400592000000, 2030762354026000000, 2065455981656000000, 2100370818573000000, 2135502224529000000,
  2170844722018000000, 2206392452100000000, 2242140795895000000, 2278083565225000000, 2314215470175000000,
  2350532238358000000, 2387028028531000000, 2423697739702000000, 2460535617283000000, 2497537908190000000,
  2534699627071000000, 2572014508248000000, 2609478240813000000, 2647086878671000000, 2684834738503000000,
  2722717495987000000, 2760730659130000000, 2798869445379000000, 2837130937688000000, 2875509782410000000,
  2914002086936000000, 2952603395700000000, 2991310971904000000, 3030119629799000000, 3069026891217000000,
  3108027543585000000, 3147118485322000000, 3186296724369000000, 3225557893026000000, 3264899405158000000,
  3304317806643000000, 3343809532357000000, 3383372875494000000, 3423003239113000000, 3462699855290000000,
  3502458588120000000, 3542276984489000000, 3582151461666000000, 3622080455509000000, 3662062087297000000,
  3702093774268000000, 3742173351913000000, 3782298542025000000, 3822466599295000000, 3862676059061000000,
  3902925301466000000, 3943212313188000000, 3983534655139000000, 4023890682932000000, 4064278948819000000,
  4104698644146000000, 4145147867936000000, 4185624200116000000, 4226127607823000000, 4266655471909000000,
  4307207261933000000, 4347781577688000000, 4388376075665000000, 4428991084860000000, 4469625512791000000,
  4510278322018000000, 4550949135583000000, 4591635061142000000, 4632337290243000000, 4673054034167000000,
  4713783999697000000, 4754527016825000000, 4795282199016000000, 4836049304645000000, 4876828217063000000,
  4917617432795000000, 4958416033283000000, 4999223332994000000, 5040040200620000000, 5080865836319000000,
  5121698006953000000, 5162537663489000000, 5203383861562000000, 5244235368756000000, 5285093542054000000,
  5325957172545000000, 5366826006832000000, 5407700602295000000, 5448579444589000000, 5489462237514000000,
  5530348767163000000, 5571240286944000000, 5612135490023000000, 5653033590430000000, 5693935090249000000,
  5734840012969000000, 5775747413811000000, 5816658159197000000, 5857571727542000000, 5898486810748000000,
  5939403918361000000, 5980324159335000000, 6021245922584000000, 6062167462275000000, 6103093061724000000,
  6144019021028000000, 6184948477708000000, 6225878111073000000, 6266809926593000000, 6307741380274000000,
  6348674587241000000, 6389609653586000000, 6430546024311000000, 6471482661256000000, 6512419658468000000,
  6553358313587000000, 6594299462793000000, 6635239780670000000, 6676180809115000000, 6717122614963000000,
  6758064640997000000, 6799009935719000000, 6839954567726000000, 6880900950276000000, 6921847965357000000,
  6962794580261000000, 7003742234176000000, 7044691155209000000, 7085639223984000000, 7126587984374000000,
  7167538597843000000, 7208487508674000000, 7249437307369000000, 7290389448350000000, 7331341752887000000,
  7372292872774000000, 7413245082344000000, 7454198512431000000, 7495151878502000000, 7536105815461000000,
  7577059755263000000, 7618013175400000000, 7658967579066000000, 7699922475951000000, 7740878015144000000,
  7781833511721000000, 7822789986990000000, 7863745987999000000, 7904702500036000000, 7945659757785000000,
  7986615385020000000, 8027573168319000000, 8068531917672000000, 8109489438412000000, 8150447742963000000,
  8191403350221000000, 8232362807587000000, 8273321255913000000, 8314281043410000000, 8355240292724000000,
  8396199214301000000, 8437156471990000000, 8478114862372000000, 8519073457296000000, 8560034832965000000,
  8600993512814000000, 8641954368755000000, 8682914667061000000, 8723875362809000000, 8764837809961000000,
  8805797690078000000, 8846758789178000000, 8887720671501000000, 8928680126482000000, 8969640467726000000,
  9010601160006000000, 9051561769905000000, 9092522487783000000, 9133484594542000000, 9174446122191000000,
  9215406809237000000, 9256366837569000000, 9297328747584000000, 9338288901510000000, 9379250948160000000,
  9420212503729000000, 9461173228802000000, 9502133928845000000, 9543094489131000000, 9584055513956000000,
  9625015618922000000, 9665975737758000000, 9706937403885000000, 9747896035874000000, 9788856165941000000,
  9829816994627000000, 9870777228642000000, 9911737327683000000, 9952698937964000000, 9993660635143000000,
  10034620747904000000, 10075579526207000000, 10116539739394000000, 10157498625700000000, 10198458468474000000,
  10239418486051000000, 10280376431741000000, 10321335494132000000, 10362295312860000000, 10403254402980000000,
  10444214519042000000, 10485173027410000000]

/-- `compositeInterpolationXarrs[17]`: `lgK = 21` -/
def xTab21 : List Nat := [
  1512674959317000000, 1552434197368000000, 1592928155075000000, 1634158593696000000, 1676126959176000000,
  1718834017325000000, 1762279726817000000, 1806464610827000000, 1851388162884000000, 1897049337397000000,
  1943446849678000000, 1990579312415000000, 2038444063365000000, 2087038766553000000, 2136360248426000000,
  2186405470599000000, 2237170640174000000, 2288651015887000000, 2340842752937000000, 2393739986364000000,
  2447337958039000000, 2501630515180000000, 2556611361814000000, 2612274289376000000, 2668612210872000000,
  2725618064986000000, 2783284549430000000, 2841603566294000000, 2900566895724000000, 2960167093438000000,
  3020394610851000000, 3081240447614000000, 3142696078921000000, 3204751105703000000, 3267397808234000000,
  3330624834407000000, 3394422872136000000, 3458781966184000000, 3523690805899000000, 3589140856689000000,
  3655119540256000000, 3721617907853000000, 3788624486645000000, 3856129175227000000, 3924119940026000000,
  3992586658818000000, 4061519544440000000, 4130906734075000000, 4200737500257000000, 4271000909057000000,
  4341685842431000000, 4412781306685000000, 4484277199691000000, 4556162287552000000, 4628426495554000000,
  4701059642462000000, 4774050909933000000, 4847389117100000000, 4921065536469000000, 4995068178578000000,
  5069389529141000000, 5144019928509000000, 5218947440841000000, 5294164568050000000, 5369660364896000000,
  5445425915267000000, 5521454727645000000, 5597734642433000000, 5674257411718000000, 5751014463556000000,
  5827999822090000000, 5905203759793000000, 5982617522812000000, 6060234561845000000, 6138048162353000000,
  6216049451496000000, 6294232713331000000, 6372588108087000000, 6451109903764000000, 6529792611180000000,
  6608629912527000000, 6687615097432000000, 6766740086064000000, 6846000116450000000, 6925391839995000000,
  7004908093083000000, 7084544127544000000, 7164293822313000000, 7244153392582000000, 7324115814384000000,
  7404179031163000000, 7484336380737000000, 7564586128001000000, 7644922247694000000, 7725340819662000000,
  7805840541693000000, 7886412416887000000, 7967054301986000000, 8047764087248000000, 8128539447460000000,
  8209376477465000000, 8290273766928000000, 8371225884580000000, 8452230183873000000, 8533283959811000000,
  8614388863382000000, 8695539350564000000, 8776730375553000000, 8857961046732000000, 8939230757845000000,
  9020535369667000000, 9101877322129000000, 9183251420601000000, 9264654743697000000, 9346087109813000000,
  9427548372707000000, 9509034441574000000, 9590547753266000000, 9672081682514000000, 9753639600816000000,
  9835216139507000000, 9916813989591000000, 9998428682824000000, 10080058312759000000, 10161706673718000000,
  10243372018016000000, 10325050507034000000, 10406744529470000000, 10488447296300000000, 10570163109725000000,
  10651893512546000000, 10733632712879000000, 10815382384056000000, 10897140573621000000, 10978907646650000000,
  11060681383125000000, 11142464138730000000, 11224254549571000000, 11306053275368000000, 11387858162207000000,
  11469666329635000000, 11551480634292000000, 11633302025569000000, 11715128710512000000, 11796961403328000000,
  11878795670820000000, 11960634652330000000, 12042477348124000000, 12124323950451000000, 12206172128053000000,
  12288028811447000000, 12369886306570000000, 12451744123236000000, 12533607183832000000, 12615473707341000000,
  12697338733240000000, 12779207987968000000, 12861080507718000000, 12942957260823000000, 13024834007606000000,
  13106715252745000000, 13188597806270000000, 13270478933580000000, 13352362482281000000, 13434247263704000000,
  13516133477076000000, 13598020834213000000, 13679909264273000000, 13761799592878000000, 13843689299819000000,
  13925583582108000000, 14007479173806000000, 14089371780210000000, 14171268621526000000, 14253167561983000000,
  14335070527750000000, 14416971620797000000, 14498873784867000000, 14580778789301000000, 14662681662290000000,
  14744586311912000000, 14826493286700000000, 14908400702409000000, 14990305605573000000, 15072214379125000000,
  15154123120545000000, 15236031901296000000, 15317939866920000000, 15399849993076000000, 15481761939120000000,
  15563672325616000000, 15645585312945000000, 15727497406318000000, 15809411780271000000, 15891325875461000000,
  15973239145687000000, 16055155936424000000, 16137069783844000000, 16218984663574000000, 16300899732679000000,
  16382815849682000000, 16464730053474000000, 16546645675799000000, 16628563444017000000, 16710481533611000000,
  16792400824636000000, 16874319061886000000, 16956235859045000000, 17038151394583000000, 17120072629220000000,
  17201992200096000000, 17283914365655000000, 17365836161356000000, 17447756880495000000, 17529681545942000000,
  17611601675003000000, 17693522079185000000, 17775441939609000000, 17857361777214000000, 17939284144858000000,
  18021205445833000000, 18103125675947000000, 18185051132189000000, 18266974391463000000, 18348894689783000000,
  18430817526979000000, 18512736992850000000, 18594657001222000000, 18676577636496000000, 18758497698999000000,
  18840421426602000000, 18922345360722000000, 19004266906157000000, 19086186184618000000, 19168105320223000000,
  19250029336282000000, 19331950350200000000, 19413874580826000000, 19495794431194000000, 19577715745558000000,
  19659638264924000000, 19741557363469000000, 19823478431258000000, 19905400862401000000, 19987318682409000000,
  20069238585823000000, 20151157549449000000, 20233076181910000000, 20314994521260000000, 20396915069140000000,
  20478836108717000000, 20560753915833000000, 20642672570035000000, 20724588867440000000, 20806507038063000000,
  20888426370670000000, 20970344006053000000]

/-- `compositeInterpolationXarrs[lgK - 4]`; outside the table the access panics -/
def xTab : Nat → Option (List Nat)
  | 4 => some xTab4
  | 5 => some xTab5
  | 6 => some xTab6
  | 7 => some xTab7
  | 8 => some xTab8
  | 9 => some xTab9
  | 10 => some xTab10
  | 11 => some xTab11
  | 12 => some xTab12
  | 13 => some xTab13
  | 14 => some xTab14
  | 15 => some xTab15
  | 16 => some xTab16
  | 17 => some xTab17
  | 18 => some xTab18
  | 19 => some xTab19
  | 20 => some xTab20
  | 21 => some xTab21
  | _ => none

end Verif.Hll
