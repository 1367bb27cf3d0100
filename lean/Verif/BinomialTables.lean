import Mathlib.Data.Nat.Notation

/-!
# Tables of internal/binomialbounds/binomialbounds.go

Entries in units of 10^-17 (all 17 decimals written in the source), three per number of samples
k = 0..120.
-/

namespace Verif.Binomial

/-- `lbEquivTable` internal/binomialbounds/binomialbounds.go l.41-163 -/
def lbTable : List ℕ := [
  100000000000000000, 200000000000000000, 300000000000000000,
  78733703534118149, 314426768537558132, 1356789685109913535,
  94091379266077979, 264699271711145911, 629302733018320737,
  96869128474958188, 246531676590527127, 497375283467403051,
  97933572521046131, 237418810664669877, 444899975481712318,
  98479165917274258, 231863116255024693, 416712379778553554,
  98806033915698777, 228075536565225434, 399010556144099837,
  99021896790580399, 225302005857281529, 386784477136922078,
  99174267079089873, 223168103978522936, 377784896945266269,
  99287147837287648, 221465899260871879, 370851932988722410,
  99373900046805375, 220070155496262032, 365326029076638292,
  99442519013851438, 218900651202670815, 360803817612955413,
  99498066823221620, 217903457780744247, 357024330407946877,
  99543899410224412, 217040883161922693, 353810982030634591,
  99582322541263579, 216285726913676513, 351039837124298515,
  99614973311747690, 215617827879603396, 348621230377099778,
  99643042892560629, 215021897666090922, 346488605693562590,
  99667418783778317, 214486114872480016, 344591466064832730,
  99688774875812669, 214001181420209718, 342890765690452781,
  99707632299691795, 213559675336844634, 341355809420343803,
  99724399084971083, 213155592217421486, 339962113251016262,
  99739400151915447, 212784018863251845, 338689892877548004,
  99752896842633731, 212440890875851096, 337522975271599535,
  99765101725122918, 212122815311133195, 336448003577621080,
  99776189496810730, 211826934724291505, 335453840911279144,
  99786304821586214, 211550823850916458, 334531123809287578,
  99795568665180667, 211292409529477254, 333671916527694634,
  99804083063483517, 211049908609763293, 332869446834217797,
  99811933910984862, 210821776918189130, 332117898316676019,
  99819195457286014, 210606671027090897, 331412243534683171,
  99825930555178388, 210403415237001923, 330748113008135647,
  99832193858154028, 210210975877822648, 330121691946897045,
  99838032666573895, 210028440670842542, 329529629751144171,
  99843488390555990, 209855000145353188, 328968974413223236,
  99848596721417948, 209689934193824001, 328437111460505093,
  99853390005924325, 209532599155502908, 327931717312372939,
  99857895741078551, 209382418262592296, 327450718840060517,
  99862138880970974, 209238872751677718, 326992261182860489,
  99866141580770318, 209101494715108061, 326554677962434425,
  99869923565267982, 208969860402822860, 326136468165239535,
  99873502010169091, 208843585627218431, 325736275677081721,
  99876893292508839, 208722321436752623, 325352872241415980,
  99880111078502409, 208605749165553789, 324985141664350863,
  99883168573342118, 208493577529222307, 324632068399498053,
  99886077231613513, 208385540129560809, 324292724848112357,
  99888847451828155, 208281392374021834, 323966263299664092,
  99891488795844907, 208180908991394631, 323651906111521726,
  99894010085196783, 208083882998420222, 323348939240611344,
  99896419358239541, 207990122528650545, 323056705515594444,
  99898723510594323, 207899450946285924, 322774598963252402,
  99900929266780736, 207811704477046533, 322502059972006805,
  99903043086155208, 207726730587160091, 322238570890294795,
  99905070073845081, 207644388314946582, 321983651940365689,
  99907015770423868, 207564546080757850, 321736857351049821,
  99908884779227947, 207487081196367740, 321497773796417619,
  99910681586905525, 207411879634256024, 321266015316183484,
  99912410177549305, 207338834403498140, 321041222805715165,
  99914074347179849, 207267845454973099, 320823061166797174,
  99915677607464204, 207198819052374006, 320611216970604573,
  99917223149395795, 207131667846186929, 320405396962596001,
  99918714153457699, 207066309019154460, 320205326110445299,
  99920153247185794, 207002665203046377, 320010746990493544,
  99921543193525508, 206940663431663552, 319821417453343315,
  99922886570365677, 206880235245998279, 319637109973109546,
  99924185357357942, 206821315729285971, 319457610621114441,
  99925441845175555, 206763843812092318, 319282717869864996,
  99926658263325407, 206707761824370095, 319112241228646099,
  99927836173816331, 206653015295219689, 318946001739936946,
  99928977431994781, 206599552505539918, 318783829446098821,
  99930083753795884, 206547324585920933, 318625564538041317,
  99931156864562354, 206496285191821016, 318471055124089730,
  99932197985521043, 206446390392778767, 318320157510865442,
  99933208559809827, 206397598606787369, 318172735837393361,
  99934190032416836, 206349869971447220, 318028661102792398,
  99935143390791836, 206303166975550312, 317887810481605015,
  99936070171270330, 206257453607466346, 317750067581857820,
  99936971103502970, 206212696042919674, 317615321728274580,
  99937847392385493, 206168861430600714, 317483467831510779,
  99938700168914352, 206125918927764928, 317354405480557489,
  99939530099953799, 206083838987589729, 317228039269048168,
  99940338278830154, 206042593411496000, 317104278166036124,
  99941125463777780, 206002155276328835, 316983035274597569,
  99941892470027938, 205962498741951094, 316864227952240185,
  99942640059737187, 205923599161263837, 316747776846497686,
  99943368842187397, 205885433061945378, 316633606416374391,
  99944079790603269, 205847977868873500, 316521644518826406,
  99944773295734990, 205811212058944193, 316411821883858124,
  99945450059186669, 205775114781260982, 316304072400711789,
  99946110646314423, 205739666442039493, 316198332650733960,
  99946755770463369, 205704847678819647, 316094541781455973,
  99947385746861528, 205670640500335367, 315992641851471490,
  99948001256305474, 205637027420314666, 315892576988736096,
  99948602689656241, 205603991286400856, 315794293484717059,
  99949190674294641, 205571516158917689, 315697740043813724,
  99949765436329585, 205539586490317561, 315602867309343083,
  99950327557880314, 205508187237845164, 315509627710042651,
  99950877461972709, 205477304104951486, 315417975753007340,
  99951415481862682, 205446923022574879, 315327867462917766,
  99951942042375208, 205417030908833453, 315239260700215596,
  99952457390890004, 205387614661762541, 315152114915238712,
  99952962005008317, 205358662050909402, 315066390921020911,
  99953456216121594, 205330161104427589, 314982051097524618,
  99953940176368405, 205302100378725072, 314899059183684926,
  99954414373920031, 205274468493067275, 314817379948561893,
  99954879047621148, 205247255013657082, 314736979964868624,
  99955334485656522, 205220449388099269, 314657826610371671,
  99955780993869325, 205194041831310869, 314579888316276879,
  99956218652590678, 205168022402710903, 314503134811607765,
  99956647932785359, 205142381889103831, 314427536967733090,
  99957069025060719, 205117111251445294, 314353066260227365,
  99957482032178291, 205092201793428330, 314279695558593630,
  99957887261450651, 205067645094720774, 314207398336887422,
  99958284988383639, 205043432833224415, 314136149076028914,
  99958675435604505, 205019557189746138, 314065923143530767,
  99959058650074439, 204996010556124020, 313996696426707445,
  99959434898201494, 204972785368377686, 313928445867830419,
  99959804437042976, 204949874512311681, 313861149103462367,
  99960167394553423, 204927271043337100, 313794784369528656,
  99960523957651048, 204904968140490951, 313729330661277572,
  99960874253329735, 204882959397491504, 313664767767019725,
  99961218434327748, 204861238220240693, 313601075688413289]

/-- `ubEquivTable` internal/binomialbounds/binomialbounds.go l.165-287 -/
def ubTable : List ℕ := [
  100000000000000000, 200000000000000000, 300000000000000000,
  99067760836669549, 175460517119302040, 248055626001627161,
  99270518097577565, 178855957509907171, 253863835259832626,
  99402032633599902, 181047286499563143, 257811676180597260,
  99492607629539975, 182625928017762362, 260759550546498531,
  99558653966013821, 183839160339161367, 263086812358551470,
  99608981951632813, 184812399034444752, 264993712523727254,
  99648648035983456, 185617372053235385, 266598485907860550,
  99680750790483330, 186298655802610824, 267976541374471822,
  99707292880049181, 186885682585270274, 269178781407745760,
  99729614928489241, 187398826101983218, 270241106542158604,
  99748667952445658, 187852708449801753, 271189717290596377,
  99765127712748836, 188258159501103250, 272044290303773550,
  99779498340305395, 188623391878036273, 272819957382063194,
  99792160418357412, 188954778748873764, 273528576807902368,
  99803398604944960, 189257337682371940, 274179612106766513,
  99813449883217231, 189535099316557876, 274780718300419835,
  99822494122659577, 189791339232732525, 275338173141955167,
  99830679915913834, 190028752122407241, 275857186416826039,
  99838117410831728, 190249575897183831, 276342117562634826,
  99844913407071090, 190455689090418900, 276796659454200267,
  99851147736424650, 190648682834171268, 277223944710058845,
  99856879856019987, 190829917277082473, 277626682032629901,
  99862183849734265, 191000561415842185, 278007199816156003,
  99867096266018507, 191161621560812023, 278367524259661536,
  99871656986212543, 191313978579765376, 278709435016625662,
  99875907577771272, 191458400425526065, 279034488416175463,
  99879885565047744, 191595563175945927, 279344064132371273,
  99883610756373287, 191726064301425936, 279639384757751941,
  99887095169674467, 191850441099725799, 279921543574803877,
  99890379414739527, 191969155477030995, 280191513182441554,
  99893466279047516, 192082633358913313, 280450167352080371,
  99896392088177777, 192191254955568525, 280698295731653502,
  99899147889385631, 192295362479495680, 280936614404217266,
  99901764688726757, 192395267400968351, 281165765979318394,
  99904238606342233, 192491244978191389, 281386337393604435,
  99906590152386343, 192583552644848055, 281598868034527072,
  99908829040739988, 192672418013918900, 281803841726804194,
  99910959420023460, 192758051694144683, 282001709302821268,
  99912996403594434, 192840654943159961, 282192875763732332,
  99914930224576892, 192920397044028391, 282377730628954282,
  99916781270195543, 192997447498220254, 282556612075063640,
  99918553179077207, 193071949211818605, 282729843191989971,
  99920250730914972, 193144048613876862, 282897728689417249,
  99921873345181211, 193213870990595638, 283060537017752267,
  99923435180002684, 193281536508689555, 283218527795750674,
  99924930425362390, 193347145882316340, 283371938965598247,
  99926370394567243, 193410820221384938, 283520990872793277,
  99927750755296074, 193472643138986200, 283665891945119597,
  99929082941537217, 193532697329771963, 283806833931606661,
  99930366295501472, 193591074716263734, 283943997143404658,
  99931598804721489, 193647857274021362, 284077557836653227,
  99932789059798210, 193703110239354714, 284207662106302905,
  99933946180485123, 193756904936378760, 284334468086129277,
  99935053819703512, 193809302131219852, 284458116874117195,
  99936126637970801, 193860365411038060, 284578731838604426,
  99937166229284458, 193910149816429112, 284696443486512862,
  99938169190727422, 193958709548454067, 284811369085281285,
  99939136927613959, 194006085573701625, 284923617230361970,
  99940074328745254, 194052339623206649, 285033291216254270,
  99940993070470086, 194097508636855309, 285140492437699322,
  99941868577388959, 194141633372043998, 285245314430358121,
  99942734443487780, 194184757038001976, 285347839582286156,
  99943556385736088, 194226915100517772, 285448160365493209,
  99944374522542034, 194268143723749631, 285546346373061510,
  99945159955424856, 194308482059116727, 285642486111805738,
  99945915301904620, 194347956957849988, 285736639994965458,
  99946660663832176, 194386600964031686, 285828887832701639,
  99947383703224091, 194424436597356021, 285919278275500233,
  99948075442870277, 194461502153473020, 286007887186090670,
  99948766082269458, 194497821937304138, 286094774077355396,
  99949422748713346, 194533411296001191, 286179981848076181,
  99950070756119658, 194568300035135167, 286263579405672886,
  99950704321753392, 194602523449961495, 286345610449197352,
  99951320334216121, 194636083782822311, 286426125541271404,
  99951920293474927, 194669011080745236, 286505169255406145,
  99952501670378524, 194701327348536779, 286582788270862920,
  99953071209267819, 194733044372333097, 286659027602854621,
  99953632734991515, 194764180764266825, 286733927778843167,
  99954171164873173, 194794766430732125, 286807526143834934,
  99954699274462655, 194824807472994621, 286879864789403882,
  99955216611081710, 194854317889829076, 286950970901679625,
  99955730019613043, 194883320227168610, 287020887436986527,
  99956213770650493, 194911826561721568, 287089648477021342,
  99956704264963037, 194939848545763539, 287157281693902178,
  99957166306481327, 194967401618316671, 287223821840905202,
  99957632713136491, 194994497791333288, 287289293193450135,
  99958087233392234, 195021155752212394, 287353731228213860,
  99958532555996271, 195047376805584349, 287417154907075201,
  99958956246481989, 195073180380688882, 287479599765507032,
  99959389351869277, 195098572880579013, 287541081987382086,
  99959807862052230, 195123574036898617, 287601637401948551,
  99960214057801977, 195148186921983324, 287661283691068093,
  99960607527256684, 195172415829728152, 287720042968334155,
  99960996433179616, 195196280898670693, 287777936649376898,
  99961379137860717, 195219787713926962, 287834989933620022,
  99961756088146103, 195242944583677058, 287891216133900230,
  99962125605327401, 195265762420910960, 287946647367488140,
  99962486179100551, 195288245314810638, 288001290210658567,
  99962843240297161, 195310404286672679, 288055166523392359,
  99963187276145504, 195332251980147475, 288108300006589957,
  99963525453173929, 195353785898848287, 288160703591438505,
  99963855412988778, 195375019354571577, 288212393551896184,
  99964190254169694, 195395953472205974, 288263389761985422,
  99964506565942202, 195416607430155409, 288313700661564098,
  99964834424233118, 195436972855640079, 288363350163803034,
  99965136548857458, 195457068540693513, 288412349413960101,
  99965436594726498, 195476896383092935, 288460710620208260,
  99965736463468602, 195496457504532373, 288508450078833789,
  99966034130443404, 195515761150707590, 288555580586194083,
  99966326130828520, 195534810382198998, 288602118761679094,
  99966601446035952, 195553622237747504, 288648066384146773,
  99966887679593697, 195572186728168163, 288693444915907094,
  99967161286551232, 195590523410490391, 288738271495714116,
  99967435412270333, 195608626483223702, 288782540459769166,
  99967701261934394, 195626497627117146, 288826277189363623,
  99967963265157778, 195644153684824573, 288869486674335008,
  99968216317182623, 195661589936000269, 288912184353694101,
  99968479674396349, 195678821614791332, 288954376359643561,
  99968729031337489, 195695842061650183, 288996069422501023,
  99968963358631413, 195712651709766305, 289037285320668502]

end Verif.Binomial
