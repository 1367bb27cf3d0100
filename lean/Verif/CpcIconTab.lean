/-!
# Coefficients of the ICON polynomials (generated)

`/repo/cpc/icon_polynomial_coefficient.go` l.20 ff. `iconPolynomialCoefficents`, in units of
`10^-23` (the literals have at most 23 decimals).
-/

namespace Verif.Cpc

/-- the row of `lgK = 4` -/
def iconRow4 : List Int := [
  98950279718897005130000, 33194966446451801280000, 12428187227157699860000, -3324149686026930256000,
  -29856372980816198170000, 136655592359583000200000, -470549936626056997100000, 1161506432505530029000000,
  -2111254986175579873000000, 2889421695078809904000000, -3013836590117309910000000, 2411946778830730054000000,
  -1483391445199539938000000, 698308876726721017300000, -248964120264876998000000, 65932436036024999470000,
  -12549353455803499700000, 1620971672896159843000, -127126767903692995300, 4567178653294529745]

/-- the row of `lgK = 5` -/
def iconRow5 : List Int := [
  99477137413002303390000, 33265595816209397870000, 12500506616348899810000, -4130073804472530336000,
  -25840955374511298540000, 121805038943312005100000, -431910669609539965600000, 1087175052045090062000000,
  -2001849790221429970000000, 2763210188163320069000000, -2897950009664030091000000, 2326740804691930009000000,
  -1433375703270860058000000, 675128127124111010500000, -240636309413343996200000, 63674147347188203570000,
  -12104680761413799670000, 1561196698118279963000, -122233543212858005600, 4383502970318410206]

/-- the row of `lgK = 6` -/
def iconRow6 : List Int := [
  99739048549828701610000, 33301488522179201190000, 12525153658950999300000, -4434075124043219962000,
  -24362388906917201160000, 116329325475457001600000, -417775877977736964700000, 1060301981340099964000000,
  -1962745074288289970000000, 2718420839597660077000000, -2856827214174580121000000, 2296268674086600114000000,
  -1415234202220280046000000, 666570066264254990100000, -237504335672073985100000, 62809939912409296080000,
  -11931901935803100600000, 1537674055733759954000, -120288169573076991600, 4309894633186929849]

/-- the row of `lgK = 7` -/
def iconRow7 : List Int := [
  99869633100586796550000, 33319567056333299070000, 12533769677052300500000, -4546817338088020299000,
  -23867522111251998630000, 114592732811194997200000, -413569444558272003600000, 1052805060502839929000000,
  -1952408322548339825000000, 2706921653903929936000000, -2846207532143190022000000, 2288083524357429965000000,
  -1410057147392659971000000, 663958754983273991000000, -236486521928320003700000, 62513418064252501690000,
  -11869913274505300430000, 1528927264034080080000, -119543976487319989600, 4281098416794090072]

/-- the row of `lgK = 8` -/
def iconRow8 : List Int := [
  99934860045253104400000, 33324803723930801480000, 12666690096332500200000, -6495714694254159371000,
  -8376282050638980681000, 37601580946436302670000, -156820479160185000100000, 448311771955597038200000,
  -911918012437915059800000, 1365799293358900002000000, -1531002112343490040000000, 1297546344654869976000000,
  -835166153853693948900000, 407502261243558017200000, -149387015887069996000000, 40409768702533799270000,
  -7813232681879349328000, 1020545649538820085000, -80632792108127203810, 2909334976414100078]

/-- the row of `lgK = 9` -/
def iconRow9 : List Int := [
  99967437872970599240000, 33329257794818500930000, 12671245992596499860000, -6550452970936600228000,
  -8191738117533520214000, 37730344583635699870000, -160467950960995997500000, 463676189869196964100000,
  -948734860955869940800000, 1425164235443030059000000, -1599674955529870068000000, 1356353219046370029000000,
  -873019490434245959400000, 425901006793212033600000, -156106689792022002000000, 42225409127865898280000,
  -8165296504921559784000, 1066878484925220041000, -84338876182569100150, 3045339724886519912]

/-- the row of `lgK = 10` -/
def iconRow10 : List Int := [
  99983719178394503400000, 33331422523396198040000, 12677595380872400120000, -6631005632753710077000,
  -7692759158286699428000, 35689439563959801660000, -154659872137951004400000, 451595019978557044000000,
  -929843196876377042800000, 1402586858080080034000000, -1578858959520439953000000, 1341484931677589998000000,
  -864795812513080974800000, 422398017468472009000000, -154970889120057009300000, 41950741026454002600000,
  -8117411611046250475000, 1061202286184199928000, -83930052759677200700, 3031858745202059850]

/-- the row of `lgK = 11` -/
def iconRow11 : List Int := [
  99991860207961502650000, 33332490545743598260000, 12679171358979998700000, -6662487271699729652000,
  -7335552427910230211000, 33163701848159599090000, -143414379756129006800000, 418026030996740960400000,
  -859390687070876069200000, 1295088874800289958000000, -1456876092520539956000000, 1237074367531410068000000,
  -796915207570796013700000, 388877439664896007400000, -142492332650699005100000, 38508456178522998400000,
  -7435541911616409816000, 969536356747652955400, -76443759600471603880, 2751561947171880110]

/-- the row of `lgK = 12` -/
def iconRow12 : List Int := [
  99995929556495599670000, 33333105607251400930000, 12673797440204501160000, -6524495415766619344000,
  -8854031542298740343000, 42443206288742302280000, -179407778903323000800000, 513387526276845029800000,
  -1040149374917120007000000, 1547808115629240078000000, -1722722961375459860000000, 1450021736764630020000000,
  -927481980160276009400000, 450078254002657018900000, -164235938903005007600000, 44259611344552501900000,
  -8532262192388509470000, 1111969379054169975000, -87716140880069696110, 3161668519459719752]

/-- the row of `lgK = 13` -/
def iconRow13 : List Int := [
  99997964681025597320000, 33333366023940397270000, 12672808905319898900000, -6503798598282370391000,
  -9050261023823169548000, 43506092441899602010000, -183127483581567007700000, 522338751698528991300000,
  -1055574395269979959000000, 1567359470222429962000000, -1741263416341029924000000, 1463297400889229927000000,
  -934675243122135945800000, 453012490518838006900000, -165124556646208997500000, 44454254925071301500000,
  -8561720963336499901000, 1114805146185449992000, -87862512033631400430, 3164163416445729980]

/-- the row of `lgK = 14` -/
def iconRow14 : List Int := [
  99998981870609704450000, 33333625793008198060000, 12669840783694599760000, -6464561179765909715000,
  -9343280886228019777000, 44907025492640700870000, -187808760805245000800000, 533800432205739028300000,
  -1076690603590630069000000, 1597069195083200022000000, -1773440379943459888000000, 1490212518309260048000000,
  -952050601377042049500000, 461623893197883017300000, -168364817877918993000000, 45361949606813500860000,
  -8744860543480059700000, 1139929991331390009000, -89958914516222296310, 3244407259782900338]

/-- the row of `lgK = 15` -/
def iconRow15 : List Int := [
  99999490725493900280000, 33333763347052902670000, 12666536435840200500000, -6411790034705669439000,
  -9776009134670660128000, 47046911122484702530000, -194802167529576997200000, 549776097269649000100000,
  -1103165645315390009000000, 1629703330781000048000000, -1803851029448010124000000, 1511836776139680083000000,
  -963820517991742953300000, 466512232875312005100000, -169898068652575995300000, 45717995062452698730000,
  -8804011353783609828000, 1146553155965330043000, -90404558006595698690, 3257931866957050274]

/-- the row of `lgK = 16` -/
def iconRow16 : List Int := [
  99999745447935894930000, 33333813376145998710000, 12665248629711201020000, -6391676499117690535000,
  -9929616211306059592000, 47713908203787902540000, -196576245122734993800000, 552680235037646028200000,
  -1105703067024660058000000, 1629535848023060041000000, -1800114005075790047000000, 1506214012231560062000000,
  -958874727382628933000000, 463537541652793017000000, -168622284855562010200000, 45326023737151799330000,
  -8719448925964939923000, 1134365425717459921000, -89349652412742898350, 3216436244471380105]

/-- the row of `lgK = 17` -/
def iconRow17 : List Int := [
  99999872782788001850000, 33333834114643301480000, 12664276175172400900000, -6371042959073920653000,
  -10135645160340800430000, 48913111956792998390000, -201097171205140989900000, 564439080795230996300000,
  -1127697253921500042000000, 1659957157207080058000000, -1831808338317799922000000, 1531363518393730061000000,
  -974145144681662067400000, 470620754551942965800000, -171110246901001006300000, 45975873410893497440000,
  -8841670767182820134000, 1149999225097850068000, -90566513669630504220, 3259910736274500059]

/-- the row of `lgK = 18` -/
def iconRow18 : List Int := [
  99999936377271003710000, 33333855116088600970000, 12663415805291600160000, -6353272828164230335000,
  -10313996285064200300000, 49962160172065001040000, -205099128585287982000000, 574987408653179965500000,
  -1147727638570349917000000, 1688141587810320132000000, -1861744656177490143000000, 1555634230427719977000000,
  -989235073612868021100000, 477803352098420042200000, -173704548386128010400000, 46674108826837301670000,
  -8977256212421590165000, 1167940146667079994000, -92013812423960301270, 3313600701586759867]

/-- the row of `lgK = 19` -/
def iconRow19 : List Int := [
  99999968053760102120000, 33333723243289897780000, 12671047372146598820000, -6504749929326139601000,
  -8823419624643509540000, 41318711620411402440000, -172519070356709991500000, 490081751559392042600000,
  -988345272077651060300000, 1466570811908160010000000, -1629398295135089825000000, 1369805011761319946000000,
  -875347523946589944900000, 424407237456443997600000, -154720252770662991500000, 41647701096143102670000,
  -8017596922092029565000, 1043146101701039954000, -82124200571200305000, 2953319493719429935]

/-- the row of `lgK = 20` -/
def iconRow20 : List Int := [
  99999983900375399860000, 33333658599560400670000, 12674602110298399670000, -6569456024647769843000,
  -8230703534771649510000, 38108264633034100170000, -161198358024110999200000, 462452007775821005700000,
  -939730833563358913800000, 1403184981378050011000000, -1567031913154010070000000, 1322992718704790072000000,
  -848421639318478071300000, 412560713348802998700000, -150769065069715990600000, 40666785175773201290000,
  -7842110121777939868000, 1021780862225150042000, -80540658570474397540, 2899431830426989844]

/-- the row of `lgK = 21` -/
def iconRow21 : List Int := [
  99999992070014798170000, 33333849530152398490000, 12663314803966699280000, -6345750166298599892000,
  -10423412109924999610000, 50771129084971300390000, -208739813360981019100000, 585884254619250022200000,
  -1170620319777190055000000, 1723103975433669888000000, -1901462552846669851000000, 1589674059836560005000000,
  -1011395134034419918000000, 488760796465891989000000, -177788677090462998700000, 47802001783394998390000,
  -9200895321782050218000, 1198029553244219989000, -94472838757821001650, 3405716775824710232]

/-- the row of `lgK = 22` -/
def iconRow22 : List Int := [
  99999996069086904970000, 33333839295243000710000, 12664564450968199270000, -6373504294081690225000,
  -10128342910818499690000, 48938106901729599980000, -201391428223606983000000, 565643043747364959700000,
  -1130672015377910000000000, 1664980594135310099000000, -1837923557903830130000000, 1536879753115040081000000,
  -977883124642504952800000, 472530806198896957700000, -171842359650028009300000, 46183081778098700190000,
  -8883675060799739454000, 1155766944804260087000, -91046956172437503580, 3278237729674439666]

/-- the row of `lgK = 23` -/
def iconRow23 : List Int := [
  99999997946833796280000, 33333864417516800850000, 12664639951820499950000, -6376031920455070556000,
  -10107995408031300590000, 48854013742613700000000, -201204832353757012700000, 565494947534265968200000,
  -1131023240892979942000000, 1666334675284959843000000, -1840241452866079896000000, 1539443572867130072000000,
  -979884441283867069200000, 473668390753964008200000, -172316836374492998700000, 46327034901864400100000,
  -8914619066708899531000, 1160235936257320022000, -91436008181832297090, 3293669304679140117]

/-- the row of `lgK = 24` -/
def iconRow24 : List Int := [
  99999999114698201460000, 33333760769345299750000, 12669443499405300120000, -6470524278387919381000,
  -9189342220283110152000, 43591823726948097930000, -181598028295116997700000, 514947405647034006600000,
  -1037086570678100017000000, 1536962686758569951000000, -1705756384717849983000000, 1432755177515199918000000,
  -914994405002564015200000, 443460189449726005500000, -161647892680652005600000, 43519791570550397930000,
  -8381768225272340223000, 1091321820476520016000, -86002644036290397390, 3096678003471440020]

/-- the row of `lgK = 25` -/
def iconRow25 : List Int := [
  99999999685921403540000, 33333791648810001670000, 12667824958270099130000, -6434163088961859789000,
  -9575258124988890451000, 45978435753543700490000, -191137443124155992400000, 541185666125152042800000,
  -1088850084646090011000000, 1612298941380269923000000, -1788172178487259956000000, 1501301780636859995000000,
  -958554289614252930100000, 464581187276162044200000, -169395229315618989200000, 45631433088613099210000,
  -8795976148455289523000, 1146560428011200033000, -90484429319306295280, 3263583914973299920]

/-- the row of `lgK = 26` -/
def iconRow26 : List Int := [
  99999999707005304830000, 33333832955631598200000, 12664475307639400100000, -6372365346512399997000,
  -10127608569457699490000, 48868522785763601760000, -200900541839438995200000, 563811922413701971400000,
  -1126276715335160006000000, 1657640024218650154000000, -1829035093605569884000000, 1528892246224570073000000,
  -972491637599176073100000, 469788776523346030000000, -170797412591682995500000, 45889378645647299630000,
  -8824617586088029375000, 1147732114826570046000, -90384524860747295000, 3253252703695579795]

/-- the table, row after row -/
def iconTab : List Int :=
  iconRow4 ++ iconRow5 ++ iconRow6 ++ iconRow7 ++ iconRow8 ++ iconRow9 ++ iconRow10 ++ iconRow11 ++
   iconRow12 ++ iconRow13 ++ iconRow14 ++ iconRow15 ++ iconRow16 ++ iconRow17 ++ iconRow18 ++
   iconRow19 ++ iconRow20 ++ iconRow21 ++ iconRow22 ++ iconRow23 ++ iconRow24 ++ iconRow25 ++ iconRow26

end Verif.Cpc
