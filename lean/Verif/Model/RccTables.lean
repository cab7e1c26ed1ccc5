/-
Table of src/rcc.cc, generated from the source text by a script: one row per set of Fairhead & Bretagnon coefficients,
in source order. Amplitudes are in picoseconds (the source writes microseconds with six decimals), frequencies and
phases in units of 1e-9 (the source writes nine decimals).
-/
namespace Sla

/-- One row of `fb_coeffs` (src/rcc.cc:103-892). -/
structure FbRow where
  amp : Int
  freq : Int
  phase : Int
deriving DecidableEq

/-- src/rcc.cc:104-163: rows 0 to 59. -/
def fbCoeffs0 : List FbRow := [
  ⟨1656674564, 6283075849991, 6240054195⟩,
  ⟨22417471, 5753384884897, 4296977442⟩,
  ⟨13839792, 12566151699983, 6196904410⟩,
  ⟨4770086, 529690965095, 444401603⟩,
  ⟨4676740, 6069776754553, 4021195093⟩,
  ⟨2256707, 213299095438, 5543113262⟩,
  ⟨1694205, -3523118349, 5025132748⟩,
  ⟨1554905, 77713771467920, 5198467090⟩,
  ⟨1276839, 7860419392439, 5988822341⟩,
  ⟨1193379, 5223693919802, 3649823730⟩,
  ⟨1115322, 3930209696220, 1422745069⟩,
  ⟨794185, 11506769769794, 2322313077⟩,
  ⟨447061, 26298319800, 3615796498⟩,
  ⟨435206, -398149003408, 4349338347⟩,
  ⟨600309, 1577343542448, 2678271909⟩,
  ⟨496817, 6208294251424, 5696701824⟩,
  ⟨486306, 5884926846583, 520007179⟩,
  ⟨432392, 74781598567, 2435898309⟩,
  ⟨468597, 6244942814354, 5866398759⟩,
  ⟨375510, 5507553238667, 4103476804⟩,
  ⟨243085, -775522611324, 3651837925⟩,
  ⟨173435, 18849227549974, 6153743485⟩,
  ⟨230685, 5856477659115, 4773852582⟩,
  ⟨203747, 12036460734888, 4333987818⟩,
  ⟨143935, -796298006816, 5957517795⟩,
  ⟨159080, 10977078804699, 1890075226⟩,
  ⟨119979, 38133035638, 4551585768⟩,
  ⟨118971, 5486777843175, 1914547226⟩,
  ⟨116120, 1059381930189, 873504123⟩,
  ⟨137927, 11790629088659, 1135934669⟩,
  ⟨98358, 2544314419883, 92793886⟩,
  ⟨101868, -5573142801634, 5984503847⟩,
  ⟨80164, 206185548437, 2095377709⟩,
  ⟨79645, 4694002954708, 2949233637⟩,
  ⟨62617, 20775395492, 2654394814⟩,
  ⟨75019, 2942463423292, 4980931759⟩,
  ⟨64397, 5746271337896, 1280308748⟩,
  ⟨63814, 5760498431898, 4167901731⟩,
  ⟨48042, 2146165416475, 1495846011⟩,
  ⟨48373, 155420399434, 2251573730⟩,
  ⟨58844, 426598190876, 4839650148⟩,
  ⟨46551, -980321068, 921573539⟩,
  ⟨54139, 17260154654690, 3411091093⟩,
  ⟨42411, 6275962302991, 2869567043⟩,
  ⟨40184, -7113547001, 3565975565⟩,
  ⟨36564, 5088628839767, 3324679049⟩,
  ⟨40759, 12352852604545, 3981496998⟩,
  ⟨36507, 801820931124, 6248866009⟩,
  ⟨36955, 3154687084896, 5071801441⟩,
  ⟨42732, 632783739313, 5720622217⟩,
  ⟨42560, 161000685737473, 1270837679⟩,
  ⟨40480, 15720838784878, 2546610123⟩,
  ⟨28244, -6286598968340, 5069663519⟩,
  ⟨33477, 6062663207553, 4144987272⟩,
  ⟨34867, 522577418094, 5210064075⟩,
  ⟨32438, 6076890301554, 749317412⟩,
  ⟨30215, 7084896781115, 3389610345⟩,
  ⟨29247, -71430695617928, 4183178762⟩,
  ⟨33529, 9437762934887, 2404714239⟩,
  ⟨32423, 8827390269875, 5541473556⟩]

/-- src/rcc.cc:164-223: rows 60 to 119. -/
def fbCoeffs1 : List FbRow := [
  ⟨27567, 6279552731642, 5040846034⟩,
  ⟨29862, 12139553509107, 1770181024⟩,
  ⟨22509, 10447387839604, 1460726241⟩,
  ⟨20937, 8429241266467, 652303414⟩,
  ⟨20322, 419484643875, 3735430632⟩,
  ⟨24816, -1194447010225, 1087136918⟩,
  ⟨25196, 1748016413067, 2901883301⟩,
  ⟨21691, 14143495242431, 5952658009⟩,
  ⟨17673, 6812766815086, 3186129845⟩,
  ⟨22567, 6133512652857, 3307984806⟩,
  ⟨16155, 10213285546211, 1331103168⟩,
  ⟨14751, 1349867409659, 4308933301⟩,
  ⟨15949, -220412642439, 4005298270⟩,
  ⟨15974, -2352866153772, 6145309371⟩,
  ⟨14223, 17789845619785, 2104551349⟩,
  ⟨17806, 73297125859, 3475975097⟩,
  ⟨13671, -536804512095, 5971672571⟩,
  ⟨11942, 8031092263058, 2053414715⟩,
  ⟨14318, 16730463689596, 3016058075⟩,
  ⟨12462, 103092774219, 1737438797⟩,
  ⟨10962, 3590428652, 2196567739⟩,
  ⟨15078, 19651048481098, 3969480770⟩,
  ⟨10396, 951718406251, 5717799605⟩,
  ⟨11707, -4705732307544, 2654125618⟩,
  ⟨10453, 5863591206116, 1913704550⟩,
  ⟨12420, 4690479836359, 4734090399⟩,
  ⟨11847, 5643178563677, 5489005403⟩,
  ⟨8610, 3340612426700, 3661698944⟩,
  ⟨11622, 5120601145584, 4863931876⟩,
  ⟨10825, 553569402842, 842715011⟩,
  ⟨8666, -135065080035, 3293406547⟩,
  ⟨9963, 149563197135, 4870690598⟩,
  ⟨9858, 6309374169791, 1061816410⟩,
  ⟨7959, 316391869657, 2465042647⟩,
  ⟨10099, 283859318865, 1942176992⟩,
  ⟨7147, -242728603974, 3661486981⟩,
  ⟨7505, 5230807466803, 4920937029⟩,
  ⟨8323, 11769853693166, 1229392026⟩,
  ⟨7490, -6256777530192, 3658444681⟩,
  ⟨9370, 149854400134205, 673880395⟩,
  ⟨7117, 38027672636, 5294249518⟩,
  ⟨7857, 12168002696575, 525733528⟩,
  ⟨7019, 6206809778716, 837688810⟩,
  ⟨6056, 955599741609, 4194535082⟩,
  ⟨8107, 13367972631107, 3793235253⟩,
  ⟨6731, 5650292110678, 5639906583⟩,
  ⟨7332, 36648562930, 114858677⟩,
  ⟨6366, 4164311989613, 2262081818⟩,
  ⟨6858, 5216580372801, 642063318⟩,
  ⟨6919, 6681224853400, 6018501522⟩,
  ⟨6826, 7632943259650, 3458654112⟩,
  ⟨5308, -1592596013633, 2500382359⟩,
  ⟨5096, 11371704689758, 2547107806⟩,
  ⟨4841, 5333900241022, 437078094⟩,
  ⟨5582, 5966683980335, 2246174308⟩,
  ⟨6304, 11926254413669, 2512929171⟩,
  ⟨6603, 23581258177318, 5393136889⟩,
  ⟨5123, -1484472708, 2999641028⟩,
  ⟨4648, 1589072895284, 1275847090⟩,
  ⟨5119, 6438496249426, 1486539246⟩]

/-- src/rcc.cc:224-283: rows 120 to 179. -/
def fbCoeffs2 : List FbRow := [
  ⟨4521, 4292330832950, 6140635794⟩,
  ⟨5680, 23013539539587, 4557814849⟩,
  ⟨5488, -3455808046, 90675389⟩,
  ⟨4193, 7234794256242, 4869091389⟩,
  ⟨3742, 7238675591600, 4691976180⟩,
  ⟨4148, -110206321219, 3016173439⟩,
  ⟨4553, 11499656222793, 5554998314⟩,
  ⟨4892, 5436993015240, 1475415597⟩,
  ⟨4044, 4732030627343, 1398784824⟩,
  ⟨4164, 12491370101415, 5650931916⟩,
  ⟨4349, 11513883316794, 2181745369⟩,
  ⟨3919, 12528018664345, 5823319737⟩,
  ⟨3129, 6836645252834, 3844094⟩,
  ⟨4080, -7058598461315, 3690360123⟩,
  ⟨3270, 76266071276, 1517189902⟩,
  ⟨2954, 6283143160294, 4447203799⟩,
  ⟨2872, 28449187468, 1158692983⟩,
  ⟨2881, 735876513532, 349250250⟩,
  ⟨3279, 5849364112115, 4893384368⟩,
  ⟨3625, 6209778724132, 1473760578⟩,
  ⟨3074, 949175608970, 5185878737⟩,
  ⟨2775, 9917696874510, 1030026325⟩,
  ⟨2646, 10973555686350, 3918259169⟩,
  ⟨2575, 25132303399966, 6109659023⟩,
  ⟨3500, 263083923373, 1892100742⟩,
  ⟨2740, 18319536584880, 4320519510⟩,
  ⟨2464, 202253395174, 4698203059⟩,
  ⟨2409, 2542797281, 5325009315⟩,
  ⟨3354, -90955551694697, 1942656623⟩,
  ⟨2296, 6496374945429, 5061810696⟩,
  ⟨3002, 6172869528772, 2797822767⟩,
  ⟨3202, 27511467873537, 531673101⟩,
  ⟨2954, -6283008539689, 4533471191⟩,
  ⟨2353, 639897286314, 3734548088⟩,
  ⟨2401, 16200772724501, 2605547070⟩,
  ⟨3053, 233141314403759, 3029030662⟩,
  ⟨3024, 83286914269554, 2355556099⟩,
  ⟨2863, 17298182327326, 5240963796⟩,
  ⟨2103, -7079373856808, 5756641637⟩,
  ⟨2303, 83996847317911, 2013686814⟩,
  ⟨2303, 18073704938650, 1089100410⟩,
  ⟨2381, 63735898303, 759188178⟩,
  ⟨2493, 6386168624210, 645026535⟩,
  ⟨2366, 3932153263, 6215885448⟩,
  ⟨2169, 11015106477335, 4845297676⟩,
  ⟨2397, 6243458341645, 3809290043⟩,
  ⟨2183, 1162474704408, 6179611691⟩,
  ⟨2353, 6246427287062, 4781719760⟩,
  ⟨2199, -245831646229, 5956152284⟩,
  ⟨1729, 3894181829542, 1264976635⟩,
  ⟨1896, -3128388765096, 4914231596⟩,
  ⟨2085, 35164090221, 1405158503⟩,
  ⟨2024, 14712317116458, 2752035928⟩,
  ⟨1737, 6290189396992, 5280820144⟩,
  ⟨2229, 491557929457, 1571007057⟩,
  ⟨1602, 14314168113050, 4203664806⟩,
  ⟨2186, 454909366527, 1402101526⟩,
  ⟨1897, 22483848574493, 4167932508⟩,
  ⟨1825, -3738761430108, 545828785⟩,
  ⟨1894, 1052268383188, 5817167450⟩]

/-- src/rcc.cc:284-343: rows 180 to 239. -/
def fbCoeffs3 : List FbRow := [
  ⟨1421, 20355319399, 2419886601⟩,
  ⟨1408, 10984192351700, 2732084787⟩,
  ⟨1847, 10873986030480, 2903477885⟩,
  ⟨1391, -8635942003763, 593891500⟩,
  ⟨1388, -7046236698, 1166145902⟩,
  ⟨1810, -88860057071188, 487355242⟩,
  ⟨1288, -1990745017041, 3913022880⟩,
  ⟨1297, 23543230504682, 3063805171⟩,
  ⟨1335, -266607041722, 3995764039⟩,
  ⟨1376, 10969965257698, 5152914309⟩,
  ⟨1745, 244287600007027, 3626395673⟩,
  ⟨1649, 31441677569757, 1952049260⟩,
  ⟨1416, 9225539273283, 4996408389⟩,
  ⟨1238, 4804209275927, 5503379738⟩,
  ⟨1472, 4590910180489, 4164913291⟩,
  ⟨1169, 6040347246017, 5841719038⟩,
  ⟨1039, 5540085789459, 2769753519⟩,
  ⟨1004, -170672870619, 755008103⟩,
  ⟨1284, 10575406682942, 5306538209⟩,
  ⟨1278, 71812653151, 4713486491⟩,
  ⟨1321, 18209330263660, 2624866359⟩,
  ⟨1297, 21228392023546, 382603541⟩,
  ⟨954, 6282095528923, 882213514⟩,
  ⟨1145, 6058731054289, 1169483931⟩,
  ⟨979, 5547199336460, 5448375984⟩,
  ⟨987, -6262300454499, 2656486959⟩,
  ⟨1070, -154717609887482, 1827624012⟩,
  ⟨991, 4701116501708, 4387001801⟩,
  ⟨1155, -14227094002, 3042700750⟩,
  ⟨1176, 277034993741, 3335519004⟩,
  ⟨890, 13916019109642, 5601498297⟩,
  ⟨884, -1551045222648, 1088831705⟩,
  ⟨876, 5017508371365, 3969902609⟩,
  ⟨806, 15110466119866, 5142876744⟩,
  ⟨773, -4136910433516, 22067765⟩,
  ⟨1077, 175166059800, 1844913056⟩,
  ⟨954, -6284056171060, 968480906⟩,
  ⟨737, 5326786694021, 4923831588⟩,
  ⟨845, -433711737877, 4749245231⟩,
  ⟨819, 8662240323563, 5991247817⟩,
  ⟨852, 199072001436, 2189604979⟩,
  ⟨723, 17256631536341, 6068719637⟩,
  ⟨940, 6037244203762, 6197428148⟩,
  ⟨885, 11712955318231, 3280414875⟩,
  ⟨706, 12559038152982, 2824848947⟩,
  ⟨732, 2379164473572, 2501813417⟩,
  ⟨764, -6127655450557, 2236346329⟩,
  ⟨908, 131541961686, 2521257490⟩,
  ⟨907, 35371887265976, 3370195967⟩,
  ⟨673, 1066495477190, 3876512374⟩,
  ⟨814, 17654780539750, 4627122566⟩,
  ⟨630, 36027866677, 156368499⟩,
  ⟨798, 515463871093, 5151962502⟩,
  ⟨798, 148078724426, 5909225055⟩,
  ⟨806, 309278322656, 6054064447⟩,
  ⟨607, -39617508346, 2839021623⟩,
  ⟨601, 412371096874, 3984225404⟩,
  ⟨646, 11403676995575, 3852959484⟩,
  ⟨704, 13521751441591, 2300991267⟩,
  ⟨603, -65147619767937, 4140083146⟩]

/-- src/rcc.cc:344-403: rows 240 to 299. -/
def fbCoeffs4 : List FbRow := [
  ⟨609, 10177257679534, 437122327⟩,
  ⟨631, 5767611978898, 4026532329⟩,
  ⟨576, 11087285125918, 4760293101⟩,
  ⟨674, 14945316173554, 6270510511⟩,
  ⟨726, 5429879468239, 6039606892⟩,
  ⟨710, 28766924424484, 5672617711⟩,
  ⟨647, 11856218651625, 3397132627⟩,
  ⟨678, -5481254918868, 6249666675⟩,
  ⟨618, 22003914634870, 2466427018⟩,
  ⟨738, 6134997125565, 2242668890⟩,
  ⟨660, 625670192312, 5864091907⟩,
  ⟨694, 3496032826134, 2668309141⟩,
  ⟨531, 6489261398429, 1681888780⟩,
  ⟨611, -143571324284214, 2424978312⟩,
  ⟨575, 12043574281889, 4216492400⟩,
  ⟨553, 12416588502848, 4772158039⟩,
  ⟨689, 4686889407707, 6224271088⟩,
  ⟨495, 7342457780181, 3817285811⟩,
  ⟨567, 3634621024518, 1649264690⟩,
  ⟨515, 18635928454536, 3945345892⟩,
  ⟨486, -323505416657, 4061673868⟩,
  ⟨662, 25158601719765, 1794058369⟩,
  ⟨509, 846082834751, 3053874588⟩,
  ⟨472, -12569674818332, 5112133338⟩,
  ⟨461, 6179983075773, 513669325⟩,
  ⟨641, 83467156352816, 3210727723⟩,
  ⟨520, 10344295065386, 2445597761⟩,
  ⟨493, 18422629359098, 1676939306⟩,
  ⟨478, 1265567478626, 5487314569⟩,
  ⟨472, -18159247265, 1999707589⟩,
  ⟨559, 11190377900137, 5783236356⟩,
  ⟨494, 9623688276691, 3022645053⟩,
  ⟨463, 5739157790895, 1411223013⟩,
  ⟨432, 16858482532933, 1179256434⟩,
  ⟨574, 72140628666286, 1758191830⟩,
  ⟨484, 17267268201691, 3290589143⟩,
  ⟨550, 4907302050146, 864024298⟩,
  ⟨399, 14977853527, 2094441910⟩,
  ⟨491, 224344795702, 878372791⟩,
  ⟨432, 20426571092422, 6003829241⟩,
  ⟨481, 5749452731634, 4309591964⟩,
  ⟨480, 5757317038160, 1142348571⟩,
  ⟨485, 6702560493867, 210580917⟩,
  ⟨426, 6055549660552, 4274476529⟩,
  ⟨480, 5959570433334, 5031351030⟩,
  ⟨466, 12562628581634, 4959581597⟩,
  ⟨520, 39302096962196, 4788002889⟩,
  ⟨458, 12132439962106, 1880103788⟩,
  ⟨470, 12029347187887, 1405611197⟩,
  ⟨416, -7477522860216, 1082356330⟩,
  ⟨449, 11609862544012, 4179989585⟩,
  ⟨465, 17253041107690, 353496295⟩,
  ⟨362, -4535059436924, 1583849576⟩,
  ⟨383, 21954157609398, 3747376371⟩,
  ⟨389, 17252277143, 1395753179⟩,
  ⟨331, 18052929543158, 566790582⟩,
  ⟨430, 13517870106233, 685827538⟩,
  ⟨368, -5756908003246, 731374317⟩,
  ⟨330, 10557594160824, 3710043680⟩,
  ⟨332, 20199094959633, 1652901407⟩]

/-- src/rcc.cc:404-463: rows 300 to 359. -/
def fbCoeffs5 : List FbRow := [
  ⟨384, 11933367960670, 5827781531⟩,
  ⟨387, 10454501386605, 2541182564⟩,
  ⟨325, 15671081759407, 2178850542⟩,
  ⟨318, 138517496871, 2253253037⟩,
  ⟨305, 9388005909415, 578340206⟩,
  ⟨352, 5749861766548, 3000297967⟩,
  ⟨311, 6915859589305, 1693574249⟩,
  ⟨297, 24072921469776, 1997249392⟩,
  ⟨363, -640877607382, 5071820966⟩,
  ⟨323, 12592450019783, 1072262823⟩,
  ⟨341, 12146667056108, 4700657997⟩,
  ⟨290, 9779108676125, 1812320441⟩,
  ⟨342, 6132028180148, 4322238614⟩,
  ⟨329, 6268848755990, 3033827743⟩,
  ⟨374, 17996031168222, 3388716544⟩,
  ⟨285, -533214083444, 4687313233⟩,
  ⟨338, 6065844601290, 877776108⟩,
  ⟨276, 24298513841, 770299429⟩,
  ⟨336, -2388894020449, 5353796034⟩,
  ⟨290, 3097883822726, 4075291557⟩,
  ⟨318, 709933048357, 5941207518⟩,
  ⟨271, 13095842665077, 3208912203⟩,
  ⟨331, 6073708907816, 4007881169⟩,
  ⟨292, 742990060533, 2714333592⟩,
  ⟨362, 29088811415985, 3215977013⟩,
  ⟨280, 12359966151546, 710872502⟩,
  ⟨267, 10440274292604, 4730108488⟩,
  ⟨262, 838969287750, 1327720272⟩,
  ⟨250, 16496361396202, 898769761⟩,
  ⟨325, 20597243963041, 180044365⟩,
  ⟨268, 6148010769956, 5152666276⟩,
  ⟨284, 5636065016677, 5655385808⟩,
  ⟨301, 6080822454817, 2135396205⟩,
  ⟨294, -377373607916, 3708784168⟩,
  ⟨236, 2118763860378, 1733578756⟩,
  ⟨234, 5867523359379, 5575209112⟩,
  ⟨268, -226858238553767, 69432392⟩,
  ⟨265, 167283761587465, 4369302826⟩,
  ⟨280, 28237233459389, 5304829118⟩,
  ⟨292, 12345739057544, 4096094132⟩,
  ⟨223, 19800945956225, 3069327406⟩,
  ⟨301, 43232306658416, 6205311188⟩,
  ⟨264, 18875525869774, 1417263408⟩,
  ⟨304, -1823175188677, 3409035232⟩,
  ⟨301, 109945688789, 510922054⟩,
  ⟨260, 813550283960, 2389438934⟩,
  ⟨299, 316428228673312, 5384595078⟩,
  ⟨211, 5756566278634, 3789392838⟩,
  ⟨209, 5750203491159, 1661943545⟩,
  ⟨240, 12489885628707, 5684549045⟩,
  ⟨216, 6303851245484, 3862942261⟩,
  ⟨203, 1581959348283, 5549853589⟩,
  ⟨200, 5642198242609, 1016115785⟩,
  ⟨197, -70849445304, 4690702525⟩,
  ⟨227, 6287008003254, 2911891613⟩,
  ⟨197, 533623118358, 1048982898⟩,
  ⟨205, -6279485421340, 1829362730⟩,
  ⟨209, -10988808157535, 2636140084⟩,
  ⟨208, -227526189440, 4127883842⟩,
  ⟨191, 415552490612, 4401165650⟩]

/-- src/rcc.cc:464-523: rows 360 to 419. -/
def fbCoeffs6 : List FbRow := [
  ⟨190, 29296615389579, 4175658539⟩,
  ⟨264, 66567485864652, 4601102551⟩,
  ⟨256, -3646350377354, 506364778⟩,
  ⟨188, 13119721102825, 2032195842⟩,
  ⟨185, -209366942175, 4694756586⟩,
  ⟨198, 25934124331089, 3832703118⟩,
  ⟨195, 4061219215394, 3308463427⟩,
  ⟨234, 5113487598583, 1716090661⟩,
  ⟨188, 1478866574064, 5686865780⟩,
  ⟨222, 11823161639450, 1942386641⟩,
  ⟨181, 10770893256262, 1999482059⟩,
  ⟨171, 6546159773364, 1182807992⟩,
  ⟨206, 70328180442, 5934076062⟩,
  ⟨169, 20995392966449, 2169080622⟩,
  ⟨191, 10660686935042, 5405515999⟩,
  ⟨228, 33019021112205, 4656985514⟩,
  ⟨184, -4933208440333, 3327476868⟩,
  ⟨220, -135625325010, 1765430262⟩,
  ⟨166, 23141558382925, 3454132746⟩,
  ⟨191, 6144558353121, 5020393445⟩,
  ⟨180, 6084003848555, 602182191⟩,
  ⟨163, 17782732072784, 4960593133⟩,
  ⟨225, 16460333529525, 2596451817⟩,
  ⟨222, 5905702242076, 3731990323⟩,
  ⟨204, 227476132789, 5636192701⟩,
  ⟨159, 16737577236597, 3600691544⟩,
  ⟨200, 6805653268085, 868220961⟩,
  ⟨187, 11919140866668, 2629456641⟩,
  ⟨161, 127471796607, 2862574720⟩,
  ⟨205, 6286666278643, 1742882331⟩,
  ⟨189, 153778810485, 4812372643⟩,
  ⟨168, 16723350142595, 27860588⟩,
  ⟨149, 11720068865232, 659721876⟩,
  ⟨189, 5237921013804, 5245313000⟩,
  ⟨143, 6709674040867, 4317625647⟩,
  ⟨146, 4487817406270, 4815297007⟩,
  ⟨144, -664756045130, 5381366880⟩,
  ⟨175, 5127714692584, 4728443327⟩,
  ⟨162, 6254626662524, 1435132069⟩,
  ⟨187, 47162516354635, 1354371923⟩,
  ⟨146, 11080171578918, 3369695406⟩,
  ⟨180, -348924420448, 2490902145⟩,
  ⟨148, 151047669843, 3799109588⟩,
  ⟨157, 6197248551160, 1284375887⟩,
  ⟨167, 146594251718, 759969109⟩,
  ⟨133, -5331357443741, 5409701889⟩,
  ⟨154, 95979227218, 3366890614⟩,
  ⟨148, -6418140930027, 3384104996⟩,
  ⟨128, -6525804453965, 3803419985⟩,
  ⟨130, 11293470674356, 939039445⟩,
  ⟨152, -5729506447149, 734117523⟩,
  ⟨138, 210117701700, 2564216078⟩,
  ⟨123, 6066595360816, 4517099537⟩,
  ⟨140, 18451078546566, 642049130⟩,
  ⟨126, 11300584221356, 3485280663⟩,
  ⟨119, 10027903195729, 3217431161⟩,
  ⟨151, 4274518310832, 4404359108⟩,
  ⟨117, 6072958148291, 366324650⟩,
  ⟨165, -7668637425143, 4298212528⟩,
  ⟨117, -6245048177356, 5379518958⟩]

/-- src/rcc.cc:524-584: rows 420 to 479. -/
def fbCoeffs7 : List FbRow := [
  ⟨130, -5888449964932, 4527681115⟩,
  ⟨121, -543918059096, 6109429504⟩,
  ⟨162, 9683594581116, 5720092446⟩,
  ⟨141, 6219339951688, 679068671⟩,
  ⟨118, 22743409379516, 4881123092⟩,
  ⟨129, 1692165669502, 351407289⟩,
  ⟨126, 5657405657679, 5146592349⟩,
  ⟨114, 728762966531, 520791814⟩,
  ⟨120, 52596639600, 948516300⟩,
  ⟨115, 65220371012, 3504914846⟩,
  ⟨126, 5881403728234, 5577502482⟩,
  ⟨158, 163096180360983, 2957128968⟩,
  ⟨134, 12341806904281, 2598576764⟩,
  ⟨151, 16627370915377, 3985702050⟩,
  ⟨109, 1368660252845, 14730471⟩,
  ⟨131, 6211263196841, 85077024⟩,
  ⟨146, 5792741760812, 708426604⟩,
  ⟨146, -77750543984, 3121576600⟩,
  ⟨107, 5341013788022, 288231904⟩,
  ⟨138, 6281591377283, 2797450317⟩,
  ⟨113, -6277552925684, 2788904128⟩,
  ⟨115, -525758811831, 5895222200⟩,
  ⟨138, 6016468808270, 6096188999⟩,
  ⟨139, 23539707386333, 2028195445⟩,
  ⟨146, -4176041342449, 4660008502⟩,
  ⟨107, 16062184526117, 4066520001⟩,
  ⟨142, 83783548222473, 2936315115⟩,
  ⟨128, 9380959672717, 3223844306⟩,
  ⟨135, 6205325306007, 1638054048⟩,
  ⟨101, 2699734819318, 5481603249⟩,
  ⟨104, -568821874027, 2205734493⟩,
  ⟨103, 6321103522627, 2440421099⟩,
  ⟨119, 6321208885629, 2547496264⟩,
  ⟨138, 1975492545856, 2314608466⟩,
  ⟨121, 137033024162, 4539108237⟩,
  ⟨123, 19402796952817, 4538074405⟩,
  ⟨119, 22805735565994, 2869040566⟩,
  ⟨133, 64471991241142, 6056405489⟩,
  ⟨129, -85827298831, 2540635083⟩,
  ⟨131, 13613804277336, 4005732868⟩,
  ⟨104, 9814604100291, 1959967212⟩,
  ⟨112, 16097679950283, 3589026260⟩,
  ⟨123, 2107034507542, 1728627253⟩,
  ⟨121, 36949230808424, 6072332087⟩,
  ⟨108, -12539853380183, 3716133846⟩,
  ⟨113, -7875671863624, 2725771122⟩,
  ⟨109, 4171425536614, 4033338079⟩,
  ⟨101, 6247911759770, 3441347021⟩,
  ⟨113, 7330728427345, 656372122⟩,
  ⟨113, 51092726050855, 2791483066⟩,
  ⟨106, 5621842923210, 1815323326⟩,
  ⟨101, 111430161497, 5711033677⟩,
  ⟨103, 909818733055, 2812745443⟩,
  ⟨101, 1790642637886, 1965746028⟩,
  ⟨102156724, 6283075849991, 4249032005⟩,
  ⟨1706807, 12566151699983, 4205904248⟩,
  ⟨269668, 213299095438, 3400290479⟩,
  ⟨265919, 529690965095, 5836047367⟩,
  ⟨210568, -3523118349, 6262738348⟩,
  ⟨77996, 5223693919802, 4670344204⟩]

/-- src/rcc.cc:585-644: rows 480 to 539. -/
def fbCoeffs8 : List FbRow := [
  ⟨54764, 1577343542448, 4534800170⟩,
  ⟨59146, 26298319800, 1083044735⟩,
  ⟨34420, -398149003408, 5980077351⟩,
  ⟨32088, 18849227549974, 4162913471⟩,
  ⟨33595, 5507553238667, 5980162321⟩,
  ⟨29198, 5856477659115, 623811863⟩,
  ⟨27764, 155420399434, 3745318113⟩,
  ⟨25190, 5746271337896, 2980330535⟩,
  ⟨22997, -796298006816, 1174411803⟩,
  ⟨24976, 5760498431898, 2467913690⟩,
  ⟨21774, 206185548437, 3854787540⟩,
  ⟨17925, -775522611324, 1092065955⟩,
  ⟨13794, 426598190876, 2699831988⟩,
  ⟨13276, 6062663207553, 5845801920⟩,
  ⟨11774, 12036460734888, 2292832062⟩,
  ⟨12869, 6076890301554, 5333425680⟩,
  ⟨12152, 1059381930189, 6222874454⟩,
  ⟨11081, -7113547001, 5154724984⟩,
  ⟨10143, 4694002954708, 4044013795⟩,
  ⟨9357, 5486777843175, 3416081409⟩,
  ⟨10084, 522577418094, 749320262⟩,
  ⟨8587, 10977078804699, 2777152598⟩,
  ⟨8628, 6275962302991, 4562060226⟩,
  ⟨8158, -220412642439, 5806891533⟩,
  ⟨7746, 2544314419883, 1603197066⟩,
  ⟨7670, 2146165416475, 3000200440⟩,
  ⟨7098, 74781598567, 443725817⟩,
  ⟨6180, -536804512095, 1302642751⟩,
  ⟨5818, 5088628839767, 4827723531⟩,
  ⟨4945, -6286598968340, 268305170⟩,
  ⟨4774, 1349867409659, 5808636673⟩,
  ⟨4687, -242728603974, 5154890570⟩,
  ⟨6089, 1748016413067, 4403765209⟩,
  ⟨5975, -1194447010225, 2583472591⟩,
  ⟨4229, 951718406251, 931172179⟩,
  ⟨5264, 553569402842, 2336107252⟩,
  ⟨3049, 5643178563677, 1362634430⟩,
  ⟨2974, 6812766815086, 1583012668⟩,
  ⟨3403, -2352866153772, 2552189886⟩,
  ⟨3030, 419484643875, 5286473844⟩,
  ⟨3210, -7046236698, 1863796539⟩,
  ⟨3058, 9437762934887, 4226420633⟩,
  ⟨2589, 12352852604545, 1991935820⟩,
  ⟨2927, 5216580372801, 2319951253⟩,
  ⟨2425, 5230807466803, 3084752833⟩,
  ⟨2656, 3154687084896, 2487447866⟩,
  ⟨2445, 10447387839604, 2347139160⟩,
  ⟨2990, 4690479836359, 6235872050⟩,
  ⟨2890, 5863591206116, 95197563⟩,
  ⟨2498, 6438496249426, 2994779800⟩,
  ⟨1889, 8031092263058, 3569003717⟩,
  ⟨2567, 801820931124, 3425611498⟩,
  ⟨1803, -71430695617928, 2192295512⟩,
  ⟨1782, 3932153263, 5180433689⟩,
  ⟨1694, -4705732307544, 4641779174⟩,
  ⟨1704, -1592596013633, 3997097652⟩,
  ⟨1735, 5849364112115, 417558428⟩,
  ⟨1643, 8429241266467, 2180619584⟩,
  ⟨1680, 38133035638, 4164529426⟩,
  ⟨2045, 7084896781115, 526323854⟩]

/-- src/rcc.cc:645-704: rows 540 to 599. -/
def fbCoeffs9 : List FbRow := [
  ⟨1458, 4292330832950, 1356098141⟩,
  ⟨1437, 20355319399, 3895439360⟩,
  ⟨1738, 6279552731642, 87484036⟩,
  ⟨1367, 14143495242431, 3987576591⟩,
  ⟨1344, 7234794256242, 90454338⟩,
  ⟨1438, 11499656222793, 974387904⟩,
  ⟨1257, 6836645252834, 1509069366⟩,
  ⟨1358, 11513883316794, 495572260⟩,
  ⟨1628, 7632943259650, 4968445721⟩,
  ⟨1169, 103092774219, 2838496795⟩,
  ⟨1162, 4164311989613, 3408387778⟩,
  ⟨1092, 6069776754553, 3617942651⟩,
  ⟨1008, 17789845619785, 286350174⟩,
  ⟨1008, 639897286314, 1610762073⟩,
  ⟨918, 10213285546211, 5532798067⟩,
  ⟨1011, -6256777530192, 661826484⟩,
  ⟨753, 16730463689596, 3905030235⟩,
  ⟨737, 11926254413669, 4641956361⟩,
  ⟨694, 3340612426700, 2111120332⟩,
  ⟨701, 3894181829542, 2760823491⟩,
  ⟨689, -135065080035, 4768800780⟩,
  ⟨700, 13367972631107, 5760439898⟩,
  ⟨664, 6040347246017, 1051215840⟩,
  ⟨654, 5650292110678, 4911332503⟩,
  ⟨788, 6681224853400, 4699648011⟩,
  ⟨628, 5333900241022, 5024608847⟩,
  ⟨755, -110206321219, 4370971253⟩,
  ⟨628, 6290189396992, 3660478857⟩,
  ⟨635, 25132303399966, 4121051532⟩,
  ⟨534, 5966683980335, 1173284524⟩,
  ⟨543, -433711737877, 345585464⟩,
  ⟨517, -1990745017041, 5414571768⟩,
  ⟨504, 5767611978898, 2328281115⟩,
  ⟨485, 5753384884897, 1685874771⟩,
  ⟨463, 7860419392439, 5297703006⟩,
  ⟨604, 515463871093, 591998446⟩,
  ⟨443, 12168002696575, 4830881244⟩,
  ⟨570, 199072001436, 3899190272⟩,
  ⟨465, 10969965257698, 476681802⟩,
  ⟨424, -7079373856808, 1112242763⟩,
  ⟨427, 735876513532, 1994214480⟩,
  ⟨478, -6127655450557, 3778025483⟩,
  ⟨414, 10973555686350, 5441088327⟩,
  ⟨512, 1589072895284, 107123853⟩,
  ⟨378, 10984192351700, 915087231⟩,
  ⟨402, 11371704689758, 4107281715⟩,
  ⟨453, 9917696874510, 1917490952⟩,
  ⟨395, 149563197135, 2763124165⟩,
  ⟨371, 5739157790895, 3112111866⟩,
  ⟨350, 11790629088659, 440639857⟩,
  ⟨356, 6133512652857, 5444568842⟩,
  ⟨344, 412371096874, 5676832684⟩,
  ⟨383, 955599741609, 5559734846⟩,
  ⟨333, 6496374945429, 261537984⟩,
  ⟨340, 6055549660552, 5975534987⟩,
  ⟨334, 1066495477190, 2335063907⟩,
  ⟨399, 11506769769794, 5321230910⟩,
  ⟨314, 18319536584880, 2313312404⟩,
  ⟨424, 1052268383188, 1211961766⟩,
  ⟨307, 63735898303, 3169551388⟩]

/-- src/rcc.cc:705-764: rows 600 to 659. -/
def fbCoeffs10 : List FbRow := [
  ⟨329, 29821438149, 6106912080⟩,
  ⟨357, 6309374169791, 4223760346⟩,
  ⟨312, -3738761430108, 2180556645⟩,
  ⟨301, 309278322656, 1499984572⟩,
  ⟨268, 12043574281889, 2447520648⟩,
  ⟨257, 12491370101415, 3662331761⟩,
  ⟨290, 625670192312, 1272834584⟩,
  ⟨256, 5429879468239, 1913426912⟩,
  ⟨339, 3496032826134, 4165930011⟩,
  ⟨283, 3930209696220, 4325565754⟩,
  ⟨241, 12528018664345, 3832324536⟩,
  ⟨304, 4686889407707, 1612348468⟩,
  ⟨259, 16200772724501, 3470173146⟩,
  ⟨238, 12139553509107, 1147977842⟩,
  ⟨236, 6172869528772, 3776271728⟩,
  ⟨296, -7058598461315, 460368852⟩,
  ⟨306, 10575406682942, 554749016⟩,
  ⟨251, 17298182327326, 834332510⟩,
  ⟨290, 4732030627343, 4759564091⟩,
  ⟨261, 5884926846583, 298259862⟩,
  ⟨249, 5547199336460, 3749366406⟩,
  ⟨213, 11712955318231, 5415666119⟩,
  ⟨223, 4701116501708, 2703203558⟩,
  ⟨268, -640877607382, 283670793⟩,
  ⟨209, 5636065016677, 1238477199⟩,
  ⟨193, 10177257679534, 1943251340⟩,
  ⟨182, 6283143160294, 2456157599⟩,
  ⟨184, -227526189440, 5888038582⟩,
  ⟨182, -6283008539689, 241332086⟩,
  ⟨228, -6284056171060, 2657323816⟩,
  ⟨166, 7238675591600, 5930629110⟩,
  ⟨167, 3097883822726, 5570955333⟩,
  ⟨159, -323505416657, 5786670700⟩,
  ⟨154, -4136910433516, 1517805532⟩,
  ⟨176, 12029347187887, 3139266834⟩,
  ⟨167, 12132439962106, 3556352289⟩,
  ⟨153, 202253395174, 1463313961⟩,
  ⟨157, 17267268201691, 1586837396⟩,
  ⟨142, 83996847317911, 22670115⟩,
  ⟨152, 17260154654690, 708528947⟩,
  ⟨144, 6084003848555, 5187075177⟩,
  ⟨135, 5756566278634, 1993229262⟩,
  ⟨134, 5750203491159, 3457197134⟩,
  ⟨144, 5326786694021, 6066193291⟩,
  ⟨160, 11015106477335, 1710431974⟩,
  ⟨133, 3634621024518, 2836451652⟩,
  ⟨134, 18073704938650, 5453106665⟩,
  ⟨134, 1162474704408, 5326898811⟩,
  ⟨128, 5642198242609, 2511652591⟩,
  ⟨160, 632783739313, 5628785365⟩,
  ⟨132, 13916019109642, 819294053⟩,
  ⟨122, 14314168113050, 5677408071⟩,
  ⟨125, 12359966151546, 5251984735⟩,
  ⟨121, 5749452731634, 2210924603⟩,
  ⟨136, -245831646229, 1646502367⟩,
  ⟨120, 5757317038160, 3240883049⟩,
  ⟨134, 12146667056108, 3059480037⟩,
  ⟨137, 6206809778716, 1867105418⟩,
  ⟨141, 17253041107690, 2069217456⟩,
  ⟨129, -7477522860216, 2781469314⟩]

/-- src/rcc.cc:765-824: rows 660 to 719. -/
def fbCoeffs11 : List FbRow := [
  ⟨116, 5540085789459, 4281176991⟩,
  ⟨116, 9779108676125, 3320925381⟩,
  ⟨129, 5237921013804, 3497704076⟩,
  ⟨113, 5959570433334, 983210840⟩,
  ⟨122, 6282095528923, 2674938860⟩,
  ⟨140, -11045700264, 4957936982⟩,
  ⟨108, 23543230504682, 1390113589⟩,
  ⟨106, -12569674818332, 429631317⟩,
  ⟨110, -266607041722, 5501340197⟩,
  ⟨115, 12559038152982, 4691456618⟩,
  ⟨134, -2388894020449, 577313584⟩,
  ⟨109, 10440274292604, 6218148717⟩,
  ⟨102, -543918059096, 1477842615⟩,
  ⟨108, 21228392023546, 2237753948⟩,
  ⟨101, -4535059436924, 3100492232⟩,
  ⟨103, 76266071276, 5594294322⟩,
  ⟨104, 949175608970, 5674287810⟩,
  ⟨101, 13517870106233, 2196632348⟩,
  ⟨100, 11933367960670, 4056084160⟩,
  ⟨4322990, 6283075849991, 2642893748⟩,
  ⟨406495, 0, 4712388980⟩,
  ⟨122605, 12566151699983, 2438140634⟩,
  ⟨19476, 213299095438, 1642186981⟩,
  ⟨16916, 529690965095, 4510959344⟩,
  ⟨13374, -3523118349, 1502210314⟩,
  ⟨8042, 26298319800, 478549024⟩,
  ⟨7824, 155420399434, 5254710405⟩,
  ⟨4894, 5746271337896, 4683210850⟩,
  ⟨4875, 5760498431898, 759507698⟩,
  ⟨4416, 5223693919802, 6028853166⟩,
  ⟨4088, -7113547001, 60926389⟩,
  ⟨4433, 77713771467920, 3627734103⟩,
  ⟨3277, 18849227549974, 2327912542⟩,
  ⟨2703, 6062663207553, 1271941729⟩,
  ⟨3435, -775522611324, 747446224⟩,
  ⟨2618, 6076890301554, 3633715689⟩,
  ⟨3146, 206185548437, 5647874613⟩,
  ⟨2544, 1577343542448, 6232904270⟩,
  ⟨2218, -220412642439, 1309509946⟩,
  ⟨2197, 5856477659115, 2407212349⟩,
  ⟨2897, 5753384884897, 5863842246⟩,
  ⟨1766, 426598190876, 754113147⟩,
  ⟨1738, -796298006816, 2714942671⟩,
  ⟨1695, 522577418094, 2629369842⟩,
  ⟨1584, 5507553238667, 1341138229⟩,
  ⟨1503, -242728603974, 377699736⟩,
  ⟨1552, -536804512095, 2904684667⟩,
  ⟨1370, -398149003408, 1265599125⟩,
  ⟨1889, -5573142801634, 4413514859⟩,
  ⟨1722, 6069776754553, 2445966339⟩,
  ⟨1124, 1059381930189, 5041799657⟩,
  ⟨1258, 553569402842, 3849557278⟩,
  ⟨831, 951718406251, 2471094709⟩,
  ⟨767, 4694002954708, 5363125422⟩,
  ⟨756, 1349867409659, 1046195744⟩,
  ⟨775, -11045700264, 245548001⟩,
  ⟨597, 2146165416475, 4543268798⟩,
  ⟨568, 5216580372801, 4178853144⟩,
  ⟨711, 1748016413067, 5934271972⟩,
  ⟨499, 12036460734888, 624434410⟩]

/-- src/rcc.cc:825-884: rows 720 to 779. -/
def fbCoeffs12 : List FbRow := [
  ⟨671, -1194447010225, 4136047594⟩,
  ⟨488, 5849364112115, 2209679987⟩,
  ⟨621, 6438496249426, 4518860804⟩,
  ⟨495, -6286598968340, 1868201275⟩,
  ⟨456, 5230807466803, 1271231591⟩,
  ⟨451, 5088628839767, 84060889⟩,
  ⟨435, 5643178563677, 3324456609⟩,
  ⟨387, 10977078804699, 4052488477⟩,
  ⟨547, 161000685737473, 2841633844⟩,
  ⟨522, 3154687084896, 2171979966⟩,
  ⟨375, 5486777843175, 4983027306⟩,
  ⟨421, 5863591206116, 4546432249⟩,
  ⟨439, 7084896781115, 522967921⟩,
  ⟨309, 2544314419883, 3172606705⟩,
  ⟨347, 4690479836359, 1479586566⟩,
  ⟨317, 801820931124, 3553088096⟩,
  ⟨262, 419484643875, 606635550⟩,
  ⟨248, 6836645252834, 3014082064⟩,
  ⟨245, -1592596013633, 5519526220⟩,
  ⟨225, 4292330832950, 2877956536⟩,
  ⟨214, 7234794256242, 1605227587⟩,
  ⟨205, 5767611978898, 625804796⟩,
  ⟨180, 10447387839604, 3499954526⟩,
  ⟨229, 199072001436, 5632304604⟩,
  ⟨214, 639897286314, 5960227667⟩,
  ⟨175, -433711737877, 2162417992⟩,
  ⟨209, 515463871093, 2322150893⟩,
  ⟨173, 6040347246017, 2556183691⟩,
  ⟨184, 6309374169791, 4732296790⟩,
  ⟨227, 149854400134205, 5385812217⟩,
  ⟨154, 8031092263058, 5120720920⟩,
  ⟨151, 5739157790895, 4815000443⟩,
  ⟨197, 7632943259650, 222827271⟩,
  ⟨197, 74781598567, 3910456770⟩,
  ⟨138, 6055549660552, 1397484253⟩,
  ⟨149, -6127655450557, 5333727496⟩,
  ⟨137, 3894181829542, 4281749907⟩,
  ⟨135, 9437762934887, 5979971885⟩,
  ⟨139, -2352866153772, 4715630782⟩,
  ⟨142, 6812766815086, 513330157⟩,
  ⟨120, -4705732307544, 194160689⟩,
  ⟨131, -71430695617928, 379226⟩,
  ⟨124, 6279552731642, 2122264908⟩,
  ⟨108, -6256777530192, 883445696⟩,
  ⟨143388, 6283075849991, 1131453581⟩,
  ⟨6671, 12566151699983, 775148887⟩,
  ⟨1480, 155420399434, 480016880⟩,
  ⟨934, 213299095438, 6144453084⟩,
  ⟨795, 529690965095, 2941595619⟩,
  ⟨673, 5746271337896, 120415406⟩,
  ⟨672, 5760498431898, 5317009738⟩,
  ⟨389, -220412642439, 3090323467⟩,
  ⟨373, 6062663207553, 3003551964⟩,
  ⟨360, 6076890301554, 1918913041⟩,
  ⟨316, -21340641002, 5545798121⟩,
  ⟨315, -242728603974, 1884932563⟩,
  ⟨278, 206185548437, 1266254859⟩,
  ⟨238, -536804512095, 4532664830⟩,
  ⟨185, 522577418094, 4578313856⟩,
  ⟨245, 18849227549974, 587467082⟩]

/-- src/rcc.cc:885-891: rows 780 to 786. -/
def fbCoeffs13 : List FbRow := [
  ⟨180, 426598190876, 5151178553⟩,
  ⟨200, 553569402842, 5355983739⟩,
  ⟨141, 5223693919802, 1336556009⟩,
  ⟨104, 5856477659115, 4239842759⟩,
  ⟨3826, 6283075849991, 5705257275⟩,
  ⟨303, 12566151699983, 5407132842⟩,
  ⟨209, 155420399434, 1989815753⟩]

/-- `fb_coeffs` (src/rcc.cc:103-892). -/
def fbCoeffs : List FbRow :=
  fbCoeffs0 ++ fbCoeffs1 ++ fbCoeffs2 ++ fbCoeffs3 ++ fbCoeffs4 ++ fbCoeffs5 ++ fbCoeffs6 ++
  fbCoeffs7 ++ fbCoeffs8 ++ fbCoeffs9 ++ fbCoeffs10 ++ fbCoeffs11 ++ fbCoeffs12 ++ fbCoeffs13

end Sla
