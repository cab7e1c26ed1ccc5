/-
The coefficient tables of `epv` (src/epv.cc:124-2145), generated from the source text: amplitude, phase and frequency of
each term, every number `0.ddddddddddddde±xx` given as its 13-digit mantissa and its exponent.
-/
import Mathlib.Data.List.Basic
import Mathlib.Data.Int.Notation

namespace Sla.Epv

/-- One term: mantissa and exponent of amplitude, phase and frequency. -/
structure Term where
  am : ℤ
  ae : ℤ
  bm : ℤ
  be : ℤ
  cm : ℤ
  ce : ℤ

/-- src/epv.cc:127-627 `E0[0]` -/
def e0x : List Term := [
  ⟨9998292878132, 0, 1753485171504, 1, 6283075850446, 1⟩,
  ⟨8352579567414, -2, 1710344404582, 1, 1256615170089, 2⟩,
  ⟨5611445335148, -2, 0, 0, 0, 0⟩,
  ⟨1046664295572, -3, 1667225416770, 1, 1884922755134, 2⟩,
  ⟨3110842534677, -4, 6687513390251, 0, 8399684731857, 2⟩,
  ⟨2552413503550, -4, 5830637358413, 0, 5296909721118, 0⟩,
  ⟨2137207845781, -4, 1092330954011, 1, 1577343543434, 1⟩,
  ⟨1680240182951, -4, 4955366134987, 0, 6279552690824, 1⟩,
  ⟨1679012370795, -4, 6153014091901, 1, 6286599010068, 1⟩,
  ⟨1445526946777, -4, 3472744100492, 1, 2352866153506, 1⟩,
  ⟨1091038246184, -4, 3689845786119, 1, 5223693906222, 1⟩,
  ⟨9344399733932, -5, 6073934645672, 1, 1203646072878, 2⟩,
  ⟨8993182910652, -5, 3175705249069, 1, 1021328554739, 2⟩,
  ⟨5665546034116, -5, 2152484672246, 1, 1059381944224, 1⟩,
  ⟨6844146703035, -5, 1306964099750, 1, 5753384878334, 1⟩,
  ⟨7346610905565, -5, 4354980070466, 1, 3981490189893, 0⟩,
  ⟨6815396474414, -5, 2218229211267, 1, 4705732307012, 1⟩,
  ⟨6112787253053, -5, 5384788425458, 1, 6812766822558, 1⟩,
  ⟨4518120711239, -5, 6087604012291, 1, 5884926831456, 1⟩,
  ⟨4521963430706, -5, 1279424524906, 1, 6256777527156, 1⟩,
  ⟨4497426764085, -5, 5369129144266, 1, 6309374173736, 1⟩,
  ⟨4062190566959, -5, 5436473303367, 0, 6681224869435, 1⟩,
  ⟨5412193480192, -5, 7867838528395, 0, 7755226100720, 0⟩,
  ⟨5469839049386, -5, 1461440311134, 1, 1414349524433, 2⟩,
  ⟨5205264083477, -5, 4432944696116, 1, 7860419393880, 1⟩,
  ⟨2149759935455, -5, 4502237496846, 1, 1150676975667, 2⟩,
  ⟨2279109618501, -5, 1239441308815, 1, 7058598460518, 1⟩,
  ⟨2259282939683, -5, 3272430985331, 1, 4694002934110, 1⟩,
  ⟨2558950271319, -5, 2265471086404, 1, 1216800268190, 2⟩,
  ⟨2561581447555, -5, 1454740653245, 1, 7099330490126, 0⟩,
  ⟨1781441115440, -5, 2962068630206, 1, 7962980379786, 0⟩,
  ⟨1612005874644, -5, 1473255041006, 1, 5486777812467, 1⟩,
  ⟨1818630667105, -5, 3743903293447, 0, 6283008715021, 1⟩,
  ⟨1818601377529, -5, 6274174354554, 1, 6283142985870, 1⟩,
  ⟨1554475925257, -5, 1624110906816, 1, 2513230340178, 2⟩,
  ⟨2090948029241, -5, 5852052276256, 1, 1179062909082, 2⟩,
  ⟨2000176345460, -5, 4072093298513, 1, 1778984560711, 2⟩,
  ⟨1289535917759, -5, 5217019331069, 1, 7079373888424, 1⟩,
  ⟨1281135307881, -5, 4802054538934, 1, 3738761453707, 1⟩,
  ⟨1518229005692, -5, 8691914742502, 0, 2132990797783, 0⟩,
  ⟨9450128579027, -6, 4601859529950, 1, 1097707878456, 2⟩,
  ⟨7781119494996, -6, 1844352816694, 1, 8827390247185, 1⟩,
  ⟨7733407759912, -6, 3582790154750, 1, 5507553240374, 1⟩,
  ⟨7350644318120, -6, 2695277788230, 1, 1589072916335, 1⟩,
  ⟨6535928827023, -6, 3651327986142, 1, 1176985366291, 2⟩,
  ⟨6324624183656, -6, 2241302375862, 1, 6262300422539, 1⟩,
  ⟨6298565300557, -6, 4407122406081, 1, 6303851278352, 1⟩,
  ⟨8587037089179, -6, 3024307223119, 1, 1672837615881, 3⟩,
  ⟨8299954491035, -6, 6192539428237, 1, 3340612434717, 1⟩,
  ⟨6311263503401, -6, 2014758795416, 1, 7113454667900, -2⟩,
  ⟨6005646745452, -6, 3399500503397, 1, 4136910472696, 1⟩,
  ⟨7917715109929, -6, 2493386877837, 1, 6069776770667, 1⟩,
  ⟨7556958099685, -6, 4159491740143, 1, 6496374930224, 1⟩,
  ⟨6773228244949, -6, 4034162934230, 1, 9437762937313, 1⟩,
  ⟨5370708577847, -6, 1562219163734, 1, 1194447056968, 1⟩,
  ⟨5710804266203, -6, 2662730803386, 1, 6282095334605, 1⟩,
  ⟨5709824583726, -6, 3985828430833, 1, 6284056366286, 1⟩,
  ⟨5143950896447, -6, 1308144688689, 1, 6290189305114, 1⟩,
  ⟨5088010604546, -6, 5352817214804, 1, 6275962395778, 1⟩,
  ⟨4960369085172, -6, 2644267922349, 1, 6127655567643, 1⟩,
  ⟨4803137891183, -6, 4008844192080, 1, 6438496133249, 1⟩,
  ⟨5731747768225, -6, 3794550174597, 1, 3154687086868, 1⟩,
  ⟨4735947960579, -6, 6107118308982, 1, 3128388763578, 1⟩,
  ⟨4808348796625, -6, 4771458618163, 1, 8018209333619, 0⟩,
  ⟨4115073743137, -6, 3327111335159, 1, 8429241228195, 1⟩,
  ⟨5230575889287, -6, 5305708551694, 1, 1336797263425, 2⟩,
  ⟨5133977889215, -6, 5784230738814, 1, 1235285262111, 2⟩,
  ⟨5065815825327, -6, 2052064793679, 1, 1185621865188, 2⟩,
  ⟨4339831593868, -6, 3644994195830, 1, 1726015463500, 2⟩,
  ⟨3952928638953, -6, 4930376436758, 1, 5481254917084, 1⟩,
  ⟨4898498111942, -6, 4542084219731, 0, 9225539266174, 1⟩,
  ⟨4757490209328, -6, 3161126388878, 1, 5856477690889, 1⟩,
  ⟨4727701669749, -6, 6214993845446, 0, 2544314396739, 1⟩,
  ⟨3800966681863, -6, 3040132339297, 1, 4265981595566, 0⟩,
  ⟨3257301077939, -6, 8064977360087, 0, 3930209696940, 1⟩,
  ⟨3255810528674, -6, 1974147981034, 1, 2146165377750, 1⟩,
  ⟨3252029748187, -6, 2845924913135, 1, 4164311961999, 1⟩,
  ⟨3255505635308, -6, 3017900824120, 1, 5088628793478, 1⟩,
  ⟨2801345211990, -6, 6109717793179, 1, 1256967486051, 2⟩,
  ⟨3688987740970, -6, 2911550235289, 1, 1807370494127, 2⟩,
  ⟨2475153429458, -6, 2179146025856, 1, 2629832328990, -1⟩,
  ⟨3033457749150, -6, 1994161050744, 1, 4535059491685, 1⟩,
  ⟨2186743763110, -6, 5125687237936, 1, 1137170464392, 2⟩,
  ⟨2764777032774, -6, 4822646860252, 0, 1256262854127, 2⟩,
  ⟨2199028768592, -6, 4637633293831, 1, 1255903824622, 2⟩,
  ⟨2046482824760, -6, 1467038733093, 1, 7084896783808, 1⟩,
  ⟨2611209147507, -6, 3044718783485, 0, 7143069561767, 2⟩,
  ⟨2286079656818, -6, 4764220356805, 1, 8031092209206, 1⟩,
  ⟨1855071202587, -6, 3383637774428, 1, 1748016358760, 1⟩,
  ⟨2324669506784, -6, 6189088449251, 1, 1831953657923, 2⟩,
  ⟨1709528015688, -6, 5874966729774, 0, 4933208510675, 1⟩,
  ⟨2168156875828, -6, 4302994009132, 1, 1044738781244, 2⟩,
  ⟨2106675556535, -6, 3800475419891, 1, 7477522907414, 1⟩,
  ⟨1430213830465, -6, 1294660846502, 1, 2942463415728, 1⟩,
  ⟨1388396901944, -6, 4594797202114, 1, 8635942003952, 1⟩,
  ⟨1922258844190, -6, 4943044543591, 0, 1729818233119, 2⟩,
  ⟨1888460058292, -6, 2426943912028, 1, 1561374759853, 3⟩,
  ⟨1789449386107, -6, 1582973303499, 0, 1592596075957, 1⟩,
  ⟨1360803685374, -6, 5197240440504, 1, 1309584267300, 2⟩,
  ⟨1504038014709, -6, 3120360916217, 1, 1649636139783, 2⟩,
  ⟨1382769533389, -6, 6164702888205, 1, 7632943190217, 1⟩,
  ⟨1438059769079, -6, 1437423770979, 1, 2042657109477, 2⟩,
  ⟨1326303260037, -6, 3609688799679, 1, 1213955354133, 2⟩,
  ⟨1159244950540, -6, 5463018167225, 1, 5331357529664, 1⟩,
  ⟨1433118149136, -6, 6028909912097, 1, 7342457794669, 1⟩,
  ⟨1234623148594, -6, 3109645574997, 1, 6279485555400, 1⟩,
  ⟨1233949875344, -6, 3539359332866, 1, 6286666145492, 1⟩,
  ⟨9927196061299, -7, 1259321569772, 1, 7234794171227, 1⟩,
  ⟨1242302191316, -6, 1065949392609, 1, 1511046609763, 2⟩,
  ⟨1098402195201, -6, 2192508743837, 1, 1098880815746, 2⟩,
  ⟨1158191395315, -6, 4054411278650, 1, 5729506548653, 1⟩,
  ⟨9048475596241, -7, 5429764748518, 1, 9623688285163, 1⟩,
  ⟨8889853269023, -7, 5046586206575, 1, 6148010737701, 1⟩,
  ⟨1048694242164, -6, 2628858030806, 1, 6836645152238, 1⟩,
  ⟨1112308378646, -6, 4177292719907, 1, 1572083878776, 2⟩,
  ⟨8631729709901, -7, 1601345232557, 1, 6418140963190, 1⟩,
  ⟨8527816951664, -7, 2463888997513, 1, 1471231707864, 2⟩,
  ⟨7892139456991, -7, 3154022088718, 1, 2118763888447, 1⟩,
  ⟨1051782905236, -6, 4795035816088, 1, 1349867339771, 1⟩,
  ⟨1048219943164, -6, 2952983395230, 1, 5999216516294, 1⟩,
  ⟨7435760775143, -7, 5420547991464, 1, 6040347114260, 1⟩,
  ⟨9869574106949, -7, 3695646753667, 1, 6566935184597, 1⟩,
  ⟨9156886364226, -7, 3922675306609, 1, 5643178611111, 1⟩,
  ⟨7006834356188, -7, 1233968624861, 1, 6525804586632, 1⟩,
  ⟨9806170182601, -7, 1919542280684, 1, 2122839202813, 2⟩,
  ⟨9052289673607, -7, 4615902724369, 1, 4690479774488, 1⟩,
  ⟨7554200867893, -7, 1236863719072, 1, 1253985337760, 2⟩,
  ⟨8215741286498, -7, 3286800101559, 0, 1097355562493, 2⟩,
  ⟨7185178575397, -7, 5880942158367, 1, 6245048154254, 1⟩,
  ⟨7130726476180, -7, 7674871987661, 0, 6321103546637, 1⟩,
  ⟨6650894461162, -7, 6987129150116, 0, 5327476111629, 1⟩,
  ⟨7396888823688, -7, 3576824794443, 1, 5368044267797, 0⟩,
  ⟨7420588884775, -7, 5033615245369, 1, 2354323048545, 2⟩,
  ⟨6141181642908, -7, 9449927045673, 0, 1296430071988, 2⟩,
  ⟨6373557924058, -7, 6206342280341, 1, 9517183207817, 0⟩,
  ⟨6359474329261, -7, 5036079095757, 1, 1990745094947, 1⟩,
  ⟨5740173582646, -7, 6105106371350, 1, 9555997388169, 0⟩,
  ⟨7019864084602, -7, 7237747359018, 0, 5225775174439, 0⟩,
  ⟨6398054487042, -7, 3976367969666, 1, 2407292145756, 2⟩,
  ⟨7797092650498, -7, 4305423910623, 1, 2200391463820, 2⟩,
  ⟨6466760000900, -7, 3500136825200, 1, 5230807360890, 1⟩,
  ⟨7529417043890, -7, 3514779246100, 1, 1842262939178, 2⟩,
  ⟨6924571140892, -7, 2743457928679, 1, 1554202828031, 0⟩,
  ⟨6220798650222, -7, 2242598118209, 1, 1845107853235, 2⟩,
  ⟨5870209391853, -7, 2332832707527, 1, 6398972393349, 0⟩,
  ⟨6263953473888, -7, 2191105358956, 1, 6277552955062, 1⟩,
  ⟨6257781390012, -7, 4457559396698, 1, 6288598745829, 1⟩,
  ⟨5697304945123, -7, 3499234761404, 1, 1551045220144, 1⟩,
  ⟨6335438746791, -7, 6441691079251, 0, 5216580451554, 1⟩,
  ⟨6377258441152, -7, 2252599151092, 1, 5650292065779, 1⟩,
  ⟨6484841818165, -7, 1992812417646, 1, 1030928125552, 0⟩,
  ⟨4735551485250, -7, 3744672082942, 1, 1431416805965, 2⟩,
  ⟨4628595996170, -7, 1334226211745, 1, 5535693017924, 0⟩,
  ⟨6258152336933, -7, 4395836159154, 1, 2608790314060, 2⟩,
  ⟨6196171366594, -7, 2587043007997, 1, 8467247584405, 2⟩,
  ⟨6159556952126, -7, 4782499769128, 1, 2394243902548, 3⟩,
  ⟨4987741172394, -7, 7312257619924, 0, 7771377146812, 2⟩,
  ⟨5459280703142, -7, 3001376372532, 1, 6179983037890, 1⟩,
  ⟨4863461189999, -7, 3767222128541, 1, 9027992316901, 2⟩,
  ⟨5349912093158, -7, 3663594450273, 1, 6386168663001, 1⟩,
  ⟨5673725607806, -7, 4331187919049, 1, 6915859635113, 1⟩,
  ⟨4745485060512, -7, 5816195745518, 1, 6282970628506, 1⟩,
  ⟨4745379005326, -7, 8323672435672, 0, 6283181072386, 1⟩,
  ⟨4049002796321, -7, 3785023976293, 1, 6254626709878, 1⟩,
  ⟨4247084014515, -7, 2378220728783, 1, 7875671926403, 1⟩,
  ⟨4026912363055, -7, 2864103423269, 1, 6311524991013, 1⟩,
  ⟨4062935011774, -7, 2415408595975, 1, 3634620989887, 1⟩,
  ⟨5347771048509, -7, 3343479309801, 1, 2515860172507, 2⟩,
  ⟨4829494136505, -7, 2821742398262, 1, 5760498333002, 1⟩,
  ⟨4342554404599, -7, 5624662458712, 1, 7238675589263, 1⟩,
  ⟨4021599184361, -7, 5557250275009, 0, 1101510648075, 2⟩,
  ⟨4104900474558, -7, 3296691780005, 1, 6709674010002, 1⟩,
  ⟨4376532905131, -7, 3814443999443, 1, 6805653367890, 1⟩,
  ⟨3314590480650, -7, 3560229189250, 1, 1259245002418, 2⟩,
  ⟨3232421839643, -7, 5185389180568, 1, 1066495398892, 1⟩,
  ⟨3541176318876, -7, 3921381909679, 1, 9917696840332, 1⟩,
  ⟨3689831242681, -7, 4190658955386, 1, 1192625446156, 2⟩,
  ⟨3890605376774, -7, 5546023371097, 1, 7478166569050, -1⟩,
  ⟨3038559339780, -7, 6231032794494, 1, 1256621883632, 2⟩,
  ⟨3137083969782, -7, 6207063419190, 1, 4292330755499, 1⟩,
  ⟨4024004081854, -7, 1195257375713, 1, 1334167431096, 2⟩,
  ⟨3300234879283, -7, 1804694240998, 1, 1057540660594, 2⟩,
  ⟨3635399155575, -7, 5597811343500, 1, 6208294184755, 1⟩,
  ⟨3032668691356, -7, 3191059366530, 1, 1805292951336, 2⟩,
  ⟨2809652069058, -7, 4094348032570, 1, 3523159621801, -2⟩,
  ⟨3696955383823, -7, 5219282738794, 1, 5966683958112, 1⟩,
  ⟨3562894142503, -7, 1037247544554, 1, 6357857516136, 1⟩,
  ⟨3510598524148, -7, 1430020816116, 1, 6599467742779, 1⟩,
  ⟨3617736142953, -7, 3002911403677, 1, 6019991944201, 1⟩,
  ⟨2624524910730, -7, 2437046757292, 1, 6702560555334, 1⟩,
  ⟨2535824204490, -7, 1581594689647, 1, 3141537925223, 2⟩,
  ⟨3519787226257, -7, 5379863121521, 1, 2505706758577, 3⟩,
  ⟨2578406709982, -7, 4904222639329, 1, 1673046366289, 2⟩,
  ⟨3423887981473, -7, 3646448997315, 1, 6546159756691, 1⟩,
  ⟨2776083886467, -7, 3307829300144, 1, 1272157198369, 2⟩,
  ⟨3379592818379, -7, 1747541251125, 1, 1494531617769, 2⟩,
  ⟨3050255426284, -7, 1784689432607, -1, 4732030630302, 1⟩,
  ⟨2652378350236, -7, 4420055276260, 1, 5863591145557, 1⟩,
  ⟨2374498173768, -7, 3629773929208, 1, 2388894113936, 1⟩,
  ⟨2716451255140, -7, 3079623706780, 1, 1202934727411, 2⟩,
  ⟨3038583699229, -7, 3312487903507, 0, 1256608456547, 2⟩,
  ⟨2220681228760, -7, 5265520401774, 1, 1336244973887, 2⟩,
  ⟨3044156540912, -7, 4766664081250, 1, 2908881142201, 2⟩,
  ⟨2731859923561, -7, 5069146530691, 1, 1391601904066, 2⟩,
  ⟨2285603018171, -7, 5954935112271, 1, 6076890225335, 1⟩,
  ⟨2025006454555, -7, 4061789589267, 1, 4701116388778, 1⟩,
  ⟨2012597519804, -7, 2485047705241, 1, 6262720680387, 1⟩,
  ⟨2003406962258, -7, 4163779209320, 1, 6303431020504, 1⟩,
  ⟨2207863441371, -7, 6923839133828, 0, 6489261475556, 1⟩,
  ⟨2481374305624, -7, 5944173595676, 1, 1204357418345, 2⟩,
  ⟨2130923288870, -7, 4641013671967, 1, 5746271423666, 1⟩,
  ⟨2446370543391, -7, 6125796518757, 1, 1495633313810, 0⟩,
  ⟨1932492759052, -7, 2234572324504, 0, 1352175143971, 2⟩,
  ⟨2600122568049, -7, 4281012405440, 1, 4590910121555, 1⟩,
  ⟨2431754047488, -7, 1429943874870, 0, 1162474756779, 1⟩,
  ⟨1875902869209, -7, 9781803816948, 0, 6279194432410, 1⟩,
  ⟨1874381139426, -7, 5670368130173, 1, 6286957268481, 1⟩,
  ⟨2156696047173, -7, 2008985006833, 1, 1813929450232, 2⟩,
  ⟨1965076182484, -7, 2566186202453, 0, 4686889479442, 1⟩,
  ⟨2334816372359, -7, 4408121891493, 1, 1002183730415, 2⟩,
  ⟨1869937408802, -7, 5272745038656, 1, 2427287361862, 0⟩,
  ⟨2436236460883, -7, 4407720479029, 1, 9514313292143, 2⟩,
  ⟨1761365216611, -7, 1943892315074, 0, 1351787002167, 2⟩,
  ⟨2156289480503, -7, 1418570924545, 1, 6037244212485, 1⟩,
  ⟨2164748979255, -7, 4724603439430, 1, 2301353951334, 2⟩,
  ⟨2222286670853, -7, 2400266874598, 1, 1266924451345, 2⟩,
  ⟨2070901414929, -7, 5230348028732, 1, 6528907488406, 1⟩,
  ⟨1792745177020, -7, 2099190328945, 1, 6819880277225, 1⟩,
  ⟨1841802068445, -7, 3467527844848, 0, 6514761976723, 2⟩,
  ⟨1578401631718, -7, 7098642356340, 0, 2077542790660, -1⟩,
  ⟨1561690152531, -7, 5943349620372, 1, 6272439236156, 1⟩,
  ⟨1558591045463, -7, 7040653478980, 0, 6293712464735, 1⟩,
  ⟨1737356469576, -7, 4487064760345, 1, 1765478049437, 2⟩,
  ⟨1434755619991, -7, 2993391570995, 1, 1102062672231, 0⟩,
  ⟨1482187806654, -7, 2278049198251, 1, 1052268489556, 1⟩,
  ⟨1424812827089, -7, 1682114725827, 1, 1311972100268, 2⟩,
  ⟨1380282448623, -7, 3262668602579, 1, 1017725758696, 2⟩,
  ⟨1811481244566, -7, 3187771221777, 1, 1887552587463, 2⟩,
  ⟨1504446185696, -7, 5650162308647, 1, 7626583626240, -1⟩,
  ⟨1740776154137, -7, 5487068607507, 1, 1965104848470, 2⟩,
  ⟨1374339536251, -7, 5745688172201, 1, 6016468784579, 1⟩,
  ⟨1761377477704, -7, 5748060203659, 1, 2593412433514, 2⟩,
  ⟨1535138225795, -7, 6226848505790, 1, 9411464614024, 1⟩,
  ⟨1788140543676, -7, 6189318878563, 1, 3301902111895, 2⟩,
  ⟨1375002807996, -7, 5371812884394, 1, 6327837846670, 0⟩,
  ⟨1242115758632, -7, 1471687569712, 1, 3894181736510, 1⟩,
  ⟨1450977333938, -7, 4143836662127, 1, 1277945078067, 2⟩,
  ⟨1297579575023, -7, 9003477661957, 0, 6549682916313, 1⟩,
  ⟨1462667934821, -7, 5760505536428, 1, 1863592847156, 2⟩,
  ⟨1381774374799, -7, 1085471729463, 1, 2379164476796, 1⟩,
  ⟨1682333169307, -7, 5409870870133, 1, 1620077269078, 2⟩,
  ⟨1190812918837, -7, 1397205174601, 1, 1149965630200, 2⟩,
  ⟨1221434762106, -7, 9001804809095, 0, 1257326515556, 2⟩,
  ⟨1549934644860, -7, 4262528275544, 1, 1820933031200, 2⟩,
  ⟨1252138953050, -7, 1411642012027, 1, 6993008899458, 1⟩,
  ⟨1237078905387, -7, 2844472403615, 1, 2435678079171, 2⟩,
  ⟨1446953389615, -7, 5295835522223, 1, 3813291813120, -1⟩,
  ⟨1388446457170, -7, 4969428135497, 1, 2458316379602, 0⟩,
  ⟨1019339179228, -7, 2491369561806, 1, 6112403035119, 1⟩,
  ⟨1258880815343, -7, 4679426248976, 1, 5429879531333, 1⟩,
  ⟨1297768238261, -7, 1074509953328, 1, 1249137003520, 2⟩,
  ⟨9913505718094, -8, 4735097918224, 1, 6247047890016, 1⟩,
  ⟨9830453155969, -8, 4158649187338, 1, 6453748665772, 1⟩,
  ⟨1192615865309, -7, 3438208613699, 1, 6290122169689, 1⟩,
  ⟨9835874798277, -8, 1913300781229, 1, 6319103810876, 1⟩,
  ⟨9639087569277, -8, 9487683644125, 0, 8273820945392, 1⟩,
  ⟨1175716107001, -7, 3228141664287, 1, 6276029531202, 1⟩,
  ⟨1018926508678, -7, 2216607854300, 1, 1254537627298, 2⟩,
  ⟨9500087869225, -8, 2625116459733, 1, 1256517118505, 2⟩,
  ⟨9664192916575, -8, 5860562449214, 1, 6259197520765, 1⟩,
  ⟨9612858712203, -8, 7885682917381, 0, 6306954180126, 1⟩,
  ⟨1117645675413, -7, 3932148831189, 1, 1779695906178, 2⟩,
  ⟨1158864052160, -7, 9995605521691, 0, 1778273215245, 2⟩,
  ⟨9021043467028, -8, 5263769742673, 1, 6172869583223, 1⟩,
  ⟨8836134773563, -8, 1496843220365, 1, 1692165728891, 1⟩,
  ⟨1045872200691, -7, 7009039517214, 0, 2204125344462, 0⟩,
  ⟨1211463487798, -7, 4041544938511, 1, 8257698122054, 2⟩,
  ⟨8541990804094, -8, 1447586692316, 1, 6393282117669, 1⟩,
  ⟨1038720703636, -7, 4594249718112, 0, 1550861511662, 2⟩,
  ⟨1126722351445, -7, 3925550579036, 1, 2061856251104, 0⟩,
  ⟨8697373859631, -8, 4411341856037, 1, 9491756770005, 0⟩,
  ⟨8869380028441, -8, 2402659724813, 1, 3903911373650, 1⟩,
  ⟨9247014693258, -8, 1401579743423, 1, 6267823317922, 1⟩,
  ⟨9205062930950, -8, 5245978000814, 1, 6298328382969, 1⟩,
  ⟨8000745038049, -8, 3590803356945, 1, 2648454860559, 1⟩,
  ⟨9168973650819, -8, 2470150501679, 1, 1498544001348, 3⟩,
  ⟨1075444949238, -7, 1328606161230, 1, 3694923081589, 2⟩,
  ⟨7817298525817, -8, 6162256225998, 1, 4804209201333, 1⟩,
  ⟨9541469226356, -8, 3942568967039, 1, 1256713221673, 2⟩,
  ⟨9821910122027, -8, 2360246287233, 0, 1140367694411, 2⟩,
  ⟨9897822023777, -8, 4619805634280, 1, 2280573557157, 2⟩,
  ⟨7737289283765, -8, 3784727847451, 1, 7834121070590, 1⟩,
  ⟨9260204034710, -8, 2223352487601, 1, 2787043132925, 1⟩,
  ⟨7320252888486, -8, 1288694636874, 1, 6282655592598, 1⟩,
  ⟨7319785780946, -8, 5359869567774, 1, 6283496108294, 1⟩,
  ⟨7147219933778, -8, 5516616675856, 1, 1725663147538, 2⟩,
  ⟨7946502829878, -8, 2630459984567, 1, 1241073141809, 2⟩,
  ⟨9001711808932, -8, 2849815827227, 1, 6281591679874, 1⟩,
  ⟨8994041507257, -8, 3795244450750, 1, 6284560021018, 1⟩,
  ⟨8298582787358, -8, 5236413127363, 0, 1241658836951, 2⟩,
  ⟨8526596520710, -8, 4794605424426, 1, 1098419223922, 2⟩,
  ⟨8209822103197, -8, 1578752370328, 1, 1096996532989, 2⟩,
  ⟨6357049861094, -8, 5708926113761, 1, 1596186371003, 1⟩,
  ⟨7370473179049, -8, 3842402530241, 1, 4061219149443, 1⟩,
  ⟨7232154664726, -8, 3067548981535, 1, 1610006857377, 3⟩,
  ⟨6328765494903, -8, 1313930030069, 1, 1193336791622, 2⟩,
  ⟨8030064908595, -8, 3488500408886, 1, 8460828644453, 0⟩,
  ⟨6275464259232, -8, 1532061626198, 1, 8531963191132, 0⟩,
  ⟨7051897446325, -8, 3285859929993, 1, 5849364236221, 1⟩,
  ⟨6161593705428, -8, 1477341999464, 1, 5573142801433, 1⟩,
  ⟨7754683957278, -8, 1586118663096, 1, 8662240327241, 1⟩,
  ⟨5889928990701, -8, 1304887868803, 1, 1232342296471, 2⟩,
  ⟨5705756047075, -8, 4555333589350, 1, 1258692712880, 2⟩,
  ⟨5964178808332, -8, 3001762842062, 1, 5333900173445, 1⟩,
  ⟨6712446027467, -8, 4886780007595, 1, 1171295538178, 2⟩,
  ⟨5941809275464, -8, 4701509603824, 1, 9779108567966, 1⟩,
  ⟨5466993627395, -8, 4588357817278, 1, 1884211409667, 2⟩,
  ⟨6340512090980, -8, 1164543038893, 1, 5217580628120, 2⟩,
  ⟨6325505710045, -8, 3919171259645, 1, 1041998632314, 2⟩,
  ⟨6164789509685, -8, 2143828253542, 1, 6151533897323, 1⟩,
  ⟨5263330812430, -8, 6066564434241, 1, 1885275071096, 2⟩,
  ⟨5597087780221, -8, 2926316429472, 1, 4337116142245, 0⟩,
  ⟨5396556236817, -8, 3244303591505, 1, 6286362197481, 1⟩,
  ⟨5396615148223, -8, 3404304703662, 1, 6279789503410, 1⟩,
  ⟨7091832443341, -8, 8532377803192, 0, 4907302013889, 1⟩,
  ⟨6572352589782, -8, 4901966774419, 1, 1176433076753, 2⟩,
  ⟨5960236060795, -8, 1874672315797, 1, 1422690933580, -1⟩,
  ⟨5125480043511, -8, 3735726064334, 1, 1245594543367, 2⟩,
  ⟨5928241866410, -8, 4502033899935, 1, 6414617803568, 1⟩,
  ⟨5249600357424, -8, 4372334799878, 1, 1151388321134, 2⟩,
  ⟨6059171276087, -8, 2581617302908, 1, 6062663316000, 1⟩,
  ⟨5295235081662, -8, 2974811513158, 1, 3496032717521, 1⟩,
  ⟨5820561875933, -8, 1796073748244, 0, 2838593341516, 0⟩,
  ⟨4754696606440, -8, 1981998136973, 1, 3104930017775, 1⟩,
  ⟨6385053548955, -8, 2559174171605, 0, 6133512519065, 1⟩,
  ⟨6589828273941, -8, 2750967106776, 1, 4087944051283, 2⟩,
  ⟨5383376567189, -8, 6325947523578, 0, 2248384854122, 2⟩,
  ⟨5928941683538, -8, 1672304519067, 1, 1581959461667, 1⟩,
  ⟨4816060709794, -8, 3512566172575, 1, 9388005868221, 1⟩,
  ⟨6003381586512, -8, 5610932219189, 1, 5326786718777, 1⟩,
  ⟨5504225393105, -8, 4037501131256, 1, 6503488384892, 1⟩,
  ⟨5353772620129, -8, 6122774968240, 1, 1735668374386, 3⟩,
  ⟨5786253768544, -8, 5527984999515, 1, 1350651127443, 0⟩,
  ⟨5065706702002, -8, 9980765573624, 0, 1248988586463, 2⟩,
  ⟨5972838885276, -8, 6044489493203, 1, 2673594526851, 2⟩,
  ⟨5323585877961, -8, 3924265998147, 1, 4171425416666, 1⟩,
  ⟨5210772682858, -8, 6220111376901, 1, 2460261242967, 2⟩,
  ⟨4726549040535, -8, 3716043206862, 1, 7232251527446, 1⟩,
  ⟨6029425105059, -8, 8548704071116, 0, 3227113045244, 3⟩,
  ⟨4481542826513, -8, 1426925072829, 1, 5547199253223, 1⟩,
  ⟨5836024505068, -8, 7135651752625, -1, 7285056171570, 2⟩,
  ⟨4137046613272, -8, 5330767643283, 1, 1087398597200, 2⟩,
  ⟨5171977473924, -8, 4494262335353, 0, 1884570439172, 2⟩,
  ⟨5694429833732, -8, 2952369582215, 1, 9723862754494, 2⟩,
  ⟨4009158925298, -8, 3500003416535, 1, 6244942932314, 1⟩,
  ⟨4784939596873, -8, 6196709413181, 1, 2929661536378, 2⟩,
  ⟨3983725022610, -8, 5103690031897, 1, 4274518229222, 1⟩,
  ⟨3870535232462, -8, 3187569587401, 1, 6321208768577, 1⟩,
  ⟨5140501213951, -8, 1668924357457, 1, 1232032006293, 2⟩,
  ⟨3849034819355, -8, 4445722510309, 1, 1726726808967, 2⟩,
  ⟨4002383075060, -8, 5226224152423, 1, 7018952447668, 1⟩,
  ⟨3890719543549, -8, 4371166550274, 1, 1491901785440, 2⟩,
  ⟨4887084607881, -8, 5973556689693, 1, 1478866649112, 1⟩,
  ⟨3739939287592, -8, 2089084714600, 1, 6922973089781, 1⟩,
  ⟨5031925918209, -8, 4658371936827, 1, 1715706182245, 2⟩,
  ⟨4387748764954, -8, 4825580552819, 1, 2331413144044, 3⟩,
  ⟨4147398098865, -8, 3739003524998, 1, 1376059875786, 2⟩,
  ⟨3719089993586, -8, 1148941386536, 1, 6297302759782, 1⟩,
  ⟨3934238461056, -8, 1559893008343, 1, 7872148766781, 1⟩,
  ⟨3672471375622, -8, 5516145383612, 1, 6268848941110, 1⟩,
  ⟨3768911277583, -8, 6116053700563, 1, 4157198507331, 1⟩,
  ⟨4033388417295, -8, 5076821746017, 1, 1567108171867, 2⟩,
  ⟨3764194617832, -8, 8164676232075, 0, 3185192151914, 1⟩,
  ⟨4840628226284, -8, 1360479453671, 1, 1252801878276, 2⟩,
  ⟨4949443923785, -8, 2725622229926, 1, 1617106187867, 3⟩,
  ⟨4117393089971, -8, 6054459628492, 0, 5642198095270, 1⟩,
  ⟨3925754020428, -8, 8570462135210, 0, 2139354194808, 2⟩,
  ⟨3630551757923, -8, 3552067338279, 1, 6294805223347, 1⟩,
  ⟨3627274802357, -8, 3096565085313, 1, 6271346477544, 1⟩,
  ⟨3806143885093, -8, 6367751709777, 0, 1725304118033, 2⟩,
  ⟨4433254641565, -8, 4848461503937, 1, 7445550607224, 1⟩,
  ⟨3712319846576, -8, 1331950643655, 1, 4194847048887, 0⟩,
  ⟨3849847534783, -8, 4958368297746, 0, 9562891316684, 0⟩,
  ⟨3483955430165, -8, 2237215515707, 1, 1161697602389, 2⟩,
  ⟨3961912730982, -8, 3332402188575, 1, 2277943724828, 2⟩,
  ⟨3419978244481, -8, 5785600576016, 1, 1362553364512, 2⟩,
  ⟨3329417758177, -8, 9812676559709, -1, 1685848245639, 2⟩,
  ⟨4207206893193, -8, 9494780468236, 0, 2986433403208, 2⟩,
  ⟨3268548976410, -8, 1739332095686, 0, 5749861718712, 1⟩,
  ⟨3321880082685, -8, 1423354800666, 1, 6279143387820, 1⟩,
  ⟨4503173010852, -8, 2314972675293, 0, 1385561574497, 1⟩,
  ⟨4316599090954, -8, 1012646782616, 0, 4176041334900, 1⟩,
  ⟨3283493323850, -8, 5233306881265, 1, 6287008313071, 1⟩,
  ⟨3164033542343, -8, 4005597257511, 1, 2099539292909, 2⟩,
  ⟨4159720956725, -8, 5365676242020, 1, 5905702259363, 1⟩,
  ⟨3565176892217, -8, 4284440620612, 1, 3932462625300, -2⟩,
  ⟨3514440950221, -8, 4270562636575, 1, 7335344340001, 1⟩,
  ⟨3540596871909, -8, 5953553201060, 1, 1234573916645, 2⟩,
  ⟨2960769905118, -8, 1115180417718, 1, 2670964694522, 2⟩,
  ⟨2962213739684, -8, 3863811918186, 1, 6408777551755, 0⟩,
  ⟨3883556700251, -8, 1268617928302, 1, 6660449441528, 1⟩,
  ⟨2919225516346, -8, 4908605223265, 1, 1375773836557, 1⟩,
  ⟨3115158863370, -8, 3744519976885, 1, 3802769619140, -1⟩,
  ⟨4099438144212, -8, 4173244670532, 1, 4480965020977, 2⟩,
  ⟨2899531858964, -8, 5910601428850, 1, 2059724391010, 2⟩,
  ⟨3289733429855, -8, 2488050078239, 1, 1081813534213, 2⟩,
  ⟨3933075612875, -8, 1122363652883, 1, 3773735910827, 0⟩,
  ⟨3021403764467, -8, 4951973724904, 1, 2982630633589, 2⟩,
  ⟨2798598949757, -8, 5117057845513, 1, 1937891852345, 2⟩,
  ⟨3397421302707, -8, 6104159180476, 1, 6923953605621, 1⟩,
  ⟨3720398002179, -8, 1184933429829, 1, 3066615496545, 2⟩,
  ⟨3598484186267, -8, 3505282086105, 1, 6147450479709, 1⟩,
  ⟨3694594027310, -8, 2286651088141, 1, 2636725487657, 1⟩,
  ⟨2680444152969, -8, 1871816775482, 0, 6816289982179, 1⟩,
  ⟨3497574865641, -8, 3143251755431, 1, 6418701221183, 1⟩,
  ⟨3130274129494, -8, 2462167316018, 1, 1235996607578, 2⟩,
  ⟨3241119069551, -8, 4256374004686, 1, 1652265972112, 2⟩,
  ⟨2601960842061, -8, 4970362941425, 1, 1045450126711, 2⟩,
  ⟨2690601527504, -8, 2372657824898, 1, 3163918923335, 0⟩,
  ⟨2908688152664, -8, 4232652627721, 1, 2828699048865, 2⟩,
  ⟨3120456131875, -8, 3925747001137, 0, 2195415756911, 2⟩,
  ⟨3148855423384, -8, 3093478330445, 1, 1172006883645, 2⟩,
  ⟨3051044261017, -8, 5560948248212, 1, 6055599646783, 1⟩,
  ⟨2826006876660, -8, 5072790310072, 1, 5120601093667, 1⟩,
  ⟨3100034191711, -8, 4998530231096, 1, 1799603123222, 2⟩,
  ⟨2398771640101, -8, 2561739802176, 1, 6255674361143, 1⟩,
  ⟨2384002842728, -8, 4087420284111, 1, 6310477339748, 1⟩,
  ⟨2842146517568, -8, 2515048217955, 1, 5469525544182, 1⟩,
  ⟨2847674371340, -8, 5235326497443, 1, 1034429499989, 2⟩,
  ⟨2903722140764, -8, 1088200795797, 1, 6510552054109, 1⟩,
  ⟨3187610710605, -8, 4710624424816, 1, 1693792562116, 3⟩,
  ⟨3048869992813, -8, 2857975896445, 0, 8390110365991, 1⟩,
  ⟨2860216950984, -8, 2241619020815, 1, 2243449970715, 0⟩,
  ⟨2701117683113, -8, 6651573305272, -1, 6129297044991, 1⟩,
  ⟨2509891590152, -8, 1285135324585, 1, 1044027435778, 2⟩,
  ⟨2623200252223, -8, 2981229834530, 0, 6436854655901, 1⟩,
  ⟨2622541669202, -8, 6122470726189, 1, 9380959548977, 1⟩,
  ⟨2818435667099, -8, 4251087148947, 1, 5934151399930, 1⟩,
  ⟨2365196797465, -8, 3465070460790, 1, 2470570524223, 2⟩,
  ⟨2358704646143, -8, 5791603815350, 1, 8671969964381, 1⟩,
  ⟨2388299481390, -8, 4142483772941, 1, 7096626156709, 1⟩,
  ⟨1996041217224, -8, 2101901889496, 1, 1727188400790, 2⟩,
  ⟨2687593060336, -8, 1526689456959, 1, 7075506709219, 2⟩,
  ⟨2618913670810, -8, 2397684236095, 1, 6632000300961, 1⟩,
  ⟨2571523050364, -8, 5751929456787, 0, 6206810014183, 1⟩,
  ⟨2582135006946, -8, 5595464352926, 1, 4873985990671, 2⟩,
  ⟨2372530190361, -8, 5092689490655, 1, 1590676413561, 2⟩,
  ⟨2357178484712, -8, 4444363527851, 1, 3097883698531, 1⟩,
  ⟨2451590394723, -8, 3108251687661, 1, 6612329252343, 0⟩,
  ⟨2370045949608, -8, 2608133861079, 1, 3459636466239, 2⟩,
  ⟨2268997267358, -8, 3639717753384, 1, 2844914056730, -1⟩,
  ⟨1731432137906, -8, 1741898445707, 0, 2019909489111, 2⟩,
  ⟨1629869741622, -8, 3902225646724, 1, 3035599730800, 2⟩,
  ⟨2206215801974, -8, 4971131250731, 1, 6281667977667, 1⟩,
  ⟨2205469554680, -8, 1677462357110, 1, 6284483723224, 1⟩,
  ⟨2148792362509, -8, 4236259604006, 1, 1980482729015, 2⟩,
  ⟨1873733657847, -8, 5926814998687, 1, 2876692439167, 2⟩,
  ⟨2026573758959, -8, 4349643351962, 1, 2449240616245, 2⟩,
  ⟨1807770325110, -8, 5700940482701, 1, 2045286941806, 2⟩,
  ⟨1881174408581, -8, 6601286363430, 0, 2358125818164, 2⟩,
  ⟨1368023671690, -8, 2211098592752, 1, 2473415438279, 2⟩,
  ⟨1720017916280, -8, 4942488551129, 1, 1679593901136, 3⟩,
  ⟨1702427665131, -8, 1452233856386, 1, 3338575901272, 3⟩,
  ⟨1414032510054, -8, 5525357721439, 1, 1624205518357, 3⟩,
  ⟨1652626045364, -8, 4108794283624, 1, 8956999012000, 2⟩,
  ⟨1642957769686, -8, 7344335209984, 0, 5267006960365, 2⟩,
  ⟨1614952403624, -8, 3541213951363, 1, 3332657872986, 2⟩,
  ⟨1535988291188, -8, 4031094072151, 1, 3852657435933, 2⟩,
  ⟨1593193738177, -8, 4185136203609, 1, 2282781046519, 3⟩,
  ⟨1074569126382, -8, 1720485636868, 1, 8397383534231, 2⟩,
  ⟨1074408214509, -8, 2758613420318, 1, 8401985929482, 2⟩,
  ⟨9700199670465, -9, 4216686842097, 1, 7826370942180, 2⟩,
  ⟨1258433517061, -8, 2575068876639, 0, 3115650189215, 3⟩,
  ⟨1240303229539, -8, 4800844956756, 0, 1784300471910, 3⟩,
  ⟨9018345948127, -9, 3896756361552, 0, 5886454391678, 2⟩,
  ⟨1135301432805, -8, 3700805023550, 0, 7842370451713, 2⟩,
  ⟨9215887951370, -9, 4364579276638, 1, 1014262087719, 3⟩,
  ⟨1055401054147, -8, 2156564222111, 1, 5660027930059, 2⟩,
  ⟨1008725979831, -8, 5454015785234, 1, 4245678405627, 2⟩,
  ⟨7217398104321, -9, 1597772562175, 1, 2457074661053, 3⟩,
  ⟨6912033134447, -9, 5824090621461, 1, 1679936946371, 3⟩,
  ⟨6833881523549, -9, 3578778482835, 1, 6053048899753, 2⟩,
  ⟨4887304205142, -9, 3724362812423, 1, 9656299901946, 2⟩,
  ⟨5173709754788, -9, 5422427507933, 1, 2442876000072, 3⟩,
  ⟨4671353097145, -9, 2396106924439, 1, 1435713242844, 3⟩,
  ⟨5652608439480, -9, 2804028838685, 1, 8365903305582, 2⟩,
  ⟨5604061331253, -9, 1638816006247, 1, 8433466158131, 2⟩,
  ⟨4712723365400, -9, 8979003224474, 0, 3164282286739, 3⟩,
  ⟨4909967465112, -9, 3210426725516, 1, 4059982187939, 3⟩,
  ⟨4771358267658, -9, 5308027211629, 1, 1805255418145, 3⟩,
  ⟨3943451445989, -9, 2195145341074, 1, 2568537517081, 3⟩,
  ⟨3952109120244, -9, 5081189491586, 1, 2449975330562, 3⟩,
  ⟨3788134594789, -9, 4345171264441, 1, 1568131045107, 3⟩,
  ⟨3738330190479, -9, 2613062847997, 1, 3948519331910, 3⟩,
  ⟨3099866678136, -9, 2846760817689, 1, 1547176098872, 3⟩,
  ⟨2002962716768, -9, 4921360989412, 1, 2268582385539, 3⟩,
  ⟨2198291338754, -9, 1130360117454, 0, 1658638954901, 3⟩,
  ⟨1491958330784, -9, 4228195232278, 1, 2219950288015, 3⟩,
  ⟨1475384076173, -9, 3005721811604, 0, 3052819430710, 3⟩,
  ⟨1661626624624, -9, 7830125621203, 0, 2526661704812, 3⟩,
  ⟨9015823460025, -10, 3807792942715, 1, 4171445043968, 3⟩]

/-- src/epv.cc:631-1131 `E0[1]` -/
def e0y : List Term := [
  ⟨9998921098898, 0, 1826583913846, 0, 6283075850446, 1⟩,
  ⟨-2442700893735, -1, 0, 0, 0, 0⟩,
  ⟨8352929742915, -2, 1395277998680, 0, 1256615170089, 2⟩,
  ⟨1046697300177, -3, 9641423109763, -1, 1884922755134, 2⟩,
  ⟨3110841876663, -4, 5381140401712, 1, 8399684731857, 2⟩,
  ⟨2570269094593, -4, 5301016407128, 1, 5296909721118, 0⟩,
  ⟨2147389623610, -4, 2662510869850, 1, 1577343543434, 1⟩,
  ⟨1680344384050, -4, 5207904119704, 1, 6279552690824, 1⟩,
  ⟨1679117312193, -4, 4582187486968, 1, 6286599010068, 1⟩,
  ⟨1440512068440, -4, 1900688517726, 1, 2352866153506, 1⟩,
  ⟨1135139664999, -4, 5273108538556, 1, 5223693906222, 1⟩,
  ⟨9345482571018, -5, 4503047687738, 1, 1203646072878, 2⟩,
  ⟨9007418719568, -5, 1605621059637, 1, 1021328554739, 2⟩,
  ⟨5671536712314, -5, 5812849070861, 0, 1059381944224, 1⟩,
  ⟨7451401861666, -5, 2807346794836, 1, 3981490189893, 0⟩,
  ⟨6393470057114, -5, 6029224133855, 1, 5753384878334, 1⟩,
  ⟨6814275881697, -5, 6472990145974, 0, 4705732307012, 1⟩,
  ⟨6113705628887, -5, 3813843419700, 1, 6812766822558, 1⟩,
  ⟨4503851367273, -5, 4527804370996, 1, 5884926831456, 1⟩,
  ⟨4522249141926, -5, 5991783029224, 1, 6256777527156, 1⟩,
  ⟨4501794307018, -5, 3798703844397, 1, 6309374173736, 1⟩,
  ⟨5514927480180, -5, 3961257833388, 1, 5507553240374, 1⟩,
  ⟨4062862799995, -5, 5256247296369, 1, 6681224869435, 1⟩,
  ⟨5414900429712, -5, 5499032014097, 1, 7755226100720, 0⟩,
  ⟨5463153987424, -5, 6173092454097, 1, 1414349524433, 2⟩,
  ⟨5071611859329, -5, 2870244247651, 1, 7860419393880, 1⟩,
  ⟨2195112094455, -5, 2952338617201, 1, 1150676975667, 2⟩,
  ⟨2279139233919, -5, 5951775132933, 1, 7058598460518, 1⟩,
  ⟨2278386100876, -5, 4845456398785, 1, 4694002934110, 1⟩,
  ⟨2559088003308, -5, 6945321117311, 0, 1216800268190, 2⟩,
  ⟨2561079286856, -5, 6167224608301, 1, 7099330490126, 0⟩,
  ⟨1792755796387, -5, 1400122509632, 1, 7962980379786, 0⟩,
  ⟨1818715656502, -5, 4703347611830, 1, 6283142985870, 1⟩,
  ⟨1818744924791, -5, 5086748900237, 1, 6283008715021, 1⟩,
  ⟨1554518791390, -5, 5331008042713, -1, 2513230340178, 2⟩,
  ⟨2063265737239, -5, 4283680484178, 1, 1179062909082, 2⟩,
  ⟨1497613520041, -5, 6074207826073, 1, 5486777812467, 1⟩,
  ⟨2000617940427, -5, 2501426281450, 1, 1778984560711, 2⟩,
  ⟨1289731195580, -5, 3646340599536, 1, 7079373888424, 1⟩,
  ⟨1282657998934, -5, 3232864804902, 1, 3738761453707, 1⟩,
  ⟨1528915968658, -5, 5581433416669, 1, 2132990797783, 0⟩,
  ⟨1187304098432, -5, 5453576453694, 1, 9437762937313, 1⟩,
  ⟨7842782928118, -6, 2823953922273, 0, 8827390247185, 1⟩,
  ⟨7352892280868, -6, 1124369580175, 1, 1589072916335, 1⟩,
  ⟨6570189360797, -6, 2089154042840, 1, 1176985366291, 2⟩,
  ⟨6324967590410, -6, 6704855581230, 0, 6262300422539, 1⟩,
  ⟨6298289872283, -6, 2836414855840, 1, 6303851278352, 1⟩,
  ⟨6476686465855, -6, 4852433866467, 0, 7113454667900, -2⟩,
  ⟨8587034651234, -6, 1453511005668, 1, 1672837615881, 3⟩,
  ⟨8068948788113, -6, 9224087798609, 0, 6069776770667, 1⟩,
  ⟨8353786011661, -6, 4631707184895, 1, 3340612434717, 1⟩,
  ⟨6009324532132, -6, 1829498827726, 1, 4136910472696, 1⟩,
  ⟨7558158559566, -6, 2588596800317, 1, 6496374930224, 1⟩,
  ⟨5809279504503, -6, 5516818853476, 0, 1097707878456, 2⟩,
  ⟨5374131950254, -6, 6275674734960, 1, 1194447056968, 1⟩,
  ⟨5711160507326, -6, 1091905956872, 1, 6282095334605, 1⟩,
  ⟨5710183170746, -6, 2415001635090, 1, 6284056366286, 1⟩,
  ⟨5144373590610, -6, 6020336443438, 1, 6290189305114, 1⟩,
  ⟨5103108927267, -6, 3775634564605, 1, 6275962395778, 1⟩,
  ⟨4960654697891, -6, 1073450946756, 1, 6127655567643, 1⟩,
  ⟨4786385689280, -6, 2431178012310, 1, 6438496133249, 1⟩,
  ⟨6109911263665, -6, 5343356157914, 1, 3154687086868, 1⟩,
  ⟨4839898944024, -6, 5830833594047, -1, 8018209333619, 0⟩,
  ⟨4734822623919, -6, 4536080134821, 1, 3128388763578, 1⟩,
  ⟨4834741473290, -6, 2585090489754, 0, 7084896783808, 1⟩,
  ⟨5134858581156, -6, 4213317172603, 1, 1235285262111, 2⟩,
  ⟨5064004264978, -6, 4814418806478, 0, 1185621865188, 2⟩,
  ⟨3753476772761, -6, 1599953399788, 1, 8429241228195, 1⟩,
  ⟨4935264014283, -6, 2157417556873, 1, 2544314396739, 1⟩,
  ⟨3950929600897, -6, 3359394184254, 1, 5481254917084, 1⟩,
  ⟨4895849789777, -6, 5165704376558, 1, 9225539266174, 1⟩,
  ⟨4215241688886, -6, 2065368800993, 1, 1726015463500, 2⟩,
  ⟨3796773731132, -6, 1468606346612, 1, 4265981595566, 0⟩,
  ⟨3114178142515, -6, 3615638079474, 1, 2146165377750, 1⟩,
  ⟨3260664220838, -6, 4417134922435, 1, 4164311961999, 1⟩,
  ⟨3976996123008, -6, 4700866883004, 1, 5856477690889, 1⟩,
  ⟨2801459672924, -6, 4538902060922, 1, 1256967486051, 2⟩,
  ⟨3638931868861, -6, 1334197991475, 1, 1807370494127, 2⟩,
  ⟨2487013269476, -6, 3749275558275, 1, 2629832328990, -1⟩,
  ⟨3034165481994, -6, 4236622030873, 0, 4535059491685, 1⟩,
  ⟨2676278825586, -6, 5970848007811, 1, 3930209696940, 1⟩,
  ⟨2764903818918, -6, 5194636754501, 1, 1256262854127, 2⟩,
  ⟨2485149930507, -6, 1002434207846, 1, 5088628793478, 1⟩,
  ⟨2199305540941, -6, 3066773098403, 1, 1255903824622, 2⟩,
  ⟨2571106500435, -6, 7588312459063, 0, 1336797263425, 2⟩,
  ⟨2049751817158, -6, 3444977434856, 1, 1137170464392, 2⟩,
  ⟨2599707296297, -6, 1873128542205, 1, 7143069561767, 2⟩,
  ⟨1785018072217, -6, 5015891306615, 1, 1748016358760, 1⟩,
  ⟨2324833891115, -6, 4618271239730, 1, 1831953657923, 2⟩,
  ⟨1709711119545, -6, 5300003455669, 1, 4933208510675, 1⟩,
  ⟨2107159351716, -6, 2229819815115, 1, 7477522907414, 1⟩,
  ⟨1750333080295, -6, 6161485880008, 1, 1044738781244, 2⟩,
  ⟨2000598210339, -6, 2967357299999, 1, 8031092209206, 1⟩,
  ⟨1380920248681, -6, 3027007923917, 1, 8635942003952, 1⟩,
  ⟨1412460470299, -6, 6037597163798, 1, 2942463415728, 1⟩,
  ⟨1888459803001, -6, 8561476243374, 0, 1561374759853, 3⟩,
  ⟨1788370542585, -6, 4869736290209, 1, 1592596075957, 1⟩,
  ⟨1360893296167, -6, 3626411886436, 1, 1309584267300, 2⟩,
  ⟨1506846530160, -6, 1550975377427, 1, 1649636139783, 2⟩,
  ⟨1800913376176, -6, 2075826033190, 1, 1729818233119, 2⟩,
  ⟨1436261390649, -6, 6148876420255, 1, 2042657109477, 2⟩,
  ⟨1220227114151, -6, 4382583879906, 1, 7632943190217, 1⟩,
  ⟨1337883603592, -6, 2036644327361, 1, 1213955354133, 2⟩,
  ⟨1159326650738, -6, 3892276994687, 1, 5331357529664, 1⟩,
  ⟨1352853128569, -6, 1447950649744, 1, 1673046366289, 2⟩,
  ⟨1433408296083, -6, 4457854692961, 1, 7342457794669, 1⟩,
  ⟨1234701666518, -6, 1538818147151, 1, 6279485555400, 1⟩,
  ⟨1234027192007, -6, 1968523220760, 1, 6286666145492, 1⟩,
  ⟨1244024091797, -6, 5779803499985, 1, 1511046609763, 2⟩,
  ⟨1097934945516, -6, 6210975221388, 0, 1098880815746, 2⟩,
  ⟨1254611329856, -6, 2591963807998, 1, 1572083878776, 2⟩,
  ⟨1158247286784, -6, 2483612812670, 1, 5729506548653, 1⟩,
  ⟨9039078252960, -7, 3857554579796, 1, 9623688285163, 1⟩,
  ⟨9108024978836, -7, 5826368512984, 1, 7234794171227, 1⟩,
  ⟨8887068108436, -7, 3475694573987, 1, 6148010737701, 1⟩,
  ⟨8632374035438, -7, 3059070488983, -1, 6418140963190, 1⟩,
  ⟨7893186992967, -7, 1583194837728, 1, 2118763888447, 1⟩,
  ⟨8297650201172, -7, 8519770534637, 0, 1471231707864, 2⟩,
  ⟨1019759578988, -6, 1319598738732, 0, 1349867339771, 1⟩,
  ⟨1010037696236, -6, 9937860115618, 0, 6836645152238, 1⟩,
  ⟨1047727548266, -6, 1382138405399, 1, 5999216516294, 1⟩,
  ⟨7351993881086, -7, 3833397851735, 1, 6040347114260, 1⟩,
  ⟨9868771092341, -7, 2124913814390, 1, 6566935184597, 1⟩,
  ⟨7007321959390, -7, 5946305343763, 1, 6525804586632, 1⟩,
  ⟨6861411679709, -7, 4574654977089, 1, 7238675589263, 1⟩,
  ⟨7554519809614, -7, 5949232686844, 1, 1253985337760, 2⟩,
  ⟨9541880448335, -7, 3495242990564, 1, 2122839202813, 2⟩,
  ⟨7185606722155, -7, 4310113471661, 1, 6245048154254, 1⟩,
  ⟨7131360871710, -7, 5480309323650, 1, 6321103546637, 1⟩,
  ⟨6651142021039, -7, 5411097713654, 1, 5327476111629, 1⟩,
  ⟨8538618213667, -7, 1827849973951, 1, 1101510648075, 2⟩,
  ⟨8634954288044, -7, 5443584943349, 1, 5643178611111, 1⟩,
  ⟨7449415051484, -7, 2011535459060, 1, 5368044267797, 0⟩,
  ⟨7421047599169, -7, 3464562529249, 1, 2354323048545, 2⟩,
  ⟨6140694354424, -7, 5657556228815, 1, 1296430071988, 2⟩,
  ⟨6353525143033, -7, 3463816593821, 1, 1990745094947, 1⟩,
  ⟨6221964013447, -7, 1532259498697, 1, 9517183207817, 0⟩,
  ⟨5852480257244, -7, 1375396598875, 1, 9555997388169, 0⟩,
  ⟨6398637498911, -7, 2405645801972, 1, 2407292145756, 2⟩,
  ⟨7039744069878, -7, 5397541799027, 1, 5225775174439, 0⟩,
  ⟨6977997694382, -7, 4762347105419, 1, 1097355562493, 2⟩,
  ⟨7460629558396, -7, 2711944692164, 1, 2200391463820, 2⟩,
  ⟨5376577536101, -7, 2352980430239, 1, 1431416805965, 2⟩,
  ⟨7530607893556, -7, 1943940180699, 1, 1842262939178, 2⟩,
  ⟨6822928971605, -7, 4337651846959, 1, 1554202828031, 0⟩,
  ⟨6220772380094, -7, 6716871369278, 0, 1845107853235, 2⟩,
  ⟨6586950799043, -7, 2229714460505, 1, 5216580451554, 1⟩,
  ⟨5873800565771, -7, 7627013920580, 0, 6398972393349, 0⟩,
  ⟨6264346929745, -7, 6202785478961, 0, 6277552955062, 1⟩,
  ⟨6257929115669, -7, 2886775596668, 1, 6288598745829, 1⟩,
  ⟨5343536033409, -7, 1977241012051, 1, 4690479774488, 1⟩,
  ⟨5587849781714, -7, 1922923484825, 1, 1551045220144, 1⟩,
  ⟨6905100845603, -7, 3570757164631, 1, 1030928125552, 0⟩,
  ⟨6178957066649, -7, 5197558947765, 1, 5230807360890, 1⟩,
  ⟨6187270224331, -7, 8193497368922, 0, 5650292065779, 1⟩,
  ⟨5385664291426, -7, 5406336665586, 1, 7771377146812, 2⟩,
  ⟨6329363917926, -7, 2837760654536, 1, 2608790314060, 2⟩,
  ⟨4546018761604, -7, 2933580297050, 1, 5535693017924, 0⟩,
  ⟨6196091049375, -7, 4157871494377, 1, 8467247584405, 2⟩,
  ⟨6159555108218, -7, 3211703561703, 1, 2394243902548, 3⟩,
  ⟨4995340539317, -7, 1459098102922, 1, 4732030630302, 1⟩,
  ⟨5457031243572, -7, 1430457676136, 1, 6179983037890, 1⟩,
  ⟨4863461418397, -7, 2196425916730, 1, 9027992316901, 2⟩,
  ⟨5342947626870, -7, 2086612890268, 1, 6386168663001, 1⟩,
  ⟨5674296648439, -7, 2760204966535, 1, 6915859635113, 1⟩,
  ⟨4745783120161, -7, 4245368971862, 1, 6282970628506, 1⟩,
  ⟨4745676961198, -7, 5544725787016, 1, 6283181072386, 1⟩,
  ⟨4049796869973, -7, 2213984363586, 1, 6254626709878, 1⟩,
  ⟨4248333596940, -7, 8075781952896, 0, 7875671926403, 1⟩,
  ⟨4027178070205, -7, 1293268540378, 1, 6311524991013, 1⟩,
  ⟨4066543943476, -7, 3986141175804, 1, 3634620989887, 1⟩,
  ⟨4858863787880, -7, 1276112738231, 1, 5760498333002, 1⟩,
  ⟨5277398263530, -7, 4916111741527, 1, 2515860172507, 2⟩,
  ⟨4105635656559, -7, 1725805864426, 1, 6709674010002, 1⟩,
  ⟨4376781925772, -7, 2243642442106, 1, 6805653367890, 1⟩,
  ⟨3235827894693, -7, 3614135118271, 1, 1066495398892, 1⟩,
  ⟨3073244740308, -7, 2460873393460, 1, 5863591145557, 1⟩,
  ⟨3088609271373, -7, 5678431771790, 1, 9917696840332, 1⟩,
  ⟨3393022279836, -7, 3814017477291, 1, 1391601904066, 2⟩,
  ⟨3038686508802, -7, 4660216229171, 1, 1256621883632, 2⟩,
  ⟨4019677752497, -7, 5906906243735, 1, 1334167431096, 2⟩,
  ⟨3288834998232, -7, 9536146445882, 0, 1620077269078, 2⟩,
  ⟨3889973794631, -7, 3942205097644, 1, 7478166569050, -1⟩,
  ⟨3050438987141, -7, 1624810271286, 1, 1805292951336, 2⟩,
  ⟨3601142564638, -7, 4030467142575, 1, 6208294184755, 1⟩,
  ⟨3689015557141, -7, 3648878818694, 1, 5966683958112, 1⟩,
  ⟨3563471893565, -7, 5749584017096, 1, 6357857516136, 1⟩,
  ⟨2776183170667, -7, 2630124187070, 1, 3523159621801, -2⟩,
  ⟨2922350530341, -7, 1790346403629, 1, 1272157198369, 2⟩,
  ⟨3511076917302, -7, 6142198301611, 1, 6599467742779, 1⟩,
  ⟨3619351007632, -7, 1432421386492, 1, 6019991944201, 1⟩,
  ⟨2561254711098, -7, 2302822475792, 1, 1259245002418, 2⟩,
  ⟨2626903942920, -7, 8660470994571, 0, 6702560555334, 1⟩,
  ⟨2550187397083, -7, 6069721995383, 1, 1057540660594, 2⟩,
  ⟨2535873526138, -7, 1079020331795, -1, 3141537925223, 2⟩,
  ⟨3519786153847, -7, 3809066902283, 1, 2505706758577, 3⟩,
  ⟨3424651492873, -7, 2075435114417, 1, 6546159756691, 1⟩,
  ⟨2372676630861, -7, 2057803120154, 1, 2388894113936, 1⟩,
  ⟨2710980779541, -7, 1510068488010, 1, 1202934727411, 2⟩,
  ⟨3038710889704, -7, 5043617528901, 1, 1256608456547, 2⟩,
  ⟨2220364130585, -7, 3694793218205, 1, 1336244973887, 2⟩,
  ⟨3025880825460, -7, 5450618999049, -1, 2908881142201, 2⟩,
  ⟨2784493486864, -7, 3381164084502, 1, 1494531617769, 2⟩,
  ⟨2294414142438, -7, 4382309025210, 1, 6076890225335, 1⟩,
  ⟨2012723294724, -7, 9142212256518, 0, 6262720680387, 1⟩,
  ⟨2036357831958, -7, 5676172293154, 1, 4701116388778, 1⟩,
  ⟨2003474823288, -7, 2592767977625, 1, 6303431020504, 1⟩,
  ⟨2207144900109, -7, 5404976271180, 1, 6489261475556, 1⟩,
  ⟨2481664905135, -7, 4373284587027, 1, 1204357418345, 2⟩,
  ⟨2674949182295, -7, 5859182188482, 1, 4590910121555, 1⟩,
  ⟨2450554720322, -7, 4555381557451, 1, 1495633313810, 0⟩,
  ⟨2601975986457, -7, 3933165584959, 1, 1965104848470, 2⟩,
  ⟨2199860022848, -7, 5227977189087, 1, 1351787002167, 2⟩,
  ⟨2448121172316, -7, 4858060353949, 1, 1162474756779, 1⟩,
  ⟨1876014864049, -7, 5690546553605, 1, 6279194432410, 1⟩,
  ⟨1874513219396, -7, 4099539297446, 1, 6286957268481, 1⟩,
  ⟨2156380842559, -7, 4382594769913, 0, 1813929450232, 2⟩,
  ⟨1981691240061, -7, 1829784152444, 1, 4686889479442, 1⟩,
  ⟨2329992648539, -7, 2836254278973, 1, 1002183730415, 2⟩,
  ⟨1765184135302, -7, 2803494925833, 1, 4292330755499, 1⟩,
  ⟨2436368366085, -7, 2836897959677, 1, 9514313292143, 2⟩,
  ⟨2164089203889, -7, 6127522446024, 1, 6037244212485, 1⟩,
  ⟨1847755034221, -7, 3683163635008, 1, 2427287361862, 0⟩,
  ⟨1674798769966, -7, 3316993867246, 0, 1311972100268, 2⟩,
  ⟨2222542124356, -7, 8294097805480, 0, 1266924451345, 2⟩,
  ⟨2071074505925, -7, 3659492220261, 1, 6528907488406, 1⟩,
  ⟨1608224471835, -7, 4774492067182, 1, 1352175143971, 2⟩,
  ⟨1857583439071, -7, 2873120597682, 1, 8662240327241, 1⟩,
  ⟨1793018836159, -7, 5282441177929, 0, 6819880277225, 1⟩,
  ⟨1575391221692, -7, 1320789654258, 1, 1102062672231, 0⟩,
  ⟨1840132009557, -7, 1917110916256, 1, 6514761976723, 2⟩,
  ⟨1760917288281, -7, 2972635937132, 1, 5746271423666, 1⟩,
  ⟨1561779518516, -7, 4372569261981, 1, 6272439236156, 1⟩,
  ⟨1558687885205, -7, 5416424926425, 1, 6293712464735, 1⟩,
  ⟨1951359382579, -7, 3094448898752, 1, 2301353951334, 2⟩,
  ⟨1569144275614, -7, 2802103689808, 1, 1765478049437, 2⟩,
  ⟨1479130389462, -7, 2136435020467, 1, 2077542790660, -1⟩,
  ⟨1467828510764, -7, 7072627435674, 0, 1052268489556, 1⟩,
  ⟨1627627337440, -7, 3947607143237, 1, 6327837846670, 0⟩,
  ⟨1503498479758, -7, 4079248909190, 1, 7626583626240, -1⟩,
  ⟨1297967708237, -7, 6269637122840, 1, 1149965630200, 2⟩,
  ⟨1374416896634, -7, 4175657970702, 1, 6016468784579, 1⟩,
  ⟨1783812325219, -7, 1476540547560, 1, 3301902111895, 2⟩,
  ⟨1525884228756, -7, 4653477715241, 1, 9411464614024, 1⟩,
  ⟨1451067396763, -7, 2573001128225, 1, 1277945078067, 2⟩,
  ⟨1297713111950, -7, 5612799618771, 1, 6549682916313, 1⟩,
  ⟨1462784012820, -7, 4189661623870, 1, 1863592847156, 2⟩,
  ⟨1384185980007, -7, 2656915472196, 1, 2379164476796, 1⟩,
  ⟨1221497599801, -7, 5612515760138, 1, 1257326515556, 2⟩,
  ⟨1560574525896, -7, 4783414317919, 1, 1887552587463, 2⟩,
  ⟨1544598372036, -7, 2694431138063, 1, 1820933031200, 2⟩,
  ⟨1531678928696, -7, 4105103489666, 1, 2593412433514, 2⟩,
  ⟨1349321503795, -7, 3082437194015, 0, 5120601093667, 1⟩,
  ⟨1252030290917, -7, 6124072334087, 1, 6993008899458, 1⟩,
  ⟨1459243816687, -7, 3733103981697, 1, 3813291813120, -1⟩,
  ⟨1226103625262, -7, 1267127706817, 1, 2435678079171, 2⟩,
  ⟨1019449641504, -7, 4367790112269, 1, 1725663147538, 2⟩,
  ⟨1380789433607, -7, 3387201768700, 1, 2458316379602, 0⟩,
  ⟨1019453421658, -7, 9204143073737, 0, 6112403035119, 1⟩,
  ⟨1297929434405, -7, 5786874896426, 1, 1249137003520, 2⟩,
  ⟨9912677786097, -8, 3164232870746, 1, 6247047890016, 1⟩,
  ⟨9829386098599, -8, 2586762413351, 1, 6453748665772, 1⟩,
  ⟨1226807746104, -7, 6239068436607, 1, 5429879531333, 1⟩,
  ⟨1192691755997, -7, 1867380051424, 1, 6290122169689, 1⟩,
  ⟨9836499227081, -8, 3424716293727, 0, 6319103810876, 1⟩,
  ⟨9642862564285, -8, 5661372990657, 1, 8273820945392, 1⟩,
  ⟨1165184404862, -7, 5768367239093, 1, 1778273215245, 2⟩,
  ⟨1175794418818, -7, 1657351222943, 1, 6276029531202, 1⟩,
  ⟨1018948635601, -7, 6458292350865, 0, 1254537627298, 2⟩,
  ⟨9500383606676, -8, 1054306140741, 1, 1256517118505, 2⟩,
  ⟨1227512202906, -7, 2505278379114, 1, 2248384854122, 2⟩,
  ⟨9664792009993, -8, 4289737277000, 1, 6259197520765, 1⟩,
  ⟨9613285666331, -8, 5500597673141, 1, 6306954180126, 1⟩,
  ⟨1117906736211, -7, 2361405953468, 1, 1779695906178, 2⟩,
  ⟨9611378640782, -8, 2851310576269, 1, 2061856251104, 0⟩,
  ⟨8845354852370, -8, 6208777705343, 1, 1692165728891, 1⟩,
  ⟨1054046966600, -7, 5413091423934, 1, 2204125344462, 0⟩,
  ⟨1215539124483, -7, 5613969479755, 1, 8257698122054, 2⟩,
  ⟨9932460955209, -8, 1106124877015, 1, 1017725758696, 2⟩,
  ⟨8785804715043, -8, 2869224476477, 1, 9491756770005, 0⟩,
  ⟨8538084097562, -8, 6159640899344, 1, 6393282117669, 1⟩,
  ⟨8648994369529, -8, 1374901198784, 1, 4804209201333, 1⟩,
  ⟨1039063219067, -7, 5171080641327, 1, 1550861511662, 2⟩,
  ⟨8867983926439, -8, 8317320304902, 0, 3903911373650, 1⟩,
  ⟨8327495955244, -8, 3605591969180, 1, 6172869583223, 1⟩,
  ⟨9243088356133, -8, 6114299196843, 1, 6267823317922, 1⟩,
  ⟨9205657357835, -8, 3675153683737, 1, 6298328382969, 1⟩,
  ⟨1033269714606, -7, 3313328813024, 1, 5573142801433, 1⟩,
  ⟨8001706275552, -8, 2019980960053, 1, 2648454860559, 1⟩,
  ⟨9171858254191, -8, 8992015524177, 0, 1498544001348, 3⟩,
  ⟨1075327150242, -7, 2898669963648, 1, 3694923081589, 2⟩,
  ⟨9884866689828, -8, 4946715904478, 1, 1140367694411, 2⟩,
  ⟨9541835576677, -8, 2371787888469, 1, 1256713221673, 2⟩,
  ⟨7739903376237, -8, 2213775190612, 1, 7834121070590, 1⟩,
  ⟨7311962684106, -8, 3429378787739, 1, 1192625446156, 2⟩,
  ⟨9724904869624, -8, 6195878564404, 1, 2280573557157, 2⟩,
  ⟨9251628983612, -8, 6511509527390, 0, 2787043132925, 1⟩,
  ⟨7320763787842, -8, 6001083639421, 1, 6282655592598, 1⟩,
  ⟨7320296650962, -8, 3789073265087, 1, 6283496108294, 1⟩,
  ⟨7947032271039, -8, 1059659582204, 1, 1241073141809, 2⟩,
  ⟨9005277053115, -8, 1280315624361, 1, 6281591679874, 1⟩,
  ⟨8995601652048, -8, 2224439106766, 1, 6284560021018, 1⟩,
  ⟨8288040568796, -8, 5234914433867, 1, 1241658836951, 2⟩,
  ⟨6359381347255, -8, 4137989441490, 1, 1596186371003, 1⟩,
  ⟨8699572228626, -8, 1758411009497, 1, 6133512519065, 1⟩,
  ⟨6456797542736, -8, 5919285089994, 1, 1685848245639, 2⟩,
  ⟨7424573475452, -8, 5414616938827, 1, 4061219149443, 1⟩,
  ⟨7235671196168, -8, 1496516557134, 1, 1610006857377, 3⟩,
  ⟨8104015182733, -8, 1919918242764, 1, 8460828644453, 0⟩,
  ⟨8098576535937, -8, 3819615855458, 1, 3894181736510, 1⟩,
  ⟨6275292346625, -8, 6244264115141, 1, 8531963191132, 0⟩,
  ⟨6052432989112, -8, 5037731872610, 0, 1567108171867, 2⟩,
  ⟨5705651535817, -8, 2984557271995, 1, 1258692712880, 2⟩,
  ⟨5789650115138, -8, 6087038140697, 1, 1193336791622, 2⟩,
  ⟨5512132153377, -8, 5855668994076, 1, 1232342296471, 2⟩,
  ⟨7388890819102, -8, 2443128574740, 1, 4907302013889, 1⟩,
  ⟨5467593991798, -8, 3017561234194, 1, 1884211409667, 2⟩,
  ⟨6388519802999, -8, 5887386712935, 1, 5217580628120, 2⟩,
  ⟨6106777149944, -8, 3483461059895, 0, 1422690933580, -1⟩,
  ⟨7383420275489, -8, 5417387056707, 1, 2358125818164, 2⟩,
  ⟨5505208141738, -8, 2848193644783, 1, 1151388321134, 2⟩,
  ⟨6310757462877, -8, 2349882520828, 1, 1041998632314, 2⟩,
  ⟨6166904929691, -8, 5728575944077, 0, 6151533897323, 1⟩,
  ⟨5263442042754, -8, 4495796125937, 1, 1885275071096, 2⟩,
  ⟨5591828082629, -8, 1355441967677, 1, 4337116142245, 0⟩,
  ⟨5397051680497, -8, 1673422864307, 1, 6286362197481, 1⟩,
  ⟨5396992745159, -8, 1833502206373, 1, 6279789503410, 1⟩,
  ⟨6572913000726, -8, 3331122065824, 1, 1176433076753, 2⟩,
  ⟨5123421866413, -8, 2165327142679, 1, 1245594543367, 2⟩,
  ⟨5930495725999, -8, 2931146089284, 1, 6414617803568, 1⟩,
  ⟨6431797403933, -8, 4134407994088, 1, 1350651127443, 0⟩,
  ⟨5003182207604, -8, 3805420303749, 1, 1096996532989, 2⟩,
  ⟨5587731032504, -8, 1082469260599, 1, 6062663316000, 1⟩,
  ⟨5935263407816, -8, 8384333678401, 0, 5326786718777, 1⟩,
  ⟨4756019827760, -8, 3552588749309, 1, 3104930017775, 1⟩,
  ⟨6599951172637, -8, 4320826409528, 1, 4087944051283, 2⟩,
  ⟨5902606868464, -8, 4811879454445, 1, 5849364236221, 1⟩,
  ⟨5921147809031, -8, 9942628922396, -1, 1581959461667, 1⟩,
  ⟨5505382581266, -8, 2466557607764, 1, 6503488384892, 1⟩,
  ⟨5353771071862, -8, 4551978748683, 1, 1735668374386, 3⟩,
  ⟨5063282210946, -8, 5710812312425, 1, 1248988586463, 2⟩,
  ⟨5926120403383, -8, 1333998428358, 1, 2673594526851, 2⟩,
  ⟨5211016176149, -8, 4649315360760, 1, 2460261242967, 2⟩,
  ⟨5347075084894, -8, 5512754081205, 1, 4171425416666, 1⟩,
  ⟨4872609773574, -8, 1308025299938, 1, 5333900173445, 1⟩,
  ⟨4727711321420, -8, 2144908368062, 1, 7232251527446, 1⟩,
  ⟨6029426018652, -8, 5567259412084, 1, 3227113045244, 3⟩,
  ⟨4321485284369, -8, 5230667156451, 1, 9388005868221, 1⟩,
  ⟨4476406760553, -8, 6134081115303, 1, 5547199253223, 1⟩,
  ⟨5835268277420, -8, 4783808492071, 1, 7285056171570, 2⟩,
  ⟨5172183602748, -8, 5161817911099, 1, 1884570439172, 2⟩,
  ⟨5693571465184, -8, 1381646203111, 1, 9723862754494, 2⟩,
  ⟨4060634965349, -8, 3876705259495, 0, 4274518229222, 1⟩,
  ⟨3967398770473, -8, 5029491776223, 1, 3496032717521, 1⟩,
  ⟨3943754005255, -8, 1923162955490, 1, 6244942932314, 1⟩,
  ⟨4781323427824, -8, 4633332586423, 1, 2929661536378, 2⟩,
  ⟨3871483781204, -8, 1616650009743, 1, 6321208768577, 1⟩,
  ⟨5141741733997, -8, 9817316704659, -1, 1232032006293, 2⟩,
  ⟨4002385978497, -8, 3656161212139, 1, 7018952447668, 1⟩,
  ⟨4901092604097, -8, 4404098713092, 1, 1478866649112, 1⟩,
  ⟨3740932630345, -8, 5181188732639, 0, 6922973089781, 1⟩,
  ⟨4387283718538, -8, 3254859566869, 1, 2331413144044, 3⟩,
  ⟨5019197802033, -8, 3086773224677, 1, 1715706182245, 2⟩,
  ⟨3834931695175, -8, 2797882673542, 1, 1491901785440, 2⟩,
  ⟨3760413942497, -8, 2892676280217, 1, 1726726808967, 2⟩,
  ⟨3719717204628, -8, 5861046025739, 1, 6297302759782, 1⟩,
  ⟨4145623530149, -8, 2168239627033, 1, 1376059875786, 2⟩,
  ⟨3932788425380, -8, 6271811124181, 1, 7872148766781, 1⟩,
  ⟨3686377476857, -8, 3936853151404, 1, 6268848941110, 1⟩,
  ⟨3779077950339, -8, 1404148734043, 1, 4157198507331, 1⟩,
  ⟨4091334550598, -8, 2452436180854, 1, 9779108567966, 1⟩,
  ⟨3926694536146, -8, 6102292739040, 1, 1098419223922, 2⟩,
  ⟨4841000253289, -8, 6072760457276, 1, 1252801878276, 2⟩,
  ⟨4949340130240, -8, 1154832815171, 1, 1617106187867, 3⟩,
  ⟨3761557737360, -8, 5527545321897, 1, 3185192151914, 1⟩,
  ⟨3647396268188, -8, 1525035688629, 1, 6271346477544, 1⟩,
  ⟨3932405074189, -8, 5570681040569, 1, 2139354194808, 2⟩,
  ⟨3631322501141, -8, 1981240601160, 1, 6294805223347, 1⟩,
  ⟨4130007425139, -8, 2050060880201, 1, 2195415756911, 2⟩,
  ⟨4433905965176, -8, 3277477970321, 1, 7445550607224, 1⟩,
  ⟨3851814176947, -8, 5210690074886, 1, 9562891316684, 0⟩,
  ⟨3485807052785, -8, 6653274904611, 0, 1161697602389, 2⟩,
  ⟨3979772816991, -8, 1767941436148, 1, 2277943724828, 2⟩,
  ⟨3402607460500, -8, 3421746306465, 1, 1087398597200, 2⟩,
  ⟨4049993000926, -8, 1127144787547, 1, 3163918923335, 0⟩,
  ⟨3420511182382, -8, 4214794779161, 1, 1362553364512, 2⟩,
  ⟨3640772365012, -8, 5324905497687, 1, 1725304118033, 2⟩,
  ⟨3323037987501, -8, 6135761838271, 1, 6279143387820, 1⟩,
  ⟨4503141663637, -8, 1802305450666, 1, 1385561574497, 1⟩,
  ⟨4314560055588, -8, 4812299731574, 1, 4176041334900, 1⟩,
  ⟨3294226949110, -8, 3657547059723, 1, 6287008313071, 1⟩,
  ⟨3215657197281, -8, 4866676894425, 1, 5749861718712, 1⟩,
  ⟨4129362656266, -8, 3809342558906, 1, 5905702259363, 1⟩,
  ⟨3137762976388, -8, 2494635174443, 1, 2099539292909, 2⟩,
  ⟨3514010952384, -8, 2699961831678, 1, 7335344340001, 1⟩,
  ⟨3327607571530, -8, 3318457714816, 1, 5436992986000, 1⟩,
  ⟨3541066946675, -8, 4382703582466, 1, 1234573916645, 2⟩,
  ⟨3216179847052, -8, 5271066317054, 1, 3802769619140, -1⟩,
  ⟨2959045059570, -8, 5819591585302, 1, 2670964694522, 2⟩,
  ⟨3884040326665, -8, 5980934960428, 1, 6660449441528, 1⟩,
  ⟨2922027539886, -8, 3337290282483, 1, 1375773836557, 1⟩,
  ⟨4110846382042, -8, 5742978187327, 1, 4480965020977, 2⟩,
  ⟨2934508411032, -8, 2278075804200, 1, 6408777551755, 0⟩,
  ⟨3966896193000, -8, 5835747858477, 1, 3773735910827, 0⟩,
  ⟨3286695827610, -8, 5838898193902, 1, 3932462625300, -2⟩,
  ⟨3720643094196, -8, 1122212337858, 1, 1646033343740, 2⟩,
  ⟨3285508906174, -8, 9182250996416, 0, 1081813534213, 2⟩,
  ⟨3753880575973, -8, 5174761973266, 1, 5642198095270, 1⟩,
  ⟨3022129385587, -8, 3381611020639, 1, 2982630633589, 2⟩,
  ⟨2798569205621, -8, 3546193723922, 1, 1937891852345, 2⟩,
  ⟨3397872070505, -8, 4533203197934, 1, 6923953605621, 1⟩,
  ⟨3708099772977, -8, 2756168198616, 1, 3066615496545, 2⟩,
  ⟨3599283541510, -8, 1934395469918, 1, 6147450479709, 1⟩,
  ⟨3688702753059, -8, 7149920971109, 0, 2636725487657, 1⟩,
  ⟨2681084724003, -8, 4899819493154, 1, 6816289982179, 1⟩,
  ⟨3495993460759, -8, 1572418915115, 1, 6418701221183, 1⟩,
  ⟨3130770324995, -8, 8912190180489, 0, 1235996607578, 2⟩,
  ⟨2744353821941, -8, 3800821940055, 1, 2059724391010, 2⟩,
  ⟨2842732906341, -8, 2644717440029, 1, 2828699048865, 2⟩,
  ⟨3046882682154, -8, 3987793020179, 1, 6055599646783, 1⟩,
  ⟨2399072455143, -8, 9908826440764, 0, 6255674361143, 1⟩,
  ⟨2384306274204, -8, 2516149752220, 1, 6310477339748, 1⟩,
  ⟨2977324500559, -8, 5849195642118, 1, 1652265972112, 2⟩,
  ⟨3062835258972, -8, 1681660100162, 1, 1172006883645, 2⟩,
  ⟨3109682589231, -8, 5804143987737, 0, 2751146787858, 2⟩,
  ⟨2903920355299, -8, 5800768280123, 1, 6510552054109, 1⟩,
  ⟨2823221989212, -8, 9241118370216, 0, 5469525544182, 1⟩,
  ⟨3187949696649, -8, 3139776445735, 1, 1693792562116, 3⟩,
  ⟨2922559771655, -8, 3549440782984, 1, 2630839062450, 0⟩,
  ⟨2436302066603, -8, 4735540696319, 1, 3946258593675, 0⟩,
  ⟨3049473043606, -8, 4998289124561, 1, 8390110365991, 1⟩,
  ⟨2863682575784, -8, 6709515671102, 0, 2243449970715, 0⟩,
  ⟨2641750517966, -8, 5410978257284, 1, 2986433403208, 2⟩,
  ⟨2704093466243, -8, 4778317207821, 1, 6129297044991, 1⟩,
  ⟨2445522177011, -8, 6009020662222, 1, 1171295538178, 2⟩,
  ⟨2623608810230, -8, 5010449777147, 1, 6436854655901, 1⟩,
  ⟨2079259704053, -8, 5980943768809, 1, 2019909489111, 2⟩,
  ⟨2820225596771, -8, 2679965110468, 1, 5934151399930, 1⟩,
  ⟨2365221950927, -8, 1894231148810, 1, 2470570524223, 2⟩,
  ⟨2359682077149, -8, 4220752950780, 1, 8671969964381, 1⟩,
  ⟨2387577137206, -8, 2571783940617, 1, 7096626156709, 1⟩,
  ⟨1982102089816, -8, 5169765997119, 0, 1727188400790, 2⟩,
  ⟨2687502389925, -8, 6239078264579, 1, 7075506709219, 2⟩,
  ⟨2207751669135, -8, 2031184412677, 1, 4377611041777, 1⟩,
  ⟨2618370214274, -8, 8266079985979, 0, 6632000300961, 1⟩,
  ⟨2591951887361, -8, 8819350522008, 0, 4873985990671, 2⟩,
  ⟨2375055656248, -8, 3520944177789, 1, 1590676413561, 2⟩,
  ⟨2472019978911, -8, 1551431908671, 1, 6612329252343, 0⟩,
  ⟨2368157127199, -8, 4178610147412, 1, 3459636466239, 2⟩,
  ⟨1764846605693, -8, 1506764000157, 1, 1980094587212, 2⟩,
  ⟨2291769608798, -8, 2118250611782, 1, 2844914056730, -1⟩,
  ⟨2209997316943, -8, 3363255261678, 1, 2666070658668, 0⟩,
  ⟨2292699097923, -8, 4200423956460, 0, 1484170571900, -2⟩,
  ⟨1629683015329, -8, 2331362582487, 1, 3035599730800, 2⟩,
  ⟨2206492862426, -8, 3400274026992, 1, 6281667977667, 1⟩,
  ⟨2205746568257, -8, 1066051230724, 0, 6284483723224, 1⟩,
  ⟨2026310767991, -8, 2779066487979, 1, 2449240616245, 2⟩,
  ⟨1762977622163, -8, 9951450691840, 0, 2045286941806, 2⟩,
  ⟨1368535049606, -8, 6402447365817, 0, 2473415438279, 2⟩,
  ⟨1720598775450, -8, 2303524214705, 0, 1679593901136, 3⟩,
  ⟨1702429015449, -8, 6164622655048, 1, 3338575901272, 3⟩,
  ⟨1414033197685, -8, 3954561185580, 1, 1624205518357, 3⟩,
  ⟨1573768958043, -8, 2028286308984, 1, 3144167757552, 2⟩,
  ⟨1650705184447, -8, 2304040666128, 1, 5267006960365, 2⟩,
  ⟨1651087618855, -8, 2538461057280, 1, 8956999012000, 2⟩,
  ⟨1616409518983, -8, 5111054348152, 1, 3332657872986, 2⟩,
  ⟨1537175173581, -8, 5601130666603, 1, 3852657435933, 2⟩,
  ⟨1593191980553, -8, 2614340453411, 1, 2282781046519, 3⟩,
  ⟨1499480170643, -8, 3624721577264, 1, 2823723341956, 2⟩,
  ⟨1493807843235, -8, 4214569879008, 1, 2876692439167, 2⟩,
  ⟨1074571199328, -8, 1496911744704, 0, 8397383534231, 2⟩,
  ⟨1074406983417, -8, 1187817671922, 1, 8401985929482, 2⟩,
  ⟨9757576855851, -9, 2655703035858, 1, 7826370942180, 2⟩,
  ⟨1258432887565, -8, 4969896184844, 1, 3115650189215, 3⟩,
  ⟨1240336343282, -8, 5192460776926, 1, 1784300471910, 3⟩,
  ⟨9016107005164, -9, 1960356923057, 1, 5886454391678, 2⟩,
  ⟨1135392360918, -8, 5082427809068, 1, 7842370451713, 2⟩,
  ⟨9216046089565, -9, 2793775037273, 1, 1014262087719, 3⟩,
  ⟨1061276615030, -8, 3726144311409, 1, 5660027930059, 2⟩,
  ⟨1010110596263, -8, 7404080708937, 0, 4245678405627, 2⟩,
  ⟨7217424756199, -9, 2697449980577, -1, 2457074661053, 3⟩,
  ⟨6912003846756, -9, 4253296276335, 1, 1679936946371, 3⟩,
  ⟨6871814664847, -9, 5148072412354, 1, 6053048899753, 2⟩,
  ⟨4887158016343, -9, 2153581148294, 1, 9656299901946, 2⟩,
  ⟨5161802866314, -9, 3852750634351, 1, 2442876000072, 3⟩,
  ⟨5652599559057, -9, 1233233356270, 1, 8365903305582, 2⟩,
  ⟨4710812608586, -9, 5610486976767, 1, 3164282286739, 3⟩,
  ⟨4909977500324, -9, 1639629524123, 1, 4059982187939, 3⟩,
  ⟨4772641839378, -9, 3737100368583, 1, 1805255418145, 3⟩,
  ⟨4487562567153, -9, 1158417054478, 0, 8433466158131, 2⟩,
  ⟨3943441230497, -9, 6243502862796, 0, 2568537517081, 3⟩,
  ⟨3952236913598, -9, 3510377382385, 1, 2449975330562, 3⟩,
  ⟨3788898363417, -9, 5916128302299, 1, 1568131045107, 3⟩,
  ⟨3738329328831, -9, 1042266763456, 1, 3948519331910, 3⟩,
  ⟨2451199165151, -9, 1166788435700, 1, 1435713242844, 3⟩,
  ⟨2436734402904, -9, 3254726114901, 1, 2268582385539, 3⟩,
  ⟨2213605274325, -9, 1687210598530, 1, 1658638954901, 3⟩,
  ⟨1491521204829, -9, 2657541786794, 1, 2219950288015, 3⟩,
  ⟨1474995329744, -9, 5013089805819, 1, 3052819430710, 3⟩,
  ⟨1661939475656, -9, 5495315428418, 1, 2526661704812, 3⟩,
  ⟨9015946748003, -10, 2236989966505, 1, 4171445043968, 3⟩]

/-- src/epv.cc:1135-1271 `E0[2]` -/
def e0z : List Term := [
  ⟨2796207639075, -5, 3198701560209, 1, 8433466158131, 2⟩,
  ⟨1016042198142, -5, 5422360395913, 1, 5507553240374, 1⟩,
  ⟨8044305033647, -6, 3880222866652, 1, 5223693906222, 1⟩,
  ⟨4385347909274, -6, 3704369937468, 1, 2352866153506, 1⟩,
  ⟨3186156414906, -6, 3999639363235, 1, 1577343543434, 1⟩,
  ⟨2272412285792, -6, 3984738315952, 1, 1047747311755, 1⟩,
  ⟨1645620103007, -6, 3565412516841, 1, 5856477690889, 1⟩,
  ⟨1815836921166, -6, 4984507059020, 1, 6283075850446, 1⟩,
  ⟨1447461676364, -6, 3702753570108, 1, 9437762937313, 1⟩,
  ⟨1430760876382, -6, 3409658712357, 1, 1021328554739, 2⟩,
  ⟨1120445753226, -6, 4829561570246, 1, 1414349524433, 2⟩,
  ⟨1090232840797, -6, 2080729178066, 1, 6812766822558, 1⟩,
  ⟨9715727346551, -7, 3476295881948, 1, 4694002934110, 1⟩,
  ⟨1036267136217, -6, 4056639536648, 1, 7109288135493, 2⟩,
  ⟨8752665271340, -7, 4448159519911, 1, 5753384878334, 1⟩,
  ⟨8331864956004, -7, 4991704044208, 1, 7084896783808, 1⟩,
  ⟨6901658670245, -7, 4325358994219, 1, 6275962395778, 1⟩,
  ⟨9144536848998, -7, 1141826375363, 1, 6620890113188, 1⟩,
  ⟨7205085037435, -7, 3624344170143, 1, 5296909721118, 0⟩,
  ⟨7697874654176, -7, 5554257458998, 1, 1676215758509, 3⟩,
  ⟨5197545738384, -7, 6251760961735, 1, 1807370494127, 2⟩,
  ⟨5031345378608, -7, 2497341091913, 1, 4705732307012, 1⟩,
  ⟨4527110205840, -7, 2335079920992, 1, 6309374173736, 1⟩,
  ⟨4753355798089, -7, 7094148987474, 0, 5884926831456, 1⟩,
  ⟨4296951977516, -7, 1101916352091, 1, 6681224869435, 1⟩,
  ⟨3855341568387, -7, 1825495405486, 1, 5486777812467, 1⟩,
  ⟨5253930970990, -7, 4424740687208, 1, 7860419393880, 1⟩,
  ⟨4024630496471, -7, 5120498157053, 1, 1336797263425, 2⟩,
  ⟨4061069791453, -7, 6029771435451, 1, 3930209696940, 1⟩,
  ⟨3797883804205, -7, 4435193600836, 0, 3154687086868, 1⟩,
  ⟨2933033225587, -7, 5124157356507, 1, 1059381944224, 1⟩,
  ⟨3503000930426, -7, 5421830162065, 1, 6069776770667, 1⟩,
  ⟨3670096214050, -7, 4582101667297, 1, 1219403291462, 2⟩,
  ⟨2905609437008, -7, 1926566420072, 1, 1097707878456, 2⟩,
  ⟨2466827821713, -7, 6090174539834, 0, 6496374930224, 1⟩,
  ⟨2691647295332, -7, 1393432595077, 1, 2200391463820, 2⟩,
  ⟨2150554667946, -7, 4308671715951, 1, 5643178611111, 1⟩,
  ⟨2237481922680, -7, 8133968269414, 0, 8635942003952, 1⟩,
  ⟨1817741038157, -7, 3755205127454, 1, 3340612434717, 1⟩,
  ⟨2227820762132, -7, 2759558596664, 1, 1203646072878, 2⟩,
  ⟨1944713772307, -7, 5699645869121, 1, 1179062909082, 2⟩,
  ⟨1527340520662, -7, 1986749091746, 1, 3981490189893, 0⟩,
  ⟨1577282574914, -7, 3205017217983, 1, 5088628793478, 1⟩,
  ⟨1424738825424, -7, 6256747903666, 1, 2544314396739, 1⟩,
  ⟨1616563121701, -7, 2601671259394, 0, 1729818233119, 2⟩,
  ⟨1401210391692, -7, 4686939173506, 1, 7058598460518, 1⟩,
  ⟨1488726974214, -7, 2815862451372, 1, 2593412433514, 2⟩,
  ⟨1692626442388, -7, 4956894109797, 1, 1564752902480, 3⟩,
  ⟨1123571582910, -7, 2381192697696, 1, 3738761453707, 1⟩,
  ⟨9903308606317, -8, 4294851657684, 1, 9225539266174, 1⟩,
  ⟨9174533187191, -8, 3075171510642, 1, 4164311961999, 1⟩,
  ⟨8645985631457, -8, 5477534821633, 0, 8429241228195, 1⟩,
  ⟨-1085876492688, -7, 0, 0, 0, 0⟩,
  ⟨9264309077815, -8, 5968571670097, 1, 7079373888424, 1⟩,
  ⟨8243116984954, -8, 1489098777643, 1, 1044738781244, 2⟩,
  ⟨8268102113708, -8, 3512977691983, 1, 1150676975667, 2⟩,
  ⟨9043613988227, -8, 1290704408221, 0, 1101510648075, 2⟩,
  ⟨7432912038789, -8, 1991086893337, 1, 2608790314060, 2⟩,
  ⟨8586233727285, -8, 4238357924414, 1, 2986433403208, 2⟩,
  ⟨7612230060131, -8, 2911090150166, 1, 4732030630302, 1⟩,
  ⟨7097787751408, -8, 1908938392390, 1, 8031092209206, 1⟩,
  ⟨7640237040175, -8, 6129219000168, 0, 7962980379786, 0⟩,
  ⟨7070445688081, -8, 1380417036651, 1, 2146165377750, 1⟩,
  ⟨7690770957702, -8, 1680504249084, 1, 2122839202813, 2⟩,
  ⟨8051292542594, -8, 5127423484511, 1, 2942463415728, 1⟩,
  ⟨5902709104515, -8, 2020274190917, 1, 7755226100720, 0⟩,
  ⟨5134567496462, -8, 2606778676418, 1, 1256615170089, 2⟩,
  ⟨5525802046102, -8, 1613011769663, 1, 8018209333619, 0⟩,
  ⟨5880724784221, -8, 4604483417236, 1, 4690479774488, 1⟩,
  ⟨5211699081370, -8, 5718964114193, 1, 8827390247185, 1⟩,
  ⟨4891849573562, -8, 3689658932196, 1, 2132990797783, 0⟩,
  ⟨5150246069997, -8, 4099769855122, 1, 6480980550449, 2⟩,
  ⟨5102434319633, -8, 5660834602509, 1, 3379454372902, 2⟩,
  ⟨5083405254252, -8, 9842221218974, 0, 4136910472696, 1⟩,
  ⟨4206562585682, -8, 1341363634163, 0, 3128388763578, 1⟩,
  ⟨4663249683579, -8, 8130132735866, 0, 5216580451554, 1⟩,
  ⟨4099474416530, -8, 5791497770644, 1, 4265981595566, 0⟩,
  ⟨4628251220767, -8, 1249802769331, 1, 1572083878776, 2⟩,
  ⟨5024068728142, -8, 4795684802743, 1, 6290189305114, 1⟩,
  ⟨5120234327758, -8, 3810420387208, 1, 5230807360890, 1⟩,
  ⟨5524029815280, -8, 1029264714351, 1, 2397622045175, 3⟩,
  ⟨4757415718860, -8, 3528044781779, 1, 1649636139783, 2⟩,
  ⟨3915786131127, -8, 5593889282646, 1, 1589072916335, 1⟩,
  ⟨4869053149991, -8, 3299636454433, 1, 7632943190217, 1⟩,
  ⟨3649365703729, -8, 1286049002584, 1, 6206810014183, 1⟩,
  ⟨3992493949002, -8, 3100307589464, 1, 2515860172507, 2⟩,
  ⟨3320247477418, -8, 6212683940807, 1, 1216800268190, 2⟩,
  ⟨3287123739696, -8, 4699118445928, 1, 7234794171227, 1⟩,
  ⟨3472776811103, -8, 2630507142004, 1, 7342457794669, 1⟩,
  ⟨3423253294767, -8, 2946432844305, 1, 9623688285163, 1⟩,
  ⟨3896173898244, -8, 1224834179264, 1, 6438496133249, 1⟩,
  ⟨3388455337924, -8, 1543807616351, 1, 1494531617769, 2⟩,
  ⟨3062704716523, -8, 1191777572310, 1, 8662240327241, 1⟩,
  ⟨3270075600400, -8, 5483498767737, 1, 1194447056968, 1⟩,
  ⟨3101209215259, -8, 8000833804348, 0, 3772475342596, 2⟩,
  ⟨2780883347311, -8, 4077980721888, 0, 5863591145557, 1⟩,
  ⟨2903605931824, -8, 2617490302147, 1, 1965104848470, 2⟩,
  ⟨2682014743119, -8, 2634703158290, 1, 7238675589263, 1⟩,
  ⟨2534360108492, -8, 6102446114873, 1, 6836645152238, 1⟩,
  ⟨2392564882509, -8, 3681820208691, 1, 5849364236221, 1⟩,
  ⟨2656667254856, -8, 6216045388886, 1, 6133512519065, 1⟩,
  ⟨2331242096773, -8, 5864949777744, 1, 4535059491685, 1⟩,
  ⟨2287898363668, -8, 4566628532802, 1, 7477522907414, 1⟩,
  ⟨2336944521306, -8, 2442722126930, 1, 1137170464392, 2⟩,
  ⟨3156632236269, -8, 1626628050682, 1, 2509084901204, 3⟩,
  ⟨2982612402766, -8, 2803604512609, 1, 1748016358760, 1⟩,
  ⟨2774031674807, -8, 4654002897158, 1, 8223916695780, 2⟩,
  ⟨2295236548638, -8, 4326518333253, 1, 3378142627421, 0⟩,
  ⟨2190714699873, -8, 4519614578328, 1, 2908881142201, 2⟩,
  ⟨2191495845045, -8, 3012626912549, 1, 1673046366289, 2⟩,
  ⟨2492901628386, -8, 1290101424052, 0, 1543797956245, 3⟩,
  ⟨1993778064319, -8, 3864046799414, 1, 1778984560711, 2⟩,
  ⟨1898146479022, -8, 5053777235891, 1, 2042657109477, 2⟩,
  ⟨1918280127634, -8, 2222470192548, 1, 4165496312290, 2⟩,
  ⟨1916351061607, -8, 8719067257774, 0, 7737595720538, 2⟩,
  ⟨1834720181466, -8, 4031491098040, 1, 2358125818164, 2⟩,
  ⟨1249201523806, -8, 5938379466835, 1, 3301902111895, 2⟩,
  ⟨1477304050539, -8, 6544722606797, 0, 9548094718417, 2⟩,
  ⟨1264316431249, -8, 2059072853236, 1, 8399684731857, 2⟩,
  ⟨1203526495039, -8, 3644813532605, 1, 4558517281984, 2⟩,
  ⟨9221681059831, -9, 3241815055602, 1, 7805158573086, 2⟩,
  ⟨7849278367646, -9, 5043812342457, 1, 5217580628120, 2⟩,
  ⟨7983392077387, -9, 5000024502753, 1, 1501922143975, 3⟩,
  ⟨7925395431654, -9, 1398734871821, -1, 9061773743175, 2⟩,
  ⟨7640473285886, -9, 5067111723130, 1, 4951538251678, 2⟩,
  ⟨5398937754482, -9, 5597382200075, 1, 1613385000004, 3⟩,
  ⟨5626247550193, -9, 2601338209422, 1, 7318837597844, 2⟩,
  ⟨5525197197855, -9, 5814832109256, 1, 1432335100216, 3⟩,
  ⟨5407629837898, -9, 3384820609076, 1, 3230491187871, 3⟩,
  ⟨3856739119801, -9, 1072391840473, 1, 2334791286671, 3⟩,
  ⟨3856425239987, -9, 2369540393327, 1, 1739046517013, 3⟩,
  ⟨4350867755983, -9, 5255575751082, 1, 1620484330494, 3⟩,
  ⟨3844113924996, -9, 5482356246182, 1, 9757644180768, 2⟩,
  ⟨2854869155431, -9, 9573634763143, 0, 1697170704744, 3⟩,
  ⟨1719227671416, -9, 1887203025202, 1, 2265204242912, 3⟩,
  ⟨1527846879755, -9, 3982183931157, 1, 3341954043900, 3⟩,
  ⟨1128229264847, -9, 2787457156298, 1, 3119028331842, 3⟩]

/-- src/epv.cc:1278-1356 `E1[0]` -/
def e1x : List Term := [
  ⟨1234046326004, -5, 0, 0, 0, 0⟩,
  ⟨5150068824701, -6, 6002664557501, 1, 1256615170089, 2⟩,
  ⟨1290743923245, -7, 5959437664199, 1, 1884922755134, 2⟩,
  ⟨1068615564952, -7, 2015529654209, 1, 6283075850446, 1⟩,
  ⟨2079619142538, -8, 1732960531432, 1, 6279552690824, 1⟩,
  ⟨2078009243969, -8, 4915604476996, 1, 6286599010068, 1⟩,
  ⟨6206330058856, -9, 3616457953824, 0, 4705732307012, 1⟩,
  ⟨5989335313746, -9, 3802607304474, 1, 6256777527156, 1⟩,
  ⟨5958495663840, -9, 2845866560031, 1, 6309374173736, 1⟩,
  ⟨4866923261539, -9, 5213203771824, 1, 7755226100720, 0⟩,
  ⟨4267785823142, -9, 4368189727818, 0, 1059381944224, 1⟩,
  ⟨4610675141648, -9, 1837249181372, -1, 7860419393880, 1⟩,
  ⟨3626989993973, -9, 2161590545326, 1, 5753384878334, 1⟩,
  ⟨3563071194389, -9, 1452631954746, 1, 5884926831456, 1⟩,
  ⟨3557015642807, -9, 4470593393054, 1, 6812766822558, 1⟩,
  ⟨3210412089122, -9, 5195926078314, 1, 6681224869435, 1⟩,
  ⟨2875473577986, -9, 5916256610193, 1, 2513230340178, 2⟩,
  ⟨2842913681629, -9, 1149902426047, 1, 6127655567643, 1⟩,
  ⟨2751248215916, -9, 5502088574662, 1, 6438496133249, 1⟩,
  ⟨2481432881127, -9, 2921989846637, 1, 5486777812467, 1⟩,
  ⟨2059885976560, -9, 3718070376585, 1, 7079373888424, 1⟩,
  ⟨2015522342591, -9, 5979395259740, 1, 6290189305114, 1⟩,
  ⟨1995364084253, -9, 6772087985494, 0, 6275962395778, 1⟩,
  ⟨1957436436943, -9, 2899210654665, 1, 5507553240374, 1⟩,
  ⟨1651609818948, -9, 6228206482192, 1, 1150676975667, 2⟩,
  ⟨1822980550699, -9, 1469348746179, 1, 1179062909082, 2⟩,
  ⟨1675223159760, -9, 3813910555688, 1, 7058598460518, 1⟩,
  ⟨1706491764745, -9, 3004380506684, 0, 7113454667900, -2⟩,
  ⟨1392952362615, -9, 1440393973406, 1, 7962980379786, 0⟩,
  ⟨1209868266342, -9, 4150425791727, 1, 4694002934110, 1⟩,
  ⟨1009827202611, -9, 3290040429843, 1, 3738761453707, 1⟩,
  ⟨1047261388602, -9, 4229590090227, 1, 6282095334605, 1⟩,
  ⟨1047006652004, -9, 2418967680575, 1, 6284056366286, 1⟩,
  ⟨9609993143095, -10, 4627943659201, 1, 6069776770667, 1⟩,
  ⟨9590900593873, -10, 1894393939924, 1, 4136910472696, 1⟩,
  ⟨9146249188071, -10, 2010647519562, 1, 6496374930224, 1⟩,
  ⟨8545274480290, -10, 5529846956226, -1, 1194447056968, 1⟩,
  ⟨8224377881194, -10, 1254304102174, 1, 1589072916335, 1⟩,
  ⟨6183529510410, -10, 3360862168815, 1, 8827390247185, 1⟩,
  ⟨6259255147141, -10, 4755628243179, 1, 8429241228195, 1⟩,
  ⟨5539291694151, -10, 5371746955142, 1, 4933208510675, 1⟩,
  ⟨7328259466314, -10, 4927699613906, 0, 4535059491685, 1⟩,
  ⟨6017835843560, -10, 5776682001734, -1, 1255903824622, 2⟩,
  ⟨7079827775243, -10, 4395059432251, 1, 5088628793478, 1⟩,
  ⟨5170358878213, -10, 5154062619954, 1, 1176985366291, 2⟩,
  ⟨4872301838682, -10, 6289611648973, 0, 6040347114260, 1⟩,
  ⟨5249869411058, -10, 5617272046949, 1, 3154687086868, 1⟩,
  ⟨4716172354411, -10, 3965901800877, 1, 5331357529664, 1⟩,
  ⟨4871214940964, -10, 4627507050093, 1, 1256967486051, 2⟩,
  ⟨4598076850751, -10, 6023631226459, 1, 6525804586632, 1⟩,
  ⟨4562196089485, -10, 4138562084068, 1, 3930209696940, 1⟩,
  ⟨4325493872224, -10, 1330845906564, 1, 7632943190217, 1⟩,
  ⟨5673781176748, -10, 2558752615657, 1, 5729506548653, 1⟩,
  ⟨3961436642503, -10, 2728071734630, 1, 7234794171227, 1⟩,
  ⟨5101868209058, -10, 4113444965144, 1, 6836645152238, 1⟩,
  ⟨5257043167676, -10, 6195089830590, 1, 8031092209206, 1⟩,
  ⟨5076613989393, -10, 2305124132918, 1, 7477522907414, 1⟩,
  ⟨3342169352778, -10, 5415998155071, 1, 1097707878456, 2⟩,
  ⟨3545881983591, -10, 3727160564574, 1, 4164311961999, 1⟩,
  ⟨3364063738599, -10, 2901121049204, 0, 1137170464392, 2⟩,
  ⟨3357039670776, -10, 1652229354331, 1, 5223693906222, 1⟩,
  ⟨4307412268687, -10, 4938909587445, 1, 1592596075957, 1⟩,
  ⟨3405769115435, -10, 2408890766511, 1, 3128388763578, 1⟩,
  ⟨3001926198480, -10, 4862239006386, 1, 1748016358760, 1⟩,
  ⟨2778264787325, -10, 5241168661353, 1, 7342457794669, 1⟩,
  ⟨2676159480666, -10, 3423593942199, 1, 2146165377750, 1⟩,
  ⟨2954273399939, -10, 1881721265406, 1, 5368044267797, 0⟩,
  ⟨3309362888795, -10, 1931525677349, 1, 8018209333619, 0⟩,
  ⟨2810283608438, -10, 2414659495050, 1, 5225775174439, 0⟩,
  ⟨3378045637764, -10, 4238019163430, 1, 1554202828031, 0⟩,
  ⟨2558134979840, -10, 1828225235805, 1, 5230807360890, 1⟩,
  ⟨2273755578447, -10, 5858184283998, 1, 7084896783808, 1⟩,
  ⟨2294176037690, -10, 4514589779057, 1, 1726015463500, 2⟩,
  ⟨2533506099435, -10, 2355717851551, 1, 5216580451554, 1⟩,
  ⟨2716685375812, -10, 2221003625100, 1, 8635942003952, 1⟩,
  ⟨2419043435198, -10, 5955704951635, 1, 4690479774488, 1⟩,
  ⟨2521232544812, -10, 1395676848521, 1, 5481254917084, 1⟩,
  ⟨2630195021491, -10, 5727468918743, 1, 2629832328990, -1⟩,
  ⟨2548395840944, -10, 2628351859400, -3, 1349867339771, 1⟩]

/-- src/epv.cc:1360-1439 `E1[1]` -/
def e1y : List Term := [
  ⟨9304690546528, -6, 0, 0, 0, 0⟩,
  ⟨5150715570663, -6, 4431807116294, 1, 1256615170089, 2⟩,
  ⟨1290825411056, -7, 4388610039678, 1, 1884922755134, 2⟩,
  ⟨4645466665386, -8, 5827263376034, 1, 6283075850446, 1⟩,
  ⟨2079625310718, -8, 1621698662282, 0, 6279552690824, 1⟩,
  ⟨2078189850907, -8, 3344713435140, 1, 6286599010068, 1⟩,
  ⟨6207190138027, -9, 5074049319576, 1, 4705732307012, 1⟩,
  ⟨5989826532569, -9, 2231842216620, 1, 6256777527156, 1⟩,
  ⟨5961360812618, -9, 1274975769045, 1, 6309374173736, 1⟩,
  ⟨4874165471016, -9, 3642277426779, 1, 7755226100720, 0⟩,
  ⟨4283834034360, -9, 5148765510106, 1, 1059381944224, 1⟩,
  ⟨4652389287529, -9, 4715794792175, 1, 7860419393880, 1⟩,
  ⟨3751707476401, -9, 6617207370325, 0, 5753384878334, 1⟩,
  ⟨3559998806198, -9, 6155548875404, 1, 5884926831456, 1⟩,
  ⟨3558447558857, -9, 2898827297664, 1, 6812766822558, 1⟩,
  ⟨3211116927106, -9, 3625813502509, 1, 6681224869435, 1⟩,
  ⟨2875609914672, -9, 4345435813134, 1, 2513230340178, 2⟩,
  ⟨2843109704069, -9, 5862263940038, 1, 6127655567643, 1⟩,
  ⟨2744676468427, -9, 3926419475089, 1, 6438496133249, 1⟩,
  ⟨2481285237789, -9, 1351976572828, 1, 5486777812467, 1⟩,
  ⟨2060338481033, -9, 2147556998591, 1, 7079373888424, 1⟩,
  ⟨2015822358331, -9, 4408358972216, 1, 6290189305114, 1⟩,
  ⟨2001195944195, -9, 5385829822531, 1, 6275962395778, 1⟩,
  ⟨1953667642377, -9, 1304933746120, 1, 5507553240374, 1⟩,
  ⟨1839744078713, -9, 6173567228835, 1, 1179062909082, 2⟩,
  ⟨1643334294845, -9, 4635942997523, 1, 1150676975667, 2⟩,
  ⟨1768051018652, -9, 5086283558874, 1, 7113454667900, -2⟩,
  ⟨1674874205489, -9, 2243332137241, 1, 7058598460518, 1⟩,
  ⟨1421445397609, -9, 6186899771515, 1, 7962980379786, 0⟩,
  ⟨1255163958267, -9, 5730238465658, 1, 4694002934110, 1⟩,
  ⟨1013945281961, -9, 1726055228402, 1, 3738761453707, 1⟩,
  ⟨1047294335852, -9, 2658801228129, 1, 6282095334605, 1⟩,
  ⟨1047103879392, -9, 8481047835035, 0, 6284056366286, 1⟩,
  ⟨9530343962826, -10, 3079267149859, 1, 6069776770667, 1⟩,
  ⟨9604637611690, -10, 3258679792918, 0, 4136910472696, 1⟩,
  ⟨9153518537177, -10, 4398599886584, 0, 6496374930224, 1⟩,
  ⟨8562458214922, -10, 4772686794145, 1, 1194447056968, 1⟩,
  ⟨8232525360654, -10, 5966220721679, 1, 1589072916335, 1⟩,
  ⟨6150223411438, -10, 1780985591923, 1, 8827390247185, 1⟩,
  ⟨6272087858000, -10, 3184305429012, 1, 8429241228195, 1⟩,
  ⟨5540476311040, -10, 3801260595433, 1, 4933208510675, 1⟩,
  ⟨7331901699361, -10, 5205948591865, 1, 4535059491685, 1⟩,
  ⟨6018528702791, -10, 4770139083623, 1, 1255903824622, 2⟩,
  ⟨5150530724804, -10, 3574796899585, 1, 1176985366291, 2⟩,
  ⟨6471933741811, -10, 2679787266521, 1, 5088628793478, 1⟩,
  ⟨5317460644174, -10, 9528763345494, 0, 3154687086868, 1⟩,
  ⟨4832187748783, -10, 5329322498232, 1, 6040347114260, 1⟩,
  ⟨4716763555110, -10, 2395235316466, 1, 5331357529664, 1⟩,
  ⟨4871509139861, -10, 3056663648823, 1, 1256967486051, 2⟩,
  ⟨4598417696768, -10, 4452762609019, 1, 6525804586632, 1⟩,
  ⟨5674189533175, -10, 9879680872193, 0, 5729506548653, 1⟩,
  ⟨4073560328195, -10, 5939127696986, 1, 7632943190217, 1⟩,
  ⟨5040994945359, -10, 4549875824510, 1, 8031092209206, 1⟩,
  ⟨5078185134679, -10, 7346659893982, 0, 7477522907414, 1⟩,
  ⟨3769343537061, -10, 1071317188367, 1, 7234794171227, 1⟩,
  ⟨4980331365299, -10, 2500345341784, 1, 6836645152238, 1⟩,
  ⟨3458236594757, -10, 3825159450711, 1, 1097707878456, 2⟩,
  ⟨3578859493602, -10, 5299664791549, 1, 4164311961999, 1⟩,
  ⟨3370504646419, -10, 5002316301593, 1, 1137170464392, 2⟩,
  ⟨3299873338428, -10, 2526123275282, 1, 3930209696940, 1⟩,
  ⟨4304917318409, -10, 3368078557132, 1, 1592596075957, 1⟩,
  ⟨3402418753455, -10, 8385495425800, 0, 3128388763578, 1⟩,
  ⟨2778460572146, -10, 3669905203240, 1, 7342457794669, 1⟩,
  ⟨2782710128902, -10, 2691664812170, 0, 1748016358760, 1⟩,
  ⟨2711725179646, -10, 4707487217718, 1, 5296909721118, 0⟩,
  ⟨2981760946340, -10, 3190260867816, 0, 5368044267797, 0⟩,
  ⟨2811672977772, -10, 3196532315372, 1, 7084896783808, 1⟩,
  ⟨2863454474467, -10, 2263240324780, 0, 5223693906222, 1⟩,
  ⟨3333464634051, -10, 3498451685065, 1, 8018209333619, 0⟩,
  ⟨3312991747609, -10, 5839154477412, 1, 1554202828031, 0⟩,
  ⟨2813255564006, -10, 8268044346621, 0, 5225775174439, 0⟩,
  ⟨2665098083966, -10, 3934021725360, 1, 5216580451554, 1⟩,
  ⟨2349795705216, -10, 5197620913779, 1, 2146165377750, 1⟩,
  ⟨2330352293961, -10, 2984999231807, 1, 1726015463500, 2⟩,
  ⟨2728001683419, -10, 6521679638544, 0, 8635942003952, 1⟩,
  ⟨2484061007669, -10, 3468955561097, 1, 5230807360890, 1⟩,
  ⟨2646328768427, -10, 1013724533516, 1, 2629832328990, -1⟩,
  ⟨2518630264831, -10, 6108081057122, 1, 5481254917084, 1⟩,
  ⟨2421901455384, -10, 1651097776260, 1, 1349867339771, 1⟩,
  ⟨6348533267831, -11, 3220226560321, 1, 8433466158131, 2⟩]

/-- src/epv.cc:1443-1454 `E1[2]` -/
def e1z : List Term := [
  ⟨2278290449966, -5, 3413716033863, 1, 6283075850446, 1⟩,
  ⟨5429458209830, -7, 0, 0, 0, 0⟩,
  ⟨1903240492525, -7, 3370592358297, 1, 1256615170089, 2⟩,
  ⟨2385409276743, -9, 3327914718416, 1, 1884922755134, 2⟩,
  ⟨8676928342573, -10, 1824006811264, 1, 5223693906222, 1⟩,
  ⟨7765442593544, -10, 3888564279247, 1, 5507553240374, 1⟩,
  ⟨7066158332715, -10, 5194267231944, 1, 2352866153506, 1⟩,
  ⟨7092175288657, -10, 2333246960021, 1, 8399684731857, 2⟩,
  ⟨5357582213535, -10, 2224031176619, 1, 5296909721118, 0⟩,
  ⟨3828035865021, -10, 2156710933584, 1, 6279552690824, 1⟩,
  ⟨3824857220427, -10, 1529755219915, 1, 6286599010068, 1⟩,
  ⟨3286995181628, -10, 4879512900483, 1, 1021328554739, 2⟩]

/-- src/epv.cc:1461-1465 `E2[0]` -/
def e2x : List Term := [
  ⟨-4143818297913, -10, 0, 0, 0, 0⟩,
  ⟨2171497694435, -10, 4398225628264, 1, 1256615170089, 2⟩,
  ⟨9845398442516, -11, 2079720838384, 0, 6283075850446, 1⟩,
  ⟨9256833552682, -12, 4191264694361, 1, 1884922755134, 2⟩,
  ⟨1022049384115, -12, 5381133195658, 1, 8399684731857, 2⟩]

/-- src/epv.cc:1469-1473 `E2[1]` -/
def e2y : List Term := [
  ⟨5063375872532, -10, 0, 0, 0, 0⟩,
  ⟨2173815785980, -10, 2827805833053, 1, 1256615170089, 2⟩,
  ⟨1010231999920, -10, 4634612377133, 1, 6283075850446, 1⟩,
  ⟨9259745317636, -12, 2620612076189, 1, 1884922755134, 2⟩,
  ⟨1022202095812, -12, 3809562326066, 1, 8399684731857, 2⟩]

/-- src/epv.cc:1477-1479 `E2[2]` -/
def e2z : List Term := [
  ⟨9722666114891, -10, 5152219582658, 1, 6283075850446, 1⟩,
  ⟨-3494819171909, -11, 0, 0, 0, 0⟩,
  ⟨6713034376076, -12, 6440188750495, 0, 1256615170089, 2⟩]

/-- src/epv.cc:1486-1697 `S0[0]` -/
def s0x : List Term := [
  ⟨4956757536410, -2, 3741073751789, 1, 5296909721118, 0⟩,
  ⟨2718490072522, -2, 4016011511425, 1, 2132990797783, 0⟩,
  ⟨1546493974344, -2, 2170528330642, 1, 3813291813120, -1⟩,
  ⟨8366855276341, -3, 2339614075294, 1, 7478166569050, -1⟩,
  ⟨2936777942117, -3, 0, 0, 0, 0⟩,
  ⟨1201317439469, -3, 4090736353305, 1, 1059381944224, 1⟩,
  ⟨7578550887230, -4, 3241518088140, 1, 4265981595566, 0⟩,
  ⟨1941787367773, -4, 1012202064330, 1, 2061856251104, 0⟩,
  ⟨1889227765991, -4, 3892520416440, 1, 2204125344462, 0⟩,
  ⟨1937896968613, -4, 4797779441161, 1, 1495633313810, 0⟩,
  ⟨1434506110873, -4, 3868960697933, 1, 5225775174439, 0⟩,
  ⟨1406659911580, -4, 4759766557397, 0, 5368044267797, 0⟩,
  ⟨1179022300202, -4, 7774961520598, 0, 7626583626240, -1⟩,
  ⟨8085864460959, -5, 3254654471465, 1, 3664874755930, -1⟩,
  ⟨7622752967615, -5, 4227633103489, 1, 3961708870310, -1⟩,
  ⟨6209171139066, -5, 2791828325711, 0, 7329749511860, -1⟩,
  ⟨4366435633970, -5, 4440454875925, 1, 1589072916335, 1⟩,
  ⟨3792124889348, -5, 5156393842356, 1, 7113454667900, -2⟩,
  ⟨3154548963402, -5, 6157005730093, 1, 4194847048887, 0⟩,
  ⟨3088359882942, -5, 2494567553163, 1, 6398972393349, 0⟩,
  ⟨2788440902136, -5, 4934318747989, 1, 1102062672231, 0⟩,
  ⟨3039928456376, -5, 4895077702640, 1, 6283075850446, 1⟩,
  ⟨2272258457679, -5, 5278394064764, 1, 1030928125552, 0⟩,
  ⟨2162007057957, -5, 5802978019099, 1, 3163918923335, 0⟩,
  ⟨1767632855737, -5, 3415346595193, -1, 1021328554739, 2⟩,
  ⟨1349413459362, -5, 2001643230755, 1, 1484170571900, -2⟩,
  ⟨1170141900476, -5, 2424750491620, 1, 6327837846670, 0⟩,
  ⟨1054355266820, -5, 3123311487576, 1, 4337116142245, 0⟩,
  ⟨9800822461610, -6, 3026258088130, 1, 1052268489556, 1⟩,
  ⟨1091203749931, -5, 3157811670347, 1, 1162474756779, 1⟩,
  ⟨6960236715913, -6, 8219570542313, 0, 1066495398892, 1⟩,
  ⟨5689257296909, -6, 1323052375236, 1, 9491756770005, 0⟩,
  ⟨6613172135802, -6, 2765348881598, 0, 8460828644453, 0⟩,
  ⟨6277702517571, -6, 5794064466382, 1, 1480791608091, 0⟩,
  ⟨6304884066699, -6, 7323555380787, 0, 2243449970715, 0⟩,
  ⟨4897850467382, -6, 3062464235399, 1, 3340612434717, 1⟩,
  ⟨3759148598786, -6, 4588290469664, 1, 3516457698740, -1⟩,
  ⟨3110520548195, -6, 1374299536572, 1, 6373574839730, -1⟩,
  ⟨3064708359780, -6, 4222267485047, 1, 1104591729320, -1⟩,
  ⟨2856347168241, -6, 3714202944973, 1, 1510475019529, 0⟩,
  ⟨2840945514288, -6, 2847972875882, 1, 4110125927500, -1⟩,
  ⟨2378951599405, -6, 3762072563388, 1, 2275259891141, 0⟩,
  ⟨2714229481417, -6, 1036049980031, 1, 2535050500000, -1⟩,
  ⟨2323551717307, -6, 4682388599076, 0, 8582758298370, -1⟩,
  ⟨1881790512219, -6, 4790565425418, 1, 2118763888447, 1⟩,
  ⟨2261353968371, -6, 1669144912212, 1, 7181332454670, -1⟩,
  ⟨2214546389848, -6, 3937717281614, 1, 2968341143800, -2⟩,
  ⟨2184915594933, -6, 1129169845099, 0, 7775000683430, -1⟩,
  ⟨2000164937936, -6, 4030009638488, 1, 2093666171530, 0⟩,
  ⟨1966105136719, -6, 8745955786834, 0, 2172315424036, 0⟩,
  ⟨1904742332624, -6, 5919743598964, 1, 2022531624851, 0⟩,
  ⟨1657399705031, -6, 2549141484884, 1, 7358765972222, 0⟩,
  ⟨1574070533987, -6, 5277533020230, 1, 7429900518901, 0⟩,
  ⟨1832261651039, -6, 3064688127777, 1, 3235053470014, 0⟩,
  ⟨1733615346569, -6, 3011432799094, 1, 1385174140878, 0⟩,
  ⟨1549124014496, -6, 4005569132359, 1, 5154640627760, 0⟩,
  ⟨1637044713838, -6, 1831375966632, 1, 8531963191132, 0⟩,
  ⟨1123420082383, -6, 1180270407578, 1, 1990721704425, 0⟩,
  ⟨1083754165740, -6, 3414101320863, 0, 5439178814476, 0⟩,
  ⟨1156638012655, -6, 6130479452594, 0, 5257585094865, 0⟩,
  ⟨1142548785134, -6, 3724761948846, 1, 5336234347371, 0⟩,
  ⟨7921463895965, -7, 2435425589361, 1, 1478866649112, 1⟩,
  ⟨7428600285231, -7, 3542144398753, 1, 2164800718209, 0⟩,
  ⟨8323211246747, -7, 3525058072354, 1, 1692165728891, 1⟩,
  ⟨7257595116312, -7, 1364299431982, 1, 2101180877357, 0⟩,
  ⟨7111185833236, -7, 2460478875808, 1, 4155522422634, 0⟩,
  ⟨6868090383716, -7, 4397327670704, 1, 1173197218910, 0⟩,
  ⟨7226419974175, -7, 4042647308905, 1, 1265567569334, 1⟩,
  ⟨6955642383177, -7, 2865047906085, 1, 9562891316684, 0⟩,
  ⟨7492139296331, -7, 5014278994215, 1, 1422690933580, -1⟩,
  ⟨6598363128857, -7, 2376730020492, 1, 6470106940028, 0⟩,
  ⟨7381147293385, -7, 3272990384244, 1, 1581959461667, 1⟩,
  ⟨6402909624032, -7, 5302290955138, 1, 9597935788730, -1⟩,
  ⟨6237454263857, -7, 5444144425332, 1, 7084920306520, -1⟩,
  ⟨5241198544016, -7, 4215359579205, 1, 5265099800692, 0⟩,
  ⟨5144463853918, -7, 1218916689916, 0, 5328719641544, 0⟩,
  ⟨5868164772299, -7, 2369402002213, 1, 7871412831580, -1⟩,
  ⟨6233195669151, -7, 1254922242403, 1, 2608790314060, 2⟩,
  ⟨6068463791422, -7, 5679713760431, 1, 1114304132498, 0⟩,
  ⟨4359361135065, -7, 6097219641646, 0, 1375773836557, 1⟩,
  ⟨4686510366826, -7, 4786231041431, 1, 1143987543936, 0⟩,
  ⟨3758977287225, -7, 1167368068139, 1, 1596186371003, 1⟩,
  ⟨4282051974778, -7, 1519471064319, 1, 2770348281756, 0⟩,
  ⟨5153765386113, -7, 1860532322984, 1, 2228608264996, 0⟩,
  ⟨4575129387188, -7, 7632857887158, 0, 1465949902372, 0⟩,
  ⟨3326844933286, -7, 1298219485285, 1, 5070101000000, -1⟩,
  ⟨3748617450984, -7, 1046510321062, 1, 4903339079539, 0⟩,
  ⟨2816756661499, -7, 3434522346190, 1, 2991266627620, 0⟩,
  ⟨3412750405039, -7, 2523766270318, 1, 3518164938661, 0⟩,
  ⟨2655796761776, -7, 2904422260194, 1, 6256703299991, 0⟩,
  ⟨2963597929458, -7, 5923900431149, 0, 1099462426779, 0⟩,
  ⟨2539523734781, -7, 4851947722567, 1, 1256615170089, 2⟩,
  ⟨2283087914139, -7, 3400498595496, 1, 6681224869435, 1⟩,
  ⟨2321309799331, -7, 5789099148673, 1, 3368040641550, -1⟩,
  ⟨2549657649750, -7, 3991856479792, -1, 1169588211447, 1⟩,
  ⟨2290462303977, -7, 2788567577052, 1, 1045155034888, 1⟩,
  ⟨1945398522914, -7, 3290896998176, 1, 1155361302111, 1⟩,
  ⟨1849171512638, -7, 2698060129367, 1, 4452511715700, -2⟩,
  ⟨1647199834254, -7, 3016735644085, 1, 4408250688924, 0⟩,
  ⟨1529530765273, -7, 5573043116178, 1, 6521991896920, -1⟩,
  ⟨1433199339978, -7, 1481192356147, 1, 9420622223326, 0⟩,
  ⟨1729134193602, -7, 1422817538933, 1, 2108507877249, 0⟩,
  ⟨1716463931346, -7, 3469468901855, 1, 2157473718317, 0⟩,
  ⟨1391206061378, -7, 6122436220547, 1, 4123712502208, 0⟩,
  ⟨1404746661924, -7, 1647765641936, 1, 4258542984690, -1⟩,
  ⟨1410452399455, -7, 5989729161964, 1, 2258291676434, 0⟩,
  ⟨1089828772168, -7, 2833705509371, 1, 4226656969313, 0⟩,
  ⟨1047374564948, -7, 5090690007331, 0, 3092784376656, 0⟩,
  ⟨1358279126532, -7, 5128990262836, 1, 7923417740620, -1⟩,
  ⟨1020456476148, -7, 9632772880808, 0, 1456308687557, 0⟩,
  ⟨1033428735328, -7, 3223779318418, 1, 1795258541446, 1⟩,
  ⟨1412435841540, -7, 2410271572721, 1, 1525316725248, 0⟩,
  ⟨9722759371574, -8, 2333531395690, 1, 8434341241180, -1⟩,
  ⟨9657334084704, -8, 6199270974168, 1, 1272681024002, 1⟩,
  ⟨1083641148690, -7, 2864222292929, 1, 7032915397480, -1⟩,
  ⟨1067318403838, -7, 5833458866568, 0, 2123349582968, 0⟩,
  ⟨1062366201976, -7, 4307753989494, 1, 2142632012598, 0⟩,
  ⟨1236364149266, -7, 2873917870593, 1, 1847279083684, 0⟩,
  ⟨1092759489593, -7, 2959887266733, 1, 1370332435159, 0⟩,
  ⟨8912069362899, -8, 5141213702562, 1, 2648454860559, 1⟩,
  ⟨9656467707970, -8, 4532182462323, 1, 4376440768498, 0⟩,
  ⟨8098386150135, -8, 2268906338379, 1, 2880807454688, 0⟩,
  ⟨7857714675000, -8, 4055544260745, 1, 2037373330570, 0⟩,
  ⟨7288455940646, -8, 5357901655142, 1, 1129145838217, 0⟩,
  ⟨9450595950552, -8, 4264926963939, 1, 5272426800584, 0⟩,
  ⟨9381718247537, -8, 7489366976576, -1, 5321392641652, 0⟩,
  ⟨7079052646038, -8, 1923311052874, 1, 6288513220417, 0⟩,
  ⟨9259004415344, -8, 2970256853438, 1, 1606092486742, 0⟩,
  ⟨8259801499742, -8, 3327056314697, 1, 8389694097774, 0⟩,
  ⟨6476334355779, -8, 2954925505727, 1, 2008557621224, 1⟩,
  ⟨5984021492007, -8, 9138753105829, 0, 2042657109477, 2⟩,
  ⟨5989546863181, -8, 3244464082031, 1, 2111650433779, 1⟩,
  ⟨6233108606023, -8, 4995232638403, 0, 4305306221819, 0⟩,
  ⟨6877299149965, -8, 2834987233449, 1, 9561746721300, -2⟩,
  ⟨8311234227190, -8, 2202951835758, 1, 3801276407308, 0⟩,
  ⟨6599472832414, -8, 4478581462618, 1, 1063314406849, 1⟩,
  ⟨6160491096549, -8, 5145858696411, 1, 1368660381889, 1⟩,
  ⟨6164772043891, -8, 3762976697911, 0, 4234171675140, 0⟩,
  ⟨6363248684450, -8, 3162246718685, 1, 1253008786510, -1⟩,
  ⟨6448587520999, -8, 3442693302119, 1, 5287268506303, 0⟩,
  ⟨6431662283977, -8, 8977549136606, 0, 5306550935933, 0⟩,
  ⟨6351223158474, -8, 4306447410369, 1, 5217580628120, 2⟩,
  ⟨5476721393451, -8, 3888529177855, 1, 2221856701002, 1⟩,
  ⟨5341772572619, -8, 2655560662512, 1, 7466759693650, -1⟩,
  ⟨5337055758302, -8, 5164990735946, 1, 7489573444450, -1⟩,
  ⟨5373120816787, -8, 6041214553456, 1, 1274714967946, 0⟩,
  ⟨5392351705426, -8, 9177763485932, 0, 1055449481598, 1⟩,
  ⟨6688495850205, -8, 3089608126937, 1, 2213766559277, 0⟩,
  ⟨5072003660362, -8, 4311316541553, 1, 2132517061319, 0⟩,
  ⟨5070726650455, -8, 5790675464444, 0, 2133464534247, 0⟩,
  ⟨5658012950032, -8, 2703945510675, 1, 7287631425543, 0⟩,
  ⟨4835509924854, -8, 2975422976065, 1, 7160067364790, -1⟩,
  ⟨6479821978012, -8, 1324168733114, 1, 2209183458640, -1⟩,
  ⟨6230636494980, -8, 2860103632836, 1, 3306188016693, 0⟩,
  ⟨4649239516213, -8, 4832259763403, 1, 7796265773310, -1⟩,
  ⟨6487325792700, -8, 2726165825042, 1, 3884652414254, 0⟩,
  ⟨4682823682770, -8, 6966602455408, 0, 1073608853559, 1⟩,
  ⟨5704230804976, -8, 5669634104606, 1, 8731175355560, -1⟩,
  ⟨6125413585489, -8, 1513386538915, 1, 7605151500000, -1⟩,
  ⟨6035825038187, -8, 1983509168227, 1, 9846002785331, 0⟩,
  ⟨4331123462303, -8, 2782892992807, 1, 4297791515992, 0⟩,
  ⟨4681107685143, -8, 5337232886836, 1, 2127790306879, 0⟩,
  ⟨4669105829655, -8, 5837133792160, 1, 2138191288687, 0⟩,
  ⟨5138823602365, -8, 3080560200507, 1, 7233337363710, -1⟩,
  ⟨4615856664534, -8, 1661747897471, 1, 8603097737811, 0⟩,
  ⟨4496916702197, -8, 2112508027068, 1, 7381754420900, -1⟩,
  ⟨4278479042945, -8, 5716528462627, 1, 7574578717200, -1⟩,
  ⟨3840525503932, -8, 6424172726492, 0, 3407705765729, 0⟩,
  ⟨4866636509685, -8, 4919244697715, 1, 7722995774390, -1⟩,
  ⟨3526100639296, -8, 2550821052734, 1, 6225157782540, -1⟩,
  ⟨3939558488075, -8, 3939331491710, 1, 5268983110410, -1⟩,
  ⟨4041268772576, -8, 2275337571218, 1, 3503323232942, 0⟩,
  ⟨3948761842853, -8, 1999324200790, 1, 1451108196653, 0⟩,
  ⟨3258394550029, -8, 9121001378200, 0, 5296435984654, 0⟩,
  ⟨3257897048761, -8, 3428428660869, 1, 5297383457582, 0⟩,
  ⟨3842559031298, -8, 6132927720035, 1, 9098186128426, 0⟩,
  ⟨3109920095448, -8, 7693650193003, 0, 3932462625300, -2⟩,
  ⟨3132237775119, -8, 3621293854908, 1, 2346394437820, 0⟩,
  ⟨3942189421510, -8, 4841863659733, 1, 3180992042600, -2⟩,
  ⟨3796972285340, -8, 1814174994268, 1, 1862120789403, 0⟩,
  ⟨3995640233688, -8, 1386990406091, 1, 4549093064213, 0⟩,
  ⟨2875013727414, -8, 9178318587177, 0, 1905464808669, 1⟩,
  ⟨3073719932844, -8, 2688923811835, 1, 3628624111593, 0⟩,
  ⟨2731016580075, -8, 1188259127584, 1, 2131850110243, 0⟩,
  ⟨2729549896546, -8, 3702160634273, 1, 2134131485323, 0⟩,
  ⟨3339372892449, -8, 7199163960331, 0, 2007689919132, 0⟩,
  ⟨2898833764204, -8, 1916709364999, 1, 5291709230214, 0⟩,
  ⟨2894536549362, -8, 2424043195547, 1, 5302110212022, 0⟩,
  ⟨3096872473843, -8, 4445894977497, 1, 2976424921901, 0⟩,
  ⟨2635672326810, -8, 3814366984117, 1, 1485980103780, 1⟩,
  ⟨3649302697001, -8, 2924200596084, 1, 6044726378023, 0⟩,
  ⟨3127954585895, -8, 1842251648327, 1, 1084620721060, 0⟩,
  ⟨2616040173947, -8, 4155841921984, 1, 1258454114666, 1⟩,
  ⟨2597395859860, -8, 1158045978874, 0, 2103781122809, 0⟩,
  ⟨2593286172210, -8, 4771850408691, 1, 2162200472757, 0⟩,
  ⟨2481823585747, -8, 4608842558889, 0, 1062562936266, 1⟩,
  ⟨2742219550725, -8, 1538781127028, 1, 5651155736444, 0⟩,
  ⟨3199558469610, -8, 3226647822878, 0, 7036329877322, 0⟩,
  ⟨2666088542957, -8, 1967991731219, 0, 1400015846597, 0⟩,
  ⟨2397067430580, -8, 3707036669873, 1, 2125476091956, 0⟩,
  ⟨2376570772738, -8, 1182086628042, 1, 2140505503610, 0⟩,
  ⟨2547228007887, -8, 4906256820629, 1, 1534957940063, 0⟩,
  ⟨2265575594114, -8, 3414949866857, 1, 2235935264888, 0⟩,
  ⟨2464381430585, -8, 4599122275378, 1, 2091065926078, 0⟩,
  ⟨2433408527044, -8, 2830751145445, 0, 2174915669488, 0⟩,
  ⟨2443605509076, -8, 4212046432538, 1, 1739420156204, 0⟩,
  ⟨2319779262465, -8, 9881978408630, 0, 7530171478090, -1⟩,
  ⟨2284622835465, -8, 5565347331588, 0, 7426161660010, -1⟩,
  ⟨2467268750783, -8, 5655708150766, 0, 2526561439362, 0⟩,
  ⟨2808513492782, -8, 1418405053408, 1, 5636314030725, 0⟩,
  ⟨2329528932532, -8, 4069557545675, 1, 1056200952181, 1⟩,
  ⟨9698639532817, -9, 1074134313634, 1, 7826370942180, 2⟩]

/-- src/epv.cc:1701-1913 `S0[1]` -/
def s0y : List Term := [
  ⟨4955392320126, -2, 2170467313679, 1, 5296909721118, 0⟩,
  ⟨2722325167392, -2, 2444433682196, 1, 2132990797783, 0⟩,
  ⟨1546579925346, -2, 5992779281546, 0, 3813291813120, -1⟩,
  ⟨8363140252966, -3, 7687356310801, 0, 7478166569050, -1⟩,
  ⟨3385792683603, -3, 0, 0, 0, 0⟩,
  ⟨1201192221613, -3, 2520035601514, 1, 1059381944224, 1⟩,
  ⟨7587125720554, -4, 1669954006449, 1, 4265981595566, 0⟩,
  ⟨1964155361250, -4, 5707743963343, 1, 2061856251104, 0⟩,
  ⟨1891900364909, -4, 2320960679937, 1, 2204125344462, 0⟩,
  ⟨1937373433356, -4, 3226940689555, 1, 1495633313810, 0⟩,
  ⟨1437139941351, -4, 2301626908096, 1, 5225775174439, 0⟩,
  ⟨1406267683099, -4, 5188579265542, 1, 5368044267797, 0⟩,
  ⟨1178703080346, -4, 5489483248476, 1, 7626583626240, -1⟩,
  ⟨8079835186041, -5, 1683751835264, 1, 3664874755930, -1⟩,
  ⟨7623253594652, -5, 2656400462961, 1, 3961708870310, -1⟩,
  ⟨6248667483971, -5, 4992775362055, 1, 7329749511860, -1⟩,
  ⟨4366353695038, -5, 2869706279678, 1, 1589072916335, 1⟩,
  ⟨3829101568895, -5, 3572131359950, 1, 7113454667900, -2⟩,
  ⟨3175733773908, -5, 4535372530045, 1, 4194847048887, 0⟩,
  ⟨3092437902159, -5, 9230153317909, 0, 6398972393349, 0⟩,
  ⟨2874168812154, -5, 3363143761101, 1, 1102062672231, 0⟩,
  ⟨3040119321826, -5, 3324250895675, 1, 6283075850446, 1⟩,
  ⟨2699723308006, -5, 2917882441928, 0, 1030928125552, 0⟩,
  ⟨2134832683534, -5, 4220997202487, 1, 3163918923335, 0⟩,
  ⟨1770412139433, -5, 4747318496462, 1, 1021328554739, 2⟩,
  ⟨1377264209373, -5, 4305058462401, 0, 1484170571900, -2⟩,
  ⟨1127814538960, -5, 8538177240740, 0, 6327837846670, 0⟩,
  ⟨1055608090130, -5, 1551800742580, 1, 4337116142245, 0⟩,
  ⟨9802673861420, -6, 1459646735377, 1, 1052268489556, 1⟩,
  ⟨1090329461951, -5, 1587351228711, 1, 1162474756779, 1⟩,
  ⟨6959590025090, -6, 5534442628766, 1, 1066495398892, 1⟩,
  ⟨5664914529542, -6, 6030673003297, 1, 9491756770005, 0⟩,
  ⟨6607787763599, -6, 4989507233927, 1, 8460828644453, 0⟩,
  ⟨6269725742838, -6, 4222951804572, 1, 1480791608091, 0⟩,
  ⟨6301889697863, -6, 5444316669126, 1, 2243449970715, 0⟩,
  ⟨4891042662861, -6, 1490552839784, 1, 3340612434717, 1⟩,
  ⟨3457083123290, -6, 3030475486049, 1, 3516457698740, -1⟩,
  ⟨3032559967314, -6, 2652038793632, 1, 1104591729320, -1⟩,
  ⟨2841133988903, -6, 1276744786829, 1, 4110125927500, -1⟩,
  ⟨2855564444432, -6, 2143368674733, 1, 1510475019529, 0⟩,
  ⟨2765157135038, -6, 5444186109077, 1, 6373574839730, -1⟩,
  ⟨2382312465034, -6, 2190521137593, 1, 2275259891141, 0⟩,
  ⟨2808060365077, -6, 5735195064841, 1, 2535050500000, -1⟩,
  ⟨2332175234405, -6, 9481985524859, -1, 7181332454670, -1⟩,
  ⟨2322488199659, -6, 5180499361533, 1, 8582758298370, -1⟩,
  ⟨1881850258423, -6, 3219788273885, 1, 2118763888447, 1⟩,
  ⟨2196111392808, -6, 2366941159761, 1, 2968341143800, -2⟩,
  ⟨2183810335519, -6, 4825445110915, 1, 7775000683430, -1⟩,
  ⟨2002733093326, -6, 2457148995307, 1, 2093666171530, 0⟩,
  ⟨1967111767229, -6, 5586291545459, 1, 2172315424036, 0⟩,
  ⟨1568473250543, -6, 3708003123320, 1, 7429900518901, 0⟩,
  ⟨1852528314300, -6, 4310638151560, 1, 2022531624851, 0⟩,
  ⟨1832111226447, -6, 1494665322656, 1, 3235053470014, 0⟩,
  ⟨1746805502310, -6, 1451378500784, 1, 1385174140878, 0⟩,
  ⟨1555730966650, -6, 1068040418198, 1, 7358765972222, 0⟩,
  ⟨1554883462559, -6, 2442579035461, 1, 5154640627760, 0⟩,
  ⟨1638380568746, -6, 2597913420625, 0, 8531963191132, 0⟩,
  ⟨1159938593640, -6, 5834512021280, 1, 1990721704425, 0⟩,
  ⟨1083427965695, -6, 5054033177950, 1, 5439178814476, 0⟩,
  ⟨1156480369431, -6, 5325677432457, 1, 5257585094865, 0⟩,
  ⟨1141308860095, -6, 2153403923857, 1, 5336234347371, 0⟩,
  ⟨7913146470946, -7, 8642846847027, 0, 1478866649112, 1⟩,
  ⟨7439752463733, -7, 1970628496213, 1, 2164800718209, 0⟩,
  ⟨7280277104079, -7, 6073307250609, 1, 2101180877357, 0⟩,
  ⟨8319567719136, -7, 1954371928334, 1, 1692165728891, 1⟩,
  ⟨7137705549290, -7, 8904989440909, 0, 4155522422634, 0⟩,
  ⟨6900825396225, -7, 2825717714977, 1, 1173197218910, 0⟩,
  ⟨7245757216635, -7, 2481677513331, 1, 1265567569334, 1⟩,
  ⟨6961165696255, -7, 1292955312978, 1, 9562891316684, 0⟩,
  ⟨7571804456890, -7, 3427517575069, 1, 1422690933580, -1⟩,
  ⟨6605425721904, -7, 8052192701492, 0, 6470106940028, 0⟩,
  ⟨7375477357248, -7, 1705076390088, 1, 1581959461667, 1⟩,
  ⟨7041664951470, -7, 4848356967891, 0, 9597935788730, -1⟩,
  ⟨6322199535763, -7, 3878069473909, 1, 7084920306520, -1⟩,
  ⟨5244380279191, -7, 2645560544125, 1, 5265099800692, 0⟩,
  ⟨5143125704988, -7, 4834486101370, 1, 5328719641544, 0⟩,
  ⟨5871866319373, -7, 7981472548900, 0, 7871412831580, -1⟩,
  ⟨6300822573871, -7, 5979398788281, 1, 2608790314060, 2⟩,
  ⟨6062154271548, -7, 4108655402756, 1, 1114304132498, 0⟩,
  ⟨4361912339976, -7, 5322624319280, 1, 1375773836557, 1⟩,
  ⟨4417005920067, -7, 6240817359284, 1, 2770348281756, 0⟩,
  ⟨4686806749936, -7, 3214977301156, 1, 1143987543936, 0⟩,
  ⟨3758892132305, -7, 5879809634765, 1, 1596186371003, 1⟩,
  ⟨5151351332319, -7, 2893377688007, 0, 2228608264996, 0⟩,
  ⟨4554683578572, -7, 5475427144122, 1, 1465949902372, 0⟩,
  ⟨3442381385338, -7, 5992034796640, 1, 5070101000000, -1⟩,
  ⟨2831093954933, -7, 5367350273914, 1, 3092784376656, 0⟩,
  ⟨3756267090084, -7, 5758171285420, 1, 4903339079539, 0⟩,
  ⟨2816374679892, -7, 1863718700923, 1, 2991266627620, 0⟩,
  ⟨3419307025569, -7, 9524347534130, 0, 3518164938661, 0⟩,
  ⟨2904250494239, -7, 5304471615602, 1, 1099462426779, 0⟩,
  ⟨2471734511206, -7, 1297069793530, 1, 6256703299991, 0⟩,
  ⟨2539620831872, -7, 3281126083375, 1, 1256615170089, 2⟩,
  ⟨2281017868007, -7, 1829122133165, 1, 6681224869435, 1⟩,
  ⟨2275319473335, -7, 5797198160181, 1, 3932462625300, -2⟩,
  ⟨2547755368442, -7, 4752697708330, 1, 1169588211447, 1⟩,
  ⟨2285979669317, -7, 1223205292886, 1, 1045155034888, 1⟩,
  ⟨1913386560994, -7, 1757532993389, 1, 1155361302111, 1⟩,
  ⟨1809020525147, -7, 4246116108791, 1, 3368040641550, -1⟩,
  ⟨1649213300201, -7, 1445162890627, 1, 4408250688924, 0⟩,
  ⟨1834972793932, -7, 1126917567225, 1, 4452511715700, -2⟩,
  ⟨1439550648138, -7, 6160756834764, 1, 9420622223326, 0⟩,
  ⟨1487645457041, -7, 4358761931792, 1, 4123712502208, 0⟩,
  ⟨1731729516660, -7, 6134456753344, 1, 2108507877249, 0⟩,
  ⟨1717747163567, -7, 1898186084455, 1, 2157473718317, 0⟩,
  ⟨1418190430374, -7, 4180286741266, 1, 6521991896920, -1⟩,
  ⟨1404844134873, -7, 7654053565412, -1, 4258542984690, -1⟩,
  ⟨1409842846538, -7, 4418612420312, 1, 2258291676434, 0⟩,
  ⟨1090948346291, -7, 1260615686131, 1, 4226656969313, 0⟩,
  ⟨1357577323612, -7, 3558248818690, 1, 7923417740620, -1⟩,
  ⟨1018154061960, -7, 5676087241256, 1, 1456308687557, 0⟩,
  ⟨1412073972109, -7, 8394392632422, 0, 1525316725248, 0⟩,
  ⟨1030938326496, -7, 1653593274064, 1, 1795258541446, 1⟩,
  ⟨1180081567104, -7, 1285802592036, 1, 7032915397480, -1⟩,
  ⟨9708510575650, -8, 7631889488106, 0, 8434341241180, -1⟩,
  ⟨9637689663447, -8, 4630642649176, 1, 1272681024002, 1⟩,
  ⟨1068910429389, -7, 5294934032165, 1, 2123349582968, 0⟩,
  ⟨1063716179336, -7, 2736266800832, 1, 2142632012598, 0⟩,
  ⟨1234858713814, -7, 1302891146570, 1, 1847279083684, 0⟩,
  ⟨8912631189738, -8, 3570415993621, 1, 2648454860559, 1⟩,
  ⟨1036378285534, -7, 4236693440949, 1, 1370332435159, 0⟩,
  ⟨9667798501561, -8, 2960768892398, 1, 4376440768498, 0⟩,
  ⟨8108314201902, -8, 6987781646841, 0, 2880807454688, 0⟩,
  ⟨7648364324628, -8, 2499017863863, 1, 2037373330570, 0⟩,
  ⟨7286136828406, -8, 3787426951665, 1, 1129145838217, 0⟩,
  ⟨9448237743913, -8, 2694354332983, 1, 5272426800584, 0⟩,
  ⟨9374276106428, -8, 4787121277064, 1, 5321392641652, 0⟩,
  ⟨7100226287462, -8, 3530238792101, 0, 6288513220417, 0⟩,
  ⟨9253056659571, -8, 1399478925664, 1, 1606092486742, 0⟩,
  ⟨6636432145504, -8, 3479575438447, 1, 1368660381889, 1⟩,
  ⟨6469975312932, -8, 1383669964800, 1, 2008557621224, 1⟩,
  ⟨7335849729765, -8, 1243698166898, 1, 9561746721300, -2⟩,
  ⟨8743421205855, -8, 3776164289301, 1, 3801276407308, 0⟩,
  ⟨5993635744494, -8, 5627122113596, 1, 2042657109477, 2⟩,
  ⟨5981008479693, -8, 1674336636752, 1, 2111650433779, 1⟩,
  ⟨6188535145838, -8, 5214925208672, 1, 4305306221819, 0⟩,
  ⟨6596074017566, -8, 2907653268124, 1, 1063314406849, 1⟩,
  ⟨6630815126226, -8, 2127643669658, 1, 8389694097774, 0⟩,
  ⟨6156772830040, -8, 5082160803295, 1, 4234171675140, 0⟩,
  ⟨6446960563014, -8, 1872100916905, 1, 5287268506303, 0⟩,
  ⟨6429324424668, -8, 5610276103577, 1, 5306550935933, 0⟩,
  ⟨6302232396465, -8, 1592152049607, 1, 1253008786510, -1⟩,
  ⟨6399244436159, -8, 2746214421532, 1, 5217580628120, 2⟩,
  ⟨5474965172558, -8, 2317666374383, 1, 2221856701002, 1⟩,
  ⟨5339293190692, -8, 1084724961156, 1, 7466759693650, -1⟩,
  ⟨5334733683389, -8, 3594106067745, 1, 7489573444450, -1⟩,
  ⟨5392665782110, -8, 5630254365606, 1, 1055449481598, 1⟩,
  ⟨6682075673789, -8, 1518480041732, 1, 2213766559277, 0⟩,
  ⟨5079130495960, -8, 2739765115711, 1, 2132517061319, 0⟩,
  ⟨5077759793261, -8, 5290711290094, 1, 2133464534247, 0⟩,
  ⟨4832037368310, -8, 1404473217200, 1, 7160067364790, -1⟩,
  ⟨6463279674802, -8, 6038381695210, 1, 2209183458640, -1⟩,
  ⟨6240592771560, -8, 1290170653666, 1, 3306188016693, 0⟩,
  ⟨4672013521493, -8, 3261895939677, 1, 7796265773310, -1⟩,
  ⟨6500650750348, -8, 1154522312095, 1, 3884652414254, 0⟩,
  ⟨6344161389053, -8, 6206111545062, 1, 7605151500000, -1⟩,
  ⟨4682518370646, -8, 5409118796685, 1, 1073608853559, 1⟩,
  ⟨5329460015591, -8, 1202985784864, 1, 7287631425543, 0⟩,
  ⟨5701588675898, -8, 4098715257064, 1, 8731175355560, -1⟩,
  ⟨6030690867211, -8, 4132033218460, 0, 9846002785331, 0⟩,
  ⟨4336256312655, -8, 1211415991827, 1, 4297791515992, 0⟩,
  ⟨4688498808975, -8, 3765479072409, 1, 2127790306879, 0⟩,
  ⟨4675578609335, -8, 4265540037226, 1, 2138191288687, 0⟩,
  ⟨4225578112158, -8, 5237566010676, 1, 3407705765729, 0⟩,
  ⟨5139422230028, -8, 1507173079513, 1, 7233337363710, -1⟩,
  ⟨4619995093571, -8, 9023957449848, -1, 8603097737811, 0⟩,
  ⟨4494776255461, -8, 5414930552139, 0, 7381754420900, -1⟩,
  ⟨4274026276788, -8, 4145735303659, 1, 7574578717200, -1⟩,
  ⟨5018141789353, -8, 3344408829055, 1, 3180992042600, -2⟩,
  ⟨4866163952181, -8, 3348534657607, 1, 7722995774390, -1⟩,
  ⟨4111986020501, -8, 4198823597220, 0, 1451108196653, 0⟩,
  ⟨3356142784950, -8, 5609144747180, 1, 1274714967946, 0⟩,
  ⟨4070575554551, -8, 7028411059224, 0, 3503323232942, 0⟩,
  ⟨3257451857278, -8, 5624697983086, 1, 5296435984654, 0⟩,
  ⟨3256973703026, -8, 1857842076707, 1, 5297383457582, 0⟩,
  ⟨3830771508640, -8, 4562887279931, 1, 9098186128426, 0⟩,
  ⟨3725024005962, -8, 2358058692652, 0, 1084620721060, 0⟩,
  ⟨3136763921756, -8, 2049731526845, 1, 2346394437820, 0⟩,
  ⟨3795147256194, -8, 2432356296933, 0, 1862120789403, 0⟩,
  ⟨2877342229911, -8, 5631101279387, 1, 1905464808669, 1⟩,
  ⟨3076931798805, -8, 1117615737392, 1, 3628624111593, 0⟩,
  ⟨2734765945273, -8, 5899826516955, 1, 2131850110243, 0⟩,
  ⟨2733405296885, -8, 2130562964070, 1, 2134131485323, 0⟩,
  ⟨2898552353410, -8, 3462387048225, 0, 5291709230214, 0⟩,
  ⟨2893736103681, -8, 8534352781543, 0, 5302110212022, 0⟩,
  ⟨3095717734137, -8, 2875061429041, 1, 2976424921901, 0⟩,
  ⟨2636190425832, -8, 2242512846659, 1, 1485980103780, 1⟩,
  ⟨3645512095537, -8, 1354016903958, 1, 6044726378023, 0⟩,
  ⟨2808173547723, -8, 6705114365631, -1, 6225157782540, -1⟩,
  ⟨2625012866888, -8, 4775705748482, 1, 5268983110410, -1⟩,
  ⟨2572233995651, -8, 2638924216139, 1, 1258454114666, 1⟩,
  ⟨2604238824792, -8, 4826358927373, 1, 2103781122809, 0⟩,
  ⟨2596886385239, -8, 3200388483118, 1, 2162200472757, 0⟩,
  ⟨3228057304264, -8, 5384848409563, 1, 2007689919132, 0⟩,
  ⟨2481601798252, -8, 5173373487744, 1, 1062562936266, 1⟩,
  ⟨2745977498864, -8, 6250966149853, 1, 5651155736444, 0⟩,
  ⟨2669878833811, -8, 4906001352499, 1, 1400015846597, 0⟩,
  ⟨3203986611711, -8, 5034333010005, 1, 7036329877322, 0⟩,
  ⟨3354961227212, -8, 6108262423137, 1, 4549093064213, 0⟩,
  ⟨2400407324558, -8, 2135399294955, 1, 2125476091956, 0⟩,
  ⟨2379905859802, -8, 5893721933961, 1, 2140505503610, 0⟩,
  ⟨2550844302187, -8, 3331940762063, 1, 1534957940063, 0⟩,
  ⟨2268824211001, -8, 1843418461035, 1, 2235935264888, 0⟩,
  ⟨2464700891204, -8, 3029548547230, 1, 2091065926078, 0⟩,
  ⟨2436814726024, -8, 4994717970364, 1, 2174915669488, 0⟩,
  ⟨2443623894745, -8, 2645102591375, 1, 1739420156204, 0⟩,
  ⟨2318701783838, -8, 5700547397897, 1, 7530171478090, -1⟩,
  ⟨2284448700256, -8, 5268898905872, 1, 7426161660010, -1⟩,
  ⟨2468848123510, -8, 5276280575078, 1, 2526561439362, 0⟩,
  ⟨2814052350303, -8, 6130168623475, 1, 5636314030725, 0⟩,
  ⟨2243662755220, -8, 6631692457995, 0, 8886590321940, -1⟩,
  ⟨2330795855941, -8, 2499435487702, 1, 1056200952181, 1⟩,
  ⟨9757679038404, -9, 5796846023126, 1, 7826370942180, 2⟩]

/-- src/epv.cc:1917-1985 `S0[2]` -/
def s0z : List Term := [
  ⟨1181255122986, -3, 4607918989164, 0, 2132990797783, 0⟩,
  ⟨1127777651095, -3, 4169146331296, 0, 5296909721118, 0⟩,
  ⟨4777754401806, -4, 4582657007130, 1, 3813291813120, -1⟩,
  ⟨1129354285772, -4, 5758735142480, 1, 7478166569050, -1⟩,
  ⟨-1149543637123, -4, 0, 0, 0, 0⟩,
  ⟨3298730512306, -5, 5978801994625, 1, 4265981595566, 0⟩,
  ⟨2733376706079, -5, 7665413691040, 0, 1059381944224, 1⟩,
  ⟨9426389657270, -6, 3710201265838, 1, 2061856251104, 0⟩,
  ⟨8187517749552, -6, 3390675605802, 0, 2204125344462, 0⟩,
  ⟨4080447871819, -6, 4552296640088, 0, 5225775174439, 0⟩,
  ⟨3169973017028, -6, 3445455899321, 1, 5368044267797, 0⟩,
  ⟨2438098615549, -6, 5664675150648, 1, 3664874755930, -1⟩,
  ⟨2601897517235, -6, 1931894095697, 1, 1495633313810, 0⟩,
  ⟨2314558080079, -6, 3666319115574, 0, 3961708870310, -1⟩,
  ⟨1962549548002, -6, 3167411699020, 1, 7626583626240, -1⟩,
  ⟨2180518287925, -6, 1544420746580, 1, 7113454667900, -2⟩,
  ⟨1451382442868, -6, 1583756740070, 1, 1102062672231, 0⟩,
  ⟨1358439007389, -6, 5239941758280, 1, 6398972393349, 0⟩,
  ⟨1050585898028, -6, 2266958352859, 1, 3163918923335, 0⟩,
  ⟨1050029870186, -6, 2711495250354, 1, 4194847048887, 0⟩,
  ⟨9934920679800, -7, 1116208151396, 1, 1589072916335, 1⟩,
  ⟨1048395331560, -6, 3408619600206, 1, 1021328554739, 2⟩,
  ⟨8370147196668, -7, 3810459401087, 1, 2535050500000, -1⟩,
  ⟨7989856510998, -7, 3769910473647, 1, 7329749511860, -1⟩,
  ⟨5441221655233, -7, 2416994903374, 1, 1030928125552, 0⟩,
  ⟨4610812906784, -7, 5858503336994, 1, 4337116142245, 0⟩,
  ⟨3923022803444, -7, 3354170010125, 0, 1484170571900, -2⟩,
  ⟨2610725582128, -7, 5410600646324, 1, 6327837846670, 0⟩,
  ⟨2455279767721, -7, 6120216681403, 1, 1162474756779, 1⟩,
  ⟨2375530706525, -7, 6055443426143, 1, 1052268489556, 1⟩,
  ⟨1782967577553, -7, 3146108708004, 1, 8460828644453, 0⟩,
  ⟨1581687095238, -7, 6255496089819, 0, 3340612434717, 1⟩,
  ⟨1594657672461, -7, 3782604300261, 1, 1066495398892, 1⟩,
  ⟨1563448615040, -7, 1997775733196, 1, 2022531624851, 0⟩,
  ⟨1463624258525, -7, 1736316792088, 0, 3516457698740, -1⟩,
  ⟨1331585056673, -7, 4331941830747, 1, 9491756770005, 0⟩,
  ⟨1130634557637, -7, 6152017751825, 1, 2968341143800, -2⟩,
  ⟨1028949607145, -7, 2101792614637, 0, 2275259891141, 0⟩,
  ⟨1024074971618, -7, 4071833211074, 1, 5070101000000, -1⟩,
  ⟨8826956060303, -8, 4861633688145, 0, 2093666171530, 0⟩,
  ⟨8572230171541, -8, 5268190724302, 1, 4110125927500, -1⟩,
  ⟨7649332643544, -8, 5134543417106, 1, 2608790314060, 2⟩,
  ⟨8581673291033, -8, 2920218146681, 1, 1480791608091, 0⟩,
  ⟨8430589300938, -8, 3604576619108, 1, 2172315424036, 0⟩,
  ⟨7776165501012, -8, 3772942249792, 1, 6373574839730, -1⟩,
  ⟨8311070234408, -8, 6200412329888, 1, 3235053470014, 0⟩,
  ⟨6927365212582, -8, 4543353113437, 1, 8531963191132, 0⟩,
  ⟨6791574208598, -8, 2882188406238, 1, 7181332454670, -1⟩,
  ⟨5593100811839, -8, 1776646892780, 1, 7429900518901, 0⟩,
  ⟨4553381853021, -8, 3949617611240, 1, 7775000683430, -1⟩,
  ⟨5758000450068, -8, 3859251775075, 1, 1990721704425, 0⟩,
  ⟨4281283457133, -8, 1466294631206, 1, 2118763888447, 1⟩,
  ⟨4206935661097, -8, 5421776011706, 1, 1104591729320, -1⟩,
  ⟨4213751641837, -8, 3412048993322, 1, 2243449970715, 0⟩,
  ⟨5310506239878, -8, 5421641370995, 0, 5154640627760, 0⟩,
  ⟨3827450341320, -8, 8887314524995, 0, 1510475019529, 0⟩,
  ⟨4292435241187, -8, 1405043757194, 1, 1422690933580, -1⟩,
  ⟨3189780702289, -8, 1060049293445, 1, 1173197218910, 0⟩,
  ⟨3226611928069, -8, 6270858897442, 1, 2164800718209, 0⟩,
  ⟨2893897608830, -8, 5117563223301, 1, 6470106940028, 0⟩,
  ⟨3239852024578, -8, 4079092237983, 1, 2101180877357, 0⟩,
  ⟨2956892222200, -8, 1594917021704, 1, 3092784376656, 0⟩,
  ⟨2980177912437, -8, 5258787667564, 1, 4155522422634, 0⟩,
  ⟨3163725690776, -8, 3854589225479, 1, 8582758298370, -1⟩,
  ⟨2662262399118, -8, 3561326430187, 1, 5257585094865, 0⟩,
  ⟨2766689135729, -8, 3180732086830, 0, 1385174140878, 0⟩,
  ⟨2411600278464, -8, 3324798335058, 1, 5439178814476, 0⟩,
  ⟨2483527695131, -8, 4169069291947, 0, 5336234347371, 0⟩,
  ⟨7788777276590, -9, 1900569908215, 1, 5217580628120, 2⟩]

/-- src/epv.cc:1992-2041 `S1[0]` -/
def s1x : List Term := [
  ⟨-1296310361520, -7, 0, 0, 0, 0⟩,
  ⟨8975769009438, -8, 1128891609250, 1, 4265981595566, 0⟩,
  ⟨7771113441307, -8, 2706039877077, 1, 2061856251104, 0⟩,
  ⟨7538303866642, -8, 2191281289498, 1, 2204125344462, 0⟩,
  ⟨6061384579336, -8, 3248167319958, 1, 1059381944224, 1⟩,
  ⟨5726994235594, -8, 5569981398610, 1, 5225775174439, 0⟩,
  ⟨5616492836424, -8, 5057386614909, 1, 5368044267797, 0⟩,
  ⟨1010881584769, -8, 3473577116095, 1, 7113454667900, -2⟩,
  ⟨7259606157626, -9, 3651858593665, 0, 6398972393349, 0⟩,
  ⟨8755095026935, -9, 1662835408338, 1, 4194847048887, 0⟩,
  ⟨5370491182812, -9, 1327673878077, 1, 4337116142245, 0⟩,
  ⟨5743773887665, -9, 4250200846687, 1, 2132990797783, 0⟩,
  ⟨4408103140300, -9, 3598752574277, 1, 1589072916335, 1⟩,
  ⟨3101892374445, -9, 4887822983319, 1, 1052268489556, 1⟩,
  ⟨3209453713578, -9, 9702272295114, 0, 5296909721118, 0⟩,
  ⟨3017228286064, -9, 5484462275949, 1, 1066495398892, 1⟩,
  ⟨3200700038601, -9, 2846613338643, 1, 1495633313810, 0⟩,
  ⟨2137637279911, -9, 5692163292729, 0, 3163918923335, 0⟩,
  ⟨1899686386727, -9, 2061077157189, 1, 2275259891141, 0⟩,
  ⟨1401994545308, -9, 4177771136967, 1, 1102062672231, 0⟩,
  ⟨1578057810499, -9, 5782460597335, 1, 7626583626240, -1⟩,
  ⟨1237713253351, -9, 5705900866881, 1, 5154640627760, 0⟩,
  ⟨1313076837395, -9, 5163438179576, 1, 3664874755930, -1⟩,
  ⟨1184963304860, -9, 3054804427242, 1, 6327837846670, 0⟩,
  ⟨1238130878565, -9, 2317292575962, 1, 3961708870310, -1⟩,
  ⟨1015959527736, -9, 2194643645526, 1, 7329749511860, -1⟩,
  ⟨9017954423714, -10, 2868603545435, 1, 1990721704425, 0⟩,
  ⟨8668024955603, -10, 4923849675082, 1, 5439178814476, 0⟩,
  ⟨7756083930103, -10, 3014334135200, 1, 9491756770005, 0⟩,
  ⟨7536503401741, -10, 2704886279769, 1, 1030928125552, 0⟩,
  ⟨5483308679332, -10, 6010983673799, 1, 8531963191132, 0⟩,
  ⟨5184339620428, -10, 1952704573291, 1, 2093666171530, 0⟩,
  ⟨5108658712030, -10, 2958575786649, 1, 2172315424036, 0⟩,
  ⟨5019424524650, -10, 1736317621318, 1, 2164800718209, 0⟩,
  ⟨4909312625978, -10, 3167216416257, 1, 2101180877357, 0⟩,
  ⟨4456638901107, -10, 7697579923471, 0, 3235053470014, 0⟩,
  ⟨4227030350925, -10, 3490910137928, 1, 6373574839730, -1⟩,
  ⟨4095456040093, -10, 5178888984491, 0, 6470106940028, 0⟩,
  ⟨4990537041422, -10, 3323887668974, 1, 1422690933580, -1⟩,
  ⟨4321170010845, -10, 4288484987118, 1, 7358765972222, 0⟩,
  ⟨3544072091802, -10, 6021051579251, 1, 5265099800692, 0⟩,
  ⟨3480198638687, -10, 4600027054714, 1, 5328719641544, 0⟩,
  ⟨3440287244435, -10, 4349525970742, 1, 8582758298370, -1⟩,
  ⟨3330628322713, -10, 2347391505082, 1, 1104591729320, -1⟩,
  ⟨2973060707184, -10, 4789409286400, 1, 5257585094865, 0⟩,
  ⟨2932606766089, -10, 5831693799927, 1, 5336234347371, 0⟩,
  ⟨2876972310953, -10, 2692638514771, 1, 1173197218910, 0⟩,
  ⟨2827488278556, -10, 2056052487960, 1, 2022531624851, 0⟩,
  ⟨2515028239756, -10, 7411863262449, 0, 9597935788730, -1⟩,
  ⟨2853033744415, -10, 3948481024894, 1, 2118763888447, 1⟩]

/-- src/epv.cc:2045-2094 `S1[1]` -/
def s1y : List Term := [
  ⟨8989047573576, -8, 5840593672122, 1, 4265981595566, 0⟩,
  ⟨7815938401048, -8, 1129664707133, 1, 2061856251104, 0⟩,
  ⟨7550926713280, -8, 6196589104845, 0, 2204125344462, 0⟩,
  ⟨6056556925895, -8, 1677494667846, 1, 1059381944224, 1⟩,
  ⟨5734142698204, -8, 4000920852962, 1, 5225775174439, 0⟩,
  ⟨5614341822459, -8, 3486722577328, 1, 5368044267797, 0⟩,
  ⟨1028678147656, -8, 1877141024787, 1, 7113454667900, -2⟩,
  ⟨7270792075266, -9, 5077167301739, 1, 6398972393349, 0⟩,
  ⟨8734141726040, -9, 9069550282609, -1, 4194847048887, 0⟩,
  ⟨5377371402113, -9, 6039381844671, 1, 4337116142245, 0⟩,
  ⟨4729719431571, -9, 2153086311760, 1, 2132990797783, 0⟩,
  ⟨4458052820973, -9, 5059830025565, 1, 5296909721118, 0⟩,
  ⟨4406855467908, -9, 2027971692630, 1, 1589072916335, 1⟩,
  ⟨3101659310977, -9, 3317677981860, 1, 1052268489556, 1⟩,
  ⟨3016749232545, -9, 3913703482532, 1, 1066495398892, 1⟩,
  ⟨3198541352656, -9, 1275513098525, 1, 1495633313810, 0⟩,
  ⟨2142065389871, -9, 5301351614597, 1, 3163918923335, 0⟩,
  ⟨1902615247592, -9, 4894943352736, 0, 2275259891141, 0⟩,
  ⟨1613410990871, -9, 2449891130437, 1, 1102062672231, 0⟩,
  ⟨1576992165097, -9, 4211421447633, 1, 7626583626240, -1⟩,
  ⟨1241637259894, -9, 4140803368133, 1, 5154640627760, 0⟩,
  ⟨1313974830355, -9, 3591920305503, 1, 3664874755930, -1⟩,
  ⟨1181697118258, -9, 1506314382788, 1, 6327837846670, 0⟩,
  ⟨1238239742779, -9, 7461405378404, 0, 3961708870310, -1⟩,
  ⟨1010107068241, -9, 6271010795475, 0, 7329749511860, -1⟩,
  ⟨9226316616509, -10, 1259158839583, 1, 1990721704425, 0⟩,
  ⟨8664946419555, -10, 3353244696934, 1, 5439178814476, 0⟩,
  ⟨7757230468978, -10, 1447677295196, 1, 9491756770005, 0⟩,
  ⟨7693168628139, -10, 1120509896721, 1, 1030928125552, 0⟩,
  ⟨5487897454612, -10, 4439380426795, 1, 8531963191132, 0⟩,
  ⟨5196118677218, -10, 3788856619137, 0, 2093666171530, 0⟩,
  ⟨5110853339935, -10, 1386879372016, 1, 2172315424036, 0⟩,
  ⟨5027804534813, -10, 1647881805466, 0, 2164800718209, 0⟩,
  ⟨4922485922674, -10, 1594315079862, 1, 2101180877357, 0⟩,
  ⟨6155599524400, -10, 0, 0, 0, 0⟩,
  ⟨4447147832161, -10, 5480720918976, 1, 3235053470014, 0⟩,
  ⟨4144691276422, -10, 1931371033660, 1, 6373574839730, -1⟩,
  ⟨4099950625452, -10, 5229611294335, 1, 6470106940028, 0⟩,
  ⟨5060541682953, -10, 1731112486298, 1, 1422690933580, -1⟩,
  ⟨4293615946300, -10, 2714571038925, 1, 7358765972222, 0⟩,
  ⟨3545659845763, -10, 4451041444634, 1, 5265099800692, 0⟩,
  ⟨3479112041196, -10, 3029385448081, 1, 5328719641544, 0⟩,
  ⟨3438516493570, -10, 2778507143731, 1, 8582758298370, -1⟩,
  ⟨3297341285033, -10, 7898709807584, 0, 1104591729320, -1⟩,
  ⟨2972585818015, -10, 3218785316973, 1, 5257585094865, 0⟩,
  ⟨2931707295017, -10, 4260731012098, 1, 5336234347371, 0⟩,
  ⟨2897198149403, -10, 1120753978101, 1, 1173197218910, 0⟩,
  ⟨2832293240878, -10, 4597682717827, 0, 2022531624851, 0⟩,
  ⟨2864348326612, -10, 2169939928448, 1, 9597935788730, -1⟩,
  ⟨2852714675471, -10, 2377659870578, 1, 2118763888447, 1⟩]

/-- src/epv.cc:2098-2111 `S1[2]` -/
def s1z : List Term := [
  ⟨5444220475678, -8, 1803825509310, 1, 2132990797783, 0⟩,
  ⟨3883412695596, -8, 4668616389392, 1, 5296909721118, 0⟩,
  ⟨1334341434551, -8, 0, 0, 0, 0⟩,
  ⟨3730001266883, -9, 5401405918943, 1, 2061856251104, 0⟩,
  ⟨2894929197956, -9, 4932415609852, 1, 2204125344462, 0⟩,
  ⟨2857950357701, -9, 3154625362131, 1, 7478166569050, -1⟩,
  ⟨2499226432292, -9, 3657486128988, 1, 4265981595566, 0⟩,
  ⟨1937705443593, -9, 5740434679002, 1, 1059381944224, 1⟩,
  ⟨1374894396320, -9, 1712857366891, 1, 5368044267797, 0⟩,
  ⟨1217248678408, -9, 2312090870932, 1, 5225775174439, 0⟩,
  ⟨7961052740870, -10, 5283368554163, 1, 3813291813120, -1⟩,
  ⟨4979225949689, -10, 4298290471860, 1, 4194847048887, 0⟩,
  ⟨4388552286597, -10, 6145515047406, 1, 7113454667900, -2⟩,
  ⟨2586835212560, -10, 3019448001809, 1, 6398972393349, 0⟩]

/-- src/epv.cc:2118-2126 `S2[0]` -/
def s2x : List Term := [
  ⟨1603551636587, -11, 4404109410481, 1, 2061856251104, 0⟩,
  ⟨1556935889384, -11, 4818040873603, 0, 2204125344462, 0⟩,
  ⟨1182594414915, -11, 9935762734472, 0, 5225775174439, 0⟩,
  ⟨1158794583180, -11, 3353180966450, 1, 5368044267797, 0⟩,
  ⟨9597358943932, -12, 5567045358298, 1, 2132990797783, 0⟩,
  ⟨6511516579605, -12, 5630872420788, 1, 4265981595566, 0⟩,
  ⟨7419792747688, -12, 2156188581957, 1, 5296909721118, 0⟩,
  ⟨3951972655848, -12, 1981022541805, 1, 1059381944224, 1⟩,
  ⟨4478223877045, -12, 0, 0, 0, 0⟩]

/-- src/epv.cc:2130-2138 `S2[1]` -/
def s2y : List Term := [
  ⟨1609114495091, -11, 2831096993481, 1, 2061856251104, 0⟩,
  ⟨1560330784946, -11, 5193058213906, 1, 2204125344462, 0⟩,
  ⟨1183535479202, -11, 5707003443890, 1, 5225775174439, 0⟩,
  ⟨1158183066182, -11, 1782400404928, 1, 5368044267797, 0⟩,
  ⟨1032868027407, -11, 4036925452011, 1, 2132990797783, 0⟩,
  ⟨6540142847741, -12, 4058241056717, 1, 4265981595566, 0⟩,
  ⟨7305236491596, -12, 6175401942957, 0, 5296909721118, 0⟩,
  ⟨-5580725052968, -12, 0, 0, 0, 0⟩,
  ⟨3946122651015, -12, 4108265279171, 0, 1059381944224, 1⟩]

/-- src/epv.cc:2142-2143 `S2[2]` -/
def s2z : List Term := [
  ⟨3749920358054, -12, 3230285558668, 1, 2132990797783, 0⟩,
  ⟨2735037220939, -12, 6154322683046, 1, 5296909721118, 0⟩]

end Sla.Epv
