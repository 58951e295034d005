/-!
GENERATED by tools/gen_hashes.py from graphemes/trie.go. Do not edit.
The hashes of the blocks of the tables, checked in Verif/Proofs/ShippedGraphemes.lean.
-/
set_option maxRecDepth 4000
namespace Uax29.Graphemes.Hashes
/-- The hashes of the blocks of `graphemesValues` from block 2 on. -/
def vh : List Nat :=
  [0, 6710403867672283048, 11294534834042222962, 1764932463356131513,
   16673615408448681090, 12555050148702226866, 2831706402570041174, 2119827056457353595,
   14555644706011327755, 15706492890890096936, 17698007587473437040, 15363548257105578251,
   2101167071356351598, 1351676562565009713, 17111454587516202588, 4931399951242181860,
   17602535410447452538, 4352532955385028421, 6039322451427553675, 12676114887865573431,
   10967244754402428415, 530952328914122433, 16951363907682019695, 17292977299149457802,
   9447138809053187105, 3817953306900286671, 12665484804750438143, 13178901163439320174,
   14082021764006948674, 10121718604949129601, 6838722436502479472, 9225526997532394382,
   16896901395606555569, 7239710087319815918, 5072300117995590485, 14727257391688224770,
   18219064128007195569, 11049455773413324326, 14170613034145787561, 10769697033119746649,
   15070585566590906025, 7668246205682259271, 7273673993142861839, 15866119014187607499,
   16133310365343620951, 15733967340436354691, 3666488211525278085, 7167862973817445428,
   13550243120043669095, 1336910975345596207, 7603708643682143127, 14467217074581779172,
   13485670766740694475, 8367908834991301632, 16663845693519783479, 14212536838903769136,
   14362716691104949989, 4465831169157864782, 10711708732002269544, 9646754036480077113,
   2293256551686479693, 15568567723554079866, 3604309570961543433, 17877569984087523787,
   17619439969211154316, 12520015707114755927, 2881063387828260727, 4812399899398421581,
   521627588939158740, 14881891912385360483, 8857105906773307250, 66184311803204342,
   15083751234431198149, 1657320786388693261, 11169584250597317225, 10698652816748513199,
   11582611514261376747, 5059836033849518383, 4343690398056802102, 16599759407600895954,
   9090873738882187264, 16327737882598991849, 9013642728955438751, 3774764427375541265,
   1108894543067549703, 16987507827392583374, 11730116891986916820, 15183327393297412283,
   8828395636015695872, 15723722262180529952, 265464807587807526, 18343799823657872191,
   5483572350974689280, 10901063602662062450, 5082808784782627735, 5215422214476248784,
   5677228154281456492, 14692184687087635915, 8929569335987650560, 16421940634601921535,
   2693777881921584963, 18219988470989349400, 9998248064403202501, 372427839769759002,
   9066146338113092105, 1021097420792867209, 9107783508874164615, 18330453189093064444,
   492935567650609507, 6585242269523050036, 9712343473295932336, 16364718618117995864,
   7755471373372404837, 91647350353479807, 15591524570361540518, 6928841195791061747,
   9772148433554838938, 18075968676736053336, 17933400766873277626, 5918184480018276030,
   18046738891276263251, 8588351295553257472, 705302046136440077, 9203545643182718976,
   18286116194910886770, 4673135524280532992, 8461577604921556992, 6141030768605134848,
   744279987891002982, 9699144102087742417, 6145542599400802659, 6544166794918885667,
   1135566234742429069, 7444096364637585408, 9634356560609669145, 1030136570883620646,
   5003380703013253731, 979948935471434394, 7006838207025075810, 10670089491693153298,
   9891259759480767007, 11584314700952120614, 7372968157305195285, 8480686373794521462,
   9610754978776166490, 16614254014392958975, 16751867318209044238, 14580934358202207153,
   18330169427127673859, 7655059408847554682, 12866962973765600514, 8975487010482146816,
   14991792831429937834, 7307191118157660193, 3185341578241722859, 11378409136539606071,
   8411345539950247104, 5640376904393253889, 8239392692878966784, 9309472266554773051,
   2661329872607266561, 5402252941630976314, 2342275842024500842, 12900341670571656835,
   14795314809415478849, 11621168334892426196, 8997858977524953747, 17242523837823737592,
   4138352846115026942, 16531345514792813053, 17806533640878742637, 15687792070502196683,
   6129622750690690891, 6906343318847780495, 7589295736861775552, 3358455688450294108,
   11809880395203265308, 18282811062957792114, 1909467342363152806, 16697066028953690724,
   15653521511318208971, 14454880459319476683, 12806727441973481620, 8362936543734440804,
   5852543212225543387, 11056824282701611389, 17834735142023649931, 10411727378913731590,
   4323890843730163290, 503164972526338841, 1116300723933337508, 5346261333239946076,
   11008848388700289394, 9710827540006197710, 18404576626079077058, 8150181410531927779,
   14982395638761902519, 7885378209619914164, 10887078220721555253, 8077854042253958516,
   13499617427981998178, 12574005155182827929, 11500030183573074215, 15857339105627182178,
   15433337822722547184, 11543451987133301595, 12162381696916631779, 11546431466784932112,
   258214908735600954, 12615593800086071627, 8495517061827741787, 16374194991483631986,
   12620994234693267179, 4473616811279935241, 1006538994701009209, 16795281556642773362,
   16471022383472097650, 15257998395624523229, 1069556074858276688, 2414332931661577771,
   8827782596716399144, 242374812083440349, 4035930038723043857, 5156514076045278602,
   8768866635359944430, 11713600385872667173, 7598335205574655338, 15233722249024261840,
   12617020419028038998, 8659754138493315694, 10944443734413850994, 9448764111419027036,
   11033339093957993419]
/-- The hashes of the blocks of `graphemesIndex` from block 2 on. The block of the root, number 1 in this list, has 1 in place of a hash. -/
def ih : List Nat :=
  [0, 1, 16917837669130148514, 9328517025018704179,
   629608454630442836, 9961497347530380658, 1266090370337989677, 1278386251145318549,
   15252661733152358927, 4699914983360736985, 1829810399910366434, 12481501305506471815,
   230411686270034803, 15786076409555571338, 16953294970283144980, 1142441437018111592,
   16582585560689707112, 10550948512637822558, 18120053846627448785, 18229084761707074200,
   17803533430572182286, 6849954705641878549, 2010024007570616745]
/-- How many levels there are below the blocks of `graphemesIndex` from block 2 on. -/
def lv : List Nat :=
  [0, 0, 1, 1,
   1, 1, 1, 1,
   1, 1, 1, 1,
   1, 1, 1, 1,
   1, 1, 1, 1,
   2, 1, 2]
end Uax29.Graphemes.Hashes
