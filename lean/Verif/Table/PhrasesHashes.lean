/-!
GENERATED by tools/gen_hashes.py from phrases/trie.go. Do not edit.
The hashes of the blocks of the tables, checked in Verif/Proofs/ShippedPhrases.lean.
-/
set_option maxRecDepth 4000
namespace Uax29.Phrases.Hashes
/-- The hashes of the blocks of `phrasesValues` from block 2 on. -/
def vh : List Nat :=
  [0, 14424746725919014587, 11246019347611980334, 226649422384830254,
   17824873981079213871, 16374194991483631986, 8529421045736245504, 15794142443266054511,
   171556196401977134, 4745025073000347368, 258175719288051246, 7496982044131268398,
   13995325446226331974, 10510410067178948309, 12375529357396638339, 9143327482860480760,
   13367106872183708249, 5062851907915373640, 7591906091372667080, 14095832756832260496,
   2641517972204680085, 7464198720487477749, 4846913198247002930, 5547609459944280479,
   18396711293197348551, 1759647078680942885, 5159514530948127943, 11562161667219943381,
   16571848835545646574, 6057806988020752577, 17087775983253541136, 5753442830579692916,
   1609860947944744416, 11564811862831969637, 6060226910223476783, 10070235708387032577,
   4991693743865180618, 16067271503254245329, 16438865781108400282, 8204102528731269952,
   6670512273153677063, 18164929160349096244, 3531638783038637559, 1918758029236786671,
   586953388380986379, 12080753703592046819, 4423540059733667624, 11709122621694456035,
   414256167125440500, 14948580498352027130, 2841926095043713847, 8149890802695187093,
   3530235716080012324, 503183995311841632, 13093980304039592606, 3215121342298402956,
   2954733144825845776, 9765379503733392075, 1764022649455008698, 9468313644388777334,
   13145280144281519940, 9123803534265011477, 268889704165709419, 226813246034581294,
   242729779941054254, 4787372499997005744, 233281171619500603, 5478886021669819982,
   3583558524491986130, 4140544067568583147, 9021912139723114496, 7459199811186802404,
   8016326522818751218, 155336509909341998, 2247033539235606005, 275608783160252206,
   17078185129607280769, 11104085492641655435, 9000069962767339796, 2319936396512675979,
   3586144926564969586, 14207474874707046874, 4185832840476120394, 11420348521322845958,
   18411134450978094297, 2628493482624478373, 5959576117666024263, 10657149775721929752,
   4321853220558822157, 16331186084270311892, 1954076594940436108, 6224281534058503518,
   11750012115238075693, 186023087716755246, 12204410379488525092, 10579063477926214760,
   2895975400820711312, 8937932221246148677, 3848256859136710289, 1875902754995820913,
   17953075063261416844, 13712266187774668303, 7874859749812485038, 10907516271579473084,
   8948512583320928256, 15299675316875961994, 14323440150095339339, 8582389743210201088,
   15411542648154070951, 8927332074402060924, 17164749787023536197, 158055727756492829,
   17384124866849692475, 7248874176952522578, 1542446894101086959, 7326472833164124160,
   3992538220761980035, 3531854927545369753, 7117512635353707270, 12450515099399803639,
   14639032594627611172, 11305626365376926622, 16215972612695180279, 8947686744778604976,
   3453981596881522275, 5931072358282826339, 4794019898947128215, 16298671722601674539,
   4793281598934345461, 9631264479220832045, 13013595005257502128, 3023911825833279126,
   4793638324120439703, 9051532542841472176, 7578946866171808283, 223870200577955435,
   11893602944375416112, 11098459176599850732, 209506936616085294, 10389204152842521204,
   17758143135367865050, 4378211689809001913, 12741478894890401894, 223072061526177326,
   10648534193254957521, 4173503823718601256, 10758426966499165290, 6926387776099689160,
   2063190877887287061, 10995267743546056436, 2681184305956728393, 17368768695179076984,
   8370291029376980264, 2914390757960340020, 17857144241107790251, 2781698287243007978,
   2814591186999860227, 11785317737795121916, 14458007686615315070, 13630218836401098228,
   14461558490774990980, 279829153651428491, 2990275292446221430, 274781643402352430,
   283261420663903851, 16373210778524990913, 14484512701817559117, 4866169795290267504,
   3330692913535436702, 7929511227234686766, 11292520590595817066, 9740755545360478668,
   230609382254169182, 14094187138164014813, 9829800274318750656, 7357187286702035285,
   193729288334972718, 146793373915014958, 8215146262463250432, 246347516787525166,
   9085027085888520624, 9051270754807000215, 16857615017575516628, 223870956498642734,
   16924082547720924359, 10280424554549359405, 16304536558143302689, 9722507163015046701,
   11684244787814429436, 6308454403995046427, 186738560114333486, 7449780911457173989,
   10661094686848790966, 5560635535663174508, 11792911860066114911, 9000427362646818816,
   156649695697911198, 11736026269128285535, 4449092907978644332, 275807795629758254,
   10333092781264103591, 170672185881106222, 8989900294721638656, 10699635674058525220,
   11785225408572921583, 11245097628774083498, 8991578786276618417, 194274293014944926,
   298494242195845794, 8137075652562955733, 9732906623421164395, 6448919344701507991,
   11497348121431852083, 14521357414561975480, 7987099759917846543, 218051934407199003,
   16386283859620165163, 7964097028215628545, 7044861925096843504, 17832001407589753715,
   5566827956999453706, 7145071597832055395, 7896447582033177254, 7184842939637560625,
   15696175576929099198, 138599258875399779, 18332344897725763128, 4823491808859394593,
   16811531597226251132, 12609422126254044517, 10994794841648275676, 10598538166572805255,
   5342641092886644455, 823136191521384238, 10053173977010268437, 10814590459115329372,
   3947707190990052593, 10873801176395930476, 9998492060277866289, 2367636137921922104,
   8893881904329513570, 5407672312088935707, 5125591268931442212, 14721484072365184657,
   247743552941692718, 14957867577897021076, 307130503687003444, 4799909030807835849,
   11747624685782099689, 1864875643085686358, 10775594041774269276, 4501306848155610551,
   8392230296089292501, 745276657482751142, 59829170181884782, 15902900621327122865,
   4157134496754991, 11337105430061311338, 16242997588998513812, 17525497774217238374,
   8447061506747713864, 14855786285560853540, 274108438242591006, 568207692680073711,
   1999188109704621135, 8964855962443710720, 4854944338261359399, 13748945213912634295,
   4838337795671767959, 3428860983531525323, 7184109507549309238, 6239372606669830895,
   5301075313537642455, 10303803470297187117, 186117025738495790, 10360913230395980919,
   11207078993199486812, 3976301843217714408, 8940472849004822853, 9090556432817418455,
   281394762097596206, 7608678666889808654, 15868566097834848075, 12758223140998105319,
   14332934918980002283, 9631107318046955068, 8996480532493631488, 16862215600401440702,
   8955179390941987300, 5498627906223183547, 2312683930688959461, 55344262235409262,
   16169985617434558170, 11430332254780249977, 10478047871370764431, 7192686966531757832,
   9287597285946721813, 13323223401626265599, 1780751885647831133, 2348348206073619868,
   11382049437735125727, 10615225578106283993, 11330701627780764206, 1349548746633754956,
   13348443251392223231, 4822889248059352576, 16398794291612810293, 13274718615619874221,
   16286599932303686002, 16530768389220490698, 11004940308596025728, 9920298460052803559,
   12644834958707256368, 4899436329682385506, 11901500509239608563, 15807862363049547378,
   3987191626263165776, 5171999317978362127, 7600943925107978292, 7615756889347617137,
   4376358847658096289, 16910221773397102902, 17134668908189394831, 12649297325207995175,
   16700310458905625655, 18315569242401825251, 10299471023935586880, 15176529011518739132,
   3458069186117783947, 506439367765096387, 8031468106007055726, 4353173130002771385,
   6229797332934131533, 3399569979051650606, 15169146970176732762, 6048772876704720174,
   6352150281858130284, 15225718561318299083, 5991139409189452718, 14405391394744671269,
   15501857244192834789, 18153058319109121483, 14838408993364436427, 1243805818457429879,
   351454860272966977, 13383128032435042477, 7328911303687284896, 3660171327269055349,
   16120023480290347077, 10484847144831022632, 7600606103782423480, 7314855100944910486,
   3059358610484950440, 1304890168967772995, 6043114800287896922, 8001016406448777656,
   16703648599946348725, 3944252470538392761]
/-- The hashes of the blocks of `phrasesIndex` from block 2 on. The block of the root, number 1 in this list, has 1 in place of a hash. -/
def ih : List Nat :=
  [0, 1, 8551688538909203728, 7681286009375494491,
   16128054795886051412, 1360705769636095862, 2067063663642185460, 9436684099611280817,
   15730599446781841883, 13790836657585189584, 14459721371933538440, 17485817624895367240,
   17583802256566848178, 4420386311713792599, 11017922548120367595, 1966871053369476443,
   1972455133926282079, 6418340155892451716, 2532982854013236852, 17054297169446841483,
   7134592601375826085, 3715505893913697620, 1618104236994623447, 12897804887586440701,
   11507392270049381948]
/-- How many levels there are below the blocks of `phrasesIndex` from block 2 on. -/
def lv : List Nat :=
  [0, 0, 1, 1,
   1, 1, 1, 1,
   1, 1, 1, 1,
   1, 1, 1, 1,
   1, 1, 1, 1,
   1, 1, 2, 1,
   2]
end Uax29.Phrases.Hashes
