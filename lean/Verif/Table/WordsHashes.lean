/-!
GENERATED by tools/gen_hashes.py from words/trie.go. Do not edit.
The hashes of the blocks of the tables, checked in Verif/Proofs/ShippedWords.lean.
-/
set_option maxRecDepth 4000
namespace Uax29.Words.Hashes
/-- The hashes of the blocks of `wordsValues` from block 2 on. -/
def vh : List Nat :=
  [0, 1991803415595970180, 11246019347611980334, 226649422384830254,
   17824873981079213871, 17515368863665582821, 12172959912170091723, 3275421920705802027,
   171556196401977134, 8507703747371546719, 258175719288051246, 7496337455439244078,
   16398703013506194730, 6105604813985967106, 16351751473787980917, 3027515383353476580,
   16786513201408600157, 1906099433578175339, 16844650232407484111, 2215382218668091833,
   11324006297265010584, 17814884430370743056, 5997165954077506986, 3673011941663151693,
   818969905227309883, 13880394695697727456, 3941937405381323651, 8405273133591546128,
   9309729575811246767, 9277746163426559492, 17231424865821670861, 11171423395657798577,
   18134774106325318660, 8407935434566472608, 13596333388842696817, 4799218364646512475,
   1122592398127424139, 5257261340079740838, 90987191098398467, 11892414998053055877,
   12541726106705665566, 4270019319471914993, 15716079637093649785, 16071622916449891114,
   17001459139181737767, 8801259598409195975, 18423544922419584592, 8184414883529187783,
   10238308766618333160, 12326104267239025653, 16677029303790466411, 17780187905570968858,
   16470056758294943816, 9844277639059260096, 6774789794019640637, 6677910466649315434,
   2954733144825845776, 9765379503733392075, 1764022649455008698, 9468313644388777334,
   13145280144281519940, 8651032775892161813, 268889704165709419, 226813246034581294,
   242729779941054254, 4787372499997005744, 233279972149219899, 5478886021669819982,
   17756401691654488262, 16454074717230838269, 9151941804226383872, 5359984402302926280,
   15847910452421094550, 155336509909341998, 6091514349491658323, 275608783160252206,
   17234113351097544963, 97379178800928023, 8982402951353082408, 8840568445788016149,
   16637325749676857572, 13780062955622556597, 17385180530483178132, 1962791799352661873,
   7393302367723308176, 9803638326374432567, 5594041510405653810, 184078803646601727,
   10335170473823272766, 16331186084270311892, 10179889480762747321, 6224281534058503518,
   11750012115238075693, 186023087716755246, 12204410379488525092, 1209907395438016721,
   1626558447503205892, 8937932221246148677, 17268263815365766434, 12374115820108604314,
   17953075063261416844, 5318189481982725580, 6915433841514542940, 2005263486914087289,
   8948512583320928256, 12887343932641543136, 13322942763411455639, 7736968655543468032,
   11433276905315581775, 8260220131714479352, 16789509545624854667, 9298171476396507194,
   15558550143429555831, 5501403477953457828, 12656538332178253278, 5634856848425762816,
   16985889732730829062, 16676238639434041650, 12607620807119238306, 12450515099399803639,
   15972098084329277988, 11305626365376926622, 17788349456635988064, 8947686744778604976,
   108168638753149614, 9465358840861682780, 9448764111419027036, 10235772397401773283,
   8895096440357741899, 9499783649971088988, 813230906651044530, 18215471562287266162,
   16298671722601674539, 4793281598934345461, 13788042716295820585, 6654516408729705313,
   3137617045793231354, 18419504451298310514, 2769847678943750499, 7578946866171808283,
   223870200577955435, 14047883977956513421, 4862486588828209328, 71293926892889902,
   6117279152967506768, 17758143135367865050, 4378211689809001913, 16242294700144232379,
   223072061526177326, 11727921136413543320, 17631178328083335359, 8298780023578514198,
   13262386851826578387, 14460230184009535312, 14341151836155849803, 12780698328647073836,
   15705760539701377623, 7870267603624569424, 4923457966081332609, 17857144241107790251,
   2781698287243007978, 16617047286875454218, 11785317737795121916, 14458007686615315070,
   9508824014963290038, 18308826673254872792, 203577977276882993, 13670938893163959884,
   279829153651428491, 2990275292446221430, 274781643402352430, 283261420663903851,
   16373210778524990913, 14484512701817559117, 178603891997671136, 1919860146140703223,
   15711731383330903854, 10272385346249573799, 10170348338836873170, 139628711970980302,
   1367909439061180125, 9829800274318750656, 7357187286702035285, 193729288334972718,
   146793373915014958, 7020707198791581696, 246347516787525166, 8677451319720542640,
   9051270754807000215, 17645010738027760084, 223870956498642734, 16924082547720924359,
   16812477795231367312, 16304536558143302689, 9722507163015046701, 11684244787814429436,
   6308454403995046427, 186738560114333486, 7449780911457173989, 10661094686848790966,
   5560635535663174508, 11792911860066114911, 9000427362646818816, 156649695697911198,
   11736026269128285535, 4449092907978644332, 275807795629758254, 1555305879312378113,
   170672185881106222, 8989900294721638656, 10272770706311186089, 11785225408572921583,
   11245097628774083498, 8991578786276618417, 194274293014944926, 11317138962091771018,
   681851568268051129, 9732906623421164395, 15571413865917057023, 10803245225593750579,
   14521357414561975480, 2686829251714165609, 8273668406323377844, 16386283859620165163,
   11256030329992402962, 9670519820383381755, 15997617127273901628, 6983900488504026981,
   15490272557856259867, 7752480754575406555, 9578999842206263458, 15533731145626887720,
   14329407733460974122, 14498272596208327793, 4823491808859394593, 16696267502309943033,
   7613695513661084576, 6104258613150139773, 10607349912200670343, 13855877781769403163,
   1207589628051384110, 11406364748661525249, 6383014418840445184, 8336275855515918762,
   6372399360751074224, 10103474976627163569, 11532574449398439846, 16405018919906998722,
   1404387107531487798, 804231408569625672, 60812493050503896, 247743552941692718,
   12137070839750516009, 14979087400666458984, 3510665003715771355, 11747624685782099689,
   15770825616185399909, 985995856394224603, 8727061135303167187, 7813521227004311253,
   10503857058263906636, 9580176343581824732, 890802604727165293, 9562192307338573489,
   1053256775198230810, 3759962974245341896, 8937954809242740858, 13885405090265615086,
   12236515735132686233, 50329912371439518, 1780657654194767472, 12832908168124291230,
   8964855962443710720, 4854944338261359399, 13748945213912634295, 4838337795671767959,
   11210806867750708783, 13594853773101442095, 6239372606669830895, 1654307408021573550,
   16790820714691621008, 186117025738495790, 7696030637877212550, 4877496629259559168,
   12939922190210176886, 8940472849004822853, 18018679016622861669, 281394762097596206,
   7608678666889808654, 2268455813188812616, 2983304623341863975, 3082339778090524176,
   13563071642168022283, 9448611562770607708, 5006589407093023392, 11927543633408176115,
   5498627906223183547, 548567495535614050, 9575654052273559260, 17700299366473498037,
   588798647655444211, 1709593299266781471, 4812568304808504848, 3792850074677611563,
   13323223401626265599, 1780751885647831133, 2348348206073619868, 11382049437735125727,
   10615225578106283993, 11330701627780764206, 1349548746633754956, 13348443251392223231,
   4822889248059352576, 16398794291612810293, 5444882414608968701, 17393447884648182501,
   18426649984649444245, 295124102941561601, 9920298460052803559, 12271254428226858666,
   4899436329682385506, 9169204940222433767, 240692648076009518, 540306765533201661,
   5391441532277075831, 18065511915527286675, 18050136963396284118, 13688859467882570539,
   16405947247372433345, 17134668908189394831, 17911614963958981953, 2460647512171888491,
   18315569242401825251, 10299471023935586880, 15176529011518739132, 15749579605415863062,
   10044372799198523270, 6593748559560710876, 4353173130002771385, 481908006853655519,
   1989056020743561960, 7549643515092784379, 2485828408647436892, 3829201033982788312,
   10661019471040596887, 2531914804993029980, 13456410770853279819, 11180716108235409867,
   14029711992313727895, 12588560111555169175, 12101020030560382702, 10136350050957081218,
   5052590266154348891, 5620980519148736832, 16212295498502133482, 9944255725655232651,
   1615070270758317137, 6313833331972372336, 5651344540075626796, 15096273642226051920,
   11627587680861320838, 2508603713344613044, 6591040111879082864, 8967706996151156736,
   9414983583750631004, 9465443702806793820, 970399448106041375, 9005424643007315968,
   8939486930718351360, 17389709944205874089, 162348588523418926, 18083148556880941419,
   16722755414815123826]
/-- The hashes of the blocks of `wordsIndex` from block 2 on. The block of the root, number 1 in this list, has 1 in place of a hash. -/
def ih : List Nat :=
  [0, 1, 15493829823628018802, 127891479836570729,
   12540484429024137266, 10389787617356092317, 6891374391254466578, 4018446723507224192,
   697583739918512173, 9436684099611280817, 15730599446781841883, 10150320836508387424,
   17887415116643793874, 12301251727493312722, 17583802256566848178, 9208360847035826948,
   11017922548120367595, 16651263014358234704, 2303924703404904910, 18358779459587164770,
   17230961501432237045, 12931399293094027340, 2804633545054778980, 8669435246897846940,
   1986192805978370730, 17944598588375857324, 9417422182743885251, 114142934894442801,
   17328020925634729730, 14879036237955339163, 1186270542872859063, 1355407594402414863,
   4153476977725255026, 10441441208232900860]
/-- How many levels there are below the blocks of `wordsIndex` from block 2 on. -/
def lv : List Nat :=
  [0, 0, 1, 1,
   1, 1, 1, 1,
   1, 1, 1, 1,
   1, 1, 1, 1,
   1, 1, 1, 1,
   1, 1, 1, 1,
   1, 1, 1, 1,
   1, 1, 1, 2,
   1, 2]
end Uax29.Words.Hashes
