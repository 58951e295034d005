/-!
GENERATED by tools/gen_hashes.py from sentences/trie.go. Do not edit.
The hashes of the blocks of the tables, checked in Verif/Proofs/ShippedSentences.lean.
-/
set_option maxRecDepth 4000
namespace Uax29.Sentences.Hashes
/-- The hashes of the blocks of `sentencesValues` from block 2 on. -/
def vh : List Nat :=
  [0, 912538556691551513, 16415811524120066871, 7266311074541264530,
   8847123650033640644, 5997162119872658690, 17608847121782357936, 7577163609078766770,
   5214023557673861387, 10555447876616580070, 10801382966751326910, 16374194991483631986,
   11805469466305336470, 6512194103614988352, 11520021693487025070, 10750369387463637262,
   7544519603227399429, 8572975130042020356, 1551433454030906997, 12977611925648529435,
   17101675116796865582, 12446223047332930777, 11286105022316578500, 17132605416175621619,
   14855370456068166723, 4793638324120439703, 11752848849649856743, 13690950647131262876,
   2974973652340084064, 8224257426423085793, 16518392325354881576, 9112438764307720355,
   9862496643109007134, 738950431950916300, 17741392291678178632, 7715536784722806776,
   8549090428697210882, 17773162943495560014, 3055032045709545239, 16974789565775923201,
   16062337965908606134, 1871624834485201748, 212263683034618438, 263177987555344788,
   8843857740387313421, 1319497715209455791, 6263267621603511, 11262633699141709546,
   8303768117040144626, 3604949364653423210, 8010919881332672272, 8919317611584859448,
   3187253652099716367, 15770340148388332916, 8277119291486208470, 9941705054260513186,
   11306173701919250080, 10723028773832263289, 216684808043122220, 12568136751338877670,
   4472688119787365109, 1930495078073155909, 3530235716080012324, 426456316184923611,
   1855080874066276380, 14553130365538237973, 3646471804583655257, 14371773699573475522,
   9754007898675249755, 4072995299124299517, 1644698947849086279, 5359312423101668552,
   12419920958613063652, 18050907840530862821, 4793545007365999511, 10675009397242317714,
   6792435815031011974, 1786030718647696278, 11043996758024664212, 2377136207160448540,
   4858122139247680758, 7145849553752085107, 3185577247947559573, 4793921608497875863,
   9435371470597469918, 4793688971574066839, 17095586692139449729, 9657204468121629272,
   7493364926569040791, 6029777235307148202, 8440487438021995560, 16131368042997468616,
   15102140766850472511, 4185832840476120394, 4168071466866917178, 256859202316699228,
   16689202232868156602, 12956693364719876765, 7488512904870475522, 9908330894685135303,
   1034457021979133307, 14153604974129839520, 10661019471040596887, 7218726808641134226,
   11122092207538047890, 6020614495086939074, 15756317285446514825, 14616083930335836632,
   9716346672948177263, 782261042429581525, 5333199902719407771, 12160287442449071681,
   3848256859136710289, 18243745566415626719, 14731574783206859625, 14820873299741202448,
   11239087434609225309, 8991245448674975744, 15913715359223408044, 756155697177847486,
   6646254988971392934, 1917434437537920131, 14906561376011856582, 12273914737361192376,
   12354172473090586081, 4434559555337471122, 4693843565577118922, 13193765936782349587,
   4531964251075267848, 10935315235716383688, 13011231154633260092, 16872876358270428083,
   5757241841849854227, 4794019898947128215, 4978581038073667703, 16327744065638819302,
   9631264479220832045, 7538010119616969482, 3022076740926520982, 3949900274807769862,
   16928660164970669166, 5775700538239382390, 15874719314854537971, 17146602723869991590,
   15774778262848197584, 4693220760527514949, 15652983760335764829, 8089401948216058038,
   4793385566999494902, 8249413486840712895, 10015946485201447073, 14695009711729615431,
   9309887349137747748, 11119865409728115891, 2386840718996903296, 6614262438797275159,
   13369188148121228651, 11747602151868500565, 7623180683085678658, 608779466704608536,
   8604428040295027672, 1844938236583991958, 17169626460270257010, 3840986338201473714,
   15921922159189281687, 3303662775467820763, 12714890446970713131, 10925751903074107057,
   12391280227793580300, 4047669571091096164, 4706993509316807575, 3023788680530968214,
   14552943234960495677, 1917489745137530904, 7557366739346896325, 14902378278135301336,
   6451198488639556503, 11439013339556705740, 12010422109597846560, 4860768048757219559,
   14560626507977860414, 14424224657737240179, 915163569164772625, 4794075016262437783,
   4793870782125807079, 8215146262463250432, 4793556940127300486, 10083969752331497473,
   13531299288419280684, 16040972261197170953, 4793609878552027367, 14726656412576271148,
   11355226691125622743, 1958656583351496662, 10504475414979549007, 7997003265168908954,
   4671258489366098918, 2960298054071554536, 2933309592596876198, 4793607994819122422,
   4794045509707070359, 17992491153767916545, 15275389244880385985, 3289988141324475923,
   186584129019493213, 8996413462284420352, 13224649984843595581, 186784132144958301,
   4793688512015944599, 13365972166878048181, 17857615783352117886, 8996374677387546641,
   796266845017441525, 17840662581526390166, 11302142859795999403, 9829529572872680624,
   14345341874548812691, 17740044159208073111, 3903620853293092462, 7410317202900283531,
   12552465029521922798, 7363861946702729684, 6182619321566294852, 9578258834977158028,
   6131655992685251804, 597435082537857597, 4978217386518863990, 12973577655955091588,
   13465453732849675727, 8787898567536020066, 9510479522362208006, 612328847116996273,
   824746207992436346, 5597282313646326735, 3536529280667410739, 15476721618075956186,
   18307845996247486008, 6869294013295207381, 3419215898473021866, 947202313136652692,
   6248584716182082275, 11545379445474131436, 7065372709138339516, 5468106453875693031,
   10180007924426171103, 7959764370837680497, 5388063871665650931, 11200895392902233328,
   9968707197711043745, 244722745598306046, 609266335807802843, 13270755906795746882,
   11336795171498152119, 17826337097183779770, 5403863720683516034, 14352029930086167269,
   13444651922357037448, 4213487568092925947, 7616457862307176385, 17453223590496216806,
   6195157980387703651, 4329360310358378430, 11788192355798660056, 12493415581354805942,
   745276657482751142, 14323452825879174328, 3811114914840892394, 2273588072156931671,
   17793395034893127982, 16054058860224419018, 17048529888654984443, 5294839129487491254,
   6544106282987324050, 13163909761819019484, 13511953850929914729, 17561398717763873165,
   8996256919316332545, 5689780990007729339, 10163365971469242835, 13544132409299983547,
   11598707441601906477, 9496812136853021914, 10374472392510100337, 18401756531463289766,
   4794042944399461271, 2409946418171862920, 7198633519614390641, 14615775370742155656,
   1704994404764284161, 10829029676178505728, 9709037975606905751, 11638663197100647461,
   10331446487305864070, 6910354833954568094, 16261338393570124364, 10818161823229007860,
   4380114208240070858, 13224815510185583964, 9631107318046955068, 17758707883513412590,
   10731253248487541307, 4793609878552038295, 9707797742928952214, 15575614717045731125,
   14323470353640643768, 16169985617434558170, 11430332254780249977, 10507644181320169359,
   7192686966531757832, 9287597285946721813, 6144303720616716230, 160607952994194129,
   4435008507073674402, 11971183381766878719, 8332550810858250427, 2414427744037228066,
   8425246076457958758, 2661988108845969079, 6206369035640459269, 1829227299550053700,
   3899926280535515337, 15185875066449750626, 8950651907330623425, 4769853277558823836,
   10899467364991082517, 17914570455495333354, 16286599932303686002, 16530768389220490698,
   9704254613498496917, 636459889228518447, 9496826013887475669, 16514498122964965515,
   11901500509239608563, 6738663285641937264, 8410200682390709033, 5333940448437117843,
   3011504795293417969, 4808657785964819696, 509436684274299562, 13193469078705256033,
   12526906410672361255, 5314049365205846467, 9960890794236038039, 11781484895168975324,
   18197749122253483617, 1165208007287249922, 9383201774655962130, 4814225392044008887,
   2703361741109069720, 12453940898339976525, 8865973616841588736, 8996438407454502912,
   9631282135831320365, 8996498189104307056, 15386361882224999433, 4793704219203193751,
   6053572971331298563, 3944252470538392761]
/-- The hashes of the blocks of `sentencesIndex` from block 2 on. The block of the root, number 1 in this list, has 1 in place of a hash. -/
def ih : List Nat :=
  [0, 1, 5974952240753060933, 3631919826122966617,
   10578925256739728307, 8793067995452853248, 16880954898674081293, 13755252948449326574,
   1540897456607564679, 8885824563116754556, 13263180940828506164, 3075981359743088092,
   14407238298850844485, 8398248344004470644, 3631695224002011028, 17831516837952624779,
   13389773839863378087, 15961419411887256923, 1972455133926282079, 9931942774043906063,
   7794719012313786002, 4353992201728421992, 15673297545240407338, 11858995547117500492,
   11325699837503267412, 9245354219356251118, 12367320851677239683, 13173882228775264854,
   18066447589874225031, 11013200595147302432, 6464034820387435595, 2439369550707360934,
   4352110034869232022, 10396610158851678628]
/-- How many levels there are below the blocks of `sentencesIndex` from block 2 on. -/
def lv : List Nat :=
  [0, 0, 1, 1,
   1, 1, 1, 1,
   1, 1, 1, 1,
   1, 1, 1, 1,
   1, 1, 1, 1,
   1, 1, 1, 1,
   1, 1, 1, 1,
   1, 1, 1, 2,
   1, 2]
end Uax29.Sentences.Hashes
